import Verif.Lemmas.NativeAls
import Verif.Lemmas.ALS
import Verif.Lemmas.Csr
import Verif.Props.C49
/-!
# C80 — the native loops of ALS in memory
-/

set_option linter.unusedSectionVars false

namespace Implicit

open Spec

variable {R : Type} [LinearOrder R] [Field R] {f : Nat}

theorem ok_bind {α β : Type} (a : α) (k : α → Except Err β) : (Except.ok a >>= k) = k a := rfl

theorem mapM_total' {α β : Type} {g : α → Except Err β} {l : List α} (h : ∀ a ∈ l, ∃ b, g a = .ok b) : ∃ r, l.mapM g = .ok r := by
  induction l with
  | nil => exact ⟨[], rfl⟩
  | cons a l ih =>
    obtain ⟨b, hb⟩ := h a (by simp)
    obtain ⟨r, hr⟩ := ih fun a ha => h a (List.mem_cons_of_mem _ ha)
    exact ⟨b :: r, by rw [List.mapM_cons, hb, hr]; rfl⟩

/-! ## Conjugate gradient -/

theorem cgResidualMem_ok (M : SparseArrays R) {sy : Nat} {Yb : Buf R} {Y : List (Vec f R)} (hY : Laid sy Yb Y) {X : Buf R} {ox : Nat}
    {x : Vec f R}
    (hx : bufRead X ox f = .ok (List.ofFn x)) {is : List Nat} {row : List (Nat × R)} {es : List (Vec f R × R)}
    (hr : is.mapM (csrEntry M) = .ok row) (he : rowEntries .undefinedBehaviour Y row = .ok es) (v : Vec f R) :
    cgResidualMem f sy M Yb X ox is (vecBuf v) = .ok (vecBuf (es.foldl (fun r e =>
      if 0 < e.2 then axpy (e.2 - (e.2 - 1) * dot e.1 x) e.1 r
      else axpy (0 - (-e.2 - 1) * dot e.1 x) e.1 r) v)) := by
  induction is generalizing row es v with
  | nil =>
    cases hr
    cases he
    rfl
  | cons index is ih =>
    obtain ⟨⟨i, c⟩, row', h1, h2, rfl⟩ := mapM_cons_ok hr
    obtain ⟨y, es', hy, h3, rfl⟩ := rowEntries_cons he
    unfold cgResidualMem
    simp only [h1, ok_bind]
    rw [blasDot_ok (hY.read _ _ hy) hx]
    simp only [ok_bind]
    rw [blasAxpy_ok _ (hY.read _ _ hy) (bufRead_vec v), bufWrite_vec (vecBuf_length v)]
    simp only [ok_bind]
    rw [ih h2 h3, List.foldl_cons]
    split <;> simp only [neg_mul, one_mul]

theorem cgApplyMem_ok (M : SparseArrays R) {sy : Nat} {Yb : Buf R} {Y : List (Vec f R)} (hY : Laid sy Yb Y) (p : Vec f R) {is : List Nat} {row : List (Nat × R)}
    {es : List (Vec f R × R)} (hr : is.mapM (csrEntry M) = .ok row) (he : rowEntries .undefinedBehaviour Y row = .ok es)
    (v : Vec f R) :
    cgApplyMem f sy M Yb (vecBuf p) is (vecBuf v) = .ok (vecBuf (es.foldl (fun v e =>
      axpy (((if e.2 < 0 then -e.2 else e.2) - 1) * dot e.1 p) e.1 v) v)) := by
  induction is generalizing row es v with
  | nil =>
    cases hr
    cases he
    rfl
  | cons index is ih =>
    obtain ⟨⟨i, c⟩, row', h1, h2, rfl⟩ := mapM_cons_ok hr
    obtain ⟨y, es', hy, h3, rfl⟩ := rowEntries_cons he
    unfold cgApplyMem
    simp only [h1, ok_bind]
    rw [blasDot_ok (hY.read _ _ hy) (bufRead_vec p)]
    simp only [ok_bind]
    rw [blasAxpy_ok _ (hY.read _ _ hy) (bufRead_vec v), bufWrite_vec (vecBuf_length v)]
    simp only [ok_bind]
    rw [ih h2 h3, List.foldl_cons]
    simp only [neg_mul, one_mul]

/-- The buffers of a thread have the size of `malloc`; their contents can be anything. -/
def CgBufs.Sized (f : Nat) (t : CgBufs R) : Prop := t.p.length = f ∧ t.r.length = f ∧ t.ap.length = f

theorem cgLoopMem_ok (tol : R) {G : Mat f R} (hG : ∀ a b, G a b = G b a) (M : SparseArrays R) {sx sy : Nat} {Yb : Buf R}
    {Y : List (Vec f R)} (hY : Laid sy Yb Y) {u m : Nat} (hm : u < m)
    {is : List Nat} {row : List (Nat × R)} {es : List (Vec f R × R)} (hr : is.mapM (csrEntry M) = .ok row)
    (he : rowEntries .undefinedBehaviour Y row = .ok es) (n : Nat) (s : CG f R) {Xb : Buf R} {X : List (Vec f R)} (hX : Laid sx Xb X)
    (hu : X[u]? = some s.x) (ap : Buf R) (hap : ap.length = f) :
    ∃ Xb' t, cgLoopMem tol f sy (matBuf G) M Yb (u * sx) is n s.rsold Xb ⟨vecBuf s.p, vecBuf s.r, ap⟩ = .ok (Xb', t) ∧
      Laid sx Xb' (X.set u (cgLoop (cgApply G es) tol n s)) ∧ Kept f m sx Xb Xb' ∧ t.Sized f := by
  induction n generalizing s X Xb ap with
  | zero =>
    refine ⟨Xb, ⟨vecBuf s.p, vecBuf s.r, ap⟩, rfl, ?_, Kept.refl m sx Xb, vecBuf_length _, vecBuf_length _, hap⟩
    unfold cgLoop
    obtain ⟨hi, hx⟩ := List.getElem?_eq_some_iff.mp hu
    rw [← hx, List.set_getElem_self]
    exact hX
  | succ n ih =>
    unfold cgLoopMem
    have h1 := blasSymv_ok hG 1 (bufRead_vec s.p) hap
    simp only [h1, ok_bind]
    have h2 := cgApplyMem_ok M hY s.p hr he (fun a => 1 * mulVec G s.p a)
    have hA : es.foldl (fun v e => axpy (((if e.2 < 0 then -e.2 else e.2) - 1) * dot e.1 s.p) e.1 v)
        (fun a => 1 * mulVec G s.p a) = cgApply G es s.p := by
      unfold cgApply
      congr 1
      funext a
      rw [one_mul]
    rw [hA] at h2
    simp only [h2, ok_bind]
    rw [blasDot_ok (bufRead_vec s.p) (bufRead_vec _)]
    simp only [ok_bind]
    obtain ⟨hi, hx⟩ := List.getElem?_eq_some_iff.mp hu
    obtain ⟨Xb1, hw, hX1, hk1⟩ := bufWrite_row hX hi hm (axpy (s.rsold / dot s.p (cgApply G es s.p)) s.p s.x)
    rw [blasAxpy_ok _ (bufRead_vec s.p) (hX.read _ _ hu), hw]
    simp only [ok_bind]
    rw [blasAxpy_ok _ (bufRead_vec _) (bufRead_vec s.r), bufWrite_vec (vecBuf_length _)]
    simp only [ok_bind]
    rw [blasDot_ok (bufRead_vec _) (bufRead_vec _)]
    simp only [ok_bind]
    unfold cgLoop
    simp only
    have hs : dot (axpy (s.rsold / dot s.p (cgApply G es s.p) * -1) (cgApply G es s.p) s.r)
        (axpy (s.rsold / dot s.p (cgApply G es s.p) * -1) (cgApply G es s.p) s.r) = (cgStep (cgApply G es) s).rsold := rfl
    rw [hs]
    split
    · exact ⟨Xb1, _, rfl, hX1, hk1, vecBuf_length _, vecBuf_length _, vecBuf_length _⟩
    · rw [blasScal_ok _ (bufRead_vec s.p), bufWrite_vec (vecBuf_length _)]
      simp only [ok_bind]
      rw [blasAxpy_ok _ (bufRead_vec _) (bufRead_vec _), bufWrite_vec (vecBuf_length _)]
      simp only [ok_bind]
      obtain ⟨Xb', t, e, hl, hk, ht⟩ := ih (cgStep (cgApply G es) s) (X := X.set u (cgStep (cgApply G es) s).x) hX1
        (by rw [List.getElem?_set_self hi]) (vecBuf (cgApply G es s.p)) (vecBuf_length _)
      rw [List.set_set] at hl
      exact ⟨Xb', t, e, hl, hk1.trans hk, ht⟩

theorem cgRowMem_ok (tol : R) (steps : Nat) {G : Mat f R} (hG : ∀ a b, G a b = G b a) {M : SparseArrays R} {C : SpRows R}
    (hM : Represents M C) {sx sy : Nat} {Xb Yb : Buf R} {X Y : List (Vec f R)} (hX : Laid sx Xb X) (hY : Laid sy Yb Y) {u m : Nat}
    (hm : u < m) {row : List (Nat × R)} (hrow : C[u]? = some row) {x x' : Vec f R}
    (hx : X[u]? = some x) (h : cgRow G tol steps Y row x = .ok x') (t : CgBufs R) (ht : t.Sized f) :
    ∃ Xb' t', cgRowMem tol steps f sx sy (matBuf G) M Yb u Xb t = .ok (Xb', t') ∧ Laid sx Xb' (X.set u x') ∧ Kept f m sx Xb Xb' ∧
      t'.Sized f := by
  obtain ⟨a, b, ha, hb, hab, hr⟩ := represents_row hM hrow
  obtain ⟨hi, hxi⟩ := List.getElem?_eq_some_iff.mp hx
  unfold cgRowMem
  rw [ha, hb]
  simp only
  unfold cgRowMem'
  unfold cgRow at h
  by_cases he : row = []
  · rw [if_pos (hab.mpr he)]
    subst he
    simp only [List.isEmpty_nil, if_true, Except.ok.injEq] at h
    subst h
    unfold memZero
    have : List.replicate f (0 : R) = List.ofFn fun _ : Fin f => (0 : R) := by simp [List.ofFn_const]
    obtain ⟨Xb', hw, hl, hk⟩ := bufWrite_row hX hi hm fun _ : Fin f => (0 : R)
    rw [this, hw]
    exact ⟨Xb', t, rfl, hl, hk, ht⟩
  · rw [if_neg fun hh => he (hab.mp hh)]
    rw [if_neg (by simpa using he)] at h
    cases hes : rowEntries Err.undefinedBehaviour Y row with
    | error e => rw [hes] at h; simp [bind, Except.bind] at h
    | ok es =>
      rw [hes] at h
      simp only [bind, Except.bind, pure, Except.pure, Except.ok.injEq] at h
      simp only
      rw [blasSymv_ok hG (-1) (hX.read _ _ hx) ht.2.1, ok_bind, cgResidualMem_ok M hY (hX.read _ _ hx) hr hes, ok_bind]
      have hres : es.foldl (fun r e =>
          if 0 < e.2 then axpy (e.2 - (e.2 - 1) * dot e.1 x) e.1 r
          else axpy (0 - (-e.2 - 1) * dot e.1 x) e.1 r) (fun a => -1 * mulVec G x a) = cgResidual G es x := rfl
      rw [hres]
      unfold memCopy
      rw [bufRead_vec, ok_bind, bufWrite_vec ht.1, ok_bind, blasDot_ok (bufRead_vec _) (bufRead_vec _), ok_bind]
      unfold cgSolve at h
      simp only at h
      split
      · next hlt =>
        rw [if_pos hlt] at h
        subst h
        refine ⟨Xb, ⟨vecBuf (cgResidual G es x), vecBuf (cgResidual G es x), t.ap⟩, rfl, ?_, Kept.refl m sx Xb, vecBuf_length _,
          vecBuf_length _, ht.2.2⟩
        rw [← hxi, List.set_getElem_self]
        exact hX
      · next hge =>
        rw [if_neg hge] at h
        subst h
        exact cgLoopMem_ok tol hG M hY hm hr hes steps ⟨x, cgResidual G es x, cgResidual G es x, dot (cgResidual G es x) (cgResidual G es x)⟩
          hX hx t.ap ht.2.2

/-! ## Rows done by threads -/

/-- A loop over rows that threads with buffers do one after the other. -/
def rowsLoop {T : Type} (step : Nat → Buf R → T → Except Err (Buf R × T)) :
    List (Nat × Nat) → Buf R → (Nat → T) → Except Err (Buf R × (Nat → T))
  | [], X, bufs => .ok (X, bufs)
  | (th, u) :: order, X, bufs => do
    let s ← step u X (bufs th)
    rowsLoop step order s.1 (Function.update bufs th s.2)

/-- What one row does in memory. -/
def RowOk {T : Type} (step : Nat → Buf R → T → Except Err (Buf R × T)) (sized : T → Prop)
    (g : Nat → Vec f R → Except Err (Vec f R)) (n s : Nat) : Prop :=
  ∀ (Xb : Buf R) (X : List (Vec f R)) (u : Nat) (x x' : Vec f R) (t : T), X.length = n → Laid s Xb X → sized t → X[u]? = some x →
    g u x = .ok x' → ∃ Xb' t', step u Xb t = .ok (Xb', t') ∧ Laid s Xb' (X.set u x') ∧ Kept f n s Xb Xb' ∧ sized t'

/-- Rows done by any threads in any order, each at most once. -/
theorem rowsLoop_ok {T : Type} {step : Nat → Buf R → T → Except Err (Buf R × T)} {sized : T → Prop}
    {g : Nat → Vec f R → Except Err (Vec f R)} {n s : Nat} (hok : RowOk step sized g n s)
    (order : List (Nat × Nat)) (hd : (order.map Prod.snd).Nodup) (Xb : Buf R) (X : List (Vec f R)) (hX : Laid s Xb X) (hn : X.length = n)
    (hlt : ∀ o ∈ order, o.2 < n)
    (hg : ∀ (u : Nat) x, X[u]? = some x → u ∈ order.map Prod.snd → ∃ x', g u x = .ok x')
    (bufs : Nat → T) (hb : ∀ th, sized (bufs th)) :
    ∃ Zb Z bufs', rowsLoop step order Xb bufs = .ok (Zb, bufs') ∧ Laid s Zb Z ∧ Kept f n s Xb Zb ∧ (∀ th, sized (bufs' th)) ∧
      Z.length = n ∧
      ∀ u : Nat, Z[u]? = if u ∈ order.map Prod.snd then X[u]?.bind fun x => (g u x).toOption else X[u]? := by
  induction order generalizing Xb X bufs with
  | nil => exact ⟨Xb, X, bufs, rfl, hX, Kept.refl n s Xb, hb, hn, fun u => by simp⟩
  | cons o order ih =>
    obtain ⟨th, v⟩ := o
    have hv : v < X.length := hn ▸ hlt (th, v) (by simp)
    have hxv : X[v]? = some X[v] := List.getElem?_eq_getElem hv
    obtain ⟨x', hx'⟩ := hg v _ hxv (by simp)
    obtain ⟨Xb1, t', e, hX1, hk1, ht'⟩ := hok Xb X v _ x' (bufs th) hn hX (hb th) hxv hx'
    rw [List.map_cons, List.nodup_cons] at hd
    have hnv : ∀ u, u ∈ order.map Prod.snd → v ≠ u := fun u hu huv => hd.1 (huv ▸ hu)
    obtain ⟨Zb, Z, bufs', e', hZ, hk, hs, hl, hz⟩ := ih hd.2 Xb1 (X.set v x') hX1 (by simpa using hn)
      (fun o ho => hlt o (List.mem_cons_of_mem _ ho))
      (fun u x hx hu => by
        rw [List.getElem?_set_ne (hnv u hu)] at hx
        exact hg u x hx (List.mem_cons_of_mem _ hu))
      (Function.update bufs th t') (fun th' => by
        by_cases h : th' = th
        · subst h; rw [Function.update_self]; exact ht'
        · rw [Function.update_of_ne h]; exact hb th')
    refine ⟨Zb, Z, bufs', ?_, hZ, hk1.trans hk, hs, hl, fun u => ?_⟩
    · unfold rowsLoop
      rw [e]
      exact e'
    · rw [hz u]
      by_cases hu : u ∈ order.map Prod.snd
      · rw [if_pos hu, List.map_cons, if_pos (List.mem_cons_of_mem _ hu), List.getElem?_set_ne (hnv u hu)]
      · rw [if_neg hu]
        by_cases huv : v = u
        · subst huv
          rw [List.getElem?_set_self hv, if_pos (by simp), hxv]
          simp [hx', Except.toOption]
        · rw [List.getElem?_set_ne huv, if_neg]
          simp only [List.map_cons, List.mem_cons, not_or]
          exact ⟨fun h => huv h.symm, hu⟩

/-- If every error of a row is `err` and a row of the loop fails, the loop fails. -/
theorem rowsLoop_error {T : Type} {step : Nat → Buf R → T → Except Err (Buf R × T)} {sized : T → Prop}
    {g : Nat → Vec f R → Except Err (Vec f R)} {n s : Nat} (err : Err) (hok : RowOk step sized g n s)
    (herr : ∀ (Xb : Buf R) (X : List (Vec f R)) u x e t, X.length = n → Laid s Xb X → sized t → X[u]? = some x → g u x = .error e →
      step u Xb t = .error err)
    (order : List (Nat × Nat)) (hd : (order.map Prod.snd).Nodup) (Xb : Buf R) (X : List (Vec f R)) (hX : Laid s Xb X) (hn : X.length = n)
    (hlt : ∀ o ∈ order, o.2 < n)
    (hg : ∃ (u : Nat) (x : Vec f R) (e : Err), X[u]? = some x ∧ u ∈ order.map Prod.snd ∧ g u x = .error e)
    (bufs : Nat → T) (hb : ∀ th, sized (bufs th)) : rowsLoop step order Xb bufs = .error err := by
  induction order generalizing Xb X bufs with
  | nil => obtain ⟨u, x, e, _, hu, _⟩ := hg; cases hu
  | cons o order ih =>
    obtain ⟨th, v⟩ := o
    have hv : v < X.length := hn ▸ hlt (th, v) (by simp)
    have hxv : X[v]? = some X[v] := List.getElem?_eq_getElem hv
    rw [List.map_cons, List.nodup_cons] at hd
    unfold rowsLoop
    cases hgv : g v X[v] with
    | error e => rw [herr Xb X v _ e (bufs th) hn hX (hb th) hxv hgv]; rfl
    | ok x' =>
      obtain ⟨Xb1, t', e, hX1, _, ht'⟩ := hok Xb X v _ x' (bufs th) hn hX (hb th) hxv hgv
      rw [e]
      obtain ⟨u, x, e', hx, hu, hgu⟩ := hg
      have huv : v ≠ u := by
        rintro rfl
        rw [hxv] at hx
        cases hx
        rw [hgv] at hgu
        cases hgu
      have hu' : u ∈ order.map Prod.snd := by
        rw [List.map_cons, List.mem_cons] at hu
        exact hu.resolve_left fun h => huv h.symm
      exact ih hd.2 Xb1 (X.set v x') hX1 (by simpa using hn) (fun o ho => hlt o (List.mem_cons_of_mem _ ho))
        ⟨u, x, e', by rw [List.getElem?_set_ne huv]; exact hx, hu', hgu⟩
        (Function.update bufs th t') (fun th' => by
          by_cases h : th' = th
          · subst h; rw [Function.update_self]; exact ht'
          · rw [Function.update_of_ne h]; exact hb th')

theorem cgLoopRows_eq (tol : R) (steps N sx sy : Nat) (G : Buf R) (M : SparseArrays R) (Y : Buf R) (order : List (Nat × Nat)) (X : Buf R)
    (bufs : Nat → CgBufs R) :
    cgLoopRows tol steps N sx sy G M Y order X bufs = rowsLoop (cgRowMem tol steps N sx sy G M Y) order X bufs := by
  induction order generalizing X bufs with
  | nil => rfl
  | cons o order ih =>
    unfold cgLoopRows rowsLoop
    simp only [ih]

theorem lsLoopRows_eq (N sx sy cy : Nat) (S : Solver N R) (junk : List R → List R) (G zero : Buf R) (M : SparseArrays R) (Y : Buf R)
    (order : List (Nat × Nat)) (X : Buf R) (bufs : Nat → LsBufs R) :
    lsLoopRows N sx sy cy S junk G zero M Y order X bufs = rowsLoop (lsRowMem N sx sy cy S junk G zero M Y) order X bufs := by
  induction order generalizing X bufs with
  | nil => rfl
  | cons o order ih =>
    unfold lsLoopRows rowsLoop
    simp only [ih]

theorem regularised_symm (Y : List (Vec f R)) (reg : R) (a b : Fin f) :
    regularised (gram Y) reg a b = regularised (gram Y) reg b a := by
  unfold regularised
  rw [gram_symm Y a b]
  by_cases h : a = b
  · subst h; rfl
  · rw [if_neg h, if_neg fun h' => h h'.symm]

/-- A division of the rows among threads: every row is done once. -/
def Spec.Covers (n : Nat) (order : List (Nat × Nat)) : Prop := (order.map Prod.snd).Perm (List.range n)

theorem Spec.Covers.nodup {n : Nat} {order : List (Nat × Nat)} (h : Covers n order) : (order.map Prod.snd).Nodup :=
  h.nodup_iff.mpr List.nodup_range

theorem Spec.Covers.mem {n : Nat} {order : List (Nat × Nat)} (h : Covers n order) (u : Nat) : u ∈ order.map Prod.snd ↔ u < n := by
  rw [List.Perm.mem_iff h, List.mem_range]

theorem Spec.Covers.lt {n : Nat} {order : List (Nat × Nat)} (h : Covers n order) : ∀ o ∈ order, o.2 < n := fun _ ho =>
  (h.mem _).mp (List.mem_map_of_mem ho)

/-- A row with columns in range has its entries. -/
theorem row_entries {M : SparseArrays R} {C : SpRows R} (hM : Represents M C) {Y : List (Vec f R)} (hY : M.cols ≤ Y.length) {u : Nat}
    {row : List (Nat × R)} (hu : C[u]? = some row) : ∃ es, rowEntries .undefinedBehaviour Y row = .ok es :=
  ⟨_, rowEntries_eq fun e he => lt_of_lt_of_le (hM.columns row (List.mem_of_getElem? hu) e he) hY⟩

/-- The conjugate gradient solver in memory, whatever the threads, the order of the rows and the contents of the buffers. -/
theorem C80_cg (tol : R) (steps : Nat) {M : SparseArrays R} {C : SpRows R} (hM : Represents M C) {sx sy : Nat}
    {Xb Yb : Buf R} {X Y : List (Vec f R)} (hXb : Laid sx Xb X) (hYb : Laid sy Yb Y) (reg : R) (hX : X.length ≤ M.rows)
    (hY : M.cols ≤ Y.length) (order : List (Nat × Nat)) (ho : Covers X.length order)
    (bufs : Nat → CgBufs R) (hb : ∀ th, (bufs th).Sized f) :
    ∃ X' Xb' bufs', leastSquaresCG tol steps C X Y reg = .ok X' ∧
      cgLoopRows tol steps f sx sy (matBuf (regularised (gram Y) reg)) M Yb order Xb bufs = .ok (Xb', bufs') ∧
      Laid sx Xb' X' ∧ Kept f X.length sx Xb Xb' := by
  have hrows := hM.rows
  have hrow : ∀ (u : Nat) (x : Vec f R), X[u]? = some x → ∃ row x', C[u]? = some row ∧
      cgRow (regularised (gram Y) reg) tol steps Y row x = .ok x' := by
    intro u x hu
    have hlt := (List.getElem?_eq_some_iff.mp hu).1
    have hC : C[u]? = some (C[u]'(by omega)) := List.getElem?_eq_getElem (by omega)
    obtain ⟨es, hes⟩ := row_entries hM hY hC
    unfold cgRow
    by_cases he : (C[u]'(by omega)).isEmpty = true
    · exact ⟨_, _, hC, by rw [if_pos he]⟩
    · exact ⟨_, _, hC, by rw [if_neg he, hes]; rfl⟩
  obtain ⟨X', hX'⟩ : ∃ X', leastSquaresCG tol steps C X Y reg = .ok X' := by
    refine mapM_total' fun xu hxu => ?_
    obtain ⟨row, x', hr, hx'⟩ := hrow xu.2 xu.1 (List.mem_zipIdx_iff_getElem?.mp hxu)
    exact ⟨x', by rw [hr]; exact hx'⟩
  obtain ⟨hlen, hval⟩ := mapM_ok_iff hX'
  obtain ⟨Zb, Z, bufs', e, hZ, hk, _, hl, hz⟩ := rowsLoop_ok (n := X.length) (s := sx) (sized := CgBufs.Sized f)
    (step := cgRowMem tol steps f sx sy (matBuf (regularised (gram Y) reg)) M Yb)
    (g := fun u x => match C[u]? with
      | none => .error .undefinedBehaviour
      | some row => cgRow (regularised (gram Y) reg) tol steps Y row x)
    (fun Vb V u x x' t hVn hV ht hx hg => by
      cases hC : C[u]? with
      | none => simp only [hC] at hg; cases hg
      | some row =>
        simp only [hC] at hg
        exact cgRowMem_ok tol steps (regularised_symm Y reg) hM hV hYb (by rw [← hVn]; exact (List.getElem?_eq_some_iff.mp hx).1) hC hx hg t ht)
    order ho.nodup Xb X hXb rfl ho.lt
    (fun u x hx _ => by
      obtain ⟨row, x', hr, hx'⟩ := hrow u x hx
      exact ⟨x', by simp only [hr]; exact hx'⟩)
    bufs hb
  refine ⟨X', Zb, bufs', hX', by rw [cgLoopRows_eq, e], ?_, hk⟩
  have : Z = X' := by
    apply List.ext_getElem?
    intro u
    rw [hz u]
    by_cases hu : u < X.length
    · rw [if_pos ((ho.mem u).mpr hu)]
      have hx : X[u]? = some X[u] := List.getElem?_eq_getElem hu
      obtain ⟨y, hy, hy'⟩ := hval u (X[u], u) (by simp [hx])
      rw [hx, Option.bind_some]
      exact (congrArg Except.toOption hy).trans hy'.symm
    · rw [if_neg fun h => hu ((ho.mem u).mp h), List.getElem?_eq_none (by omega), List.getElem?_eq_none (by simp at hlen; omega)]
  rw [← this]
  exact hZ

/-! ## Cholesky -/

theorem ofFn_set (W : Mat f R) (j : Fin f) (w : Vec f R) : (List.ofFn W).set j w = List.ofFn (Function.update W j w) := by
  apply List.ext_getElem
  · simp
  · intro i h1 h2
    rw [List.getElem_set, List.getElem_ofFn, List.getElem_ofFn]
    by_cases h : (j : Nat) = i
    · rw [if_pos h]
      subst h
      rw [Function.update_self]
    · rw [if_neg h, Function.update_of_ne]
      intro h'
      exact h (by rw [← h'])

theorem lsOuterMem_ok (c : R) {sy : Nat} {Yb : Buf R} {Y : List (Vec f R)} (hY : Laid sy Yb Y) {i : Nat} {y : Vec f R} (hy : Y[i]? = some y) (js : List Nat) (hd : js.Nodup)
    (hlt : ∀ j ∈ js, j < f) (W : Mat f R) :
    lsOuterMem f 1 c Yb (i * sy) js (matBuf W) =
      .ok (matBuf fun a => if (a : Nat) ∈ js then axpy ((c - 1) * y a) y (W a) else W a) := by
  induction js generalizing W with
  | nil => simp [lsOuterMem]
  | cons j js ih =>
    have hj := hlt j (by simp)
    rw [List.nodup_cons] at hd
    unfold lsOuterMem
    rw [Nat.mul_one, bufRead_cell hY hy ⟨j, hj⟩, ok_bind]
    have hW : (List.ofFn W)[j]? = some (W ⟨j, hj⟩) := by simp [hj]
    simp only [List.headD_cons]
    unfold matBuf
    rw [blasAxpy_ok _ (hY.read _ _ hy) (bufRead_flat hW), bufWrite_flat (by simpa using hj), ok_bind]
    rw [ofFn_set W ⟨j, hj⟩]
    have := ih hd.2 (fun j' h => hlt j' (List.mem_cons_of_mem _ h)) (Function.update W ⟨j, hj⟩ (axpy ((c - 1) * y ⟨j, hj⟩) y (W ⟨j, hj⟩)))
    unfold matBuf at this
    rw [this]
    congr 3
    funext a
    by_cases ha : a = ⟨j, hj⟩
    · subst ha
      rw [Function.update_self, if_neg hd.1, if_pos (by simp)]
    · rw [Function.update_of_ne ha]
      have : (a : Nat) ≠ j := fun h => ha (Fin.ext h)
      simp [this]

theorem lsBuildMem_ok (M : SparseArrays R) {sy : Nat} {Yb : Buf R} {Y : List (Vec f R)} (hY : Laid sy Yb Y) {is : List Nat} {row : List (Nat × R)} {es : List (Vec f R × R)}
    (hr : is.mapM (csrEntry M) = .ok row) (he : rowEntries .undefinedBehaviour Y row = .ok es) (s : Mat f R × Vec f R) :
    lsBuildMem f sy 1 M Yb is ⟨matBuf s.1, vecBuf s.2⟩ =
      .ok ⟨matBuf (es.foldl accumulate s).1, vecBuf (es.foldl accumulate s).2⟩ := by
  induction is generalizing row es s with
  | nil =>
    cases hr
    cases he
    rfl
  | cons index is ih =>
    obtain ⟨⟨i, c⟩, row', h1, h2, rfl⟩ := mapM_cons_ok hr
    obtain ⟨y, es', hy, h3, rfl⟩ := rowEntries_cons he
    unfold lsBuildMem
    simp only [h1, ok_bind]
    have houter : ∀ c' : R, lsOuterMem f 1 c' Yb (i * sy) (List.range f) (matBuf s.1) =
        .ok (matBuf fun a b => s.1 a b + (c' - 1) * y a * y b) := by
      intro c'
      rw [lsOuterMem_ok c' hY hy (List.range f) List.nodup_range (fun j hj => List.mem_range.mp hj)]
      congr 2
      funext a
      rw [if_pos (by simp)]
      rfl
    split
    · next hc =>
      rw [blasAxpy_ok _ (hY.read _ _ hy) (bufRead_vec _), bufWrite_vec (vecBuf_length _), ok_bind, houter, ok_bind]
      have := ih h2 h3 (accumulate s (y, c))
      unfold accumulate at this
      rw [if_pos hc] at this
      rw [List.foldl_cons]
      unfold accumulate
      rw [if_pos hc]
      exact this
    · next hc =>
      rw [houter, ok_bind]
      have := ih h2 h3 (accumulate s (y, c))
      unfold accumulate at this
      rw [if_neg hc] at this
      rw [List.foldl_cons]
      unfold accumulate
      rw [if_neg hc]
      simp only [neg_mul, one_mul]
      exact this

/-- The buffers of a thread have the size of `malloc`; their contents can be anything. -/
def LsBufs.Sized (f : Nat) (t : LsBufs R) : Prop := t.A.length = f * f ∧ t.b.length = f

theorem lapackPosv_ok (S : Solver f R) {junk : List R → List R} (hj : ∀ l, (junk l).length = l.length) {A : Mat f R}
    (hA : ∀ a b, A a b = A b a) (b : Vec f R) :
    ∃ A', A'.length = f * f ∧ match S.solve A b with
      | some x => lapackPosv f S junk (matBuf A) (vecBuf b) = .ok (A', vecBuf x, true)
      | none => ∃ b', lapackPosv f S junk (matBuf A) (vecBuf b) = .ok (A', b', false) := by
  unfold lapackPosv
  rw [bufRead_mat, ok_bind, bufRead_vec, ok_bind]
  have hw : bufWrite (matBuf A) 0 (junk (flatValues (List.ofFn A))) = .ok ((junk (flatValues (List.ofFn A))).map some) :=
    bufWrite_new (by rw [matBuf_length, hj, flatValues_length]; simp)
  rw [hw, ok_bind]
  have hU : (fun i j : Fin f => upper f (flatValues (List.ofFn A)) i j) = A := by
    funext i j
    exact upper_flat hA i j
  have hB : (fun i : Fin f => (List.ofFn b).getD (i : Nat) 0) = b := by
    funext i
    simp
  rw [hU, hB]
  refine ⟨(junk (flatValues (List.ofFn A))).map some, by rw [List.length_map, hj, flatValues_length]; simp, ?_⟩
  cases S.solve A b with
  | some x =>
    simp only
    rw [bufWrite_vec (vecBuf_length _)]
    rfl
  | none =>
    simp only
    rw [bufWrite_new (by rw [vecBuf_length, hj]; simp)]
    exact ⟨_, rfl⟩

theorem lsRowMem_ok (S : Solver f R) {junk : List R → List R} (hj : ∀ l, (junk l).length = l.length) {G : Mat f R}
    (hG : ∀ a b, G a b = G b a) {M : SparseArrays R} {C : SpRows R} (hM : Represents M C) {sx sy : Nat} {Xb Yb : Buf R}
    {X Y : List (Vec f R)} (hX : Laid sx Xb X) (hY : Laid sy Yb Y) (reg : R) {u m : Nat} (hm : u < m)
    {row : List (Nat × R)} (hrow : C[u]? = some row) (hu : u < X.length) (t : LsBufs R) (ht : t.Sized f)
    {es : List (Vec f R × R)} (hes : rowEntries .undefinedBehaviour Y row = .ok es) :
    match leastSquaresRow S G Y reg row with
    | .ok x' => ∃ Xb' t', lsRowMem f sx sy 1 S junk (matBuf (regularised G reg)) (vecBuf fun _ : Fin f => (0 : R)) M Yb u Xb t =
        .ok (Xb', t') ∧ Laid sx Xb' (X.set u x') ∧ Kept f m sx Xb Xb' ∧ t'.Sized f
    | .error _ => lsRowMem f sx sy 1 S junk (matBuf (regularised G reg)) (vecBuf fun _ : Fin f => (0 : R)) M Yb u Xb t =
        .error .valueError := by
  obtain ⟨a, b, ha, hb, hab, hr⟩ := represents_row hM hrow
  unfold lsRowMem
  rw [ha, hb]
  simp only
  unfold lsRowMem' leastSquaresRow
  by_cases he : row = []
  · rw [if_pos (hab.mpr he)]
    subst he
    simp only [List.isEmpty_nil, if_true]
    unfold memZero
    have : List.replicate f (0 : R) = List.ofFn fun _ : Fin f => (0 : R) := by simp [List.ofFn_const]
    obtain ⟨Xb', hw, hl, hk⟩ := bufWrite_row hX hu hm fun _ : Fin f => (0 : R)
    rw [this, hw]
    exact ⟨Xb', t, rfl, hl, hk, ht⟩
  · rw [if_neg fun hh => he (hab.mp hh)]
    rw [if_neg (by simpa using he), hes]
    have hbuild := lsBuildMem_ok M hY hr hes (regularised G reg, fun _ => 0)
    have hcopy : memCopy (f * f) (matBuf (regularised G reg)) 0 t.A 0 = .ok (matBuf (regularised G reg)) := by
      unfold memCopy
      rw [bufRead_mat, ok_bind, bufWrite_new (by rw [ht.1, flatValues_length]; simp), ← flat_eq_map]
      rfl
    have hzero : memCopy f (vecBuf fun _ : Fin f => (0 : R)) 0 t.b 0 = .ok (vecBuf fun _ : Fin f => (0 : R)) := by
      unfold memCopy
      rw [bufRead_vec, ok_bind, bufWrite_vec ht.2]
    simp only [] at hbuild
    simp only [hcopy, hzero, hbuild, ok_bind]
    obtain ⟨A', hA', hp⟩ := lapackPosv_ok S hj (linearEquation_symm hG reg es) (linearEquation G reg es).2
    unfold linearEquation at hp ⊢
    generalize (List.foldl accumulate (regularised G reg, fun x => 0) es) = Ab at hp ⊢
    cases hs : S.solve Ab.1 Ab.2 with
    | some x =>
      rw [hs] at hp
      simp only at hp
      simp only [pure, Except.pure]
      rw [hp, ok_bind]
      simp only [if_true]
      unfold memCopy
      obtain ⟨Xb', hw, hl, hk⟩ := bufWrite_row hX hu hm x
      rw [bufRead_vec, ok_bind, hw, ok_bind]
      exact ⟨Xb', _, rfl, hl, hk, hA', vecBuf_length _⟩
    | none =>
      rw [hs] at hp
      obtain ⟨b', hp⟩ := hp
      simp only [throw, throwThe, MonadExceptOf.throw]
      rw [hp, ok_bind]
      rfl

/-- The Cholesky solver in memory, whatever the threads, the order of the rows and the contents of the buffers. -/
theorem C80_least_squares (S : Solver f R) {junk : List R → List R} (hj : ∀ l, (junk l).length = l.length) {M : SparseArrays R}
    {C : SpRows R} (hM : Represents M C) {sx sy : Nat} {Xb Yb : Buf R} {X Y : List (Vec f R)} (hXb : Laid sx Xb X) (hYb : Laid sy Yb Y)
    (reg : R) (hX : X.length ≤ M.rows) (hY : M.cols ≤ Y.length) (order : List (Nat × Nat)) (ho : Covers X.length order)
    (bufs : Nat → LsBufs R) (hb : ∀ th, (bufs th).Sized f) :
    match leastSquares S C X Y reg with
    | .ok X' => ∃ Xb' bufs', lsLoopRows f sx sy 1 S junk (matBuf (regularised (gram Y) reg)) (vecBuf fun _ : Fin f => (0 : R)) M Yb
        order Xb bufs = .ok (Xb', bufs') ∧ Laid sx Xb' X' ∧ Kept f X.length sx Xb Xb'
    | .error e => e = .valueError ∧ lsLoopRows f sx sy 1 S junk (matBuf (regularised (gram Y) reg))
        (vecBuf fun _ : Fin f => (0 : R)) M Yb order Xb bufs = .error .valueError := by
  have hrows := hM.rows
  let g : Nat → Vec f R → Except Err (Vec f R) := fun u _ => match C[u]? with
    | none => .error .undefinedBehaviour
    | some row => leastSquaresRow S (gram Y) Y reg row
  let step := lsRowMem f sx sy 1 S junk (matBuf (regularised (gram Y) reg)) (vecBuf fun _ : Fin f => (0 : R)) M Yb
  have hstep : ∀ (Vb : Buf R) (V : List (Vec f R)) u x t, V.length = X.length → Laid sx Vb V → LsBufs.Sized f t → V[u]? = some x →
      match g u x with
      | .ok x' => ∃ Vb' t', step u Vb t = .ok (Vb', t') ∧ Laid sx Vb' (V.set u x') ∧ Kept f X.length sx Vb Vb' ∧ t'.Sized f
      | .error _ => step u Vb t = .error .valueError := by
    intro Vb V u x t hV hVb ht hu
    have hlt := (List.getElem?_eq_some_iff.mp hu).1
    have hC : C[u]? = some (C[u]'(by omega)) := List.getElem?_eq_getElem (by omega)
    obtain ⟨es, hes⟩ := row_entries hM hY hC
    have := lsRowMem_ok S hj (gram_symm Y) hM hVb hYb reg (m := X.length) (by omega) hC hlt t ht hes
    simp only [g, hC]
    exact this
  have hok : RowOk step (LsBufs.Sized f) g X.length sx := by
    intro Vb V u x x' t hV hVb ht hu hg
    have := hstep Vb V u x t hV hVb ht hu
    rw [hg] at this
    exact this
  have herr : ∀ (Vb : Buf R) (V : List (Vec f R)) u x e t, V.length = X.length → Laid sx Vb V → LsBufs.Sized f t → V[u]? = some x →
      g u x = .error e → step u Vb t = .error .valueError := by
    intro Vb V u x e t hV hVb ht hu hg
    have := hstep Vb V u x t hV hVb ht hu
    rw [hg] at this
    exact this
  have hval : ∀ u e, u < X.length → g u 0 = .error e → e = .valueError := by
    intro u e hu hg
    have hC : C[u]? = some (C[u]'(by omega)) := List.getElem?_eq_getElem (by omega)
    obtain ⟨es, hes⟩ := row_entries hM hY hC
    simp only [g, hC] at hg
    unfold leastSquaresRow at hg
    rw [hes] at hg
    split at hg
    · cases hg
    · rw [ok_bind] at hg
      simp only at hg
      split at hg
      · cases hg
      · cases hg; rfl
  simp only [lsLoopRows_eq]
  by_cases hall : ∀ u, u < X.length → ∃ x', g u 0 = .ok x'
  · obtain ⟨Zb, Z, bufs', e, hZ, hk, _, hl, hz⟩ := rowsLoop_ok hok order ho.nodup Xb X hXb rfl ho.lt
      (fun u x hx _ => hall u (List.getElem?_eq_some_iff.mp hx).1) bufs hb
    obtain ⟨X', hX'⟩ : ∃ X', (List.range X.length).mapM (fun u => g u 0) = .ok X' :=
      mapM_total' fun u hu => hall u (List.mem_range.mp hu)
    have hX'' : leastSquares S C X Y reg = .ok X' := hX'
    rw [hX'']
    obtain ⟨hlen, hv⟩ := mapM_ok_iff hX'
    have : Z = X' := by
      apply List.ext_getElem?
      intro u
      rw [hz u]
      by_cases hu : u < X.length
      · rw [if_pos ((ho.mem u).mpr hu)]
        have hx : X[u]? = some X[u] := List.getElem?_eq_getElem hu
        obtain ⟨y, hy, hy'⟩ := hv u u (by simp [hu])
        rw [hx, Option.bind_some, hy']
        have : g u X[u] = .ok y := hy
        rw [this]
        rfl
      · rw [if_neg fun h => hu ((ho.mem u).mp h), List.getElem?_eq_none (by omega), List.getElem?_eq_none (by simp at hlen; omega)]
    rw [this] at hZ
    exact ⟨Zb, bufs', e, hZ, hk⟩
  · push Not at hall
    obtain ⟨u, hu, hg⟩ := hall
    have hgu : ∃ e, g u 0 = .error e := by
      cases h : g u 0 with
      | error e => exact ⟨e, rfl⟩
      | ok x => exact absurd h (hg x)
    obtain ⟨e, he⟩ := hgu
    have : leastSquares S C X Y reg = .error .valueError :=
      (mapM_error_iff fun a ha e' he' => hval a e' (List.mem_range.mp ha) he').mpr
        ⟨u, List.mem_range.mpr hu, by rw [he, hval u e hu he]⟩
    rw [this]
    exact ⟨rfl, rowsLoop_error .valueError hok herr order ho.nodup Xb X hXb rfl ho.lt
      ⟨u, X[u], e, List.getElem?_eq_getElem hu, (ho.mem u).mpr hu, he⟩ bufs hb⟩

/-! ## Loss -/

theorem lossEntriesMem_ok (M : SparseArrays R) {sy : Nat} {Yb : Buf R} {Y : List (Vec f R)} (hY : Laid sy Yb Y) {X : Buf R} {ox : Nat}
    {x : Vec f R}
    (hx : bufRead X ox f = .ok (List.ofFn x)) {is : List Nat} {row : List (Nat × R)} {es : List (Vec f R × R)}
    (hr : is.mapM (csrEntry M) = .ok row) (he : rowEntries .undefinedBehaviour Y row = .ok es) (v : Vec f R) (t : LossBufs R)
    (hv : t.r = vecBuf v) :
    lossEntriesMem f sy M Yb X ox is t = .ok { t with
      r := vecBuf (es.foldl (lossStep x) (v, t.totalConfidence, t.loss)).1
      totalConfidence := (es.foldl (lossStep x) (v, t.totalConfidence, t.loss)).2.1
      loss := (es.foldl (lossStep x) (v, t.totalConfidence, t.loss)).2.2 } := by
  induction is generalizing row es v t with
  | nil =>
    cases hr
    cases he
    obtain ⟨r, l, c, n, i⟩ := t
    simp only at hv
    subst hv
    rfl
  | cons index is ih =>
    obtain ⟨⟨i, c⟩, row', h1, h2, rfl⟩ := mapM_cons_ok hr
    obtain ⟨y, es', hy, h3, rfl⟩ := rowEntries_cons he
    unfold lossEntriesMem
    simp only [h1, ok_bind]
    rw [blasDot_ok (hY.read _ _ hy) hx]
    simp only [ok_bind]
    rw [hv, blasAxpy_ok _ (hY.read _ _ hy) (bufRead_vec v), bufWrite_vec (vecBuf_length v)]
    simp only [ok_bind]
    rw [ih h2 h3 _ _ rfl]
    simp only [List.foldl_cons]
    have hs : lossStep x (v, t.totalConfidence, t.loss) (y, c) =
        (axpy ((if 0 < c then (-2 * c, c) else (0, -1 * c)).1 + ((if 0 < c then (-2 * c, c) else (0, -1 * c)).2 - 1) * dot y x) y v,
          t.totalConfidence + (if 0 < c then (-2 * c, c) else (0, -1 * c)).2,
          t.loss + (if 0 < c then (-2 * c, c) else (0, -1 * c)).2) := by
      unfold lossStep
      split <;> simp only [neg_mul, one_mul]
    rw [hs]

theorem foldl_lossStep_shift (x : Vec f R) (es : List (Vec f R × R)) (v : Vec f R) (a b a' b' : R) :
    es.foldl (lossStep x) (v, a + a', b + b') =
      ((es.foldl (lossStep x) (v, a', b')).1, a + (es.foldl (lossStep x) (v, a', b')).2.1,
        b + (es.foldl (lossStep x) (v, a', b')).2.2) := by
  induction es generalizing v a' b' with
  | nil => rfl
  | cons e es ih =>
    have hs : ∃ w c, (∀ a b, lossStep x (v, a, b) e = (w, a + c, b + c)) := by
      unfold lossStep
      by_cases h : 0 < e.2
      · simp only [if_pos h]
        exact ⟨_, _, fun _ _ => rfl⟩
      · simp only [if_neg h]
        exact ⟨_, _, fun _ _ => rfl⟩
    obtain ⟨w, c, hs⟩ := hs
    rw [List.foldl_cons, List.foldl_cons, hs, hs, add_assoc, add_assoc, ih]

/-- What a thread has after one more row. -/
theorem lossRowMem_ok {G : Mat f R} (hG : ∀ a b, G a b = G b a) {M : SparseArrays R} {C : SpRows R} (hM : Represents M C)
    {sx sy : Nat} {Xb Yb : Buf R} {X Y : List (Vec f R)} (hX : Laid sx Xb X) (hY : Laid sy Yb Y) {u : Nat} {row : List (Nat × R)}
    (hrow : C[u]? = some row) {x : Vec f R} (hx : X[u]? = some x)
    {es : List (Vec f R × R)} (hes : rowEntries .undefinedBehaviour Y row = .ok es) (t : LossBufs R) (ht : t.r.length = f) :
    ∃ t', lossRowMem f sx sy (matBuf G) M Yb Xb u t = .ok t' ∧ t'.r.length = f ∧
      t'.totalConfidence = t.totalConfidence + (lossRow G es x).1 ∧ t'.loss = t.loss + (lossRow G es x).2 ∧
      t'.userNorm = t.userNorm + dot x x ∧ t'.itemNorm = t.itemNorm := by
  obtain ⟨a, b, ha, hb, _, hr⟩ := represents_row hM hrow
  unfold lossRowMem
  rw [ha, hb]
  simp only
  unfold lossRowMem'
  have hsymv := blasSymv_ok hG 1 (hX.read _ _ hx) ht
  have h1 : (fun a => 1 * mulVec G x a) = mulVec G x := by funext a; rw [one_mul]
  rw [h1] at hsymv
  rw [hsymv, ok_bind, lossEntriesMem_ok M hY (hX.read _ _ hx) hr hes (mulVec G x) _ rfl, ok_bind]
  simp only
  rw [blasDot_ok (bufRead_vec _) (hX.read _ _ hx), ok_bind, blasDot_ok (hX.read _ _ hx) (hX.read _ _ hx), ok_bind]
  have hsh := foldl_lossStep_shift x es (mulVec G x) t.totalConfidence t.loss 0 0
  rw [add_zero, add_zero] at hsh
  rw [hsh]
  refine ⟨_, rfl, vecBuf_length _, rfl, ?_, rfl, rfl⟩
  simp only [lossRow]
  rw [add_assoc]

/-- The sum over the threads. -/
def overThreads {T : Type} (threads : Nat) (g : T → R) (bufs : Nat → T) : R := ((List.range threads).map fun th => g (bufs th)).sum

theorem overThreads_update {T : Type} {threads : Nat} {g : T → R} {bufs : Nat → T} {th : Nat} {t : T} {d : R} (hth : th < threads)
    (h : g t = g (bufs th) + d) : overThreads threads g (Function.update bufs th t) = overThreads threads g bufs + d := by
  unfold overThreads
  induction threads with
  | zero => omega
  | succ n ih =>
    rw [List.range_succ, List.map_append, List.map_append, List.sum_append, List.sum_append]
    simp only [List.map_cons, List.map_nil, List.sum_cons, List.sum_nil, add_zero]
    by_cases hn : th = n
    · subst hn
      rw [Function.update_self, h, ← add_assoc]
      congr 2
      congr 1
      refine List.map_congr_left fun k hk => ?_
      rw [Function.update_of_ne (by have := List.mem_range.mp hk; omega)]
    · rw [ih (by omega), Function.update_of_ne (fun h' => hn h'.symm)]
      ring

theorem lossLoopRows_ok {G : Mat f R} (hG : ∀ a b, G a b = G b a) {M : SparseArrays R} {C : SpRows R} (hM : Represents M C)
    {sx sy : Nat} {Xb Yb : Buf R} {X Y : List (Vec f R)} (hX : Laid sx Xb X) (hY : Laid sy Yb Y) (part : Nat → R × R)
    (hp : ∀ (u : Nat) x, X[u]? = some x → ∃ row es, C[u]? = some row ∧ rowEntries .undefinedBehaviour Y row = .ok es ∧
      part u = lossRow G es x) (norm : Nat → R) (hn : ∀ (u : Nat) x, X[u]? = some x → norm u = dot x x) (threads : Nat)
    (order : List (Nat × Nat)) (hlt : ∀ o ∈ order, o.1 < threads ∧ o.2 < X.length) (bufs : Nat → LossBufs R)
    (hb : ∀ th, (bufs th).r.length = f) :
    ∃ bufs', lossLoopRows f sx sy (matBuf G) M Yb Xb order bufs = .ok bufs' ∧
      overThreads threads LossBufs.totalConfidence bufs' =
        overThreads threads LossBufs.totalConfidence bufs + (order.map fun o => (part o.2).1).sum ∧
      overThreads threads LossBufs.loss bufs' = overThreads threads LossBufs.loss bufs + (order.map fun o => (part o.2).2).sum ∧
      overThreads threads LossBufs.userNorm bufs' = overThreads threads LossBufs.userNorm bufs + (order.map fun o => norm o.2).sum ∧
      overThreads threads LossBufs.itemNorm bufs' = overThreads threads LossBufs.itemNorm bufs := by
  induction order generalizing bufs with
  | nil => exact ⟨bufs, rfl, by simp, by simp, by simp, rfl⟩
  | cons o order ih =>
    obtain ⟨th, u⟩ := o
    obtain ⟨hth, hu⟩ := hlt (th, u) (by simp)
    have hx : X[u]? = some X[u] := List.getElem?_eq_getElem hu
    obtain ⟨row, es, hrow, hes, hpu⟩ := hp u _ hx
    obtain ⟨t, e, ht, h1, h2, h3, h4⟩ := lossRowMem_ok hG hM hX hY hrow hx hes (bufs th) (hb th)
    obtain ⟨bufs', e', g1, g2, g3, g4⟩ := ih (fun o ho => hlt o (List.mem_cons_of_mem _ ho)) (Function.update bufs th t)
      (fun th' => by
        by_cases h : th' = th
        · subst h; rw [Function.update_self]; exact ht
        · rw [Function.update_of_ne h]; exact hb th')
    refine ⟨bufs', ?_, ?_, ?_, ?_, ?_⟩
    · unfold lossLoopRows
      rw [e]
      exact e'
    · rw [g1, overThreads_update hth h1, List.map_cons, List.sum_cons, hpu, add_assoc]
    · rw [g2, overThreads_update hth h2, List.map_cons, List.sum_cons, hpu, add_assoc]
    · rw [g3, overThreads_update hth h3, List.map_cons, List.sum_cons, hn u _ hx, add_assoc]
    · rw [g4, overThreads_update (d := 0) hth (by rw [h4, add_zero]), add_zero]

theorem lossLoopItems_ok {sy : Nat} {Yb : Buf R} {Y : List (Vec f R)} (hY : Laid sy Yb Y) (norm : Nat → R) (hn : ∀ (i : Nat) y, Y[i]? = some y → norm i = dot y y) (threads : Nat)
    (order : List (Nat × Nat)) (hlt : ∀ o ∈ order, o.1 < threads ∧ o.2 < Y.length) (bufs : Nat → LossBufs R) :
    ∃ bufs', lossLoopItems f sy Yb order bufs = .ok bufs' ∧
      overThreads threads LossBufs.totalConfidence bufs' = overThreads threads LossBufs.totalConfidence bufs ∧
      overThreads threads LossBufs.loss bufs' = overThreads threads LossBufs.loss bufs ∧
      overThreads threads LossBufs.userNorm bufs' = overThreads threads LossBufs.userNorm bufs ∧
      overThreads threads LossBufs.itemNorm bufs' = overThreads threads LossBufs.itemNorm bufs + (order.map fun o => norm o.2).sum := by
  induction order generalizing bufs with
  | nil => exact ⟨bufs, rfl, rfl, rfl, rfl, by simp⟩
  | cons o order ih =>
    obtain ⟨th, i⟩ := o
    obtain ⟨hth, hi⟩ := hlt (th, i) (by simp)
    have hy : Y[i]? = some Y[i] := List.getElem?_eq_getElem hi
    obtain ⟨bufs', e', g1, g2, g3, g4⟩ := ih (fun o ho => hlt o (List.mem_cons_of_mem _ ho))
      (Function.update bufs th { bufs th with itemNorm := (bufs th).itemNorm + dot Y[i] Y[i] })
    refine ⟨bufs', ?_, ?_, ?_, ?_, ?_⟩
    · unfold lossLoopItems
      rw [blasDot_ok (hY.read _ _ hy) (hY.read _ _ hy), ok_bind]
      exact e'
    · rw [g1, overThreads_update (d := 0) hth (add_zero _).symm, add_zero]
    · rw [g2, overThreads_update (d := 0) hth (add_zero _).symm, add_zero]
    · rw [g3, overThreads_update (d := 0) hth (add_zero _).symm, add_zero]
    · rw [g4, overThreads_update hth rfl, List.map_cons, List.sum_cons, hn i _ hy, add_assoc]

/-- A sum over the rows in the order of the threads. -/
theorem covers_sum {n : Nat} {order : List (Nat × Nat)} (h : Covers n order) {l : List R} (hl : l.length = n) :
    (order.map fun o => l.getD o.2 0).sum = l.sum := by
  have h1 : (order.map fun o => l.getD o.2 0) = (order.map Prod.snd).map fun u => l.getD u 0 := by rw [List.map_map]; rfl
  rw [h1, (h.map fun u => l.getD u 0).sum_eq]
  congr 1
  apply List.ext_getElem
  · simp [hl]
  · intro i h1 h2
    simp [h2]

/-- The loss in memory, whatever the threads and the order of the rows: the parallel sums are the sums of `calculateLoss`. -/
theorem C80_loss {M : SparseArrays R} {C : SpRows R} (hM : Represents M C) {sx sy : Nat} {Xb Yb : Buf R}
    {X Y : List (Vec f R)} (hXb : Laid sx Xb X) (hYb : Laid sy Yb Y) (reg : R) (hX : X.length ≤ M.rows)
    (hY : M.cols ≤ Y.length) (threads : Nat) (users items : List (Nat × Nat)) (hu : Covers X.length users)
    (hi : Covers Y.length items) (htu : ∀ o ∈ users, o.1 < threads) (hti : ∀ o ∈ items, o.1 < threads) :
    ∃ loss, calculateLoss C M.cols X Y reg = .ok loss ∧
      lossMem f sx sy (matBuf (gram Y)) M Yb Xb reg threads users items = .ok loss := by
  have hrows := hM.rows
  have hrow : ∀ (u : Nat) (x : Vec f R), X[u]? = some x → ∃ row es, C[u]? = some row ∧
      rowEntries .undefinedBehaviour Y row = .ok es ∧ lossPart C Y (x, u) = .ok (lossRow (gram Y) es x) := by
    intro u x hx
    have hlt := (List.getElem?_eq_some_iff.mp hx).1
    have hC : C[u]? = some (C[u]'(by omega)) := List.getElem?_eq_getElem (by omega)
    obtain ⟨es, hes⟩ := row_entries hM hY hC
    refine ⟨_, es, hC, hes, ?_⟩
    unfold lossPart
    simp only [hC, hes]
    rfl
  obtain ⟨parts, hparts⟩ : ∃ parts, X.zipIdx.mapM (lossPart C Y) = .ok parts := by
    refine mapM_total' fun xu hxu => ?_
    obtain ⟨row, es, _, _, h⟩ := hrow xu.2 xu.1 (List.mem_zipIdx_iff_getElem?.mp hxu)
    exact ⟨_, h⟩
  obtain ⟨hlen, hval⟩ := mapM_ok_iff hparts
  rw [List.length_zipIdx] at hlen
  obtain ⟨bufs1, e1, a1, a2, a3, a4⟩ := lossLoopRows_ok (gram_symm Y) hM hXb hYb
    (fun u => ((parts.map Prod.fst).getD u 0, (parts.map Prod.snd).getD u 0))
    (fun u x hx => by
      obtain ⟨row, es, h1, h2, h3⟩ := hrow u x hx
      refine ⟨row, es, h1, h2, ?_⟩
      obtain ⟨y, hy, hy'⟩ := hval u (x, u) (by simp [hx])
      rw [h3] at hy
      cases hy
      simp [hy'])
    (fun u => (X.map fun x => dot x x).getD u 0) (fun u x hx => by simp [hx]) threads users
    (fun o ho => ⟨htu o ho, hu.lt o ho⟩) (fun _ => LossBufs.new f) (fun _ => by simp [LossBufs.new])
  obtain ⟨bufs2, e2, b1, b2, b3, b4⟩ := lossLoopItems_ok hYb (fun i => (Y.map fun y => dot y y).getD i 0)
    (fun i y hy => by simp [hy]) threads items (fun o ho => ⟨hti o ho, hi.lt o ho⟩) bufs1
  have hnew : ∀ g : LossBufs R → R, g (LossBufs.new f) = 0 → overThreads threads g (fun _ => LossBufs.new f) = 0 := by
    intro g hg
    unfold overThreads
    simp [hg]
  rw [covers_sum hu (by simp [hlen]), hnew _ rfl, zero_add] at a1 a2
  rw [covers_sum hu (by simp), hnew _ rfl, zero_add] at a3
  rw [hnew _ rfl] at a4
  rw [covers_sum hi (by simp), a4, zero_add] at b4
  rw [a1] at b1
  rw [a2] at b2
  rw [a3] at b3
  refine ⟨((parts.map Prod.snd).sum + reg * ((Y.map fun y => dot y y).sum + (X.map fun x => dot x x).sum)) /
    ((parts.map Prod.fst).sum + ((C.length * M.cols : Nat) : R) - (((C.map List.length).sum : Nat) : R)), ?_, ?_⟩
  · unfold calculateLoss
    rw [hparts, ok_bind]
    rfl
  · unfold lossMem
    rw [e1, ok_bind, e2, ok_bind]
    have hc : M.indices.length = (C.map List.length).sum := by rw [hM.indices, List.length_map, List.length_flatten]
    simp only [overThreads] at b1 b2 b3 b4
    simp only [b1, b2, b3, b4, hc, hrows]
    rfl

/-! ## C order, and what the python layer does not check -/

/-- In C order, starting with buffers fresh from `malloc`: the array of `X` afterwards is the result. -/
theorem C80_cg_c_order (tol : R) (steps : Nat) {M : SparseArrays R} {C : SpRows R} (hM : Represents M C) (X Y : List (Vec f R))
    (reg : R) (hX : X.length ≤ M.rows) (hY : M.cols ≤ Y.length) (order : List (Nat × Nat)) (ho : Covers X.length order) :
    (cgLoopRows tol steps f f f (matBuf (regularised (gram Y) reg)) M (flat Y) order (flat X) fun _ => CgBufs.new f).map Prod.fst =
      (leastSquaresCG tol steps C X Y reg).map flat := by
  obtain ⟨X', Xb', bufs', h1, h2, h3, h4⟩ := C80_cg tol steps hM (laid_flat X) (laid_flat Y) reg hX hY order ho
    (fun _ => CgBufs.new f) (fun _ => by simp [CgBufs.Sized, CgBufs.new])
  have hlen := (mapM_ok_iff h1).1
  rw [List.length_zipIdx] at hlen
  rw [h1, h2]
  show Except.ok Xb' = Except.ok (flat X')
  rw [← laid_eq_flat h3 (by rw [h4.length, flat_length, hlen])]

/-- In C order, starting with buffers fresh from `malloc`, with the failure of `posv`. -/
theorem C80_least_squares_c_order (S : Solver f R) {junk : List R → List R} (hj : ∀ l, (junk l).length = l.length)
    {M : SparseArrays R} {C : SpRows R} (hM : Represents M C) (X Y : List (Vec f R)) (reg : R) (hX : X.length ≤ M.rows)
    (hY : M.cols ≤ Y.length) (order : List (Nat × Nat)) (ho : Covers X.length order) :
    (lsLoopRows f f f 1 S junk (matBuf (regularised (gram Y) reg)) (vecBuf fun _ : Fin f => (0 : R)) M (flat Y) order (flat X)
      fun _ => LsBufs.new f).map Prod.fst = (leastSquares S C X Y reg).map flat := by
  have h := C80_least_squares S hj hM (laid_flat X) (laid_flat Y) reg hX hY order ho (fun _ => LsBufs.new f)
    (fun _ => by simp [LsBufs.Sized, LsBufs.new])
  cases hl : leastSquares S C X Y reg with
  | error e =>
    rw [hl] at h
    obtain ⟨rfl, h⟩ := h
    rw [h]
    rfl
  | ok X' =>
    rw [hl] at h
    obtain ⟨Xb', bufs', h2, h3, h4⟩ := h
    have hlen := (mapM_ok_iff hl).1
    rw [List.length_range] at hlen
    rw [h2]
    show Except.ok Xb' = Except.ok (flat X')
    rw [← laid_eq_flat h3 (by rw [h4.length, flat_length, hlen])]

/-- The threads and the order of the rows make no difference. -/
theorem C80_schedule (tol : R) (steps : Nat) {M : SparseArrays R} {C : SpRows R} (hM : Represents M C) (X Y : List (Vec f R)) (reg : R)
    (hX : X.length ≤ M.rows) (hY : M.cols ≤ Y.length) (order order' : List (Nat × Nat)) (ho : Covers X.length order)
    (ho' : Covers X.length order') :
    (cgLoopRows tol steps f f f (matBuf (regularised (gram Y) reg)) M (flat Y) order (flat X) fun _ => CgBufs.new f).map Prod.fst =
      (cgLoopRows tol steps f f f (matBuf (regularised (gram Y) reg)) M (flat Y) order' (flat X) fun _ => CgBufs.new f).map Prod.fst := by
  rw [C80_cg_c_order tol steps hM X Y reg hX hY order ho, C80_cg_c_order tol steps hM X Y reg hX hY order' ho']

/-- A matrix in Fortran order: column after column, as in `np.asfortranarray(V)` or `W.T` for a C array `W`. -/
def Spec.fortran (V : List (Vec f R)) : Buf R := (List.finRange f).flatMap fun j => V.map fun v => some (v j)

/-- Item factors in Fortran order pass all checks: the row stride is 1, the solver takes `N` neighbours in memory for a row of `Y`, and the
result is another one.  `Y = [[1, 2], [3, 4]]`, one user who has item 0. -/
theorem C80_fortran_violated :
    ∃ (M : SparseArrays Rat) (C : SpRows Rat) (Y : List (Vec 2 Rat)), Represents M C ∧ M.cols = Y.length ∧ M.rows = 1 ∧
      ∃ X', leastSquaresCG (1 / 10 ^ 20) 2 C [0] Y 1 = .ok X' ∧
        (cgLoopRows (1 / 10 ^ 20) 2 2 2 1 (matBuf (regularised (gram Y) 1)) M (fortran Y) [(0, 0)] (flat [(0 : Vec 2 Rat)])
          fun _ => CgBufs.new 2).toOption.map Prod.fst ≠ some (flat X') ∧
        (cgLoopRows (1 / 10 ^ 20) 2 2 2 1 (matBuf (regularised (gram Y) 1)) M (fortran Y) [(0, 0)] (flat [(0 : Vec 2 Rat)])
          fun _ => CgBufs.new 2).toOption.isSome = true := by
  refine ⟨⟨1, 2, [0, 1], [0], [5]⟩, [[(0, 5)]], [![1, 2], ![3, 4]], ⟨rfl, rfl, ?_, rfl, rfl, ?_⟩, rfl, rfl, ?_⟩
  · intro u hu
    have : u = 0 ∨ u = 1 := by simp only at hu; omega
    rcases this with rfl | rfl <;> rfl
  · intro row hr e he
    simp only [List.mem_singleton] at hr
    subst hr
    simp only [List.mem_singleton] at he
    subst he
    norm_num
  · obtain ⟨X', hX'⟩ : ∃ X', leastSquaresCG (1 / 10 ^ 20 : Rat) 2 [[(0, 5)]] [0] [![1, 2], ![3, 4]] 1 = .ok X' := ⟨_, rfl⟩
    refine ⟨X', hX', ?_, by decide +kernel⟩
    have : (leastSquaresCG (1 / 10 ^ 20 : Rat) 2 [[(0, 5)]] [0] [![1, 2], ![3, 4]] 1).toOption.map flat = some (flat X') := by
      rw [hX']; rfl
    rw [← this]
    decide +kernel

/-- User factors in Fortran order: neighbouring rows overlap, so the order in which the threads get to the rows changes the result, and
neither is the right one. -/
theorem C80_fortran_users_violated :
    ∃ (M : SparseArrays Rat) (C : SpRows Rat) (Y : List (Vec 2 Rat)), Represents M C ∧ M.cols = Y.length ∧ M.rows = 2 ∧
      let run := fun order => ((cgLoopRows (1 / 10 ^ 20) 2 2 1 2 (matBuf (regularised (gram Y) 1)) M (flat Y) order
        (fortran [(0 : Vec 2 Rat), 0]) fun _ => CgBufs.new 2).toOption.map Prod.fst)
      Covers 2 [(0, 0), (1, 1)] ∧ Covers 2 [(1, 1), (0, 0)] ∧ run [(0, 0), (1, 1)] ≠ run [(1, 1), (0, 0)] ∧
        (leastSquaresCG (1 / 10 ^ 20) 2 C [0, 0] Y 1).toOption.map fortran ≠ run [(0, 0), (1, 1)] ∧
        (leastSquaresCG (1 / 10 ^ 20) 2 C [0, 0] Y 1).toOption.map fortran ≠ run [(1, 1), (0, 0)] := by
  refine ⟨⟨2, 2, [0, 1, 2], [0, 1], [5, 3]⟩, [[(0, 5)], [(1, 3)]], [![1, 2], ![3, 4]], ⟨rfl, rfl, ?_, rfl, rfl, ?_⟩, rfl, rfl, ?_⟩
  · intro u hu
    have : u = 0 ∨ u = 1 ∨ u = 2 := by simp only at hu; omega
    rcases this with rfl | rfl | rfl <;> rfl
  · intro row hr e he
    simp only [List.mem_cons, List.not_mem_nil, or_false] at hr
    rcases hr with rfl | rfl <;>
    · simp only [List.mem_singleton] at he
      subst he
      norm_num
  · refine ⟨by unfold Covers; decide, by unfold Covers; decide, ?_, ?_, ?_⟩ <;> decide +kernel

/-! ## Examples -/

/-- Reading a buffer fresh from `malloc` is undefined: the models would notice. -/
example : bufRead (CgBufs.new 2 : CgBufs Rat).r 0 2 = .error .undefinedBehaviour ∧
    bufRead (flat [![(1 : Rat), 2]]) 1 2 = .error .undefinedBehaviour := by decide +kernel

/-- Two threads, three users (the second without items), rows padded to three numbers: the padding stays. -/
example :
    (cgLoopRows (1 / 10 ^ 20 : Rat) 2 2 3 2 (matBuf (regularised (gram [![1, 2], ![3, 4]]) 1)) ⟨3, 2, [0, 1, 1, 3], [0, 0, 1], [5, 3, -1]⟩
      (flat [![1, 2], ![3, 4]]) [(1, 2), (0, 0), (1, 1)]
      [some 0, some 0, some 77, some 9, some 9, none, some 1, some 1, some 88] fun _ => CgBufs.new 2).toOption.map
        (fun s => [2, 3, 4, 5, 8].map fun k => s.1.getD k none) =
      some [some (77 : Rat), some 0, some 0, none, some 88] := by
  decide +kernel

example : Laid 3 [some 0, some 0, some 77, some 9, some 9, none, some 1, some 1, some 88] [![(0 : Rat), 0], ![9, 9], ![1, 1]] :=
  ⟨by norm_num, fun i v h => by
    match i with
    | 0 => cases h; decide +kernel
    | 1 => cases h; decide +kernel
    | 2 => cases h; decide +kernel
    | i + 3 => simp at h⟩

/-- The Cholesky solver with two threads, and a division of the work that covers the rows. -/
example : Covers 2 [(1, 1), (0, 0)] ∧
    (lsLoopRows 1 1 1 1 (scalarSolver Rat) (fun l => l.map fun _ => 123) (matBuf (regularised (gram [![1], ![2], ![0]]) 1))
      (vecBuf fun _ : Fin 1 => (0 : Rat)) exampleCsr (flat [![1], ![2], ![0]]) [(1, 1), (0, 0)] (flat [![1], ![1]])
      fun _ => LsBufs.new 1).toOption.map Prod.fst =
      (leastSquares (scalarSolver Rat) [[(1, 5), (2, 7)], [(0, 2)]] [![1], ![1]] [![1], ![2], ![0]] 1).toOption.map flat ∧
    (leastSquares (scalarSolver Rat) [[(1, 5), (2, 7)], [(0, 2)]] [![1], ![1]] [![1], ![2], ![0]] 1).toOption.isSome = true := by
  refine ⟨by unfold Covers; decide, ?_, ?_⟩ <;> decide +kernel

/-- The loss with two threads. -/
example :
    (lossMem 1 1 1 (matBuf (gram [![1], ![2], ![0]])) exampleCsr (flat [![1], ![2], ![0]]) (flat [![1], ![1]]) 1 2 [(1, 1), (0, 0)]
      [(0, 2), (1, 0), (1, 1)]).toOption =
      (calculateLoss [[(1, 5), (2, 7)], [(0, 2)]] 3 [![(1 : Rat)], ![1]] [![1], ![2], ![0]] 1).toOption ∧
    (calculateLoss [[(1, 5), (2, 7)], [(0, 2)]] 3 [![(1 : Rat)], ![1]] [![1], ![2], ![0]] 1).toOption.isSome = true := by
  decide +kernel

end Implicit
