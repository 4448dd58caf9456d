import Verif.Model.ExtendedKnn
import Verif.Props.C83
import Verif.Spec.KnnRange
/-!
# C103 — item-item models do not overflow while the sums of products are in range
-/

set_option linter.unusedSectionVars false

namespace Implicit

section
variable {R : Type} [LinearOrder R] [Field R]

/-- The accumulator with its sums as floats. -/
def Accum.toExt (a : Accum R) : Accum (Ext R) := ⟨a.sums.map .fin, a.next, a.head, a.length⟩

/-- Pairs as floats. -/
def toExtPairs (l : List (Nat × R)) : List (Nat × Ext R) := l.map fun p => (p.1, .fin p.2)

theorem new_toExt (n : Nat) : (Accum.new n : Accum (Ext R)) = (Accum.new n : Accum R).toExt := by
  unfold Accum.new Accum.toExt
  rw [List.map_replicate]
  rfl

theorem finitePairs_toExt (l : List (Nat × R)) : finitePairs (toExtPairs l) = some l := by
  induction l with
  | nil => rfl
  | cons p l ih =>
    unfold toExtPairs at ih ⊢
    simp [finitePairs, ih]

theorem ofExact_fin {r : Rounding R} {Ω x : R} (h : |r.rnd x| ≤ Ω) : Ext.ofExact r Ω x = .fin (r.rnd x) := by
  unfold Ext.ofExact
  rw [if_pos h]

theorem add_toExt {r : Rounding R} {Ω : R} (a : Accum R) (i : Nat) (v : R) (h : ∀ s, a.sums[i]? = some s → |r.rnd (s + v)| ≤ Ω) :
    @Accum.add (Ext R) (Ext.toAdd r Ω) a.toExt i (.fin v) = (@Accum.add R r.toAdd a i v).map Accum.toExt := by
  unfold Accum.add Accum.toExt
  simp only [List.getElem?_map]
  cases hs : a.sums[i]? with
  | none => rfl
  | some s =>
    cases hn : a.next[i]? with
    | none => rfl
    | some nx =>
      have hv : Ext.add r Ω (.fin s) (.fin v) = .fin (r.rnd (s + v)) := ofExact_fin (h s hs)
      simp only [Option.map_some]
      split_ifs
      · simp only [Except.map, List.map_set, HAdd.hAdd, Add.add, hv]
      · simp only [Except.map, List.map_set, HAdd.hAdd, Add.add, hv]

theorem add_sums {r : Rounding R} {a a' : Accum R} {i : Nat} {v : R} (h : @Accum.add R r.toAdd a i v = .ok a') :
    ∃ s, a.sums[i]? = some s ∧ a'.sums = a.sums.set i (r.rnd (s + v)) := by
  unfold Accum.add at h
  cases hs : a.sums[i]? with
  | none => simp [hs] at h
  | some s =>
    cases hn : a.next[i]? with
    | none => simp [hs, hn] at h
    | some nx =>
      simp only [hs, hn] at h
      refine ⟨s, rfl, ?_⟩
      split_ifs at h <;> cases h <;> rfl

theorem drain_toExt : ∀ (n : Nat) (a : Accum R), a.toExt.drain n = (a.drain n).map fun d => (toExtPairs d.1, d.2.toExt)
  | 0, a => rfl
  | n + 1, a => by
    unfold Accum.drain
    have hh : a.toExt.head = a.head := rfl
    rw [hh]
    cases a.head with
    | negSucc k => rfl
    | ofNat i =>
      have hs : a.toExt.sums[i]? = (a.sums[i]?).map .fin := by unfold Accum.toExt; simp
      have hn : a.toExt.next[i]? = a.next[i]? := rfl
      simp only [hs, hn]
      cases a.sums[i]? with
      | none => rfl
      | some s =>
        cases a.next[i]? with
        | none => rfl
        | some nx =>
          have e : (⟨a.toExt.sums.set i 0, a.toExt.next.set i (-1), nx, a.toExt.length⟩ : Accum (Ext R)) =
              (⟨a.sums.set i 0, a.next.set i (-1), nx, a.length⟩ : Accum R).toExt := by
            unfold Accum.toExt
            simp only [List.map_set]
            rfl
          simp only [Option.map_some, e, drain_toExt n]
          cases (⟨a.sums.set i 0, a.next.set i (-1), nx, a.length⟩ : Accum R).drain n <;> rfl

theorem foreach_toExt (a : Accum R) : a.toExt.foreach = a.foreach.map fun d => (toExtPairs d.1, d.2.toExt) := drain_toExt a.length a

theorem clearAll_toExt : ∀ (is : List Nat) (a : Accum R), a.toExt.clearAll is = (a.clearAll is).map Accum.toExt
  | [], a => rfl
  | i :: is, a => by
    unfold Accum.clearAll
    have e : a.toExt.clear i = (a.clear i).map Accum.toExt := by
      unfold Accum.clear Accum.toExt
      simp only [List.length_map]
      split_ifs
      · simp only [Except.map, List.map_set]
        rfl
      · rfl
    rw [e]
    cases a.clear i with
    | error x => rfl
    | ok b => exact clearAll_toExt is b

end

section
variable {R : Type} [LinearOrder R] [Field R] [IsStrictOrderedRing R]

theorem rnd_abs (r : Rounding R) (x : R) : |r.rnd x| ≤ (1 + r.u) * |x| + r.η := by
  have h1 := r.err x
  have h2 : |r.rnd x| ≤ |r.rnd x - x| + |x| := by
    have := abs_add_le (r.rnd x - x) x
    rwa [sub_add_cancel] at this
  linarith

/-- There is room for the values `vs` to be added to `s`. -/
def Room (r : Rounding R) (Ω s : R) (vs : List R) : Prop := (1 + r.u) ^ vs.length * (|s| + (vs.map abs).sum + vs.length * r.η) ≤ Ω

theorem Room.fits {r : Rounding R} {Ω s : R} {vs : List R} (h : Room r Ω s vs) : |s| ≤ Ω := by
  have hu := r.u_nonneg
  have hη := r.η_nonneg
  have h1 : (1 : R) ≤ (1 + r.u) ^ vs.length := one_le_pow₀ (by linarith)
  have h2 : 0 ≤ (vs.map abs).sum := List.sum_nonneg (by
    intro x hx
    obtain ⟨y, -, rfl⟩ := List.mem_map.mp hx
    exact abs_nonneg y)
  have h3 : (0 : R) ≤ vs.length * r.η := mul_nonneg (Nat.cast_nonneg _) hη
  have h4 := abs_nonneg s
  unfold Room at h
  have h5 : 1 * (|s| + (vs.map abs).sum + vs.length * r.η) ≤ (1 + r.u) ^ vs.length * (|s| + (vs.map abs).sum + vs.length * r.η) :=
    mul_le_mul_of_nonneg_right h1 (by linarith)
  linarith

theorem Room.step {r : Rounding R} {Ω s v : R} {vs : List R} (h : Room r Ω s (v :: vs)) : Room r Ω (r.rnd (s + v)) vs := by
  have hu := r.u_nonneg
  have hη := r.η_nonneg
  have h1 : (0 : R) ≤ (1 + r.u) ^ vs.length := pow_nonneg (by linarith) _
  have h2 : 0 ≤ (vs.map abs).sum := List.sum_nonneg (by
    intro x hx
    obtain ⟨y, -, rfl⟩ := List.mem_map.mp hx
    exact abs_nonneg y)
  have h3 : (0 : R) ≤ vs.length * r.η := mul_nonneg (Nat.cast_nonneg _) hη
  have h4 := rnd_abs r (s + v)
  have h5 : (1 + r.u) * |s + v| ≤ (1 + r.u) * (|s| + |v|) := mul_le_mul_of_nonneg_left (abs_add_le s v) (by linarith)
  have h6 : 0 ≤ r.u * ((vs.map abs).sum + (vs.length * r.η + r.η)) := mul_nonneg hu (by linarith)
  unfold Room at h ⊢
  simp only [List.length_cons, List.map_cons, List.sum_cons, Nat.cast_add, Nat.cast_one, pow_succ] at h
  refine le_trans ?_ h
  rw [mul_assoc]
  refine mul_le_mul_of_nonneg_left ?_ h1
  linarith

/-- The values added to cell `j`. -/
def valuesAt (es : List (Nat × R)) (j : Nat) : List R := (es.filter fun e => e.1 == j).map Prod.snd

theorem addAll_toExt {r : Rounding R} {Ω : R} : ∀ (es : List (Nat × R)) (a : Accum R),
    (∀ j s, a.sums[j]? = some s → Room r Ω s (valuesAt es j)) →
    extAddAll r Ω a.toExt (toExtPairs es) = (roundAddAll r a es).map Accum.toExt
  | [], a, _ => rfl
  | e :: es, a, h => by
    have hhere : ∀ s, a.sums[e.1]? = some s → Room r Ω (r.rnd (s + e.2)) (valuesAt es e.1) := by
      intro s hs
      have := h e.1 s hs
      unfold valuesAt at this
      rw [List.filter_cons] at this
      simp only [beq_self_eq_true, if_true, List.map_cons] at this
      exact this.step
    have e1 := add_toExt (r := r) (Ω := Ω) a e.1 e.2 fun s hs => (hhere s hs).fits
    unfold extAddAll roundAddAll
    have hcons : toExtPairs (e :: es) = (e.1, .fin e.2) :: toExtPairs es := rfl
    rw [hcons]
    unfold Accum.addAll
    simp only [e1]
    cases ha : @Accum.add R r.toAdd a e.1 e.2 with
    | error x => rfl
    | ok a' =>
      obtain ⟨s, hs, hs'⟩ := add_sums ha
      have := addAll_toExt es a' (by
        intro j t ht
        rw [hs'] at ht
        by_cases hj : e.1 = j
        · subst hj
          rw [List.getElem?_set_self (List.getElem?_eq_some_iff.mp hs).1] at ht
          cases ht
          exact hhere s hs
        · rw [List.getElem?_set_ne hj] at ht
          have := h j t ht
          unfold valuesAt at this
          rw [List.filter_cons] at this
          have hb : (e.1 == j) = false := by simpa using hj
          simp only [hb, Bool.false_eq_true, if_false] at this
          exact this)
      exact this

/-! ## Rows -/

/-- All sums of products for `row` are in range. -/
def RowInRange (r : Rounding R) (Ω : R) (M : SpRows R) (row : List (Nat × R)) : Prop :=
  ∀ j, Spec.SumInRange r.u r.η Ω (pairsAt M row j).length ((pairsAt M row j).map fun p => |p.1 * p.2|).sum

theorem range_room {r : Rounding R} {Ω : R} {ps : List (R × R)} (h : Spec.SumInRange r.u r.η Ω ps.length (ps.map fun p => |p.1 * p.2|).sum) :
    Room r Ω 0 (ps.map fun p => r.rnd (p.1 * p.2)) := by
  have hu := r.u_nonneg
  have hη := r.η_nonneg
  unfold Room
  unfold Spec.SumInRange at h
  rw [abs_zero, zero_add, List.length_map, List.map_map]
  have h1 : (0 : R) ≤ (1 + r.u) ^ ps.length := pow_nonneg (by linarith) _
  have h2 : (ps.map (abs ∘ fun p => r.rnd (p.1 * p.2))).sum ≤ (1 + r.u) * (ps.map fun p => |p.1 * p.2|).sum + ps.length * r.η := by
    clear h h1
    induction ps with
    | nil => simp
    | cons p ps ih =>
      simp only [List.map_cons, List.sum_cons, List.length_cons, Nat.cast_add, Nat.cast_one, Function.comp_def]
      have := rnd_abs r (p.1 * p.2)
      simp only [Function.comp_def] at ih
      linarith
  have h3 : (0 : R) ≤ ps.length * r.η := mul_nonneg (Nat.cast_nonneg _) hη
  have h4 : 0 ≤ r.u * (ps.length * r.η) := mul_nonneg hu h3
  rw [pow_succ, mul_assoc] at h
  refine le_trans (mul_le_mul_of_nonneg_left ?_ h1) h
  linarith

theorem range_product {r : Rounding R} {Ω : R} {ps : List (R × R)} (h : Spec.SumInRange r.u r.η Ω ps.length (ps.map fun p => |p.1 * p.2|).sum)
    {p : R × R} (hp : p ∈ ps) : |r.rnd (p.1 * p.2)| ≤ Ω := by
  have hu := r.u_nonneg
  have hη := r.η_nonneg
  have h0 := range_room h
  have h1 : (1 : R) ≤ (1 + r.u) ^ (ps.map fun p => r.rnd (p.1 * p.2)).length := one_le_pow₀ (by linarith)
  have h2 : |r.rnd (p.1 * p.2)| ≤ ((ps.map fun p => r.rnd (p.1 * p.2)).map abs).sum := by
    refine List.single_le_sum ?_ _ (List.mem_map.mpr ⟨_, List.mem_map.mpr ⟨p, hp, rfl⟩, rfl⟩)
    intro x hx
    obtain ⟨y, -, rfl⟩ := List.mem_map.mp hx
    exact abs_nonneg y
  have h3 : (0 : R) ≤ (ps.map fun p => r.rnd (p.1 * p.2)).length * r.η := mul_nonneg (Nat.cast_nonneg _) hη
  have h4 := abs_nonneg (r.rnd (p.1 * p.2))
  unfold Room at h0
  rw [abs_zero, zero_add] at h0
  have h5 := mul_le_mul_of_nonneg_right h1 (a := ((ps.map fun p => r.rnd (p.1 * p.2)).map abs).sum + (ps.map fun p => r.rnd (p.1 * p.2)).length * r.η)
    (by linarith)
  linarith

theorem products_toExt {r : Rounding R} {Ω : R} (M : SpRows R) : ∀ (row : List (Nat × R)),
    (∀ e ∈ row, ∀ x ∈ M.getD e.1 [], |r.rnd (x.2 * e.2)| ≤ Ω) →
    extProducts r Ω M row = (roundProducts r M row).map toExtPairs
  | [], _ => rfl
  | e :: row, h => by
    have ih := products_toExt M row fun e he => h e (by simp [he])
    unfold extProducts roundProducts
    cases hm : M[e.1]? with
    | none => rfl
    | some m =>
      simp only [ih]
      have hg : M.getD e.1 [] = m := by rw [List.getD_eq_getElem?_getD, hm]; rfl
      have hx : (m.map fun x => (x.1, Ext.ofExact r Ω (x.2 * e.2))) = toExtPairs (m.map fun x => (x.1, r.rnd (x.2 * e.2))) := by
        unfold toExtPairs
        rw [List.map_map]
        refine List.map_congr_left fun x hx => ?_
        rw [ofExact_fin (h e (by simp) x (by rw [hg]; exact hx))]
        rfl
      rw [hx]
      cases roundProducts r M row with
      | error x => rfl
      | ok rest =>
        simp only [Except.map, bind, Except.bind, pure, Except.pure, toExtPairs, List.map_append]

theorem adds_toExt {r : Rounding R} {Ω : R} {n : Nat} {M : SpRows R} {row : List (Nat × R)} (hrow : ∀ e ∈ row, e.1 < M.length)
    (h : RowInRange r Ω M row) : ∃ adds, roundProducts r M row = .ok adds ∧ extProducts r Ω M row = .ok (toExtPairs adds) ∧
      extAddAll r Ω (Accum.new n) (toExtPairs adds) = (roundAddAll r (Accum.new n) adds).map Accum.toExt := by
  obtain ⟨adds, e1, h1⟩ := roundProducts_ok r M row hrow
  refine ⟨adds, e1, ?_, ?_⟩
  · rw [products_toExt M row, e1]
    · rfl
    · intro e he x hx
      refine range_product (h x.1) (p := (x.2, e.2)) ?_
      unfold pairsAt
      exact List.mem_flatMap.mpr ⟨e, he, List.mem_map.mpr ⟨x, List.mem_filter.mpr ⟨hx, by simp⟩, rfl⟩⟩
  · rw [new_toExt]
    refine addAll_toExt adds _ fun j s hs => ?_
    have hs0 : s = 0 := by
      have := List.mem_of_getElem? hs
      exact List.eq_of_mem_replicate this
    have hv : valuesAt adds j = (pairsAt M row j).map fun p => r.rnd (p.1 * p.2) := by
      rw [h1]
      unfold valuesAt pairsAt
      rw [List.filter_flatMap, List.map_flatMap, List.map_flatMap]
      apply List.flatMap_congr
      intro e _
      rw [List.filter_map, List.map_map, List.map_map]
      rfl
    rw [hs0, hv]
    exact range_room (h j)

theorem row_toExt (H : HeapImpl (R × Nat) pairLt) {r : Rounding R} {Ω : R} {n : Nat} {M : SpRows R} {row : List (Nat × R)} (K : Nat)
    (hrow : ∀ e ∈ row, e.1 < M.length) (h : RowInRange r Ω M row) :
    extRow H r Ω K M row (Accum.new n) = (roundRow H r K M row (Accum.new n)).map fun d => (some d.1, d.2.toExt) := by
  obtain ⟨adds, e1, e2, e3⟩ := adds_toExt (n := n) hrow h
  unfold extRow roundRow
  simp only [e1, e2, e3, bind, Except.bind]
  cases roundAddAll r (Accum.new n) adds with
  | error x => rfl
  | ok a =>
    simp only [Except.map, foreach_toExt]
    cases a.foreach with
    | error x => rfl
    | ok d =>
      simp only [finitePairs_toExt]
      cases offerAll H K [] (d.1.map Prod.swap) <;> rfl

theorem scorer_toExt (H : HeapImpl (R × Nat) pairLt) {r : Rounding R} {Ω : R} {n : Nat} {sim : SpRows R} {row : List (Nat × R)} (K : Nat) (rm : Bool)
    (hrow : ∀ e ∈ row, e.1 < sim.length) (h : RowInRange r Ω sim row) :
    extScorer H r Ω sim (Accum.new n) row K rm = (roundScorer H r sim (Accum.new n) row K rm).map fun d => (some d.1, d.2.toExt) := by
  obtain ⟨adds, e1, e2, e3⟩ := adds_toExt (n := n) hrow h
  unfold extScorer roundScorer
  simp only [e1, e2, e3, bind, Except.bind]
  cases roundAddAll r (Accum.new n) adds with
  | error x => rfl
  | ok a =>
    cases rm with
    | false =>
      simp only [Except.map, Bool.false_eq_true, if_false, pure, Except.pure, foreach_toExt]
      cases a.foreach with
      | error x => rfl
      | ok d =>
        simp only [finitePairs_toExt]
        cases offerAll H K [] (d.1.map Prod.swap) <;> rfl
    | true =>
      simp only [Except.map, if_true, clearAll_toExt]
      cases a.clearAll (row.map Prod.fst) with
      | error x => rfl
      | ok b =>
        simp only [foreach_toExt]
        cases b.foreach with
        | error x => rfl
        | ok d =>
          simp only [Except.map, finitePairs_toExt]
          cases offerAll H K [] (d.1.map Prod.swap) <;> rfl

theorem loop_toExt (H : HeapImpl (R × Nat) pairLt) {r : Rounding R} {Ω : R} {n K : Nat} (hK : 1 ≤ K) {M : SpRows R}
    (hM : ∀ r ∈ M, ∀ e ∈ r, e.1 < n) : ∀ (rows : SpRows R) (i : Nat), (∀ row ∈ rows, (∀ e ∈ row, e.1 < M.length) ∧ RowInRange r Ω M row) →
    extLoop H r Ω n K M i rows (Accum.new n) = (roundLoop H r n K M i rows (Accum.new n)).map fun d => (some d.1, d.2.toExt)
  | [], i, _ => by
    unfold extLoop roundLoop
    rw [new_toExt]
    rfl
  | row :: rows, i, h => by
    obtain ⟨hr, hrange⟩ := h row (by simp)
    obtain ⟨hp, e1, -⟩ := roundRow_ok H r hK M hM row hr
    have ih := loop_toExt H hK hM rows (i + 1) fun row hrow => h row (by simp [hrow])
    unfold extLoop roundLoop
    simp only [row_toExt H K hr hrange, e1, bind, Except.bind, Except.map]
    rw [← new_toExt, ih]
    cases knnStores n K i hp with
    | error x => rfl
    | ok ws =>
      simp only []
      cases roundLoop H r n K M (i + 1) rows (Accum.new n) <;> rfl

/-! ## The claim -/

/-- The products of two items are in range. -/
theorem col_inRange {r : Rounding R} {Ω : R} {n : Nat} {M : SpRows R} (hnd : ∀ row ∈ M, (row.map Prod.fst).Nodup)
    (h : ∀ i < n, ∀ j, Spec.SumInRange r.u r.η Ω (Spec.coRaters M i j) (Spec.similarityMass M i j)) {i : Nat} (hi : i < n) :
    RowInRange r Ω M (colOf n M i) := by
  intro j
  rw [pairsAt_col M hi, colPairs_length hnd, colPairs_map hnd (fun x => |x|) abs_zero]
  exact h i hi j

theorem knnFit_toExt (H : HeapImpl (R × Nat) pairLt) (r : Rounding R) (Ω : R) (n K : Nat) (hK : 1 ≤ K) (M : SpRows R)
    (hnd : ∀ row ∈ M, (row.map Prod.fst).Nodup) (hM : ∀ r ∈ M, ∀ e ∈ r, e.1 < n)
    (h : ∀ i < n, ∀ j, Spec.SumInRange r.u r.η Ω (Spec.coRaters M i j) (Spec.similarityMass M i j)) :
    extKnnFit H r Ω n K M = (roundKnnFit H r n K M).map some := by
  have e := loop_toExt H (r := r) (Ω := Ω) hK hM (transposeRows n M) 0 (by
    intro row hrow
    obtain ⟨i, hi⟩ := List.mem_iff_getElem?.mp hrow
    have hin : i < n := by
      have := (List.getElem?_eq_some_iff.mp hi).1
      rwa [transpose_length] at this
    rw [colOf_get M hin] at hi
    cases hi
    exact ⟨colOf_bound M hin, col_inRange hnd h hin⟩)
  unfold extKnnFit roundKnnFit
  simp only [e, bind, Except.bind]
  cases roundLoop H r n K M 0 (transposeRows n M) (Accum.new n) with
  | error x => rfl
  | ok d =>
    simp only [Except.map]
    cases writeAll (List.replicate (knnAllocated n K) (0, 0, 0)) d.1 <;> rfl

/-- **C103** (`fit`; partial: row 0 may have one more entry, see C23).  If the absolute products of any two items, added over the users, are in range,
no similarity overflows: `fit` ends with a similarity matrix of finite numbers, with the guarantees of C83. -/
theorem C103_fit_partial (H : HeapImpl (R × Nat) pairLt) (r : Rounding R) (Ω : R) (n K : Nat) (hK : 1 ≤ K)
    (hnK : n * K ≤ 2 ^ 31) (M : SpRows R) (hnd : ∀ row ∈ M, (row.map Prod.fst).Nodup) (hM : ∀ r ∈ M, ∀ e ∈ r, e.1 < n)
    (h : ∀ i < n, ∀ j, Spec.SumInRange r.u r.η Ω (Spec.coRaters M i j) (Spec.similarityMass M i j)) :
    ∃ sim, extKnnFit H r Ω n K M = .ok (some sim) ∧ sim.length = n ∧
      ∀ i < n, ∃ row out, sim[i]? = some row ∧ (row.map Prod.fst).Pairwise (· < ·) ∧
        Spec.ApproxRanking K (Spec.CoRated M i) (Spec.similarity M i)
          (fun j => Spec.sumError r.u r.η (Spec.coRaters M i j) (Spec.similarityMass M i j)) out ∧
        (i ≠ 0 ∨ 0 ∈ out.map Prod.fst ∨ (∀ i' < n, ¬ Spec.Few M K i') → ∀ p, p ∈ row ↔ p ∈ out) := by
  obtain ⟨sim, e, h1, h2⟩ := C83_fit_partial H r n K hK hnK M hnd hM
  exact ⟨sim, by rw [knnFit_toExt H r Ω n K hK M hnd hM h, e]; rfl, h1, h2⟩

/-- **C103** (`recommend`).  If the absolute products that are added up for any neighbour are in range, the scores are finite, the accumulator is left
clean, and C83 applies. -/
theorem C103_recommend (H : HeapImpl (R × Nat) pairLt) (r : Rounding R) (Ω : R) (sim : SpRows R) (hsim : SquareRows sim)
    (hnd : ∀ row ∈ sim, (row.map Prod.fst).Nodup) (row : List (Nat × R)) (hrow : ∀ e ∈ row, e.1 < sim.length) (K : Nat)
    (hK : 1 ≤ K) (rm : Bool) (h : ∀ j, Spec.SumInRange r.u r.η Ω (Spec.scoreTerms sim row j) (Spec.itemMass sim row j)) :
    ∃ out, extScorer H r Ω sim (Accum.new sim.length) row K rm = .ok (some out, Accum.new sim.length) ∧
      Spec.ApproxRanking K (Spec.Reachable sim row) (knnScore sim row rm)
        (fun j => if rm = true ∧ j ∈ row.map Prod.fst then 0
          else Spec.sumError r.u r.η (Spec.scoreTerms sim row j) (Spec.itemMass sim row j)) out := by
  obtain ⟨out, e, h1⟩ := C83_recommend H r sim hsim hnd row hrow K hK rm
  refine ⟨out, ?_, h1⟩
  rw [scorer_toExt H K rm hrow, e, new_toExt]
  · rfl
  · intro j
    rw [pairsAt_length hnd, pairsAt_map hnd (fun x => |x|) abs_zero]
    exact h j

end

end Implicit
