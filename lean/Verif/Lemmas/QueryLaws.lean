import Verif.Spec.Laws
import Verif.Lemmas.Similar
import Verif.Lemmas.GpuQuery
import Verif.Props.C68

set_option linter.unusedSectionVars false

namespace Implicit

open Spec

variable {R : Type} [LinearOrder R] [Field R] {f : Nat}

omit [Field R] in
/-- A shorter ranking has the first scores of a longer one. -/
theorem ranking_prefix_scores {N N' : Nat} (h : N ≤ N') {E : Nat → Prop} {sc : Nat → Option R}
    {a b : List (Nat × R)} (ha : IsRanking N E sc a) (hb : IsRanking N' E sc b) : ScorePrefix N a b := by
  have hb' := hb.take h
  unfold ScorePrefix
  rw [← List.map_take]
  exact ranking_scores ha hb' (ranking_length ha hb')

omit [Field R] in
/-- Without ties a shorter ranking is the beginning of a longer one. -/
theorem ranking_prefix {N N' : Nat} (h : N ≤ N') {E : Nat → Prop} {sc : Nat → Option R}
    {a b : List (Nat × R)} (ha : IsRanking N E sc a) (hb : IsRanking N' E sc b)
    (hinj : ∀ i j, E i → E j → sc i = sc j → i = j) : a = b.take N :=
  ranking_unique ha (hb.take h) (ranking_length ha (hb.take h)) hinj

omit [Field R] in
theorem sel_scores (H : HeapImpl (R × Nat) pairLt) {k : Nat} (hk : 1 ≤ k) (s : List R) :
    (sel H k s).map Prod.fst = (s.mergeSort (fun a b => decide (b ≤ a))).take k := by
  obtain ⟨o, e, h⟩ := C01_select_scores H k hk s
  have := selectRow_eq_sel H hk s
  rw [e] at this; cases this; exact h

theorem padRow_scores (H : HeapImpl (R × Nat) pairLt) {k : Nat} (hk : 1 ≤ k) (s : List R) :
    (padRow k (sel H k s)).map Prod.snd =
      (s.mergeSort (fun a b => decide (b ≤ a))).take k ++ List.replicate (k - s.length) 0 := by
  unfold padRow
  rw [List.map_append, List.map_map, List.map_replicate, ← sel_scores H hk s, (sel_topk H hk s).length]
  congr 2
  omega

theorem padRow_prefix (H : HeapImpl (R × Nat) pairLt) {k k' : Nat} (hk : 1 ≤ k) (h : k ≤ k') (s : List R) :
    ScorePrefix k (padRow k (sel H k s)) (padRow k' (sel H k' s)) := by
  unfold ScorePrefix
  rw [padRow_scores H hk, padRow_scores H (le_trans hk h), List.take_append, List.take_take, Nat.min_eq_left h,
    List.take_replicate, List.length_take, List.length_mergeSort]
  congr 2
  omega

theorem remapRow_scores {its : Option (List Nat)} {row row' : List (Nat × R)} (h : remapRow its row = .ok row') :
    row'.map Prod.snd = row.map Prod.snd := by
  cases its with
  | none => cases h; rfl
  | some l =>
    unfold remapRow at h
    simp only at h
    obtain ⟨hl, hg⟩ := mapM_ok_iff h
    apply List.ext_getElem (by simp [hl])
    intro i h1 h2
    simp only [List.length_map] at h1 h2
    obtain ⟨y, hy, hy'⟩ := hg i row[i] (List.getElem?_eq_getElem h2)
    have e : row'[i] = y := by
      have := List.getElem?_eq_getElem h1
      rw [hy'] at this
      exact (Option.some.inj this).symm
    rw [List.getElem_map, List.getElem_map, e]
    split at hy
    · cases hy
    · cases hy; rfl

/-- The ids of a returned row are positions in the list of restricted ids. -/
theorem remapRow_ok {l : List Nat} {row : List (Nat × R)} (h : ∀ p ∈ row, p.1 < l.length) :
    ∃ row', remapRow (some l) row = .ok row' := by
  unfold remapRow
  simp only
  induction row with
  | nil => exact ⟨[], rfl⟩
  | cons p row ih =>
    obtain ⟨r, hr⟩ := ih fun q hq => h q (List.mem_cons_of_mem _ hq)
    rw [List.mapM_cons, hr, List.getElem?_eq_getElem (h p (by simp))]
    exact ⟨_, rfl⟩

theorem scoreRow_size {items : List (Vec f R)} {norms : Option (List R)} {q : Vec f R} {s : List R}
    (h : scoreRow items norms q = .ok s) : s.length = items.length := by
  unfold scoreRow at h
  split at h
  · cases h; simp
  · split at h
    · rename_i hl
      cases h
      rw [List.length_zipWith, hl, Nat.min_self]
    · cases h

theorem gatherInt_size {α : Type} {l : List α} : ∀ {is : List Int} {xs : List α}, gatherInt l is = .ok xs → xs.length = is.length
  | [], xs, h => by cases h; rfl
  | i :: is, xs, h => by
    unfold gatherInt at h
    cases h1 : pyIndex l i with
    | error e => rw [h1] at h; cases h
    | ok x =>
      cases h2 : gatherInt l is with
      | error e => rw [h1, h2] at h; cases h
      | ok ys =>
        rw [h1, h2] at h
        cases h
        simp [gatherInt_size h2]

theorem topk_prefix {H : HeapImpl (R × Nat) pairLt} {neginf : R} {items query : List (Vec f R)}
    {k k' : Nat} {norms : Option (List R)} {fq : Option (List (List Nat))} {fi : Option (List Nat)}
    {rows' : List (List (Nat × R))} (h : topk H neginf items query k' norms fq fi = .ok rows')
    (hk : 1 ≤ k) (hkk : k ≤ k') :
    ∃ rows, topk H neginf items query k norms fq fi = .ok rows ∧
      List.Forall₂ (fun a b => ScorePrefix k a b ∧ b.length = k' ∧ ∀ p ∈ a, p.1 < items.length) rows rows' := by
  by_cases hq : query = []
  · subst hq
    rw [topk_nil] at h; cases h
    exact ⟨[], topk_nil .., .nil⟩
  · obtain ⟨-, hi, hm⟩ := topk_ok_inv h hq
    obtain ⟨x0, hx0⟩ := List.exists_mem_of_ne_nil _ hq
    choose! S hS using hm
    obtain ⟨T, hT⟩ : ∃ T : Nat → List R, T = fun i => S i (query[i]?.getD x0) := ⟨_, rfl⟩
    have hT' : ∀ idx q, query[idx]? = some q → maskedRow neginf items norms fq fi idx q = .ok (T idx) := by
      intro idx q hq'
      have := hS idx q hq'
      rw [hT]; simp only [hq', Option.getD_some]; exact this
    rw [topk_eq H neginf (le_trans hk hkk) hi hT'] at h
    cases h
    refine ⟨_, topk_eq H neginf hk hi hT', ?_⟩
    rw [List.forall₂_map_left_iff, List.forall₂_map_right_iff, List.forall₂_same]
    intro r hr
    have hr := List.mem_range.mp hr
    refine ⟨padRow_prefix H hk hkk _, length_padRow (sel_length H (le_trans hk hkk) _), ?_⟩
    have hlen : (T r).length = items.length := by
      obtain ⟨q, hq'⟩ : ∃ q, query[r]? = some q := ⟨_, List.getElem?_eq_getElem hr⟩
      have e := hT' r q hq'
      obtain ⟨scores, hs, hf⟩ := maskedRow_ok_inv e
      rw [maskedRow_eq neginf hs hf] at e
      rw [← Except.ok.inj e, length_mask]
      exact scoreRow_size hs
    intro p hp
    unfold padRow at hp
    rcases List.mem_append.mp hp with h1 | h1
    · obtain ⟨w, hw, rfl⟩ := List.mem_map.mp h1
      have := (sel_topk H hk (T r)).faithful w hw
      have := (List.getElem?_eq_some_iff.mp this).1
      simp only [Prod.fst_swap]
      omega
    · have := List.eq_of_mem_replicate h1
      rw [this]
      exact List.length_pos_iff.mpr hi

theorem packAnswer_rowwise {r : List (Nat × R) → List (Nat × R) → Prop} {ids : Ids} {rows rows' : List (List (Nat × R))}
    (h : List.Forall₂ r rows rows') {big : Answer R} (hb : packAnswer ids rows' = .ok big) :
    ∃ small, packAnswer ids rows = .ok small ∧ Rowwise r small big := by
  cases ids with
  | many us => cases hb; exact ⟨_, rfl, .many h⟩
  | one u =>
    cases h with
    | nil => cases hb
    | cons h1 h2 => cases hb; exact ⟨_, rfl, .one h1⟩

theorem _root_.Implicit.Spec.Rowwise.imp {r s : List (Nat × R) → List (Nat × R) → Prop} (hrs : ∀ a b, r a b → s a b)
    {a b : Answer R} (h : Rowwise r a b) : Rowwise s a b := by
  cases h with
  | one h => exact .one (hrs _ _ h)
  | many h => exact .many (h.imp fun _ _ => hrs _ _)

theorem remap_prefix {its : Option (List Nat)} {n k k' : Nat} (hits : ∀ l, its = some l → l.length = n)
    {rows rows' out' : List (List (Nat × R))}
    (h : List.Forall₂ (fun a b => ScorePrefix k a b ∧ b.length = k' ∧ ∀ p ∈ a, p.1 < n) rows rows')
    (ho : rows'.mapM (remapRow its) = .ok out') :
    ∃ out, rows.mapM (remapRow its) = .ok out ∧
      List.Forall₂ (fun a b => ScorePrefix k a b ∧ b.length = k') out out' := by
  induction h generalizing out' with
  | nil => cases ho; exact ⟨[], rfl, .nil⟩
  | @cons a b as bs hab _ ih =>
    rw [List.mapM_cons] at ho
    cases hb : remapRow its b with
    | error e => rw [hb] at ho; cases ho
    | ok b' =>
      cases hbs : bs.mapM (remapRow its) with
      | error e => rw [hb, hbs] at ho; cases ho
      | ok bs' =>
        rw [hb, hbs] at ho
        cases ho
        obtain ⟨out, e, hf⟩ := ih hbs
        obtain ⟨a', ha'⟩ : ∃ a', remapRow its a = .ok a' := by
          cases its with
          | none => exact ⟨a, rfl⟩
          | some l => exact remapRow_ok fun p hp => by rw [hits l rfl]; exact hab.2.2 p hp
        refine ⟨a' :: out, by rw [List.mapM_cons, ha', e]; rfl, .cons ⟨?_, ?_⟩ hf⟩
        · unfold ScorePrefix
          rw [remapRow_scores ha', remapRow_scores hb]
          exact hab.1
        · have := congrArg List.length (remapRow_scores hb)
          simp only [List.length_map] at this
          rw [this]; exact hab.2.1

/-- Asking for another number of results changes nothing but this number. -/
theorem restrictItems_prefix {m : Factors f R} {N N' n' : Nat} (hN : 1 ≤ N) (h : N ≤ N') {fi : Option PyFilter}
    {items : Option (List Int)} {fac : List (Vec f R)} {its : Option (List Nat)}
    (hr : restrictItems m N' fi items = .ok (n', fac, its)) :
    ∃ n, restrictItems m N fi items = .ok (n, fac, its) ∧ 1 ≤ n ∧ n ≤ n' ∧
      (∀ l : List R, l.length = n' → l.take n = l.take N) ∧ ∀ l, its = some l → l.length = fac.length := by
  cases items with
  | none =>
    cases hr
    exact ⟨N, rfl, hN, h, fun _ _ => rfl, by simp⟩
  | some S =>
    unfold restrictItems at hr ⊢
    simp only [bind, Except.bind] at hr ⊢
    cases ht : truthyOpt fi with
    | error e => rw [ht] at hr; cases hr
    | ok b =>
      rw [ht] at hr
      cases b with
      | true => simp only [if_true] at hr; cases hr
      | false =>
        simp only [if_false, Bool.false_eq_true, pure, Except.pure] at hr ⊢
        cases hg : gatherInt m.item (S.insertionSort (· ≤ ·)) with
        | error e => rw [hg] at hr; cases hr
        | ok xs =>
          rw [hg] at hr
          simp only at hr ⊢
          cases hc : checkItems m.item.length (S.insertionSort (· ≤ ·)) with
          | error e => rw [hc] at hr; cases hr
          | ok u =>
            rw [hc] at hr
            cases hr
            have hS : S.length ≠ 0 := by
              intro h0
              have : S = [] := List.length_eq_zero_iff.mp h0
              subst this
              cases hc
            refine ⟨min N S.length, rfl, by omega, by omega, ?_, ?_⟩
            · intro l hl
              rw [List.take_eq_take_iff]
              omega
            · intro l hl
              cases hl
              rw [List.length_map, gatherInt_size hg]

theorem restrictSimilar_size {factors : List (Vec f R)} {norms : List R} {fi : Option PyFilter}
    {items : Option (List Int)} {fac : List (Vec f R)} {ns : List R} {its : Option (List Nat)}
    (hr : restrictSimilar factors norms fi items = .ok (fac, ns, its)) : ∀ l, its = some l → l.length = fac.length := by
  intro l hl
  subst hl
  cases items with
  | none => cases hr
  | some S =>
    unfold restrictSimilar at hr
    simp only [bind, Except.bind] at hr
    cases ht : truthyOpt fi with
    | error e => rw [ht] at hr; cases hr
    | ok b =>
      rw [ht] at hr
      cases b with
      | true => simp only [if_true] at hr; cases hr
      | false =>
        simp only [if_false, Bool.false_eq_true, pure, Except.pure] at hr
        cases hg : gatherInt factors S with
        | error e => rw [hg] at hr; cases hr
        | ok xs =>
          rw [hg] at hr
          simp only at hr
          cases hg2 : gatherInt norms S with
          | error e => rw [hg2] at hr; cases hr
          | ok ys =>
            rw [hg2] at hr
            simp only at hr
            cases hc : checkItems factors.length S with
            | error e => rw [hc] at hr; cases hr
            | ok u =>
              rw [hc] at hr
              cases hr
              rw [List.length_map, gatherInt_size hg]

end Implicit
