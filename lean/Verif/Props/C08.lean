import Mathlib.Algebra.Order.Field.Basic
import Verif.Lemmas.Similar
import Verif.Props.C05

/-!
# C08 — `similar_items` / `similar_users` return only eligible ids
-/

set_option linter.unusedSectionVars false

namespace Implicit

variable {R : Type} [LinearOrder R] [Field R] [IsStrictOrderedRing R] {f : Nat}

/-- Dividing all scores by a positive number keeps a ranking a ranking. -/
theorem _root_.Implicit.Spec.IsRanking.scaled {k : Nat} {E : Nat → Prop} {score : Nat → Option R}
    {good : List (Nat × R)} (h : Spec.IsRanking k E score good) {n : R} (hn : 0 < n) :
    Spec.IsRanking k E (fun i => (score i).map (· / n)) (good.map fun p => (p.1, p.2 / n)) := by
  have hfst : (good.map fun p => (p.1, p.2 / n)).map Prod.fst = good.map Prod.fst := by
    rw [List.map_map]; rfl
  refine ⟨?_, by rw [hfst]; exact h.distinct, ?_, by simpa using h.atMost, ?_, ?_⟩
  · intro q hq
    obtain ⟨p, hp, rfl⟩ := List.mem_map.mp hq
    obtain ⟨h1, h2⟩ := h.mem p hp
    exact ⟨h1, by simp only [h2, Option.map_some]⟩
  · rw [List.pairwise_map]
    exact h.sorted.imp (fun hab => (div_le_div_iff_of_pos_right hn).mpr hab)
  · intro hl i hi
    rw [hfst]; exact h.complete (by simpa using hl) i hi
  · intro i s hi hs hnot q hq
    obtain ⟨p, hp, rfl⟩ := List.mem_map.mp hq
    rw [hfst] at hnot
    cases hsc : score i with
    | none => simp only [hsc, Option.map_none] at hs; cases hs
    | some s' =>
      simp only [hsc, Option.map_some, Option.some.injEq] at hs
      subst hs
      exact (div_le_div_iff_of_pos_right hn).mpr (h.best i s' hi hsc hnot p hp)

/-- The similarity of `x` (with norm `n`) to entity `j`: the inner product divided by both norms. -/
def simScore (factors : List (Vec f R)) (norms : List R) (x : Vec f R) (n : R) (j : Nat) : Option R :=
  match factors[j]?, norms[j]? with
  | some y, some nj => some (dot x y / nj / n)
  | _, _ => none

theorem scoreRow_norms {items : List (Vec f R)} {ns : List R} (h : ns.length = items.length)
    (q : Vec f R) : ∃ s, scoreRow items (some ns) q = .ok s ∧ s.length = items.length ∧
      ∀ (j : Nat) y n, items[j]? = some y → ns[j]? = some n → s[j]? = some (dot q y / n) := by
  refine ⟨List.zipWith (fun y n => dot q y / n) items ns, ?_, by simp [h], ?_⟩
  · unfold scoreRow; simp only [if_pos h]
  · intro j y n hy hn
    rw [List.getElem?_zipWith, hy, hn]

/-- What `similar_*` returns with a filter: a ranking of the unfiltered entities, then (only when all
of those are listed) filtered ones, then `(0, 0)` cells if `N` exceeds the number of entities. -/
theorem C08_filter_answer (H : HeapImpl (R × Nat) pairLt) (neginf : R) (factors : List (Vec f R))
    (norms : List R) (hlen : norms.length = factors.length) (hpos : ∀ n ∈ norms, 0 < n)
    (u : Nat) (x : Vec f R) (hu : factors[u]? = some x) (n : R) (hn : norms[u]? = some n)
    (fi : Option PyFilter) (hfi : ∀ p, fi = some p → ∀ i ∈ p.ids, i < factors.length)
    (hlow : ∀ (j : Nat) y nj, factors[j]? = some y → norms[j]? = some nj → neginf < dot x y / nj)
    (N : Nat) (hN : 1 ≤ N) :
    ∃ good rest,
      similar H neginf factors norms (.one u) N fi none =
        .ok (.one (good ++ rest ++ List.replicate (N - factors.length) (0, 0))) ∧
      Spec.IsRanking N (fun i => i < factors.length ∧ ∀ p, fi = some p → i ∉ p.ids)
        (simScore factors norms x n) good ∧
      (∀ p ∈ rest, (∃ F, fi = some F ∧ p.1 ∈ F.ids) ∧ p.2 = neginf / n) ∧
      (rest ≠ [] → ∀ i, i < factors.length → (∀ p, fi = some p → i ∉ p.ids) →
        i ∈ good.map Prod.fst) ∧
      (good ++ rest).length = min N factors.length ∧
      ((good ++ rest).map Prod.fst).Nodup := by
  have hnpos : 0 < n := hpos n (List.mem_of_getElem? hn)
  obtain ⟨s, hs, hsl, hsj⟩ := scoreRow_norms hlen x
  set bad := badAt none (fi.map PyFilter.ids) 0 with hbad
  have hmem : ∀ i, i ∈ bad ↔ ∃ F, fi = some F ∧ i ∈ F.ids := by
    intro i; rw [hbad]; cases fi <;> simp [badAt]
  have hnot : ∀ i, i ∉ bad ↔ ∀ p, fi = some p → i ∉ p.ids := by
    intro i; rw [hmem]; push Not; rfl
  have hsmem : ∀ v ∈ s, neginf < v := by
    intro v hv
    obtain ⟨j, hj, rfl⟩ := List.getElem_of_mem hv
    have h1 : factors[j]? = some factors[j] := List.getElem?_eq_getElem (by omega)
    have h2 : norms[j]? = some norms[j] := List.getElem?_eq_getElem (by omega)
    have h3 := hsj j _ _ h1 h2
    rw [List.getElem?_eq_getElem hj] at h3
    rw [Option.some.inj h3]
    exact hlow j _ _ h1 h2
  obtain ⟨good, rest, e, hr, hrest, hall, hl, hnd⟩ := masked_selection H neginf hN s bad hsmem
  rw [hsl] at hl
  have hfst : ∀ l : List (Nat × R), (l.map fun p => (p.1, p.2 / n)).map Prod.fst = l.map Prod.fst := by
    intro l; rw [List.map_map]; rfl
  refine ⟨good.map fun p => (p.1, p.2 / n), rest.map fun p => (p.1, p.2 / n), ?_, ?_, ?_, ?_, ?_, ?_⟩
  · unfold similar
    simp only [Ids.toList]
    rw [gather_one hu, gather_one hn]
    simp only [bind, Except.bind]
    refine similarWith_one H neginf (s := mask neginf bad s) (fac := factors) (ns := norms)
      (its := none) rfl hN (by intro h; rw [h] at hu; simp at hu) ?_ ?_
    · rw [maskedRow_eq neginf hs]
      constructor
      · intro rows hrows; cases hrows
      · intro l hl
        cases fi with
        | none => simp at hl
        | some p => simp at hl; subst hl; rw [hsl]; exact hfi p rfl
    · rw [remapRow_none]
      unfold simRow padRow
      have h1 : (sel H N (mask neginf bad s)).length = min N factors.length := by
        rw [← hl, ← e, List.length_map]
      rw [e, h1]
      have h2 : N - min N factors.length = N - factors.length := by omega
      simp [h2]
  · have := hr.scaled hnpos
    refine ⟨?_, this.distinct, this.sorted, this.atMost, ?_, ?_⟩
    · intro p hp
      obtain ⟨⟨h1, h2⟩, h3⟩ := this.mem p hp
      refine ⟨⟨by omega, (hnot _).mp h2⟩, ?_⟩
      have g1 : factors[p.1]? = some factors[p.1] := List.getElem?_eq_getElem (by omega)
      have g2 : norms[p.1]? = some norms[p.1] := List.getElem?_eq_getElem (by omega)
      unfold simScore
      rw [g1, g2]
      rw [hsj _ _ _ g1 g2] at h3
      exact h3
    · intro hl' i hi
      exact this.complete hl' i ⟨by omega, (hnot i).mpr hi.2⟩
    · intro i v hi hv hni p hp
      have g1 : factors[i]? = some factors[i] := List.getElem?_eq_getElem (by omega)
      have g2 : norms[i]? = some norms[i] := List.getElem?_eq_getElem (by omega)
      refine this.best i v ⟨by omega, (hnot i).mpr hi.2⟩ ?_ hni p hp
      simp only [simScore, g1, g2] at hv
      simp only [hsj _ _ _ g1 g2, Option.map_some]
      exact hv
  · intro q hq
    obtain ⟨p, hp, rfl⟩ := List.mem_map.mp hq
    obtain ⟨h1, _, h3⟩ := hrest p hp
    exact ⟨(hmem _).mp h1, by simp only [h3]⟩
  · intro hne i hi hf
    rw [hfst]
    exact hall (by intro h; rw [h] at hne; exact hne rfl) i (by omega) ((hnot i).mpr hf)
  · simpa using hl
  · rw [← List.map_append, hfst]; exact hnd

/-- What `similar_*` returns without restrictions: the ranking of all entities, followed by `(0, 0)`
cells if `N` exceeds their number. -/
theorem C08_plain_answer (H : HeapImpl (R × Nat) pairLt) (neginf : R) (factors : List (Vec f R))
    (norms : List R) (hlen : norms.length = factors.length) (hpos : ∀ n ∈ norms, 0 < n)
    (u : Nat) (x : Vec f R) (hu : factors[u]? = some x) (n : R) (hn : norms[u]? = some n)
    (N : Nat) (hN : 1 ≤ N) :
    ∃ good,
      similar H neginf factors norms (.one u) N none none =
        .ok (.one (good ++ List.replicate (N - factors.length) (0, 0))) ∧
      Spec.IsRanking N (fun i => i < factors.length) (simScore factors norms x n) good ∧
      good.length = min N factors.length := by
  have hnpos : 0 < n := hpos n (List.mem_of_getElem? hn)
  obtain ⟨s, hs, hsl, hsj⟩ := scoreRow_norms hlen x
  obtain ⟨hr, hl⟩ := plain_selection H hN s
  rw [hsl] at hl
  refine ⟨((sel H N s).map Prod.swap).map fun p => (p.1, p.2 / n), ?_, ?_, by simpa using hl⟩
  · unfold similar
    simp only [Ids.toList]
    rw [gather_one hu, gather_one hn]
    simp only [bind, Except.bind]
    refine similarWith_one H neginf (s := s) (fac := factors) (ns := norms)
      (its := none) rfl hN (by intro h; rw [h] at hu; simp at hu) ?_ ?_
    · have := maskedRow_eq (fq := none) (fi := none) (idx := 0) neginf hs ⟨by simp, by simp⟩
      simpa [badAt, mask_nil] using this
    · rw [remapRow_none]
      unfold simRow padRow
      rw [hl]
      have h2 : N - min N factors.length = N - factors.length := by omega
      simp [h2]
  · have := hr.scaled hnpos
    have hget : ∀ i, i < factors.length →
        (s[i]?).map (· / n) = simScore factors norms x n i := by
      intro i hi
      have g1 : factors[i]? = some factors[i] := List.getElem?_eq_getElem (by omega)
      have g2 : norms[i]? = some norms[i] := List.getElem?_eq_getElem (by omega)
      unfold simScore
      rw [g1, g2, hsj _ _ _ g1 g2]; rfl
    refine ⟨?_, this.distinct, this.sorted, this.atMost, ?_, ?_⟩
    · intro p hp
      obtain ⟨h1, h3⟩ := this.mem p hp
      exact ⟨by omega, by rw [← hget _ (by omega)]; exact h3⟩
    · intro hl' i hi
      exact this.complete hl' i (by omega)
    · intro i v hi hv hni p hp
      exact this.best i v (by omega) (by rw [hget _ hi]; exact hv) hni p hp

/-- What `similar_*` returns with `items=S` (distinct valid ids): the ranking of `S`, followed by
`N - |S|` cells holding the first id of `S` with score 0. -/
theorem C08_items_answer (H : HeapImpl (R × Nat) pairLt) (neginf : R) (factors : List (Vec f R))
    (norms : List R) (hlen : norms.length = factors.length) (hpos : ∀ n ∈ norms, 0 < n)
    (u : Nat) (x : Vec f R) (hu : factors[u]? = some x) (n : R) (hn : norms[u]? = some n)
    (S : List Int) (hnd : S.Nodup) (s0 : Int) (hs0 : S.head? = some s0)
    (hS : ∀ i ∈ S, 0 ≤ i ∧ i < factors.length)
    (N : Nat) (hN : 1 ≤ N) :
    ∃ good,
      similar H neginf factors norms (.one u) N none (some S) =
        .ok (.one (good ++ List.replicate (N - S.length) (s0.toNat, 0))) ∧
      Spec.IsRanking N (fun i => (i : Int) ∈ S) (simScore factors norms x n) good ∧
      good.length = min N S.length := by
  have hnpos : 0 < n := hpos n (List.mem_of_getElem? hn)
  have hne : S ≠ [] := by intro h; subst h; simp at hs0
  obtain ⟨fac, ns, hres, hfl, hnl, hg⟩ := restrictSimilar_ok (fi := none) rfl hne hlen hS
  obtain ⟨s, hs, hsl, hsj⟩ := scoreRow_norms (by omega : ns.length = fac.length) x
  set its := S.map Int.toNat with hits
  have hitsl : its.length = S.length := by simp [hits]
  have hitsnd : its.Nodup := by
    refine List.Nodup.map_on ?_ hnd
    intro a ha b hb hab
    have h1 := (hS a ha).1; have h2 := (hS b hb).1
    omega
  obtain ⟨hr, hl⟩ := plain_selection H hN s
  rw [hsl, hfl] at hl
  set row := (sel H N s).map Prod.swap with hrow
  have hlt : ∀ p ∈ row, p.1 < its.length := by
    intro p hp; have := (hr.mem p hp).1; omega
  refine ⟨rename its (row.map fun p => (p.1, p.2 / n)), ?_, ?_, ?_⟩
  · unfold similar
    simp only [Ids.toList]
    rw [gather_one hu, gather_one hn]
    simp only [bind, Except.bind]
    refine similarWith_one H neginf (s := s) hres hN
      (by intro h; rw [h] at hfl; simp at hfl; exact hne (by simpa using hfl.symm)) ?_ ?_
    · have := maskedRow_eq (fq := none) (fi := none) (idx := 0) neginf hs ⟨by simp, by simp⟩
      simpa [badAt, mask_nil] using this
    · have e : simRow H N s n = (row.map fun p => (p.1, p.2 / n)) ++
          List.replicate (N - S.length) (0, 0) := by
        unfold simRow padRow
        rw [← hrow, hl]
        have h2 : N - min N S.length = N - S.length := by omega
        simp [h2]
      rw [e, remapRow_some, rename_append]
      · congr 2
        have h0 : its[0]? = some s0.toNat := by
          cases S with
          | nil => simp at hs0
          | cons a S => simp at hs0; simp [hits, hs0]
        simp [rename, h0]
      · intro p hp
        rcases List.mem_append.mp hp with hp | hp
        · obtain ⟨q, hq, rfl⟩ := List.mem_map.mp hp
          exact hlt q hq
        · rw [(List.mem_replicate.mp hp).2]
          have := List.length_pos_iff.mpr hne
          simp; omega
  · refine (hr.scaled hnpos).renamed hitsnd ?_ ?_ ?_ ?_
    · intro j hj; omega
    · intro i hi
      have : i ∈ its := List.mem_map.mpr ⟨i, hi, by simp⟩
      obtain ⟨j, hj⟩ := List.mem_iff_getElem?.mp this
      exact ⟨j, hj, by have := (List.getElem?_eq_some_iff.mp hj).1; omega⟩
    · intro j i hj _
      have := List.mem_of_getElem? hj
      obtain ⟨a, ha, rfl⟩ := List.mem_map.mp this
      rwa [Int.toNat_of_nonneg (hS a ha).1]
    · intro j i hj
      obtain ⟨y, nj, g1, g2, g3, g4⟩ := hg j i hj
      unfold simScore
      rw [g1, g3, hsj j y nj g2 g4]
      rfl
  · simp [rename, hrow] at hl ⊢; exact hl

/-- **C08** for requests not exceeding `|S|`: exactly the `N` best members of `S`. -/
theorem C08_items_partial (H : HeapImpl (R × Nat) pairLt) (neginf : R) (factors : List (Vec f R))
    (norms : List R) (hlen : norms.length = factors.length) (hpos : ∀ n ∈ norms, 0 < n)
    (u : Nat) (x : Vec f R) (hu : factors[u]? = some x) (n : R) (hn : norms[u]? = some n)
    (S : List Int) (hnd : S.Nodup) (hS : ∀ i ∈ S, 0 ≤ i ∧ i < factors.length)
    (N : Nat) (hN : 1 ≤ N) (hle : N ≤ S.length) :
    ∃ out, similar H neginf factors norms (.one u) N none (some S) = .ok (.one out) ∧
      out.length = N ∧ (∀ p ∈ out, (p.1 : Int) ∈ S) ∧
      Spec.IsRanking N (fun i => (i : Int) ∈ S) (simScore factors norms x n) out := by
  obtain ⟨s0, hs0⟩ : ∃ s0, S.head? = some s0 := by
    cases S with
    | nil => simp at hle; omega
    | cons a S => exact ⟨a, rfl⟩
  obtain ⟨good, e, hr, hl⟩ :=
    C08_items_answer H neginf factors norms hlen hpos u x hu n hn S hnd s0 hs0 hS N hN
  refine ⟨good, ?_, by omega, fun p hp => (hr.mem p hp).1, hr⟩
  have : N - S.length = 0 := by omega
  simpa [this] using e

/-- **C08** with `filter_items=F` when at least `N` unfiltered entities exist. -/
theorem C08_filter_partial (H : HeapImpl (R × Nat) pairLt) (neginf : R) (factors : List (Vec f R))
    (norms : List R) (hlen : norms.length = factors.length) (hpos : ∀ n ∈ norms, 0 < n)
    (u : Nat) (x : Vec f R) (hu : factors[u]? = some x) (n : R) (hn : norms[u]? = some n)
    (F : List Nat) (hF : ∀ i ∈ F, i < factors.length)
    (hlow : ∀ (j : Nat) y nj, factors[j]? = some y → norms[j]? = some nj → neginf < dot x y / nj)
    (N : Nat) (hN : 1 ≤ N)
    (hcard : N ≤ ((List.range factors.length).filter (fun i => decide (i ∉ F))).length) :
    ∃ out, similar H neginf factors norms (.one u) N (some (.array F)) none = .ok (.one out) ∧
      out.length = N ∧ (∀ p ∈ out, p.1 ∉ F) ∧
      Spec.IsRanking N (fun i => i < factors.length ∧ i ∉ F) (simScore factors norms x n) out := by
  have hN' : N ≤ factors.length := le_trans hcard (by
    simpa using List.length_filter_le (fun i => decide (i ∉ F)) (List.range factors.length))
  obtain ⟨good, rest, e, hr, _, _, hl, _⟩ :=
    C08_filter_answer H neginf factors norms hlen hpos u x hu n hn (some (.array F))
      (by intro p hp; cases hp; exact hF) hlow N hN
  have helig : (fun i => i < factors.length ∧ ∀ p, some (PyFilter.array F) = some p → i ∉ p.ids) =
      (fun i => i < factors.length ∧ i ∉ F) := by
    funext i; simp only [Option.some.injEq, forall_eq', PyFilter.ids]
  rw [helig] at hr
  have hgl : good.length = N := by
    refine ranking_card (n := factors.length) hr ?_
    refine le_trans hcard (le_of_eq ?_)
    congr 1
    apply List.filter_congr
    intro i hi
    simp [List.mem_range.mp hi]
  have hrestnil : rest = [] := by
    rw [List.length_append, Nat.min_eq_left hN'] at hl
    apply List.length_eq_zero_iff.mp; omega
  subst hrestnil
  refine ⟨good, ?_, hgl, fun p hp => (hr.mem p hp).1.2, hr⟩
  have : N - factors.length = 0 := by omega
  simpa [this] using e

/-- **C08 is violated**: with `items=S` and `N > |S|` the first member of `S` is returned again with
score 0; with `filter_items` and too few unfiltered entities a filtered one is returned. -/
theorem C08_similar_violated (H : HeapImpl (Rat × Nat) pairLt) :
    similar H (-1000) [![1], ![-1], ![2]] [1, 1, 2] (.one 0) 3 none (some [1, 2]) =
      .ok (.one [(2, 1), (1, -1), (1, 0)]) ∧
    similar H (-1000) [![1], ![-1], ![2]] [1, 1, 2] (.one 0) 3 (some (.list [2])) none =
      .ok (.one [(0, 1), (1, -1), (2, -1000)]) := by
  have hsel : ∀ k s, sel H k s = sel (insertionHeap (R := Rat)) k s := by
    intro k s; unfold sel; rw [C01_select_heap_independent H insertionHeap]
  constructor
  · show similarWith H (-1000) [![1], ![-1], ![2]] [1, 1, 2] (.one 0) [![1]] [1] 3 none
      (some [1, 2]) = _
    refine similarWith_one H _ (s := [-1, 1]) (x := ![1]) (n := 1) (fac := [![-1], ![2]])
      (ns := [1, 2]) (its := some [1, 2]) (by decide +kernel) (by omega) (by simp)
      (by decide +kernel) ?_
    unfold simRow; rw [hsel]; decide +kernel
  · show similarWith H (-1000) [![1], ![-1], ![2]] [1, 1, 2] (.one 0) [![1]] [1] 3
      (some (.list [2])) none = _
    refine similarWith_one H _ (s := [1, -1, -1000]) (x := ![1]) (n := 1)
      (fac := [![1], ![-1], ![2]])
      (ns := [1, 1, 2]) (its := none) (by decide +kernel) (by omega) (by simp)
      (by decide +kernel) ?_
    unfold simRow; rw [hsel]; decide +kernel

/-- The hypotheses of the partial theorems are met by a concrete table of three vectors. -/
example : ([1, 1, 2] : List Rat).length = ([![1], ![-1], ![2]] : List (Vec 1 Rat)).length ∧
    (∀ n ∈ ([1, 1, 2] : List Rat), 0 < n) ∧
    similar insertionHeap (-1000) [![1], ![-1], ![2]] [1, 1, (2 : Rat)] (.one 0) 1 none
      (some [2, 1]) = .ok (.one [(2, 1)]) := by
  refine ⟨rfl, ?_, by decide +kernel⟩
  intro n hn; simp at hn; rcases hn with rfl | rfl <;> norm_num

end Implicit
