import Verif.Model.GpuQuery
import Verif.Spec.GpuQuery
import Verif.Lemmas.Items
import Verif.Lemmas.ALS
import Verif.Props.C45
import Verif.Props.C08
import Mathlib.Tactic.ByContra

set_option linter.unusedSectionVars false

namespace Implicit

section order
variable {R : Type} [LinearOrder R]

/-! ### A sorted list splits at a threshold -/

theorem split_sorted {α : Type} (g : α → R) (low : R) : ∀ {l : List α},
    l.Pairwise (fun a b => g b ≤ g a) →
    l = l.filter (fun p => decide (low < g p)) ++ l.filter (fun p => !decide (low < g p))
  | [], _ => rfl
  | a :: l, h => by
    obtain ⟨h1, h2⟩ := List.pairwise_cons.mp h
    by_cases ha : low < g a
    · rw [List.filter_cons_of_pos (by simpa using ha), List.filter_cons_of_neg (by simpa using ha), List.cons_append,
        ← split_sorted g low h2]
    · have : ∀ b ∈ a :: l, ¬ low < g b := by
        intro b hb hlt
        rcases List.mem_cons.mp hb with rfl | hb
        · exact ha hlt
        · exact ha (lt_of_lt_of_le hlt (h1 b hb))
      rw [List.filter_eq_nil_iff.mpr (fun b hb => by simpa using this b hb),
        List.filter_eq_self.mpr (fun b hb => by simpa using this b hb)]
      rfl

/-- A selection over scores where ineligible positions have the score `low`, below all others. -/
theorem padded_of_selection {k : Nat} {scores : List R} {out : List (R × Nat)}
    (h : Spec.IsSelection k scores out) {low : R} {E : Nat → Prop} {sc : Nat → Option R}
    (hE : ∀ i, E i → ∃ s, scores[i]? = some s ∧ sc i = some s ∧ low < s)
    (hnE : ∀ i s, ¬ E i → scores[i]? = some s → s = low) :
    Spec.IsPaddedRanking k (· < scores.length) E low sc (out.map Prod.swap) := by
  set row := out.map Prod.swap with hrow
  have hsorted : row.Pairwise (fun a b => b.2 ≤ a.2) := by
    rw [hrow, List.pairwise_map]; exact h.sorted
  have hfst : row.map Prod.fst = out.map Prod.snd := by
    rw [hrow, List.map_map]; rfl
  have hdist : (row.map Prod.fst).Nodup := by rw [hfst]; exact h.distinct
  have hlen : row.length = k := by rw [hrow, List.length_map]; exact h.length
  have hmem : ∀ p ∈ row, scores[p.1]? = some p.2 := by
    intro p hp
    obtain ⟨q, hq, rfl⟩ := List.mem_map.mp hp
    exact h.faithful q hq
  have hbest : ∀ p ∈ row, ∀ j s, scores[j]? = some s → j ∉ row.map Prod.fst → s ≤ p.2 := by
    intro p hp j s hj hn
    obtain ⟨q, hq, rfl⟩ := List.mem_map.mp hp
    rw [hfst] at hn
    exact h.best q hq j s hj hn
  set good := row.filter (fun p => decide (low < p.2)) with hgood
  set rest := row.filter (fun p => !decide (low < p.2)) with hrest
  have hsplit : row = good ++ rest := split_sorted Prod.snd low hsorted
  have hgE : ∀ p ∈ row, low < p.2 → E p.1 := by
    intro p hp hl
    by_contra hne
    exact absurd (hnE _ _ hne (hmem p hp)) (ne_of_gt hl)
  have hEg : ∀ p ∈ row, E p.1 → low < p.2 ∧ sc p.1 = some p.2 := by
    intro p hp he
    obtain ⟨s, h1, h2, h3⟩ := hE _ he
    rw [hmem p hp] at h1
    cases h1
    exact ⟨h3, h2⟩
  have hmg : ∀ p, p ∈ good ↔ p ∈ row ∧ low < p.2 := by
    intro p; rw [hgood, List.mem_filter]; simp
  have hmr : ∀ p, p ∈ rest ↔ p ∈ row ∧ ¬ low < p.2 := by
    intro p; rw [hrest, List.mem_filter]; simp
  have hsub : good.Sublist row := List.filter_sublist
  have hin : ∀ i, E i → i ∈ row.map Prod.fst → i ∈ good.map Prod.fst := by
    intro i he hi
    obtain ⟨p, hp, rfl⟩ := List.mem_map.mp hi
    exact List.mem_map_of_mem ((hmg p).mpr ⟨hp, (hEg p hp he).1⟩)
  have hall : rest ≠ [] → ∀ i, E i → i ∈ good.map Prod.fst := by
    intro hne i he
    by_contra hni
    obtain ⟨p, hp⟩ := List.exists_mem_of_ne_nil _ hne
    obtain ⟨hp1, hp2⟩ := (hmr p).mp hp
    obtain ⟨s, h1, -, h3⟩ := hE i he
    have := hbest p hp1 i s h1 (fun hi => hni (hin i he hi))
    exact hp2 (lt_of_lt_of_le h3 this)
  refine ⟨⟨good, rest, hsplit, ⟨?_, ?_, ?_, ?_, ?_, ?_⟩, ?_, hall⟩, hlen, hdist⟩
  · intro p hp
    obtain ⟨h1, h2⟩ := (hmg p).mp hp
    exact ⟨hgE p h1 h2, (hEg p h1 (hgE p h1 h2)).2⟩
  · exact (hsub.map _).nodup hdist
  · exact hsorted.sublist hsub
  · rw [← hlen]; exact hsub.length_le
  · intro hl
    refine hall ?_
    intro hnil
    rw [hnil, List.append_nil] at hsplit
    rw [← hsplit] at hl
    omega
  · intro i s he hs hni p hp
    obtain ⟨h1, h2⟩ := (hmg p).mp hp
    obtain ⟨s', e1, e2, -⟩ := hE i he
    rw [hs] at e2; cases e2
    exact hbest p h1 i s e1 (fun hi => hni (hin i he hi))
  · intro p hp
    obtain ⟨h1, h2⟩ := (hmr p).mp hp
    have hne : ¬ E p.1 := fun he => h2 (hEg p h1 he).1
    exact ⟨(List.getElem?_eq_some_iff.mp (hmem p h1)).1, hne, hnE _ _ hne (hmem p h1)⟩

/-- With enough eligible candidates a padded ranking is a ranking. -/
theorem padded_full {k : Nat} {C E : Nat → Prop} {low : R} {sc : Nat → Option R} {out : List (Nat × R)}
    (h : Spec.IsPaddedRanking k C E low sc out) {l : List Nat} (hl : l.Nodup) (hlE : ∀ i ∈ l, E i)
    (hk : k ≤ l.length) : Spec.IsRanking k E sc out := by
  obtain ⟨good, rest, e, hr, hrest, hall⟩ := h.split
  have hrl : rest = [] := by
    by_contra hne
    have hsub : l ⊆ good.map Prod.fst := fun i hi => hall hne i (hlE i hi)
    have h1 := (List.subperm_of_subset hl hsub).length_le
    have h2 := h.length
    rw [e, List.length_append] at h2
    rw [List.length_map] at h1
    have : 0 < rest.length := List.length_pos_iff.mpr hne
    omega
  rw [e, hrl, List.append_nil]
  exact hr

/-- Two full rankings have the same scores. -/
theorem ranking_le {k : Nat} {E : Nat → Prop} {sc : Nat → Option R} {a b : List (Nat × R)}
    (ha : Spec.IsRanking k E sc a) (hb : Spec.IsRanking k E sc b) {j : Nat} (hja : j < a.length) (hjb : j < b.length) :
    a[j].2 ≤ b[j].2 := by
  by_contra hlt
  rw [not_le] at hlt
  have hsa := List.pairwise_iff_getElem.mp ha.sorted
  have hsb := List.pairwise_iff_getElem.mp hb.sorted
  have hsub : ((a.take (j + 1)).map Prod.fst) ⊆ ((b.take j).map Prod.fst) := by
    intro i hi
    obtain ⟨p, hp, rfl⟩ := List.mem_map.mp hi
    obtain ⟨n, hn, rfl⟩ := List.getElem_of_mem hp
    rw [List.length_take] at hn
    rw [List.getElem_take]
    have hna : n < a.length := by omega
    have hpa : a[n] ∈ a := List.getElem_mem hna
    have hge : a[j].2 ≤ a[n].2 := by
      rcases Nat.lt_or_ge n j with h | h
      · exact hsa n j hna hja h
      · have : n = j := by omega
        subst this; exact le_refl _
    obtain ⟨h1, h2⟩ := ha.mem _ hpa
    have hin : a[n].1 ∈ b.map Prod.fst := by
      by_contra hni
      have := hb.best _ _ h1 h2 hni b[j] (List.getElem_mem hjb)
      exact absurd (lt_of_lt_of_le hlt hge) (not_lt.mpr this)
    obtain ⟨q, hq, hqe⟩ := List.mem_map.mp hin
    obtain ⟨n', hn', rfl⟩ := List.getElem_of_mem hq
    have hsc := (hb.mem _ hq).2
    rw [hqe, h2] at hsc
    have hs : a[n].2 = b[n'].2 := by simpa using hsc
    have hlt' : n' < j := by
      by_contra hge'
      rw [not_lt] at hge'
      have : b[n'].2 ≤ b[j].2 := by
        rcases Nat.lt_or_eq_of_le hge' with h | h
        · exact hsb j n' hjb hn' h
        · subst h; exact le_refl _
      rw [← hs] at this
      exact absurd (lt_of_lt_of_le hlt hge) (not_lt.mpr this)
    refine List.mem_map.mpr ⟨b[n'], ?_, hqe⟩
    have : (b.take j)[n']'(by rw [List.length_take]; omega) = b[n'] := List.getElem_take
    rw [← this]
    exact List.getElem_mem _
  have hnd : ((a.take (j + 1)).map Prod.fst).Nodup := ((List.take_sublist _ _).map _).nodup ha.distinct
  have := (List.subperm_of_subset hnd hsub).length_le
  rw [List.length_map, List.length_map, List.length_take, List.length_take] at this
  omega

theorem ranking_scores {k : Nat} {E : Nat → Prop} {sc : Nat → Option R} {a b : List (Nat × R)}
    (ha : Spec.IsRanking k E sc a) (hb : Spec.IsRanking k E sc b) (hl : a.length = b.length) :
    a.map Prod.snd = b.map Prod.snd := by
  apply List.ext_getElem (by simp [hl])
  intro j h1 h2
  rw [List.getElem_map, List.getElem_map]
  exact le_antisymm (ranking_le ha hb (by simpa using h1) (by simpa using h2))
    (ranking_le hb ha (by simpa using h2) (by simpa using h1))

/-- Two full rankings without ties are equal. -/
theorem ranking_unique {k : Nat} {E : Nat → Prop} {sc : Nat → Option R} {a b : List (Nat × R)}
    (ha : Spec.IsRanking k E sc a) (hb : Spec.IsRanking k E sc b) (hl : a.length = b.length)
    (hinj : ∀ i j, E i → E j → sc i = sc j → i = j) : a = b := by
  have hs := ranking_scores ha hb hl
  apply List.ext_getElem hl
  intro j h1 h2
  have e : a[j].2 = b[j].2 := by
    have := congrArg (fun l => l[j]?) hs
    simpa [List.getElem?_map, List.getElem?_eq_getElem h1, List.getElem?_eq_getElem h2] using this
  obtain ⟨p1, p2⟩ := ha.mem _ (List.getElem_mem h1)
  obtain ⟨q1, q2⟩ := hb.mem _ (List.getElem_mem h2)
  refine Prod.ext (hinj _ _ p1 q1 ?_) e
  rw [p2, q2, e]

end order

variable {R : Type} [LinearOrder R] [Field R] {f : Nat}

/-- Padded rankings of positions become padded rankings of ids. -/
theorem padded_renamed {its : List Nat} (hits : its.Nodup) {k : Nat} {P E E' : Nat → Prop} {low : R}
    {sc score : Nat → Option R} {row : List (Nat × R)}
    (h : Spec.IsPaddedRanking k (· < its.length) P low sc row) (hP : ∀ j, P j → j < its.length)
    (hE : ∀ i, E i → ∃ j, its[j]? = some i ∧ P j)
    (hPE : ∀ j i : Nat, its[j]? = some i → (P j ↔ E i))
    (hcand : ∀ i ∈ its, E' i)
    (hsc : ∀ j i : Nat, its[j]? = some i → score i = sc j) :
    (∀ p ∈ row, p.1 < its.length) ∧ Spec.IsPaddedRanking k E' E low score (rename its row) := by
  obtain ⟨good, rest, e, hr, hrest, hall⟩ := h.split
  have hlt : ∀ p ∈ row, p.1 < its.length := by
    intro p hp
    rw [e, List.mem_append] at hp
    rcases hp with hp | hp
    · exact hP _ (hr.mem p hp).1
    · exact (hrest p hp).1
  refine ⟨hlt, ⟨⟨rename its good, rename its rest, by rw [e, rename_append],
    hr.renamed hits hP hE (fun j i hj => (hPE j i hj).mp) hsc, ?_, ?_⟩, by simpa [rename] using h.length,
    nodup_rename hits hlt h.distinct⟩⟩
  · intro q hq
    obtain ⟨p, hp, rfl⟩ := List.mem_map.mp hq
    obtain ⟨h1, h2, h3⟩ := hrest p hp
    have hg : its[p.1]? = some (its[p.1]?.getD 0) := by
      rw [List.getElem?_eq_getElem h1]; rfl
    refine ⟨hcand _ (List.mem_of_getElem? hg), fun hE' => h2 ((hPE _ _ hg).mpr hE'), h3⟩
  · intro hne i hi
    have hne' : rest ≠ [] := by intro hr0; rw [hr0] at hne; exact hne rfl
    obtain ⟨j, hj, hPj⟩ := hE i hi
    obtain ⟨p, hp, rfl⟩ := List.mem_map.mp (hall hne' j hPj)
    refine List.mem_map.mpr ⟨_, List.mem_map_of_mem hp, ?_⟩
    simp [hj]

theorem padded_scaled [IsStrictOrderedRing R] {k : Nat} {C E : Nat → Prop} {low : R} {sc : Nat → Option R}
    {row : List (Nat × R)} (h : Spec.IsPaddedRanking k C E low sc row) {n : R} (hn : 0 < n) :
    Spec.IsPaddedRanking k C E (low / n) (fun i => (sc i).map (· / n)) (row.map fun p => (p.1, p.2 / n)) := by
  obtain ⟨good, rest, e, hr, hrest, hall⟩ := h.split
  refine ⟨⟨good.map fun p => (p.1, p.2 / n), rest.map fun p => (p.1, p.2 / n), by rw [e, List.map_append],
    hr.scaled hn, ?_, ?_⟩, by rw [List.length_map]; exact h.length, ?_⟩
  · intro q hq
    obtain ⟨p, hp, rfl⟩ := List.mem_map.mp hq
    obtain ⟨h1, h2, h3⟩ := hrest p hp
    exact ⟨h1, h2, by simp only [h3]⟩
  · intro hne i hi
    have hne' : rest ≠ [] := by intro hr0; rw [hr0] at hne; exact hne rfl
    have := hall hne' i hi
    rwa [List.map_map]
  · rw [List.map_map]; exact h.distinct

/-! ### The score of a query on the device -/

/-- The score before the exclusions. -/
def rawScore (items : List (Vec f R)) (norms : Option (List R)) (x : Vec f R) (i : Nat) : Option R :=
  match norms with
  | none => (items[i]?).map (dot x)
  | some ns => match items[i]?, ns[i]? with
    | some y, some n => some (dot x y / n)
    | _, _ => none

theorem gpuTopkRows_ok (env : GpuEnv R)
    (hsel : ∀ (l : List R) (k : Nat), k ≤ l.length → Spec.IsSelection k l (env.sel l k))
    (q : GpuQuery f R) (k : Nat) (hitems : 0 < q.items.length)
    (hfit : q.query.length * k * 32 + q.items.length * 4 ≤ min env.maxMem (2 ^ 32))
    (hk : k ≤ q.items.length) (hn : ∀ ns ∈ q.norms, ns.length = q.items.length)
    (hi : ∀ l ∈ q.itemFilter, ∀ c ∈ l, c < q.items.length)
    (hq : ∀ l ∈ q.queryFilter, ∀ e ∈ l, e.2 < q.items.length)
    (hlow : ∀ x ∈ q.query, ∀ i s, rawScore q.items q.norms x i = some s → env.low < s) :
    ∃ rows, gpuTopkRows env q k = .ok rows ∧ rows.length = q.query.length ∧
      ∀ (r : Nat) (row : List (Nat × R)) (x : Vec f R), rows[r]? = some row → q.query[r]? = some x →
        Spec.IsPaddedRanking k (· < q.items.length)
          (fun i => i < q.items.length ∧ ¬ (∃ l ∈ q.itemFilter, i ∈ l) ∧ ¬ (∃ l ∈ q.queryFilter, (r, i) ∈ l))
          env.low (rawScore q.items q.norms x) row := by
  obtain ⟨batch, hplan, -⟩ := C45_plan hitems hfit
  obtain ⟨out, e, hl, hr⟩ := C45_rows_partial env.sel env.low env.maxMem env.garbage env.garbageTemp q k batch hsel
    hplan hk hi hq
  refine ⟨out.map fun row => row.map Prod.swap, ?_, by simpa using hl, ?_⟩
  · simp only [gpuTopkRows, bind, Except.bind, pure, Except.pure, e]
  · intro r row x hrow hx
    rw [List.getElem?_map] at hrow
    obtain ⟨row', hrow', rfl⟩ := Option.map_eq_some_iff.mp hrow
    have hs := hr r row' hrow'
    have hget : ∀ i s, ((List.range q.items.length).map
        (Spec.queryScore env.low q.items q.query q.norms q.itemFilter q.queryFilter r))[i]? = some s →
        i < q.items.length ∧ s = Spec.queryScore env.low q.items q.query q.norms q.itemFilter q.queryFilter r i := by
      intro i s h
      rw [List.getElem?_map] at h
      obtain ⟨i', h1, h2⟩ := Option.map_eq_some_iff.mp h
      obtain ⟨h3, h4⟩ := List.getElem?_eq_some_iff.mp h1
      rw [List.getElem_range] at h4
      subst h4
      exact ⟨by simpa using h3, h2.symm⟩
    have := padded_of_selection hs (low := env.low)
      (E := fun i => i < q.items.length ∧ ¬ (∃ l ∈ q.itemFilter, i ∈ l) ∧ ¬ (∃ l ∈ q.queryFilter, (r, i) ∈ l))
      (sc := rawScore q.items q.norms x) ?_ ?_
    · simpa using this
    · rintro i ⟨h1, h2, h3⟩
      refine ⟨Spec.queryScore env.low q.items q.query q.norms q.itemFilter q.queryFilter r i, ?_, ?_⟩
      · rw [List.getElem?_map, List.getElem?_range h1]; rfl
      · have hraw : rawScore q.items q.norms x i =
            some (Spec.queryScore env.low q.items q.query q.norms q.itemFilter q.queryFilter r i) := by
          unfold Spec.queryScore
          rw [if_neg (by rintro (h | h); exacts [h2 h, h3 h])]
          have hd : (∑ j, q.items.getD i (fun _ => 0) j * q.query.getD r (fun _ => 0) j) = dot x q.items[i] := by
            rw [dot_comm, List.getD_eq_getElem?_getD, List.getD_eq_getElem?_getD, hx, List.getElem?_eq_getElem h1]
            rfl
          rw [hd]
          unfold rawScore
          cases hnn : q.norms with
          | none => simp only [List.getElem?_eq_getElem h1, Option.map_some]
          | some ns =>
            have : i < ns.length := by rw [hn ns hnn]; exact h1
            simp only [List.getElem?_eq_getElem h1, List.getElem?_eq_getElem this, List.getD_eq_getElem?_getD,
              Option.getD_some]
        exact ⟨hraw, hlow x (List.mem_of_getElem? hx) i _ hraw⟩
    · intro i s hne h
      obtain ⟨h1, rfl⟩ := hget i s h
      unfold Spec.queryScore
      rw [if_pos]
      by_contra hc
      rw [not_or] at hc
      exact hne ⟨h1, hc⟩

/-! ### Arguments -/

theorem mem_gpuLiked {fl : Bool} {ui : Option (SpRows R)} {its : Option (List Nat)} {r c : Nat} :
    (∃ l ∈ gpuLiked fl ui its, (r, c) ∈ l) ↔
      ∃ rows row, likedPositions fl ui its = some rows ∧ rows[r]? = some row ∧ c ∈ row := by
  unfold gpuLiked
  cases hlp : likedPositions fl ui its with
  | none => simp
  | some rows =>
    have hp : ∀ e, e ∈ (rows.zipIdx.flatMap fun row => row.1.map fun c => (row.2, c)) ↔
        ∃ row, rows[e.1]? = some row ∧ e.2 ∈ row := by
      intro e
      rw [List.mem_flatMap]
      constructor
      · rintro ⟨⟨row, n⟩, h1, h2⟩
        obtain ⟨c, h3, rfl⟩ := List.mem_map.mp h2
        exact ⟨row, by simpa [List.mem_zipIdx_iff_getElem?] using h1, h3⟩
      · rintro ⟨row, h1, h2⟩
        exact ⟨(row, e.1), by simpa [List.mem_zipIdx_iff_getElem?] using h1, List.mem_map.mpr ⟨e.2, h2, rfl⟩⟩
    simp only
    split_ifs with hemp
    · have : ∀ e, e ∉ (rows.zipIdx.flatMap fun row => row.1.map fun c => (row.2, c)) := by
        rw [List.isEmpty_iff.mp hemp]; simp
      constructor
      · rintro ⟨l, h, -⟩; cases h
      · rintro ⟨rows', row, h0, h1, h2⟩
        cases h0
        exact absurd ((hp (r, c)).mpr ⟨row, h1, h2⟩) (this _)
    · constructor
      · rintro ⟨l, h, h1⟩
        cases h
        obtain ⟨row, h2, h3⟩ := (hp (r, c)).mp h1
        exact ⟨rows, row, rfl, h2, h3⟩
      · rintro ⟨rows', row, h0, h1, h2⟩
        cases h0
        exact ⟨_, rfl, (hp (r, c)).mpr ⟨row, h1, h2⟩⟩

theorem gpuSelectRows_ok {α : Type} {l : List α} {is : List Int} (hne : is ≠ [])
    (h : ∀ i ∈ is, 0 ≤ i ∧ i < l.length) :
    gpuSelectRows l is = gatherInt l is := by
  unfold gpuSelectRows
  rw [if_neg (by simpa using hne), if_neg, (gatherInt_ok l is h).1]
  simp only [List.any_eq_true, decide_eq_true_eq, not_exists, not_and]
  intro i hi
  have := h i hi
  omega

theorem gpuSelectRows_bad {α : Type} {l : List α} {is : List Int}
    (h : is = [] ∨ ∃ i ∈ is, i < 0 ∨ (l.length : Int) ≤ i) : gpuSelectRows l is = .error .indexError := by
  unfold gpuSelectRows
  by_cases he : is = []
  · subst he; rfl
  · rw [if_neg (by simpa using he), if_pos]
    obtain ⟨i, hi, hb⟩ := h.resolve_left he
    exact List.any_eq_true.mpr ⟨i, hi, by simpa using hb⟩

theorem gpuRestrict_ok {m : Factors f R} {N : Nat} {S : List Int} {fi : Option PyFilter}
    (hfi : truthyOpt fi = .ok false) (hne : S ≠ []) (hS : ∀ i ∈ S, 0 ≤ i ∧ i < m.item.length) :
    gpuRestrict m N fi (some S) = restrictItems m N fi (some S) := by
  unfold gpuRestrict restrictItems
  simp only [hfi, bind, Except.bind]
  rw [gpuSelectRows_ok]
  · intro h
    have : (S.insertionSort (· ≤ ·)).length = S.length := by simp
    rw [h] at this; exact hne (by simpa using this.symm)
  · intro i hi; exact hS i (by simpa using hi)

theorem gpuRestrictSimilar_ok {factors : List (Vec f R)} {norms : List R} {S : List Int} {fi : Option PyFilter}
    (hfi : truthyOpt fi = .ok false) (hne : S ≠ []) (hlen : norms.length = factors.length)
    (hS : ∀ i ∈ S, 0 ≤ i ∧ i < factors.length) :
    gpuRestrictSimilar factors norms fi (some S) = restrictSimilar factors norms fi (some S) := by
  obtain ⟨e1, fac, e2⟩ := gatherInt_ok factors S hS
  obtain ⟨e3, ns, e4⟩ := gatherInt_ok norms S (by rw [hlen]; exact hS)
  unfold gpuRestrictSimilar restrictSimilar
  simp only [hfi, bind, Except.bind]
  rw [gpuSelectRows_ok hne hS, e1, e2, e3, e4]

theorem gpuRows_many {α : Type} {l : List α} {us : List Nat} (hne : us ≠ []) (h : ∀ u ∈ us, u < l.length) :
    ∃ xs, gpuRows l (.many us) = .ok xs ∧ xs.length = us.length ∧
      ∀ (r u : Nat), us[r]? = some u → xs[r]? = l[u]? := by
  obtain ⟨xs, e⟩ : ∃ xs, gather l us = .ok xs := by
    have := gatherInt_ok l (us.map Int.ofNat) (by
      intro i hi
      obtain ⟨u, hu, rfl⟩ := List.mem_map.mp hi
      have := h u hu
      simp; omega)
    obtain ⟨-, xs, e⟩ := this
    exact ⟨xs, by simpa [List.map_map, Function.comp_def] using e⟩
  refine ⟨xs, ?_, gather_length e, ?_⟩
  · simp only [gpuRows]; rw [if_neg (by simpa using hne)]; exact e
  · intro r u hu
    obtain ⟨x, h1, h2⟩ := ((gather_ok _ _ _).mp e).2 r u hu
    rw [h1, h2]

theorem gpuFilterVector_ok {fi : Option PyFilter} (h : ∀ p, fi = some p → p.ids ≠ []) :
    gpuFilterVector fi = .ok (fi.map PyFilter.ids) := by
  cases fi with
  | none => rfl
  | some p =>
    unfold gpuFilterVector
    simp only [Option.map_some]
    rw [if_neg (by simpa using h p rfl)]

theorem checkUserItems_ok {ids : Ids} {rows : SpRows R} (h : rows.length = ids.count) (b : Bool) :
    checkUserItems ids (some rows) b = .ok () := by
  unfold checkUserItems
  cases b
  · rfl
  · simp only [if_true, h]

/-- All rows of a query, items not restricted. -/
theorem gpuRecommend_none (env : GpuEnv R)
    (hsel : ∀ (l : List R) (k : Nat), k ≤ l.length → Spec.IsSelection k l (env.sel l k))
    (m : Factors f R) (solve : SpRows R → Except Err (List (Vec f R))) (ids : Ids) (rows : SpRows R)
    (hrows : rows.length = ids.count) (rec : Bool) (xs : List (Vec f R))
    (hxs : gpuUserFactor m solve ids (some rows) rec = .ok xs)
    (fl : Bool) (hliked : fl = true → ∀ liked ∈ rows, ∀ e ∈ liked, e.1 < m.item.length)
    (fi : Option PyFilter) (hne : ∀ p, fi = some p → p.ids ≠ [])
    (hfi : ∀ p, fi = some p → ∀ i ∈ p.ids, i < m.item.length)
    (hlow : ∀ x ∈ xs, ∀ y ∈ m.item, env.low < dot x y)
    (N : Nat) (hN : 1 ≤ N) (hN' : N ≤ m.item.length)
    (hfit : xs.length * N * 32 + m.item.length * 4 ≤ min env.maxMem (2 ^ 32)) :
    ∃ out, gpuRecommend env m solve ids (some rows) N fl fi rec none = packAnswer ids out ∧
      out.length = xs.length ∧
      ∀ (r : Nat) (x : Vec f R) (liked row : List (Nat × R)), xs[r]? = some x → rows[r]? = some liked →
        out[r]? = some row →
        Spec.IsPaddedRanking N (· < m.item.length)
          (fun i => i < m.item.length ∧ (fl = true → ∀ e ∈ liked, e.1 ≠ i) ∧ ∀ p, fi = some p → i ∉ p.ids)
          env.low (fun i => (m.item[i]?).map (dot x)) row := by
  have hmemL : ∀ r c, (∃ l ∈ gpuLiked fl (some rows) none, (r, c) ∈ l) ↔
      ∃ liked, fl = true ∧ rows[r]? = some liked ∧ ∃ e ∈ liked, e.1 = c := by
    intro r c
    rw [mem_gpuLiked]
    cases fl
    · simp [likedPositions]
    · simp only [likedPositions, if_true, Option.map_some, true_and]
      constructor
      · rintro ⟨rows', row, h0, h1, h2⟩
        cases h0
        rw [List.getElem?_map] at h1
        obtain ⟨liked, h3, rfl⟩ := Option.map_eq_some_iff.mp h1
        obtain ⟨e, he, rfl⟩ := List.mem_map.mp h2
        exact ⟨liked, h3, e, he, rfl⟩
      · rintro ⟨liked, h3, e, he, rfl⟩
        exact ⟨_, liked.map Prod.fst, rfl, by rw [List.getElem?_map, h3]; rfl, List.mem_map_of_mem he⟩
  obtain ⟨out, e, hl, hr⟩ := gpuTopkRows_ok env hsel
    ⟨m.item, xs, none, fi.map PyFilter.ids, gpuLiked fl (some rows) none⟩ N (by simp only; omega) hfit hN'
    (by intro ns h; cases h)
    (by
      intro l hl c hc
      obtain ⟨p, hp, rfl⟩ := Option.map_eq_some_iff.mp hl
      exact hfi p hp c hc)
    (by
      intro l hl e he
      obtain ⟨liked, hflt, h1, e', he', h2⟩ := (hmemL e.1 e.2).mp ⟨l, hl, he⟩
      simp only
      rw [← h2]; exact hliked hflt liked (List.mem_of_getElem? h1) e' he')
    (by
      intro x hx i s hs
      obtain ⟨y, hy, rfl⟩ := Option.map_eq_some_iff.mp hs
      exact hlow x hx y (List.mem_of_getElem? hy))
  refine ⟨out, ?_, hl, ?_⟩
  · unfold gpuRecommend
    rw [checkUserItems_ok hrows, hxs, gpuFilterVector_ok hne]
    simp only [bind, Except.bind, gpuRestrict, e]
    have : out.mapM (remapRow (R := R) none) = .ok (out.map id) := mapM_ok_of (fun x _ => rfl)
    rw [this, List.map_id]
  · intro r x liked row hx hliked' hrow
    have := hr r row x hrow hx
    have hE : (fun i => i < m.item.length ∧ ¬ (∃ l ∈ fi.map PyFilter.ids, i ∈ l) ∧
        ¬ (∃ l ∈ gpuLiked fl (some rows) none, (r, i) ∈ l)) =
        (fun i => i < m.item.length ∧ (fl = true → ∀ e ∈ liked, e.1 ≠ i) ∧ ∀ p, fi = some p → i ∉ p.ids) := by
      funext i
      apply propext
      rw [hmemL]
      constructor
      · rintro ⟨h1, h2, h3⟩
        exact ⟨h1, fun hf e he h => h3 ⟨liked, hf, hliked', e, he, h⟩,
          fun p hp hi => h2 ⟨p.ids, by rw [hp]; rfl, hi⟩⟩
      · rintro ⟨h1, h2, h3⟩
        refine ⟨h1, ?_, ?_⟩
        · rintro ⟨l, hl, hi⟩
          obtain ⟨p, hp, rfl⟩ := Option.map_eq_some_iff.mp hl
          exact h3 p hp hi
        · rintro ⟨liked', hf, h4, e, he, h5⟩
          rw [hliked'] at h4
          cases h4
          exact h2 hf e he h5
    rw [← hE]
    exact this

/-- All rows of a query restricted to the items `S`. -/
theorem gpuRecommend_some (env : GpuEnv R)
    (hsel : ∀ (l : List R) (k : Nat), k ≤ l.length → Spec.IsSelection k l (env.sel l k))
    (m : Factors f R) (solve : SpRows R → Except Err (List (Vec f R))) (ids : Ids) (rows : SpRows R)
    (hrows : rows.length = ids.count) (rec : Bool) (xs : List (Vec f R))
    (hxs : gpuUserFactor m solve ids (some rows) rec = .ok xs)
    (fl : Bool) (hnz : fl = true → ∀ liked ∈ rows, ∀ e ∈ liked, e.2 ≠ 0)
    (S : List Int) (hne : S ≠ []) (hnd : S.Nodup) (hS : ∀ i ∈ S, 0 ≤ i ∧ i < m.item.length)
    (hlow : ∀ x ∈ xs, ∀ y ∈ m.item, env.low < dot x y) (N : Nat)
    (hfit : xs.length * min N S.length * 32 + S.length * 4 ≤ min env.maxMem (2 ^ 32)) :
    ∃ out, gpuRecommend env m solve ids (some rows) N fl none rec (some S) = packAnswer ids out ∧
      out.length = xs.length ∧
      ∀ (r : Nat) (x : Vec f R) (liked row : List (Nat × R)), xs[r]? = some x → rows[r]? = some liked →
        out[r]? = some row →
        Spec.IsPaddedRanking (min N S.length) (fun i => (i : Int) ∈ S)
          (fun i => (i : Int) ∈ S ∧ (fl = true → ∀ e ∈ liked, e.1 ≠ i))
          env.low (fun i => (m.item[i]?).map (dot x)) row := by
  have hpos : ∀ i ∈ S, (0 : Int) ≤ i := fun i hi => (hS i hi).1
  obtain ⟨fac, hres, hflen, hfac⟩ := restrictItems_ok (m := m) (N := N) (fi := none) rfl hne hS
  rw [← gpuRestrict_ok rfl hne hS] at hres
  set its := sortedIds S with hits
  have hstrict : its.Pairwise (· < ·) := sortedIds_strict hnd hpos
  have hitsnd : its.Nodup := hstrict.imp (fun h => Nat.ne_of_lt h)
  have hitslen : its.length = S.length := length_sortedIds S
  have hSl : 1 ≤ S.length := List.length_pos_iff.mpr hne
  have hmemL : ∀ r j, (∃ l ∈ gpuLiked fl (some rows) (some its), (r, j) ∈ l) ↔
      ∃ liked, fl = true ∧ rows[r]? = some liked ∧ ∃ e ∈ liked, its[j]? = some e.1 := by
    intro r c
    rw [mem_gpuLiked]
    cases fl
    · simp [likedPositions]
    · simp only [likedPositions, if_true, Option.map_some, true_and]
      constructor
      · rintro ⟨rows', row, h0, h1, h2⟩
        cases h0
        rw [List.getElem?_map] at h1
        obtain ⟨liked, h3, rfl⟩ := Option.map_eq_some_iff.mp h1
        obtain ⟨e, he, -, h4⟩ := (mem_filterItemsRow hstrict liked c).mp h2
        exact ⟨liked, h3, e, he, h4⟩
      · rintro ⟨liked, h3, e, he, h4⟩
        refine ⟨_, (filterItemsRow its liked).map Prod.fst, rfl, by rw [List.getElem?_map, h3]; rfl, ?_⟩
        exact (mem_filterItemsRow hstrict liked c).mpr ⟨e, he, hnz rfl liked (List.mem_of_getElem? h3) e he, h4⟩
  obtain ⟨out, e, hl, hr⟩ := gpuTopkRows_ok env hsel
    ⟨fac, xs, none, none, gpuLiked fl (some rows) (some its)⟩ (min N S.length) (by simp only; omega)
    (by simp only; rw [hflen]; exact hfit) (by simp only; omega)
    (by intro ns h; cases h) (by intro l hl; cases hl)
    (by
      intro l hl e he
      obtain ⟨liked, -, h1, e', he', h2⟩ := (hmemL e.1 e.2).mp ⟨l, hl, he⟩
      have := (List.getElem?_eq_some_iff.mp h2).1
      simp only; omega)
    (by
      intro x hx i s hs
      obtain ⟨y, hy, rfl⟩ := Option.map_eq_some_iff.mp hs
      have hi := (List.getElem?_eq_some_iff.mp hy).1
      simp only at hi
      have hi' : i < its.length := by omega
      obtain ⟨y', h1, h2⟩ := hfac i _ (List.getElem?_eq_getElem hi')
      simp only at hy
      rw [hy] at h2; cases h2
      exact hlow x hx y (List.mem_of_getElem? h1))
  have hrow : ∀ (r : Nat) (x : Vec f R) (liked row : List (Nat × R)), xs[r]? = some x → rows[r]? = some liked →
      out[r]? = some row → (∀ p ∈ row, p.1 < its.length) ∧
        Spec.IsPaddedRanking (min N S.length) (fun i => (i : Int) ∈ S)
          (fun i => (i : Int) ∈ S ∧ (fl = true → ∀ e ∈ liked, e.1 ≠ i))
          env.low (fun i => (m.item[i]?).map (dot x)) (rename its row) := by
    intro r x liked row hx hliked hrow
    have h := hr r row x hrow hx
    have hP : (fun i => i < fac.length ∧ ¬ (∃ l ∈ (none : Option (List Nat)), i ∈ l) ∧
        ¬ (∃ l ∈ gpuLiked fl (some rows) (some its), (r, i) ∈ l)) =
        (fun i => i < its.length ∧ (fl = true → ∀ e ∈ liked, its[i]? ≠ some e.1)) := by
      funext i
      apply propext
      rw [hmemL, hflen, hitslen]
      constructor
      · rintro ⟨h1, -, h3⟩
        exact ⟨h1, fun hf e he h => h3 ⟨liked, hf, hliked, e, he, h⟩⟩
      · rintro ⟨h1, h2⟩
        refine ⟨h1, (by rintro ⟨l, hl, -⟩; cases hl), ?_⟩
        rintro ⟨liked', hf, h4, e, he, h5⟩
        rw [hliked] at h4
        cases h4
        exact h2 hf e he h5
    simp only at h hP
    rw [hP] at h
    have hc : (fun i => i < fac.length) = (· < its.length) := by rw [hflen, hitslen]
    rw [hc] at h
    refine padded_renamed hitsnd h (fun j hj => hj.1) ?_ ?_ ?_ ?_
    · rintro i ⟨h1, h2⟩
      have : i ∈ its := (mem_sortedIds hpos).mpr h1
      obtain ⟨j, hj⟩ := List.mem_iff_getElem?.mp this
      refine ⟨j, hj, (List.getElem?_eq_some_iff.mp hj).1, ?_⟩
      intro hf e he heq
      rw [hj] at heq
      exact h2 hf e he (by simpa using heq.symm)
    · intro j i hj
      have hiS : (i : Int) ∈ S := (mem_sortedIds hpos).mp (List.mem_of_getElem? hj)
      constructor
      · rintro ⟨-, h2⟩
        exact ⟨hiS, fun hf e he h => h2 hf e he (by rw [hj, h])⟩
      · rintro ⟨-, h2⟩
        refine ⟨(List.getElem?_eq_some_iff.mp hj).1, fun hf e he heq => ?_⟩
        rw [hj] at heq
        exact h2 hf e he (by simpa using heq.symm)
    · intro i hi; exact (mem_sortedIds hpos).mp hi
    · intro j i hj
      obtain ⟨y, h1, h2⟩ := hfac j i hj
      simp only [rawScore, h1, h2]
  have hlt : ∀ row ∈ out, ∀ p ∈ row, p.1 < its.length := by
    intro row hrow p hp
    obtain ⟨r, hr0⟩ := List.mem_iff_getElem?.mp hrow
    have hro := (List.getElem?_eq_some_iff.mp hr0).1
    have hx : r < xs.length := by rw [← hl]; exact hro
    have h := hr r row xs[r] hr0 (List.getElem?_eq_getElem hx)
    obtain ⟨good, rest, es, hg, hre, -⟩ := h.split
    rw [es, List.mem_append] at hp
    simp only at hg hre
    rcases hp with hp | hp
    · have := (hg.mem p hp).1.1; omega
    · have := (hre p hp).1; omega
  refine ⟨out.map (rename its), ?_, by simpa using hl, ?_⟩
  · unfold gpuRecommend
    rw [checkUserItems_ok hrows, hxs, hres]
    simp only [bind, Except.bind, gpuFilterVector, e]
    have : out.mapM (remapRow (some its)) = .ok (out.map (rename its)) :=
      mapM_ok_of (fun row hrow => remapRow_some (hlt row hrow))
    rw [this]
  · intro r x liked row hx hliked hrow'
    rw [List.getElem?_map] at hrow'
    obtain ⟨row0, h1, rfl⟩ := Option.map_eq_some_iff.mp hrow'
    exact (hrow r x liked row0 hx hliked h1).2

/-! ### Similar items and users -/

theorem gather_ex {α : Type} {l : List α} {us : List Nat} (h : ∀ u ∈ us, u < l.length) :
    ∃ xs, gather l us = .ok xs := by
  have := gatherInt_ok l (us.map Int.ofNat) (by
    intro i hi
    obtain ⟨u, hu, rfl⟩ := List.mem_map.mp hi
    have := h u hu
    simp; omega)
  obtain ⟨-, xs, e⟩ := this
  exact ⟨xs, by simpa [List.map_map, Function.comp_def] using e⟩

theorem gpuRows_ok {α : Type} {l : List α} {ids : Ids} (hne : ids.toList ≠ []) (h : ∀ u ∈ ids.toList, u < l.length) :
    gpuRows l ids = gather l ids.toList := by
  cases ids with
  | one u =>
    have hu : u < l.length := h u (by simp [Ids.toList])
    simp only [gpuRows, Ids.toList, List.getElem?_eq_getElem hu, gather_one (List.getElem?_eq_getElem hu)]
  | many us =>
    simp only [gpuRows, Ids.toList] at hne ⊢
    rw [if_neg (by simpa using hne)]

/-- The scores of a similarity query with query vector `x`, divided by `n`. -/
theorem simScore_raw (factors : List (Vec f R)) (norms : List R) (x : Vec f R) (n : R) :
    (fun i => (rawScore factors (some norms) x i).map (· / n)) = simScore factors norms x n := by
  funext i
  unfold rawScore simScore
  simp only
  cases factors[i]? <;> cases norms[i]? <;> rfl

theorem zipWith_div {rows : List (List (Nat × R))} {ns : List R} {r : Nat} {row' : List (Nat × R)} {n : R}
    (hn : ns[r]? = some n)
    (h : (List.zipWith (fun row n => row.map fun p : Nat × R => (p.1, p.2 / n)) rows ns)[r]? = some row') :
    ∃ row, rows[r]? = some row ∧ row' = row.map fun p => (p.1, p.2 / n) := by
  rw [List.getElem?_zipWith, hn] at h
  cases hr : rows[r]? with
  | none => rw [hr] at h; cases h
  | some row => rw [hr] at h; exact ⟨row, rfl, by simpa using h.symm⟩

/-- Similarity to given query vectors, all entities. -/
theorem gpuSimilarWith_none [IsStrictOrderedRing R] (env : GpuEnv R)
    (hsel : ∀ (l : List R) (k : Nat), k ≤ l.length → Spec.IsSelection k l (env.sel l k))
    (factors : List (Vec f R)) (norms : List R) (hlen : norms.length = factors.length)
    (hpos : ∀ n ∈ norms, 0 < n) (ids : Ids) (hids : ∀ u ∈ ids.toList, u < factors.length)
    (xs : List (Vec f R)) (hxs : xs.length = ids.toList.length)
    (fi : Option PyFilter) (hne : ∀ p, fi = some p → p.ids ≠ [])
    (hfi : ∀ p, fi = some p → ∀ i ∈ p.ids, i < factors.length)
    (hlow : ∀ x ∈ xs, ∀ (j : Nat) y nj, factors[j]? = some y → norms[j]? = some nj → env.low < dot x y / nj)
    (N : Nat) (hN : 1 ≤ N) (hN' : N ≤ factors.length)
    (hfit : xs.length * N * 32 + factors.length * 4 ≤ min env.maxMem (2 ^ 32)) :
    ∃ out, gpuSimilarWith env norms ids xs factors norms none N fi = packAnswer ids out ∧
      out.length = xs.length ∧
      ∀ (r u : Nat) (x : Vec f R) (n : R) (row : List (Nat × R)), ids.toList[r]? = some u → xs[r]? = some x →
        norms[u]? = some n → out[r]? = some row →
        Spec.IsPaddedRanking N (· < factors.length)
          (fun i => i < factors.length ∧ ∀ p, fi = some p → i ∉ p.ids)
          (env.low / n) (simScore factors norms x n) row := by
  obtain ⟨rows, e, hl, hr⟩ := gpuTopkRows_ok env hsel
    ⟨factors, xs, some norms, fi.map PyFilter.ids, none⟩ N (by simp only; omega) hfit hN'
    (by intro ns h; cases h; exact hlen)
    (by
      intro l hl c hc
      obtain ⟨p, hp, rfl⟩ := Option.map_eq_some_iff.mp hl
      exact hfi p hp c hc)
    (by intro l hl; cases hl)
    (by
      intro x hx i s hs
      simp only [rawScore] at hs
      cases h1 : factors[i]? with
      | none => rw [h1] at hs; cases hs
      | some y =>
        cases h2 : norms[i]? with
        | none => rw [h1, h2] at hs; cases hs
        | some n =>
          rw [h1, h2] at hs; cases hs
          exact hlow x hx i y n h1 h2)
  obtain ⟨qn, hqn⟩ := gather_ex (l := norms) (us := ids.toList) (by rw [hlen]; exact hids)
  have hql := gather_length hqn
  refine ⟨List.zipWith (fun row n => row.map fun p => (p.1, p.2 / n)) rows qn, ?_, ?_, ?_⟩
  · unfold gpuSimilarWith
    rw [gpuFilterVector_ok hne]
    simp only [bind, Except.bind, e]
    have : rows.mapM (remapRow (R := R) none) = .ok (rows.map id) := mapM_ok_of (fun x _ => rfl)
    rw [this, List.map_id]
    simp only [hqn]
  · simp only [List.length_zipWith]; simp only at hl; omega
  · intro r u x n row hu hx hn hrow
    obtain ⟨n', h1, h2⟩ := ((gather_ok _ _ _).mp hqn).2 r u hu
    rw [hn] at h1; cases h1
    obtain ⟨row0, h3, rfl⟩ := zipWith_div h2 hrow
    have h := padded_scaled (hr r row0 x h3 hx) (hpos n (List.mem_of_getElem? hn))
    simp only at h
    rw [simScore_raw] at h
    have hE : (fun i => i < factors.length ∧ ¬ (∃ l ∈ fi.map PyFilter.ids, i ∈ l) ∧
        ¬ (∃ l ∈ (none : Option (List (Nat × Nat))), (r, i) ∈ l)) =
        (fun i => i < factors.length ∧ ∀ p, fi = some p → i ∉ p.ids) := by
      funext i
      cases fi <;> simp
    rw [← hE]
    exact h

/-- Similarity to given query vectors, entities restricted to `S`. -/
theorem gpuSimilarWith_some [IsStrictOrderedRing R] (env : GpuEnv R)
    (hsel : ∀ (l : List R) (k : Nat), k ≤ l.length → Spec.IsSelection k l (env.sel l k))
    (factors : List (Vec f R)) (norms : List R) (hlen : norms.length = factors.length)
    (hpos : ∀ n ∈ norms, 0 < n) (ids : Ids) (hids : ∀ u ∈ ids.toList, u < factors.length)
    (xs : List (Vec f R)) (hxs : xs.length = ids.toList.length)
    (S : List Int) (hnd : S.Nodup) (hS : ∀ i ∈ S, 0 ≤ i ∧ i < factors.length)
    (fac : List (Vec f R)) (ns : List R) (hfl : fac.length = S.length) (hnl : ns.length = S.length)
    (hg : ∀ (j i : Nat), (S.map Int.toNat)[j]? = some i →
      ∃ y n, factors[i]? = some y ∧ fac[j]? = some y ∧ norms[i]? = some n ∧ ns[j]? = some n)
    (hlow : ∀ x ∈ xs, ∀ (j : Nat) y nj, factors[j]? = some y → norms[j]? = some nj → env.low < dot x y / nj)
    (N : Nat) (hN : 1 ≤ N) (hN' : N ≤ S.length)
    (hfit : xs.length * N * 32 + S.length * 4 ≤ min env.maxMem (2 ^ 32)) :
    ∃ out, gpuSimilarWith env norms ids xs fac ns (some (S.map Int.toNat)) N none = packAnswer ids out ∧
      out.length = xs.length ∧
      ∀ (r u : Nat) (x : Vec f R) (n : R) (row : List (Nat × R)), ids.toList[r]? = some u → xs[r]? = some x →
        norms[u]? = some n → out[r]? = some row →
        row.length = N ∧ Spec.IsRanking N (fun i => (i : Int) ∈ S) (simScore factors norms x n) row := by
  set its := S.map Int.toNat with hits
  have hitsl : its.length = S.length := by simp [hits]
  have hitsnd : its.Nodup := by
    refine List.Nodup.map_on ?_ hnd
    intro a ha b hb hab
    have := (hS a ha).1; have := (hS b hb).1
    omega
  have hmemS : ∀ i : Nat, i ∈ its ↔ (i : Int) ∈ S := by
    intro i
    rw [hits, List.mem_map]
    constructor
    · rintro ⟨a, ha, rfl⟩
      rwa [Int.toNat_of_nonneg (hS a ha).1]
    · intro hi; exact ⟨i, hi, by simp⟩
  have hraw : ∀ x (j i : Nat), its[j]? = some i → rawScore factors (some norms) x i = rawScore fac (some ns) x j := by
    intro x j i hj
    obtain ⟨y, n, h1, h2, h3, h4⟩ := hg j i hj
    simp only [rawScore, h1, h2, h3, h4]
  obtain ⟨rows, e, hl, hr⟩ := gpuTopkRows_ok env hsel
    ⟨fac, xs, some ns, none, none⟩ N (by simp only; omega) (by simp only; rw [hfl]; exact hfit)
    (by simp only; omega)
    (by intro ns' h; cases h; simp only; omega) (by intro l hl; cases hl) (by intro l hl; cases hl)
    (by
      intro x hx j s hs
      simp only at hs
      have hj : j < fac.length := by
        by_contra hge
        rw [not_lt] at hge
        simp only [rawScore, List.getElem?_eq_none hge] at hs
        cases hs
      have hj' : j < its.length := by omega
      obtain ⟨y, n, h1, h2, h3, h4⟩ := hg j _ (List.getElem?_eq_getElem hj')
      simp only [rawScore, h2, h4] at hs
      cases hs
      exact hlow x hx _ y n h1 h3)
  have hE : ∀ r, (fun i => i < fac.length ∧ ¬ (∃ l ∈ (none : Option (List Nat)), i ∈ l) ∧
      ¬ (∃ l ∈ (none : Option (List (Nat × Nat))), (r, i) ∈ l)) = (· < its.length) := by
    intro r; funext i; rw [hfl, hitsl]; simp
  have hrow : ∀ (r : Nat) (x : Vec f R) (row : List (Nat × R)), xs[r]? = some x → rows[r]? = some row →
      (∀ p ∈ row, p.1 < its.length) ∧
        Spec.IsPaddedRanking N (fun i => (i : Int) ∈ S) (fun i => (i : Int) ∈ S) env.low
          (rawScore factors (some norms) x) (rename its row) := by
    intro r x row hx hrow
    have h := hr r row x hrow hx
    simp only at h
    rw [hE r] at h
    rw [hfl, ← hitsl] at h
    refine padded_renamed hitsnd h (fun j hj => hj) ?_ ?_ (fun i hi => (hmemS i).mp hi) (hraw x)
    · intro i hi
      obtain ⟨j, hj⟩ := List.mem_iff_getElem?.mp ((hmemS i).mpr hi)
      exact ⟨j, hj, (List.getElem?_eq_some_iff.mp hj).1⟩
    · intro j i hj
      exact ⟨fun _ => (hmemS i).mp (List.mem_of_getElem? hj), fun _ => (List.getElem?_eq_some_iff.mp hj).1⟩
  obtain ⟨qn, hqn⟩ := gather_ex (l := norms) (us := ids.toList) (by rw [hlen]; exact hids)
  have hql := gather_length hqn
  have hlt : ∀ row ∈ rows, ∀ p ∈ row, p.1 < its.length := by
    intro row hrow' p hp
    obtain ⟨r, hr0⟩ := List.mem_iff_getElem?.mp hrow'
    have hro := (List.getElem?_eq_some_iff.mp hr0).1
    have hx : r < xs.length := by simp only at hl; omega
    exact (hrow r xs[r] row (List.getElem?_eq_getElem hx) hr0).1 p hp
  refine ⟨List.zipWith (fun row n => row.map fun p => (p.1, p.2 / n)) (rows.map (rename its)) qn, ?_, ?_, ?_⟩
  · unfold gpuSimilarWith
    simp only [gpuFilterVector, bind, Except.bind, e]
    have : rows.mapM (remapRow (some its)) = .ok (rows.map (rename its)) :=
      mapM_ok_of (fun row hrow => remapRow_some (hlt row hrow))
    rw [this]
    simp only [hqn]
  · simp only [List.length_zipWith, List.length_map]; simp only at hl; omega
  · intro r u x n row hu hx hn hrow'
    obtain ⟨n', h1, h2⟩ := ((gather_ok _ _ _).mp hqn).2 r u hu
    rw [hn] at h1; cases h1
    obtain ⟨row0, h3, rfl⟩ := zipWith_div h2 hrow'
    rw [List.getElem?_map] at h3
    obtain ⟨row1, h4, rfl⟩ := Option.map_eq_some_iff.mp h3
    have h := padded_scaled (hrow r x row1 hx h4).2 (hpos n (List.mem_of_getElem? hn))
    rw [simScore_raw] at h
    refine ⟨h.length, padded_full h hitsnd (fun i hi => (hmemS i).mp hi) (by omega)⟩

end Implicit
