import Verif.Lemmas.GpuQuery
import Verif.Props.C04
import Verif.Props.C05
import Verif.Props.C07

/-!
# C53: queries of GPU models answer like those of CPU models

For models with single precision factors, any `select_k`, any stale memory and any batch size: every row of a
batched or scalar `recommend`, `similar_items` or `similar_users` on the device ranks the best eligible items
(`C53_recommend_partial`, `C53_items_partial`, `C53_similar_partial`, `C53_similar_items_partial`), and equals
the answer of the CPU model up to ties (`C53_agrees_*`).  Missing: fewer eligible items than `N` (filtered items
are returned, as on the CPU), `N` beyond the catalogue, an empty `filter_items` and users without interactions,
which raise, and recalculated items, whose scores are not cosines (the `_violated` theorems).
-/

set_option linter.unusedSectionVars false

namespace Implicit

variable {R : Type} [LinearOrder R] [Field R] {f : Nat}

/-- What the model assumes of RAFT's `select_k`. -/
def GpuEnv.Selects (env : GpuEnv R) : Prop :=
  ∀ (l : List R) (k : Nat), k ≤ l.length → Spec.IsSelection k l (env.sel l k)

/-- **C53** for `recommend` of several users. -/
theorem C53_recommend_partial (env : GpuEnv R) (hsel : env.Selects) (m : Factors f R)
    (solve : SpRows R → Except Err (List (Vec f R)))
    (us : List Nat) (hus : us ≠ []) (hu : ∀ u ∈ us, u < m.user.length)
    (rows : SpRows R) (hrows : rows.length = us.length)
    (fl : Bool) (hliked : fl = true → ∀ liked ∈ rows, ∀ e ∈ liked, e.1 < m.item.length)
    (fi : Option PyFilter) (hne : ∀ p, fi = some p → p.ids ≠ [])
    (hfi : ∀ p, fi = some p → ∀ i ∈ p.ids, i < m.item.length)
    (hlow : ∀ x ∈ m.user, ∀ y ∈ m.item, env.low < dot x y)
    (N : Nat) (hN : 1 ≤ N) (hN' : N ≤ m.item.length)
    (hfit : us.length * N * 32 + m.item.length * 4 ≤ min env.maxMem (2 ^ 32)) :
    ∃ out, gpuRecommend env m solve (.many us) (some rows) N fl fi false none = .ok (.many out) ∧
      out.length = us.length ∧
      ∀ (r u : Nat) (x : Vec f R) (liked row : List (Nat × R)), us[r]? = some u → m.user[u]? = some x →
        rows[r]? = some liked → out[r]? = some row →
        Spec.IsPaddedRanking N (· < m.item.length)
          (fun i => i < m.item.length ∧ (fl = true → ∀ e ∈ liked, e.1 ≠ i) ∧ ∀ p, fi = some p → i ∉ p.ids)
          env.low (fun i => (m.item[i]?).map (dot x)) row := by
  obtain ⟨xs, e, hl, hx⟩ := gpuRows_many hus hu
  obtain ⟨out, ho, hol, hor⟩ := gpuRecommend_none env hsel m solve (.many us) rows hrows false xs e fl hliked fi hne
    hfi (by
      intro x hxm y hy
      obtain ⟨r, hr⟩ := List.mem_iff_getElem?.mp hxm
      have hrl := (List.getElem?_eq_some_iff.mp hr).1
      have hr' : r < us.length := by omega
      rw [hx r _ (List.getElem?_eq_getElem hr')] at hr
      exact hlow x (List.mem_of_getElem? hr) y hy) N hN hN' (by rw [hl]; exact hfit)
  refine ⟨out, ho, by omega, ?_⟩
  intro r u x liked row h1 h2 h3 h4
  exact hor r x liked row (by rw [hx r u h1]; exact h2) h3 h4

/-- **C53** for `recommend` of one user. -/
theorem C53_recommend_one_partial (env : GpuEnv R) (hsel : env.Selects) (m : Factors f R)
    (solve : SpRows R → Except Err (List (Vec f R)))
    (u : Nat) (x : Vec f R) (hu : m.user[u]? = some x)
    (liked : List (Nat × R)) (fl : Bool) (hliked : fl = true → ∀ e ∈ liked, e.1 < m.item.length)
    (fi : Option PyFilter) (hne : ∀ p, fi = some p → p.ids ≠ [])
    (hfi : ∀ p, fi = some p → ∀ i ∈ p.ids, i < m.item.length)
    (hlow : ∀ y ∈ m.item, env.low < dot x y)
    (N : Nat) (hN : 1 ≤ N) (hN' : N ≤ m.item.length)
    (hfit : N * 32 + m.item.length * 4 ≤ min env.maxMem (2 ^ 32)) :
    ∃ row, gpuRecommend env m solve (.one u) (some [liked]) N fl fi false none = .ok (.one row) ∧
      Spec.IsPaddedRanking N (· < m.item.length)
        (fun i => i < m.item.length ∧ (fl = true → ∀ e ∈ liked, e.1 ≠ i) ∧ ∀ p, fi = some p → i ∉ p.ids)
        env.low (fun i => (m.item[i]?).map (dot x)) row := by
  obtain ⟨out, ho, hol, hor⟩ := gpuRecommend_none env hsel m solve (.one u) [liked] rfl false [x]
    (by simp only [gpuUserFactor, gpuRows, hu]; rfl) fl
    (by intro h l hl; rw [List.mem_singleton] at hl; subst hl; exact hliked h) fi hne
    hfi (by intro y hy; rw [List.mem_singleton] at hy; subst hy; exact hlow) N hN hN' (by simpa using hfit)
  match out, hol with
  | [row], _ => exact ⟨row, ho, hor 0 x liked row rfl rfl rfl⟩

/-- **C53** for users whose factors are recalculated: the ranking is that of the solved factors. -/
theorem C53_recalculate_partial (env : GpuEnv R) (hsel : env.Selects) (m : Factors f R)
    (solve : SpRows R → Except Err (List (Vec f R))) (us : List Nat)
    (rows : SpRows R) (hrows : rows.length = us.length) (hent : ∃ liked ∈ rows, liked ≠ [])
    (xs : List (Vec f R)) (hsolve : solve rows = .ok xs) (hxs : xs.length = us.length)
    (fl : Bool) (hliked : fl = true → ∀ liked ∈ rows, ∀ e ∈ liked, e.1 < m.item.length)
    (hlow : ∀ x ∈ xs, ∀ y ∈ m.item, env.low < dot x y)
    (N : Nat) (hN : 1 ≤ N) (hN' : N ≤ m.item.length)
    (hfit : us.length * N * 32 + m.item.length * 4 ≤ min env.maxMem (2 ^ 32)) :
    ∃ out, gpuRecommend env m solve (.many us) (some rows) N fl none true none = .ok (.many out) ∧
      out.length = us.length ∧
      ∀ (r : Nat) (x : Vec f R) (liked row : List (Nat × R)), xs[r]? = some x →
        rows[r]? = some liked → out[r]? = some row →
        Spec.IsPaddedRanking N (· < m.item.length)
          (fun i => i < m.item.length ∧ (fl = true → ∀ e ∈ liked, e.1 ≠ i))
          env.low (fun i => (m.item[i]?).map (dot x)) row := by
  obtain ⟨out, ho, hol, hor⟩ := gpuRecommend_none env hsel m solve (.many us) rows hrows true xs
    (by
      simp only [gpuUserFactor, if_true, gpuRecalc]
      rw [if_neg]
      · exact hsolve
      · obtain ⟨l, h1, h2⟩ := hent
        intro h
        rw [List.all_eq_true] at h
        exact h2 (by simpa using h l h1)) fl hliked none (by simp) (by simp) hlow N hN hN' (by rw [hxs]; exact hfit)
  refine ⟨out, ho, by omega, ?_⟩
  intro r x liked row h1 h2 h3
  have := hor r x liked row h1 h2 h3
  simpa using this

/-- **C53** for `recommend` restricted to a list of distinct items, any `N`. -/
theorem C53_items_partial (env : GpuEnv R) (hsel : env.Selects) (m : Factors f R)
    (solve : SpRows R → Except Err (List (Vec f R)))
    (us : List Nat) (hus : us ≠ []) (hu : ∀ u ∈ us, u < m.user.length)
    (rows : SpRows R) (hrows : rows.length = us.length)
    (fl : Bool) (hnz : fl = true → ∀ liked ∈ rows, ∀ e ∈ liked, e.2 ≠ 0)
    (S : List Int) (hne : S ≠ []) (hnd : S.Nodup) (hS : ∀ i ∈ S, 0 ≤ i ∧ i < m.item.length)
    (hlow : ∀ x ∈ m.user, ∀ y ∈ m.item, env.low < dot x y) (N : Nat)
    (hfit : us.length * min N S.length * 32 + S.length * 4 ≤ min env.maxMem (2 ^ 32)) :
    ∃ out, gpuRecommend env m solve (.many us) (some rows) N fl none false (some S) = .ok (.many out) ∧
      out.length = us.length ∧
      ∀ (r u : Nat) (x : Vec f R) (liked row : List (Nat × R)), us[r]? = some u → m.user[u]? = some x →
        rows[r]? = some liked → out[r]? = some row →
        Spec.IsPaddedRanking (min N S.length) (fun i => (i : Int) ∈ S)
          (fun i => (i : Int) ∈ S ∧ (fl = true → ∀ e ∈ liked, e.1 ≠ i))
          env.low (fun i => (m.item[i]?).map (dot x)) row := by
  obtain ⟨xs, e, hl, hx⟩ := gpuRows_many hus hu
  obtain ⟨out, ho, hol, hor⟩ := gpuRecommend_some env hsel m solve (.many us) rows hrows false xs e fl hnz S hne hnd
    hS (by
      intro x hxm y hy
      obtain ⟨r, hr⟩ := List.mem_iff_getElem?.mp hxm
      have hrl := (List.getElem?_eq_some_iff.mp hr).1
      have hr' : r < us.length := by omega
      rw [hx r _ (List.getElem?_eq_getElem hr')] at hr
      exact hlow x (List.mem_of_getElem? hr) y hy) N (by rw [hl]; exact hfit)
  refine ⟨out, ho, by omega, ?_⟩
  intro r u x liked row h1 h2 h3 h4
  exact hor r x liked row (by rw [hx r u h1]; exact h2) h3 h4

/-- **C53** for `similar_items` and `similar_users` of several ids: each row ranks the unfiltered entities by
cosine. -/
theorem C53_similar_partial [IsStrictOrderedRing R] (env : GpuEnv R) (hsel : env.Selects)
    (factors : List (Vec f R)) (norms : List R) (hlen : norms.length = factors.length) (hpos : ∀ n ∈ norms, 0 < n)
    (us : List Nat) (hus : us ≠ []) (hu : ∀ u ∈ us, u < factors.length)
    (fi : Option PyFilter) (hne : ∀ p, fi = some p → p.ids ≠ [])
    (hfi : ∀ p, fi = some p → ∀ i ∈ p.ids, i < factors.length)
    (hlow : ∀ x ∈ factors, ∀ (j : Nat) y nj, factors[j]? = some y → norms[j]? = some nj → env.low < dot x y / nj)
    (N : Nat) (hN : 1 ≤ N) (hN' : N ≤ factors.length)
    (hfit : us.length * N * 32 + factors.length * 4 ≤ min env.maxMem (2 ^ 32)) :
    ∃ out, gpuSimilar env factors norms (.many us) N fi none = .ok (.many out) ∧ out.length = us.length ∧
      ∀ (r u : Nat) (x : Vec f R) (n : R) (row : List (Nat × R)), us[r]? = some u → factors[u]? = some x →
        norms[u]? = some n → out[r]? = some row →
        Spec.IsPaddedRanking N (· < factors.length)
          (fun i => i < factors.length ∧ ∀ p, fi = some p → i ∉ p.ids)
          (env.low / n) (simScore factors norms x n) row := by
  obtain ⟨xs, e, hl, hx⟩ := gpuRows_many hus hu
  obtain ⟨out, ho, hol, hor⟩ := gpuSimilarWith_none env hsel factors norms hlen hpos (.many us) hu xs hl fi hne hfi
    (by
      intro x hxm
      obtain ⟨r, hr⟩ := List.mem_iff_getElem?.mp hxm
      have hrl := (List.getElem?_eq_some_iff.mp hr).1
      have hr' : r < us.length := by omega
      rw [hx r _ (List.getElem?_eq_getElem hr')] at hr
      exact hlow x (List.mem_of_getElem? hr)) N hN hN' (by rw [hl]; exact hfit)
  refine ⟨out, ?_, by omega, ?_⟩
  · simp only [gpuSimilar, gpuRestrictSimilar, bind, Except.bind, e, ho]; rfl
  · intro r u x n row h1 h2 h3 h4
    exact hor r u x n row h1 (by rw [hx r u h1]; exact h2) h3 h4

/-- **C53** for a similarity query of one id. -/
theorem C53_similar_one_partial [IsStrictOrderedRing R] (env : GpuEnv R) (hsel : env.Selects)
    (factors : List (Vec f R)) (norms : List R) (hlen : norms.length = factors.length) (hpos : ∀ n ∈ norms, 0 < n)
    (u : Nat) (x : Vec f R) (hu : factors[u]? = some x) (n : R) (hn : norms[u]? = some n)
    (fi : Option PyFilter) (hne : ∀ p, fi = some p → p.ids ≠ [])
    (hfi : ∀ p, fi = some p → ∀ i ∈ p.ids, i < factors.length)
    (hlow : ∀ (j : Nat) y nj, factors[j]? = some y → norms[j]? = some nj → env.low < dot x y / nj)
    (N : Nat) (hN : 1 ≤ N) (hN' : N ≤ factors.length)
    (hfit : N * 32 + factors.length * 4 ≤ min env.maxMem (2 ^ 32)) :
    ∃ row, gpuSimilar env factors norms (.one u) N fi none = .ok (.one row) ∧
      Spec.IsPaddedRanking N (· < factors.length)
        (fun i => i < factors.length ∧ ∀ p, fi = some p → i ∉ p.ids)
        (env.low / n) (simScore factors norms x n) row := by
  obtain ⟨out, ho, hol, hor⟩ := gpuSimilarWith_none env hsel factors norms hlen hpos (.one u)
    (by
      intro v hv
      simp only [Ids.toList, List.mem_singleton] at hv
      subst hv
      exact (List.getElem?_eq_some_iff.mp hu).1) [x] rfl fi hne hfi
    (by intro y hy; rw [List.mem_singleton] at hy; subst hy; exact hlow) N hN hN' (by simpa using hfit)
  match out, hol with
  | [row], _ =>
    refine ⟨row, ?_, hor 0 u x n row rfl rfl hn rfl⟩
    simp only [gpuSimilar, gpuRestrictSimilar, bind, Except.bind, gpuRows, hu, ho]; rfl

/-- **C53** for a similarity query restricted to at least `N` distinct entities. -/
theorem C53_similar_items_partial [IsStrictOrderedRing R] (env : GpuEnv R) (hsel : env.Selects)
    (factors : List (Vec f R)) (norms : List R) (hlen : norms.length = factors.length) (hpos : ∀ n ∈ norms, 0 < n)
    (us : List Nat) (hus : us ≠ []) (hu : ∀ u ∈ us, u < factors.length)
    (S : List Int) (hnd : S.Nodup) (hS : ∀ i ∈ S, 0 ≤ i ∧ i < factors.length)
    (hlow : ∀ x ∈ factors, ∀ (j : Nat) y nj, factors[j]? = some y → norms[j]? = some nj → env.low < dot x y / nj)
    (N : Nat) (hN : 1 ≤ N) (hN' : N ≤ S.length)
    (hfit : us.length * N * 32 + S.length * 4 ≤ min env.maxMem (2 ^ 32)) :
    ∃ out, gpuSimilar env factors norms (.many us) N none (some S) = .ok (.many out) ∧ out.length = us.length ∧
      ∀ (r u : Nat) (x : Vec f R) (n : R) (row : List (Nat × R)), us[r]? = some u → factors[u]? = some x →
        norms[u]? = some n → out[r]? = some row →
        row.length = N ∧ Spec.IsRanking N (fun i => (i : Int) ∈ S) (simScore factors norms x n) row := by
  have hne : S ≠ [] := by intro h; subst h; simp at hN'; omega
  obtain ⟨xs, e, hl, hx⟩ := gpuRows_many hus hu
  obtain ⟨fac, ns, hres, hfl, hnl, hg⟩ := restrictSimilar_ok (fi := none) rfl hne hlen hS
  rw [← gpuRestrictSimilar_ok rfl hne hlen hS] at hres
  obtain ⟨out, ho, hol, hor⟩ := gpuSimilarWith_some env hsel factors norms hlen hpos (.many us) hu xs hl S hnd hS
    fac ns hfl hnl hg
    (by
      intro x hxm
      obtain ⟨r, hr⟩ := List.mem_iff_getElem?.mp hxm
      have hrl := (List.getElem?_eq_some_iff.mp hr).1
      have hr' : r < us.length := by omega
      rw [hx r _ (List.getElem?_eq_getElem hr')] at hr
      exact hlow x (List.mem_of_getElem? hr)) N hN hN' (by rw [hl]; exact hfit)
  refine ⟨out, ?_, by omega, ?_⟩
  · simp only [gpuSimilar, hres, bind, Except.bind, e, ho]; rfl
  · intro r u x n row h1 h2 h3 h4
    exact hor r u x n row h1 (by rw [hx r u h1]; exact h2) h3 h4

/-- **C53** for `similar_items` with recalculation: row `r` ranks the unfiltered items for the vector computed from row `r` of
`item_users`.  The scores are divided by the stored norm of the item and not by that of the vector
(`C53_recalculate_violated`), which does not change the order. -/
theorem C53_similar_recalculated_partial [IsStrictOrderedRing R] (env : GpuEnv R) (hsel : env.Selects)
    (factors : List (Vec f R)) (norms : List R) (hlen : norms.length = factors.length) (hpos : ∀ n ∈ norms, 0 < n)
    (us : List Nat) (hu : ∀ u ∈ us, u < factors.length)
    (solve : SpRows R → Except Err (List (Vec f R))) (itemUsers : SpRows R) (hrows : ∃ row ∈ itemUsers, row ≠ [])
    (xs : List (Vec f R)) (hxs : solve itemUsers = .ok xs) (hl : xs.length = us.length)
    (fi : Option PyFilter) (hne : ∀ p, fi = some p → p.ids ≠ [])
    (hfi : ∀ p, fi = some p → ∀ i ∈ p.ids, i < factors.length)
    (hlow : ∀ x ∈ xs, ∀ (j : Nat) y nj, factors[j]? = some y → norms[j]? = some nj → env.low < dot x y / nj)
    (N : Nat) (hN : 1 ≤ N) (hN' : N ≤ factors.length)
    (hfit : us.length * N * 32 + factors.length * 4 ≤ min env.maxMem (2 ^ 32)) :
    ∃ out, gpuSimilarRecalc env factors norms solve itemUsers (.many us) N fi none = .ok (.many out) ∧ out.length = us.length ∧
      ∀ (r u : Nat) (x : Vec f R) (n : R) (row : List (Nat × R)), us[r]? = some u → xs[r]? = some x →
        norms[u]? = some n → out[r]? = some row →
        Spec.IsPaddedRanking N (· < factors.length)
          (fun i => i < factors.length ∧ ∀ p, fi = some p → i ∉ p.ids)
          (env.low / n) (simScore factors norms x n) row := by
  obtain ⟨out, ho, hol, hor⟩ := gpuSimilarWith_none env hsel factors norms hlen hpos (.many us) hu xs hl fi hne hfi
    hlow N hN hN' (by rw [hl]; exact hfit)
  have hrec : gpuRecalc solve itemUsers = .ok xs := by
    unfold gpuRecalc
    rw [if_neg, hxs]
    intro h
    obtain ⟨row, hrow, hne⟩ := hrows
    exact hne (List.isEmpty_iff.mp (List.all_eq_true.mp h row hrow))
  refine ⟨out, ?_, by omega, hor⟩
  simp only [gpuSimilarRecalc, gpuRestrictSimilar, bind, Except.bind, hrec, ho]; rfl

/-! ### Agreement with the CPU model -/

/-- **C53** `recommend` with a filter on the device and on the CPU: the same scores in the same order, and the
same items if no two eligible items tie. -/
theorem C53_agrees_partial (env : GpuEnv R) (hsel : env.Selects) (H : HeapImpl (R × Nat) pairLt)
    (neginf : R) (m : Factors f R) (solve recalc : SpRows R → Except Err (List (Vec f R)))
    (u : Nat) (x : Vec f R) (hu : m.user[u]? = some x)
    (liked : List (Nat × R)) (hliked : ∀ e ∈ liked, e.1 < m.item.length)
    (F : List Nat) (hne : F ≠ []) (hF : ∀ i ∈ F, i < m.item.length)
    (hlow : ∀ y ∈ m.item, env.low < dot x y) (hlow' : ∀ y ∈ m.item, neginf < dot x y)
    (N : Nat) (hN : 1 ≤ N)
    (hcard : N ≤ ((List.range m.item.length).filter
      (fun i => decide (i ∉ liked.map Prod.fst ∧ i ∉ F))).length)
    (hfit : N * 32 + m.item.length * 4 ≤ min env.maxMem (2 ^ 32)) :
    ∃ gpu cpu,
      gpuRecommend env m solve (.one u) (some [liked]) N true (some (.array F)) false none = .ok (.one gpu) ∧
      recommend H neginf m recalc (.one u) (some [liked]) N true (some (.array F)) false none = .ok (.one cpu) ∧
      gpu.map Prod.snd = cpu.map Prod.snd ∧
      ((∀ (i j : Nat) yi yj, m.item[i]? = some yi → m.item[j]? = some yj → dot x yi = dot x yj → i = j) → gpu = cpu) := by
  have hN' : N ≤ m.item.length := le_trans hcard (by
    simpa using List.length_filter_le (fun i => decide (i ∉ liked.map Prod.fst ∧ i ∉ F))
      (List.range m.item.length))
  obtain ⟨cpu, e1, hl1, -, hr1⟩ :=
    C04_filter_partial H neginf m recalc u x hu liked hliked F hF hlow' N hN hcard
  obtain ⟨gpu, e2, hp⟩ := C53_recommend_one_partial env hsel m solve u x hu liked true (fun _ => hliked)
    (some (.array F)) (by intro p hp; cases hp; exact hne) (by intro p hp; cases hp; exact hF) hlow N hN hN' hfit
  have hE : (fun i => i < m.item.length ∧ (true = true → ∀ e ∈ liked, e.1 ≠ i) ∧
      ∀ p, some (PyFilter.array F) = some p → i ∉ p.ids) =
      (fun i => i < m.item.length ∧ i ∉ liked.map Prod.fst ∧ i ∉ F) := by
    funext i
    simp only [Option.some.injEq, forall_eq', PyFilter.ids, List.mem_map, not_exists, not_and, forall_const]
  rw [hE] at hp
  have hr2 := padded_full hp (l := (List.range m.item.length).filter
      (fun i => decide (i ∉ liked.map Prod.fst ∧ i ∉ F))) (List.nodup_range.filter _)
    (by
      intro i hi
      obtain ⟨h1, h2⟩ := List.mem_filter.mp hi
      exact ⟨List.mem_range.mp h1, by simpa using h2⟩) hcard
  have hl2 := hp.length
  refine ⟨gpu, cpu, e2, e1, ranking_scores hr2 hr1 (by omega), ?_⟩
  intro hinj
  refine ranking_unique hr2 hr1 (by omega) ?_
  intro i j hi hj he
  refine hinj i j _ _ (List.getElem?_eq_getElem hi.1) (List.getElem?_eq_getElem hj.1) ?_
  simpa [List.getElem?_eq_getElem hi.1, List.getElem?_eq_getElem hj.1] using he

/-- **C53** the same with `items`. -/
theorem C53_agrees_items_partial (env : GpuEnv R) (hsel : env.Selects) (H : HeapImpl (R × Nat) pairLt)
    (neginf : R) (m : Factors f R) (solve recalc : SpRows R → Except Err (List (Vec f R)))
    (u : Nat) (x : Vec f R) (hu : m.user[u]? = some x)
    (S : List Int) (hnd : S.Nodup) (hS : ∀ i ∈ S, 0 ≤ i ∧ i < m.item.length)
    (liked : List (Nat × R)) (hnz : ∀ e ∈ liked, e.2 ≠ 0)
    (hlow : ∀ y ∈ m.item, env.low < dot x y) (hlow' : ∀ y ∈ m.item, neginf < dot x y) (N : Nat) (hN : 1 ≤ N)
    (hcard : N ≤ (S.filter (fun i => decide (i ∉ liked.map (fun e => (e.1 : Int))))).length)
    (hfit : N * 32 + S.length * 4 ≤ min env.maxMem (2 ^ 32)) :
    ∃ gpu cpu,
      gpuRecommend env m solve (.one u) (some [liked]) N true none false (some S) = .ok (.one gpu) ∧
      recommend H neginf m recalc (.one u) (some [liked]) N true none false (some S) = .ok (.one cpu) ∧
      gpu.map Prod.snd = cpu.map Prod.snd ∧
      ((∀ (i j : Nat) yi yj, m.item[i]? = some yi → m.item[j]? = some yj → dot x yi = dot x yj → i = j) → gpu = cpu) := by
  have hle : N ≤ S.length := le_trans hcard (List.length_filter_le _ _)
  have hne : S ≠ [] := by intro h; subst h; simp at hle; omega
  obtain ⟨cpu, e1, hl1, hr1⟩ := C05_items_partial H neginf m recalc u x hu S hnd hS liked hnz hlow' N hN hcard
  obtain ⟨out, ho, hol, hor⟩ := gpuRecommend_some env hsel m solve (.one u) [liked] rfl false [x]
    (by simp only [gpuUserFactor, gpuRows, hu]; rfl) true
    (by intro _ l hl; rw [List.mem_singleton] at hl; subst hl; exact hnz) S hne hnd hS
    (by intro y hy; rw [List.mem_singleton] at hy; subst hy; exact hlow) N
    (by rw [Nat.min_eq_left hle]; simpa using hfit)
  match out, hol with
  | [gpu], _ =>
    have hp := hor 0 x liked gpu rfl rfl rfl
    rw [Nat.min_eq_left hle] at hp
    have hE : (fun i : Nat => (i : Int) ∈ S ∧ (true = true → ∀ e ∈ liked, e.1 ≠ i)) =
        (fun i : Nat => (i : Int) ∈ S ∧ i ∉ liked.map Prod.fst) := by
      funext i
      simp only [List.mem_map, not_exists, not_and, forall_const]
    rw [hE] at hp
    have hr2 := padded_full hp (l := (S.filter (fun i => decide (i ∉ liked.map (fun e => (e.1 : Int))))).map Int.toNat)
      (List.Nodup.map_on (by
        intro a ha b hb hab
        have := (hS a (List.mem_filter.mp ha).1).1
        have := (hS b (List.mem_filter.mp hb).1).1
        omega) (hnd.filter _))
      (by
        intro i hi
        obtain ⟨a, ha, rfl⟩ := List.mem_map.mp hi
        obtain ⟨h1, h2⟩ := List.mem_filter.mp ha
        have h0 := (hS a h1).1
        refine ⟨by rwa [Int.toNat_of_nonneg h0], ?_⟩
        intro hm
        obtain ⟨e, he, hee⟩ := List.mem_map.mp hm
        have h3 : a ∉ liked.map (fun e => (e.1 : Int)) := by simpa using h2
        exact h3 (List.mem_map.mpr ⟨e, he, by rw [hee]; exact Int.toNat_of_nonneg h0⟩))
      (by rw [List.length_map]; exact hcard)
    have hl2 := hp.length
    refine ⟨gpu, cpu, ho, e1, ranking_scores hr2 hr1 (by omega), ?_⟩
    intro hinj
    refine ranking_unique hr2 hr1 (by omega) ?_
    intro i j hi hj he
    have h1 : i < m.item.length := by have := (hS _ hi.1).2; omega
    have h2 : j < m.item.length := by have := (hS _ hj.1).2; omega
    refine hinj i j _ _ (List.getElem?_eq_getElem h1) (List.getElem?_eq_getElem h2) ?_
    simpa [List.getElem?_eq_getElem h1, List.getElem?_eq_getElem h2] using he

/-- **C53** similarity queries with a filter on the device and on the CPU. -/
theorem C53_agrees_similar_partial [IsStrictOrderedRing R] (env : GpuEnv R) (hsel : env.Selects)
    (H : HeapImpl (R × Nat) pairLt) (neginf : R) (factors : List (Vec f R))
    (norms : List R) (hlen : norms.length = factors.length) (hpos : ∀ n ∈ norms, 0 < n)
    (u : Nat) (x : Vec f R) (hu : factors[u]? = some x) (n : R) (hn : norms[u]? = some n)
    (F : List Nat) (hne : F ≠ []) (hF : ∀ i ∈ F, i < factors.length)
    (hlow : ∀ (j : Nat) y nj, factors[j]? = some y → norms[j]? = some nj → env.low < dot x y / nj)
    (hlow' : ∀ (j : Nat) y nj, factors[j]? = some y → norms[j]? = some nj → neginf < dot x y / nj)
    (N : Nat) (hN : 1 ≤ N)
    (hcard : N ≤ ((List.range factors.length).filter (fun i => decide (i ∉ F))).length)
    (hfit : N * 32 + factors.length * 4 ≤ min env.maxMem (2 ^ 32)) :
    ∃ gpu cpu,
      gpuSimilar env factors norms (.one u) N (some (.array F)) none = .ok (.one gpu) ∧
      similar H neginf factors norms (.one u) N (some (.array F)) none = .ok (.one cpu) ∧
      gpu.map Prod.snd = cpu.map Prod.snd ∧
      ((∀ i j s, simScore factors norms x n i = some s → simScore factors norms x n j = some s → i = j) →
        gpu = cpu) := by
  have hN' : N ≤ factors.length := le_trans hcard (by
    simpa using List.length_filter_le (fun i => decide (i ∉ F)) (List.range factors.length))
  obtain ⟨cpu, e1, hl1, -, hr1⟩ :=
    C08_filter_partial H neginf factors norms hlen hpos u x hu n hn F hF hlow' N hN hcard
  obtain ⟨gpu, e2, hp⟩ := C53_similar_one_partial env hsel factors norms hlen hpos u x hu n hn
    (some (.array F)) (by intro p hp; cases hp; exact hne) (by intro p hp; cases hp; exact hF) hlow N hN hN' hfit
  have hE : (fun i => i < factors.length ∧ ∀ p, some (PyFilter.array F) = some p → i ∉ p.ids) =
      (fun i => i < factors.length ∧ i ∉ F) := by
    funext i
    simp only [Option.some.injEq, forall_eq', PyFilter.ids]
  rw [hE] at hp
  have hr2 := padded_full hp (l := (List.range factors.length).filter (fun i => decide (i ∉ F)))
    (List.nodup_range.filter _)
    (by
      intro i hi
      obtain ⟨h1, h2⟩ := List.mem_filter.mp hi
      exact ⟨List.mem_range.mp h1, by simpa using h2⟩) hcard
  have hl2 := hp.length
  refine ⟨gpu, cpu, e2, e1, ranking_scores hr2 hr1 (by omega), ?_⟩
  intro hinj
  refine ranking_unique hr2 hr1 (by omega) ?_
  intro i j hi hj he
  have h1 : i < norms.length := by rw [hlen]; exact hi.1
  have hs : simScore factors norms x n i = some (dot x factors[i] / norms[i] / n) := by
    simp only [simScore, List.getElem?_eq_getElem hi.1, List.getElem?_eq_getElem h1]
  exact hinj i j _ hs (he ▸ hs)

/-! ### Rejected arguments -/

/-- Bad arguments raise: an unknown user, a wrong number of interaction rows, `items` outside the model. -/
theorem C53_errors (env : GpuEnv R) (m : Factors f R) (solve : SpRows R → Except Err (List (Vec f R)))
    (N : Nat) (fl : Bool) (fi : Option PyFilter) :
    (∀ (u : Nat) (liked : List (Nat × R)) (its : Option (List Int)), m.user.length ≤ u →
      gpuRecommend env m solve (.one u) (some [liked]) N fl fi false its = .error .valueError) ∧
    (∀ (us : List Nat) (rows : SpRows R) (its : Option (List Int)), rows.length = us.length →
      (us = [] ∨ ∃ u ∈ us, m.user.length ≤ u) →
      gpuRecommend env m solve (.many us) (some rows) N fl fi false its = .error .indexError) ∧
    (∀ (ids : Ids) (rows : SpRows R) (its : Option (List Int)) (rec : Bool), rows.length ≠ ids.count →
      gpuRecommend env m solve ids (some rows) N true fi rec its = .error .valueError) ∧
    (∀ (u : Nat) (liked : List (Nat × R)) (S : List Int), u < m.user.length →
      (S = [] ∨ ∃ i ∈ S, i < 0 ∨ (m.item.length : Int) ≤ i) →
      gpuRecommend env m solve (.one u) (some [liked]) N fl none false (some S) = .error .indexError) := by
  refine ⟨?_, ?_, ?_, ?_⟩
  · intro u liked its h
    unfold gpuRecommend
    rw [checkUserItems_ok rfl]
    simp only [bind, Except.bind, gpuUserFactor, gpuRows, List.getElem?_eq_none h]
    rfl
  · intro us rows its hl h
    unfold gpuRecommend
    rw [checkUserItems_ok hl]
    have : gpuRows m.user (.many us) = .error .indexError := by
      simp only [gpuRows]
      by_cases he : us = []
      · subst he; rfl
      · rw [if_neg (by simpa using he)]
        obtain ⟨u, hu, hge⟩ := h.resolve_left he
        cases hg : gather m.user us with
        | error e =>
          have : ∀ (us : List Nat) e, gather m.user us = .error e → e = .indexError := by
            intro us
            induction us with
            | nil => intro e h; cases h
            | cons a us ih =>
              intro e h
              unfold gather at h
              split at h
              · cases h; rfl
              · cases hg' : gather m.user us with
                | error e' => rw [hg'] at h; cases h; exact ih _ hg'
                | ok xs => rw [hg'] at h; cases h
          rw [this us e hg]
        | ok xs =>
          obtain ⟨r, hr⟩ := List.mem_iff_getElem?.mp hu
          obtain ⟨x, h1, -⟩ := ((gather_ok _ _ _).mp hg).2 r u hr
          have := (List.getElem?_eq_some_iff.mp h1).1
          omega
    simp only [bind, Except.bind, gpuUserFactor, Bool.false_eq_true, if_false, this]
  · intro ids rows its rec h
    unfold gpuRecommend checkUserItems
    simp only [Bool.true_or, if_true, if_neg h]
    rfl
  · intro u liked S hu h
    unfold gpuRecommend
    rw [checkUserItems_ok rfl]
    have hb : gpuSelectRows m.item (S.insertionSort (· ≤ ·)) = .error .indexError := by
      apply gpuSelectRows_bad
      rcases h with h | ⟨i, hi, hb⟩
      · left; rw [h]; rfl
      · right; exact ⟨i, by simpa using hi, hb⟩
    simp only [bind, Except.bind, gpuUserFactor, gpuRows, List.getElem?_eq_getElem hu, gpuRestrict, truthyOpt, hb,
      Bool.false_eq_true, if_false]

/-! ### Where the device differs -/

/-- A device with `selTest`, 4000 bytes, and stale cells `(7, 7)`. -/
def testEnv : GpuEnv Rat where
  sel := selTest
  low := -100
  maxMem := 4000
  garbage := fun _ => (7, 7)
  garbageTemp := fun _ => 9

def testFactors : Factors 1 Rat where
  user := [![1], ![-1]]
  item := [![1], ![2], ![3]]

/-- An empty `filter_items` raises `IndexError` for every model, user and option, whereas the CPU model answers. -/
theorem C53_empty_filter_violated :
    (∀ (env : GpuEnv R) (m : Factors f R) (solve : SpRows R → Except Err (List (Vec f R))) (u : Nat)
      (liked : List (Nat × R)) (N : Nat) (fl : Bool) (p : PyFilter), u < m.user.length → p.ids = [] →
      gpuRecommend env m solve (.one u) (some [liked]) N fl (some p) false none = .error .indexError) ∧
    recommend insertionHeap (-1000) testFactors noRecalc (.one 0) (some [[(0, 1)]]) 2 true (some (.list [])) false
      none = .ok (.one [(2, 3), (1, 2)]) := by
  constructor
  · intro env m solve u liked N fl p hu hp
    unfold gpuRecommend
    rw [checkUserItems_ok rfl]
    simp only [bind, Except.bind, gpuUserFactor, gpuRows, List.getElem?_eq_getElem hu, gpuRestrict, gpuFilterVector, hp,
      Bool.false_eq_true, if_false, List.isEmpty_nil, if_true]
  · decide +kernel

/-- A user without interactions cannot be recalculated: `IndexError` for every model. -/
theorem C53_empty_user_violated (env : GpuEnv R) (m : Factors f R)
    (solve : SpRows R → Except Err (List (Vec f R))) (u N : Nat) (fl : Bool) (its : Option (List Int)) :
    gpuRecommend env m solve (.one u) (some [[]]) N fl none true its = .error .indexError := by
  unfold gpuRecommend
  rw [checkUserItems_ok rfl]
  simp only [bind, Except.bind, gpuUserFactor, if_true, gpuRecalc, List.all_cons, List.all_nil, List.isEmpty_nil,
    Bool.and_self]

/-- Fewer eligible items than `N`: a liked item is returned. `N` beyond the catalogue: rows of a batch are
misaligned, and stale cells are returned (user 1 would have `-1, -2, -3`). -/
theorem C53_recommend_violated :
    gpuRecommend testEnv testFactors noRecalc (.one 0) (some [[(0, 1), (1, 1)]]) 2 true none false none =
      .ok (.one [(2, 3), (0, -100)]) ∧
    gpuRecommend testEnv testFactors noRecalc (.many [0, 1]) (some [[], []]) 4 true none false none =
      .ok (.many [[(2, 3), (1, 2), (0, 1), (0, -1)], [(1, -2), (2, -3), (7, 7), (7, 7)]]) := by
  constructor <;> decide +kernel

/-- `similar_items` with `N` larger than the list of `items`: stale ids, here beyond the list, raise. -/
theorem C53_similar_items_violated :
    gpuSimilar testEnv [![1], ![-1], ![2]] [1, 1, 2] (.one 0) 3 none (some [1, 2]) = .error .indexError ∧
    similar insertionHeap (-1000) [![1], ![-1], ![2]] [1, 1, (2 : Rat)] (.one 0) 3 none (some [1, 2]) =
      .ok (.one [(2, 1), (1, -1), (1, 0)]) := by
  constructor <;> decide +kernel

/-- `recalculate_item`: the scores are divided by the stored norm of the item, not by the norm of the
recalculated factors.  The recalculated item `(2)` and item `0`, `(1)`, are parallel: the CPU answers the cosine
`1`, the device `2`. -/
theorem C53_recalculate_violated :
    gpuSimilarRecalc testEnv [![1], ![2]] [1, 2] (fun _ => .ok [![2]]) [[(0, 1)]] (.one 0) 1 (some (.list [1])) none =
      .ok (.one [(0, 2)]) ∧
    similarRecalc insertionHeap (-1000) (fun v => |v 0|) 1 [![1], ![2]] [1, (2 : Rat)] (fun _ => .ok [![2]]) [[(0, 1)]]
      (.one 0) 1 (some (.list [1])) none = .ok (.one [(0, 1)]) := by
  constructor <;> decide +kernel

/-- Two recalculated items. -/
example : gpuSimilarRecalc testEnv [![1], ![-1], ![2]] [1, 1, 2] (fun rows => .ok (rows.map fun row => ![(row.map Prod.snd).sum]))
    [[(0, 1)], [(0, -3), (1, 2)]] (.many [0, 2]) 2 none none = .ok (.many [[(0, 1), (2, 1)], [(1, 1 / 2), (0, -1 / 2)]]) := by
  decide +kernel

/-- Two users, liked items removed, a filter: the hypotheses of `C53_recommend_partial` hold. -/
example : gpuRecommend testEnv testFactors noRecalc (.many [1, 0]) (some [[(0, 1)], [(2, 1)]]) 1 true
      (some (.list [1])) false none = .ok (.many [[(2, -3)], [(0, 1)]]) ∧
    2 * 1 * 32 + testFactors.item.length * 4 ≤ min testEnv.maxMem (2 ^ 32) := by decide +kernel

example : gpuRecommend testEnv testFactors noRecalc (.many [1, 0]) (some [[(0, 1)], [(2, 1)]]) 5 true
      none false (some [2, 0, 1]) = .ok (.many [[(1, -2), (2, -3), (0, -100)], [(1, 2), (0, 1), (2, -100)]]) := by
  decide +kernel

example : gpuSimilar testEnv [![1], ![-1], ![2]] [1, 1, 2] (.many [0, 2]) 2 (some (.list [0])) none =
    .ok (.many [[(2, 1), (1, -1)], [(2, 1), (1, -1)]]) := by decide +kernel

end Implicit
