import Verif.Props.C67
import Verif.Props.C08
/-!
# C67 — renaming and `similar_items`, `similar_users`
-/

set_option linter.unusedSectionVars false

namespace Implicit

open Spec (Renamed)

variable {R : Type} [LinearOrder R] [Field R] [IsStrictOrderedRing R] {f : Nat}

theorem safeNorms_get (norm : Vec f R → R) (eps : R) (factors : List (Vec f R)) (i : Nat) :
    (safeNorms norm eps factors)[i]? = (factors[i]?).map fun v => if norm v = 0 then eps else norm v := by
  unfold safeNorms
  rw [List.getElem?_map]

theorem safeNorms_pos {norm : Vec f R → R} (hnorm : ∀ v, 0 ≤ norm v) {eps : R} (heps : 0 < eps) (factors : List (Vec f R)) :
    ∀ n ∈ safeNorms norm eps factors, 0 < n := by
  intro n hn
  obtain ⟨v, _, rfl⟩ := List.mem_map.mp hn
  split_ifs with h
  · exact heps
  · exact lt_of_le_of_ne (hnorm v) (fun h' => h h'.symm)

/-- The score of an entity goes with its factors. -/
theorem simScore_renamed {τ : Equiv.Perm Nat} {factors factors' : List (Vec f R)} (h : Renamed τ factors factors')
    (norm : Vec f R → R) (eps : R) (x : Vec f R) (n : R) (i : Nat) :
    simScore factors' (safeNorms norm eps factors') x n (τ i) = simScore factors (safeNorms norm eps factors) x n i := by
  unfold simScore
  rw [safeNorms_get, safeNorms_get, h i]

/-- Two rankings by the scores of the old and the new numbers. -/
theorem similar_agree {τ : Equiv.Perm Nat} {factors factors' : List (Vec f R)} (h : Renamed τ factors factors')
    {norm : Vec f R → R} {eps : R} {x : Vec f R} {n : R} {N : Nat} {E E' : Nat → Prop} {out out' : List (Nat × R)}
    (hE : ∀ i, E' (τ i) ↔ E i)
    (r : Spec.IsRanking N E (simScore factors (safeNorms norm eps factors) x n) out)
    (r' : Spec.IsRanking N E' (simScore factors' (safeNorms norm eps factors') x n) out') (hl : out'.length = out.length) :
    out'.map Prod.snd = out.map Prod.snd ∧
    ((∀ i j, E i → E j → simScore factors (safeNorms norm eps factors) x n i = simScore factors (safeNorms norm eps factors) x n j →
      i = j) → out' = out.map fun p => (τ p.1, p.2)) := by
  have rr := ranking_renamed τ hE (simScore_renamed h norm eps x n) r
  have hll : out'.length = (out.map fun p => (τ p.1, p.2)).length := by rw [List.length_map, hl]
  refine ⟨by rw [ranking_scores r' rr hll, List.map_map]; rfl, fun hinj => ranking_unique r' rr hll ?_⟩
  intro i j hi hj hs
  have key : ∀ i, simScore factors' (safeNorms norm eps factors') x n i =
      simScore factors (safeNorms norm eps factors) x n (τ.symm i) := by
    intro i
    rw [← simScore_renamed h]
    simp
  rw [key, key] at hs
  refine τ.symm.injective (hinj _ _ ?_ ?_ hs)
  · rw [← hE]; simpa using hi
  · rw [← hE]; simpa using hj

/-- **C67** (renaming, similarity).  On renamed factors `similar_items` answers for the renamed item with the same scores, for every
`N`; the items are the renamed ones if no two items are equally similar to the one asked about. -/
theorem C67_similar (H : HeapImpl (R × Nat) pairLt) (neginf : R) {τ : Equiv.Perm Nat} {factors factors' : List (Vec f R)}
    (h : Renamed τ factors factors') {norm : Vec f R → R} (hnorm : ∀ v, 0 ≤ norm v) {eps : R} (heps : 0 < eps)
    (u : Nat) (x : Vec f R) (hu : factors[u]? = some x) (N : Nat) (hN : 1 ≤ N) :
    ∃ out out' pad, similar H neginf factors (safeNorms norm eps factors) (.one u) N none none = .ok (.one (out ++ pad)) ∧
      similar H neginf factors' (safeNorms norm eps factors') (.one (τ u)) N none none = .ok (.one (out' ++ pad)) ∧
      out.length = min N factors.length ∧ out'.map Prod.snd = out.map Prod.snd ∧
      ((∀ i j, i < factors.length → j < factors.length →
          simScore factors (safeNorms norm eps factors) x (if norm x = 0 then eps else norm x) i =
            simScore factors (safeNorms norm eps factors) x (if norm x = 0 then eps else norm x) j → i = j) →
        out' = out.map fun p => (τ p.1, p.2)) := by
  have hu' : factors'[τ u]? = some x := by rw [h u, hu]
  obtain ⟨out, e, r, l⟩ := C08_plain_answer H neginf factors _ (by simp [safeNorms]) (safeNorms_pos hnorm heps factors) u x hu
    (if norm x = 0 then eps else norm x) (by rw [safeNorms_get, hu]; rfl) N hN
  obtain ⟨out', e', r', l'⟩ := C08_plain_answer H neginf factors' _ (by simp [safeNorms]) (safeNorms_pos hnorm heps factors') (τ u) x
    hu' (if norm x = 0 then eps else norm x) (by rw [safeNorms_get, hu']; rfl) N hN
  rw [h.length] at e' l'
  obtain ⟨h1, h2⟩ := similar_agree h (fun i => h.lt_iff i) r r' (l'.trans l.symm)
  exact ⟨out, out', _, e, e', l, h1, h2⟩

/-- **C67** (renaming, similarity with a filter), for a full answer. -/
theorem C67_similar_filter (H : HeapImpl (R × Nat) pairLt) (neginf : R) {τ : Equiv.Perm Nat} {factors factors' : List (Vec f R)}
    (h : Renamed τ factors factors') {norm : Vec f R → R} (hnorm : ∀ v, 0 ≤ norm v) {eps : R} (heps : 0 < eps)
    (u : Nat) (x : Vec f R) (hu : factors[u]? = some x) (F F' : List Nat) (hFF : F'.Perm (F.map τ))
    (hF : ∀ i ∈ F, i < factors.length)
    (hlow : ∀ y ∈ factors, neginf < dot x y / (if norm y = 0 then eps else norm y))
    (N : Nat) (hN : 1 ≤ N) (hcard : N ≤ ((List.range factors.length).filter (fun i => decide (i ∉ F))).length) :
    ∃ out out', similar H neginf factors (safeNorms norm eps factors) (.one u) N (some (.array F)) none = .ok (.one out) ∧
      similar H neginf factors' (safeNorms norm eps factors') (.one (τ u)) N (some (.array F')) none = .ok (.one out') ∧
      out.length = N ∧ out'.map Prod.snd = out.map Prod.snd ∧
      ((∀ i j, (i < factors.length ∧ i ∉ F) → (j < factors.length ∧ j ∉ F) →
          simScore factors (safeNorms norm eps factors) x (if norm x = 0 then eps else norm x) i =
            simScore factors (safeNorms norm eps factors) x (if norm x = 0 then eps else norm x) j → i = j) →
        out' = out.map fun p => (τ p.1, p.2)) := by
  have hu' : factors'[τ u]? = some x := by rw [h u, hu]
  have hmemF : ∀ i, τ i ∈ F' ↔ i ∈ F := by
    intro i
    rw [hFF.mem_iff]
    exact ⟨fun h => by obtain ⟨j, hj, hi⟩ := List.mem_map.mp h; rwa [← τ.injective hi], fun h => List.mem_map_of_mem h⟩
  have hlowj : ∀ {fs : List (Vec f R)}, (∀ y ∈ fs, neginf < dot x y / (if norm y = 0 then eps else norm y)) →
      ∀ (j : Nat) y nj, fs[j]? = some y → (safeNorms norm eps fs)[j]? = some nj → neginf < dot x y / nj := by
    intro fs hfs j y nj hy hn
    rw [safeNorms_get, hy] at hn
    cases hn
    exact hfs y (List.mem_of_getElem? hy)
  have hrange : (List.range factors'.length).Perm ((List.range factors.length).map τ) := by
    refine (List.perm_ext_iff_of_nodup List.nodup_range (List.nodup_range.map τ.injective)).mpr ?_
    intro i
    rw [List.mem_range, List.mem_map]
    constructor
    · intro hi
      refine ⟨τ.symm i, ?_, by simp⟩
      rw [List.mem_range, ← h.lt_iff]
      simpa using hi
    · rintro ⟨j, hj, rfl⟩
      exact (h.lt_iff j).mpr (List.mem_range.mp hj)
  obtain ⟨out, e, l, -, r⟩ := C08_filter_partial H neginf factors _ (by simp [safeNorms]) (safeNorms_pos hnorm heps factors) u x hu
    (if norm x = 0 then eps else norm x) (by rw [safeNorms_get, hu]; rfl) F hF (hlowj hlow) N hN hcard
  obtain ⟨out', e', l', -, r'⟩ := C08_filter_partial H neginf factors' _ (by simp [safeNorms]) (safeNorms_pos hnorm heps factors')
    (τ u) x hu' (if norm x = 0 then eps else norm x) (by rw [safeNorms_get, hu']; rfl) F'
    (by
      intro i hi
      obtain ⟨j, hj, rfl⟩ := List.mem_map.mp (hFF.mem_iff.mp hi)
      exact (h.lt_iff j).mpr (hF j hj))
    (hlowj fun y hy => hlow y (h.perm.mem_iff.mp hy)) N hN (by
      refine hcard.trans (le_of_eq ?_)
      rw [(hrange.filter _).length_eq, List.filter_map, List.length_map]
      congr 1
      exact List.filter_congr fun i _ => by simp only [Function.comp_apply, hmemF])
  obtain ⟨h1, h2⟩ := similar_agree h (E' := fun i => i < factors'.length ∧ i ∉ F')
    (fun i => and_congr (h.lt_iff i) (not_congr (hmemF i))) r r' (l'.trans l.symm)
  exact ⟨out, out', e, e', l, h1, h2⟩

/-- **C67** (renaming, similarity among given items), for a full answer. -/
theorem C67_similar_items (H : HeapImpl (R × Nat) pairLt) (neginf : R) {τ : Equiv.Perm Nat} {factors factors' : List (Vec f R)}
    (h : Renamed τ factors factors') {norm : Vec f R → R} (hnorm : ∀ v, 0 ≤ norm v) {eps : R} (heps : 0 < eps)
    (u : Nat) (x : Vec f R) (hu : factors[u]? = some x) (S S' : List Nat) (hSS : S'.Perm (S.map τ)) (hnd : S.Nodup)
    (hS : ∀ i ∈ S, i < factors.length) (N : Nat) (hN : 1 ≤ N) (hle : N ≤ S.length) :
    ∃ out out', similar H neginf factors (safeNorms norm eps factors) (.one u) N none (some (S.map Int.ofNat)) = .ok (.one out) ∧
      similar H neginf factors' (safeNorms norm eps factors') (.one (τ u)) N none (some (S'.map Int.ofNat)) = .ok (.one out') ∧
      out.length = N ∧ out'.map Prod.snd = out.map Prod.snd ∧
      ((∀ i j, i ∈ S → j ∈ S →
          simScore factors (safeNorms norm eps factors) x (if norm x = 0 then eps else norm x) i =
            simScore factors (safeNorms norm eps factors) x (if norm x = 0 then eps else norm x) j → i = j) →
        out' = out.map fun p => (τ p.1, p.2)) := by
  have hu' : factors'[τ u]? = some x := by rw [h u, hu]
  have hmem : ∀ i, τ i ∈ S' ↔ i ∈ S := by
    intro i
    rw [hSS.mem_iff]
    exact ⟨fun h => by obtain ⟨j, hj, hi⟩ := List.mem_map.mp h; rwa [← τ.injective hi], fun h => List.mem_map_of_mem h⟩
  have hcast : ∀ (T : List Nat) (i : Nat), (i : Int) ∈ T.map Int.ofNat ↔ i ∈ T := fun T i =>
    ⟨fun hi => by obtain ⟨j, hj, hji⟩ := List.mem_map.mp hi; rwa [← Int.ofNat.inj hji], fun hi => List.mem_map_of_mem hi⟩
  have hbound : ∀ {T : List Nat} {n : Nat}, (∀ i ∈ T, i < n) → ∀ i ∈ T.map Int.ofNat, 0 ≤ i ∧ i < (n : Int) := by
    intro T n hT i hi
    obtain ⟨j, hj, rfl⟩ := List.mem_map.mp hi
    exact ⟨Int.natCast_nonneg j, Int.ofNat_lt.mpr (hT j hj)⟩
  have hinj : Function.Injective Int.ofNat := fun a b hab => Int.ofNat.inj hab
  obtain ⟨out, e, l, -, r⟩ := C08_items_partial H neginf factors _ (by simp [safeNorms]) (safeNorms_pos hnorm heps factors) u x hu
    (if norm x = 0 then eps else norm x) (by rw [safeNorms_get, hu]; rfl) (S.map Int.ofNat) (hnd.map hinj) (hbound hS) N hN
    (by simpa using hle)
  obtain ⟨out', e', l', -, r'⟩ := C08_items_partial H neginf factors' _ (by simp [safeNorms]) (safeNorms_pos hnorm heps factors')
    (τ u) x hu' (if norm x = 0 then eps else norm x) (by rw [safeNorms_get, hu']; rfl) (S'.map Int.ofNat)
    ((hSS.nodup_iff.mpr (hnd.map τ.injective)).map hinj)
    (hbound (by
      intro i hi
      obtain ⟨j, hj, rfl⟩ := List.mem_map.mp (hSS.mem_iff.mp hi)
      exact (h.lt_iff j).mpr (hS j hj))) N hN (by simpa [hSS.length_eq] using hle)
  obtain ⟨h1, h2⟩ := similar_agree h (E := fun i => (i : Int) ∈ S.map Int.ofNat) (E' := fun i => (i : Int) ∈ S'.map Int.ofNat)
    (fun i => (hcast S' (τ i)).trans ((hmem i).trans (hcast S i).symm)) r r' (l'.trans l.symm)
  exact ⟨out, out', e, e', l, h1, fun hi => h2 fun i j hi' hj' => hi i j ((hcast S i).mp hi') ((hcast S j).mp hj')⟩

/-- Three items, the first two exchanged; the norm is the absolute value. -/
example :
    let factors : List (Vec 2 Rat) := [![1, 0], ![3, 4], ![0, 2]]
    let factors' : List (Vec 2 Rat) := [![3, 4], ![1, 0], ![0, 2]]
    let norm : Vec 2 Rat → Rat := fun v => if v = ![3, 4] then 5 else v 0 + v 1
    similar insertionHeap (-1000) factors (safeNorms norm (1 / 100) factors) (.one 1) 2 none none = .ok (.one [(1, 1), (2, 4 / 5)]) ∧
    similar insertionHeap (-1000) factors' (safeNorms norm (1 / 100) factors') (.one 0) 2 none none =
      .ok (.one [(0, 1), (2, 4 / 5)]) := by
  decide +kernel

end Implicit
