import Verif.Lemmas.HeapExact
import Verif.Lemmas.KnnScorer
import Verif.Lemmas.KnnLoop
/-!
# The candidates of the item-item heap, in order
-/

set_option linter.unusedSectionVars false

namespace Implicit

/-- The linked list after touching some indices: the last one touched for the first time comes first. -/
def touched : List Nat → List Nat → List Nat
  | l, [] => l
  | l, i :: is => touched (if i ∈ l then l else i :: l) is

section
variable {R : Type} [AddCommMonoid R]

theorem Rep.addAll_exact {n : Nat} : ∀ (es : List (Nat × R)) {a : Accum R} {l : List Nat} {s : Nat → R},
    Rep n a l s → a.length = l.length → (∀ e ∈ es, e.1 < n) →
    ∃ a', a.addAll es = .ok a' ∧ Rep n a' (touched l (es.map Prod.fst)) (fun j => s j + totalAt es j) ∧
      a'.length = (touched l (es.map Prod.fst)).length
  | [], a, l, s, h, hlen, _ => ⟨a, rfl, by simpa [totalAt, touched] using h, hlen⟩
  | e :: es, a, l, s, h, hlen, hes => by
    obtain ⟨a1, e1, h1, hlen1⟩ := h.add (hes e (by simp)) e.2 hlen
    obtain ⟨a2, e2, h2, hlen2⟩ := Rep.addAll_exact es h1 hlen1 (fun x hx => hes x (by simp [hx]))
    refine ⟨a2, by unfold Accum.addAll; rw [e1]; exact e2, ?_, hlen2⟩
    have : (fun j => s j + totalAt (e :: es) j) =
        fun j => Function.update s e.1 (s e.1 + e.2) j + totalAt es j := by
      funext j
      rw [totalAt_cons]
      by_cases hj : j = e.1
      · subst hj; rw [Function.update_self, if_pos rfl, add_assoc]
      · rw [Function.update_of_ne hj, if_neg (fun e => hj e.symm), zero_add]
    rw [this]; exact h2

end

variable {R : Type} [LinearOrder R] [Field R]

/-- The ids of the entries added for a row, in order. -/
def addedIds (M : SpRows R) (row : List (Nat × R)) : List Nat :=
  row.flatMap fun e => (M.getD e.1 []).map Prod.fst

theorem productAdds_ids (M : SpRows R) : ∀ (row : List (Nat × R)) {adds : List (Nat × R)},
    productAdds M row = .ok adds → adds.map Prod.fst = addedIds M row
  | [], adds, h => by cases h; rfl
  | e :: row, adds, h => by
    unfold productAdds at h
    cases hM : M[e.1]? with
    | none => rw [hM] at h; cases h
    | some r =>
      rw [hM] at h
      simp only at h
      cases hr : productAdds M row with
      | error x => rw [hr] at h; cases h
      | ok rest =>
        rw [hr] at h
        cases h
        have ih := productAdds_ids M row hr
        unfold addedIds at ih ⊢
        rw [List.flatMap_cons, List.map_append, ih, List.map_map, List.getD_eq_getElem?_getD, hM]
        rfl

/-- The candidates offered to the heap for a row. -/
noncomputable def candidates (M : SpRows R) (row : List (Nat × R)) (s : Nat → R) : List (R × Nat) :=
  (touched [] (addedIds M row)).map fun i => (s i, i)

theorem touched_nodup : ∀ (is l : List Nat), l.Nodup → (touched l is).Nodup
  | [], _, h => h
  | i :: is, l, h => by
    unfold touched
    refine touched_nodup is _ ?_
    split_ifs with hi
    · exact h
    · exact List.nodup_cons.mpr ⟨hi, h⟩

theorem candidates_nodup (M : SpRows R) (row : List (Nat × R)) (s : Nat → R) : (candidates M row s).Nodup := by
  unfold candidates
  refine List.Nodup.of_map Prod.snd ?_
  rw [List.map_map]
  have : (Prod.snd ∘ fun i : Nat => (s i, i)) = id := rfl
  rw [this, List.map_id]
  exact touched_nodup _ _ (by simp)

/-- The scorer, exactly. -/
theorem scorer_exact (H : HeapImpl (R × Nat) pairLt) (sim : SpRows R) (hsim : SquareRows sim)
    (row : List (Nat × R)) (hrow : ∀ e ∈ row, e.1 < sim.length) (K : Nat) (hK : 1 ≤ K) (rm : Bool) :
    ∃ h, offerAll H K [] (candidates sim row (knnScore sim row rm)) = .ok h ∧
      scorerRecommend H sim (Accum.new sim.length) row K rm = .ok ((H.sort h).map Prod.swap, Accum.new sim.length) := by
  obtain ⟨adds, e1, hs, -⟩ := productAdds_ok sim row hrow
  obtain ⟨a, e2, hrep, hlen⟩ := Rep.addAll_exact adds (Rep.new (R := R) sim.length) rfl (productAdds_bound sim hsim e1)
  simp only [zero_add, productAdds_ids sim row e1] at hrep hlen
  have htot : ∀ j, totalAt adds j = Spec.itemScore sim row j := fun j => by rw [totalAt_eq_sumAt, hs j]; rfl
  have hswap : ∀ s : Nat → R, ((touched [] (addedIds sim row)).map fun i => (i, s i)).map Prod.swap = candidates sim row s := by
    intro s; unfold candidates; rw [List.map_map]; rfl
  obtain ⟨h, e4, -⟩ := offerAll_isTopK H hK (candidates sim row (knnScore sim row rm))
  refine ⟨h, e4, ?_⟩
  cases rm with
  | false =>
    have e3 : a.foreach = .ok ((touched [] (addedIds sim row)).map fun i => (i, knnScore sim row false i), Accum.new sim.length) := by
      unfold Accum.foreach
      rw [hlen]
      have := hrep.drain
      simpa [knnScore, htot] using this
    unfold scorerRecommend
    rw [e1]
    simp only [bind, Except.bind, e2, Bool.false_eq_true, if_false, pure, Except.pure, e3, hswap, e4]
  | true =>
    obtain ⟨a', e5, hrep', hlen'⟩ := hrep.clearAll (row.map Prod.fst) (by
      intro i hi
      obtain ⟨e, he, rfl⟩ := List.mem_map.mp hi
      exact hrow e he)
    have e6 : a'.foreach = .ok ((touched [] (addedIds sim row)).map fun i => (i, knnScore sim row true i), Accum.new sim.length) := by
      unfold Accum.foreach
      rw [hlen', hlen]
      have := hrep'.drain
      have hk : (fun i => (i, if i ∈ row.map Prod.fst then 0 else totalAt adds i)) = fun i => (i, knnScore sim row true i) := by
        funext i
        unfold knnScore
        simp only [true_and, htot]
      rw [hk] at this
      exact this
    unfold scorerRecommend
    rw [e1]
    simp only [bind, Except.bind, e2, if_true, e5, pure, Except.pure, e6, hswap, e4]

/-- One item of `all_pairs_knn`, exactly. -/
theorem knnRow_exact (H : HeapImpl (R × Nat) pairLt) {K : Nat} (hK : 1 ≤ K) {n : Nat} (M : SpRows R)
    (hM : ∀ r ∈ M, ∀ e ∈ r, e.1 < n) (row : List (Nat × R)) (hrow : ∀ e ∈ row, e.1 < M.length) :
    ∃ h, offerAll H K [] (candidates M row (Spec.itemScore M row)) = .ok h ∧
      knnRow H K M row (Accum.new n) = .ok (h, Accum.new n) := by
  obtain ⟨adds, e1, hs, -⟩ := productAdds_ok M row hrow
  obtain ⟨a, e2, hrep, hlen⟩ := Rep.addAll_exact adds (Rep.new (R := R) n) rfl (productAdds_bound M hM e1)
  simp only [zero_add, productAdds_ids M row e1] at hrep hlen
  have htot : ∀ j, totalAt adds j = Spec.itemScore M row j := fun j => by rw [totalAt_eq_sumAt, hs j]; rfl
  have hswap : ∀ s : Nat → R, ((touched [] (addedIds M row)).map fun i => (i, s i)).map Prod.swap = candidates M row s := by
    intro s; unfold candidates; rw [List.map_map]; rfl
  obtain ⟨h, e4, -⟩ := offerAll_isTopK H hK (candidates M row (Spec.itemScore M row))
  refine ⟨h, e4, ?_⟩
  have e3 : a.foreach = .ok ((touched [] (addedIds M row)).map fun i => (i, Spec.itemScore M row i), Accum.new n) := by
    unfold Accum.foreach
    rw [hlen]
    have := hrep.drain
    simpa [htot] using this
  unfold knnRow
  rw [e1]
  simp only [bind, Except.bind, e2, e3, hswap, e4]
  rfl

end Implicit
