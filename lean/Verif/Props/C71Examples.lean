import Verif.Props.C71
/-!
# C71: the theorems applied to small models
-/

namespace Implicit

open Spec (NoTies)

theorem noTies_of_all {x : Vec 1 Rat} {items : List (Vec 1 Rat)} (h : (items.map (dot x)).Nodup) : NoTies x items := by
  intro i j yi yj hi hj he
  have h1 : (items.map (dot x))[i]? = some (dot x yi) := by simp [hi]
  have h2 : (items.map (dot x))[j]? = some (dot x yj) := by simp [hj]
  have hl : i < (items.map (dot x)).length := (List.getElem?_eq_some_iff.mp h1).1
  exact (List.nodup_iff_injective_getElem.mp h |> fun inj => by
    have hl' := (List.getElem?_eq_some_iff.mp h2).1
    have e : (items.map (dot x))[i] = (items.map (dot x))[j] := by
      rw [(List.getElem?_eq_some_iff.mp h1).2, (List.getElem?_eq_some_iff.mp h2).2, he]
    exact congrArg Fin.val (@inj ⟨i, hl⟩ ⟨j, hl'⟩ e))

/-- Four items, one of them bought, one filtered. -/
example := C71_recommend_ids insertionHeap (-1000) (⟨[![1], ![-1]], [![4], ![2], ![3], ![-1]]⟩ : Factors 1 Rat) noRecalc 1 ![-1] rfl (by simp)
  (noTies_of_all (by decide +kernel)) [(2, 1)] (by decide) (some (.list [0])) (by simp [PyFilter.ids]) (by decide +kernel) 1 2 le_rfl (by decide)

example := C71_items_ids insertionHeap (-1000) (⟨[![1], ![-1]], [![4], ![2], ![3], ![-1]]⟩ : Factors 1 Rat) noRecalc 1 ![-1] rfl
  (noTies_of_all (by decide +kernel)) [3, 0, 2] (by simp) (by decide) (by decide) true [(2, 1)] (by decide +kernel) (by decide +kernel) 1 3 le_rfl (by decide)

example := C71_complement insertionHeap (-1000) (⟨[![1], ![-1]], [![4], ![2], ![3], ![-1]]⟩ : Factors 1 Rat) noRecalc 1 ![-1] rfl
  [(2, 1)] (by decide +kernel) (.list [0]) (by simp [PyFilter.ids]) [3, 1, 2] (by simp) (by decide)
  (fun i => by
    simp only [PyFilter.ids, List.mem_cons, List.not_mem_nil, or_false, List.length_cons, List.length_nil]
    omega) (by decide +kernel) 2 (by decide) (by decide)

/-- Cosines 1, -1 and 1/2 (the norms are those of other components). -/
example := C71_similar_ids (R := Rat) insertionHeap (-1000) [![1], ![-1], ![2]] [1, 1, 4] rfl (by decide +kernel) 0 ![1] rfl 1 rfl
  (fun i j yi yj ni nj h1 h2 h3 h4 he => by
    rcases i with _ | _ | _ | i <;> rcases j with _ | _ | _ | j <;> simp at h1 h2 h3 h4 <;> subst h1 h2 h3 h4 <;>
      first | rfl | (exact absurd he (by decide +kernel)))
  (some (.list [1])) (by simp [PyFilter.ids])
  (fun j y nj h1 h2 => by
    rcases j with _ | _ | _ | j <;> simp at h1 h2 <;> subst h1 h2 <;> decide +kernel) 1 2 le_rfl (by decide)

example := C71_item_item insertionHeap (-1000 : Rat) [[(0, 4), (1, 2)], [(0, 2), (1, 3), (2, 1)], [(1, 1), (2, 5)]]
  (by unfold SquareRows; decide) [(0, 1), (1, 1)] (by decide) 1 3 le_rfl (by decide)

end Implicit
