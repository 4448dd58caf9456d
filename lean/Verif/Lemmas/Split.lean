import Verif.Model.Evaluation
import Verif.Spec.Split
import Verif.Lemmas.KnnLoop
/-!
# Lemmas about building CSR matrices from triples
-/

set_option linter.unusedSectionVars false

namespace Implicit

variable {R : Type} [LinearOrder R] [Field R]

theorem sumAt_coalesce' (es : List (Nat × R)) (j : Nat) :
    Spec.sumAt (coalesce es) j = Spec.sumAt es j := by
  by_cases h : Spec.Stored es j
  · have := (mem_coalesce es j _).mpr ⟨h, rfl⟩
    exact sumAt_of_mem ((coalesce_sorted es).imp fun hab => Nat.ne_of_lt hab) this
  · rw [sumAt_eq_zero h, sumAt_eq_zero]
    rintro ⟨v, hv⟩
    exact h ((mem_coalesce es j v).mp hv).1

theorem stored_coalesce' (es : List (Nat × R)) (j : Nat) :
    Spec.Stored (coalesce es) j ↔ Spec.Stored es j := by
  constructor
  · rintro ⟨v, hv⟩; exact ((mem_coalesce es j v).mp hv).1
  · intro h; exact ⟨_, (mem_coalesce es j _).mpr ⟨h, rfl⟩⟩

theorem sumAt_cooRow (es : List (Nat × Nat × R)) (r c : Nat) :
    Spec.sumAt (cooRow r es) c = Spec.total es r c := by
  induction es with
  | nil => rfl
  | cons e es ih =>
    obtain ⟨a, b, v⟩ := e
    rw [show (a, b, v) :: es = [(a, b, v)] ++ es from rfl, cooRow_append, sumAt_append, ih]
    unfold Spec.total
    rw [List.filter_append, List.map_append, List.sum_append]
    congr 1
    by_cases h1 : a = r <;> by_cases h2 : b = c <;> simp [cooRow, Spec.sumAt, h1, h2]

theorem cooToCsr_getD (n : Nat) (es : List (Nat × Nat × R)) {r : Nat} (hr : r < n) :
    (cooToCsr n es).getD r [] = coalesce (cooRow r es) := by
  unfold cooToCsr cooRow
  rw [List.getD_eq_getElem?_getD, List.getElem?_map, List.getElem?_range hr]
  rfl

/-- A cell of the CSR matrix is the sum of its triples. -/
theorem entry_cooToCsr (n : Nat) (es : List (Nat × Nat × R)) {r : Nat} (hr : r < n) (c : Nat) :
    Spec.entry (cooToCsr n es) r c = Spec.total es r c := by
  unfold Spec.entry Spec.cell
  rw [cooToCsr_getD n es hr, sumAt_coalesce', sumAt_cooRow]

theorem storedAt_cooToCsr (n : Nat) (es : List (Nat × Nat × R)) {r : Nat} (hr : r < n) (c : Nat) :
    Spec.StoredAt (cooToCsr n es) r c ↔ ∃ v, (r, c, v) ∈ es := by
  unfold Spec.StoredAt
  rw [cooToCsr_getD n es hr, stored_coalesce']
  unfold Spec.Stored
  simp only [mem_cooRow]

theorem cooToCsr_length (n : Nat) (es : List (Nat × Nat × R)) : (cooToCsr n es).length = n := by
  simp [cooToCsr]

theorem total_append (a b : List (Nat × Nat × R)) (r c : Nat) :
    Spec.total (a ++ b) r c = Spec.total a r c + Spec.total b r c := by
  unfold Spec.total; simp

theorem total_perm {a b : List (Nat × Nat × R)} (h : a.Perm b) (r c : Nat) :
    Spec.total a r c = Spec.total b r c := by
  unfold Spec.total
  exact ((h.filter _).map _).sum_eq

/-- Splitting a list of marked triples in two. -/
theorem total_filter {β : Type} (P : β → Bool) (l : List ((Nat × Nat × R) × β)) (r c : Nat) :
    Spec.total ((l.filter fun m => P m.2).map Prod.fst) r c +
      Spec.total ((l.filter fun m => !P m.2).map Prod.fst) r c = Spec.total (l.map Prod.fst) r c := by
  refine (total_append _ _ r c).symm.trans ?_
  rw [← List.map_append]
  exact total_perm (R := R) ((List.filter_append_perm (fun m => P m.2) l).map _) r c

/-- The single triple of a cell. -/
theorem total_of_mem {es : List (Nat × Nat × R)} (hnd : (es.map fun e => (e.1, e.2.1)).Nodup)
    {e : Nat × Nat × R} (he : e ∈ es) : Spec.total es e.1 e.2.1 = e.2.2 := by
  unfold Spec.total
  have : es.filter (fun x => decide (x.1 = e.1 ∧ x.2.1 = e.2.1)) = [e] := by
    have hsub : (es.filter fun x => decide (x.1 = e.1 ∧ x.2.1 = e.2.1)).Nodup :=
      (List.Nodup.of_map _ hnd).sublist List.filter_sublist
    have hall : ∀ x ∈ es.filter (fun x => decide (x.1 = e.1 ∧ x.2.1 = e.2.1)), x = e := by
      intro x hx
      obtain ⟨h1, h2⟩ := List.mem_filter.mp hx
      simp only [decide_eq_true_eq] at h2
      exact List.inj_on_of_nodup_map hnd h1 he (Prod.ext h2.1 h2.2)
    have hin : e ∈ es.filter (fun x => decide (x.1 = e.1 ∧ x.2.1 = e.2.1)) :=
      List.mem_filter.mpr ⟨he, by simp⟩
    revert hsub hall hin
    generalize es.filter (fun x => decide (x.1 = e.1 ∧ x.2.1 = e.2.1)) = l
    intro hsub hall hin
    cases l with
    | nil => simp at hin
    | cons a l =>
      have ha := hall a (by simp)
      subst ha
      cases l with
      | nil => rfl
      | cons b l =>
        have hb := hall b (by simp)
        subst hb
        simp at hsub
  rw [this]; simp

theorem total_eq_zero {es : List (Nat × Nat × R)} {r c : Nat} (h : ∀ v, (r, c, v) ∉ es) :
    Spec.total es r c = 0 := by
  unfold Spec.total
  have : es.filter (fun x => decide (x.1 = r ∧ x.2.1 = c)) = [] := by
    rw [List.filter_eq_nil_iff]
    rintro ⟨a, b, v⟩ he hd
    simp only [decide_eq_true_eq] at hd
    obtain ⟨rfl, rfl⟩ := hd
    exact h v he
  rw [this]; rfl

end Implicit
