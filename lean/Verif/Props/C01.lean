import Verif.Lemmas.Select

/-!
# C01 — top-k selection returns the k best scores, sorted, without repeats
-/

namespace Implicit

variable {R : Type} [LinearOrder R]

/-- **C01** (`select`).  For every row of scores, every `k ≥ 1` and every correct heap
implementation, one row of `select` succeeds and returns a ranking of the `k` best positions. -/
theorem C01_select_topk (H : HeapImpl (R × Nat) pairLt) (k : Nat) (hk : 1 ≤ k) (scores : List R) :
    ∃ out, selectRow H k scores = .ok out ∧ Spec.IsTopKOf k scores out := by
  obtain ⟨h, e, htop, _⟩ := offerAll_isTopK H hk scores.zipIdx
  refine ⟨H.sort h, ?_, isTopKOf_of_isTopK htop⟩
  unfold selectRow; rw [e]; rfl

/-- Two descending arrangements of the same scores are equal. -/
private theorem desc_unique {l₁ l₂ : List R} (hp : l₁.Perm l₂)
    (h1 : l₁.Pairwise (fun a b => b ≤ a)) (h2 : l₂.Pairwise (fun a b => b ≤ a)) : l₁ = l₂ :=
  List.Perm.eq_of_pairwise (le := fun a b => b ≤ a) (fun _ _ _ _ h h' => le_antisymm h' h) h1 h2 hp

/-- The scores listed by a top-k are the first `k` of all scores sorted descending. -/
theorem scores_of_isTopK {k : Nat} {cands out : List (R × Nat)} (h : Spec.IsTopK k cands out) :
    out.map Prod.fst = ((cands.map Prod.fst).mergeSort (fun a b => decide (b ≤ a))).take k := by
  obtain ⟨hl, ⟨rest, hp, hb⟩, hs⟩ := h
  set S := rest.mergeSort (fun a b => decide (b.1 ≤ a.1)) with hS
  have hSp : S.Perm rest := List.mergeSort_perm _ _
  have hSs : S.Pairwise (fun a b => decide (b.1 ≤ a.1) = true) :=
    List.pairwise_mergeSort (fun a b c h1 h2 => by simp at *; exact le_trans h2 h1)
      (fun a b => by simp; exact le_total _ _) _
  have hfull : ((out ++ S).map Prod.fst).Pairwise (fun a b => b ≤ a) := by
    rw [List.pairwise_map, List.pairwise_append]
    refine ⟨hs.imp ?_, hSs.imp (by simp), ?_⟩
    · rintro a b (rfl | h1 | h1)
      · exact le_refl _
      · exact h1.le
      · exact h1.1.ge
    · intro a ha b hb'; exact hb a ha b (hSp.mem_iff.mp hb')
  have hms : ((cands.map Prod.fst).mergeSort (fun a b => decide (b ≤ a))).Pairwise
      (fun a b => b ≤ a) := by
    have := List.pairwise_mergeSort (le := fun a b : R => decide (b ≤ a))
      (fun a b c h1 h2 => by simp at *; exact le_trans h2 h1)
      (fun a b => by simp; exact le_total _ _) (cands.map Prod.fst)
    exact this.imp (by simp)
  have heq : (cands.map Prod.fst).mergeSort (fun a b => decide (b ≤ a)) = (out ++ S).map Prod.fst := by
    refine desc_unique ?_ hms hfull
    refine (List.mergeSort_perm _ _).trans ?_
    exact (hp.trans (hSp.symm.append_left out)).map _
  rw [heq, List.map_append]
  by_cases hk : k ≤ cands.length
  · rw [List.take_append_of_le_length (by simp [hl, hk])]
    rw [List.take_of_length_le (by simp [hl])]
  · have : rest = [] := by
      have := hp.length_eq
      simp at this
      apply List.length_eq_zero_iff.mp; omega
    have hSn : S = [] := by rw [← List.length_eq_zero_iff, hSp.length_eq, this]; rfl
    rw [hSn]; simp; rw [List.take_of_length_le (by simp [hl])]

/-- **C01** (scores).  The returned scores are exactly the `k` largest ones, in descending order:
the first `k` entries of the whole row sorted descending. -/
theorem C01_select_scores (H : HeapImpl (R × Nat) pairLt) (k : Nat) (hk : 1 ≤ k) (scores : List R) :
    ∃ out, selectRow H k scores = .ok out ∧
      out.map Prod.fst = (scores.mergeSort (fun a b => decide (b ≤ a))).take k := by
  obtain ⟨h, e, htop, _⟩ := offerAll_isTopK H hk scores.zipIdx
  refine ⟨H.sort h, ?_, ?_⟩
  · unfold selectRow; rw [e]; rfl
  · have := scores_of_isTopK htop
    simpa using this

/-- **C01** (`TopK` functor).  Candidates `(score, id)` offered in any order, with any ids:
the collected results, once sorted, are a ranking of the `k` best candidates. -/
theorem C01_functor_topk (H : HeapImpl (R × Nat) pairLt) (k : Nat) (hk : 1 ≤ k)
    (cands : List (R × Nat)) :
    ∃ h, offerAll H k [] cands = .ok h ∧ Spec.IsTopK k cands (H.sort h) := by
  obtain ⟨h, e, htop, _⟩ := offerAll_isTopK H hk cands
  exact ⟨h, e, htop⟩

/-- **C01** (determinism).  The answer does not depend on which heap implementation the C++
standard library provides. -/
theorem C01_select_heap_independent (H₁ H₂ : HeapImpl (R × Nat) pairLt) (k : Nat) (scores : List R) :
    selectRow H₁ k scores = selectRow H₂ k scores := by
  have step : ∀ (h₁ h₂ : List (R × Nat)) (c : R × Nat), H₁.IsHeap h₁ → H₂.IsHeap h₂ → h₁.Perm h₂ →
      (∃ e, offer H₁ k h₁ c = .error e ∧ offer H₂ k h₂ c = .error e) ∨
      ∃ g₁ g₂, offer H₁ k h₁ c = .ok g₁ ∧ offer H₂ k h₂ c = .ok g₂ ∧ H₁.IsHeap g₁ ∧
        H₂.IsHeap g₂ ∧ g₁.Perm g₂ := by
    intro h₁ h₂ c i₁ i₂ hp
    unfold offer
    rw [hp.length_eq]
    by_cases hlt : h₂.length < k
    · right
      rw [if_pos hlt, if_pos hlt]
      exact ⟨_, _, rfl, rfl, H₁.heap_push i₁, H₂.heap_push i₂,
        (H₁.push_perm i₁).trans ((hp.cons c).trans (H₂.push_perm i₂).symm)⟩
    · rw [if_neg hlt, if_neg hlt]
      match h₁, h₂, i₁, i₂, hp with
      | [], [], _, _, _ => exact Or.inl ⟨_, rfl, rfl⟩
      | [], _ :: _, _, _, hp => exact absurd hp.length_eq (by simp)
      | _ :: _, [], _, _, hp => exact absurd hp.length_eq (by simp)
      | m₁ :: t₁, m₂ :: t₂, i₁, i₂, hp =>
        have hm : m₁ = m₂ := by
          have a1 : ¬ pairLt m₂ m₁ := by
            rcases List.mem_cons.mp (hp.mem_iff.mpr (List.mem_cons_self (a := m₂) (l := t₂))) with h | h
            · rw [h]; exact pairLt_irrefl _
            · exact H₁.head_min i₁ _ h
          have a2 : ¬ pairLt m₁ m₂ := by
            rcases List.mem_cons.mp (hp.mem_iff.mp (List.mem_cons_self (a := m₁) (l := t₁))) with h | h
            · rw [h]; exact pairLt_irrefl _
            · exact H₂.head_min i₂ _ h
          rcases pairLt_total m₁ m₂ with h | h | h
          · exact absurd h a2
          · exact h
          · exact absurd h a1
        subst hm
        have ht : t₁.Perm t₂ := hp.cons_inv
        right
        simp only
        split_ifs with hgt
        · refine ⟨_, _, rfl, rfl, H₁.heap_push (H₁.heap_pop i₁), H₂.heap_push (H₂.heap_pop i₂), ?_⟩
          refine (H₁.push_perm (H₁.heap_pop i₁)).trans (List.Perm.trans (List.Perm.cons c ?_)
            (H₂.push_perm (H₂.heap_pop i₂)).symm)
          exact (H₁.pop_perm i₁).trans (ht.trans (H₂.pop_perm i₂).symm)
        · exact ⟨_, _, rfl, rfl, i₁, i₂, hp⟩
  have loop : ∀ (cs h₁ h₂ : List (R × Nat)), H₁.IsHeap h₁ → H₂.IsHeap h₂ → h₁.Perm h₂ →
      (∃ e, offerAll H₁ k h₁ cs = .error e ∧ offerAll H₂ k h₂ cs = .error e) ∨
      ∃ g₁ g₂, offerAll H₁ k h₁ cs = .ok g₁ ∧ offerAll H₂ k h₂ cs = .ok g₂ ∧ H₁.IsHeap g₁ ∧
        H₂.IsHeap g₂ ∧ g₁.Perm g₂ := by
    intro cs
    induction cs with
    | nil => intro h₁ h₂ i₁ i₂ hp; exact Or.inr ⟨_, _, rfl, rfl, i₁, i₂, hp⟩
    | cons c cs ih =>
      intro h₁ h₂ i₁ i₂ hp
      rcases step h₁ h₂ c i₁ i₂ hp with ⟨e, e1, e2⟩ | ⟨g₁, g₂, e1, e2, j₁, j₂, hp'⟩
      · left; exact ⟨e, by unfold offerAll; rw [e1]; rfl, by unfold offerAll; rw [e2]; rfl⟩
      · rcases ih g₁ g₂ j₁ j₂ hp' with ⟨e, f1, f2⟩ | ⟨k₁, k₂, f1, f2, l₁, l₂, hp''⟩
        · left
          exact ⟨e, by unfold offerAll; rw [e1]; exact f1, by unfold offerAll; rw [e2]; exact f2⟩
        · right
          exact ⟨k₁, k₂, by unfold offerAll; rw [e1]; exact f1,
            by unfold offerAll; rw [e2]; exact f2, l₁, l₂, hp''⟩
  unfold selectRow
  rcases loop scores.zipIdx [] [] H₁.heap_nil H₂.heap_nil (List.Perm.refl _) with
    ⟨e, e1, e2⟩ | ⟨g₁, g₂, e1, e2, j₁, j₂, hp⟩
  · rw [e1, e2]; rfl
  · rw [e1, e2]
    have : H₁.sort g₁ = H₂.sort g₂ := by
      refine List.Perm.eq_of_pairwise (le := fun a b => ¬ pairLt a b) ?_ (H₁.sort_sorted j₁)
        (H₂.sort_sorted j₂) ((H₁.sort_perm j₁).trans (hp.trans (H₂.sort_perm j₂).symm))
      intro a b _ _ h h'
      rcases pairLt_total a b with h1 | h1 | h1
      · exact absurd h1 h
      · exact h1
      · exact absurd h1 h'
    show Except.ok _ = Except.ok _
    rw [this]

/-- With `k = 0` (outside C01) the native loop reads the front of an empty vector. -/
theorem C01_zero_undefined (H : HeapImpl (R × Nat) pairLt) (s : R) (scores : List R) :
    selectRow H 0 (s :: scores) = .error .undefinedBehaviour := by
  simp [selectRow, offerAll, offer, bind, Except.bind, List.zipIdx_cons]

/-- Non-trivial instance with ties: five scores, `k = 3`. -/
example : selectRow (R := Int) insertionHeap 3 [5, 1, 5, 7, 5] = .ok [(7, 3), (5, 2), (5, 0)] := by
  decide

end Implicit
