import Verif.Spec.FairSplit
import Mathlib.Algebra.Order.Ring.Defs
import Mathlib.Algebra.BigOperators.Ring.Finset
import Mathlib.Data.Fintype.BigOperators
import Mathlib.Data.Fintype.CardEmbedding
import Mathlib.Logic.Equiv.Fintype
import Mathlib.Tactic.Linarith
/-!
# Choosing by random keys is fair

`n` things belong to groups; each gets a draw, and of every group the `K` with the greatest keys are held.
Exchanging draws within a group exchanges the things held.
-/

namespace Implicit

open Finset

variable {R : Type} [LinearOrder R] {n : Nat}

theorem mem_clearDraws {V : Finset R} {ok : (Fin n → R) → Prop} {d : Fin n → R} :
    d ∈ Spec.clearDraws V ok ↔ (∀ i, d i ∈ V) ∧ ok d := by
  classical
  unfold Spec.clearDraws
  rw [mem_filter, Fintype.mem_piFinset]

/-- What is held for given draws: `K` of every group, with the greatest keys. -/
structure HeldBy (group : Fin n → Nat) (K : Nat) (key : Fin n → R) (held : Finset (Fin n)) : Prop where
  each : ∀ v, (∃ i, group i = v) → (held.filter fun i => group i = v).card = K
  greatest : ∀ i ∈ held, ∀ j, j ∉ held → group i = group j → key j ≤ key i

theorem heldBy_unique {group : Fin n → Nat} {K : Nat} {key : Fin n → R}
    (hkey : ∀ i j, group i = group j → key i = key j → i = j) {S T : Finset (Fin n)}
    (hS : HeldBy group K key S) (hT : HeldBy group K key T) : S = T := by
  have hsub : ∀ {S T : Finset (Fin n)}, HeldBy group K key S → HeldBy group K key T → S ⊆ T := by
    intro S T hS hT i hi
    by_contra hiT
    have h1 := hS.each _ ⟨i, rfl⟩
    have h2 := hT.each _ ⟨i, rfl⟩
    -- some member of the group is held by `T` only
    obtain ⟨j, hj, hjS⟩ : ∃ j ∈ T.filter fun j => group j = group i, j ∉ S.filter fun j => group j = group i := by
      by_contra hcon
      push Not at hcon
      have hss : (T.filter fun j => group j = group i) ⊆ S.filter fun j => group j = group i := hcon
      have := eq_of_subset_of_card_le hss (by omega)
      have hmem : i ∈ T.filter fun j => group j = group i := by
        rw [this, mem_filter]
        exact ⟨hi, rfl⟩
      exact hiT (mem_filter.mp hmem).1
    rw [mem_filter] at hj
    have hjS' : j ∉ S := fun h => hjS (mem_filter.mpr ⟨h, hj.2⟩)
    have a := hS.greatest i hi j hjS' hj.2.symm
    have b := hT.greatest j hj.1 i hiT hj.2
    have : i = j := hkey i j hj.2.symm (le_antisymm b a)
    exact hjS' (this ▸ hi)
  exact Subset.antisymm (hsub hS hT) (hsub hT hS)

/-- Exchanging the draws along a permutation of the things. -/
def moveDraws (pos π : Equiv.Perm (Fin n)) : (Fin n → R) ≃ (Fin n → R) :=
  Equiv.arrowCongr ((pos.symm.trans π).trans pos) (Equiv.refl R)

theorem moveDraws_at (pos π : Equiv.Perm (Fin n)) (d : Fin n → R) (i : Fin n) :
    moveDraws pos π d (pos (π i)) = d (pos i) := by
  simp [moveDraws, Equiv.arrowCongr]

theorem moveDraws_eq (pos π : Equiv.Perm (Fin n)) (d : Fin n → R) :
    moveDraws pos π d = d ∘ ((pos.symm.trans π).trans pos).symm := rfl

variable {group : Fin n → Nat} {K : Nat} {key : Nat → R → R} {pos : Equiv.Perm (Fin n)} {V : Finset R}
  {ok : (Fin n → R) → Prop} {held : (Fin n → R) → Finset (Fin n)}

theorem held_move (hclear : ∀ d, ok d → ∀ i j, group i = group j → key (group i) (d (pos i)) = key (group j) (d (pos j)) → i = j)
    (hok : ∀ d (σ : Equiv.Perm (Fin n)), ok d → ok (d ∘ σ))
    (hheld : ∀ d ∈ Spec.clearDraws V ok, HeldBy group K (fun i => key (group i) (d (pos i))) (held d))
    (π : Equiv.Perm (Fin n)) (hπ : ∀ i, group (π i) = group i) (d : Fin n → R) (hd : d ∈ Spec.clearDraws V ok) :
    moveDraws pos π d ∈ Spec.clearDraws V ok ∧ held (moveDraws pos π d) = (held d).map π.toEmbedding := by
  have hd' : moveDraws pos π d ∈ Spec.clearDraws V ok := by
    rw [mem_clearDraws] at hd ⊢
    rw [moveDraws_eq]
    exact ⟨fun i => hd.1 _, hok _ _ hd.2⟩
  refine ⟨hd', ?_⟩
  have hk : ∀ i, key (group (π i)) (moveDraws pos π d (pos (π i))) = key (group i) (d (pos i)) := by
    intro i
    rw [moveDraws_at, hπ]
  refine heldBy_unique (hclear _ (mem_clearDraws.mp hd').2) (hheld _ hd') ?_
  have h := hheld d hd
  refine ⟨fun v ⟨i, hi⟩ => ?_, ?_⟩
  · rw [← h.each v ⟨π.symm i, by rw [← hπ, Equiv.apply_symm_apply]; exact hi⟩, filter_map, card_map]
    congr 1
    refine filter_congr fun j _ => ?_
    show group (π j) = v ↔ _
    rw [hπ]
  · intro i hi j hj hij
    obtain ⟨a, ha, rfl⟩ := mem_map.mp hi
    obtain ⟨b, rfl⟩ := π.surjective j
    have hb : b ∉ held d := fun hb => hj (mem_map_of_mem _ hb)
    have e1 : π.toEmbedding a = π a := rfl
    rw [e1] at hij ⊢
    beta_reduce
    rw [hk a, hk b]
    rw [hπ, hπ] at hij
    exact h.greatest a ha b hb hij

/-- All ways to hold `K` of every group are equally likely. -/
theorem fair_choice (hclear : ∀ d, ok d → ∀ i j, group i = group j → key (group i) (d (pos i)) = key (group j) (d (pos j)) → i = j)
    (hok : ∀ d (σ : Equiv.Perm (Fin n)), ok d → ok (d ∘ σ))
    (hheld : ∀ d ∈ Spec.clearDraws V ok, HeldBy group K (fun i => key (group i) (d (pos i))) (held d))
    (S T : Finset (Fin n)) (hS : ∀ v, (∃ i, group i = v) → (S.filter fun i => group i = v).card = K)
    (hT : ∀ v, (∃ i, group i = v) → (T.filter fun i => group i = v).card = K) :
    ((Spec.clearDraws V ok).filter fun d => held d = S).card = ((Spec.clearDraws V ok).filter fun d => held d = T).card := by
  classical
  -- a permutation within the groups that takes `S` to `T`
  have hcards : ∀ c : Nat × Bool, Fintype.card {i : Fin n // (group i, decide (i ∈ S)) = c} =
      Fintype.card {i : Fin n // (group i, decide (i ∈ T)) = c} := by
    rintro ⟨v, b⟩
    rw [Fintype.card_subtype, Fintype.card_subtype]
    by_cases hv : ∃ i, group i = v
    · have key : ∀ U : Finset (Fin n), (U.filter fun i => group i = v).card = K →
          ((univ : Finset (Fin n)).filter fun i => (group i, decide (i ∈ U)) = (v, b)).card =
            if b then K else ((univ : Finset (Fin n)).filter fun i => group i = v).card - K := by
        intro U hU
        cases b with
        | true =>
          rw [if_pos rfl, ← hU]
          congr 1
          ext i
          simp [and_comm]
        | false =>
          rw [if_neg (by simp), ← hU, ← card_sdiff_of_subset]
          · congr 1
            ext i
            simp only [mem_filter, mem_univ, true_and, Prod.mk.injEq, decide_eq_false_iff_not, mem_sdiff, not_and]
            tauto
          · exact filter_subset_filter _ (subset_univ _)
      rw [key S (hS v hv), key T (hT v hv)]
    · have hnone : ∀ U : Finset (Fin n), ((univ : Finset (Fin n)).filter fun i => (group i, decide (i ∈ U)) = (v, b)) = ∅ := by
        intro U
        refine filter_eq_empty_iff.mpr fun i _ h => hv ⟨i, (Prod.mk.inj h).1⟩
      rw [hnone, hnone]
  let π : Equiv.Perm (Fin n) := Equiv.ofFiberEquiv (f := fun i => (group i, decide (i ∈ S)))
    (g := fun i => (group i, decide (i ∈ T))) fun c => Fintype.equivOfCardEq (hcards c)
  have hπ : ∀ i, (group (π i), decide (π i ∈ T)) = (group i, decide (i ∈ S)) := fun i =>
    Equiv.ofFiberEquiv_map (f := fun i => (group i, decide (i ∈ S))) (g := fun i => (group i, decide (i ∈ T)))
      (fun c => Fintype.equivOfCardEq (hcards c)) i
  have hgroup : ∀ i, group (π i) = group i := fun i => (Prod.mk.inj (hπ i)).1
  have hmem : ∀ i, π i ∈ T ↔ i ∈ S := fun i => by
    have := (Prod.mk.inj (hπ i)).2
    simpa using this
  have hST : S.map π.toEmbedding = T := by
    ext j
    obtain ⟨i, rfl⟩ := π.surjective j
    rw [hmem]
    exact mem_map' π.toEmbedding
  refine card_equiv (moveDraws pos π) fun d => ?_
  rw [mem_filter, mem_filter]
  have hback : moveDraws pos π d ∈ Spec.clearDraws V ok → d ∈ Spec.clearDraws V ok := by
    rw [mem_clearDraws, mem_clearDraws]
    rintro ⟨h1, h2⟩
    refine ⟨fun i => ?_, ?_⟩
    · have := h1 (((pos.symm.trans π).trans pos) i)
      rwa [moveDraws_eq, Function.comp_apply, Equiv.symm_apply_apply] at this
    · have := hok _ ((pos.symm.trans π).trans pos) h2
      rw [moveDraws_eq, Function.comp_assoc, Equiv.symm_comp_self, Function.comp_id] at this
      exact this
  constructor
  · rintro ⟨hd, rfl⟩
    obtain ⟨h1, h2⟩ := held_move hclear hok hheld π hgroup d hd
    exact ⟨h1, h2.trans hST⟩
  · rintro ⟨hd, he⟩
    have hd' := hback hd
    obtain ⟨-, h2⟩ := held_move hclear hok hheld π hgroup d hd'
    refine ⟨hd', ?_⟩
    rw [h2, ← hST] at he
    exact map_injective _ he

/-- Every thing of a group of `c` is held in `K` of `c` cases. -/
theorem fair_each (hclear : ∀ d, ok d → ∀ i j, group i = group j → key (group i) (d (pos i)) = key (group j) (d (pos j)) → i = j)
    (hok : ∀ d (σ : Equiv.Perm (Fin n)), ok d → ok (d ∘ σ))
    (hheld : ∀ d ∈ Spec.clearDraws V ok, HeldBy group K (fun i => key (group i) (d (pos i))) (held d)) (i : Fin n) :
    ((univ : Finset (Fin n)).filter fun j => group j = group i).card *
        ((Spec.clearDraws V ok).filter fun d => i ∈ held d).card = K * (Spec.clearDraws V ok).card := by
  classical
  have hswap : ∀ j, group j = group i → ((Spec.clearDraws V ok).filter fun d => j ∈ held d).card =
      ((Spec.clearDraws V ok).filter fun d => i ∈ held d).card := by
    intro j hj
    have hg : ∀ x, group (Equiv.swap j i x) = group x := by
      intro x
      rw [Equiv.swap_apply_def]
      split_ifs with h1 h2
      · rw [h1, hj]
      · rw [h2, hj]
      · rfl
    have hle : ∀ a b : Fin n, (∀ x, group (Equiv.swap a b x) = group x) →
        ((Spec.clearDraws V ok).filter fun d => a ∈ held d).card ≤ ((Spec.clearDraws V ok).filter fun d => b ∈ held d).card := by
      intro a b hab
      refine card_le_card_of_injOn (moveDraws pos (Equiv.swap a b)) ?_ (Equiv.injective _).injOn
      intro d hd
      rw [mem_coe, mem_filter] at hd ⊢
      obtain ⟨h1, h2⟩ := held_move hclear hok hheld (Equiv.swap a b) hab d hd.1
      refine ⟨h1, ?_⟩
      rw [h2]
      exact mem_map.mpr ⟨a, hd.2, by simp⟩
    refine le_antisymm (hle j i hg) (hle i j ?_)
    rwa [Equiv.swap_comm]
  have hsum : ∑ j ∈ (univ : Finset (Fin n)).filter (fun j => group j = group i),
      ((Spec.clearDraws V ok).filter fun d => j ∈ held d).card = K * (Spec.clearDraws V ok).card := by
    have hbi : ∀ j, ((Spec.clearDraws V ok).filter fun d => j ∈ held d).card =
        ∑ d ∈ Spec.clearDraws V ok, if j ∈ held d then 1 else 0 := fun j => card_filter _ _
    simp only [hbi]
    rw [sum_comm]
    have : ∀ d ∈ Spec.clearDraws V ok, (∑ j ∈ (univ : Finset (Fin n)).filter (fun j => group j = group i),
        if j ∈ held d then 1 else 0) = K := by
      intro d hd
      rw [← card_filter, ← (hheld d hd).each (group i) ⟨i, rfl⟩]
      congr 1
      ext j
      simp [and_comm]
    rw [sum_const_nat this, Nat.mul_comm]
  rw [← hsum, sum_const_nat fun j hj => hswap j (mem_filter.mp hj).2]

/-- The number of draws without repetition. -/
theorem clear_card (V : Finset R) : (Spec.clearDraws V (Function.Injective : (Fin n → R) → Prop)).card =
    V.card.descFactorial n := by
  classical
  have h := Fintype.card_embedding_eq (α := Fin n) (β := V)
  rw [Fintype.card_coe, Fintype.card_fin] at h
  rw [← h, ← Fintype.card_coe]
  refine Fintype.card_congr ⟨fun d => ⟨fun i => ⟨d.1 i, (mem_clearDraws.mp d.2).1 i⟩, fun i j hij =>
      (mem_clearDraws.mp d.2).2 (Subtype.ext_iff.mp hij)⟩, fun f => ⟨fun i => (f i).1, mem_clearDraws.mpr
      ⟨fun i => (f i).2, fun i j hij => f.injective (Subtype.ext hij)⟩⟩, fun d => rfl, fun f => rfl⟩

end Implicit
