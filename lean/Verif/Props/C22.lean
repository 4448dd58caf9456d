import Verif.Lemmas.Accum
import Verif.Spec.Knn

/-!
# C22 — the sparse row accumulator is exact and leaves no residue
-/

namespace Implicit

variable {R : Type} [AddCommMonoid R]

theorem totalAt_eq_sumAt (es : List (Nat × R)) (j : Nat) : totalAt es j = Spec.sumAt es j := by
  induction es with
  | nil => rfl
  | cons e es ih => rw [totalAt_cons, ih]; rfl

/-- One use of the accumulator: some additions, then an enumeration. -/
def accumRound (a : Accum R) (es : List (Nat × R)) : Except Err (List (Nat × R) × Accum R) := do
  (← a.addAll es).foreach

/-- Consecutive uses of the same accumulator. -/
def accumRounds : Accum R → List (List (Nat × R)) → Except Err (List (List (Nat × R)) × Accum R)
  | a, [] => .ok ([], a)
  | a, es :: ess => do
    let r ← accumRound a es
    let rest ← accumRounds r.2 ess
    pure (r.1 :: rest.1, rest.2)

/-- **C22**.  Any additions within the size, from the initial state: the enumeration visits every index
that received an addition once, with the sum of its additions, and nothing else; the accumulator is then
again in its initial state. -/
theorem C22_round (n : Nat) (es : List (Nat × R)) (hes : ∀ e ∈ es, e.1 < n) :
    ∃ out, accumRound (Accum.new n) es = .ok (out, Accum.new n) ∧ (out.map Prod.fst).Nodup ∧
      ∀ j v, (j, v) ∈ out ↔ (∃ w, (j, w) ∈ es) ∧ v = Spec.sumAt es j := by
  obtain ⟨a, l, e1, h, -, hmem, e2⟩ := round_ok es hes
  refine ⟨_, by unfold accumRound; rw [e1]; exact e2, ?_, ?_⟩
  · rw [List.map_map]
    simpa [Function.comp_def] using h.nodup
  · intro j v
    rw [List.mem_map, ← totalAt_eq_sumAt]
    constructor
    · rintro ⟨i, hi, he⟩
      cases he
      obtain ⟨x, hx, rfl⟩ := List.mem_map.mp ((hmem j).mp hi)
      exact ⟨⟨x.2, hx⟩, rfl⟩
    · rintro ⟨⟨w, hw⟩, rfl⟩
      exact ⟨j, (hmem j).mpr (List.mem_map.mpr ⟨_, hw, rfl⟩), rfl⟩

/-- **C22** (any history).  In any number of rounds every round gives what it would give alone. -/
theorem C22_rounds (n : Nat) (ess : List (List (Nat × R))) (h : ∀ es ∈ ess, ∀ e ∈ es, e.1 < n) :
    ∃ outs, accumRounds (Accum.new n) ess = .ok (outs, Accum.new n) ∧ outs.length = ess.length ∧
      ∀ (k : Nat) es out, ess[k]? = some es → outs[k]? = some out →
        accumRound (Accum.new n) es = .ok (out, Accum.new n) ∧ (out.map Prod.fst).Nodup ∧
        ∀ j v, (j, v) ∈ out ↔ (∃ w, (j, w) ∈ es) ∧ v = Spec.sumAt es j := by
  induction ess with
  | nil => exact ⟨[], rfl, rfl, by simp⟩
  | cons es ess ih =>
    obtain ⟨out, e1, h1, h2⟩ := C22_round n es (h es (by simp))
    obtain ⟨outs, e2, hlen, h3⟩ := ih (fun x hx => h x (by simp [hx]))
    refine ⟨out :: outs, ?_, by simp [hlen], ?_⟩
    · unfold accumRounds
      rw [e1]
      show (do let rest ← accumRounds (Accum.new n) ess; pure (out :: rest.1, rest.2)) = _
      rw [e2]; rfl
    · intro k es' out' hk hk'
      cases k with
      | zero => simp at hk hk'; subst hk hk'; exact ⟨e1, h1, h2⟩
      | succ k => exact h3 k es' out' (by simpa using hk) (by simpa using hk')

/-- Outside the size the accumulator is accessed out of bounds: the bound of `C22_round` is needed. -/
theorem C22_bound_needed (n : Nat) (i : Nat) (hi : n ≤ i) (v : R) :
    accumRound (Accum.new n) [(i, v)] = .error .undefinedBehaviour := by
  have : (Accum.new n : Accum R).add i v = .error .undefinedBehaviour := by
    unfold Accum.add Accum.new
    rw [List.getElem?_eq_none (by simpa using hi)]
  unfold accumRound Accum.addAll
  rw [this]; rfl

/-- Repeats, a cancelling pair and a zero: indices 3, 0, 2 are visited (last touched first), index 3
with sum 0; the second round does not see the first. -/
example : accumRounds (Accum.new 4 : Accum Int)
    [[(2, 5), (0, 1), (2, 3), (3, 7), (3, -7)], [(1, 0), (2, 4)]] =
    .ok ([[(3, 0), (0, 1), (2, 8)], [(2, 4), (1, 0)]], Accum.new 4) := by
  decide

end Implicit
