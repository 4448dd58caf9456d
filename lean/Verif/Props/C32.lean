import Verif.Props.C30
import Verif.Props.C31
/-!
# C32 — splits are reproducible from random_state
-/

set_option linter.unusedSectionVars false

namespace Implicit

variable {R : Type} [LinearOrder R] [Field R] [IsStrictOrderedRing R] {Gen : Type}

/-- The random states that stand for one particular generator, in every process. -/
def Spec.Fixed : RandomState Gen → Prop
  | .seed _ => True
  | .generator _ => True
  | _ => False

/-- **C32** for `train_test_split`: with an integer seed (or with a generator in a given state) the split
does not depend on the other random state of the process. -/
theorem C32_train_test (I : RngImpl R Gen) (P P' : Process R Gen) (X : Ratings R) (p : R)
    (rs : RandomState Gen) (h : Spec.Fixed rs) :
    trainTestSplit I P X p rs = trainTestSplit I P' X p rs := by
  cases rs with
  | none => exact h.elim
  | legacy => exact h.elim
  | seed k => rfl
  | generator g => rfl

/-- Without a seed the split does depend on the process, so the hypothesis of `C32_train_test` is needed. -/
theorem C32_unseeded :
    trainTestSplit (⟨fun _ => 0, fun g n => List.replicate n g, fun _ _ _ => []⟩ : RngImpl Rat Rat)
      ⟨0, fun _ => []⟩ ⟨1, 1, [(0, 0, 1)]⟩ (1 / 2) .none ≠
    trainTestSplit (⟨fun _ => 0, fun g n => List.replicate n g, fun _ _ _ => []⟩ : RngImpl Rat Rat)
      ⟨3 / 4, fun _ => []⟩ ⟨1, 1, [(0, 0, 1)]⟩ (1 / 2) .none := by
  decide +kernel

/-- **C32 is violated** for `leave_k_out_split`: `_take_tails` shuffles with the global `np.random`, so
that two calls with equal ratings and equal seed hold out different ratings when the global generator is in
different states. -/
theorem C32_leave_k_out_violated :
    let X : Ratings Rat := ⟨1, 3, [(0, 0, 1), (0, 1, 1), (0, 2, 1)]⟩
    leaveKOutSplit constRng (insertionArgSortIdx Nat) (insertionArgSortIdx Rat) id
      ⟨(), fun n => (List.range n).map fun i => (i : Rat) / 3⟩ X 1 0 (.seed 42) =
      .ok (⟨1, 3, [[(0, 1), (1, 1)]]⟩, ⟨1, 3, [[(2, 1)]]⟩) ∧
    leaveKOutSplit constRng (insertionArgSortIdx Nat) (insertionArgSortIdx Rat) id
      ⟨(), fun n => (List.range n).map fun i => (2 - i : Rat) / 3⟩ X 1 0 (.seed 42) =
      .ok (⟨1, 3, [[(1, 1), (2, 1)]]⟩, ⟨1, 3, [[(0, 1)]]⟩) := by
  decide +kernel

/-- **C32 is violated** for `np.random.RandomState`, which the documentation of both functions names as an
accepted argument: `check_random_state` raises `AttributeError`. -/
theorem C32_legacy_violated [FloorSemiring R] (I : RngImpl R Gen) (A : ArgSortIdx Nat) (B : ArgSortIdx R) (fl : R → R)
    (P : Process R Gen) (X : Ratings R) (p : R) :
    trainTestSplit I P X p .legacy = .error .attributeError ∧
    leaveKOutSplit I A B fl P X 1 0 .legacy = .error .attributeError := by
  constructor
  · rfl
  · unfold leaveKOutSplit
    have h2 : ¬ ((0 : R) < 0 ∨ (1 : R) ≤ 0) := by
      rintro (h | h)
      · exact absurd h (lt_irrefl _)
      · exact absurd h (not_le.mpr one_pos)
    simp only [if_neg (by decide : ¬ ((1 : Int) < 1)), if_neg h2]
    rfl

/-- **C32** for `leave_k_out_split` (partial: which ratings of an eligible user are held out is not
reproducible, see `C32_leave_k_out_violated`).  With a fixed random state two runs in different processes
both succeed and agree on which users have held-out ratings and on their number, and on all ratings of the
other users.  If the global generator gives the same values, the splits are equal. -/
theorem C32_leave_k_out_partial [FloorSemiring R] (I : RngImpl R Gen) (A : ArgSortIdx Nat)
    (B : ArgSortIdx R) (fl : R → R) (P P' : Process R Gen) (X : Ratings R)
    (hP : ∀ n, (P.globalRandom n).length = n ∧ Spec.KeysApart fl (X.entries.map Prod.fst) (P.globalRandom n))
    (hP' : ∀ n, (P'.globalRandom n).length = n ∧ Spec.KeysApart fl (X.entries.map Prod.fst) (P'.globalRandom n))
    (hnd : (X.entries.map fun e => (e.1, e.2.1)).Nodup)
    (hrow : ∀ e ∈ X.entries, e.1 < X.nrows) (K : Nat) (hK : 1 ≤ K) (trainOnly : R)
    (ht0 : 0 ≤ trainOnly) (ht1 : trainOnly < 1) (rs : RandomState Gen) (hrs : Spec.Fixed rs)
    (reserved : List Nat)
    (hres : ∀ g, checkRandomState I P rs = .ok g →
      (if 0 < trainOnly then choosePositions I g
        ((X.entries.map Prod.fst).dedup.insertionSort (· ≤ ·)).length trainOnly else .ok []) =
      .ok reserved) :
    ∃ train test train' test',
      leaveKOutSplit I A B fl P X K trainOnly rs = .ok (train, test) ∧
      leaveKOutSplit I A B fl P' X K trainOnly rs = .ok (train', test') ∧
      (∀ v, v < X.nrows → (∃ c, Spec.StoredAt test.rows v c) → ∃ held held' : List Nat,
        held.Nodup ∧ held'.Nodup ∧ held.length = K ∧ held'.length = K ∧
        (∀ c, Spec.StoredAt test.rows v c ↔ c ∈ held) ∧
        (∀ c, Spec.StoredAt test'.rows v c ↔ c ∈ held')) ∧
      (∀ v, v < X.nrows → ((∃ c, Spec.StoredAt test.rows v c) ↔ ∃ c, Spec.StoredAt test'.rows v c)) ∧
      (∀ e ∈ X.entries, (∀ c, ¬ Spec.StoredAt test.rows e.1 c) →
        Spec.entry train.rows e.1 e.2.1 = e.2.2 ∧ Spec.entry train'.rows e.1 e.2.1 = e.2.2) ∧
      ((∀ n, P.globalRandom n = P'.globalRandom n) → (train, test) = (train', test')) := by
  obtain ⟨g, hg, hg'⟩ : ∃ g, checkRandomState I P rs = .ok g ∧ checkRandomState I P' rs = .ok g := by
    cases rs with
    | none => exact hrs.elim
    | legacy => exact hrs.elim
    | seed k => exact ⟨_, rfl, rfl⟩
    | generator g => exact ⟨_, rfl, rfl⟩
  obtain ⟨train, test, h1, -, -, h2, h3, h4, -, -⟩ := C31_split_partial I A B fl P X hP hnd hrow K hK trainOnly
    ht0 ht1 rs g hg reserved (hres g hg)
  obtain ⟨train', test', k1, -, -, k2, k3, k4, -, -⟩ := C31_split_partial I A B fl P' X hP' hnd hrow K hK
    trainOnly ht0 ht1 rs g hg' reserved (hres g hg)
  have key : ∀ (M : Csr R), (∀ v, Spec.Eligible X.entries K reserved v →
      ∃ held : List (Nat × Nat × R), held.Nodup ∧
        held.length = K ∧ (∀ e ∈ held, e ∈ X.entries ∧ e.1 = v) ∧
        ∀ c, Spec.StoredAt M.rows v c ↔ ∃ e ∈ held, e.2.1 = c) →
      ∀ v, Spec.Eligible X.entries K reserved v → ∃ held : List Nat, held.Nodup ∧ held.length = K ∧
        ∀ c, Spec.StoredAt M.rows v c ↔ c ∈ held := by
    intro M hM v hv
    obtain ⟨held, a, b, c, d⟩ := hM v hv
    refine ⟨held.map fun e => e.2.1, ?_, by rw [List.length_map, b], fun x => by rw [d, List.mem_map]⟩
    refine List.Nodup.map_on (fun x hx y hy hxy => ?_) a
    exact List.inj_on_of_nodup_map hnd (c x hx).1 (c y hy).1
      (Prod.ext ((c x hx).2.trans (c y hy).2.symm) hxy)
  have el : ∀ (M : Csr R), (∀ v, Spec.Eligible X.entries K reserved v →
      ∃ held : List Nat, held.Nodup ∧ held.length = K ∧ ∀ c, Spec.StoredAt M.rows v c ↔ c ∈ held) →
      (∀ v c, v < X.nrows → ¬ Spec.Eligible X.entries K reserved v → ¬ Spec.StoredAt M.rows v c) →
      ∀ v, v < X.nrows → ((∃ c, Spec.StoredAt M.rows v c) ↔ Spec.Eligible X.entries K reserved v) := by
    intro M hM hN v hv
    constructor
    · rintro ⟨c, hc⟩
      by_contra h
      exact hN v c hv h hc
    · intro h
      obtain ⟨held, -, b, c⟩ := hM v h
      cases held with
      | nil => simp at b; omega
      | cons x xs => exact ⟨x, (c x).mpr (by simp)⟩
  refine ⟨train, test, train', test', h1, k1, ?_, ?_, ?_, ?_⟩
  · intro v hv hs
    have he := (el test (key test h2) h3 v hv).mp hs
    obtain ⟨held, a, b, c⟩ := key test h2 v he
    obtain ⟨held', a', b', c'⟩ := key test' k2 v he
    exact ⟨held, held', a, a', b, b', c, c'⟩
  · intro v hv
    rw [el test (key test h2) h3 v hv, el test' (key test' k2) k3 v hv]
  · intro e he hn
    have hne : ¬ Spec.Eligible X.entries K reserved e.1 := fun h => by
      obtain ⟨c, hc⟩ := (el test (key test h2) h3 e.1 (hrow e he)).mpr h
      exact hn c hc
    constructor
    · rcases h4 e he with ⟨-, h, -⟩ | ⟨h, -⟩
      · exact h
      · exact absurd h (hn _)
    · rcases k4 e he with ⟨-, h, -⟩ | ⟨h, -⟩
      · exact h
      · exact absurd h (k3 _ _ (hrow e he) hne)
  · intro hsame
    have : leaveKOutSplit I A B fl P X K trainOnly rs = leaveKOutSplit I A B fl P' X K trainOnly rs := by
      unfold leaveKOutSplit
      rw [hg, hg']
      simp only [hsame]
    rw [h1, k1] at this
    exact Except.ok.inj this

/-- A seeded split is the same in two processes with different entropy and global state. -/
example :
    trainTestSplit halfRng ⟨(), fun n => List.replicate n 0⟩
        ⟨1, 2, [(0, 0, 3), (0, 1, 4)]⟩ (1 / 2) (.seed 7) =
      trainTestSplit halfRng ⟨(), fun n => List.replicate n (1 / 3)⟩
        ⟨1, 2, [(0, 0, 3), (0, 1, 4)]⟩ (1 / 2) (.seed 7) ∧
    (Spec.Fixed (RandomState.seed 7 : RandomState Unit)) :=
  ⟨C32_train_test _ _ _ _ _ _ trivial, trivial⟩

end Implicit
