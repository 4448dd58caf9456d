import Verif.Props.C72Writer
import Verif.Props.C01Heap
/-!
# C72 — what goes wrong when threads share a factor model and no lock is held around the calls
-/

set_option linter.unusedSectionVars false

namespace Implicit

/-- `n` steps of thread `i`. -/
def turns (i n : Nat) : List Nat := List.replicate n i

/-- The vectors or errors a thread has got. -/
def gotVectors : Except Err (Option (Result 1 Rat)) → Except Err (Option (List Rat))
  | .ok (some (.vectors l)) => .ok (some (l.map fun v => v 0))
  | .ok _ => .ok none
  | .error e => .error e

/-- The list or the error a thread has got. -/
def gotList : Except Err (Option (Result 1 Rat)) → Except Err (Option (List (Nat × Rat)))
  | .ok (some (.answer (.one l))) => .ok (some l)
  | .ok _ => .ok none
  | .error e => .error e

/-- The factors of side `d`, which have one dimension. -/
def factorsNow (d : Side) (s : Shared 1 Rat) : List Rat := (s.tab d (s.cur d)).map fun v => v 0

/-- A model with one user and two items, nothing cached. -/
def raceCold : MFState 1 Rat := freshState ⟨[![1]], [![1], ![2]]⟩

/-- The same model, caches filled. -/
def raceWarm : MFState 1 Rat := ⟨[![1]], [![1], ![2]], none, some [1, 2], some (gram [![1], ![2]]), none⟩

theorem raceWarm_coherent : Coherent c10Env raceWarm := by
  refine ⟨fun a ha => (by cases ha), fun a ha => ?_, fun G hG => ?_, fun G hG => (by cases hG)⟩
  · cases ha; decide +kernel
  · cases hG; rfl

/-- `partial_fit_items([0], …)` and `recalculate_user(0, …)`. -/
def raceItems (st : MFState 1 Rat) : Proc (Shared 1 Rat) (List (Except Err (Option (Result 1 Rat)))) :=
  modelProcess c10Env st [[.updateItems [0] [[(0, 1)]]], [.query (.recalculateUser (.one 0) [[(0, 1)]])]]

/-- **C72 violated** (`partial_fit_items` next to `recalculate_user`).  The thread that fills the cache `_YtY` has read the item factors
before the update and stores the Gram matrix after the update has cleared the cache: from then on the model has a Gram matrix that
does not belong to its factors, and `recalculate_user` - also of a single thread, for ever - gives 1/12 in place of 2/21. -/
theorem C72_stale_gram_violated :
    let finish := (raceItems raceCold).run (turns 1 3 ++ turns 0 60 ++ turns 1 60)
    finish.finished = true ∧ factorsNow .item finish.state = [1 / 2, 2] ∧
      ((finish.state.gram .item).map fun G => G 0 0) = some 5 ∧
      (finish.result 1).map (·.map gotVectors) = some [.ok (some [1 / 12])] ∧
      gotVectors ((runQuery c10Env (freshState ⟨[![1]], [![1 / 2], ![2]]⟩) (.recalculateUser (.one 0) [[(0, 1)]])).1.map some) =
        .ok (some [2 / 21]) := by
  decide +kernel

/-- **C72 violated** (the same calls, `_YtY` cached).  The property `YtY` tests the attribute and reads it again to return it; cleared
in between, it returns `None` and `recalculate_user` raises. -/
theorem C72_cleared_gram_violated :
    let finish := (raceItems raceWarm).run (turns 1 1 ++ turns 0 60 ++ turns 1 60)
    finish.finished = true ∧ (finish.result 1).map (·.map gotVectors) = some [.error .typeError] := by
  decide +kernel

/-- **C72 violated** (two threads adding users).  Both calls return, but user 1 has the factor 0: the second thread has copied the
factors before the first one stored its row, and made its copy the model's afterwards.  One after the other, in either order, both users
get 1/6. -/
theorem C72_lost_update_violated :
    let calls : List (ModelCall 1 Rat) := [.updateUsers [1] [[(0, 1)]], .updateUsers [2] [[(0, 1)]]]
    let finish := (modelProcess c10Env raceCold (calls.map fun c => [c])).run (turns 1 9 ++ turns 0 60 ++ turns 1 60)
    finish.finished = true ∧ (finish.result 0).map (·.map gotVectors) = some [.ok none] ∧
      (finish.result 1).map (·.map gotVectors) = some [.ok none] ∧
      factorsNow .user finish.state = [1, 0, 1 / 6] ∧
      ((runOps c10Env raceCold (calls.map ModelCall.op)).user.map fun v => v 0) = [1, 1 / 6, 1 / 6] ∧
      ((runOps c10Env raceCold (calls.reverse.map ModelCall.op)).user.map fun v => v 0) = [1, 1 / 6, 1 / 6] := by
  decide +kernel

/-- **C72 violated** (the same with the larger id first): the model ends without user 2, whose update returned without error. -/
theorem C72_lost_user_violated :
    let finish := (modelProcess c10Env raceCold [[.updateUsers [2] [[(0, 1)]]], [.updateUsers [1] [[(0, 1)]]]]).run
      (turns 1 9 ++ turns 0 60 ++ turns 1 60)
    finish.finished = true ∧ (finish.result 0).map (·.map gotVectors) = some [.ok none] ∧
      factorsNow .user finish.state = [1, 1 / 6] := by
  decide +kernel

/-- **C72 violated** (`similar_items` during `partial_fit_items`).  The new factors are stored before the norms of the old ones are
dropped: an item gets a cosine similarity of 1/4 with itself. -/
theorem C72_old_norms_violated :
    let finish := (modelProcess c10Env raceWarm [[.updateItems [0] [[(0, 1)]]], [.query (.similarItems (.one 0) 2 none none)]]).run
      (turns 0 11 ++ turns 1 60 ++ turns 0 60)
    finish.finished = true ∧ (finish.result 1).map (·.map gotList) = some [.ok (some [(1, 1 / 2), (0, 1 / 4)])] ∧
      gotList ((runQuery c10Env raceWarm (.similarItems (.one 0) 2 none none)).1.map some) = .ok (some [(1, 1), (0, 1)]) ∧
      gotList ((runQuery c10Env (runOp c10Env raceWarm (.partialFitItems [0] [[(0, 1)]]))
        (.similarItems (.one 0) 2 none none)).1.map some) = .ok (some [(1, 1), (0, 1)]) := by
  refine ⟨?_, ?_, ?_, ?_⟩ <;> decide +kernel

/-- Reading `model.item_norms`. -/
def itemNormsRead (env : Env 1 Rat) : Thread 1 Rat (List Rat) :=
  (normsProg env .item).andThen fun n => .read fun s => .ok (s.array .item n)

/-- Division of floats, as far as needed here: 0/0 is NaN. -/
def fltDiv (a b : Rat) : Flt := if b = 0 then none else some (a / b)

/-- **C72 violated** (the first `similar_items` of two threads, an item without ratings).  The norms are visible before the zeros
among them have been replaced: the second thread divides by 0, and the NaN makes `similar_items(1, N=1)` return item 0. -/
theorem C72_zero_norm_violated :
    let start : Proc (Shared 1 Rat) (Except Err (List Rat)) :=
      ⟨Shared.start (freshState ⟨[![1]], [![0], ![2]]⟩), [itemNormsRead c10Env, itemNormsRead c10Env]⟩
    let finish := start.run (turns 0 4 ++ turns 1 60 ++ turns 0 60)
    finish.result 1 = some (.ok [0, 2]) ∧ finish.result 0 = some (.ok [1 / 10 ^ 10, 2]) ∧
      rawSelect fltLt 1 (List.zipWith fltDiv [0 * 2, 2 * 2] [0, 2]) = .ok [(none, 0)] ∧
      rawSelect fltLt 1 (List.zipWith fltDiv [0 * 2, 2 * 2] [1 / 10 ^ 10, 2]) = .ok [(some 2, 1)] := by
  decide +kernel

/-- The same threads when the norms have been asked for before they start. -/
example :
    let start : Proc (Shared 1 Rat) (Except Err (List Rat)) :=
      ⟨Shared.start ⟨[![1]], [![0], ![2]], none, some [1 / 10 ^ 10, 2], none, none⟩, [itemNormsRead c10Env, itemNormsRead c10Env]⟩
    let finish := start.run (turns 0 1 ++ turns 1 60 ++ turns 0 60)
    finish.result 1 = some (.ok [1 / 10 ^ 10, 2]) ∧ finish.result 0 = some (.ok [1 / 10 ^ 10, 2]) := by
  decide +kernel

/-! ## Examples for `C72_answers`, `C72_queries`, `C72_one_writer` -/

/-- `recommend` of user 0 next to an update of user 1 (`C72_answers`): the hypothesis holds, and the answer is that of a single
thread. -/
example :
    let threads : List (List (ModelCall 1 Rat)) :=
      [[.updateUsers [1] [[(0, 1)]]], [.query (.recommend (.one 0) none 2 false none false none)]]
    Unaffected c10Env raceWarm threads (.recommend (.one 0) none 2 false none false none) ∧
      (((modelProcess c10Env raceWarm threads).run (turns 0 7 ++ turns 1 2 ++ turns 0 60 ++ turns 1 60)).result 1).map
        (·.map gotList) =
        some [.ok (some [(1, 2), (0, 1)])] := by
  refine ⟨⟨?_, .inr (.inr ?_)⟩, by decide +kernel⟩
  · rintro ⟨calls, hc, c, hcc, h⟩
    simp only [List.mem_cons, List.not_mem_nil, or_false] at hc
    rcases hc with rfl | rfl <;> simp only [List.mem_cons, List.not_mem_nil, or_false] at hcc <;> subst hcc
    · cases h
    · exact h
  · intro u hu
    simp only [Ids.toList, List.mem_cons, List.not_mem_nil, or_false] at hu
    subst hu
    refine ⟨by decide, fun calls hc c hcc h => ?_⟩
    simp only [List.mem_cons, List.not_mem_nil, or_false] at hc
    rcases hc with rfl | rfl <;> simp only [List.mem_cons, List.not_mem_nil, or_false] at hcc <;> subst hcc
    · obtain ⟨-, h⟩ := h
      simp at h
    · exact h

/-- Queries of three threads on a cold model, interleaved step by step (`C72_queries`). -/
example :
    let threads : List (List (Query 1 Rat)) := [[.similarItems (.one 0) 2 none none], [.recalculateUser (.one 0) [[(0, 1)]]],
      [.similarItems (.one 1) 1 none none, .recommend (.one 0) none 1 false none false none]]
    let finish := (modelProcess c10Env raceCold (threads.map fun qs => qs.map .query)).run ((List.range 90).map (· % 3))
    finish.finished = true ∧ NormsReady c10Env raceCold .item ∧ NormsReady c10Env raceCold .user ∧
      (finish.result 0).map (·.map gotList) = some [.ok (some [(1, 1), (0, 1)])] ∧
      (finish.result 1).map (·.map gotVectors) = some [.ok (some [1 / 6])] ∧
      (finish.result 2).map (·.map gotList) = some [.ok (some [(0, 1)]), .ok (some [(1, 2)])] := by
  refine ⟨by decide +kernel, .inr ?_, .inr ?_, by decide +kernel, by decide +kernel, by decide +kernel⟩
  · intro v hv
    simp only [raceCold, freshState, List.mem_cons, List.not_mem_nil, or_false] at hv
    rcases hv with rfl | rfl <;> decide +kernel
  · intro v hv
    simp only [raceCold, freshState, List.mem_cons, List.not_mem_nil, or_false] at hv
    subst hv
    decide +kernel

/-- One thread adds users while another asks for recommendations (`C72_one_writer`). -/
example :
    let calls : List (ModelCall 1 Rat) := [.updateUsers [1] [[(0, 1)]], .updateUsers [] [], .updateUsers [3] [[(1, 2)]]]
    let finish := (modelProcess c10Env raceCold [calls, [.query (.recalculateUser (.one 0) [[(0, 1)]]),
      .query (.similarUsers (.one 0) 2 none none)]]).run ((List.range 90).map (· % 2))
    finish.finished = true ∧ factorsNow .user finish.state = [1, 1 / 6, 0, 2 / 5] ∧
      (finish.result 0).map (·.map gotVectors) = some [.ok none, .error .valueError, .ok none] ∧
      ((runOps c10Env raceCold (calls.map ModelCall.op)).user.map fun v => v 0) = [1, 1 / 6, 0, 2 / 5] := by
  decide +kernel

end Implicit
