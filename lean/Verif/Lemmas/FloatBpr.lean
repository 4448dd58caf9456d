import Verif.Model.FloatTraining
import Verif.Lemmas.Parallel
/-!
# What one BPR update computes with the numbers of the machine
-/

set_option linter.unusedSectionVars false

namespace Implicit

variable {V : Type} (A : FloatOps V)

/-- The score of `bpr_update`, summed from left to right. -/
def FloatOps.bprScore (t : BprTriple) (m : BprCell → V) (n : Nat) (s : V) : V :=
  (List.range n).foldl (fun s j => A.add s (A.mul (m (.user t.user j)) (A.sub (m (.item t.liked j)) (m (.item t.disliked j))))) s

/-- The new factor of a user. -/
def FloatOps.bprUser (lr reg z a b c : V) : V := A.add a (A.mul lr (A.sub (A.mul z (A.sub b c)) (A.mul reg a)))

/-- The new factor of a liked item. -/
def FloatOps.bprLiked (lr reg z a b : V) : V := A.add b (A.mul lr (A.sub (A.mul z a) (A.mul reg b)))

/-- The new factor of a disliked item. -/
def FloatOps.bprDisliked (lr reg z a c : V) : V := A.add c (A.mul lr (A.sub (A.mul (A.mul A.negOne z) a) (A.mul reg c)))

/-- The new bias of a liked item. -/
def FloatOps.bprLikedBias (lr reg z b : V) : V := A.add b (A.mul lr (A.sub z (A.mul reg b)))

/-- The new bias of a disliked item. -/
def FloatOps.bprDislikedBias (lr reg z c : V) : V := A.add c (A.mul lr (A.sub (A.mul A.negOne z) (A.mul reg c)))

theorem float_score_loop (sig : V → V) (half lr reg : V) (t : BprTriple) (n : Nat) (s : BprScratch V)
    (m : BprCell → V) :
    let r := runInstrs (A.bprAct sig half lr reg) ((List.range n).flatMap (bprScoreRound t)) s m
    r.2 = m ∧ r.1.score = A.bprScore t m n s.score := by
  induction n with
  | zero => exact ⟨rfl, rfl⟩
  | succ n ih =>
    intro r
    obtain ⟨h1, h2⟩ := ih
    have hr : r = runInstrs (A.bprAct sig half lr reg) (bprScoreRound t n)
        (runInstrs (A.bprAct sig half lr reg) ((List.range n).flatMap (bprScoreRound t)) s m).1 m := by
      show runInstrs _ _ _ _ = _
      rw [List.range_succ, List.flatMap_append, run_append, h1]
      simp
    rw [hr]
    refine ⟨rfl, ?_⟩
    unfold FloatOps.bprScore at h2 ⊢
    rw [List.range_succ, List.foldl_append, ← h2]
    rfl

/-- The memory after the update of the first `n` coordinates. -/
def floatMem (A : FloatOps V) (lr reg z : V) (t : BprTriple) (n : Nat) (m : BprCell → V) : BprCell → V
  | .user u j =>
    if u = t.user ∧ j < n then
      A.bprUser lr reg z (m (.user u j)) (m (.item t.liked j)) (m (.item t.disliked j))
    else m (.user u j)
  | .item i j =>
    if i = t.liked ∧ j < n then
      A.bprLiked lr reg z (m (.user t.user j)) (m (.item i j))
    else if i = t.disliked ∧ j < n then
      A.bprDisliked lr reg z (m (.user t.user j)) (m (.item i j))
    else m (.item i j)

theorem float_update_loop (sig : V → V) (half lr reg : V) (t : BprTriple) (hne : t.liked ≠ t.disliked)
    (n : Nat) (s : BprScratch V) (m : BprCell → V) :
    let r := runInstrs (A.bprAct sig half lr reg) ((List.range n).flatMap (bprUpdateRound t)) s m
    r.2 = floatMem A lr reg s.z t n m ∧ r.1.z = s.z := by
  induction n with
  | zero =>
    refine ⟨?_, rfl⟩
    funext c
    cases c <;> simp [floatMem, runInstrs]
  | succ n ih =>
    intro r
    obtain ⟨h1, h2⟩ := ih
    set s1 := (runInstrs (A.bprAct sig half lr reg) ((List.range n).flatMap (bprUpdateRound t)) s m).1
    have hr : r = runInstrs (A.bprAct sig half lr reg) (bprUpdateRound t n) s1 (floatMem A lr reg s.z t n m) := by
      show runInstrs _ _ _ _ = _
      rw [List.range_succ, List.flatMap_append, run_append, h1]
      simp [s1]
    have eu : floatMem A lr reg s.z t n m (.user t.user n) = m (.user t.user n) := by simp [floatMem]
    have el : floatMem A lr reg s.z t n m (.item t.liked n) = m (.item t.liked n) := by simp [floatMem]
    have ed : floatMem A lr reg s.z t n m (.item t.disliked n) = m (.item t.disliked n) := by
      simp [floatMem]
    rw [hr]
    refine ⟨?_, h2⟩
    have hne' : ¬ t.disliked = t.liked := fun h => hne h.symm
    simp only [bprUpdateRound, runInstrs, FloatOps.bprAct]
    simp only [Function.update, h2, eu, el, ed]
    funext c
    cases c with
    | user u j =>
      by_cases hu : u = t.user
      · subst hu
        rcases Nat.lt_trichotomy j n with hj | rfl | hj
        · have h3 : j ≠ n := by omega
          have h4 : j < n + 1 := by omega
          simp [floatMem, hj, h3, h4]
        · simp [floatMem, FloatOps.bprUser]
        · have h3 : j ≠ n := by omega
          have h4 : ¬ j < n + 1 := by omega
          have h5 : ¬ j < n := by omega
          simp [floatMem, h3, h4, h5]
      · simp [floatMem, hu]
    | item i j =>
      rcases Nat.lt_trichotomy j n with hj | rfl | hj
      · have h3 : j ≠ n := by omega
        have h4 : j < n + 1 := by omega
        simp [floatMem, hj, h3, h4]
      · by_cases hl : i = t.liked
        · subst hl
          simp [floatMem, hne, hne', FloatOps.bprLiked, FloatOps.bprDisliked]
        · by_cases hd : i = t.disliked
          · subst hd
            simp [floatMem, hne, hne', FloatOps.bprLiked, FloatOps.bprDisliked]
          · simp [floatMem, hl, hd]
      · have h3 : j ≠ n := by omega
        have h4 : ¬ j < n + 1 := by omega
        have h5 : ¬ j < n := by omega
        simp [floatMem, h3, h4, h5]

/-- The memory after one whole update, for distinct items. -/
theorem float_update_effect (sig : V → V) (half lr reg : V) (factors : Nat) (t : BprTriple)
    (hne : t.liked ≠ t.disliked) (s : BprScratch V) (m : BprCell → V) :
    let z := sig (A.bprScore t m (factors + 1) A.zero)
    let m' := (runInstrs (A.bprAct sig half lr reg) (bprUpdateProg factors t) s m).2
    (∀ j, j < factors → m' (.user t.user j) =
      A.bprUser lr reg z (m (.user t.user j)) (m (.item t.liked j)) (m (.item t.disliked j))) ∧
    (∀ j, j < factors → m' (.item t.liked j) = A.bprLiked lr reg z (m (.user t.user j)) (m (.item t.liked j))) ∧
    (∀ j, j < factors → m' (.item t.disliked j) = A.bprDisliked lr reg z (m (.user t.user j)) (m (.item t.disliked j))) ∧
    m' (.item t.liked factors) = A.bprLikedBias lr reg z (m (.item t.liked factors)) ∧
    m' (.item t.disliked factors) = A.bprDislikedBias lr reg z (m (.item t.disliked factors)) := by
  intro z m'
  have hne' : ¬ t.disliked = t.liked := fun h => hne h.symm
  obtain ⟨h1, h2⟩ := float_score_loop A sig half lr reg t (factors + 1) { s with score := A.zero } m
  set s1 := (runInstrs (A.bprAct sig half lr reg)
    ((List.range (factors + 1)).flatMap (bprScoreRound t)) { s with score := A.zero } m).1
  set s2 := (A.bprAct sig half lr reg .logistic s1 m).1 with hs2
  have hz : s2.z = z := by
    show sig s1.score = z
    rw [h2]
  obtain ⟨h3, h4⟩ := float_update_loop A sig half lr reg t hne factors s2 m
  set s3 := (runInstrs (A.bprAct sig half lr reg) ((List.range factors).flatMap (bprUpdateRound t)) s2 m).1
  have hm' : m' = (runInstrs (A.bprAct sig half lr reg)
      [.loadLiked t factors, .storeLikedBias t factors, .loadDisliked t factors,
        .storeDislikedBias t factors] s3 (floatMem A lr reg z t factors m)).2 := by
    show (runInstrs _ (bprUpdateProg factors t) s m).2 = _
    unfold bprUpdateProg
    rw [run_append, run_append, run_append, run_append]
    have e0 : runInstrs (A.bprAct sig half lr reg) [.zero] s m = ({ s with score := A.zero }, m) := rfl
    rw [e0]
    dsimp only
    rw [h1]
    have e1 : runInstrs (A.bprAct sig half lr reg) [.logistic] s1 m = (s2, m) := rfl
    rw [show (runInstrs (A.bprAct sig half lr reg)
      ((List.range (factors + 1)).flatMap (bprScoreRound t)) { s with score := A.zero } m).1 = s1 from rfl,
      e1]
    dsimp only
    rw [h3, hz]
  have hz3 : s3.z = z := h4.trans hz
  rw [hm']
  simp only [runInstrs, FloatOps.bprAct, Function.update, hz3]
  refine ⟨fun j hj => ?_, fun j hj => ?_, fun j hj => ?_, ?_, ?_⟩
  · simp [floatMem, hj]
  · have : j ≠ factors := by omega
    simp [floatMem, hj, this]
  · have : j ≠ factors := by omega
    simp [floatMem, hj, this, hne']
  · simp [floatMem, hne, FloatOps.bprLikedBias]
  · simp [floatMem, hne', FloatOps.bprDislikedBias]

theorem floatUpdate_frame (sig : V → V) (half lr reg : V) (factors : Nat) (t : BprTriple) (c : BprCell)
    (hu : ∀ j, j < factors → c ≠ .user t.user j) (hl : ∀ j, j ≤ factors → c ≠ .item t.liked j)
    (hd : ∀ j, j ≤ factors → c ≠ .item t.disliked j) (s : BprScratch V) (m : BprCell → V) :
    (runInstrs (A.bprAct sig half lr reg) (bprUpdateProg factors t) s m).2 c = m c := by
  have hone : ∀ i ∈ bprUpdateProg factors t, ∀ s m, (A.bprAct sig half lr reg i s m).2 c = m c := by
    intro i hi s m
    unfold bprUpdateProg bprScoreRound bprUpdateRound at hi
    simp only [List.mem_append, List.mem_flatMap, List.mem_cons, List.not_mem_nil, or_false,
      List.mem_range] at hi
    rcases hi with (((rfl | ⟨j, hj, rfl | rfl | rfl | rfl⟩) | rfl) |
      ⟨j, hj, rfl | rfl | rfl | rfl | rfl | rfl | rfl | rfl | rfl⟩) | rfl | rfl | rfl | rfl <;>
      first
        | rfl
        | exact Function.update_of_ne (hu j hj) _ _
        | exact Function.update_of_ne (hl j (Nat.le_of_lt hj)) _ _
        | exact Function.update_of_ne (hd j (Nat.le_of_lt hj)) _ _
        | exact Function.update_of_ne (hl factors (Nat.le_refl _)) _ _
        | exact Function.update_of_ne (hd factors (Nat.le_refl _)) _ _
  have : ∀ (l : List BprInstr), (∀ i ∈ l, i ∈ bprUpdateProg factors t) → ∀ s m,
      (runInstrs (A.bprAct sig half lr reg) l s m).2 c = m c := by
    intro l
    induction l with
    | nil => intro _ s m; rfl
    | cons i l ih =>
      intro h s m
      unfold runInstrs
      rw [ih (fun i' hi' => h i' (by simp [hi'])), hone i (h i (by simp))]
  exact this _ (fun _ h => h) s m

end Implicit
