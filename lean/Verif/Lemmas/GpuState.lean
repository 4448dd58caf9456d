import Verif.Model.GpuState
import Verif.Lemmas.PartialFit

set_option linter.unusedSectionVars false

namespace Implicit

variable {R : Type} [LinearOrder R] [Field R] {f : Nat}

/-- Every cache that will be read without being recomputed holds the value for the current factors.  (The norms on
the host are only read together with those on the device.) -/
structure GpuCoherent (env : GpuModelEnv f R) (st : GpuState f R) : Prop where
  userNorms : ∀ n, st.userNorms = some n → n = safeNorms env.norm env.eps st.user ∧ st.userNormsHost = some n
  itemNorms : ∀ n, st.itemNorms = some n → n = safeNorms env.norm env.eps st.item ∧ st.itemNormsHost = some n
  YtY : ∀ G, st.YtY = some G → G = regularised (gram st.item) env.p.regularization
  XtX : ∀ G, st.XtX = some G → G = regularised (gram st.user) env.p.regularization

theorem gpuCoherent_fresh (env : GpuModelEnv f R) (half : Bool) (m : Factors f R) :
    GpuCoherent env (freshGpu half m) :=
  ⟨by simp [freshGpu], by simp [freshGpu], by simp [freshGpu], by simp [freshGpu]⟩

/-- The caches change, the rest does not. -/
def SameGpu (st st' : GpuState f R) : Prop :=
  st'.half = st.half ∧ st'.user = st.user ∧ st'.item = st.item

theorem SameGpu.refl (st : GpuState f R) : SameGpu st st := ⟨rfl, rfl, rfl⟩

theorem SameGpu.trans {a b c : GpuState f R} (h1 : SameGpu a b) (h2 : SameGpu b c) : SameGpu a c :=
  ⟨h2.1.trans h1.1, h2.2.1.trans h1.2.1, h2.2.2.trans h1.2.2⟩

/-! ### Users and items exchanged -/

def GpuState.swap (st : GpuState f R) : GpuState f R :=
  ⟨st.half, st.item, st.user, st.itemNorms, st.itemNormsHost, st.userNorms, st.userNormsHost, st.XtX, st.YtY⟩

theorem GpuState.swap_swap (st : GpuState f R) : st.swap.swap = st := rfl

theorem GpuCoherent.swap {env : GpuModelEnv f R} {st : GpuState f R} (h : GpuCoherent env st) :
    GpuCoherent env st.swap := ⟨h.itemNorms, h.userNorms, h.XtX, h.YtY⟩

theorem gpuItemNorms_swap (env : GpuModelEnv f R) (st : GpuState f R) :
    gpuItemNorms env st = (gpuUserNorms env st.swap).swap := by
  cases st with
  | mk a b c d e g h i j => cases g <;> rfl

theorem gpuXtX_swap (env : GpuModelEnv f R) (st : GpuState f R) :
    gpuXtX env st = ((gpuYtY env st.swap).1, (gpuYtY env st.swap).2.swap) := by
  cases st with
  | mk a b c d e g h i j => cases j <;> rfl

theorem gpuRecalcItem_swap (env : GpuModelEnv f R) (st : GpuState f R) (count cols : Nat) (rows : SpRows R) :
    gpuRecalcItem env st count cols rows =
      ((gpuRecalcUser env st.swap count cols rows).1, (gpuRecalcUser env st.swap count cols rows).2.swap) := by
  unfold gpuRecalcItem gpuRecalcUser
  rw [gpuXtX_swap]
  cases env.kind with
  | bpr => rfl
  | als =>
    simp only
    split <;> rfl

theorem gpuPartialFitItems_swap (env : GpuModelEnv f R) (order : List (Nat × Fin f)) (st : GpuState f R)
    (ids : List Int) (cols : Nat) (rows : SpRows R) :
    gpuPartialFitItems env order st ids cols rows =
      ((gpuPartialFitUsers env order st.swap ids cols rows).1,
        (gpuPartialFitUsers env order st.swap ids cols rows).2.swap) := by
  unfold gpuPartialFitItems gpuPartialFitUsers
  rw [gpuRecalcItem_swap]
  split
  · rfl
  · split
    · rfl
    · rcases gpuRecalcUser env st.swap ids.length cols rows with ⟨r, st'⟩
      cases r with
      | error e => rfl
      | ok xs =>
        simp only
        cases pyMaxInt ids with
        | error e => rfl
        | ok m =>
          rcases st' with ⟨half, user, item, a, b, c, d, e, g⟩
          cases half with
          | true => rfl
          | false =>
            simp only [GpuState.swap, Bool.false_eq_true, if_false]
            cases order.foldlM (gpuAssignCell ids xs) (gpuGrow m user) <;> rfl

/-! ### The getters -/

theorem gpuUserNorms_same (env : GpuModelEnv f R) (st : GpuState f R) : SameGpu st (gpuUserNorms env st) := by
  unfold gpuUserNorms
  cases st.userNorms <;> exact ⟨rfl, rfl, rfl⟩

theorem gpuItemNorms_same (env : GpuModelEnv f R) (st : GpuState f R) : SameGpu st (gpuItemNorms env st) := by
  unfold gpuItemNorms
  cases st.itemNorms <;> exact ⟨rfl, rfl, rfl⟩

theorem gpuYtY_same (env : GpuModelEnv f R) (st : GpuState f R) : SameGpu st (gpuYtY env st).2 := by
  unfold gpuYtY
  cases st.YtY <;> exact ⟨rfl, rfl, rfl⟩

theorem gpuXtX_same (env : GpuModelEnv f R) (st : GpuState f R) : SameGpu st (gpuXtX env st).2 := by
  unfold gpuXtX
  cases st.XtX <;> exact ⟨rfl, rfl, rfl⟩

theorem gpuUserNorms_coherent {env : GpuModelEnv f R} {st : GpuState f R} (h : GpuCoherent env st) :
    GpuCoherent env (gpuUserNorms env st) := by
  unfold gpuUserNorms
  cases hn : st.userNorms with
  | some n => exact h
  | none => exact ⟨fun n e => by cases e; exact ⟨rfl, rfl⟩, h.itemNorms, h.YtY, h.XtX⟩

theorem gpuItemNorms_coherent {env : GpuModelEnv f R} {st : GpuState f R} (h : GpuCoherent env st) :
    GpuCoherent env (gpuItemNorms env st) := by
  rw [gpuItemNorms_swap]
  exact (gpuUserNorms_coherent h.swap).swap

theorem gpuYtY_coherent {env : GpuModelEnv f R} {st : GpuState f R} (h : GpuCoherent env st) :
    GpuCoherent env (gpuYtY env st).2 := by
  unfold gpuYtY
  cases hn : st.YtY with
  | some n => exact h
  | none => exact ⟨h.userNorms, h.itemNorms, fun n e => by cases e; rfl, h.XtX⟩

theorem gpuYtY_fst {env : GpuModelEnv f R} {st : GpuState f R} (h : GpuCoherent env st) :
    (gpuYtY env st).1 = regularised (gram st.item) env.p.regularization := by
  unfold gpuYtY
  cases hn : st.YtY with
  | some n => exact h.YtY n hn
  | none => rfl

theorem gpuXtX_fst {env : GpuModelEnv f R} {st : GpuState f R} (h : GpuCoherent env st) :
    (gpuXtX env st).1 = regularised (gram st.user) env.p.regularization := by
  rw [gpuXtX_swap]
  exact gpuYtY_fst h.swap

theorem gpuUserNorms_eq {env : GpuModelEnv f R} {st : GpuState f R} (h : GpuCoherent env st) :
    (gpuUserNorms env st).userNorms = some (safeNorms env.norm env.eps st.user) ∧
      (gpuUserNorms env st).userNormsHost = some (safeNorms env.norm env.eps st.user) := by
  unfold gpuUserNorms
  cases hn : st.userNorms with
  | some n =>
    obtain ⟨e, e'⟩ := h.userNorms n hn
    exact ⟨by simp only [hn, ← e], by simp only [e', ← e]⟩
  | none => exact ⟨rfl, rfl⟩

theorem gpuItemNorms_eq {env : GpuModelEnv f R} {st : GpuState f R} (h : GpuCoherent env st) :
    (gpuItemNorms env st).itemNorms = some (safeNorms env.norm env.eps st.item) ∧
      (gpuItemNorms env st).itemNormsHost = some (safeNorms env.norm env.eps st.item) := by
  rw [gpuItemNorms_swap]
  exact gpuUserNorms_eq h.swap

/-! ### Recalculation -/

theorem gpuRecalcUser_same (env : GpuModelEnv f R) (st : GpuState f R) (count cols : Nat) (rows : SpRows R) :
    SameGpu st (gpuRecalcUser env st count cols rows).2 := by
  unfold gpuRecalcUser
  cases env.kind with
  | bpr => exact SameGpu.refl st
  | als =>
    simp only
    split
    · exact SameGpu.refl st
    · exact gpuYtY_same env st

theorem gpuRecalcUser_coherent {env : GpuModelEnv f R} {st : GpuState f R} (h : GpuCoherent env st)
    (count cols : Nat) (rows : SpRows R) : GpuCoherent env (gpuRecalcUser env st count cols rows).2 := by
  unfold gpuRecalcUser
  cases env.kind with
  | bpr => exact h
  | als =>
    simp only
    split
    · exact h
    · exact gpuYtY_coherent h

theorem gpuRecalcItem_same (env : GpuModelEnv f R) (st : GpuState f R) (count cols : Nat) (rows : SpRows R) :
    SameGpu st (gpuRecalcItem env st count cols rows).2 := by
  rw [gpuRecalcItem_swap]
  obtain ⟨a, b, c⟩ := gpuRecalcUser_same env st.swap count cols rows
  exact ⟨a, c, b⟩

theorem gpuRecalcItem_coherent {env : GpuModelEnv f R} {st : GpuState f R} (h : GpuCoherent env st)
    (count cols : Nat) (rows : SpRows R) : GpuCoherent env (gpuRecalcItem env st count cols rows).2 := by
  rw [gpuRecalcItem_swap]
  exact (gpuRecalcUser_coherent h.swap count cols rows).swap

/-- What `recalculate_user` computes from coherent caches. -/
theorem gpuRecalcUser_fst {env : GpuModelEnv f R} {st : GpuState f R} (h : GpuCoherent env st)
    (count cols : Nat) (rows : SpRows R) :
    (gpuRecalcUser env st count cols rows).1 =
      match env.kind with
      | .bpr => .error .notImplemented
      | .als => if rows.all List.isEmpty then .error .indexError else
          gpuRecalculateUser env.tol env.p (regularised (gram st.item) env.p.regularization) st.item count cols
            rows := by
  unfold gpuRecalcUser
  cases env.kind with
  | bpr => rfl
  | als =>
    simp only
    split
    · rfl
    · show gpuRecalculateUser _ _ (gpuYtY env st).1 (gpuYtY env st).2.item _ _ _ = _
      rw [gpuYtY_fst h, (gpuYtY_same env st).2.2]

theorem gpuRecalcUser_fresh {env : GpuModelEnv f R} {st st' : GpuState f R} (h : GpuCoherent env st)
    (h' : GpuCoherent env st') (e : st'.item = st.item) (count cols : Nat) (rows : SpRows R) :
    (gpuRecalcUser env st count cols rows).1 = (gpuRecalcUser env st' count cols rows).1 := by
  rw [gpuRecalcUser_fst h, gpuRecalcUser_fst h', e]

theorem gpuRecalcItem_fresh {env : GpuModelEnv f R} {st st' : GpuState f R} (h : GpuCoherent env st)
    (h' : GpuCoherent env st') (e : st'.user = st.user) (count cols : Nat) (rows : SpRows R) :
    (gpuRecalcItem env st count cols rows).1 = (gpuRecalcItem env st' count cols rows).1 := by
  rw [gpuRecalcItem_swap, gpuRecalcItem_swap]
  exact gpuRecalcUser_fresh h.swap h'.swap e count cols rows

/-! ### Queries -/

theorem gpuAsk_same (env : GpuModelEnv f R) (st : GpuState f R) (q : GpuAsk R) :
    SameGpu st (gpuAsk env st q).2 := by
  cases q with
  | recommend ids cols ui N fl fi recalculate items =>
    simp only [gpuAsk]
    split
    · rename_i rows _
      have hs := gpuRecalcUser_same env st ids.count cols rows
      rcases hr : gpuRecalcUser env st ids.count cols rows with ⟨r, st'⟩
      rw [hr] at hs
      cases r <;> exact hs
    · exact SameGpu.refl st
  | similarItems ids N fi items => exact gpuItemNorms_same env st
  | similarUsers ids N fi items => exact gpuUserNorms_same env st
  | similarItemsRecalc ids cols iu N fi items =>
    have hs := gpuItemNorms_same env st
    simp only [gpuAsk]
    split
    · split
      · exact hs
      · have hs' := gpuRecalcItem_same env (gpuItemNorms env st) ids.count cols iu
        rcases hr : gpuRecalcItem env (gpuItemNorms env st) ids.count cols iu with ⟨r, st'⟩
        rw [hr] at hs'
        cases r <;> exact hs.trans hs'
    · exact hs
  | recalculateUser ids cols rows => exact gpuRecalcUser_same env st _ _ _
  | recalculateItem ids cols rows => exact gpuRecalcItem_same env st _ _ _

theorem gpuAsk_coherent {env : GpuModelEnv f R} {st : GpuState f R} (h : GpuCoherent env st) (q : GpuAsk R) :
    GpuCoherent env (gpuAsk env st q).2 := by
  cases q with
  | recommend ids cols ui N fl fi recalculate items =>
    simp only [gpuAsk]
    split
    · rename_i rows _
      have hs := gpuRecalcUser_coherent h ids.count cols rows
      rcases hr : gpuRecalcUser env st ids.count cols rows with ⟨r, st'⟩
      rw [hr] at hs
      cases r <;> exact hs
    · exact h
  | similarItems ids N fi items => exact gpuItemNorms_coherent h
  | similarUsers ids N fi items => exact gpuUserNorms_coherent h
  | similarItemsRecalc ids cols iu N fi items =>
    have hs := gpuItemNorms_coherent h
    simp only [gpuAsk]
    split
    · split
      · exact hs
      · have hs' := gpuRecalcItem_coherent hs ids.count cols iu
        rcases hr : gpuRecalcItem env (gpuItemNorms env st) ids.count cols iu with ⟨r, st'⟩
        rw [hr] at hs'
        cases r <;> exact hs'
    · exact hs
  | recalculateUser ids cols rows => exact gpuRecalcUser_coherent h _ _ _
  | recalculateItem ids cols rows => exact gpuRecalcItem_coherent h _ _ _

/-- Two models with the same factors and coherent caches answer alike. -/
theorem gpuAsk_agree {env : GpuModelEnv f R} {st st' : GpuState f R} (h : GpuCoherent env st)
    (h' : GpuCoherent env st') (hs : SameGpu st st') (q : GpuAsk R) :
    (gpuAsk env st q).1 = (gpuAsk env st' q).1 := by
  obtain ⟨-, hu, hi⟩ := hs
  cases q with
  | recommend ids cols ui N fl fi recalculate items =>
    simp only [gpuAsk]
    split
    · rename_i rows _
      have e := gpuRecalcUser_fresh h h' hi ids.count cols rows
      have s1 := gpuRecalcUser_same env st ids.count cols rows
      have s2 := gpuRecalcUser_same env st' ids.count cols rows
      rcases hr1 : gpuRecalcUser env st ids.count cols rows with ⟨r1, st1⟩
      rcases hr2 : gpuRecalcUser env st' ids.count cols rows with ⟨r2, st2⟩
      rw [hr1, hr2] at e
      rw [hr1] at s1
      rw [hr2] at s2
      have e : r1 = r2 := e
      subst e
      obtain ⟨-, u1, i1⟩ := s1
      obtain ⟨-, u2, i2⟩ := s2
      cases r1 with
      | error e => rfl
      | ok xs =>
        simp only at u1 i1 u2 i2 ⊢
        rw [u1, i1, u2, i2, hu, hi]
    · rw [hu, hi]
  | similarItems ids N fi items =>
    simp only [gpuAsk]
    rw [(gpuItemNorms_eq h).1, (gpuItemNorms_eq h).2, (gpuItemNorms_eq h').1, (gpuItemNorms_eq h').2,
      (gpuItemNorms_same env st).2.2, (gpuItemNorms_same env st').2.2, hi]
  | similarUsers ids N fi items =>
    simp only [gpuAsk]
    rw [(gpuUserNorms_eq h).1, (gpuUserNorms_eq h).2, (gpuUserNorms_eq h').1, (gpuUserNorms_eq h').2,
      (gpuUserNorms_same env st).2.1, (gpuUserNorms_same env st').2.1, hu]
  | similarItemsRecalc ids cols iu N fi items =>
    have c1 := gpuItemNorms_coherent h
    have c2 := gpuItemNorms_coherent h'
    have eu : (gpuItemNorms env st').user = (gpuItemNorms env st).user := by
      rw [(gpuItemNorms_same env st).2.1, (gpuItemNorms_same env st').2.1, hu]
    have e := gpuRecalcItem_fresh c1 c2 eu ids.count cols iu
    simp only [gpuAsk]
    rw [(gpuItemNorms_eq h).1, (gpuItemNorms_eq h).2, (gpuItemNorms_eq h').1, (gpuItemNorms_eq h').2,
      (gpuItemNorms_same env st).2.2, (gpuItemNorms_same env st').2.2, hi]
    simp only
    cases gpuRestrictBoth st.item (safeNorms env.norm env.eps st.item) (safeNorms env.norm env.eps st.item) fi
        items with
    | error e => rfl
    | ok t =>
      simp only
      rcases hr1 : gpuRecalcItem env (gpuItemNorms env st) ids.count cols iu with ⟨r1, st1⟩
      rcases hr2 : gpuRecalcItem env (gpuItemNorms env st') ids.count cols iu with ⟨r2, st2⟩
      rw [hr1, hr2] at e
      have e : r1 = r2 := e
      subst e
      cases r1 <;> rfl
  | recalculateUser ids cols rows =>
    simp only [gpuAsk]
    rw [gpuRecalcUser_fresh h h' hi]
  | recalculateItem ids cols rows =>
    simp only [gpuAsk]
    rw [gpuRecalcItem_fresh h h' hu]

/-! ### `partial_fit` -/

/-- Outcomes of `partial_fit_users`, case by case. -/
theorem gpuPartialFitUsers_cases (env : GpuModelEnv f R) (order : List (Nat × Fin f)) (st : GpuState f R)
    (ids : List Int) (cols : Nat) (rows : SpRows R) :
    (∃ e st', gpuPartialFitUsers env order st ids cols rows = (.error e, st') ∧
      (st' = st ∨ st' = (gpuRecalcUser env st ids.length cols rows).2)) ∨
    (∃ m st', st' = (gpuRecalcUser env st ids.length cols rows).2 ∧ pyMaxInt ids = .ok m ∧ st.half = true ∧
      gpuPartialFitUsers env order st ids cols rows = (.error .runtimeError, { st' with user := gpuGrow m st'.user })) ∨
    (∃ xs m st' out, st' = (gpuRecalcUser env st ids.length cols rows).2 ∧
      (gpuRecalcUser env st ids.length cols rows).1 = .ok xs ∧ pyMaxInt ids = .ok m ∧ st.half = false ∧
      env.kind = .als ∧ ids.length = rows.length ∧
      order.foldlM (gpuAssignCell ids xs) (gpuGrow m st.user) = out ∧
      gpuPartialFitUsers env order st ids cols rows =
        match out with
        | .error e => (.error e, { st' with user := gpuGrow m st'.user })
        | .ok u => (.ok (), { st' with user := u, userNorms := none, userNormsHost := none, XtX := none })) := by
  have hs := gpuRecalcUser_same env st ids.length cols rows
  unfold gpuPartialFitUsers
  by_cases hk : env.kind = .bpr
  · rw [if_pos hk]; exact .inl ⟨_, _, rfl, .inl rfl⟩
  rw [if_neg hk]
  by_cases hl : ids.length ≠ rows.length
  · rw [if_pos hl]; exact .inl ⟨_, _, rfl, .inl rfl⟩
  rw [if_neg hl]
  rcases hr : gpuRecalcUser env st ids.length cols rows with ⟨r, st'⟩
  rw [hr] at hs
  obtain ⟨hh, hu, hi⟩ := hs
  simp only at hh hu hi
  cases r with
  | error e => exact .inl ⟨e, st', rfl, .inr rfl⟩
  | ok xs =>
    simp only
    cases hm : pyMaxInt ids with
    | error e => exact .inl ⟨e, st', rfl, .inr rfl⟩
    | ok m =>
      simp only
      by_cases hhalf : st'.half = true
      · rw [if_pos hhalf]
        exact .inr (.inl ⟨m, st', rfl, rfl, hh ▸ hhalf, rfl⟩)
      · rw [if_neg hhalf]
        refine .inr (.inr ⟨xs, m, st', _, rfl, rfl, rfl, by rw [← hh]; simpa using hhalf, ?_, by simpa using hl,
          rfl, ?_⟩)
        · cases hkind : env.kind with
          | als => rfl
          | bpr => exact absurd hkind hk
        · rw [hu]
          cases order.foldlM (gpuAssignCell ids xs) (gpuGrow m st.user) <;> rfl

end Implicit
