import Verif.Lemmas.Recommend
import Verif.Model.LMF
import Mathlib.Analysis.Real.Sqrt
/-!
# C94 — how far LMF moves the factors, with exact numbers
-/

namespace Implicit

variable {f : Nat}

/-- A component moves by at most the learning rate. -/
theorem lmf_move {eps lr s d x : ℝ} (he : 0 < eps) (hs : 0 ≤ s) : |x + lr / Real.sqrt (eps + (s + d * d)) * d - x| ≤ |lr| := by
  have h1 : |d| ≤ Real.sqrt (eps + (s + d * d)) := Real.abs_le_sqrt (by nlinarith)
  have h2 : 0 < Real.sqrt (eps + (s + d * d)) := Real.sqrt_pos.mpr (by nlinarith [mul_self_nonneg d])
  rw [add_sub_cancel_left, abs_mul, abs_div, abs_of_pos h2, div_mul_eq_mul_div, div_le_iff₀ h2]
  exact mul_le_mul_of_nonneg_left h1 (abs_nonneg lr)

theorem lmfRow_moves (sigm : ℝ → ℝ) {eps lr reg : ℝ} (he : 0 < eps) (pos : List (Vec f ℝ × ℝ)) (neg : List (Vec f ℝ)) (x s : Vec f ℝ)
    (hs : ∀ a, 0 ≤ s a) (a : Fin f) :
    |(lmfRow sigm Real.sqrt eps lr reg pos neg x s).1 a - x a| ≤ |lr| ∧ 0 ≤ (lmfRow sigm Real.sqrt eps lr reg pos neg x s).2 a := by
  unfold lmfRow
  split_ifs
  · simp [hs a]
  · exact ⟨lmf_move he (hs a), add_nonneg (hs a) (mul_self_nonneg _)⟩

theorem lmfUpdate_moves {sigm : ℝ → ℝ} {eps lr reg : ℝ} (he : 0 < eps) {negProp : Int} {C : SpRows ℝ} {Y : List (Vec f ℝ)} {draws : Nat → Nat → Nat}
    {side side' : LmfSide f ℝ} (h : lmfUpdate sigm Real.sqrt eps lr reg negProp C Y draws side = .ok side') (hs : ∀ s ∈ side.sums, ∀ a, 0 ≤ s a) :
    (∀ (i : Nat) x', side'.factors[i]? = some x' → ∃ x, side.factors[i]? = some x ∧ ∀ a, |x' a - x a| ≤ |lr|) ∧
      ∀ s ∈ side'.sums, ∀ a, 0 ≤ s a := by
  unfold lmfUpdate at h
  cases ho : side.factors.zipIdx.mapM fun p => lmfRowAt sigm Real.sqrt eps lr reg negProp C Y draws side.sums p.2 p.1 with
  | error e =>
    rw [ho] at h
    cases h
  | ok out =>
    rw [ho] at h
    cases h
    obtain ⟨hl, hg⟩ := mapM_ok_iff ho
    rw [List.length_zipIdx] at hl
    have key : ∀ (i : Nat) o, out[i]? = some o → ∃ x, side.factors[i]? = some x ∧ ∀ a, |o.1 a - x a| ≤ |lr| ∧ 0 ≤ o.2 a := fun i o hio => by
      obtain ⟨hi, rfl⟩ := List.getElem?_eq_some_iff.mp hio
      have hi' : i < side.factors.length := by omega
      refine ⟨side.factors[i], List.getElem?_eq_getElem hi', ?_⟩
      obtain ⟨o', h1, h2⟩ := hg i (side.factors[i], i) (by rw [List.getElem?_zipIdx, List.getElem?_eq_getElem hi']; simp)
      rw [hio] at h2
      cases h2
      unfold lmfRowAt at h1
      split at h1
      · next row s hrow hsum =>
        dsimp only at h1
        cases hp : rowEntries .undefinedBehaviour Y row with
        | error e =>
          rw [hp] at h1
          cases h1
        | ok pos =>
          rw [hp] at h1
          cases hn : lmfNegRows (lmfIndices C) Y (lmfRowDraws f negProp row.length (draws i)) with
          | error e =>
            simp only [bind, Except.bind, hn] at h1
            cases h1
          | ok neg =>
            simp only [bind, Except.bind, hn] at h1
            have := Except.ok.inj h1
            intro a
            rw [← this]
            exact lmfRow_moves sigm he pos neg _ s (hs s (List.mem_of_getElem? hsum)) a
      · cases h1
    refine ⟨fun i x' hx' => ?_, fun s hsm a => ?_⟩
    · rw [List.getElem?_map] at hx'
      obtain ⟨o, ho', rfl⟩ := Option.map_eq_some_iff.mp hx'
      obtain ⟨x, h1, h2⟩ := key i o ho'
      exact ⟨x, h1, fun a => (h2 a).1⟩
    · rcases List.mem_append.mp hsm with hsm | hsm
      · obtain ⟨o, hom, rfl⟩ := List.mem_map.mp hsm
        obtain ⟨i, hi⟩ := List.mem_iff_getElem?.mp hom
        obtain ⟨x, -, h2⟩ := key i o hi
        exact (h2 a).2
      · exact hs s (List.mem_of_mem_drop hsm) a

/-- Rows that moved by at most `t` in each component but `j`. -/
def MovedBy (j : Fin f) (t : ℝ) (X X' : List (Vec f ℝ)) : Prop :=
  ∀ (i : Nat) x', X'[i]? = some x' → ∃ x, X[i]? = some x ∧ ∀ a, a ≠ j → |x' a - x a| ≤ t

theorem movedBy_column {j : Fin f} {t : ℝ} {X X' : List (Vec f ℝ)}
    (h : ∀ (i : Nat) x', X'[i]? = some x' → ∃ x, X[i]? = some x ∧ ∀ a, |x' a - x a| ≤ t) : MovedBy j t X (setColumn j X') := by
  intro i x' hx'
  unfold setColumn at hx'
  rw [List.getElem?_map] at hx'
  obtain ⟨y, hy, rfl⟩ := Option.map_eq_some_iff.mp hx'
  obtain ⟨x, h1, h2⟩ := h i y hy
  exact ⟨x, h1, fun a ha => by simpa [ha] using h2 a⟩

theorem movedBy_trans {j : Fin f} {t t' : ℝ} {X X' X'' : List (Vec f ℝ)} (h : MovedBy j t X X') (h' : MovedBy j t' X' X'') :
    MovedBy j (t + t') X X'' := by
  intro i x'' hx''
  obtain ⟨x', h1, h2⟩ := h' i x'' hx''
  obtain ⟨x, h3, h4⟩ := h i x' h1
  refine ⟨x, h3, fun a ha => ?_⟩
  have := abs_sub_le (x'' a) (x' a) (x a)
  linarith [h2 a ha, h4 a ha]

theorem lmfEpochs_moved {factors : Nat} {sigm : ℝ → ℝ} {eps lr reg : ℝ} (he : 0 < eps) {negProp : Int} {C Ct : SpRows ℝ} :
    ∀ {draws : List LmfDraws} {st st' : LmfState (factors + 2) ℝ}, lmfEpochs sigm Real.sqrt eps lr reg negProp C Ct draws st = .ok st' →
      (∀ s ∈ st.user.sums, ∀ a, 0 ≤ s a) → (∀ s ∈ st.item.sums, ∀ a, 0 ≤ s a) →
      MovedBy ⟨factors, by omega⟩ (draws.length * |lr|) st.user.factors st'.user.factors ∧
      MovedBy ⟨factors + 1, by omega⟩ (draws.length * |lr|) st.item.factors st'.item.factors
  | [], st, st', h, _, _ => by
    cases h
    exact ⟨fun i x hx => ⟨x, hx, by simp⟩, fun i x hx => ⟨x, hx, by simp⟩⟩
  | d :: ds, st, st', h, hu, hi => by
    unfold lmfEpochs lmfEpoch at h
    cases h1 : lmfUpdate sigm Real.sqrt eps lr reg negProp C st.item.factors d.user st.user with
    | error e =>
      rw [h1] at h
      cases h
    | ok user =>
      simp only [bind, Except.bind, h1] at h
      cases h2 : lmfUpdate sigm Real.sqrt eps lr reg negProp Ct (setColumn ⟨factors, by omega⟩ user.factors) d.item st.item with
      | error e =>
        rw [h2] at h
        cases h
      | ok item =>
        simp only [h2, pure, Except.pure] at h
        obtain ⟨m1, s1⟩ := lmfUpdate_moves he h1 hu
        obtain ⟨m2, s2⟩ := lmfUpdate_moves he h2 hi
        obtain ⟨r1, r2⟩ := lmfEpochs_moved he h s1 s2
        have e : ((d :: ds).length : ℝ) * |lr| = |lr| + ds.length * |lr| := by
          rw [List.length_cons]
          push_cast
          ring
        rw [e]
        exact ⟨movedBy_trans (movedBy_column m1) r1, movedBy_trans (movedBy_column m2) r2⟩

/-- **With exact numbers no factor moves by more than the learning rate per epoch**, whatever the data, the regularisation, the weights and the
logistic function are; columns `-2` of the users and `-1` of the items are set to one. -/
theorem C94_exact {factors : Nat} {sigm : ℝ → ℝ} {eps lr reg : ℝ} (he : 0 < eps) {negProp : Int} {cols : Nat} {C : SpRows ℝ}
    {randItem randUser : Nat → Vec (factors + 2) ℝ} {X Y : List (Vec (factors + 2) ℝ)} {draws : List LmfDraws} {st : LmfState (factors + 2) ℝ}
    (h : lmfFit sigm Real.sqrt eps lr reg negProp cols C randItem randUser (some Y) (some X) draws = .ok st) :
    (∀ (u : Nat) x', st.user.factors[u]? = some x' → ∃ x, X[u]? = some x ∧
      ∀ a, a ≠ ⟨factors, by omega⟩ → |x' a - x a| ≤ draws.length * |lr|) ∧
    ∀ (i : Nat) y', st.item.factors[i]? = some y' → ∃ y, Y[i]? = some y ∧
      ∀ a, a ≠ ⟨factors + 1, by omega⟩ → |y' a - y a| ≤ draws.length * |lr| := by
  unfold lmfFit at h
  exact lmfEpochs_moved he h (fun s hs a => by rw [List.eq_of_mem_replicate hs]) fun s hs a => by rw [List.eq_of_mem_replicate hs]

end Implicit
