import Verif.Lemmas.RoundCG
import Verif.Model.RoundLoss
import Verif.Spec.LossError

set_option linter.unusedSectionVars false

namespace Implicit

variable {f : Nat}

theorem Near.widen {G A B c s : ℝ} (h : Near G A c s) (hAB : A ≤ B) : Near G B c s :=
  ⟨h.1, h.2.1.trans (mul_le_mul_of_nonneg_left hAB (by linarith [h.1])), h.2.2.trans hAB⟩

section
variable {A : FloatOps ℝ} {P : BlasProducts f} {u : ℝ}

theorem near_negOne (hA : A.Accurate u) : Near ((1 + u) ^ 1) 1 A.negOne (-1) := by
  have := near_sub hA (near_self 0 u) (near_self 1 u) (m := 1) (by omega) (by omega)
  rw [abs_zero, abs_one, zero_add, zero_sub] at this
  unfold FloatOps.negOne
  rw [hA.zero, hA.one]
  exact this

theorem near_roundConfidence (hA : A.Accurate u) (c : ℝ) : Near ((1 + u) ^ 2) |c| (roundConfidence A c) (conf c) := by
  unfold roundConfidence conf
  rw [hA.zero]
  by_cases hc : 0 < c
  · rw [if_pos ((hA.lt _ _).mpr hc), if_pos hc]
    exact (near_self c u).mono (growth_mono hA.nonneg (by omega))
  · rw [if_neg (fun h => hc ((hA.lt _ _).mp h)), if_neg hc]
    have := near_mul hA (near_negOne hA) (near_self c u) (m := 2) (by omega)
    rwa [one_mul, neg_one_mul] at this

theorem near_dot_of (hu : 0 ≤ u) (hP : P.Accurate u) {k : Nat} {M v w : Vec f ℝ} (h : ∀ a, Near ((1 + u) ^ k) (M a) (v a) (w a)) (x : Vec f ℝ) :
    Near ((1 + u) ^ (k + (f + 1))) (dot M fun a => |x a|) (P.dot v x) (dot w x) := by
  have h0 : 0 ≤ (1 + u) ^ (f + 1) - 1 := by linarith [one_le_growth hu (f + 1)]
  have h1 : ∑ b, |v b| * |x b| ≤ (1 + u) ^ k * dot M fun a => |x a| := by
    unfold dot
    rw [Finset.mul_sum]
    refine Finset.sum_le_sum fun b _ => ?_
    rw [← mul_assoc]
    exact mul_le_mul_of_nonneg_right (h b).abs_le (abs_nonneg _)
  have h2 : |dot v x - dot w x| ≤ ((1 + u) ^ k - 1) * dot M fun a => |x a| := by
    unfold dot
    rw [← Finset.sum_sub_distrib, Finset.mul_sum]
    refine (Finset.abs_sum_le_sum_abs _ _).trans (Finset.sum_le_sum fun b _ => ?_)
    rw [← sub_mul, abs_mul, ← mul_assoc]
    exact mul_le_mul_of_nonneg_right (h b).2.1 (abs_nonneg _)
  refine ⟨one_le_growth hu _, ?_, ?_⟩
  · have e := abs_add_le (P.dot v x - dot v x) (dot v x - dot w x)
    rw [sub_add_sub_cancel] at e
    have h3 := (hP.dot v x).trans (mul_le_mul_of_nonneg_left h1 h0)
    rw [pow_add]
    linarith
  · unfold dot
    refine (Finset.abs_sum_le_sum_abs _ _).trans (Finset.sum_le_sum fun b _ => ?_)
    rw [abs_mul]
    exact mul_le_mul_of_nonneg_right (h b).2.2 (abs_nonneg _)

theorem near_lossFold (hA : A.Accurate u) (hP : P.Accurate u) (x : Vec f ℝ) (es : List (Vec f ℝ × ℝ)) {k : Nat} (hk : f + 7 ≤ k)
    {M v w : Vec f ℝ} (h : ∀ a, Near ((1 + u) ^ k) (M a) (v a) (w a)) (a : Fin f) :
    Near ((1 + u) ^ (k + es.length))
      (M a + (es.map fun e => (2 * gain e.2 + (|e.2| + 1) * dot (fun b => |e.1 b|) (fun b => |x b|)) * |e.1 a|).sum)
      (es.foldl (fun r e =>
        if A.lt A.zero e.2 then A.axpyVec (A.axpy (A.sub e.2 A.one) (P.dot e.1 x) (A.mul (-2) e.2)) e.1 r
        else A.axpyVec (A.axpy (A.sub (A.mul A.negOne e.2) A.one) (P.dot e.1 x) A.zero) e.1 r) v a)
      (w a + (es.map fun e => (-2 * gain e.2 + (conf e.2 - 1) * dot e.1 x) * e.1 a).sum) := by
  induction es generalizing k M v w with
  | nil => simpa using h a
  | cons e es ih =>
    have hstep : ∀ a, Near ((1 + u) ^ (k + 1)) (M a + (2 * gain e.2 + (|e.2| + 1) * dot (fun b => |e.1 b|) (fun b => |x b|)) * |e.1 a|)
        ((if A.lt A.zero e.2 then A.axpyVec (A.axpy (A.sub e.2 A.one) (P.dot e.1 x) (A.mul (-2) e.2)) e.1 v
          else A.axpyVec (A.axpy (A.sub (A.mul A.negOne e.2) A.one) (P.dot e.1 x) A.zero) e.1 v) a)
        (w a + (-2 * gain e.2 + (conf e.2 - 1) * dot e.1 x) * e.1 a) := by
      intro a
      rw [hA.zero]
      by_cases hp : 0 < e.2
      · rw [if_pos ((hA.lt _ _).mpr hp)]
        have h1 := near_mul hA (near_self (-2) u) (near_self e.2 u) (m := 1) (by omega)
        have h2 := near_axpy hA (near_conf_pos hA e.2 hp) (near_blasDot hA.nonneg hP e.1 x) h1 (m := f + 6) (by omega) (by omega)
        have h3 := near_axpy hA h2 (near_self (e.1 a) u) (h a) (m := k + 1) (by omega) (by omega)
        have hg : gain e.2 = e.2 := if_pos hp
        rw [hg]
        rw [abs_neg, abs_two] at h3
        nth_rw 1 [abs_of_pos hp] at h3
        exact h3
      · rw [if_neg (fun hc => hp ((hA.lt _ _).mp hc))]
        have h2 := near_axpy hA (near_conf hA e.2 hp) (near_blasDot hA.nonneg hP e.1 x) (near_self 0 u) (m := f + 6) (by omega) (by omega)
        have h3 := near_axpy hA h2 (near_self (e.1 a) u) (h a) (m := k + 1) (by omega) (by omega)
        have hg : gain e.2 = 0 := if_neg hp
        rw [hg, mul_zero, mul_zero]
        rw [abs_zero] at h3
        exact h3
    have := ih (k := k + 1) (by omega) hstep
    simp only [List.map_cons, List.sum_cons, List.foldl_cons, List.length_cons, ← add_assoc] at this ⊢
    rw [show k + es.length + 1 = k + 1 + es.length by omega]
    exact this

theorem near_gramLower (r : Rounding ℝ) (hr : r.u = u) (h0 : r.η = 0) (Y : List (Vec f ℝ)) (order : Fin f → Fin f → SumTree Y.length)
    (ho : ∀ a b, (order a b).Complete) (a b : Fin f) :
    Near ((1 + u) ^ Y.length) (sizeMat Y 0 a b) (lowerPart (roundGram r Y order) a b) (gram Y a b) := by
  have hs : ∀ a b, sizeMat Y 0 a b = (Y.map fun y => |y a| * |y b|).sum := fun a b => by
    unfold sizeMat
    rw [abs_zero, zero_mul, add_zero]
  unfold lowerPart
  rw [hs]
  split_ifs
  · have := near_gram r h0 Y order ho a b
    rwa [hr] at this
  · have := near_gram r h0 Y order ho b a
    rw [hr] at this
    rw [show gram Y a b = gram Y b a from gram_symm Y a b]
    have e : (Y.map fun y => |y a| * |y b|) = Y.map fun y => |y b| * |y a| := List.map_congr_left fun y _ => mul_comm _ _
    rw [e]
    exact this

/-- The vector that `lossRow` multiplies with the factor. -/
noncomputable def lossVector (Y : List (Vec f ℝ)) (es : List (Vec f ℝ × ℝ)) (x : Vec f ℝ) : Vec f ℝ :=
  fun a => mulVec (gram Y) x a + (es.map fun e => (-2 * gain e.2 + (conf e.2 - 1) * dot e.1 x) * e.1 a).sum

/-- The size of the vector of a row. -/
theorem lossVector_size (Y : List (Vec f ℝ)) (es : List (Vec f ℝ × ℝ)) (x : Vec f ℝ) :
    dot (fun a => mulVec (sizeMat Y 0) (fun b => |x b|) a +
      (es.map fun e => (2 * gain e.2 + (|e.2| + 1) * dot (fun b => |e.1 b|) (fun b => |x b|)) * |e.1 a|).sum) (fun a => |x a|) ≤
    (traceSize Y 0 es * Spec.length x + 2 * (es.map fun e => gain e.2 * Spec.length e.1).sum) * Spec.length x := by
  have hM : (fun a => mulVec (sizeMat Y 0) (fun b => |x b|) a +
      (es.map fun e => (2 * gain e.2 + (|e.2| + 1) * dot (fun b => |e.1 b|) (fun b => |x b|)) * |e.1 a|).sum) =
      mulVec (rowSize Y 0 es) (fun b => |x b|) + fun a => 2 * (es.map fun e => gain e.2 * |e.1 a|).sum := by
    funext a
    have h4 := congrFun (mulVec_rowSize Y 0 es (fun b => |x b|)) a
    have h5 := congrFun (mulVec_rowSize Y 0 [] (fun b => |x b|)) a
    have h6 : rowSize Y 0 [] = sizeMat Y 0 := by
      funext a b
      unfold rowSize
      simp
    rw [h6] at h5
    have h7 : (es.map fun e => (2 * gain e.2 + (|e.2| + 1) * dot (fun b => |e.1 b|) (fun b => |x b|)) * |e.1 a|).sum =
        2 * (es.map fun e => gain e.2 * |e.1 a|).sum +
          (es.map fun e => (|e.2| + 1) * dot (fun b => |e.1 b|) (fun b => |x b|) * |e.1 a|).sum := by
      rw [← List.sum_map_mul_left, ← List.sum_map_add]
      congr 1
      exact List.map_congr_left fun e _ => by ring
    rw [Pi.add_apply, h4, h5, h7]
    simp only [List.map_nil, List.sum_nil, Pi.add_apply]
    ring
  rw [hM]
  refine ((le_abs_self _).trans (abs_dot_le_length _ _)).trans ?_
  rw [length_abs]
  refine mul_le_mul_of_nonneg_right ?_ (length_nonneg _)
  refine (length_add_le _ _).trans (add_le_add ?_ ?_)
  · have := length_mulVec_rowSize Y le_rfl es (fun b => |x b|)
    rwa [length_abs] at this
  · rw [length_smul, abs_two]
    refine mul_le_mul_of_nonneg_left ((length_list_sum_le es fun e a => gain e.2 * |e.1 a|).trans (le_of_eq ?_)) zero_le_two
    congr 1
    refine List.map_congr_left fun e _ => ?_
    rw [length_smul, length_abs, abs_of_nonneg]
    unfold gain
    split_ifs with h
    · exact h.le
    · exact le_rfl

theorem near_lossProduct (hA : A.Accurate u) (hP : P.Accurate u) (r : Rounding ℝ) (hr : r.u = u) (h0 : r.η = 0) (Y : List (Vec f ℝ))
    (order : Fin f → Fin f → SumTree Y.length) (ho : ∀ a b, (order a b).Complete) (es : List (Vec f ℝ × ℝ)) (x : Vec f ℝ) :
    Near ((1 + u) ^ (Y.length + es.length + 2 * f + 8))
      ((traceSize Y 0 es * Spec.length x + 2 * (es.map fun e => gain e.2 * Spec.length e.1).sum) * Spec.length x)
      (P.dot (roundLossVector A P (roundGram r Y order) es x) x) (dot (lossVector Y es x) x) := by
  have h1 := fun a => near_lossFold hA hP x es (k := Y.length + f + 7) (by omega)
    (fun a => (near_matVec hA.nonneg (near_gramLower r hr h0 Y order ho) x _ (hP.symv (roundGram r Y order) x) a).mono
      (growth_mono hA.nonneg (show _ ≤ Y.length + f + 7 by omega))) a
  have h2 := near_dot_of hA.nonneg hP h1 x
  have h3 := h2.mono (growth_mono hA.nonneg (show _ ≤ Y.length + es.length + 2 * f + 8 by omega))
  exact h3.widen (lossVector_size Y es x)

theorem near_square (hA : A.Accurate u) (hP : P.Accurate u) (x : Vec f ℝ) :
    Near ((1 + u) ^ (f + 1)) (Spec.length x ^ 2) (P.dot x x) (dot x x) := by
  have := near_blasDot hA.nonneg hP x x
  have e : dot (fun i => |x i|) (fun i => |x i|) = Spec.length x ^ 2 := by
    rw [length_sq_sum]
    exact Finset.sum_congr rfl fun i _ => by rw [← sq, sq_abs]
  rwa [e] at this

end

/-! ## Sums over threads -/

section
variable {D : FloatOps ℝ} {v : ℝ}

theorem near_add_scaled (hD : D.Accurate v) {G : ℝ} (hG : 1 ≤ G) {k l m : Nat} {M N c d s t : ℝ} (h : Near (G * (1 + v) ^ k) M c s)
    (h' : Near (G * (1 + v) ^ l) N d t) (hk : k + 1 ≤ m) (hl : l + 1 ≤ m) : Near (G * (1 + v) ^ m) (M + N) (D.add c d) (s + t) := by
  obtain ⟨m, rfl⟩ : ∃ m', m = m' + 1 := ⟨m - 1, by omega⟩
  have hm : ∀ k ≤ m, G * (1 + v) ^ k ≤ G * (1 + v) ^ m := fun k hk =>
    mul_le_mul_of_nonneg_left (growth_mono hD.nonneg hk) (by linarith)
  rw [pow_succ, ← mul_assoc]
  exact ((h.mono (hm k (by omega))).add (h'.mono (hm l (by omega)))).round hD.nonneg (hD.add _ _)

theorem near_axpy_scaled (hD : D.Accurate v) {G : ℝ} (hG : 1 ≤ G) {k l m : Nat} {M N c d s t reg : ℝ} (hreg : 0 ≤ reg)
    (h : Near (G * (1 + v) ^ k) M c s) (h' : Near (G * (1 + v) ^ l) N d t) (hk : k + 1 ≤ m) (hl : l + 2 ≤ m) :
    Near (G * (1 + v) ^ m) (M + reg * N) (D.axpy reg d c) (s + reg * t) := by
  obtain ⟨m, rfl⟩ : ∃ m', m = m' + 1 := ⟨m - 1, by omega⟩
  have hm : ∀ k ≤ m, G * (1 + v) ^ k ≤ G * (1 + v) ^ m := fun k hk =>
    mul_le_mul_of_nonneg_left (growth_mono hD.nonneg hk) (by linarith)
  obtain ⟨p, hp, ha⟩ := hD.axpy reg d c
  have h2 := ((near_self reg v).mul h').round hD.nonneg hp
  rw [pow_zero, one_mul, mul_assoc, ← pow_succ, abs_of_nonneg hreg] at h2
  have h3 := ((h.mono (hm k (by omega))).add (h2.mono (hm _ (by omega)))).round hD.nonneg ha
  rw [mul_assoc, ← pow_succ] at h3
  exact h3

theorem near_sub_scaled (hD : D.Accurate v) {G : ℝ} (hG : 1 ≤ G) {k l m : Nat} {M N c d s t : ℝ} (h : Near (G * (1 + v) ^ k) M c s)
    (h' : Near (G * (1 + v) ^ l) N d t) (hk : k + 1 ≤ m) (hl : l + 1 ≤ m) : Near (G * (1 + v) ^ m) (M + N) (D.sub c d) (s - t) := by
  obtain ⟨m, rfl⟩ : ∃ m', m = m' + 1 := ⟨m - 1, by omega⟩
  have hm : ∀ k ≤ m, G * (1 + v) ^ k ≤ G * (1 + v) ^ m := fun k hk =>
    mul_le_mul_of_nonneg_left (growth_mono hD.nonneg hk) (by linarith)
  have h3 := (h.mono (hm k (by omega))).add (h'.mono (hm l (by omega))).neg
  rw [← sub_eq_add_neg, ← sub_eq_add_neg] at h3
  rw [pow_succ, ← mul_assoc]
  exact h3.round hD.nonneg (hD.sub _ _)

/-- What is computed, what is meant, and its size. -/
structure Term where
  computed : ℝ
  meant : ℝ
  size : ℝ

theorem near_foldTerms (hD : D.Accurate v) {G : ℝ} (hG : 1 ≤ G) (T : List Term) (hT : ∀ t ∈ T, Near G t.size t.computed t.meant) {k : Nat}
    {M c s : ℝ} (h : Near (G * (1 + v) ^ k) M c s) :
    Near (G * (1 + v) ^ (k + T.length)) (M + (T.map Term.size).sum) ((T.map Term.computed).foldl D.add c) (s + (T.map Term.meant).sum) := by
  induction T generalizing k M c s with
  | nil => simpa using h
  | cons t T ih =>
    have h1 : Near (G * (1 + v) ^ 0) t.size t.computed t.meant := by
      rw [pow_zero, mul_one]
      exact hT t (by simp)
    have := ih (fun t ht => hT t (by simp [ht])) (near_add_scaled hD hG h h1 (m := k + 1) le_rfl (by omega))
    simp only [List.map_cons, List.sum_cons, List.foldl_cons, List.length_cons, ← add_assoc] at this ⊢
    rw [show k + T.length + 1 = k + 1 + T.length by omega]
    exact this

theorem near_foldRows (hD : D.Accurate v) {G : ℝ} (hG : 1 ≤ G) (T : Nat → List Term) (rows : List Nat)
    (hT : ∀ i ∈ rows, ∀ t ∈ T i, Near G t.size t.computed t.meant) {k : Nat} {M c s : ℝ} (h : Near (G * (1 + v) ^ k) M c s) :
    Near (G * (1 + v) ^ (k + (rows.map fun i => (T i).length).sum)) (M + (rows.map fun i => ((T i).map Term.size).sum).sum)
      (rows.foldl (fun s i => ((T i).map Term.computed).foldl D.add s) c) (s + (rows.map fun i => ((T i).map Term.meant).sum).sum) := by
  induction rows generalizing k M c s with
  | nil => simpa using h
  | cons i rows ih =>
    have := ih (fun i hi => hT i (by simp [hi])) (near_foldTerms hD hG (T i) (hT i (by simp)) h)
    simp only [List.map_cons, List.sum_cons, List.foldl_cons, ← add_assoc] at this ⊢
    exact this

theorem near_start {G : ℝ} (hG : 1 ≤ G) (hD : D.Accurate v) (k : Nat) : Near (G * (1 + v) ^ k) 0 D.zero 0 := by
  rw [hD.zero]
  refine ⟨?_, by simp, by simp⟩
  nlinarith [one_le_growth hD.nonneg k]

theorem near_foldThreads (hD : D.Accurate v) {G : ℝ} (hG : 1 ≤ G) (T : Nat → List Term) (threads : List (List Nat)) {K : Nat}
    (hT : ∀ rows ∈ threads, ∀ i ∈ rows, ∀ t ∈ T i, Near G t.size t.computed t.meant)
    (hK : ∀ rows ∈ threads, (rows.map fun i => (T i).length).sum ≤ K) {k : Nat} {M c s : ℝ} (h : Near (G * (1 + v) ^ (K + k)) M c s) :
    Near (G * (1 + v) ^ (K + k + threads.length)) (M + (threads.flatten.map fun i => ((T i).map Term.size).sum).sum)
      (threads.foldl (fun s rows => D.add s (rows.foldl (fun s i => ((T i).map Term.computed).foldl D.add s) D.zero)) c)
      (s + (threads.flatten.map fun i => ((T i).map Term.meant).sum).sum) := by
  induction threads generalizing k M c s with
  | nil => simpa using h
  | cons rows threads ih =>
    have h1 := near_foldRows hD hG T rows (hT rows (by simp)) (near_start hG hD 0)
    have := ih (fun rows hr => hT rows (by simp [hr])) (fun rows hr => hK rows (by simp [hr]))
      (near_add_scaled hD hG h h1 (m := K + (k + 1)) (by omega) (by have := hK rows (by simp); omega))
    simp only [List.foldl_cons, List.flatten_cons, List.map_append, List.sum_append, List.length_cons, ← add_assoc, zero_add] at this ⊢
    rw [show K + k + threads.length + 1 = K + k + 1 + threads.length by omega]
    exact this

/-- The sum that threads compute, whatever rows each of them gets. -/
theorem near_threadSum (hD : D.Accurate v) {G : ℝ} (hG : 1 ≤ G) {n : Nat} {threads : List (List Nat)} (hs : Spec.Schedule n threads)
    (T : Nat → List Term) {K t : Nat} (hT : ∀ i < n, ∀ t ∈ T i, Near G t.size t.computed t.meant)
    (hK : ∀ rows ∈ threads, (rows.map fun i => (T i).length).sum ≤ K) (ht : threads.length ≤ t) :
    Near (G * (1 + v) ^ (K + t)) ((List.range n).map fun i => ((T i).map Term.size).sum).sum
      (threadSum D threads fun i => (T i).map Term.computed) ((List.range n).map fun i => ((T i).map Term.meant).sum).sum := by
  have h := near_foldThreads hD hG T threads (fun rows hr i hi => hT i (by
    have : i ∈ threads.flatten := List.mem_flatten.mpr ⟨rows, hr, hi⟩
    exact List.mem_range.mp (hs.mem_iff.mp this))) hK (near_start hG hD (K + 0))
  rw [zero_add, zero_add] at h
  have e := fun g : Nat → ℝ => (hs.map g).sum_eq
  rw [e, e] at h
  exact h.mono (mul_le_mul_of_nonneg_left (growth_mono hD.nonneg (by omega)) (by linarith))

end

/-- The quotient of two sums. -/
theorem quotient_near {g v N' W' n w N W q : ℝ} (hv : 0 ≤ v) (hn : |N' - n| ≤ g * N) (hw : |W' - w| ≤ g * W) (hN : 0 ≤ N) (hW : 0 ≤ W) (hg : 0 ≤ g)
    (hpos : g * W < w) (hq : |q - N' / W'| ≤ v * |N' / W'|) : |q - n / w| ≤ Spec.quotientError g v n w N W := by
  have h1 := abs_le.mp hw
  have hw0 : 0 < w := lt_of_le_of_lt (mul_nonneg hg hW) hpos
  have hW' : w - g * W ≤ W' := by linarith [h1.1]
  have hd : 0 < w - g * W := by linarith
  have hW0 : 0 < W' := by linarith
  have h2 : |N' / W' - n / w| ≤ g * (N + |n / w| * W) / (w - g * W) := by
    have e : N' / W' - n / w = ((N' - n) - n / w * (W' - w)) / W' := by
      field_simp
      ring
    rw [e, abs_div, abs_of_pos hW0, div_le_div_iff₀ hW0 hd]
    have h3 : |N' - n - n / w * (W' - w)| ≤ g * (N + |n / w| * W) := by
      refine (abs_sub _ _).trans ?_
      rw [abs_mul]
      have := mul_le_mul_of_nonneg_left hw (abs_nonneg (n / w))
      linarith
    exact mul_le_mul h3 hW' hd.le (mul_nonneg hg (add_nonneg hN (mul_nonneg (abs_nonneg _) hW)))
  have h4 : |N' / W'| ≤ |N' / W' - n / w| + |n / w| := by simpa using abs_add_le (N' / W' - n / w) (n / w)
  have h5 : |q - n / w| ≤ |q - N' / W'| + |N' / W' - n / w| := by simpa using abs_add_le (q - N' / W') (N' / W' - n / w)
  have h6 := mul_le_mul_of_nonneg_left h4 hv
  have h7 := mul_le_mul_of_nonneg_left h2 hv
  unfold Spec.quotientError
  linarith

end Implicit
