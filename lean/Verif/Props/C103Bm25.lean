import Verif.Model.ExtendedBm25
import Verif.Props.C103Tfidf
/-!
# C103 for BM25 weights
-/

namespace Implicit

variable {v : ℝ} {L : LogLibrary v} {s r : Rounding ℝ}

/-- The float `e` is finite, equal to `c`, and `c` is `y` up to `j` roundings of `s` and `k` of `r`. -/
structure Finite (s r : Rounding ℝ) (j k : Nat) (e : Ext ℝ) (c y : ℝ) : Prop where
  eq : e = .fin c
  upTo : UpTo (s.factor ^ j * r.factor ^ k) c y

theorem UpTo.fits {G c y Ω : ℝ} (h : UpTo G c y) (hb : G * y ≤ Ω) : |c| ≤ Ω := by
  rw [abs_of_nonneg h.nonneg']
  exact h.upper.trans hb

/-- The roundings of the two precisions, up to `N` and 4 in one value. -/
structure Precise (s r : Rounding ℝ) (N : Nat) : Prop where
  s0 : s.η = 0
  s1 : s.u < 1
  r0 : r.η = 0
  r1 : r.u < 1
  pow : s.factor ^ N ≤ 2
  four : r.factor ^ 4 ≤ 2

namespace Finite

variable {N j k j' k' : Nat} {e e' : Ext ℝ} {c c' y y' Ω : ℝ}

theorem bound (P : Precise s r N) (hj : j ≤ N) (hk : k ≤ 4) : s.factor ^ j * r.factor ^ k ≤ 4 := by
  have h1 := one_le_factor s P.s1
  have h2 := one_le_factor r P.r1
  have h3 := (pow_le_pow_right₀ h1 hj).trans P.pow
  have h4 := (pow_le_pow_right₀ h2 hk).trans P.four
  calc s.factor ^ j * r.factor ^ k ≤ 2 * 2 := mul_le_mul h3 h4 (by positivity) (by norm_num)
    _ = 4 := by norm_num

theorem mono (P : Precise s r N) (h : Finite s r j k e c y) (hj : j ≤ j') (hk : k ≤ k') : Finite s r j' k' e c y :=
  ⟨h.eq, h.upTo.mono (mul_le_mul (pow_le_pow_right₀ (one_le_factor s P.s1) hj) (pow_le_pow_right₀ (one_le_factor r P.r1) hk)
    (pow_nonneg (by linarith [one_le_factor r P.r1]) _) (pow_nonneg (by linarith [one_le_factor s P.s1]) _))⟩

theorem self (hy : 0 ≤ y) : Finite s r 0 0 (.fin y) y y := ⟨rfl, by simpa using UpTo.self hy⟩

theorem upTo_s (P : Precise s r N) (h : UpTo (s.factor ^ j * r.factor ^ k) c y) : UpTo (s.factor ^ (j + 1) * r.factor ^ k) (s.rnd c) y := by
  refine (h.round s P.s0 P.s1).mono (le_of_eq ?_)
  rw [show 1 / (1 - s.u) = s.factor from rfl, pow_succ]
  ring

theorem upTo_r (P : Precise s r N) (h : UpTo (s.factor ^ j * r.factor ^ k) c y) : UpTo (s.factor ^ j * r.factor ^ (k + 1)) (r.rnd c) y := by
  refine (h.round r P.r0 P.r1).mono (le_of_eq ?_)
  rw [show 1 / (1 - r.u) = r.factor from rfl, pow_succ]
  ring

/-- A rounding of `s`. -/
theorem ofExact_s (P : Precise s r N) (h : UpTo (s.factor ^ j * r.factor ^ k) c y) (hj : j + 1 ≤ N) (hk : k ≤ 4) (hb : 4 * y ≤ Ω) :
    Finite s r (j + 1) k (.ofExact s Ω c) (s.rnd c) y := by
  have h1 := upTo_s P h
  exact ⟨ofExact_fin (h1.fits ((mul_le_mul_of_nonneg_right (bound P hj hk) h.nonneg).trans hb)), h1⟩

/-- A rounding of `r`. -/
theorem ofExact_r (P : Precise s r N) (h : UpTo (s.factor ^ j * r.factor ^ k) c y) (hj : j ≤ N) (hk : k + 1 ≤ 4) (hb : 4 * y ≤ Ω) :
    Finite s r j (k + 1) (.ofExact r Ω c) (r.rnd c) y := by
  have h1 := upTo_r P h
  exact ⟨ofExact_fin (h1.fits ((mul_le_mul_of_nonneg_right (bound P hj hk) h.nonneg).trans hb)), h1⟩

theorem convert (P : Precise s r N) (h : Finite s r j k e c y) (hj : j + 1 ≤ N) (hk : k ≤ 4) (hb : 4 * y ≤ Ω) :
    Finite s r (j + 1) k (.convert s Ω e) (s.rnd c) y := by
  rw [h.eq]
  exact ofExact_s P h.upTo hj hk hb

theorem mul (P : Precise s r N) (h : Finite s r j k e c y) (h' : Finite s r j' k' e' c' y') (hj : j + j' + 1 ≤ N) (hk : k + k' ≤ 4)
    (hb : 4 * (y * y') ≤ Ω) : Finite s r (j + j' + 1) (k + k') (.mul s Ω e e') (s.rnd (c * c')) (y * y') := by
  rw [h.eq, h'.eq]
  refine ofExact_s P ((h.upTo.mul h'.upTo).mono (le_of_eq ?_)) hj hk hb
  rw [pow_add, pow_add]
  ring

theorem upTo_div (h : Finite s r j k e c y) (h' : Finite s r j' k' e' c' y') :
    UpTo (s.factor ^ (j + j') * r.factor ^ (k + k')) (c / c') (y / y') := by
  refine (h.upTo.div h'.upTo).mono (le_of_eq ?_)
  rw [pow_add, pow_add]
  ring

theorem div (P : Precise s r N) (h : Finite s r j k e c y) (h' : Finite s r j' k' e' c' y') (hy : 0 < y') (hj : j + j' + 1 ≤ N) (hk : k + k' ≤ 4)
    (hb : 4 * (y / y') ≤ Ω) : Finite s r (j + j' + 1) (k + k') (.div s Ω e e') (s.rnd (c / c')) (y / y') := by
  rw [h.eq, h'.eq]
  have e1 : Ext.div s Ω (.fin c) (.fin c') = .ofExact s Ω (c / c') := if_neg (h'.upTo.pos hy).ne'
  rw [e1]
  exact ofExact_s P (h.upTo_div h') hj hk hb

theorem div_r (P : Precise s r N) (h : Finite s r j k e c y) (h' : Finite s r j' k' e' c' y') (hy : 0 < y') (hj : j + j' ≤ N) (hk : k + k' + 1 ≤ 4)
    (hb : 4 * (y / y') ≤ Ω) : Finite s r (j + j') (k + k' + 1) (.div r Ω e e') (r.rnd (c / c')) (y / y') := by
  rw [h.eq, h'.eq]
  have e1 : Ext.div r Ω (.fin c) (.fin c') = .ofExact r Ω (c / c') := if_neg (h'.upTo.pos hy).ne'
  rw [e1]
  exact ofExact_r P (h.upTo_div h') hj hk hb

theorem add (P : Precise s r N) (h : Finite s r j k e c y) (h' : Finite s r j k e' c' y') (hj : j + 1 ≤ N) (hk : k ≤ 4)
    (hb : 4 * (y + y') ≤ Ω) : Finite s r (j + 1) k (.add s Ω e e') (s.rnd (c + c')) (y + y') := by
  rw [h.eq, h'.eq]
  exact ofExact_s P (h.upTo.add h'.upTo) hj hk hb

end Finite

/-- The ratings of one item, one by one. -/
def itemRatings (X : Coo) (i : Nat) : List ℝ := (X.entries.filter fun e => e.1 == i).map fun e => e.2.2

theorem itemRatings_eq (X : Coo) (i : Nat) : ((X.entries.map fun e => (e.1, e.2.2)).filter fun e => e.1 == i).map Prod.snd = itemRatings X i := by
  unfold itemRatings
  rw [List.filter_map, List.map_map]
  rfl

theorem rowSum_eq (X : Coo) (i : Nat) : rowSum X i = (itemRatings X i).sum := by
  unfold rowSum bincountW
  rw [itemRatings_eq]

variable {X : Coo} {m : Nat} {N : Nat}

theorem itemRatings_pos (hx : ∀ e ∈ X.entries, 0 < e.2.2) (i : Nat) : ∀ x ∈ itemRatings X i, 0 < x := by
  intro x hx1
  obtain ⟨e, he, rfl⟩ := List.mem_map.mp hx1
  exact hx e (List.mem_filter.mp he).1

theorem rowSum_upper {b : ℝ} (hb : 0 ≤ b) (hx : ∀ e ∈ X.entries, 0 < e.2.2 ∧ e.2.2 ≤ b)
    (hm : ∀ i, (X.entries.filter fun e => e.1 = i).length ≤ m) (i : Nat) : rowSum X i ≤ m * b := by
  rw [rowSum_eq]
  have h1 := List.sum_le_card_nsmul (itemRatings X i) b (by
    intro x hx1
    obtain ⟨e, he, rfl⟩ := List.mem_map.mp hx1
    exact (hx e (List.mem_filter.mp he).1).2)
  rw [nsmul_eq_mul] at h1
  refine h1.trans (mul_le_mul_of_nonneg_right ?_ hb)
  have h2 : (itemRatings X i).length = (X.entries.filter fun e => e.1 = i).length := by
    unfold itemRatings
    rw [List.length_map]
    rfl
  rw [h2]
  exact_mod_cast hm i

/-- `row_sums` in range. -/
theorem rowSum_finite (P : Precise s r N) (hmN : m ≤ N) {Ωs : ℝ} (hx : ∀ e ∈ X.entries, 0 < e.2.2)
    (hm : ∀ i, (X.entries.filter fun e => e.1 = i).length ≤ m) (i : Nat) (hb : 4 * rowSum X i ≤ Ωs) :
    Finite s r m 0 (extRowSum s Ωs X i) (roundRowSum s X i) (rowSum X i) := by
  refine ⟨?_, by rw [pow_zero, mul_one]; exact upTo_rowSum s P.s0 P.s1 hx i (hm i)⟩
  have e1 : ((X.entries.filter fun e => e.1 == i).map fun e => Ext.fin e.2.2) = (itemRatings X i).map Ext.fin := by
    unfold itemRatings
    rw [List.map_map]
    rfl
  unfold extRowSum roundRowSum roundBincount
  rw [e1, itemRatings_eq]
  refine foldl_fin _ 0 ?_
  unfold Room
  rw [P.s0, mul_zero, add_zero, abs_zero, zero_add]
  have e2 : (itemRatings X i).map abs = itemRatings X i := by
    conv_rhs => rw [← List.map_id (itemRatings X i)]
    exact List.map_congr_left fun x h => abs_of_pos (itemRatings_pos hx i x h)
  rw [e2, ← rowSum_eq]
  have h1 : (itemRatings X i).length ≤ N := by
    refine le_trans ?_ ((hm i).trans hmN)
    unfold itemRatings
    rw [List.length_map]
    exact le_of_eq rfl
  have h2 : 1 + s.u ≤ s.factor := by
    unfold Rounding.factor
    rw [le_div_iff₀ (by linarith [P.s1])]
    nlinarith [s.u_nonneg]
  have h3 : (1 + s.u) ^ (itemRatings X i).length ≤ 2 :=
    (pow_le_pow_left₀ (by linarith [s.u_nonneg]) h2 _).trans ((pow_le_pow_right₀ (one_le_factor s P.s1) h1).trans P.pow)
  have h4 := rowSum_nonneg (fun e he => (hx e he).le) i
  have h5 := mul_le_mul_of_nonneg_right h3 h4
  linarith

/-- A sum in range, in any order. -/
theorem tree_finite {f : Nat} (h0 : s.η = 0) (hu : s.u < 1) {G T Ω : ℝ} (hG : 1 ≤ G) {x : Fin f → Ext ℝ} {c y : Vec f ℝ}
    (hx : ∀ i, x i = .fin (c i)) (hc : ∀ i, UpTo G (c i) (y i)) {N : Nat} (hb : G * s.factor ^ N * T ≤ Ω) (t : SumTree f)
    (hl : t.leaves.length ≤ N) (ht : (t.leaves.map y).sum ≤ T) : t.extSum s Ω x = .fin (t.eval s c fun _ => 1) := by
  have hfit : ∀ t : SumTree f, t.leaves.length ≤ N → (t.leaves.map y).sum ≤ T → |t.eval s c fun _ => 1| ≤ Ω := by
    intro t hl ht
    have h1 := upTo_tree s h0 hu hG (x := c) (y := fun _ => 1) (z := y) (fun i => by rw [mul_one]; exact hc i) t
    refine h1.fits (le_trans ?_ hb)
    have h2 : G * s.factor ^ t.leaves.length ≤ G * s.factor ^ N :=
      mul_le_mul_of_nonneg_left (pow_le_pow_right₀ (one_le_factor s hu) hl) (by linarith)
    exact mul_le_mul h2 ht h1.nonneg (by linarith [h1.one])
  have hy : ∀ l : List (Fin f), 0 ≤ (l.map y).sum := fun l => List.sum_nonneg (by
    intro z hz
    obtain ⟨i, -, rfl⟩ := List.mem_map.mp hz
    exact (hc i).nonneg)
  induction t with
  | leaf i =>
    have h := hfit _ hl ht
    unfold SumTree.extSum SumTree.eval
    unfold SumTree.eval at h
    rw [hx, mul_one]
    rw [mul_one] at h
    exact ofExact_fin h
  | add l m ihl ihm =>
    have h := hfit _ hl ht
    unfold SumTree.eval at h
    simp only [SumTree.leaves, List.length_append, List.map_append, List.sum_append] at hl ht
    unfold SumTree.extSum SumTree.eval
    rw [ihl (by omega) (by linarith [hy m.leaves]), ihm (by omega) (by linarith [hy l.leaves])]
    exact ofExact_fin h
  | fma i t ih =>
    have h := hfit _ hl ht
    unfold SumTree.eval at h
    simp only [SumTree.leaves, List.length_cons, List.map_cons, List.sum_cons] at hl ht
    unfold SumTree.extSum SumTree.eval
    rw [hx, ih (by omega) (by linarith [(hc i).nonneg]), mul_one]
    rw [mul_one] at h
    exact ofExact_fin h

/-- The parts of a BM25 weight in range: ratings up to `10^15`, `K1` up to `10^6`, up to `10^9` ratings per item. -/
theorem bm25_finite (P : Precise s r (2 * m + X.nrows + 11)) {Ωs Ω : ℝ} (hΩs : 10 ^ 37 ≤ Ωs) (hΩ : 10 ^ 50 ≤ Ω) {K1 B : ℝ} (hK : 0 ≤ K1) (hK' : K1 ≤ 10 ^ 6)
    (hB0 : 0 ≤ B) (hB1 : B ≤ 1) (hx : ∀ e ∈ X.entries, 0 < e.2.2 ∧ e.2.2 ≤ 10 ^ 15) (hm : ∀ i, (X.entries.filter fun e => e.1 = i).length ≤ m)
    (hm' : m ≤ 10 ^ 9) (hnr : X.nrows ≤ 2 ^ 31) (t : SumTree X.nrows) (ht : t.Complete) {e : Nat × Nat × ℝ} (he : e ∈ X.entries) (hi : e.1 < X.nrows) :
    Finite s r (2 * m + X.nrows + 11) 3
      (.div s Ωs (.mul s Ωs (.fin e.2.2) (.convert s Ωs (.ofExact r Ω (K1 + 1))))
        (.add s Ωs (.mul s Ωs (.ofExact s Ωs K1) (extLengthNorm s r Ωs Ω B X t e.1)) (.fin e.2.2)))
      (s.rnd (s.rnd (e.2.2 * s.rnd (r.rnd (K1 + 1))) / s.rnd (s.rnd (s.rnd K1 * roundLengthNorm s r B X t e.1) + e.2.2)))
      (e.2.2 * (K1 + 1) / (K1 * lengthNorm B X e.1 + e.2.2)) ∧ e.2.2 * (K1 + 1) / (K1 * lengthNorm B X e.1 + e.2.2) ≤ 10 ^ 7 := by
  have hx0 : ∀ e ∈ X.entries, 0 < e.2.2 := fun e he => (hx e he).1
  have hx0' : ∀ e ∈ X.entries, 0 ≤ e.2.2 := fun e he => (hx e he).1.le
  obtain ⟨hxp, hxb⟩ := hx e he
  have hnr' : (X.nrows : ℝ) ≤ 2 ^ 31 := by exact_mod_cast hnr
  have hn0 : (1 : ℝ) ≤ X.nrows := by exact_mod_cast (by omega : 1 ≤ X.nrows)
  have hm'' : (m : ℝ) ≤ 10 ^ 9 := by exact_mod_cast hm'
  have hR : ∀ i, rowSum X i ≤ 10 ^ 24 := fun i => (rowSum_upper (by norm_num) hx hm i).trans (by
    calc (m : ℝ) * 10 ^ 15 ≤ 10 ^ 9 * 10 ^ 15 := mul_le_mul_of_nonneg_right hm'' (by norm_num)
      _ = 10 ^ 24 := by norm_num)
  have hR0 : ∀ i, 0 ≤ rowSum X i := rowSum_nonneg hx0'
  -- the sum of the row sums
  have hT : ((List.range X.nrows).map (rowSum X)).sum ≤ 10 ^ 34 := by
    have h1 := List.sum_le_card_nsmul ((List.range X.nrows).map (rowSum X)) (10 ^ 24) (by
      intro y hy
      obtain ⟨j, -, rfl⟩ := List.mem_map.mp hy
      exact hR j)
    rw [nsmul_eq_mul, List.length_map, List.length_range] at h1
    have h2 : (X.nrows : ℝ) * 10 ^ 24 ≤ 2 ^ 31 * 10 ^ 24 := mul_le_mul_of_nonneg_right hnr' (by norm_num)
    exact (h1.trans h2).trans (by norm_num)
  have hT1 := le_rowSum hx0' he
  have hT2 := rowSum_le_total hx0' hi
  have hrow : ∀ i, Finite s r m 0 (extRowSum s Ωs X i) (roundRowSum s X i) (rowSum X i) := fun i =>
    rowSum_finite P (by omega) hx0 hm i (by
      have h1 : (4 : ℝ) * 10 ^ 24 ≤ 10 ^ 37 := by norm_num
      linarith [hR i])
  have hsum : (t.leaves.map fun i : Fin X.nrows => rowSum X (i : Nat)).sum = ((List.range X.nrows).map (rowSum X)).sum := by
    rw [(List.Perm.map _ ht).sum_eq, ← List.map_coe_finRange_eq_range, List.map_map]
    rfl
  have hlen : t.leaves.length = X.nrows := by rw [List.Perm.length_eq ht, List.length_finRange]
  have hG : 1 ≤ s.factor ^ m := one_le_pow₀ (one_le_factor s P.s1)
  have htree : Finite s r (m + X.nrows) 0 (t.extSum s Ωs fun i => extRowSum s Ωs X i) (t.eval s (fun i => roundRowSum s X i) fun _ => 1)
      ((List.range X.nrows).map (rowSum X)).sum := by
    have hc : ∀ i : Fin X.nrows, UpTo (s.factor ^ m) (roundRowSum s X i) (rowSum X i) := fun i => upTo_rowSum s P.s0 P.s1 hx0 i (hm i)
    refine ⟨?_, ?_⟩
    · refine tree_finite P.s0 P.s1 hG (c := fun i => roundRowSum s X i) (y := fun i => rowSum X i) (N := X.nrows)
        (T := ((List.range X.nrows).map (rowSum X)).sum) (fun i => (hrow i).eq) hc ?_ t hlen.le hsum.le
      rw [← pow_add]
      have h1 : s.factor ^ (m + X.nrows) ≤ 2 := (pow_le_pow_right₀ (one_le_factor s P.s1) (by omega)).trans P.pow
      have h2 := mul_le_mul_of_nonneg_right h1 (show 0 ≤ ((List.range X.nrows).map (rowSum X)).sum by linarith)
      have h3 : (2 : ℝ) * 10 ^ 34 ≤ 10 ^ 37 := by norm_num
      linarith
    · have h1 := upTo_tree s P.s0 P.s1 hG (x := fun i => roundRowSum s X i) (y := fun _ => 1) (z := fun i => rowSum X i)
        (fun i => by rw [mul_one]; exact hc i) t
      rw [hsum, hlen, ← pow_add] at h1
      rw [pow_zero, mul_one]
      exact h1
  -- the average
  have hA0 : 0 < averageLength X := by
    unfold averageLength
    exact div_pos (by linarith) (by linarith)
  have hA1 : averageLength X ≤ 10 ^ 34 := by
    unfold averageLength
    rw [div_le_iff₀ (by linarith)]
    nlinarith
  have h37 : (4 : ℝ) * 10 ^ 34 ≤ 10 ^ 37 := by norm_num
  have h50 : (10 : ℝ) ^ 37 ≤ 10 ^ 50 := by norm_num
  have havg : Finite s r (m + X.nrows + 1) 1 (extAverage s r Ωs Ω X t) (roundAverage s r X t) (averageLength X) := by
    have h1 := htree.div_r (Ω := Ω) P (Finite.self (Nat.cast_nonneg X.nrows)) (by linarith) (by omega) (by omega) (by
      change 4 * averageLength X ≤ Ω
      linarith)
    exact h1.convert P (by omega) (by omega) (by
      change 4 * averageLength X ≤ Ωs
      linarith)
  -- the length norm
  have hq : B * rowSum X e.1 / averageLength X ≤ 2 ^ 31 := by
    rw [div_le_iff₀ hA0]
    have h1 : B * rowSum X e.1 ≤ 1 * rowSum X e.1 := mul_le_mul_of_nonneg_right hB1 (hR0 _)
    have h2 : rowSum X e.1 ≤ X.nrows * averageLength X := by
      unfold averageLength
      rw [mul_div_cancel₀ _ (by linarith)]
      exact hT2
    have h3 : (X.nrows : ℝ) * averageLength X ≤ 2 ^ 31 * averageLength X := mul_le_mul_of_nonneg_right hnr' hA0.le
    linarith
  have hq0 : 0 ≤ B * rowSum X e.1 / averageLength X := div_nonneg (mul_nonneg hB0 (hR0 _)) hA0.le
  have hBR : B * rowSum X e.1 ≤ 10 ^ 24 := by
    have h1 : B * rowSum X e.1 ≤ 1 * rowSum X e.1 := mul_le_mul_of_nonneg_right hB1 (hR0 _)
    linarith [hR e.1]
  have hs4 : (4 : ℝ) * 10 ^ 24 ≤ 10 ^ 37 := by norm_num
  have hs5 : (4 : ℝ) * 2 ^ 31 ≤ 10 ^ 37 := by norm_num
  have hs6 : (4 : ℝ) ≤ 10 ^ 36 := by norm_num
  have hs7 : (10 : ℝ) ^ 36 ≤ 10 ^ 37 := by norm_num
  have hLN0 : 0 ≤ lengthNorm B X e.1 := by
    unfold lengthNorm
    linarith
  have hLN1 : lengthNorm B X e.1 ≤ 10 ^ 10 := by
    unfold lengthNorm
    have : (1 : ℝ) + 2 ^ 31 ≤ 10 ^ 10 := by norm_num
    linarith
  have hone : Finite s r 1 1 (.convert s Ωs (.ofExact r Ω (1 - B))) (s.rnd (r.rnd (1 - B))) (1 - B) := by
    have h1 := Finite.ofExact_r (Ω := Ω) P (Finite.self (s := s) (r := r) (by linarith : 0 ≤ 1 - B)).upTo (by omega) (by omega) (by linarith)
    exact h1.convert P (by omega) (by omega) (by linarith)
  have hprod : Finite s r (m + 2) 0 (.mul s Ωs (.ofExact s Ωs B) (extRowSum s Ωs X e.1)) (s.rnd (s.rnd B * roundRowSum s X e.1)) (B * rowSum X e.1) := by
    have h1 := Finite.ofExact_s (Ω := Ωs) P (Finite.self (s := s) (r := r) hB0).upTo (by omega) (by omega) (by linarith)
    exact (h1.mul P (hrow e.1) (by omega) (by omega) (by linarith)).mono P (by omega) (by omega)
  have hln : Finite s r (2 * m + X.nrows + 5) 1 (extLengthNorm s r Ωs Ω B X t e.1) (roundLengthNorm s r B X t e.1) (lengthNorm B X e.1) := by
    have h1 := hprod.div (Ω := Ωs) P havg hA0 (by omega) (by omega) (by linarith)
    have h2 := (hone.mono P (j' := 2 * m + X.nrows + 4) (k' := 1) (by omega) (by omega)).add (Ω := Ωs) P
      (h1.mono P (j' := 2 * m + X.nrows + 4) (k' := 1) (by omega) (by omega)) (by omega) (by omega) (by
        change 4 * lengthNorm B X e.1 ≤ Ωs
        have : (4 : ℝ) * 10 ^ 10 ≤ 10 ^ 37 := by norm_num
        linarith)
    exact h2
  -- the weight
  have hKL : K1 * lengthNorm B X e.1 ≤ 10 ^ 16 := by
    calc K1 * lengthNorm B X e.1 ≤ 10 ^ 6 * 10 ^ 10 := mul_le_mul hK' hLN1 hLN0 (by norm_num)
      _ = 10 ^ 16 := by norm_num
  have hKL0 := mul_nonneg hK hLN0
  have hs8 : (4 : ℝ) * (10 ^ 16 + 10 ^ 15) ≤ 10 ^ 37 := by norm_num
  have hs9 : (4 : ℝ) * (10 ^ 6 + 1) ≤ 10 ^ 36 := by norm_num
  have hden : Finite s r (2 * m + X.nrows + 8) 1
      (.add s Ωs (.mul s Ωs (.ofExact s Ωs K1) (extLengthNorm s r Ωs Ω B X t e.1)) (.fin e.2.2))
      (s.rnd (s.rnd (s.rnd K1 * roundLengthNorm s r B X t e.1) + e.2.2)) (K1 * lengthNorm B X e.1 + e.2.2) := by
    have h1 := Finite.ofExact_s (Ω := Ωs) P (Finite.self (s := s) (r := r) hK).upTo (by omega) (by omega) (by linarith)
    have h2 := (h1.mul (Ω := Ωs) P hln (by omega) (by omega) (by linarith)).mono P (j' := 2 * m + X.nrows + 7) (k' := 1) (by omega) (by omega)
    exact h2.add P ((Finite.self hxp.le).mono P (by omega) (by omega)) (by omega) (by omega) (by linarith)
  have hnumb : e.2.2 * (K1 + 1) ≤ 10 ^ 22 := by
    calc e.2.2 * (K1 + 1) ≤ 10 ^ 15 * 10 ^ 7 := mul_le_mul hxb (by linarith [show (10 : ℝ) ^ 6 + 1 ≤ 10 ^ 7 by norm_num]) (by linarith) (by norm_num)
      _ = 10 ^ 22 := by norm_num
  have hs10 : (4 : ℝ) * 10 ^ 22 ≤ 10 ^ 37 := by norm_num
  have hnum : Finite s r 2 1 (.mul s Ωs (.fin e.2.2) (.convert s Ωs (.ofExact r Ω (K1 + 1)))) (s.rnd (e.2.2 * s.rnd (r.rnd (K1 + 1)))) (e.2.2 * (K1 + 1)) := by
    have h1 := Finite.ofExact_r (Ω := Ω) P (Finite.self (s := s) (r := r) (by linarith : 0 ≤ K1 + 1)).upTo (by omega) (by omega) (by linarith)
    have h2 := h1.convert (Ω := Ωs) P (by omega) (by omega) (by linarith)
    exact ((Finite.self hxp.le).mul P h2 (by omega) (by omega) (by linarith)).mono P (by omega) (by omega)
  have hpos : 0 < K1 * lengthNorm B X e.1 + e.2.2 := by linarith
  have hquo : e.2.2 * (K1 + 1) / (K1 * lengthNorm B X e.1 + e.2.2) ≤ 10 ^ 7 := by
    rw [div_le_iff₀ hpos]
    have h1 : e.2.2 * (K1 + 1) ≤ e.2.2 * 10 ^ 7 := mul_le_mul_of_nonneg_left (by linarith [show (10 : ℝ) ^ 6 + 1 ≤ 10 ^ 7 by norm_num]) hxp.le
    have h2 : 0 ≤ (10 : ℝ) ^ 7 * (K1 * lengthNorm B X e.1) := mul_nonneg (by norm_num) hKL0
    linarith
  refine ⟨(hnum.div P hden hpos (by omega) (by omega) ?_).mono P (by omega) (by omega), hquo⟩
  have : (4 : ℝ) * 10 ^ 7 ≤ 10 ^ 37 := by norm_num
  linarith

/-- Roundings that add up to no more than a factor of two. -/
theorem factor_two {x : Rounding ℝ} {N : Nat} (hx : x.u ≤ 1 / 2) (h : N * x.u ≤ 1 / 4) : x.factor ^ N ≤ 2 := by
  have h0 := x.u_nonneg
  have h1 : x.factor ≤ 1 + 2 * x.u := by
    unfold Rounding.factor
    rw [div_le_iff₀ (by linarith)]
    nlinarith
  have h2 := pow_growth (u := 2 * x.u) (by linarith) N (by linarith)
  have h3 : 0 ≤ x.factor := by
    unfold Rounding.factor
    exact div_nonneg zero_le_one (by linarith)
  have h4 := pow_le_pow_left₀ h3 h1 N
  linarith

/-- `BM25Recommender.fit` in range is `fit` with weights in range. -/
theorem bm25Fit_weights (L : LogLibrary v) (s r : Rounding ℝ) (hv : 0 ≤ v) (hs0 : s.η = 0) (hr0 : r.η = 0) (hr : r.u ≤ 1 / 2 ^ 53)
    {Ωs : ℝ} (hΩs : 10 ^ 37 ≤ Ωs) (H : HeapImpl (ℝ × Nat) pairLt) (n K : Nat) (hK : 1 ≤ K) (hnK : n * K ≤ 2 ^ 31) (K1 B : ℝ) (hK1 : 0 ≤ K1)
    (hK1' : K1 ≤ 10 ^ 6) (hB0 : 0 ≤ B) (hB1 : B ≤ 1) (t : SumTree n) (ht : t.Complete) (counts : SpRows ℝ)
    (hlen : counts.length ≤ 10 ^ 9) (hnd : ∀ row ∈ counts, (row.map Prod.fst).Nodup) (hM : ∀ r ∈ counts, ∀ e ∈ r, e.1 < n)
    (hz : ∀ r ∈ counts, ∀ e ∈ r, 0 < e.2) (hx : ∀ r ∈ counts, ∀ e ∈ r, e.2 ≤ 10 ^ 15) (hu : ∀ r ∈ counts, r.length + 1 < n)
    (hn : Spec.idfError v n ≤ 1 / 2) (m : Nat) (hm : ∀ i, Spec.coRaters counts i i ≤ m) (hs : s.u ≤ 1 / 2) (hms : (2 * m + n + 11 : Nat) * s.u ≤ 1 / 4) :
    ∃ W : SpRows ℝ, extBm25Fit L s r Ωs (2 ^ 1023) H n K K1 B t counts = extKnnFit H r (2 ^ 1023) n K W ∧
      roundBm25Fit L s r H n K K1 B t counts = roundKnnFit H r n K W ∧
      W.length ≤ 10 ^ 9 ∧ (∀ row ∈ W, (row.map Prod.fst).Nodup) ∧ (∀ row ∈ W, ∀ e ∈ row, e.1 < n) ∧ ∀ row ∈ W, ∀ e ∈ row, |e.2| ≤ 10 ^ 50 := by
  have hr' : r.u ≤ 1 / 2 := hr.trans (by norm_num)
  have hnr : n ≤ 2 ^ 31 := (Nat.le_mul_of_pos_right n hK).trans hnK
  have hnr' : (n : ℝ) ≤ 2 ^ 31 := by exact_mod_cast hnr
  have hbig : (10 : ℝ) ^ 50 ≤ 2 ^ 1023 := (pow_le_pow_right₀ (by norm_num) (by norm_num)).trans double_large
  -- no item has more ratings than there are users
  set m' := min m counts.length with hm'
  have hmm : ∀ i, Spec.coRaters counts i i ≤ m' := fun i => le_min (hm i) List.countP_le_length
  have hms' : (2 * m' + n + 11 : Nat) * s.u ≤ 1 / 4 := by
    refine le_trans (mul_le_mul_of_nonneg_right ?_ s.u_nonneg) hms
    have : m' ≤ m := min_le_left _ _
    exact_mod_cast (by omega : 2 * m' + n + 11 ≤ 2 * m + n + 11)
  have P : Precise s r (2 * m' + (itemUser n counts).nrows + 11) := by
    refine ⟨hs0, by linarith, hr0, by linarith, factor_two hs hms', factor_two hr' ?_⟩
    have h4 : ((4 : Nat) : ℝ) * r.u ≤ 4 * (1 / 2 ^ 53) := mul_le_mul_of_nonneg_left hr (by norm_num)
    exact h4.trans (by norm_num)
  have hX : ∀ e ∈ (itemUser n counts).entries, 0 < e.2.2 ∧ e.2.2 ≤ 10 ^ 15 := by
    intro e he
    obtain ⟨row, h1, h2⟩ := entries_mem he
    exact ⟨hz row (List.mem_of_getElem? h1) (e.1, e.2.2) h2, hx row (List.mem_of_getElem? h1) (e.1, e.2.2) h2⟩
  -- one weight
  have hone : ∀ e ∈ (itemUser n counts).entries,
      Ext.mul r (2 ^ 1023)
        (.div s Ωs (.mul s Ωs (.fin e.2.2) (.convert s Ωs (.ofExact r (2 ^ 1023) (K1 + 1))))
          (.add s Ωs (.mul s Ωs (.ofExact s Ωs K1) (extLengthNorm s r Ωs (2 ^ 1023) B (itemUser n counts) t e.1)) (.fin e.2.2)))
        (extIdf L r (2 ^ 1023) (itemUser n counts) e.2.1) = .fin (computedBm25 L s r K1 B n t counts e.1 e.2.1 e.2.2) ∧
      |computedBm25 L s r K1 B n t counts e.1 e.2.1 e.2.2| ≤ 10 ^ 50 := by
    intro e he
    obtain ⟨row, hrow, hin⟩ := entries_mem he
    have hrow' := List.mem_of_getElem? hrow
    have hc : Spec.columnCount (itemUser n counts).entries e.2.1 + 1 < (itemUser n counts).nrows := by
      rw [columnCount_itemUser n counts e.2.1 row hrow]
      exact hu row hrow'
    obtain ⟨hf, hq⟩ := bm25_finite (X := itemUser n counts) P hΩs hbig hK1 hK1' hB0 hB1 hX
      (fun i => by rw [raters_length n hnd]; exact hmm i) ((min_le_right _ _).trans hlen) hnr t ht he (hM row hrow' _ hin)
    have h1 := upTo_idf L hv r hr0 (by linarith) (itemUser n counts) e.2.1 hc (by change Spec.idfError v n < 1; linarith)
    obtain ⟨q1, q2⟩ := quotient_two (idfError_nonneg hv n) hn
    obtain ⟨b1, b2⟩ := quotient_two r.u_nonneg hr'
    have hi : roundIdf L r (itemUser n counts) e.2.1 ≤ 10 ^ 10 := by
      have h2 := h1.upper
      have h3 : 1 / (1 - Spec.idfError v n) * r.factor ≤ 2 * 2 := mul_le_mul q2 b2 b1 (by norm_num)
      have h4 : 1 / (1 - Spec.idfError v n) * r.factor * idf (itemUser n counts) e.2.1 ≤ 2 * 2 * 2 ^ 31 :=
        mul_le_mul h3 ((idf_le hc).trans hnr') (idf_pos hc).le (by norm_num)
      exact (h2.trans h4).trans (by norm_num)
    have hi0 := h1.nonneg'
    have e2 : extIdf L r (2 ^ 1023) (itemUser n counts) e.2.1 = .fin (roundIdf L r (itemUser n counts) e.2.1) := ofExact_fin (by
      change |roundIdf L r (itemUser n counts) e.2.1| ≤ _
      rw [abs_of_nonneg hi0]
      exact hi.trans (le_trans (by norm_num) hbig))
    have hc0 := hf.upTo.nonneg'
    have hc1 := hf.upTo.upper.trans (mul_le_mul_of_nonneg_right (Finite.bound P le_rfl (by norm_num : 3 ≤ 4)) hf.upTo.nonneg)
    have hw : |computedBm25 L s r K1 B n t counts e.1 e.2.1 e.2.2| ≤ 10 ^ 50 := by
      unfold computedBm25
      generalize s.rnd (s.rnd (e.2.2 * s.rnd (r.rnd (K1 + 1))) / s.rnd (s.rnd (s.rnd K1 * roundLengthNorm s r B (itemUser n counts) t e.1) + e.2.2)) = c
        at hc0 hc1
      generalize roundIdf L r (itemUser n counts) e.2.1 = w at hi hi0
      have h2 := (UpTo.self (mul_nonneg hc0 hi0)).round r hr0 (by linarith)
      refine h2.fits ?_
      have h3 : c * w ≤ (4 * 10 ^ 7) * 10 ^ 10 := mul_le_mul (by linarith) hi hi0 (by norm_num)
      have h4 : 1 * (1 / (1 - r.u)) * (c * w) ≤ (1 * 2) * ((4 * 10 ^ 7) * 10 ^ 10) :=
        mul_le_mul (mul_le_mul_of_nonneg_left b2 zero_le_one) h3 (mul_nonneg hc0 hi0) (by norm_num)
      exact h4.trans (by norm_num)
    refine ⟨?_, hw⟩
    rw [hf.eq, e2]
    exact ofExact_fin (hw.trans hbig)
  have hweights : finiteEntries (extBm25 L s r Ωs (2 ^ 1023) K1 B (itemUser n counts) t) = some (roundBm25 L s r K1 B (itemUser n counts) t).entries := by
    unfold roundBm25
    rw [← finiteEntries_fin]
    congr 1
    unfold extBm25
    refine List.map_congr_left fun e he => ?_
    rw [(hone e he).1]
    rfl
  have hrows : userRows counts.length (roundBm25 L s r K1 B (itemUser n counts) t) =
      (weightRows (computedBm25 L s r K1 B n t counts) counts).map coalesce := by
    rw [← userRows_eq n (computedBm25 L s r K1 B n t counts) counts]
    rfl
  refine ⟨_, ?_, rfl, ?_⟩
  · unfold extBm25Fit
    rw [hweights]
    rfl
  rw [hrows]
  refine ⟨by rw [List.length_map, length_weightRows]; exact hlen, ?_, ?_⟩
  · intro row hrow
    obtain ⟨d, -, rfl⟩ := List.mem_map.mp hrow
    exact (coalesce_sorted d).imp fun hab => Nat.ne_of_lt hab
  have hboth : ∀ row ∈ (weightRows (computedBm25 L s r K1 B n t counts) counts).map coalesce, ∀ e ∈ row, e.1 < n ∧ |e.2| ≤ 10 ^ 50 := by
    intro row hrow e he
    obtain ⟨d, hd, rfl⟩ := List.mem_map.mp hrow
    obtain ⟨y, hy⟩ := (stored_coalesce d e.1).mp ⟨e.2, he⟩
    have h1 := sumAt_coalesce d e.1
    rw [sumAt_of_mem ((coalesce_sorted d).imp fun hab => Nat.ne_of_lt hab) he, sumAt_of_mem (weightRows_nodup hnd d hd) hy] at h1
    rw [h1]
    obtain ⟨⟨w, u⟩, hp, rfl⟩ := List.mem_map.mp hd
    obtain ⟨z, hz1, hze⟩ := List.mem_map.mp hy
    obtain ⟨hz2, rfl⟩ := Prod.mk.inj hze
    have hw := List.mem_zipIdx_iff_getElem?.mp hp
    refine ⟨hz2 ▸ hM w (List.mem_of_getElem? hw) z hz1, ?_⟩
    exact (hone (z.1, u, z.2) (by
      unfold itemUser
      exact List.mem_flatMap.mpr ⟨(w, u), hp, List.mem_map.mpr ⟨z, hz1, rfl⟩⟩)).2
  exact ⟨fun row hrow e he => (hboth row hrow e he).1, fun row hrow e he => (hboth row hrow e he).2⟩

/-- **C103** (`BM25Recommender` in double precision; partial: row 0 as in C23).  Up to `10^9` users, every user with fewer than `n - 1` of the `n` items, at
most `m` ratings per item, positive ratings up to `10^15` in single (`Ωs = 2^127`) or double precision, `K1` up to `10^6`, `B` from `0` to `1`, no underflow:
`fit` gives finite similarities, with the guarantees of C99. -/
theorem C103_bm25_partial (L : LogLibrary v) (s r : Rounding ℝ) (hv : 0 ≤ v) (hs0 : s.η = 0) (hr0 : r.η = 0) (hr : r.u ≤ 1 / 2 ^ 53)
    {Ωs : ℝ} (hΩs : 10 ^ 37 ≤ Ωs) (H : HeapImpl (ℝ × Nat) pairLt) (n K : Nat) (hK : 1 ≤ K) (hnK : n * K ≤ 2 ^ 31) (K1 B : ℝ) (hK1 : 0 ≤ K1)
    (hK1' : K1 ≤ 10 ^ 6) (hB0 : 0 ≤ B) (hB1 : B ≤ 1) (t : SumTree n) (ht : t.Complete) (counts : SpRows ℝ)
    (hlen : counts.length ≤ 10 ^ 9) (hnd : ∀ row ∈ counts, (row.map Prod.fst).Nodup) (hM : ∀ r ∈ counts, ∀ e ∈ r, e.1 < n)
    (hz : ∀ r ∈ counts, ∀ e ∈ r, 0 < e.2) (hx : ∀ r ∈ counts, ∀ e ∈ r, e.2 ≤ 10 ^ 15) (hu : ∀ r ∈ counts, r.length + 1 < n)
    (hn : Spec.idfError v n ≤ 1 / 2) (m : Nat) (hm : ∀ i, Spec.coRaters counts i i ≤ m) (hs : s.u ≤ 1 / 2) (hms : (2 * m + n + 11 : Nat) * s.u ≤ 1 / 4) :
    ∃ sim, extBm25Fit L s r Ωs (2 ^ 1023) H n K K1 B t counts = .ok (some sim) ∧ sim.length = n ∧
      ∀ i, 0 < i → i < n → ∃ row out, sim[i]? = some row ∧ (∀ p, p ∈ row ↔ p ∈ out) ∧
        Spec.ApproxRanking K (Spec.CoRated counts i) (Spec.similarity (weightRows (exactBm25 K1 B n counts) counts) i)
          (fun j => ((1 + r.u) ^ (Spec.coRaters counts i j + 1) * Spec.bm25Factor s.u r.u v n m ^ 2 - 1) *
            Spec.similarity (weightRows (exactBm25 K1 B n counts) counts) i j) out := by
  have hr' : r.u ≤ 1 / 2 := hr.trans (by norm_num)
  obtain ⟨sim, e, hl, h⟩ := C99_bm25_partial L s r hv hs0 (by linarith) hr0 (by linarith) H n K hK hnK K1 B hK1 hB0 hB1 t ht counts hnd hM hz hu
    (by linarith) m hm
  refine ⟨sim, ?_, hl, h⟩
  obtain ⟨W, e1, e2, hWl, hWnd, hWM, hWv⟩ := bm25Fit_weights L s r hv hs0 hr0 hr hΩs H n K hK hnK K1 B hK1 hK1' hB0 hB1 t ht counts hlen hnd hM hz hx hu
    hn m hm hs hms
  have hbig : (10 : ℝ) ^ 10 * 10 ^ 100 ≤ 2 ^ 1023 := by
    rw [← pow_add]
    exact (pow_le_pow_right₀ (by norm_num) (by norm_num)).trans double_large
  rw [e2] at e
  rw [e1, knnFit_toExt H r _ n K hK W hWnd hWM fun i _ j =>
    (data_inRange r.u_nonneg hr (by rw [hr0]) (by rw [hr0]; norm_num) hWl hWnd hWv i j).mono hbig, e]
  rfl

/-- **C103** (`BM25Recommender` in double precision, from the ratings to the recommendations).  As above; `recommend` for a user row with up to `10^9`
entries up to `10^50` has finite scores, correct up to rounding for the fitted similarities. -/
theorem C103_bm25_recommend (L : LogLibrary v) (s r : Rounding ℝ) (hv : 0 ≤ v) (hs0 : s.η = 0) (hr0 : r.η = 0) (hr : r.u ≤ 1 / 2 ^ 53)
    {Ωs : ℝ} (hΩs : 10 ^ 37 ≤ Ωs) (H : HeapImpl (ℝ × Nat) pairLt) (n K : Nat) (hK : 1 ≤ K) (hnK : n * K ≤ 2 ^ 31) (K1 B : ℝ) (hK1 : 0 ≤ K1)
    (hK1' : K1 ≤ 10 ^ 6) (hB0 : 0 ≤ B) (hB1 : B ≤ 1) (t : SumTree n) (ht : t.Complete) (counts : SpRows ℝ)
    (hlen : counts.length ≤ 10 ^ 9) (hnd : ∀ row ∈ counts, (row.map Prod.fst).Nodup) (hM : ∀ r ∈ counts, ∀ e ∈ r, e.1 < n)
    (hz : ∀ r ∈ counts, ∀ e ∈ r, 0 < e.2) (hx : ∀ r ∈ counts, ∀ e ∈ r, e.2 ≤ 10 ^ 15) (hu : ∀ r ∈ counts, r.length + 1 < n)
    (hn : Spec.idfError v n ≤ 1 / 2) (m : Nat) (hm : ∀ i, Spec.coRaters counts i i ≤ m) (hs : s.u ≤ 1 / 2) (hms : (2 * m + n + 11 : Nat) * s.u ≤ 1 / 4) :
    ∃ sim, extBm25Fit L s r Ωs (2 ^ 1023) H n K K1 B t counts = .ok (some sim) ∧ sim.length = n ∧
      ∀ (row : List (Nat × ℝ)), (∀ e ∈ row, e.1 < n) → row.length ≤ 10 ^ 9 → (∀ e ∈ row, |e.2| ≤ 10 ^ 50) → ∀ (k : Nat), 1 ≤ k → ∀ rm : Bool,
        ∃ out, extScorer H r (2 ^ 1023) sim (Accum.new n) row k rm = .ok (some out, Accum.new n) ∧
          Spec.ApproxRanking k (Spec.Reachable sim row) (knnScore sim row rm)
            (fun j => if rm = true ∧ j ∈ row.map Prod.fst then 0
              else Spec.sumError r.u r.η (Spec.scoreTerms sim row j) (Spec.itemMass sim row j)) out := by
  obtain ⟨W, e1, -, hWl, hWnd, hWM, hWv⟩ := bm25Fit_weights L s r hv hs0 hr0 hr hΩs H n K hK hnK K1 B hK1 hK1' hB0 hB1 t ht counts hlen hnd hM hz hx hu
    hn m hm hs hms
  obtain ⟨sim, e, hl, -, h⟩ := C103_double H r hr (by rw [hr0]; norm_num) n K hK hnK W hWl hWnd hWM hWv
  exact ⟨sim, e1.trans e, hl, h⟩

end Implicit
