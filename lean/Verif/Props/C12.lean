import Verif.Props.C11
import Verif.Lemmas.Transpose

/-!
# C12 — the reported training loss is the dense weighted loss

`implicit/gpu/als.cu:199-282` computes the same sums (its per-block partial sums are added
atomically); in exact arithmetic the theorems apply to it as well.
-/

namespace Implicit

variable {R : Type} [LinearOrder R] [Field R] {f : Nat}

open Spec (ValidRow)

/-- The confidences of the stored non-positive values. -/
def negativeWeight (C : SpRows R) : R :=
  (C.map fun row => (row.map fun e => if 0 < e.2 then 0 else -e.2).sum).sum

theorem lossStep_eq (x : Vec f R) (s : Vec f R × R × R) (e : Vec f R × R) :
    lossStep x s e = (axpy (-2 * gain e.2 + (conf e.2 - 1) * dot e.1 x) e.1 s.1,
      s.2.1 + conf e.2, s.2.2 + conf e.2) := by
  unfold lossStep gain conf
  split_ifs <;> simp

theorem foldl_lossStep (x : Vec f R) (es : List (Vec f R × R)) (s : Vec f R × R × R) :
    es.foldl (lossStep x) s =
      (fun a => s.1 a + (es.map fun e => (-2 * gain e.2 + (conf e.2 - 1) * dot e.1 x) * e.1 a).sum,
       s.2.1 + (es.map fun e => conf e.2).sum, s.2.2 + (es.map fun e => conf e.2).sum) := by
  induction es generalizing s with
  | nil => simp
  | cons e es ih =>
    rw [List.foldl_cons, ih, lossStep_eq]
    simp only [List.map_cons, List.sum_cons, axpy, Prod.mk.injEq]
    refine ⟨?_, by ring, by ring⟩
    funext a; ring

theorem sum_fin_zipIdx {α : Type} (X : List α) (g : α × Nat → R) :
    (X.zipIdx.map g).sum = ∑ u : Fin X.length, g (X[u], u.1) := by
  have : X.zipIdx.map g = List.ofFn fun u : Fin X.length => g (X[u], u.1) := by
    apply List.ext_getElem
    · simp
    · intro i h1 h2; simp
  rw [this, List.sum_ofFn]

theorem sum_fin_list {α : Type} (X : List α) (g : α → R) :
    (X.map g).sum = ∑ u : Fin X.length, g X[u] := by
  have : X.map g = List.ofFn fun u : Fin X.length => g X[u] := by
    apply List.ext_getElem
    · simp
    · intro i h1 h2; simp
  rw [this, List.sum_ofFn]

variable [IsStrictOrderedRing R]

theorem lossRow_eq (Y : List (Vec f R)) (row : List (Nat × R)) (h : ValidRow Y.length row)
    (x : Vec f R) :
    lossRow (gram Y) (row.map fun e => (Y[e.1]?.getD 0, e.2)) x =
      ((row.map fun e => conf e.2).sum,
        Spec.rowLoss Y row 0 x + (row.map fun e => if 0 < e.2 then 0 else -e.2).sum) := by
  unfold lossRow
  rw [foldl_lossStep, rowLoss_eq Y row h.nodup h.lt, dot_mulVec_linearEquation,
    dot_linearEquation_snd]
  simp only [Prod.mk.injEq, zero_add, zero_mul, add_zero]
  refine ⟨by rw [List.map_map]; rfl, ?_⟩
  have e1 : dot (fun a => mulVec (gram Y) x a +
      ((row.map fun e => ((Y[e.1]?.getD 0 : Vec f R), e.2)).map fun e =>
        (-2 * gain e.2 + (conf e.2 - 1) * dot e.1 x) * e.1 a).sum) x =
      (Y.map fun y => dot y x * dot y x).sum +
        ((row.map fun e => ((Y[e.1]?.getD 0 : Vec f R), e.2)).map fun e =>
          (-2 * gain e.2 + (conf e.2 - 1) * dot e.1 x) * dot e.1 x).sum := by
    rw [dot_comm]
    have := dot_add_right x (mulVec (gram Y) x) (fun a =>
      ((row.map fun e => ((Y[e.1]?.getD 0 : Vec f R), e.2)).map fun e =>
        (-2 * gain e.2 + (conf e.2 - 1) * dot e.1 x) * e.1 a).sum)
    rw [show (fun a => mulVec (gram Y) x a +
      ((row.map fun e => ((Y[e.1]?.getD 0 : Vec f R), e.2)).map fun e =>
        (-2 * gain e.2 + (conf e.2 - 1) * dot e.1 x) * e.1 a).sum) = mulVec (gram Y) x + (fun a =>
      ((row.map fun e => ((Y[e.1]?.getD 0 : Vec f R), e.2)).map fun e =>
        (-2 * gain e.2 + (conf e.2 - 1) * dot e.1 x) * e.1 a).sum) from rfl, this,
      dot_mulVec_gram, dot_list_sum]
    congr 2
    refine List.map_congr_left (fun e _ => ?_)
    rw [dot_smul_right, dot_comm x]
  rw [e1]
  clear e1 h
  have e2 : ∀ row' : List (Nat × R),
      ((row'.map fun e => ((Y[e.1]?.getD 0 : Vec f R), e.2)).map fun e => conf e.2).sum +
        ((row'.map fun e => ((Y[e.1]?.getD 0 : Vec f R), e.2)).map fun e =>
          (-2 * gain e.2 + (conf e.2 - 1) * dot e.1 x) * dot e.1 x).sum =
      ((row'.map fun e => ((Y[e.1]?.getD 0 : Vec f R), e.2)).map fun e =>
          (conf e.2 - 1) * dot e.1 x * dot e.1 x).sum -
        2 * ((row'.map fun e => ((Y[e.1]?.getD 0 : Vec f R), e.2)).map fun e =>
          gain e.2 * dot e.1 x).sum + (row'.map fun e => gain e.2).sum +
        (row'.map fun e => if 0 < e.2 then 0 else -e.2).sum := by
    intro row'
    induction row' with
    | nil => simp
    | cons e row' ih =>
      simp only [List.map_cons, List.sum_cons]
      have hc : conf e.2 = gain e.2 + (if 0 < e.2 then 0 else -e.2) := by
        unfold conf gain; split_ifs <;> simp
      linear_combination ih + hc
  linear_combination e2 row

/-- Sum of all confidences from the stored values. -/
theorem sum_confidence (n : Nat) (row : List (Nat × R)) (h : ValidRow n row) :
    ∑ i : Fin n, Spec.confidence row i = (row.map fun e => conf e.2).sum + n - row.length := by
  have h1 := sum_lookup row h.nodup h.lt (fun _ o => match o with | none => 1 | some c => |c|)
  unfold Spec.confidence
  refine h1.trans ?_
  simp only [Finset.sum_const, Finset.card_univ, Fintype.card_fin, nsmul_eq_mul, mul_one]
  have : ∀ l : List (Nat × R), (l.map fun e => |e.2| - 1).sum =
      (l.map fun e => conf e.2).sum - l.length := by
    intro l
    induction l with
    | nil => simp
    | cons e l ih =>
      simp only [List.map_cons, List.sum_cons, ih, conf_eq_abs, List.length_cons, Nat.cast_add,
        Nat.cast_one]
      ring
  rw [this]; ring

theorem objective_eq (C : SpRows R) (X Y : List (Vec f R)) (reg : R) :
    Spec.objective C X Y reg = (∑ u : Fin X.length, Spec.rowLoss Y (C[u.1]?.getD []) 0 X[u]) +
      reg * (Spec.sqNorm X + Spec.sqNorm Y) := by
  unfold Spec.objective Spec.rowLoss
  simp

theorem sqNorm_eq (X : List (Vec f R)) : (X.map fun x => dot x x).sum = Spec.sqNorm X := by
  unfold Spec.sqNorm
  congr 1
  refine List.map_congr_left (fun x _ => ?_)
  exact Finset.sum_congr rfl (fun j _ => by ring)

/-- **C12** (exact value).  For every matrix `C` whose shape matches the factors, the reported loss is
the dense objective *plus the confidences of the stored non-positive values*, divided by the sum of
the confidences of all cells. -/
theorem C12_loss_value (C : SpRows R) (X Y : List (Vec f R)) (hC : C.length = X.length)
    (hv : ∀ row ∈ C, ValidRow Y.length row) (reg : R) :
    calculateLoss C Y.length X Y reg =
      .ok ((Spec.objective C X Y reg + negativeWeight C) /
        Spec.totalConfidence C X.length Y.length) := by
  have hrow : ∀ p ∈ X.zipIdx, lossPart C Y p =
      .ok (((C[p.2]?.getD []).map fun e => conf e.2).sum,
        Spec.rowLoss Y (C[p.2]?.getD []) 0 p.1 +
          ((C[p.2]?.getD []).map fun e => if 0 < e.2 then 0 else -e.2).sum) := by
    rintro ⟨x, u⟩ hp
    have hu : u < C.length := by
      have := (List.getElem?_eq_some_iff.mp ((mem_zipIdx_iff' (p := (x, u))).mp hp)).1
      simp at this; omega
    have hvu := hv C[u] (List.getElem_mem hu)
    unfold lossPart
    simp only [List.getElem?_eq_getElem hu, Option.getD_some]
    rw [rowEntries_eq hvu.lt]
    simp only [bind, Except.bind, pure, Except.pure]
    rw [lossRow_eq Y _ hvu]
  unfold calculateLoss
  rw [mapM_ok_of hrow]
  simp only [bind, Except.bind, pure, Except.pure, List.map_map]
  congr 2
  · -- numerator
    rw [objective_eq, sqNorm_eq, sqNorm_eq]
    have h1 : (X.zipIdx.map (Prod.snd ∘ fun p : Vec f R × Nat =>
        (((C[p.2]?.getD []).map fun e => conf e.2).sum,
        Spec.rowLoss Y (C[p.2]?.getD []) 0 p.1 +
          ((C[p.2]?.getD []).map fun e => if 0 < e.2 then 0 else -e.2).sum))).sum =
        (∑ u : Fin X.length, Spec.rowLoss Y (C[u.1]?.getD []) 0 X[u]) + negativeWeight C := by
      rw [sum_fin_zipIdx]
      simp only [Function.comp]
      rw [Finset.sum_add_distrib]
      congr 1
      unfold negativeWeight
      rw [sum_fin_list]
      rw [← Equiv.sum_comp (finCongr hC)]
      refine Finset.sum_congr rfl (fun u _ => ?_)
      simp
    rw [h1]; ring
  · -- denominator
    rw [sum_fin_zipIdx]
    simp only [Function.comp]
    unfold Spec.totalConfidence
    have h2 : ∀ u : Fin X.length, ∑ i : Fin Y.length, Spec.confidence (C[u.1]?.getD []) i =
        ((C[u.1]?.getD []).map fun e => conf e.2).sum + (Y.length : R) -
          ((C[u.1]?.getD []).length : R) := by
      intro u
      have hu : u.1 < C.length := by have := u.2; omega
      rw [List.getElem?_eq_getElem hu]
      exact sum_confidence _ _ (hv _ (List.getElem_mem hu))
    simp only [h2]
    rw [Finset.sum_sub_distrib, Finset.sum_add_distrib]
    simp only [Finset.sum_const, Finset.card_univ, Fintype.card_fin, nsmul_eq_mul]
    have h3 : (((C.map List.length).sum : Nat) : R) =
        ∑ u : Fin X.length, ((C[u.1]?.getD []).length : R) := by
      have : (((C.map List.length).sum : Nat) : R) = (C.map fun r => (r.length : R)).sum := by
        clear hC hv hrow h2
        induction C with
        | nil => simp
        | cons r C ih => simp [ih]
      rw [this, sum_fin_list, ← Equiv.sum_comp (finCongr hC)]
      refine Finset.sum_congr rfl (fun u _ => ?_)
      simp
    rw [h3, hC]
    push_cast
    ring

/-- **C12** when no stored value is negative (stored zeros are allowed): the reported loss is the dense
weighted loss divided by the sum of all confidences. -/
theorem C12_loss_partial (C : SpRows R) (X Y : List (Vec f R)) (hC : C.length = X.length)
    (hv : ∀ row ∈ C, ValidRow Y.length row) (hpos : ∀ row ∈ C, ∀ e ∈ row, 0 ≤ e.2) (reg : R) :
    calculateLoss C Y.length X Y reg =
      .ok (Spec.objective C X Y reg / Spec.totalConfidence C X.length Y.length) := by
  rw [C12_loss_value C X Y hC hv]
  have : negativeWeight C = 0 := by
    unfold negativeWeight
    apply List.sum_eq_zero
    intro t ht
    obtain ⟨row, hr, rfl⟩ := List.mem_map.mp ht
    apply List.sum_eq_zero
    intro t ht
    obtain ⟨e, he, rfl⟩ := List.mem_map.mp ht
    split_ifs with h
    · rfl
    · have := hpos row hr e he
      rw [le_antisymm (not_lt.mp h) this, neg_zero]
  rw [this, add_zero]

/-- **C12 is violated** by every matrix with a negative entry (and at least one cell of non-zero
confidence, which the negative entry is): the reported loss is too large. -/
theorem C12_loss_violated (C : SpRows R) (X Y : List (Vec f R)) (hC : C.length = X.length)
    (hv : ∀ row ∈ C, ValidRow Y.length row) (row : List (Nat × R)) (hr : row ∈ C) (e : Nat × R)
    (he : e ∈ row) (hneg : e.2 < 0) (reg : R) :
    ∃ l, calculateLoss C Y.length X Y reg = .ok l ∧
      Spec.objective C X Y reg / Spec.totalConfidence C X.length Y.length < l := by
  refine ⟨_, C12_loss_value C X Y hC hv reg, ?_⟩
  have hnn : ∀ (c : R), 0 ≤ if 0 < c then 0 else -c := by
    intro c; split_ifs with h
    · exact le_refl _
    · linarith [not_lt.mp h]
  have hw : 0 < negativeWeight C := by
    unfold negativeWeight
    have h1 : 0 < (row.map fun e => if 0 < e.2 then 0 else -e.2).sum := by
      refine lt_of_lt_of_le (neg_pos.mpr hneg) ?_
      refine List.single_le_sum ?_ _ ?_
      · intro t ht
        obtain ⟨e, _, rfl⟩ := List.mem_map.mp ht
        exact hnn e.2
      · refine List.mem_map.mpr ⟨e, he, ?_⟩
        rw [if_neg (not_lt.mpr hneg.le)]
    refine lt_of_lt_of_le h1 ?_
    refine List.single_le_sum ?_ _ (List.mem_map.mpr ⟨row, hr, rfl⟩)
    intro t ht
    obtain ⟨row, _, rfl⟩ := List.mem_map.mp ht
    apply List.sum_nonneg
    intro t ht
    obtain ⟨e, _, rfl⟩ := List.mem_map.mp ht
    exact hnn e.2
  have hc : ∀ (row : List (Nat × R)) i, 0 ≤ Spec.confidence row i := by
    intro row i
    unfold Spec.confidence
    split
    · exact zero_le_one
    · exact abs_nonneg _
  have htot : 0 < Spec.totalConfidence C X.length Y.length := by
    unfold Spec.totalConfidence
    obtain ⟨u, hu⟩ := List.mem_iff_getElem?.mp hr
    have hu' : u < X.length := by rw [← hC]; exact (List.getElem?_eq_some_iff.mp hu).1
    have hi := (hv row hr).lt e he
    have h1 : 0 < Spec.confidence row e.1 := by
      unfold Spec.confidence
      have : row.lookup e.1 = some e.2 := (lookup_eq_some_iff_of_nodup (hv row hr).nodup _ _).mpr he
      rw [this]
      exact abs_pos.mpr hneg.ne
    have h2 : 0 < ∑ i : Fin Y.length, Spec.confidence (C[u]?.getD []) i := by
      rw [hu]
      exact Finset.sum_pos' (fun i _ => hc _ _) ⟨⟨e.1, hi⟩, Finset.mem_univ _, h1⟩
    exact Finset.sum_pos' (fun u _ => Finset.sum_nonneg (fun i _ => hc _ _))
      ⟨⟨u, hu'⟩, Finset.mem_univ _, h2⟩
  exact div_lt_div_of_pos_right (by linarith) htot

/-- A concrete case: one user, two items, one positive and one negative entry, all factors zero.  The
dense loss is `3 / 5`, the reported one `5 / 5`. -/
example : calculateLoss [[(0, 3), (1, -2)]] 2 [![0]] [![0], ![0]] (1 / 10) = .ok (1 : Rat) ∧
    Spec.objective [[(0, 3), (1, -2)]] [![0]] [![0], ![0]] (1 / 10) /
      Spec.totalConfidence [[(0, 3), (1, (-2 : Rat))]] 1 2 = 3 / 5 := by
  decide +kernel

end Implicit
