import Verif.Lemmas.RoundLoss
import Verif.Props.C12
import Verif.Props.C91Sweep
/-!
# C92 — the reported training loss is the loss up to rounding, whatever the threads do
-/

namespace Implicit

variable {f : Nat}

open Spec (ValidRow)

theorem sum_range_fin (n : Nat) (g : Nat → ℝ) : ((List.range n).map g).sum = ∑ u : Fin n, g u.1 := by
  have : (List.range n).map g = List.ofFn fun u : Fin n => g u.1 := by
    apply List.ext_getElem
    · simp
    · intro i h1 h2; simp
  rw [this, List.sum_ofFn]

theorem sum_rows {C : SpRows ℝ} {n : Nat} (hC : C.length = n) (g : List (Nat × ℝ) → ℝ) :
    (C.map g).sum = ∑ u : Fin n, g (C[u.1]?.getD []) := by
  subst hC
  rw [sum_fin_list]
  refine Finset.sum_congr rfl fun u _ => ?_
  simp

/-- The stored entries of a row with their factors. -/
def withFactors (Y : List (Vec f ℝ)) (row : List (Nat × ℝ)) : List (Vec f ℝ × ℝ) := row.map fun e => (Y[e.1]?.getD 0, e.2)

theorem row_meant (Y : List (Vec f ℝ)) (row : List (Nat × ℝ)) (h : ValidRow Y.length row) (x : Vec f ℝ) :
    (row.map fun e => conf e.2).sum + dot (lossVector Y (withFactors Y row) x) x =
      Spec.rowLoss Y row 0 x + (row.map fun e => if 0 < e.2 then 0 else -e.2).sum := by
  have h1 := congrArg Prod.snd (lossRow_eq Y row h x)
  unfold lossRow at h1
  rw [foldl_lossStep] at h1
  simp only [zero_add] at h1
  rw [← h1, List.map_map]
  rfl

theorem numerator_eq (C : SpRows ℝ) (X Y : List (Vec f ℝ)) (hC : C.length = X.length) (hv : ∀ row ∈ C, ValidRow Y.length row) (reg : ℝ) :
    Spec.objective C X Y reg + negativeWeight C =
      ∑ u : Fin X.length, (((C[u.1]?.getD []).map fun e => conf e.2).sum + dot (lossVector Y (withFactors Y (C[u.1]?.getD [])) X[u]) X[u]) +
        reg * ((Y.map fun y => dot y y).sum + (X.map fun x => dot x x).sum) := by
  have h1 : ∀ u : Fin X.length, ((C[u.1]?.getD []).map fun e => conf e.2).sum +
      dot (lossVector Y (withFactors Y (C[u.1]?.getD [])) X[u]) X[u] = Spec.rowLoss Y (C[u.1]?.getD []) 0 X[u] +
        ((C[u.1]?.getD []).map fun e => if 0 < e.2 then 0 else -e.2).sum := by
    intro u
    have hu : u.1 < C.length := by have := u.2; omega
    have : C[u.1]?.getD [] = C[u.1] := by rw [List.getElem?_eq_getElem hu]; rfl
    exact row_meant Y _ (by rw [this]; exact hv _ (List.getElem_mem hu)) _
  rw [Finset.sum_congr rfl fun u _ => h1 u, Finset.sum_add_distrib, objective_eq, sqNorm_eq, sqNorm_eq]
  have h2 : negativeWeight C = ∑ u : Fin X.length, ((C[u.1]?.getD []).map fun e => if 0 < e.2 then 0 else -e.2).sum :=
    sum_rows hC fun row : List (Nat × ℝ) => (row.map fun e : Nat × ℝ => if 0 < e.2 then 0 else -e.2).sum
  rw [h2]
  ring

theorem denominator_eq (C : SpRows ℝ) (n m : Nat) (hC : C.length = n) (hv : ∀ row ∈ C, ValidRow m row) :
    Spec.totalConfidence C n m =
      ∑ u : Fin n, ((C[u.1]?.getD []).map fun e => conf e.2).sum + ((C.length * m : Nat) : ℝ) - ((C.map List.length).sum : Nat) := by
  unfold Spec.totalConfidence
  have h2 : ∀ u : Fin n, ∑ i : Fin m, Spec.confidence (C[u.1]?.getD []) i =
      ((C[u.1]?.getD []).map fun e => conf e.2).sum + (m : ℝ) - ((C[u.1]?.getD []).length : ℝ) := by
    intro u
    have hu : u.1 < C.length := by have := u.2; omega
    rw [List.getElem?_eq_getElem hu]
    exact sum_confidence _ _ (hv _ (List.getElem_mem hu))
  rw [Finset.sum_congr rfl fun u _ => h2 u, Finset.sum_sub_distrib, Finset.sum_add_distrib]
  have h3 : (((C.map List.length).sum : Nat) : ℝ) = (C.map fun r => (r.length : ℝ)).sum := by
    clear hC hv h2
    induction C with
    | nil => simp
    | cons r C ih => simp [ih]
  rw [h3, sum_rows hC (fun r => (r.length : ℝ)), hC]
  simp

/-! ## The terms of the sums -/

section
variable (A : FloatOps ℝ) (P : BlasProducts f) (G : Mat f ℝ) (Y : List (Vec f ℝ))

noncomputable def confidenceTerms (row : List (Nat × ℝ)) : List Term := row.map fun e => ⟨roundConfidence A e.2, conf e.2, |e.2|⟩

noncomputable def productTerm (row : List (Nat × ℝ)) (x : Vec f ℝ) : Term :=
  ⟨P.dot (roundLossVector A P G (withFactors Y row) x) x, dot (lossVector Y (withFactors Y row) x) x,
    (Spec.systemSize Y row 0 * Spec.length x + 2 * Spec.targetSize Y row) * Spec.length x⟩

noncomputable def normTerm (x : Vec f ℝ) : Term := ⟨P.dot x x, dot x x, Spec.length x ^ 2⟩

end

/-- Without negative values nothing is added. -/
theorem negativeWeight_eq_zero {C : SpRows ℝ} (hnn : ∀ row ∈ C, ∀ e ∈ row, 0 ≤ e.2) : negativeWeight C = 0 := by
  unfold negativeWeight
  refine List.sum_eq_zero fun t ht => ?_
  obtain ⟨row, hr, rfl⟩ := List.mem_map.mp ht
  refine List.sum_eq_zero fun t ht => ?_
  obtain ⟨e, he, rfl⟩ := List.mem_map.mp ht
  split_ifs with h
  · rfl
  · rw [le_antisymm (not_lt.mp h) (hnn row hr e he), neg_zero]

section
variable {A D : FloatOps ℝ} {P : BlasProducts f} {u v : ℝ} (hA : A.Accurate u) (hD : D.Accurate v) (hP : P.Accurate u)
  (hdiv : ∀ a b, |D.div a b - a / b| ≤ v * |a / b|) (r : Rounding ℝ) (hr : r.u = u) (h0 : r.η = 0)
  (C : SpRows ℝ) (X Y : List (Vec f ℝ)) (order : Fin f → Fin f → SumTree Y.length) (ho : ∀ a b, (order a b).Complete)
  (hC : C.length = X.length) (hv : ∀ row ∈ C, ValidRow Y.length row) {m : Nat} (hm : ∀ row ∈ C, row.length ≤ m)
  {users : List (List Nat)} {items : List (List Nat)} (hu : Spec.Schedule X.length users) (hi : Spec.Schedule Y.length items) {K t : Nat}
  (hK : ∀ rows ∈ users, (rows.map fun i => (C[i]?.getD []).length + 1).sum ≤ K) (hK' : ∀ rows ∈ items, rows.length ≤ K)
  (ht : users.length ≤ t) (ht' : items.length ≤ t) {reg : ℝ} (hreg : 0 ≤ reg)

include hA in
theorem near_confidenceTerms (row : List (Nat × ℝ)) : ∀ t ∈ confidenceTerms A row, Near ((1 + u) ^ 2) t.size t.computed t.meant := by
  intro t ht
  obtain ⟨e, _, rfl⟩ := List.mem_map.mp ht
  exact near_roundConfidence hA e.2

include hA hP hr h0 ho in
theorem near_productTerm (row : List (Nat × ℝ)) (x : Vec f ℝ) :
    Near ((1 + u) ^ (Y.length + row.length + 2 * f + 8)) (productTerm A P (roundGram r Y order) Y row x).size
      (productTerm A P (roundGram r Y order) Y row x).computed (productTerm A P (roundGram r Y order) Y row x).meant := by
  have := near_lossProduct hA hP r hr h0 Y order ho (withFactors Y row) x
  unfold productTerm
  rw [show (withFactors Y row).length = row.length from List.length_map _] at this
  unfold withFactors at this
  rw [targetSize_eq, traceSize_eq] at this
  exact this

/-- The terms of user `i`, as far as they are in `T`. -/
noncomputable def userTerms (X : List (Vec f ℝ)) (C : SpRows ℝ) (T : List (Nat × ℝ) → Vec f ℝ → List Term) (i : Nat) : List Term :=
  (X[i]?.map fun x => T (C[i]?.getD []) x).getD []

theorem userTerms_of_lt {X : List (Vec f ℝ)} {C : SpRows ℝ} {T : List (Nat × ℝ) → Vec f ℝ → List Term} {i : Nat} (h : i < X.length) :
    userTerms X C T i = T (C[i]?.getD []) X[i] := by
  unfold userTerms
  rw [List.getElem?_eq_getElem h]
  rfl

include hD hu ht hC hm in
theorem near_users (T : List (Nat × ℝ) → Vec f ℝ → List Term) {G : ℝ} (hG : 1 ≤ G)
    (hT : ∀ row x, row.length ≤ m → ∀ t ∈ T row x, Near G t.size t.computed t.meant)
    (hlen : ∀ rows ∈ users, (rows.map fun i => (userTerms X C T i).length).sum ≤ K) :
    Near (G * (1 + v) ^ (K + t)) (∑ u : Fin X.length, ((T (C[u.1]?.getD []) X[u]).map Term.size).sum)
      (threadSum D users fun i => (userTerms X C T i).map Term.computed)
      (∑ u : Fin X.length, ((T (C[u.1]?.getD []) X[u]).map Term.meant).sum) := by
  have h := near_threadSum hD hG hu (userTerms X C T) (K := K) (t := t) (fun i hi t ht => by
    rw [userTerms_of_lt hi] at ht
    have hi' : i < C.length := by omega
    rw [List.getElem?_eq_getElem hi'] at ht
    exact hT _ _ (hm _ (List.getElem_mem hi')) t ht) hlen ht
  rw [sum_range_fin, sum_range_fin] at h
  have e : ∀ u : Fin X.length, userTerms X C T u.1 = T (C[u.1]?.getD []) X[u] := fun u => userTerms_of_lt u.2
  rw [Finset.sum_congr rfl fun u _ => congrArg (fun l => (l.map Term.size).sum) (e u),
    Finset.sum_congr rfl fun u _ => congrArg (fun l => (l.map Term.meant).sum) (e u)] at h
  exact h

theorem sum_userTerms_le (T : List (Nat × ℝ) → Vec f ℝ → List Term) (hT : ∀ row x, (T row x).length ≤ row.length + 1) (rows : List Nat) :
    (rows.map fun i => (userTerms X C T i).length).sum ≤ (rows.map fun i => (C[i]?.getD []).length + 1).sum := by
  refine List.sum_le_sum fun i _ => ?_
  unfold userTerms
  cases X[i]? with
  | none => exact Nat.zero_le _
  | some x => exact hT _ x

include hA hD hP hdiv hr h0 ho hC hv hm hu hi hK hK' ht ht' hreg

theorem near_sums (parts : List LossTerms)
    (hparts : parts = X.zipIdx.map fun p => roundLossRow A P (roundGram r Y order) (withFactors Y (C[p.2]?.getD [])) p.1)
    (hpos : (Spec.lossGrowth u v f Y.length m K t - 1) * Spec.weightSize C X.length Y.length < Spec.totalConfidence C X.length Y.length) :
    |roundLossSums D P users items (C.length * Y.length) (C.map List.length).sum parts Y reg -
        (Spec.objective C X Y reg + negativeWeight C) / Spec.totalConfidence C X.length Y.length| ≤
      Spec.quotientError (Spec.lossGrowth u v f Y.length m K t - 1) v (Spec.objective C X Y reg + negativeWeight C)
        (Spec.totalConfidence C X.length Y.length) (Spec.lossSize C X Y reg) (Spec.weightSize C X.length Y.length) := by
  set E := Y.length + m + 2 * f + 8 with hE
  have hG : 1 ≤ (1 + u) ^ E := one_le_growth hA.nonneg E
  have hget : ∀ i : Nat, parts[i]? = X[i]?.map fun x => roundLossRow A P (roundGram r Y order) (withFactors Y (C[i]?.getD [])) x := by
    intro i
    rw [hparts, List.getElem?_map, List.getElem?_zipIdx, Option.map_map, Nat.zero_add]
    rfl
  -- the four sums
  have hloss := near_users hD C X hC hm (items := items) hu (K := K) ht (fun row x => confidenceTerms A row ++ [productTerm A P (roundGram r Y order) Y row x]) hG
    (fun row x hrow t ht => by
      rcases List.mem_append.mp ht with h | h
      · exact (near_confidenceTerms hA row t h).mono (growth_mono hA.nonneg (by omega))
      · rw [List.mem_singleton.mp h]
        exact (near_productTerm hA hP r hr h0 Y order ho row x).mono (growth_mono hA.nonneg (by omega)))
    (fun rows h => (sum_userTerms_le C X _ (fun row x => by simp [confidenceTerms]) rows).trans (hK rows h))
  have hconf := near_users hD C X hC hm (items := items) hu (K := K) ht (fun row _ => confidenceTerms A row) hG
    (fun row x hrow t ht => (near_confidenceTerms hA row t ht).mono (growth_mono hA.nonneg (by omega)))
    (fun rows h => (sum_userTerms_le C X _ (fun row x => by simp [confidenceTerms]) rows).trans (hK rows h))
  have hnorm := near_users hD C X hC hm (items := items) hu (K := K) ht (fun _ x => [normTerm P x]) hG
    (fun row x hrow t ht => by
      rw [List.mem_singleton.mp ht]
      exact (near_square hA hP x).mono (growth_mono hA.nonneg (by omega)))
    (fun rows h => (sum_userTerms_le C X _ (fun row x => by simp) rows).trans (hK rows h))
  have hitem := near_threadSum hD hG hi (fun i => (Y[i]?.map fun y => [normTerm P y]).getD []) (K := K) (t := t)
    (fun i h t ht => by
      rw [List.getElem?_eq_getElem h] at ht
      rw [List.mem_singleton.mp ht]
      exact (near_square hA hP _).mono (growth_mono hA.nonneg (by omega)))
    (fun rows h => by
      refine le_trans ?_ (hK' rows h)
      have : (rows.map fun i => ((Y[i]?.map fun y => [normTerm P y]).getD []).length).sum ≤ (rows.map fun _ => 1).sum :=
        List.sum_le_sum fun i _ => by cases Y[i]? <;> simp
      simpa using this) ht'
  -- what the program adds
  have eloss : (threadSum D users fun i => (parts[i]?.map fun t => t.confidences ++ [t.product]).getD []) =
      threadSum D users fun i => (userTerms X C (fun row x => confidenceTerms A row ++ [productTerm A P (roundGram r Y order) Y row x]) i).map
        Term.computed := by
    congr 1
    funext i
    rw [hget]
    unfold userTerms
    cases X[i]? with
    | none => rfl
    | some x => simp [confidenceTerms, roundLossRow, productTerm, withFactors]
  have econf : (threadSum D users fun i => (parts[i]?.map LossTerms.confidences).getD []) =
      threadSum D users fun i => (userTerms X C (fun row _ => confidenceTerms A row) i).map Term.computed := by
    congr 1
    funext i
    rw [hget]
    unfold userTerms
    cases X[i]? with
    | none => rfl
    | some x => simp [confidenceTerms, roundLossRow, withFactors]
  have enorm : (threadSum D users fun i => (parts[i]?.map fun t => [t.norm]).getD []) =
      threadSum D users fun i => (userTerms X C (fun _ x => [normTerm P x]) i).map Term.computed := by
    congr 1
    funext i
    rw [hget]
    unfold userTerms
    cases X[i]? with
    | none => rfl
    | some x => rfl
  have eitem : (threadSum D items fun i => (Y[i]?.map fun y => [P.dot y y]).getD []) =
      threadSum D items fun i => ((Y[i]?.map fun y => [normTerm P y]).getD []).map Term.computed := by
    congr 1
    funext i
    cases Y[i]? with
    | none => rfl
    | some y => rfl
  unfold roundLossSums
  show |D.div (D.axpy reg (D.add (threadSum D items fun i => (Y[i]?.map fun y => [P.dot y y]).getD [])
      (threadSum D users fun i => (parts[i]?.map fun t => [t.norm]).getD []))
      (threadSum D users fun i => (parts[i]?.map fun t => t.confidences ++ [t.product]).getD []))
    (D.sub (D.add (threadSum D users fun i => (parts[i]?.map LossTerms.confidences).getD []) ((C.length * Y.length : Nat) : ℝ))
      ((C.map List.length).sum : Nat)) - _| ≤ _
  rw [eloss, econf, enorm, eitem]
  generalize threadSum D users (fun i => (userTerms X C (fun row x => confidenceTerms A row ++
    [productTerm A P (roundGram r Y order) Y row x]) i).map Term.computed) = L at *
  generalize threadSum D users (fun i => (userTerms X C (fun row _ => confidenceTerms A row) i).map Term.computed) = Q at *
  generalize threadSum D users (fun i => (userTerms X C (fun _ x => [normTerm P x]) i).map Term.computed) = U at *
  generalize threadSum D items (fun i => ((Y[i]?.map fun y => [normTerm P y]).getD []).map Term.computed) = I at *
  clear eloss econf enorm eitem hget hparts
  -- what it means to add
  have hL : Near ((1 + u) ^ E * (1 + v) ^ (K + t)) (∑ u : Fin X.length, Spec.rowLossSize Y (C[u.1]?.getD []) X[u]) L
      (∑ u : Fin X.length, (((C[u.1]?.getD []).map fun e => conf e.2).sum +
        dot (lossVector Y (withFactors Y (C[u.1]?.getD [])) X[u]) X[u])) := by
    have e1 : ∀ row x, ((confidenceTerms A row ++ [productTerm A P (roundGram r Y order) Y row x]).map Term.size).sum =
        Spec.rowLossSize Y row x := fun row x => by
      rw [List.map_append, List.sum_append, confidenceTerms, List.map_map, List.map_singleton, List.sum_singleton]
      rfl
    have e2 : ∀ row x, ((confidenceTerms A row ++ [productTerm A P (roundGram r Y order) Y row x]).map Term.meant).sum =
        (row.map fun e => conf e.2).sum + dot (lossVector Y (withFactors Y row) x) x := fun row x => by
      rw [List.map_append, List.sum_append, confidenceTerms, List.map_map, List.map_singleton, List.sum_singleton]
      rfl
    rw [Finset.sum_congr rfl fun u _ => e1 _ _, Finset.sum_congr rfl fun u _ => e2 _ _] at hloss
    exact hloss
  have hQ : Near ((1 + u) ^ E * (1 + v) ^ (K + t)) (C.map fun row => (row.map fun e => |e.2|).sum).sum Q
      (∑ u : Fin X.length, ((C[u.1]?.getD []).map fun e => conf e.2).sum) := by
    have e1 : ∀ row, ((confidenceTerms A row).map Term.size).sum = (row.map fun e => |e.2|).sum := fun row => by
      rw [confidenceTerms, List.map_map]
      rfl
    have e2 : ∀ row, ((confidenceTerms A row).map Term.meant).sum = (row.map fun e => conf e.2).sum := fun row => by
      rw [confidenceTerms, List.map_map]
      rfl
    rw [Finset.sum_congr rfl fun u _ => e1 _, Finset.sum_congr rfl fun u _ => e2 _] at hconf
    rw [sum_rows hC fun row : List (Nat × ℝ) => (row.map fun e : Nat × ℝ => |e.2|).sum]
    exact hconf
  have hU : Near ((1 + u) ^ E * (1 + v) ^ (K + t)) (X.map fun x => Spec.length x ^ 2).sum U (X.map fun x => dot x x).sum := by
    rw [sum_fin_list, sum_fin_list]
    have e1 : ∀ x : Vec f ℝ, ([normTerm P x].map Term.size).sum = Spec.length x ^ 2 := fun x => by simp [normTerm]
    have e2 : ∀ x : Vec f ℝ, ([normTerm P x].map Term.meant).sum = dot x x := fun x => by simp [normTerm]
    rw [Finset.sum_congr rfl fun u _ => e1 _, Finset.sum_congr rfl fun u _ => e2 _] at hnorm
    exact hnorm
  have hI : Near ((1 + u) ^ E * (1 + v) ^ (K + t)) (Y.map fun x => Spec.length x ^ 2).sum I (Y.map fun x => dot x x).sum := by
    rw [sum_fin_list, sum_fin_list]
    rw [sum_range_fin, sum_range_fin] at hitem
    have e1 : ∀ i : Fin Y.length, (((Y[i.1]?.map fun y => [normTerm P y]).getD []).map Term.size).sum = Spec.length Y[i] ^ 2 := fun i => by
      simp [normTerm]
    have e2 : ∀ i : Fin Y.length, (((Y[i.1]?.map fun y => [normTerm P y]).getD []).map Term.meant).sum = dot Y[i] Y[i] := fun i => by
      simp [normTerm]
    rw [Finset.sum_congr rfl fun u _ => e1 u, Finset.sum_congr rfl fun u _ => e2 u] at hitem
    exact hitem
  clear hloss hconf hnorm hitem
  -- the rest
  have hnum : Near (Spec.lossGrowth u v f Y.length m K t) (Spec.lossSize C X Y reg) (D.axpy reg (D.add I U) L)
      (Spec.objective C X Y reg + negativeWeight C) := by
    rw [numerator_eq C X Y hC hv reg]
    unfold Spec.lossSize
    exact near_axpy_scaled hD hG hreg hL (near_add_scaled hD hG hI hU (m := K + t + 1) le_rfl le_rfl) (by omega) (by omega)
  have hden : Near (Spec.lossGrowth u v f Y.length m K t) (Spec.weightSize C X.length Y.length)
      (D.sub (D.add Q ((C.length * Y.length : Nat) : ℝ)) ((C.map List.length).sum : Nat)) (Spec.totalConfidence C X.length Y.length) := by
    rw [denominator_eq C X.length Y.length hC hv]
    unfold Spec.weightSize
    have hself : ∀ n : Nat, Near ((1 + u) ^ E * (1 + v) ^ 0) (n : ℝ) n n := fun n => by
      have := (Near.self (n : ℝ)).mono (show (1 : ℝ) ≤ (1 + u) ^ E * (1 + v) ^ 0 by rw [pow_zero, mul_one]; exact hG)
      rwa [abs_of_nonneg (Nat.cast_nonneg n)] at this
    have h1 := near_add_scaled hD hG hQ (hself (C.length * Y.length)) (m := K + t + 1) le_rfl (by omega)
    have h2 := near_sub_scaled hD hG h1 (hself (C.map List.length).sum) (m := K + t + 3) (by omega) (by omega)
    refine Eq.mp ?_ h2
    rw [hC]
    push_cast
    rfl
  have hg : 1 ≤ Spec.lossGrowth u v f Y.length m K t := hnum.1
  exact quotient_near hD.nonneg hnum.2.1 hden.2.1 hnum.nonneg hden.nonneg (by linarith) hpos (hdiv _ _)

omit hA hD hP hdiv hr h0 ho hm hu hi hK hK' ht ht' hreg in
/-- The parallel loop reads no memory it should not. -/
theorem parts_eq : X.zipIdx.mapM (roundLossPart A P (roundGram r Y order) C Y) =
    .ok (X.zipIdx.map fun p => roundLossRow A P (roundGram r Y order) (withFactors Y (C[p.2]?.getD [])) p.1) := by
  refine mapM_ok_of fun p hp => ?_
  have hlt : p.2 < C.length := by
    have := (List.getElem?_eq_some_iff.mp ((mem_zipIdx_iff' (p := p)).mp hp)).1
    omega
  have hvu := hv C[p.2] (List.getElem_mem hlt)
  unfold roundLossPart
  simp only [List.getElem?_eq_getElem hlt, Option.getD_some]
  rw [rowEntries_eq hvu.lt]
  rfl

/-- **C92** (value).  Whatever rows each thread gets, in whatever order: the reported loss is the dense loss plus the confidences of the
stored negative values (C12), over the sum of all confidences, up to an error that is a multiple of the sizes of the two sums. -/
theorem C92_loss (hpos : (Spec.lossGrowth u v f Y.length m K t - 1) * Spec.weightSize C X.length Y.length <
      Spec.totalConfidence C X.length Y.length) :
    ∃ ℓ, roundCalculateLoss A D P r users items C Y.length X Y order reg = .ok ℓ ∧
      |ℓ - (Spec.objective C X Y reg + negativeWeight C) / Spec.totalConfidence C X.length Y.length| ≤
        Spec.quotientError (Spec.lossGrowth u v f Y.length m K t - 1) v (Spec.objective C X Y reg + negativeWeight C)
          (Spec.totalConfidence C X.length Y.length) (Spec.lossSize C X Y reg) (Spec.weightSize C X.length Y.length) := by
  refine ⟨_, ?_, near_sums hA hD hP hdiv r hr h0 C X Y order ho hC hv hm hu hi hK hK' ht ht' hreg _ rfl hpos⟩
  unfold roundCalculateLoss
  rw [parts_eq r C X Y order hC hv]
  rfl

/-- **C92** (no negative values).  Then the reported loss is the dense loss, up to rounding. -/
theorem C92_dense (hnn : ∀ row ∈ C, ∀ e ∈ row, 0 ≤ e.2)
    (hpos : (Spec.lossGrowth u v f Y.length m K t - 1) * Spec.weightSize C X.length Y.length < Spec.totalConfidence C X.length Y.length) :
    ∃ ℓ, roundCalculateLoss A D P r users items C Y.length X Y order reg = .ok ℓ ∧
      |ℓ - Spec.objective C X Y reg / Spec.totalConfidence C X.length Y.length| ≤
        Spec.quotientError (Spec.lossGrowth u v f Y.length m K t - 1) v (Spec.objective C X Y reg)
          (Spec.totalConfidence C X.length Y.length) (Spec.lossSize C X Y reg) (Spec.weightSize C X.length Y.length) := by
  have h := C92_loss hA hD hP hdiv r hr h0 C X Y order ho hC hv hm hu hi hK hK' ht ht' hreg hpos
  rwa [negativeWeight_eq_zero hnn, add_zero] at h

omit hP ho in
/-- **C92** (reproducibility).  Two runs on the same factors, with other threads and other summation orders of BLAS, report losses that
differ by no more than twice the error. -/
theorem C92_threads {P P' : BlasProducts f} (hP : P.Accurate u) (hP' : P'.Accurate u) (order' : Fin f → Fin f → SumTree Y.length)
    (ho : ∀ a b, (order a b).Complete) (ho' : ∀ a b, (order' a b).Complete) {users' : List (List Nat)} {items' : List (List Nat)}
    (hu' : Spec.Schedule X.length users') (hi' : Spec.Schedule Y.length items')
    (hKu' : ∀ rows ∈ users', (rows.map fun i => (C[i]?.getD []).length + 1).sum ≤ K) (hKi' : ∀ rows ∈ items', rows.length ≤ K)
    (htu' : users'.length ≤ t) (hti' : items'.length ≤ t)
    (hpos : (Spec.lossGrowth u v f Y.length m K t - 1) * Spec.weightSize C X.length Y.length < Spec.totalConfidence C X.length Y.length)
    {ℓ ℓ' : ℝ} (h : roundCalculateLoss A D P r users items C Y.length X Y order reg = .ok ℓ)
    (h' : roundCalculateLoss A D P' r users' items' C Y.length X Y order' reg = .ok ℓ') :
    |ℓ - ℓ'| ≤ 2 * Spec.quotientError (Spec.lossGrowth u v f Y.length m K t - 1) v (Spec.objective C X Y reg + negativeWeight C)
      (Spec.totalConfidence C X.length Y.length) (Spec.lossSize C X Y reg) (Spec.weightSize C X.length Y.length) := by
  obtain ⟨a, ha, hae⟩ := C92_loss hA hD hP hdiv r hr h0 C X Y order ho hC hv hm hu hi hK hK' ht ht' hreg hpos
  obtain ⟨b, hb, hbe⟩ := C92_loss hA hD hP' hdiv r hr h0 C X Y order' ho' hC hv hm hu' hi' hKu' hKi' htu' hti' hreg hpos
  rw [h] at ha
  rw [h'] at hb
  injection ha with ha
  injection hb with hb
  rw [← ha] at hae
  rw [← hb, abs_sub_comm] at hbe
  have := abs_sub_le ℓ ((Spec.objective C X Y reg + negativeWeight C) / Spec.totalConfidence C X.length Y.length) ℓ'
  linarith

end

end Implicit
