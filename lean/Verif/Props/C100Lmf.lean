import Verif.Props.C100Float
import Verif.Props.C94Examples
/-!
# C100: logistic matrix factorisation after training
-/

namespace Implicit

open Spec

/-- **C100** (LMF).  Training as in `C94_float` (up to 998 factors, 30 epochs, a million entries in a row or column, factors that start within 10):
`recommend` for every user of the trained model, with every filter that leaves `k` items, has finite scores and the guarantees of C62. -/
theorem C100_lmf {factors : Nat} {r s : Rounding ℝ} (hru : r.u ≤ 1 / 16777216) (hrη : r.η ≤ 1 / 10 ^ 40) (hsu : s.u ≤ 1 / 16777216)
    (hsη : s.η ≤ 1 / 10 ^ 40) (hr : r.Orderly 2) (hs : s.Orderly 2) {Ω Ω' : ℝ} (hΩ : 10 ^ 38 ≤ Ω) (hΩ' : Ω ≤ Ω')
    {ex : ℝ → ℝ} (h0 : ∀ x, 0 ≤ ex x) (h1 : ∀ x ≤ 0, ex x ≤ 1) {eps lr reg : ℝ} (he : |eps - 1 / 10 ^ 6| ≤ 1 / 10 ^ 9) (hlr : 0 ≤ lr) (hlr1 : lr ≤ 1)
    (hreg : |reg| ≤ 10 ^ 6) (hf : factors ≤ 998) {negProp : Int} {cols : Nat} {C : SpRows (Option ℝ)}
    (hC : ∀ row ∈ C, ∀ e ∈ row, e.1 < cols ∧ Within (10 ^ 6) e.2) (hn : ∀ row ∈ C, row.length ≤ 1000000)
    (hn' : ∀ col ∈ transposeRows cols C, col.length ≤ 1000000) {draws : List LmfDraws} (hT : draws.length ≤ 30)
    (hd : ∀ d ∈ draws, ∀ u k, d.user u k < C.flatten.length ∧ d.item u k < C.flatten.length)
    {m : Factors (factors + 2) (Option ℝ)} (hmu : m.user.length = C.length) (hmi : m.item.length = cols)
    (hu : ∀ x ∈ m.user, ∀ a, Within 10 (x a)) (hi : ∀ x ∈ m.item, ∀ a, Within 10 (x a)) :
    ∃ (m' : Factors (factors + 2) (Option ℝ)) (X : Fin C.length → Vec (factors + 2) ℝ) (Y : Fin cols → Vec (factors + 2) ℝ),
      limitLmfFit r s Ω Ω' ex eps lr reg negProp cols C draws m = .ok m' ∧
      m'.user = List.ofFn (fun u a => some (X u a)) ∧ m'.item = List.ofFn (fun i a => some (Y i a)) ∧
      ∀ (u : Fin C.length) (order : Fin cols → SumTree (factors + 2)) (filter : List (Fin cols)) (k : Nat), (∀ j, (order j).Complete) → 1 ≤ k →
        k ≤ ((List.finRange cols).filter fun j => j ∉ filter).length →
        ∃ out, extRecommend r Ω order filter k (X u) Y = .ok (out.map fun p => (.fin p.1, p.2)) ∧
          Spec.ApproxTop k (fun j => j ∉ filter) (fun i => dot (X u) (Y i)) (fun i => Spec.scoreError r.u r.η (X u) (Y i)) out := by
  obtain ⟨m', e1, e2, e3, e4, e5⟩ := C94_float hru hrη hsu hsη hr hs hΩ hΩ' h0 h1 he hlr hlr1 hreg hf (negProp := negProp) hC hn hn' hT hd hmu hmi hu hi
  have values : ∀ (l : List (Vec (factors + 2) (Option ℝ))) (n : Nat), l.length = n → (∀ x ∈ l, ∀ a, Within 41 (x a)) →
      ∃ X : Fin n → Vec (factors + 2) ℝ, l = List.ofFn (fun u a => some (X u a)) ∧ ∀ u a, |X u a| ≤ 41 := by
    rintro l n rfl hl
    choose X hX using fun (u : Fin l.length) (a : Fin (factors + 2)) => hl _ (List.getElem_mem u.2) a
    refine ⟨X, ?_, fun u a => (hX u a).2⟩
    refine List.ext_getElem (by simp) fun i h1 h2 => ?_
    rw [List.getElem_ofFn]
    funext a
    exact (hX ⟨i, h1⟩ a).1
  obtain ⟨X, hX, hX'⟩ := values m'.user _ e2 e4
  obtain ⟨Y, hY, hY'⟩ := values m'.item _ e3 e5
  refine ⟨m', X, Y, e1, hX, hY, fun u order filter k ho hk hmany => ?_⟩
  refine C100_recommend r Ω order ho filter k hk (X u) Y (fun i _ => ?_) hmany
  have hF : ((factors + 2 : Nat) : ℝ) ≤ 1000 := by exact_mod_cast Nat.add_le_add_right hf 2
  have hF0 : (0 : ℝ) ≤ ((factors + 2 : Nat) : ℝ) := Nat.cast_nonneg _
  refine (range_of_entries r.u_nonneg r.η_nonneg ?_ (hX' u) (hY' i)).trans_lt ?_
  · have := r.u_nonneg
    nlinarith
  · refine lt_of_lt_of_le ?_ hΩ
    have h5 : 4 * ((factors + 2 : Nat) : ℝ) * r.η ≤ 4000 := by
      have : r.η ≤ 1 := hrη.trans (by norm_num)
      have := r.η_nonneg
      nlinarith
    have h6 : 2 * (((factors + 2 : Nat) : ℝ) * 41 ^ 2) ≤ 2 * (1000 * 41 ^ 2) := by linarith
    refine (add_le_add h6 h5).trans_lt ?_
    norm_num

/-- The example of C94: three users and two items, and the best item but item 0 for user 0. -/
example : ∃ (m' : Factors 3 (Option ℝ)) (X : Fin 3 → Vec 3 ℝ) (Y : Fin 2 → Vec 3 ℝ) (out : List (ℝ × Nat)),
    limitLmfFit (factors := 1) (ieee 24 (-149)) (ieee 53 (-1074)) ((2 - 1 / 2 ^ 23) * 2 ^ 127) ((2 - 1 / 2 ^ 52) * 2 ^ 1023) Real.exp
      (1 / 10 ^ 6) 1 (6 / 10) 30 2 [[(0, some 1), (1, some 2)], [], [(1, some 999999)]] (List.replicate 30 ⟨fun _ k => k % 3, fun _ k => k % 2⟩)
      ⟨[fun _ => some 1, fun _ => some 0, fun _ => some (-3)], [fun _ => some 2, fun _ => some 1]⟩ = .ok m' ∧
    extRecommend (ieee 24 (-149)) ((2 - 1 / 2 ^ 23) * 2 ^ 127) (fun _ => .fma 0 (.add (.leaf 1) (.leaf 2))) [0] 1 (X 0) Y =
      .ok (out.map fun p => (.fin p.1, p.2)) ∧ out.length = 1 := by
  obtain ⟨h1, h2, h3, h4, h5, h6, h7, h8⟩ := float_sizes
  obtain ⟨m', X, Y, e1, -, -, e2⟩ := C100_lmf (factors := 1) h1 h2 h3 h4 h5 h6 h7 h8 (ex := Real.exp) (fun x => (Real.exp_pos x).le)
    (fun x hx => Real.exp_le_one_iff.mpr hx) (eps := 1 / 10 ^ 6) (lr := 1) (reg := 6 / 10) (by norm_num) (by norm_num) le_rfl
    (by rw [abs_of_nonneg (by norm_num)]; norm_num) (by norm_num) (negProp := 30) (cols := 2)
    (C := [[(0, some 1), (1, some 2)], [], [(1, some 999999)]]) (by
      intro row hrow e he
      simp only [List.mem_cons, List.not_mem_nil, or_false] at hrow
      rcases hrow with rfl | rfl | rfl
      · simp only [List.mem_cons, List.not_mem_nil, or_false] at he
        rcases he with rfl | rfl
        · exact ⟨by norm_num, 1, rfl, by norm_num⟩
        · exact ⟨by norm_num, 2, rfl, by norm_num⟩
      · simp at he
      · simp only [List.mem_cons, List.not_mem_nil, or_false] at he
        rw [he]
        exact ⟨by norm_num, 999999, rfl, by norm_num⟩) (by simp) (by simp [transposeRows, List.range_succ])
    (draws := List.replicate 30 ⟨fun _ k => k % 3, fun _ k => k % 2⟩) (by simp)
    (fun d hd u k => by
      rw [List.eq_of_mem_replicate hd]
      simp only [List.flatten_cons, List.cons_append, List.nil_append, List.flatten_nil, List.length_cons, List.length_nil]
      omega)
    (m := ⟨[fun _ => some 1, fun _ => some 0, fun _ => some (-3)], [fun _ => some 2, fun _ => some 1]⟩) rfl rfl
    (by simp [Within]; norm_num [abs_le]) (by simp [Within]; norm_num)
  obtain ⟨out, o1, o2⟩ := e2 ⟨0, by simp⟩ (fun _ => .fma 0 (.add (.leaf 1) (.leaf 2))) [0] 1 (fun _ => by unfold SumTree.Complete; decide) le_rfl (by decide)
  exact ⟨m', X, Y, out, e1, o1, o2.length⟩

end Implicit
