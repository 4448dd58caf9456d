import Verif.Props.C101
/-!
# C101: the assumptions of the theorem on BPR recommendations hold for a small training run
-/

namespace Implicit

open Spec

theorem example_likes (u i : Nat) (h : Likes [[0], [1]] u i) : i < 2 := by
  obtain ⟨r, hr, hi⟩ := h
  match u, hr with
  | 0, hr => cases hr; rw [List.mem_singleton.mp hi]; norm_num
  | 1, hr => cases hr; rw [List.mem_singleton.mp hi]; norm_num

theorem example_epochs (e : BprEpoch Unit) (he : e ∈ List.replicate 3 (oneThread true (bprRows true [[0], [1]]) 4 [(0, 1), (1, 0)])) :
    e.Valid true (bprRows true [[0], [1]]) 4 := by
  rw [List.eq_of_mem_replicate he]
  refine oneThread_valid _ _ _ _ ?_ ?_
  · have : (bprRows true [[0], [1]]).flatten.length = 2 := by decide +kernel
    rw [this]
    simp
  · decide +kernel

/-- Two users, two items, 4 factors, three epochs; the score of one item for the first user, who has the other one. -/
example (σ : Unit → BprScratch (Option ℝ)) :
    ∃ (m' : BprCell → Option ℝ) (x' : BprCell → ℝ) (out : List (ℝ × Nat)),
      (limitOps (ieee 24 (-149)) (2 ^ 127)).bprFit 2 2 4 (limitBprSig (ieee 24 (-149)) (ieee 53 (-1074)) (2 ^ 127) (2 ^ 200) Real.exp) (some (1 / 2))
        (some (1 / 100)) (some (1 / 100)) σ (List.replicate 3 (oneThread true (bprRows true [[0], [1]]) 4 [(0, 1), (1, 0)]))
        (fun c => some (roundBprInit (ieee 24 (-149)) 4 (fun _ _ => 1 / 4) (fun _ _ => 0) (bprRows true [[0], [1]]) c)) = .ok m' ∧
      HasValues 2 2 4 m' x' ∧
      extRecommend (ieee 24 (-149)) (2 ^ 127) (fun _ => (SumTree.fma 4 (.fma 3 (.fma 2 (.fma 1 (.leaf 0)))) : SumTree 5)) [0] 1 (fun j => x' (.user 0 j))
        (fun (i : Fin 2) j => x' (.item i j)) = .ok (out.map fun p => (.fin p.1, p.2)) ∧ out.length = 1 := by
  obtain ⟨m', x', h1, h2, h3⟩ := C101_bpr_recommend (Th := Unit) (items := 2) (factors := 4) (Ω := 2 ^ 127) (Ω' := 2 ^ 200) (by norm_num)
    (ex := Real.exp) (fun x => (Real.exp_pos x).le) (fun x _ => by linarith [Real.exp_pos x]) (lr := 1 / 100) (reg := 1 / 100)
    (by norm_num) (by norm_num) (by norm_num) (by norm_num) [[0], [1]] (by norm_num) (by norm_num) example_likes σ _ example_epochs
    (by simp [nnz]) (some (1 / 2)) (fun _ _ => 1 / 4) (fun _ _ => 0) (by norm_num) (by norm_num)
  obtain ⟨out, h4, h5⟩ := h3 0 (by simp) (fun _ => (SumTree.fma 4 (.fma 3 (.fma 2 (.fma 1 (.leaf 0)))) : SumTree 5)) [0] 1
    (fun _ => by unfold SumTree.Complete; decide) le_rfl (by decide)
  exact ⟨m', x', out, h1, h2, h4, h5.length⟩

end Implicit
