import Verif.Lemmas.GpuDot
/-!
# C52: the dot product of a thread block

`Spec.blockDots n inp k` is the list of the true values of `k` successive dot products of `n` threads.
-/

namespace Implicit

open Spec

set_option linter.unusedSectionVars false

variable {R : Type} [LinearOrder R] [Field R]

/-! ## Kernels with a barrier between any two calls -/

theorem execCalls_multi {n : Nat} (h32 : 32 < n) (hmax : n ≤ 1024) {undef : Nat → Fin 32 → R}
    (hu : Tame n undef) (inp : Nat → List R → R) :
    ∀ (p : List DotCmd), Separated p → ∀ (k : Nat) (ws : List (List (Fin (numWarps n) × (Nat × DotInstr))))
      (σ : Fin (numWarps n) → DotScratch R) (m : Nat → R), IsPhased (dotProgram n p) ws →
      (∀ t, (σ t).outs = blockDots n inp k) →
      ∀ t, ((execPhases (dotAct n undef inp) ws σ m).1 t).outs = blockDots n inp (k + p.count .call)
  | [], _, k, ws, σ, m, hws, hσ => by
    cases hws with
    | cons h1 hr =>
      cases hr
      intro t
      have := exec_reads (n := n) undef inp _ (fun q hq => absurd (mem_of_stream hq) (by rw [h1]; simp)) σ m
      simp only [execPhases]
      rw [this.2 t, h1]
      simp [hσ]
  | .sync :: p, hp, k, ws, σ, m, hws, hσ => by
    cases hws with
    | @cons _ b _ l h1 hr =>
      have := exec_reads (n := n) undef inp b (fun q hq => absurd (mem_of_stream hq) (by rw [h1]; simp)) σ m
      have ih := execCalls_multi h32 hmax hu inp p hp.tail k l
        (execInterleaved (dotAct n undef inp) b σ m).1 (execInterleaved (dotAct n undef inp) b σ m).2 hr
        (fun t => by rw [this.2 t, h1]; simp [hσ])
      simpa [execPhases] using ih
  | [.call], _, k, ws, σ, m, hws, hσ => by
    have hd : dotProgram n [.call] = [fun w => [(w.val, .store)],
        fun w => if w.val = 0 then [(w.val, .reduce), (w.val, .broadcast)] else [],
        fun w => [(w.val, .read)]] := by
      simp [dotProgram, dotPhases, Nat.not_le.mpr h32, glue]
    rw [hd] at hws
    cases hws with
    | cons ha hr => cases hr with
    | cons hb hr => cases hr with
    | @cons _ wc _ _ hc hr =>
      cases hr
      obtain ⟨h1, h2⟩ := exec_call h32 hmax hu inp _ _ ha hb _ σ hσ m
      have h3 := fun σ m => exec_reads (n := n) undef inp wc
        (fun q hq => by have := mem_of_stream hq; rw [hc] at this; simp at this; rw [this]) σ m
      intro t
      simp only [execPhases]
      rw [(h3 _ _).2 t, hc, h1 t, h2]
      simp [blockDots]
  | .call :: .call :: p, hp, k, ws, σ, m, hws, hσ => by
    exact absurd ⟨rfl, rfl⟩ (List.isChain_cons_cons.mp hp).1
  | .call :: .sync :: p, hp, k, ws, σ, m, hws, hσ => by
    have hd : dotProgram n (.call :: .sync :: p) = (fun w => [(w.val, .store)]) ::
        (fun w => if w.val = 0 then [(w.val, .reduce), (w.val, .broadcast)] else []) ::
        (fun w => [(w.val, .read)]) :: dotProgram n p := by
      simp [dotProgram, dotPhases, Nat.not_le.mpr h32, glue]
    rw [hd] at hws
    cases hws with
    | cons ha hr => cases hr with
    | cons hb hr => cases hr with
    | @cons _ wc _ _ hc hr =>
      obtain ⟨h1, h2⟩ := exec_call h32 hmax hu inp _ _ ha hb _ σ hσ m
      have h3 := fun σ m => exec_reads (n := n) undef inp wc
        (fun q hq => by have := mem_of_stream hq; rw [hc] at this; simp at this; rw [this]) σ m
      intro t
      simp only [execPhases]
      rw [execCalls_multi h32 hmax hu inp p hp.tail.tail (k + 1) _ _ _ hr
        (fun t => by rw [(h3 _ _).2 t, hc, h1 t, h2]; simp [blockDots])]
      simp [Nat.add_assoc, Nat.add_comm 1]

/-! ## Blocks of one warp -/

theorem execCalls_single {n : Nat} (hn : 0 < n) (h32 : n ≤ 32) {undef : Nat → Fin 32 → R}
    (hu : Tame n undef) (inp : Nat → List R → R) (z : Fin (numWarps n)) (hz : z.val = 0) :
    ∀ (p : List DotCmd) (k : Nat) (pre : List (Nat × DotInstr)) (_ : pre = [] ∨ pre = [(0, .read)])
      (s : DotScratch R) (m : Nat → R), s.outs = blockDots n inp k →
      (pre = [] ∨ m 0 = ∑ i ∈ Finset.range n, inp i (blockDots n inp k)) →
      (runInstrs (dotAct n undef inp)
        (pre ++ (dotProgram n p).flatMap fun ph => ph z) s m).1.outs =
        blockDots n inp (k + pre.length + p.count .call) := by
  have hW : 0 < numWarps n := by unfold numWarps; omega
  have hread : ∀ (k : Nat) (pre : List (Nat × DotInstr)) (_ : pre = [] ∨ pre = [(0, .read)])
      (s : DotScratch R) (m : Nat → R), s.outs = blockDots n inp k →
      (pre = [] ∨ m 0 = ∑ i ∈ Finset.range n, inp i (blockDots n inp k)) →
      (runInstrs (dotAct n undef inp) pre s m).1.outs = blockDots n inp (k + pre.length) := by
    intro k pre hpre s m hs hm
    rcases hpre with rfl | rfl
    · simpa [runInstrs] using hs
    · rcases hm with hm | hm
      · simp at hm
      · simp [runInstrs, dotAct, hs, hm, blockDots]
  intro p
  induction p with
  | nil =>
    intro k pre hpre s m hs hm
    simpa [dotProgram] using hread k pre hpre s m hs hm
  | cons c p ih =>
    intro k pre hpre s m hs hm
    cases c with
    | sync =>
      simpa [dotProgram] using ih k pre hpre s m hs hm
    | call =>
      have hd : ∀ q : List (Phase (numWarps n)), q ≠ [] →
          (glue (dotPhases n) q).flatMap (fun ph => ph z) =
            (0, .store) :: (0, .read) :: q.flatMap fun ph => ph z := by
        intro q hq
        cases q with
        | nil => exact absurd rfl hq
        | cons b q => simp [dotPhases, h32, glue, hz]
      have hne : dotProgram n p ≠ [] := by
        cases p with
        | nil => simp [dotProgram]
        | cons c p =>
          cases c with
          | sync => simp [dotProgram]
          | call =>
            simp only [dotProgram, dotPhases, h32, if_true]
            cases dotProgram n p <;> simp [glue]
      have hs' := hread k pre hpre s m hs hm
      rw [dotProgram, hd _ hne, run_append]
      have hstore : ∀ (s : DotScratch R) (m : Nat → R) (rest : List (Nat × DotInstr)),
          runInstrs (dotAct n undef inp) ((0, .store) :: rest) s m =
          runInstrs (dotAct n undef inp) rest s (Function.update m 0
            (warpReduce undef (activeLanes n 0) (fun l => inp (32 * 0 + l.val) s.outs) 0)) :=
        fun s m rest => rfl
      rw [hstore]
      have := ih (k + pre.length) [(0, .read)] (Or.inr rfl) _ (Function.update
        (runInstrs (dotAct n undef inp) pre s m).2 0 (warpReduce undef (activeLanes n 0)
          (fun l => inp (32 * 0 + l.val) (runInstrs (dotAct n undef inp) pre s m).1.outs) 0)) hs' (by
        right
        rw [Function.update_self, warpReduce_tame hu hW, hs',
          ← sum_threads (fun i => inp i (blockDots n inp (k + pre.length)))]
        have : numWarps n = 1 := by unfold numWarps; omega
        rw [this]
        simp)
      simpa [Nat.add_assoc, Nat.add_comm 1] using this

theorem execPhases_single {I Sc Addr V Th : Type} [DecidableEq Th] [Subsingleton Th] (act : Act I Sc Addr V)
    (t : Th) (ws : List (List (Th × I))) (σ : Th → Sc) (m : Addr → V) :
    (execPhases act ws σ m).1 t = (runInstrs act (ws.flatMap fun w => streamOf t w) (σ t) m).1 := by
  induction ws generalizing σ m with
  | nil => rfl
  | cons w ws ih =>
    obtain ⟨h1, h2⟩ := exec_single act t w σ m
    rw [execPhases, ih, List.flatMap_cons, run_append, h1, h2]

theorem phased_flat {W : Nat} {phases : List (Phase W)} {ws : List (List (Fin W × (Nat × DotInstr)))}
    (h : IsPhased phases ws) (t : Fin W) :
    (ws.flatMap fun w => streamOf t w) = phases.flatMap fun ph => ph t := by
  induction h with
  | nil => rfl
  | cons h1 _ ih => simp only [List.flatMap_cons, ih, h1 t]

/-- A block of one warp: `dot` is right in any kernel. -/
theorem C52_single_warp_partial {n : Nat} (hn : 0 < n) (h32 : n ≤ 32) {undef : Nat → Fin 32 → R}
    (hu : Tame n undef) (inp : Nat → List R → R) (p : List DotCmd)
    (ws : List (List (Fin (numWarps n) × (Nat × DotInstr)))) (hws : IsPhased (dotProgram n p) ws)
    (acc : Fin (numWarps n) → R) (m : Nat → R) (t : Fin (numWarps n)) :
    ((execPhases (dotAct n undef inp) ws (fun t => ⟨acc t, []⟩) m).1 t).outs =
      blockDots n inp (p.count .call) := by
  have hW : numWarps n = 1 := by unfold numWarps; omega
  have : Subsingleton (Fin (numWarps n)) := by rw [hW]; infer_instance
  have ht : t.val = 0 := by have := t.isLt; omega
  rw [execPhases_single, phased_flat hws t]
  simpa using execCalls_single hn h32 hu inp t ht p 0 [] (Or.inl rfl) ⟨acc t, []⟩ m rfl (Or.inl rfl)

/-- Every execution of a kernel with a barrier between any two calls of `dot`: each thread gets, from each
call, the sum over all threads of the block.  Partial: kernels that call `dot` twice without a barrier in
between are excluded, and so are partly filled warps unless absent lanes deliver zeros. -/
theorem C52_calls_partial {n : Nat} (hn : 0 < n) (hmax : n ≤ 1024) {undef : Nat → Fin 32 → R}
    (hu : Tame n undef) (inp : Nat → List R → R) (p : List DotCmd) (hp : Separated p)
    (ws : List (List (Fin (numWarps n) × (Nat × DotInstr)))) (hws : IsPhased (dotProgram n p) ws)
    (acc : Fin (numWarps n) → R) (m : Nat → R) (t : Fin (numWarps n)) :
    ((execPhases (dotAct n undef inp) ws (fun t => ⟨acc t, []⟩) m).1 t).outs =
      blockDots n inp (p.count .call) := by
  by_cases h32 : n ≤ 32
  · exact C52_single_warp_partial hn h32 hu inp p ws hws acc m t
  · simpa using execCalls_multi (by omega) hmax hu inp p hp 0 ws (fun t => ⟨acc t, []⟩) m hws
      (fun _ => rfl) t

/-- One call: every thread gets the dot product of the two vectors held by the block. -/
theorem C52_dot_partial {n : Nat} (hn : 0 < n) (hmax : n ≤ 1024) {undef : Nat → Fin 32 → R}
    (hu : Tame n undef) (a b : Nat → R)
    (ws : List (List (Fin (numWarps n) × (Nat × DotInstr)))) (hws : IsPhased (dotProgram n [.call]) ws)
    (acc : Fin (numWarps n) → R) (m : Nat → R) (t : Fin (numWarps n)) :
    ((execPhases (dotAct n undef fun i _ => a i * b i) ws (fun t => ⟨acc t, []⟩) m).1 t).outs =
      [∑ i ∈ Finset.range n, a i * b i] := by
  have := C52_calls_partial hn hmax hu (fun i _ => a i * b i) [.call] (by simp [Separated]) ws hws acc m t
  simpa [blockDots] using this

/-! ## Without barriers, warp 0 is still served -/

theorem blockDots_length (n : Nat) (inp : Nat → List R → R) (k : Nat) : (blockDots n inp k).length = k := by
  induction k with
  | zero => rfl
  | succ k ih => simp [blockDots, ih]

theorem dotProgram_ne_nil (n : Nat) (p : List DotCmd) : dotProgram n p ≠ [] := by
  cases p with
  | nil => simp [dotProgram]
  | cons c p =>
    cases c with
    | sync => simp [dotProgram]
    | call =>
      simp only [dotProgram, dotPhases]
      split <;> cases dotProgram n p <;> simp [glue]

theorem execCalls_warp0 {n : Nat} (h32 : 32 < n) (hmax : n ≤ 1024) {undef : Nat → Fin 32 → R}
    (hu : Tame n undef) (inp : Nat → Nat → R) :
    ∀ (p : List DotCmd) (rd : Bool) (k : Nat)
      (ws : List (List (Fin (numWarps n) × (Nat × DotInstr))))
      (σ : Fin (numWarps n) → DotScratch R) (m : Nat → R),
      IsPhased (glue [fun t => if rd then [(t.val, .read)] else []] (dotProgram n p)) ws →
      (∀ t, (σ t).outs.length = k) →
      (∀ t : Fin (numWarps n), t.val = 0 → (σ t).outs = blockDots n (fun i outs => inp outs.length i) k) →
      (rd = true → m 0 = ∑ i ∈ Finset.range n, inp k i) →
      ∀ t : Fin (numWarps n), t.val = 0 →
        ((execPhases (dotAct n undef fun i outs => inp outs.length i) ws σ m).1 t).outs =
          blockDots n (fun i outs => inp outs.length i) (k + (if rd then 1 else 0) + p.count .call) := by
  have hW : 0 < numWarps n := by unfold numWarps; omega
  have hW32 : numWarps n ≤ 32 := by unfold numWarps; omega
  intro p
  induction p with
  | nil =>
    intro rd k ws σ m hws hlen hσ hm t ht
    cases hws with
    | @cons _ w _ l h1 hr =>
      cases hr
      have q := exec_quiet (n := n) undef inp w (fun q hq => by
        have := mem_of_stream hq
        rw [h1] at this
        cases rd <;> simp at this
        rw [this]) σ σ (fun _ => rfl) (fun _ => rfl) (fun _ _ => rfl) m
      have f := (quiet_first (n := n) undef inp rd false w (fun t => by rw [h1]; simp) σ m).1 t ht
      simp only [execPhases]
      rw [q.2.2.2 t ht, f, hσ t ht]
      cases rd
      · simp
      · simp [hm rfl, blockDots, blockDots_length]
  | cons c p ih =>
    intro rd k ws σ m hws hlen hσ hm t ht
    cases c with
    | sync =>
      cases hws with
      | @cons _ w _ l h1 hr =>
        have q := exec_quiet (n := n) undef inp w (fun q hq => by
          have := mem_of_stream hq
          rw [h1] at this
          cases rd <;> simp at this
          rw [this]) σ σ (fun _ => rfl) (fun _ => rfl) (fun _ _ => rfl) m
        obtain ⟨f1, f2, _⟩ := quiet_first (n := n) undef inp rd false w (fun t => by rw [h1]; simp) σ m
        have hr' : IsPhased (glue [fun t => if false then [(t.val, .read)] else []] (dotProgram n p)) l := by
          cases hd : dotProgram n p with
          | nil => exact absurd hd (dotProgram_ne_nil n p)
          | cons b q => rw [hd] at hr; simpa [glue, IsPhased] using hr
        have := ih false (k + if rd then 1 else 0) l
          (execInterleaved (dotAct n undef fun k outs => inp outs.length k) w σ m).1
          (execInterleaved (dotAct n undef fun k outs => inp outs.length k) w σ m).2 hr'
          (fun t => by rw [q.2.2.1 t, f2 t, hlen t])
          (fun t ht => by
            rw [q.2.2.2 t ht, f1 t ht, hσ t ht]
            cases rd
            · simp
            · simp [hm rfl, blockDots, blockDots_length]) (by simp) t ht
        simp only [execPhases]
        rw [this]
        simp
    | call =>
      have hd : glue [fun t => if rd then [(t.val, .read)] else []] (dotProgram n (.call :: p)) =
          (fun t => (if rd then [(t.val, .read)] else []) ++ [(t.val, .store)]) ::
          (fun w => if w.val = 0 then [(w.val, .reduce), (w.val, .broadcast)] else []) ::
          glue [fun t => if true then [(t.val, .read)] else []] (dotProgram n p) := by
        simp [dotProgram, dotPhases, Nat.not_le.mpr h32, glue]
      rw [hd] at hws
      cases hws with
      | @cons _ wa _ l ha hr => cases hr with
      | @cons _ wb _ l hb hr =>
        have qa := exec_quiet (n := n) undef inp wa (fun q hq => by
          have := mem_of_stream hq
          rw [ha] at this
          cases rd <;> simp at this
          · rw [this]
          · rcases this with h | h <;> rw [h]) σ σ (fun _ => rfl) (fun _ => rfl) (fun _ _ => rfl) m
        obtain ⟨f1, f2, f3⟩ := quiet_first (n := n) undef inp rd true wa (fun t => by rw [ha]; simp) σ m
        have qb := exec_quiet (n := n) undef inp wb (fun q hq => by
          have := mem_of_stream hq
          rw [hb] at this
          by_cases h0 : q.1.val = 0
          · simp only [h0, if_true] at this
            simp at this
            rw [h0]
            rcases this with h | h <;> rw [h]
          · simp [h0] at this) _ _ qa.2.1 qa.2.2.1 qa.2.2.2
            (execInterleaved (dotQuiet n undef inp) wa σ m).2
        obtain ⟨g1, g2⟩ := quiet_second (n := n) hW undef inp wb hb
          (execInterleaved (dotQuiet n undef inp) wa σ m).1 (execInterleaved (dotQuiet n undef inp) wa σ m).2
        have := fun M' hM' => ih true (k + if rd then 1 else 0) l
          (execInterleaved (dotAct n undef fun k outs => inp outs.length k) wb
            (execInterleaved (dotAct n undef fun k outs => inp outs.length k) wa σ m).1
            (execInterleaved (dotQuiet n undef inp) wa σ m).2).1 M' hr
          (fun t => by rw [qb.2.2.1 t, g1 t, f2 t, hlen t])
          (fun t ht => by
            rw [qb.2.2.2 t ht, g1 t, f1 t ht, hσ t ht]
            cases rd
            · simp
            · simp [hm rfl, blockDots, blockDots_length]) hM' t ht
        simp only [execPhases]
        rw [qa.1, this]
        · simp [Nat.add_assoc, Nat.add_comm 1]
        · intro _
          rw [qb.1, g2, activeLanes_full (by omega), warpReduce_full, sum_warps hW32, ← sum_tame hu]
          refine Finset.sum_congr rfl fun w hw => ?_
          rw [f3 rfl ⟨w, Finset.mem_range.mp hw⟩, hlen]

/-- Kernels that only need the results in thread 0, with inputs that do not depend on earlier results (as
`calculate_norms_kernel`, `implicit/gpu/matrix.cu:173-187`), are right even without barriers. -/
theorem C52_thread0_partial {n : Nat} (hn : 0 < n) (hmax : n ≤ 1024) {undef : Nat → Fin 32 → R}
    (hu : Tame n undef) (inp : Nat → Nat → R) (p : List DotCmd)
    (ws : List (List (Fin (numWarps n) × (Nat × DotInstr)))) (hws : IsPhased (dotProgram n p) ws)
    (acc : Fin (numWarps n) → R) (m : Nat → R) (t : Fin (numWarps n)) (ht : t.val = 0) :
    ((execPhases (dotAct n undef fun i outs => inp outs.length i) ws (fun t => ⟨acc t, []⟩) m).1 t).outs =
      (List.range (p.count .call)).map fun k => ∑ i ∈ Finset.range n, inp k i := by
  have hB : ∀ k, blockDots n (fun i outs => inp outs.length i) k =
      (List.range k).map fun k => ∑ i ∈ Finset.range n, inp k i := by
    intro k
    induction k with
    | zero => rfl
    | succ k ih => rw [blockDots, List.range_succ, List.map_append, ← ih, blockDots_length]; rfl
  rw [← hB]
  by_cases h32 : n ≤ 32
  · exact C52_single_warp_partial hn h32 hu _ p ws hws acc m t
  · have hws' : IsPhased (glue [fun t => if false then [(t.val, .read)] else []] (dotProgram n p)) ws := by
      cases hd : dotProgram n p with
      | nil => exact absurd hd (dotProgram_ne_nil n p)
      | cons b q => rw [hd] at hws; simpa [glue, IsPhased] using hws
    simpa using execCalls_warp0 (by omega) hmax hu inp p false 0 ws (fun t => ⟨acc t, []⟩) m hws'
      (fun _ => rfl) (fun _ _ => rfl) (by simp) t ht

/-! ## Two calls without a barrier in between -/

/-- Two calls without a barrier in between, in a block of several full warps: unless the second result
happens to hide it, there is an execution in which warp 1 takes the partial sum that warp 0 already left for
the second call for the result of the first. -/
theorem C52_race_violated {n : Nat} (h32 : 32 < n) (hmax : n ≤ 1024) (hn : n % 32 = 0)
    (undef : Nat → Fin 32 → R) (inp : Nat → List R → R)
    (hdiff : (∑ i ∈ Finset.range 32, inp i [∑ i ∈ Finset.range n, inp i []]) ≠
      ∑ i ∈ Finset.range n, inp i []) (p : List DotCmd) :
    ∃ ws, IsPhased (dotProgram n (.call :: .call :: p)) ws ∧
      ∀ (acc : Fin (numWarps n) → R) (m : Nat → R), ∃ t : Fin (numWarps n),
        ((execPhases (dotAct n undef inp) ws (fun t => ⟨acc t, []⟩) m).1 t).outs ≠
          blockDots n inp (2 + p.count .call) := by
  have hu : Tame n undef := Or.inl hn
  have hW : 1 < numWarps n := by unfold numWarps; omega
  let z : Fin (numWarps n) := ⟨0, by omega⟩
  let o : Fin (numWarps n) := ⟨1, hW⟩
  let rest := (List.finRange (numWarps n)).filter fun t => t ≠ z ∧ t ≠ o
  let order := z :: o :: rest
  have hzo : z ≠ o := by simp [z, o]
  have hnd : order.Nodup := by
    simp only [order, List.nodup_cons, List.mem_cons, not_or]
    refine ⟨⟨hzo, by simp [rest]⟩, by simp [rest], (List.nodup_finRange _).filter _⟩
  have hall : ∀ t, t ∈ order := by
    intro t
    by_cases h1 : t = z
    · simp [order, h1]
    · by_cases h2 : t = o
      · simp [order, h2]
      · simp [order, rest, h1, h2]
  have hserial : ∀ ph : Phase (numWarps n), ∀ t, streamOf t (serialPhase order ph) = ph t := by
    intro ph t
    rw [streamOf_serial ph t order hnd, if_pos (hall t)]
  have hphased : ∀ phases : List (Phase (numWarps n)), IsPhased phases (phases.map (serialPhase order)) := by
    intro phases
    induction phases with
    | nil => exact List.Forall₂.nil
    | cons ph phases ih => exact List.Forall₂.cons (hserial ph) ih
  refine ⟨_, hphased _, fun acc m => ⟨o, fun hcontra => ?_⟩⟩
  have hd : ∃ rest, dotProgram n (.call :: .call :: p) =
      (fun w => [(w.val, .store)]) ::
      (fun w => if w.val = 0 then [(w.val, .reduce), (w.val, .broadcast)] else []) ::
      (fun w => [(w.val, .read), (w.val, .store)]) :: rest := by
    simp [dotProgram, dotPhases, Nat.not_le.mpr h32, glue]
  obtain ⟨tl, hd⟩ := hd
  rw [hd] at hcontra
  simp only [List.map_cons, execPhases] at hcontra
  obtain ⟨h1, h2⟩ := exec_call h32 hmax hu inp _ _ (hserial fun w => [(w.val, .store)])
    (hserial fun w => if w.val = 0 then [(w.val, .reduce), (w.val, .broadcast)] else []) []
    (fun t => ⟨acc t, []⟩) (fun _ => rfl) m
  generalize execInterleaved (dotAct n undef inp) (serialPhase order fun w => [(w.val, .store)])
    (fun t => ⟨acc t, []⟩) m = a at *
  generalize execInterleaved (dotAct n undef inp) (serialPhase order fun w =>
    if w.val = 0 then [(w.val, .reduce), (w.val, .broadcast)] else []) a.1 a.2 = b at *
  have hw3 : serialPhase order (fun w => [(w.val, .read), (w.val, .store)]) =
      [(z, (0, .read)), (z, (0, .store)), (o, (1, .read))] ++
        ((o, (1, .store)) :: serialPhase rest fun w => [(w.val, .read), (w.val, .store)]) := by
    simp [serialPhase, order, z, o]
  rw [hw3, execInterleaved_append'] at hcontra
  set c := execInterleaved (dotAct n undef inp) [(z, (0, .read)), (z, (0, .store)), (o, (1, .read))] b.1 b.2
    with hc
  have hco : (c.1 o).outs = [∑ i ∈ Finset.range 32, inp i [∑ i ∈ Finset.range n, inp i []]] := by
    have hoz : ¬ o = z := fun e => hzo e.symm
    rw [hc]
    simp only [execInterleaved, dotAct, Function.update_self, Function.update_of_ne hoz, h1, h2,
      List.nil_append]
    rw [activeLanes_full (by omega), warpReduce_full]
    simp [Fin.sum_univ_eq_sum_range (fun k => inp k [∑ i ∈ Finset.range n, inp i []]) 32]
  have hpre : (c.1 o).outs <+: blockDots n inp (2 + p.count .call) := by
    rw [← hcontra]
    exact (outs_prefix _ _ _ _ _ _).trans (outs_prefix_phases _ _ _ _ _ _)
  rw [hco] at hpre
  have hB : blockDots n inp (2 + p.count .call) = (∑ i ∈ Finset.range n, inp i []) ::
      (blockDots n inp (2 + p.count .call)).tail := by
    generalize p.count .call = k
    rw [Nat.add_comm]
    induction k with
    | zero => simp [blockDots]
    | succ k ih =>
      rw [show k + 1 + 2 = (k + 2) + 1 by ring, blockDots, ih]
      simp
  rw [hB, List.cons_prefix_cons] at hpre
  exact hdiff hpre.1

/-- `least_squares_cg_kernel` calls `dot` for two stored entries of a row without a barrier in between
(`implicit/gpu/als.cu:54-64`), and so do `calculate_loss_kernel` and `bpr_update_kernel` from one row or sample
to the next. -/
theorem C52_als_violated {n : Nat} (h32 : 32 < n) (hmax : n ≤ 1024) (hn : n % 32 = 0)
    (undef : Nat → Fin 32 → R) (inp : Nat → List R → R)
    (hdiff : (∑ i ∈ Finset.range 32, inp i [∑ i ∈ Finset.range n, inp i []]) ≠
      ∑ i ∈ Finset.range n, inp i []) (entries steps rows : Nat) :
    (∃ ws, IsPhased (dotProgram n (alsRowCmds (entries + 2) steps)) ws ∧
      ∀ (acc : Fin (numWarps n) → R) (m : Nat → R), ∃ t : Fin (numWarps n),
        ((execPhases (dotAct n undef inp) ws (fun t => ⟨acc t, []⟩) m).1 t).outs ≠
          blockDots n inp ((alsRowCmds (entries + 2) steps).count .call)) ∧
    ∃ ws, IsPhased (dotProgram n (rowCmds (rows + 2))) ws ∧
      ∀ (acc : Fin (numWarps n) → R) (m : Nat → R), ∃ t : Fin (numWarps n),
        ((execPhases (dotAct n undef inp) ws (fun t => ⟨acc t, []⟩) m).1 t).outs ≠
          blockDots n inp ((rowCmds (rows + 2)).count .call) := by
  have key : ∀ q : List DotCmd, (∃ p, q = .call :: .call :: p) →
      ∃ ws, IsPhased (dotProgram n q) ws ∧
      ∀ (acc : Fin (numWarps n) → R) (m : Nat → R), ∃ t : Fin (numWarps n),
        ((execPhases (dotAct n undef inp) ws (fun t => ⟨acc t, []⟩) m).1 t).outs ≠
          blockDots n inp (q.count .call) := by
    rintro q ⟨p, rfl⟩
    have := C52_race_violated h32 hmax hn undef inp hdiff p
    simpa [Nat.add_assoc, Nat.add_comm 2] using this
  exact ⟨key _ ⟨_, by simp [alsRowCmds, List.replicate_succ]; rfl⟩,
    key _ ⟨_, by simp [rowCmds, List.replicate_succ]; rfl⟩⟩

/-! ## Partly filled warps -/

theorem undef_matters : ∀ active : Nat, 0 < active → active < 32 →
    ∃ undef : Nat → Fin 32 → Rat, warpReduce undef active (fun _ => 0) 0 = 1 := by
  intro active h0 h32
  refine ⟨fun o l => if o = 16 ∧ l.val = (if active ≤ 16 then 16 else 31) then 1 else 0, ?_⟩
  interval_cases active <;> decide +kernel

theorem sum_padding {n : Nat} (hn : n % 32 ≠ 0) {undef : Nat → Fin 32 → Rat}
    (hu : warpReduce undef (n % 32) (fun _ => 0) 0 = 1) (g : Nat → Rat) :
    (∑ w ∈ Finset.range (numWarps n),
      warpReduce undef (activeLanes n w) (fun l => g (32 * w + l.val)) 0) =
      (∑ i ∈ Finset.range n, g i) + 1 := by
  have hsplit : ∀ w, warpReduce undef (activeLanes n w) (fun l => g (32 * w + l.val)) 0 =
      warpReduce (fun _ _ => 0) (activeLanes n w) (fun l => g (32 * w + l.val)) 0 +
        warpReduce undef (activeLanes n w) (fun _ => 0) 0 := by
    intro w
    have := congrFun (warpReduce_add (fun _ _ => 0) undef (activeLanes n w)
      (fun l => g (32 * w + l.val)) (fun _ => 0)) 0
    simpa using this
  simp only [hsplit]
  rw [Finset.sum_add_distrib, sum_tame (Or.inr rfl) g]
  congr 1
  rw [Finset.sum_eq_single (n / 32)]
  · rw [show activeLanes n (n / 32) = n % 32 by unfold activeLanes; omega, hu]
  · intro w hw hne
    have hw' := Finset.mem_range.mp hw
    unfold numWarps at hw'
    rw [activeLanes_full (by omega), warpReduce_full]
    simp
  · intro h
    exact absurd (Finset.mem_range.mpr (by unfold numWarps; omega)) h

/-- The number of factors is not a multiple of 32: whatever the vectors are, there are values for the absent
lanes - undefined according to the CUDA manual - with which every execution returns something else than the
dot product, to every thread. -/
theorem C52_padding_violated {n : Nat} (hmax : n ≤ 1024) (hn : n % 32 ≠ 0) (a b : Nat → Rat) :
    ∃ undef : Nat → Fin 32 → Rat,
      ∀ (ws : List (List (Fin (numWarps n) × (Nat × DotInstr)))), IsPhased (dotProgram n [.call]) ws →
      ∀ (acc : Fin (numWarps n) → Rat) (m : Nat → Rat) (t : Fin (numWarps n)),
        ((execPhases (dotAct n undef fun i _ => a i * b i) ws (fun t => ⟨acc t, []⟩) m).1 t).outs =
          [(∑ i ∈ Finset.range n, a i * b i) + 1] := by
  obtain ⟨undef, hu⟩ := undef_matters (n % 32) (by omega) (by omega)
  refine ⟨undef, fun ws hws acc m t => ?_⟩
  have hsum := sum_padding hn hu (fun i => a i * b i)
  by_cases h32 : n ≤ 32
  · have hW : numWarps n = 1 := by unfold numWarps; omega
    have hd : dotProgram n [.call] = [fun w => [(w.val, .store)], fun w => [(w.val, .read)]] := by
      simp [dotProgram, dotPhases, h32, glue]
    rw [hd] at hws
    cases hws with
    | @cons _ wa _ _ ha hr => cases hr with
    | @cons _ wc _ _ hc hr =>
      cases hr
      obtain ⟨h1, h2⟩ := exec_store (n := n) undef (fun i _ => a i * b i) wa ha (fun t => ⟨acc t, []⟩) m
      have h3 := fun σ m => exec_reads (n := n) undef (fun i _ => a i * b i) wc
        (fun q hq => by have := mem_of_stream hq; rw [hc] at this; simp at this; rw [this]) σ m
      simp only [execPhases]
      have ht : t.val = 0 := by have := t.isLt; omega
      have h2t := h2 t
      rw [ht] at h2t
      have h1W : Finset.range (numWarps n) = {0} := by rw [hW]; rfl
      rw [(h3 _ _).2 t, hc, h1, h2t, ← hsum, h1W]
      simp
  · have hd : dotProgram n [.call] = [fun w => [(w.val, .store)],
        fun w => if w.val = 0 then [(w.val, .reduce), (w.val, .broadcast)] else [],
        fun w => [(w.val, .read)]] := by
      simp [dotProgram, dotPhases, h32, glue]
    rw [hd] at hws
    cases hws with
    | cons ha hr => cases hr with
    | cons hb hr => cases hr with
    | @cons _ wc _ _ hc hr =>
      cases hr
      obtain ⟨h1, h2⟩ := exec_call_raw (by omega) hmax undef (fun i _ => a i * b i) _ _ ha hb []
        (fun t => ⟨acc t, []⟩) (fun _ => rfl) m
      have h3 := fun σ m => exec_reads (n := n) undef (fun i _ => a i * b i) wc
        (fun q hq => by have := mem_of_stream hq; rw [hc] at this; simp at this; rw [this]) σ m
      simp only [execPhases]
      rw [(h3 _ _).2 t, hc, h1 t, h2, hsum]
      simp

/-! ## Concrete instances -/

/-- 64 threads, each contributing 1 to the first and 3 to the second dot product. -/
def exampleInp (_ : Nat) (outs : List Rat) : Rat := if outs = [] then 1 else 3

abbrev warpA : Fin (numWarps 64) := ⟨0, by decide⟩
abbrev warpB : Fin (numWarps 64) := ⟨1, by decide⟩

/-- Warp 0 runs ahead in the third phase; the barriers are respected. -/
def exampleRace : List (List (Fin (numWarps 64) × (Nat × DotInstr))) :=
  [[(warpB, (1, .store)), (warpA, (0, .store))], [(warpA, (0, .reduce)), (warpA, (0, .broadcast))],
    [(warpA, (0, .read)), (warpA, (0, .store)), (warpB, (1, .read)), (warpB, (1, .store))],
    [(warpA, (0, .reduce)), (warpA, (0, .broadcast))], [(warpA, (0, .read)), (warpB, (1, .read))]]

example : ((execPhases (dotAct 64 (fun _ _ => 0) exampleInp) exampleRace (fun _ => ⟨0, []⟩) fun _ => 0).1 warpA).outs =
    [64, 192] := by decide +kernel

example : ((execPhases (dotAct 64 (fun _ _ => 0) exampleInp) exampleRace (fun _ => ⟨0, []⟩) fun _ => 0).1 warpB).outs =
    [96, 192] := by decide +kernel

example : IsPhased (dotProgram 64 [.call, .call]) exampleRace := by
  simp only [dotProgram, dotPhases, glue, IsPhased, exampleRace]
  repeat' first | exact List.Forall₂.nil | refine List.Forall₂.cons ?_ ?_
  all_goals decide

example : (∑ i ∈ Finset.range 32, exampleInp i [∑ i ∈ Finset.range 64, exampleInp i []]) ≠
    ∑ i ∈ Finset.range 64, exampleInp i [] := by decide +kernel

/-- With a barrier in between, any execution gives the true values. -/
example (ws : List (List (Fin (numWarps 64) × (Nat × DotInstr))))
    (hws : IsPhased (dotProgram 64 [.call, .sync, .call]) ws) (t : Fin (numWarps 64)) :
    ((execPhases (dotAct 64 (fun _ _ => 0) exampleInp) ws (fun _ => ⟨0, []⟩) fun _ => 0).1 t).outs =
      [64, 192] := by
  rw [C52_calls_partial (by norm_num) (by norm_num) (Or.inl rfl) exampleInp [.call, .sync, .call]
    (by simp [Separated]) ws hws]
  decide +kernel

/-- 33 threads: the lone thread of warp 1 may add anything. -/
example : warpReduce (fun o l => if o = 16 ∧ l.val = 16 then 7 else 0) (activeLanes 33 1)
    (fun l => if l.val = 0 then (5 : Rat) else 0) 0 = 12 := by decide +kernel

end Implicit
