import Verif.Spec.GpuDot
import Verif.Lemmas.Parallel
import Mathlib.Tactic.Ring
import Mathlib.Tactic.IntervalCases
import Mathlib.Data.List.Chain
/-!
# Lemmas about the block dot product
-/

set_option linter.unusedSectionVars false

namespace Implicit

open Spec

variable {R : Type} [LinearOrder R] [Field R]

/-! ## One warp -/

theorem warpReduce_eq (undef : Nat → Fin 32 → R) (active : Nat) (v : Fin 32 → R) :
    warpReduce undef active v = shflRound undef active (shflRound undef active (shflRound undef active
      (shflRound undef active (shflRound undef active v 16) 8) 4) 2) 1 := rfl

theorem shflRound_full (undef : Nat → Fin 32 → R) (v : Fin 32 → R) (off : Nat) (l : Nat)
    (h : l + off < 32) :
    shflRound undef 32 v off ⟨l, by omega⟩ = v ⟨l, by omega⟩ + v ⟨l + off, h⟩ := by
  unfold shflRound shflDown
  simp [h]

/-- A full warp: lane 0 ends up with the sum. -/
theorem warpReduce_full (undef : Nat → Fin 32 → R) (v : Fin 32 → R) :
    warpReduce undef 32 v 0 = ∑ l, v l := by
  have key : ∀ g : Nat → R, (g 0 + g 16 + (g 8 + g 24) + (g 4 + g 20 + (g 12 + g 28)) +
      (g 2 + g 18 + (g 10 + g 26) + (g 6 + g 22 + (g 14 + g 30))) +
      (g 1 + g 17 + (g 9 + g 25) + (g 5 + g 21 + (g 13 + g 29)) +
        (g 3 + g 19 + (g 11 + g 27) + (g 7 + g 23 + (g 15 + g 31))))) = ∑ l ∈ Finset.range 32, g l := by
    intro g
    simp only [Finset.sum_range_succ, Finset.sum_range_zero]
    ring
  have hg : ∀ l (h : l < 32), v ⟨l, h⟩ = (fun k => if h : k < 32 then v ⟨k, h⟩ else 0) l := by
    intro l h; simp [h]
  rw [warpReduce_eq]
  have e0 : (0 : Fin 32) = ⟨0, by omega⟩ := rfl
  rw [e0]
  simp only [shflRound_full, Nat.reduceAdd, Nat.reduceLT]
  rw [Finset.sum_congr rfl fun l _ => hg l.val l.isLt,
    Fin.sum_univ_eq_sum_range (fun k => if h : k < 32 then v ⟨k, h⟩ else 0), ← key]
  simp

/-- Undefined values are simply added. -/
theorem shflRound_add (undef undef' : Nat → Fin 32 → R) (active off : Nat) (v v' : Fin 32 → R) :
    shflRound (fun o l => undef o l + undef' o l) active (fun l => v l + v' l) off =
      fun l => shflRound undef active v off l + shflRound undef' active v' off l := by
  funext l
  unfold shflRound shflDown
  split
  · split <;> ring
  · ring

theorem warpReduce_add (undef undef' : Nat → Fin 32 → R) (active : Nat) (v v' : Fin 32 → R) :
    warpReduce (fun o l => undef o l + undef' o l) active (fun l => v l + v' l) =
      fun l => warpReduce undef active v l + warpReduce undef' active v' l := by
  simp only [warpReduce_eq, shflRound_add]

/-- If absent lanes count as zero, a round is a round of a full warp with zeros. -/
theorem shflRound_zero (undef : Nat → Fin 32 → R) (active off : Nat) (v : Fin 32 → R) (l : Fin 32) :
    shflRound undef 32 (fun l => if l.val < active then v l else 0) off l =
      if l.val < active then shflRound (fun _ _ => 0) active v off l else 0 := by
  unfold shflRound shflDown
  have hl := l.isLt
  by_cases h1 : l.val + off < 32
  · rw [dif_pos h1, dif_pos h1, if_pos h1]
    by_cases h2 : l.val < active
    · simp [h2]
    · have h3 : ¬ l.val + off < active := by omega
      simp [h2, h3]
  · rw [dif_neg h1, dif_neg h1]
    by_cases h2 : l.val < active <;> simp [h2]

/-- With zeros for the absent lanes, lane 0 gets the sum over the present ones. -/
theorem warpReduce_zero (active : Nat) (ha : 0 < active) (v : Fin 32 → R) :
    warpReduce (fun _ _ => 0) active v 0 = ∑ l : Fin 32, if l.val < active then v l else 0 := by
  have key : ∀ (v : Fin 32 → R) (off : Nat),
      shflRound (fun _ _ => 0) 32 (fun l => if l.val < active then v l else 0) off =
        fun l => if l.val < active then shflRound (fun _ _ => 0) active v off l else 0 :=
    fun v off => funext fun l => shflRound_zero _ active off v l
  rw [← warpReduce_full (fun _ _ => 0)]
  simp only [warpReduce_eq, key]
  simp [ha]

/-! ## Phases of a block -/

theorem exec_reads {W n : Nat} (undef : Nat → Fin 32 → R) (inp : Nat → List R → R)
    (w : List (Fin W × (Nat × DotInstr))) (h : ∀ p ∈ w, p.2.2 = .read) (σ : Fin W → DotScratch R)
    (m : Nat → R) :
    (execInterleaved (dotAct n undef inp) w σ m).2 = m ∧
    ∀ t, (execInterleaved (dotAct n undef inp) w σ m).1 t =
      { σ t with outs := (σ t).outs ++ List.replicate (streamOf t w).length (m 0) } := by
  induction w generalizing σ with
  | nil => exact ⟨rfl, fun t => by simp [execInterleaved, streamOf]⟩
  | cons p w ih =>
    obtain ⟨t0, k, i⟩ := p
    have hi : i = .read := h (t0, k, i) (by simp)
    subst hi
    unfold execInterleaved
    obtain ⟨h1, h2⟩ := ih (fun q hq => h q (by simp [hq])) (Function.update σ t0
      (dotAct n undef inp (k, .read) (σ t0) m).1)
    have hm : (dotAct n undef inp (k, .read) (σ t0) m).2 = m := rfl
    rw [hm]
    refine ⟨h1, fun t => ?_⟩
    rw [h2 t, streamOf_cons]
    by_cases ht : t0 = t
    · subst ht
      simp [dotAct, List.replicate_succ]
    · have ht' : t ≠ t0 := fun e => ht e.symm
      simp [ht, ht']

theorem mem_of_stream {W : Nat} {w : List (Fin W × (Nat × DotInstr))} {p : Fin W × (Nat × DotInstr)}
    (hp : p ∈ w) : p.2 ∈ streamOf p.1 w := by
  unfold streamOf
  exact List.mem_map.mpr ⟨p, List.mem_filter.mpr ⟨hp, by simp⟩, rfl⟩

/-- The first phase: every warp leaves its partial sum in its own cell. -/
theorem exec_store {W n : Nat} (undef : Nat → Fin 32 → R) (inp : Nat → List R → R)
    (w : List (Fin W × (Nat × DotInstr)))
    (h : ∀ t, streamOf t w = [(t.val, .store)]) (σ : Fin W → DotScratch R) (m : Nat → R) :
    (execInterleaved (dotAct n undef inp) w σ m).1 = σ ∧
    ∀ t : Fin W, (execInterleaved (dotAct n undef inp) w σ m).2 t.val =
      warpReduce undef (activeLanes n t.val) (fun l => inp (32 * t.val + l.val) (σ t).outs) 0 := by
  have hproj := exec_project (act := dotAct n undef inp) (D := fun t : Fin W => {t.val})
    (fun t t' htt => by
      rw [Set.disjoint_singleton]
      exact fun e => htt (Fin.ext e)) w
    (fun p hp => by
      have := mem_of_stream hp
      rw [h p.1] at this
      have hpe : p.2 = (p.1.val, DotInstr.store) := by simpa using this
      rw [hpe]
      refine ⟨fun s m a ha => ?_, fun s m m' _ => ⟨rfl, fun a ha => ?_⟩⟩
      · unfold dotAct
        exact Function.update_of_ne (by simpa using ha) _ _
      · have : a = p.1.val := by simpa using ha
        subst this
        simp [dotAct]) σ m
  refine ⟨funext fun t => ?_, fun t => ?_⟩
  · rw [(hproj t).1, h t]; rfl
  · rw [(hproj t).2 t.val (by simp), h t]
    simp [runInstrs, dotAct]

/-- The second phase: warp 0 alone. -/
theorem exec_second {W n : Nat} (hW : 0 < W) (undef : Nat → Fin 32 → R)
    (inp : Nat → List R → R) (w : List (Fin W × (Nat × DotInstr)))
    (h : ∀ t, streamOf t w = if t.val = 0 then [(t.val, .reduce), (t.val, .broadcast)] else [])
    (σ : Fin W → DotScratch R) (m : Nat → R) :
    (∀ t, ((execInterleaved (dotAct n undef inp) w σ m).1 t).outs = (σ t).outs) ∧
    (execInterleaved (dotAct n undef inp) w σ m).2 0 =
      warpReduce undef (activeLanes n 0) (fun l => if l.val < numWarps n then m l.val else 0) 0 := by
  have hproj := exec_project (act := dotAct n undef inp)
    (D := fun t : Fin W => if t.val = 0 then Set.univ else ∅)
    (fun t t' htt => by
      by_cases h0 : t.val = 0
      · have : t'.val ≠ 0 := fun e => htt (Fin.ext (h0.trans e.symm))
        simp [this]
      · simp [h0]) w
    (fun p hp => by
      have hm := mem_of_stream hp
      rw [h p.1] at hm
      by_cases h0 : p.1.val = 0
      · rw [if_pos h0]
        refine ⟨fun s m a ha => absurd (Set.mem_univ a) ha, fun s m m' hmm => ?_⟩
        have : m = m' := funext fun a => hmm a (Set.mem_univ a)
        subst this
        exact ⟨rfl, fun _ _ => rfl⟩
      · rw [if_neg h0] at hm
        simp at hm) σ m
  refine ⟨fun t => ?_, ?_⟩
  · rw [(hproj t).1, h t]
    split <;> rfl
  · rw [(hproj ⟨0, hW⟩).2 0 (by simp), h ⟨0, hW⟩]
    simp [runInstrs, dotAct]

/-! ## Sizes -/

theorem activeLanes_full {n w : Nat} (h : 32 * w + 32 ≤ n) : activeLanes n w = 32 := by
  unfold activeLanes
  omega

theorem warpReduce_tame {n w : Nat} {undef : Nat → Fin 32 → R} (hu : Spec.Tame n undef) (hw : w < numWarps n)
    (v : Fin 32 → R) :
    warpReduce undef (activeLanes n w) v 0 = ∑ l : Fin 32, if 32 * w + l.val < n then v l else 0 := by
  have hw' : 32 * w < n := by unfold numWarps at hw; omega
  by_cases hfull : 32 * w + 32 ≤ n
  · rw [activeLanes_full hfull, warpReduce_full]
    refine Finset.sum_congr rfl fun l _ => ?_
    rw [if_pos (by omega)]
  · rcases hu with hu | hu
    · omega
    · subst hu
      rw [warpReduce_zero _ (by unfold activeLanes; omega)]
      refine Finset.sum_congr rfl fun l _ => ?_
      have : (l.val < activeLanes n w) ↔ (32 * w + l.val < n) := by unfold activeLanes; omega
      simp only [this]

theorem sum_warps {W : Nat} (hW : W ≤ 32) (g : Nat → R) :
    (∑ l : Fin 32, if l.val < W then g l.val else 0) = ∑ w ∈ Finset.range W, g w := by
  rw [Fin.sum_univ_eq_sum_range (fun k => if k < W then g k else 0) 32, ← Finset.sum_filter]
  congr 1
  ext k
  simp
  omega

theorem sum_blocks (g : Nat → R) (W : Nat) :
    (∑ w ∈ Finset.range W, ∑ l : Fin 32, g (32 * w + l.val)) = ∑ i ∈ Finset.range (32 * W), g i := by
  induction W with
  | zero => simp
  | succ W ih =>
    rw [Finset.sum_range_succ, ih, show 32 * (W + 1) = 32 * W + 32 by ring, Finset.sum_range_add,
      Fin.sum_univ_eq_sum_range (fun l => g (32 * W + l)) 32]

theorem sum_threads (g : Nat → R) (n : Nat) :
    (∑ w ∈ Finset.range (numWarps n), ∑ l : Fin 32, if 32 * w + l.val < n then g (32 * w + l.val) else 0) =
      ∑ i ∈ Finset.range n, g i := by
  rw [sum_blocks (fun i => if i < n then g i else 0), ← Finset.sum_filter]
  congr 1
  ext i
  simp [numWarps]
  omega

/-- One call, up to and including the phase in which it writes its result. -/
theorem exec_call_raw {n : Nat} (h32 : 32 < n) (hmax : n ≤ 1024)
    (undef : Nat → Fin 32 → R) (inp : Nat → List R → R)
    (wa wb : List (Fin (numWarps n) × (Nat × DotInstr)))
    (ha : ∀ t, streamOf t wa = [(t.val, .store)])
    (hb : ∀ t, streamOf t wb = if t.val = 0 then [(t.val, .reduce), (t.val, .broadcast)] else [])
    (outs : List R) (σ : Fin (numWarps n) → DotScratch R) (hσ : ∀ t, (σ t).outs = outs) (m : Nat → R) :
    let a := execInterleaved (dotAct n undef inp) wa σ m
    let b := execInterleaved (dotAct n undef inp) wb a.1 a.2
    (∀ t, (b.1 t).outs = outs) ∧ b.2 0 = ∑ w ∈ Finset.range (numWarps n),
      warpReduce undef (activeLanes n w) (fun l => inp (32 * w + l.val) outs) 0 := by
  have hW : 0 < numWarps n := by unfold numWarps; omega
  have hW32 : numWarps n ≤ 32 := by unfold numWarps; omega
  intro a b
  obtain ⟨a1, a2⟩ := exec_store (n := n) undef inp wa ha σ m
  obtain ⟨b1, b2⟩ := exec_second (n := n) hW undef inp wb hb a.1 a.2
  refine ⟨fun t => ?_, ?_⟩
  · rw [b1 t]
    show (a.1 t).outs = outs
    rw [show a.1 = σ from a1, hσ]
  · rw [show b.2 0 = _ from b2, activeLanes_full (by omega), warpReduce_full, sum_warps hW32 a.2]
    refine Finset.sum_congr rfl fun w hw => ?_
    have hw' := Finset.mem_range.mp hw
    rw [show a.2 w = _ from a2 ⟨w, hw'⟩, hσ]

theorem sum_tame {n : Nat} {undef : Nat → Fin 32 → R} (hu : Spec.Tame n undef) (g : Nat → R) :
    (∑ w ∈ Finset.range (numWarps n),
      warpReduce undef (activeLanes n w) (fun l => g (32 * w + l.val)) 0) = ∑ i ∈ Finset.range n, g i := by
  rw [← sum_threads g]
  exact Finset.sum_congr rfl fun w hw => warpReduce_tame hu (Finset.mem_range.mp hw) _

theorem exec_call {n : Nat} (h32 : 32 < n) (hmax : n ≤ 1024)
    {undef : Nat → Fin 32 → R} (hu : Spec.Tame n undef) (inp : Nat → List R → R)
    (wa wb : List (Fin (numWarps n) × (Nat × DotInstr)))
    (ha : ∀ t, streamOf t wa = [(t.val, .store)])
    (hb : ∀ t, streamOf t wb = if t.val = 0 then [(t.val, .reduce), (t.val, .broadcast)] else [])
    (outs : List R) (σ : Fin (numWarps n) → DotScratch R) (hσ : ∀ t, (σ t).outs = outs) (m : Nat → R) :
    let a := execInterleaved (dotAct n undef inp) wa σ m
    let b := execInterleaved (dotAct n undef inp) wb a.1 a.2
    (∀ t, (b.1 t).outs = outs) ∧ b.2 0 = ∑ i ∈ Finset.range n, inp i outs := by
  intro a b
  obtain ⟨h1, h2⟩ := exec_call_raw h32 hmax undef inp wa wb ha hb outs σ hσ m
  exact ⟨h1, h2.trans (sum_tame hu fun i => inp i outs)⟩

/-- A block with a single warp runs its instructions in order. -/
theorem exec_single {I Sc Addr V Th : Type} [DecidableEq Th] [Subsingleton Th] (act : Act I Sc Addr V) (t : Th)
    (w : List (Th × I)) (σ : Th → Sc) (m : Addr → V) :
    (execInterleaved act w σ m).1 t = (runInstrs act (streamOf t w) (σ t) m).1 ∧
    (execInterleaved act w σ m).2 = (runInstrs act (streamOf t w) (σ t) m).2 := by
  have hproj := exec_project (act := act) (D := fun _ : Th => Set.univ)
    (fun t t' htt => absurd (Subsingleton.elim t t') htt) w
    (fun p _ => ⟨fun s m a ha => absurd (Set.mem_univ a) ha, fun s m m' hmm => by
      have : m = m' := funext fun a => hmm a (Set.mem_univ a)
      subst this
      exact ⟨rfl, fun _ _ => rfl⟩⟩) σ m
  exact ⟨(hproj t).1, funext fun a => (hproj t).2 a (Set.mem_univ a)⟩

/-! ## What warp 0 sees -/

/-- As `dotAct`, but only warp 0 takes note of the results; the inputs depend on the number of the call. -/
def dotQuiet (n : Nat) (undef : Nat → Fin 32 → R) (inp : Nat → Nat → R) :
    Act (Nat × DotInstr) (DotScratch R) Nat R
  | (w, .read), s, m => ({ s with outs := s.outs ++ [if w = 0 then m 0 else 0] }, m)
  | i, s, m => dotAct n undef (fun k outs => inp outs.length k) i s m

theorem exec_quiet {W n : Nat} (undef : Nat → Fin 32 → R) (inp : Nat → Nat → R)
    (w : List (Fin W × (Nat × DotInstr))) (hw : ∀ p ∈ w, p.2.1 = p.1.val)
    (σ σ' : Fin W → DotScratch R) (hacc : ∀ t, (σ t).acc = (σ' t).acc)
    (hlen : ∀ t, (σ t).outs.length = (σ' t).outs.length)
    (houts : ∀ t : Fin W, t.val = 0 → (σ t).outs = (σ' t).outs) (m : Nat → R) :
    let a := execInterleaved (dotAct n undef fun k outs => inp outs.length k) w σ m
    let b := execInterleaved (dotQuiet n undef inp) w σ' m
    a.2 = b.2 ∧ (∀ t, (a.1 t).acc = (b.1 t).acc) ∧ (∀ t, (a.1 t).outs.length = (b.1 t).outs.length) ∧
      ∀ t : Fin W, t.val = 0 → (a.1 t).outs = (b.1 t).outs := by
  induction w generalizing σ σ' m with
  | nil => exact ⟨rfl, hacc, hlen, houts⟩
  | cons p w ih =>
    obtain ⟨t0, k, i⟩ := p
    have hk : k = t0.val := hw (t0, k, i) (by simp)
    subst hk
    have key : (dotAct n undef (fun k outs => inp outs.length k) (t0.val, i) (σ t0) m).2 =
          (dotQuiet n undef inp (t0.val, i) (σ' t0) m).2 ∧
        (dotAct n undef (fun k outs => inp outs.length k) (t0.val, i) (σ t0) m).1.acc =
          (dotQuiet n undef inp (t0.val, i) (σ' t0) m).1.acc ∧
        (dotAct n undef (fun k outs => inp outs.length k) (t0.val, i) (σ t0) m).1.outs.length =
          (dotQuiet n undef inp (t0.val, i) (σ' t0) m).1.outs.length ∧
        (t0.val = 0 → (dotAct n undef (fun k outs => inp outs.length k) (t0.val, i) (σ t0) m).1.outs =
          (dotQuiet n undef inp (t0.val, i) (σ' t0) m).1.outs) := by
      have h1 := hacc t0
      have h2 := houts t0
      have h3 := hlen t0
      cases i
      · exact ⟨by simp [dotAct, dotQuiet, h3], h1, h3, h2⟩
      · exact ⟨rfl, rfl, h3, h2⟩
      · exact ⟨by simp [dotAct, dotQuiet, h1], h1, h3, h2⟩
      · refine ⟨rfl, h1, by simp [dotAct, dotQuiet, h3], fun h0 => ?_⟩
        simp [dotAct, dotQuiet, h0, h2 h0]
    simp only [execInterleaved]
    rw [key.1]
    refine ih (fun q hq => hw q (by simp [hq])) _ _ (fun t => ?_) (fun t => ?_) (fun t ht => ?_) _
    · by_cases h : t = t0
      · subst h; simpa using key.2.1
      · simpa [Function.update_of_ne h] using hacc t
    · by_cases h : t = t0
      · subst h; simpa using key.2.2.1
      · simpa [Function.update_of_ne h] using hlen t
    · by_cases h : t = t0
      · subst h; simpa using key.2.2.2 ht
      · simpa [Function.update_of_ne h] using houts t ht

/-- A phase in which every warp perhaps reads its result and then perhaps stores its next partial sum. -/
theorem quiet_first {W n : Nat} (undef : Nat → Fin 32 → R) (inp : Nat → Nat → R) (rd st : Bool)
    (w : List (Fin W × (Nat × DotInstr)))
    (h : ∀ t, streamOf t w = (if rd then [(t.val, .read)] else []) ++ (if st then [(t.val, .store)] else []))
    (σ : Fin W → DotScratch R) (m : Nat → R) :
    (∀ t : Fin W, t.val = 0 → ((execInterleaved (dotQuiet n undef inp) w σ m).1 t).outs =
      (σ t).outs ++ if rd then [m 0] else []) ∧
    (∀ t : Fin W, ((execInterleaved (dotQuiet n undef inp) w σ m).1 t).outs.length =
      (σ t).outs.length + if rd then 1 else 0) ∧
    (st = true → ∀ t : Fin W, (execInterleaved (dotQuiet n undef inp) w σ m).2 t.val =
      warpReduce undef (activeLanes n t.val)
        (fun l => inp ((σ t).outs.length + if rd then 1 else 0) (32 * t.val + l.val)) 0) := by
  have hproj := exec_project (act := dotQuiet n undef inp) (D := fun t : Fin W => {t.val})
    (fun t t' htt => by
      rw [Set.disjoint_singleton]
      exact fun e => htt (Fin.ext e)) w
    (fun p hp => by
      have hm := mem_of_stream hp
      rw [h p.1] at hm
      have hcase : p.2 = (p.1.val, .read) ∨ p.2 = (p.1.val, .store) := by
        rcases List.mem_append.mp hm with hm | hm
        · left; cases rd <;> simp at hm; exact hm
        · right; cases st <;> simp at hm; exact hm
      rcases hcase with hpe | hpe
      · rw [hpe]
        refine ⟨fun s m a ha => rfl, fun s m m' hmm => ⟨?_, hmm⟩⟩
        simp only [dotQuiet]
        by_cases h0 : p.1.val = 0
        · rw [hmm 0 (by simp [h0])]
        · simp [h0]
      · rw [hpe]
        refine ⟨fun s m a ha => ?_, fun s m m' _ => ⟨rfl, fun a ha => ?_⟩⟩
        · unfold dotQuiet dotAct
          exact Function.update_of_ne (by simpa using ha) _ _
        · have : a = p.1.val := by simpa using ha
          subst this
          simp [dotQuiet, dotAct]) σ m
  refine ⟨fun t ht => ?_, fun t => ?_, fun hst t => ?_⟩
  · rw [(hproj t).1, h t]
    cases rd <;> cases st <;> simp [runInstrs, dotQuiet, dotAct, ht]
  · rw [(hproj t).1, h t]
    cases rd <;> cases st <;> simp [runInstrs, dotQuiet, dotAct]
  · rw [(hproj t).2 t.val (by simp), h t, hst]
    cases rd <;> simp [runInstrs, dotQuiet, dotAct]

theorem quiet_second {W n : Nat} (hW : 0 < W) (undef : Nat → Fin 32 → R)
    (inp : Nat → Nat → R) (w : List (Fin W × (Nat × DotInstr)))
    (h : ∀ t, streamOf t w = if t.val = 0 then [(t.val, .reduce), (t.val, .broadcast)] else [])
    (σ : Fin W → DotScratch R) (m : Nat → R) :
    (∀ t, ((execInterleaved (dotQuiet n undef inp) w σ m).1 t).outs = (σ t).outs) ∧
    (execInterleaved (dotQuiet n undef inp) w σ m).2 0 =
      warpReduce undef (activeLanes n 0) (fun l => if l.val < numWarps n then m l.val else 0) 0 := by
  have hproj := exec_project (act := dotQuiet n undef inp)
    (D := fun t : Fin W => if t.val = 0 then Set.univ else ∅)
    (fun t t' htt => by
      by_cases h0 : t.val = 0
      · have : t'.val ≠ 0 := fun e => htt (Fin.ext (h0.trans e.symm))
        simp [this]
      · simp [h0]) w
    (fun p hp => by
      have hm := mem_of_stream hp
      rw [h p.1] at hm
      by_cases h0 : p.1.val = 0
      · rw [if_pos h0]
        refine ⟨fun s m a ha => absurd (Set.mem_univ a) ha, fun s m m' hmm => ?_⟩
        have : m = m' := funext fun a => hmm a (Set.mem_univ a)
        subst this
        exact ⟨rfl, fun _ _ => rfl⟩
      · rw [if_neg h0] at hm
        simp at hm) σ m
  refine ⟨fun t => ?_, ?_⟩
  · rw [(hproj t).1, h t]
    split <;> rfl
  · rw [(hproj ⟨0, hW⟩).2 0 (by simp), h ⟨0, hW⟩]
    simp [runInstrs, dotQuiet, dotAct]

/-! ## Serial schedules -/

/-- The warps one after the other, in the given order. -/
def serialPhase {W : Nat} (order : List (Fin W)) (ph : Phase W) : List (Fin W × (Nat × DotInstr)) :=
  order.flatMap fun t => (ph t).map fun i => (t, i)

theorem streamOf_serial {W : Nat} (ph : Phase W) (t : Fin W) (order : List (Fin W)) (hn : order.Nodup) :
    streamOf t (serialPhase order ph) = if t ∈ order then ph t else [] := by
  induction order with
  | nil => simp [serialPhase, streamOf]
  | cons t' order ih =>
    have hn' := List.nodup_cons.mp hn
    have ih := ih hn'.2
    unfold serialPhase streamOf at ih ⊢
    rw [List.flatMap_cons, List.filter_append, List.map_append, ih]
    by_cases h : t' = t
    · subst h
      simp [hn'.1, List.filter_map, Function.comp_def]
    · have h' : ¬ t = t' := fun e => h e.symm
      simp [h, h', List.filter_map, Function.comp_def]

/-- The values returned are never taken back. -/
theorem outs_prefix {W n : Nat} (undef : Nat → Fin 32 → R) (inp : Nat → List R → R)
    (w : List (Fin W × (Nat × DotInstr))) (σ : Fin W → DotScratch R) (m : Nat → R) (t : Fin W) :
    (σ t).outs <+: ((execInterleaved (dotAct n undef inp) w σ m).1 t).outs := by
  induction w generalizing σ m with
  | nil => exact List.prefix_refl _
  | cons p w ih =>
    obtain ⟨t0, k, i⟩ := p
    refine List.IsPrefix.trans ?_ (ih _ _)
    by_cases h : t = t0
    · subst h
      cases i <;> simp [dotAct]
    · rw [Function.update_of_ne h]

theorem outs_prefix_phases {W n : Nat} (undef : Nat → Fin 32 → R) (inp : Nat → List R → R)
    (ws : List (List (Fin W × (Nat × DotInstr)))) (σ : Fin W → DotScratch R) (m : Nat → R) (t : Fin W) :
    (σ t).outs <+: ((execPhases (dotAct n undef inp) ws σ m).1 t).outs := by
  induction ws generalizing σ m with
  | nil => exact List.prefix_refl _
  | cons w ws ih => exact List.IsPrefix.trans (outs_prefix undef inp w σ m t) (ih _ _)

theorem execInterleaved_append' {I Sc Addr V Th : Type} [DecidableEq Th] (act : Act I Sc Addr V)
    (w w' : List (Th × I)) (σ : Th → Sc) (m : Addr → V) :
    execInterleaved act (w ++ w') σ m =
      execInterleaved act w' (execInterleaved act w σ m).1 (execInterleaved act w σ m).2 := by
  induction w generalizing σ m with
  | nil => rfl
  | cons p w ih =>
    obtain ⟨t, i⟩ := p
    exact ih _ _

end Implicit
