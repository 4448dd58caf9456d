import Verif.Lemmas.Draws
import Verif.Props.C38
/-!
# C65 — which training samples are how likely

A draw of the CPU is exactly uniform over the stored entries; so a BPR sample has a stored interaction as
positive, all equally likely, and item `j` as negative with a probability proportional to its number of
interactions.  The same for the negatives of LMF.  On the GPU the remainder favours the first entries
slightly.
-/

namespace Implicit

open Spec

/-- **C65** (draws).  `uniform_int_distribution(0, n - 1)` on uniform 32-bit words gives every position
below `n` with the same probability. -/
theorem C65_draw (n : Nat) (hn : 0 < n) (hW : n ≤ 2 ^ 32) :
    Fair (2 ^ 32) (stdUniform (n - 1)) (· ∈ List.range n) := by
  have e : stdUniform (n - 1) = pickFirst (stdWord (n - 1)) := funext (stdUniform_eq (by omega))
  rw [e]
  constructor
  · intro c k k' hk hk'
    rw [List.mem_range] at hk hk'
    apply ways_pickFirst_congr
    rw [stdWord_accepted (by omega) (by omega), stdWord_accepted (by omega) (by omega)]
  · intro ws hws k rest h
    obtain ⟨⟨w, hw, hk⟩, _⟩ := pickFirst_mem h
    have := stdWord_le (hws w hw) hk (by omega)
    rw [List.mem_range]; omega

/-- All pairs of positions below `n`. -/
def Spec.positionPairs (n : Nat) : List (Nat × Nat) :=
  (List.range n).flatMap fun l => (List.range n).map fun d => (l, d)

theorem mem_positionPairs {n : Nat} {p : Nat × Nat} : p ∈ positionPairs n ↔ p.1 < n ∧ p.2 < n := by
  unfold positionPairs
  simp only [List.mem_flatMap, List.mem_map, List.mem_range]
  constructor
  · rintro ⟨l, hl, d, hd, rfl⟩; exact ⟨hl, hd⟩
  · rintro ⟨h1, h2⟩; exact ⟨p.1, h1, p.2, h2, rfl⟩

theorem nodup_positionPairs (n : Nat) : (positionPairs n).Nodup := by
  unfold positionPairs
  rw [List.nodup_flatMap]
  refine ⟨fun l _ => List.nodup_range.map fun a b h => (Prod.mk.injEq _ _ _ _ ▸ h).2, ?_⟩
  refine List.nodup_range.imp ?_
  intro a b hab x hx hy
  simp only [List.mem_map] at hx hy
  obtain ⟨_, _, rfl⟩ := hx
  obtain ⟨_, _, h⟩ := hy
  exact hab (by simpa using (congrArg Prod.fst h).symm)

/-- **C65** (pairs).  The two draws of a sample: every pair of positions has the same probability. -/
theorem C65_pair (n : Nat) (hn : 0 < n) (hW : n ≤ 2 ^ 32) :
    Fair (2 ^ 32) (bprDraw n) (· ∈ positionPairs n) := by
  have e : stdUniform (n - 1) = pickFirst (stdWord (n - 1)) := funext (stdUniform_eq (by omega))
  have e2 : bprDraw n = pickTwo (pickFirst (stdWord (n - 1))) (pickFirst (stdWord (n - 1))) := by
    funext ws
    unfold bprDraw pickTwo
    rw [e]
  rw [e2]
  constructor
  · rintro c ⟨l, d⟩ ⟨l', d'⟩ hk hk'
    rw [mem_positionPairs] at hk hk'
    simp only at hk hk'
    apply ways_pickTwo_congr
    · rw [stdWord_accepted (by omega) (by omega), stdWord_accepted (by omega) (by omega)]
    · intro c
      apply ways_pickFirst_congr
      rw [stdWord_accepted (by omega) (by omega), stdWord_accepted (by omega) (by omega)]
  · rintro ws hws ⟨l, d⟩ rest h
    rw [mem_positionPairs]
    unfold pickTwo at h
    simp only [Option.bind_eq_bind, Option.bind_eq_some_iff, Option.pure_def, Option.some.injEq,
      Prod.mk.injEq] at h
    obtain ⟨⟨l1, w1⟩, h1, ⟨d1, w2⟩, h2, ⟨rfl, rfl⟩, _⟩ := h
    obtain ⟨⟨w, hw, hk⟩, hr⟩ := pickFirst_mem h1
    obtain ⟨⟨v, hv, hk2⟩, _⟩ := pickFirst_mem h2
    have a1 := stdWord_le (hws w hw) hk (by omega)
    have a2 := stdWord_le (hws v (hr v hv)) hk2 (by omega)
    exact ⟨by simp only; omega, by simp only; omega⟩

/-- The rows a sample works on, if it is not skipped. -/
def bprChosen (verify : Bool) (rows : List (List Nat)) (p : Nat × Nat) : Option BprTriple :=
  match bprChoose verify rows p.1 p.2 with
  | .ok (some t) => some t
  | _ => none

/-- One sample of `bpr_update` from the words of the thread's generator: the two draws and the choice of
the rows (`implicit/cpu/bpr.pyx:269-281`). -/
def bprSample (verify : Bool) (rows : List (List Nat)) (words : List Nat) :
    Option (Option BprTriple × List Nat) :=
  (bprDraw rows.flatten.length words).map fun p => (bprChosen verify rows p.1, p.2)

theorem bprRows_counts (verify : Bool) (matrix : List (List Nat)) :
    (∀ u i, storedIn (bprRows verify matrix) u i = storedIn matrix u i) ∧
      ∀ j, popularity (bprRows verify matrix) j = popularity matrix j := by
  unfold bprRows
  by_cases hc : (verify && !(matrix.all fun r => decide (r.Pairwise (· ≤ ·)))) = true
  · rw [if_pos hc]
    constructor
    · intro u i
      unfold storedIn
      rw [List.getElem?_map]
      cases h : matrix[u]? with
      | none => simp
      | some r => simp only [Option.map_some, Option.getD_some]; exact (List.perm_insertionSort _ r).count_eq i
    · intro j
      unfold popularity
      rw [List.map_map]
      congr 1
      exact List.map_congr_left fun r _ => (List.perm_insertionSort _ r).count_eq j
  · rw [if_neg hc]
    exact ⟨fun _ _ => rfl, fun _ => rfl⟩

theorem countP_pairs (n : Nat) (p q : Nat → Bool) :
    (positionPairs n).countP (fun x => p x.1 && q x.2) =
      (List.range n).countP p * (List.range n).countP q := by
  unfold positionPairs
  rw [List.countP_flatMap, ← sum_const_ite]
  congr 1
  refine List.map_congr_left fun l _ => ?_
  simp only [Function.comp, List.countP_map]
  by_cases h : p l
  · simp [h, Function.comp_def]
  · simp [h, Function.comp_def]

theorem likes_iff_stored (matrix : List (List Nat)) (u i : Nat) :
    Likes matrix u i ↔ 0 < storedIn matrix u i := by
  unfold Likes storedIn
  rw [List.count_pos_iff]
  cases h : matrix[u]? with
  | none => simp
  | some r => simp

/-- What the choice depends on. -/
theorem chosen_iff (verify : Bool) (matrix : List (List Nat)) (t : BprTriple) (l d : Nat)
    (hl : l < nnz matrix) (hd : d < nnz matrix) :
    bprChosen verify (bprRows verify matrix) (l, d) = some t ↔
      ((useridsOf (bprRows verify matrix))[l]? = some t.user ∧
        (bprRows verify matrix).flatten[l]? = some t.liked) ∧
        (bprRows verify matrix).flatten[d]? = some t.disliked ∧
        ¬ (verify = true ∧ 0 < storedIn matrix t.user t.disliked) := by
  obtain ⟨rows, hrows⟩ : ∃ rows, rows = bprRows verify matrix := ⟨_, rfl⟩
  have hn : rows.flatten.length = nnz matrix := by rw [hrows]; exact bprRows_nnz verify matrix
  rw [← hrows]
  obtain ⟨u, i, j, r, h1, h2, h3, h4, h5, h6⟩ := bprChoose_ok verify rows
    (fun hv => by subst hv; rw [hrows]; exact bprRows_sorted matrix) l d (by omega) (by omega)
  have hst : ∀ x, x ∈ r ↔ 0 < storedIn matrix u x := by
    intro x
    rw [← likes_iff_stored, ← bprRows_stored verify, ← hrows]
    unfold Likes
    rw [h4]
    simp
  unfold bprChosen
  simp only
  rw [h6, h1, h2, h3]
  rcases t with ⟨tu, tl, td⟩
  simp only [Option.some.injEq]
  by_cases hc : verify = true ∧ j ∈ r
  · rw [if_pos hc]
    simp only [reduceCtorEq, false_iff]
    rintro ⟨⟨rfl, rfl⟩, rfl, hno⟩
    exact hno ⟨hc.1, (hst j).mp hc.2⟩
  · rw [if_neg hc]
    simp only [Option.some.injEq, BprTriple.mk.injEq]
    constructor
    · rintro ⟨rfl, rfl, rfl⟩
      exact ⟨⟨rfl, rfl⟩, rfl, fun h => hc ⟨h.1, (hst j).mpr h.2⟩⟩
    · rintro ⟨⟨rfl, rfl⟩, rfl, _⟩
      exact ⟨rfl, rfl, rfl⟩

/-- The pairs of positions that lead to a given triple. -/
theorem count_chosen (verify : Bool) (matrix : List (List Nat)) (t : BprTriple) :
    (positionPairs (nnz matrix)).countP
        (fun p => bprChosen verify (bprRows verify matrix) p = some t) =
      if verify = true ∧ 0 < storedIn matrix t.user t.disliked then 0
      else storedIn matrix t.user t.liked * popularity matrix t.disliked := by
  obtain ⟨rows, hrows⟩ : ∃ rows, rows = bprRows verify matrix := ⟨_, rfl⟩
  have hn : rows.flatten.length = nnz matrix := by rw [hrows]; exact bprRows_nnz verify matrix
  have hkey := chosen_iff verify matrix t
  rw [← hrows] at hkey
  rw [← hrows]
  by_cases hs : verify = true ∧ 0 < storedIn matrix t.user t.disliked
  · rw [if_pos hs, List.countP_eq_zero]
    rintro ⟨l, d⟩ hp
    rw [mem_positionPairs] at hp
    simp only [decide_eq_true_eq]
    rw [hkey l d hp.1 hp.2]
    exact fun h => h.2.2 hs
  · rw [if_neg hs]
    have h1 := count_positions rows t.user t.liked
    have h2 := countP_getElem? rows.flatten t.disliked
    rw [hn] at h1 h2
    rw [count_flatten] at h2
    obtain ⟨c1, c2⟩ := bprRows_counts verify matrix
    rw [← c1, ← c2, ← hrows, ← h1, ← h2, ← countP_pairs]
    refine List.countP_congr fun p hp => ?_
    rw [mem_positionPairs] at hp
    obtain ⟨l, d⟩ := p
    have := hkey l d hp.1 hp.2
    simp only [decide_eq_true_eq, Bool.and_eq_true]
    rw [this]
    tauto

/-- **C65** (BPR).  The probability that a sample trains user `u` with positive `i` and negative `j` is
proportional to how often `(u, i)` is stored times how often `j` is stored in the whole matrix; and zero
with `verify_negative_samples` if `(u, j)` is stored.  The factor `w` does not depend on the triple. -/
theorem C65_bpr (verify : Bool) (matrix : List (List Nat)) (hn : 0 < nnz matrix)
    (hW : nnz matrix ≤ 2 ^ 32) :
    ∃ w : Nat → Nat, w 2 = (2 ^ 32 / nnz matrix) ^ 2 ∧ ∀ c u i j,
      ways (2 ^ 32) (bprSample verify (bprRows verify matrix)) c (some ⟨u, i, j⟩) =
        (if verify = true ∧ 0 < storedIn matrix u j then 0 else storedIn matrix u i * popularity matrix j) *
          w c := by
  have hf := C65_pair (nnz matrix) hn hW
  refine ⟨fun c => ways (2 ^ 32) (bprDraw (nnz matrix)) c (0, 0), ?_, ?_⟩
  · have e : stdUniform (nnz matrix - 1) = pickFirst (stdWord (nnz matrix - 1)) :=
      funext (stdUniform_eq (by omega))
    have e2 : bprDraw (nnz matrix) =
        pickTwo (pickFirst (stdWord (nnz matrix - 1))) (pickFirst (stdWord (nnz matrix - 1))) := by
      funext ws
      unfold bprDraw pickTwo
      rw [e]
    have ha := stdWord_accepted (last := nnz matrix - 1) (k := 0) (by omega) (by omega)
    rw [Nat.sub_add_cancel hn] at ha
    show ways (2 ^ 32) (bprDraw (nnz matrix)) (0 + 1 + 1) (0, 0) = _
    rw [e2, ways_pickTwo_succ, ways_pickTwo_succ, ways_pickFirst_succ, ha]
    have h0 : ∀ g : Nat → Option Nat, ways (2 ^ 32) (pickFirst g) 0 0 = 0 := by
      intro g; simp [ways, wordSeqs, pickFirst]
    have h1 : ∀ g : Nat → Option Nat, ways (2 ^ 32) (pickTwo (pickFirst g) (pickFirst g)) 0 (0, 0) = 0 := by
      intro g; simp [ways, wordSeqs, pickTwo, pickFirst]
    rw [h0, h1, if_pos rfl]
    ring
  · intro c u i j
    unfold bprSample
    rw [bprRows_nnz]
    rw [fair_map hf (nodup_positionPairs _) (0, 0) (by rw [mem_positionPairs]; exact ⟨hn, hn⟩)
      (bprChosen verify (bprRows verify matrix)) c (some ⟨u, i, j⟩), count_chosen]

/-- **C65** (items without interactions).  They are never negatives: BPR never sees them at all. -/
theorem C65_cold_items (verify : Bool) (matrix : List (List Nat)) (hn : 0 < nnz matrix)
    (hW : nnz matrix ≤ 2 ^ 32) (j : Nat) (hj : ColdItem matrix j) (c u i : Nat) :
    ways (2 ^ 32) (bprSample verify (bprRows verify matrix)) c (some ⟨u, i, j⟩) = 0 := by
  obtain ⟨w, _, h⟩ := C65_bpr verify matrix hn hW
  rw [h]
  have : popularity matrix j = 0 := by
    unfold popularity
    rw [List.sum_eq_zero]
    intro x hx
    obtain ⟨r, hr, rfl⟩ := List.mem_map.mp hx
    rw [List.count_eq_zero]
    intro hm
    obtain ⟨v, hv, rfl⟩ := List.getElem_of_mem hr
    exact hj v ⟨_, List.getElem?_eq_getElem hv, hm⟩
  rw [this]
  simp

/-! ## The GPU -/

/-- **C65** (words on the GPU).  Position `k` is drawn by `⌊2^32 / n⌋` of the words, and by one more if it is
one of the first `2^32 mod n`. -/
theorem C65_gpu_words (n k : Nat) (hk : k < n) :
    (List.range (2 ^ 32)).countP (fun w => w % n = k) =
      2 ^ 32 / n + if k < 2 ^ 32 % n then 1 else 0 := by
  have h := Nat.count_modEq_card (2 ^ 32) (show 0 < n by omega) k
  rw [Nat.mod_eq_of_lt hk] at h
  rw [← h]
  unfold Nat.count
  refine List.countP_congr fun w _ => ?_
  simp only [decide_eq_true_eq, Nat.ModEq, Nat.mod_eq_of_lt hk]

theorem sum_le_sum_map {γ : Type} (l : List γ) (f g : γ → Nat) (h : ∀ x ∈ l, f x ≤ g x) :
    (l.map f).sum ≤ (l.map g).sum := by
  induction l with
  | nil => simp
  | cons a l ih =>
    simp only [List.map_cons, List.sum_cons]
    have := h a List.mem_cons_self
    have := ih fun x hx => h x (List.mem_cons_of_mem _ hx)
    omega

/-- Counting words by their remainder. -/
theorem countP_mod (W n : Nat) (hn : 0 < n) (p : Nat → Bool) :
    (List.range W).countP (fun w => p (w % n)) =
      ((List.range n).map fun k => if p k then (List.range W).countP (fun w => w % n = k) else 0).sum := by
  generalize List.range W = l
  induction l with
  | nil => simp
  | cons w l ih =>
    rw [List.countP_cons, ih]
    have hone : (if p (w % n) = true then 1 else 0) =
        ((List.range n).map fun k => if p k then (if w % n = k then 1 else 0) else 0).sum := by
      rw [← List.sum_toFinset _ List.nodup_range, Finset.sum_eq_single (w % n)]
      · simp
      · intro k _ hne
        rw [if_neg (Ne.symm hne)]
        simp
      · intro h
        exact absurd (List.mem_toFinset.mpr (List.mem_range.mpr (Nat.mod_lt w hn))) h
    rw [hone, ← sum_map_add]
    congr 1
    refine List.map_congr_left fun k _ => ?_
    rw [List.countP_cons]
    by_cases h1 : p k <;> by_cases h2 : w % n = k <;> simp [h1, h2]

theorem countP_mod_bounds (n : Nat) (hn : 0 < n) (p : Nat → Bool) :
    (List.range n).countP p * (2 ^ 32 / n) ≤ (List.range (2 ^ 32)).countP (fun w => p (w % n)) ∧
      (List.range (2 ^ 32)).countP (fun w => p (w % n)) ≤ (List.range n).countP p * (2 ^ 32 / n + 1) := by
  rw [countP_mod (2 ^ 32) n hn p, ← sum_const_ite, ← sum_const_ite]
  constructor
  · refine sum_le_sum_map _ _ _ fun k hk => ?_
    rw [C65_gpu_words n k (List.mem_range.mp hk)]
    split_ifs <;> omega
  · refine sum_le_sum_map _ _ _ fun k hk => ?_
    rw [C65_gpu_words n k (List.mem_range.mp hk)]
    split_ifs <;> omega

/-- The rows chosen on the GPU for the two words of a sample. -/
def gpuChosen (verify : Bool) (rows : List (List Nat)) (a b : Nat) : Option BprTriple :=
  match gpuChoose verify rows a b with
  | .ok (some t) => some t
  | _ => none

/-- **C65** (GPU).  The number of pairs of words that train user `u` with positive `i` and negative `j` is
that of the CPU up to a factor between `q²` and `(q + 1)²` for `q = ⌊2^32 / nnz⌋`; and exactly zero where that of the
CPU is. -/
theorem C65_gpu (verify : Bool) (matrix : List (List Nat)) (hn : 0 < nnz matrix) (u i j : Nat) :
    let pairs := (positionPairs (2 ^ 32)).countP fun p =>
      gpuChosen verify (bprRows verify matrix) p.1 p.2 = some ⟨u, i, j⟩
    let weight := if verify = true ∧ 0 < storedIn matrix u j then 0
      else storedIn matrix u i * popularity matrix j
    weight * (2 ^ 32 / nnz matrix) ^ 2 ≤ pairs ∧ pairs ≤ weight * (2 ^ 32 / nnz matrix + 1) ^ 2 := by
  intro pairs weight
  obtain ⟨rows, hrows⟩ : ∃ rows, rows = bprRows verify matrix := ⟨_, rfl⟩
  have hlen : rows.flatten.length = nnz matrix := by rw [hrows]; exact bprRows_nnz verify matrix
  have hmod : ∀ a b, gpuChosen verify rows a b = bprChosen verify rows (a % nnz matrix, b % nnz matrix) := by
    intro a b
    unfold gpuChosen bprChosen gpuChoose
    rw [hlen]
  -- the choice splits into a condition on the first and one on the second word
  have hw : weight = (positionPairs (nnz matrix)).countP
      (fun p => bprChosen verify rows p = some ⟨u, i, j⟩) := by
    rw [hrows, count_chosen]
  by_cases hs : verify = true ∧ 0 < storedIn matrix u j
  · have h0 : weight = 0 := if_pos hs
    have hp : pairs = 0 := by
      show (positionPairs (2 ^ 32)).countP _ = 0
      rw [List.countP_eq_zero]
      rintro ⟨a, b⟩ _
      simp only [← hrows, hmod, decide_eq_true_eq]
      rw [h0] at hw
      have := List.countP_eq_zero.mp hw.symm (a % nnz matrix, b % nnz matrix)
        (mem_positionPairs.mpr ⟨Nat.mod_lt _ hn, Nat.mod_lt _ hn⟩)
      simpa using this
    rw [h0, hp]
    simp
  · have h1 := count_positions rows u i
    have h2 := countP_getElem? rows.flatten j
    rw [hlen] at h1 h2
    rw [count_flatten] at h2
    obtain ⟨c1, c2⟩ := bprRows_counts verify matrix
    have hweight : weight = storedIn matrix u i * popularity matrix j := if_neg hs
    rw [← c1, ← c2, ← hrows, ← h1, ← h2] at hweight
    have hpairs : pairs =
        (List.range (2 ^ 32)).countP (fun a => decide ((useridsOf rows)[a % nnz matrix]? = some u ∧
          rows.flatten[a % nnz matrix]? = some i)) *
        (List.range (2 ^ 32)).countP (fun b => decide (rows.flatten[b % nnz matrix]? = some j)) := by
      rw [← countP_pairs]
      refine List.countP_congr fun p _ => ?_
      have := chosen_iff verify matrix ⟨u, i, j⟩ (p.1 % nnz matrix) (p.2 % nnz matrix)
        (Nat.mod_lt _ hn) (Nat.mod_lt _ hn)
      rw [← hrows] at this
      simp only [decide_eq_true_eq, Bool.and_eq_true, ← hrows, hmod]
      rw [this]
      exact ⟨fun h => ⟨h.1, h.2.1⟩, fun h => ⟨h.1, h.2, hs⟩⟩
    obtain ⟨l1, u1⟩ := countP_mod_bounds (nnz matrix) hn
      (fun l => decide ((useridsOf rows)[l]? = some u ∧ rows.flatten[l]? = some i))
    obtain ⟨l2, u2⟩ := countP_mod_bounds (nnz matrix) hn (fun d => decide (rows.flatten[d]? = some j))
    rw [hweight, hpairs]
    constructor
    · refine le_trans (le_of_eq ?_) (Nat.mul_le_mul l1 l2)
      ring
    · refine le_trans (Nat.mul_le_mul u1 u2) (le_of_eq ?_)
      ring

/-- **C65** (GPU, exactly).  The GPU does not draw uniformly: with three stored entries the first is drawn by one
word more than the second. -/
theorem C65_gpu_violated :
    (List.range (2 ^ 32)).countP (fun w => w % 3 = 0) ≠ (List.range (2 ^ 32)).countP (fun w => w % 3 = 1) := by
  rw [C65_gpu_words 3 0 (by norm_num), C65_gpu_words 3 1 (by norm_num)]
  norm_num

/-! ## LMF -/

variable {R : Type}

/-- One negative sample of LMF (`implicit/cpu/lmf.pyx:276-277`): the item (or, for the other side, the user)
of a drawn entry. -/
def lmfSample (C : SpRows R) (words : List Nat) : Option (Option Nat × List Nat) :=
  (stdUniform (C.flatten.length - 1) words).map fun p => ((lmfIndices C)[p.1]?, p.2)

theorem lmfIndices_length (C : SpRows R) : (lmfIndices C).length = C.flatten.length := by
  exact List.length_map _

theorem lmfIndices_count (C : SpRows R) (i : Nat) :
    (lmfIndices C).count i = popularity (C.map (List.map Prod.fst)) i := by
  unfold lmfIndices
  rw [List.map_flatten, List.count_flatten]
  rfl

/-- **C65** (LMF).  The probability that a negative sample is item `i` is proportional to the number of its
stored entries, for every user. -/
theorem C65_lmf (C : SpRows R) (hn : 0 < C.flatten.length) (hW : C.flatten.length ≤ 2 ^ 32) :
    ∃ w : Nat → Nat, w 1 = 2 ^ 32 / C.flatten.length ∧ ∀ c i,
      ways (2 ^ 32) (lmfSample C) c (some i) = popularity (C.map (List.map Prod.fst)) i * w c := by
  have hf := C65_draw C.flatten.length hn hW
  refine ⟨fun c => ways (2 ^ 32) (stdUniform (C.flatten.length - 1)) c 0, ?_, ?_⟩
  · show ways (2 ^ 32) (stdUniform (C.flatten.length - 1)) (0 + 1) 0 = _
    have e : stdUniform (C.flatten.length - 1) = pickFirst (stdWord (C.flatten.length - 1)) :=
      funext (stdUniform_eq (by omega))
    have ha := stdWord_accepted (last := C.flatten.length - 1) (k := 0) (by omega) (by omega)
    rw [Nat.sub_add_cancel hn] at ha
    have h0 : ∀ g : Nat → Option Nat, ways (2 ^ 32) (pickFirst g) 0 0 = 0 := by
      intro g; simp [ways, wordSeqs, pickFirst]
    rw [e, ways_pickFirst_succ, ha, h0, if_pos rfl]
    ring
  · intro c i
    unfold lmfSample
    rw [fair_map hf List.nodup_range 0 (List.mem_range.mpr hn) (fun d => (lmfIndices C)[d]?) c (some i)]
    rw [← lmfIndices_count, ← countP_getElem?, lmfIndices_length]

/-- **C65** (LMF, own items).  Unlike BPR, LMF does not check its negatives: with a single user every negative
sample is an item the user has interacted with, whatever is drawn. -/
theorem C65_lmf_own_items_violated : ∃ C : SpRows Rat, 0 < C.flatten.length ∧
    ∀ d, d < C.flatten.length → ∃ i, (lmfIndices C)[d]? = some i ∧ Likes (C.map (List.map Prod.fst)) 0 i := by
  refine ⟨[[(0, 2), (3, 1)]], by decide, ?_⟩
  intro d hd
  have : d = 0 ∨ d = 1 := by
    have : d < 2 := hd
    omega
  rcases this with rfl | rfl
  · exact ⟨0, rfl, [0, 3], rfl, by simp⟩
  · exact ⟨3, rfl, [0, 3], rfl, by simp⟩

/-! ## Examples -/

/-- Two users; the second item has two interactions.  A draw for the first user with its item as positive is
skipped for item 0, impossible for the unknown item 5, and twice as likely for item 1 as for item 2. -/
example : let m := [[0], [1, 2], [1]]
    (if true = true ∧ 0 < storedIn m 0 0 then 0 else storedIn m 0 0 * popularity m 0) = 0 ∧
    (if true = true ∧ 0 < storedIn m 0 1 then 0 else storedIn m 0 0 * popularity m 1) = 2 ∧
    (if true = true ∧ 0 < storedIn m 0 2 then 0 else storedIn m 0 0 * popularity m 2) = 1 ∧
    (if true = true ∧ 0 < storedIn m 0 5 then 0 else storedIn m 0 0 * popularity m 5) = 0 ∧
    0 < nnz m ∧ nnz m ≤ 2 ^ 32 := by
  decide +kernel

/-- Words below 8 and a range of 3: the threshold is 2; the words 0 and 3 are rejected, each value has
two of the remaining words. -/
example : lemire 8 3 [0, 1, 7] = some (0, [7]) ∧ lemire 8 3 [3, 5, 2] = some (1, [2]) ∧
    lemire 8 3 [6] = some (2, []) ∧ lemire 8 3 [0] = none ∧
    (List.range 3).map (ways 8 (lemire 8 3) 1) = [2, 2, 2] ∧
    (List.range 3).map (ways 8 (lemire 8 3) 2) = [4, 4, 4] := by
  decide +kernel

/-- A sample from concrete words: the first word is rejected (its product has lower half 0), the next two
give the positions 2 and 0. -/
example : bprSample true [[0], [1, 2]] [0, 2 ^ 32 - 1, 1, 7] = some (some ⟨1, 2, 0⟩, [7]) := by
  decide +kernel

end Implicit
