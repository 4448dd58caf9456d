import Verif.Model.Draws
import Verif.Spec.Sampling
import Verif.Props.C35
import Mathlib.Data.Int.CardIntervalMod
import Mathlib.Order.Interval.Finset.Nat
/-!
# Counting draws
-/

namespace Implicit

open Spec

/-! ## Words -/

theorem wordSeqs_length {W c : Nat} {ws : List Nat} (h : ws ∈ wordSeqs W c) : ws.length = c := by
  induction c generalizing ws with
  | zero => simp only [wordSeqs, List.mem_singleton] at h; subst h; rfl
  | succ c ih =>
    simp only [wordSeqs, List.mem_flatMap, List.mem_map] at h
    obtain ⟨w, _, v, hv, rfl⟩ := h
    simp [ih hv]

theorem countP_wordSeqs_succ (W c : Nat) (P : List Nat → Bool) :
    (wordSeqs W (c + 1)).countP P =
      ((List.range W).map fun w => (wordSeqs W c).countP fun ws => P (w :: ws)).sum := by
  rw [wordSeqs, List.countP_flatMap]
  congr 1
  refine List.map_congr_left fun w _ => ?_
  simp only [Function.comp, List.countP_map]
  rfl

/-- Take words until `g` accepts one. -/
def pickFirst {α : Type} (g : Nat → Option α) : List Nat → Option (α × List Nat)
  | [] => none
  | w :: ws => match g w with
    | some k => some (k, ws)
    | none => pickFirst g ws

/-- The number of words on which `g` gives `k`. -/
def accepted {α : Type} [DecidableEq α] (W : Nat) (g : Nat → Option α) (k : α) : Nat :=
  (List.range W).countP fun w => g w = some k

variable {α β : Type} [DecidableEq α] [DecidableEq β]

theorem sum_map_ite (l : List Nat) (p : Nat → Bool) (a : Nat) :
    (l.map fun w => if p w then a else 0).sum = l.countP p * a := by
  induction l with
  | nil => simp
  | cons w l ih =>
    rw [List.map_cons, List.sum_cons, ih, List.countP_cons]
    by_cases h : p w
    · simp [h]; ring
    · simp [h]

theorem sum_map_add (l : List Nat) (a b : Nat → Nat) :
    (l.map fun w => a w + b w).sum = (l.map a).sum + (l.map b).sum := by
  induction l with
  | nil => simp
  | cons w l ih => simp only [List.map_cons, List.sum_cons, ih]; omega

theorem ways_pickFirst_succ (W : Nat) (g : Nat → Option α) (c : Nat) (k : α) :
    ways W (pickFirst g) (c + 1) k =
      (List.range W).countP (fun w => (g w).isNone) * ways W (pickFirst g) c k +
        accepted W g k * (if c = 0 then 1 else 0) := by
  unfold ways accepted
  rw [countP_wordSeqs_succ, ← sum_map_ite, ← sum_map_ite, ← sum_map_add]
  congr 1
  refine List.map_congr_left fun w _ => ?_
  cases hg : g w with
  | none => simp [pickFirst, hg]
  | some x =>
    simp only [pickFirst, hg, Option.isNone_some, Bool.false_eq_true, if_false, Nat.zero_add, Option.some.injEq,
      Prod.mk.injEq]
    by_cases hx : x = k
    · subst hx
      by_cases hc : c = 0
      · subst hc; simp [wordSeqs]
      · simp only [true_and, decide_true, if_true, hc, if_false]
        rw [List.countP_eq_zero]
        intro ws hws
        have := wordSeqs_length hws
        simp only [decide_eq_true_eq]
        rintro rfl
        exact hc this.symm
    · simp [hx]

theorem ways_pickFirst_congr (W : Nat) (g : Nat → Option α) {k k' : α}
    (h : accepted W g k = accepted W g k') (c : Nat) :
    ways W (pickFirst g) c k = ways W (pickFirst g) c k' := by
  induction c with
  | zero => simp [ways, wordSeqs, pickFirst]
  | succ c ih => rw [ways_pickFirst_succ, ways_pickFirst_succ, ih, h]

/-- Two draws one after the other. -/
def pickTwo (f : List Nat → Option (α × List Nat)) (g : List Nat → Option (β × List Nat))
    (ws : List Nat) : Option ((α × β) × List Nat) := do
  let (a, ws) ← f ws
  let (b, ws) ← g ws
  pure ((a, b), ws)

theorem ways_pickTwo_succ (W : Nat) (f : Nat → Option α) (g : List Nat → Option (β × List Nat))
    (c : Nat) (a : α) (b : β) :
    ways W (pickTwo (pickFirst f) g) (c + 1) (a, b) =
      (List.range W).countP (fun w => (f w).isNone) * ways W (pickTwo (pickFirst f) g) c (a, b) +
        accepted W f a * ways W g c b := by
  unfold ways accepted
  rw [countP_wordSeqs_succ, ← sum_map_ite, ← sum_map_ite, ← sum_map_add]
  congr 1
  refine List.map_congr_left fun w _ => ?_
  cases hf : f w with
  | none =>
    have e : ∀ ws, pickTwo (pickFirst f) g (w :: ws) = pickTwo (pickFirst f) g ws := by
      intro ws; simp [pickTwo, pickFirst, hf]
    simp [e]
  | some x =>
    simp only [pickTwo, pickFirst, hf, Option.isNone_some, Bool.false_eq_true, if_false, Nat.zero_add, Option.some.injEq,
      Option.bind_eq_bind, Option.bind_some]
    by_cases hx : x = a
    · subst hx
      simp only [decide_true, if_true]
      congr 1
      funext ws
      cases hg : g ws with
      | none => simp
      | some p => obtain ⟨b', r⟩ := p; simp
    · rw [if_neg (by simpa using hx), List.countP_eq_zero]
      intro ws _
      cases hg : g ws with
      | none => simp
      | some p => obtain ⟨b', r⟩ := p; simp [hx]

theorem ways_pickTwo_congr (W : Nat) (f : Nat → Option α) (g : List Nat → Option (β × List Nat))
    {a a' : α} {b b' : β} (h : accepted W f a = accepted W f a')
    (hb : ∀ c, ways W g c b = ways W g c b') (c : Nat) :
    ways W (pickTwo (pickFirst f) g) c (a, b) = ways W (pickTwo (pickFirst f) g) c (a', b') := by
  induction c with
  | zero => simp [ways, wordSeqs, pickTwo, pickFirst]
  | succ c ih => rw [ways_pickTwo_succ, ways_pickTwo_succ, ih, h, hb]

/-! ## Lemire's method -/

/-- What one word gives. -/
def lemireWord (W n w : Nat) : Option Nat := if w * n % W < W % n then none else some (w * n / W)

theorem lemireLoop_eq (W n : Nat) (w : Nat) (ws : List Nat) :
    lemireLoop W n (W % n) (w * n) (w * n % W) ws = pickFirst (lemireWord W n) (w :: ws) := by
  induction ws generalizing w with
  | nil =>
    unfold lemireLoop pickFirst lemireWord
    split_ifs <;> simp [pickFirst]
  | cons v ws ih =>
    unfold lemireLoop
    rw [ih v]
    by_cases h : w * n % W < W % n
    · have hg : lemireWord W n w = none := by simp [lemireWord, h]
      rw [if_pos h]
      conv_rhs => rw [pickFirst, hg]
    · have hg : lemireWord W n w = some (w * n / W) := by simp [lemireWord, h]
      rw [if_neg h]
      conv_rhs => rw [pickFirst, hg]

theorem lemire_eq {W n : Nat} (hn : 0 < n) (hW : n ≤ W) (ws : List Nat) :
    lemire W n ws = pickFirst (lemireWord W n) ws := by
  cases ws with
  | nil => rfl
  | cons w ws =>
    have ht : (W - n) % n = W % n := by
      conv_rhs => rw [← Nat.sub_add_cancel hW, Nat.add_mod_right]
    unfold lemire
    simp only [ht, lemireLoop_eq]
    split_ifs with h
    · rfl
    · have : ¬ w * n % W < W % n := fun h' => h (h'.trans (Nat.mod_lt _ hn))
      simp [pickFirst, lemireWord, this]

/-- Every number below `n` is given by exactly `W / n` words. -/
theorem lemire_accepted {W n k : Nat} (hn : 0 < n) (hW : n ≤ W) (hk : k < n) :
    accepted W (lemireWord W n) k = W / n := by
  have hW0 : 0 < W := by omega
  obtain ⟨q, hq⟩ : ∃ q, q = W / n := ⟨_, rfl⟩
  obtain ⟨t, ht⟩ : ∃ t, t = W % n := ⟨_, rfl⟩
  have hdiv : W = n * q + t := by rw [hq, ht]; exact (Nat.div_add_mod W n).symm
  have htn : t < n := by rw [ht]; exact Nat.mod_lt _ hn
  obtain ⟨b, hb⟩ : ∃ b, b = (k * W + t + (n - 1)) / n := ⟨_, rfl⟩
  have hge : ∀ w, k * W + t ≤ w * n ↔ b ≤ w := by
    intro w
    rw [hb, Nat.div_le_iff_le_mul_add_pred hn, Nat.mul_comm n w]
    omega
  have hlt : ∀ w, w * n < k * W + W ↔ w < b + q := by
    intro w
    by_cases hw : w < q
    · have : w * n ≤ q * n := Nat.mul_le_mul_right n hw.le
      have h2 : q * n = n * q := Nat.mul_comm _ _
      have h3 : w * n < W ∨ W ≤ w * n := by omega
      constructor
      · intro _; omega
      · intro _
        rcases h3 with h | h
        · omega
        · have : (w + 1) * n ≤ q * n := Nat.mul_le_mul_right n hw
          rw [Nat.add_mul] at this
          omega
    · obtain ⟨v, rfl⟩ : ∃ v, w = v + q := ⟨w - q, by omega⟩
      have h1 : (v + q) * n = v * n + n * q := by ring
      have h2 := hge v
      constructor
      · intro h
        by_contra hc
        have : b ≤ v := by omega
        have := h2.mpr this
        omega
      · intro h
        by_contra hc
        have : k * W + t ≤ v * n := by omega
        have := h2.mp this
        omega
  have hset : (Finset.range W).filter (fun w => lemireWord W n w = some k) = Finset.Ico b (b + q) := by
    ext w
    rw [Finset.mem_filter, Finset.mem_range, Finset.mem_Ico]
    unfold lemireWord
    rw [← ht]
    have hmod := Nat.div_add_mod (w * n) W
    have hml := Nat.mod_lt (w * n) hW0
    constructor
    · rintro ⟨hw, h⟩
      split_ifs at h with h1
      simp only [Option.some.injEq] at h
      rw [h, Nat.mul_comm] at hmod
      exact ⟨(hge w).mp (by omega), (hlt w).mp (by omega)⟩
    · rintro ⟨h1, h2⟩
      have h1' := (hge w).mpr h1
      have h2' := (hlt w).mpr h2
      have hwk : w * n / W = k := by
        apply Nat.div_eq_of_lt_le
        · omega
        · rw [Nat.add_mul]; omega
      rw [hwk, Nat.mul_comm] at hmod
      refine ⟨?_, by rw [if_neg (by omega), hwk]⟩
      by_contra hc
      have hc' : W ≤ w := by omega
      have : W * n ≤ w * n := Nat.mul_le_mul_right n hc'
      have h5 : (k + 1) * W ≤ n * W := Nat.mul_le_mul_right W hk
      rw [Nat.add_mul, Nat.mul_comm n W] at h5
      omega
  unfold accepted
  have hcard := congrArg Finset.card hset
  rw [Nat.card_Ico, Nat.add_sub_cancel_left] at hcard
  rw [← hq, ← hcard]
  simp only [Finset.card_def, Finset.filter, Finset.range, Multiset.range, Multiset.filter_coe,
    Multiset.coe_card, List.countP_eq_length_filter]

theorem lemireWord_lt {W n w k : Nat} (hn : 0 < n) (hw : w < W) (h : lemireWord W n w = some k) :
    k < n := by
  unfold lemireWord at h
  split_ifs at h
  simp only [Option.some.injEq] at h
  rw [← h, Nat.div_lt_iff_lt_mul (by omega), Nat.mul_comm]
  exact Nat.mul_lt_mul_of_pos_left hw hn

/-- What one word of `mt19937` gives for `uniform_int_distribution(0, last)`. -/
def stdWord (last w : Nat) : Option Nat :=
  if last < 2 ^ 32 - 1 then lemireWord (2 ^ 32) (last + 1) w else some w

theorem stdUniform_eq {last : Nat} (h : last < 2 ^ 32) (ws : List Nat) :
    stdUniform last ws = pickFirst (stdWord last) ws := by
  unfold stdUniform
  by_cases h1 : last < 2 ^ 32 - 1
  · rw [if_pos h1, lemire_eq (by omega) (by omega)]
    congr 1
    funext w
    simp only [stdWord, if_pos h1]
  · rw [if_neg h1, if_pos (by omega)]
    cases ws with
    | nil => rfl
    | cons w ws =>
      have hg : stdWord last w = some w := by simp only [stdWord, if_neg h1]
      rw [pickFirst, hg]

theorem stdWord_accepted {last k : Nat} (h : last < 2 ^ 32) (hk : k ≤ last) :
    accepted (2 ^ 32) (stdWord last) k = 2 ^ 32 / (last + 1) := by
  by_cases h1 : last < 2 ^ 32 - 1
  · have e : stdWord last = lemireWord (2 ^ 32) (last + 1) := by
      funext w; simp only [stdWord, if_pos h1]
    rw [e]
    exact lemire_accepted (by omega) (by omega) (by omega)
  · have e : stdWord last = some := by
      funext w; simp only [stdWord, if_neg h1]
    rw [e]
    unfold accepted
    have hl : last + 1 = 2 ^ 32 := by omega
    rw [hl, Nat.div_self (by norm_num)]
    have : (List.range (2 ^ 32)).countP (fun w => decide (some w = some k)) =
        (List.range (2 ^ 32)).count k := by
      unfold List.count
      refine List.countP_congr fun w _ => ?_
      simp
    rw [this]
    exact List.count_eq_one_of_mem List.nodup_range (List.mem_range.mpr (by omega))

theorem stdWord_le {last w k : Nat} (hw : w < 2 ^ 32) (h : stdWord last w = some k) (hl : last < 2 ^ 32) :
    k ≤ last := by
  unfold stdWord at h
  split_ifs at h with h1
  · have := lemireWord_lt (by omega) hw h; omega
  · simp only [Option.some.injEq] at h; omega

theorem pickFirst_mem {g : Nat → Option α} {ws : List Nat} {k : α} {rest : List Nat}
    (h : pickFirst g ws = some (k, rest)) : (∃ w ∈ ws, g w = some k) ∧ ∀ w ∈ rest, w ∈ ws := by
  induction ws with
  | nil => simp [pickFirst] at h
  | cons w ws ih =>
    rw [pickFirst] at h
    cases hg : g w with
    | none =>
      rw [hg] at h
      obtain ⟨⟨v, hv, hk⟩, hr⟩ := ih h
      exact ⟨⟨v, List.mem_cons_of_mem _ hv, hk⟩, fun x hx => List.mem_cons_of_mem _ (hr x hx)⟩
    | some x =>
      rw [hg] at h
      simp only [Option.some.injEq, Prod.mk.injEq] at h
      obtain ⟨rfl, rfl⟩ := h
      exact ⟨⟨w, List.mem_cons_self, hg⟩, fun y hy => List.mem_cons_of_mem _ hy⟩

/-! ## Counting positions of stored entries -/

theorem countP_getElem? {γ : Type} [BEq γ] [LawfulBEq γ] [DecidableEq γ] (L : List γ) (x : γ) :
    (List.range L.length).countP (fun l => L[l]? = some x) = L.count x := by
  induction L using List.reverseRecOn with
  | nil => simp
  | append_singleton L y ih =>
    rw [List.length_append, List.length_singleton, List.range_succ, List.countP_append,
      List.count_append, ← ih]
    congr 1
    · refine List.countP_congr fun l hl => ?_
      rw [List.getElem?_append_left (List.mem_range.mp hl)]
    · by_cases h : y = x <;> simp [List.count_singleton, h]

/-- The stored entries with their rows, in the order of the arrays. -/
theorem userids_zip (rows : List (List Nat)) (n : Nat) :
    ((rows.zipIdx n).flatMap fun p => List.replicate p.1.length p.2).zip rows.flatten =
      (rows.zipIdx n).flatMap fun p => p.1.map fun i => (p.2, i) := by
  induction rows generalizing n with
  | nil => simp
  | cons r rows ih =>
    rw [List.zipIdx_cons, List.flatMap_cons, List.flatten_cons, List.flatMap_cons,
      List.zip_append (by simp), ih]
    congr 1
    induction r with
    | nil => rfl
    | cons i r ihr => simp only [List.length_cons, List.replicate_succ, List.zip_cons_cons, List.map_cons, ihr]

theorem count_entries (rows : List (List Nat)) (n u i : Nat) :
    ((rows.zipIdx n).flatMap fun p => p.1.map fun i => (p.2, i)).count (n + u, i) =
      (rows[u]?.getD []).count i := by
  induction rows generalizing n u with
  | nil => simp
  | cons r rows ih =>
    rw [List.zipIdx_cons, List.flatMap_cons, List.count_append]
    have hmap : ∀ (a b : Nat) (r : List Nat),
        (r.map fun i => (a, i)).count (b, i) = if a = b then r.count i else 0 := by
      intro a b r
      induction r with
      | nil => simp
      | cons x r ihr =>
        rw [List.map_cons, List.count_cons, ihr, List.count_cons]
        by_cases h : a = b <;> simp [h]
    have hrest : ∀ v, v < n + 1 → (((rows.zipIdx (n + 1)).flatMap fun p => p.1.map fun i => (p.2, i)).count
        (v, i)) = 0 := by
      intro v hv
      rw [List.count_eq_zero]
      intro hm
      obtain ⟨p, hp, hx⟩ := List.mem_flatMap.mp hm
      obtain ⟨y, _, hy⟩ := List.mem_map.mp hx
      have := List.le_snd_of_mem_zipIdx hp
      simp only [Prod.mk.injEq] at hy
      omega
    rw [hmap]
    cases u with
    | zero => simp [hrest n (by omega)]
    | succ u =>
      have := ih (n + 1) u
      rw [show n + 1 + u = n + (u + 1) by omega] at this
      rw [this, if_neg (by omega)]
      simp

theorem count_flatten (rows : List (List Nat)) (j : Nat) : rows.flatten.count j = popularity rows j := by
  unfold popularity
  rw [List.count_flatten]

theorem useridsOf_length (rows : List (List Nat)) : (useridsOf rows).length = rows.flatten.length := by
  unfold useridsOf
  have : ∀ n, ((rows.zipIdx n).flatMap fun p => List.replicate p.1.length p.2).length =
      rows.flatten.length := by
    intro n
    induction rows generalizing n with
    | nil => simp
    | cons r rows ih => rw [List.zipIdx_cons, List.flatMap_cons, List.length_append, ih]; simp
  exact this 0

/-- The number of positions holding column `i` of row `u`. -/
theorem count_positions (rows : List (List Nat)) (u i : Nat) :
    (List.range rows.flatten.length).countP
      (fun l => (useridsOf rows)[l]? = some u ∧ rows.flatten[l]? = some i) = storedIn rows u i := by
  have h1 := userids_zip rows 0
  have h2 := count_entries rows 0 u i
  rw [Nat.zero_add, ← h1] at h2
  have hlen : (((rows.zipIdx 0).flatMap fun p => List.replicate p.1.length p.2).zip rows.flatten).length =
      rows.flatten.length := by
    have := useridsOf_length rows
    unfold useridsOf at this
    rw [List.length_zip, this, Nat.min_self]
  rw [← countP_getElem? (List.zip _ _), hlen] at h2
  unfold storedIn
  rw [← h2]
  refine List.countP_congr fun l _ => ?_
  rw [decide_eq_true_eq, decide_eq_true_eq, List.getElem?_zip_eq_some]
  rfl

/-! ## Drawing and then looking up -/

theorem ways_map {W c : Nat} (pick : List Nat → Option (α × List Nat)) (F : α → β) (outcomes : List α)
    (hnd : outcomes.Nodup)
    (hout : ∀ ws ∈ wordSeqs W c, ∀ k rest, pick ws = some (k, rest) → k ∈ outcomes) (b : β) :
    ways W (fun ws => (pick ws).map fun p => (F p.1, p.2)) c b =
      (outcomes.map fun k => if F k = b then ways W pick c k else 0).sum := by
  unfold ways
  revert hout
  generalize wordSeqs W c = l
  intro hout
  induction l with
  | nil => simp
  | cons ws l ih =>
    have ih' := ih fun ws' h => hout ws' (List.mem_cons_of_mem _ h)
    rw [List.countP_cons, ih']
    have hone : (if decide ((pick ws).map (fun p => (F p.1, p.2)) = some (b, [])) = true then 1 else 0) =
        (outcomes.map fun k => if F k = b then (if pick ws = some (k, []) then 1 else 0) else 0).sum := by
      rw [← List.sum_toFinset _ hnd]
      by_cases hp : ∃ k, pick ws = some (k, [])
      · obtain ⟨k, hk⟩ := hp
        have hmem : k ∈ outcomes.toFinset :=
          List.mem_toFinset.mpr (hout ws List.mem_cons_self k [] hk)
        rw [Finset.sum_eq_single k]
        · simp [hk]
        · intro k' _ hne
          simp only [hk, Option.some.injEq, Prod.mk.injEq, and_true]
          rw [if_neg (Ne.symm hne)]
          simp
        · intro h; exact absurd hmem h
      · rw [if_neg, Finset.sum_eq_zero]
        · intro k _
          rw [if_neg (fun h => hp ⟨k, h⟩)]
          simp
        · simp only [decide_eq_true_eq, Option.map_eq_some_iff, Prod.mk.injEq, Prod.exists]
          rintro ⟨k, r, h1, _, rfl⟩
          exact hp ⟨k, h1⟩
    rw [hone]
    have hadd : ∀ (o : List α) (f g : α → Nat),
        (o.map f).sum + (o.map g).sum = (o.map fun k => f k + g k).sum := by
      intro o f g
      induction o with
      | nil => rfl
      | cons a o iho => simp only [List.map_cons, List.sum_cons, ← iho]; omega
    rw [hadd]
    congr 1
    refine List.map_congr_left fun k _ => ?_
    rw [List.countP_cons]
    by_cases h1 : F k = b <;> by_cases h2 : pick ws = some (k, []) <;> simp [h1, h2]

theorem sum_const_ite {γ : Type} (l : List γ) (p : γ → Bool) (a : Nat) :
    (l.map fun w => if p w then a else 0).sum = l.countP p * a := by
  induction l with
  | nil => simp
  | cons w l ih =>
    rw [List.map_cons, List.sum_cons, ih, List.countP_cons]
    by_cases h : p w
    · simp [h]; ring
    · simp [h]

theorem wordSeqs_lt {W c : Nat} {ws : List Nat} (h : ws ∈ wordSeqs W c) : ∀ w ∈ ws, w < W := by
  induction c generalizing ws with
  | zero => simp only [wordSeqs, List.mem_singleton] at h; subst h; simp
  | succ c ih =>
    simp only [wordSeqs, List.mem_flatMap, List.mem_map, List.mem_range] at h
    obtain ⟨w, hw, v, hv, rfl⟩ := h
    intro x hx
    rcases List.mem_cons.mp hx with rfl | hx
    · exact hw
    · exact ih hv x hx

/-- A fair draw followed by a lookup: proportional to the number of draws with the result. -/
theorem fair_map {W : Nat} {pick : List Nat → Option (α × List Nat)} {outcomes : List α}
    (hf : Fair W pick (· ∈ outcomes)) (hnd : outcomes.Nodup) (k0 : α) (hk0 : k0 ∈ outcomes) (F : α → β)
    (c : Nat) (b : β) :
    ways W (fun ws => (pick ws).map fun p => (F p.1, p.2)) c b =
      outcomes.countP (fun k => F k = b) * ways W pick c k0 := by
  rw [ways_map pick F outcomes hnd fun ws hws k rest h => hf.2 ws (wordSeqs_lt hws) k rest h]
  rw [← sum_const_ite]
  congr 1
  refine List.map_congr_left fun k hk => ?_
  by_cases h : F k = b
  · simp only [h, if_true, decide_true]; exact hf.1 c k k0 hk hk0
  · simp [h]

end Implicit
