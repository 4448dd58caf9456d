import Verif.Lemmas.LibHeap
import Verif.Props.C01
import Mathlib.Order.Defs.LinearOrder
import Mathlib.Algebra.Order.Field.Rat
/-!
# C01 — `select` with the heap functions of libstdc++ and with machine floats
-/

namespace Implicit

/-- **C01** (library heap).  Over a linear order `select` with the algorithms of libstdc++ is the model with any correct heap,
and returns a ranking of the `k` best positions: no contract of the library is assumed. -/
theorem C01_libstdcxx {R : Type} [LinearOrder R] (k : Nat) (hk : 1 ≤ k) (scores : List R) :
    (∀ H : HeapImpl (R × Nat) pairLt, rawSelect (fun x y => decide (x < y)) k scores = selectRow H k scores) ∧
    ∃ out, rawSelect (fun x y => decide (x < y)) k scores = .ok out ∧ Spec.IsTopKOf k scores out := by
  constructor
  · intro H
    rw [rawSelect_eq]
    exact C01_select_heap_independent _ _ _ _
  · rw [rawSelect_eq]
    exact C01_select_topk stdHeap k hk scores

/-- Seven scores with ties, the four best. -/
example : rawSelect (fun x y : Int => decide (x < y)) 4 [3, 9, 3, 7, 9, 1, 8] = .ok [(9, 4), (9, 1), (8, 6), (7, 3)] := by
  decide +kernel

section
variable {R S : Type} [LinearOrder R] {lt : S → S → Bool} {f : S → R}

theorem keyed_weak (hf : ∀ a b, lt a b = decide (f a < f b)) : WeakOrder (pairGt lt) := by
  have e : ∀ a b, pairGt lt a b = pairGt (fun x y : R => decide (x < y)) (keyed f a) (keyed f b) := fun a b =>
    (pairGt_keyed (lt' := fun x y : R => decide (x < y)) (fun a b => (hf a b).symm) a b).symm
  constructor
  · intro a b h
    rw [e] at *
    exact pairGt_weak.asymm _ _ h
  · intro a b c h1 h2
    rw [e] at *
    exact pairGt_weak.trans _ _ _ h1 h2

theorem rawOffer_mem (W : WeakOrder (pairGt lt)) {k : Nat} {h h' : List (S × Nat)} {c : S × Nat}
    (H : ListHeap (pairGt lt) h) (e : rawOffer lt k h c = .ok h') :
    ListHeap (pairGt lt) h' ∧ ∀ p ∈ h', p = c ∨ p ∈ h := by
  unfold rawOffer at e
  split at e
  · cases e
    exact ⟨(libHeap _ W).heap_push H, fun p hp => List.mem_cons.mp (((libHeap _ W).push_perm H).mem_iff.mp hp)⟩
  · cases h with
    | nil => cases e
    | cons m t =>
      simp only at e
      split at e
      · cases e
        have H2 := (libHeap _ W).heap_pop H
        refine ⟨(libHeap _ W).heap_push H2, fun p hp => ?_⟩
        rcases List.mem_cons.mp (((libHeap _ W).push_perm H2).mem_iff.mp hp) with h1 | h1
        · exact Or.inl h1
        · exact Or.inr (List.mem_cons_of_mem _ (((libHeap _ W).pop_perm H).mem_iff.mp h1))
      · cases e
        exact ⟨H, fun p hp => Or.inr hp⟩

theorem rawOfferAll_mem (W : WeakOrder (pairGt lt)) {k : Nat} : ∀ (cs h h' : List (S × Nat)),
    ListHeap (pairGt lt) h → rawOfferAll lt k h cs = .ok h' →
    ListHeap (pairGt lt) h' ∧ ∀ p ∈ h', p ∈ cs ∨ p ∈ h := by
  intro cs
  induction cs with
  | nil =>
    intro h h' H e
    cases e
    exact ⟨H, fun p hp => Or.inr hp⟩
  | cons c cs ih =>
    intro h h' H e
    unfold rawOfferAll at e
    cases ho : rawOffer lt k h c with
    | error err => rw [ho] at e; cases e
    | ok g =>
      rw [ho] at e
      obtain ⟨G, hg⟩ := rawOffer_mem W H ho
      obtain ⟨H', hm⟩ := ih g h' G e
      refine ⟨H', fun p hp => ?_⟩
      rcases hm p hp with h1 | h1
      · exact Or.inl (List.mem_cons_of_mem _ h1)
      · rcases hg p h1 with rfl | h2
        · exact Or.inl List.mem_cons_self
        · exact Or.inr h2

/-- **C01** (machine floats).  For any representation of scores whose comparison orders them by a key (floating point numbers
without NaN: the key is the value, `-0.0` and `0.0` have the same one) `select` returns a ranking of the `k` best positions by
key, each with its own score bit for bit. -/
theorem C01_keyed (hf : ∀ a b, lt a b = decide (f a < f b)) (k : Nat) (hk : 1 ≤ k) (scores : List S) :
    ∃ out, rawSelect lt k scores = .ok out ∧ Spec.IsTopKOf k (scores.map f) (out.map fun p => (f p.1, p.2)) ∧
      ∀ p ∈ out, scores[p.2]? = some p.1 := by
  have W := keyed_weak hf
  have e := rawSelect_map (lt := lt) (lt' := fun x y : R => decide (x < y)) (f := f) (fun a b => (hf a b).symm) k scores
  obtain ⟨-, out', h1, h2⟩ := C01_libstdcxx k hk (scores.map f)
  rw [h1] at e
  cases hr : rawSelect lt k scores with
  | error err => rw [hr] at e; cases e
  | ok out =>
    rw [hr] at e
    have e' : out' = out.map (keyed f) := by
      have : Except.ok out' = (Except.ok (out.map (keyed f)) : Except Err _) := e
      exact Except.ok.inj this
    refine ⟨out, rfl, ?_, fun p hp => ?_⟩
    · rw [e'] at h2
      exact h2
    · unfold rawSelect at hr
      cases ho : rawOfferAll lt k [] scores.zipIdx with
      | error err => rw [ho] at hr; cases hr
      | ok h =>
        rw [ho] at hr
        have hr' : libSort (pairGt lt) h = out := Except.ok.inj hr
        obtain ⟨H, hm⟩ := rawOfferAll_mem W _ _ _ (libHeap _ W).heap_nil ho
        rw [← hr'] at hp
        have hp' := ((libHeap _ W).sort_perm H).mem_iff.mp hp
        rcases hm p hp' with h3 | h3
        · obtain ⟨s, i⟩ := p
          exact List.mk_mem_zipIdx_iff_getElem?.mp h3
        · cases h3
end

/-- Signed zeros: a Boolean sign next to the value.  Both zeros tie, and each comes back with its sign. -/
example : rawSelect (fun (x y : Int × Bool) => decide (x.1 < y.1)) 2 [(0, true), (-3, true), (0, false)] =
    .ok [((0, false), 2), ((0, true), 0)] := by decide +kernel

/-! ## NaN -/

/-- A machine float: a number or NaN (`none`). -/
abbrev Flt := Option Rat

/-- `<` of floats: false if an operand is NaN. -/
def fltLt : Flt → Flt → Bool
  | some a, some b => decide (a < b)
  | _, _ => false

/-- **C01** for rows without NaN. -/
theorem C01_floats_partial (k : Nat) (hk : 1 ≤ k) (scores : List Rat) :
    ∃ out, rawSelect fltLt k (scores.map some) = .ok out ∧
      ∃ out', out = out'.map (fun p => (some p.1, p.2)) ∧ Spec.IsTopKOf k scores out' := by
  have e := rawSelect_map (lt := fun x y : Rat => decide (x < y)) (lt' := fltLt) (f := some) (fun a b => rfl) k scores
  obtain ⟨-, out', h1, h2⟩ := C01_libstdcxx k hk scores
  rw [h1] at e
  exact ⟨_, e, out', rfl, h2⟩

example : rawSelect fltLt 2 [some 1, some (5/2), some 9] = .ok [(some 9, 2), (some (5/2), 1)] := by decide +kernel

/-- **C01 violated** by NaN scores: one NaN in the row (an item whose factors diverged) makes `select` return item 1 with score
1 in place of item 2 with score 9, and with `k = 1` return only the NaN, although every later score is a number. -/
theorem C01_nan_violated :
    rawSelect fltLt 2 [none, some 1, some 9] = .ok [(some 1, 1), (none, 0)] ∧
    rawSelect fltLt 1 [none, some 1, some 9] = .ok [(none, 0)] := by
  decide +kernel

/-- However good the others are: a NaN in the first column of a query for one item is always the answer. -/
theorem C01_nan_first_violated (scores : List Flt) : rawSelect fltLt 1 (none :: scores) = .ok [(none, 0)] := by
  have loop : ∀ cs : List (Flt × Nat), rawOfferAll fltLt 1 [(none, 0)] cs = .ok [(none, 0)] := by
    intro cs
    induction cs with
    | nil => rfl
    | cons c cs ih => exact ih
  have e : rawSelect fltLt 1 (none :: scores) =
      (rawOfferAll fltLt 1 [(none, 0)] (scores.zipIdx 1)).bind fun h => .ok (libSort (pairGt fltLt) h) := rfl
  rw [e, loop]
  rfl

end Implicit
