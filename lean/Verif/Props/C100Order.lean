import Mathlib.Order.WithBot
import Verif.Props.C100Float
/-!
# C100: infinite scores that are not NaN
-/

namespace Implicit

variable {R : Type} [Field R] [LinearOrder R] [IsStrictOrderedRing R] {n : Nat}

/-- Floats without NaN as a linear order. -/
def extOf : WithBot (WithTop R) → Ext R
  | none => .negInf
  | some none => .posInf
  | some (some x) => .fin x

theorem extOf_lt (a b : WithBot (WithTop R)) : Ext.lt (extOf a) (extOf b) = decide (a < b) := by
  have hb : ∀ p : Prop, ∀ d : Decidable p, ∀ v : Bool, (v = true ↔ p) → v = @decide p d := by
    intro p d v h
    cases v <;> simp_all
  refine hb _ _ _ ?_
  rcases a with _ | _ | x <;> rcases b with _ | _ | y
  · exact ⟨by simp [extOf, Ext.lt], fun h => absurd h (lt_irrefl (⊥ : WithBot (WithTop R)))⟩
  · exact ⟨fun _ => WithBot.bot_lt_coe (⊤ : WithTop R), fun _ => rfl⟩
  · exact ⟨fun _ => WithBot.bot_lt_coe (y : WithTop R), fun _ => rfl⟩
  · exact ⟨by simp [extOf, Ext.lt], fun h => absurd h (not_lt_bot (a := ((⊤ : WithTop R) : WithBot (WithTop R))))⟩
  · exact ⟨by simp [extOf, Ext.lt], fun h => absurd h (lt_irrefl ((⊤ : WithTop R) : WithBot (WithTop R)))⟩
  · exact ⟨by simp [extOf, Ext.lt], fun h => absurd
      (WithBot.coe_lt_coe.mp (h : ((⊤ : WithTop R) : WithBot (WithTop R)) < ((y : WithTop R) : WithBot _))) not_top_lt⟩
  · exact ⟨by simp [extOf, Ext.lt], fun h => absurd h (not_lt_bot (a := ((x : WithTop R) : WithBot (WithTop R))))⟩
  · exact ⟨fun _ => WithBot.coe_lt_coe.mpr (WithTop.coe_lt_top x), fun _ => rfl⟩
  · show decide (x < y) = true ↔ ((x : WithTop R) : WithBot (WithTop R)) < ((y : WithTop R) : WithBot _)
    rw [WithBot.coe_lt_coe, WithTop.coe_lt_coe, decide_eq_true_iff]

theorem extOf_le {a b : WithBot (WithTop R)} (h : a ≤ b) :
    (extOf a = .posInf → extOf b = .posInf) ∧ (extOf b = .negInf → extOf a = .negInf) ∧
      ∀ x y, extOf a = .fin x → extOf b = .fin y → x ≤ y := by
  have hn : Ext.lt (extOf b) (extOf a) = false := by
    rw [extOf_lt]
    exact decide_eq_false (not_lt.mpr h)
  rcases a with _ | _ | x <;> rcases b with _ | _ | y <;> simp_all [extOf, Ext.lt]

/-- **C100** (infinite scores).  As long as no score is NaN the selection is right among finite and infinite scores: `k` positions with their
own scores, no item with `+inf` is passed over for another one, `-inf` is returned only if nothing else is left, and finite scores are
compared as numbers; likewise for the order of the list. -/
theorem C100_infinities (Ω : R) (filter : List (Fin n)) (k : Nat) (hk : 1 ≤ k) (hkn : k ≤ n) (scores : Fin n → Ext R)
    (hnan : ∀ j, j ∉ filter → scores j ≠ .nan) :
    ∃ out, extSelect Ω filter k scores = .ok out ∧ out.length = k ∧ (out.map Prod.snd).Nodup ∧
      (∀ p ∈ out, ∃ j : Fin n, p.2 = j ∧ p.1 = if j ∈ filter then .fin (-Ω) else scores j) ∧
      (∀ p ∈ out, ∀ j : Fin n, (j : Nat) ∉ out.map Prod.snd → ∀ v, v = (if j ∈ filter then .fin (-Ω) else scores j) →
        (v = .posInf → p.1 = .posInf) ∧ (p.1 = .negInf → v = .negInf) ∧ ∀ x y, v = .fin x → p.1 = .fin y → x ≤ y) ∧
      out.Pairwise fun p q =>
        (q.1 = .posInf → p.1 = .posInf) ∧ (p.1 = .negInf → q.1 = .negInf) ∧ ∀ x y, q.1 = .fin x → p.1 = .fin y → x ≤ y := by
  have hval : ∀ j : Fin n, ∃ a : WithBot (WithTop R), extOf a = if j ∈ filter then .fin (-Ω) else scores j := by
    intro j
    split_ifs with hj
    · exact ⟨((-Ω : R) : WithTop R), rfl⟩
    · cases hs : scores j with
      | fin x => exact ⟨(x : WithTop R), rfl⟩
      | posInf => exact ⟨(⊤ : WithTop R), rfl⟩
      | negInf => exact ⟨⊥, rfl⟩
      | nan => exact absurd hs (hnan j hj)
  choose val hv using hval
  obtain ⟨-, out, h1, h2⟩ := C01_libstdcxx k hk ((List.finRange n).map val)
  have hput : ∀ j : Fin n, ((List.finRange n).map val)[(j : Nat)]? = some (val j) := by
    intro j
    rw [List.getElem?_map, List.getElem?_eq_getElem (by simp), List.getElem_finRange]
    rfl
  have e : extSelect Ω filter k scores = .ok (out.map (keyed extOf)) := by
    unfold extSelect
    have := rawSelect_map (f := extOf (R := R)) (lt := fun a b => decide (a < b)) (lt' := Ext.lt) extOf_lt k ((List.finRange n).map val)
    rw [h1, List.map_map] at this
    rw [show (fun j => if j ∈ filter then Ext.fin (-Ω) else scores j) = extOf ∘ val from funext fun j => (hv j).symm, this]
    rfl
  have hsnd : (out.map (keyed (extOf (R := R)))).map Prod.snd = out.map Prod.snd := by
    rw [List.map_map]
    rfl
  refine ⟨_, e, ?_, ?_, ?_, ?_, ?_⟩
  · rw [List.length_map, h2.length, List.length_map, List.length_finRange]
    omega
  · rw [hsnd]
    exact h2.distinct
  · intro p hp
    obtain ⟨q, hq, rfl⟩ := List.mem_map.mp hp
    have hf := h2.faithful q hq
    have hlt : q.2 < n := by
      have := (List.getElem?_eq_some_iff.mp hf).1
      simpa using this
    have := hput ⟨q.2, hlt⟩
    rw [hf] at this
    exact ⟨⟨q.2, hlt⟩, rfl, by rw [← hv, ← Option.some.inj this]; rfl⟩
  · intro p hp j hj v hvj
    obtain ⟨q, hq, rfl⟩ := List.mem_map.mp hp
    rw [hsnd] at hj
    rw [hvj, ← hv]
    exact extOf_le (h2.best q hq j _ (hput j) hj)
  · rw [List.pairwise_map]
    refine h2.sorted.imp fun {a b} hab => extOf_le ?_
    rcases hab with h | ⟨h, -⟩
    · exact h.le
    · exact h.ge

/-- A finite score, `-inf`, `+inf` and a filtered item: all four in order. -/
example : extSelect (8 : ℚ) [3] 4 ![.fin 1, .negInf, .posInf, .posInf] = .ok [(.posInf, 2), (.fin 1, 0), (.fin (-8), 3), (.negInf, 1)] := by
  decide +kernel

example : ∃ out, extSelect (8 : ℚ) [3] 2 ![.fin 1, .negInf, .posInf, .posInf] = .ok out ∧ out.length = 2 := by
  obtain ⟨out, h1, h2, -⟩ := C100_infinities (8 : ℚ) [3] 2 (by omega) (by omega) ![.fin 1, .negInf, .posInf, .posInf] (by decide)
  exact ⟨out, h1, h2⟩

end Implicit
