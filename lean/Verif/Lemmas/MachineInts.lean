import Verif.Model.MachineInts
import Mathlib.Tactic.Linarith
import Mathlib.Tactic.Ring
import Mathlib.Algebra.Order.Ring.Int
/-!
# Lemmas on machine integers
-/

namespace Implicit

open CInt

theorem convert_int {x : Int} (h0 : -2 ^ 31 ≤ x) (h : x < 2 ^ 31) : CTy.int.convert x = x := by
  unfold CTy.convert
  simp only [CTy.modulus, CTy.signed, true_and]
  split_ifs <;> omega

theorem convert_int_range (x : Int) : -2 ^ 31 ≤ CTy.int.convert x ∧ CTy.int.convert x < 2 ^ 31 := by
  unfold CTy.convert
  simp only [CTy.modulus, CTy.signed, true_and]
  split_ifs <;> omega

theorem convert_int_iff (x : Int) : CTy.int.convert x = x ↔ -2 ^ 31 ≤ x ∧ x < 2 ^ 31 := by
  constructor
  · intro h
    have := convert_int_range x
    omega
  · rintro ⟨h0, h⟩
    exact convert_int h0 h

theorem convert_uint {x : Int} (h0 : 0 ≤ x) (h : x < 2 ^ 32) : CTy.uint.convert x = x := by
  unfold CTy.convert
  simp only [CTy.modulus, CTy.signed]
  simp
  omega

theorem convert_size {x : Int} (h0 : 0 ≤ x) (h : x < 2 ^ 64) : CTy.size.convert x = x := by
  unfold CTy.convert
  simp only [CTy.modulus, CTy.signed]
  simp
  omega

/-- `int * int` for non-negative operands. -/
theorem mul_int {a b : Int} (ha : 0 ≤ a) (ha' : a < 2 ^ 31) (hb : 0 ≤ b) (hb' : b < 2 ^ 31) :
    mul (int a) (int b) = if a * b < 2 ^ 31 then some (int (a * b)) else none := by
  have h0 : 0 ≤ a * b := Int.mul_nonneg ha hb
  have e : mul (int a) (int b) = if CTy.int.convert (CTy.int.convert a * CTy.int.convert b) =
      CTy.int.convert a * CTy.int.convert b then some (int (CTy.int.convert a * CTy.int.convert b)) else none := rfl
  rw [e]
  simp only [convert_int (x := a) (by omega) ha', convert_int (x := b) (by omega) hb']
  by_cases h : a * b < 2 ^ 31
  · rw [if_pos h, if_pos ((convert_int_iff _).mpr ⟨by omega, h⟩)]
  · rw [if_neg h, if_neg (by rw [convert_int_iff]; omega)]

/-- `int + int` for non-negative operands. -/
theorem add_int {a b : Int} (ha : 0 ≤ a) (ha' : a < 2 ^ 31) (hb : 0 ≤ b) (hb' : b < 2 ^ 31) :
    add (int a) (int b) = if a + b < 2 ^ 31 then some (int (a + b)) else none := by
  have e : add (int a) (int b) = if CTy.int.convert (CTy.int.convert a + CTy.int.convert b) =
      CTy.int.convert a + CTy.int.convert b then some (int (CTy.int.convert a + CTy.int.convert b)) else none := rfl
  rw [e]
  simp only [convert_int (x := a) (by omega) ha', convert_int (x := b) (by omega) hb']
  by_cases h : a + b < 2 ^ 31
  · rw [if_pos h, if_pos ((convert_int_iff _).mpr ⟨by omega, h⟩)]
  · rw [if_neg h, if_neg (by rw [convert_int_iff]; omega)]

/-- `int + size_t`. -/
theorem add_int_size {a b : Int} (ha : 0 ≤ a) (hb : 0 ≤ b) (hab : a + b < 2 ^ 64) :
    add (int a) (size b) = some (size (a + b)) := by
  have e : add (int a) (size b) = some (size (CTy.size.convert (CTy.size.convert a + CTy.size.convert b))) := rfl
  rw [e, convert_size ha (by omega), convert_size hb (by omega), convert_size (by omega) hab]

/-- `int * size_t`. -/
theorem mul_int_size {a b : Int} (ha : 0 ≤ a) (ha' : a < 2 ^ 64) (hb : 0 ≤ b) (hb' : b < 2 ^ 64) (hab : a * b < 2 ^ 64) :
    mul (int a) (size b) = some (size (a * b)) := by
  have e : mul (int a) (size b) = some (size (CTy.size.convert (CTy.size.convert a * CTy.size.convert b))) := rfl
  rw [e, convert_size ha ha', convert_size hb hb', convert_size (Int.mul_nonneg ha hb) hab]

/-- `int + unsigned`. -/
theorem add_int_uint {a b : Int} (ha : 0 ≤ a) (hb : 0 ≤ b) (hab : a + b < 2 ^ 32) :
    add (int a) (uint b) = some (uint (a + b)) := by
  have e : add (int a) (uint b) = some (uint (CTy.uint.convert (CTy.uint.convert a + CTy.uint.convert b))) := rfl
  rw [e, convert_uint ha (by omega), convert_uint hb (by omega), convert_uint (by omega) hab]

/-- `size_t + unsigned`. -/
theorem add_size_uint {a b : Int} (ha : 0 ≤ a) (hb : 0 ≤ b) (hab : a + b < 2 ^ 64) :
    add (size a) (uint b) = some (size (a + b)) := by
  have e : add (size a) (uint b) = some (size (CTy.size.convert (CTy.size.convert a + CTy.size.convert b))) := rfl
  rw [e, convert_size ha (by omega), convert_size hb (by omega), convert_size (by omega) hab]

/-- `int * unsigned` wraps around. -/
theorem mul_int_uint {a b : Int} (ha : 0 ≤ a) (ha' : a < 2 ^ 32) (hb : 0 ≤ b) (hb' : b < 2 ^ 32) :
    mul (int a) (uint b) = some (uint ((a * b) % 2 ^ 32)) := by
  have e : mul (int a) (uint b) = some (uint (CTy.uint.convert (CTy.uint.convert a * CTy.uint.convert b))) := rfl
  rw [e, convert_uint ha ha', convert_uint hb hb']
  simp [CTy.convert, CTy.modulus, CTy.signed]

theorem mul_uint_int {a b : Int} (ha : 0 ≤ a) (ha' : a < 2 ^ 32) (hb : 0 ≤ b) (hb' : b < 2 ^ 32) :
    mul (uint a) (int b) = some (uint ((a * b) % 2 ^ 32)) := by
  have e : mul (uint a) (int b) = some (uint (CTy.uint.convert (CTy.uint.convert a * CTy.uint.convert b))) := rfl
  rw [e, convert_uint ha ha', convert_uint hb hb']
  simp [CTy.convert, CTy.modulus, CTy.signed]

end Implicit
