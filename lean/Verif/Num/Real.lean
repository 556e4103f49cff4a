import Verif.Num.Cmp
import Mathlib.Analysis.SpecialFunctions.Trigonometric.Basic
import Mathlib.Analysis.SpecialFunctions.Pow.Real
import Mathlib.Analysis.SpecialFunctions.Sqrt

/-!
# Exact real arithmetic as an instance of `FloatOps` and `Libm`

Used by the theorems about exact arithmetic.  Division by zero follows Lean's convention
(`x / 0 = 0`); theorems about `ℝ` do not rely on it unless they say so.
-/

namespace Velato
open Classical

/-- Exact arithmetic; `x as f32` is the identity. -/
noncomputable instance : FloatOps ℝ where
  lit q := (q : ℝ)
  ofUsize n := (n : ℝ)
  add x y := x + y
  sub x y := x - y
  mul x y := x * y
  div x y := x / y
  rem x y := if 0 ≤ x then x - |y| * ⌊x / |y|⌋ else -(-x - |y| * ⌊-x / |y|⌋)
  neg x := -x
  abs x := |x|
  lt x y := decide (x < y)
  le x y := decide (x ≤ y)
  eq x y := decide (x = y)
  round x := if 0 ≤ x then ⌊x + 1 / 2⌋ else -⌊-x + 1 / 2⌋
  toUsize x := min ⌊x⌋.toNat (2 ^ 64 - 1)
  toF32 x := x

/-- Exact trigonometric and power functions. -/
noncomputable instance : Libm ℝ where
  sin := Real.sin
  cos := Real.cos
  tan := Real.tan
  powf x y := x ^ y
  hypot x y := Real.sqrt (x ^ 2 + y ^ 2)
  pi := Real.pi
  tau := 2 * Real.pi
  fracPi2 := Real.pi / 2

noncomputable instance : LawfulCmp ℝ where
  val x := some (x : EReal)
  lt_iff x y := by show decide (x < y) = true ↔ _; simp
  le_iff x y := by show decide (x ≤ y) = true ↔ _; simp
  eq_iff x y := by show decide (x = y) = true ↔ _; simp [eq_comm]
  val_zero := by show some (((0 : ℚ) : ℝ) : EReal) = some 0; simp
  val_one := by show some (((1 : ℚ) : ℝ) : EReal) = some 1; simp

section
variable (x y : ℝ)
@[simp] theorem real_lit (q : ℚ) : (FloatOps.lit q : ℝ) = (q : ℝ) := rfl
@[simp] theorem real_ofUsize (n : ℕ) : (FloatOps.ofUsize n : ℝ) = (n : ℝ) := rfl
@[simp] theorem real_add : x +. y = x + y := rfl
@[simp] theorem real_sub : x -. y = x - y := rfl
@[simp] theorem real_mul : x *. y = x * y := rfl
@[simp] theorem real_div : x /. y = x / y := rfl
@[simp] theorem real_neg : FloatOps.neg x = -x := rfl
@[simp] theorem real_abs : FloatOps.abs x = |x| := rfl
@[simp] theorem real_toF32 : FloatOps.toF32 x = x := rfl
@[simp] theorem real_lt : (x <. y) = decide (x < y) := rfl
@[simp] theorem real_le : (x <=. y) = decide (x ≤ y) := rfl
@[simp] theorem real_eq : (x ==. y) = decide (x = y) := rfl
@[simp] theorem real_sin : Libm.sin x = Real.sin x := rfl
@[simp] theorem real_cos : Libm.cos x = Real.cos x := rfl
@[simp] theorem real_tan : Libm.tan x = Real.tan x := rfl
@[simp] theorem real_powf : Libm.powf x y = x ^ y := rfl
@[simp] theorem real_hypot : Libm.hypot x y = Real.sqrt (x ^ 2 + y ^ 2) := rfl
@[simp] theorem real_pi : (Libm.pi : ℝ) = Real.pi := rfl
@[simp] theorem real_tau : (Libm.tau : ℝ) = 2 * Real.pi := rfl
@[simp] theorem real_fracPi2 : (Libm.fracPi2 : ℝ) = Real.pi / 2 := rfl
end

end Velato
