import Mathlib.Data.Rat.Defs
import Mathlib.Data.Nat.Notation

/-!
# The floating-point operations velato uses

`FloatOps F` lists the Rust `f64` operations that occur in `/repo/src/runtime` and
`/repo/src/import`.  It has **no laws**: a theorem proved for an arbitrary instance holds for
IEEE doubles with any rounding, for exact reals, for anything.  Two instances are given:
`Verif.Num.Real` (exact reals) and `Verif.Num.F64` (an IEEE-754 binary64 model).
-/

namespace Velato

/-- Operations of Rust's `f64` (comparisons are the IEEE ones: `false` when an operand is NaN). -/
class FloatOps (F : Type) where
  /-- a decimal literal of the source, e.g. `1e-9`, `100.0` -/
  lit : ℚ → F
  /-- `n as f64` for `n : usize` -/
  ofUsize : ℕ → F
  add : F → F → F
  sub : F → F → F
  mul : F → F → F
  div : F → F → F
  /-- `%` on `f64` (C `fmod`) -/
  rem : F → F → F
  neg : F → F
  abs : F → F
  lt : F → F → Bool
  le : F → F → Bool
  eq : F → F → Bool
  /-- `f64::round` (half away from zero) -/
  round : F → F
  /-- `x as usize` (saturating, NaN to 0) -/
  toUsize : F → ℕ
  /-- `x as f32`, represented by the `f64` of the same value (f32 ⊆ f64 exactly) -/
  toF32 : F → F

scoped infixl:65 " +. " => FloatOps.add
scoped infixl:65 " -. " => FloatOps.sub
scoped infixl:70 " *. " => FloatOps.mul
scoped infixl:70 " /. " => FloatOps.div
scoped infix:50 " <. " => FloatOps.lt
scoped infix:50 " <=. " => FloatOps.le
scoped infix:50 " ==. " => FloatOps.eq

open FloatOps (lit)

section
variable {F : Type} [FloatOps F]

/-- `f64::is_nan`: the only value not equal to itself. -/
def isNaN (x : F) : Bool := !(x ==. x)

/-- `f64::min`: the smaller argument; if one is NaN the other is returned.
(Rust leaves the choice between `+0` and `-0` unspecified; velato's only use, in `conv_stops`,
does not depend on it.) -/
def fmin (a b : F) : F := if a <. b || isNaN b then a else b

/-- `f64::max`. -/
def fmax (a b : F) : F := if b <. a || isNaN b then a else b

/-- `f64::clamp(lo, hi)`: `if x < lo {x = lo}; if x > hi {x = hi}; x` — NaN passes through. -/
def clamp (x lo hi : F) : F :=
  let x := if x <. lo then lo else x
  if hi <. x then hi else x

/-- `f64::rem_euclid`: `let r = self % rhs; if r < 0.0 { r + rhs.abs() } else { r }`. -/
def remEuclid (x y : F) : F :=
  let r := FloatOps.rem x y
  if r <. lit 0 then r +. FloatOps.abs y else r

/-- Product of two `f32`s (both operands already `f32` values; the `f64` product of two 24-bit
significands is exact, so one final rounding to `f32` is the IEEE `f32` product). -/
def mulF32 (a b : F) : F := FloatOps.toF32 (a *. b)

end

/-- `libm` functions and π.  Rust does not specify their rounding: theorems quantify over
every instance, or are about `ℝ` where the instance is the exact one. -/
class Libm (F : Type) where
  sin : F → F
  cos : F → F
  tan : F → F
  powf : F → F → F
  hypot : F → F → F
  /-- `std::f64::consts::PI`; `TAU`, `FRAC_PI_2` are the constants of the same name -/
  pi : F
  tau : F
  fracPi2 : F

/-- `f64::to_radians`: `self * (PI / 180.0)`. -/
def toRadians {F : Type} [FloatOps F] [Libm F] (x : F) : F :=
  x *. ((Libm.pi : F) /. lit 180)

end Velato
