import Verif.Num.Ops
import Verif.Num.Round

/-!
# A model of IEEE-754 binary64 (`f64`) and the instance of `FloatOps`

Finite numbers are a sign and an exact rational magnitude that is representable in the format;
arithmetic is the exact rational operation followed by round-to-nearest-even, with signed zeros,
infinities and NaN (one NaN: payloads are not observable by velato).
-/

namespace Velato

/-- The overflow threshold `2^1024`. -/
def maxMag : ℚ := 2 ^ 1024

/-- An `f64`. -/
inductive F64 where
  | nan
  | inf (neg : Bool)
  | fin (neg : Bool) (mag : ℚ) (h : IsRepr fmt64 mag ∧ mag < maxMag)
  deriving DecidableEq

namespace F64

/-- Round an exact rational; `s` is the sign of the result if the exact value is zero. -/
def ofRat (s : Bool) (q : ℚ) : F64 :=
  if h : roundMag fmt64 |q| < maxMag then
    .fin (if q = 0 then s else decide (q < 0)) (roundMag fmt64 |q|) ⟨repr_roundMag _ _, h⟩
  else .inf (decide (q < 0))

instance : Inhabited F64 := ⟨ofRat false 0⟩

/-- The exact value of a finite number (0 for the others). -/
def toQ : F64 → ℚ
  | .nan => 0
  | .inf _ => 0
  | .fin s q _ => if s then -q else q

/-- Neither NaN nor infinite. -/
def isFin : F64 → Bool
  | .fin .. => true
  | _ => false

/-- The sign bit. -/
def sign : F64 → Bool
  | .nan => false
  | .inf s => s
  | .fin s _ _ => s

def neg : F64 → F64
  | .nan => .nan
  | .inf s => .inf (!s)
  | .fin s q h => .fin (!s) q h

def abs : F64 → F64
  | .nan => .nan
  | .inf _ => .inf false
  | .fin _ q h => .fin false q h

/-- Addition: an exact zero sum is `-0` only for `-0 + -0`. -/
def add : F64 → F64 → F64
  | .nan, _ => .nan
  | _, .nan => .nan
  | .inf s, .inf t => if s = t then .inf s else .nan
  | .inf s, .fin .. => .inf s
  | .fin .., .inf t => .inf t
  | .fin s a ha, .fin t b hb => ofRat (s && t) (toQ (.fin s a ha) + toQ (.fin t b hb))

def sub (x y : F64) : F64 := add x (neg y)

def mul : F64 → F64 → F64
  | .nan, _ => .nan
  | _, .nan => .nan
  | .inf s, .inf t => .inf (s != t)
  | .inf s, .fin t b _ => if b = 0 then .nan else .inf (s != t)
  | .fin s a _, .inf t => if a = 0 then .nan else .inf (s != t)
  | .fin s a ha, .fin t b hb => ofRat (s != t) (toQ (.fin s a ha) * toQ (.fin t b hb))

def div : F64 → F64 → F64
  | .nan, _ => .nan
  | _, .nan => .nan
  | .inf _, .inf _ => .nan
  | .inf s, .fin t _ _ => .inf (s != t)
  | .fin s _ _, .inf t => ofRat (s != t) 0
  | .fin s a ha, .fin t b hb =>
    if b = 0 then (if a = 0 then .nan else .inf (s != t))
    else ofRat (s != t) (toQ (.fin s a ha) / toQ (.fin t b hb))

/-- `fmod`: `x - y * trunc(x / y)`, with the sign of `x` (the exact result is representable, so
the rounding in `ofRat` is the identity). -/
def rem : F64 → F64 → F64
  | .nan, _ => .nan
  | _, .nan => .nan
  | .inf _, _ => .nan
  | .fin s a ha, .inf _ => .fin s a ha
  | .fin s a _, .fin _ b _ =>
    if b = 0 then .nan
    else
      let r := a - b * (⌊a / b⌋ : ℚ)
      ofRat s (if s then -r else r)

/-- `f64::round`: half away from zero (the exact result is representable). -/
def round : F64 → F64
  | .nan => .nan
  | .inf s => .inf s
  | .fin s a _ =>
    let r : ℚ := (⌊a + 1 / 2⌋ : ℚ)
    ofRat s (if s then -r else r)

/-- `x as usize` on a 64-bit target. -/
def toUsize : F64 → ℕ
  | .nan => 0
  | .inf s => if s then 0 else 2 ^ 64 - 1
  | .fin s a _ => if s then 0 else min ⌊a⌋.toNat (2 ^ 64 - 1)

/-- Rounding to binary32, result as an `f64`. -/
def toF32 : F64 → F64
  | .nan => .nan
  | .inf s => .inf s
  | .fin s a _ =>
    let m := roundMag fmt32 a
    if m < 2 ^ 128 then ofRat s (if s then -m else m) else .inf s

def lt : F64 → F64 → Bool
  | .nan, _ => false
  | _, .nan => false
  | .inf s, .inf t => s && !t
  | .inf s, .fin .. => s
  | .fin .., .inf t => !t
  | .fin s a ha, .fin t b hb => decide (toQ (.fin s a ha) < toQ (.fin t b hb))

def beq : F64 → F64 → Bool
  | .nan, _ => false
  | _, .nan => false
  | .inf s, .inf t => s == t
  | .inf _, .fin .. => false
  | .fin .., .inf _ => false
  | .fin s a ha, .fin t b hb => decide (toQ (.fin s a ha) = toQ (.fin t b hb))

def le (x y : F64) : Bool := lt x y || beq x y

instance : FloatOps F64 where
  lit q := ofRat false q
  ofUsize n := ofRat false n
  add := add
  sub := sub
  mul := mul
  div := div
  rem := rem
  neg := neg
  abs := abs
  lt := lt
  le := le
  eq := beq
  round := round
  toUsize := toUsize
  toF32 := toF32

end F64
end Velato
