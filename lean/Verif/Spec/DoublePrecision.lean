import Verif.Num.Error
import Verif.Model.Value
import Verif.Model.Schema

/-!
# Vocabulary for statements about double precision
-/

namespace Velato

/-- A finite number between two real numbers. -/
def F64.Between (lo hi : ℝ) (x : F64) : Prop := x.isFin = true ∧ lo ≤ x.toR ∧ x.toR ≤ hi

/-- The handles of the keyframe, if it has any, are in the unit square. -/
def Time.HandlesInUnitSquare (t : Time F64) : Prop :=
  ∀ h, t.outTangent = some h ∨ t.inTangent = some h → h.x.Between 0 1 ∧ h.y.Between 0 1

/-- The numbers of a coordinate of an easing handle. -/
def Schema.KeyframeComponent.numbers {F : Type} : Schema.KeyframeComponent F → List F
  | .singleValue x => [x]
  | .arrayOfValues xs => xs

/-- All numbers of the handles of a keyframe of a document, if it has any, are between 0 and 1. -/
def Schema.KeyframeBase.HandlesInUnitSquare (k : Schema.KeyframeBase F64) : Prop :=
  ∀ h, k.outTangent = some h ∨ k.inTangent = some h →
    (∀ x ∈ h.x.numbers, x.Between 0 1) ∧ ∀ y ∈ h.y.numbers, y.Between 0 1

/-- The list has at least two numbers, and the first two are in the given ranges. -/
def PairBetween (xlo xhi ylo yhi : ℝ) (xs : List F64) : Prop :=
  ∃ x y rest, xs = x :: y :: rest ∧ x.Between xlo xhi ∧ y.Between ylo yhi

/-- The values of a scalar property are between `lo` and `hi`; if it is animated, it has a keyframe
and all handles are in the unit square. -/
def ScalarWithin (lo hi : ℝ) (p : Schema.FloatValue F64) : Prop :=
  match p.value with
  | .static x => x.Between lo hi
  | .animatedValue ks => ks ≠ [] ∧ ∀ k ∈ ks, k.base.HandlesInUnitSquare ∧
      ∀ x, k.value.head? = some x → x.Between lo hi

/-- The same for a vector property. -/
def VectorWithin (xlo xhi ylo yhi : ℝ) (p : Schema.MultiDimensional F64) : Prop :=
  match p.animatedProperty.value with
  | .static xs => PairBetween xlo xhi ylo yhi xs
  | .animatedValue ks => ks ≠ [] ∧ ∀ k ∈ ks, k.base.HandlesInUnitSquare ∧
      PairBetween xlo xhi ylo yhi k.value

/-- The same for a position. -/
def PositionWithin (xlo xhi ylo yhi : ℝ) (p : Schema.Position F64) : Prop :=
  match p.value with
  | .static xs => PairBetween xlo xhi ylo yhi xs
  | .animated ks => ks ≠ [] ∧ ∀ k ∈ ks, k.keyframe.base.HandlesInUnitSquare ∧
      PairBetween xlo xhi ylo yhi k.keyframe.value

/-- How far an animated number may leave the range from `lo` to `hi` of its keyframes: a multiple
of the width of the range and of the magnitude `M` of its ends. -/
noncomputable def overshoot (lo hi M : ℝ) : ℝ :=
  (hi - lo) * (5 / 10 ^ 11) + M / 2 ^ 53 + 1 / 2 ^ 1072

end Velato
