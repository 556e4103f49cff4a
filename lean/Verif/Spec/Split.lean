import Verif.Spec.Elsewhere

/-!
# Vocabulary for statements about positions that are split into their coordinates
-/

namespace Velato
namespace Schema

section
variable {F : Type}

/-- A keyframe of coordinate number `i` of the position: with the same time, handles and hold flag, and with that coordinate. -/
structure PositionKeyframe.Gives (i : Nat) (k : PositionKeyframe F) (k' : Keyframe F) : Prop where
  base : k'.base = k.keyframe.base
  value : ∃ v, k.keyframe.value[i]? = some v ∧ k'.value.head? = some v

/-- The position has these values or keyframes for x and y.  Keyframes have both handles or none. -/
inductive PositionValueK.Splits : PositionValueK F → AnimatedPropertyK F F → AnimatedPropertyK F F → Prop where
  | static {x y : F} {zs : List F} : Splits (.static (x :: y :: zs)) (.static x) (.static y)
  | animated {ks : List (PositionKeyframe F)} {kx ky : List (Keyframe F)} (hx : List.Forall₂ (PositionKeyframe.Gives 0) ks kx)
      (hy : List.Forall₂ (PositionKeyframe.Gives 1) ks ky)
      (handles : ∀ k ∈ ks, k.keyframe.base.inTangent = none ↔ k.keyframe.base.outTangent = none) :
      Splits (.animated ks) (.animatedValue kx) (.animatedValue ky)

/-- All values are the same, except that positions may be split into coordinates. -/
def splitPositions : KeyframeRelations F where
  numbers v v' := v' = v
  vectors v v' := v' = v
  colors v v' := v' = v
  gradients _ v v' := v' = v
  positions v v' := v' = v
  paths v v' := v' = v
  splits := PositionValueK.Splits

end
end Schema
end Velato
