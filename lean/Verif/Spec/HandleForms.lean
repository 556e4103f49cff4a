import Verif.Spec.Elsewhere

/-!
# The ways to write the handles of a keyframe
-/

namespace Velato
open FloatOps (lit)

namespace Schema
section
variable {F : Type}

/-- The number `x`, by itself or in a list. -/
def KeyframeComponent.Is (c : KeyframeComponent F) (x : F) : Prop := c = .singleValue x ∨ c = .arrayOfValues [x]

/-- A handle at `(x, y)`. -/
def KeyframeBezierHandle.At (h : KeyframeBezierHandle F) (x y : F) : Prop := h.x.Is x ∧ h.y.Is y

/-- Two handles at the same point. -/
def KeyframeBezierHandle.Same (h h' : KeyframeBezierHandle F) : Prop := ∃ x y, h.At x y ∧ h'.At x y

variable [FloatOps F]

/-- The handles are equal; or they are at the same points; or those of one are missing and those of the other are at
`(0, 0)` and `(1, 1)`. -/
inductive KeyframeBase.SameHandles (b b' : KeyframeBase F) : Prop where
  | equal (hi : b'.inTangent = b.inTangent) (ho : b'.outTangent = b.outTangent)
  | written (hi : Option.Rel KeyframeBezierHandle.Same b.inTangent b'.inTangent)
      (ho : Option.Rel KeyframeBezierHandle.Same b.outTangent b'.outTangent)
  | added {i o : KeyframeBezierHandle F} (hi : b.inTangent = none) (ho : b.outTangent = none) (hi' : b'.inTangent = some i)
      (ho' : b'.outTangent = some o) (pi : i.At (lit 1) (lit 1)) (po : o.At (lit 0) (lit 0))
  | removed {i o : KeyframeBezierHandle F} (hi : b.inTangent = some i) (ho : b.outTangent = some o)
      (hi' : b'.inTangent = none) (ho' : b'.outTangent = none) (pi : i.At (lit 1) (lit 1)) (po : o.At (lit 0) (lit 0))

/-- The same time, both held or both not, and the same handles. -/
structure KeyframeBase.Same (b b' : KeyframeBase F) : Prop where
  time : b'.time = b.time
  hold : b'.hold = some .true ↔ b.hold = some .true
  handles : b.SameHandles b'

/-- The keyframe is the same, apart from how its handles are written. -/
structure Keyframe.Same (k k' : Keyframe F) : Prop where
  base : k.base.Same k'.base
  rest : k' = { k with base := k'.base }

/-- The keyframe is the same, apart from how its handles are written. -/
structure PositionKeyframe.Same (k k' : PositionKeyframe F) : Prop where
  keyframe : k.keyframe.Same k'.keyframe
  rest : k' = { k with keyframe := k'.keyframe }

/-- The keyframe is the same, apart from how its handles are written. -/
structure ShapeKeyframe.Same (k k' : ShapeKeyframe F) : Prop where
  base : k.base.Same k'.base
  rest : k' = { k with base := k'.base }

/-- The keyframes are the same one by one, apart from how their handles are written. -/
def sameKeyframes : KeyframeRelations F where
  numbers := AnimatedPropertyK.Keyed (List.Forall₂ Keyframe.Same)
  vectors := AnimatedPropertyK.Keyed (List.Forall₂ Keyframe.Same)
  colors := AnimatedPropertyK.Keyed (List.Forall₂ Keyframe.Same)
  gradients _ := AnimatedPropertyK.Keyed (List.Forall₂ Keyframe.Same)
  positions := PositionValueK.Keyed (List.Forall₂ PositionKeyframe.Same)
  paths := ShapePropertyK.Keyed (List.Forall₂ ShapeKeyframe.Same)

end
end Schema
end Velato
