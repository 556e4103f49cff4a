import Verif.Spec.HandleForms

/-!
# Handles that are not used
-/

namespace Velato
namespace Schema
section
variable {F : Type}

/-- There is no handle, or one with a number for each coordinate, by itself or in a list. -/
def Plain (h : Option (KeyframeBezierHandle F)) : Prop := ∀ x, h = some x → ∃ u v, x.At u v

/-- The same time and hold; the handles may be missing in one of them, or in both, or be anywhere. -/
structure KeyframeBase.AnyHandles (b b' : KeyframeBase F) : Prop where
  time : b'.time = b.time
  hold : b'.hold = b.hold
  plain : Plain b.inTangent ∧ Plain b.outTangent ∧ Plain b'.inTangent ∧ Plain b'.outTangent

/-- Equal, or both held until the next keyframe, with any handles. -/
def KeyframeBase.HeldAlike (b b' : KeyframeBase F) : Prop := b' = b ∨ b.hold = some .true ∧ b.AnyHandles b'

/-- The keyframe is the same, apart from its handles if it is held. -/
structure Keyframe.HeldAlike (k k' : Keyframe F) : Prop where
  base : k.base.HeldAlike k'.base
  rest : k' = { k with base := k'.base }

/-- The keyframe is the same, apart from its handles if it is held. -/
structure PositionKeyframe.HeldAlike (k k' : PositionKeyframe F) : Prop where
  keyframe : k.keyframe.HeldAlike k'.keyframe
  rest : k' = { k with keyframe := k'.keyframe }

/-- The keyframe is the same, apart from its handles. -/
structure ShapeKeyframe.AnyHandles (k k' : ShapeKeyframe F) : Prop where
  base : k'.base = k.base ∨ k.base.AnyHandles k'.base
  rest : k' = { k with base := k'.base }

/-- The keyframes are the same one by one, apart from the handles of held keyframes, and from all handles of the keyframes
of paths.  The colours of gradients are the same. -/
def unusedHandles : KeyframeRelations F where
  numbers := AnimatedPropertyK.Keyed (List.Forall₂ Keyframe.HeldAlike)
  vectors := AnimatedPropertyK.Keyed (List.Forall₂ Keyframe.HeldAlike)
  colors := AnimatedPropertyK.Keyed (List.Forall₂ Keyframe.HeldAlike)
  gradients _ v v' := v' = v
  positions := PositionValueK.Keyed (List.Forall₂ PositionKeyframe.HeldAlike)
  paths := ShapePropertyK.Keyed (List.Forall₂ ShapeKeyframe.AnyHandles)

end
end Schema
end Velato
