import Verif.Spec.Elsewhere

/-!
# Vocabulary for statements about numbers that are not looked at
-/

namespace Velato
namespace Schema

section
variable {F : Type}

/-- The keyframe has the same time, handles and hold flag, and its first `n` numbers are the same. -/
structure Keyframe.Begins (n : Nat) (k k' : Keyframe F) : Prop where
  base : k'.base = k.base
  value : k'.value.take n = k.value.take n

/-- The first `n` numbers are the same, whether there are keyframes or not. -/
inductive AnimatedPropertyK.Begins (n : Nat) : AnimatedPropertyK F (List F) → AnimatedPropertyK F (List F) → Prop where
  | static {xs xs' : List F} (h : xs'.take n = xs.take n) : Begins n (.static xs) (.static xs')
  | animated {ks ks' : List (Keyframe F)} (h : List.Forall₂ (Keyframe.Begins n) ks ks') : Begins n (.animatedValue ks) (.animatedValue ks')

/-- The first two numbers are the same, whether there are keyframes or not. -/
inductive PositionValueK.Begins : PositionValueK F → PositionValueK F → Prop where
  | static {xs xs' : List F} (h : xs'.take 2 = xs.take 2) : Begins (.static xs) (.static xs')
  | animated {ks ks' : List (PositionKeyframe F)} (h : List.Forall₂ (fun k k' => k.keyframe.Begins 2 k'.keyframe) ks ks') :
      Begins (.animated ks) (.animated ks')

/-- The keyframe has the same time, handles and hold flag, and the first shapes it starts and ends with are the same. -/
structure ShapeKeyframe.Begins (k k' : ShapeKeyframe F) : Prop where
  base : k'.base = k.base
  start : k'.start.map List.head? = k.start.map List.head?
  stop : k'.stop.map List.head? = k.stop.map List.head?

/-- Keyframes of numbers may differ after their first number; points, sizes and positions after their second; colours after their
third; the keyframes of paths after their first shape.  Keyframes may give any deprecated end value, those of positions any
tangents. -/
def overlooked : KeyframeRelations F where
  numbers := AnimatedPropertyK.Keyed (List.Forall₂ (Keyframe.Begins 1))
  vectors := AnimatedPropertyK.Begins 2
  colors := AnimatedPropertyK.Begins 3
  gradients _ := AnimatedPropertyK.Keyed (List.Forall₂ fun k k' => k'.base = k.base ∧ k'.value = k.value)
  positions := PositionValueK.Begins
  paths := ShapePropertyK.Keyed (List.Forall₂ ShapeKeyframe.Begins)

end
end Schema
end Velato
