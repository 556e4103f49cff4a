import Verif.Spec.Elsewhere
import Verif.Num.Real

/-!
# Properties that do not change, as keyframes and as static values
-/

namespace Velato
namespace Schema

/-- The values are the same; or one is static, and the other has keyframes that `S` allows in its place. -/
inductive AnimatedPropertyK.Restated {F A : Type} (S : List (Keyframe F) → A → Prop) : AnimatedPropertyK F A → AnimatedPropertyK F A → Prop where
  | same (v : AnimatedPropertyK F A) : Restated S v v
  | toStatic {ks : List (Keyframe F)} {x : A} (h : S ks x) : Restated S (.animatedValue ks) (.static x)
  | toKeyframes {ks : List (Keyframe F)} {x : A} (h : S ks x) : Restated S (.static x) (.animatedValue ks)

/-- The positions are the same; or one is static, and the other has keyframes that `S` allows in its place. -/
inductive PositionValueK.Restated {F : Type} (S : List (PositionKeyframe F) → List F → Prop) : PositionValueK F → PositionValueK F → Prop where
  | same (v : PositionValueK F) : Restated S v v
  | toStatic {ks : List (PositionKeyframe F)} {x : List F} (h : S ks x) : Restated S (.animated ks) (.static x)
  | toKeyframes {ks : List (PositionKeyframe F)} {x : List F} (h : S ks x) : Restated S (.static x) (.animated ks)

/-- The paths are the same; or one is static, and the other has keyframes that `S` allows in its place. -/
inductive ShapePropertyK.Restated {F : Type} (S : List (ShapeKeyframe F) → Bezier F → Prop) : ShapePropertyK F → ShapePropertyK F → Prop where
  | same (v : ShapePropertyK F) : Restated S v v
  | toStatic {ks : List (ShapeKeyframe F)} {b : Bezier F} (h : S ks b) : Restated S (.animated ks) (.static b)
  | toKeyframes {ks : List (ShapeKeyframe F)} {b : Bezier F} (h : S ks b) : Restated S (.static b) (.animated ks)

section
variable {F : Type}

/-- There are keyframes, all with the number `x`; and `P` holds of them. -/
def SteadyNumber (P : KeyframeBase F → Prop) (ks : List (Keyframe F)) (x : F) : Prop :=
  ks ≠ [] ∧ ∀ k ∈ ks, P k.base ∧ k.value.head? = some x

/-- There are keyframes, all with the value `xs`; and `P` holds of them. -/
def SteadyList (P : KeyframeBase F → Prop) (ks : List (Keyframe F)) (xs : List F) : Prop :=
  ks ≠ [] ∧ ∀ k ∈ ks, P k.base ∧ k.value = xs

/-- There are keyframes, all with the shape `b`, at their end too if they give one. -/
def SteadyShape (ks : List (ShapeKeyframe F)) (b : Bezier F) : Prop :=
  ks ≠ [] ∧ ∀ k ∈ ks, (∃ bs, k.start = some (b :: bs)) ∧ ∀ e es, k.stop = some (e :: es) → e = b

/-- Numbers, points, sizes and positions that do not change may be static or have keyframes for which `P` holds. -/
def steady (P : KeyframeBase F → Prop) : KeyframeRelations F where
  numbers := AnimatedPropertyK.Restated (SteadyNumber P)
  vectors := AnimatedPropertyK.Restated (SteadyList P)
  colors v v' := v' = v
  gradients _ v v' := v' = v
  positions := PositionValueK.Restated fun ks xs => SteadyList P (ks.map (·.keyframe)) xs
  paths v v' := v' = v

/-- Numbers, points, sizes and positions that do not change may be static or have held keyframes. -/
def steadyHeld : KeyframeRelations F := steady fun b => b.hold = some .true

/-- Numbers, points, sizes, positions, colours, paths and gradients that do not change may be static or have keyframes, held or
not; gradients if all their stops are there (see C49 for what happens otherwise). -/
def steadyAll : KeyframeRelations F :=
  { steady (fun _ => True) with
    colors := AnimatedPropertyK.Restated (SteadyList fun _ => True)
    gradients := fun n => AnimatedPropertyK.Restated fun ks xs => 0 < n ∧ 4 * n ≤ xs.length ∧ SteadyList (fun _ => True) ks xs
    paths := ShapePropertyK.Restated SteadyShape }

end
end Schema
end Velato
