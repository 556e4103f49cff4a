import Verif.Spec.Playback
import Verif.Spec.Cut
import Verif.Spec.Elsewhere

/-!
# Vocabulary for statements about keyframes that are added
-/

namespace Velato
namespace Schema

variable {F : Type}

/-- The same attributes with another transform. -/
def VisualLayer.withTransform (t : Transform F) (v : VisualLayer F) : VisualLayer F := { v with transform := t }

/-- The same layer with another transform. -/
def AnyLayer.withTransform (t : Transform F) : AnyLayer F → AnyLayer F
  | .precomposition l => .precomposition { l with visualLayer := l.visualLayer.withTransform t }
  | .solid l => .solid { l with visualLayer := l.visualLayer.withTransform t }
  | .shape l => .shape { l with visualLayer := l.visualLayer.withTransform t }
  | .null l => .null (l.withTransform t)
  | .image l => .image { l with visualLayer := l.visualLayer.withTransform t }

end Schema

/-- The keyframe is followed by a straight piece: it has no handles and is not held. -/
def Schema.KeyframeBase.OnLine {F : Type} (b : Schema.KeyframeBase F) : Prop :=
  b.inTangent = none ∧ b.outTangent = none ∧ b.hold ≠ some .true

/-- `ks'` has one keyframe more than `ks`, on a straight piece; each of its first `n` numbers is where the straight piece is
at that time. -/
inductive KeyframeAdded (n : Nat) : List (Schema.Keyframe ℝ) → List (Schema.Keyframe ℝ) → Prop where
  | mk {pre post k₀ m k₁} (h₀ : k₀.base.OnLine) (hm : m.base.OnLine) (lo : k₀.base.time < m.base.time)
      (hi : m.base.time < k₁.base.time)
      (hv : ∀ c < n, ∃ x₀ x₁, k₀.value[c]? = some x₀ ∧ k₁.value[c]? = some x₁ ∧
        m.value[c]? = some (x₀ + (x₁ - x₀) * ((m.base.time - k₀.base.time) / (k₁.base.time - k₀.base.time)))) :
      KeyframeAdded n (pre ++ k₀ :: k₁ :: post) (pre ++ k₀ :: m :: k₁ :: post)

/-- Any number of such keyframes, added one after the other. -/
inductive KeyframesAdded (n : Nat) : List (Schema.Keyframe ℝ) → List (Schema.Keyframe ℝ) → Prop where
  | none (ks : List (Schema.Keyframe ℝ)) : KeyframesAdded n ks ks
  | more {ks ks' ks'' : List (Schema.Keyframe ℝ)} (h : KeyframeAdded n ks ks') (hs : KeyframesAdded n ks' ks'') :
      KeyframesAdded n ks ks''

/-- Points of one list are between those of two others, in the proportion `s`. -/
def PointsBetween (s : ℝ) (p₀ p₁ p : List (ℝ × ℝ)) : Prop :=
  p₁.length = p₀.length ∧ p = List.zipWith (fun x y => (x.1 + (y.1 - x.1) * s, x.2 + (y.2 - x.2) * s)) p₀ p₁

/-- The vertices and the tangents of `b` are between those of `b₀` and `b₁`, in the proportion `s`; it is closed if `b₀` is. -/
structure Schema.Bezier.Between (b₀ : Schema.Bezier ℝ) (s : ℝ) (b₁ b : Schema.Bezier ℝ) : Prop where
  vertices : PointsBetween s b₀.vertices b₁.vertices b.vertices
  inTangents : PointsBetween s b₀.inTangents b₁.inTangents b.inTangents
  outTangents : PointsBetween s b₀.outTangents b₁.outTangents b.outTangents
  closed : b.closed = b₀.closed

/-- `ks'` has one keyframe more than `ks`, on a straight piece; its shape is where the straight piece is at that time. -/
inductive PathKeyframeAdded : List (Schema.ShapeKeyframe ℝ) → List (Schema.ShapeKeyframe ℝ) → Prop where
  | mk {pre post k₀ m k₁ b₀ b b₁} {bs₀ bs bs₁ : List (Schema.Bezier ℝ)} (h₀ : k₀.base.OnLine) (hm : m.base.OnLine)
      (lo : k₀.base.time < m.base.time) (hi : m.base.time < k₁.base.time)
      (s₀ : k₀.start = some (b₀ :: bs₀)) (s : m.start = some (b :: bs)) (s₁ : k₁.start = some (b₁ :: bs₁))
      (e₀ : k₀.stop = none) (e : m.stop = none)
      (hb : b₀.Between ((m.base.time - k₀.base.time) / (k₁.base.time - k₀.base.time)) b₁ b) :
      PathKeyframeAdded (pre ++ k₀ :: k₁ :: post) (pre ++ k₀ :: m :: k₁ :: post)

/-- Any number of such keyframes, added one after the other. -/
inductive PathKeyframesAdded : List (Schema.ShapeKeyframe ℝ) → List (Schema.ShapeKeyframe ℝ) → Prop where
  | none (ks : List (Schema.ShapeKeyframe ℝ)) : PathKeyframesAdded ks ks
  | more {ks ks' ks'' : List (Schema.ShapeKeyframe ℝ)} (h : PathKeyframeAdded ks ks') (hs : PathKeyframesAdded ks' ks'') :
      PathKeyframesAdded ks ks''

/-- The keyframes of numbers, points, sizes, colours, gradients, positions and paths are the same, or they are in the order of
their times and keyframes on straight pieces are added; for gradients only if they have no opacity data (after the four numbers of
each of their `n` stops), for paths only if each of their keyframes has a shape of its own. -/
def straightAdded : Schema.KeyframeRelations ℝ where
  numbers := Schema.AnimatedPropertyK.Keyed fun ks ks' => ks' = ks ∨ InOrder (·.base) ks ∧ KeyframesAdded 1 ks ks'
  vectors := Schema.AnimatedPropertyK.Keyed fun ks ks' => ks' = ks ∨ InOrder (·.base) ks ∧ KeyframesAdded 2 ks ks'
  colors := Schema.AnimatedPropertyK.Keyed fun ks ks' => ks' = ks ∨ InOrder (·.base) ks ∧ KeyframesAdded 3 ks ks'
  gradients n := Schema.AnimatedPropertyK.Keyed fun ks ks' =>
    ks' = ks ∨ 0 < n ∧ InOrder (·.base) ks ∧ KeyframesAdded (4 * n) ks ks' ∧ ∀ k ∈ ks', k.value.length < 4 * n + 4
  positions := Schema.PositionValueK.Keyed fun ks ks' =>
    ks' = ks ∨ InOrder (·.keyframe.base) ks ∧ KeyframesAdded 2 (ks.map (·.keyframe)) (ks'.map (·.keyframe))
  paths := Schema.ShapePropertyK.Keyed fun ks ks' =>
    InOrder (·.base) ks ∧ (∀ k ∈ ks, ∃ b bs, k.start = some (b :: bs)) ∧ PathKeyframesAdded ks ks'

end Velato
