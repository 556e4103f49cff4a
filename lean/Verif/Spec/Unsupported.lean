import Verif.Spec.ImportShapes

/-!
# The parts of a document that make import panic

`Unsupported a` names every such part.  Parts that import does not look at do not count: the
content and time remapping of hidden layers, the inner radius of polygons, the opacity of a mask
without shape, the keyframes of a path after one without shape.
-/

namespace Velato

section
variable {F : Type}

/-- A handle coordinate given as an array that does not have exactly one element. -/
def BadComponent (c : Schema.KeyframeComponent F) : Prop :=
  ∃ xs, c = .arrayOfValues xs ∧ xs.length ≠ 1

/-- A keyframe with such a handle. -/
def BadHandles (k : Schema.KeyframeBase F) : Prop :=
  ∃ h, (k.inTangent = some h ∨ k.outTangent = some h) ∧ (BadComponent h.x ∨ BadComponent h.y)

/-- An animated scalar with a keyframe without value or with a bad handle. -/
def BadScalar (p : Schema.FloatValue F) : Prop :=
  ∃ ks, p.value = .animatedValue ks ∧ ∃ k ∈ ks, k.value = [] ∨ BadHandles k.base

/-- An optional scalar that is bad. -/
def BadScalar? (p : Option (Schema.FloatValue F)) : Prop := ∃ q, p = some q ∧ BadScalar q

/-- An animated gradient with a bad handle. -/
def BadGradient (g : Schema.GradientColors F) : Prop :=
  ∃ ks, g.colors.animatedProperty.value = .animatedValue ks ∧ ∃ k ∈ ks, BadHandles k.base

/-- An animated path with a bad handle, or whose first keyframe has no start shape at all (the
parser rejects the latter, property C52). -/
def BadPath (p : Schema.ShapeProperty F) : Prop :=
  ∃ ks, p.value = .animated ks ∧ ∃ (i : Nat) (k : Schema.ShapeKeyframe F), ks[i]? = some k ∧
    (∀ j < i, ∀ k', ks[j]? = some k' → ∃ b, StartOf (prevKeyframe ks j) k' b) ∧
    (BadHandles k.base ∨ (i = 0 ∧ k.start = none))

/-- A scalar that is not animated. -/
def StaticScalar (p : Schema.FloatValue F) : Prop := ∃ x, p.value = .static x

variable [FloatOps F]

/-- A star none of whose properties is animated and whose vertices do not fit in memory (48 bytes
each, at most `isize::MAX` bytes). -/
def StarTooLarge (s : Schema.PolyStarShape F) : Prop :=
  (∃ xs, s.position.value = .static xs) ∧ StaticScalar s.outerRadius ∧
  StaticScalar s.outerRoundness ∧ StaticScalar s.rotation ∧
  (s.starType = .star →
    (∀ p, s.innerRadius = some p → StaticScalar p) ∧
    (∀ p, s.innerRoundness = some p → StaticScalar p)) ∧
  ∃ x, s.points.value = .static x ∧
    2 ^ 63 - 1 < 48 * ((match s.starType with | .star => 2 | .polygon => 1) *
      FloatOps.toUsize (FloatOps.round x))

/-- A star with a bad scalar or too many points. -/
def BadStar (s : Schema.PolyStarShape F) : Prop :=
  BadScalar s.outerRadius ∨ BadScalar s.outerRoundness ∨ BadScalar s.rotation ∨
  BadScalar s.points ∨
  (s.starType = .star ∧ (BadScalar? s.innerRadius ∨ BadScalar? s.innerRoundness)) ∨
  StarTooLarge s

/-- The scalars common to layer and group transforms. -/
def BadRest (t : Schema.Transform F) : Prop :=
  (∃ r, t.rotation = some (.rotation r) ∧ BadScalar r) ∨ BadScalar? t.skew ∨
  BadScalar? t.skewAxis ∨ BadScalar? t.opacity

/-- A layer transform without rotation, with split rotation, or with a bad scalar. -/
def BadLayerTransform (t : Schema.Transform F) : Prop :=
  t.rotation = none ∨ (∃ x y z o, t.rotation = some (.splitRotation x y z o)) ∨
  (∃ v, t.position = .splitPosition v ∧ (BadScalar v.x ∨ BadScalar v.y)) ∨ BadRest t

/-- A group transform with split rotation or position, or with a bad scalar. -/
def BadGroupTransform (t : Schema.Transform F) : Prop :=
  (∃ x y z o, t.rotation = some (.splitRotation x y z o)) ∨
  (∃ v, t.position = .splitPosition v) ∨ BadRest t

/-- A shape that makes import panic.  Transforms count inside groups only. -/
inductive BadShape : Schema.AnyShape F → Prop where
  | rectangle {s : Schema.RectangleShape F} (h : BadScalar s.roundedCornerRadius) :
      BadShape (.rectangle s)
  | path {s : Schema.PathShape F} (h : BadPath s.shapeProperty) : BadShape (.path s)
  | polyStar {s : Schema.PolyStarShape F} (h : BadStar s) : BadShape (.polyStar s)
  | fill {s : Schema.FillShape F} (h : BadScalar s.shapeStyle.opacity) : BadShape (.fill s)
  | stroke {s : Schema.StrokeShape F}
      (h : BadScalar s.baseStroke.width ∨ BadScalar s.shapeStyle.opacity) : BadShape (.stroke s)
  | gradientFill {s : Schema.GradientFillShape F} (h : BadGradient s.gradient.colors) :
      BadShape (.gradientFill s)
  | gradientStroke {s : Schema.GradientStrokeShape F}
      (h : BadScalar s.baseStroke.width ∨ BadGradient s.gradient.colors) :
      BadShape (.gradientStroke s)
  | trim {s : Schema.TrimPathShape F}
      (h : BadScalar s.start ∨ BadScalar s.stop ∨ BadScalar s.offset) : BadShape (.trim s)
  | item {e n items i s} (hs : s ∈ items) (h : BadShape s) : BadShape (.group e n items i)
  | transform {e n items i t} (ht : Schema.AnyShape.transform t ∈ items)
      (h : BadGroupTransform t.transform) : BadShape (.group e n items i)

/-- A mask with a bad path, or with a usable path and a bad opacity. -/
def BadMask (m : Schema.Mask F) : Prop :=
  ∃ p, m.shape = some p ∧ (BadPath p ∨ (¬ NoPath p ∧ BadScalar? m.opacity))

/-- The time remapping and the shapes of a layer. -/
def BadContent : Schema.AnyLayer F → Prop
  | .precomposition l => BadScalar? l.timeRemap
  | .shape l => ∃ s ∈ l.shapes, BadShape s
  | _ => False

/-- A layer that makes import panic. -/
def BadLayer (l : Schema.AnyLayer F) : Prop :=
  BadLayerTransform l.visual.transform ∨
  (l.visual.blendMode = some .add ∨ l.visual.blendMode = some .hardMix) ∨
  (∃ m ∈ l.visual.masksProperties.getD [], BadMask m) ∨
  (¬ l.Hidden ∧ BadContent l)

/-- An asset that makes import panic: an image, or a bad layer. -/
def BadAsset : Schema.AnyAsset F → Prop
  | .precomposition p => ∃ l ∈ p.layers, BadLayer l
  | .image _ => True

/-- A document that import cannot handle. -/
def Unsupported (a : Schema.Animation F) : Prop :=
  (∃ x ∈ a.assets.getD [], BadAsset x) ∨ ∃ l ∈ a.layers, BadLayer l

end
end Velato
