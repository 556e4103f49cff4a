import Verif.Model.Schema

/-!
# Attributes of a document that velato does not implement
-/

namespace Velato.Schema

section
variable {F : Type}

/-! ### Properties -/

/-- The keyframe without the deprecated end value. -/
def Keyframe.strip (k : Keyframe F) : Keyframe F := { k with endValueDeprecated := none }

/-- The property without index, animated flag, expression, slot and deprecated end values. -/
def AnimatedProperty.strip {S : Type} (p : AnimatedProperty F S) : AnimatedProperty F S where
  propertyIndex := none
  animated := none
  expression := none
  slotId := none
  value := match p.value with
    | .static s => .static s
    | .animatedValue ks => .animatedValue (ks.map Keyframe.strip)

/-- The property without the above and without length. -/
def MultiDimensional.strip (p : MultiDimensional F) : MultiDimensional F :=
  ⟨p.animatedProperty.strip, none⟩

/-- The position without index, animated flag, expression, length, deprecated end values and spatial
tangents. -/
def Position.strip (p : Position F) : Position F where
  propertyIndex := none
  animated := none
  expression := none
  length := none
  value := match p.value with
    | .static xs => .static xs
    | .animated ks => .animated (ks.map fun k => ⟨k.keyframe.strip, none, none⟩)

/-- The path without index, animated flag and expression. -/
def ShapeProperty.strip (p : ShapeProperty F) : ShapeProperty F :=
  ⟨none, none, none, p.value⟩

/-- The gradient colours, stripped. -/
def GradientColors.strip (g : GradientColors F) : GradientColors F := ⟨g.colors.strip, g.count⟩

/-- The rotation, stripped. -/
def AnyTransformR.strip : AnyTransformR F → AnyTransformR F
  | .rotation v => .rotation v.strip
  | .splitRotation x y z o => .splitRotation x y z o

/-- The position of a transform without z coordinate. -/
def AnyTransformP.strip : AnyTransformP F → AnyTransformP F
  | .position p => .position p.strip
  | .splitPosition s => .splitPosition ⟨true, s.x.strip, s.y.strip, none⟩

/-- The transform, stripped. -/
def Transform.strip (t : Transform F) : Transform F where
  anchorPoint := t.anchorPoint.map Position.strip
  position := t.position.strip
  scale := t.scale.map MultiDimensional.strip
  rotation := t.rotation.map AnyTransformR.strip
  skew := t.skew.map AnimatedProperty.strip
  skewAxis := t.skewAxis.map AnimatedProperty.strip
  opacity := t.opacity.map AnimatedProperty.strip

/-! ### Shapes -/

/-- A graphic element without names, hidden flag, blend mode, indices, class and id. -/
def GraphicElement.blank : GraphicElement F := ⟨⟨none, none⟩, none, none, none, none, none, none⟩

/-- A shape without the above and without direction. -/
def ShapeBase.blank : ShapeBase F := ⟨.blank, none⟩

/-- A stroke without dashes and without the animated form of the miter limit. -/
def BaseStroke.strip (s : BaseStroke F) : BaseStroke F :=
  { s with width := s.width.strip, dashes := none, miterLimitAnim := none }

/-- A gradient without highlight. -/
def BaseGradient.strip (g : BaseGradient F) : BaseGradient F where
  colors := g.colors.strip
  startPoint := g.startPoint.strip
  endPoint := g.endPoint.strip
  gradientType := g.gradientType
  highlightLength := none
  highlightAngle := none

/-- A style without the attributes of its graphic element. -/
def ShapeStyle.strip (s : ShapeStyle F) : ShapeStyle F := ⟨.blank, s.opacity.strip⟩

/-- A star; a polygon without inner radius and roundness. -/
def PolyStarShape.strip (s : PolyStarShape F) : PolyStarShape F where
  shape := .blank
  position := s.position.strip
  outerRadius := s.outerRadius.strip
  outerRoundness := s.outerRoundness.strip
  rotation := s.rotation.strip
  points := s.points.strip
  starType := s.starType
  innerRadius := if s.starType = .polygon then none else s.innerRadius.map AnimatedProperty.strip
  innerRoundness :=
    if s.starType = .polygon then none else s.innerRoundness.map AnimatedProperty.strip

mutual
/-- The shape without names, hidden flag, blend mode, indices, class, id, direction, fill rule,
dashes, animated miter limit, gradient highlight and trim mode; its properties stripped. -/
def AnyShape.strip : AnyShape F → AnyShape F
  | .group _ _ items _ => .group .blank none (AnyShape.stripAll items) none
  | .rectangle s =>
    .rectangle ⟨.blank, s.position.strip, s.size.strip, s.roundedCornerRadius.strip⟩
  | .ellipse s => .ellipse ⟨.blank, s.position.strip, s.size.strip⟩
  | .transform s => .transform ⟨.blank, s.transform.strip⟩
  | .stroke s => .stroke ⟨s.shapeStyle.strip, s.baseStroke.strip, s.strokeColor.strip⟩
  | .fill s => .fill ⟨s.shapeStyle.strip, s.color.strip, none⟩
  | .trim s => .trim ⟨.blank, s.start.strip, s.stop.strip, s.offset.strip, none⟩
  | .path s => .path ⟨.blank, s.shapeProperty.strip⟩
  | .gradientFill s => .gradientFill ⟨s.shapeStyle.strip, s.gradient.strip, none⟩
  | .gradientStroke s =>
    .gradientStroke ⟨s.shapeStyle.strip, s.baseStroke.strip, s.gradient.strip⟩
  | .polyStar s => .polyStar s.strip
  | .puckerBloat s => .puckerBloat s
  | .merge s => .merge s
  | .repeater s => .repeater s
  | .offsetPath s => .offsetPath s
  | .twist s => .twist s
  | .roundedCorners s => .roundedCorners s

/-- All shapes of a list. -/
def AnyShape.stripAll : List (AnyShape F) → List (AnyShape F)
  | [] => []
  | s :: ss => s.strip :: AnyShape.stripAll ss
end

/-! ### Layers -/

/-- The mask without names, mode, inversion and expansion. -/
def Mask.strip (m : Mask F) : Mask F where
  name := none
  matchName := none
  inverted := none
  shape := m.shape.map ShapeProperty.strip
  opacity := m.opacity.map AnimatedProperty.strip
  mode := none
  expand := none

/-- The layer attributes without match name, 3D flag, auto-orientation, motion blur, mask flag,
class, id, tag and transform-before-mask flags; its masks and transform stripped. -/
def VisualLayer.strip (v : VisualLayer F) : VisualLayer F :=
  { v with
    layer :=
      { v.layer with visualObject := ⟨v.layer.visualObject.name, none⟩, threeDimensional := none }
    masksProperties := v.masksProperties.map (List.map Mask.strip)
    transform := v.transform.strip
    rotateToMatch := none
    hasMask := none
    motionBlur := none
    cssClass := none
    id := none
    tagName := none
    transformBeforeMaskDeprecated := none
    transformBeforeMask := none }

/-- The layer with stripped attributes and shapes; a solid or image layer becomes a null layer. -/
def AnyLayer.strip : AnyLayer F → AnyLayer F
  | .precomposition l =>
    .precomposition
      { l with visualLayer := l.visualLayer.strip, timeRemap := l.timeRemap.map .strip }
  | .solid l => .null l.visualLayer.strip
  | .shape l => .shape ⟨l.visualLayer.strip, AnyShape.stripAll l.shapes⟩
  | .null l => .null l.strip
  | .image l => .null l.visualLayer.strip

/-- The asset with stripped layers, without names, frame rate and extra flag. -/
def AnyAsset.strip : AnyAsset F → AnyAsset F
  | .precomposition p =>
    .precomposition ⟨⟨p.asset.id, ⟨none, none⟩⟩, p.layers.map AnyLayer.strip, none, none⟩
  | .image i => .image i

/-- The animation without the attributes that velato does not implement. -/
def Animation.strip (a : Animation F) : Animation F :=
  { a with
    visualObject := ⟨none, none⟩
    version := none
    ver := none
    threeDimensional := none
    assets := a.assets.map (List.map AnyAsset.strip)
    layers := a.layers.map AnyLayer.strip
    markers := none
    metaInfo := none
    metadata := none }

end
end Velato.Schema
