import Verif.Model.Schema
import Verif.Num.Ops

/-!
# Moving the times of a document

`f` moves the times of keyframes and layers, `g` the stretch of precompositions.
-/

namespace Velato.Schema
open Velato.FloatOps (lit)

section
variable {F : Type} (f : F → F)

/-- The keyframe at the time `f t` instead of `t`. -/
def KeyframeBase.retime (b : KeyframeBase F) : KeyframeBase F := { b with time := f b.time }

/-- The keyframe at the time `f t` instead of `t`. -/
def Keyframe.retime (k : Keyframe F) : Keyframe F := { k with base := k.base.retime f }

/-- The property with its keyframes moved by `f`. -/
def AnimatedProperty.retime {S : Type} (p : AnimatedProperty F S) : AnimatedProperty F S :=
  { p with value := match p.value with
      | .animatedValue ks => .animatedValue (ks.map (Keyframe.retime f))
      | .static s => .static s }

/-- The property with its keyframes moved by `f`. -/
def MultiDimensional.retime (p : MultiDimensional F) : MultiDimensional F :=
  { p with animatedProperty := p.animatedProperty.retime f }

/-- The colours with their keyframes moved by `f`. -/
def GradientColors.retime (g : GradientColors F) : GradientColors F := { g with colors := g.colors.retime f }

/-- The keyframe at the time `f t` instead of `t`. -/
def PositionKeyframe.retime (k : PositionKeyframe F) : PositionKeyframe F := { k with keyframe := k.keyframe.retime f }

/-- The position with its keyframes moved by `f`. -/
def Position.retime (p : Position F) : Position F :=
  { p with value := match p.value with
      | .animated ks => .animated (ks.map (PositionKeyframe.retime f))
      | .static xs => .static xs }

/-- The keyframe at the time `f t` instead of `t`. -/
def ShapeKeyframe.retime (k : ShapeKeyframe F) : ShapeKeyframe F := { k with base := k.base.retime f }

/-- The path with its keyframes moved by `f`. -/
def ShapeProperty.retime (p : ShapeProperty F) : ShapeProperty F :=
  { p with value := match p.value with
      | .animated ks => .animated (ks.map (ShapeKeyframe.retime f))
      | .static b => .static b }

/-- The position of a transform with its keyframes moved by `f`. -/
def AnyTransformP.retime : AnyTransformP F → AnyTransformP F
  | .position p => .position (p.retime f)
  | .splitPosition s => .splitPosition
    { s with x := s.x.retime f, y := s.y.retime f, z := s.z.map (AnimatedProperty.retime f) }

/-- The rotation of a transform with its keyframes moved by `f`. -/
def AnyTransformR.retime : AnyTransformR F → AnyTransformR F
  | .rotation v => .rotation (v.retime f)
  | .splitRotation x y z o => .splitRotation (x.retime f) (y.retime f) (z.retime f) (o.retime f)

/-- The transform with its keyframes moved by `f`. -/
def Transform.retime (t : Transform F) : Transform F where
  anchorPoint := t.anchorPoint.map (Position.retime f)
  position := t.position.retime f
  scale := t.scale.map (MultiDimensional.retime f)
  rotation := t.rotation.map (AnyTransformR.retime f)
  skew := t.skew.map (AnimatedProperty.retime f)
  skewAxis := t.skewAxis.map (AnimatedProperty.retime f)
  opacity := t.opacity.map (AnimatedProperty.retime f)

/-- The mask with its keyframes moved by `f`. -/
def Mask.retime (m : Mask F) : Mask F :=
  { m with shape := m.shape.map (ShapeProperty.retime f), opacity := m.opacity.map (AnimatedProperty.retime f),
           expand := m.expand.map (AnimatedProperty.retime f) }

/-- The style with its keyframes moved by `f`. -/
def ShapeStyle.retime (s : ShapeStyle F) : ShapeStyle F := { s with opacity := s.opacity.retime f }

/-- The dash with its keyframes moved by `f`. -/
def StrokeDash.retime (d : StrokeDash F) : StrokeDash F := { d with length := d.length.map (AnimatedProperty.retime f) }

/-- The stroke with its keyframes moved by `f`. -/
def BaseStroke.retime (s : BaseStroke F) : BaseStroke F :=
  { s with miterLimitAnim := s.miterLimitAnim.map (AnimatedProperty.retime f), width := s.width.retime f,
           dashes := s.dashes.map (List.map (StrokeDash.retime f)) }

/-- The gradient with its keyframes moved by `f`. -/
def BaseGradient.retime (g : BaseGradient F) : BaseGradient F :=
  { g with colors := g.colors.retime f, startPoint := g.startPoint.retime f, endPoint := g.endPoint.retime f,
           highlightLength := g.highlightLength.map (AnimatedProperty.retime f),
           highlightAngle := g.highlightAngle.map (AnimatedProperty.retime f) }

/-- The star or polygon with its keyframes moved by `f`. -/
def PolyStarShape.retime (s : PolyStarShape F) : PolyStarShape F :=
  { s with position := s.position.retime f, outerRadius := s.outerRadius.retime f,
           outerRoundness := s.outerRoundness.retime f, rotation := s.rotation.retime f, points := s.points.retime f,
           innerRadius := s.innerRadius.map (AnimatedProperty.retime f),
           innerRoundness := s.innerRoundness.map (AnimatedProperty.retime f) }

/-- The repeater with its keyframes moved by `f`. -/
def RepeaterShape.retime (s : RepeaterShape F) : RepeaterShape F :=
  { s with copies := s.copies.retime f, offset := s.offset.map (AnimatedProperty.retime f),
           transform := { s.transform with
             transform := { s.transform.transform with transform := s.transform.transform.transform.retime f }
             startOpacity := s.transform.startOpacity.map (AnimatedProperty.retime f)
             endOpacity := s.transform.endOpacity.map (AnimatedProperty.retime f) } }

mutual
/-- The shape with its keyframes moved by `f`. -/
def AnyShape.retime : AnyShape F → AnyShape F
  | .group e n ss i => .group e n (AnyShape.retimeAll ss) i
  | .rectangle s => .rectangle
    { s with position := s.position.retime f, size := s.size.retime f,
             roundedCornerRadius := s.roundedCornerRadius.retime f }
  | .ellipse s => .ellipse { s with position := s.position.retime f, size := s.size.retime f }
  | .transform s => .transform { s with transform := s.transform.retime f }
  | .stroke s => .stroke
    { s with shapeStyle := s.shapeStyle.retime f, baseStroke := s.baseStroke.retime f,
             strokeColor := s.strokeColor.retime f }
  | .puckerBloat s => .puckerBloat { s with amount := s.amount.map (AnimatedProperty.retime f) }
  | .merge s => .merge s
  | .repeater s => .repeater (s.retime f)
  | .offsetPath s => .offsetPath
    { s with amount := s.amount.map (AnimatedProperty.retime f), miterLimit := s.miterLimit.map (AnimatedProperty.retime f) }
  | .fill s => .fill { s with shapeStyle := s.shapeStyle.retime f, color := s.color.retime f }
  | .trim s => .trim { s with start := s.start.retime f, stop := s.stop.retime f, offset := s.offset.retime f }
  | .path s => .path { s with shapeProperty := s.shapeProperty.retime f }
  | .gradientFill s => .gradientFill { s with shapeStyle := s.shapeStyle.retime f, gradient := s.gradient.retime f }
  | .gradientStroke s => .gradientStroke
    { s with shapeStyle := s.shapeStyle.retime f, baseStroke := s.baseStroke.retime f, gradient := s.gradient.retime f }
  | .twist s => .twist { s with angle := s.angle.retime f, position := s.position.retime f }
  | .roundedCorners s => .roundedCorners { s with radius := s.radius.retime f }
  | .polyStar s => .polyStar (s.retime f)

/-- The shapes with their keyframes moved by `f`. -/
def AnyShape.retimeAll : List (AnyShape F) → List (AnyShape F)
  | [] => []
  | s :: ss => s.retime :: AnyShape.retimeAll ss
end

variable [FloatOps F] (g : F → F)

/-- The layer with its range and start moved by `f`, and stretched by `g`; without a stretch it is 1, without a start
it is 0. -/
def LayerBase.retime (l : LayerBase F) : LayerBase F :=
  { l with timeStretch := some (g (l.timeStretch.getD (lit 1))), inPoint := f l.inPoint, outPoint := f l.outPoint,
           startTime := some (f (l.startTime.getD (lit 0))) }

/-- The layer with its keyframes, range and start moved by `f`, and stretched by `g`. -/
def VisualLayer.retime (v : VisualLayer F) : VisualLayer F :=
  { v with layer := v.layer.retime f g, transform := v.transform.retime f,
           masksProperties := v.masksProperties.map (List.map (Mask.retime f)) }

/-- The layer with its keyframes, range and start moved by `f`, and stretched by `g`. -/
def AnyLayer.retime : AnyLayer F → AnyLayer F
  | .precomposition l => .precomposition
    { l with visualLayer := l.visualLayer.retime f g, startTime := f l.startTime,
             timeRemap := l.timeRemap.map (AnimatedProperty.retime f) }
  | .solid l => .solid { l with visualLayer := l.visualLayer.retime f g }
  | .shape l => .shape { l with visualLayer := l.visualLayer.retime f g, shapes := AnyShape.retimeAll f l.shapes }
  | .null l => .null (l.retime f g)
  | .image l => .image { l with visualLayer := l.visualLayer.retime f g }

/-- The document with its layers moved by `f` and stretched by `g`.  Assets have a time of their own, and are left as
they are. -/
def Animation.retime (a : Animation F) : Animation F :=
  { a with layers := a.layers.map (AnyLayer.retime f g), inPoint := f a.inPoint, outPoint := f a.outPoint,
           markers := a.markers.map (List.map fun m => { m with time := m.time.map f }) }

end
end Velato.Schema
