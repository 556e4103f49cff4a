import Verif.Spec.Shapes
import Verif.Spec.TrimPath
import Verif.Spec.DocStars

/-!
# Specification: what the fills and strokes of a document paint with

The value of a property at a frame is that of the imported property (`convScalar`, `convColor`,
`convMultiP2`, `convGradientColors`; subject of C49, C51 and C68).  All of this holds in any arithmetic: where
numbers are calculated with, the operations and their order are part of what is specified.
-/

namespace Velato
open FloatOps (lit toF32)
open Import (convScalar convColor convMultiP2 convGradientColors)

section
variable {F : Type} [FloatOps F] [Libm F] [Kurbo F]

/-- The property has the value `x` at the frame. -/
def ScalarAt (p : Schema.FloatValue F) (frame x : F) : Prop :=
  ∃ v, convScalar p = .ok v ∧ x = v.evaluate frame

/-- The style of a stroke at a frame; `dj` and `dc` are the join and cap meant when the document
names none.  The miter limit is 4 unless the document says otherwise. -/
structure StrokeAt (s : Schema.BaseStroke F) (dj : Schema.LineJoin) (dc : Schema.LineCap)
    (frame : F) (k : KStroke F) : Prop where
  width : ScalarAt s.width frame k.width
  miter : k.miterLimit = s.miterLimit.getD (lit 4)
  join : match s.lineJoin.getD dj with
    | .miter => k.join = .miter
    | .round => k.join = .round
    | .bevel => k.join = .bevel
  cap : match s.lineCap.getD dc with
    | .butt => k.cap = .butt
    | .round => k.cap = .round
    | .square => k.cap = .square

/-- The brush of a gradient at a frame: from the start point to the end point if it is linear, around
the start point with the end point on the rim if it is radial. -/
def GradientAt (g : Schema.BaseGradient F) (frame : F) (b : Brush F) : Prop :=
  ∃ stops, convGradientColors g.colors = .ok stops ∧
    let start := (convMultiP2 g.startPoint).evaluate frame
    let stop := (convMultiP2 g.endPoint).evaluate frame
    b = .gradient (if g.gradientType = some .radial then
        .radial start (toF32 (Libm.hypot (stop.x -. start.x) (stop.y -. start.y)))
      else .linear start stop) (stops.evaluate frame)

/-- Black with opacity 0, the colour of fills and strokes whose colour has no keyframe. -/
def invisible : Color F := ⟨lit 0, lit 0, lit 0, lit 0⟩

/-- A colour whose opacity has been multiplied by 1 in single precision. -/
def Color.once (c : Color F) : Color F := { c with a := mulF32 c.a (toF32 (lit 1)) }

/-- How a fill or stroke paints at a frame, where the opacity factor of its group is `alpha`.  The
declared opacity of gradients is not used (C54), it is 100. -/
def PaintOf (alpha frame : F) (p : Paint F) : Schema.AnyShape F → Prop
  | .fill s => p.stroke = none ∧
      p.brush = .solid ((convColor s.color).evaluateOr frame invisible).once ∧
      ∃ o, ScalarAt s.shapeStyle.opacity frame o ∧ p.alpha = alpha *. o /. lit 100
  | .stroke s => (∃ k, p.stroke = some k ∧ StrokeAt s.baseStroke .bevel .butt frame k) ∧
      p.brush = .solid ((convColor s.strokeColor).evaluateOr frame invisible).once ∧
      ∃ o, ScalarAt s.shapeStyle.opacity frame o ∧ p.alpha = alpha *. o /. lit 100
  | .gradientFill s => p.stroke = none ∧ GradientAt s.gradient frame p.brush ∧
      p.alpha = alpha *. lit 100 /. lit 100
  | .gradientStroke s => (∃ k, p.stroke = some k ∧ StrokeAt s.baseStroke .round .round frame k) ∧
      GradientAt s.gradient frame p.brush ∧ p.alpha = alpha *. lit 100 /. lit 100
  | _ => False

end

/-- The shapes of a document, at any depth. -/
def Schema.Animation.HasShape {F : Type} (a : Schema.Animation F) (t : Schema.AnyShape F) : Prop :=
  ∃ l ∈ a.allLayers, ∃ q, l = .shape q ∧ ∃ s ∈ q.shapes, Within t s

end Velato
