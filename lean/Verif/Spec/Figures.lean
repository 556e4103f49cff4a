import Verif.Model.Scene
import Verif.Num.Real

/-!
# Specification: points of paths and their extent

Used by the statements of C17 and C18.
-/

namespace Velato

/-- The end point of a path element. -/
def PathEl.anchor {F : Type} : PathEl F → Option (P2 F)
  | .moveTo p => some p
  | .lineTo p => some p
  | .quadTo _ p => some p
  | .curveTo _ _ p => some p
  | .closePath => none

/-- The end points of the elements of a path. -/
def anchors {F : Type} (els : List (PathEl F)) : List (P2 F) := els.filterMap PathEl.anchor

/-- All points of the elements of a path, control points included. -/
def PathEl.points {F : Type} : PathEl F → List (P2 F)
  | .moveTo p => [p]
  | .lineTo p => [p]
  | .quadTo p q => [p, q]
  | .curveTo p q r => [p, q, r]
  | .closePath => []

/-- The path fills the box `[x0, x1] × [y0, y1]`: its points, control points included, are in the
box, and the box is the smallest with that property. -/
structure Spans (els : List (PathEl ℝ)) (x0 y0 x1 y1 : ℝ) : Prop where
  inside : ∀ p ∈ els.flatMap PathEl.points, x0 ≤ p.x ∧ p.x ≤ x1 ∧ y0 ≤ p.y ∧ p.y ≤ y1
  left : ∃ p ∈ els.flatMap PathEl.points, p.x = x0
  right : ∃ p ∈ els.flatMap PathEl.points, p.x = x1
  top : ∃ p ∈ els.flatMap PathEl.points, p.y = y0
  bottom : ∃ p ∈ els.flatMap PathEl.points, p.y = y1

/-- The contract of `kurbo::RoundedRect` and `kurbo::Ellipse`: the paths they yield span the box
between the given corners, in either order, resp. the box around the centre.  (kurbo takes the
absolute value of the box and limits the radius to half its smaller side.) -/
structure SpanningFigures [Kurbo ℝ] : Prop where
  rect : ∀ x0 y0 x1 y1 r : ℝ, Spans (Kurbo.roundedRectPath x0 y0 x1 y1 r)
    (min x0 x1) (min y0 y1) (max x0 x1) (max y0 y1)
  ellipse : ∀ c r : P2 ℝ, Spans (Kurbo.ellipsePath c r)
    (c.x - |r.x|) (c.y - |r.y|) (c.x + |r.x|) (c.y + |r.y|)

end Velato
