import Verif.Spec.Coordinates
import Verif.Spec.Paint
import Verif.Spec.Stars

/-!
# Vocabulary: stars and polygons drawn in double precision
-/

namespace Velato
open F64

/-- Both coordinates are finite, and within `e` of those of `q`. -/
def P2.Close (e : ℝ) (p : P2 F64) (q : P2 ℝ) : Prop := Near p.x q.x e ∧ Near p.y q.y e

/-- The element, which begins at `p`, is close to the curve with the control points `c₁` and `c₂` and the end `q`:
each of its points is within `e`.  A straight line is the curve with the control points at its ends. -/
def PathEl.Follows (e : ℝ) (p : P2 F64) : PathEl F64 → P2 ℝ → P2 ℝ → P2 ℝ → Prop
  | .lineTo p', c₁, c₂, q => p.Close e c₁ ∧ p'.Close e c₂ ∧ p'.Close e q
  | .curveTo a b p', c₁, c₂, q => a.Close e c₁ ∧ b.Close e c₂ ∧ p'.Close e q
  | _, _, _, _ => False

namespace StarFigure
variable (s : StarFigure)

/-- The end of the handle with which the outline leaves corner `i`. -/
noncomputable def leaves (i : Nat) : P2 ℝ := ⟨(s.corner i).x + (s.handle i).x, (s.corner i).y + (s.handle i).y⟩

/-- The end of the handle with which the outline arrives at corner `i`. -/
noncomputable def arrives (i : Nat) : P2 ℝ := ⟨(s.corner i).x - (s.handle i).x, (s.corner i).y - (s.handle i).y⟩

/-- The element goes from `p`, corner `i`, to corner `j`, with all points within `e`. -/
def Edge (e : ℝ) (p : P2 F64) (el : PathEl F64) (i j : Nat) : Prop :=
  el.Follows e p (s.leaves i) (s.arrives j) (s.corner j)

/-- The path is the outline of the star with all points within `e`: it begins in `p 0` close to corner 0, and goes by
one edge each to `p 1`, `p 2`, … close to the other corners; it is closed by another edge to `p 0`, which is either
drawn or, if it is straight, left to the closing of the path. -/
def DrawnBy (e : ℝ) (els : List (PathEl F64)) : Prop :=
  ∃ (p : Nat → P2 F64) (edge : Nat → PathEl F64) (last : List (PathEl F64)),
    els = .moveTo (p 0) :: (List.range (s.corners - 1)).map edge ++ last ++ [.closePath] ∧ (p 0).Close e (s.corner 0) ∧
    (∀ i, i + 1 < s.corners → s.Edge e (p i) (edge i) i (i + 1) ∧ (edge i).anchor = some (p (i + 1))) ∧
    ((last = [] ∧ s.Edge e (p (s.corners - 1)) (.lineTo (p 0)) (s.corners - 1) 0) ∨
      ∃ el, last = [el] ∧ s.Edge e (p (s.corners - 1)) el (s.corners - 1) 0 ∧ el.anchor = some (p 0))

end StarFigure

section
variable [Libm F64] [Kurbo F64]

/-- The value of a property at a frame, or 0 if it is omitted. -/
def ScalarOrZeroAt (p : Option (Schema.FloatValue F64)) (frame : F64) (r : ℝ) : Prop :=
  match p with
  | none => r = 0
  | some p => ∃ x, ScalarAt p frame x ∧ r = x.toR

/-- The star or polygon that is declared at a frame: everything from the values of its properties at this frame; the
number of points is rounded to an integer.  Roundness is taken with an error of up to `d` per cent. -/
structure Declared (d : ℝ) (s : Schema.PolyStarShape F64) (frame : F64) (f : StarFigure) : Prop where
  polygon : f.polygon = true ↔ s.starType = .polygon
  points : ∃ x, ScalarAt s.points frame x ∧ |(f.points : ℝ) - x.toR| ≤ 1 / 2
  center : f.center = ((Import.convPosPoint s.position).evaluate frame).toR
  rotation : ∃ x, ScalarAt s.rotation frame x ∧ f.rotation = x.toR
  outerRadius : ∃ x, ScalarAt s.outerRadius frame x ∧ f.outerRadius = x.toR
  outerRoundness : ∃ x, ScalarAt s.outerRoundness frame x ∧ |f.outerRoundness - x.toR| ≤ d
  innerRadius : s.starType = .star → ScalarOrZeroAt s.innerRadius frame f.innerRadius
  innerRoundness : s.starType = .star → ∃ r, ScalarOrZeroAt s.innerRoundness frame r ∧ |f.innerRoundness - r| ≤ d

end

end Velato
