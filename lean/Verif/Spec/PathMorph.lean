import Verif.Spec.Easing
import Verif.Spec.ImportShapes
import Verif.Spec.Paths
import Verif.Spec.StarAccuracy

/-!
# Vocabulary: animated paths in double precision
-/

namespace Velato
open F64
open FloatOps (lit)

/-- A shape in exact numbers: its corners, and the tangents with which the outline arrives at a corner and leaves it. -/
structure PathFigure where
  corners : Nat
  closed : Bool
  corner : Nat → P2 ℝ
  arriving : Nat → P2 ℝ
  leaving : Nat → P2 ℝ

namespace PathFigure
variable (s : PathFigure)

/-- The element goes from `p`, corner `i`, to corner `j`, with all points within `e` of the curve that the tangents
there give. -/
def Edge (e : ℝ) (p : P2 F64) (el : PathEl F64) (i j : Nat) : Prop :=
  el.Follows e p ⟨(s.corner i).x + (s.leaving i).x, (s.corner i).y + (s.leaving i).y⟩
    ⟨(s.corner j).x + (s.arriving j).x, (s.corner j).y + (s.arriving j).y⟩ (s.corner j)

/-- The path is the outline of the shape with all points within `e`: it begins in `p 0` close to corner 0, and goes
by one edge each to `p 1`, `p 2`, … close to the other corners; if the shape is closed, another edge leads to `p 0`, and
the path is closed. -/
def DrawnBy (e : ℝ) (els : List (PathEl F64)) : Prop :=
  (s.corners = 0 ∧ els = []) ∨
  (s.corners ≠ 0 ∧ ∃ (p : Nat → P2 F64) (edge : Nat → PathEl F64) (back : PathEl F64),
    els = .moveTo (p 0) :: (List.range (s.corners - 1)).map edge ++ (if s.closed then [back, .closePath] else []) ∧
    (p 0).Close e (s.corner 0) ∧
    (∀ i, i + 1 < s.corners → s.Edge e (p i) (edge i) i (i + 1) ∧ (edge i).anchor = some (p (i + 1))) ∧
    (s.closed = true → s.Edge e (p (s.corners - 1)) back (s.corners - 1) 0 ∧ back.anchor = some (p 0)))

end PathFigure

/-- The point that divides the way from `p` to `q` in the proportion `e`. -/
def P2.between (e : ℝ) (p q : P2 ℝ) : P2 ℝ := ⟨p.x + e * (q.x - p.x), p.y + e * (q.y - p.y)⟩

/-- The mixture of two shapes of a document: every corner and every tangent is between those of the two shapes. -/
noncomputable def Schema.Bezier.mixed (closed : Bool) (e : ℝ) (a b : Schema.Bezier F64) : PathFigure where
  corners := a.vertices.length
  closed := closed
  corner i := .between e (pointAt a.vertices i).toR (pointAt b.vertices i).toR
  arriving i := .between e (pointAt a.inTangents i).toR (pointAt b.inTangents i).toR
  leaving i := .between e (pointAt a.outTangents i).toR (pointAt b.outTangents i).toR

/-- How far a property has come, `e`, when the fraction `w` of the time to the next keyframe has passed: the height of
the easing curve of the keyframe where its first coordinate is `w`. -/
def Eased (k : Schema.KeyframeBase F64) (w e : ℝ) : Prop :=
  ∃ o i, HandleOf k.outTangent o ∧ HandleOf k.inTangent i ∧ ∃ u, 0 ≤ u ∧ u ≤ 1 ∧
    bez (o.getD ⟨lit 0, lit 0⟩).x.toR (i.getD ⟨lit 1, lit 1⟩).x.toR u = w ∧
    bez (o.getD ⟨lit 0, lit 0⟩).y.toR (i.getD ⟨lit 1, lit 1⟩).y.toR u = e

/-- Steady progress, whatever the easing. -/
def Steady (_ : Schema.KeyframeBase F64) (w e : ℝ) : Prop := e = w

/-- The handles are such that the progress is steady: the two numbers of a handle are the same. -/
def Schema.KeyframeBase.Straight (k : Schema.KeyframeBase F64) : Prop :=
  (∀ o, HandleOf k.outTangent (some o) → o.x.toR = o.y.toR) ∧ ∀ i, HandleOf k.inTangent (some i) → i.x.toR = i.y.toR

/-- The shape towards which a path goes after keyframe `k`: the end shape of `k`, or else the shape of the next
keyframe. -/
def GoalOf (k k' : Schema.ShapeKeyframe F64) (b : Schema.Bezier F64) : Prop :=
  k.stop.bind List.head? = some b ∨ (k.stop.bind List.head? = none ∧ StartOf (some k) k' b)

/-- A path with the keyframes `ks` is at `frame` the mixture of the shapes `a` and `b` in the proportion `e`: before the
first keyframe the shape of that; after the last one the shape of that (the end shape if it has one and is not held); in
between the shape of the earlier keyframe if it is held, and otherwise it is on the way to the next shape, as far as
`progress` says. -/
def MorphAt (progress : Schema.KeyframeBase F64 → ℝ → ℝ → Prop) (ks : List (Schema.ShapeKeyframe F64)) (frame : F64)
    (a b : Schema.Bezier F64) (e : ℝ) : Prop :=
  (∃ k, ks[0]? = some k ∧ (frame <. k.base.time) = true ∧ StartOf none k a ∧ b = a ∧ e = 0) ∨
  (∃ (j : Nat) (k : Schema.ShapeKeyframe F64), ks[j]? = some k ∧ j + 1 = ks.length ∧ (k.base.time <. frame) = true ∧
    StartOf (prevKeyframe ks j) k a ∧
    ((e = 0 ∧ b = a ∧ (k.base.hold = some .true ∨ k.stop.bind List.head? = none)) ∨
      (e = 1 ∧ k.stop.bind List.head? = some b ∧ k.base.hold ≠ some .true))) ∨
  ∃ (j : Nat) (k k' : Schema.ShapeKeyframe F64), ks[j]? = some k ∧ ks[j + 1]? = some k' ∧
    (k.base.time <=. frame) = true ∧ (frame <. k'.base.time) = true ∧
    StartOf (prevKeyframe ks j) k a ∧ GoalOf k k' b ∧
    (k.base.hold = some .true → e = 0) ∧
    (k.base.hold ≠ some .true →
      progress k.base ((frame.toR - k.base.time.toR) / (k'.base.time.toR - k.base.time.toR)) e)

/-- No shape of the path leads to one with fewer corners. -/
def NoFewer (ks : List (Schema.ShapeKeyframe F64)) : Prop :=
  ∀ (j : Nat) (k : Schema.ShapeKeyframe F64) (a : Schema.Bezier F64), ks[j]? = some k →
    StartOf (prevKeyframe ks j) k a →
    (∀ b, k.stop.bind List.head? = some b → a.vertices.length ≤ b.vertices.length) ∧
    ∀ k' b, ks[j + 1]? = some k' → GoalOf k k' b → a.vertices.length ≤ b.vertices.length

/-- The path without the handles of its keyframes. -/
def Schema.ShapeProperty.withoutEasing {F : Type} (p : Schema.ShapeProperty F) : Schema.ShapeProperty F :=
  match p.value with
  | .static _ => p
  | .animated ks => { p with value := .animated (ks.map fun k =>
      { k with base := { k.base with inTangent := none, outTangent := none } }) }

end Velato
