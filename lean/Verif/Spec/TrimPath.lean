import Verif.Model.Render
import Verif.Num.Real

/-!
# Specification: pieces of paths

Used by the statements of C24 only.
-/

namespace Velato
open FloatOps (lit)

section
variable {F : Type} [FloatOps F] [Kurbo F]

/-- The part of a segment between two parameters. -/
structure Piece (F : Type) where
  seg : PathSeg F
  t0 : F
  t1 : F

/-- The sub-segment. -/
def Piece.sub (p : Piece F) : PathSeg F := Kurbo.subsegment p.seg p.t0 p.t1

/-- The parameters are in the unit interval and in order. -/
def Piece.Valid (p : Piece F) : Prop :=
  (lit 0 <=. p.t0) = true ∧ (p.t0 <. p.t1) = true ∧ (p.t1 <=. lit 1) = true

/-- The path that moves to the start of the first piece and continues along all of them. -/
def runPath : List (Piece F) → List (PathEl F)
  | [] => []
  | p :: ps => .moveTo p.sub.start :: (p :: ps).map fun q => q.sub.toEl

/-- Every piece is part of a different segment, in the order of the segments. -/
def PiecesOf (segs : List (PathSeg F)) (run : List (Piece F)) : Prop :=
  (run.map (·.seg)).Sublist segs ∧ ∀ p ∈ run, p.Valid

end

/-- `PathSeg::end`. -/
def PathSeg.stop {F : Type} : PathSeg F → P2 F
  | .line _ p1 => p1
  | .quad _ _ p2 => p2
  | .cubic _ _ _ p3 => p3

/-- Distance in the plane. -/
noncomputable def dist2 (p q : P2 ℝ) : ℝ := Real.sqrt ((q.x - p.x) ^ 2 + (q.y - p.y) ^ 2)

/-- The segment is a straight line. -/
def PathSeg.IsLine {F : Type} : PathSeg F → Prop
  | .line _ _ => True
  | _ => False

/-- The length of a path of straight lines: the sum of the distances from the start to the end of
its segments. -/
noncomputable def polylineLength (els : List (PathEl ℝ)) : ℝ :=
  ((segments els).map fun s => dist2 s.start s.stop).sum

/-- kurbo is exact on straight lines: `Line::arclen` is the distance of the end points,
`Line::inv_arclen(x)` is `x / arclen` (an infinity of the sign of `x` for a line of length zero),
`Line::subsegment` interpolates the end points. -/
structure ExactLines [Kurbo ℝ] : Prop where
  arclen : ∀ p q : P2 ℝ, Kurbo.arclen (.line p q) = dist2 p q
  inv : ∀ (p q : P2 ℝ) (x : ℝ), dist2 p q ≠ 0 → Kurbo.invArclen (.line p q) x = x / dist2 p q
  inv_neg : ∀ (p q : P2 ℝ) (x : ℝ), dist2 p q = 0 → x < 0 → Kurbo.invArclen (.line p q) x ≤ 0
  inv_pos : ∀ (p q : P2 ℝ) (x : ℝ), dist2 p q = 0 → 0 < x → 1 ≤ Kurbo.invArclen (.line p q) x
  sub : ∀ (p q : P2 ℝ) (t0 t1 : ℝ), Kurbo.subsegment (.line p q) t0 t1 =
    .line ⟨p.x + t0 * (q.x - p.x), p.y + t0 * (q.y - p.y)⟩
      ⟨p.x + t1 * (q.x - p.x), p.y + t1 * (q.y - p.y)⟩

/-- A path element that draws a straight line. -/
def PathEl.Straight {F : Type} : PathEl F → Prop
  | .lineTo _ => True
  | .closePath => True
  | _ => False

end Velato
