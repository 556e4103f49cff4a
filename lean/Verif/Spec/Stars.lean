import Verif.Model.Scene
import Verif.Num.Real

/-!
# Specification: the outline of a star or polygon with rounded corners

Used by the statement of C75.  Everything is in exact arithmetic and given by closed formulas.
-/

namespace Velato

/-- The data of a star or polygon at one frame: roundness in percent, rotation in degrees. -/
structure StarFigure where
  polygon : Bool
  points : Nat
  center : P2 ℝ
  outerRadius : ℝ
  innerRadius : ℝ
  outerRoundness : ℝ
  innerRoundness : ℝ
  rotation : ℝ

namespace StarFigure
variable (s : StarFigure)

/-- The number of corners. -/
def corners : Nat := if s.polygon then s.points else 2 * s.points

/-- The angle between consecutive corners. -/
noncomputable def step : ℝ := if s.polygon then 2 * Real.pi / s.points else Real.pi / s.points

/-- The direction of corner `i` from the centre; corner 0 of an unrotated star is on top. -/
noncomputable def angle (i : Nat) : ℝ :=
  s.rotation * (Real.pi / 180) - Real.pi / 2 + i * s.step

/-- Corner `i` is an outer corner. -/
def Outer (i : Nat) : Prop := s.polygon = true ∨ i % 2 = 0

instance (i : Nat) : Decidable (s.Outer i) := by unfold Outer; infer_instance

/-- The distance of corner `i` from the centre. -/
noncomputable def radius (i : Nat) : ℝ := if s.Outer i then s.outerRadius else s.innerRadius

/-- The roundness of corner `i` in percent. -/
noncomputable def roundness (i : Nat) : ℝ := if s.Outer i then s.outerRoundness else s.innerRoundness

/-- Corner `i`. -/
noncomputable def corner (i : Nat) : P2 ℝ :=
  ⟨s.center.x + s.radius i * Real.cos (s.angle i), s.center.y + s.radius i * Real.sin (s.angle i)⟩

/-- How far the handles of corner `i` are from it; a roundness of at most a ten-thousandth of a
percent counts as none. -/
noncomputable def reach (i : Nat) : ℝ :=
  if |s.roundness i / 100| ≤ 1 / 1000000 then 0
  else 4 / 3 * Real.tan (s.step / 2) * s.radius i * (s.roundness i / 100)

/-- The handle of corner `i` as a vector: along the circle through the corner, that is, at a right
angle to the direction of the corner, forward. -/
noncomputable def handle (i : Nat) : P2 ℝ :=
  ⟨s.reach i * -Real.sin (s.angle i), s.reach i * Real.cos (s.angle i)⟩

/-- The handles of corners `i` and `j` are negligible: less than a millionth in each coordinate. -/
def Straight (i j : Nat) : Prop :=
  |(s.handle i).x| < 1 / 1000000 ∧ |(s.handle i).y| < 1 / 1000000 ∧
  |(s.handle j).x| < 1 / 1000000 ∧ |(s.handle j).y| < 1 / 1000000

/-- The curve from corner `i` to corner `j`, which leaves `i` along its handle and arrives at `j`
against its handle. -/
noncomputable def curve (i j : Nat) : PathEl ℝ :=
  .curveTo ⟨(s.corner i).x + (s.handle i).x, (s.corner i).y + (s.handle i).y⟩
    ⟨(s.corner j).x - (s.handle j).x, (s.corner j).y - (s.handle j).y⟩ (s.corner j)

open Classical in
/-- The edge from corner `i` to corner `j`. -/
noncomputable def edge (i j : Nat) : PathEl ℝ :=
  if s.Straight i j then .lineTo (s.corner j) else s.curve i j

open Classical in
/-- The outline: from corner 0 edge by edge to the last corner, back to corner 0 and closed.  A
straight closing edge is left to the closing of the path. -/
noncomputable def outline : List (PathEl ℝ) :=
  .moveTo (s.corner 0) :: ((List.range (s.corners - 1)).map fun i => s.edge i (i + 1))
    ++ (if s.Straight (s.corners - 1) 0 then [] else [s.curve (s.corners - 1) 0]) ++ [.closePath]

end StarFigure
end Velato
