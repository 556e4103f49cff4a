import Verif.Model.Value
import Verif.Num.Real

/-!
# Vocabulary for statements about easing, in exact arithmetic
-/

namespace Velato

/-- One coordinate of the cubic Bézier curve from 0 to 1 with handle coordinates `p1`, `p2`. -/
def bez (p1 p2 u : ℝ) : ℝ := 3 * p1 * u * (1 - u) ^ 2 + 3 * p2 * u ^ 2 * (1 - u) + u ^ 3

/-- The cubic solver is exact: it returns genuine roots only, and all roots of a polynomial that
is not identically zero (in any order, possibly repeated). -/
structure ExactSolver [Kurbo ℝ] : Prop where
  sound : ∀ c0 c1 c2 c3 r : ℝ, r ∈ Kurbo.solveCubic c0 c1 c2 c3 →
    c0 + c1 * r + c2 * r ^ 2 + c3 * r ^ 3 = 0
  complete : ∀ c0 c1 c2 c3 r : ℝ, c0 ≠ 0 ∨ c1 ≠ 0 ∨ c2 ≠ 0 ∨ c3 ≠ 0 →
    c0 + c1 * r + c2 * r ^ 2 + c3 * r ^ 3 = 0 → r ∈ Kurbo.solveCubic c0 c1 c2 c3

/-- Both easing handles are in the unit square. -/
structure Easing.InUnitSquare (e : Easing ℝ) : Prop where
  ox : 0 ≤ e.o.x ∧ e.o.x ≤ 1
  oy : 0 ≤ e.o.y ∧ e.o.y ≤ 1
  ix : 0 ≤ e.i.x ∧ e.i.x ≤ 1
  iy : 0 ≤ e.i.y ∧ e.i.y ≤ 1

end Velato
