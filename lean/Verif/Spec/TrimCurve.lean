import Verif.Spec.TrimPath
import Mathlib.MeasureTheory.Integral.IntervalIntegral.Basic

/-!
# Specification: arc length of Bézier segments, pieces of curved paths

Used by the statements of C24 only.
-/

namespace Velato

/-- The point of a segment at a parameter (0 its start, 1 its end). -/
noncomputable def PathSeg.at : PathSeg ℝ → ℝ → P2 ℝ
  | .line p q, t => ⟨(1 - t) * p.x + t * q.x, (1 - t) * p.y + t * q.y⟩
  | .quad p q r, t =>
    ⟨(1 - t) ^ 2 * p.x + 2 * (1 - t) * t * q.x + t ^ 2 * r.x,
     (1 - t) ^ 2 * p.y + 2 * (1 - t) * t * q.y + t ^ 2 * r.y⟩
  | .cubic p q r s, t =>
    ⟨(1 - t) ^ 3 * p.x + 3 * (1 - t) ^ 2 * t * q.x + 3 * (1 - t) * t ^ 2 * r.x + t ^ 3 * s.x,
     (1 - t) ^ 3 * p.y + 3 * (1 - t) ^ 2 * t * q.y + 3 * (1 - t) * t ^ 2 * r.y + t ^ 3 * s.y⟩

/-- The speed at which the point moves: the norm of the derivative of `at`. -/
noncomputable def PathSeg.speed (s : PathSeg ℝ) (t : ℝ) : ℝ :=
  Real.sqrt (deriv (fun u => (s.at u).x) t ^ 2 + deriv (fun u => (s.at u).y) t ^ 2)

/-- The arc length of a segment from its start to a parameter. -/
noncomputable def PathSeg.lengthTo (s : PathSeg ℝ) (t : ℝ) : ℝ := ∫ u in (0 : ℝ)..t, s.speed u

/-- The arc length of a segment. -/
noncomputable def PathSeg.length (s : PathSeg ℝ) : ℝ := s.lengthTo 1

/-- The length of the control polygon of a segment. -/
noncomputable def PathSeg.control : PathSeg ℝ → ℝ
  | .line p q => dist2 p q
  | .quad p q r => dist2 p q + dist2 q r
  | .cubic p q r s => dist2 p q + dist2 q r + dist2 r s

/-- The arc length of a path. -/
noncomputable def pathLength (els : List (PathEl ℝ)) : ℝ := ((segments els).map PathSeg.length).sum

/-- The length of the control polygons of a path. -/
noncomputable def controlLength (els : List (PathEl ℝ)) : ℝ :=
  ((segments els).map PathSeg.control).sum

/-- kurbo computes exactly: `arclen` is the arc length, `inv_arclen` the parameter at an arc length
(at most 0 for a negative one, at least 1 for one beyond the end), and `subsegment` runs through the
points between the two parameters. -/
structure ExactCurves [Kurbo ℝ] : Prop where
  arclen : ∀ s : PathSeg ℝ, Kurbo.arclen s = s.length
  inv : ∀ (s : PathSeg ℝ) (x : ℝ), 0 ≤ x → x ≤ s.length → s.length ≠ 0 →
    0 ≤ Kurbo.invArclen s x ∧ Kurbo.invArclen s x ≤ 1 ∧ s.lengthTo (Kurbo.invArclen s x) = x
  inv_neg : ∀ (s : PathSeg ℝ) (x : ℝ), x < 0 → Kurbo.invArclen s x ≤ 0
  inv_pos : ∀ (s : PathSeg ℝ) (x : ℝ), s.length < x → 1 ≤ Kurbo.invArclen s x
  sub : ∀ (s : PathSeg ℝ) (t0 t1 u : ℝ),
    (Kurbo.subsegment s t0 t1).at u = s.at (t0 + u * (t1 - t0))

/-- What remains of segments, the first of which starts at arc length `c`, between the arc lengths
`a` and `b`: of each segment the piece between the parameters `t0` and `t1` at which these are reached
(0 and 1 if they are reached before or after the segment).  A piece is left out if its parameters are
less than 1e-9 apart. -/
inductive Cut (a b : ℝ) : ℝ → List (PathSeg ℝ) → List (Piece ℝ) → Prop
  | nil (c : ℝ) : Cut a b c [] []
  | keep {c t0 t1 : ℝ} {s : PathSeg ℝ} {segs : List (PathSeg ℝ)} {run : List (Piece ℝ)} :
    s.lengthTo t0 = min s.length (max 0 (a - c)) → s.lengthTo t1 = max 0 (min s.length (b - c)) →
    0 ≤ t0 → t0 + 1 / 10 ^ 9 < t1 → t1 ≤ 1 →
    Cut a b (c + s.length) segs run → Cut a b c (s :: segs) (⟨s, t0, t1⟩ :: run)
  | skip {c t0 t1 : ℝ} {s : PathSeg ℝ} {segs : List (PathSeg ℝ)} {run : List (Piece ℝ)} :
    s.lengthTo t0 = min s.length (max 0 (a - c)) → s.lengthTo t1 = max 0 (min s.length (b - c)) →
    0 ≤ t0 → t0 ≤ 1 → 0 ≤ t1 → t1 ≤ t0 + 1 / 10 ^ 9 → t1 ≤ 1 →
    Cut a b (c + s.length) segs run → Cut a b c (s :: segs) run

/-- A path element that does not start a new subpath. -/
def PathEl.Continues {F : Type} : PathEl F → Prop
  | .moveTo _ => False
  | _ => True

end Velato
