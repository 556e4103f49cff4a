import Verif.Spec.DoublePrecision
import Verif.Spec.Transforms

/-!
# Vocabulary for statements about the accuracy of transforms in double precision
-/

namespace Velato
open F64

/-- The constant π and the functions of the C library are accurate to about one unit in the last
place, for angles of moderate size. -/
structure AccurateLibm [Libm F64] : Prop where
  pi : Near (Libm.pi : F64) Real.pi (1 / 2 ^ 52)
  sin : ∀ x : F64, x.Between (-(2 ^ 10)) (2 ^ 10) → Near (Libm.sin x) (Real.sin x.toR) (1 / 2 ^ 52)
  cos : ∀ x : F64, x.Between (-(2 ^ 10)) (2 ^ 10) → Near (Libm.cos x) (Real.cos x.toR) (1 / 2 ^ 52)
  tan : ∀ x : F64, x.Between (-(6 / 5)) (6 / 5) → Near (Libm.tan x) (Real.tan x.toR) (1 / 2 ^ 50)
  hypot : ∀ x y : F64, x.Between (-(2 ^ 18)) (2 ^ 18) → y.Between (-(2 ^ 18)) (2 ^ 18) →
    Near (Libm.hypot x y) (Real.sqrt (x.toR ^ 2 + y.toR ^ 2)) (1 / 2 ^ 32)

/-- The exact value of a point. -/
noncomputable def P2.toR (p : P2 F64) : P2 ℝ := ⟨p.x.toR, p.y.toR⟩

/-- The exact value of a matrix. -/
noncomputable def Affine.toR (m : Affine F64) : Affine ℝ :=
  ⟨m.a.toR, m.b.toR, m.c.toR, m.d.toR, m.e.toR, m.f.toR⟩

/-- All entries of the matrix are finite. -/
def Affine.Finite (m : Affine F64) : Prop :=
  m.a.isFin = true ∧ m.b.isFin = true ∧ m.c.isFin = true ∧ m.d.isFin = true ∧ m.e.isFin = true ∧
    m.f.isFin = true

/-- Both coordinates are finite and at most `B` in magnitude. -/
def P2.AtMost (B : ℝ) (p : P2 F64) : Prop := p.x.Between (-B) B ∧ p.y.Between (-B) B

/-- Both coordinates of two points differ by at most `e`. -/
def CloseTo (e : ℝ) (p q : P2 ℝ) : Prop := |p.x - q.x| ≤ e ∧ |p.y - q.y| ≤ e

/-- The numbers of a layer transform are moderate: coordinates up to 8000, scales up to 1500 per
cent, angles up to 4000 degrees, skews up to 59 degrees; handles are in the unit square. -/
structure Schema.Transform.Moderate (v : Schema.Transform F64) : Prop where
  anchor : ∀ p, v.anchorPoint = some p → PositionWithin (-8000) 8000 (-8000) 8000 p
  position : ∀ p, v.position = .position p → PositionWithin (-8000) 8000 (-8000) 8000 p
  split : ∀ p, v.position = .splitPosition p →
    ScalarWithin (-8000) 8000 p.x ∧ ScalarWithin (-8000) 8000 p.y
  scale : ∀ p, v.scale = some p → VectorWithin (-1500) 1500 (-1500) 1500 p
  rotation : ∀ p, v.rotation = some (.rotation p) → ScalarWithin (-4000) 4000 p
  skew : ∀ p, v.skew = some p → ScalarWithin (-59) 59 p
  axis : ∀ p, v.skewAxis = some p → ScalarWithin (-4000) 4000 p

end Velato
