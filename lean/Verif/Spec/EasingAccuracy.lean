import Verif.Spec.DoublePrecision
import Verif.Spec.Easing

/-!
# Vocabulary for statements about the accuracy of easing in double precision
-/

namespace Velato

/-- The value of a cubic polynomial with double precision coefficients, in exact arithmetic. -/
noncomputable def cubicAt (c0 c1 c2 c3 : F64) (x : ℝ) : ℝ :=
  c0.toR + c1.toR * x + c2.toR * x ^ 2 + c3.toR * x ^ 3

/-- The cubic solver is accurate up to `δ`, for coefficients up to 8 and roots near the unit
interval: the polynomial is at most `δ` at the numbers it returns, and if there is a root in the
unit interval then it returns a number there, unless an end of the interval is a root up to `δ`. -/
structure SolverWithin [Kurbo F64] (δ : ℝ) : Prop where
  sound : ∀ {c0 c1 c2 c3 r : F64}, c0.Between (-8) 8 → c1.Between (-8) 8 → c2.Between (-8) 8 →
    c3.Between (-8) 8 → r ∈ Kurbo.solveCubic c0 c1 c2 c3 → r.Between (-1) 2 →
    |cubicAt c0 c1 c2 c3 r.toR| ≤ δ
  complete : ∀ {c0 c1 c2 c3 : F64} {x : ℝ}, c0.Between (-8) 8 → c1.Between (-8) 8 →
    c2.Between (-8) 8 → c3.Between (-8) 8 → 0 ≤ x → x ≤ 1 → cubicAt c0 c1 c2 c3 x = 0 →
    (∃ r ∈ Kurbo.solveCubic c0 c1 c2 c3, r.Between 0 1) ∨ |cubicAt c0 c1 c2 c3 0| ≤ δ ∨
    |cubicAt c0 c1 c2 c3 1| ≤ δ

/-- The number `x` is, up to `e`, the value between `v` and `w` that the easing curve with handles
`o` and `i` has at the weight `s`, taken at most `d` too early or too late. -/
def EasedNear (d e : ℝ) (o i : EasingHandle F64) (v w s x : ℝ) : Prop :=
  ∃ u, 0 ≤ u ∧ u ≤ 1 ∧ |bez o.x.toR i.x.toR u - s| ≤ d ∧
    |x - (v + (w - v) * bez o.y.toR i.y.toR u)| ≤ e

/-- Keyframes in order, at finite times at least `2^-1000` apart, with handles in the unit square and
values up to `M`. -/
structure OrdinaryKeyframes (M : ℝ) (ks : List (Schema.Keyframe F64)) : Prop where
  order : ks.Pairwise fun a b => a.base.time.toR + 1 / 2 ^ 1000 ≤ b.base.time.toR
  times : ∀ k ∈ ks, k.base.time.Between (-2 ^ 1000) (2 ^ 1000)
  handles : ∀ k ∈ ks, k.base.HandlesInUnitSquare
  values : ∀ k ∈ ks, ∀ x, k.value.head? = some x → x.Between (-M) M

end Velato
