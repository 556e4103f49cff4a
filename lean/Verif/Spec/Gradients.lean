import Mathlib.Data.Real.Basic

/-!
# Specification: opacity between two opacity stops of a gradient
-/

namespace Velato

open Classical in
/-- Opacity that the two consecutive opacity stops `(o₀, a₀)`, `(o₁, a₁)`, `o₀ ≤ o₁`, give to a
colour at offset `x`: `a₀` up to `o₀`, `a₁` from `o₁` on, in between on the straight line — except
that in the first tenth of the gradient the first quarter of the way keeps `a₀`, and in the last
tenth the last quarter of the way has already reached `a₁`. -/
noncomputable def rampOpacity (o₀ a₀ o₁ a₁ x : ℝ) : ℝ :=
  if x ≤ o₀ ∨ o₀ = o₁ then a₀
  else if o₁ ≤ x then a₁
  else if x ≤ 1 / 10 ∧ x ≤ o₀ + (o₁ - o₀) / 4 then a₀
  else if 9 / 10 ≤ x ∧ o₁ - (o₁ - o₀) / 4 ≤ x then a₁
  else a₀ + (a₁ - a₀) * ((x - o₀) / (o₁ - o₀))

end Velato
