import Verif.Spec.Transforms
import Verif.Model.Scene

/-!
# The matrix of a transform, in exact arithmetic
-/

namespace Velato
open FloatOps (lit)

/-- The product of matrices that a transform evaluates to. -/
def transformMatrix {F : Type} [FloatOps F] [Libm F] (a q : P2 F) (r : F) (s : P2 F) (k x : F) :
    Affine F :=
  ((((Affine.translate q).mul (Affine.rotate (toRadians r))).mul (skewMatrix k x)).mul
      (Affine.scaleNonUniform (s.x /. lit 100) (s.y /. lit 100))).mul
    (Affine.translate ⟨FloatOps.neg a.x, FloatOps.neg a.y⟩)

theorem transformMatrix_apply (a q : P2 ℝ) (r : ℝ) (s : P2 ℝ) (k x : ℝ) (p : P2 ℝ) :
    (transformMatrix a q r s k x).apply p = placed a q s r k x p := by
  have hr : ∀ y : ℝ, toRadians y = y * (Real.pi / 180) := fun y => by
    simp [toRadians]
  unfold transformMatrix skewMatrix placed
  simp only [hr]
  split_ifs with h
  · have hsc := Real.sin_sq_add_cos_sq (x * (Real.pi / 180))
    simp only [Affine.apply, Affine.mul, Affine.translate, Affine.rotate, Affine.scaleNonUniform,
      Affine.skew, real_lit, real_mul, real_add, real_neg, real_div, real_cos, real_sin, real_tan,
      Real.cos_neg, Real.sin_neg]
    push_cast
    generalize Real.sin (x * (Real.pi / 180)) = S at *
    generalize Real.cos (x * (Real.pi / 180)) = C at *
    generalize Real.sin (r * (Real.pi / 180)) = s'
    generalize Real.cos (r * (Real.pi / 180)) = c'
    congr 1
    · linear_combination (c' * (s.x / 100 * (p.x - a.x)) - s' * (s.y / 100 * (p.y - a.y))) * hsc
    · linear_combination (s' * (s.x / 100 * (p.x - a.x)) + c' * (s.y / 100 * (p.y - a.y))) * hsc
  · have hk : k = 0 := by simpa using h
    subst hk
    simp only [Affine.apply, Affine.mul, Affine.translate, Affine.rotate, Affine.scaleNonUniform,
      Affine.identity, real_lit, real_mul, real_add, real_neg, real_div, real_cos, real_sin,
      zero_mul, Real.tan_zero]
    push_cast
    congr 1 <;> ring

end Velato
