import Verif.Spec.Transforms
import Verif.Model.Import
import Verif.Proofs.RenderLayer
import Verif.Props.Folding
import Mathlib.Tactic.LinearCombination

/-!
# Layer and group transforms in exact arithmetic (C12, C13, C14)
-/

namespace Velato
open FloatOps (lit)

/-- The skew is a linear map of determinant 1. -/
theorem skewMatrix_real (s a : ℝ) : ∃ ka kb kc kd : ℝ,
    skewMatrix s a = ⟨ka, kb, kc, kd, 0, 0⟩ ∧ ka * kd - kb * kc = 1 := by
  unfold skewMatrix
  split_ifs with h
  · simp only [Affine.rotate, Affine.skew, Affine.mul, real_lit, real_mul, real_add, real_neg,
      real_cos, real_sin, real_tan, Real.cos_neg, Real.sin_neg]
    push_cast
    refine ⟨_, _, _, _, by simp only [mul_zero, add_zero]; rfl, ?_⟩
    have := Real.sin_sq_add_cos_sq (toRadians a)
    generalize Real.sin (toRadians a) = S at *
    generalize Real.cos (toRadians a) = C at *
    generalize Real.tan (toRadians s) = T at *
    linear_combination (S ^ 2 + C ^ 2 + 1) * this
  · refine ⟨1, 0, 0, 1, ?_, by norm_num⟩
    simp [Affine.identity]

section
variable [Kurbo ℝ]

/-- **C12.** The affine map of a transform at any frame sends the anchor point to the position,
whatever the rotation, scale and skew. -/
theorem C12_anchor (t : AnimTransform ℝ) (frame : ℝ) :
    (t.intoModel.evaluate frame).apply (t.anchor.evaluate frame) = t.position.evaluate frame := by
  rw [C11_transform]
  unfold AnimTransform.evaluate
  obtain ⟨ka, kb, kc, kd, hk, -⟩ :=
    skewMatrix_real (t.skew.evaluate frame) (t.skewAngle.evaluate frame)
  dsimp only
  rw [hk]
  generalize t.anchor.evaluate frame = a
  generalize t.position.evaluate frame = p
  generalize t.rotation.evaluate frame = r
  generalize t.scale.evaluate frame = s
  obtain ⟨ax, ay⟩ := a
  obtain ⟨px, py⟩ := p
  simp only [Affine.apply, Affine.mul, Affine.translate, Affine.rotate, Affine.scaleNonUniform,
    real_lit, real_mul, real_add, real_neg, real_div]
  push_cast
  congr 1 <;> ring

/-- **C13.** At every frame the map scales areas by the product of the two scale factors; rotation,
skew, anchor and position have no influence. -/
theorem C13_area (t : AnimTransform ℝ) (frame : ℝ) :
    (t.intoModel.evaluate frame).det
      = (t.scale.evaluate frame).x / 100 * ((t.scale.evaluate frame).y / 100) := by
  rw [C11_transform]
  unfold AnimTransform.evaluate
  obtain ⟨ka, kb, kc, kd, hk, hdet⟩ :=
    skewMatrix_real (t.skew.evaluate frame) (t.skewAngle.evaluate frame)
  dsimp only
  rw [hk]
  generalize t.anchor.evaluate frame = a
  generalize t.position.evaluate frame = p
  generalize t.rotation.evaluate frame = r
  generalize t.scale.evaluate frame = s
  have := Real.sin_sq_add_cos_sq (toRadians r)
  simp only [Affine.det, Affine.mul, Affine.translate, Affine.rotate, Affine.scaleNonUniform,
    real_lit, real_mul, real_add, real_neg, real_div, real_sin, real_cos]
  push_cast
  generalize Real.sin (toRadians r) = S at *
  generalize Real.cos (toRadians r) = C at *
  linear_combination (s.x / 100 * (s.y / 100)) * (S ^ 2 + C ^ 2) * hdet
    + (s.x / 100 * (s.y / 100)) * this

/-- A rotated, skewed, unevenly scaled transform: anchor (1,2), position (3,4). -/
def exTransform : AnimTransform ℝ :=
  ⟨.fixed ⟨1, 2⟩, .value (.fixed ⟨3, 4⟩), .fixed 30, .fixed ⟨200, 50⟩, .fixed 10, .fixed 20⟩

example (frame : ℝ) : (exTransform.intoModel.evaluate frame).apply ⟨1, 2⟩ = ⟨3, 4⟩ :=
  C12_anchor exTransform frame

example (frame : ℝ) : (exTransform.intoModel.evaluate frame).det = 1 := by
  rw [C13_area]; show (200 : ℝ) / 100 * (50 / 100) = 1; norm_num

/-! ## C14 — omitted transform fields -/

open Import in
/-- What the two conversions have in common. -/
theorem convTransformWith_ok {v : Schema.Transform ℝ} {rot : Schema.FloatValue ℝ}
    {position : Position ℝ} {t : Transform ℝ} {o : Value ℝ ℝ}
    (h : convTransformWith v rot position = .ok (t, o)) :
    ∃ at_ : AnimTransform ℝ, t = at_.intoModel ∧
      at_.scale = convMultiP2 (v.scale.getD multidimOne) := by
  unfold convTransformWith at h
  simp only [bind, Except.bind] at h
  split at h
  · simp at h
  split at h
  · simp at h
  split at h
  · simp at h
  split at h
  · simp at h
  simp only [Except.ok.injEq, Prod.mk.injEq] at h
  exact ⟨_, h.1.symm, rfl⟩

open Import in
/-- A successful import goes through the part shared with group transforms. -/
theorem convTransform_with {v : Schema.Transform ℝ} {t : Transform ℝ} {o : Value ℝ ℝ}
    (h : convTransform v = .ok (t, o)) :
    ∃ rot pos, convTransformWith v rot pos = .ok (t, o) := by
  obtain ⟨rot, -, h⟩ := bind_ok h
  obtain ⟨pos, -, h⟩ := bind_ok h
  exact ⟨rot, pos, h⟩

omit [Kurbo ℝ] in
/-- **C14.** A layer transform whose anchor, skew, skew axis or opacity are omitted, in any
combination, is imported exactly like the transform in which the omitted fields are written out
with their neutral values (or fails for the same reason).  *Missing: an omitted scale*; see
`C14_scale_omitted`. -/
theorem C14_layer_partial {F : Type} [FloatOps F] [Libm F] [Kurbo F] (v : Schema.Transform F)
    (h : v.scale.isSome = true) :
    Import.convTransform v = Import.convTransform v.fillNeutral := by
  obtain ⟨sc, hsc⟩ := Option.isSome_iff_exists.mp h
  obtain ⟨anchor, position, scale, rotation, skew, skewAxis, opacity⟩ := v
  simp only at hsc
  subst hsc
  cases rotation with
  | none => rfl
  | some r =>
    cases r with
    | splitRotation => rfl
    | rotation r =>
      cases position with
      | position p => cases anchor <;> cases skew <;> cases skewAxis <;> cases opacity <;> rfl
      | splitPosition p => cases anchor <;> cases skew <;> cases skewAxis <;> cases opacity <;> rfl

omit [Kurbo ℝ] in
/-- **C14.** The same for group transforms, whose rotation may be omitted too. -/
theorem C14_group_partial {F : Type} [FloatOps F] [Libm F] [Kurbo F] (s : Schema.TransformShape F)
    (h : s.transform.scale.isSome = true) :
    Import.convShapeTransform s
      = Import.convShapeTransform { s with transform := s.transform.fillNeutral.fillRotation } := by
  obtain ⟨ge, v⟩ := s
  obtain ⟨sc, hsc⟩ := Option.isSome_iff_exists.mp h
  obtain ⟨anchor, position, scale, rotation, skew, skewAxis, opacity⟩ := v
  simp only at hsc
  subst hsc
  cases position with
  | splitPosition p =>
    cases rotation with
    | none => rfl
    | some r => cases r <;> rfl
  | position p =>
    cases rotation with
    | none => cases anchor <;> cases skew <;> cases skewAxis <;> cases opacity <;> rfl
    | some r =>
      cases r with
      | splitRotation => rfl
      | rotation r => cases anchor <;> cases skew <;> cases skewAxis <;> cases opacity <;> rfl

/-- **C14 is false for the scale.** Whenever the scale is omitted, the imported layer transform
shrinks areas by a factor 10000 (1% in both directions), at every frame. -/
theorem C14_scale_omitted (v : Schema.Transform ℝ) (t : Transform ℝ) (o : Value ℝ ℝ)
    (h : Import.convTransform v = .ok (t, o)) (hs : v.scale = none) (frame : ℝ) :
    (t.evaluate frame).det = 1 / 10000 := by
  obtain ⟨rot, pos, h⟩ := convTransform_with h
  obtain ⟨at_, rfl, hsc⟩ := convTransformWith_ok h
  rw [C13_area, hsc, hs]
  show ((1 : ℚ) : ℝ) / 100 * (((1 : ℚ) : ℝ) / 100) = _
  norm_num

/-- The same transform with the scale written out as 100% keeps areas. -/
theorem C14_scale_explicit (v : Schema.Transform ℝ) (t : Transform ℝ) (o : Value ℝ ℝ)
    (h : Import.convTransform v.fillNeutral = .ok (t, o)) (hs : v.scale = none) (frame : ℝ) :
    (t.evaluate frame).det = 1 := by
  obtain ⟨rot, pos, h⟩ := convTransform_with h
  obtain ⟨at_, rfl, hsc⟩ := convTransformWith_ok h
  rw [C13_area, hsc]
  simp only [Schema.Transform.fillNeutral, hs]
  show ((100 : ℚ) : ℝ) / 100 * (((100 : ℚ) : ℝ) / 100) = _
  norm_num

/-- A transform with only position and rotation. -/
noncomputable def exBare : Schema.Transform ℝ :=
  ⟨none, .position (Import.positionZero), none, some (.rotation Import.floatValueZero), none, none, none⟩

/-- The hypotheses of `C14_scale_omitted` are met. -/
example : ∃ t o, Import.convTransform exBare = .ok (t, o) ∧ exBare.scale = none := ⟨_, _, rfl, rfl⟩

/-- The hypotheses of `C14_layer_partial` are met by a transform that imports. -/
example : ({ exBare with scale := some Import.multidimOne }).scale.isSome = true ∧
    ∃ r, Import.convTransform { exBare with scale := some Import.multidimOne } = .ok r :=
  ⟨rfl, _, rfl⟩

end
end Velato
