import Verif.Props.Transforms
import Verif.Proofs.TransformFormula

/-!
# C61 — what a transform does to a point
-/

namespace Velato
open FloatOps (lit)
open Import

section
variable [Kurbo ℝ]

/-- **C61.** At every frame a transform maps every point as `placed` says, from the values that its
properties have at that frame. -/
theorem C61_point (t : AnimTransform ℝ) (frame : ℝ) (p : P2 ℝ) :
    (t.intoModel.evaluate frame).apply p
      = placed (t.anchor.evaluate frame) (t.position.evaluate frame) (t.scale.evaluate frame)
          (t.rotation.evaluate frame) (t.skew.evaluate frame) (t.skewAngle.evaluate frame) p := by
  rw [C11_transform]
  exact transformMatrix_apply _ _ _ _ _ _ p

/-- An unskewed transform that doubles, turns by 90 degrees and moves the anchor (1, 2) to (3, 4)
sends (2, 2) to (3, 6). -/
example (frame : ℝ) : ((AnimTransform.intoModel ⟨.fixed ⟨1, 2⟩, .value (.fixed ⟨3, 4⟩), .fixed 90,
    .fixed ⟨200, 200⟩, .fixed 0, .fixed 0⟩ : Transform ℝ).evaluate frame).apply ⟨2, 2⟩ = ⟨3, 6⟩ := by
  rw [C61_point]
  simp only [placed, Value.evaluate, Position.evaluate]
  rw [show (90 : ℝ) * (Real.pi / 180) = Real.pi / 2 by ring]
  simp
  norm_num

/-- **C61.** The same for an imported layer transform, from the values of the document's
properties; its opacity is the document's. -/
theorem C61_layer {v : Schema.Transform ℝ} {t : Transform ℝ} {o : Value ℝ ℝ}
    (h : convTransform v = .ok (t, o)) :
    ∃ (rot : Schema.FloatValue ℝ) (R K X : Value ℝ ℝ) (P : ℝ → P2 ℝ),
      v.rotation = some (.rotation rot) ∧ convScalar rot = .ok R ∧
      convScalar (v.skew.getD floatValueZero) = .ok K ∧
      convScalar (v.skewAxis.getD floatValueZero) = .ok X ∧
      convScalar (v.opacity.getD floatValueOneHundred) = .ok o ∧
      (∀ q, v.position = .position q → ∀ frame, P frame = (convPosPoint q).evaluate frame) ∧
      (∀ q, v.position = .splitPosition q → ∃ x y, convScalar q.x = .ok x ∧
        convScalar q.y = .ok y ∧ ∀ frame, P frame = ⟨x.evaluate frame, y.evaluate frame⟩) ∧
      ∀ frame p, (t.evaluate frame).apply p
        = placed ((convPosPoint (v.anchorPoint.getD positionZero)).evaluate frame)
            (P frame) ((convMultiP2 (v.scale.getD multidimOne)).evaluate frame)
            (R.evaluate frame) (K.evaluate frame) (X.evaluate frame) p := by
  obtain ⟨rot, hrot, h⟩ := bind_ok h
  obtain ⟨P, hP, h⟩ := bind_ok h
  obtain ⟨R, hR, h⟩ := bind_ok h
  obtain ⟨K, hK, h⟩ := bind_ok h
  obtain ⟨X, hX, h⟩ := bind_ok h
  obtain ⟨O, hO, h⟩ := bind_ok h
  cases h
  refine ⟨rot, R, K, X, P.evaluate, ?_, hR, hK, hX, hO, ?_, ?_, fun frame p => C61_point _ frame p⟩
  · unfold layerRotation at hrot
    split at hrot
    · cases hrot; assumption
    · cases hrot
    · cases hrot
  · intro q hq
    rw [hq] at hP
    cases hP
    exact fun _ => rfl
  · intro q hq
    rw [hq] at hP
    obtain ⟨x, hx, hP⟩ := bind_ok hP
    obtain ⟨y, hy, hP⟩ := bind_ok hP
    cases hP
    exact ⟨x, y, hx, hy, fun _ => rfl⟩

/-- **C61.** The same for an imported group transform: an omitted rotation counts as 0. -/
theorem C61_group {v : Schema.TransformShape ℝ} {t : GroupTransform ℝ}
    (h : convShapeTransform v = .ok t) :
    ∃ (rot : Schema.FloatValue ℝ) (R K X : Value ℝ ℝ) (P : Schema.Position ℝ),
      (v.transform.rotation = some (.rotation rot) ∨
        v.transform.rotation = none ∧ rot = floatValueZero) ∧ convScalar rot = .ok R ∧
      convScalar (v.transform.skew.getD floatValueZero) = .ok K ∧
      convScalar (v.transform.skewAxis.getD floatValueZero) = .ok X ∧
      convScalar (v.transform.opacity.getD floatValueOneHundred) = .ok t.opacity ∧
      v.transform.position = .position P ∧
      ∀ frame p, (t.transform.evaluate frame).apply p
        = placed ((convPosPoint (v.transform.anchorPoint.getD positionZero)).evaluate frame)
            ((convPosPoint P).evaluate frame)
            ((convMultiP2 (v.transform.scale.getD multidimOne)).evaluate frame)
            (R.evaluate frame) (K.evaluate frame) (X.evaluate frame) p := by
  obtain ⟨rot, hrot, h⟩ := bind_ok h
  obtain ⟨P, hP, h⟩ := bind_ok h
  obtain ⟨⟨t', o'⟩, h', h⟩ := bind_ok h
  obtain ⟨R, hR, h'⟩ := bind_ok h'
  obtain ⟨K, hK, h'⟩ := bind_ok h'
  obtain ⟨X, hX, h'⟩ := bind_ok h'
  obtain ⟨O, hO, h'⟩ := bind_ok h'
  cases h'
  cases h
  unfold groupPosition at hP
  split at hP
  · rename_i q hq
    cases hP
    refine ⟨rot, R, K, X, q, ?_, hR, hK, hX, hO, hq, fun frame p => C61_point _ frame p⟩
    unfold groupRotation at hrot
    split at hrot
    · cases hrot; exact .inl (by assumption)
    · cases hrot
    · cases hrot; exact .inr ⟨by assumption, rfl⟩
  · cases hP

/-- The hypothesis of `C61_layer` is met. -/
example : ∃ t o, convTransform exBare = .ok (t, o) := ⟨_, _, rfl⟩

/-- The hypothesis of `C61_group` is met. -/
example (g : Schema.GraphicElement ℝ) : ∃ t, convShapeTransform ⟨g, exBare⟩ = .ok t := ⟨_, rfl⟩

end
end Velato
