import Verif.Proofs.ModerateValues
import Verif.Props.Folding

/-!
# C115 — placement in double precision is accurate
-/

set_option exponentiation.threshold 2000

namespace Velato
open FloatOps (lit)
open F64
open Import

section
variable [Libm F64] [Kurbo F64]

/-- **C115.** If at some frame the anchor and position of a transform have coordinates up to 8192,
its scales are up to 1600 per cent, its rotation up to 4096 degrees and it is not skewed, then the
matrix computed in double precision is finite and puts every point with coordinates up to 8192
within 2^-26 of where the transform is meant to put it. -/
theorem C115_point (hl : AccurateLibm) (t : AnimTransform F64) (frame : F64)
    (ha : (t.anchor.evaluate frame).AtMost (2 ^ 13))
    (hq : (t.position.evaluate frame).AtMost (2 ^ 13))
    (hs : (t.scale.evaluate frame).AtMost 1600)
    (hr : (t.rotation.evaluate frame).Between (-(2 ^ 12)) (2 ^ 12))
    (hk : (t.skew.evaluate frame).Between 0 0) (p : P2 ℝ) (hx : |p.x| ≤ 2 ^ 13) (hy : |p.y| ≤ 2 ^ 13) :
    (t.intoModel.evaluate frame).Finite ∧
    CloseTo (1 / 2 ^ 26) ((t.intoModel.evaluate frame).toR.apply p)
      (placed (t.anchor.evaluate frame).toR (t.position.evaluate frame).toR
        (t.scale.evaluate frame).toR (t.rotation.evaluate frame).toR (t.skew.evaluate frame).toR
        (t.skewAngle.evaluate frame).toR p) := by
  rw [C11_transform, ← transformMatrix_apply]
  have h := approx_transform hl ha hq hs hr (x := t.skewAngle.evaluate frame) hk.1
    (le_antisymm hk.2.2 hk.2.1)
  exact ⟨h.finite, h.apply hx hy (by norm_num)⟩

/-- **C115.** With a skew up to 60 degrees (axis up to 4096 degrees): within 2^-20. -/
theorem C115_point_skewed (hl : AccurateLibm) (t : AnimTransform F64) (frame : F64)
    (ha : (t.anchor.evaluate frame).AtMost (2 ^ 13))
    (hq : (t.position.evaluate frame).AtMost (2 ^ 13))
    (hs : (t.scale.evaluate frame).AtMost 1600)
    (hr : (t.rotation.evaluate frame).Between (-(2 ^ 12)) (2 ^ 12))
    (hk : (t.skew.evaluate frame).Between (-60) 60)
    (hax : (t.skewAngle.evaluate frame).Between (-(2 ^ 12)) (2 ^ 12))
    (p : P2 ℝ) (hx : |p.x| ≤ 2 ^ 13) (hy : |p.y| ≤ 2 ^ 13) :
    (t.intoModel.evaluate frame).Finite ∧
    CloseTo (1 / 2 ^ 20) ((t.intoModel.evaluate frame).toR.apply p)
      (placed (t.anchor.evaluate frame).toR (t.position.evaluate frame).toR
        (t.scale.evaluate frame).toR (t.rotation.evaluate frame).toR (t.skew.evaluate frame).toR
        (t.skewAngle.evaluate frame).toR p) := by
  by_cases hk0 : (t.skew.evaluate frame).toR = 0
  · obtain ⟨h1, h2⟩ := C115_point hl t frame ha hq hs hr ⟨hk.1, hk0.ge, hk0.le⟩ p hx hy
    exact ⟨h1, h2.1.trans (by norm_num), h2.2.trans (by norm_num)⟩
  · rw [C11_transform, ← transformMatrix_apply]
    have h := approx_transform_skewed hl ha hq hs hr hk hk0 hax
    exact ⟨h.finite, h.apply hx hy (by norm_num)⟩

/-- **C115.** An imported layer transform with moderate numbers, at every frame: the matrix is
finite and puts every point with coordinates up to 8192 within 2^-20 of where the transform is
meant to put it, from the values that the document's properties have at that frame. -/
theorem C115_layer (hl : AccurateLibm) {v : Schema.Transform F64} {t : Transform F64}
    {o : Value F64 F64} (h : convTransform v = .ok (t, o)) (hv : v.Moderate) :
    ∃ (rot : Schema.FloatValue F64) (R K X : Value F64 F64) (P : F64 → P2 F64),
      v.rotation = some (.rotation rot) ∧ convScalar rot = .ok R ∧
      convScalar (v.skew.getD floatValueZero) = .ok K ∧
      convScalar (v.skewAxis.getD floatValueZero) = .ok X ∧
      (∀ q, v.position = .position q → ∀ frame, P frame = (convPosPoint q).evaluate frame) ∧
      (∀ q, v.position = .splitPosition q → ∃ x y, convScalar q.x = .ok x ∧
        convScalar q.y = .ok y ∧ ∀ frame, P frame = ⟨x.evaluate frame, y.evaluate frame⟩) ∧
      ∀ (frame : F64) (p : P2 ℝ), |p.x| ≤ 2 ^ 13 → |p.y| ≤ 2 ^ 13 →
        (t.evaluate frame).Finite ∧
        CloseTo (1 / 2 ^ 20) ((t.evaluate frame).toR.apply p)
          (placed ((convPosPoint (v.anchorPoint.getD positionZero)).evaluate frame).toR
            (P frame).toR ((convMultiP2 (v.scale.getD multidimOne)).evaluate frame).toR
            (R.evaluate frame).toR (K.evaluate frame).toR (X.evaluate frame).toR p) := by
  obtain ⟨rot, hrot, h⟩ := bind_ok h
  obtain ⟨P, hP, h⟩ := bind_ok h
  obtain ⟨R, hR, h⟩ := bind_ok h
  obtain ⟨K, hK, h⟩ := bind_ok h
  obtain ⟨X, hX, h⟩ := bind_ok h
  obtain ⟨O, hO, h⟩ := bind_ok h
  cases h
  have hrot' : v.rotation = some (.rotation rot) := by
    unfold layerRotation at hrot
    split at hrot
    · cases hrot; assumption
    · cases hrot
    · cases hrot
  have hval : ∀ q, v.position = .position q → ∀ frame, P.evaluate frame = (convPosPoint q).evaluate frame := by
    intro q hq
    rw [hq] at hP
    cases hP
    exact fun _ => rfl
  have hsplit : ∀ q, v.position = .splitPosition q → ∃ x y, convScalar q.x = .ok x ∧
        convScalar q.y = .ok y ∧ ∀ frame, P.evaluate frame = ⟨x.evaluate frame, y.evaluate frame⟩ := by
    intro q hq
    rw [hq] at hP
    obtain ⟨x, hx, hP⟩ := bind_ok hP
    obtain ⟨y, hy, hP⟩ := bind_ok hP
    cases hP
    exact ⟨x, y, hx, hy, fun _ => rfl⟩
  refine ⟨rot, R, K, X, P.evaluate, hrot', hR, hK, hX, hval, hsplit, fun frame p hx hy => ?_⟩
  refine C115_point_skewed hl _ frame ?_ ?_ ?_ ?_ ?_ ?_ p hx hy
  · refine position_within (p := v.anchorPoint.getD positionZero) ?_ frame
    cases ha : v.anchorPoint with
    | none => exact ⟨_, _, _, rfl, lit_zero_between (by norm_num), lit_zero_between (by norm_num)⟩
    | some p => exact hv.anchor p ha
  · show (P.evaluate frame).AtMost _
    cases hq : v.position with
    | position q => rw [hval q hq]; exact position_within (hv.position q hq) frame
    | splitPosition q =>
      obtain ⟨x, y, hx, hy, e⟩ := hsplit q hq
      rw [e]
      obtain ⟨k1, k2⟩ := hv.split q hq
      exact ⟨scalar_within hx k1 (B := 2 ^ 13) (M := 8000) (by norm_num) (by norm_num)
          (by unfold overshoot; norm_num) frame,
        scalar_within hy k2 (B := 2 ^ 13) (M := 8000) (by norm_num) (by norm_num)
          (by unfold overshoot; norm_num) frame⟩
  · have key : VectorWithin (-1500) 1500 (-1500) 1500 (v.scale.getD multidimOne) := by
      cases hs : v.scale with
      | none =>
        have : (lit 1 : F64).Between (-1500) 1500 :=
          ⟨lit_one_between.1, by linarith [lit_one_between.2.1], by linarith [lit_one_between.2.2]⟩
        exact ⟨_, _, _, rfl, this, this⟩
      | some p => exact hv.scale p hs
    have h := C114_vectors key (M := 1500) (by norm_num) (by norm_num) (by norm_num) (by norm_num)
      (by norm_num) frame RDefault.dflt
    rw [← Value.evaluate_eq] at h
    have e : overshoot (-1500) 1500 1500 ≤ 100 := by unfold overshoot; norm_num
    exact ⟨⟨h.1.1, by linarith [h.1.2.1], by linarith [h.1.2.2]⟩,
      ⟨h.2.1, by linarith [h.2.2.1], by linarith [h.2.2.2]⟩⟩
  · exact scalar_within hR (hv.rotation rot hrot') (M := 4000) (by norm_num) (by norm_num)
      (by unfold overshoot; norm_num) frame
  · refine scalar_within hK (lo := 59) ?_ (M := 59) (by norm_num) (by norm_num)
      (by unfold overshoot; norm_num) frame
    cases hs : v.skew with
    | none => exact lit_zero_between (by norm_num)
    | some p => exact hv.skew p hs
  · refine scalar_within hX (lo := 4000) ?_ (M := 4000) (by norm_num) (by norm_num)
      (by unfold overshoot; norm_num) frame
    cases hs : v.skewAxis with
    | none => exact lit_zero_between (by norm_num)
    | some p => exact hv.axis p hs

end

/-! ## The hypotheses can be met -/

/-- There is an accurate mathematical library. -/
example : ∃ l : Libm F64, @AccurateLibm l := ⟨accurateLibm, accurateLibm_accurate⟩

/-- A layer transform: position and rotation animated with an ease in and out, 250 per cent,
skewed by 30 degrees. -/
def exModerate : Schema.Transform F64 where
  anchorPoint := some ⟨none, none, none, none, .static [lit 50, lit 50]⟩
  position := .position ⟨none, none, none, none, .animated
    [⟨{ exEased64 (lit 0) (lit 0) with value := [lit 0, lit 200] }, none, none⟩,
     ⟨{ exEased64 (lit 30) (lit 0) with value := [lit 512, lit 100, lit 0] }, none, none⟩]⟩
  scale := some ⟨⟨none, none, none, none, .static [lit 250, lit 250, lit 100]⟩, none⟩
  rotation := some (.rotation ⟨none, none, none, none, .animatedValue
    [exEased64 (lit 0) (lit 0), exEased64 (lit 30) (lit 360)]⟩)
  skew := some ⟨none, none, none, none, .static (lit 30)⟩
  skewAxis := none
  opacity := none

theorem exModerate_moderate : exModerate.Moderate := by
  have key : ∀ {q : ℚ} {B : ℕ}, B < 2 ^ 53 → 0 ≤ q ∧ q ≤ B → (lit q : F64).Between (-B) B :=
    fun {_ B} hB hq => by
      have h := lit_between hB hq
      have : (0 : ℝ) ≤ B := Nat.cast_nonneg _
      exact ⟨h.1, by linarith [h.2.1], h.2.2⟩
  have k8 : ∀ {q : ℚ}, 0 ≤ q ∧ q ≤ 8000 → (lit q : F64).Between (-8000) 8000 := fun h => by
    simpa using key (B := 8000) (by norm_num) (by simpa using h)
  have k15 : ∀ {q : ℚ}, 0 ≤ q ∧ q ≤ 1500 → (lit q : F64).Between (-1500) 1500 := fun h => by
    simpa using key (B := 1500) (by norm_num) (by simpa using h)
  have k4 : ∀ {q : ℚ}, 0 ≤ q ∧ q ≤ 4000 → (lit q : F64).Between (-4000) 4000 := fun h => by
    simpa using key (B := 4000) (by norm_num) (by simpa using h)
  have k59 : ∀ {q : ℚ}, 0 ≤ q ∧ q ≤ 59 → (lit q : F64).Between (-59) 59 := fun h => by
    simpa using key (B := 59) (by norm_num) (by simpa using h)
  refine ⟨?_, ?_, ?_, ?_, ?_, ?_, ?_⟩
  · intro p hp; cases hp
    exact ⟨_, _, _, rfl, k8 (by norm_num), k8 (by norm_num)⟩
  · intro p hp; cases hp
    refine ⟨by simp, ?_⟩
    intro k hk
    simp only [List.mem_cons, List.not_mem_nil, or_false] at hk
    rcases hk with rfl | rfl <;>
    exact ⟨exEased64_unit _ (lit 0), _, _, _, rfl, k8 (by norm_num), k8 (by norm_num)⟩
  · intro p hp; cases hp
  · intro p hp; cases hp
    exact ⟨_, _, _, rfl, k15 (by norm_num), k15 (by norm_num)⟩
  · intro p hp; cases hp
    refine ⟨by simp, ?_⟩
    intro k hk
    simp only [List.mem_cons, List.not_mem_nil, or_false] at hk
    rcases hk with rfl | rfl <;>
      exact ⟨exEased64_unit _ _, fun x hx => by cases hx; exact k4 (by norm_num)⟩
  · intro p hp; cases hp
    exact k59 (by norm_num)
  · intro p hp; cases hp

/-- It is imported, and so its matrix is finite at every frame. -/
example [Libm F64] [Kurbo F64] (hl : AccurateLibm) (frame : F64) :
    ∃ t o, convTransform exModerate = .ok (t, o) ∧ (t.evaluate frame).Finite := by
  obtain ⟨t, o, h⟩ : ∃ t o, convTransform exModerate = .ok (t, o) := ⟨_, _, rfl⟩
  obtain ⟨_, _, _, _, _, _, _, _, _, _, _, h'⟩ := C115_layer hl h exModerate_moderate
  exact ⟨t, o, h, (h' frame ⟨0, 0⟩ (by norm_num) (by norm_num)).1⟩

end Velato
