import Verif.Proofs.Accuracy
import Verif.Props.DoublePrecision

/-!
# Values of properties with moderate numbers
-/

set_option exponentiation.threshold 2000

namespace Velato
open FloatOps (lit)
open F64
open Import

section
variable [Kurbo F64]

omit [Kurbo F64] in
theorem Value.evaluate_eq {T : Type} [Tween F64 T] [RDefault T] (v : Value F64 T) (frame : F64) :
    v.evaluate frame = v.evaluateOr frame RDefault.dflt := by cases v <;> rfl

theorem scalar_within {p : Schema.FloatValue F64} {v : Value F64 F64} (h : convScalar p = .ok v)
    {lo M B : ℝ} (hp : ScalarWithin (-lo) lo p) (h0 : |lo| ≤ M) (hM : M ≤ 2 ^ 1000)
    (hB : lo + overshoot (-lo) lo M ≤ B) (frame : F64) : (v.evaluate frame).Between (-B) B := by
  have := C114_scalars h hp (by rwa [abs_neg]) h0 hM frame RDefault.dflt
  rw [← Value.evaluate_eq] at this
  exact ⟨this.1, by linarith [this.2.1], by linarith [this.2.2]⟩

theorem position_within {p : Schema.Position F64}
    (hp : PositionWithin (-8000) 8000 (-8000) 8000 p) (frame : F64) :
    ((convPosPoint p).evaluate frame).AtMost (2 ^ 13) := by
  have h := C114_positions hp (M := 8000) (by norm_num) (by norm_num) (by norm_num) (by norm_num)
    (by norm_num) frame RDefault.dflt
  rw [← Value.evaluate_eq] at h
  have e : overshoot (-8000) 8000 8000 ≤ 192 := by unfold overshoot; norm_num
  exact ⟨⟨h.1.1, by linarith [h.1.2.1], by linarith [h.1.2.2]⟩,
    ⟨h.2.1, by linarith [h.2.2.1], by linarith [h.2.2.2]⟩⟩

omit [Kurbo F64] in
theorem lit_zero_between {B : ℝ} (hB : 0 ≤ B) : (lit 0 : F64).Between (-B) B := by
  have := abs_le.mp near_lit0.err
  exact ⟨near_lit0.fin, by linarith, by linarith⟩

end
end Velato
