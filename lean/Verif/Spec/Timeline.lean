import Verif.Spec.EasingAccuracy
import Verif.Spec.Playback

/-!
# What an animated number is at every frame, in double precision
-/

namespace Velato
open FloatOps (lit)

/-- Coordinate `c` of a property, shown as `x` at `frame`, is, up to `e`, what the keyframes and values `ks` say: before the first keyframe
its value, from the last one on the value of that; in between the value is held, or is the one on the easing curve
of the earlier keyframe, at most `δ` of the time between the keyframes too early or too late. -/
def ShownNear (c : Nat) (δ e : ℝ) (ks : List (Schema.KeyframeBase F64 × F64)) (frame x : F64) : Prop :=
  x.isFin = true ∧
  ((∃ b v, ks.head? = some (b, v) ∧ (frame <. b.time) = true ∧ |x.toR - v.toR| ≤ e) ∨
  (∃ b v, ks.getLast? = some (b, v) ∧ (b.time <=. frame) = true ∧ |x.toR - v.toR| ≤ e) ∨
  ∃ (k : Nat) (b0 : Schema.KeyframeBase F64) (v0 : F64) (b1 : Schema.KeyframeBase F64) (v1 : F64),
    ks[k]? = some (b0, v0) ∧ ks[k + 1]? = some (b1, v1) ∧ (b0.time <=. frame) = true ∧ (frame <. b1.time) = true ∧
    (b0.hold = some .true → |x.toR - v0.toR| ≤ e) ∧
    (b0.hold ≠ some .true → ∃ o i, EasingHandleOf c (lit 0) b0.outTangent o ∧
      EasingHandleOf c (lit 1) b0.inTangent i ∧ EasedNear δ e o i v0.toR v1.toR
        ((frame.toR - b0.time.toR) / (b1.time.toR - b0.time.toR)) x.toR))

/-- Keyframes in order, at finite times at least `2^-1000` apart, with handles in the unit square. -/
structure OrdinaryTimes {K : Type} (base : K → Schema.KeyframeBase F64) (ks : List K) : Prop where
  order : ks.Pairwise fun a b => (base a).time.toR + 1 / 2 ^ 1000 ≤ (base b).time.toR
  times : ∀ k ∈ ks, (base k).time.Between (-2 ^ 1000) (2 ^ 1000)
  handles : ∀ k ∈ ks, (base k).HandlesInUnitSquare

end Velato
