import Verif.Spec.Easing
import Verif.Spec.Keyframes
import Verif.Spec.Playback

/-!
# Vocabulary for statements about jumps of animated values, in exact arithmetic
-/

namespace Velato

/-- Wherever the frame is, a small enough change of it changes the value by less than `tol` and an
arbitrarily small amount: the value has no jump of more than `tol`. -/
def JumpsAtMost (tol : ℝ) (x : ℝ → ℝ) : Prop :=
  ∀ f ε : ℝ, 0 < ε → ∃ δ > 0, ∀ g, |g - f| < δ → |x g - x f| < tol + ε

/-- No two neighbouring values differ by more than `S`. -/
def StepsAtMost (S : ℝ) (vs : List ℝ) : Prop :=
  ∀ k a b, vs[k]? = some a → vs[k + 1]? = some b → |b - a| ≤ S

/-- Between neighbouring keyframes the value changes by at most `L` per frame on average. -/
def SpeedsAtMost (L : ℝ) (ts vs : List ℝ) : Prop :=
  ∀ k s t a b, ts[k]? = some s → ts[k + 1]? = some t → vs[k]? = some a → vs[k + 1]? = some b →
    |b - a| ≤ L * (t - s)

end Velato

namespace Velato

/-- The easing of coordinate `c` from a keyframe to the next has its handles in the unit square. -/
def EasedInUnitSquare (c : Nat) (b : Schema.KeyframeBase ℝ) : Prop :=
  ∀ o i, EasingHandleOf c 0 b.outTangent o → EasingHandleOf c 1 b.inTangent i →
    (⟨o, i⟩ : Easing ℝ).InUnitSquare

/-- The keyframe is not held until the next one. -/
def NotHeld (b : Schema.KeyframeBase ℝ) : Prop := b.hold ≠ some .true

/-- The keyframe has no easing: the value moves to that of the next keyframe with constant speed. -/
def NotEased (b : Schema.KeyframeBase ℝ) : Prop := b.outTangent = none ∧ b.inTangent = none

end Velato
