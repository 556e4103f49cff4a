import Verif.Spec.Playback
import Verif.Spec.Import

/-!
# With which handles a keyframe of a vector, position or colour is played
-/

namespace Velato

/-- A keyframe with the time and hold flag of `b` and with the handles that are used for all coordinates: none unless both are
given; if both are given for two coordinates separately, those of the second coordinate; otherwise those of the first. -/
def PlayedAs {F : Type} (b b' : Schema.KeyframeBase F) : Prop :=
  b'.time = b.time ∧ b'.hold = b.hold ∧
  ((¬ ((∃ i, HandleAxis 0 b.inTangent i) ∧ ∃ o, HandleAxis 0 b.outTangent o) ∧
      b'.inTangent = none ∧ b'.outTangent = none) ∨
    ∃ c i o, (c = 0 ∧ ¬ (TwoAxes b.inTangent ∧ TwoAxes b.outTangent) ∨
        c = 1 ∧ TwoAxes b.inTangent ∧ TwoAxes b.outTangent) ∧
      HandleAxis c b.inTangent i ∧ HandleAxis c b.outTangent o ∧
      b'.inTangent = some ⟨.singleValue i.x, .singleValue i.y⟩ ∧
      b'.outTangent = some ⟨.singleValue o.x, .singleValue o.y⟩)

end Velato
