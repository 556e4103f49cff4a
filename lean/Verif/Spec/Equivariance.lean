import Verif.Model.Render

/-!
# Transforming the calls
-/

namespace Velato

/-- The call with its transform changed by `τ`. -/
def Op.mapTransform {F : Type} (τ : Affine F → Affine F) : Op F → Op F
  | .pushLayer blend alpha transform shape => .pushLayer blend alpha (τ transform) shape
  | .pushClip transform shape => .pushClip (τ transform) shape
  | .pop => .pop
  | .draw stroke transform brush path => .draw stroke (τ transform) brush path
  | .beginGroup name index => .beginGroup name index
  | .endGroup => .endGroup

end Velato
