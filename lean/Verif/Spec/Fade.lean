import Verif.Model.Render
import Verif.Num.Real

/-!
# Fading the calls
-/

namespace Velato

/-- The colour with its opacity multiplied by `α`. -/
noncomputable def Color.fade (α : ℝ) (c : Color ℝ) : Color ℝ := { c with a := α * c.a }

/-- The brush with the opacity of its colour, or of all its stops, multiplied by `α`. -/
noncomputable def Brush.fade (α : ℝ) : Brush ℝ → Brush ℝ
  | .solid c => .solid (c.fade α)
  | .gradient kind stops => .gradient kind (stops.map fun s => { s with color := s.color.fade α })

/-- The call with the brush of a drawing faded; other calls are as they were. -/
noncomputable def Op.fade (α : ℝ) : Op ℝ → Op ℝ
  | .pushLayer blend alpha transform shape => .pushLayer blend alpha transform shape
  | .pushClip transform shape => .pushClip transform shape
  | .pop => .pop
  | .draw stroke transform brush path => .draw stroke transform (brush.fade α) path
  | .beginGroup name index => .beginGroup name index
  | .endGroup => .endGroup

end Velato
