import Verif.Model.Overlay

/-!
# Specification: what the overlays show
-/

namespace Velato

section
variable {F : Type}

/-- The colour and the rectangle of an outline of width `w`. -/
def OverlayOp.outline? [DecidableEq F] (w : F) : OverlayOp F → Option (Color F × KRect F)
  | .stroke w' color r => if w' = w then some (color, r) else none
  | _ => none

/-- The colour and the text of a label of size `s`, with the place of its first letter. -/
def OverlayOp.label? [DecidableEq F] (s : F) : OverlayOp F → Option (Color F × String × F × F)
  | .text s' color T t => if s' = s then some (color, t, T.e, T.f) else none
  | _ => none

/-- The colour and the rectangle of a filled rectangle. -/
def OverlayOp.filled? : OverlayOp F → Option (Color F × KRect F)
  | .fill color r => some (color, r)
  | _ => none

end

end Velato
