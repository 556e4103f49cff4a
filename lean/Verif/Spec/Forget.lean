import Verif.Model.Scene
import Verif.Model.Schema

/-!
# Forgetting attributes
-/

namespace Velato
open FloatOps (lit)

section
variable {F : Type} [FloatOps F]

/-- The mask without its mode and opacity: only the path is left. -/
def Mask.forget (m : Mask F) : Mask F := { m with mode := .ofMix .normal, opacity := .fixed (lit 100) }

omit [FloatOps F] in
/-- The content without time remapping. -/
def Content.forget : Content F → Content F
  | .instance name _ => .instance name Option.none
  | c => c

/-- The layer without blend mode, size, time remapping, mask modes and mask opacities. -/
def Layer.forget (l : Layer F) : Layer F :=
  { l with
    blendMode := none
    width := lit 0
    height := lit 0
    masks := l.masks.map Mask.forget
    content := l.content.forget }

/-- The composition without blend modes, layer sizes, time remapping, mask modes and mask
opacities. -/
def Composition.forget (c : Composition F) : Composition F :=
  { c with
    layers := c.layers.map Layer.forget
    assets := c.assets.map fun e => (e.1, e.2.map Layer.forget) }

omit [FloatOps F] in
/-- The composition with every layer changed by `g`. -/
def Composition.mapLayers (g : Layer F → Layer F) (c : Composition F) : Composition F :=
  { c with
    layers := c.layers.map g
    assets := c.assets.map fun e => (e.1, e.2.map g) }

end
end Velato
