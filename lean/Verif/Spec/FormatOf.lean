import Verif.Spec.Format
import Verif.Spec.Attributes

/-!
# What a composition loaded from JSON holds
-/

namespace Velato.Format

section
variable {F : Type} [FloatOps F] [Kurbo F] [Libm F]

/-- The layer has the names, times, size and attributes that the JSON value describes. -/
def LayerOf (j : Json F) (l : Velato.Layer F) : Prop :=
  ∃ s, Layer j s ∧ KeepsLayer s l ∧ HasAttributes s l

/-- The asset has the id and the layers that the JSON value describes. -/
def AssetOf (j : Json F) (e : String × List (Velato.Layer F)) : Prop :=
  ∃ es, j = .obj es ∧ Req Text es "id" e.1 ∧ Req (Array LayerOf) es "layers" e.2

/-- The composition is what the JSON value describes. -/
structure CompositionOf (j : Json F) (c : Composition F) : Prop where
  first : ∃ v, j.At "ip" v ∧ Number v c.frames.start
  last : ∃ v, j.At "op" v ∧ Number v c.frames.stop
  rate : ∃ v, j.At "fr" v ∧ Number v c.frameRate
  width : j.At "w" (.num (.posInt c.width))
  height : j.At "h" (.num (.posInt c.height))
  layers : ∃ v, j.At "layers" v ∧ Array LayerOf v c.layers
  assets : (∃ v, j.At "assets" v ∧ Array AssetOf v c.assets) ∨
    (¬ j.HasKey "assets" ∨ j.At "assets" .null) ∧ c.assets = []

end
end Velato.Format
