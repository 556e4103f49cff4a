import Verif.Spec.Import

/-!
# Matte mode Normal
-/

namespace Velato.Schema

variable {F : Type}

/-- The same attributes without matte mode if the mode is Normal. -/
def VisualLayer.dropNormal (v : VisualLayer F) : VisualLayer F :=
  { v with matteMode := if v.matteMode = some .normal then none else v.matteMode }

/-- The same layer without matte mode if the mode is Normal. -/
def AnyLayer.dropNormal : AnyLayer F → AnyLayer F
  | .precomposition l => .precomposition { l with visualLayer := l.visualLayer.dropNormal }
  | .solid l => .solid { l with visualLayer := l.visualLayer.dropNormal }
  | .shape l => .shape { l with visualLayer := l.visualLayer.dropNormal }
  | .null l => .null l.dropNormal
  | .image l => .image { l with visualLayer := l.visualLayer.dropNormal }

/-- The same asset without the matte modes Normal. -/
def AnyAsset.dropNormal : AnyAsset F → AnyAsset F
  | .precomposition p => .precomposition { p with layers := p.layers.map AnyLayer.dropNormal }
  | .image i => .image i

/-- The same document without the matte modes Normal. -/
def Animation.dropNormal (a : Animation F) : Animation F :=
  { a with
    layers := a.layers.map AnyLayer.dropNormal
    assets := a.assets.map fun as => as.map AnyAsset.dropNormal }

end Velato.Schema

namespace Velato

variable {F : Type} [FloatOps F]

/-- No layer with matte mode Normal has a matte: no matte is pending when it is met, and it names
no layer of the list as its matte. -/
def NormalUnmatted (ls : List (Schema.AnyLayer F)) : Prop :=
  ∀ (i : Nat) s, ls[i]? = some s → s.visual.matteMode = some .normal →
    (∀ j, ¬ PendingMatte ls i j) ∧
    ∀ x, s.visual.matteLayerIndex = some x →
      FloatOps.toUsize x ∉ ls.map Schema.AnyLayer.ident

end Velato
