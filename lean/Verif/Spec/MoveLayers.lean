import Verif.Spec.Remove
import Verif.Spec.Import

/-!
# Vocabulary for statements about moving layers to a precomposition
-/

namespace Velato

variable {F : Type}

/-- The layer `s` refers to the number of the layer `t`, as parent or as matte. -/
def Schema.AnyLayer.RefersTo [FloatOps F] (s t : Schema.AnyLayer F) : Prop :=
  s.visual.layer.parentIndex = some t.ident ∨
    ∃ x, s.visual.matteLayerIndex = some x ∧ FloatOps.toUsize x = t.ident

/-- No layer of the list shows the asset `id`. -/
def ShowsNo (id : String) (ls : List (Schema.AnyLayer F)) : Prop :=
  ∀ q, .precomposition q ∈ ls → q.refId ≠ id

/-- Layers of the list that use the matte before them have one in the list. -/
def MattesInside (ls : List (Schema.AnyLayer F)) : Prop :=
  ∀ (i : Nat) s, ls[i]? = some s → s.Matted → s.visual.matteLayerIndex = none → ∃ j, PendingMatte ls i j

/-- The document `a'` is `a` with the layers `ys` moved to the new asset `p`, which the layer `w` shows in their place.  No layers
refer to each other across the borders of what is moved. -/
structure Schema.Animation.Precomposed [FloatOps F] (a a' : Schema.Animation F) (xs ys zs : List (Schema.AnyLayer F))
    (w : Schema.PrecompositionLayer F) (p : Schema.PrecompAsset F) : Prop where
  layers : a.layers = xs ++ ys ++ zs
  result : a' = { a with
    layers := xs ++ .precomposition w :: zs
    assets := some (a.assetList ++ [.precomposition p]) }
  moved : p.layers = ys
  shown : p.asset.id = w.refId
  fresh : ShowsNo w.refId a.layers
  freshAssets : ∀ q, .precomposition q ∈ a.assetList → ShowsNo w.refId q.layers
  apart : ∀ s ∈ ys, ∀ t ∈ xs ++ zs, ¬ s.RefersTo t ∧ ¬ t.RefersTo s
  unused : ∀ t ∈ xs ++ zs, ¬ t.RefersTo (.precomposition w)
  mattes : MattesInside ys
  mattesAfter : MattesInside zs

/-- A layer that shows an asset without doing anything to it, apart from its transform, opacity and time. -/
structure Schema.PrecompositionLayer.Plain (w : Schema.PrecompositionLayer F) : Prop where
  visible : w.visualLayer.layer.hidden ≠ some true
  parentless : w.visualLayer.layer.parentIndex = none
  unmatted : w.visualLayer.matteMode = none
  noMatte : w.visualLayer.matteTarget ≠ some .true
  unmasked : w.visualLayer.masksProperties.getD [] = []
  unblended : w.visualLayer.blendMode.getD .normal = .normal
  noRemap : w.timeRemap = none

end Velato
