import Verif.Spec.Import

/-!
# Specification: renaming layers and assets, assets in use

Used by the statements of C85 and C86.
-/

namespace Velato.Schema
variable {F : Type}

/-- The layer with the number `ρ n` instead of `n` (a layer without a number has the number 0), where
the numbers of its parent and its matte are changed alike. -/
def VisualLayer.renumber (ρ : Nat → Nat) (τ : F → F) (v : VisualLayer F) : VisualLayer F :=
  { v with
    layer := { v.layer with
      index := some (ρ (v.layer.index.getD 0))
      parentIndex := v.layer.parentIndex.map ρ }
    matteLayerIndex := v.matteLayerIndex.map τ }

/-- The same for every kind of layer, where a reference to the asset `n` becomes one to `σ n`. -/
def AnyLayer.rename (ρ : Nat → Nat) (τ : F → F) (σ : String → String) : AnyLayer F → AnyLayer F
  | .precomposition l =>
    .precomposition { l with visualLayer := l.visualLayer.renumber ρ τ, refId := σ l.refId }
  | .solid l => .solid { l with visualLayer := l.visualLayer.renumber ρ τ }
  | .shape l => .shape { l with visualLayer := l.visualLayer.renumber ρ τ }
  | .null l => .null (l.renumber ρ τ)
  | .image l => .image { l with visualLayer := l.visualLayer.renumber ρ τ, refId := σ l.refId }

/-- The layers with other numbers.  Different numbers stay different.  The number of a matte is a
float in the document, its fraction is ignored. -/
def LayersRenamed [FloatOps F] (σ : String → String) (ls ls' : List (AnyLayer F)) : Prop :=
  ∃ (ρ : Nat → Nat) (τ : F → F), Function.Injective ρ ∧
    (∀ x, FloatOps.toUsize (τ x) = ρ (FloatOps.toUsize x)) ∧ ls' = ls.map (AnyLayer.rename ρ τ σ)

/-- The asset `n` under the name `σ n`, its layers with other numbers. -/
inductive AssetRenamed [FloatOps F] (σ : String → String) : AnyAsset F → AnyAsset F → Prop
  | precomposition {p : PrecompAsset F} {ls : List (AnyLayer F)} (h : LayersRenamed σ p.layers ls) :
    AssetRenamed σ (.precomposition p)
      (.precomposition { p with asset := { p.asset with id := σ p.asset.id }, layers := ls })
  | image (i j : ImageAsset F) : AssetRenamed σ (.image i) (.image j)

/-- The documents differ in the numbers of layers and the names of assets only. -/
structure Animation.Renamed [FloatOps F] (a b : Animation F) : Prop where
  rest : b = { a with layers := b.layers, assets := b.assets }
  names : ∃ σ : String → String, Function.Injective σ ∧ LayersRenamed σ a.layers b.layers ∧
    List.Forall₂ (AssetRenamed σ) (a.assets.getD []) (b.assets.getD [])

/-- The id of an asset. -/
def AnyAsset.name : AnyAsset F → String
  | .image i => i.fileAsset.asset.id
  | .precomposition p => p.asset.id

/-- The last asset with the given id. -/
def Animation.lastAsset (a : Animation F) (n : String) : Option (AnyAsset F) :=
  a.assetList.reverse.find? fun x => x.name == n

/-- A layer of the document that is not hidden refers to the asset `n`, or one of the layers of such an
asset, and so on. -/
inductive Animation.Uses (a : Animation F) : String → Prop
  | layer {p : PrecompositionLayer F} (h : .precomposition p ∈ a.layers)
      (hv : ¬ (AnyLayer.precomposition p).Hidden) : Animation.Uses a p.refId
  | asset {n : String} {q : PrecompAsset F} {p : PrecompositionLayer F} (hn : Animation.Uses a n)
      (hq : a.lastAsset n = some (.precomposition q)) (h : .precomposition p ∈ q.layers)
      (hv : ¬ (AnyLayer.precomposition p).Hidden) : Animation.Uses a p.refId

end Velato.Schema
