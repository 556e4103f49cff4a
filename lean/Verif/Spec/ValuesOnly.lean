import Verif.Spec.DocDraws

/-!
# Specification: two documents that are the same at a frame

The documents may be written quite differently: all that is asked for is that the things they describe have the same
values at one frame.  The values are those of Spec/DocDraws.
-/

namespace Velato
open FloatOps (lit)

section
variable {F : Type} [FloatOps F] [Libm F] [Kurbo F]

mutual
/-- The shapes are of the same kind and the same at the frame: figures with the same outline, whatever they are; fills or
strokes that paint in the same way; trims with the same values; groups with the same matrix and opacity, of shapes that are
the same. -/
inductive ShapeSame (fr : F) : Schema.AnyShape F → Schema.AnyShape F → Prop where
  | geometry {s s'} (hs : s.IsGeometry) (hs' : s'.IsGeometry) (h : ∀ els, OutlineAt fr s els ↔ OutlineAt fr s' els) :
      ShapeSame fr s s'
  | paint {s s'} (hs : s.IsPaint) (hs' : s'.IsPaint) (h : ∀ alpha p, PaintOf alpha fr p s ↔ PaintOf alpha fr p s') :
      ShapeSame fr s s'
  | trim {s s'} (h : ∀ t, TrimAt fr s t ↔ TrimAt fr s' t) : ShapeSame fr (.trim s) (.trim s')
  | group {e n items i e' n' items' i'}
      (ht : ∀ M k, GroupAt fr (groupTransform items) M k ↔ GroupAt fr (groupTransform items') M k)
      (hi : ShapesSame fr items items') : ShapeSame fr (.group e n items i) (.group e' n' items' i')

/-- The shapes are the same one by one, not counting those which the code does not look at. -/
inductive ShapesSame (fr : F) : List (Schema.AnyShape F) → List (Schema.AnyShape F) → Prop where
  | nil : ShapesSame fr [] []
  | cons {s s' ss ss'} (h : ShapeSame fr s s') (hs : ShapesSame fr ss ss') : ShapesSame fr (s :: ss) (s' :: ss')
  | left {s ss ss'} (h : s.IsIgnored) (hs : ShapesSame fr ss ss') : ShapesSame fr (s :: ss) ss'
  | right {s' ss ss'} (h : s'.IsIgnored) (hs : ShapesSame fr ss ss') : ShapesSame fr ss (s' :: ss')
end

/-- The layers have the same name, number, parent and matte, are both there at the frame or both not, have the same matrix and
opacity at the frame, and masks that are the same at the frame. -/
structure LayerSame (fr : F) (l l' : Schema.AnyLayer F) : Prop where
  name : l.visual.layer.visualObject.name.getD "" = l'.visual.layer.visualObject.name.getD ""
  ident : l.ident = l'.ident
  parent : l.visual.layer.parentIndex = l'.visual.layer.parentIndex
  matte : l.Matte ↔ l'.Matte
  matteMode : l.visual.matteMode = l'.visual.matteMode
  matteLayer : l.visual.matteLayerIndex = l'.visual.matteLayerIndex
  during : l.During fr ↔ l'.During fr
  placed : ∀ M o, LayerAt fr l M o ↔ LayerAt fr l' M o
  masks : ∀ T ops, MasksDrawn fr T (l.visual.masksProperties.getD []) ops ↔
    MasksDrawn fr T (l'.visual.masksProperties.getD []) ops

/-- The asset that the layer shows: the last one with the id it refers to. -/
def Schema.Animation.Shows (a : Schema.Animation F) (q : Schema.PrecompositionLayer F)
    (p : Schema.PrecompAsset F) : Prop :=
  ∃ i : Nat, a.assetList[i]? = some (.precomposition p) ∧ p.asset.id = q.refId ∧
    ∀ (j : Nat) p', i < j → a.assetList[j]? = some (.precomposition p') → p'.asset.id ≠ q.refId

/-- The layer shows nothing: it is hidden, or of a kind that shows nothing, or shows an asset that does not exist. -/
def Schema.Animation.Blank (a : Schema.Animation F) (l : Schema.AnyLayer F) : Prop :=
  l.Hidden ∨ ((∀ q, l ≠ .shape q) ∧ ∀ q, l ≠ .precomposition q) ∨
    ∃ q, l = .precomposition q ∧ ∀ p, .precomposition p ∈ a.assetList → p.asset.id ≠ q.refId

mutual
/-- The layers are the same one by one, and those which are there at the frame show the same. -/
inductive LayersSame (a a' : Schema.Animation F) : List (Schema.AnyLayer F) → List (Schema.AnyLayer F) → F → Prop where
  | mk {ls ls' fr} (layers : List.Forall₂ (LayerSame fr) ls ls')
      (contents : ∀ l l', (l, l') ∈ ls.zip ls' → l.During fr → ContentSame a a' fr l l') : LayersSame a a' ls ls' fr

/-- The layers show the same at the frame: they are equal and the documents have the same assets, or they show nothing, or
shapes that are the same, or assets, whatever they are called, whose
layers are the same at the frame at which they are shown. -/
inductive ContentSame (a a' : Schema.Animation F) : F → Schema.AnyLayer F → Schema.AnyLayer F → Prop where
  | equal {fr l} (h : a.assetList = a'.assetList) : ContentSame a a' fr l l
  | blank {fr l l'} (h : a.Blank l) (h' : a'.Blank l') : ContentSame a a' fr l l'
  | shapes {fr q q'} (hv : ¬ (Schema.AnyLayer.shape q).Hidden) (hv' : ¬ (Schema.AnyLayer.shape q').Hidden)
      (h : ShapesSame fr q.shapes q'.shapes) : ContentSame a a' fr (.shape q) (.shape q')
  | instance {fr q q' p p'} (hv : ¬ (Schema.AnyLayer.precomposition q).Hidden)
      (hv' : ¬ (Schema.AnyLayer.precomposition q').Hidden) (hp : a.Shows q p) (hp' : a'.Shows q' p')
      (ht : q.time fr = q'.time fr) (h : LayersSame a a' p.layers p'.layers (q.time fr)) :
      ContentSame a a' fr (.precomposition q) (.precomposition q')
end

end
end Velato
