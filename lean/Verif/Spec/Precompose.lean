import Verif.Spec.Render
import Verif.Spec.Import

/-!
# Specification: moving layers into a precomposition

Used by the statements of C87.
-/

namespace Velato
variable {F : Type}

/-- The call without the position of the layer that is announced. -/
def Op.anonymous : Op F → Op F
  | .beginGroup name _ => .beginGroup name 0
  | op => op

/-- The composition whose layers are moved into a new asset, of which `l` is an instance. -/
def Composition.precompose (c : Composition F) (name : String) (l : Layer F) : Composition F :=
  { c with layers := [l], assets := c.assets ++ [(name, c.layers)] }

/-- No layer refers to the asset. -/
def Composition.Fresh (c : Composition F) (name : String) : Prop :=
  ∀ l, (l ∈ c.layers ∨ ∃ e ∈ c.assets, l ∈ e.2) → ∀ tr, l.content ≠ .instance name tr

/-- An instance of the asset that is visible at the frame, in the same place, with the same opacity
and the same time. -/
structure Layer.PlainInstance [FloatOps F] [Libm F] [Kurbo F] (l : Layer F) (name : String)
    (fr : F) : Prop where
  content : ∃ tr, l.content = .instance name tr
  frames : l.frames.contains fr = true
  transform : l.transform.evaluate fr = Affine.identity
  opacity : l.opacity.evaluate fr = FloatOps.lit 100
  stretch : l.stretch = FloatOps.lit 1
  start : l.startFrame = FloatOps.lit 0
  masks : l.masks = []
  matte : l.maskLayer = none
  notMatte : l.isMask = false
  parent : l.parent = none

namespace Schema
variable [FloatOps F]
open FloatOps (lit)

/-- A static property. -/
def staticValue {S : Type} (s : S) : AnimatedProperty F S := ⟨none, none, none, none, .static s⟩

/-- An instance of the asset `id` from frame `start` to `stop`, with a neutral transform. -/
def plainInstance (name id : String) (start stop : F) : PrecompositionLayer F where
  visualLayer :=
    { layer :=
        { visualObject := ⟨some name, none⟩, threeDimensional := none, hidden := none,
          layerType := 0, index := none, parentIndex := none, timeStretch := none,
          inPoint := start, outPoint := stop, startTime := none }
      matteMode := none, matteTarget := none, masksProperties := none
      transform :=
        { anchorPoint := none
          position := .position ⟨none, none, none, none, .static [lit 0, lit 0]⟩
          scale := some ⟨staticValue [lit 100, lit 100], none⟩
          rotation := some (.rotation (staticValue (lit 0)))
          skew := none, skewAxis := none, opacity := none }
      rotateToMatch := none, matteLayerIndex := none, hasMask := none, motionBlur := none
      blendMode := none, cssClass := none, id := none, tagName := none
      transformBeforeMaskDeprecated := none, transformBeforeMask := none }
  refId := id
  width := lit 0
  height := lit 0
  startTime := lit 0
  timeRemap := none

/-- The document whose layers are moved into the new asset `id`, of which there is one instance. -/
def Animation.precompose (a : Animation F) (name id : String) : Animation F :=
  { a with
    layers := [.precomposition (plainInstance name id a.inPoint a.outPoint)]
    assets := some (a.assetList ++ [.precomposition ⟨⟨id, ⟨none, none⟩⟩, a.layers, none, none⟩]) }

omit [FloatOps F] in
/-- No layer of the document refers to the asset. -/
def Animation.Fresh (a : Animation F) (id : String) : Prop :=
  ∀ p, (.precomposition p ∈ a.layers ∨
    ∃ q, .precomposition q ∈ a.assetList ∧ .precomposition p ∈ q.layers) → p.refId ≠ id

end Schema
end Velato
