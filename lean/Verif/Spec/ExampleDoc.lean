import Verif.Model.Import
import Verif.Spec.Import
import Verif.Num.F64
import Verif.Num.KernelDecide

/-!
# A small document used to show that hypotheses can be met
-/

namespace Velato
open FloatOps (lit)

section
variable {F : Type} [FloatOps F]

/-- A property that is not animated. -/
def exStatic {S : Type} (s : S) : Schema.AnimatedProperty F S := ⟨none, none, none, none, .static s⟩

/-- A transform at (x, y). -/
def exDocTransform (x y : F) : Schema.Transform F where
  anchorPoint := none
  position := .position ⟨none, none, none, none, .static [x, y]⟩
  scale := some ⟨exStatic [lit 100, lit 100], none⟩
  rotation := some (.rotation (exStatic (lit 0)))
  skew := none
  skewAxis := none
  opacity := some (exStatic (lit 50))

/-- The attributes of a layer from frame 0 to 10. -/
def exVisual (name : String) (index : Option Nat) : Schema.VisualLayer F where
  layer :=
    { visualObject := ⟨some name, none⟩, threeDimensional := none, hidden := none, layerType := 3,
      index := index, parentIndex := none, timeStretch := none, inPoint := lit 0,
      outPoint := lit 10, startTime := some (lit 2) }
  matteMode := none
  matteTarget := none
  masksProperties := none
  transform := exDocTransform (lit 1) (lit 2)
  rotateToMatch := none
  matteLayerIndex := none
  hasMask := none
  motionBlur := none
  blendMode := none
  cssClass := none
  id := none
  tagName := none
  transformBeforeMaskDeprecated := none
  transformBeforeMask := none

/-- The attributes of a shape that do not matter here. -/
def exElement : Schema.GraphicElement F := ⟨⟨none, none⟩, none, none, none, none, none, none⟩

/-- An ellipse. -/
def exEllipse : Schema.AnyShape F :=
  .ellipse ⟨⟨exElement, none⟩, ⟨none, none, none, none, .static [lit 5, lit 5]⟩,
    ⟨exStatic [lit 4, lit 6], none⟩⟩

/-- A fill. -/
def exFillShape : Schema.AnyShape F :=
  .fill ⟨⟨exElement, exStatic (lit 50)⟩, exStatic [lit 1, lit 0, lit 0], none⟩

/-- A layer that fills an ellipse. -/
def exShapeDoc (v : Schema.VisualLayer F) : Schema.AnyLayer F :=
  .shape ⟨v, [.group exElement none [exEllipse, exFillShape] none]⟩

/-- Six layers: an unused null, a hidden parent with the same index (the last counts), its child, a matte, the layer it
mattes, and an instance of the asset "b". -/
def exDocLayers : List (Schema.AnyLayer F) :=
  [.null (exVisual "unused" (some 1)),
   .null (Schema.VisualLayer.setHidden (some true) (exVisual "parent" (some 1))),
   (let v := exVisual "child" (some 2)
    exShapeDoc { v with layer := { v.layer with parentIndex := some 1, hidden := some false } }),
   exShapeDoc { exVisual "matte" (some 3) with matteTarget := some .true },
   exShapeDoc { exVisual "matted" none with matteMode := some .alpha },
   .precomposition ⟨exVisual "instance" (some 5), "b", lit 20, lit 30, lit 4, none⟩]

/-- A document with the layers above and the asset "b" defined twice. -/
def exDoc : Schema.Animation F where
  visualObject := ⟨none, none⟩
  layers := exDocLayers
  version := none
  ver := none
  frameRate := lit 25
  inPoint := lit 0
  outPoint := lit 10
  width := 100
  height := 50
  threeDimensional := none
  assets := some
    [.precomposition ⟨⟨"b", ⟨none, none⟩⟩, [.null (exVisual "x" none)], none, none⟩,
     .precomposition ⟨⟨"c", ⟨none, none⟩⟩, [exShapeDoc (exVisual "y" none)], none, none⟩,
     .precomposition ⟨⟨"b", ⟨none, none⟩⟩, [exShapeDoc (exVisual "z" (some 7))], none, none⟩]
  markers := none
  metaInfo := none
  metadata := none

end
end Velato
