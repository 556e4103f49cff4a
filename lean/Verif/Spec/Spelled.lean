import Verif.Model.Schema

/-!
# Writing out what a document leaves out
-/

namespace Velato.Schema
open FloatOps (lit)

section
variable {F : Type}

/-- Left out, the flag that says that a shape is closed is false. -/
def Bezier.spell (b : Bezier F) : Bezier F := { b with closed := some (b.closed.getD false) }

/-- Likewise in a keyframe, in all its shapes. -/
def ShapeKeyframe.spell (k : ShapeKeyframe F) : ShapeKeyframe F :=
  { k with start := k.start.map (List.map Bezier.spell), stop := k.stop.map (List.map Bezier.spell) }

/-- Likewise in a path. -/
def ShapeProperty.spell (p : ShapeProperty F) : ShapeProperty F :=
  { p with value := match p.value with
      | .static b => .static b.spell
      | .animated ks => .animated (ks.map ShapeKeyframe.spell) }

/-- Strokes have these joins and caps if they do not say. -/
def BaseStroke.spell (s : BaseStroke F) (j : LineJoin) (c : LineCap) : BaseStroke F :=
  { s with lineJoin := some (s.lineJoin.getD j), lineCap := some (s.lineCap.getD c) }

/-- Gradients are linear if they do not say. -/
def BaseGradient.spell (g : BaseGradient F) : BaseGradient F := { g with gradientType := some (g.gradientType.getD .linear) }

variable [FloatOps F]

/-- A number that does not change. -/
def FloatValue.plain (x : F) : FloatValue F := ⟨none, none, none, none, .static x⟩

/-- Left out, the anchor is the origin, skew and skew axis are 0 and the opacity is 100. -/
def Transform.spell (t : Transform F) : Transform F :=
  { t with
    anchorPoint := some (t.anchorPoint.getD ⟨none, none, none, none, .static [lit 0, lit 0]⟩)
    skew := some (t.skew.getD (FloatValue.plain (lit 0)))
    skewAxis := some (t.skewAxis.getD (FloatValue.plain (lit 0)))
    opacity := some (t.opacity.getD (FloatValue.plain (lit 100))) }

/-- In a group, the rotation is 0, too. -/
def Transform.spellGroup (t : Transform F) : Transform F :=
  { t.spell with rotation := some (t.rotation.getD (.rotation (FloatValue.plain (lit 0)))) }

/-- Left out, the inner radius and the inner roundness of stars are 0. -/
def PolyStarShape.spell (s : PolyStarShape F) : PolyStarShape F :=
  { s with
    innerRadius := some (s.innerRadius.getD (FloatValue.plain (lit 0)))
    innerRoundness := some (s.innerRoundness.getD (FloatValue.plain (lit 0))) }

mutual
/-- Everything above in a shape.  Plain strokes have bevel joins and butt caps, strokes with gradients round ones. -/
def AnyShape.spell : AnyShape F → AnyShape F
  | .group e n items i => .group e n (AnyShape.spellAll items) i
  | .transform s => .transform { s with transform := s.transform.spellGroup }
  | .stroke s => .stroke { s with baseStroke := s.baseStroke.spell .bevel .butt }
  | .path s => .path { s with shapeProperty := s.shapeProperty.spell }
  | .gradientFill s => .gradientFill { s with gradient := s.gradient.spell }
  | .gradientStroke s => .gradientStroke { s with baseStroke := s.baseStroke.spell .round .round, gradient := s.gradient.spell }
  | .polyStar s => .polyStar s.spell
  | s => s

/-- All shapes of a list. -/
def AnyShape.spellAll : List (AnyShape F) → List (AnyShape F)
  | [] => []
  | s :: ss => s.spell :: AnyShape.spellAll ss
end

/-- Left out, the opacity of a mask is 100. -/
def Mask.spell (m : Mask F) : Mask F :=
  { m with shape := m.shape.map ShapeProperty.spell, opacity := some (m.opacity.getD (FloatValue.plain (lit 100))) }

/-- Left out, the name of a layer is empty, its number and its start time are 0, its stretch is 1, its blend mode is normal, it has
no masks, it is not hidden, and it is not a matte. -/
def VisualLayer.spell (v : VisualLayer F) : VisualLayer F :=
  { v with
    layer := { v.layer with
      visualObject := { v.layer.visualObject with name := some (v.layer.visualObject.name.getD "") }
      hidden := some (v.layer.hidden.getD false)
      index := some (v.layer.index.getD 0)
      timeStretch := some (v.layer.timeStretch.getD (lit 1))
      startTime := some (v.layer.startTime.getD (lit 0)) }
    matteTarget := some (v.matteTarget.getD .false)
    masksProperties := some ((v.masksProperties.getD []).map Mask.spell)
    transform := v.transform.spell
    blendMode := some (v.blendMode.getD .normal) }

/-- The layer with all this written out. -/
def AnyLayer.spell : AnyLayer F → AnyLayer F
  | .precomposition l => .precomposition { l with visualLayer := l.visualLayer.spell }
  | .solid l => .solid { l with visualLayer := l.visualLayer.spell }
  | .shape l => .shape ⟨l.visualLayer.spell, AnyShape.spellAll l.shapes⟩
  | .null l => .null l.spell
  | .image l => .image { l with visualLayer := l.visualLayer.spell }

/-- The asset with all this written out. -/
def AnyAsset.spell : AnyAsset F → AnyAsset F
  | .precomposition p => .precomposition { p with layers := p.layers.map AnyLayer.spell }
  | .image i => .image i

/-- The document with all this written out; left out, the list of assets is empty. -/
def Animation.spell (a : Animation F) : Animation F :=
  { a with assets := some ((a.assets.getD []).map AnyAsset.spell), layers := a.layers.map AnyLayer.spell }

end
end Velato.Schema
