import Verif.Model.Schema

/-!
# Hidden shapes
-/

namespace Velato.Schema

section
variable {F : Type}

/-- The common attributes of a shape. -/
def AnyShape.element : AnyShape F → GraphicElement F
  | .group g _ _ _ => g
  | .rectangle s => s.shape.graphicElement
  | .ellipse s => s.shape.graphicElement
  | .transform s => s.graphicElement
  | .stroke s => s.shapeStyle.graphicElement
  | .puckerBloat s => s.modifier
  | .merge s => s.graphicElement
  | .repeater s => s.modifier
  | .offsetPath s => s.modifier
  | .fill s => s.shapeStyle.graphicElement
  | .trim s => s.modifier
  | .path s => s.shape.graphicElement
  | .gradientFill s => s.shapeStyle.graphicElement
  | .gradientStroke s => s.shapeStyle.graphicElement
  | .twist s => s.modifier
  | .roundedCorners s => s.modifier
  | .polyStar s => s.shape.graphicElement

/-- The shape is marked as hidden (`hd`). -/
def AnyShape.isHidden (s : AnyShape F) : Bool := s.element.hidden == some true

/-- The kinds of shapes velato does not implement. -/
def AnyShape.isUnsupported : AnyShape F → Bool
  | .puckerBloat _ | .merge _ | .repeater _ | .offsetPath _ | .twist _ | .roundedCorners _ => true
  | _ => false

mutual
/-- The shape without the hidden shapes in it. -/
def AnyShape.dropHidden : AnyShape F → AnyShape F
  | .group g n items i => .group g n (AnyShape.dropHiddenAll items) i
  | s => s

/-- The shapes that are not hidden, without the hidden shapes in them. -/
def AnyShape.dropHiddenAll : List (AnyShape F) → List (AnyShape F)
  | [] => []
  | s :: ss =>
    if s.isHidden then AnyShape.dropHiddenAll ss
    else s.dropHidden :: AnyShape.dropHiddenAll ss
end

mutual
/-- Hidden shapes in the shape are of kinds velato does not implement. -/
def AnyShape.HiddenUnsupported : AnyShape F → Prop
  | .group _ _ items _ => AnyShape.HiddenUnsupportedAll items
  | _ => True

/-- Hidden shapes in the list, at any depth, are of kinds velato does not implement. -/
def AnyShape.HiddenUnsupportedAll : List (AnyShape F) → Prop
  | [] => True
  | s :: ss => (s.isHidden = true → s.isUnsupported = true) ∧ s.HiddenUnsupported ∧
      AnyShape.HiddenUnsupportedAll ss
end

/-- The layer without hidden shapes. -/
def AnyLayer.dropHidden : AnyLayer F → AnyLayer F
  | .shape l => .shape { l with shapes := AnyShape.dropHiddenAll l.shapes }
  | l => l

/-- The animation without hidden shapes. -/
def Animation.dropHidden (a : Animation F) : Animation F :=
  { a with
    layers := a.layers.map AnyLayer.dropHidden
    assets := a.assets.map (List.map fun
      | .precomposition p => .precomposition { p with layers := p.layers.map AnyLayer.dropHidden }
      | .image i => .image i) }

/-- The shapes of a shape layer. -/
def AnyLayer.shapes : AnyLayer F → List (AnyShape F)
  | .shape l => l.shapes
  | _ => []

end
end Velato.Schema
