import Verif.Spec.Accuracy
import Verif.Spec.DocDraws

/-!
# Vocabulary: documents with moderate numbers that are not nested too deeply

Depth counts the matrices that are multiplied: those of layers, of their parents, and of groups.
-/

namespace Velato

/-- All entries of the matrix are finite and at most `B` in magnitude. -/
def Affine.AtMost (B : ℝ) (m : Affine F64) : Prop :=
  m.a.Between (-B) B ∧ m.b.Between (-B) B ∧ m.c.Between (-B) B ∧ m.d.Between (-B) B ∧ m.e.Between (-B) B ∧
    m.f.Between (-B) B

/-- A transform with moderate numbers and an opacity from 0 to 100. -/
def Schema.Transform.Tame (v : Schema.Transform F64) : Prop :=
  v.Moderate ∧ ∀ p, v.opacity = some p → ScalarWithin 0 100 p

/-- The numbers of a colour are from 0 to 1; if it is animated, it has a keyframe and all handles are in the unit
square. -/
def ColorWithin (p : Schema.ColorValue F64) : Prop :=
  match p.value with
  | .static xs => ∀ x ∈ xs, x.Between 0 1
  | .animatedValue ks => ks ≠ [] ∧ ∀ k ∈ ks, k.base.HandlesInUnitSquare ∧ ∀ x ∈ k.value, x.Between 0 1

/-- A gradient with start and end points up to 8000 whose numbers (offsets, channels, opacities) are from 0 to 1; if
any of this is animated, it has a keyframe and all handles are in the unit square. -/
def GradientWithin (g : Schema.BaseGradient F64) : Prop :=
  VectorWithin (-8000) 8000 (-8000) 8000 g.startPoint ∧ VectorWithin (-8000) 8000 (-8000) 8000 g.endPoint ∧
    ColorWithin g.colors.colors.animatedProperty

/-- Colours from 0 to 1, opacities from 0 to 100, stroke widths up to 8000. -/
def Schema.AnyShape.TamePaint : Schema.AnyShape F64 → Prop
  | .fill s => ColorWithin s.color ∧ ScalarWithin 0 100 s.shapeStyle.opacity
  | .stroke s => ColorWithin s.strokeColor ∧ ScalarWithin 0 100 s.shapeStyle.opacity ∧
      ScalarWithin 0 8000 s.baseStroke.width
  | .gradientFill s => GradientWithin s.gradient
  | .gradientStroke s => GradientWithin s.gradient ∧ ScalarWithin 0 8000 s.baseStroke.width
  | _ => True

/-- Shapes with moderate numbers whose groups are nested at most so many deep. -/
def ShapesTame : Nat → List (Schema.AnyShape F64) → Prop
  | 0, ss => ∀ s ∈ ss, s.TamePaint ∧ ∀ e n items i, s ≠ .group e n items i
  | d + 1, ss => ∀ s ∈ ss, s.TamePaint ∧ ∀ e n items i, s = .group e n items i →
      (∀ t, groupTransform items = some t → t.transform.Tame) ∧ ShapesTame d items

/-- The layer has at most so many layers above it in its chain of parents. -/
def ParentsAtMost (ls : List (Schema.AnyLayer F64)) : Nat → Schema.AnyLayer F64 → Prop
  | 0, l => ∀ id j, l.visual.layer.parentIndex = some id →
      ¬ LastPosition (ls.map Schema.AnyLayer.ident) id (some j)
  | n + 1, l => ∀ id j p, l.visual.layer.parentIndex = some id →
      LastPosition (ls.map Schema.AnyLayer.ident) id (some j) → ls[j]? = some p → ParentsAtMost ls n p

/-- Layers with moderate numbers, nested at most `n` deep, where `depth` bounds the depth of the assets. -/
def LayersTame (depth : String → Nat) (n : Nat) (ls : List (Schema.AnyLayer F64)) : Prop :=
  ∀ l ∈ ls, l.visual.transform.Tame ∧ ∃ k, ParentsAtMost ls k l ∧ k + 1 ≤ n ∧
    (∀ q, l = .shape q → ∃ g, ShapesTame g q.shapes ∧ k + 1 + g ≤ n) ∧
    ∀ q, l = .precomposition q → k + 1 + depth q.refId ≤ n

/-- A document with moderate numbers, nested at most `n` deep. -/
def Schema.Animation.Tame (a : Schema.Animation F64) (n : Nat) : Prop :=
  ∃ depth : String → Nat, LayersTame depth n a.layers ∧
    ∀ p, .precomposition p ∈ a.assetList → LayersTame depth (depth p.asset.id) p.layers

/-- The opacity and the channels of a colour are between 0 and 1, but for `10⁻⁹` below 0. -/
def Color.Tame (c : Color F64) : Prop :=
  c.a.Between (-(1 / 10 ^ 9)) 1 ∧ c.r.Between (-(1 / 10 ^ 9)) 1 ∧ c.g.Between (-(1 / 10 ^ 9)) 1 ∧
    c.b.Between (-(1 / 10 ^ 9)) 1

/-- The points of a gradient are finite, and so is its radius. -/
def GradientKind.Tame : GradientKind F64 → Prop
  | .linear p q => p.AtMost 8001 ∧ q.AtMost 8001
  | .radial p r => p.AtMost 8001 ∧ r.Between (-(1 / 10 ^ 9)) 32768

/-- A solid colour is as above, and so are the colours of all stops of a gradient; their offsets are between 0 and 1,
but for `10⁻⁹` below 0. -/
def Brush.Tame : Brush F64 → Prop
  | .solid c => c.Tame
  | .gradient kind stops => kind.Tame ∧ ∀ s ∈ stops, s.offset.Between (-(1 / 10 ^ 9)) 1 ∧ s.color.Tame

/-- The matrix of the call is finite; so is the width of a stroke, and the brush is as above. -/
def Op.Tame : Op F64 → Prop
  | .draw stroke T brush _ => T.Finite ∧ (∀ k, stroke = some k → k.width.isFin = true) ∧ brush.Tame
  | .pushClip T _ => T.Finite
  | .pushLayer _ _ T _ => T.Finite
  | _ => True

end Velato
