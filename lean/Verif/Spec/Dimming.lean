import Verif.Spec.Tame

/-!
# Vocabulary: how opaque fills and strokes are meant to be

Opacities of the document are in percent.  The numbers here are factors, and exact: the values that the properties have
at the frame, without any further rounding.
-/

namespace Velato
open Import

section
variable [Kurbo F64]

/-- The transform is meant to multiply the opacity by `k`: by its own opacity, or by 1 if it has none. -/
def Schema.Transform.Fades (v : Schema.Transform F64) (frame : F64) (k : ℝ) : Prop :=
  match v.opacity with
  | none => k = 1
  | some p => ∃ o, ScalarAt p frame o ∧ k = o.toR / 100

/-- A group is meant to multiply the opacity by `k`; if it has no transform, by 1. -/
def GroupFades (frame : F64) : Option (Schema.TransformShape F64) → ℝ → Prop
  | none, k => k = 1
  | some t, k => t.transform.Fades frame k

/-- `s` is one of the shapes, or in a group of them, and so on, in `n` groups one in the other, which are meant to
multiply its opacity by `f`. -/
inductive FadedInGroups (frame : F64) : List (Schema.AnyShape F64) → Schema.AnyShape F64 → ℝ → Nat → Prop where
  | here {ss s} (h : s ∈ ss) : FadedInGroups frame ss s 1 0
  | group {ss e nm items i s k f n} (h : .group e nm items i ∈ ss) (hk : GroupFades frame (groupTransform items) k)
      (hs : FadedInGroups frame items s f n) : FadedInGroups frame ss s (k * f) (n + 1)

/-- `s` is a shape of one of the layers, or of the asset that it shows, and so on; `n` layers and groups, one in the
other, are meant to multiply its opacity by `f`.  When the layers are at `frame`, then `s` is at `frame'`. -/
inductive FadedIn (a : Schema.Animation F64) :
    List (Schema.AnyLayer F64) → F64 → F64 → Schema.AnyShape F64 → ℝ → Nat → Prop where
  | shape {ls frame q s k f n} (h : .shape q ∈ ls) (hk : (Schema.AnyLayer.shape q).visual.transform.Fades frame k)
      (hs : FadedInGroups frame q.shapes s f n) : FadedIn a ls frame frame s (k * f) (n + 1)
  | instance {ls frame frame' q p s k f n} (h : .precomposition q ∈ ls)
      (hk : (Schema.AnyLayer.precomposition q).visual.transform.Fades frame k) (hp : .precomposition p ∈ a.assetList)
      (hid : p.asset.id = q.refId) (hs : FadedIn a p.layers (q.time frame) frame' s f n) : FadedIn a ls frame frame' s (k * f) (n + 1)

/-- The brush that a fill or stroke has at a frame, and its own opacity.  Gradients are fully opaque (C54). -/
inductive Declares [Libm F64] (frame : F64) : Schema.AnyShape F64 → Brush F64 → ℝ → Prop where
  | fill {s o} (ho : ScalarAt s.shapeStyle.opacity frame o) :
      Declares frame (.fill s) (.solid ((convColor s.color).evaluateOr frame invisible)) (o.toR / 100)
  | stroke {s o} (ho : ScalarAt s.shapeStyle.opacity frame o) :
      Declares frame (.stroke s) (.solid ((convColor s.strokeColor).evaluateOr frame invisible)) (o.toR / 100)
  | gradientFill {s b} (h : GradientAt s.gradient frame b) : Declares frame (.gradientFill s) b 1
  | gradientStroke {s b} (h : GradientAt s.gradient frame b) : Declares frame (.gradientStroke s) b 1

end

/-- The same colour, but with the opacity multiplied by `k`, up to an error of `e`. -/
def Color.FadedBy (e k : ℝ) (c c' : Color F64) : Prop :=
  c'.r = c.r ∧ c'.g = c.g ∧ c'.b = c.b ∧ c'.a.isFin = true ∧ |c'.a.toR - c.a.toR * k| ≤ e

/-- The same brush, but with all opacities multiplied by `k`, up to an error of `e`. -/
def Brush.FadedBy (e k : ℝ) : Brush F64 → Brush F64 → Prop
  | .solid c, .solid c' => c.FadedBy e k c'
  | .gradient g stops, .gradient g' stops' =>
    g' = g ∧ List.Forall₂ (fun s s' => s'.offset = s.offset ∧ s.color.FadedBy e k s'.color) stops stops'
  | _, _ => False

end Velato
