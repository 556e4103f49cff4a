import Verif.Spec.LumaMatte
import Verif.Proofs.Ignored

/-!
# Import does not tell luma mattes from alpha mattes
-/

namespace Velato
open FloatOps (lit)
open Import

variable {F : Type} [FloatOps F] [Kurbo F] [Libm F]

omit [FloatOps F] [Kurbo F] [Libm F] in
theorem forall₂_append_left {α β : Type} {R : α → β → Prop} {l1 l2 : List α} {m : List β}
    (h : List.Forall₂ R (l1 ++ l2) m) :
    ∃ m1 m2, List.Forall₂ R l1 m1 ∧ List.Forall₂ R l2 m2 ∧ m = m1 ++ m2 := by
  induction l1 generalizing m with
  | nil => exact ⟨[], m, .nil, h, rfl⟩
  | cons x l1 ih =>
    cases h with
    | cons hx h =>
      obtain ⟨m1, m2, h1, h2, rfl⟩ := ih h
      exact ⟨_ :: m1, m2, .cons hx h1, h2, rfl⟩

theorem setupLayer_alphaForLuma (v : Schema.VisualLayer F) (w h st : F) :
    setupLayer v.alphaForLuma w h st = setupLayer v w h st := by
  have hm : ∀ m : Option Schema.MatteMode,
      (m.map Schema.MatteMode.alphaForLuma).map convMatteMode = m.map convMatteMode := by
    intro m
    cases m with
    | none => rfl
    | some m => cases m <;> rfl
  unfold setupLayer Schema.VisualLayer.alphaForLuma
  dsimp only
  rw [hm]

theorem convLayer_alphaForLuma (l : Schema.AnyLayer F) : convLayer l.alphaForLuma = convLayer l := by
  have hs : layerSetup l.alphaForLuma = layerSetup l := by
    cases l <;> exact setupLayer_alphaForLuma _ _ _ _
  have hh : isLayerHidden l.alphaForLuma = isLayerHidden l := by cases l <;> rfl
  have hc : layerContent l.alphaForLuma = layerContent l := by cases l <;> rfl
  unfold convLayer
  rw [hs, hh, hc]

theorem processLayers_alphaForLuma (ls : List (Schema.AnyLayer F)) :
    processLayers (ls.map Schema.AnyLayer.alphaForLuma) = processLayers ls := by
  unfold processLayers
  rw [mapM_strip _ _ _ convLayer_alphaForLuma]

theorem convAnimation_alphaForLuma (a : Schema.Animation F) :
    convAnimation a.alphaForLuma = convAnimation a := by
  have ha : ∀ x : Schema.AnyAsset F, convAsset x.alphaForLuma = convAsset x := by
    intro x
    cases x with
    | image i => rfl
    | precomposition p =>
      unfold Schema.AnyAsset.alphaForLuma convAsset
      dsimp only
      rw [processLayers_alphaForLuma]
  unfold convAnimation
  rw [show a.alphaForLuma.layers = a.layers.map Schema.AnyLayer.alphaForLuma from rfl,
    processLayers_alphaForLuma]
  rw [show a.alphaForLuma.assets = a.assets.map (List.map Schema.AnyAsset.alphaForLuma) from rfl]
  cases a.assets with
  | none => rfl
  | some as =>
    dsimp only [Option.map_some, Option.getD_some]
    rw [mapM_strip _ _ _ ha]
    rfl

end Velato
