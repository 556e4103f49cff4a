import Verif.Spec.Forget
import Verif.Model.Render

/-!
# Rendering does not look at what `forget` drops
-/

namespace Velato
open FloatOps (lit)

section
variable {F : Type} [FloatOps F] [Libm F] [Kurbo F]

theorem chaseParents_forget (ls : List (Layer F)) (frame : F) (n : Nat) (p : Option Nat)
    (t : Affine F) : chaseParents (ls.map Layer.forget) frame n p t = chaseParents ls frame n p t := by
  induction n generalizing p t with
  | zero => cases p <;> rfl
  | succ n ih =>
    cases p with
    | none => rfl
    | some i =>
      unfold chaseParents
      rw [List.getElem?_map]
      cases ls[i]? with
      | none => rfl
      | some l => exact ih _ _

theorem computeTransform_forget (ls : List (Layer F)) (l : Layer F) (g : Affine F) (frame : F) :
    computeTransform (ls.map Layer.forget) l.forget g frame = computeTransform ls l g frame := by
  unfold computeTransform
  rw [chaseParents_forget, List.length_map]
  rfl

theorem renderMasks_forget (t : Affine F) (frame : F) (ms : List (Mask F)) (els : List (PathEl F)) :
    renderMasks t frame (ms.map Mask.forget) els = renderMasks t frame ms els := by
  induction ms generalizing els with
  | nil => rfl
  | cons m ms ih =>
    rw [List.map_cons]
    unfold renderMasks
    simp only [ih]
    rfl

omit [Libm F] [Kurbo F] in
theorem asset_forget (c : Composition F) (name : String) :
    c.forget.asset name = (c.asset name).map (List.map Layer.forget) := by
  unfold Composition.asset Composition.forget
  dsimp only
  rw [← List.map_reverse, List.find?_map]
  cases h : c.assets.reverse.find? ((fun e => e.1 == name) ∘ fun e => (e.1, e.2.map Layer.forget)) with
  | none =>
    rw [show c.assets.reverse.find? (fun e => e.1 == name) = none from h]; rfl
  | some e =>
    rw [show c.assets.reverse.find? (fun e => e.1 == name) = some e from h]; rfl

omit [FloatOps F] [Libm F] [Kurbo F] in
theorem renderSeq_map {α β : Type} (g : β → α)
    (step : α → Renderer F → Except Fault (Renderer F × List (Op F)))
    (step' : β → Renderer F → Except Fault (Renderer F × List (Op F)))
    (h : ∀ x r, step (g x) r = step' x r) (xs : List β) (r : Renderer F) :
    renderSeq step (xs.map g) r = renderSeq step' xs r := by
  induction xs generalizing r with
  | nil => rfl
  | cons x xs ih =>
    rw [List.map_cons]
    unfold renderSeq
    simp only [h, ih]

theorem renderLayer_forget (c : Composition F) (fuel : Nat) (ls : List (Layer F)) (l : Layer F)
    (i : Nat) (t : Affine F) (alpha frame : F) (r : Renderer F) :
    renderLayer c.forget fuel (ls.map Layer.forget) l.forget i t alpha frame r
      = renderLayer c fuel ls l i t alpha frame r := by
  induction fuel generalizing ls l i t alpha frame r with
  | zero => rfl
  | succ fuel ih =>
    unfold renderLayer renderLayerBody
    have hm : ∀ t alpha r, renderMatte c.forget (renderLayer c.forget fuel) (ls.map Layer.forget)
        l.forget t alpha frame r = renderMatte c (renderLayer c fuel) ls l t alpha frame r := by
      intro t alpha r
      unfold renderMatte
      rw [show l.forget.maskLayer = l.maskLayer from rfl]
      cases l.maskLayer with
      | none => rfl
      | some m =>
        obtain ⟨mode, j⟩ := m
        dsimp only
        rw [List.getElem?_map]
        cases ls[j]? with
        | none => rfl
        | some m => dsimp only [Option.map_some]; rw [ih]; rfl
    have hc : ∀ t alpha r, renderContent c.forget (renderLayer c.forget fuel) l.forget t alpha frame r
        = renderContent c (renderLayer c fuel) l t alpha frame r := by
      intro t alpha r
      unfold renderContent
      rw [show l.forget.content = l.content.forget from rfl]
      cases l.content with
      | none => rfl
      | «instance» name rm =>
        dsimp only [Content.forget]
        rw [asset_forget]
        cases c.asset name with
        | none => rfl
        | some as =>
          dsimp only [Option.map_some]
          rw [← List.map_reverse, List.filter_map]
          exact renderSeq_map Layer.forget _ _ (fun x r => ih as x _ _ _ _ r) _ _
      | shape ss => rfl
    simp only [computeTransform_forget, hm, hc]
    rw [show l.forget.masks = l.masks.map Mask.forget from rfl, List.length_map]
    simp only [renderMasks_forget]
    rfl

theorem append_forget (fuel : Nat) (r : Renderer F) (c : Composition F) (frame : F)
    (t : Affine F) (alpha : F) :
    r.append fuel c.forget frame t alpha = r.append fuel c frame t alpha := by
  unfold Renderer.append
  rw [show c.forget.layers = c.layers.map Layer.forget from rfl, ← List.map_zipIdx,
    ← List.map_reverse, List.filter_map]
  simp only
  rw [renderSeq_map (Prod.map Layer.forget id)]
  · rfl
  · intro x r
    exact renderLayer_forget c fuel _ _ _ _ _ _ _

end
end Velato
