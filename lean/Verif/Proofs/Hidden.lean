import Verif.Spec.Hidden
import Verif.Proofs.NormalMatte

/-!
# Import of documents whose hidden shapes are unsupported
-/

namespace Velato
open FloatOps (lit)
open Import

section
variable {F : Type} [FloatOps F] [Libm F] [Kurbo F]

theorem convShape_unsupported {s : Schema.AnyShape F} (h : s.isUnsupported = true) :
    convShape s = .ok none := by
  cases s <;> first | (unfold convShape; rfl) | cases h

mutual
theorem convShape_dropHidden (s : Schema.AnyShape F) (h : s.HiddenUnsupported) :
    convShape s.dropHidden = convShape s := by
  match s with
  | .group g n items i =>
    unfold Schema.AnyShape.HiddenUnsupported at h
    unfold Schema.AnyShape.dropHidden convShape
    simp only [convDraw, convGeometry, convGroupItems_dropHidden items h]
  | .rectangle s | .ellipse s | .transform s | .stroke s | .puckerBloat s | .merge s | .repeater s
  | .offsetPath s | .fill s | .trim s | .path s | .gradientFill s | .gradientStroke s | .twist s
  | .roundedCorners s | .polyStar s => unfold Schema.AnyShape.dropHidden; rfl

theorem convGroupItems_dropHidden (ss : List (Schema.AnyShape F))
    (h : Schema.AnyShape.HiddenUnsupportedAll ss) (t : Option (GroupTransform F)) :
    convGroupItems (Schema.AnyShape.dropHiddenAll ss) t = convGroupItems ss t := by
  match ss with
  | [] => unfold Schema.AnyShape.dropHiddenAll; rfl
  | s :: ss =>
    unfold Schema.AnyShape.HiddenUnsupportedAll at h
    obtain ⟨h1, h2, h3⟩ := h
    unfold Schema.AnyShape.dropHiddenAll
    have ih1 := convShape_dropHidden s h2
    have ih2 := fun t => convGroupItems_dropHidden ss h3 t
    by_cases hh : s.isHidden = true
    · rw [if_pos hh, ih2]
      have hu := h1 hh
      have hc := convShape_unsupported hu
      cases s with
      | transform tr => cases hu
      | _ =>
        conv => rhs; unfold convGroupItems
        simp only [hc]
        show _ = (convGroupItems ss t >>= fun x => Except.ok (x.1, x.2))
        cases convGroupItems ss t <;> rfl
    · rw [if_neg hh]
      cases s with
      | transform tr =>
        unfold Schema.AnyShape.dropHidden convGroupItems
        simp only [ih2]
      | _ =>
        unfold Schema.AnyShape.dropHidden at ih1 ⊢
        unfold convGroupItems
        simp only [ih2, ih1]
end

theorem convShapes_dropHidden (ss : List (Schema.AnyShape F))
    (h : Schema.AnyShape.HiddenUnsupportedAll ss) :
    convShapes (Schema.AnyShape.dropHiddenAll ss) = convShapes ss := by
  induction ss with
  | nil => unfold Schema.AnyShape.dropHiddenAll; rfl
  | cons s ss ih =>
    unfold Schema.AnyShape.HiddenUnsupportedAll at h
    obtain ⟨h1, h2, h3⟩ := h
    have ih := ih h3
    unfold Schema.AnyShape.dropHiddenAll
    unfold convShapes at ih ⊢
    rw [mapM_cons']
    by_cases hh : s.isHidden = true
    · rw [if_pos hh, ih, convShape_unsupported (h1 hh)]
      cases ss.mapM convShape <;> rfl
    · rw [if_neg hh, mapM_cons', convShape_dropHidden s h2]
      cases convShape s with
      | error e => rfl
      | ok o =>
        revert ih
        cases ss.mapM convShape <;>
          cases (Schema.AnyShape.dropHiddenAll ss).mapM convShape <;> intro ih
        · exact ih
        · cases ih
        · cases ih
        · have ih := Except.ok.inj ih
          show Except.ok _ = Except.ok _
          rw [List.flatMap_cons, List.flatMap_cons, ih]

theorem processLayers_dropHidden (ls : List (Schema.AnyLayer F))
    (h : ∀ l ∈ ls, Schema.AnyShape.HiddenUnsupportedAll l.shapes) :
    processLayers (ls.map Schema.AnyLayer.dropHidden) = processLayers ls := by
  unfold processLayers
  have : ∀ l ∈ ls, convLayer l.dropHidden = (convLayer l).map id := by
    intro l hl
    have hid : ∀ x : Except Fault (Layer F × LayerSetupParams), x.map id = x := by
      intro x; cases x <;> rfl
    rw [hid]
    have hc := h l hl
    cases l with
    | shape l =>
      unfold convLayer
      have : layerContent (Schema.AnyLayer.shape l).dropHidden = layerContent (.shape l) := by
        show (convShapes (Schema.AnyShape.dropHiddenAll l.shapes)).map _ = (convShapes l.shapes).map _
        rw [convShapes_dropHidden l.shapes hc]
      rw [this]
      rfl
    | _ => rfl
  rw [mapM_map_eq convLayer _ id ls this]
  cases ls.mapM convLayer with
  | error e => rfl
  | ok es => show Except.ok _ = Except.ok _; simp

end
end Velato
