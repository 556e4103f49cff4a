import Verif.Spec.Still
import Verif.Proofs.SameAt

/-!
# Pictures that do not move: helper lemmas
-/

namespace Velato
open FloatOps (lit)

section
variable {F : Type} [FloatOps F] [Libm F] [Kurbo F]

mutual
theorem Shape.Still.sameAt (fr fr' : F) : ∀ s : Shape F, s.Still → Shape.SameAt fr fr' s s
  | .group ss t, h => by
    unfold Shape.Still at h
    refine .group (Shape.StillAll.sameAt fr fr' ss h.1) ?_
    cases t with
    | none => rfl
    | some gt =>
      unfold groupParams
      dsimp only
      rw [(h.2 gt rfl).1 fr fr', (h.2 gt rfl).2 fr fr']
  | .geometry g, h => by unfold Shape.Still at h; exact .geometry (h fr fr')
  | .draw d, h => by
    unfold Shape.Still at h
    refine .draw ?_ (h.2.1 fr fr') (h.2.2 fr fr')
    cases hs : d.stroke with
    | none => rfl
    | some s => exact congrArg some (h.1 s hs fr fr')
  | .repeater r, h => by unfold Shape.Still at h; exact .repeater (h fr fr')
  | .trim t, h => by unfold Shape.Still at h; exact .trim (h fr fr')

theorem Shape.StillAll.sameAt (fr fr' : F) :
    ∀ ss : List (Shape F), Shape.StillAll ss → Shape.SameAtAll fr fr' ss ss
  | [], _ => .nil
  | s :: ss, h => by
    unfold Shape.StillAll at h
    exact .cons (Shape.Still.sameAt fr fr' s h.1) (Shape.StillAll.sameAt fr fr' ss h.2)
end

theorem Layer.Still.sameAt {R : String → F → F → Prop} {fr fr' : F} {l : Layer F} (h : l.Still)
    (hv : l.SameVisible fr fr')
    (hR : ∀ name tr, l.content = .instance name tr → R name (l.assetFrame fr) (l.assetFrame fr')) :
    Layer.SameAt R fr fr' l l where
  name := rfl
  parent := rfl
  visible := by
    unfold FRange.contains
    rw [Bool.eq_iff_iff, Bool.and_eq_true, Bool.and_eq_true]
    exact hv
  transform := h.transform fr fr'
  opacity := h.opacity fr fr'
  masks := by
    have hm := h.masks
    generalize l.masks = ms at hm
    induction ms with
    | nil => exact .nil
    | cons m ms ih => exact .cons (hm m (by simp) fr fr') (ih fun m hm' => hm m (by simp [hm']))
  isMask := rfl
  maskLayer := rfl
  content := by
    cases hc : l.content with
    | none => exact .none hc hc
    | «instance» name tr => exact .inst hc hc (hR name tr hc)
    | shape ss => exact .shape hc hc (Shape.StillAll.sameAt fr fr' ss (h.shapes ss hc))

theorem still_layers {R : String → F → F → Prop} {fr fr' : F} {ls : List (Layer F)}
    (h : ∀ l ∈ ls, l.Still) (hv : SameVisibleAll R ls fr fr') :
    List.Forall₂ (Layer.SameAt R fr fr') ls ls := by
  induction ls with
  | nil => exact .nil
  | cons l ls ih =>
    refine .cons ?_ (ih (fun l hl => h l (by simp [hl])) fun l hl => hv l (by simp [hl]))
    obtain ⟨h1, h2⟩ := hv l (by simp)
    exact (h l (by simp)).sameAt h1 h2

end
end Velato
