import Verif.Proofs.ValuesOnly
import Verif.Props.DocDraws

/-!
# C140 — only what things are at the frame matters
-/

namespace Velato
open FloatOps (lit)
open Import

section
variable {F : Type} [FloatOps F] [LawfulCmp F] [Libm F] [Kurbo F] [KurboPaths F]

/-- **C140.** Take two documents of the same size that can be imported, and that are the same at a frame: their layers have
the same names, numbers, parents and mattes one by one, the same ones are there at the frame, with the same matrices, opacities
and clips, and show the same, shapes or assets, whatever these are called.  Then rendering them at that frame returns for
both or for neither, and makes the same calls.  It makes no difference how the values come about: from which keyframes, from
which kinds of figures, with or without parts that the code does not look at. -/
theorem C140_same {a a' : Schema.Animation F} {c c' : Composition F} (hc : convAnimation a = .ok c)
    (hc' : convAnimation a' = .ok c') (hw : a.width = a'.width) (hh : a.height = a'.height) {fr : F}
    (h : LayersSame a a' a.layers a'.layers fr) {r r' : Renderer F} (hr : Reachable r) {T : Affine F} {al : F}
    {ops : List (Op F)} : AppendCalls r c fr T al r' ops ↔ AppendCalls r c' fr T al r' ops := by
  have area : a.area = a'.area := by unfold Schema.Animation.area; rw [hw, hh]
  rw [C117_calls hc hr, C117_calls hc' hr]
  refine and_congr_right fun _ => ?_
  constructor
  · rintro ⟨per, hper, rfl⟩
    obtain ⟨h1, h2⟩ := h
    exact ⟨per, layers_same area hper _ _ ⟨h1, h2⟩ h1 fun _ hx => hx, by rw [area]⟩
  · rintro ⟨per, hper, rfl⟩
    obtain ⟨h1, h2⟩ := layersSame_symm h
    exact ⟨per, layers_same area.symm hper _ _ ⟨h1, h2⟩ h1 fun _ hx => hx, by rw [area]⟩

end

/-! ## The hypotheses can be met -/

section
variable [Libm F64] [Kurbo F64]

/-- The layer of the example, shown to frame 10; its opacity is 50. -/
def exSteady : Schema.AnyLayer F64 := exShapeDoc (exVisual "a" none)

/-- A layer that is shown to frame 7 only.  Its opacity has keyframes: it is 50 until frame 6.  Among
its shapes is one that the code does not look at. -/
def exVaried : Schema.AnyLayer F64 :=
  let v : Schema.VisualLayer F64 := exVisual "a" none
  .shape ⟨{ v with
    layer := { v.layer with outPoint := lit 7 }
    transform := { v.transform with opacity := some ⟨none, some .true, none, none, .animatedValue
      [⟨⟨lit 1, some .true, none, none⟩, [lit 50], none⟩, ⟨⟨lit 6, none, none, none⟩, [lit 20], none⟩]⟩ } },
    [.group exElement none [exEllipse, .merge ⟨exElement, none⟩, exFillShape] none]⟩

/-- A document that shows the first layer, also as an asset. -/
def exSteadyDoc : Schema.Animation F64 :=
  { exDoc with
    layers := [exSteady, .precomposition ⟨exVisual "instance" (some 5), "b", lit 20, lit 30, lit 1, none⟩]
    assets := some [.precomposition ⟨⟨"b", ⟨none, none⟩⟩, [exSteady], none, none⟩] }

/-- A document that shows the second layer, also as an asset, with another name. -/
def exVariedDoc : Schema.Animation F64 :=
  { exDoc with
    layers := [exVaried, .precomposition ⟨exVisual "instance" (some 5), "c", lit 20, lit 30, lit 1, none⟩]
    assets := some [.precomposition ⟨⟨"c", ⟨none, none⟩⟩, [exVaried], none, none⟩] }

theorem exVaried_same {fr : F64} (h : fr = lit 3 ∨ fr = lit 2) : LayerSame fr exSteady exVaried := by
  refine ⟨rfl, rfl, rfl, Iff.rfl, rfl, rfl, ?_, fun M o => ?_, fun _ _ => Iff.rfl⟩
  · rcases h with rfl | rfl <;>
    · unfold Schema.AnyLayer.During
      kernel_decide
  · have e : ∀ (l : Schema.AnyLayer F64) t v, convTransform l.visual.transform = .ok (t, v) →
        (LayerAt fr l M o ↔ M = t.evaluate fr ∧ o = v.evaluate fr) := by
      intro l t v hl
      constructor
      · rintro ⟨t', v', h, hM, ho⟩
        rw [hl] at h
        cases h
        exact ⟨hM, ho⟩
      · rintro ⟨hM, ho⟩
        exact ⟨t, v, hl, hM, ho⟩
    rw [e exSteady _ _ rfl, e exVaried _ _ rfl]
    have hv : (Value.animated ⟨[⟨lit 1, none, none, true⟩, ⟨lit 6, none, none, false⟩], [lit 50, lit 20]⟩ : Value F64 F64).evaluate fr =
        lit 50 := by
      rcases h with rfl | rfl <;> kernel_decide
    exact and_congr Iff.rfl (iff_of_eq (congrArg (o = ·) hv.symm))

theorem exVaried_shapes (fr : F64) (a a' : Schema.Animation F64) : ContentSame a a' fr exSteady exVaried := by
  refine .shapes (by unfold Schema.AnyLayer.Hidden; decide) (by unfold Schema.AnyLayer.Hidden; decide) (.cons (.group (fun _ _ => Iff.rfl) (.cons (.geometry trivial trivial fun _ => Iff.rfl)
    (.right trivial (.cons (.paint trivial trivial fun _ _ => Iff.rfl) .nil)))) .nil)

/-- The two documents are the same at frame 3, at which their assets are shown at frame 2. -/
theorem exVariedDoc_same : LayersSame exSteadyDoc exVariedDoc exSteadyDoc.layers exVariedDoc.layers (lit 3) := by
  refine .mk (.cons (exVaried_same (.inl rfl)) (.cons ⟨rfl, rfl, rfl, Iff.rfl, rfl, rfl, Iff.rfl, fun _ _ => Iff.rfl,
    fun _ _ => Iff.rfl⟩ .nil)) fun l l' hl _ => ?_
  simp only [exSteadyDoc, exVariedDoc, List.zip_cons_cons, List.zip_nil_right, List.mem_cons, List.not_mem_nil, or_false,
    Prod.mk.injEq] at hl
  rcases hl with ⟨rfl, rfl⟩ | ⟨rfl, rfl⟩
  · exact exVaried_shapes _ _ _
  · refine .instance (by unfold Schema.AnyLayer.Hidden; decide) (by unfold Schema.AnyLayer.Hidden; decide) ⟨0, rfl, rfl, ?_⟩ ⟨0, rfl, rfl, ?_⟩ rfl ?_
    · intro j p' hj hp'
      have : (exSteadyDoc.assetList)[j]? = none := List.getElem?_eq_none (by show 1 ≤ j; omega)
      rw [this] at hp'
      cases hp'
    · intro j p' hj hp'
      have : (exVariedDoc.assetList)[j]? = none := List.getElem?_eq_none (by show 1 ≤ j; omega)
      rw [this] at hp'
      cases hp'
    · refine .mk (.cons (exVaried_same (.inr (by kernel_decide))) .nil) fun l l' hl _ => ?_
      simp only [List.zip_cons_cons, List.zip_nil_right, List.mem_cons, List.not_mem_nil, or_false, Prod.mk.injEq] at hl
      obtain ⟨rfl, rfl⟩ := hl
      exact exVaried_shapes _ _ _

/-- Both documents can be imported and have the same size. -/
example : (∃ c, convAnimation exSteadyDoc = .ok c) ∧ (∃ c, convAnimation exVariedDoc = .ok c) ∧
    exSteadyDoc.width = exVariedDoc.width ∧ exSteadyDoc.height = exVariedDoc.height :=
  ⟨⟨_, rfl⟩, ⟨_, rfl⟩, rfl, rfl⟩

end
end Velato
