import Verif.Proofs.Ended
import Verif.Spec.ExampleDoc

/-!
# C74 — moving a document in time
-/

namespace Velato
open FloatOps (lit)

section
variable [Kurbo ℝ]

/-- **C74.** In exact arithmetic: move every time of a document by `t ↦ α t + β` with `α > 0` (the times of keyframes,
the ranges of the layers and the starts of precompositions, whose stretch is multiplied by `α`).  If the document can be
imported, so can the moved one, and rendering the moved one at the frame `α t + β` does what rendering the first one
at the frame `t` does: same calls, same panics, same non-termination. -/
theorem C74_document {α : ℝ} (hα : 0 < α) (β : ℝ) {a : Schema.Animation ℝ} {c : Composition ℝ}
    (hc : Import.convAnimation a = .ok c) :
    ∃ c', Import.convAnimation (a.retime (fun t => α * t + β) (fun s => α * s)) = .ok c' ∧
      ∀ {r : Renderer ℝ}, Reachable r → ∀ (n : Nat) (fr : ℝ) (T : Affine ℝ) (al : ℝ),
        Renderer.append n r c' (α * fr + β) T al = Renderer.append n r c fr T al := by
  obtain ⟨hca, hp, h1, h2, h3, h4⟩ := Import.convAnimation_ok hc
  have key : ∀ fr : ℝ, Imports (List.Forall₂ (Layer.SameAt (fun _ => Eq) fr (α * fr + β)))
      (Import.processLayers a.layers)
      (Import.processLayers (a.layers.map (Schema.AnyLayer.retime (fun t => α * t + β) (fun s => α * s)))) := by
    intro fr
    refine processLayers_retimed (forall₂_map_right fun s _ => ?_)
    refine layer_retimed (sameLayer_retime _ _ s) (fun tr _ => trackAlike_retime hα tr fr) ?_ ?_
    · have e : ∀ s : Schema.AnyLayer ℝ,
          (Import.visualLayer (s.retime (fun t => α * t + β) (fun s => α * s))).layer.inPoint
            = α * (Import.visualLayer s).layer.inPoint + β ∧
          (Import.visualLayer (s.retime (fun t => α * t + β) (fun s => α * s))).layer.outPoint
            = α * (Import.visualLayer s).layer.outPoint + β := by
        intro s
        cases s <;> exact ⟨rfl, rfl⟩
      unfold shownAt FRange.contains
      dsimp only
      rw [(e s).1, (e s).2]
      simp only [real_le, real_lt, add_le_add_iff_right, add_lt_add_iff_right,
        mul_le_mul_iff_right₀ hα, mul_lt_mul_iff_right₀ hα]
    · rintro l l' rfl e
      cases e
      unfold entered
      dsimp only [Schema.VisualLayer.retime, Schema.LayerBase.retime, Option.getD_some]
      simp only [real_div, real_add, real_neg]
      rw [← add_div, ← add_div, show α * fr + β + -(α * l.startTime + β)
        = α * (fr + -l.startTime) by ring, mul_div_mul_left _ _ hα.ne']
  obtain ⟨ls', hp', -⟩ := key 0 _ hp
  refine ⟨{ c with layers := ls', frames := ⟨α * a.inPoint + β, α * a.outPoint + β⟩ }, ?_, ?_⟩
  · unfold Import.convAnimation
    dsimp only [Schema.Animation.retime]
    rw [show (a.assets.getD []).mapM Import.convAsset = .ok c.assets from mapM_ok_iff.mpr hca, hp']
    show Except.ok _ = Except.ok _
    rw [h2, h3, h4]
  · intro r hr n fr T al
    obtain ⟨ls'', hp'', hls⟩ := key fr _ hp
    obtain rfl := Except.ok.inj (hp'.symm.trans hp'')
    refine (appendCalls_sameAt (c := c)
      (c' := { c with layers := ls', frames := ⟨α * a.inPoint + β, α * a.outPoint + β⟩ }) (R := fun _ => Eq) ⟨rfl, rfl, fun name f f' h => ?_⟩ hls hr.idle n T al).symm
    subst h
    show Option.Rel _ (c.asset name) (c.asset name)
    cases c.asset name with
    | none => exact .none
    | some ls => exact .some (layers_sameAt_refl f ls)

end

/-- The example document can be imported, and moved: `C74_document` has no other hypotheses. -/
example [Kurbo ℝ] : (0 : ℝ) < 2 ∧ (∃ c, Import.convAnimation (exDoc (F := ℝ)) = .ok c) ∧
    Reachable (F := ℝ) Renderer.new :=
  ⟨by norm_num, ⟨_, rfl⟩, .new⟩

/-- The matted layer, shown from frame 0 to 10 and starting at 2, is then shown from frame 3 to 23. -/
example : ((exDoc (F := ℝ)).retime (fun t => 2 * t + 3) (fun s => 2 * s)).layers[4]?.map
    (fun l => (l.base.inPoint, l.base.outPoint, l.base.startTime)) = some (3, 23, some 7) := by
  simp [exDoc, exDocLayers, Schema.Animation.retime, exShapeDoc, Schema.AnyLayer.retime, Schema.AnyLayer.base, exVisual,
    Schema.VisualLayer.retime, Schema.LayerBase.retime]
  norm_num

end Velato
