import Verif.Spec.Scene
import Verif.Props.Balance
import Verif.Props.Ignored

/-!
# C65, C67 — rendering to a vello scene
-/

namespace Velato
open FloatOps (lit)
open Import

section
variable {F : Type} [FloatOps F] [Libm F] [Kurbo F]

theorem sceneCalls_iff {r : Renderer F} {c : Composition F} {fr : F} {T : Affine F} {al : F}
    {sops : List (SceneOp F)} :
    SceneCalls r c fr T al sops ↔
      ∃ r' ops, AppendCalls r c fr T al r' ops ∧ sops = ops.flatMap Op.toScene := by
  constructor
  · rintro ⟨fuel, r', h⟩
    obtain ⟨⟨r1, ops⟩, h1, h⟩ := bind_ok h
    cases h
    exact ⟨_, ops, ⟨fuel, h1⟩, rfl⟩
  · rintro ⟨r', ops, ⟨fuel, h⟩, rfl⟩
    refine ⟨fuel, r', ?_⟩
    unfold Renderer.renderToScene
    rw [h]
    rfl

omit [FloatOps F] [Libm F] [Kurbo F] in
theorem sceneDepth_nest (ops : List (Op F)) (st st' : List Open) (h : nest st ops = some st') :
    sceneDepth (st.count .layer) (ops.flatMap Op.toScene) = some (st'.count .layer) := by
  induction ops generalizing st with
  | nil => cases h; rfl
  | cons op ops ih =>
    rw [List.flatMap_cons]
    cases op with
    | pushLayer b a t s =>
      have := ih (.layer :: st) h
      rwa [List.count_cons_self] at this
    | pushClip t s =>
      have := ih (.layer :: st) h
      rwa [List.count_cons_self] at this
    | draw s t b p => cases s <;> exact ih st h
    | beginGroup n i =>
      have := ih (.group :: st) h
      rwa [List.count_cons_of_ne (by decide)] at this
    | pop =>
      match st, h with
      | .layer :: st, h => rw [List.count_cons_self]; exact ih st h
      | .group :: st, h => exact nomatch h
      | [], h => exact nomatch h
    | endGroup =>
      match st, h with
      | .group :: st, h => rw [List.count_cons_of_ne (by decide)]; exact ih st h
      | .layer :: st, h => exact nomatch h
      | [], h => exact nomatch h

/-- **C67.** The layers pushed on the scene are balanced: every pop closes a layer and all are
closed at the end. -/
theorem C67_balanced {r : Renderer F} (hr : Reachable r) {c : Composition F} {fr : F}
    {T : Affine F} {al : F} {sops : List (SceneOp F)} (h : SceneCalls r c fr T al sops) :
    sceneDepth 0 sops = some 0 := by
  obtain ⟨r', ops, ha, rfl⟩ := sceneCalls_iff.mp h
  exact sceneDepth_nest ops [] [] (C27_balanced hr ha)

/-- **C67.** The scene paints what the renderer draws, in the same order: strokes with the stroke's
style, everything else filled. -/
theorem C67_paints {r : Renderer F} {c : Composition F} {fr : F} {T : Affine F} {al : F}
    {sops : List (SceneOp F)} :
    SceneCalls r c fr T al sops → ∃ r' ops, AppendCalls r c fr T al r' ops ∧
      sops.filterMap SceneOp.painted = ops.filterMap Op.painted := by
  intro h
  obtain ⟨r', ops, ha, rfl⟩ := sceneCalls_iff.mp h
  refine ⟨r', ops, ha, ?_⟩
  clear h ha
  induction ops with
  | nil => rfl
  | cons op ops ih =>
    rw [List.flatMap_cons, List.filterMap_append, ih]
    cases op with
    | draw s t b p => cases s <;> rfl
    | _ => rfl

/-- **C67.** The scene is clipped to the rectangle of the composition, from the first call to the
last. -/
theorem C67_clip {r : Renderer F} (hr : Reachable r) {c : Composition F} {fr : F}
    {T : Affine F} {al : F} {sops : List (SceneOp F)} (h : SceneCalls r c fr T al sops) :
    ∃ rule mid, sops = SceneOp.pushClip rule T (.rect (lit 0) (lit 0) (FloatOps.ofUsize c.width)
        (FloatOps.ofUsize c.height)) :: mid ++ [SceneOp.pop] ∧ sceneDepth 0 mid = some 0 := by
  obtain ⟨r', ops, ha, rfl⟩ := sceneCalls_iff.mp h
  obtain ⟨mid, rfl, hmid⟩ := C28_clip hr ha
  refine ⟨.nonZero, mid.flatMap Op.toScene, ?_, sceneDepth_nest mid [] [] hmid⟩
  rw [List.flatMap_append, List.flatMap_cons]
  rfl

/-- **C67.** A scene is obtained exactly when an append returns normally. -/
theorem C67_exists {r : Renderer F} {c : Composition F} {fr : F} {T : Affine F}
    {al : F} : (∃ sops, SceneCalls r c fr T al sops) ↔ ∃ r' ops, AppendCalls r c fr T al r' ops := by
  constructor
  · rintro ⟨sops, h⟩
    obtain ⟨r', ops, h, -⟩ := sceneCalls_iff.mp h
    exact ⟨r', ops, h⟩
  · rintro ⟨r', ops, h⟩
    exact ⟨_, sceneCalls_iff.mpr ⟨r', ops, h, rfl⟩⟩

/-- **C65** (part that holds).  Fills and clips use the non-zero winding rule, as documents ask for
whose fills all have this rule.  Missing: the even-odd rule, for which the property is false
(`C65_counterexample`). -/
theorem C65_nonzero_partial {r : Renderer F} {c : Composition F} {fr : F} {T : Affine F} {al : F}
    {sops : List (SceneOp F)} (h : SceneCalls r c fr T al sops) {op : SceneOp F} (hop : op ∈ sops) :
    op.rule = none ∨ op.rule = some .nonZero := by
  obtain ⟨r', ops, ha, rfl⟩ := sceneCalls_iff.mp h
  obtain ⟨o, -, ho⟩ := List.mem_flatMap.mp hop
  cases o with
  | draw s t b p =>
    cases s with
    | none => exact .inr (List.mem_singleton.mp ho ▸ rfl)
    | some s => exact .inl (List.mem_singleton.mp ho ▸ rfl)
  | pushLayer => exact .inr (List.mem_singleton.mp ho ▸ rfl)
  | pushClip => exact .inr (List.mem_singleton.mp ho ▸ rfl)
  | pop => exact .inl (List.mem_singleton.mp ho ▸ rfl)
  | beginGroup => cases ho
  | endGroup => cases ho

end

section
variable [Kurbo F64] [Libm F64]

/-- **C65** is false of the code: a document with an even-odd fill is imported like the same
document with a non-zero fill, so their scenes are the same, and the triangles are filled. -/
theorem C65_counterexample :
    convAnimation (exAttrDoc (F := F64) [exTriangleShape, exFillWith none (some .evenOdd)] [] none)
      = convAnimation (exAttrDoc (F := F64) [exTriangleShape, exFillWith none (some .nonZero)] []
        none) ∧
    (((docCalls (exAttrDoc (F := F64) [exTriangleShape, exFillWith none (some .evenOdd)] [] none)
      (lit 3)).map fun ops => (ops.flatMap Op.toScene).map SceneOp.rule).toOption)
      = some [some .nonZero, some .nonZero, some .nonZero, none] := by
  constructor
  · exact C66_import rfl
  · kernel_decide

/-- The example composition gives a scene: the hypotheses above are met. -/
example : ∃ sops, SceneCalls (F := F64) Renderer.new exComp (lit 1) Affine.identity (lit 1) sops := by
  obtain ⟨r', ops, h, -⟩ := exComp_renders
  exact ⟨_, sceneCalls_iff.mpr ⟨r', ops, h, rfl⟩⟩

end
end Velato
