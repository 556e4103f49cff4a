import Verif.Proofs.Ended
import Verif.Proofs.DoublePrecision
import Verif.Spec.ExampleDoc

/-!
# C137 — after the last keyframe nothing moves
-/

namespace Velato
open FloatOps (lit)

section
variable [Kurbo F64] [Libm F64]

/-- **C137.** Take two frames after all keyframes of a document: every keyframe of every layer is at a finite time before
both frames, the same layers are shown at both, and the same holds, at the frames at which assets are shown, for the
layers of the assets.  Then `append` does the same at both: same calls, same panics, same non-termination. -/
theorem C137_after {a : Schema.Animation F64} {c : Composition F64} (hc : Import.convAnimation a = .ok c) {fr fr' : F64}
    (h : Ended F64.isFin a a.layers fr fr') {r : Renderer F64} (hr : Reachable r) (n : Nat) (T : Affine F64) (al : F64) :
    Renderer.append n r c fr T al = Renderer.append n r c fr' T al :=
  append_atRest hc h.atRest hr n T al

end

/-- A rotation with keyframes at the frames 1 and 3. -/
def exTurn : Schema.FloatValue F64 :=
  ⟨none, some .true, none, none, .animatedValue
    [⟨⟨lit 1, none, none, none⟩, [lit 0], none⟩, ⟨⟨lit 3, none, none, none⟩, [lit 90], none⟩]⟩

/-- A layer that turns between the frames 1 and 3. -/
def exTurningLayer : Schema.AnyLayer F64 :=
  let v : Schema.VisualLayer F64 := exVisual "z" none
  exShapeDoc { v with transform := { v.transform with rotation := some (.rotation exTurn) } }

/-- A document with such a layer, and with an asset with such a layer, which starts at frame 4. -/
def exTurningDoc : Schema.Animation F64 :=
  { exDoc with
    layers := [exTurningLayer, .precomposition ⟨exVisual "instance" (some 5), "b", lit 20, lit 30, lit 4, none⟩]
    assets := some [.precomposition ⟨⟨"b", ⟨none, none⟩⟩, [exTurningLayer], none, none⟩] }

instance (l : Schema.AnyLayer F64) (fr : F64) : Decidable (l.EndedAt F64.isFin fr) := by
  unfold Schema.AnyLayer.EndedAt
  infer_instance

instance (l : Schema.AnyLayer F64) (fr : F64) : Decidable (l.ShownAt fr) := by
  unfold Schema.AnyLayer.ShownAt
  infer_instance

/-- The document can be imported, and the hypothesis of `C137_after` is met at the frames 8 and 9, at which the asset is
shown at its frames 4 and 5. -/
theorem exTurningDoc_ended [Kurbo F64] [Libm F64] : (∃ c, Import.convAnimation exTurningDoc = .ok c) ∧
    Ended F64.isFin exTurningDoc exTurningDoc.layers (lit 8) (lit 9) := by
  refine ⟨⟨_, rfl⟩, .mk (by decide +kernel) (by decide +kernel) ?_⟩
  intro q hq p hp hid
  have hq' : q = ⟨exVisual "instance" (some 5), "b", lit 20, lit 30, lit 4, none⟩ := by
    simp only [exTurningDoc, exTurningLayer, exShapeDoc, List.mem_cons, List.not_mem_nil, or_false, reduceCtorEq,
      false_or, Schema.AnyLayer.precomposition.injEq] at hq
    exact hq
  have hp' : p = ⟨⟨"b", ⟨none, none⟩⟩, [exTurningLayer], none, none⟩ := by
    simpa [exTurningDoc] using hp
  subst hq' hp'
  refine .mk (by decide +kernel) (by decide +kernel) ?_
  intro q hq
  simp [exTurningLayer, exShapeDoc] at hq

/-- Between its keyframes the layer does turn: at frame 2 it has not yet the rotation it has at frame 3 and later. -/
example [Kurbo F64] : ¬ exTurningLayer.EndedAt F64.isFin (lit 2) ∧
    (Import.convScalar exTurn).toOption.map (fun v => v.evaluate (lit 4)) = some (lit 90) := by
  exact ⟨by decide +kernel, by kernel_decide⟩

end Velato
