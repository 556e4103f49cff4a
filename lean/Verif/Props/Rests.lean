import Verif.Props.Ended

/-!
# C138 — nothing moves while every property rests
-/

set_option exponentiation.threshold 2000

namespace Velato
open FloatOps (lit)

/-- **C138.** Take two frames of a document such that every property of every layer is, at both, well before its first
keyframe, or after all its keyframes, or held by the same keyframe; such that the same layers are shown at both; and such
that this also holds, at the frames at which assets are shown, for the layers of the assets.  Then `append` does the same
at both frames: same calls, same panics, same non-termination.  Missing from the full claim: stops of gradients that are
held, which move (`C50_counterexample`, `C135_counterexample`). -/
theorem C138_rest_partial [Kurbo F64] [Libm F64] {a : Schema.Animation F64} {c : Composition F64}
    (hc : Import.convAnimation a = .ok c) {fr fr' : F64} (h : AtRest F64.isFin a a.layers fr fr') {r : Renderer F64}
    (hr : Reachable r) (n : Nat) (T : Affine F64) (al : F64) :
    Renderer.append n r c fr T al = Renderer.append n r c fr' T al :=
  append_atRest hc h hr n T al

/-- A rotation which jumps at the frames 1, 5 and 7. -/
def exJump : Schema.FloatValue F64 :=
  ⟨none, some .true, none, none, .animatedValue
    [⟨⟨lit 1, some .true, none, none⟩, [lit 0], none⟩, ⟨⟨lit 5, some .true, none, none⟩, [lit 90], none⟩,
     ⟨⟨lit 7, some .true, none, none⟩, [lit 45], none⟩]⟩

/-- A layer with this rotation. -/
def exJumpingLayer : Schema.AnyLayer F64 :=
  let v : Schema.VisualLayer F64 := exVisual "z" none
  exShapeDoc { v with transform := { v.transform with rotation := some (.rotation exJump) } }

/-- A document with such a layer, and with an asset with such a layer, which starts at frame 4. -/
def exJumpingDoc : Schema.Animation F64 :=
  { exDoc with
    layers := [exJumpingLayer, .precomposition ⟨exVisual "instance" (some 5), "b", lit 20, lit 30, lit 4, none⟩]
    assets := some [.precomposition ⟨⟨"b", ⟨none, none⟩⟩, [exJumpingLayer], none, none⟩] }

/-- The keyframes of the layer: those of its rotation. -/
theorem exJumpingLayer_tracks : ∀ t ∈ exJumpingLayer.tracks, t.gradient = false ∧ (t.keyframes = [] ∨ t.keyframes =
    [⟨lit 1, some .true, none, none⟩, ⟨lit 5, some .true, none, none⟩, ⟨lit 7, some .true, none, none⟩]) := by
  decide +kernel

theorem exJumpingLayer_rests {fr fr' : F64} (h : ∀ t : Schema.Track F64, t.gradient = false → t.keyframes =
    [⟨lit 1, some .true, none, none⟩, ⟨lit 5, some .true, none, none⟩, ⟨lit 7, some .true, none, none⟩] →
      t.Rests F64.isFin fr fr') : ∀ t ∈ exJumpingLayer.tracks, t.Rests F64.isFin fr fr' := by
  intro t ht
  obtain ⟨hg, h' | h'⟩ := exJumpingLayer_tracks t ht
  · exact .inr (.inl ⟨by unfold Schema.Track.Over; rw [h']; simp, by unfold Schema.Track.Over; rw [h']; simp⟩)
  · exact h t hg h'

/-- The document can be imported, and the hypothesis of `C138_rest_partial` is met at the frames 5 and 6, at which the
layer is held by the second keyframe, and the asset is shown at its frames 1 and 2, at which its layer is held by the
first keyframe. -/
theorem exJumpingDoc_atRest [Kurbo F64] [Libm F64] : (∃ c, Import.convAnimation exJumpingDoc = .ok c) ∧
    AtRest F64.isFin exJumpingDoc exJumpingDoc.layers (lit 5) (lit 6) := by
  refine ⟨⟨_, rfl⟩, .mk (fun l hm => ?_) (by decide +kernel) ?_⟩
  · rcases List.mem_cons.mp hm with rfl | hm
    · exact exJumpingLayer_rests fun t hg h => .inr (.inr ⟨hg, .mk (pre := [_]) (post := [_]) h rfl (by decide +kernel)
        (by decide +kernel) (by decide +kernel)⟩)
    · obtain rfl := List.mem_singleton.mp hm
      have he : ∀ t ∈ (Schema.AnyLayer.precomposition
          ⟨exVisual "instance" (some 5), "b", lit 20, lit 30, lit 4, none⟩ : Schema.AnyLayer F64).tracks,
          t.keyframes = [] := by decide +kernel
      intro t ht
      exact .inr (.inl ⟨by unfold Schema.Track.Over; rw [he t ht]; simp, by unfold Schema.Track.Over; rw [he t ht]; simp⟩)
  intro q hq p hp hid
  have hq' : q = ⟨exVisual "instance" (some 5), "b", lit 20, lit 30, lit 4, none⟩ := by
    simp only [exJumpingDoc, exJumpingLayer, exShapeDoc, List.mem_cons, List.not_mem_nil, or_false, reduceCtorEq,
      false_or, Schema.AnyLayer.precomposition.injEq] at hq
    exact hq
  have hp' : p = ⟨⟨"b", ⟨none, none⟩⟩, [exJumpingLayer], none, none⟩ := by
    simpa [exJumpingDoc] using hp
  subst hq' hp'
  refine .mk (fun l hm => ?_) (by decide +kernel) ?_
  · obtain rfl := List.mem_singleton.mp hm
    exact exJumpingLayer_rests fun t hg h => .inr (.inr ⟨hg, .mk (pre := []) (post := [_, _]) h rfl (by decide +kernel)
        (by decide +kernel) (by decide +kernel)⟩)
  · intro q hq
    simp [exJumpingLayer, exShapeDoc] at hq

/-- The same layer without hold flags would not have begun at the frames 0 and 1/2. -/
example : Schema.Track.Early F64.isFin ⟨[⟨lit 1, none, none, none⟩, ⟨lit 5, none, none, none⟩], true⟩ (lit 0) ∧
    Schema.Track.Early F64.isFin ⟨[⟨lit 1, none, none, none⟩, ⟨lit 5, none, none, none⟩], true⟩ (lit (1 / 2)) :=
  ⟨.mk rfl (by decide +kernel) (by decide +kernel) (by decide +kernel),
    .mk rfl (by decide +kernel) (by decide +kernel) (by decide +kernel)⟩

/-- The layer does move: its rotation is 0 at frame 4, 90 at the frames 5 and 6, and 45 at frame 8. -/
example [Kurbo F64] : (Import.convScalar exJump).toOption.map (fun v => [lit 4, lit 5, lit 6, lit 8].map v.evaluate) =
    some [lit 0, lit 90, lit 90, lit 45] := by
  kernel_decide

end Velato
