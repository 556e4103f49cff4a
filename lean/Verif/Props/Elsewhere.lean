import Verif.Proofs.ElsewhereDoc
import Verif.Spec.ExampleDoc

/-!
# C139 — a keyframe matters only between its neighbours
-/

namespace Velato
open FloatOps (lit)

/-- **C139.** Take two documents that can be imported and are the same apart from keyframes away from a frame: of each
property, the last keyframe at or before the frame and the one after it are the same (or the last one of all, or the first
two), and the others, before and after, may be different, and more or fewer; and so it is with the layers of the assets,
at the frames at which they are shown.  Then `append` does the same for both documents at that frame: same calls, same
panics, same non-termination.  Missing from the full claim: paths of whose keyframes only those of one document say that
the path is closed, which is then drawn closed at all frames (`C139_counterexample`), and paths with other keyframes some
of which have no shape of their own. -/
theorem C139_elsewhere_partial {F : Type} [FloatOps F] [LawfulCmp F] [Kurbo F] [Libm F] {a a' : Schema.Animation F}
    {c c' : Composition F} (hc : Import.convAnimation a = .ok c) (hc' : Import.convAnimation a' = .ok c')
    (hd : a' = { a with layers := a'.layers, assets := a'.assets })
    (has : List.Forall₂ Schema.AnyAsset.SameBut (a.assets.getD []) (a'.assets.getD [])) {fr : F}
    (h : AgreeAt Schema.aroundFrame a a' a.layers a'.layers fr) {r : Renderer F} (hr : Reachable r) (n : Nat) (T : Affine F) (al : F) :
    Renderer.append n r c fr T al = Renderer.append n r c' fr T al :=
  append_agree hc hc' hd has agreeAt_closed h hr n T al

/-! ### An example -/

/-- A keyframe of a number. -/
def exNumberKey (t v : F64) : Schema.Keyframe F64 := ⟨⟨t, none, none, none⟩, [v], none⟩

/-- A layer with a rotation with these keyframes. -/
def exKeyedLayer (ks : List (Schema.Keyframe F64)) : Schema.AnyLayer F64 :=
  let v : Schema.VisualLayer F64 := exVisual "z" none
  exShapeDoc { v with transform := { v.transform with
    rotation := some (.rotation ⟨none, some .true, none, none, .animatedValue ks⟩) } }

/-- A document with such a layer, and with an asset with such a layer, which starts at frame 4. -/
def exKeyedDoc (ks ls : List (Schema.Keyframe F64)) : Schema.Animation F64 :=
  { exDoc with
    layers := [exKeyedLayer ks, .precomposition ⟨exVisual "instance" (some 5), "b", lit 20, lit 30, lit 4, none⟩]
    assets := some [.precomposition ⟨⟨"b", ⟨none, none⟩⟩, [exKeyedLayer ls], none, none⟩] }

theorem exStatic_agrees {S : Type} (s : S) (R : List (Schema.Keyframe F64) → List (Schema.Keyframe F64) → Prop) :
    Schema.AnimatedProperty.Agrees (Schema.AnimatedPropertyK.Keyed R) (exStatic s : Schema.AnimatedProperty F64 S) (exStatic s) :=
  .static rfl rfl

theorem exVisual_agrees (name : String) (i : Option Nat) (fr : F64) :
    (exVisual name i).Agrees (Schema.aroundFrame fr) (exVisual name i) :=
  ⟨⟨.none, .position (.static rfl rfl), .some (exStatic_agrees _ _), .some (.rotation (exStatic_agrees _ _)), .none, .none,
    .some (exStatic_agrees _ _)⟩, .nil, rfl⟩

theorem exKeyedLayer_agrees {ks ks' : List (Schema.Keyframe F64)} {fr : F64} (h : AgreeAround (·.base.time) fr ks ks') :
    (exKeyedLayer ks).Agrees (Schema.aroundFrame fr) (exKeyedLayer ks') :=
  .shape ⟨⟨.none, .position (.static rfl rfl), .some (exStatic_agrees _ _), .some (.rotation (.animated rfl rfl h)), .none,
    .none, .some (exStatic_agrees _ _)⟩, .nil, rfl⟩
    (.cons (.group (.cons (.ellipse (.static rfl rfl) (exStatic_agrees _ _))
      (.cons (.fill (exStatic_agrees _ _) (exStatic_agrees _ _)) .nil))) .nil)

/-- Keyframes at the frames 1, 5 and 7. -/
def exKeys : List (Schema.Keyframe F64) := [exNumberKey (lit 1) (lit 0), exNumberKey (lit 5) (lit 90), exNumberKey (lit 7) (lit 45)]

/-- Keyframes at the frames 0, 2, 5, 7 and 9: those at 5 and 7 are as above. -/
def exKeys' : List (Schema.Keyframe F64) :=
  [exNumberKey (lit 0) (lit 3), exNumberKey (lit 2) (lit 8), exNumberKey (lit 5) (lit 90), exNumberKey (lit 7) (lit 45), exNumberKey (lit 9) (lit 1)]

/-- Keyframes at the frames 1, 3 and 6. -/
def exInner : List (Schema.Keyframe F64) := [exNumberKey (lit 1) (lit 0), exNumberKey (lit 3) (lit 20), exNumberKey (lit 6) (lit 90)]

/-- The first two as above, and a different third one. -/
def exInner' : List (Schema.Keyframe F64) := [exNumberKey (lit 1) (lit 0), exNumberKey (lit 3) (lit 20), exNumberKey (lit 4) (lit 8)]

/-- The documents can be imported, and the hypotheses of `C139_elsewhere_partial` are met at frame 6, at which the asset
is shown at its frame 2. -/
theorem exKeyedDoc_agree [Kurbo F64] [Libm F64] : (∃ c, Import.convAnimation (exKeyedDoc exKeys exInner) = .ok c) ∧
    (∃ c, Import.convAnimation (exKeyedDoc exKeys' exInner') = .ok c) ∧
    exKeyedDoc exKeys' exInner' = { exKeyedDoc exKeys exInner with
      layers := (exKeyedDoc exKeys' exInner').layers, assets := (exKeyedDoc exKeys' exInner').assets } ∧
    List.Forall₂ Schema.AnyAsset.SameBut ((exKeyedDoc exKeys exInner).assets.getD [])
      ((exKeyedDoc exKeys' exInner').assets.getD []) ∧
    AgreeAt Schema.aroundFrame (exKeyedDoc exKeys exInner) (exKeyedDoc exKeys' exInner') (exKeyedDoc exKeys exInner).layers
      (exKeyedDoc exKeys' exInner').layers (lit 6) := by
  refine ⟨⟨_, rfl⟩, ⟨_, rfl⟩, rfl, .cons (.precomposition rfl) .nil, .mk (.cons (exKeyedLayer_agrees ?_) (.cons
    (.precomposition (exVisual_agrees _ _ _) .none rfl) .nil)) ?_⟩
  · exact .between (pre := [_]) (pre' := [_, _]) (post := []) (post' := [_]) (by decide +kernel) (by decide +kernel)
      (by decide +kernel) (by decide +kernel)
  intro q hq p p' hp hid
  have hq' : q = ⟨exVisual "instance" (some 5), "b", lit 20, lit 30, lit 4, none⟩ := by
    simp only [exKeyedDoc, exKeyedLayer, exShapeDoc, List.mem_cons, List.not_mem_nil, or_false, reduceCtorEq,
      false_or, Schema.AnyLayer.precomposition.injEq] at hq
    exact hq
  have hp' : p = ⟨⟨"b", ⟨none, none⟩⟩, [exKeyedLayer exInner], none, none⟩ ∧
      p' = ⟨⟨"b", ⟨none, none⟩⟩, [exKeyedLayer exInner'], none, none⟩ := by
    simpa [exKeyedDoc] using hp
  obtain ⟨rfl, rfl⟩ := hp'
  subst hq'
  refine .mk (.cons (exKeyedLayer_agrees ?_) .nil) ?_
  · exact .between (pre := []) (pre' := []) (post := [_]) (post' := [_]) (by decide +kernel) (by decide +kernel)
      (by decide +kernel) (by decide +kernel)
  · intro q hq
    simp [exKeyedLayer, exShapeDoc] at hq

/-- The rotation of the two documents is the same at the frame 5, and not at the frame 10. -/
example [Kurbo F64] : (Import.convScalar (⟨none, none, none, none, .animatedValue exKeys⟩ : Schema.FloatValue F64)).toOption.map
      (fun v => [lit 5, lit 10].map v.evaluate) = some [lit 90, lit 45] ∧
    (Import.convScalar (⟨none, none, none, none, .animatedValue exKeys'⟩ : Schema.FloatValue F64)).toOption.map
      (fun v => [lit 5, lit 10].map v.evaluate) = some [lit 90, lit 1] := by
  constructor <;> kernel_decide

/-- The other two cases of keyframes that agree around a frame: after the last one, and before the first one. -/
example : AgreeAround (·.base.time) (lit 8) exKeys [exNumberKey (lit 2) (lit 4), exNumberKey (lit 7) (lit 45)] ∧
    AgreeAround (·.base.time) (lit 0) exInner exInner' :=
  ⟨.last (pre := [_, _]) (pre' := [_]) (by decide +kernel) (by decide +kernel),
    .first (post := [_]) (post' := [_]) (by decide +kernel) (by decide +kernel) (by decide +kernel)⟩

/-! ### Closed paths -/

/-- A line, as a shape which may say that it is closed. -/
def exMaybeClosed (closed : Bool) : Schema.Bezier F64 :=
  ⟨some closed, [(lit 0, lit 0), (lit 8, lit 0), (lit 8, lit 8)], [], []⟩

/-- A path with keyframes at the frames 0, 4 and 8, of which the last may say that it is closed. -/
def exClosing (closed : Bool) : List (Schema.ShapeKeyframe F64) :=
  [⟨⟨lit 0, none, none, none⟩, some [exMaybeClosed false], none⟩,
   ⟨⟨lit 4, none, none, none⟩, some [exMaybeClosed false], none⟩,
   ⟨⟨lit 8, none, none, none⟩, some [exMaybeClosed closed], none⟩]

/-- **C139 is false of the code** for closed paths: if the keyframe at frame 8 says that the path is closed, it is drawn
closed at frame 2 too, between the keyframes at 0 and 4, which say that it is not. -/
theorem C139_counterexample [Kurbo F64] [Libm F64] :
    AgreeAround (·.base.time) (lit 2) (exClosing false) (exClosing true) ∧
    (∀ k ∈ exClosing false ++ exClosing true, ∃ b bs, k.start = some (b :: bs)) ∧
    ∃ g g', Import.convShapeGeometry ⟨none, none, none, .animated (exClosing false)⟩ = .ok (some g) ∧
      Import.convShapeGeometry ⟨none, none, none, .animated (exClosing true)⟩ = .ok (some g') ∧
      g.evaluate (lit 2) = .ok [.moveTo ⟨lit 0, lit 0⟩, .lineTo ⟨lit 8, lit 0⟩, .lineTo ⟨lit 8, lit 8⟩] ∧
      g'.evaluate (lit 2) = .ok [.moveTo ⟨lit 0, lit 0⟩, .lineTo ⟨lit 8, lit 0⟩, .lineTo ⟨lit 8, lit 8⟩,
        .lineTo ⟨lit 0, lit 0⟩, .closePath] := by
  refine ⟨.between (pre := []) (pre' := []) (post := [_]) (post' := [_]) (by decide +kernel) (by decide +kernel)
    (by decide +kernel) (by decide +kernel), ?_, _, _, rfl, rfl, ?_, ?_⟩
  · intro k hk
    simp only [exClosing, List.cons_append, List.nil_append, List.mem_cons, List.not_mem_nil, or_false] at hk
    rcases hk with rfl | rfl | rfl | rfl | rfl | rfl <;> exact ⟨_, _, rfl⟩
  · kernel_decide
  · kernel_decide

end Velato
