import Verif.Proofs.DocConverse
import Verif.Spec.ExampleDoc

/-!
# C117 — what is drawn is what the document says
-/

namespace Velato
open FloatOps (lit)
open Import

section
variable {F : Type} [FloatOps F] [LawfulCmp F] [Libm F] [Kurbo F]

/-- **C117.** If the document is imported and stands for the calls `ops` at a frame, then rendering
it at this frame makes just these calls. -/
theorem C117_drawn [KurboPaths F] {doc : Schema.Animation F} {c : Composition F} (h : convAnimation doc = .ok c)
    {r : Renderer F} (hr : Reachable r) {frame : F} {T : Affine F} {a : F} {ops : List (Op F)}
    (hd : DocumentDrawn doc T a frame ops) : AppendCalls r c frame T a Renderer.new ops := by
  obtain ⟨per, hper, rfl⟩ := hd
  refine (C33_painters_order hr).mpr ⟨rfl, per, ?_, by rw [fullRect_of h]⟩
  exact layers_rendered h hper .root (fun k => by rw [Nat.zero_add]) fun k => by rw [Nat.zero_add]

/-- **C117.** For any document that can be imported:
rendering it at a frame makes the calls `ops` if and only if it stands for them at this frame. -/
theorem C117_calls [KurboPaths F] {doc : Schema.Animation F} {c : Composition F} (h : convAnimation doc = .ok c)
    {r r' : Renderer F} (hr : Reachable r) {frame : F} {T : Affine F}
    {a : F} {ops : List (Op F)} : AppendCalls r c frame T a r' ops ↔
      r' = Renderer.new ∧ DocumentDrawn doc T a frame ops := by
  constructor
  · intro hops
    obtain ⟨rfl, per, hper, rfl⟩ := (C33_painters_order hr).mp hops
    refine ⟨rfl, per, layersDrawn_of ?_ ?_, by rw [fullRect_of h]⟩
    · rw [← hper.length_eq, List.length_zipIdx]
      exact Import.processLayers_length (Import.ImportedList.process h .root)
    · intro k s ops hs hk
      obtain ⟨l, hl⟩ := get_of_length
        (Import.processLayers_length (Import.ImportedList.process h .root)) hs
      obtain ⟨h1, e1⟩ := List.getElem?_eq_some_iff.mp hl
      obtain ⟨h2, e2⟩ := List.getElem?_eq_some_iff.mp hk
      have hkk := (List.forall₂_iff_get.mp hper).2 k (by simpa using h1) h2
      simp only [List.get_eq_getElem, List.getElem_zipIdx, Nat.zero_add] at hkk
      rw [e1, e2] at hkk
      have hf := facts_of h .root hs hl
      constructor
      · intro hm
        rw [hf.isMask.mpr hm] at hkk
        exact hkk
      · intro hm
        rw [if_neg fun hx => hm (hf.isMask.mp hx)] at hkk
        rw [Nat.zero_add]
        exact layerDrawn_of h hkk .root hs hl
  · rintro ⟨rfl, hd⟩
    exact C117_drawn h hr hd

/-- **C117.** A document that can be imported stands for at most one list of calls at a frame. -/
theorem C117_unique [KurboPaths F] {doc : Schema.Animation F} {c : Composition F} (h : convAnimation doc = .ok c)
    {frame : F} {T : Affine F} {a : F} {ops ops' : List (Op F)} (hd : DocumentDrawn doc T a frame ops)
    (hd' : DocumentDrawn doc T a frame ops') : ops = ops' := by
  obtain ⟨n, hn⟩ := C117_drawn h Reachable.new hd
  obtain ⟨m, hm⟩ := C117_drawn h Reachable.new hd'
  exact (append_unique rfl hn hm).2

end

/-! ## A document -/

theorem beq_self (T : Affine ℝ) : T.beq T = true := by
  simp [Affine.beq]

/-- A document with a parent, a matte, a hidden layer and precompositions can be imported. -/
example [Kurbo ℝ] : ∃ c, convAnimation (exDoc (F := ℝ)) = .ok c := ⟨_, rfl⟩

/-- A document of one layer that fills an ellipse with half transparent red, at opacity 50% and
moved by (1, 2). -/
noncomputable def exSmallDoc : Schema.Animation ℝ :=
  { (exDoc : Schema.Animation ℝ) with layers := [exShapeDoc (exVisual "a" none)], assets := none }

theorem exSmallDoc_placed [Kurbo ℝ] :
    LayerAt (3 : ℝ) (exShapeDoc (exVisual "a" none)) ⟨1, 0, 0, 1, 1, 2⟩ 50 := by
  refine ⟨_, _, rfl, ?_, ?_⟩
  · show (⟨1, 0, 0, 1, 1, 2⟩ : Affine ℝ) = AnimTransform.evaluate
      ⟨.fixed ⟨lit 0, lit 0⟩, .value (.fixed ⟨lit 1, lit 2⟩), .fixed (lit 0),
        .fixed ⟨lit 100, lit 100⟩, .fixed (lit 0), .fixed (lit 0)⟩ (lit 0)
    simp [AnimTransform.evaluate, Value.evaluate, Position.evaluate, Affine.mul, Affine.translate,
      Affine.rotate, skewMatrix, Affine.scaleNonUniform, toRadians, Affine.identity]
  · show (50 : ℝ) = lit 50
    simp

/-- What it stands for at frame 3: the ellipse, with opacity 25% in all. -/
theorem exSmallDoc_drawn [Kurbo ℝ] : DocumentDrawn exSmallDoc Affine.identity 1 3
    [.pushClip Affine.identity (.rect 0 0 100 50), .beginGroup "a" 0,
      .draw none ⟨1, 0, 0, 1, 1, 2⟩ (.solid ⟨1, 0, 0, 1 / 4⟩)
        (Kurbo.ellipsePath ⟨5, 5⟩ ⟨2, 3⟩), .endGroup, .pop] := by
  have hl := exSmallDoc_placed
  have he : OutlineAt 3 (exEllipse (F := ℝ)) (Kurbo.ellipsePath ⟨5, 5⟩ ⟨2, 3⟩) := by
    refine ⟨_, rfl, ?_⟩
    show Except.ok (Kurbo.ellipsePath (⟨lit 5, lit 5⟩ : P2 ℝ)
      ⟨lit 4 *. lit (1 / 2), lit 6 *. lit (1 / 2)⟩) = _
    norm_num
  have hp : PaintOf (1 *. 50 /. lit 100 *. lit 1) 3 ⟨none, .solid ⟨1, 0, 0, 1⟩, 1 / 4⟩ (exFillShape (F := ℝ)) := by
    refine ⟨rfl, ?_, 50, ⟨_, rfl, ?_⟩, ?_⟩
    · rw [Color.once_real]
      show Brush.solid (⟨1, 0, 0, 1⟩ : Color ℝ) = .solid ⟨lit 1, lit 0, lit 0, lit 1⟩
      simp
    · show (50 : ℝ) = lit 50
      simp
    · norm_num
  have hg := ItemsDrawn.group (T := Affine.identity.mul ⟨1, 0, 0, 1, 1, 2⟩) (e := exElement)
    (n := none) (i := none) (S := .empty) (items := [exEllipse, exFillShape]) ⟨rfl, rfl⟩
    (.geometry he (.paint hp .nil)) .nil
  refine ⟨[_], .layer ?_ (.plain ?_ (.without rfl) ⟨_, _, hl, .root rfl⟩ hl .nil (.shape ?_ hg))
    .nil, ?_⟩
  · rintro ⟨-, h⟩
    cases h
  · constructor
    · show ((lit 0 : ℝ) <=. 3) = true
      simp
    · show ((3 : ℝ) <. lit 10) = true
      simp
      norm_num
  · intro h
    cases h
  · simp [announced, Schema.Animation.area, Paint.finalBrush, Affine.mul, Affine.identity, exSmallDoc, exDoc, mulF32,
      Sheet.calls, Painting.calls, Sheet.enter, Sheet.leave, Sheet.draw, Sheet.add, Sheet.empty]
    rfl

/-- The same document in double precision, rendered with opacity 0.1: it stands for the ellipse with
the opacity that results from multiplying and dividing in the order given here, each step rounded,
finally to single precision. -/
theorem exSmallDoc64_drawn [Libm F64] [Kurbo F64] (T : Affine F64) :
    ∃ M : Affine F64, LayerAt (lit 3) (exShapeDoc (exVisual "a" none)) M (lit 50) ∧ DocumentDrawn (F := F64)
      { (exDoc : Schema.Animation F64) with
        layers := [exShapeDoc (exVisual "a" none)], assets := none } T (lit (1 / 10)) (lit 3)
      [.pushClip T (.rect (lit 0) (lit 0) (lit 100) (lit 50)), .beginGroup "a" 0,
        .draw none ((T.mul M).mul Affine.identity)
          (.solid ⟨lit 1, lit 0, lit 0,
            FloatOps.toF32 (lit (1 / 10) *. lit 50 /. lit 100 *. lit 1 *. lit 50 /. lit 100)⟩)
          (Kurbo.ellipsePath ⟨lit 5, lit 5⟩ ⟨lit 2, lit 3⟩), .endGroup, .pop] := by
  obtain ⟨M, hl⟩ : ∃ M, LayerAt (F := F64) (lit 3) (exShapeDoc (exVisual "a" none)) M (lit 50) :=
    ⟨_, _, _, rfl, rfl, rfl⟩
  have he : OutlineAt (lit 3) (exEllipse (F := F64)) (Kurbo.ellipsePath ⟨lit 5, lit 5⟩ ⟨lit 2, lit 3⟩) := by
    refine ⟨_, rfl, ?_⟩
    show Except.ok (Kurbo.ellipsePath (⟨lit 5, lit 5⟩ : P2 F64)
      ⟨lit 4 *. lit (1 / 2), lit 6 *. lit (1 / 2)⟩) = _
    rw [show (lit 4 : F64) *. lit (1 / 2) = lit 2 by decide +kernel,
      show (lit 6 : F64) *. lit (1 / 2) = lit 3 by decide +kernel]
  have hp : PaintOf (lit (1 / 10) *. lit 50 /. lit 100 *. lit 1) (lit 3)
      ⟨none, .solid ⟨lit 1, lit 0, lit 0, lit 1⟩,
        lit (1 / 10) *. lit 50 /. lit 100 *. lit 1 *. lit 50 /. lit 100⟩ (exFillShape (F := F64)) := by
    refine ⟨rfl, ?_, lit 50, ⟨_, rfl, rfl⟩, rfl⟩
    show (Brush.solid ⟨lit 1, lit 0, lit 0, lit 1⟩ : Brush F64) = Brush.solid (Color.once
      (⟨FloatOps.toF32 (lit 1), FloatOps.toF32 (lit 0), FloatOps.toF32 (lit 0), lit 1⟩ : Color F64))
    decide +kernel
  have hg := ItemsDrawn.group (F := F64) (T := T.mul M) (e := exElement)
    (n := none) (i := none) (S := .empty) (items := [exEllipse, exFillShape]) (k := lit 1) (M := Affine.identity)
    ⟨rfl, rfl⟩ (.geometry he (.paint hp .nil)) .nil
  refine ⟨M, hl, [_], .layer ?_ (.plain ?_ (.without rfl) ⟨_, _, hl, .root rfl⟩ hl .nil (.shape ?_ hg))
    .nil, ?_⟩
  · rintro ⟨-, h⟩
    cases h
  · exact ⟨by decide +kernel, by decide +kernel⟩
  · intro h
    cases h
  · have hb : Paint.finalBrush (F := F64) ⟨none, .solid ⟨lit 1, lit 0, lit 0, lit 1⟩,
        lit (1 / 10) *. lit 50 /. lit 100 *. lit 1 *. lit 50 /. lit 100⟩ = .solid ⟨lit 1, lit 0, lit 0,
          FloatOps.toF32 (lit (1 / 10) *. lit 50 /. lit 100 *. lit 1 *. lit 50 /. lit 100)⟩ := by
      decide +kernel
    simp only [Sheet.calls, Sheet.enter, Sheet.leave, Sheet.draw, Sheet.add, Sheet.empty]
    rw [← hb]
    rfl

/-- The hypotheses of `C117_drawn` are met, and what it says. -/
example [Kurbo ℝ] [KurboPaths ℝ] : ∃ c, convAnimation exSmallDoc = .ok c ∧
    AppendCalls Renderer.new c 3 Affine.identity 1 Renderer.new
      [.pushClip Affine.identity (.rect 0 0 100 50), .beginGroup "a" 0,
        .draw none ⟨1, 0, 0, 1, 1, 2⟩ (.solid ⟨1, 0, 0, 1 / 4⟩)
          (Kurbo.ellipsePath ⟨5, 5⟩ ⟨2, 3⟩), .endGroup, .pop] :=
  ⟨_, rfl, C117_drawn rfl .new exSmallDoc_drawn⟩

/-- An ellipse of which a trim keeps the part from 25% to 50%, filled: the fill paints what the trim
leaves.  A trim after the fill has the same effect on it. -/
example [Kurbo ℝ] {T : Affine ℝ} {a : ℝ} {p : Paint ℝ} (hp : PaintOf a 3 p exFillShape)
    {els : List (PathEl ℝ)} (he : OutlineAt 3 (exEllipse (F := ℝ)) els) :
    ∃ S S', ItemsDrawn 3 T a [exEllipse, .trim ⟨exElement, exStatic 25, exStatic 50, exStatic 0, none⟩,
      exFillShape] .empty S ∧ S.paintings = [⟨p, [(⟨25, 50, 0⟩ : FixedTrim ℝ).cut ⟨T, els⟩]⟩] ∧
    ItemsDrawn 3 T a [exEllipse, exFillShape,
      .trim ⟨exElement, exStatic 25, exStatic 50, exStatic 0, none⟩] .empty S' ∧
      S'.paintings = S.paintings := by
  have ht : TrimAt (3 : ℝ) ⟨exElement, exStatic 25, exStatic 50, exStatic 0, none⟩ ⟨25, 50, 0⟩ :=
    ⟨⟨_, rfl, rfl⟩, ⟨_, rfl, rfl⟩, ⟨_, rfl, rfl⟩⟩
  refine ⟨_, _, .geometry he (.trim ht (.paint hp .nil)), ?_,
    .geometry he (.paint hp (.trim ht .nil)), ?_⟩ <;>
  simp [Sheet.draw, trim_parts, Sheet.add, Sheet.empty]

/-- Two ellipses, each in a group of its own without a fill of its own, filled afterwards: one outline of
both, since the groups do not move them. -/
example [Kurbo ℝ] {T : Affine ℝ} {a : ℝ} {p : Paint ℝ} (hp : PaintOf a 3 p exFillShape)
    {els : List (PathEl ℝ)} (he : OutlineAt 3 (exEllipse (F := ℝ)) els) :
    ∃ S, ItemsDrawn 3 T a [.group exElement none [exEllipse] none, .group exElement none [exEllipse] none,
      exFillShape] .empty S ∧ S.paintings = [⟨p, [⟨T, els ++ els⟩]⟩] := by
  refine ⟨_, .group (items := [exEllipse]) ⟨rfl, rfl⟩ (.geometry he .nil)
    (.group (items := [exEllipse]) ⟨rfl, rfl⟩
      (.geometry he .nil)
      (.paint hp .nil)), ?_⟩
  have : T.mul Affine.identity = T := by cases T; simp [Affine.mul, Affine.identity]
  have hT := beq_self T
  simp [Sheet.enter, Sheet.leave, Sheet.draw, Sheet.add, Sheet.empty, this, hT]

/-- An ellipse of which a trim leaves nothing, and another one, filled: the first one is there again. -/
example [Kurbo ℝ] {T : Affine ℝ} {a : ℝ} {p : Paint ℝ} (hp : PaintOf a 3 p exFillShape)
    {els : List (PathEl ℝ)} (he : OutlineAt 3 (exEllipse (F := ℝ)) els) :
    ∃ S, ItemsDrawn 3 T a [exEllipse, .trim ⟨exElement, exStatic 40, exStatic 40, exStatic 0, none⟩,
      exEllipse, exFillShape] .empty S ∧ S.paintings = [⟨p, [⟨T, els ++ els⟩]⟩] := by
  have ht : TrimAt (3 : ℝ) ⟨exElement, exStatic 40, exStatic 40, exStatic 0, none⟩ ⟨40, 40, 0⟩ :=
    ⟨⟨_, rfl, rfl⟩, ⟨_, rfl, rfl⟩, ⟨_, rfl, rfl⟩⟩
  refine ⟨_, .geometry he (.trim ht (.geometry he (.paint hp .nil))), ?_⟩
  have hn : (⟨40, 40, 0⟩ : FixedTrim ℝ).normalized = none := by
    simp [FixedTrim.normalized, tiny]
  have hs : ¬ (⟨40, 40, 0⟩ : FixedTrim ℝ).Spares := by
    rintro ⟨_, h, -⟩
    rw [hn] at h
    cases h
  have he : (⟨40, 40, 0⟩ : FixedTrim ℝ).Empties := hn
  simp [Sheet.draw, Sheet.trim, Sheet.add, Sheet.empty, hs, he, FixedTrim.cut, hn, beq_self T]

/-- But if the first one has been filled, then the second one is there alone. -/
example [Kurbo ℝ] {T : Affine ℝ} {a : ℝ} {p : Paint ℝ} (hp : PaintOf a 3 p exFillShape)
    {els : List (PathEl ℝ)} (he : OutlineAt 3 (exEllipse (F := ℝ)) els) :
    ∃ S, ItemsDrawn 3 T a [exEllipse, exFillShape,
      .trim ⟨exElement, exStatic 40, exStatic 40, exStatic 0, none⟩, exEllipse, exFillShape] .empty S ∧
      S.paintings = [⟨p, [⟨T, []⟩]⟩, ⟨p, [⟨T, []⟩, ⟨T, els⟩]⟩] := by
  have ht : TrimAt (3 : ℝ) ⟨exElement, exStatic 40, exStatic 40, exStatic 0, none⟩ ⟨40, 40, 0⟩ :=
    ⟨⟨_, rfl, rfl⟩, ⟨_, rfl, rfl⟩, ⟨_, rfl, rfl⟩⟩
  refine ⟨_, .geometry he (.paint hp (.trim ht (.geometry he (.paint hp .nil)))), ?_⟩
  have hn : (⟨40, 40, 0⟩ : FixedTrim ℝ).normalized = none := by
    simp [FixedTrim.normalized, tiny]
  have hs : ¬ (⟨40, 40, 0⟩ : FixedTrim ℝ).Spares := by
    rintro ⟨_, h, -⟩
    rw [hn] at h
    cases h
  have he : (⟨40, 40, 0⟩ : FixedTrim ℝ).Empties := hn
  simp [Sheet.draw, Sheet.trim, Sheet.add, Sheet.empty, hs, he, FixedTrim.cut, hn, beq_self T]

/-- A layer with an index and a parent. -/
noncomputable def exChild (index parent : Nat) : Schema.AnyLayer ℝ :=
  let v : Schema.VisualLayer ℝ := exVisual "a" (some index)
  exShapeDoc { v with layer := { v.layer with parentIndex := some parent } }

/-- Two layers that are each other's parent, both moved by (1, 2): the parents are followed twice. -/
example [Kurbo ℝ] : PlacedAt [exChild 0 1, exChild 1 0] 3 (exChild 0 1) ⟨1, 0, 0, 1, 3, 6⟩ := by
  have hl : ∀ i j, LayerAt (3 : ℝ) (exChild i j) ⟨1, 0, 0, 1, 1, 2⟩ 50 := fun i j =>
    exSmallDoc_placed
  have h0 : LastPosition ([exChild 0 1, exChild 1 0].map Schema.AnyLayer.ident) 0 (some 0) := by
    refine ⟨rfl, fun j hj => ?_⟩
    match j with
    | 1 => simp [exChild, Schema.AnyLayer.ident, Schema.AnyLayer.visual, exVisual, exShapeDoc]
    | j + 2 => simp
  have h1 : LastPosition ([exChild 0 1, exChild 1 0].map Schema.AnyLayer.ident) 1 (some 1) := by
    refine ⟨rfl, fun j hj => ?_⟩
    match j with
    | j + 2 => simp
  have := PlacedWithin.child (l := exChild 0 1) (M := ⟨1, 0, 0, 1, 1, 2⟩) rfl h1 rfl (hl 1 0)
    (.child (l := exChild 1 0) rfl h0 rfl (hl 0 1) .limit)
  norm_num [Affine.mul] at this
  exact ⟨_, _, hl 0 1, this⟩

end Velato
