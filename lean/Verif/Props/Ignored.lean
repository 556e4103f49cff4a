import Verif.Proofs.Hidden
import Verif.Proofs.Ignored
import Verif.Proofs.Forget
import Verif.Proofs.Nest
import Verif.Proofs.LayerSets
import Verif.Proofs.ImportedGeometry
import Verif.Proofs.NoPanic
import Verif.Props.NormalMatte
import Verif.Props.Compositing

/-!
# C62–C66 — attributes that velato does not implement
-/

namespace Velato
open FloatOps (lit)
open Import

section
variable {F : Type} [FloatOps F] [Libm F] [Kurbo F]

/-! ## C66 — unsupported attributes have no effect -/

/-- **C66.** Documents that differ only in the attributes dropped by `strip` (spatial tangents of
positions, expressions, dashes, directions, motion blur, auto-orientation, ...) are imported alike:
either both make the import panic in the same way, or they give the same composition. -/
theorem C66_import {a b : Schema.Animation F} (h : a.strip = b.strip) :
    convAnimation a = convAnimation b := by
  rw [← convAnimation_strip a, h, convAnimation_strip]

/-- **C66.** Compositions that differ only in the attributes dropped by `forget` (time remapping,
layer sizes, ...) make the same calls on the sink, at every frame. -/
theorem C66_render {c d : Composition F} (h : c.forget = d.forget) {r r' : Renderer F} {fr : F}
    {T : Affine F} {al : F} {ops : List (Op F)} :
    AppendCalls r c fr T al r' ops ↔ AppendCalls r d fr T al r' ops := by
  unfold AppendCalls
  simp only [← append_forget _ r c, h, append_forget]

/-! ## C62 — layer blend modes -/

/-- **C62** (part that holds).  Every layer pushed on the sink is the isolation layer of a matte
(mode Normal) or has the matte mode of a layer.  Hence layers with blend mode Normal are composited
with that mode.  Missing: layers with another blend mode, for which the property is false
(`C62_counterexample`). -/
theorem C62_modes_partial {r r' : Renderer F} (hr : Reachable r) {c : Composition F} {fr : F}
    {T : Affine F} {al : F} {ops : List (Op F)} (h : AppendCalls r c fr T al r' ops)
    {mode : BlendMode} {al' : F} {T' : Affine F} {clip : ClipShape F}
    (hop : Op.pushLayer mode al' T' clip ∈ ops) :
    mode = .ofMix .normal ∨ ∃ src l j, l ∈ c.layersOf src ∧ l.maskLayer = some (mode, j) := by
  obtain ⟨-, per, hper, rfl⟩ := (appendCalls_iff hr.idle).mp h
  have hl : ∀ {ls l ix T a fr ops}, LayerCalls c ls l ix T a fr ops →
      ∀ src, ls = c.layersOf src → l ∈ ls → Op.pushLayer mode al' T' clip ∈ ops →
      mode = .ofMix .normal ∨ ∃ src l j, l ∈ c.layersOf src ∧ l.maskLayer = some (mode, j) := by
    intro ls l ix T a fr ops h
    refine LayerCalls.induct (P := fun ls l _ _ _ _ ops => ∀ src, ls = c.layersOf src → l ∈ ls →
      Op.pushLayer mode al' T' clip ∈ ops →
      mode = .ofMix .normal ∨ ∃ src l j, l ∈ c.layersOf src ∧ l.maskLayer = some (mode, j)) ?_ ?_ h
    · intro _ _ _ _ _ _ _ _ _ _ h; cases h
    · intro ls l ix T a fr mo ms co hc hmo ihm hms hco ihc src hsrc hmem hop
      unfold layerOut at hop
      simp only [List.mem_append, List.mem_singleton, reduceCtorEq, false_or, or_false,
        List.mem_replicate, and_false] at hop
      rcases hop with (hop | hop) | hop
      · cases hmo with
        | none h => cases hop
        | dangling mode' j h hj =>
          simp only [List.mem_cons, List.not_mem_nil, or_false, Op.pushLayer.injEq] at hop
          rcases hop with hop | hop
          · exact .inl hop.1
          · exact .inr ⟨src, l, j, hsrc ▸ hmem, hop.1 ▸ h⟩
        | matte mode' j m ops h hj hops =>
          simp only [List.mem_append, List.mem_singleton, Op.pushLayer.injEq] at hop
          rcases hop with (hop | hop) | hop
          · exact .inl hop.1
          · exact ihm mode' j m ops h hj hops src hsrc (List.mem_of_getElem? hj) hop
          · exact .inr ⟨src, l, j, hsrc ▸ hmem, hop.1 ▸ h⟩
      · obtain ⟨m, -, h'⟩ := forall₂_right hms hop
        obtain ⟨els, -, h'⟩ := map_ok h'
        cases h'
      · cases hco with
        | none h => cases hop
        | missing name tr h hn => cases hop
        | asset name tr als per h hn hper =>
          obtain ⟨ops, hops, hop⟩ := List.mem_flatten.mp hop
          obtain ⟨l', hl', h'⟩ := forall₂_right hper hops
          rw [List.mem_filter, List.mem_reverse] at hl'
          refine ihc name tr als l' ops h hn hl'.1 (by simpa using hl'.2) h' (some name) ?_ hl'.1 hop
          simp [Composition.layersOf, hn]
        | shape shapes b ops h hb hops =>
          obtain ⟨_, _, _, _, h'⟩ := render_draws hops _ hop
          cases h'
  simp only [List.mem_append, List.mem_singleton, reduceCtorEq, false_or, or_false] at hop
  obtain ⟨os, hos, hop⟩ := List.mem_flatten.mp hop
  obtain ⟨p, hp, h'⟩ := forall₂_right hper hos
  rw [List.mem_filter, List.mem_reverse] at hp
  refine hl h' none rfl ?_ hop
  obtain ⟨p1, p2⟩ := p
  exact (List.mem_zipIdx' hp.1).2 ▸ List.getElem_mem _

/-- **C62** (what the code does instead).  Changing the blend mode of any layers changes nothing. -/
theorem C62_ignored {c : Composition F} (mode : Layer F → Option BlendMode) {r r' : Renderer F}
    {fr : F} {T : Affine F} {al : F} {ops : List (Op F)} :
    AppendCalls r (c.mapLayers fun l => { l with blendMode := mode l }) fr T al r' ops ↔
      AppendCalls r c fr T al r' ops := by
  apply C66_render
  simp [Composition.mapLayers, Composition.forget, Layer.forget, Function.comp_def]

/-- **C62.** The layers pushed while an imported composition is rendered have the mode Normal, or
the mode SrcIn or SrcOut of a matte. -/
theorem C62_imported_partial {a : Schema.Animation F} {c : Composition F} (ha : convAnimation a = .ok c)
    {r r' : Renderer F} (hr : Reachable r) {fr : F} {T : Affine F} {al : F} {ops : List (Op F)}
    (h : AppendCalls r c fr T al r' ops) {mode : BlendMode} {al' : F} {T' : Affine F}
    {clip : ClipShape F} (hop : Op.pushLayer mode al' T' clip ∈ ops) :
    mode = .ofMix .normal ∨ mode = .ofCompose .srcIn ∨ mode = .ofCompose .srcOut := by
  rcases C62_modes_partial hr h hop with h | ⟨src, l, j, hl, hj⟩
  · exact .inl h
  · have key : ∀ {src dst}, processLayers src = .ok dst → l ∈ dst →
        mode = .ofMix .normal ∨ mode = .ofCompose .srcIn ∨ mode = .ofCompose .srcOut := by
      intro src dst hp hl
      obtain ⟨i, hi, hil⟩ := List.mem_iff_getElem.mp hl
      have hlen := processLayers_length hp
      obtain ⟨es, e, -, -, hc, he⟩ := processLayers_get hp
        (List.getElem?_eq_getElem (show i < src.length by omega))
        ((List.getElem?_eq_getElem hi).trans (congrArg some hil))
      rw [he] at hj
      unfold linkLayer at hj
      dsimp only at hj
      rw [hc.maskLayer, hc.matteMode] at hj
      revert hj
      cases src[i].visual.matteMode with
      | none => exact fun h => nomatch h
      | some m =>
        dsimp only [Option.map_some]
        intro hj
        split at hj
        · cases hj
          cases m <;> simp [convMatteMode]
        · cases hj
    obtain ⟨has, hls, -⟩ := convAnimation_ok ha
    cases src with
    | none => exact key hls hl
    | some name =>
      unfold Composition.layersOf Composition.asset at hl
      dsimp only at hl
      cases hf : c.assets.reverse.find? (fun e => e.1 == name) with
      | none => rw [hf] at hl; cases hl
      | some e =>
        rw [hf] at hl
        have he := List.mem_of_find?_eq_some hf
        rw [List.mem_reverse] at he
        obtain ⟨x, hx, hxe⟩ := forall₂_right has he
        obtain ⟨p, rfl, -, hpl⟩ := convAsset_ok hxe
        exact key hpl hl

/-! ## C63 — masks -/

/-- **C63** (what the code does instead).  Changing mode and opacity of any masks changes nothing. -/
theorem C63_ignored {c : Composition F} (g : Layer F → Mask F → Mask F)
    (hg : ∀ l m, (g l m).geometry = m.geometry) {r r' : Renderer F}
    {fr : F} {T : Affine F} {al : F} {ops : List (Op F)} :
    AppendCalls r (c.mapLayers fun l => { l with masks := l.masks.map (g l) }) fr T al r' ops ↔
      AppendCalls r c fr T al r' ops := by
  apply C66_render
  have : ∀ l m, (g l m).forget = m.forget := by
    intro l m
    unfold Mask.forget
    rw [hg]
  simp [Composition.mapLayers, Composition.forget, Layer.forget, Function.comp_def, this]

/-- **C63** (part that holds).  An imported layer with a single mask (and no matte, at a frame in
its range) clips its content to the mask's path.  This is what the document asks for if the mask has
the mode Add, is not inverted, not expanded, and has opacity 100.  Missing: other modes, inversion,
expansion, opacity and the union of several masks, for which the property is false
(`C63_counterexample`, `C63_counterexample_two`). -/
theorem C63_single_partial {a : Schema.Animation F} {c : Composition F} (h : convAnimation a = .ok c)
    {src : List (Schema.AnyLayer F)} {dst : List (Layer F)} (hd : ImportedList a c src dst)
    {i : Nat} {s : Schema.AnyLayer F} {l : Layer F} (hs : src[i]? = some s) (hl : dst[i]? = some l)
    {m : Schema.Mask F} (hm : s.visual.masksProperties = some [m]) {p : Schema.ShapeProperty F}
    (hp : m.shape = some p) {g : Geometry F} (hg : convShapeGeometry p = .ok (some g))
    (hmatte : l.maskLayer = none) {fr : F} (hin : l.frames.contains fr = true) {ix : Nat}
    {T : Affine F} {al : F} {ops : List (Op F)} :
    LayerCalls c dst l ix T al fr ops ↔ ∃ path inner, g.evaluate fr = .ok path ∧
      LayerCalls c dst { l with masks := [] } ix T al fr
        ([Op.beginGroup l.name ix] ++ inner ++ [Op.endGroup]) ∧
      ops = [Op.beginGroup l.name ix, Op.pushClip (computeTransform dst l T fr) (.path path)]
        ++ inner ++ [Op.pop, Op.endGroup] := by
  obtain ⟨es, e, -, -, hc, he⟩ := processLayers_get (ImportedList.process h hd) hs hl
  have hmasks : ∃ o, l.masks = [⟨.ofMix .normal, g, o⟩] := by
    have h1 := hc.masks
    have h2 : l.masks = e.1.masks := by rw [he]; rfl
    rw [hm] at h1
    unfold convMasks at h1
    obtain ⟨os, hos, h1⟩ := bind_ok h1
    dsimp only [Option.getD_some] at hos
    rw [mapM_ok_iff] at hos
    cases hos with
    | cons hx hr =>
      cases hr
      unfold convMask at hx
      rw [hp] at hx
      dsimp only at hx
      rw [hg] at hx
      obtain ⟨o, -, hx⟩ := bind_ok (x := convScalar (m.opacity.getD floatValueOneHundred)) hx
      cases hx
      refine ⟨o, ?_⟩
      rw [h2]
      exact (Except.ok.inj h1).symm
  obtain ⟨o, hmasks⟩ := hmasks
  rw [C41_masks hmatte hin, hmasks]
  constructor
  · rintro ⟨paths, inner, hps, hi, rfl⟩
    cases hps with
    | cons hx hr =>
      cases hr
      exact ⟨_, inner, hx, hi, by simp⟩
  · rintro ⟨path, inner, hx, hi, rfl⟩
    exact ⟨[path], inner, .cons hx .nil, hi, by simp⟩

/-! ## C64 — hidden shapes -/

/-- **C64** (part that holds).  If the hidden shapes of the document are of kinds that are not
implemented anyway, import is the same without them.  Missing: other hidden shapes, for which the
property is false (`C64_counterexample`). -/
theorem C64_unsupported_partial {a : Schema.Animation F}
    (h : ∀ l ∈ a.allLayers, Schema.AnyShape.HiddenUnsupportedAll l.shapes) :
    convAnimation a.dropHidden = convAnimation a := by
  have hl : processLayers a.dropHidden.layers = processLayers a.layers :=
    processLayers_dropHidden _ fun l hl => h l (List.mem_append_left _ hl)
  unfold convAnimation
  rw [hl]
  have : (a.dropHidden.assets.getD []).mapM convAsset = (a.assets.getD []).mapM convAsset := by
    unfold Schema.Animation.dropHidden
    have h' : ∀ x ∈ a.assets.getD [], ∀ p, x = .precomposition p →
        ∀ l ∈ p.layers, Schema.AnyShape.HiddenUnsupportedAll l.shapes := by
      intro x hx p hp l hl
      subst hp
      exact h l (List.mem_append_right _ (List.mem_flatMap.mpr ⟨_, hx, hl⟩))
    dsimp only
    cases ha : a.assets with
    | none => rfl
    | some as =>
      rw [ha] at h'
      dsimp only [Option.map_some, Option.getD_some] at h' ⊢
      rw [mapM_map_eq convAsset _ id as]
      · cases as.mapM convAsset with
        | error e => rfl
        | ok es => show Except.ok _ = Except.ok _; simp
      · intro x hx
        have hid : ∀ x : Except Fault (String × List (Layer F)), x.map id = x := by
          intro x; cases x <;> rfl
        rw [hid]
        cases x with
        | image i => rfl
        | precomposition p =>
          unfold convAsset
          dsimp only
          rw [processLayers_dropHidden _ (h' _ hx p rfl)]
  rw [this]
  rfl

/-! ## Documents -/

/-- Two triangles; the shape, mask and blend mode of the upper one can be chosen. -/
def exAttrDoc (shapes : List (Schema.AnyShape F)) (masks : List (Schema.Mask F))
    (mode : Option Schema.BlendMode) : Schema.Animation F :=
  { exDoc with
    assets := none
    layers := [
      .shape ⟨{ exVisual "upper" (some 1) with masksProperties := some masks, blendMode := mode },
        shapes⟩,
      exPathDoc (exVisual "lower" (some 2))] }

/-- A triangle. -/
def exTriangleProperty : Schema.ShapeProperty F :=
  ⟨none, none, none, .static ⟨some true, [(lit 1, lit 0), (lit 4, lit 0), (lit 0, lit 4)], [], []⟩⟩

/-- A triangle. -/
def exTriangleShape : Schema.AnyShape F := .path ⟨⟨exElement, none⟩, exTriangleProperty⟩

/-- A fill that may be hidden and may have a rule. -/
def exFillWith (hidden : Option Bool) (rule : Option Schema.FillRule) : Schema.AnyShape F :=
  .fill ⟨⟨{ exElement with hidden := hidden }, exStatic (lit 50)⟩, exStatic [lit 1, lit 0, lit 0], rule⟩

/-- A mask with a mode, inversion and opacity. -/
def exMaskDoc (mode : Option Schema.MaskMode) (inverted : Option Bool)
    (opacity : Option (Schema.FloatValue F)) : Schema.Mask F :=
  ⟨none, none, inverted, some exTriangleProperty, opacity, mode, none⟩

theorem exMaskDoc_forget : ∃ c d, convAnimation (exAttrDoc (F := F)
    [exTriangleShape, exFillShape] [exMaskDoc none none (some (exStatic (lit 0)))] none) = .ok c ∧
    convAnimation (exAttrDoc (F := F) [exTriangleShape, exFillShape]
      [exMaskDoc (some .add) none none] none) = .ok d ∧ c.forget = d.forget :=
  ⟨_, _, rfl, rfl, rfl⟩

/-- The hypothesis of `C66_import` is met by different documents. -/
example : (exAttrDoc (F := F) [exTriangleShape, exFillWith none none] [] none).strip
      = (exAttrDoc [exTriangleShape, exFillWith (some true) (some .evenOdd)] [] none).strip ∧
    exAttrDoc (F := F) [exTriangleShape, exFillWith none none] [] none
      ≠ exAttrDoc [exTriangleShape, exFillWith (some true) (some .evenOdd)] [] none := by
  constructor
  · rfl
  · intro h
    have h := congrArg (fun a => a.layers.map fun l => l.shapes.map fun s => s.element.hidden) h
    exact absurd (show [[none, none], [none, none]] = [[none, some true], [none, none]] from h)
      (by decide)

/-- A hidden shape of an unsupported kind: the hypothesis of `C64_unsupported_partial` is met, and
the shape is dropped. -/
example (m : Option Schema.MergeMode) :
    (∀ l ∈ (exAttrDoc (F := F) [exTriangleShape, .merge ⟨{ exElement with hidden := some true }, m⟩,
        exFillWith none none] [] none).allLayers, Schema.AnyShape.HiddenUnsupportedAll l.shapes) ∧
    (exAttrDoc (F := F) [exTriangleShape, .merge ⟨{ exElement with hidden := some true }, m⟩,
        exFillWith none none] [] none).dropHidden
      = exAttrDoc [exTriangleShape, exFillWith none none] [] none := by
  constructor
  · intro l hl
    simp only [exAttrDoc, Schema.Animation.allLayers, List.mem_append, List.mem_cons,
      List.not_mem_nil, or_false] at hl
    rcases hl with (rfl | rfl) | hl
    · simp [Schema.AnyLayer.shapes, Schema.AnyShape.HiddenUnsupportedAll,
        Schema.AnyShape.HiddenUnsupported, Schema.AnyShape.isHidden, Schema.AnyShape.element,
        exTriangleShape, exFillWith, exElement, Schema.AnyShape.isUnsupported]
    · simp [Schema.AnyLayer.shapes, Schema.AnyShape.HiddenUnsupportedAll,
        Schema.AnyShape.HiddenUnsupported, Schema.AnyShape.isHidden, Schema.AnyShape.element,
        exPathDoc, exFillShape, exElement]
    · cases hl
  · simp [exAttrDoc, Schema.Animation.dropHidden, Schema.AnyLayer.dropHidden,
        Schema.AnyShape.dropHiddenAll, Schema.AnyShape.dropHidden, Schema.AnyShape.isHidden,
        Schema.AnyShape.element,
        exTriangleShape, exFillWith, exElement, exPathDoc, exFillShape, exDoc]

/-- A document with a single mask: the hypotheses of `C63_single_partial` are met. -/
example : ∃ c l g, convAnimation (exAttrDoc (F := F) [exTriangleShape, exFillShape]
      [exMaskDoc (some .add) none none] none) = .ok c ∧ c.layers[0]? = some l ∧
    l.maskLayer = none ∧ l.frames = ⟨lit 0, lit 10⟩ ∧
    convShapeGeometry (exTriangleProperty (F := F)) = .ok (some g) :=
  ⟨_, _, _, rfl, rfl, rfl, rfl, rfl⟩

end

section
variable [Kurbo F64] [Libm F64]

/-- An imported composition in whose rendering two layers are pushed: the hypotheses of
`C62_modes_partial` and `C62_imported_partial` are met. -/
example : ((docCalls (exNormalDoc (F := F64) (some .true)) (lit 3)).map countCalls).toOption =
    some (2, 2) := C55_counterexample.1

/-- **C62** is false of the code: two overlapping triangles, the upper one with the blend mode
Multiply.  The imported layer has the mode, but rendering draws both triangles without pushing any
layer. -/
theorem C62_counterexample :
    ((convAnimation (exAttrDoc (F := F64) [exTriangleShape, exFillShape] [] (some .multiply))).map
      fun c => c.layers.map (·.blendMode)).toOption = some [some (.ofMix .multiply), none] ∧
    ((docCalls (exAttrDoc (F := F64) [exTriangleShape, exFillShape] [] (some .multiply)) (lit 3)).map
      countCalls).toOption = some (2, 0) := by
  constructor <;> kernel_decide

/-- The clips of the masks of the layer "upper" (all clips but the one of the composition). -/
def maskClips {F : Type} (ops : List (Op F)) : Nat :=
  ops.countP (fun | .pushClip .. => true | _ => false) - 1

/-- **C63** is false of the code: a subtracting mask, an inverted one and one of opacity 0 all give
the same calls as an adding mask of full opacity, a single clip. -/
theorem C63_counterexample (mode : Option Schema.MaskMode) (inverted : Option Bool) :
    docCalls (exAttrDoc (F := F64) [exTriangleShape, exFillShape]
        [exMaskDoc mode inverted (some (exStatic (lit 0)))] none) (lit 3)
      = docCalls (exAttrDoc (F := F64) [exTriangleShape, exFillShape]
        [exMaskDoc (some .add) none none] none) (lit 3) ∧
    ((docCalls (exAttrDoc (F := F64) [exTriangleShape, exFillShape]
        [exMaskDoc (some .add) none none] none) (lit 3)).map maskClips).toOption = some 1 := by
  constructor
  · have h : convAnimation (exAttrDoc (F := F64) [exTriangleShape, exFillShape]
        [exMaskDoc mode inverted (some (exStatic (lit 0)))] none)
        = convAnimation (exAttrDoc (F := F64) [exTriangleShape, exFillShape]
        [exMaskDoc none none (some (exStatic (lit 0)))] none) := C66_import rfl
    obtain ⟨c, d, hc, hd, hcd⟩ := exMaskDoc_forget (F := F64)
    unfold docCalls
    rw [h, hc, hd]
    show (Renderer.append 3 Renderer.new c (lit 3) Affine.identity (lit 1)).map (·.2)
      = (Renderer.append 3 Renderer.new d (lit 3) Affine.identity (lit 1)).map (·.2)
    rw [← append_forget _ _ c, hcd, append_forget]
  · kernel_decide

/-- **C63** is false of the code for several masks: two adding masks, whose union should be
visible, are nested clips, so that only their intersection is. -/
theorem C63_counterexample_two :
    ((docCalls (exAttrDoc (F := F64) [exTriangleShape, exFillShape]
        [exMaskDoc (some .add) none none, exMaskDoc (some .add) none none] none) (lit 3)).map
      fun ops => (ops.filter fun | .pushClip .. | .pop | .draw .. => true | _ => false).map
        Op.tag).toOption
      = some ["clip", "draw", "clip", "clip", "draw", "pop", "pop", "pop"] := by
  kernel_decide

/-- **C64** is false of the code: a hidden fill is drawn; without it the layer draws nothing. -/
theorem C64_counterexample :
    ((docCalls (exAttrDoc (F := F64) [exTriangleShape, exFillWith (some true) none] [] none)
      (lit 3)).map countCalls).toOption = some (2, 0) ∧
    ((docCalls (exAttrDoc (F := F64) [exTriangleShape, exFillWith (some true) none] [] none).dropHidden
      (lit 3)).map countCalls).toOption = some (1, 0) := by
  constructor <;> kernel_decide

end
end Velato
