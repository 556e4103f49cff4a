import Verif.Proofs.LumaMatte
import Verif.Props.Ignored
import Verif.Props.Balance
import Verif.Props.ImportLayers

/-!
# C69, C70, C71 — luma mattes, sizes of precompositions, extent of mattes
-/

namespace Velato
open FloatOps (lit)
open Import

section
variable {F : Type} [FloatOps F] [Kurbo F] [Libm F]

/-! ## C69 — luma mattes -/

/-- **C69** (part that holds).  A layer whose matte mode looks at the alpha of the matte is
composited with the mode SrcIn of its matte, or SrcOut if the mode is inverted.  Missing: the modes
that look at the luminance, for which the property is false (`C69_counterexample`). -/
theorem C69_alpha_partial {a : Schema.Animation F} {c : Composition F} (h : convAnimation a = .ok c)
    {src : List (Schema.AnyLayer F)} {dst : List (Layer F)} (hd : ImportedList a c src dst)
    {i : Nat} {s : Schema.AnyLayer F} {l : Layer F} (hs : src[i]? = some s) (hl : dst[i]? = some l)
    {mode : BlendMode} {j : Nat} (hm : l.maskLayer = some (mode, j)) :
    (s.visual.matteMode = some .alpha → mode = .ofCompose .srcIn) ∧
    (s.visual.matteMode = some .invertedAlpha → mode = .ofCompose .srcOut) := by
  have key : ∀ m, s.visual.matteMode = some m → mode = matteBlend m := by
    intro m hmode
    obtain ⟨-, h1, h2, -⟩ := C46_mattes h hd hs hl
    cases hx : s.visual.matteLayerIndex with
    | some x =>
      obtain ⟨r, -, hr⟩ := h1 m x hmode hx
      rw [hm] at hr
      cases r with
      | none => cases hr
      | some j' => exact congrArg Prod.fst (Option.some.inj hr)
    | none =>
      rcases h2 m hmode hx with ⟨j', -, hr⟩ | ⟨-, hr⟩
      · rw [hm] at hr; exact congrArg Prod.fst (Option.some.inj hr)
      · rw [hm] at hr; cases hr
  exact ⟨fun h => key _ h, fun h => key _ h⟩

/-- **C69** (what the code does instead).  Import does not tell a luma matte from an alpha matte. -/
theorem C69_ignored (a : Schema.Animation F) : convAnimation a.alphaForLuma = convAnimation a :=
  convAnimation_alphaForLuma a

/-- A matte and the layer after it, with a matte mode. -/
def exMatteDoc (mode : Schema.MatteMode) : Schema.Animation F :=
  { exDoc with
    assets := none
    layers := [exPathDoc { exVisual "matte" (some 1) with matteTarget := some .true },
      exPathDoc { exVisual "matted" (some 2) with matteMode := some mode }] }

/-- A document with an alpha matte: the hypotheses of `C69_alpha_partial` are met. -/
example : ∃ c l, convAnimation (exMatteDoc (F := F) .alpha) = .ok c ∧ c.layers[1]? = some l ∧
    l.maskLayer = some (.ofCompose .srcIn, 0) :=
  ⟨_, _, rfl, rfl, rfl⟩

/-! ## C70 — sizes of precompositions -/

/-- **C70** (what the code does instead).  Changing the sizes of any layers changes nothing. -/
theorem C70_ignored {c : Composition F} (w h : Layer F → F) {r r' : Renderer F}
    {fr : F} {T : Affine F} {al : F} {ops : List (Op F)} :
    AppendCalls r (c.mapLayers fun l => { l with width := w l, height := h l }) fr T al r' ops ↔
      AppendCalls r c fr T al r' ops := by
  apply C66_render
  simp [Composition.mapLayers, Composition.forget, Layer.forget, Function.comp_def]

/-- **C70** (part that holds).  If the layer is as large as the composition and not moved, its
content is clipped to its size, because everything is.  Missing: other layers, for which the
property is false (`C70_counterexample`). -/
theorem C70_full_size_partial {r r' : Renderer F} (hr : Reachable r) {c : Composition F} {fr : F}
    {T : Affine F} {al : F} {ops : List (Op F)} (h : AppendCalls r c fr T al r' ops)
    {i : Nat} {l : Layer F} (hl : c.layers[i]? = some l) (hmask : l.isMask = false)
    (hw : l.width = FloatOps.ofUsize c.width) (hh : l.height = FloatOps.ofUsize c.height)
    (hT : computeTransform c.layers l T fr = T) :
    ∃ before inner after, LayerCalls c c.layers l i T al fr inner ∧
      ops = [Op.pushClip (computeTransform c.layers l T fr)
        (.rect (lit 0) (lit 0) l.width l.height)] ++ before ++ inner ++ after ++ [Op.pop] ∧
      Balanced before ∧ Balanced after := by
  obtain ⟨-, per, hper, rfl⟩ := (appendCalls_iff hr.idle).mp h
  have hmem : (l, i) ∈ c.layers.zipIdx.reverse.filter (fun p => !p.1.isMask) := by
    rw [List.mem_filter, List.mem_reverse]
    exact ⟨List.mem_zipIdx_iff_getElem?.mpr hl, by simp [hmask]⟩
  obtain ⟨l1, l2, hsplit⟩ := List.append_of_mem hmem
  rw [hsplit] at hper
  obtain ⟨p1, p2, h1, h2, rfl⟩ := forall₂_append_left hper
  cases h2 with
  | @cons _ inner _ p2 hi h2 =>
    have bal : ∀ {ls : List (Layer F × Nat)} {per : List (List (Op F))}, List.Forall₂ (fun p ops =>
        LayerCalls c c.layers p.1 p.2 T al fr ops) ls per → Balanced per.flatten := by
      intro ls per hper
      exact nest_flatten (fun ops hops st => by
        obtain ⟨p, -, h'⟩ := forall₂_right hper hops
        exact h'.nest st) []
    refine ⟨p1.flatten, inner, p2.flatten, hi, ?_, bal h1, bal h2⟩
    rw [hT, hw, hh]
    simp [fullRect]

/-! ## C71 — extent of mattes -/

/-- **C71** (part that holds).  If the layers of the assets have no mattes, everything pushed for
mattes has the transform and the rectangle of the clip of the whole composition, and so takes
nothing away.  Missing: mattes in assets, for which the property is false (`C71_counterexample`). -/
theorem C71_top_level_partial {r r' : Renderer F} (hr : Reachable r) {c : Composition F} {fr : F}
    {T : Affine F} {al : F} {ops : List (Op F)} (h : AppendCalls r c fr T al r' ops)
    (hc : ∀ name ls, c.asset name = some ls → ∀ l ∈ ls, l.maskLayer = none)
    {mode : BlendMode} {al' : F} {T' : Affine F} {clip : ClipShape F}
    (hop : Op.pushLayer mode al' T' clip ∈ ops) :
    ops.head? = some (Op.pushClip T' clip) := by
  obtain ⟨-, per, hper, rfl⟩ := (appendCalls_iff hr.idle).mp h
  suffices T' = T ∧ clip = fullRect c by
    obtain ⟨rfl, rfl⟩ := this
    rfl
  have hl : ∀ {ls l ix T a fr ops}, LayerCalls c ls l ix T a fr ops → l ∈ ls →
      ((∃ name, c.asset name = some ls) → Op.pushLayer mode al' T' clip ∉ ops) ∧
      (Op.pushLayer mode al' T' clip ∈ ops → T' = T ∧ clip = fullRect c) := by
    intro ls l ix T a fr ops h
    refine LayerCalls.induct (P := fun ls l _ T _ _ ops => l ∈ ls →
      ((∃ name, c.asset name = some ls) → Op.pushLayer mode al' T' clip ∉ ops) ∧
      (Op.pushLayer mode al' T' clip ∈ ops → T' = T ∧ clip = fullRect c)) ?_ ?_ h
    · intro _ _ _ _ _ _ _ _
      exact ⟨fun _ h => (nomatch h), fun h => (nomatch h)⟩
    · intro ls l ix T a fr mo ms co _ hmo ihm hms hco ihc hmem
      have hcon : Op.pushLayer mode al' T' clip ∉ co := by
        intro hop
        cases hco with
        | none h => cases hop
        | missing name tr h hn => cases hop
        | asset name tr als per h hn hper =>
          obtain ⟨ops, hops, hop⟩ := List.mem_flatten.mp hop
          obtain ⟨l', hl', h'⟩ := forall₂_right hper hops
          rw [List.mem_filter, List.mem_reverse] at hl'
          exact (ihc name tr als l' ops h hn hl'.1 (by simpa using hl'.2) h' hl'.1).1 ⟨name, hn⟩ hop
        | shape shapes b ops h hb hops =>
          obtain ⟨_, _, _, _, h'⟩ := render_draws hops _ hop
          cases h'
      have hmask : Op.pushLayer mode al' T' clip ∉ ms := by
        intro hop
        obtain ⟨m, -, h'⟩ := forall₂_right hms hop
        obtain ⟨els, -, h'⟩ := map_ok h'
        cases h'
      have hout : Op.pushLayer mode al' T' clip ∈ layerOut l ix mo ms co →
          Op.pushLayer mode al' T' clip ∈ mo := by
        intro hop
        unfold layerOut at hop
        simp only [List.mem_append, List.mem_singleton, reduceCtorEq, false_or, or_false,
          List.mem_replicate, and_false] at hop
        rcases hop with (hop | hop) | hop
        · exact hop
        · exact absurd hop hmask
        · exact absurd hop hcon
      constructor
      · rintro ⟨name, hn⟩ hop
        have hop := hout hop
        have hnone := hc name ls hn l hmem
        cases hmo with
        | none h => cases hop
        | dangling mode' j h hj => rw [hnone] at h; cases h
        | matte mode' j m ops h hj hops => rw [hnone] at h; cases h
      · intro hop
        have hop := hout hop
        cases hmo with
        | none h => cases hop
        | dangling mode' j h hj =>
          simp only [List.mem_cons, List.not_mem_nil, or_false, Op.pushLayer.injEq] at hop
          rcases hop with hop | hop <;> exact ⟨hop.2.2.1, hop.2.2.2⟩
        | matte mode' j m ops h hj hops =>
          simp only [List.mem_append, List.mem_singleton, Op.pushLayer.injEq] at hop
          rcases hop with (hop | hop) | hop
          · exact ⟨hop.2.2.1, hop.2.2.2⟩
          · exact (ihm mode' j m ops h hj hops (List.mem_of_getElem? hj)).2 hop
          · exact ⟨hop.2.2.1, hop.2.2.2⟩
  simp only [List.mem_append, List.mem_singleton, reduceCtorEq, false_or, or_false] at hop
  obtain ⟨os, hos, hop⟩ := List.mem_flatten.mp hop
  obtain ⟨p, hp, h'⟩ := forall₂_right hper hos
  rw [List.mem_filter, List.mem_reverse] at hp
  obtain ⟨p1, p2⟩ := p
  exact (hl h' ((List.mem_zipIdx' hp.1).2 ▸ List.getElem_mem _)).2 hop

/-- The scaling to half size. -/
def exHalf : Affine F := ⟨lit (1 / 2), lit 0, lit 0, lit (1 / 2), lit 0, lit 0⟩

/-- An instance of the asset "b" at half size; in the asset a layer has a matte. -/
def exNestedMatte : Composition F :=
  { exComp with
    assets := [("b", [{ exShapeLayer "t" with maskLayer := some (BlendMode.ofCompose .srcIn, 1) },
      { exShapeLayer "matte" with isMask := true }])]
    layers := [{ exLayer "i" (.instance "b" none) with
      transform := .fixed exHalf, width := lit 200, height := lit 100 }] }

/-- The composition with one layer that has a matte, and the matte: no layer of an asset has a
matte, so that the hypotheses of `C71_top_level_partial` are met. -/
example : ∀ name ls, (exComp (F := F)).asset name = some ls → ∀ l ∈ ls, l.maskLayer = none := by
  intro name ls h l hl
  obtain ⟨e, he, rfl⟩ := Option.map_eq_some_iff.mp h
  have := List.mem_of_find?_eq_some he
  simp only [exComp, List.reverse_cons, List.reverse_nil, List.nil_append, List.mem_singleton] at this
  subst this
  simp only [List.mem_cons, List.not_mem_nil, or_false] at hl
  rcases hl with rfl | rfl <;> rfl

/-- An instance as large as the composition. -/
def exFullLayer : Layer F :=
  { exLayer "i" (.instance "b" none) with width := lit 100, height := lit 50 }

/-- A composition with that layer. -/
def exFullComp : Composition F := { exComp with layers := [exFullLayer] }

/-- An instance of the asset "b", 2 wide and high; the asset fills a triangle with the corners
(1, 0), (4, 0) and (0, 4). -/
def exSizeDoc (w h : F) : Schema.Animation F :=
  { exDoc with
    assets := some [.precomposition ⟨⟨"b", ⟨none, none⟩⟩, [exPathDoc (exVisual "z" (some 7))],
      none, none⟩]
    layers := [.precomposition ⟨exVisual "instance" (some 5), "b", w, h, lit 0, none⟩] }

end

section
variable [Kurbo F64] [Libm F64]

/-- **C69** is false of the code: with a luma matte a layer is composited with the mode SrcIn, by
the alpha of the matte. -/
theorem C69_counterexample :
    docCalls (exMatteDoc (F := F64) .luma) (lit 3) = docCalls (exMatteDoc .alpha) (lit 3) ∧
    docCalls (exMatteDoc (F := F64) .invertedLuma) (lit 3)
      = docCalls (exMatteDoc .invertedAlpha) (lit 3) ∧
    ((docCalls (exMatteDoc (F := F64) .luma) (lit 3)).map fun ops => ops.filterMap fun
      | .pushLayer mode .. => some mode
      | _ => none).toOption = some [.ofMix .normal, .ofCompose .srcIn] := by
  refine ⟨?_, ?_, by kernel_decide⟩
  · have := C69_ignored (exMatteDoc (F := F64) .luma)
    unfold docCalls
    rw [← this]
    rfl
  · have := C69_ignored (exMatteDoc (F := F64) .invertedLuma)
    unfold docCalls
    rw [← this]
    rfl

/-- The hypotheses of `C70_full_size_partial` are met by the only layer of a composition. -/
example : ∃ r' ops, AppendCalls (F := F64) Renderer.new exFullComp (lit 1) Affine.identity (lit 1)
      r' ops ∧
    (exFullComp (F := F64)).layers[0]? = some exFullLayer ∧
    exFullLayer.width = FloatOps.ofUsize (F := F64) (exFullComp (F := F64)).width ∧
    exFullLayer.height = FloatOps.ofUsize (F := F64) (exFullComp (F := F64)).height ∧
    computeTransform exFullComp.layers exFullLayer Affine.identity (lit 1)
      = Affine.identity (F := F64) := by
  have h : ((Renderer.append (F := F64) 5 Renderer.new exFullComp
      (lit 1) Affine.identity (lit 1)).map fun p => p.2.length).toOption = some 10 := by
    kernel_decide
  cases hx : Renderer.append (F := F64) 5 Renderer.new exFullComp (lit 1) Affine.identity (lit 1) with
  | error e => rw [hx] at h; cases h
  | ok p =>
    exact ⟨p.1, p.2, ⟨5, hx⟩, rfl, by decide +kernel, by decide +kernel, by kernel_decide⟩

/-- **C70** is false of the code: an instance that is 2 wide and high and draws outside of this
square.  The only clip is the one of the composition. -/
theorem C70_counterexample :
    ((docCalls (exSizeDoc (F := F64) (lit 2) (lit 2)) (lit 3)).map fun ops => ops.filterMap fun
      | .pushClip T s => some (some (T, s))
      | .draw .. => some none
      | _ => none).toOption
      = some [some (Affine.identity, .rect (lit 0) (lit 0) (lit 100) (lit 50)), none] := by
  kernel_decide

/-- **C71** is false of the code: in a composition 100 wide and 50 high, a layer inside an instance
at half size (of an asset twice as large as the composition) has a matte.  What is pushed for the
matte has the rectangle of the composition under the transform of the instance, and so cuts the
layer off at half the width and height of the composition. -/
theorem C71_counterexample :
    ((Renderer.append (F := F64) 3 Renderer.new exNestedMatte (lit 1) Affine.identity (lit 1)).map
      fun p => p.2.filterMap fun
      | .pushClip T s => some (T, s)
      | .pushLayer _ _ T s => some (T, s)
      | _ => none).toOption
      = some [(Affine.identity, .rect (lit 0) (lit 0) (lit 100) (lit 50)),
        (exHalf, .rect (lit 0) (lit 0) (lit 100) (lit 50)),
        (exHalf, .rect (lit 0) (lit 0) (lit 100) (lit 50))] := by
  kernel_decide

end
end Velato
