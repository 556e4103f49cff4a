import Verif.Proofs.ShapeTree
import Verif.Proofs.LayerSets
import Verif.Props.NoPanic
import Verif.Num.KernelDecide
import Verif.Num.Real

/-!
# C37, C38, C39: what a shape tree paints, with which opacity and in which order
-/

namespace Velato
open FloatOps (lit)

section
variable {F : Type} [FloatOps F] [Libm F] [Kurbo F]

/-- The calls of the batch, one group of calls per paint. -/
theorem shapes_calls {shs : List (Shape F)} {T : Affine F} {a fr : F} {b : Batch F}
    {ops : List (Op F)} (hg : ∀ g ∈ geometriesOf shs, g.StartsOk fr)
    (hb : renderShapes shs T a fr Batch.empty = .ok b) (hops : b.render = .ok ops) :
    b.draws.map DrawData.paint = paintsOf a fr shs [] ∧
    ops = (b.draws.map fun d => (b.painted d).map fun o =>
      Op.draw d.stroke o.transform d.finalBrush o.path).reverse.flatten := by
  have hi := (renderShapesFrom_safe (A := fun _ => True) shs (s := (0, 0)) (st := []) T a fr
    Batch.Inv.empty fun g hg' => ⟨fun _ _ => trivial, hg g hg'⟩).2 b hb
  have hp := (paints_shapes shs (s := (0, 0)) (st := []) Batch.Inv.empty hg hb).2
  rw [render_ok hi.wf.inBounds] at hops
  cases hops
  refine ⟨hp, ?_⟩
  rw [← List.map_reverse, List.flatMap_def]

/-- **C39**: a shape layer (without matte and masks, which only add calls around the content, see
C41 and C42) makes, for each fill and stroke, a number of draw calls with its paint; the fills and
strokes come in the reverse of their document order. -/
theorem C39_order [KurboPaths F] {c : Composition F} {ls : List (Layer F)} {l : Layer F} {ix : Nat}
    {T : Affine F} {a fr : F} {ops : List (Op F)} {shapes : List (Shape F)}
    (hl : l.content = .shape shapes) (hm : l.maskLayer = none) (hms : l.masks = [])
    (hin : l.frames.contains fr = true)
    (hp : ∀ p, Geometry.fixed p ∈ l.geometries → bezPathOk p = true)
    (h : LayerCalls c ls l ix T a fr ops) :
    ∃ per : List (List (Op F)),
      ops = [Op.beginGroup l.name ix] ++ per.reverse.flatten ++ [Op.endGroup] ∧
      List.Forall₂ (fun calls (p : Paint F) =>
          ∀ op ∈ calls, ∃ T' path, op = Op.draw p.stroke T' p.finalBrush path)
        per (paintsOf (a *. l.opacity.evaluate fr /. lit 100) fr shapes []) := by
  rw [layerCalls_cases] at h
  rcases h with ⟨h, -⟩ | ⟨-, mo, ms, co, hmo, hms', hco, rfl⟩
  · rw [hin] at h; cases h
  rw [hms] at hms'
  cases hms'
  have hmo' : mo = [] := by
    cases hmo with
    | none => rfl
    | dangling _ _ h' => rw [hm] at h'; cases h'
    | matte _ _ _ _ h' => rw [hm] at h'; cases h'
  subst hmo'
  cases hco with
  | none h => rw [hl] at h; cases h
  | missing _ _ h => rw [hl] at h; cases h
  | asset _ _ _ _ h => rw [hl] at h; cases h
  | shape shapes' b ops h hb hops =>
    rw [hl] at h
    cases h
    have hg : ∀ g ∈ geometriesOf shapes, g.StartsOk fr := by
      intro g hg
      refine g.startsOk fr ?_
      rintro p rfl
      refine hp p ?_
      unfold Layer.geometries
      rw [hl]; exact hg
    obtain ⟨h1, h2⟩ := shapes_calls hg hb hops
    refine ⟨b.draws.map fun d => (b.painted d).map fun o =>
      Op.draw d.stroke o.transform d.finalBrush o.path, by rw [h2]; simp [layerOut, hm, hms], ?_⟩
    rw [← h1, List.forall₂_map_left_iff, List.forall₂_map_right_iff, List.forall₂_same]
    intro d _ op hop
    rw [List.mem_map] at hop
    obtain ⟨o, _, rfl⟩ := hop
    exact ⟨o.transform, o.path, by rw [finalBrush_eq]; rfl⟩

/-- **C37**: every draw call of an append has the brush of some fill or stroke of the composition,
with the opacity factor that results from the caller's alpha by multiplying in the opacity of the
instance layers around it, its layer (both in `PaintIn`), its groups and itself (in `paintsOf`, see
`C37_product`) and nothing else. -/
theorem C37_paints [KurboPaths F] {c : Composition F} (hp : c.PathsStartWithMove)
    {r r' : Renderer F} (hr : Reachable r) {fr : F} {T : Affine F} {a : F} {ops : List (Op F)}
    (h : AppendCalls r c fr T a r' ops) {st : Option (KStroke F)} {T' : Affine F} {br : Brush F}
    {path : List (PathEl F)} (hop : Op.draw st T' br path ∈ ops) :
    ∃ p : Paint F, PaintIn c c.layers a fr p ∧ st = p.stroke ∧ br = p.finalBrush := by
  have key : ∀ {ls l ix T a fr ops}, LayerCalls c ls l ix T a fr ops →
      ((∀ l ∈ ls, l ∈ c.allLayers) → l ∈ ls → Op.draw st T' br path ∈ ops →
        ∃ p : Paint F, PaintIn c ls a fr p ∧ st = p.stroke ∧ br = p.finalBrush) := by
    intro ls l ix T a fr ops h
    refine LayerCalls.induct (P := fun ls l _ _ a fr ops => (∀ l ∈ ls, l ∈ c.allLayers) → l ∈ ls →
      Op.draw st T' br path ∈ ops →
        ∃ p : Paint F, PaintIn c ls a fr p ∧ st = p.stroke ∧ br = p.finalBrush) ?_ ?_ h
    · intro ls l ix T a fr _ _ _ hop; cases hop
    · intro ls l ix T a fr mo ms co hf hmo ihm hms hco ihc hls hl hop
      have hms' : Op.draw st T' br path ∉ ms := by
        intro hmem
        clear hop hco ihc hmo ihm
        generalize l.masks = lm at hms
        induction hms with
        | nil => cases hmem
        | cons hx _ ih =>
          rcases List.mem_cons.mp hmem with rfl | hmem
          · obtain ⟨_, _, h⟩ := map_ok hx; cases h
          · exact ih hmem
      have hop' : Op.draw st T' br path ∈ mo ∨ Op.draw st T' br path ∈ co := by
        simp only [layerOut, List.mem_append, List.mem_singleton, List.mem_replicate, reduceCtorEq,
          false_or, or_false, and_false, hms'] at hop
        exact hop
      rcases hop' with hop' | hop'
      · cases hmo with
        | none => cases hop'
        | dangling => simp at hop'
        | matte mode j m ops hm hj hops =>
          have hmem : m ∈ ls := List.mem_of_getElem? hj
          refine ihm mode j m ops hm hj hops hls hmem ?_
          simpa using hop'
      · cases hco with
        | none => cases hop'
        | missing => cases hop'
        | asset name tr als per h hn hper =>
          rw [List.mem_flatten] at hop'
          obtain ⟨os, hos, hop'⟩ := hop'
          obtain ⟨i, hi, rfl⟩ := List.getElem_of_mem hos
          have hlen := hper.length_eq
          have hR := hper.get (by rw [hlen]; exact hi) hi
          simp only [List.get_eq_getElem] at hR
          generalize hl' : (als.reverse.filter fun l => !l.isMask)[i]'(by rw [hlen]; exact hi) = l'
            at hR
          have hmem : l' ∈ als.reverse.filter fun l => !l.isMask := by
            rw [← hl']; exact List.getElem_mem _
          rw [List.mem_filter, List.mem_reverse] at hmem
          obtain ⟨p, hp, h1, h2⟩ := ihc name tr als l' _ h hn hmem.1 (by simpa using hmem.2) hR
            (asset_mem hn) hmem.1 hop'
          exact ⟨p, .precomp hl h hf hn hp, h1, h2⟩
        | shape shapes b ops h hb hops =>
          have hg : ∀ g ∈ geometriesOf shapes, g.StartsOk fr := by
            intro g hg
            refine g.startsOk fr ?_
            rintro q rfl
            refine hp l (hls l hl) q ?_
            unfold Layer.geometries
            rw [h]; exact hg
          obtain ⟨h1, h2⟩ := shapes_calls hg hb hops
          rw [h2] at hop'
          simp only [List.mem_flatten, List.mem_reverse, List.mem_map] at hop'
          obtain ⟨_, ⟨d, hd, rfl⟩, hop'⟩ := hop'
          rw [List.mem_map] at hop'
          obtain ⟨o, -, ho⟩ := hop'
          cases ho
          refine ⟨d.paint, .shape hl h hf ?_, rfl, finalBrush_eq d⟩
          rw [← h1]
          exact List.mem_map_of_mem hd
  obtain ⟨-, per, hper, rfl⟩ := (appendCalls_iff hr.idle).mp h
  simp only [List.mem_append, List.mem_singleton, reduceCtorEq, false_or, or_false] at hop
  rw [List.mem_flatten] at hop
  obtain ⟨os, hos, hop⟩ := hop
  obtain ⟨i, hi, rfl⟩ := List.getElem_of_mem hos
  have hlen := hper.length_eq
  have hR := hper.get (by rw [hlen]; exact hi) hi
  simp only [List.get_eq_getElem] at hR
  have hmem := List.getElem_mem (l := c.layers.zipIdx.reverse.filter fun p => !p.1.isMask)
    (n := i) (by rw [hlen]; exact hi)
  rw [List.mem_filter, List.mem_reverse] at hmem
  exact key hR (fun l hl => List.mem_append_left _ hl) (List.fst_mem_of_mem_zipIdx hmem.1) hop

/-- **C38**, for trees in which no group's first geometry has the same transform as an undrawn
geometry before the group (`SeparatedIn`): each fill and stroke paints exactly the path elements of
the geometry that precedes it in its group, nested groups included, each under the transform of its
group.  Without that condition it is false, see `C38_counterexample`. -/
theorem C38_targets_partial {c : Composition F} {ls : List (Layer F)} {l : Layer F} {ix : Nat}
    {T : Affine F} {a fr : F} {ops : List (Op F)} {shapes : List (Shape F)}
    (hl : l.content = .shape shapes) (hm : l.maskLayer = none) (hms : l.masks = [])
    (hin : l.frames.contains fr = true) (hpl : PlainShapes shapes)
    (hsep : SeparatedIn (computeTransform ls l T fr) fr false none shapes)
    (h : LayerCalls c ls l ix T a fr ops) :
    ∃ per : List (List (Op F)),
      ops = [Op.beginGroup l.name ix] ++ per.reverse.flatten ++ [Op.endGroup] ∧
      List.Forall₂ (fun calls target => ∃ st br os, SameElements os target ∧
          calls = os.map fun o => Op.draw st o.transform br o.path)
        per (targetsOf (computeTransform ls l T fr) fr [] shapes) := by
  rw [layerCalls_cases] at h
  rcases h with ⟨h, -⟩ | ⟨-, mo, ms, co, hmo, hms', hco, rfl⟩
  · rw [hin] at h; cases h
  rw [hms] at hms'
  cases hms'
  have hmo' : mo = [] := by
    cases hmo with
    | none => rfl
    | dangling _ _ h' => rw [hm] at h'; cases h'
    | matte _ _ _ _ h' => rw [hm] at h'; cases h'
  subst hmo'
  cases hco with
  | none h => rw [hl] at h; cases h
  | missing _ _ h => rw [hl] at h; cases h
  | asset _ _ _ _ h => rw [hl] at h; cases h
  | shape shapes' b ops h hb hops =>
    rw [hl] at h
    cases h
    have st := plain_shapes shapes hpl PlainInv.empty (Nat.zero_le _) (pre := [])
      (SameElements.refl _) hsep hb
    have hib : b.InBounds := ⟨st.inv.ranges, fun d hd =>
      ⟨(st.inv.draws d hd).1, Nat.le_trans (st.inv.draws d hd).2 st.inv.drawn⟩⟩
    rw [render_ok hib] at hops
    cases hops
    obtain ⟨new, e, hf⟩ := st.new
    have e' : b.draws = new := e
    refine ⟨b.draws.map fun d => (b.painted d).map fun o =>
      Op.draw d.stroke o.transform d.finalBrush o.path, ?_, ?_⟩
    · rw [← List.map_reverse, List.flatMap_def]
      simp [layerOut, hm, hms]
    · rw [e', List.forall₂_map_left_iff]
      exact hf.imp fun d os h => ⟨_, _, _, h, rfl⟩

end

/-! ## C37 in exact arithmetic -/

section
variable [Kurbo ℝ]

/-- The paint of a fill or stroke subject to the given factors. -/
noncomputable def paintWith (a fr : ℝ) (p : List ℝ × Draw ℝ) : Paint ℝ :=
  ⟨p.2.stroke.map fun s => s.evaluate fr, p.2.brush.evaluate 1 fr, a * p.1.prod⟩

mutual
theorem paints_product_shape (sh : Shape ℝ) (a fr : ℝ) (before : List (List ℝ × Draw ℝ)) :
    sh.paints a fr (before.map (paintWith a fr)) = (sh.fills fr before).map (paintWith a fr) := by
  cases sh with
  | group shapes gt =>
    rw [Shape.paints, Shape.fills, List.map_append, List.map_map]
    congr 1
    have := paints_product shapes (a *. groupFactor gt fr) fr []
    rw [List.map_nil] at this
    rw [this]
    refine List.map_congr_left fun p _ => ?_
    simp only [paintWith, Function.comp, List.prod_cons, real_mul]
    rw [mul_assoc]
  | draw d =>
    rw [Shape.paints, Shape.fills, List.map_append]
    congr 1
    simp only [List.map_cons, List.map_nil, paintWith, Draw.paint, List.prod_singleton, real_lit,
      real_mul, real_div]
    rw [mul_div_assoc]
    push_cast
    rfl
  | repeater r =>
    rw [Shape.paints, Shape.fills, List.map_flatMap]
    congr 1
    funext i
    split
    · rfl
    · rw [List.map_map, List.map_map]
      refine List.map_congr_left fun p _ => ?_
      simp only [paintWith, Function.comp, List.prod_append, List.prod_singleton, real_mul]
      rw [mul_assoc]
  | geometry g => rw [Shape.paints, Shape.fills] <;> simp
  | trim t => rw [Shape.paints, Shape.fills] <;> simp

theorem paints_product (shs : List (Shape ℝ)) (a fr : ℝ) (before : List (List ℝ × Draw ℝ)) :
    paintsOf a fr shs (before.map (paintWith a fr))
      = (fillsOf fr shs before).map (paintWith a fr) := by
  cases shs with
  | nil => rw [paintsOf, fillsOf]
  | cons sh shs =>
    rw [paintsOf, fillsOf, paints_product_shape sh, paints_product shs]
end

/-- **C37**, shapes, in exact arithmetic: the opacity factor of each fill and stroke is the product
of the factor of the layer and of all the opacities it is subject to (`Shape.fills`). -/
theorem C37_product (shapes : List (Shape ℝ)) (a fr : ℝ) :
    paintsOf a fr shapes [] = (fillsOf fr shapes []).map fun p =>
      ⟨p.2.stroke.map fun s => s.evaluate fr, p.2.brush.evaluate 1 fr, a * p.1.prod⟩ :=
  paints_product shapes a fr []

end

/-! ## Examples -/

section
variable [Libm F64] [Kurbo F64]

/-- A path with one line. -/
def exLine : List (PathEl F64) := [.moveTo ⟨lit 7, lit 7⟩, .lineTo ⟨lit 8, lit 8⟩]

/-- A triangle, then a group without transform that fills a line. -/
def exCapture : List (Shape F64) :=
  [.geometry (.fixed exTriangle), .group [.geometry (.fixed exLine), .draw exFill] none]

/-- **C38** fails when a group's first geometry has the same transform as an undrawn geometry before
the group: the fill, which should paint the line, paints nothing at all. -/
theorem C38_counterexample :
    targetsOf Affine.identity (lit 0) [] exCapture = [[⟨Affine.identity.mul Affine.identity, exLine⟩]]
    ∧ PlainShapes exCapture ∧
    ∃ b, renderShapes exCapture Affine.identity (lit 1) (lit 0) Batch.empty = .ok b ∧
      b.draws.map b.painted = [[]] ∧ b.render = .ok [] := by
  refine ⟨rfl, ⟨trivial, ⟨trivial, trivial, trivial⟩, trivial⟩, ?_⟩
  have h : ((renderShapes exCapture Affine.identity (lit 1) (lit 0) Batch.empty).bind fun b =>
      b.render.map fun ops => (b.draws.map b.painted, ops)).toOption = some ([[]], []) := by
    kernel_decide
  cases hx : renderShapes exCapture Affine.identity (lit 1) (lit 0) Batch.empty with
  | error e => rw [hx] at h; cases h
  | ok b =>
    rw [hx] at h
    replace h : (b.render.map fun ops => (b.draws.map b.painted, ops)).toOption
      = some ([[]], []) := h
    cases hy : b.render with
    | error e => rw [hy] at h; cases h
    | ok ops =>
      rw [hy] at h
      have := Option.some.inj h
      have e2 : ops = [] := congrArg Prod.snd this
      exact ⟨b, rfl, congrArg Prod.fst this, by rw [hy, e2]⟩

/-- A triangle, a group with a transform that fills a line, then a line and a fill of everything. -/
def exTree : List (Shape F64) :=
  [.geometry (.fixed exTriangle),
    .group [.geometry (.fixed exLine), .draw exFill]
      (some ⟨.fixed (Affine.translate ⟨lit 1, lit 1⟩), .fixed (lit 50)⟩),
    .geometry (.fixed exLine), .draw exFill]

/-- `exTree` meets the hypotheses of `C38_targets_partial`; the inner fill should paint one outline,
the outer one three. -/
example : PlainShapes exTree ∧ SeparatedIn Affine.identity (lit 0) false none exTree ∧
    (targetsOf Affine.identity (lit 0) [] exTree).map List.length = [1, 3] ∧
    ((renderShapes exTree Affine.identity (lit 1) (lit 0) Batch.empty).bind fun b =>
      b.render.map List.length).toOption = some 4 := by
  refine ⟨by simp [exTree, PlainShapes, Shape.Plain], ?_, by kernel_decide, by kernel_decide⟩
  refine ⟨.inr ?_, ⟨.inr ?_, trivial, trivial⟩, .inl (by kernel_decide), trivial, trivial⟩
  · intro T0 h; cases h
  · intro T0 h
    cases h
    kernel_decide

/-- `exComp` meets the hypotheses of `C37_paints`, and the append makes draw calls, among them one
for a fill in the precomposition. -/
example : (exComp (F := F64)).PathsStartWithMove ∧
    ((Renderer.append 3 Renderer.new (exComp (F := F64)) (lit 1) Affine.identity (lit 1)).map
      fun p => (p.2.filter fun | .draw .. => true | _ => false).length).toOption = some 5 := by
  refine ⟨?_, by kernel_decide⟩
  intro l hl p hp
  have : p = exTriangle := by
    simp only [Composition.allLayers, exComp, exShapeLayer, exLayer] at hl
    simp at hl
    rcases hl with rfl | rfl | rfl | rfl | rfl | rfl <;>
      (try simp [Layer.geometries, geometriesOf, Shape.geometries] at hp) <;> exact hp
  subst this
  rfl

end
end Velato
