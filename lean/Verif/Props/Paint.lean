import Verif.Proofs.Paint
import Verif.Props.ShapeTree
import Verif.Props.Ignored
import Verif.Props.Playback

/-!
# C76 — fills and strokes paint with what the document says
-/

namespace Velato
open FloatOps (lit)
open Import

section
variable {F : Type} [FloatOps F] [Libm F] [Kurbo F]

omit [Libm F] in
theorem strokeAt_of_ok {s : Schema.BaseStroke F} {dj : Schema.LineJoin} {dc : Schema.LineCap}
    {k : AnimStroke F} (h : convStroke s dj dc = .ok k) (frame : F) :
    StrokeAt s dj dc frame (k.intoModel.evaluate frame) := by
  rw [C11_stroke]
  obtain ⟨w, hw, h⟩ := bind_ok h
  cases Except.ok.inj h
  refine ⟨⟨w, hw, rfl⟩, ?_, ?_, ?_⟩
  · unfold AnimStroke.evaluate
    cases s.miterLimit <;> simp
  · show match s.lineJoin.getD dj with
      | .miter => convJoin (s.lineJoin.getD dj) = .miter
      | .round => convJoin (s.lineJoin.getD dj) = .round
      | .bevel => convJoin (s.lineJoin.getD dj) = .bevel
    cases s.lineJoin.getD dj <;> rfl
  · show match s.lineCap.getD dc with
      | .butt => convCap (s.lineCap.getD dc) = .butt
      | .round => convCap (s.lineCap.getD dc) = .round
      | .square => convCap (s.lineCap.getD dc) = .square
    cases s.lineCap.getD dc <;> rfl

theorem brush_at_one [LawfulCmp F] (b : AnimBrush F) (frame : F) :
    b.intoModel.evaluate (lit 1) frame = b.evaluate (lit 1) frame := by
  unfold AnimBrush.intoModel
  split_ifs with h
  · show (if ((lit 1 : F) ==. lit 1) = true then _ else _) = _
    rw [if_pos ((LawfulCmp.eq_iff _ _).mpr ⟨1, 1, LawfulCmp.val_one, LawfulCmp.val_one, rfl⟩)]
    cases b with
    | solid v =>
      simp only [AnimBrush.evaluate]
      rw [Value.evaluateOr_fixed h _ frame]
    | gradient g => exact AnimGradient.evaluate_fixed h _ _
  · rfl

theorem solid_brush [LawfulCmp F] (v : Value F (Color F)) (frame : F) :
    (AnimBrush.solid v).intoModel.evaluate (lit 1) frame
      = .solid (v.evaluateOr frame Color.transparent).once := by
  rw [brush_at_one]
  rfl

theorem gradientAt_of_ok [LawfulCmp F] {g : Schema.BaseGradient F} {a : AnimGradient F}
    (h : convGradient g = .ok a) (frame : F) :
    GradientAt g frame ((AnimBrush.gradient a).intoModel.evaluate (lit 1) frame) := by
  rw [brush_at_one]
  obtain ⟨stops, hs, h⟩ := bind_ok h
  cases Except.ok.inj h
  refine ⟨stops, hs, ?_⟩
  show AnimGradient.evaluate _ _ = _
  unfold AnimGradient.evaluate
  dsimp only
  by_cases hr : g.gradientType = some .radial
  · rw [if_pos hr, if_pos (by rw [hr]; rfl)]
  · rw [if_neg hr, if_neg (by simpa using hr)]

/-- **C76.** A fill or stroke of the document paints, at every frame, with the stroke style, the
colour or gradient and the opacity that its properties have at that frame. -/
theorem C76_paint [LawfulCmp F] {s : Schema.AnyShape F} {d : Draw F} (h : convDraw s = .ok (some d))
    (alpha frame : F) : PaintOf alpha frame (d.paint alpha frame) s := by
  cases s with
  | fill s =>
    obtain ⟨o, ho, h⟩ := bind_ok h
    cases Except.ok.inj h
    exact ⟨rfl, solid_brush _ frame, _, ⟨o, ho, rfl⟩, rfl⟩
  | stroke s =>
    obtain ⟨k, hk, h⟩ := bind_ok h
    obtain ⟨o, ho, h⟩ := bind_ok h
    cases Except.ok.inj h
    exact ⟨⟨_, rfl, strokeAt_of_ok hk frame⟩, solid_brush _ frame, _, ⟨o, ho, rfl⟩, rfl⟩
  | gradientFill s =>
    obtain ⟨g, hg, h⟩ := bind_ok h
    cases Except.ok.inj h
    exact ⟨rfl, gradientAt_of_ok hg frame, rfl⟩
  | gradientStroke s =>
    obtain ⟨k, hk, h⟩ := bind_ok h
    obtain ⟨g, hg, h⟩ := bind_ok h
    cases Except.ok.inj h
    exact ⟨⟨_, rfl, strokeAt_of_ok hk frame⟩, gradientAt_of_ok hg frame, rfl⟩
  | _ => cases Except.ok.inj h

/-- **C76.** Every draw call of an append of an imported document is that of a fill or stroke of the
document: its stroke style and brush are those that the properties of the fill or stroke have at a
frame, with an opacity factor multiplied in.  Which factor and frame these are is said by `PaintIn`
(C37). -/
theorem C76_calls [LawfulCmp F] [KurboPaths F] {doc : Schema.Animation F} {c : Composition F}
    (h : convAnimation doc = .ok c) {r r' : Renderer F} (hr : Reachable r) {fr : F} {T : Affine F}
    {a : F} {ops : List (Op F)} (hops : AppendCalls r c fr T a r' ops) {st : Option (KStroke F)}
    {T' : Affine F} {br : Brush F} {path : List (PathEl F)} (hop : Op.draw st T' br path ∈ ops) :
    ∃ p, PaintIn c c.layers a fr p ∧ st = p.stroke ∧ br = p.finalBrush ∧
      ∃ t, doc.HasShape t ∧ ∃ alpha frame, PaintOf alpha frame p t := by
  obtain ⟨p, hp, h1, h2⟩ := C37_paints (imported_paths h) hr hops hop
  have key : ∀ {ls alpha frame p}, PaintIn c ls alpha frame p → (∀ l ∈ ls, l ∈ c.allLayers) →
      ∃ t, doc.HasShape t ∧ ∃ alpha frame, PaintOf alpha frame p t := by
    intro ls alpha frame p hp
    induction hp with
    | @shape ls alpha frame l shapes p hl hc hf hp =>
      intro hls
      obtain ⟨s, hs, q, rfl, hq⟩ := imported_shapes h (hls l hl) hc
      rcases paints_of_draws shapes (keepsItems_noRepeaters _ (C53_shapes _ hq)) _ frame [] hp with
        h' | ⟨d, hd, a', rfl⟩
      · cases h'
      · obtain ⟨x, hx, u, hu, hc⟩ := convShapes_draws hq hd
        exact ⟨u, ⟨_, hs, q, rfl, x, hx, hu⟩, a', frame, C76_paint hc a' frame⟩
    | precomp hl hc hf ha hp ih => exact fun _ => ih (asset_mem ha)
  obtain ⟨t, ht, al, f, hpo⟩ := key hp fun l hl => List.mem_append_left _ hl
  exact ⟨p, hp, h1, h2, t, ht, al, f, hpo⟩

end

theorem Color.once_real (c : Color ℝ) : c.once = c := by
  unfold Color.once mulF32
  simp

section
variable [Kurbo ℝ]

/-- **C76.** A fill whose properties are not animated: its colour is the declared one, opaque, and
its opacity the declared one, at every frame. -/
theorem C76_static_fill {s : Schema.FillShape ℝ} {x0 x1 x2 o : ℝ} {xs : List ℝ}
    (hc : s.color.value = .static (x0 :: x1 :: x2 :: xs))
    (ho : s.shapeStyle.opacity.value = .static o) :
    ∃ d, convDraw (.fill s) = .ok (some d) ∧ ∀ alpha frame,
      d.paint alpha frame = ⟨none, .solid ⟨x0, x1, x2, 1⟩, alpha * (o / 100)⟩ := by
  have hco : convColor s.color = .fixed ⟨x0, x1, x2, 1⟩ := by
    unfold convColor convMulti
    rw [hc]
    simp [toColor]
  have hsc : convScalar s.shapeStyle.opacity = .ok (.fixed o) := by
    unfold convScalar
    rw [ho]
  have hd : convDraw (.fill s) = .ok (some ⟨none, (AnimBrush.solid (convColor s.color)).intoModel,
      .fixed o⟩) := by
    show (convScalar s.shapeStyle.opacity >>= _) = _
    rw [hsc]
    rfl
  refine ⟨_, hd, fun alpha frame => ?_⟩
  obtain ⟨h1, h2, o', ⟨v, hv, ho'⟩, h3⟩ := C76_paint hd alpha frame
  rw [hsc] at hv
  cases Except.ok.inj hv
  have h2' : (convColor s.color).evaluateOr frame invisible = ⟨x0, x1, x2, 1⟩ := by
    rw [hco]
    rfl
  rw [h2'] at h2
  cases hp : Draw.paint _ alpha frame with
  | mk st b al =>
    rw [hp] at h1 h2 h3
    simp only at h1 h2 h3
    rw [h1, h2, h3, ho', Color.once_real]
    congr 1
    simp [Value.evaluate, mul_div_assoc]

/-- **C76.** A stroke whose properties are not animated. -/
theorem C76_static_stroke {s : Schema.StrokeShape ℝ} {x0 x1 x2 o w : ℝ} {xs : List ℝ}
    (hc : s.strokeColor.value = .static (x0 :: x1 :: x2 :: xs))
    (ho : s.shapeStyle.opacity.value = .static o) (hw : s.baseStroke.width.value = .static w) :
    ∃ d k, convDraw (.stroke s) = .ok (some d) ∧ k.width = w ∧
      k.miterLimit = s.baseStroke.miterLimit.getD 4 ∧ ∀ alpha frame,
      d.paint alpha frame = ⟨some k, .solid ⟨x0, x1, x2, 1⟩, alpha * (o / 100)⟩ := by
  have hco : convColor s.strokeColor = .fixed ⟨x0, x1, x2, 1⟩ := by
    unfold convColor convMulti
    rw [hc]
    simp [toColor]
  have hsc : convScalar s.shapeStyle.opacity = .ok (.fixed o) := by
    unfold convScalar
    rw [ho]
  have hsw : convScalar s.baseStroke.width = .ok (.fixed w) := by
    unfold convScalar
    rw [hw]
  obtain ⟨a, ha⟩ : ∃ a, convStroke s.baseStroke .bevel .butt = .ok a := by
    unfold convStroke
    rw [hsw]
    exact ⟨_, rfl⟩
  have hd : convDraw (.stroke s) = .ok (some ⟨some a.intoModel,
      (AnimBrush.solid (convColor s.strokeColor)).intoModel, .fixed o⟩) := by
    show (convStroke s.baseStroke .bevel .butt >>= _) = _
    rw [ha]
    show (convScalar s.shapeStyle.opacity >>= _) = _
    rw [hsc]
    rfl
  have hk : ∀ frame, a.intoModel.evaluate frame = a.intoModel.evaluate 0 := by
    intro frame
    rw [C11_stroke, C11_stroke]
    unfold convStroke at ha
    rw [hsw] at ha
    cases Except.ok.inj ha
    rfl
  obtain ⟨⟨k, hk0, hs⟩, -⟩ := C76_paint hd 1 0
  have hka : k = a.intoModel.evaluate 0 := (Option.some.inj hk0).symm
  refine ⟨_, k, hd, ?_, hs.miter, fun alpha frame => ?_⟩
  · obtain ⟨v, hv, h⟩ := hs.width
    rw [hsw] at hv
    cases Except.ok.inj hv
    exact h
  obtain ⟨-, h2, o', ⟨v, hv, ho'⟩, h3⟩ := C76_paint hd alpha frame
  rw [hsc] at hv
  cases Except.ok.inj hv
  have h2' : (convColor s.strokeColor).evaluateOr frame invisible = ⟨x0, x1, x2, 1⟩ := by
    rw [hco]
    rfl
  rw [h2'] at h2
  have h1 : (Draw.paint (⟨some a.intoModel, (AnimBrush.solid (convColor s.strokeColor)).intoModel,
      .fixed o⟩ : Draw ℝ) alpha frame).stroke = some k := by
    show some (a.intoModel.evaluate frame) = some k
    rw [hk, hka]
  cases hp : Draw.paint _ alpha frame with
  | mk st b al =>
    rw [hp] at h1 h2 h3
    simp only at h1 h2 h3
    rw [h1, h2, h3, ho', Color.once_real]
    congr 1
    simp [Value.evaluate, mul_div_assoc]

/-- **C76.** A fill with an animated colour whose keyframes have the same easing for all channels:
its colour is the one the keyframes of the document give it. -/
theorem C76_animated_fill (hk : ExactSolver) {s : Schema.FillShape ℝ} {d : Draw ℝ}
    (h : convDraw (.fill s) = .ok (some d)) {ks : List (Schema.Keyframe ℝ)}
    (hp : s.color.value = .animatedValue ks) (hs : InOrder (·.base) ks) (hne : ks ≠ [])
    (he : ∀ k ∈ ks, OneEasing k.base) (hv : ∀ k ∈ ks, 3 ≤ k.value.length) (alpha frame : ℝ) :
    ∃ c, (d.paint alpha frame).brush = .solid c ∧
      Shown 0 (ks.map fun k => (k.base, k.value.getD 0 0)) frame c.r ∧
      Shown 1 (ks.map fun k => (k.base, k.value.getD 1 0)) frame c.g ∧
      Shown 2 (ks.map fun k => (k.base, k.value.getD 2 0)) frame c.b := by
  obtain ⟨-, h2, -⟩ := C76_paint h alpha frame
  exact ⟨_, h2, C68_colors_partial hk hp hs hne he hv frame Color.transparent⟩

end

/-! ## Documents -/

section
variable {F : Type} [FloatOps F]

/-- A gradient stroke, radial, of width 3 that names neither join nor cap nor miter limit. -/
def exGradientStroke : Schema.AnyShape F :=
  .gradientStroke ⟨⟨exElement, exStatic (lit 50)⟩,
    ⟨none, none, none, none, exStatic (lit 3), none⟩,
    ⟨⟨⟨exStatic [lit 0, lit 1, lit 0, lit 0, lit 1, lit 0, lit 1, lit 0], none⟩, 2⟩,
      ⟨exStatic [lit 0, lit 0], none⟩, ⟨exStatic [lit 3, lit 4], none⟩, some .radial, none, none⟩⟩

/-- A stroke of width 3 with a miter join and limit 7. -/
def exStrokeShape : Schema.AnyShape F :=
  .stroke ⟨⟨exElement, exStatic (lit 50)⟩, ⟨none, some .miter, some (lit 7), none, exStatic (lit 3), none⟩,
    exStatic [lit 1, lit 0, lit 0]⟩

end

/-- The hypothesis of `C76_paint` is met, and what it says of this stroke: radius 5, width 3, miter
limit 4, round joins and caps. -/
example [Kurbo ℝ] (frame : ℝ) : ∃ d, convDraw (exGradientStroke (F := ℝ)) = .ok (some d) ∧
    (∃ stops, (d.paint 1 frame).brush = .gradient (.radial ⟨0, 0⟩ 5) stops) ∧
    (d.paint 1 frame).stroke = some ⟨3, .round, 4, .round⟩ := by
  refine ⟨_, rfl, ?_, ?_⟩
  · obtain ⟨-, ⟨stops, -, h⟩, -⟩ := C76_paint (s := exGradientStroke) rfl 1 frame
    refine ⟨stops.evaluate frame, h.trans ?_⟩
    dsimp only
    rw [if_pos rfl]
    congr 1
    have h5 : dist2 ((convMultiP2 (⟨exStatic [lit 0, lit 0], none⟩ :
        Schema.MultiDimensional ℝ)).evaluate frame)
        ((convMultiP2 (⟨exStatic [lit 3, lit 4], none⟩ : Schema.MultiDimensional ℝ)).evaluate frame)
        = 5 := by
      show Real.sqrt (((lit 3 : ℝ) - lit 0) ^ 2 + ((lit 4 : ℝ) - lit 0) ^ 2) = 5
      rw [show ((lit 3 : ℝ) - lit 0) ^ 2 + ((lit 4 : ℝ) - lit 0) ^ 2 = 5 ^ 2 by simp; norm_num]
      exact Real.sqrt_sq (by norm_num)
    refine congr (congrArg GradientKind.radial ?_) h5
    show (⟨lit 0, lit 0⟩ : P2 ℝ) = _
    simp
  · obtain ⟨⟨k, hk, hs⟩, -, -⟩ := C76_paint (s := exGradientStroke) rfl 1 frame
    refine hk.trans (congrArg some ?_)
    obtain ⟨⟨v, hv, hw⟩, hm, hj, hc⟩ := hs
    cases Except.ok.inj hv
    cases k
    simp only at hw hm hj hc
    subst hj hc
    rw [hw, hm]
    show (⟨(lit 3 : ℝ), _, _, _⟩ : KStroke ℝ) = _
    simp

/-- The hypotheses of `C76_static_stroke` (and `C76_static_fill`) are met: a red stroke. -/
example [Kurbo ℝ] : ∃ d k, convDraw (exStrokeShape (F := ℝ)) = .ok (some d) ∧ k.width = 3 ∧
    k.miterLimit = 7 ∧ ∀ alpha frame, d.paint alpha frame
      = ⟨some k, .solid ⟨1, 0, 0, 1⟩, alpha * (50 / 100)⟩ := by
  have := C76_static_stroke (s := ⟨⟨exElement, exStatic (lit 50)⟩,
    ⟨none, some .miter, some (lit 7), none, exStatic (lit 3), none⟩,
    exStatic [lit 1, lit 0, lit 0]⟩) rfl rfl rfl
  simpa [exStrokeShape] using this

/-- The hypotheses of `C76_animated_fill` are met: red becomes blue. -/
example [Kurbo ℝ] : ∃ (s : Schema.FillShape ℝ) (d : Draw ℝ) (ks : List (Schema.Keyframe ℝ)),
    convDraw (.fill s) = .ok (some d) ∧ s.color.value = .animatedValue ks ∧
    InOrder (·.base) ks ∧ ks.length = 2 ∧ (∀ k ∈ ks, OneEasing k.base) ∧
    ∀ k ∈ ks, 3 ≤ k.value.length := by
  refine ⟨⟨⟨exElement, exStatic (lit 50)⟩, ⟨none, none, none, none, .animatedValue
    [⟨⟨0, none, none, none⟩, [1, 0, 0], none⟩, ⟨⟨9, none, none, none⟩, [0, 0, 1], none⟩]⟩, none⟩, _, _,
    rfl, rfl, ?_, rfl, ?_, ?_⟩
  · simp [InOrder]
  · simp [OneEasing]
  · simp

/-- The hypotheses of `C76_calls` are met: the document below is imported, in every arithmetic, and
its rendering makes draw calls, one of them of a stroke. -/
example [Kurbo ℝ] [Libm ℝ] : ∃ c, convAnimation (exAttrDoc (F := ℝ) [exTriangleShape, exStrokeShape] []
    none) = .ok c := ⟨_, rfl⟩

example [Kurbo F64] [Libm F64] :
    (convAnimation (exAttrDoc (F := F64) [exTriangleShape, exStrokeShape] [] none) >>= fun c =>
      (Renderer.append 3 Renderer.new c (lit 1) Affine.identity (lit 1)).map fun p =>
        p.2.flatMap fun | .draw st _ _ _ => [st.map fun k => (k.width, k.miterLimit)] | _ => []).toOption
      = some [none, some (lit 3, lit 7)] := by
  kernel_decide

end Velato
