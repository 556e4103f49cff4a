import Verif.Proofs.Picture
import Verif.Proofs.Fade
import Verif.Props.Compositing
import Verif.Spec.Examples

/-!
# Pictures of faded calls: helper lemmas
-/

namespace Velato
open FloatOps (lit)

/-! ### Nothing is visible at opacity 0 -/

theorem Pixel.ofColor_fade (α : ℝ) (c : Color ℝ) :
    Pixel.ofColor (c.fade α) = (Pixel.ofColor c).scale α := by
  apply Pixel.ext <;> simp [Pixel.ofColor, Pixel.scale, Color.fade] <;> ring

theorem Rasteriser.compose_clear (R : Rasteriser) (b : BlendMode) :
    R.compose b .clear .clear = .clear := by
  unfold Rasteriser.compose
  dsimp only
  have : (if b.mix = .normal then Pixel.clear
      else Pixel.ofColor { R.mix b.mix .clear .clear with a := Pixel.clear.a }) = .clear := by
    split
    · rfl
    · apply Pixel.ext <;> simp [Pixel.ofColor, Pixel.clear]
  rw [this]
  cases b.compose <;> simp [Pixel.over_clear, Pixel.scale_clear]

/-- No picture in the state shows anything. -/
def AllClear (s : Pixel × List OpenLayer) : Prop := s.1 = .clear ∧ ∀ o ∈ s.2, o.below = .clear

theorem AllClear.step {R : Rasteriser} (hR : R.Fades) {s : Pixel × List OpenLayer}
    (h : AllClear s) (op : Op ℝ) : AllClear (R.step s (op.fade 0)) := by
  obtain ⟨p, st⟩ := s
  obtain ⟨rfl, h⟩ := h
  cases op with
  | pushLayer b al T sh =>
    refine ⟨rfl, fun o ho => ?_⟩
    rcases List.mem_cons.mp ho with rfl | ho
    · rfl
    · exact h o ho
  | pushClip T sh =>
    refine ⟨rfl, fun o ho => ?_⟩
    rcases List.mem_cons.mp ho with rfl | ho
    · rfl
    · exact h o ho
  | pop =>
    cases st with
    | nil => exact ⟨rfl, h⟩
    | cons o st =>
      refine ⟨?_, fun o' ho => h o' (by simp [show o' ∈ st from ho])⟩
      show R.compose o.blend (Pixel.clear.scale o.opacity) o.below = _
      rw [Pixel.scale_clear, h o (by simp), Rasteriser.compose_clear]
  | draw s T b path =>
    refine ⟨?_, h⟩
    show ((Pixel.ofColor (R.colour (b.fade 0) T)).scale _).over .clear = _
    rw [hR, Pixel.ofColor_fade, Pixel.scale_zero, Pixel.scale_clear, Pixel.over_clear]
  | beginGroup n i => exact ⟨rfl, h⟩
  | endGroup => exact ⟨rfl, h⟩

theorem Rasteriser.picture_fade_zero {R : Rasteriser} (hR : R.Fades) (ops : List (Op ℝ)) :
    R.picture (ops.map (Op.fade 0)) .clear = .clear := by
  have : ∀ (ops : List (Op ℝ)) s, AllClear s → AllClear (R.run (ops.map (Op.fade 0)) s) := by
    intro ops
    induction ops with
    | nil => intro s h; exact h
    | cons o ops ih => intro s h; exact ih _ (h.step hR o)
  exact (this ops _ ⟨rfl, by simp⟩).1

/-! ### One visible drawing -/

/-- At most one of the pictures in the state shows something; the second state is the first one
faded. -/
inductive FadedLone (α : ℝ) : Bool → Pixel × List OpenLayer → Pixel × List OpenLayer → Prop
  /-- nothing is visible -/
  | clear (st) : (∀ o ∈ st, o.below = .clear ∧ o.blend = BlendMode.ofMix .normal) →
      FadedLone α false (.clear, st) (.clear, st)
  /-- the innermost picture shows something -/
  | top (p st) : (∀ o ∈ st, o.below = .clear ∧ o.blend = BlendMode.ofMix .normal) →
      FadedLone α true (p, st) (p.scale α, st)
  /-- another picture shows something -/
  | below (st st' p k) : (∀ o ∈ st ++ st', o.below = .clear ∧ o.blend = BlendMode.ofMix .normal) →
      FadedLone α true (.clear, st ++ ⟨p, BlendMode.ofMix .normal, k⟩ :: st')
        (.clear, st ++ ⟨p.scale α, BlendMode.ofMix .normal, k⟩ :: st')

theorem compose_clear_left (R : Rasteriser) (p : Pixel) (k : ℝ) :
    R.compose (BlendMode.ofMix .normal) (Pixel.clear.scale k) p = p := by
  rw [Rasteriser.compose_over, Pixel.scale_clear, Pixel.clear_over]

/-- A call that draws nothing. -/
theorem FadedLone.step {R : Rasteriser} {α : ℝ} {v : Bool} {s s' : Pixel × List OpenLayer}
    (h : FadedLone α v s s') (op : Op ℝ) (hp : ∀ b k T sh, op ≠ .pushLayer b k T sh)
    (hc : ¬ op.Covers R) : FadedLone α v (R.step s op) (R.step s' (op.fade α)) := by
  cases op with
  | pushLayer b al T sh => exact absurd rfl (hp b al T sh)
  | pushClip T sh =>
    cases h with
    | clear st h =>
      exact .clear (_ :: st) (by simpa using h)
    | top p st h => exact .below [] st p _ (by simpa using h)
    | below st st' p k h =>
      exact .below (⟨.clear, BlendMode.ofMix .normal, R.clip T sh⟩ :: st) st' p k (by
        intro o ho
        rcases List.mem_cons.mp ho with rfl | ho
        · exact ⟨rfl, rfl⟩
        · exact h o ho)
  | pop =>
    cases h with
    | clear st h =>
      cases st with
      | nil => exact .clear [] h
      | cons o st =>
        obtain ⟨ob, obl, ok⟩ := o
        obtain ⟨h1, h2⟩ := h ⟨ob, obl, ok⟩ (by simp)
        dsimp only at h1 h2
        subst h1 h2
        show FadedLone α false (R.compose _ (Pixel.clear.scale ok) .clear, st)
          (R.compose _ (Pixel.clear.scale ok) .clear, st)
        rw [compose_clear_left]
        exact .clear st fun o ho => h o (by simp [ho])
    | top p st h =>
      cases st with
      | nil => exact .top p [] h
      | cons o st =>
        obtain ⟨ob, obl, ok⟩ := o
        obtain ⟨h1, h2⟩ := h ⟨ob, obl, ok⟩ (by simp)
        dsimp only at h1 h2
        subst h1 h2
        show FadedLone α true (R.compose _ (p.scale ok) .clear, st)
          (R.compose _ ((p.scale α).scale ok) .clear, st)
        rw [Rasteriser.compose_over, Rasteriser.compose_over, Pixel.over_clear, Pixel.over_clear,
          Pixel.scale_scale, mul_comm, ← Pixel.scale_scale]
        exact .top _ st fun o ho => h o (by simp [ho])
    | below st st' p k h =>
      cases st with
      | nil =>
        show FadedLone α true (R.compose _ (Pixel.clear.scale k) p, st')
          (R.compose _ (Pixel.clear.scale k) (p.scale α), st')
        rw [compose_clear_left, compose_clear_left]
        exact .top p st' fun o ho => h o (by simpa using ho)
      | cons o st =>
        obtain ⟨ob, obl, ok⟩ := o
        obtain ⟨h1, h2⟩ := h ⟨ob, obl, ok⟩ (by simp)
        dsimp only at h1 h2
        subst h1 h2
        show FadedLone α true (R.compose _ (Pixel.clear.scale ok) .clear, st ++ _)
          (R.compose _ (Pixel.clear.scale ok) .clear, st ++ _)
        rw [compose_clear_left]
        exact .below st st' p k fun o ho => h o (by simp at ho ⊢; tauto)
  | draw s T b path =>
    have h0 : R.cover s T path = 0 := by
      by_contra h0
      exact hc h0
    have : ∀ (b : Brush ℝ) (s' : Pixel × List OpenLayer), R.step s' (.draw s T b path) = s' := by
      rintro b ⟨p, st⟩
      show (((Pixel.ofColor (R.colour b T)).scale (R.cover s T path)).over p, st) = (p, st)
      rw [h0, Pixel.scale_zero, Pixel.clear_over]
    rw [show (Op.draw s T b path).fade α = .draw s T (b.fade α) path from rfl, this, this]
    exact h
  | beginGroup n i => exact h
  | endGroup => exact h

/-- A drawing, where nothing is visible so far. -/
theorem FadedLone.draw {R : Rasteriser} (hR : R.Fades) {α : ℝ} {s s' : Pixel × List OpenLayer}
    (h : FadedLone α false s s') (op : Op ℝ) (hc : op.Covers R) :
    FadedLone α true (R.step s op) (R.step s' (op.fade α)) := by
  cases op with
  | draw s T b path =>
    cases h with
    | clear st h =>
      show FadedLone α true (((Pixel.ofColor (R.colour b T)).scale (R.cover s T path)).over .clear, st)
        (((Pixel.ofColor (R.colour (b.fade α) T)).scale (R.cover s T path)).over .clear, st)
      rw [hR, Pixel.ofColor_fade, Pixel.over_clear, Pixel.over_clear, Pixel.scale_scale, mul_comm,
        ← Pixel.scale_scale]
      exact .top _ st h
  | _ => exact hc.elim

theorem Rasteriser.picture_fade_lone {R : Rasteriser} (hR : R.Fades) (α : ℝ) {ops : List (Op ℝ)}
    (hp : ∀ b k T sh, Op.pushLayer b k T sh ∉ ops)
    (hone : ops.Pairwise fun x y => ¬ (x.Covers R ∧ y.Covers R)) :
    R.picture (ops.map (Op.fade α)) .clear = (R.picture ops .clear).scale α := by
  have hT : ∀ (ops : List (Op ℝ)) (v : Bool) (s s' : Pixel × List OpenLayer), FadedLone α v s s' →
      (∀ b k T sh, Op.pushLayer b k T sh ∉ ops) →
      ops.Pairwise (fun x y => ¬ (x.Covers R ∧ y.Covers R)) →
      (v = true → ∀ op ∈ ops, ¬ op.Covers R) →
      ∃ v', FadedLone α v' (R.run ops s) (R.run (ops.map (Op.fade α)) s') := by
    intro ops
    induction ops with
    | nil => intro v s s' h _ _ _; exact ⟨v, h⟩
    | cons o ops ih =>
      intro v s s' h hp hone hv
      have hp' : ∀ b k T sh, Op.pushLayer b k T sh ∉ ops :=
        fun b k T sh hm => hp b k T sh (by simp [hm])
      have ho : ∀ b k T sh, o ≠ .pushLayer b k T sh := by
        rintro b k T sh rfl
        exact hp b k T sh (by simp)
      obtain ⟨h1, h2⟩ := List.pairwise_cons.mp hone
      by_cases hc : o.Covers R
      · cases v with
        | true => exact absurd hc (hv rfl o (by simp))
        | false => exact ih true _ _ (h.draw hR o hc) hp' h2 fun _ op hop hcov => h1 op hop ⟨hc, hcov⟩
      · exact ih v _ _ (h.step o ho hc) hp' h2 fun hv' op hop => hv hv' op (by simp [hop])
  obtain ⟨v, h⟩ := hT ops false (.clear, []) (.clear, []) (.clear [] (by simp)) hp hone (by simp)
  unfold Rasteriser.picture
  generalize R.run ops (.clear, []) = s at h
  generalize R.run (ops.map (Op.fade α)) (.clear, []) = s' at h
  cases h with
  | clear => rw [Pixel.scale_clear]
  | top => rfl
  | below => rw [Pixel.scale_clear]

theorem Op.noLayer_of_fade {α : ℝ} {ops : List (Op ℝ)}
    (hp : ∀ b k T sh, Op.pushLayer b k T sh ∉ ops.map (Op.fade α)) :
    ∀ b k T sh, Op.pushLayer b k T sh ∉ ops :=
  fun b k T sh h => hp b k T sh (List.mem_map.mpr ⟨_, h, rfl⟩)

theorem Op.covers_fade (R : Rasteriser) (α : ℝ) (op : Op ℝ) :
    (op.fade α).Covers R ↔ op.Covers R := by
  cases op <;> rfl

theorem Op.lone_of_fade {R : Rasteriser} {α : ℝ} {ops : List (Op ℝ)}
    (h : (ops.map (Op.fade α)).Pairwise fun x y => ¬ (x.Covers R ∧ y.Covers R)) :
    ops.Pairwise fun x y => ¬ (x.Covers R ∧ y.Covers R) := by
  rw [List.pairwise_map] at h
  exact h.imp fun hxy hc => hxy ⟨(Op.covers_fade R α _).mpr hc.1, (Op.covers_fade R α _).mpr hc.2⟩

/-! ### Bounds -/

/-- Opacities `x` of the picture and `y` of the faded picture. -/
def FadeBound (α x y : ℝ) : Prop := 0 ≤ x ∧ x ≤ 1 ∧ α * x ≤ y ∧ y ≤ x

inductive FadeStack (α : ℝ) : List OpenLayer → List OpenLayer → Prop
  | nil : FadeStack α [] []
  | cons {p p' k st st'} : FadeBound α p.a p'.a → 0 ≤ k → k ≤ 1 → FadeStack α st st' →
      FadeStack α (⟨p, BlendMode.ofMix .normal, k⟩ :: st) (⟨p', BlendMode.ofMix .normal, k⟩ :: st')

theorem FadeBound.over {α : ℝ} (h0 : 0 ≤ α) {x y x' y' : ℝ} (h : FadeBound α x y)
    (h' : FadeBound α x' y') : FadeBound α (x + (1 - x) * x') (y + (1 - y) * y') := by
  obtain ⟨a1, a2, a3, a4⟩ := h
  obtain ⟨b1, b2, b3, b4⟩ := h'
  have c1 : 0 ≤ α * x := mul_nonneg h0 a1
  have c2 : 0 ≤ α * x' := mul_nonneg h0 b1
  refine ⟨?_, ?_, ?_, ?_⟩
  · nlinarith
  · nlinarith
  · nlinarith [mul_nonneg (sub_nonneg.mpr a4) b1, mul_nonneg (sub_nonneg.mpr a3) (sub_nonneg.mpr b2),
      mul_nonneg (sub_nonneg.mpr (a4.trans a2)) (sub_nonneg.mpr b3),
      mul_nonneg (mul_nonneg h0 b1) (sub_nonneg.mpr a4)]
  · nlinarith [mul_nonneg (sub_nonneg.mpr a4) (sub_nonneg.mpr b2),
      mul_nonneg (sub_nonneg.mpr (a4.trans a2)) (sub_nonneg.mpr b4)]

theorem FadeBound.scale {α x y k : ℝ} (h : FadeBound α x y) (hk : 0 ≤ k) (hk1 : k ≤ 1) :
    FadeBound α (k * x) (k * y) := by
  obtain ⟨a1, a2, a3, a4⟩ := h
  exact ⟨mul_nonneg hk a1, by nlinarith, by nlinarith, by nlinarith⟩

theorem FadeBound.step {R : Rasteriser} (hR : R.Fades) (hU : R.Unit) {α : ℝ} (h0 : 0 ≤ α)
    (h1 : α ≤ 1) {p p' : Pixel} {st st' : List OpenLayer} (h : FadeBound α p.a p'.a)
    (hs : FadeStack α st st') (op : Op ℝ) (hp : ∀ b k T sh, op ≠ .pushLayer b k T sh)
    (hb : op.UnitBrush R) :
    FadeBound α (R.step (p, st) op).1.a (R.step (p', st') (op.fade α)).1.a ∧
      FadeStack α (R.step (p, st) op).2 (R.step (p', st') (op.fade α)).2 := by
  have hz : FadeBound α Pixel.clear.a Pixel.clear.a := by simp [FadeBound, Pixel.clear]
  cases op with
  | pushLayer b al T sh => exact absurd rfl (hp b al T sh)
  | pushClip T sh => exact ⟨hz, .cons h (hU.clip T sh).1 (hU.clip T sh).2 hs⟩
  | pop =>
    cases hs with
    | nil => exact ⟨h, .nil⟩
    | @cons q q' k st st' hq k0 k1 hst =>
      refine ⟨?_, hst⟩
      show FadeBound α (R.compose (BlendMode.ofMix .normal) (p.scale k) q).a
        (R.compose (BlendMode.ofMix .normal) (p'.scale k) q').a
      rw [Rasteriser.compose_over, Rasteriser.compose_over]
      exact (h.scale k0 k1).over h0 hq
  | draw s T b path =>
    refine ⟨?_, hs⟩
    show FadeBound α (((Pixel.ofColor (R.colour b T)).scale (R.cover s T path)).over p).a
      (((Pixel.ofColor (R.colour (b.fade α) T)).scale (R.cover s T path)).over p').a
    rw [hR]
    refine FadeBound.over h0 (FadeBound.scale ?_ (hU.cover s T path).1 (hU.cover s T path).2) h
    obtain ⟨c0, c1⟩ := hb
    exact ⟨c0, c1, le_refl _, by simp only [Pixel.ofColor, Color.fade]; nlinarith⟩
  | beginGroup n i => exact ⟨h, hs⟩
  | endGroup => exact ⟨h, hs⟩

theorem Rasteriser.picture_fade_bound {R : Rasteriser} (hR : R.Fades) (hU : R.Unit) {α : ℝ}
    (h0 : 0 ≤ α) (h1 : α ≤ 1) {ops : List (Op ℝ)} (hp : ∀ b k T sh, Op.pushLayer b k T sh ∉ ops)
    (hb : ∀ op ∈ ops, op.UnitBrush R) :
    FadeBound α (R.picture ops .clear).a (R.picture (ops.map (Op.fade α)) .clear).a := by
  have : ∀ (ops : List (Op ℝ)) (p p' : Pixel) (st st' : List OpenLayer),
      (∀ b k T sh, Op.pushLayer b k T sh ∉ ops) → (∀ op ∈ ops, op.UnitBrush R) → FadeBound α p.a p'.a → FadeStack α st st' →
      FadeBound α (R.run ops (p, st)).1.a (R.run (ops.map (Op.fade α)) (p', st')).1.a := by
    intro ops
    induction ops with
    | nil => intro p p' st st' _ _ h _; exact h
    | cons o ops ih =>
      intro p p' st st' hp hbr h hs
      obtain ⟨ha, hb⟩ := h.step hR hU h0 h1 hs o (by
        rintro b k T sh rfl
        exact hp b k T sh (by simp)) (hbr o (by simp))
      exact ih _ _ _ _ (fun b k T sh hm => hp b k T sh (by simp [hm]))
        (fun op hop => hbr op (by simp [hop])) ha hb
  exact this ops _ _ _ _ hp hb (by simp [FadeBound, Pixel.clear]) .nil

/-! ### An example: a layer that fills a triangle -/

variable [Kurbo ℝ]

/-- The calls of `exTwice`. -/
theorem exTwice_calls (c : Composition ℝ) (ls : List (Layer ℝ)) (name : String) (ix : Nat) (o a : ℝ) :
    LayerCalls c ls (exTwice name o)
      ix Affine.identity a 1
      [.beginGroup name ix,
       .draw none Affine.identity (.solid ⟨1, 0, 0, a * o / 100⟩) exTriangle,
       .draw none Affine.identity (.solid ⟨1, 0, 0, a * o / 100⟩) exTriangle,
       .endGroup] := by
  rw [layerCalls_iff]
  refine ⟨1, ?_⟩
  show layerBody c _ ls _ ix _ a 1 = _
  unfold layerBody
  dsimp only
  rw [if_neg (by simp [exTwice, exLayer, FRange.contains])]
  have hT : ∀ (o : Value ℝ ℝ) (ct : Content ℝ), computeTransform ls { exLayer name ct with opacity := o }
      Affine.identity 1 = Affine.identity := by
    intro o ct
    simp [computeTransform, exLayer, chaseParents, Transform.evaluate, Affine.mul, Affine.identity]
  rw [exTwice, hT]
  simp only [matteOps, contentOps, exLayer, renderShapes, renderShapesFrom, renderShape,
    Batch.pushGeometry, Batch.pushDraw, Batch.empty, Geometry.evaluate, Batch.canMerge]
  have hb : ∀ {α β : Type} (x : α) (f : α → Except Fault β), (Except.ok x >>= f) = f x :=
    fun _ _ => rfl
  simp only [hb]
  simp [hb, Batch.render, Batch.renderDraw, layerOut, sliceRange, DrawData.finalBrush_eq,
    DrawData.new, Brush.fade, Color.fade, Value.evaluate, MBrush.evaluate]

/-- The calls of `exShapeLayer`. -/
theorem exShapeLayer_calls (c : Composition ℝ) (ls : List (Layer ℝ)) (name : String) (ix : Nat) (b : Bool)
    (a : ℝ) :
    LayerCalls c ls { exShapeLayer name with isMask := b }
      ix Affine.identity a 1
      [.beginGroup name ix,
       .draw none Affine.identity (.solid ⟨1, 0, 0, a * 50 / 100⟩) exTriangle,
       .endGroup] := by
  rw [layerCalls_iff]
  refine ⟨1, ?_⟩
  show layerBody c _ ls _ ix _ a 1 = _
  unfold layerBody
  dsimp only
  rw [if_neg (by simp [exShapeLayer, exLayer, FRange.contains])]
  have hT : ∀ (ct : Content ℝ), computeTransform ls { exLayer name ct with isMask := b }
      Affine.identity 1 = Affine.identity := by
    intro ct
    simp [computeTransform, exLayer, chaseParents, Transform.evaluate, Affine.mul, Affine.identity]
  rw [exShapeLayer, hT]
  simp only [matteOps, contentOps, exLayer, exFill, renderShapes, renderShapesFrom, renderShape,
    Batch.pushGeometry, Batch.pushDraw, Batch.empty, Geometry.evaluate, Batch.canMerge]
  have hb : ∀ {α β : Type} (x : α) (f : α → Except Fault β), (Except.ok x >>= f) = f x :=
    fun _ _ => rfl
  simp only [hb]
  simp [hb, Batch.render, Batch.renderDraw, layerOut, sliceRange, DrawData.finalBrush_eq,
    DrawData.new, Brush.fade, Color.fade, Value.evaluate, MBrush.evaluate]

end Velato
