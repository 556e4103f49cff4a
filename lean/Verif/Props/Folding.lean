import Verif.Proofs.Fold
import Verif.Num.KernelDecide

/-!
# Constant folding is unobservable (C11)

`into_model` replaces an animated object without animated properties by the fixed object it
evaluates to at frame 0.
-/

namespace Velato
open FloatOps (lit)

section
variable {F : Type} [FloatOps F] [Libm F] [Kurbo F]

/-- **C11.** Transforms: folding does not change the value at any frame. -/
theorem C11_transform (t : AnimTransform F) (frame : F) :
    t.intoModel.evaluate frame = t.evaluate frame := by
  unfold AnimTransform.intoModel
  split_ifs with h
  · show t.evaluate (lit 0) = _
    unfold AnimTransform.isFixed at h
    simp only [Bool.and_eq_true] at h
    obtain ⟨⟨⟨⟨⟨h1, h2⟩, h3⟩, h4⟩, h5⟩, h6⟩ := h
    have hp : t.position.evaluate (lit 0) = t.position.evaluate frame := by
      unfold Position.evaluate
      cases hpos : t.position with
      | value v => rw [hpos] at h2; exact Value.evaluate_fixed h2 _ _
      | splitValues x y =>
        rw [hpos] at h2
        simp only [Bool.and_eq_true] at h2
        simp only
        rw [Value.evaluate_fixed h2.1 _ frame, Value.evaluate_fixed h2.2 _ frame]
    unfold AnimTransform.evaluate
    rw [hp, Value.evaluate_fixed h1 _ frame, Value.evaluate_fixed h3 _ frame,
      Value.evaluate_fixed h4 _ frame, Value.evaluate_fixed h5 _ frame,
      Value.evaluate_fixed h6 _ frame]
  · rfl

omit [Libm F] in
/-- **C11.** Strokes. -/
theorem C11_stroke (s : AnimStroke F) (frame : F) :
    s.intoModel.evaluate frame = s.evaluate frame := by
  unfold AnimStroke.intoModel
  split_ifs with h
  · show s.evaluate (lit 0) = _
    unfold AnimStroke.evaluate
    rw [Value.evaluate_fixed h _ frame]
  · rfl

omit [Libm F] in
/-- **C11.** Repeaters. -/
theorem C11_repeater (r : AnimRepeater F) (frame : F) :
    r.intoModel.evaluate frame = r.evaluate frame := by
  unfold AnimRepeater.intoModel
  split_ifs with h
  · show r.evaluate (lit 0) = _
    unfold AnimRepeater.isFixed at h
    simp only [Bool.and_eq_true] at h
    obtain ⟨⟨⟨⟨⟨⟨⟨h1, h2⟩, h3⟩, h4⟩, h5⟩, h6⟩, h7⟩, h8⟩ := h
    unfold AnimRepeater.evaluate
    rw [Value.evaluate_fixed h1 _ frame, Value.evaluate_fixed h2 _ frame,
      Value.evaluate_fixed h3 _ frame, Value.evaluate_fixed h4 _ frame,
      Value.evaluate_fixed h5 _ frame, Value.evaluate_fixed h6 _ frame,
      Value.evaluate_fixed h7 _ frame, Value.evaluate_fixed h8 _ frame]
  · rfl

omit [Libm F] in
/-- **C11.** Trims. -/
theorem C11_trim (t : AnimTrim F) (frame : F) :
    t.intoModel.evaluate frame = t.evaluate frame := by
  unfold AnimTrim.intoModel
  split_ifs with h
  · show t.evaluate (lit 0) = _
    unfold AnimTrim.isFixed at h
    simp only [Bool.and_eq_true] at h
    unfold AnimTrim.evaluate
    rw [Value.evaluate_fixed h.1.1 _ frame, Value.evaluate_fixed h.1.2 _ frame,
      Value.evaluate_fixed h.2 _ frame]
  · rfl

/-- **C11.** Stars: if folding succeeds, the folded path is the path at every frame; it fails
(at import) exactly when a star without animated properties has too many points to be built at
any frame. -/
theorem C11_star (s : AnimStar F) (frame : F) :
    (∀ g, s.intoModel = .ok g → g.evaluate frame = s.evaluate frame) ∧
    (∀ e, s.intoModel = .error e → s.evaluate frame = .error e) := by
  unfold AnimStar.intoModel
  split_ifs with h
  · have : s.evaluate (lit 0) = s.evaluate frame := by
      unfold AnimStar.isFixed at h
      simp only [Bool.and_eq_true] at h
      obtain ⟨⟨⟨⟨⟨⟨h1, h2⟩, h3⟩, h4⟩, h5⟩, h6⟩, h7⟩ := h
      unfold AnimStar.evaluate
      rw [Value.evaluate_fixed h1 _ frame, Value.evaluate_fixed h2 _ frame,
        Value.evaluate_fixed h3 _ frame, Value.evaluate_fixed h4 _ frame,
        Value.evaluate_fixed h5 _ frame, Value.evaluate_fixed h6 _ frame,
        Value.evaluate_fixed h7 _ frame]
    rw [this]
    cases hs : s.evaluate frame with
    | error e =>
      refine ⟨fun g hg => ?_, fun e' he => ?_⟩
      · simp [Except.map] at hg
      · simpa [Except.map] using he
    | ok p =>
      refine ⟨fun g hg => ?_, fun e' he => ?_⟩
      · simp only [Except.map, Except.ok.injEq] at hg
        subst hg; rfl
      · simp [Except.map] at he
  · refine ⟨fun g hg => ?_, fun e he => ?_⟩
    · simp only [Except.ok.injEq] at hg; subst hg; rfl
    · simp at he

omit [Libm F] in
/-- **C11.** Rectangles and ellipses are never folded; those that count as fixed are the same at all
frames. -/
theorem C11_rect_ellipse (f f' : F) :
    (∀ r : AnimRect F, r.isFixed = true → r.evaluate f = r.evaluate f') ∧
    (∀ e : AnimEllipse F, e.isFixed = true → e.evaluate f = e.evaluate f') := by
  constructor
  · intro r h
    unfold AnimRect.isFixed at h
    simp only [Bool.and_eq_true] at h
    unfold AnimRect.evaluate
    rw [Value.evaluate_fixed h.1.1 _ f', Value.evaluate_fixed h.1.2 _ f',
      Value.evaluate_fixed h.2 _ f']
  · intro e h
    unfold AnimEllipse.isFixed at h
    simp only [Bool.and_eq_true] at h
    unfold AnimEllipse.evaluate
    rw [Value.evaluate_fixed h.1 _ f', Value.evaluate_fixed h.2 _ f']

omit [FloatOps F] [Libm F] [Kurbo F] in
/-- **C11.** Those without animated properties count as fixed. -/
theorem C11_rect_ellipse_fixed (ccw : Bool) (p s : P2 F) (r : F) :
    (⟨ccw, .fixed p, .fixed s, .fixed r⟩ : AnimRect F).isFixed = true ∧
    (⟨ccw, .fixed p, .fixed s⟩ : AnimEllipse F).isFixed = true := ⟨rfl, rfl⟩

theorem AnimGradient.evaluate_fixed {g : AnimGradient F} (h : g.isFixed = true) (f f' : F) :
    g.evaluate f = g.evaluate f' := by
  unfold AnimGradient.isFixed at h
  simp only [Bool.and_eq_true] at h
  obtain ⟨⟨h1, h2⟩, h3⟩ := h
  have hs : g.stops.evaluate f = g.stops.evaluate f' := by
    cases hg : g.stops with
    | fixed s => rfl
    | animated s => rw [hg] at h3; simp [ColorStops.isFixed] at h3
  unfold AnimGradient.evaluate
  rw [Value.evaluate_fixed h1 _ f', Value.evaluate_fixed h2 _ f', hs]

end

/-- **C11.** Brushes at alpha 1, the only alpha the renderer passes: all brushes. -/
theorem C11_brush_partial [Libm F64] [Kurbo F64] (b : AnimBrush F64) (frame : F64) :
    b.intoModel.evaluate (lit 1) frame = b.evaluate (lit 1) frame := by
  unfold AnimBrush.intoModel
  split_ifs with h
  · show (if ((lit 1 : F64) ==. lit 1) = true then _ else _) = _
    rw [if_pos F64.one_eq_one]
    cases b with
    | solid v =>
      simp only [AnimBrush.evaluate]
      rw [Value.evaluateOr_fixed h _ frame]
    | gradient g => exact AnimGradient.evaluate_fixed h _ _
  · rfl

/-- **C11.** Solid brushes at every alpha (the alpha component of a colour is an `f32`). -/
theorem C11_solid_brush_partial [Libm F64] [Kurbo F64] (c : Color F64) (alpha frame : F64)
    (hc : FloatOps.toF32 c.a = c.a) :
    (AnimBrush.solid (.fixed c)).intoModel.evaluate alpha frame
      = (AnimBrush.solid (.fixed c)).evaluate alpha frame := by
  have h1 : c.multiplyAlpha (lit 1) = c := by
    unfold Color.multiplyAlpha mulF32
    rw [F64.mul_one', hc]
  show (MBrush.fixed (Brush.solid (c.multiplyAlpha (FloatOps.toF32 (lit 1))))).evaluate alpha frame
    = Brush.solid (c.multiplyAlpha (FloatOps.toF32 alpha))
  rw [F64.toF32_one, h1]
  unfold MBrush.evaluate
  simp only
  split_ifs with ha
  · rw [F64.eq_one ha, F64.toF32_one, h1]
  · unfold Brush.multiplyAlpha
    split_ifs with hb
    · rw [F64.eq_one hb, h1]
    · rfl

/-- The alpha component of the colour is an `f32`, as for every colour peniko can hold. -/
example : FloatOps.toF32 (⟨lit 0, lit 1, lit 0, lit (1 / 2)⟩ : Color F64).a = lit (1 / 2) := by
  decide +kernel

/-- A gradient without animated properties. -/
def exGradient : AnimGradient F64 :=
  ⟨false, .fixed ⟨lit 0, lit 0⟩, .fixed ⟨lit 1, lit 0⟩,
    .fixed [⟨lit 0, ⟨lit 1, lit 0, lit 0, lit 1⟩⟩]⟩

/-- **C11 is false for gradients at other alphas.** A gradient evaluated at alpha 1/2 ignores the
alpha (`animated.rs:525-534`), but once folded it is multiplied by it (`mod.rs:111-122`).  The
renderer only evaluates brushes at alpha 1, so this is visible only through the public
`Brush::evaluate`. -/
theorem C11_gradient_alpha_counterexample [Libm F64] [Kurbo F64] :
    exGradient.isFixed = true ∧
    (AnimBrush.gradient exGradient).intoModel.evaluate (lit (1 / 2)) (lit 0)
      ≠ (AnimBrush.gradient exGradient).evaluate (lit (1 / 2)) (lit 0) := by
  refine ⟨rfl, ?_⟩
  kernel_decide

end Velato
