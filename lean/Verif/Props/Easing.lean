import Verif.Proofs.Easing
import Verif.Proofs.Search
import Verif.Spec.Keyframes

/-!
# Easing in exact arithmetic (C07, C08, C09)

The cubic solver of kurbo is a parameter; the theorems hold for every solver that returns exactly
the roots of the polynomial it is given (`ExactSolver`), in whatever order.
-/

namespace Velato
open FloatOps (lit)

/-! ### An exact solver exists -/

open Polynomial in
/-- The polynomial `c0 + c1 x + c2 x² + c3 x³`. -/
noncomputable def cubicPoly (c0 c1 c2 c3 : ℝ) : ℝ[X] :=
  C c0 + C c1 * X + C c2 * X ^ 2 + C c3 * X ^ 3

theorem cubicPoly_eval (c0 c1 c2 c3 r : ℝ) :
    (cubicPoly c0 c1 c2 c3).eval r = c0 + c1 * r + c2 * r ^ 2 + c3 * r ^ 3 := by
  simp [cubicPoly]

theorem cubicPoly_ne_zero {c0 c1 c2 c3 : ℝ} (h : c0 ≠ 0 ∨ c1 ≠ 0 ∨ c2 ≠ 0 ∨ c3 ≠ 0) :
    cubicPoly c0 c1 c2 c3 ≠ 0 := by
  intro hp
  have e : ∀ r, c0 + c1 * r + c2 * r ^ 2 + c3 * r ^ 3 = 0 := by
    intro r; rw [← cubicPoly_eval, hp]; simp
  have e0 := e 0
  have e1 := e 1
  have e2 := e (-1)
  have e3 := e 2
  norm_num at e0 e1 e2 e3
  have h2 : c2 = 0 := by linarith
  have h3 : c3 = 0 := by linarith
  have h1 : c1 = 0 := by linarith
  rcases h with h | h | h | h <;> contradiction

open Classical in
/-- A solver that returns the roots, the negative ones first; the rest of kurbo is arbitrary. -/
@[reducible] noncomputable def exactKurbo : Kurbo ℝ where
  solveCubic c0 c1 c2 c3 :=
    (cubicPoly c0 c1 c2 c3).roots.toList.filter (fun r => decide (r < 0)) ++
      (cubicPoly c0 c1 c2 c3).roots.toList.filter (fun r => !decide (r < 0))
  ellipsePath _ _ := []
  roundedRectPath _ _ _ _ _ := []
  arclen _ := 0
  invArclen _ _ := 0
  subsegment s _ _ := s

theorem exactKurbo_mem (c0 c1 c2 c3 r : ℝ) :
    r ∈ exactKurbo.solveCubic c0 c1 c2 c3 ↔ r ∈ (cubicPoly c0 c1 c2 c3).roots := by
  rw [← Multiset.mem_toList]
  show r ∈ _ ++ _ ↔ _
  rw [List.mem_append, List.mem_filter, List.mem_filter]
  by_cases h : r < 0 <;> simp [h]

/-- `exactKurbo` is an exact solver, so the hypothesis of the theorems below is satisfiable. -/
theorem exactKurbo_exact : @ExactSolver exactKurbo := by
  refine @ExactSolver.mk exactKurbo ?_ ?_
  · intro c0 c1 c2 c3 r h
    rw [exactKurbo_mem] at h
    rw [← cubicPoly_eval]
    exact (Polynomial.mem_roots'.mp h).2
  · intro c0 c1 c2 c3 r hne h
    rw [exactKurbo_mem, Polynomial.mem_roots']
    exact ⟨cubicPoly_ne_zero hne, by rw [Polynomial.IsRoot, cubicPoly_eval]; exact h⟩

/-- If a negative root passes the test, the first root that does is negative. -/
theorem exactKurbo_neg (c0 c1 c2 c3 r : ℝ) (hr : r < 0)
    (hne : c0 ≠ 0 ∨ c1 ≠ 0 ∨ c2 ≠ 0 ∨ c3 ≠ 0)
    (h : c0 + c1 * r + c2 * r ^ 2 + c3 * r ^ 3 = 0) (p : ℝ → Bool) (hp : p r = true) :
    ∃ u < 0, (exactKurbo.solveCubic c0 c1 c2 c3).find? p = some u := by
  have hm := (exactKurbo_mem c0 c1 c2 c3 r).mp (@ExactSolver.complete exactKurbo exactKurbo_exact c0 c1 c2 c3 r hne h)
  show ∃ u < 0, (_ ++ _ : List ℝ).find? p = some u
  have hs : ((cubicPoly c0 c1 c2 c3).roots.toList.filter (fun r => decide (r < 0))).find? p
      |>.isSome := by
    rw [List.find?_isSome]
    exact ⟨r, List.mem_filter.mpr ⟨Multiset.mem_toList.mpr hm, by simpa using hr⟩, hp⟩
  obtain ⟨u, hu⟩ := Option.isSome_iff_exists.mp hs
  refine ⟨u, by simpa using (List.mem_filter.mp (List.mem_of_find?_eq_some hu)).2, ?_⟩
  rw [List.find?_append, hu]
  rfl

/-! ## C07 — linear easing -/

/-- **C07.** With linear easing a scalar tween at weight `t` in `[0, 1]` is linear interpolation. -/
theorem C07_linear [Kurbo ℝ] (hk : ExactSolver) (a b t : ℝ) (h0 : 0 ≤ t) (h1 : t ≤ 1) :
    tweenScalar a b t Easing.lerp = a + (b - a) * t := by
  rw [tween_progress, progress_lerp hk t h0 h1]

/-- **C07.** A keyframe without tangents eases linearly: between it and the next keyframe an
animated scalar is the linear interpolation of the two values, at every frame. -/
theorem C07_frames [Kurbo ℝ] (hk : ExactSolver) (an : Animated ℝ ℝ) (frame d : ℝ)
    (hs : SortedTimes an.times) (k : ℕ) (t0 t1 : Time ℝ) (a b : ℝ)
    (h0 : an.times[k]? = some t0) (h1 : an.times[k + 1]? = some t1)
    (ha : an.values[k]? = some a) (hb : an.values[k + 1]? = some b)
    (hin : t0.inTangent = none) (hout : t0.outTangent = none) (hh : t0.hold = false)
    (hl : t0.frame ≤ frame) (hr : frame < t1.frame) :
    an.evaluateOr frame d
      = a + (b - a) * ((frame - t0.frame) / (t1.frame - t0.frame)) := by
  have hse := search_in hs frame k t0 t1 h0 h1 (by simpa using hl) (by simpa using hr)
  have hlen := (List.getElem?_eq_some_iff.mp h1).1
  have hpos : 0 < t1.frame - t0.frame := by linarith
  have w0 : 0 ≤ (frame - t0.frame) / (t1.frame - t0.frame) :=
    div_nonneg (by linarith) hpos.le
  have w1 : (frame - t0.frame) / (t1.frame - t0.frame) ≤ 1 := by
    rw [div_le_one hpos]; linarith
  have hw : mixWeight t0 t1 frame = (frame - t0.frame) / (t1.frame - t0.frame) := by
    unfold mixWeight clamp
    simp [hh, not_lt.mpr w0, not_lt.mpr w1]
  have he : t0.easing = Easing.lerp := by
    unfold Time.easing Easing.lerp; rw [hin, hout]
  unfold Animated.evaluateOr
  rw [evaluateInner_eq an frame k (k + 1) t0 t1 (by omega) (by omega) h0 h1, ha, hb, hw, he]
  exact C07_linear hk a b _ w0 w1

/-- The hypotheses are met: halfway between 0 and 10 at weight 1/2. -/
example : @tweenScalar ℝ _ exactKurbo 0 10 (1 / 2) Easing.lerp = 5 := by
  rw [@C07_linear exactKurbo exactKurbo_exact 0 10 (1 / 2) (by norm_num) (by norm_num)]
  norm_num

/-- Two keyframes without tangents, at frames 0 and 10. -/
noncomputable def exLinear : Animated ℝ ℝ :=
  ⟨[⟨0, none, none, false⟩, ⟨10, none, none, false⟩], [3, 7]⟩

example : @Animated.evaluateOr ℝ ℝ _ (@instTweenOfKurbo ℝ _ exactKurbo) exLinear 5 0 = 5 := by
  rw [@C07_frames exactKurbo exactKurbo_exact exLinear 5 0
    (by simp [SortedTimes, exLinear]) 0 ⟨0, none, none, false⟩
    ⟨10, none, none, false⟩ 3 7 rfl rfl rfl rfl rfl rfl rfl (by norm_num) (by norm_num)]
  norm_num

/-! ## C08 — no overshoot -/

/-- **C08.** With handles in the unit square a tweened scalar never leaves the interval between
the two keyframe values by more than `4e-11` of its width, at any weight. -/
theorem C08_no_overshoot [Kurbo ℝ] (hk : ExactSolver) (a b t : ℝ) (e : Easing ℝ)
    (he : e.InUnitSquare) :
    min a b - 4 / 10 ^ 11 * |b - a| ≤ tweenScalar a b t e ∧
      tweenScalar a b t e ≤ max a b + 4 / 10 ^ 11 * |b - a| := by
  rw [tween_progress]
  obtain ⟨h1, h2⟩ := progress_ext hk t he
  generalize progress t e = p at *
  rcases le_total a b with h | h
  · rw [min_eq_left h, max_eq_right h, abs_of_nonneg (by linarith)]
    constructor <;> nlinarith
  · rw [min_eq_right h, max_eq_left h, abs_of_nonpos (by linarith)]
    constructor <;> nlinarith

/-- **C08.** At weights that are not within `1e-21` of (but different from) 0 or 1 there is no
overshoot at all. -/
theorem C08_no_overshoot_exact [Kurbo ℝ] (hk : ExactSolver) (a b t : ℝ) (e : Easing ℝ)
    (he : e.InUnitSquare) (h1 : t ≤ 0 ∨ 1 / 10 ^ 21 ≤ t) (h2 : t ≤ 1 - 1 / 10 ^ 21 ∨ 1 ≤ t) :
    min a b ≤ tweenScalar a b t e ∧ tweenScalar a b t e ≤ max a b := by
  rw [tween_progress]
  obtain ⟨h1, h2⟩ := progress_unit hk t he h1 h2
  generalize progress t e = p at *
  rcases le_total a b with h | h
  · rw [min_eq_left h, max_eq_right h]
    constructor <;> nlinarith
  · rw [min_eq_right h, max_eq_left h]
    constructor <;> nlinarith

/-- An ease-in-out curve with handles in the unit square. -/
noncomputable def exEase : Easing ℝ := ⟨⟨0, 1⟩, ⟨1, 1⟩⟩

theorem exEase_unit : exEase.InUnitSquare := by
  constructor <;> norm_num [exEase]

/-- The tolerance in `C08_no_overshoot` cannot be dropped: the code accepts roots slightly outside
`[0, 1]`, and an exact solver may list such a root first; at weight `3e-24 + 2e-36` the value
falls below both keyframe values. -/
theorem C08_tolerance_needed :
    @tweenScalar ℝ _ exactKurbo 0 1 (3 / 10 ^ 24 + 2 / 10 ^ 36) exEase < 0 := by
  let _ := exactKurbo
  have hk : ExactSolver := exactKurbo_exact
  have ht0 : (0 : ℝ) < 3 / 10 ^ 24 + 2 / 10 ^ 36 := by norm_num
  have ht1 : (3 / 10 ^ 24 + 2 / 10 ^ 36 : ℝ) < 1 := by norm_num
  rw [tweenScalar_real _ _ _ _ ht0 ht1]
  -- the parameter found is negative
  have hneg : easeParam (3 / 10 ^ 24 + 2 / 10 ^ 36) exEase < 0 := by
    obtain ⟨u, hu, hf⟩ := exactKurbo_neg (0 - (3 / 10 ^ 24 + 2 / 10 ^ 36)) (3 * exEase.o.x)
      (3 * (exEase.i.x - 2 * exEase.o.x)) (1 - 3 * exEase.i.x + 3 * exEase.o.x)
      (-(1 / 10 ^ 12)) (by norm_num) (by left; norm_num) (by norm_num [exEase])
      (rootInRange (1 / 1000000000000 * max (max (max (max |0| |3 * exEase.o.x|)
        |3 * (exEase.i.x - 2 * exEase.o.x)|) |1 - 3 * exEase.i.x + 3 * exEase.o.x|) 1)) (by
        rw [real_rootInRange]
        have : (1 : ℝ) ≤ max (max (max (max |0| |3 * exEase.o.x|)
          |3 * (exEase.i.x - 2 * exEase.o.x)|) |1 - 3 * exEase.i.x + 3 * exEase.o.x|) 1 :=
          le_max_right _ _
        generalize max (max (max (max |0| |3 * exEase.o.x|)
          |3 * (exEase.i.x - 2 * exEase.o.x)|) |1 - 3 * exEase.i.x + 3 * exEase.o.x|) 1 = m at *
        constructor <;> norm_num <;> linarith)
    rw [easeParam_find _ _ _ hf]
    exact hu
  generalize easeParam (3 / 10 ^ 24 + 2 / 10 ^ 36) exEase = u at hneg
  unfold bez exEase
  have : (0 : ℝ) < (1 - u) ^ 3 - 1 := by nlinarith [sq_nonneg u]
  nlinarith

/-! ## C09 — monotone easing -/

/-- **C09.** With handles in the unit square the tweened value moves monotonically from the first
keyframe value to the second as the weight grows, up to `1e-10` of their distance. -/
theorem C09_monotone [Kurbo ℝ] (hk : ExactSolver) (a b t1 t2 : ℝ) (e : Easing ℝ)
    (he : e.InUnitSquare) (h : t1 ≤ t2) :
    (a ≤ b → tweenScalar a b t1 e ≤ tweenScalar a b t2 e + 1 / 10 ^ 10 * (b - a)) ∧
    (b ≤ a → tweenScalar a b t2 e ≤ tweenScalar a b t1 e + 1 / 10 ^ 10 * (a - b)) := by
  have := progress_mono hk h he
  rw [tween_progress, tween_progress]
  constructor <;> intro hab <;> nlinarith

/-- **C09.** Exactly monotone at weights that are not within `1e-21` of (but different from) 0 or
1. -/
theorem C09_monotone_exact [Kurbo ℝ] (hk : ExactSolver) (a b t1 t2 : ℝ) (e : Easing ℝ)
    (he : e.InUnitSquare) (h : t1 ≤ t2)
    (h1 : t1 ≤ 0 ∨ 1 / 10 ^ 21 ≤ t1) (h1' : t1 ≤ 1 - 1 / 10 ^ 21 ∨ 1 ≤ t1)
    (h2 : t2 ≤ 0 ∨ 1 / 10 ^ 21 ≤ t2) (h2' : t2 ≤ 1 - 1 / 10 ^ 21 ∨ 1 ≤ t2) :
    (a ≤ b → tweenScalar a b t1 e ≤ tweenScalar a b t2 e) ∧
    (b ≤ a → tweenScalar a b t2 e ≤ tweenScalar a b t1 e) := by
  have := progress_mono_exact hk h he h1 h1' h2 h2'
  rw [tween_progress, tween_progress]
  constructor <;> intro hab <;> nlinarith

/-- The weight grows with the frame. -/
theorem mixWeight_mono (t0 t1 : Time ℝ) (f g : ℝ) (h : f ≤ g) (ht : t0.frame < t1.frame) :
    mixWeight t0 t1 f ≤ mixWeight t0 t1 g := by
  have hpos : 0 < t1.frame - t0.frame := by linarith
  have hq : (f - t0.frame) / (t1.frame - t0.frame) ≤ (g - t0.frame) / (t1.frame - t0.frame) := by
    gcongr
  unfold mixWeight clamp
  simp only [real_sub, real_div, real_lt, real_lit]
  generalize (f - t0.frame) / (t1.frame - t0.frame) = x at *
  generalize (g - t0.frame) / (t1.frame - t0.frame) = y at *
  push_cast
  simp only [decide_eq_true_eq]
  split_ifs <;> linarith

/-- **C09.** As the frame advances from keyframe `k` to the next, an animated scalar moves
monotonically from the first value to the second, up to `1e-10` of their distance. -/
theorem C09_frames [Kurbo ℝ] (hk : ExactSolver) (an : Animated ℝ ℝ) (f g d : ℝ)
    (hs : SortedTimes an.times) (k : ℕ) (t0 t1 : Time ℝ) (a b : ℝ)
    (h0 : an.times[k]? = some t0) (h1 : an.times[k + 1]? = some t1)
    (ha : an.values[k]? = some a) (hb : an.values[k + 1]? = some b)
    (he : t0.easing.InUnitSquare)
    (hl : t0.frame ≤ f) (hfg : f ≤ g) (hr : g < t1.frame) :
    (a ≤ b → an.evaluateOr f d ≤ an.evaluateOr g d + 1 / 10 ^ 10 * (b - a)) ∧
    (b ≤ a → an.evaluateOr g d ≤ an.evaluateOr f d + 1 / 10 ^ 10 * (a - b)) := by
  have key : ∀ x, t0.frame ≤ x → x < t1.frame →
      an.evaluateOr x d = tweenScalar a b (mixWeight t0 t1 x) t0.easing := by
    intro x h h'
    have hse := search_in hs x k t0 t1 h0 h1 (by simpa using h) (by simpa using h')
    have hlen := (List.getElem?_eq_some_iff.mp h1).1
    unfold Animated.evaluateOr
    rw [evaluateInner_eq an x k (k + 1) t0 t1 (by omega) (by omega) h0 h1, ha, hb]
    rfl
  rw [key f hl (by linarith), key g (by linarith) hr]
  exact C09_monotone hk a b _ _ _ he (mixWeight_mono t0 t1 f g hfg (by linarith))

/-- The hypotheses are met by `exLinear`, whose easing is linear. -/
example : (⟨0, none, none, false⟩ : Time ℝ).easing.InUnitSquare := by
  constructor <;> norm_num [Time.easing]

end Velato
