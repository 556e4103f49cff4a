import Verif.Spec.Easing
import Mathlib.Analysis.Calculus.Deriv.MeanValue
import Mathlib.Analysis.Calculus.Deriv.Pow
import Mathlib.Topology.Order.IntermediateValue
import Mathlib.Algebra.Polynomial.Roots
import Mathlib.Tactic

/-!
# Easing curves in exact arithmetic
-/

namespace Velato
open FloatOps (lit)

theorem cubicEvalY_real (y1 y2 u : ℝ) : cubicEvalY y1 y2 u = bez y1 y2 u := by
  unfold cubicEvalY bez
  simp only [real_lit, real_add, real_sub, real_mul]
  push_cast
  ring

theorem bez_zero (p1 p2 : ℝ) : bez p1 p2 0 = 0 := by unfold bez; ring
theorem bez_one (p1 p2 : ℝ) : bez p1 p2 1 = 1 := by unfold bez; ring

theorem bez_continuous (p1 p2 : ℝ) : Continuous (bez p1 p2) := by
  unfold bez; fun_prop

theorem bez_hasDerivAt (p1 p2 u : ℝ) :
    HasDerivAt (bez p1 p2)
      (3 * (p1 * (1 - u) ^ 2 + 2 * (p2 - p1) * (u * (1 - u)) + (1 - p2) * u ^ 2)) u := by
  unfold bez
  have h1 : HasDerivAt (fun u : ℝ => 1 - u) (-1) u := by
    simpa using (hasDerivAt_id u).const_sub 1
  have h2 : HasDerivAt (fun u : ℝ => u) 1 u := hasDerivAt_id u
  have a := ((h2.const_mul (3 * p1)).mul (h1.pow 2))
  have b := (((h2.pow 2).const_mul (3 * p2)).mul h1)
  have c := h2.pow 3
  have := (a.add b).add c
  exact HasDerivAt.congr_deriv this (by simp only [Pi.pow_apply]; push_cast; ring)

/-- The curve is monotone on the unit interval when the handles are in it. -/
theorem bez_mono {p1 p2 : ℝ} (h1 : 0 ≤ p1 ∧ p1 ≤ 1) (h2 : 0 ≤ p2 ∧ p2 ≤ 1) :
    MonotoneOn (bez p1 p2) (Set.Icc 0 1) := by
  apply monotoneOn_of_deriv_nonneg (convex_Icc 0 1) (bez_continuous p1 p2).continuousOn
  · intro x _
    exact (bez_hasDerivAt p1 p2 x).differentiableAt.differentiableWithinAt
  · intro u hu
    rw [interior_Icc] at hu
    rw [(bez_hasDerivAt p1 p2 u).deriv]
    have hu0 := hu.1.le
    have hu1 : 0 ≤ 1 - u := by linarith [hu.2]
    have huv : 0 ≤ u * (1 - u) := mul_nonneg hu0 hu1
    rcases le_total p1 p2 with h | h
    · have := mul_nonneg (sub_nonneg.mpr h) huv
      have a := mul_nonneg h1.1 (sq_nonneg (1 - u))
      have b := mul_nonneg (sub_nonneg.mpr h2.2) (sq_nonneg u)
      nlinarith
    · -- with `d = p1 - p2`: `p1 ≥ d`, `1 - p2 ≥ d`
      have a := mul_nonneg (show 0 ≤ p1 - (p1 - p2) by linarith [h2.1]) (sq_nonneg (1 - u))
      have b := mul_nonneg (show 0 ≤ 1 - p2 - (p1 - p2) by linarith [h1.2]) (sq_nonneg u)
      have c := mul_nonneg (sub_nonneg.mpr h) (sq_nonneg ((1 - u) - u))
      nlinarith

theorem real_fmax (a b : ℝ) : fmax a b = max a b := by
  unfold fmax isNaN
  simp only [real_lt, real_eq]
  rcases lt_or_ge b a with h | h
  · simp [h, max_eq_left h.le]
  · simp [not_lt.mpr h, max_eq_right h]

/-- The parameter is the first root in the accepted range. -/
theorem easeParam_find [Kurbo ℝ] (t : ℝ) (e : Easing ℝ) (u : ℝ)
    (h : (Kurbo.solveCubic (0 - t) (3 * e.o.x) (3 * (e.i.x - 2 * e.o.x))
      (1 - 3 * e.i.x + 3 * e.o.x)).find? (rootInRange (1 / 1000000000000 *
        max (max (max (max |0| |3 * e.o.x|) |3 * (e.i.x - 2 * e.o.x)|)
          |1 - 3 * e.i.x + 3 * e.o.x|) 1)) = some u) : easeParam t e = u := by
  unfold easeParam
  simp only [real_fmax, real_lit, real_sub, real_mul, real_add, real_abs]
  push_cast
  simp only [sub_zero, add_zero]
  split
  · rename_i r hr
    exact Option.some.inj (hr.symm.trans h)
  · rename_i hr
    exact absurd (hr.symm.trans h) (by simp)

theorem real_rootInRange (eps r : ℝ) :
    rootInRange eps r = true ↔ -eps ≤ r ∧ r ≤ 1 + eps := by
  unfold rootInRange
  simp only [real_neg, real_le, real_add, real_lit, Bool.and_eq_true, decide_eq_true_eq]
  push_cast; rfl

/-- What `easeParam` finds with an exact solver: a parameter in the accepted range at which the
`x` coordinate is `t`. -/
theorem easeParam_real [Kurbo ℝ] (hk : ExactSolver) (t : ℝ) (h0 : 0 < t) (h1 : t < 1)
    (e : Easing ℝ) : ∃ eps : ℝ,
      eps = 1 / 1000000000000 * max (max (max (max |0| |3 * e.o.x|) |3 * (e.i.x - 2 * e.o.x)|)
        |1 - 3 * e.i.x + 3 * e.o.x|) 1 ∧
      bez e.o.x e.i.x (easeParam t e) = t ∧ -eps ≤ easeParam t e ∧ easeParam t e ≤ 1 + eps := by
  refine ⟨_, rfl, ?_⟩
  set eps : ℝ := 1 / 1000000000000 * max (max (max (max |0| |3 * e.o.x|)
    |3 * (e.i.x - 2 * e.o.x)|) |1 - 3 * e.i.x + 3 * e.o.x|) 1 with heps
  have hepos : 0 < eps := by
    rw [heps]
    have : (1 : ℝ) ≤ max (max (max (max |0| |3 * e.o.x|) |3 * (e.i.x - 2 * e.o.x)|)
      |1 - 3 * e.i.x + 3 * e.o.x|) 1 := le_max_right _ _
    positivity
  -- the polynomial solved
  set roots := Kurbo.solveCubic (0 - t) (3 * e.o.x) (3 * (e.i.x - 2 * e.o.x))
    (1 - 3 * e.i.x + 3 * e.o.x) with hroots
  have hpoly : ∀ u, (0 - t) + (3 * e.o.x) * u + (3 * (e.i.x - 2 * e.o.x)) * u ^ 2
      + (1 - 3 * e.i.x + 3 * e.o.x) * u ^ 3 = bez e.o.x e.i.x u - t := by
    intro u; unfold bez; ring
  have hdef : ∀ u, roots.find? (rootInRange eps) = some u → easeParam t e = u := by
    intro u hu
    rw [hroots, heps] at hu
    exact easeParam_find t e u hu
  -- a root exists
  obtain ⟨r, hr, hrt⟩ : ∃ r ∈ Set.Icc (0 : ℝ) 1, bez e.o.x e.i.x r = t := by
    have := intermediate_value_Icc (zero_le_one' ℝ) (bez_continuous e.o.x e.i.x).continuousOn
    rw [bez_zero, bez_one] at this
    exact this ⟨h0.le, h1.le⟩
  have hmem : r ∈ roots := by
    apply hk.complete
    · left; linarith
    · rw [hpoly, hrt, sub_self]
  have hrange := real_rootInRange eps
  cases hf : roots.find? (rootInRange eps) with
  | none =>
    rw [List.find?_eq_none] at hf
    exact absurd ((hrange r).mpr ⟨by linarith [hr.1], by linarith [hr.2]⟩) (hf r hmem)
  | some u =>
    rw [hdef u hf]
    have hs := hk.sound _ _ _ _ u (List.mem_of_find?_eq_some hf)
    rw [hpoly] at hs
    have hr := (hrange u).mp (List.find?_some hf)
    exact ⟨by linarith, hr.1, hr.2⟩

theorem tweenScalar_real [Kurbo ℝ] (v w t : ℝ) (e : Easing ℝ) (h0 : 0 < t) (h1 : t < 1) :
    tweenScalar v w t e = v + (w - v) * bez e.o.y e.i.y (easeParam t e) := by
  unfold tweenScalar
  simp only [real_le, real_lit, real_add, real_sub, real_mul, cubicEvalY_real]
  push_cast
  simp [not_le.mpr h0, not_le.mpr h1]

theorem tweenScalar_real_lo [Kurbo ℝ] (v w t : ℝ) (e : Easing ℝ) (h0 : t ≤ 0) :
    tweenScalar v w t e = v := by
  unfold tweenScalar
  simp [h0]

theorem tweenScalar_real_hi [Kurbo ℝ] (v w t : ℝ) (e : Easing ℝ) (h1 : 1 ≤ t) :
    tweenScalar v w t e = w := by
  unfold tweenScalar
  have : ¬ t ≤ 0 := by linarith
  simp [h1, this]

/-- The tolerance for handles in the unit square. -/
theorem eps_small {e : Easing ℝ} (h : e.InUnitSquare) :
    1 / 1000000000000 * max (max (max (max |(0:ℝ)| |3 * e.o.x|) |3 * (e.i.x - 2 * e.o.x)|)
        |1 - 3 * e.i.x + 3 * e.o.x|) 1 ≤ 1 / 10 ^ 11 := by
  obtain ⟨⟨a1, a2⟩, -, ⟨b1, b2⟩, -⟩ := h
  have : max (max (max (max |(0:ℝ)| |3 * e.o.x|) |3 * (e.i.x - 2 * e.o.x)|)
        |1 - 3 * e.i.x + 3 * e.o.x|) 1 ≤ 6 := by
    refine max_le (max_le (max_le (max_le ?_ ?_) ?_) ?_) (by norm_num)
    · rw [abs_zero]; norm_num
    · rw [abs_le]; constructor <;> linarith
    · rw [abs_le]; constructor <;> linarith
    · rw [abs_le]; constructor <;> linarith
  calc _ ≤ 1 / 1000000000000 * (6 : ℝ) := by gcongr
    _ ≤ _ := by norm_num

/-- Just left of the unit interval the curve is tiny. -/
theorem bez_left {p1 p2 u d : ℝ} (h1 : 0 ≤ p1 ∧ p1 ≤ 1) (h2 : 0 ≤ p2 ∧ p2 ≤ 1)
    (hd : d ≤ 1 / 10) (hu : -d ≤ u) (hu0 : u < 0) :
    -(4 * d) ≤ bez p1 p2 u ∧ bez p1 p2 u ≤ 4 * d ^ 2 := by
  unfold bez
  have hd0 : 0 < d := by linarith
  have hsq : u ^ 2 ≤ d ^ 2 := by nlinarith
  have hm : 1 - u ≤ 11 / 10 := by linarith
  have hm0 : 1 ≤ 1 - u := by linarith
  have hmsq : (1 - u) ^ 2 ≤ 121 / 100 := by nlinarith
  have t1 : 3 * p1 * u * (1 - u) ^ 2 ≤ 0 := by
    have : 0 ≤ p1 * (-u) * (1 - u) ^ 2 :=
      mul_nonneg (mul_nonneg h1.1 (by linarith)) (sq_nonneg _)
    nlinarith
  have t1' : -(363 / 100 * d) ≤ 3 * p1 * u * (1 - u) ^ 2 := by
    have hq : p1 * (1 - u) ^ 2 ≤ 121 / 100 := by nlinarith [sq_nonneg (1 - u)]
    have hq0 : 0 ≤ p1 * (1 - u) ^ 2 := mul_nonneg h1.1 (sq_nonneg _)
    have : -d * (121 / 100) ≤ u * (p1 * (1 - u) ^ 2) := by nlinarith
    nlinarith
  have t2 : 3 * p2 * u ^ 2 * (1 - u) ≤ 363 / 100 * d ^ 2 := by
    have : p2 * u ^ 2 ≤ d ^ 2 := by nlinarith [sq_nonneg u]
    have h0 : 0 ≤ p2 * u ^ 2 := mul_nonneg h2.1 (sq_nonneg _)
    have : p2 * u ^ 2 * (1 - u) ≤ d ^ 2 * (11 / 10) :=
      mul_le_mul this hm (by linarith) (sq_nonneg _)
    nlinarith [sq_nonneg d]
  have t2' : 0 ≤ 3 * p2 * u ^ 2 * (1 - u) :=
    mul_nonneg (mul_nonneg (by linarith [h2.1]) (sq_nonneg _)) (by linarith)
  have t3 : u ^ 3 ≤ 0 := by
    have : u ^ 3 = u * u ^ 2 := by ring
    rw [this]; exact mul_nonpos_of_nonpos_of_nonneg hu0.le (sq_nonneg _)
  have t3' : -(d / 100) ≤ u ^ 3 := by
    have e : u ^ 3 = u * u ^ 2 := by ring
    rw [e]
    have : u ^ 2 ≤ 1 / 100 := by nlinarith
    nlinarith [sq_nonneg u]
  constructor
  · linarith
  · nlinarith [sq_nonneg d]

/-- The curve is symmetric under reversal. -/
theorem bez_symm (p1 p2 u : ℝ) : bez p1 p2 (1 - u) = 1 - bez (1 - p2) (1 - p1) u := by
  unfold bez; ring

theorem bez_right {p1 p2 u d : ℝ} (h1 : 0 ≤ p1 ∧ p1 ≤ 1) (h2 : 0 ≤ p2 ∧ p2 ≤ 1)
    (hd : d ≤ 1 / 10) (hu : u ≤ 1 + d) (hu0 : 1 < u) :
    1 - 4 * d ^ 2 ≤ bez p1 p2 u ∧ bez p1 p2 u ≤ 1 + 4 * d := by
  have := bez_left (p1 := 1 - p2) (p2 := 1 - p1) (u := 1 - u) (d := d)
    ⟨by linarith [h2.2], by linarith [h2.1]⟩ ⟨by linarith [h1.2], by linarith [h1.1]⟩ hd
    (by linarith) (by linarith)
  have e := bez_symm p1 p2 (1 - u)
  rw [sub_sub_cancel] at e
  constructor <;> linarith [this.1, this.2]

/-- Away from the ends the parameter found is in the unit interval. -/
theorem easeParam_unit [Kurbo ℝ] (hk : ExactSolver) {t : ℝ} {e : Easing ℝ} (he : e.InUnitSquare)
    (h0 : 1 / 10 ^ 21 ≤ t) (h1 : t ≤ 1 - 1 / 10 ^ 21) :
    bez e.o.x e.i.x (easeParam t e) = t ∧ easeParam t e ∈ Set.Icc (0 : ℝ) 1 := by
  obtain ⟨eps, heps, hb, hl, hr⟩ := easeParam_real hk t
    (lt_of_lt_of_le (by norm_num) h0) (lt_of_le_of_lt h1 (by norm_num)) e
  have hs := eps_small he
  rw [← heps] at hs
  refine ⟨hb, ?_, ?_⟩
  · by_contra hc
    have := (bez_left he.ox he.ix (d := 1 / 10 ^ 11) (by norm_num) (by linarith)
      (not_le.mp hc)).2
    rw [hb] at this
    have : t < 1 / 10 ^ 21 := lt_of_le_of_lt this (by norm_num)
    linarith
  · by_contra hc
    have := (bez_right he.ox he.ix (d := 1 / 10 ^ 11) (by norm_num) (by linarith)
      (not_le.mp hc)).1
    rw [hb] at this
    have h2 : (4 : ℝ) * (1 / 10 ^ 11) ^ 2 < 1 / 10 ^ 21 := by norm_num
    linarith

theorem bez_unit {p1 p2 u : ℝ} (h1 : 0 ≤ p1 ∧ p1 ≤ 1) (h2 : 0 ≤ p2 ∧ p2 ≤ 1)
    (hu : u ∈ Set.Icc (0 : ℝ) 1) : 0 ≤ bez p1 p2 u ∧ bez p1 p2 u ≤ 1 := by
  have hm := bez_mono h1 h2
  have a := hm (Set.left_mem_Icc.mpr zero_le_one) hu hu.1
  have b := hm hu (Set.right_mem_Icc.mpr zero_le_one) hu.2
  rw [bez_zero] at a; rw [bez_one] at b
  exact ⟨a, b⟩

end Velato

namespace Velato

/-- The eased progress from one keyframe (0) to the next (1) at weight `t`. -/
noncomputable def progress [Kurbo ℝ] (t : ℝ) (e : Easing ℝ) : ℝ :=
  if t ≤ 0 then 0 else if 1 ≤ t then 1 else bez e.o.y e.i.y (easeParam t e)

theorem tween_progress [Kurbo ℝ] (v w t : ℝ) (e : Easing ℝ) :
    tweenScalar v w t e = v + (w - v) * progress t e := by
  unfold progress
  split_ifs with h0 h1
  · rw [tweenScalar_real_lo _ _ _ _ h0]; ring
  · rw [tweenScalar_real_hi _ _ _ _ h1]; ring
  · exact tweenScalar_real _ _ _ _ (not_le.mp h0) (not_le.mp h1)

/-- The parameter is within `1e-11` of the unit interval. -/
theorem easeParam_ext [Kurbo ℝ] (hk : ExactSolver) {t : ℝ} {e : Easing ℝ} (he : e.InUnitSquare)
    (h0 : 0 < t) (h1 : t < 1) :
    bez e.o.x e.i.x (easeParam t e) = t ∧ -(1 / 10 ^ 11) ≤ easeParam t e ∧
      easeParam t e ≤ 1 + 1 / 10 ^ 11 := by
  obtain ⟨eps, heps, hb, hl, hr⟩ := easeParam_real hk t h0 h1 e
  have hs := eps_small he
  rw [← heps] at hs
  exact ⟨hb, by linarith, by linarith⟩

theorem bez_ext {p1 p2 u : ℝ} (h1 : 0 ≤ p1 ∧ p1 ≤ 1) (h2 : 0 ≤ p2 ∧ p2 ≤ 1)
    (hu : -(1 / 10 ^ 11) ≤ u) (hu' : u ≤ 1 + 1 / 10 ^ 11) :
    -(4 / 10 ^ 11) ≤ bez p1 p2 u ∧ bez p1 p2 u ≤ 1 + 4 / 10 ^ 11 := by
  rcases lt_or_ge u 0 with h | h
  · have := bez_left h1 h2 (d := 1 / 10 ^ 11) (by norm_num) hu h
    have e : (4 : ℝ) * (1 / 10 ^ 11) ^ 2 ≤ 1 := by norm_num
    constructor <;> linarith [this.1, this.2]
  · rcases lt_or_ge 1 u with h' | h'
    · have := bez_right h1 h2 (d := 1 / 10 ^ 11) (by norm_num) hu' h'
      have e : (4 : ℝ) * (1 / 10 ^ 11) ^ 2 ≤ 1 := by norm_num
      constructor <;> linarith [this.1, this.2]
    · have := bez_unit h1 h2 ⟨h, h'⟩
      constructor <;> linarith [this.1, this.2]

theorem progress_ext [Kurbo ℝ] (hk : ExactSolver) (t : ℝ) {e : Easing ℝ} (he : e.InUnitSquare) :
    -(4 / 10 ^ 11) ≤ progress t e ∧ progress t e ≤ 1 + 4 / 10 ^ 11 := by
  unfold progress
  split_ifs with h0 h1
  · norm_num
  · norm_num
  · obtain ⟨-, a, b⟩ := easeParam_ext hk he (not_le.mp h0) (not_le.mp h1)
    exact bez_ext he.oy he.iy a b

/-- If the curve is higher at a point just left of 0 than at a point `r` of the unit interval,
then `r` is just right of 0. -/
theorem bez_near {p1 p2 s r : ℝ} (h1 : 0 ≤ p1 ∧ p1 ≤ 1) (h2 : 0 ≤ p2 ∧ p2 ≤ 1)
    (hs0 : 0 < s) (hs : s ≤ 1 / 10 ^ 11) (hr : r ∈ Set.Icc (0 : ℝ) 1)
    (h : bez p1 p2 r < bez p1 p2 (-s)) : r ≤ 11 / 10 * (1 / 10 ^ 11) := by
  obtain ⟨hr0, hr1⟩ := hr
  have hL := (bez_left h1 h2 (u := -s) (d := 1 / 10 ^ 11) (by norm_num) (by linarith)
    (by linarith)).2
  have hsub : bez p1 p2 r - r ^ 3 ≥ 3 * p2 * (r ^ 2 * (1 - r)) := by
    unfold bez
    have : 0 ≤ p1 * (r * (1 - r) ^ 2) := mul_nonneg h1.1 (mul_nonneg hr0 (sq_nonneg _))
    nlinarith
  have hr3 : 0 ≤ r ^ 3 := pow_nonneg hr0 3
  have hq0 : 0 ≤ r ^ 2 * (1 - r) := mul_nonneg (sq_nonneg _) (by linarith)
  have hp0 : 0 ≤ p2 * (r ^ 2 * (1 - r)) := mul_nonneg h2.1 hq0
  -- `r` is small since `r³` is
  have hrs : r ≤ 1 / 10 ^ 6 := by
    by_contra hc
    have : (1 / 10 ^ 6 : ℝ) ^ 3 < r ^ 3 := by
      apply pow_lt_pow_left₀ (not_le.mp hc) (by norm_num) (by norm_num)
    have e : (4 : ℝ) * (1 / 10 ^ 11) ^ 2 ≤ (1 / 10 ^ 6) ^ 3 := by norm_num
    linarith
  have hS : bez p1 p2 (-s) ≤ 3 * p2 * (s ^ 2 * (1 + s)) := by
    unfold bez
    have a : 0 ≤ p1 * (s * (1 + s) ^ 2) := mul_nonneg h1.1 (mul_nonneg hs0.le (sq_nonneg _))
    have b : 0 ≤ s ^ 3 := pow_nonneg hs0.le 3
    nlinarith
  have hlt : 3 * p2 * (r ^ 2 * (1 - r)) < 3 * p2 * (s ^ 2 * (1 + s)) := by linarith
  have hp2 : 0 < p2 := by
    rcases h2.1.eq_or_lt with e | e
    · rw [← e] at hlt; simp at hlt
    · exact e
  have hlt' : r ^ 2 * (1 - r) < s ^ 2 * (1 + s) := by
    by_contra hc
    have := mul_le_mul_of_nonneg_left (not_lt.mp hc) (show 0 ≤ 3 * p2 by linarith)
    linarith
  by_contra hc
  have hc := not_le.mp hc
  have e1 : s * (11 / 10) < r := by nlinarith
  have e2 : (s * (11 / 10)) ^ 2 < r ^ 2 :=
    pow_lt_pow_left₀ e1 (by positivity) (by norm_num)
  have e3 : 0 < s ^ 2 := by positivity
  have e4 : (s * (11 / 10)) ^ 2 * (9 / 10) ≤ r ^ 2 * (1 - r) := by
    apply mul_le_mul e2.le (by linarith) (by norm_num) (sq_nonneg _)
  have e5 : s ^ 2 * (1 + s) ≤ s ^ 2 * (108 / 100) := by
    apply mul_le_mul_of_nonneg_left _ e3.le
    have : (1 / 10 ^ 11 : ℝ) ≤ 8 / 100 := by norm_num
    linarith
  nlinarith

/-- The eased progress is non-decreasing up to `1e-10`. -/
theorem progress_mono [Kurbo ℝ] (hk : ExactSolver) {t1 t2 : ℝ} (h : t1 ≤ t2) {e : Easing ℝ}
    (he : e.InUnitSquare) : progress t1 e ≤ progress t2 e + 1 / 10 ^ 10 := by
  rcases h.eq_or_lt with rfl | hlt
  · have : (0:ℝ) ≤ 1 / 10 ^ 10 := by norm_num
    linarith
  have tol : (4 / 10 ^ 11 : ℝ) + 4 / 10 ^ 11 ≤ 1 / 10 ^ 10 := by norm_num
  have tiny : (4 : ℝ) * (1 / 10 ^ 11) ^ 2 ≤ 1 / 10 ^ 11 := by norm_num
  have b1 := progress_ext hk t1 he
  have b2 := progress_ext hk t2 he
  rcases le_or_gt t1 0 with h10 | h10
  · have : progress t1 e = 0 := by unfold progress; rw [if_pos h10]
    rw [this]; linarith
  rcases le_or_gt 1 t2 with h21 | h21
  · have : progress t2 e = 1 := by
      unfold progress; rw [if_neg (by linarith), if_pos h21]
    rw [this]; linarith
  have h11 : t1 < 1 := by linarith
  have h20 : 0 < t2 := by linarith
  have p1 : progress t1 e = bez e.o.y e.i.y (easeParam t1 e) := by
    unfold progress; rw [if_neg (not_le.mpr h10), if_neg (not_le.mpr h11)]
  have p2 : progress t2 e = bez e.o.y e.i.y (easeParam t2 e) := by
    unfold progress; rw [if_neg (not_le.mpr h20), if_neg (not_le.mpr h21)]
  obtain ⟨hx1, hl1, hr1⟩ := easeParam_ext hk he h10 h11
  obtain ⟨hx2, hl2, hr2⟩ := easeParam_ext hk he h20 h21
  generalize easeParam t1 e = u1 at *
  generalize easeParam t2 e = u2 at *
  rw [p1] at b1 ⊢; rw [p2] at b2 ⊢
  have dd : (1 / 10 ^ 11 : ℝ) ≤ 1 / 10 := by norm_num
  -- small parameters give small progress
  have small : ∀ q1 q2 r : ℝ, 0 ≤ q1 ∧ q1 ≤ 1 → 0 ≤ q2 ∧ q2 ≤ 1 → 0 ≤ r →
      r ≤ 11 / 10 * (1 / 10 ^ 11) → bez q1 q2 r ≤ 4 / 10 ^ 11 := by
    intro q1 q2 r k1 k2 k3 k4
    unfold bez
    have w : r ≤ 1 / 1000 := by
      have : (11 / 10 * (1 / 10 ^ 11) : ℝ) ≤ 1 / 1000 := by norm_num
      linarith
    have a1 : q1 * (r * (1 - r) ^ 2) ≤ 1 * (r * 1) := by
      apply mul_le_mul k1.2 _ (by positivity) (by norm_num)
      apply mul_le_mul_of_nonneg_left _ k3
      nlinarith
    have a2 : q2 * (r ^ 2 * (1 - r)) ≤ 1 * (r * (1 / 1000)) := by
      apply mul_le_mul k2.2 _ (mul_nonneg (sq_nonneg _) (by linarith)) (by norm_num)
      nlinarith [mul_nonneg k3 k3]
    have a3 : r ^ 3 ≤ r * (1 / 1000) := by
      have : r ^ 3 = r * (r * r) := by ring
      rw [this]
      apply mul_le_mul_of_nonneg_left _ k3
      nlinarith
    have : (36 / 10 * (11 / 10 * (1 / 10 ^ 11)) : ℝ) ≤ 4 / 10 ^ 11 := by norm_num
    nlinarith
  rcases lt_or_ge u1 0 with c1 | c1
  · have := (bez_left he.oy he.iy dd hl1 c1).2
    linarith
  rcases lt_or_ge 1 u2 with d2 | d2
  · have := (bez_right he.oy he.iy dd hr2 d2).1
    linarith
  rcases lt_or_ge u2 0 with c2 | c2
  · -- `u2` just left of 0
    rcases lt_or_ge 1 u1 with d1 | d1
    · have a := (bez_right he.ox he.ix dd hr1 d1).1
      have b := (bez_left he.ox he.ix dd hl2 c2).2
      rw [hx1] at a; rw [hx2] at b
      linarith
    · have := bez_near he.ox he.ix (s := -u2) (r := u1) (by linarith) (by linarith) ⟨c1, d1⟩
        (by rw [neg_neg, hx1, hx2]; exact hlt)
      have := small _ _ u1 he.oy he.iy c1 this
      linarith
  rcases lt_or_ge 1 u1 with d1 | d1
  · -- mirror image
    have sw : ∀ q : ℝ, 0 ≤ q ∧ q ≤ 1 → 0 ≤ 1 - q ∧ 1 - q ≤ 1 :=
      fun q hq => ⟨by linarith [hq.2], by linarith [hq.1]⟩
    have e1 := bez_symm e.o.x e.i.x (1 - u1)
    have e2 := bez_symm e.o.x e.i.x (1 - u2)
    have e3 := bez_symm e.o.y e.i.y (1 - u2)
    rw [sub_sub_cancel] at e1 e2 e3
    have := bez_near (sw _ he.ix) (sw _ he.ox) (s := u1 - 1) (r := 1 - u2) (by linarith)
      (by linarith) ⟨by linarith, by linarith⟩
      (by rw [neg_sub]; linarith)
    have := small _ _ (1 - u2) (sw _ he.iy) (sw _ he.oy) (by linarith) this
    linarith
  · -- both in the unit interval
    have hu : u1 ≤ u2 := by
      by_contra hc
      have := bez_mono he.ox he.ix ⟨c2, d2⟩ ⟨c1, d1⟩ (not_le.mp hc).le
      rw [hx1, hx2] at this; linarith
    have := bez_mono he.oy he.iy ⟨c1, d1⟩ ⟨c2, d2⟩ hu
    linarith

/-- Away from the ends the eased progress is exactly non-decreasing. -/
theorem progress_mono_exact [Kurbo ℝ] (hk : ExactSolver) {t1 t2 : ℝ} (h : t1 ≤ t2) {e : Easing ℝ}
    (he : e.InUnitSquare) (h1 : t1 ≤ 0 ∨ 1 / 10 ^ 21 ≤ t1) (h1' : t1 ≤ 1 - 1 / 10 ^ 21 ∨ 1 ≤ t1)
    (h2 : t2 ≤ 0 ∨ 1 / 10 ^ 21 ≤ t2) (h2' : t2 ≤ 1 - 1 / 10 ^ 21 ∨ 1 ≤ t2) :
    progress t1 e ≤ progress t2 e := by
  have key : ∀ t, (t ≤ 0 ∨ 1 / 10 ^ 21 ≤ t) → (t ≤ 1 - 1 / 10 ^ 21 ∨ 1 ≤ t) →
      ∃ u ∈ Set.Icc (0 : ℝ) 1, progress t e = bez e.o.y e.i.y u ∧
        bez e.o.x e.i.x u = max 0 (min t 1) ∧ (t ≤ 0 → u = 0) ∧ (1 ≤ t → u = 1) ∧
        (0 < t → t < 1 → u = easeParam t e) := by
    intro t a b
    unfold progress
    split_ifs with c0 c1
    · exact ⟨0, by simp, by rw [bez_zero], by
        rw [bez_zero]; symm; exact max_eq_left (min_le_of_left_le c0), fun _ => rfl,
        fun h => by linarith, fun h => by linarith⟩
    · exact ⟨1, by simp, by rw [bez_one], by rw [bez_one, min_eq_right c1]; norm_num,
        fun h => by linarith, fun _ => rfl, fun _ h => by linarith⟩
    · have c0 := not_le.mp c0
      have c1 := not_le.mp c1
      obtain ⟨x, y⟩ := easeParam_unit hk he (a.resolve_left (by linarith))
        (b.resolve_right (by linarith))
      exact ⟨_, y, rfl, by rw [x, min_eq_left c1.le, max_eq_right c0.le], fun h => by linarith,
        fun h => by linarith, fun _ _ => rfl⟩
  obtain ⟨u1, m1, e1, x1, z1, o1, q1⟩ := key t1 h1 h1'
  obtain ⟨u2, m2, e2, x2, z2, o2, q2⟩ := key t2 h2 h2'
  rw [e1, e2]
  refine bez_mono he.oy he.iy m1 m2 ?_
  rcases le_or_gt t1 0 with c | c
  · rw [z1 c]; exact m2.1
  rcases le_or_gt 1 t2 with c' | c'
  · rw [o2 c']; exact m1.2
  have r1 := q1 c (by linarith)
  have r2 := q2 (by linarith) c'
  rcases h.eq_or_lt with rfl | hlt
  · rw [r1, r2]
  · by_contra hc
    have := bez_mono he.ox he.ix m2 m1 (not_le.mp hc).le
    rw [x1, x2, min_eq_left c'.le, min_eq_left (by linarith), max_eq_right c.le,
      max_eq_right (by linarith)] at this
    linarith

theorem progress_unit [Kurbo ℝ] (hk : ExactSolver) (t : ℝ) {e : Easing ℝ}
    (he : e.InUnitSquare) (h1 : t ≤ 0 ∨ 1 / 10 ^ 21 ≤ t) (h1' : t ≤ 1 - 1 / 10 ^ 21 ∨ 1 ≤ t) :
    0 ≤ progress t e ∧ progress t e ≤ 1 := by
  unfold progress
  split_ifs with h0 h2
  · norm_num
  · norm_num
  · exact bez_unit he.oy he.iy (easeParam_unit hk he (h1.resolve_left h0)
      (h1'.resolve_right h2)).2

theorem progress_lerp [Kurbo ℝ] (hk : ExactSolver) (t : ℝ) (h0 : 0 ≤ t) (h1 : t ≤ 1) :
    progress t (Easing.lerp : Easing ℝ) = t := by
  unfold progress
  split_ifs with c0 c1
  · linarith
  · linarith
  · obtain ⟨_, -, hb, -⟩ := easeParam_real hk t (not_le.mp c0) (not_le.mp c1) Easing.lerp
    exact hb

end Velato
