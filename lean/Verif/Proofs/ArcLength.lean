import Verif.Spec.TrimCurve
import Verif.Proofs.TrimPath
import Mathlib.Analysis.Calculus.Deriv.Polynomial
import Mathlib.MeasureTheory.Integral.IntervalIntegral.FundThmCalculus
import Mathlib.Tactic.FunProp

/-!
# Arc length of Bézier segments
-/

namespace Velato

/-- The derivative of `at`. -/
noncomputable def PathSeg.vel : PathSeg ℝ → ℝ → P2 ℝ
  | .line p q, _ => ⟨q.x - p.x, q.y - p.y⟩
  | .quad p q r, t =>
    ⟨2 * ((1 - t) * (q.x - p.x) + t * (r.x - q.x)), 2 * ((1 - t) * (q.y - p.y) + t * (r.y - q.y))⟩
  | .cubic p q r s, t =>
    ⟨3 * ((1 - t) ^ 2 * (q.x - p.x) + 2 * (1 - t) * t * (r.x - q.x) + t ^ 2 * (s.x - r.x)),
     3 * ((1 - t) ^ 2 * (q.y - p.y) + 2 * (1 - t) * t * (r.y - q.y) + t ^ 2 * (s.y - r.y))⟩

theorem line_deriv (p q t : ℝ) :
    HasDerivAt (fun u => (1 - u) * p + u * q) (q - p) t := by
  have h : HasDerivAt (fun u : ℝ => u) 1 t := hasDerivAt_id t
  have h1 : HasDerivAt (fun u : ℝ => 1 - u) (-1) t := by simpa using h.const_sub 1
  have := (h1.mul_const p).add (h.mul_const q)
  exact this.congr_deriv (by ring)

theorem quad_deriv (p q r t : ℝ) :
    HasDerivAt (fun u => (1 - u) ^ 2 * p + 2 * (1 - u) * u * q + u ^ 2 * r)
      (2 * ((1 - t) * (q - p) + t * (r - q))) t := by
  have h : HasDerivAt (fun u : ℝ => u) 1 t := hasDerivAt_id t
  have h1 : HasDerivAt (fun u : ℝ => 1 - u) (-1) t := by simpa using h.const_sub 1
  have := (((h1.pow 2).mul_const p).add (((h1.const_mul 2).mul h).mul_const q)).add
    ((h.pow 2).mul_const r)
  exact this.congr_deriv (by simp; ring)

theorem cubic_deriv (p q r s t : ℝ) :
    HasDerivAt (fun u => (1 - u) ^ 3 * p + 3 * (1 - u) ^ 2 * u * q + 3 * (1 - u) * u ^ 2 * r
        + u ^ 3 * s)
      (3 * ((1 - t) ^ 2 * (q - p) + 2 * (1 - t) * t * (r - q) + t ^ 2 * (s - r))) t := by
  have h : HasDerivAt (fun u : ℝ => u) 1 t := hasDerivAt_id t
  have h1 : HasDerivAt (fun u : ℝ => 1 - u) (-1) t := by simpa using h.const_sub 1
  have := ((((h1.pow 3).mul_const p).add ((((h1.pow 2).const_mul 3).mul h).mul_const q)).add
    (((h1.const_mul 3).mul (h.pow 2)).mul_const r)).add ((h.pow 3).mul_const s)
  exact this.congr_deriv (by simp; ring)

theorem PathSeg.deriv_at (s : PathSeg ℝ) (t : ℝ) :
    HasDerivAt (fun u => (s.at u).x) (s.vel t).x t ∧
    HasDerivAt (fun u => (s.at u).y) (s.vel t).y t := by
  cases s with
  | line p q => exact ⟨line_deriv _ _ _, line_deriv _ _ _⟩
  | quad p q r => exact ⟨quad_deriv _ _ _ _, quad_deriv _ _ _ _⟩
  | cubic p q r s => exact ⟨cubic_deriv _ _ _ _ _, cubic_deriv _ _ _ _ _⟩

theorem PathSeg.speed_eq (s : PathSeg ℝ) (t : ℝ) :
    s.speed t = Real.sqrt ((s.vel t).x ^ 2 + (s.vel t).y ^ 2) := by
  rw [PathSeg.speed, (s.deriv_at t).1.deriv, (s.deriv_at t).2.deriv]

theorem PathSeg.continuous_speed (s : PathSeg ℝ) : Continuous s.speed := by
  have e : s.speed = fun t => Real.sqrt ((s.vel t).x ^ 2 + (s.vel t).y ^ 2) := by
    funext t; exact s.speed_eq t
  rw [e]
  cases s <;> simp only [PathSeg.vel] <;> fun_prop

theorem PathSeg.speed_nonneg (s : PathSeg ℝ) (t : ℝ) : 0 ≤ s.speed t := Real.sqrt_nonneg _

theorem PathSeg.lengthTo_sub (s : PathSeg ℝ) (a b : ℝ) :
    s.lengthTo b - s.lengthTo a = ∫ u in a..b, s.speed u := by
  unfold PathSeg.lengthTo
  exact intervalIntegral.integral_interval_sub_left (s.continuous_speed.intervalIntegrable _ _)
    (s.continuous_speed.intervalIntegrable _ _)

theorem PathSeg.lengthTo_mono (s : PathSeg ℝ) {a b : ℝ} (h : a ≤ b) :
    s.lengthTo a ≤ s.lengthTo b := by
  have := intervalIntegral.integral_nonneg (μ := MeasureTheory.volume) h (fun u _ => s.speed_nonneg u)
  rw [← s.lengthTo_sub] at this
  linarith

theorem PathSeg.lengthTo_zero (s : PathSeg ℝ) : s.lengthTo 0 = 0 := by
  simp [PathSeg.lengthTo]

theorem PathSeg.length_nonneg (s : PathSeg ℝ) : 0 ≤ s.length := by
  have := s.lengthTo_mono (zero_le_one' ℝ)
  rwa [s.lengthTo_zero] at this

theorem PathSeg.continuous_lengthTo (s : PathSeg ℝ) : Continuous s.lengthTo :=
  intervalIntegral.continuous_primitive (fun _ _ => s.continuous_speed.intervalIntegrable _ _) 0

/-- A segment that runs through the points of another one between two parameters has the arc length
between these parameters. -/
theorem PathSeg.length_sub {s s' : PathSeg ℝ} {t0 t1 : ℝ} (h : t0 ≤ t1)
    (hs : ∀ u, s'.at u = s.at (t0 + u * (t1 - t0))) :
    s'.length = s.lengthTo t1 - s.lengthTo t0 := by
  have hsp : ∀ u, s'.speed u = (t1 - t0) * s.speed (t0 + u * (t1 - t0)) := by
    intro u
    have hl : HasDerivAt (fun u : ℝ => t0 + u * (t1 - t0)) (t1 - t0) u := by
      simpa using ((hasDerivAt_id u).mul_const (t1 - t0)).const_add t0
    have hx : (s'.vel u).x = (s.vel (t0 + u * (t1 - t0))).x * (t1 - t0) := by
      refine (s'.deriv_at u).1.unique ?_
      simp only [hs]
      exact (s.deriv_at (t0 + u * (t1 - t0))).1.comp u hl
    have hy : (s'.vel u).y = (s.vel (t0 + u * (t1 - t0))).y * (t1 - t0) := by
      refine (s'.deriv_at u).2.unique ?_
      simp only [hs]
      exact (s.deriv_at (t0 + u * (t1 - t0))).2.comp u hl
    rw [s'.speed_eq, s.speed_eq, hx, hy, ← Real.sqrt_sq (show 0 ≤ t1 - t0 by linarith),
      ← Real.sqrt_mul (sq_nonneg _), Real.sqrt_sq (show 0 ≤ t1 - t0 by linarith)]
    congr 1
    ring
  rw [s.lengthTo_sub, PathSeg.length, PathSeg.lengthTo]
  simp only [hsp]
  rw [intervalIntegral.integral_const_mul]
  have := intervalIntegral.smul_integral_comp_add_mul s.speed (a := 0) (b := 1) (t1 - t0) t0
  simp only [mul_zero, add_zero, mul_one, add_sub_cancel, smul_eq_mul] at this
  rw [← this]
  congr 2
  funext u
  rw [mul_comm u]

theorem PathSeg.start_at (s : PathSeg ℝ) : s.start = s.at 0 := by
  cases s <;> simp [PathSeg.start, PathSeg.at]

theorem PathSeg.stop_at (s : PathSeg ℝ) : s.stop = s.at 1 := by
  cases s <;> simp [PathSeg.stop, PathSeg.at]

end Velato
