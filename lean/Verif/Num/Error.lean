import Verif.Num.F64Lemmas
import Mathlib.Data.Real.Basic

/-!
# Rounding errors of `f64` arithmetic
-/

set_option exponentiation.threshold 2000

namespace Velato

theorem abs_rne_sub (q : ℚ) : |(rne q : ℚ) - q| ≤ 1 / 2 := by
  have h1 := Int.floor_le q
  have h2 := Int.lt_floor_add_one q
  unfold rne
  simp only
  split_ifs with h3 h4 h5 <;> rw [abs_le] <;> push_cast <;> constructor <;> linarith

/-- Rounding changes a number by at most half a unit in the last place. -/
theorem abs_roundMag_sub {q : ℚ} (hq : 0 ≤ q) :
    |roundMag fmt64 q - q| ≤ q / 2 ^ 53 + 1 / 2 ^ 1075 := by
  unfold roundMag
  split_ifs with h
  · have : q = 0 := le_antisymm h hq
    subst this
    simp
  · have hpos : 0 < q := not_le.mp h
    have hp : (0 : ℚ) < 2 ^ ulpExp fmt64 q := by positivity
    have h1 : (rne (q / 2 ^ ulpExp fmt64 q) : ℚ) * 2 ^ ulpExp fmt64 q - q =
        ((rne (q / 2 ^ ulpExp fmt64 q) : ℚ) - q / 2 ^ ulpExp fmt64 q) * 2 ^ ulpExp fmt64 q := by
      field_simp
    rw [h1, abs_mul, abs_of_pos hp]
    have h2 := abs_rne_sub (q / 2 ^ ulpExp fmt64 q)
    have h3 : (2 : ℚ) ^ ulpExp fmt64 q ≤ 2 * (q / 2 ^ 53) + 2 * (1 / 2 ^ 1075) := by
      unfold ulpExp
      rcases le_total (ilog2 q - ((fmt64.prec : ℤ) - 1)) fmt64.emin with h4 | h4
      · rw [max_eq_right h4]
        have : (2 : ℚ) ^ fmt64.emin = 2 * (1 / 2 ^ 1075) := by
          show (2 : ℚ) ^ (-1074 : ℤ) = _
          norm_num
        rw [this]
        have : 0 ≤ 2 * (q / 2 ^ 53) := by positivity
        linarith
      · rw [max_eq_left h4]
        have h5 : (2 : ℚ) ^ (ilog2 q - ((fmt64.prec : ℤ) - 1)) = 2 ^ ilog2 q / 2 ^ 52 := by
          show (2 : ℚ) ^ (ilog2 q - ((53 : ℕ) - 1 : ℤ)) = _
          rw [zpow_sub₀ (by norm_num)]
          norm_num
        rw [h5]
        have h6 := (ilog2_spec hpos).1
        have h7 : (2 : ℚ) ^ ilog2 q / 2 ^ 52 ≤ q / 2 ^ 52 := by gcongr
        have h8 : q / 2 ^ 52 = 2 * (q / 2 ^ 53) := by ring
        have : (0 : ℚ) ≤ 2 * (1 / 2 ^ 1075) := by positivity
        linarith
    have := mul_le_mul_of_nonneg_right h2 hp.le
    linarith

namespace F64

theorem abs_rnd_sub (q : ℚ) : |rnd q - q| ≤ |q| / 2 ^ 53 + 1 / 2 ^ 1075 := by
  have h := abs_roundMag_sub (abs_nonneg q)
  unfold rnd
  split_ifs with hq
  · rw [abs_of_neg hq] at h ⊢
    rwa [show -roundMag fmt64 (-q) - q = -(roundMag fmt64 (-q) - -q) by ring, abs_neg]
  · rw [abs_of_nonneg (not_lt.mp hq)] at h ⊢
    exact h

/-- The exact value of a finite number, as a real number. -/
noncomputable def toR (x : F64) : ℝ := ((x.toQ : ℚ) : ℝ)

/-- The finite number `x` approximates the real number `r` up to `e`. -/
structure Near (x : F64) (r e : ℝ) : Prop where
  fin : x.isFin = true
  err : |x.toR - r| ≤ e

theorem Near.self {x : F64} (h : x.isFin = true) : Near x x.toR 0 := ⟨h, by simp⟩

theorem Near.mono {x : F64} {r e d : ℝ} (h : Near x r e) (hd : e ≤ d) : Near x r d :=
  ⟨h.fin, h.err.trans hd⟩

theorem Near.abs_le {x : F64} {r e B : ℝ} (h : Near x r e) (hB : |r| ≤ B) : |x.toR| ≤ B + e := by
  have := h.err
  calc |x.toR| = |(x.toR - r) + r| := by ring_nf
    _ ≤ |x.toR - r| + |r| := abs_add_le _ _
    _ ≤ B + e := by linarith

private theorem cast_maxMag : ((maxMag : ℚ) : ℝ) = 2 ^ 1024 := by unfold maxMag; push_cast; rfl

/-- The result of an operation is the rounded exact result. -/
theorem near_of_rnd {x : F64} {q : ℚ} (hx : |rnd q| < maxMag → x.isFin = true ∧ x.toQ = rnd q)
    {r D B E : ℝ} (hD : |(q : ℝ) - r| ≤ D) (hB : |r| ≤ B)
    (hE : D + (B + D) / 2 ^ 53 + 1 / 2 ^ 1075 ≤ E) (hM : B + E < 2 ^ 1024) : Near x r E := by
  have h1 : |(rnd q : ℝ) - q| ≤ |(q : ℝ)| / 2 ^ 53 + 1 / 2 ^ 1075 := by
    have := abs_rnd_sub q
    have h : ((|rnd q - q| : ℚ) : ℝ) ≤ ((|q| / 2 ^ 53 + 1 / 2 ^ 1075 : ℚ) : ℝ) := by exact_mod_cast this
    push_cast at h
    exact h
  have h2 : |(q : ℝ)| ≤ B + D := by
    calc |(q : ℝ)| = |((q : ℝ) - r) + r| := by ring_nf
      _ ≤ |(q : ℝ) - r| + |r| := abs_add_le _ _
      _ ≤ B + D := by linarith
  have h3 : |(rnd q : ℝ) - r| ≤ E := by
    calc |(rnd q : ℝ) - r| = |((rnd q : ℝ) - q) + (q - r)| := by ring_nf
      _ ≤ |(rnd q : ℝ) - q| + |(q : ℝ) - r| := abs_add_le _ _
      _ ≤ (B + D) / 2 ^ 53 + 1 / 2 ^ 1075 + D := by
        have : |(q : ℝ)| / 2 ^ 53 ≤ (B + D) / 2 ^ 53 := by gcongr
        linarith
      _ ≤ E := by linarith
  have h4 : |rnd q| < maxMag := by
    have : |(rnd q : ℝ)| < 2 ^ 1024 := by
      calc |(rnd q : ℝ)| = |((rnd q : ℝ) - r) + r| := by ring_nf
        _ ≤ |(rnd q : ℝ) - r| + |r| := abs_add_le _ _
        _ < 2 ^ 1024 := by linarith
    rw [← cast_maxMag] at this
    exact_mod_cast this
  obtain ⟨h5, h6⟩ := hx h4
  exact ⟨h5, by unfold toR; rw [h6]; exact h3⟩

theorem Near.add {x y : F64} {r s e d : ℝ} (hx : Near x r e) (hy : Near y s d) {B E : ℝ}
    (hB : |r + s| ≤ B) (hE : (e + d) + (B + (e + d)) / 2 ^ 53 + 1 / 2 ^ 1075 ≤ E)
    (hM : B + E < 2 ^ 1024) : Near (FloatOps.add x y) (r + s) E := by
  refine near_of_rnd (add_fin hx.fin hy.fin) (D := e + d) ?_ hB hE hM
  push_cast
  calc _ = |(x.toR - r) + (y.toR - s)| := by unfold toR; ring_nf
    _ ≤ |x.toR - r| + |y.toR - s| := abs_add_le _ _
    _ ≤ e + d := add_le_add hx.err hy.err

theorem Near.neg {x : F64} {r e : ℝ} (hx : Near x r e) : Near (FloatOps.neg x) (-r) e := by
  refine ⟨by show (F64.neg x).isFin = true; rw [isFin_neg]; exact hx.fin, ?_⟩
  have : (FloatOps.neg x).toR = -x.toR := by
    show (((F64.neg x).toQ : ℚ) : ℝ) = _
    rw [toQ_neg]; push_cast; rfl
  rw [this, show -x.toR - -r = -(x.toR - r) by ring, abs_neg]
  exact hx.err

theorem Near.sub {x y : F64} {r s e d : ℝ} (hx : Near x r e) (hy : Near y s d) {B E : ℝ}
    (hB : |r - s| ≤ B) (hE : (e + d) + (B + (e + d)) / 2 ^ 53 + 1 / 2 ^ 1075 ≤ E)
    (hM : B + E < 2 ^ 1024) : Near (FloatOps.sub x y) (r - s) E := by
  have := hx.add hy.neg (B := B) (by rwa [← sub_eq_add_neg]) hE hM
  rw [← sub_eq_add_neg] at this
  exact this

theorem Near.mul {x y : F64} {r s e d : ℝ} (hx : Near x r e) (hy : Near y s d) {R S E : ℝ}
    (hR : |r| ≤ R) (hS : |s| ≤ S)
    (hE : (R * d + S * e + e * d) + (R * S + (R * d + S * e + e * d)) / 2 ^ 53 + 1 / 2 ^ 1075 ≤ E)
    (hM : R * S + E < 2 ^ 1024) : Near (FloatOps.mul x y) (r * s) E := by
  have he : 0 ≤ e := (abs_nonneg _).trans hx.err
  have hd : 0 ≤ d := (abs_nonneg _).trans hy.err
  have hR0 : 0 ≤ R := (abs_nonneg _).trans hR
  have hS0 : 0 ≤ S := (abs_nonneg _).trans hS
  refine near_of_rnd (mul_fin hx.fin hy.fin) (D := R * d + S * e + e * d) ?_ ?_ hE hM
  · push_cast
    calc _ = |r * (y.toR - s) + s * (x.toR - r) + (x.toR - r) * (y.toR - s)| := by
          unfold toR; ring_nf
      _ ≤ |r * (y.toR - s)| + |s * (x.toR - r)| + |(x.toR - r) * (y.toR - s)| := abs_add_three _ _ _
      _ ≤ R * d + S * e + e * d := by
        rw [abs_mul, abs_mul, abs_mul]
        have h1 := hx.err
        have h2 := hy.err
        gcongr
  · rw [abs_mul]
    gcongr

theorem Near.div {x y : F64} {r e s : ℝ} (hx : Near x r e) (hy : Near y s 0) (hs : s ≠ 0) {B E : ℝ}
    (hB : |r / s| ≤ B) (hE : e / |s| + (B + e / |s|) / 2 ^ 53 + 1 / 2 ^ 1075 ≤ E)
    (hM : B + E < 2 ^ 1024) : Near (FloatOps.div x y) (r / s) E := by
  have hys : y.toR = s := by
    have := hy.err
    have h2 := abs_nonneg (y.toR - s)
    have : |y.toR - s| = 0 := le_antisymm this h2
    rw [abs_eq_zero] at this
    linarith
  refine near_of_rnd (div_fin hx.fin hy.fin ?_) (D := e / |s|) ?_ hB hE hM
  · intro h0
    apply hs
    rw [← hys]; unfold toR; rw [h0]; simp
  · push_cast
    have : ((x.toQ : ℝ) / (y.toQ : ℝ)) - r / s = (x.toR - r) / s := by
      rw [← hys]; unfold toR; ring
    rw [this, abs_div]
    have := hx.err
    gcongr

theorem near_lit {q : ℚ} {n : ℕ} (hn : n < 2 ^ 53) (hq : q = n) : Near (FloatOps.lit q) n 0 := by
  subst hq
  obtain ⟨h1, h2⟩ := lit_nat hn
  refine ⟨h1, ?_⟩
  unfold toR
  rw [h2]
  simp

end F64
end Velato
