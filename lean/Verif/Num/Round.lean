import Mathlib.Data.Rat.Floor
import Mathlib.Data.Int.Log
import Mathlib.Algebra.Order.Field.Power
import Mathlib.Tactic.Linarith
import Mathlib.Tactic.Positivity
import Mathlib.Tactic.FieldSimp
import Mathlib.Tactic.Ring
import Mathlib.Tactic.NormNum

/-!
# Rounding to a binary floating-point format

Round-to-nearest, ties-to-even, with gradual underflow, on exact rationals.  `prec` is the number
of significand bits and `emin` the exponent of the smallest positive number.
-/

namespace Velato

/-- A binary format: numbers `m * 2^e` with `m < 2^prec`, `emin ≤ e`, of magnitude below `2^emax`. -/
structure Fmt where
  prec : ℕ
  emin : ℤ
  emax : ℤ
  prec_pos : 0 < prec

/-- IEEE-754 binary64. -/
def fmt64 : Fmt := ⟨53, -1074, 1024, by decide⟩
/-- IEEE-754 binary32. -/
def fmt32 : Fmt := ⟨24, -149, 128, by decide⟩

/-- Nearest integer, ties to even. -/
def rne (q : ℚ) : ℤ :=
  let r := q - ⌊q⌋
  if r < 1 / 2 then ⌊q⌋
  else if 1 / 2 < r then ⌊q⌋ + 1
  else if ⌊q⌋ % 2 = 0 then ⌊q⌋ else ⌊q⌋ + 1

/-- `⌊log₂ q⌋` for `q > 0`, computed from numerator and denominator. -/
def ilog2 (q : ℚ) : ℤ :=
  let k : ℤ := (Nat.log2 q.num.natAbs : ℤ) - (Nat.log2 q.den : ℤ)
  if q < (2 : ℚ) ^ k then k - 1 else k

/-- The exponent of the unit in the last place at `q > 0`. -/
def ulpExp (f : Fmt) (q : ℚ) : ℤ := max (ilog2 q - (f.prec - 1 : ℤ)) f.emin

/-- Rounding of `q ≥ 0` to the format (no overflow: the exponent is unbounded above). -/
def roundMag (f : Fmt) (q : ℚ) : ℚ :=
  if q ≤ 0 then 0 else (rne (q / 2 ^ ulpExp f q) : ℚ) * 2 ^ ulpExp f q

/-- `q` is a (non-negative) number of the format, ignoring the overflow threshold. -/
def IsRepr (f : Fmt) (q : ℚ) : Prop :=
  ∃ (m : ℕ) (e : ℤ), m < 2 ^ f.prec ∧ f.emin ≤ e ∧ q = m * 2 ^ e

theorem rne_intCast (z : ℤ) : rne (z : ℚ) = z := by
  simp [rne]

theorem rne_mono {a b : ℚ} (h : a ≤ b) : rne a ≤ rne b := by
  have hf : ⌊a⌋ ≤ ⌊b⌋ := Int.floor_mono h
  rcases hf.eq_or_lt with hf | hf
  · unfold rne
    simp only [hf]
    split_ifs <;> first | omega | (exfalso; linarith)
  · have h1 : rne a ≤ ⌊a⌋ + 1 := by
      unfold rne; simp only; split_ifs <;> omega
    have h2 : ⌊b⌋ ≤ rne b := by
      unfold rne; simp only; split_ifs <;> omega
    omega

theorem ilog2_spec {q : ℚ} (hq : 0 < q) : (2 : ℚ) ^ ilog2 q ≤ q ∧ q < (2 : ℚ) ^ (ilog2 q + 1) := by
  set n := q.num.natAbs with hn
  set d := q.den with hd
  have hnum : 0 < q.num := Rat.num_pos.mpr hq
  have hn0 : n ≠ 0 := by omega
  have hd0 : d ≠ 0 := q.den_nz
  have hqe : q = (n : ℚ) / d := by
    have : (n : ℤ) = q.num := by omega
    rw [← Int.cast_natCast, this]; exact (Rat.num_div_den q).symm
  have two : (2 : ℚ) ≠ 0 := by norm_num
  have hn1 : (2 : ℚ) ^ (Nat.log2 n) ≤ n := by exact_mod_cast Nat.log2_self_le hn0
  have hn2 : (n : ℚ) < 2 ^ (Nat.log2 n + 1) := by exact_mod_cast Nat.lt_log2_self
  have hd1 : (2 : ℚ) ^ (Nat.log2 d) ≤ d := by exact_mod_cast Nat.log2_self_le hd0
  have hd2 : (d : ℚ) < 2 ^ (Nat.log2 d + 1) := by exact_mod_cast Nat.lt_log2_self
  have hdpos : (0 : ℚ) < d := by exact_mod_cast Nat.pos_of_ne_zero hd0
  set k : ℤ := (Nat.log2 n : ℤ) - (Nat.log2 d : ℤ) with hk
  have hkp : (2 : ℚ) ^ k = 2 ^ (Nat.log2 n) / 2 ^ (Nat.log2 d) := by
    rw [hk, zpow_sub₀ two, zpow_natCast, zpow_natCast]
  have lo : (2 : ℚ) ^ (k - 1) < q := by
    rw [zpow_sub_one₀ two, hkp, hqe, lt_div_iff₀ hdpos]
    have p : (0 : ℚ) < 2 ^ (Nat.log2 d) := by positivity
    have : (2 : ℚ) ^ n.log2 / 2 ^ d.log2 * 2⁻¹ * d < 2 ^ n.log2 / 2 ^ d.log2 * 2⁻¹ * 2 ^ (d.log2 + 1) := by
      apply mul_lt_mul_of_pos_left hd2; positivity
    have e : (2 : ℚ) ^ n.log2 / 2 ^ d.log2 * 2⁻¹ * 2 ^ (d.log2 + 1) = 2 ^ n.log2 := by
      rw [pow_succ]; field_simp
    linarith
  have hi : q < (2 : ℚ) ^ (k + 1) := by
    rw [zpow_add_one₀ two, hkp, hqe, div_lt_iff₀ hdpos]
    have p : (0 : ℚ) < 2 ^ (Nat.log2 d) := by positivity
    have : (2 : ℚ) ^ n.log2 / 2 ^ d.log2 * 2 * 2 ^ d.log2 ≤ 2 ^ n.log2 / 2 ^ d.log2 * 2 * d := by
      apply mul_le_mul_of_nonneg_left hd1; positivity
    have e : (2 : ℚ) ^ n.log2 / 2 ^ d.log2 * 2 * 2 ^ d.log2 = 2 ^ (n.log2 + 1) := by
      rw [pow_succ]; field_simp
    linarith
  unfold ilog2
  simp only [← hn, ← hd, ← hk]
  split_ifs with h
  · exact ⟨lo.le, by simpa using h⟩
  · exact ⟨not_lt.mp h, hi⟩

theorem ilog2_le_of_lt {q : ℚ} (hq : 0 < q) {k : ℤ} (h : q < (2 : ℚ) ^ k) : ilog2 q < k := by
  by_contra hc
  have := (ilog2_spec hq).1
  have h2 : (2 : ℚ) ^ k ≤ 2 ^ ilog2 q := zpow_le_zpow_right₀ (by norm_num) (by omega)
  linarith

theorem le_ilog2_of_le {q : ℚ} {k : ℤ} (h : (2 : ℚ) ^ k ≤ q) : k ≤ ilog2 q := by
  have hq : 0 < q := lt_of_lt_of_le (by positivity) h
  by_contra hc
  have := (ilog2_spec hq).2
  have h2 : (2 : ℚ) ^ (ilog2 q + 1) ≤ 2 ^ k := zpow_le_zpow_right₀ (by norm_num) (by omega)
  linarith

theorem ilog2_mono {a b : ℚ} (ha : 0 < a) (h : a ≤ b) : ilog2 a ≤ ilog2 b :=
  le_ilog2_of_le ((ilog2_spec ha).1.trans h)

/-- A power of two with exponent at least `e` is a whole multiple of `2^e`. -/
theorem zpow_two_eq_natCast_mul {e k : ℤ} (h : e ≤ k) :
    (2 : ℚ) ^ k = ((2 ^ (k - e).toNat : ℕ) : ℚ) * 2 ^ e := by
  have : k = (((k - e).toNat : ℕ) : ℤ) + e := by omega
  conv_lhs => rw [this]
  rw [zpow_add₀ (by norm_num), zpow_natCast]; push_cast; rfl

theorem roundMag_nonneg (f : Fmt) (q : ℚ) : 0 ≤ roundMag f q := by
  unfold roundMag
  split_ifs with h
  · exact le_refl _
  · have h0 : rne 0 = 0 := rne_intCast 0
    have : (0 : ℤ) ≤ rne (q / 2 ^ ulpExp f q) := by
      rw [← h0]; exact rne_mono (by push Not at h; positivity)
    positivity

theorem roundMag_zero (f : Fmt) : roundMag f 0 = 0 := by simp [roundMag]

theorem roundMag_of_repr {f : Fmt} {q : ℚ} (h : IsRepr f q) : roundMag f q = q := by
  obtain ⟨m, e, hm, he, rfl⟩ := h
  rcases Nat.eq_zero_or_pos m with rfl | hpos
  · simp [roundMag]
  have hq : (0 : ℚ) < m * 2 ^ e := by positivity
  have hlog : ilog2 ((m : ℚ) * 2 ^ e) < f.prec + e := by
    apply ilog2_le_of_lt hq
    rw [zpow_add₀ (by norm_num), zpow_natCast]
    apply mul_lt_mul_of_pos_right _ (by positivity)
    exact_mod_cast hm
  have hue : ulpExp f ((m : ℚ) * 2 ^ e) ≤ e := by unfold ulpExp; omega
  unfold roundMag
  rw [if_neg (not_le.mpr hq)]
  generalize hu : ulpExp f ((m : ℚ) * 2 ^ e) = u at *
  have h1 : (m : ℚ) * 2 ^ e / 2 ^ u = ((m * 2 ^ (e - u).toNat : ℕ) : ℤ) := by
    rw [zpow_two_eq_natCast_mul hue]
    have : (2 : ℚ) ^ u ≠ 0 := by positivity
    field_simp
    push_cast; ring
  rw [h1, rne_intCast]
  have : (2 : ℚ) ^ u ≠ 0 := by positivity
  rw [← h1]; field_simp

theorem roundMag_mono {f : Fmt} {a b : ℚ} (h : a ≤ b) : roundMag f a ≤ roundMag f b := by
  by_cases ha : a ≤ 0
  · have : roundMag f a = 0 := by simp [roundMag, ha]
    rw [this]; exact roundMag_nonneg f b
  push Not at ha
  have hb : 0 < b := lt_of_lt_of_le ha h
  have hl := ilog2_mono ha h
  have hp := f.prec_pos
  have hue : ulpExp f a ≤ ulpExp f b := by unfold ulpExp; omega
  unfold roundMag
  rw [if_neg (not_le.mpr ha), if_neg (not_le.mpr hb)]
  rcases hue.eq_or_lt with hue | hue
  · rw [hue]
    apply mul_le_mul_of_nonneg_right _ (by positivity)
    exact_mod_cast rne_mono (by
      apply div_le_div_of_nonneg_right h; positivity)
  · -- the power of two `2^(ilog2 b)` separates the two
    have hlt : ilog2 a + 1 ≤ ilog2 b := by unfold ulpExp at hue; omega
    have hub : ulpExp f b ≤ ilog2 b := by unfold ulpExp at hue ⊢; omega
    have hua : ulpExp f a ≤ ilog2 b := by omega
    have ha2 : a ≤ 2 ^ ilog2 b := by
      have := (ilog2_spec ha).2
      have h2 : (2 : ℚ) ^ (ilog2 a + 1) ≤ 2 ^ ilog2 b := zpow_le_zpow_right₀ (by norm_num) hlt
      linarith
    have hb2 : (2 : ℚ) ^ ilog2 b ≤ b := (ilog2_spec hb).1
    have key : ∀ u : ℤ, u ≤ ilog2 b →
        (rne ((2 : ℚ) ^ ilog2 b / 2 ^ u) : ℚ) * 2 ^ u = 2 ^ ilog2 b := by
      intro u hu
      have hne : (2 : ℚ) ^ u ≠ 0 := by positivity
      have h1 : (2 : ℚ) ^ ilog2 b / 2 ^ u = ((2 ^ (ilog2 b - u).toNat : ℕ) : ℤ) := by
        rw [zpow_two_eq_natCast_mul hu]; field_simp; push_cast; rfl
      rw [h1, rne_intCast, ← h1]; field_simp
    calc (rne (a / 2 ^ ulpExp f a) : ℚ) * 2 ^ ulpExp f a
        ≤ (rne ((2 : ℚ) ^ ilog2 b / 2 ^ ulpExp f a) : ℚ) * 2 ^ ulpExp f a := by
          apply mul_le_mul_of_nonneg_right _ (by positivity)
          exact_mod_cast rne_mono (by apply div_le_div_of_nonneg_right ha2; positivity)
      _ = 2 ^ ilog2 b := key _ hua
      _ = (rne ((2 : ℚ) ^ ilog2 b / 2 ^ ulpExp f b) : ℚ) * 2 ^ ulpExp f b := (key _ hub).symm
      _ ≤ _ := by
          apply mul_le_mul_of_nonneg_right _ (by positivity)
          exact_mod_cast rne_mono (by apply div_le_div_of_nonneg_right hb2; positivity)

theorem repr_roundMag (f : Fmt) (q : ℚ) : IsRepr f (roundMag f q) := by
  have hp := f.prec_pos
  unfold roundMag
  split_ifs with h
  · exact ⟨0, f.emin, by positivity, le_refl _, by simp⟩
  push Not at h
  set u := ulpExp f q with hu
  have hu1 : f.emin ≤ u := le_max_right _ _
  have hu2 : ilog2 q ≤ u + (f.prec - 1 : ℤ) := by
    have : ilog2 q - (f.prec - 1 : ℤ) ≤ u := le_max_left _ _
    omega
  have hlt : q / 2 ^ u ≤ ((2 ^ f.prec : ℕ) : ℤ) := by
    rw [div_le_iff₀ (by positivity)]
    have h1 := (ilog2_spec h).2
    have h2 : (2 : ℚ) ^ (ilog2 q + 1) ≤ 2 ^ ((f.prec : ℤ) + u) :=
      zpow_le_zpow_right₀ (by norm_num) (by omega)
    rw [zpow_add₀ (by norm_num) (f.prec : ℤ) u, zpow_natCast] at h2
    push_cast
    linarith
  have hle : rne (q / 2 ^ u) ≤ ((2 ^ f.prec : ℕ) : ℤ) := by
    rw [← rne_intCast ((2 ^ f.prec : ℕ) : ℤ)]; exact rne_mono hlt
  have hnn : 0 ≤ rne (q / 2 ^ u) := by
    rw [← rne_intCast 0]; exact rne_mono (by push_cast; positivity)
  obtain ⟨m, hm⟩ := Int.eq_ofNat_of_zero_le hnn
  rw [hm] at hle ⊢
  have hle' : m ≤ 2 ^ f.prec := by exact_mod_cast hle
  rcases hle'.eq_or_lt with he | hl
  · refine ⟨2 ^ (f.prec - 1), u + 1, ?_, by omega, ?_⟩
    · exact Nat.pow_lt_pow_right (by norm_num) (by omega)
    · obtain ⟨p, hp'⟩ : ∃ p, f.prec = p + 1 := ⟨f.prec - 1, by omega⟩
      rw [he, hp', zpow_add_one₀ (by norm_num), pow_succ]
      simp only [Nat.add_sub_cancel]
      push_cast
      ring
  · exact ⟨m, u, hl, hu1, by push_cast; rfl⟩

theorem repr_zero (f : Fmt) : IsRepr f 0 := ⟨0, f.emin, by positivity, le_refl _, by simp⟩

theorem repr_zpow {f : Fmt} {k : ℤ} (h : f.emin ≤ k) : IsRepr f ((2 : ℚ) ^ k) :=
  ⟨1, k, Nat.one_lt_two_pow (by have := f.prec_pos; omega), h, by simp⟩

theorem repr_natCast {f : Fmt} {n : ℕ} (h : n < 2 ^ f.prec) (he : f.emin ≤ 0) :
    IsRepr f (n : ℚ) := ⟨n, 0, h, he, by simp⟩

/-- Rounding of a nonzero multiple of the smallest positive number does not underflow. -/
theorem roundMag_pos_of_multiple {f : Fmt} {n : ℕ} (hn : 0 < n) :
    0 < roundMag f ((n : ℚ) * 2 ^ f.emin) := by
  have h1 : (2 : ℚ) ^ f.emin ≤ n * 2 ^ f.emin := by
    have : (1 : ℚ) ≤ n := by exact_mod_cast hn
    have p : (0 : ℚ) < 2 ^ f.emin := by positivity
    nlinarith
  have h2 := roundMag_mono (f := f) h1
  rw [roundMag_of_repr (repr_zpow le_rfl)] at h2
  exact lt_of_lt_of_le (by positivity) h2

end Velato
