import Verif.Num.Cmp

/-!
# Facts about the arithmetic of `F64`
-/

set_option exponentiation.threshold 2000

namespace Velato.F64
open Velato

/-- A finite number is a `fin`. -/
theorem isFin_iff {x : F64} : x.isFin = true ↔ ∃ s a h, x = .fin s a h := by
  cases x with
  | nan => simp [isFin]
  | inf s => simp [isFin]
  | fin s a h => exact ⟨fun _ => ⟨s, a, h, rfl⟩, fun _ => rfl⟩

/-- Signed rounding (unbounded exponent). -/
def rnd (q : ℚ) : ℚ := if q < 0 then -roundMag fmt64 |q| else roundMag fmt64 |q|

theorem rnd_zero : rnd 0 = 0 := by simp [rnd, roundMag_zero]

theorem rnd_neg (q : ℚ) : rnd (-q) = -rnd q := by
  unfold rnd
  rcases lt_trichotomy q 0 with h | h | h
  · simp [h, h.le.not_gt, abs_neg]
  · subst h; simp [roundMag_zero]
  · simp [h, h.le.not_gt, abs_neg]

theorem rnd_mono {a b : ℚ} (h : a ≤ b) : rnd a ≤ rnd b := by
  unfold rnd
  have na := roundMag_nonneg fmt64 |a|
  have nb := roundMag_nonneg fmt64 |b|
  split_ifs with h1 h2 h2
  · have : |b| ≤ |a| := by rw [abs_of_neg h1, abs_of_neg h2]; linarith
    have := roundMag_mono (f := fmt64) this
    linarith
  · linarith
  · linarith
  · have : |a| ≤ |b| := by
      rw [abs_of_nonneg (not_lt.mp h1), abs_of_nonneg (not_lt.mp h2)]; exact h
    exact roundMag_mono this

theorem abs_rnd (q : ℚ) : |rnd q| = roundMag fmt64 |q| := by
  unfold rnd
  have := roundMag_nonneg fmt64 |q|
  split_ifs
  · rw [abs_neg, abs_of_nonneg this]
  · rw [abs_of_nonneg this]

/-- `q` is exactly an `f64` value. -/
def Exact (q : ℚ) : Prop := IsRepr fmt64 |q|

theorem rnd_of_exact {q : ℚ} (h : Exact q) : rnd q = q := by
  unfold rnd
  rw [roundMag_of_repr h]
  split_ifs with h1
  · rw [abs_of_neg h1]; ring
  · exact abs_of_nonneg (not_lt.mp h1)

theorem exact_neg {q : ℚ} (h : Exact q) : Exact (-q) := by unfold Exact; rwa [abs_neg]

theorem exact_natCast {n : ℕ} (h : n < 2 ^ 53) : Exact (n : ℚ) := by
  unfold Exact; rw [abs_of_nonneg (by positivity)]; exact repr_natCast h (by decide)

theorem exact_zero : Exact 0 := by simpa using exact_natCast (n := 0) (by norm_num)
theorem exact_one : Exact 1 := by simpa using exact_natCast (n := 1) (by norm_num)

theorem exact_zpow {k : ℤ} (h : -1074 ≤ k) : Exact ((2 : ℚ) ^ k) := by
  unfold Exact; rw [abs_of_nonneg (by positivity)]; exact repr_zpow h

theorem exact_rnd (q : ℚ) : Exact (rnd q) := by
  unfold Exact; rw [abs_rnd]; exact repr_roundMag _ _

theorem isRepr_nonneg {f : Fmt} {q : ℚ} (h : IsRepr f q) : 0 ≤ q := by
  obtain ⟨m, e, _, _, rfl⟩ := h; positivity

theorem exact_toQ (x : F64) : Exact x.toQ := by
  cases x with
  | nan => exact exact_zero
  | inf s => exact exact_zero
  | fin s a h =>
    unfold Exact toQ
    have := isRepr_nonneg h.1
    cases s <;> simp [abs_of_nonneg this, h.1]

theorem abs_toQ_lt (x : F64) : |x.toQ| < maxMag := by
  cases x with
  | nan => simp [toQ, maxMag]
  | inf s => simp [toQ, maxMag]
  | fin s a h =>
    have := isRepr_nonneg h.1
    cases s <;> simp [toQ, abs_of_nonneg this, h.2]

theorem ofRat_fin {s : Bool} {q : ℚ} (h : |rnd q| < maxMag) :
    (ofRat s q).isFin = true ∧ (ofRat s q).toQ = rnd q := by
  rw [abs_rnd] at h
  unfold ofRat
  rw [dif_pos h]
  refine ⟨rfl, ?_⟩
  unfold toQ rnd
  by_cases h0 : q = 0
  · subst h0; cases s <;> simp [roundMag_zero]
  · by_cases h1 : q < 0 <;> simp [h0, h1]

theorem ofRat_inf {s : Bool} {q : ℚ} (h : ¬ |rnd q| < maxMag) :
    ofRat s q = .inf (decide (q < 0)) := by
  rw [abs_rnd] at h
  unfold ofRat
  rw [dif_neg h]

theorem ofRat_not_nan (s : Bool) (q : ℚ) : ofRat s q ≠ .nan := by
  unfold ofRat; split_ifs <;> simp

theorem ofRat_exact {s : Bool} {q : ℚ} (h : Exact q) (h' : |q| < maxMag) :
    (ofRat s q).isFin = true ∧ (ofRat s q).toQ = q := by
  have := rnd_of_exact h
  have h2 := ofRat_fin (s := s) (q := q) (by rwa [this])
  rwa [this] at h2

theorem toQ_neg (x : F64) : (neg x).toQ = -x.toQ := by
  cases x with
  | nan => simp [neg, toQ]
  | inf s => simp [neg, toQ]
  | fin s a h => cases s <;> simp [neg, toQ]

theorem isFin_neg (x : F64) : (neg x).isFin = x.isFin := by cases x <;> rfl

theorem add_eq {x y : F64} (hx : x.isFin = true) (hy : y.isFin = true) :
    ∃ s, add x y = ofRat s (x.toQ + y.toQ) := by
  obtain ⟨s, a, ha, rfl⟩ := isFin_iff.mp hx
  obtain ⟨t, b, hb, rfl⟩ := isFin_iff.mp hy
  exact ⟨_, rfl⟩

theorem sub_eq {x y : F64} (hx : x.isFin = true) (hy : y.isFin = true) :
    ∃ s, sub x y = ofRat s (x.toQ - y.toQ) := by
  obtain ⟨s, h⟩ := add_eq hx (by rwa [isFin_neg] : (neg y).isFin = true)
  exact ⟨s, by unfold sub; rw [h, toQ_neg, sub_eq_add_neg]⟩

theorem mul_eq {x y : F64} (hx : x.isFin = true) (hy : y.isFin = true) :
    ∃ s, mul x y = ofRat s (x.toQ * y.toQ) := by
  obtain ⟨s, a, ha, rfl⟩ := isFin_iff.mp hx
  obtain ⟨t, b, hb, rfl⟩ := isFin_iff.mp hy
  exact ⟨_, rfl⟩

theorem toQ_eq_zero_iff {s a h} : (F64.fin s a h).toQ = 0 ↔ a = 0 := by
  cases s <;> simp [toQ]

theorem div_eq {x y : F64} (hx : x.isFin = true) (hy : y.isFin = true) (h : y.toQ ≠ 0) :
    ∃ s, div x y = ofRat s (x.toQ / y.toQ) := by
  obtain ⟨s, a, ha, rfl⟩ := isFin_iff.mp hx
  obtain ⟨t, b, hb, rfl⟩ := isFin_iff.mp hy
  exact ⟨_, by rw [div, if_neg (fun hb0 => h (toQ_eq_zero_iff.mpr hb0))]⟩

/-- Addition whose rounded result does not overflow. -/
theorem add_fin {x y : F64} (hx : x.isFin = true) (hy : y.isFin = true)
    (h : |rnd (x.toQ + y.toQ)| < maxMag) :
    (add x y).isFin = true ∧ (add x y).toQ = rnd (x.toQ + y.toQ) := by
  obtain ⟨s, e⟩ := add_eq hx hy; rw [e]; exact ofRat_fin h

theorem sub_fin {x y : F64} (hx : x.isFin = true) (hy : y.isFin = true)
    (h : |rnd (x.toQ - y.toQ)| < maxMag) :
    (sub x y).isFin = true ∧ (sub x y).toQ = rnd (x.toQ - y.toQ) := by
  obtain ⟨s, e⟩ := sub_eq hx hy; rw [e]; exact ofRat_fin h

theorem mul_fin {x y : F64} (hx : x.isFin = true) (hy : y.isFin = true)
    (h : |rnd (x.toQ * y.toQ)| < maxMag) :
    (mul x y).isFin = true ∧ (mul x y).toQ = rnd (x.toQ * y.toQ) := by
  obtain ⟨s, e⟩ := mul_eq hx hy; rw [e]; exact ofRat_fin h

theorem div_fin {x y : F64} (hx : x.isFin = true) (hy : y.isFin = true) (h0 : y.toQ ≠ 0)
    (h : |rnd (x.toQ / y.toQ)| < maxMag) :
    (div x y).isFin = true ∧ (div x y).toQ = rnd (x.toQ / y.toQ) := by
  obtain ⟨s, e⟩ := div_eq hx hy h0; rw [e]; exact ofRat_fin h

/-! ### Comparisons of finite numbers -/

theorem lt_fin {x y : F64} (hx : x.isFin = true) (hy : y.isFin = true) :
    (x <. y) = true ↔ x.toQ < y.toQ := by
  obtain ⟨s, a, ha, rfl⟩ := isFin_iff.mp hx
  obtain ⟨t, b, hb, rfl⟩ := isFin_iff.mp hy
  show lt _ _ = true ↔ _
  simp [lt]

theorem beq_fin {x y : F64} (hx : x.isFin = true) (hy : y.isFin = true) :
    (x ==. y) = true ↔ x.toQ = y.toQ := by
  obtain ⟨s, a, ha, rfl⟩ := isFin_iff.mp hx
  obtain ⟨t, b, hb, rfl⟩ := isFin_iff.mp hy
  show beq _ _ = true ↔ _
  simp [beq]

theorem le_fin {x y : F64} (hx : x.isFin = true) (hy : y.isFin = true) :
    (x <=. y) = true ↔ x.toQ ≤ y.toQ := by
  show (lt x y || beq x y) = true ↔ _
  rw [Bool.or_eq_true, le_iff_lt_or_eq]
  exact or_congr (lt_fin hx hy) (beq_fin hx hy)

/-! ### Literals -/

theorem lit_def (q : ℚ) : (FloatOps.lit q : F64) = ofRat false q := rfl

theorem lit_nat {n : ℕ} (h : n < 2 ^ 53) :
    (FloatOps.lit (n : ℚ) : F64).isFin = true ∧ (FloatOps.lit (n : ℚ) : F64).toQ = n := by
  rw [lit_def]
  apply ofRat_exact (exact_natCast h)
  rw [abs_of_nonneg (by positivity)]
  calc ((n : ℕ) : ℚ) < ((2 ^ 53 : ℕ) : ℚ) := by exact_mod_cast h
    _ ≤ maxMag := by
      unfold maxMag
      exact_mod_cast Nat.pow_le_pow_right (by norm_num) (by norm_num : 53 ≤ 1024)

@[simp] theorem isFin_lit0 : (FloatOps.lit 0 : F64).isFin = true := by decide +kernel
@[simp] theorem toQ_lit0 : (FloatOps.lit 0 : F64).toQ = 0 := by decide +kernel
@[simp] theorem isFin_lit1 : (FloatOps.lit 1 : F64).isFin = true := by decide +kernel
@[simp] theorem toQ_lit1 : (FloatOps.lit 1 : F64).toQ = 1 := by decide +kernel
@[simp] theorem isFin_lit100 : (FloatOps.lit 100 : F64).isFin = true := by decide +kernel
@[simp] theorem toQ_lit100 : (FloatOps.lit 100 : F64).toQ = 100 := by decide +kernel

/-! ### Differences -/

/-- An `f64` value is a whole multiple of `2^-1074`. -/
theorem exact_multiple {q : ℚ} (h : Exact q) : ∃ z : ℤ, q = z * 2 ^ (-1074 : ℤ) := by
  obtain ⟨m, e, _, he, hq⟩ := h
  have he' : (-1074 : ℤ) ≤ e := he
  have h1 : |q| = ((m * 2 ^ (e - -1074).toNat : ℕ) : ℤ) * 2 ^ (-1074 : ℤ) := by
    rw [hq, zpow_two_eq_natCast_mul he']; push_cast; ring
  rcases abs_choice q with h2 | h2
  · exact ⟨_, by rw [← h2]; exact h1⟩
  · refine ⟨-((m * 2 ^ (e - -1074).toNat : ℕ) : ℤ), ?_⟩
    rw [Int.cast_neg, neg_mul, ← h1, h2]; ring

/-- Gradual underflow: the rounded difference of two distinct values is not zero. -/
theorem rnd_sub_pos {a b : ℚ} (ha : Exact a) (hb : Exact b) (h : b < a) : 0 < rnd (a - b) := by
  obtain ⟨x, hx⟩ := exact_multiple ha
  obtain ⟨y, hy⟩ := exact_multiple hb
  have p : (0 : ℚ) < 2 ^ (-1074 : ℤ) := by positivity
  have hd : a - b = ((x - y : ℤ) : ℚ) * 2 ^ (-1074 : ℤ) := by rw [hx, hy]; push_cast; ring
  have hxy : 0 < x - y := by
    by_contra hc
    have : ((x - y : ℤ) : ℚ) ≤ 0 := by exact_mod_cast not_lt.mp hc
    nlinarith [sub_pos.mpr h]
  have h1 : (2 : ℚ) ^ (-1074 : ℤ) ≤ a - b := by
    rw [hd]
    have : (1 : ℚ) ≤ ((x - y : ℤ) : ℚ) := by exact_mod_cast hxy
    nlinarith
  have h2 := rnd_mono h1
  rw [rnd_of_exact (exact_zpow le_rfl)] at h2
  linarith

theorem rnd_sub_neg {a b : ℚ} (ha : Exact a) (hb : Exact b) (h : a < b) : rnd (a - b) < 0 := by
  have := rnd_sub_pos hb ha h
  rw [← neg_sub, rnd_neg]; linarith

/-! ### Bounded numbers (to exclude overflow) -/

/-- `x` is finite with `|x| ≤ 2^k`. -/
def Bdd (x : F64) (k : ℕ) : Prop := x.isFin = true ∧ |x.toQ| ≤ 2 ^ k

theorem abs_rnd_le {q : ℚ} {k : ℕ} (h : |q| ≤ 2 ^ k) : |rnd q| ≤ 2 ^ k := by
  rw [abs_rnd]
  have h1 := roundMag_mono (f := fmt64) h
  have := repr_zpow (f := fmt64) (k := (k : ℤ)) (by show (-1074 : ℤ) ≤ _; omega)
  rw [zpow_natCast] at this
  rwa [roundMag_of_repr this] at h1

theorem pow_lt_maxMag {k : ℕ} (h : k < 1024) : (2 : ℚ) ^ k < maxMag := by
  unfold maxMag; exact pow_lt_pow_right₀ (by norm_num) h

theorem Bdd.mono {x : F64} {k l : ℕ} (h : Bdd x k) (hl : k ≤ l) : Bdd x l :=
  ⟨h.1, h.2.trans (pow_le_pow_right₀ (by norm_num) hl)⟩

theorem Bdd.add {x y : F64} {k : ℕ} (hx : Bdd x k) (hy : Bdd y k) (h : k + 1 < 1024) :
    Bdd (add x y) (k + 1) := by
  have h1 : |x.toQ + y.toQ| ≤ 2 ^ (k + 1) := by
    calc |x.toQ + y.toQ| ≤ |x.toQ| + |y.toQ| := abs_add_le _ _
      _ ≤ 2 ^ k + 2 ^ k := add_le_add hx.2 hy.2
      _ = 2 ^ (k + 1) := by ring
  have h2 := abs_rnd_le h1
  have h3 := add_fin hx.1 hy.1 (h2.trans_lt (pow_lt_maxMag h))
  exact ⟨h3.1, by rw [h3.2]; exact h2⟩

theorem Bdd.neg {x : F64} {k : ℕ} (hx : Bdd x k) : Bdd (neg x) k :=
  ⟨by rw [isFin_neg]; exact hx.1, by rw [toQ_neg, abs_neg]; exact hx.2⟩

theorem Bdd.sub {x y : F64} {k : ℕ} (hx : Bdd x k) (hy : Bdd y k) (h : k + 1 < 1024) :
    Bdd (sub x y) (k + 1) := Bdd.add hx hy.neg h

theorem Bdd.mul {x y : F64} {k l : ℕ} (hx : Bdd x k) (hy : Bdd y l) (h : k + l < 1024) :
    Bdd (mul x y) (k + l) := by
  have h1 : |x.toQ * y.toQ| ≤ 2 ^ (k + l) := by
    rw [abs_mul, pow_add]
    exact mul_le_mul hx.2 hy.2 (abs_nonneg _) (by positivity)
  have h2 := abs_rnd_le h1
  have h3 := mul_fin hx.1 hy.1 (h2.trans_lt (pow_lt_maxMag h))
  exact ⟨h3.1, by rw [h3.2]; exact h2⟩

theorem Bdd.abs {x : F64} {k : ℕ} (hx : Bdd x k) : Bdd (abs x) k := by
  obtain ⟨h1, h2⟩ := hx
  obtain ⟨s, a, h, rfl⟩ := isFin_iff.mp h1
  have := isRepr_nonneg h.1
  refine ⟨rfl, ?_⟩
  cases s <;> simpa [F64.abs, toQ] using h2

end Velato.F64
