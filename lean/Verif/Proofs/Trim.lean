import Verif.Model.Fixed
import Verif.Num.F64Lemmas
import Verif.Num.Real
import Mathlib.Tactic.Linarith
import Mathlib.Tactic.FieldSimp
import Mathlib.Tactic.Ring
import Mathlib.Algebra.Order.Floor.Ring

/-!
# Arithmetic of trims
-/

namespace Velato.F64
open Velato.FloatOps (lit)

theorem lit_pos_div {q : ℚ} (h : |q| ≤ 2 ^ 100) :
    (FloatOps.lit q : F64).isFin = true ∧ (FloatOps.lit q : F64).toQ = rnd q := by
  rw [lit_def]
  have := ofRat_fin (s := false) (q := q) ((abs_rnd_le h).trans_lt (pow_lt_maxMag (by norm_num)))
  exact this

/-- Between 0 and a representable bound. -/
theorem rnd_between {q b : ℚ} (h0 : 0 ≤ q) (hb : q ≤ b) (he : Exact b) : 0 ≤ rnd q ∧ rnd q ≤ b := by
  have h1 := rnd_mono h0
  have h2 := rnd_mono hb
  rw [rnd_zero] at h1
  rw [rnd_of_exact he] at h2
  exact ⟨h1, h2⟩

theorem small_lt_maxMag {q : ℚ} (h0 : 0 ≤ q) (h : q ≤ 2 ^ 100) : |q| < maxMag := by
  rw [abs_of_nonneg h0]
  exact h.trans_lt (pow_lt_maxMag (by norm_num))

theorem exact_100 : Exact 100 := by simpa using exact_natCast (n := 100) (by norm_num)
theorem exact_200 : Exact 200 := by simpa using exact_natCast (n := 200) (by norm_num)

theorem rem100 {x : F64} (hx : x.isFin = true) :
    (F64.rem x (lit 100)).isFin = true ∧ -100 ≤ (F64.rem x (lit 100)).toQ ∧
      (F64.rem x (lit 100)).toQ ≤ 100 := by
  obtain ⟨s, a, ha, rfl⟩ := isFin_iff.mp hx
  have hl : ∃ h, (lit 100 : F64) = .fin false 100 h := by
    have h1 : (lit 100 : F64).isFin = true := isFin_lit100
    have h2 : (lit 100 : F64).toQ = 100 := toQ_lit100
    have h3 : (lit 100 : F64).sign = false := by decide +kernel
    obtain ⟨s', b, hb, he⟩ := isFin_iff.mp h1
    rw [he] at h2 h3
    cases s' with
    | true => cases h3
    | false =>
      have : b = 100 := h2
      subst this
      exact ⟨hb, he⟩
  obtain ⟨hh, hl⟩ := hl
  rw [hl]
  have hr : 0 ≤ a - 100 * (⌊a / 100⌋ : ℚ) ∧ a - 100 * (⌊a / 100⌋ : ℚ) ≤ 100 := by
    have h1 := Int.floor_le (a / 100)
    have h2 := Int.lt_floor_add_one (a / 100)
    constructor <;> linarith
  have he : F64.rem (.fin s a ha) (.fin false 100 hh) = ofRat s (if s then
      -(a - 100 * (⌊a / 100⌋ : ℚ)) else a - 100 * (⌊a / 100⌋ : ℚ)) := by
    dsimp only [F64.rem]
    rw [if_neg (c := (100 : ℚ) = 0) (by norm_num)]
  rw [he]
  generalize a - 100 * (⌊a / 100⌋ : ℚ) = r at hr
  have hb := rnd_between hr.1 hr.2 exact_100
  have hlt : |rnd r| < maxMag := small_lt_maxMag hb.1 (hb.2.trans (by norm_num))
  cases s with
  | true =>
    have := ofRat_fin (s := true) (q := -r) (by rw [rnd_neg, abs_neg]; exact hlt)
    simp only [if_true]
    refine ⟨this.1, ?_⟩
    rw [this.2, rnd_neg]
    constructor <;> linarith
  | false =>
    have := ofRat_fin (s := false) (q := r) hlt
    simp only [Bool.false_eq_true, if_false]
    refine ⟨this.1, ?_⟩
    rw [this.2]
    constructor <;> linarith

/-- `rem_euclid(100)` is between 0 and 100; 100 itself can result from rounding. -/
theorem remEuclid100 {x : F64} (hx : x.isFin = true) :
    (remEuclid x (lit 100)).isFin = true ∧ 0 ≤ (remEuclid x (lit 100)).toQ ∧
      (remEuclid x (lit 100)).toQ ≤ 100 := by
  obtain ⟨h1, h2, h3⟩ := rem100 hx
  unfold remEuclid
  dsimp only
  change (FloatOps.rem x (lit 100)).isFin = true at h1
  change -100 ≤ (FloatOps.rem x (lit 100)).toQ at h2
  change (FloatOps.rem x (lit 100)).toQ ≤ 100 at h3
  generalize FloatOps.rem x (lit 100) = r at h1 h2 h3
  have ha : (FloatOps.abs (lit 100 : F64)).isFin = true ∧ (FloatOps.abs (lit 100 : F64)).toQ = 100 := by
    decide +kernel
  split
  · rename_i hlt
    rw [lt_fin h1 isFin_lit0, toQ_lit0] at hlt
    have hb := rnd_between (q := r.toQ + 100) (by linarith) (by linarith) exact_100
    have := add_fin h1 ha.1 (by rw [ha.2]; exact small_lt_maxMag hb.1 (hb.2.trans (by norm_num)))
    rw [ha.2] at this
    exact ⟨this.1, this.2 ▸ hb⟩
  · rename_i hlt
    rw [lt_fin h1 isFin_lit0, toQ_lit0] at hlt
    exact ⟨h1, not_lt.mp hlt, h3⟩

/-- Division of a number in [0, 100] by 100. -/
theorem div100 {x : F64} (hx : x.isFin = true) (h0 : 0 ≤ x.toQ) (h1 : x.toQ ≤ 100) :
    (F64.div x (lit 100)).isFin = true ∧ (F64.div x (lit 100)).toQ = rnd (x.toQ / 100) ∧
      0 ≤ rnd (x.toQ / 100) ∧ rnd (x.toQ / 100) ≤ 1 := by
  have hb := rnd_between (q := x.toQ / 100) (b := 1) (by positivity) (by linarith) exact_one
  have := div_fin hx isFin_lit100 (by rw [toQ_lit100]; norm_num)
    (by rw [toQ_lit100]; exact small_lt_maxMag hb.1 (hb.2.trans (by norm_num)))
  rw [toQ_lit100] at this
  exact ⟨this.1, this.2, hb⟩

end Velato.F64
