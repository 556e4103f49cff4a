import Verif.Num.F64Lemmas
import Verif.Num.Cmp
import Verif.Proofs.Search

/-!
# The interpolation weight in IEEE arithmetic
-/

namespace Velato.F64

open Velato.FloatOps (lit)

theorem ofRat_le_zero {s : Bool} {q : ℚ} (h : q ≤ 0) : (ofRat s q <=. lit 0) = true := by
  by_cases hf : |rnd q| < maxMag
  · have h1 := ofRat_fin (s := s) hf
    rw [le_fin h1.1 isFin_lit0, h1.2, toQ_lit0]
    have := rnd_mono h
    rwa [rnd_zero] at this
  · rw [ofRat_inf hf]
    have : q < 0 := by
      rcases h.eq_or_lt with rfl | h
      · exfalso; apply hf; rw [rnd_zero]; unfold maxMag; norm_num
      · exact h
    rw [decide_eq_true this]; decide +kernel

theorem ofRat_nonneg {s : Bool} {q : ℚ} (h : 0 ≤ q) : (lit 0 <=. ofRat s q) = true := by
  by_cases hf : |rnd q| < maxMag
  · have h1 := ofRat_fin (s := s) hf
    rw [le_fin isFin_lit0 h1.1, h1.2, toQ_lit0]
    have := rnd_mono h
    rwa [rnd_zero] at this
  · rw [ofRat_inf hf, decide_eq_false (not_lt.mpr h)]; decide +kernel

theorem ofRat_zero (s : Bool) : ofRat s 0 = .fin s 0 ⟨repr_zero _, by unfold maxMag; norm_num⟩ := by
  unfold ofRat
  rw [dif_pos (by rw [abs_zero, roundMag_zero]; unfold maxMag; norm_num)]
  simp [roundMag_zero]

theorem isNaN_iff' (x : F64) : isNaN x = true ↔ x = .nan := by
  rw [Velato.isNaN_iff]
  show val x = none ↔ _
  cases x with
  | nan => simp [val]
  | inf s => cases s <;> simp [val]
  | fin s a h => simp [val]

theorem not_nan_of_fin {x : F64} (h : x.isFin = true) : x ≠ .nan := by
  rintro rfl; simp [isFin] at h

theorem ne_nan_of_le_left {x y : F64} (h : (x <=. y) = true) : x ≠ .nan := by
  intro e
  have := not_nan_of_le_left h
  rw [(isNaN_iff' x).mpr e] at this; simp at this

theorem ne_nan_of_le_right {x y : F64} (h : (x <=. y) = true) : y ≠ .nan := by
  intro e
  have := not_nan_of_le_right h
  rw [(isNaN_iff' y).mpr e] at this; simp at this

theorem sign_of_pos {x : F64} (hx : x.isFin = true) (h : 0 < x.toQ) :
    ∃ a h, x = .fin false a h ∧ a ≠ 0 := by
  obtain ⟨s, a, ha, rfl⟩ := isFin_iff.mp hx
  have := isRepr_nonneg ha.1
  cases s with
  | true => simp [toQ] at h; linarith
  | false => exact ⟨a, ha, rfl, by intro e; simp [toQ, e] at h⟩

/-- A non-positive number over a positive finite one is not positive. -/
theorem div_nonpos {x d : F64} (hx : (x <=. lit 0) = true) (hd : d.isFin = true)
    (hp : 0 < d.toQ) : ((x /. d) <=. lit 0) = true := by
  obtain ⟨b, hb, rfl, hb0⟩ := sign_of_pos hd hp
  cases x with
  | nan => exact absurd rfl (ne_nan_of_le_left hx)
  | inf s =>
    cases s with
    | true => show le (inf (true != false)) _ = true; decide +kernel
    | false => exact absurd hx (by decide +kernel)
  | fin s a ha =>
    obtain ⟨s', e⟩ := div_eq (x := .fin s a ha) (y := .fin false b hb) rfl rfl hp.ne'
    show (div _ _ <=. _) = true
    rw [e]
    apply ofRat_le_zero
    rw [le_fin rfl isFin_lit0, toQ_lit0] at hx
    exact div_nonpos_of_nonpos_of_nonneg hx hp.le

theorem div_nonneg' {x d : F64} (hx : (lit 0 <=. x) = true) (hd : d.isFin = true)
    (hp : 0 < d.toQ) : (lit 0 <=. (x /. d)) = true := by
  obtain ⟨b, hb, rfl, hb0⟩ := sign_of_pos hd hp
  cases x with
  | nan => exact absurd rfl (ne_nan_of_le_right hx)
  | inf s =>
    cases s with
    | true => exact absurd hx (by decide +kernel)
    | false => show le _ (inf (false != false)) = true; decide +kernel
  | fin s a ha =>
    obtain ⟨s', e⟩ := div_eq (x := .fin s a ha) (y := .fin false b hb) rfl rfl hp.ne'
    show (_ <=. div _ _) = true
    rw [e]
    apply ofRat_nonneg
    rw [le_fin isFin_lit0 rfl, toQ_lit0] at hx
    exact div_nonneg hx hp.le

/-- `x ≤ y`, `y` finite: the rounded difference is not positive. -/
theorem sub_nonpos' {x y : F64} (hy : y.isFin = true) (h : (x <=. y) = true) :
    ((x -. y) <=. lit 0) = true := by
  show (sub x y <=. _) = true
  cases x with
  | nan => exact absurd rfl (ne_nan_of_le_left h)
  | inf s =>
    obtain ⟨t, b, hb, rfl⟩ := isFin_iff.mp hy
    cases s with
    | true => show le (inf true) _ = true; decide +kernel
    | false =>
      exfalso
      have : le (inf false) (fin t b hb) = true := h
      simp [le, lt, beq] at this
  | fin s a ha =>
    obtain ⟨s', e⟩ := sub_eq (x := .fin s a ha) rfl hy
    rw [e]; apply ofRat_le_zero
    rw [le_fin rfl hy] at h
    linarith

theorem sub_nonneg' {x y : F64} (hy : y.isFin = true) (h : (y <=. x) = true) :
    (lit 0 <=. (x -. y)) = true := by
  show (_ <=. sub x y) = true
  cases x with
  | nan => exact absurd rfl (ne_nan_of_le_right h)
  | inf s =>
    obtain ⟨t, b, hb, rfl⟩ := isFin_iff.mp hy
    cases s with
    | false => show le _ (inf false) = true; decide +kernel
    | true =>
      exfalso
      have : le (fin t b hb) (inf true) = true := h
      simp [le, lt, beq] at this
  | fin s a ha =>
    obtain ⟨s', e⟩ := sub_eq (x := .fin s a ha) rfl hy
    rw [e]; apply ofRat_nonneg
    rw [le_fin hy rfl] at h
    linarith

/-- The difference of two different finite numbers, if it does not overflow, is positive. -/
theorem sub_pos' {x y : F64} (hx : x.isFin = true) (hy : y.isFin = true) (h : (y <. x) = true)
    (hf : (x -. y).isFin = true) : 0 < (x -. y).toQ := by
  rw [lt_fin hy hx] at h
  have hp := rnd_sub_pos (exact_toQ x) (exact_toQ y) h
  obtain ⟨s, e⟩ := sub_eq hx hy
  change (sub x y).isFin = true at hf
  show 0 < (sub x y).toQ
  rw [e] at hf ⊢
  by_cases hm : |rnd (x.toQ - y.toQ)| < maxMag
  · rw [(ofRat_fin hm).2]; exact hp
  · rw [ofRat_inf hm] at hf; simp [isFin] at hf

theorem sub_self_eq {x y : F64} (hx : x.isFin = true) (hy : y.isFin = true)
    (h : x.toQ = y.toQ) : ∃ s h, x -. y = .fin s 0 h := by
  obtain ⟨s, e⟩ := sub_eq hx hy
  refine ⟨s, ?_⟩
  show ∃ h, sub x y = _
  rw [e, h, sub_self, ofRat_zero]
  exact ⟨_, rfl⟩

theorem sub_same {x : F64} (hx : x.isFin = true) : ∃ h, x -. x = .fin false 0 h := by
  obtain ⟨s, a, ha, rfl⟩ := isFin_iff.mp hx
  show ∃ h, ofRat (s && !s) (toQ (.fin s a ha) + toQ (neg (.fin s a ha))) = _
  rw [toQ_neg, add_neg_cancel, Bool.and_not_self, ofRat_zero]
  exact ⟨_, rfl⟩

theorem div_by_zero {s a ha hz} (h : a ≠ 0) :
    div (fin s a ha) (fin false 0 hz) = inf (s != false) := by
  simp [div, h]

theorem zero_div_zero {s hz t hz'} : div (fin s 0 hz) (fin t 0 hz') = nan := by
  simp [div]

/-! ### clamp -/

theorem clamp_mid {x lo hi : F64} (h1 : (x <. lo) = false) (h2 : (hi <. x) = false) :
    clamp x lo hi = x := by
  unfold clamp; rw [h1]; simp [h2]

theorem clamp_lo {x lo hi : F64} (h1 : (x <. lo) = true) (h2 : (hi <. lo) = false) :
    clamp x lo hi = lo := by
  unfold clamp; rw [h1]; simp [h2]

theorem clamp_hi {x lo hi : F64} (h1 : (x <. lo) = false) (h2 : (hi <. x) = true) :
    clamp x lo hi = hi := by
  unfold clamp; rw [h1]; simp [h2]

theorem one_not_lt_zero : ((lit 1 : F64) <. lit 0) = false := by decide +kernel

theorem clamp_of_le_zero {x : F64} (h : (x <=. lit 0) = true) :
    (clamp x (lit 0) (lit 1) <=. lit 0) = true := by
  cases hx : (x <. lit 0) with
  | true => rw [clamp_lo hx one_not_lt_zero]; decide +kernel
  | false =>
    rw [clamp_mid hx]
    · exact h
    · by_contra hc
      have := lt_of_lt_of_le' (by simpa using hc) h
      rw [one_not_lt_zero] at this; simp at this

theorem clamp_unit {x : F64} (h : x ≠ .nan) :
    (lit 0 <=. clamp x (lit 0) (lit 1)) = true ∧ (clamp x (lit 0) (lit 1) <=. lit 1) = true := by
  have hn : isNaN x = false := by
    rw [Bool.eq_false_iff, ne_eq, isNaN_iff']; exact h
  have hn0 : isNaN (lit 0 : F64) = false := by decide +kernel
  have hn1 : isNaN (lit 1 : F64) = false := by decide +kernel
  cases hx : (x <. lit 0) with
  | true =>
    rw [clamp_lo hx one_not_lt_zero]
    exact ⟨by decide +kernel, by decide +kernel⟩
  | false =>
    cases h2 : (lit 1 <. x) with
    | true =>
      rw [clamp_hi hx h2]
      exact ⟨by decide +kernel, by decide +kernel⟩
    | false =>
      rw [clamp_mid hx h2]
      exact ⟨le_of_not_lt' hn hn0 hx, le_of_not_lt' hn1 hn h2⟩

theorem clamp_nan : clamp .nan (lit 0) (lit 1) = (.nan : F64) := by decide +kernel

theorem clamp_pinf : clamp (.inf false) (lit 0) (lit 1) = (lit 1 : F64) := by decide +kernel

/-! ### The weight -/

/-- At or before the first of two keyframes the weight is not positive. -/
theorem weight_before {x t0 t1 : F64} (h0 : t0.isFin = true) (h1 : t1.isFin = true)
    (h01 : (t0 <. t1) = true) (hd : (t1 -. t0).isFin = true) (h : (x <=. t0) = true) :
    (clamp ((x -. t0) /. (t1 -. t0)) (lit 0) (lit 1) <=. lit 0) = true :=
  clamp_of_le_zero (div_nonpos (sub_nonpos' h0 h) hd (sub_pos' h1 h0 h01 hd))

/-- Exactly at the first of two different keyframes the weight is a zero, even if the difference
of the keyframe times overflows. -/
theorem weight_at {x t0 t1 : F64} (h0 : t0.isFin = true) (h1 : t1.isFin = true)
    (h01 : (t0 <. t1) = true) (h : (x ==. t0) = true) :
    (clamp ((x -. t0) /. (t1 -. t0)) (lit 0) (lit 1) <=. lit 0) = true := by
  by_cases hd : (t1 -. t0).isFin = true
  · exact weight_before h0 h1 h01 hd (by
      show (lt _ _ || beq _ _) = true
      rw [Bool.or_eq_true]; exact Or.inr h)
  · have hx : x.isFin = true := by
      obtain ⟨t, b, hb, rfl⟩ := isFin_iff.mp h0
      change beq x _ = true at h
      cases x <;> simp_all [beq, isFin]
    rw [beq_fin hx h0] at h
    obtain ⟨s, hz, e⟩ := sub_self_eq hx h0 h
    rw [e]
    obtain ⟨s', e'⟩ := sub_eq h1 h0
    change ¬ (sub t1 t0).isFin = true at hd
    show (clamp (div _ (sub t1 t0)) _ _ <=. _) = true
    by_cases hm : |rnd (t1.toQ - t0.toQ)| < maxMag
    · rw [e'] at hd; exact absurd (ofRat_fin hm).1 hd
    · rw [e', ofRat_inf hm]
      exact clamp_of_le_zero (ofRat_le_zero le_rfl)

/-- The weight of two different keyframes is in `[0,1]`. -/
theorem weight_unit {x t0 t1 : F64} (h0 : t0.isFin = true) (h1 : t1.isFin = true)
    (h01 : (t0 <. t1) = true) (hd : (t1 -. t0).isFin = true) (hx : x ≠ .nan) :
    (lit 0 <=. clamp ((x -. t0) /. (t1 -. t0)) (lit 0) (lit 1)) = true ∧
    (clamp ((x -. t0) /. (t1 -. t0)) (lit 0) (lit 1) <=. lit 1) = true := by
  apply clamp_unit
  have hp := sub_pos' h1 h0 h01 hd
  have hx' : isNaN x = false := by rw [Bool.eq_false_iff, ne_eq, isNaN_iff']; exact hx
  have ht : isNaN t0 = false := by
    rw [Bool.eq_false_iff, ne_eq, isNaN_iff']; exact not_nan_of_fin h0
  by_cases h : (x <. t0) = true
  · exact ne_nan_of_le_left (div_nonpos (sub_nonpos' h0 (le_of_lt' h)) hd hp)
  · exact ne_nan_of_le_right (div_nonneg' (sub_nonneg' h0
      (le_of_not_lt' hx' ht (by simpa using h))) hd hp)

/-- Strictly after a keyframe mixed with itself the weight is 1. -/
theorem weight_after_self {x t : F64} (h0 : t.isFin = true) (h : (t <. x) = true) :
    clamp ((x -. t) /. (t -. t)) (lit 0) (lit 1) = (lit 1 : F64) := by
  obtain ⟨hz, e⟩ := sub_same h0
  rw [e]
  show clamp (div (sub x t) _) _ _ = _
  cases x with
  | nan => obtain ⟨s, a, ha, rfl⟩ := isFin_iff.mp h0; exact absurd h (by simp [FloatOps.lt, lt])
  | inf s =>
    obtain ⟨u, a, ha, rfl⟩ := isFin_iff.mp h0
    cases s with
    | true => exact absurd h (by simp [FloatOps.lt, lt])
    | false => exact clamp_pinf
  | fin s a ha =>
    rw [lt_fin h0 rfl] at h
    have hp := rnd_sub_pos (exact_toQ _) (exact_toQ _) h
    obtain ⟨s', e'⟩ := sub_eq (x := .fin s a ha) rfl h0
    rw [e']
    by_cases hm : |rnd ((fin s a ha).toQ - t.toQ)| < maxMag
    · have h2 := ofRat_fin (s := s') hm
      obtain ⟨b, hb, e2, hb0⟩ := sign_of_pos h2.1 (by rw [h2.2]; exact hp)
      rw [e2]
      rw [div_by_zero hb0]; exact clamp_pinf
    · rw [ofRat_inf hm, decide_eq_false (by rw [not_lt]; linarith)]
      exact clamp_pinf

/-- Strictly before a keyframe mixed with itself the weight is 0. -/
theorem weight_before_self {x t : F64} (h0 : t.isFin = true) (h : (x <. t) = true) :
    (clamp ((x -. t) /. (t -. t)) (lit 0) (lit 1) <=. lit 0) = true := by
  obtain ⟨hz, e⟩ := sub_same h0
  rw [e]
  show (clamp (div (sub x t) _) _ _ <=. _) = true
  have hni : (clamp (inf true) (lit 0) (lit 1) <=. (lit 0 : F64)) = true := by decide +kernel
  cases x with
  | nan => exact absurd h (by simp [FloatOps.lt, lt])
  | inf s =>
    obtain ⟨u, a, ha, rfl⟩ := isFin_iff.mp h0
    cases s with
    | false => exact absurd h (by simp [FloatOps.lt, lt])
    | true => exact hni
  | fin s a ha =>
    rw [lt_fin rfl h0] at h
    have hp := rnd_sub_neg (exact_toQ _) (exact_toQ _) h
    obtain ⟨s', e'⟩ := sub_eq (x := .fin s a ha) rfl h0
    rw [e']
    by_cases hm : |rnd ((fin s a ha).toQ - t.toQ)| < maxMag
    · have h2 := ofRat_fin (s := s') hm
      obtain ⟨s3, b, hb, e2⟩ := isFin_iff.mp h2.1
      have hlt : (fin s3 b hb).toQ < 0 := by rw [← e2, h2.2]; exact hp
      have hbn := isRepr_nonneg hb.1
      cases s3 with
      | false => simp only [toQ] at hlt; simp at hlt; linarith
      | true =>
        rw [e2]
        have hb0 : b ≠ 0 := by rintro rfl; simp [toQ] at hlt
        rw [div_by_zero hb0]; exact hni
    · rw [ofRat_inf hm, decide_eq_true (by linarith)]
      exact hni

/-- Exactly at a keyframe mixed with itself the weight is NaN (`0/0`). -/
theorem weight_at_self {x t : F64} (h0 : t.isFin = true) (h : (x ==. t) = true) :
    clamp ((x -. t) /. (t -. t)) (lit 0) (lit 1) = (.nan : F64) := by
  obtain ⟨hz, e⟩ := sub_same h0
  have hx : x.isFin = true := by
    obtain ⟨t, b, hb, rfl⟩ := isFin_iff.mp h0
    change beq x _ = true at h
    cases x <;> simp_all [beq, isFin]
  rw [beq_fin hx h0] at h
  obtain ⟨s, hz', e'⟩ := sub_self_eq hx h0 h
  rw [e, e']
  show clamp (div _ _) _ _ = _
  rw [zero_div_zero]; exact clamp_nan

end Velato.F64
