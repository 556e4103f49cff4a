import Verif.Num.F64
import Mathlib.Data.EReal.Basic

/-!
# Lawful comparisons

`LawfulCmp F` says that the comparisons of `F` are those of extended real numbers, with NaN
(`val x = none`) comparing false to everything.  Instances: `F64` here, `ℝ` in `Num/Real.lean`.
-/

namespace Velato

/-- The comparisons of `F` are those of the extended reals, NaN excepted. -/
class LawfulCmp (F : Type) [FloatOps F] where
  val : F → Option EReal
  lt_iff : ∀ x y : F, (x <. y) = true ↔ ∃ a b, val x = some a ∧ val y = some b ∧ a < b
  le_iff : ∀ x y : F, (x <=. y) = true ↔ ∃ a b, val x = some a ∧ val y = some b ∧ a ≤ b
  eq_iff : ∀ x y : F, (x ==. y) = true ↔ ∃ a b, val x = some a ∧ val y = some b ∧ a = b
  val_zero : val (FloatOps.lit 0 : F) = some 0
  val_one : val (FloatOps.lit 1 : F) = some 1

section
variable {F : Type} [FloatOps F] [LawfulCmp F]

open LawfulCmp

theorem zero_le_zero : ((FloatOps.lit 0 : F) <=. FloatOps.lit 0) = true := by
  rw [le_iff]; exact ⟨0, 0, val_zero, val_zero, le_refl _⟩

theorem one_not_le_zero : ((FloatOps.lit 1 : F) <=. FloatOps.lit 0) = false := by
  rw [Bool.eq_false_iff, ne_eq, le_iff]
  rintro ⟨a, b, h1, h2, h3⟩
  rw [val_one] at h1; rw [val_zero] at h2; cases h1; cases h2
  exact absurd h3 (not_le.mpr zero_lt_one)

theorem one_le_one : ((FloatOps.lit 1 : F) <=. FloatOps.lit 1) = true := by
  rw [le_iff]; exact ⟨1, 1, val_one, val_one, le_refl _⟩

theorem isNaN_iff (x : F) : isNaN x = true ↔ val x = none := by
  unfold isNaN
  rw [Bool.not_eq_true', Bool.eq_false_iff, ne_eq, eq_iff]
  cases h : val x <;> simp

theorem lt_irrefl' (x : F) : (x <. x) = false := by
  rw [Bool.eq_false_iff, ne_eq, lt_iff]
  rintro ⟨a, b, h1, h2, h3⟩
  rw [h1] at h2; cases h2; exact lt_irrefl _ h3

theorem lt_asymm' {x y : F} (h : (x <. y) = true) : (y <. x) = false := by
  rw [Bool.eq_false_iff, ne_eq, lt_iff]
  rw [lt_iff] at h
  obtain ⟨a, b, h1, h2, h3⟩ := h
  rintro ⟨c, d, h4, h5, h6⟩
  rw [h1] at h5; rw [h2] at h4; cases h4; cases h5
  exact lt_asymm h3 h6

theorem lt_trans' {x y z : F} (h : (x <. y) = true) (h' : (y <. z) = true) : (x <. z) = true := by
  rw [lt_iff] at *
  obtain ⟨a, b, h1, h2, h3⟩ := h
  obtain ⟨c, d, h4, h5, h6⟩ := h'
  rw [h2] at h4; cases h4
  exact ⟨a, d, h1, h5, h3.trans h6⟩

theorem lt_of_le_of_lt' {x y z : F} (h : (x <=. y) = true) (h' : (y <. z) = true) :
    (x <. z) = true := by
  rw [le_iff] at h; rw [lt_iff] at *
  obtain ⟨a, b, h1, h2, h3⟩ := h
  obtain ⟨c, d, h4, h5, h6⟩ := h'
  rw [h2] at h4; cases h4
  exact ⟨a, d, h1, h5, h3.trans_lt h6⟩

theorem lt_of_lt_of_le' {x y z : F} (h : (x <. y) = true) (h' : (y <=. z) = true) :
    (x <. z) = true := by
  rw [le_iff] at h'; rw [lt_iff] at *
  obtain ⟨a, b, h1, h2, h3⟩ := h
  obtain ⟨c, d, h4, h5, h6⟩ := h'
  rw [h2] at h4; cases h4
  exact ⟨a, d, h1, h5, h3.trans_le h6⟩

theorem le_trans' {x y z : F} (h : (x <=. y) = true) (h' : (y <=. z) = true) :
    (x <=. z) = true := by
  rw [le_iff] at *
  obtain ⟨a, b, h1, h2, h3⟩ := h
  obtain ⟨c, d, h4, h5, h6⟩ := h'
  rw [h2] at h4; cases h4
  exact ⟨a, d, h1, h5, h3.trans h6⟩

theorem le_of_lt' {x y : F} (h : (x <. y) = true) : (x <=. y) = true := by
  rw [le_iff]; rw [lt_iff] at h
  obtain ⟨a, b, h1, h2, h3⟩ := h
  exact ⟨a, b, h1, h2, h3.le⟩

theorem le_of_not_lt' {x y : F} (hx : isNaN x = false) (hy : isNaN y = false)
    (h : (x <. y) = false) : (y <=. x) = true := by
  rw [Bool.eq_false_iff, ne_eq, isNaN_iff, ← ne_eq, Option.ne_none_iff_exists'] at hx hy
  obtain ⟨a, ha⟩ := hx
  obtain ⟨b, hb⟩ := hy
  rw [le_iff]
  rw [Bool.eq_false_iff, ne_eq, lt_iff] at h
  refine ⟨b, a, hb, ha, ?_⟩
  by_contra hc
  exact h ⟨a, b, ha, hb, not_le.mp hc⟩

theorem not_lt_of_le' {x y : F} (h : (x <=. y) = true) : (y <. x) = false := by
  rw [Bool.eq_false_iff, ne_eq, lt_iff]
  rw [le_iff] at h
  obtain ⟨a, b, h1, h2, h3⟩ := h
  rintro ⟨c, d, h4, h5, h6⟩
  rw [h1] at h5; rw [h2] at h4; cases h4; cases h5
  exact absurd h6 (not_lt.mpr h3)

theorem not_nan_of_le_left {x y : F} (h : (x <=. y) = true) : isNaN x = false := by
  rw [le_iff] at h
  obtain ⟨a, b, h1, h2, h3⟩ := h
  rw [Bool.eq_false_iff, ne_eq, isNaN_iff, h1]; simp

theorem not_nan_of_le_right {x y : F} (h : (x <=. y) = true) : isNaN y = false := by
  rw [le_iff] at h
  obtain ⟨a, b, h1, h2, h3⟩ := h
  rw [Bool.eq_false_iff, ne_eq, isNaN_iff, h2]; simp

theorem not_nan_of_lt_left {x y : F} (h : (x <. y) = true) : isNaN x = false :=
  not_nan_of_le_left (le_of_lt' h)

theorem not_nan_of_lt_right {x y : F} (h : (x <. y) = true) : isNaN y = false :=
  not_nan_of_le_right (le_of_lt' h)

end

namespace F64

/-- The extended real value, `none` for NaN. -/
noncomputable def val : F64 → Option EReal
  | .nan => none
  | .inf true => some ⊥
  | .inf false => some ⊤
  | .fin s a h => some (((toQ (.fin s a h) : ℚ) : ℝ) : EReal)

theorem val_of_isFin {x : F64} (h : x.isFin = true) : val x = some (((x.toQ : ℚ) : ℝ) : EReal) := by
  cases x <;> simp_all [isFin, val]

noncomputable instance : LawfulCmp F64 where
  val := val
  lt_iff x y := by
    show lt x y = true ↔ _
    cases x with
    | nan => simp [lt, val]
    | inf s =>
      cases y with
      | nan => simp [lt, val]
      | inf t => cases s <;> cases t <;> simp [lt, val]
      | fin t b hb =>
        cases s <;> simp [lt, val, EReal.bot_lt_coe]
    | fin s a ha =>
      cases y with
      | nan => simp [lt, val]
      | inf t => cases t <;> simp [lt, val, EReal.coe_lt_top]
      | fin t b hb => simp [lt, val]
  eq_iff x y := by
    show beq x y = true ↔ _
    cases x with
    | nan => simp [beq, val]
    | inf s =>
      cases y with
      | nan => simp [beq, val]
      | inf t => cases s <;> cases t <;> simp [beq, val]
      | fin t b hb => cases s <;> simp [beq, val]
    | fin s a ha =>
      cases y with
      | nan => simp [beq, val]
      | inf t => cases t <;> simp [beq, val]
      | fin t b hb => simp [beq, val, eq_comm]
  le_iff x y := by
    show le x y = true ↔ _
    cases x with
    | nan => simp [le, lt, beq, val]
    | inf s =>
      cases y with
      | nan => simp [le, lt, beq, val]
      | inf t => cases s <;> cases t <;> simp [le, lt, beq, val]
      | fin t b hb => cases s <;> simp [le, lt, beq, val]
    | fin s a ha =>
      cases y with
      | nan => simp [le, lt, beq, val]
      | inf t => cases t <;> simp [le, lt, beq, val]
      | fin t b hb => simp [le, lt, beq, val, le_iff_lt_or_eq]
  val_zero := by
    rw [val_of_isFin (by decide +kernel), show (FloatOps.lit 0 : F64).toQ = 0 by decide +kernel]
    simp
  val_one := by
    rw [val_of_isFin (by decide +kernel), show (FloatOps.lit 1 : F64).toQ = 1 by decide +kernel]
    simp

end F64
end Velato
