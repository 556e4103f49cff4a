import Verif.Model.Scene
import Verif.Proofs.Weight

/-!
# Helpers for constant folding
-/

namespace Velato
open FloatOps (lit)

theorem Value.evaluate_fixed {F T : Type} [FloatOps F] [Tween F T] [RDefault T] {v : Value F T}
    (h : v.isFixed = true) (f g : F) : v.evaluate f = v.evaluate g := by
  cases v with
  | fixed x => rfl
  | animated a => simp [Value.isFixed] at h

theorem Value.evaluateOr_fixed {F T : Type} [FloatOps F] [Tween F T] {v : Value F T}
    (h : v.isFixed = true) (f g : F) (d : T) : v.evaluateOr f d = v.evaluateOr g d := by
  cases v with
  | fixed x => rfl
  | animated a => simp [Value.isFixed] at h

namespace F64

theorem ofRat_toQ (s : Bool) (a : ℚ) (h) : ofRat s (toQ (.fin s a h)) = .fin s a h := by
  have ha : 0 ≤ a := isRepr_nonneg h.1
  have habs : |toQ (.fin s a h)| = a := by
    cases s <;> simp [toQ, abs_of_nonneg ha]
  have hr : roundMag fmt64 |toQ (.fin s a h)| = a := by rw [habs]; exact roundMag_of_repr h.1
  unfold ofRat
  rw [dif_pos (by rw [hr]; exact h.2)]
  congr 1
  split_ifs with h0
  · rfl
  · cases s
    · simp only [decide_eq_false_iff_not, not_lt]; simpa [toQ] using ha
    · rw [decide_eq_true_eq]
      have : a ≠ 0 := by rintro rfl; simp [toQ] at h0
      simpa [toQ] using lt_of_le_of_ne ha this.symm

theorem one_ok : IsRepr fmt64 1 ∧ (1 : ℚ) < maxMag :=
  ⟨by simpa using repr_natCast (f := fmt64) (n := 1) (by decide) (by decide), by
    unfold maxMag; exact one_lt_pow₀ (by norm_num) (by norm_num)⟩

theorem lit_one : (lit 1 : F64) = .fin false 1 one_ok := by
  rw [← ofRat_toQ]; rfl

theorem mul_one' (x : F64) : x *. lit 1 = x := by
  rw [lit_one]
  show mul _ _ = _
  cases x with
  | nan => rfl
  | inf s => simp [mul]
  | fin s a h =>
    show ofRat (s != false) (toQ (.fin s a h) * toQ (.fin false 1 one_ok)) = _
    rw [show (s != false) = s by cases s <;> rfl, show toQ (.fin false 1 one_ok) = 1 from rfl, mul_one, ofRat_toQ]

theorem eq_one {x : F64} (h : (x ==. lit 1) = true) : x = lit 1 := by
  rw [lit_one] at h ⊢
  change beq _ _ = true at h
  cases x with
  | nan => simp [beq] at h
  | inf s => simp [beq] at h
  | fin s a ha =>
    simp only [beq, decide_eq_true_eq] at h
    have := isRepr_nonneg ha.1
    cases s
    · simp only [toQ] at h
      simp at h; subst h; rfl
    · simp only [toQ] at h
      simp at h; linarith

theorem one_eq_one : ((lit 1 : F64) ==. lit 1) = true := by decide +kernel

theorem toF32_one : FloatOps.toF32 (lit 1 : F64) = lit 1 := by decide +kernel

end F64
end Velato
