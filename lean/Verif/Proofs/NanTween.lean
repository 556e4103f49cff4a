import Verif.Proofs.Weight

/-!
# Tweening with a NaN weight

`frames_and_weight` produces `0/0` exactly at the last keyframe.  The tween of a finite value with
itself is then still that value, provided the eased factor is finite.
-/

set_option exponentiation.threshold 2000

namespace Velato

/-- All easing handle coordinates are finite and at most `2^k` in magnitude. -/
def Easing.Bdd (e : Easing F64) (k : ℕ) : Prop :=
  F64.Bdd e.o.x k ∧ F64.Bdd e.o.y k ∧ F64.Bdd e.i.x k ∧ F64.Bdd e.i.y k

/-- All easing handle coordinates are finite. -/
def Easing.Finite (e : Easing F64) : Prop :=
  e.o.x.isFin = true ∧ e.o.y.isFin = true ∧ e.i.x.isFin = true ∧ e.i.y.isFin = true

namespace F64
open Velato.FloatOps (lit)

theorem Bdd.fmax {x y : F64} {k : ℕ} (hx : Bdd x k) (hy : Bdd y k) : Bdd (fmax x y) k := by
  unfold Velato.fmax; split_ifs <;> assumption

theorem bdd_lit0 : Bdd (lit 0) 0 := ⟨by decide +kernel, by rw [toQ_lit0]; norm_num⟩
theorem bdd_lit1 : Bdd (lit 1) 0 := ⟨by decide +kernel, by rw [toQ_lit1]; norm_num⟩
theorem bdd_lit2 : Bdd (lit 2) 1 :=
  ⟨by decide +kernel, by rw [show (lit 2 : F64).toQ = 2 by decide +kernel]; norm_num⟩
theorem bdd_lit3 : Bdd (lit 3) 2 :=
  ⟨by decide +kernel, by rw [show (lit 3 : F64).toQ = 3 by decide +kernel]; norm_num⟩
theorem bdd_eps : Bdd (lit (1 / 1000000000000)) 0 := ⟨by decide +kernel, by decide +kernel⟩

theorem Bdd.add' {x y : F64} {k : ℕ} (hx : Bdd x k) (hy : Bdd y k) (h : k + 1 < 1024) :
    Bdd (x +. y) (k + 1) := hx.add hy h
theorem Bdd.sub' {x y : F64} {k : ℕ} (hx : Bdd x k) (hy : Bdd y k) (h : k + 1 < 1024) :
    Bdd (x -. y) (k + 1) := hx.sub hy h
theorem Bdd.mul' {x y : F64} {k l : ℕ} (hx : Bdd x k) (hy : Bdd y l) (h : k + l < 1024) :
    Bdd (x *. y) (k + l) := hx.mul hy h
theorem Bdd.abs' {x : F64} {k : ℕ} (hx : Bdd x k) : Bdd (FloatOps.abs x) k := hx.abs
theorem Bdd.neg' {x : F64} {k : ℕ} (hx : Bdd x k) : Bdd (FloatOps.neg x) k := hx.neg

/-- A number between two bounded ones is bounded. -/
theorem Bdd.of_between {x lo hi : F64} {k : ℕ} (hl : Bdd lo k) (hh : Bdd hi k)
    (h1 : (lo <=. x) = true) (h2 : (x <=. hi) = true) : Bdd x k := by
  have hx : x.isFin = true := by
    obtain ⟨s, a, ha, rfl⟩ := isFin_iff.mp hl.1
    obtain ⟨t, b, hb, rfl⟩ := isFin_iff.mp hh.1
    cases x with
    | nan => exact absurd rfl (ne_nan_of_le_right h1)
    | inf u =>
      exfalso
      change le _ _ = true at h1 h2
      cases u <;> simp [le, lt, beq] at h1 h2
    | fin => rfl
  refine ⟨hx, ?_⟩
  rw [le_fin hl.1 hx] at h1
  rw [le_fin hx hh.1] at h2
  have e1 := abs_le.mp hl.2
  have e2 := abs_le.mp hh.2
  rw [abs_le]
  constructor <;> linarith

/-- The curve parameter is bounded whatever the weight and the roots the solver returns. -/
theorem easeParam_bdd [Kurbo F64] (t : F64) (e : Easing F64) (he : e.Bdd 200) :
    Bdd (easeParam t e) 208 := by
  obtain ⟨hox, hoy, hix, hiy⟩ := he
  unfold easeParam
  have c0 : Bdd (lit 0 : F64) 206 := bdd_lit0.mono (by omega)
  have b1 : Bdd (lit 3 *. (e.o.x -. lit 0)) 206 :=
    (bdd_lit3.mul' (hox.sub' (bdd_lit0.mono (by omega)) (by omega)) (by omega)).mono (by omega)
  have b2a : Bdd (e.i.x -. lit 2 *. e.o.x) 202 :=
    (hix.mono (by omega)).sub' (bdd_lit2.mul' hox (by omega)) (by omega)
  have b2 : Bdd (lit 3 *. (e.i.x -. lit 2 *. e.o.x +. lit 0)) 206 :=
    (bdd_lit3.mul' (b2a.add' (bdd_lit0.mono (by omega)) (by omega)) (by omega)).mono (by omega)
  have b3a : Bdd (lit 1 -. lit 3 *. e.i.x) 203 :=
    (bdd_lit1.mono (by omega)).sub' (bdd_lit3.mul' hix (by omega)) (by omega)
  have b3b : Bdd (lit 1 -. lit 3 *. e.i.x +. lit 3 *. e.o.x) 204 :=
    b3a.add' ((bdd_lit3.mul' hox (by omega)).mono (by omega)) (by omega)
  have b3 : Bdd (lit 1 -. lit 3 *. e.i.x +. lit 3 *. e.o.x -. lit 0) 206 :=
    (b3b.sub' (bdd_lit0.mono (by omega)) (by omega)).mono (by omega)
  have bm := (((c0.abs'.fmax b1.abs').fmax b2.abs').fmax b3.abs').fmax
    (bdd_lit1.mono (by omega : 0 ≤ 206))
  have be := (bdd_eps.mul' bm (by omega)).mono (by omega : 0 + 206 ≤ 207)
  simp only
  split
  · rename_i r hr
    have := List.find?_some hr
    unfold rootInRange at this
    rw [Bool.and_eq_true] at this
    exact Bdd.of_between (be.neg'.mono (by omega))
      (((bdd_lit1.mono (by omega : 0 ≤ 207)).add' be (by omega)))
      this.1 this.2
  · split_ifs
    · exact bdd_lit0.mono (by omega)
    · exact bdd_lit1.mono (by omega)

theorem cubicEvalY_bdd {y1 y2 u : F64} (h1 : Bdd y1 200) (h2 : Bdd y2 200) (hu : Bdd u 208) :
    (cubicEvalY y1 y2 u).isFin = true := by
  unfold cubicEvalY
  have hm : Bdd (lit 1 -. u) 209 := (bdd_lit1.mono (by omega)).sub' hu (by omega)
  have hmm : Bdd ((lit 1 -. u) *. (lit 1 -. u)) 418 := hm.mul' hm (by omega)
  have hmmm : Bdd ((lit 1 -. u) *. (lit 1 -. u) *. (lit 1 -. u)) 627 := hmm.mul' hm (by omega)
  have t1 : Bdd (lit 0 *. ((lit 1 -. u) *. (lit 1 -. u) *. (lit 1 -. u))) 627 :=
    (bdd_lit0.mul' hmmm (by omega)).mono (by omega)
  have t2 : Bdd (y1 *. ((lit 1 -. u) *. (lit 1 -. u) *. lit 3)) 620 :=
    h1.mul' (hmm.mul' bdd_lit3 (by omega)) (by omega)
  have t3 : Bdd (y2 *. ((lit 1 -. u) *. lit 3) +. lit 1 *. u) 412 :=
    (h2.mul' (hm.mul' bdd_lit3 (by omega)) (by omega)).add'
      ((bdd_lit1.mul' hu (by omega)).mono (by omega)) (by omega)
  have t4 : Bdd ((y2 *. ((lit 1 -. u) *. lit 3) +. lit 1 *. u) *. u) 620 :=
    t3.mul' hu (by omega)
  have t5 := (t2.add' t4 (by omega)).mul' hu (by omega)
  exact ((t1.mono (by omega : 627 ≤ 829)).add' t5 (by omega)).1

/-- `v + (v - v) * y` is `v` (up to the sign of a zero) when `v` and `y` are finite. -/
theorem add_zero_mul {v y : F64} (hv : v.isFin = true) (hy : y.isFin = true) :
    ((v +. (v -. v) *. y) ==. v) = true := by
  obtain ⟨hz, e⟩ := sub_same hv
  rw [e]
  obtain ⟨s, em⟩ := mul_eq (x := .fin false 0 hz) (y := y) rfl hy
  have ez : (F64.fin false 0 hz).toQ = 0 := by simp [toQ]
  rw [ez, zero_mul] at em
  have hf : (mul (.fin false 0 hz) y).isFin = true ∧ (mul (.fin false 0 hz) y).toQ = 0 := by
    rw [em, ofRat_zero]; exact ⟨rfl, by simp [toQ]⟩
  have h1 : rnd (v.toQ + (mul (.fin false 0 hz) y).toQ) = v.toQ := by
    rw [hf.2, add_zero, rnd_of_exact (exact_toQ v)]
  have h2 := add_fin hv hf.1 (by rw [h1]; exact abs_toQ_lt v)
  show (add v (mul _ y) ==. v) = true
  rw [beq_fin h2.1 hv, h2.2, h1]

theorem nan_not_le (x : F64) : ((.nan : F64) <=. x) = false := by
  show le _ _ = false; cases x <;> rfl

theorem le_nan (x : F64) : (x <=. (.nan : F64)) = false := by
  show le _ _ = false; cases x <;> rfl

theorem tween_nan [Kurbo F64] (v w : F64) (e : Easing F64) :
    tweenScalar v w .nan e = v +. (w -. v) *. cubicEvalY e.o.y e.i.y (easeParam .nan e) := by
  unfold tweenScalar
  rw [nan_not_le, le_nan]; rfl

/-- Bounded handles: any solver. -/
theorem tween_nan_bdd [Kurbo F64] {v : F64} {e : Easing F64} (hv : v.isFin = true)
    (he : e.Bdd 200) : (tweenScalar v v .nan e ==. v) = true := by
  rw [tween_nan]
  exact add_zero_mul hv (cubicEvalY_bdd he.2.1 he.2.2.2 (easeParam_bdd _ _ he))

end F64

namespace F64
open Velato.FloatOps (lit)

theorem sub_nan (x : F64) : (x -. (.nan : F64)) = .nan := by
  show add x .nan = .nan; cases x <;> rfl

theorem easeParam_nan [Kurbo F64] (h : NanNoRoots) (e : Easing F64) :
    easeParam .nan e = lit 1 := by
  unfold easeParam
  unfold NanNoRoots at h
  simp only [sub_nan, h]
  rfl

theorem mul_zero_fin {y z : F64} (hy : y.isFin = true) (hz : z.isFin = true) (h : z.toQ = 0) :
    (y *. z).isFin = true ∧ (y *. z).toQ = 0 := by
  obtain ⟨s, em⟩ := mul_eq hy hz
  show (mul y z).isFin = true ∧ (mul y z).toQ = 0
  rw [em, h, mul_zero, ofRat_zero]; exact ⟨rfl, by simp [toQ]⟩

/-- The eased value at curve parameter 1 is finite (it is 1) for all finite handles. -/
theorem cubicEvalY_one {y1 y2 : F64} (h1 : y1.isFin = true) (h2 : y2.isFin = true) :
    (cubicEvalY y1 y2 (lit 1)).isFin = true := by
  unfold cubicEvalY
  have e0 : ((lit 1 : F64) -. lit 1) = lit 0 := by decide +kernel
  simp only [e0]
  simp only [show (lit 0 : F64) *. lit 0 = lit 0 by decide +kernel,
    show (lit 0 : F64) *. lit 3 = lit 0 by decide +kernel,
    show (lit 1 : F64) *. lit 1 = lit 1 by decide +kernel]
  obtain ⟨f1, q1⟩ := mul_zero_fin h1 isFin_lit0 toQ_lit0
  obtain ⟨f2, q2⟩ := mul_zero_fin h2 isFin_lit0 toQ_lit0
  have a2 : Bdd (y2 *. lit 0) 0 := ⟨f2, by rw [q2]; norm_num⟩
  have a1 : Bdd (y1 *. lit 0) 0 := ⟨f1, by rw [q1]; norm_num⟩
  have s2 := (a2.add' bdd_lit1 (by omega)).mul' bdd_lit1 (by omega)
  have s1 := ((a1.mono (by omega)).add' s2 (by omega)).mul' bdd_lit1 (by omega)
  exact ((bdd_lit0.mono (by omega)).add' s1 (by omega)).1

/-- Any finite handles, for solvers that find no root of a NaN polynomial. -/
theorem tween_nan_finite [Kurbo F64] (hk : NanNoRoots) {v : F64} {e : Easing F64}
    (hv : v.isFin = true) (he : e.Finite) : (tweenScalar v v .nan e ==. v) = true := by
  rw [tween_nan, easeParam_nan hk]
  exact add_zero_mul hv (cubicEvalY_one he.2.1 he.2.2.2)

end F64
/-- Rounding to single precision respects equality of numbers. -/
theorem toF32_of_beq {x y : F64} (hy : y.isFin = true) (h32 : FloatOps.toF32 y = y) (h : (x ==. y) = true) :
    (FloatOps.toF32 x ==. y) = true := by
  obtain ⟨t, b, hb, rfl⟩ := F64.isFin_iff.mp hy
  cases x with
  | nan => cases h
  | inf s => cases h
  | fin s a ha =>
    have e := (F64.beq_fin rfl rfl).mp h
    have ha0 := F64.isRepr_nonneg ha.1
    have hb0 := F64.isRepr_nonneg hb.1
    by_cases h0 : b = 0
    · subst h0
      have : a = 0 := by
        cases s <;> cases t <;> simpa [F64.toQ] using e
      subst this
      have z : FloatOps.toF32 (F64.fin s 0 ha) = F64.ofRat s 0 := by
        show F64.toF32 (F64.fin s 0 ha) = _
        unfold F64.toF32
        dsimp only
        rw [roundMag_zero]
        cases s <;> simp
      have f := F64.ofRat_fin (s := s) (q := 0) (by rw [F64.rnd_zero, abs_zero]; exact ha.2)
      rw [z]
      refine (F64.beq_fin f.1 hy).mpr ?_
      rw [f.2, F64.rnd_zero, ← e]
      cases s <;> simp [F64.toQ]
    · have : s = t ∧ a = b := by
        cases s <;> cases t <;> simp only [F64.toQ] at e
        all_goals first
          | exact ⟨rfl, by simpa using e⟩
          | (exfalso; apply h0; simp at e; linarith)
      obtain ⟨rfl, rfl⟩ := this
      rw [h32]
      exact (F64.beq_fin rfl rfl).mpr rfl

end Velato
