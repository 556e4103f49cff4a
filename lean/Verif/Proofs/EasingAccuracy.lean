import Verif.Spec.EasingAccuracy
import Verif.Proofs.DoublePrecision
import Verif.Proofs.Accuracy

/-!
# Accuracy of easing in double precision: helper lemmas
-/

set_option exponentiation.threshold 2000

namespace Velato
open FloatOps (lit)
open F64

theorem F64.Near.inside {x : F64} {r e lo hi : ℝ} (h : Near x r e) (h1 : lo ≤ r - e)
    (h2 : r + e ≤ hi) : x.Between lo hi := by
  have := _root_.abs_le.mp h.err
  exact ⟨h.fin, by linarith, by linarith⟩

theorem toR_lt {x y : F64} (hx : x.isFin = true) (hy : y.isFin = true) :
    (x <. y) = true ↔ x.toR < y.toR := by
  rw [lt_fin hx hy]
  unfold toR
  exact_mod_cast Iff.rfl

theorem toR_le_iff {x y : F64} (hx : x.isFin = true) (hy : y.isFin = true) :
    (x <=. y) = true ↔ x.toR ≤ y.toR := by
  rw [le_fin hx hy]
  unfold toR
  exact_mod_cast Iff.rfl

theorem abs_toR {x : F64} (h : x.isFin = true) :
    (FloatOps.abs x).isFin = true ∧ (FloatOps.abs x).toR = |x.toR| := by
  obtain ⟨s, a, ha, rfl⟩ := isFin_iff.mp h
  refine ⟨rfl, ?_⟩
  have h0 := isRepr_nonneg ha.1
  show ((F64.toQ (F64.fin false a ha) : ℚ) : ℝ) = |((F64.toQ (F64.fin s a ha) : ℚ) : ℝ)|
  have h0' : (0 : ℝ) ≤ a := by exact_mod_cast h0
  cases s <;> simp [F64.toQ, abs_of_nonneg h0']

theorem lit_toR0 : (lit 0 : F64).toR = 0 := by
  have := abs_le.mp near_lit0.err; linarith

theorem lit_toR1 : (lit 1 : F64).toR = 1 := by
  have := abs_le.mp near_lit1.err; linarith

/-- The coefficients of the easing curve. -/
def easeC1 (e : Easing F64) : F64 := lit 3 *. (e.o.x -. lit 0)
/-- The coefficients of the easing curve. -/
def easeC2 (e : Easing F64) : F64 := lit 3 *. (e.i.x -. lit 2 *. e.o.x +. lit 0)
/-- The coefficients of the easing curve. -/
def easeC3 (e : Easing F64) : F64 := lit 1 -. lit 3 *. e.i.x +. lit 3 *. e.o.x -. lit 0

theorem easeC_near {e : Easing F64} (he : e.InUnitSquare64) :
    Near (easeC1 e) (3 * e.o.x.toR) (1 / 2 ^ 49) ∧
    Near (easeC2 e) (3 * (e.i.x.toR - 2 * e.o.x.toR)) (1 / 2 ^ 45) ∧
    Near (easeC3 e) (1 - 3 * e.i.x.toR + 3 * e.o.x.toR) (1 / 2 ^ 45) := by
  obtain ⟨hox, -, hix, -⟩ := he
  have n0 := near_lit0
  have n1 := near_lit1
  have n2 := near_lit2
  have n3 := near_lit3
  have hx1 := hox.near
  have hx2 := hix.near
  obtain ⟨-, a1, a2⟩ := hox
  obtain ⟨-, b1, b2⟩ := hix
  unfold easeC1 easeC2 easeC3
  generalize e.o.x.toR = r1 at *
  generalize e.i.x.toR = r2 at *
  refine ⟨?_, ?_, ?_⟩
  · have h := hx1.sub n0 (B := 1) (E := 1 / 2 ^ 52) (by rw [abs_le]; constructor <;> linarith)
      (by norm_num) (by norm_num)
    have h := n3.mul h (R := 3) (S := 1) (E := 1 / 2 ^ 49) (by norm_num)
      (by rw [abs_le]; constructor <;> linarith) (by norm_num) (by norm_num)
    rwa [sub_zero] at h
  · have h := n2.mul hx1 (R := 2) (S := 1) (E := 1 / 2 ^ 51) (by norm_num)
      (by rw [abs_le]; constructor <;> linarith) (by norm_num) (by norm_num)
    have h := hx2.sub h (B := 2) (E := 1 / 2 ^ 50) (by rw [abs_le]; constructor <;> linarith)
      (by norm_num) (by norm_num)
    have h := h.add n0 (B := 2) (E := 1 / 2 ^ 49) (by rw [abs_le]; constructor <;> linarith)
      (by norm_num) (by norm_num)
    have h := n3.mul h (R := 3) (S := 2) (E := 1 / 2 ^ 45) (by norm_num)
      (by rw [abs_le]; constructor <;> linarith) (by norm_num) (by norm_num)
    rwa [add_zero] at h
  · have k := n3.mul hx2 (R := 3) (S := 1) (E := 1 / 2 ^ 51) (by norm_num)
      (by rw [abs_le]; constructor <;> linarith) (by norm_num) (by norm_num)
    have k' := n3.mul hx1 (R := 3) (S := 1) (E := 1 / 2 ^ 51) (by norm_num)
      (by rw [abs_le]; constructor <;> linarith) (by norm_num) (by norm_num)
    have h := n1.sub k (B := 4) (E := 1 / 2 ^ 49) (by rw [abs_le]; constructor <;> linarith)
      (by norm_num) (by norm_num)
    have h := h.add k' (B := 4) (E := 1 / 2 ^ 47) (by rw [abs_le]; constructor <;> linarith)
      (by norm_num) (by norm_num)
    have h := h.sub n0 (B := 4) (E := 1 / 2 ^ 45) (by rw [abs_le]; constructor <;> linarith)
      (by norm_num) (by norm_num)
    rwa [sub_zero] at h

/-- Numbers in the unit interval pass the test on roots. -/
theorem rootInRange_of_unit {m r : F64} (hm : m.Between 1 7) (hr : r.Between 0 1) :
    rootInRange (lit (1 / 1000000000000) *. m) r = true := by
  have heps := near_lit_eps.mul (F64.Near.self hm.1) (R := 1 / 10 ^ 12) (S := 7) (E := 1 / 10 ^ 18)
    (by rw [abs_le]; norm_num) (by rw [abs_le]; constructor <;> linarith [hm.2.1, hm.2.2])
    (by norm_num) (by norm_num)
  have h1 : (1 : ℝ) / 10 ^ 12 ≤ 1 / 10 ^ 12 * m.toR := by
    have := hm.2.1
    have : (1 : ℝ) / 10 ^ 12 * 1 ≤ 1 / 10 ^ 12 * m.toR := by gcongr
    linarith
  have h2 : (1 : ℝ) / 10 ^ 12 * m.toR ≤ 7 / 10 ^ 12 := by
    have := hm.2.2
    have : (1 : ℝ) / 10 ^ 12 * m.toR ≤ 1 / 10 ^ 12 * 7 := by gcongr
    linarith
  generalize (lit (1 / 1000000000000) : F64) *. m = eps at heps ⊢
  have hhi := near_lit1.add heps (B := 2) (E := 1 / 10 ^ 14)
    (by rw [abs_le]; constructor <;> linarith) (by norm_num) (by norm_num)
  have hlo := heps.neg
  unfold rootInRange
  rw [Bool.and_eq_true, toR_le_iff hlo.fin hr.1, toR_le_iff hr.1 hhi.fin]
  have e1 := abs_le.mp hlo.err
  have e2 := abs_le.mp hhi.err
  have p1 : (1 : ℝ) / 10 ^ 18 ≤ 1 / 10 ^ 12 := by norm_num
  have p2 : (1 : ℝ) / 10 ^ 14 ≤ 1 / 10 ^ 12 := by norm_num
  constructor <;> linarith [hr.2.1, hr.2.2]

/-- The larger of two numbers. -/
theorem fmax_between {a b : F64} {lo hi : ℝ} (ha : a.isFin = true ∧ a.toR ≤ hi)
    (hb : b.Between lo hi) : (fmax a b).Between lo hi := by
  unfold fmax
  split_ifs with h
  · rw [Bool.or_eq_true] at h
    rcases h with h | h
    · rw [toR_lt hb.1 ha.1] at h
      exact ⟨ha.1, by linarith [hb.2.1], ha.2⟩
    · obtain ⟨s, x, hx, rfl⟩ := isFin_iff.mp hb.1
      simp [isNaN, FloatOps.eq, F64.beq] at h
  · exact hb

theorem fmax_le {a b : F64} {hi : ℝ} (ha : a.isFin = true ∧ a.toR ≤ hi)
    (hb : b.isFin = true ∧ b.toR ≤ hi) : (fmax a b).isFin = true ∧ (fmax a b).toR ≤ hi := by
  rcases fmax_cases a b with h | h <;> rw [h] <;> assumption

/-- Either a returned root is taken, or none is in the unit interval and an end is taken. -/
theorem easeParam_cases [Kurbo F64] (t : F64) {e : Easing F64} (he : e.InUnitSquare64) :
    easeParam t e ∈ Kurbo.solveCubic (lit 0 -. t) (easeC1 e) (easeC2 e) (easeC3 e) ∨
    (∀ r ∈ Kurbo.solveCubic (lit 0 -. t) (easeC1 e) (easeC2 e) (easeC3 e), ¬ r.Between 0 1) ∧
    easeParam t e = if (FloatOps.abs (lit 0 -. t) <=.
      FloatOps.abs (lit 0 +. easeC1 e +. easeC2 e +. easeC3 e -. t)) = true then lit 0 else lit 1 := by
  obtain ⟨c1, c2, c3⟩ := easeC_near he
  obtain ⟨⟨-, a1, a2⟩, -, ⟨-, b1, b2⟩, -⟩ := he
  have hp : (1 : ℝ) / 2 ^ 45 ≤ 1 := by norm_num
  have hp' : (1 : ℝ) / 2 ^ 49 ≤ 1 := by norm_num
  have d0 := F64.abs_near near_lit0 (B := 0) (by norm_num)
  have d1 := F64.abs_near c1 (B := 3) (by rw [abs_le]; constructor <;> linarith)
  have d2 := F64.abs_near c2 (B := 6) (by rw [abs_le]; constructor <;> linarith)
  have d3 := F64.abs_near c3 (B := 4) (by rw [abs_le]; constructor <;> linarith)
  have hm : (fmax (fmax (fmax (fmax (FloatOps.abs (lit 0 : F64)) (FloatOps.abs (easeC1 e)))
      (FloatOps.abs (easeC2 e))) (FloatOps.abs (easeC3 e))) (lit 1)).Between 1 7 :=
    fmax_between (fmax_le (fmax_le (fmax_le ⟨d0.1, by linarith [d0.2]⟩ ⟨d1.1, by linarith [d1.2]⟩)
      ⟨d2.1, by linarith [d2.2]⟩) ⟨d3.1, by linarith [d3.2]⟩)
      (near_lit1.inside (by norm_num) (by norm_num))
  have hu : easeParam t e =
      match List.find? (rootInRange (lit (1 / 1000000000000) *. fmax (fmax (fmax (fmax
        (FloatOps.abs (lit 0 : F64)) (FloatOps.abs (easeC1 e)))
        (FloatOps.abs (easeC2 e))) (FloatOps.abs (easeC3 e))) (lit 1)))
        (Kurbo.solveCubic (lit 0 -. t) (easeC1 e) (easeC2 e) (easeC3 e)) with
      | some r => r
      | none => if (FloatOps.abs (lit 0 -. t) <=.
          FloatOps.abs (lit 0 +. easeC1 e +. easeC2 e +. easeC3 e -. t)) = true then lit 0 else lit 1 := by
    unfold easeParam easeC1 easeC2 easeC3; dsimp only
    cases List.find? _ _ <;> rfl
  rw [hu]
  split
  · rename_i r hf
    exact .inl (List.mem_of_find?_eq_some hf)
  · rename_i hf
    refine .inr ⟨fun r hr hu => ?_, rfl⟩
    exact List.find?_eq_none.mp hf r hr (rootInRange_of_unit hm hu)

theorem bez_poly (p q u : ℝ) :
    bez p q u = 3 * p * u + 3 * (q - 2 * p) * u ^ 2 + (1 - 3 * q + 3 * p) * u ^ 3 := by
  unfold bez; ring

/-- The curve at the parameter found is at the given weight, up to the accuracy of the solver. -/
theorem easeParam_accurate [Kurbo F64] {δ : ℝ} (hδ : 0 ≤ δ) (hs : SolverWithin δ) {t : F64} {e : Easing F64}
    (he : e.InUnitSquare64) (ht : t.Between 0 1) :
    |bez e.o.x.toR e.i.x.toR (easeParam t e).toR - t.toR| ≤ δ + 1 / 2 ^ 39 := by
  have hu := easeParam_between t he
  have hcs := easeParam_cases t he
  obtain ⟨c1, c2, c3⟩ := easeC_near he
  obtain ⟨⟨-, a1, a2⟩, -, ⟨-, b1, b2⟩, -⟩ := he
  have hp : (1 : ℝ) / 2 ^ 45 ≤ 1 := by norm_num
  have hp' : (1 : ℝ) / 2 ^ 49 ≤ 1 := by norm_num
  have k0 : Near (lit 0 -. t) (-t.toR) (1 / 2 ^ 52) := by
    have := near_lit0.sub ht.near (B := 1) (E := 1 / 2 ^ 52)
      (by rw [abs_le]; constructor <;> linarith [ht.2.1, ht.2.2]) (by norm_num) (by norm_num)
    rwa [zero_sub] at this
  have hb0 : (lit 0 -. t).Between (-8) 8 :=
    k0.inside (by have := ht.2.2; linarith) (by have := ht.2.1; linarith)
  have hb1 : (easeC1 e).Between (-8) 8 := c1.inside (by linarith) (by linarith)
  have hb2 : (easeC2 e).Between (-8) 8 := c2.inside (by linarith) (by linarith)
  have hb3 : (easeC3 e).Between (-8) 8 := c3.inside (by linarith) (by linarith)
  -- the polynomial that is solved is the curve, up to rounding
  have hpoly : ∀ u : ℝ, |u| ≤ 101 / 100 →
      |cubicAt (lit 0 -. t) (easeC1 e) (easeC2 e) (easeC3 e) u -
        (bez e.o.x.toR e.i.x.toR u - t.toR)| ≤ 1 / 2 ^ 43 := by
    intro u hu
    unfold cubicAt
    rw [bez_poly]
    have e0 := k0.err
    have e1 := c1.err
    have e2 := c2.err
    have e3 := c3.err
    have hu2 : |u ^ 2| ≤ 103 / 100 := by
      rw [abs_pow]; nlinarith [abs_nonneg u]
    have hu3 : |u ^ 3| ≤ 104 / 100 := by
      rw [abs_pow]; nlinarith [abs_nonneg u, mul_nonneg (abs_nonneg u) (abs_nonneg u),
        pow_le_pow_left₀ (abs_nonneg u) hu 3]
    have key : ∀ {x y A B : ℝ}, |x| ≤ A → |y| ≤ B → |x * y| ≤ A * B := by
      intro x y A B hx hy
      rw [abs_mul]
      exact mul_le_mul hx hy (abs_nonneg _) ((abs_nonneg _).trans hx)
    have f1 := key e1 hu
    have f2 := key e2 hu2
    have f3 := key e3 hu3
    generalize e.o.x.toR = p at *
    generalize e.i.x.toR = q at *
    have eq : (lit 0 -. t : F64).toR + (easeC1 e).toR * u + (easeC2 e).toR * u ^ 2 +
        (easeC3 e).toR * u ^ 3 -
        (3 * p * u + 3 * (q - 2 * p) * u ^ 2 + (1 - 3 * q + 3 * p) * u ^ 3 - t.toR) =
        ((lit 0 -. t : F64).toR - -t.toR) + ((easeC1 e).toR - 3 * p) * u +
        ((easeC2 e).toR - 3 * (q - 2 * p)) * u ^ 2 +
        ((easeC3 e).toR - (1 - 3 * q + 3 * p)) * u ^ 3 := by ring
    rw [eq]
    have t1 := abs_add_le (((lit 0 -. t : F64).toR - -t.toR) + ((easeC1 e).toR - 3 * p) * u +
        ((easeC2 e).toR - 3 * (q - 2 * p)) * u ^ 2) (((easeC3 e).toR - (1 - 3 * q + 3 * p)) * u ^ 3)
    have t2 := abs_add_three ((lit 0 -. t : F64).toR - -t.toR) (((easeC1 e).toR - 3 * p) * u)
        (((easeC2 e).toR - 3 * (q - 2 * p)) * u ^ 2)
    have num : (1 : ℝ) / 2 ^ 52 + 1 / 2 ^ 49 * (101 / 100) + 1 / 2 ^ 45 * (103 / 100) +
      1 / 2 ^ 45 * (104 / 100) ≤ 1 / 2 ^ 43 := by norm_num
    linarith
  have hsmall : (1 : ℝ) / 10 ^ 11 ≤ 1 / 100 := by norm_num
  have huu : |(easeParam t e).toR| ≤ 101 / 100 := by
    rw [abs_le]; constructor <;> linarith [hu.2.1, hu.2.2]
  rcases hcs with h | ⟨h, hdef⟩
  · have h1 := hs.sound hb0 hb1 hb2 hb3 h ⟨hu.1, by linarith [hu.2.1], by linarith [hu.2.2]⟩
    have h2 := hpoly _ huu
    have := abs_sub_abs_le_abs_sub (bez e.o.x.toR e.i.x.toR (easeParam t e).toR - t.toR)
      (cubicAt (lit 0 -. t) (easeC1 e) (easeC2 e) (easeC3 e) (easeParam t e).toR)
    rw [abs_sub_comm (bez _ _ _ - _)] at this
    have num : (1 : ℝ) / 2 ^ 43 ≤ 1 / 2 ^ 39 := by norm_num
    linarith
  · -- one of the ends is a root up to `δ`
    have q0 := abs_le.mp (hpoly 0 (by norm_num))
    have q1 := abs_le.mp (hpoly 1 (by norm_num))
    have g0 : bez e.o.x.toR e.i.x.toR 0 = 0 := by unfold bez; ring
    have g1 : bez e.o.x.toR e.i.x.toR 1 = 1 := by unfold bez; ring
    rw [g0] at q0
    rw [g1] at q1
    have h39 : (1 : ℝ) / 2 ^ 39 = 16 / 2 ^ 43 := by norm_num
    have hends : t.toR ≤ δ + 2 / 2 ^ 43 ∨ 1 - t.toR ≤ δ + 2 / 2 ^ 43 := by
      rcases lt_or_ge 0 (cubicAt (lit 0 -. t) (easeC1 e) (easeC2 e) (easeC3 e) 0) with h0 | h0
      · left; linarith
      rcases lt_or_ge (cubicAt (lit 0 -. t) (easeC1 e) (easeC2 e) (easeC3 e) 1) 0 with h1 | h1
      · right; linarith
      have hc : ContinuousOn (cubicAt (lit 0 -. t) (easeC1 e) (easeC2 e) (easeC3 e))
          (Set.Icc 0 1) := by
        unfold cubicAt; fun_prop
      obtain ⟨x, ⟨hx0, hx1⟩, hx⟩ := intermediate_value_Icc (zero_le_one' ℝ) hc ⟨h0, h1⟩
      rcases hs.complete hb0 hb1 hb2 hb3 hx0 hx1 hx with ⟨r, hr, hr'⟩ | h2 | h2
      · exact absurd hr' (h r hr)
      · have := abs_le.mp h2
        left; linarith
      · have := abs_le.mp h2
        right; linarith
    have v0 : (FloatOps.abs (lit 0 -. t)).isFin = true ∧
        |(FloatOps.abs (lit 0 -. t)).toR - t.toR| ≤ 1 / 2 ^ 43 := by
      obtain ⟨f1, f2⟩ := abs_toR k0.fin
      refine ⟨f1, ?_⟩
      rw [f2]
      have e0 := k0.err
      rw [show t.toR = |-t.toR| by rw [abs_neg, abs_of_nonneg ht.2.1]]
      exact ((abs_abs_sub_abs_le _ _).trans e0).trans (by norm_num)
    have v1 : (FloatOps.abs (lit 0 +. easeC1 e +. easeC2 e +. easeC3 e -. t)).isFin = true ∧
        |(FloatOps.abs (lit 0 +. easeC1 e +. easeC2 e +. easeC3 e -. t)).toR - (1 - t.toR)| ≤
          8 / 2 ^ 43 := by
      have s1 := near_lit0.add c1 (B := 3) (E := 1 / 2 ^ 48)
        (by rw [abs_le]; constructor <;> linarith) (by norm_num) (by norm_num)
      have s2 := s1.add c2 (B := 6) (E := 1 / 2 ^ 44)
        (by rw [abs_le]; constructor <;> linarith) (by norm_num) (by norm_num)
      have s3 := s2.add c3 (B := 6) (E := 1 / 2 ^ 43)
        (by rw [abs_le]; constructor <;> linarith) (by norm_num) (by norm_num)
      have s4 := s3.sub ht.near (B := 6) (E := 8 / 2 ^ 43)
        (by rw [abs_le]; constructor <;> linarith [ht.2.1, ht.2.2]) (by norm_num) (by norm_num)
      have hr : 0 + 3 * e.o.x.toR + 3 * (e.i.x.toR - 2 * e.o.x.toR) +
          (1 - 3 * e.i.x.toR + 3 * e.o.x.toR) - t.toR = 1 - t.toR := by ring
      rw [hr] at s4
      obtain ⟨f1, f2⟩ := abs_toR s4.fin
      refine ⟨f1, ?_⟩
      rw [f2]
      have hn : 1 - t.toR = |1 - t.toR| := by rw [abs_of_nonneg]; linarith [ht.2.2]
      rw [hn]
      refine (abs_abs_sub_abs_le _ _).trans ?_
      exact s4.err
    have w0 := abs_le.mp v0.2
    have w1 := abs_le.mp v1.2
    rw [hdef]
    split_ifs with hc
    · rw [toR_le_iff v0.1 v1.1] at hc
      rw [lit_toR0, g0, abs_le]
      constructor
      · rcases hends with h | h <;> linarith
      · linarith [ht.2.1]
    · rw [toR_le_iff v0.1 v1.1, not_le] at hc
      rw [lit_toR1, g1, abs_le]
      constructor
      · linarith [ht.2.2]
      · rcases hends with h | h <;> linarith

/-- The curve beside the unit interval. -/
theorem bez_clamp {p q u : ℝ} (hp : 0 ≤ p ∧ p ≤ 1) (hq : 0 ≤ q ∧ q ≤ 1)
    (h1 : -(1 / 10 ^ 11) ≤ u) (h2 : u ≤ 1 + 1 / 10 ^ 11) :
    |bez p q (max 0 (min u 1)) - bez p q u| ≤ 4 / 10 ^ 11 := by
  have n : (0 : ℝ) ≤ 4 / 10 ^ 11 := by positivity
  rcases lt_or_ge u 0 with h | h
  · rw [min_eq_left (by linarith), max_eq_left h.le]
    have := bez_left hp hq (d := 1 / 10 ^ 11) (by norm_num) h1 h
    have g0 : bez p q 0 = 0 := by unfold bez; ring
    have e : (4 : ℝ) * (1 / 10 ^ 11) ^ 2 ≤ 4 / 10 ^ 11 := by norm_num
    rw [g0, abs_le]
    constructor <;> linarith [this.1, this.2]
  · rcases lt_or_ge 1 u with h' | h'
    · rw [min_eq_right h'.le, max_eq_right (by norm_num)]
      have := bez_right hp hq (d := 1 / 10 ^ 11) (by norm_num) h2 h'
      have g1 : bez p q 1 = 1 := by unfold bez; ring
      have e : (4 : ℝ) * (1 / 10 ^ 11) ^ 2 ≤ 4 / 10 ^ 11 := by norm_num
      rw [g1, abs_le]
      constructor <;> linarith [this.1, this.2]
    · rw [min_eq_left h', max_eq_right h, sub_self, abs_zero]
      exact n

/-- The weight of a frame between two keyframes. -/
theorem weight_near {f a b : F64} (hf : f.isFin = true) (ha : a.Between (-2 ^ 1000) (2 ^ 1000))
    (hb : b.Between (-2 ^ 1000) (2 ^ 1000)) (h1 : a.toR ≤ f.toR) (h2 : f.toR ≤ b.toR)
    (hg : 1 / 2 ^ 1000 ≤ b.toR - a.toR) :
    Near (clamp ((f -. a) /. (b -. a)) (lit 0) (lit 1)) ((f.toR - a.toR) / (b.toR - a.toR))
      (1 / 2 ^ 49) ∧
    (clamp ((f -. a) /. (b -. a)) (lit 0) (lit 1)).Between 0 1 := by
  have n1000 : (1 : ℝ) / 2 ^ 1075 ≤ 1 / 2 ^ 1000 / 2 ^ 53 := by norm_num
  obtain ⟨haf, a1, a2⟩ := ha
  obtain ⟨hbf, b1, b2⟩ := hb
  set D := b.toR - a.toR with hD
  set n := f.toR - a.toR with hn
  have hD0 : 0 < D := lt_of_lt_of_le (by positivity) hg
  have hn0 : 0 ≤ n := by linarith
  have hnD : n ≤ D := by linarith
  have hDmax : D ≤ 2 ^ 1001 := by
    have : (2 : ℝ) ^ 1001 = 2 * 2 ^ 1000 := by norm_num
    linarith
  have hstep : (1 : ℝ) / 2 ^ 1075 ≤ D / 2 ^ 53 :=
    n1000.trans (div_le_div_of_nonneg_right hg (by positivity))
  have hsmall : D / 2 ^ 52 ≤ D / 2 := by
    apply div_le_div_of_nonneg_left hD0.le (by norm_num) (by norm_num)
  have hov : (2 : ℝ) ^ 1001 + 2 ^ 1001 < 2 ^ 1024 := by norm_num
  have h52 : D / 2 ^ 52 = D / 2 ^ 53 + D / 2 ^ 53 := by ring
  have hN : Near (f -. a) n (D / 2 ^ 52) :=
    (Near.self hf).sub (Near.self haf) (B := D) (by rw [abs_of_nonneg hn0]; exact hnD)
      (by rw [h52]; norm_num; linarith) (by linarith)
  have hE : Near (b -. a) D (D / 2 ^ 52) :=
    (Near.self hbf).sub (Near.self haf) (B := D) (by rw [abs_of_pos hD0])
      (by rw [h52]; norm_num; linarith) (by linarith)
  have eN := abs_le.mp hN.err
  have eE := abs_le.mp hE.err
  have hEp : D / 2 ≤ (b -. a).toR := by linarith
  have hE0 : 0 < (b -. a).toR := by linarith
  -- the exact quotient of the rounded differences
  have hq : |(f -. a).toR / (b -. a).toR - n / D| ≤ 1 / 2 ^ 50 := by
    rw [div_sub_div _ _ hE0.ne' hD0.ne', abs_div, abs_of_pos (mul_pos hE0 hD0),
      div_le_iff₀ (mul_pos hE0 hD0)]
    have e : (f -. a).toR * D - (b -. a).toR * n =
        ((f -. a).toR - n) * D - ((b -. a).toR - D) * n := by ring
    rw [e]
    calc _ ≤ |((f -. a).toR - n) * D| + |((b -. a).toR - D) * n| := abs_sub _ _
      _ ≤ D / 2 ^ 52 * D + D / 2 ^ 52 * D := by
        rw [abs_mul, abs_mul, abs_of_pos hD0, abs_of_nonneg hn0]
        have := hN.err
        have := hE.err
        gcongr
      _ = 1 / 2 ^ 50 * (D / 2 * D) := by ring
      _ ≤ 1 / 2 ^ 50 * ((b -. a).toR * D) := by gcongr
  have hs0 : 0 ≤ n / D := div_nonneg hn0 hD0.le
  have hs1 : n / D ≤ 1 := (div_le_one hD0).mpr hnD
  have hqa := abs_le.mp hq
  have n50 : (1 : ℝ) / 2 ^ 50 ≤ 1 := by norm_num
  have hQ := (Near.self hN.fin).div (Near.self hE.fin) hE0.ne' (B := 2) (E := 1 / 2 ^ 51)
    (by rw [abs_le]; constructor <;> linarith) (by norm_num) (by norm_num)
  have hT : Near ((f -. a) /. (b -. a)) (n / D) (1 / 2 ^ 49) := by
    refine ⟨hQ.fin, ?_⟩
    have := abs_le.mp hQ.err
    have n49 : (1 : ℝ) / 2 ^ 51 + 1 / 2 ^ 50 ≤ 1 / 2 ^ 49 := by norm_num
    rw [abs_le]; constructor <;> linarith
  have eT := abs_le.mp hT.err
  generalize (f -. a) /. (b -. a) = x at hT eT ⊢
  have f0 := near_lit0.fin
  have f1 := near_lit1.fin
  have n49 : (0 : ℝ) ≤ 1 / 2 ^ 49 := by positivity
  have key : ((clamp x (lit 0) (lit 1)).isFin = true) ∧
      (clamp x (lit 0) (lit 1)).toR = max 0 (min x.toR 1) := by
    unfold clamp
    by_cases c1 : (x <. lit 0) = true
    · rw [if_pos c1]
      rw [toR_lt hT.fin f0, lit_toR0] at c1
      have : ¬ (lit 1 <. (lit 0 : F64)) = true := by
        rw [toR_lt f1 f0, lit_toR0, lit_toR1]; norm_num
      rw [if_neg this]
      exact ⟨f0, by rw [lit_toR0, min_eq_left (by linarith), max_eq_left c1.le]⟩
    · rw [if_neg c1]
      rw [toR_lt hT.fin f0, lit_toR0, not_lt] at c1
      by_cases c2 : (lit 1 <. x) = true
      · rw [if_pos c2]
        rw [toR_lt f1 hT.fin, lit_toR1] at c2
        exact ⟨f1, by rw [lit_toR1, min_eq_right c2.le, max_eq_right (by norm_num)]⟩
      · rw [if_neg c2]
        rw [toR_lt f1 hT.fin, lit_toR1, not_lt] at c2
        exact ⟨hT.fin, by rw [min_eq_left c2, max_eq_right c1]⟩
  refine ⟨⟨key.1, ?_⟩, key.1, ?_, ?_⟩
  · rw [key.2, abs_le]
    constructor
    · rw [neg_le_sub_iff_le_add]
      rcases le_total x.toR 1 with h | h
      · rw [min_eq_left h]; linarith [le_max_right 0 x.toR]
      · rw [min_eq_right h]; linarith [le_max_right (0 : ℝ) 1]
    · rw [tsub_le_iff_right]
      refine max_le (by linarith) ((min_le_left _ _).trans (by linarith))
  · rw [key.2]; exact le_max_left _ _
  · rw [key.2]; exact max_le (by norm_num) (min_le_right _ _)

/-- Interpolation between two numbers. -/
theorem tweenScalar_accurate [Kurbo F64] {δ : ℝ} (hδ : 0 ≤ δ) (hs : SolverWithin δ) {v w t : F64}
    {e : Easing F64} (he : e.InUnitSquare64) {M s : ℝ} (hv : v.Between (-M) M)
    (hw : w.Between (-M) M) (hM : M ≤ 2 ^ 1000) (ht : t.Between 0 1) (hts : Near t s (1 / 2 ^ 49)) :
    (tweenScalar v w t e).isFin = true ∧
    EasedNear (δ + 1 / 10 ^ 10) (|w.toR - v.toR| / 10 ^ 10 + M / 2 ^ 53 + 1 / 2 ^ 1072) e.o e.i
      v.toR w.toR s (tweenScalar v w t e).toR := by
  have hM0 : 0 ≤ M := by linarith [hv.2.1, hv.2.2]
  have herr : 0 ≤ |w.toR - v.toR| / 10 ^ 10 + M / 2 ^ 53 + 1 / 2 ^ 1072 := by positivity
  have es := abs_le.mp hts.err
  have n1 : (1 : ℝ) / 2 ^ 49 ≤ 1 / 10 ^ 10 := by norm_num
  have g0 : ∀ p q, bez p q 0 = 0 := by intros; unfold bez; ring
  have g1 : ∀ p q, bez p q 1 = 1 := by intros; unfold bez; ring
  unfold tweenScalar
  split_ifs with h1 h2
  · rw [toR_le_iff ht.1 near_lit0.fin, lit_toR0] at h1
    refine ⟨hv.1, 0, le_rfl, by norm_num, ?_, ?_⟩
    · rw [g0, abs_le]; constructor <;> linarith [ht.2.1]
    · rw [g0, mul_zero, add_zero, sub_self, abs_zero]; exact herr
  · rw [toR_le_iff near_lit1.fin ht.1, lit_toR1] at h2
    refine ⟨hw.1, 1, by norm_num, le_rfl, ?_, ?_⟩
    · rw [g1, abs_le]; constructor <;> linarith [ht.2.2]
    · rw [g1, show w.toR - (v.toR + (w.toR - v.toR) * 1) = 0 by ring, abs_zero]; exact herr
  · dsimp only
    have hu := easeParam_between t he
    have hx := abs_le.mp (easeParam_accurate hδ hs he ht)
    have hy := cubicEvalY_near he.oy he.iy hu
    have cx := abs_le.mp (bez_clamp he.ox.2 he.ix.2 hu.2.1 hu.2.2)
    have cy := bez_clamp he.oy.2 he.iy.2 hu.2.1 hu.2.2
    obtain ⟨y1, y2⟩ := bez_ext he.oy.2 he.iy.2 hu.2.1 hu.2.2
    have n2 : (1 : ℝ) / 2 ^ 39 + 4 / 10 ^ 11 + 1 / 2 ^ 49 ≤ 1 / 10 ^ 10 := by norm_num
    generalize easeParam t e = u at *
    have hb : |bez e.o.y.toR e.i.y.toR u.toR| ≤ 11 / 10 := by
      have : (4 : ℝ) / 10 ^ 11 ≤ 1 / 10 := by norm_num
      rw [abs_le]; constructor <;> linarith
    have kv := hv.near
    have kw := hw.near
    have hrv : |v.toR| ≤ M := abs_le.mpr hv.2
    have hRM : |w.toR - v.toR| ≤ 2 * M := by
      rw [abs_le]; constructor <;> linarith [hv.2.1, hv.2.2, hw.2.1, hw.2.2]
    set R := |w.toR - v.toR| with hR
    have hd : 0 ≤ R := abs_nonneg _
    have p1000 : (2 : ℝ) ^ 1000 * 100 < 2 ^ 1024 := by norm_num
    have q1 := kw.sub kv (E := R / 2 ^ 53 + 1 / 2 ^ 1075) le_rfl (by linarith) (by
      have : R / 2 ^ 53 ≤ R := div_le_self hd (by norm_num)
      have : (1 : ℝ) / 2 ^ 1075 ≤ 2 ^ 1000 := by norm_num
      linarith)
    have q2 := q1.mul hy (E := R / 2 ^ 41 + 3 / 2 ^ 1075) le_rfl hb (by
      have e1 : (R * (1 / 2 ^ 42) + 11 / 10 * (R / 2 ^ 53 + 1 / 2 ^ 1075) +
          (R / 2 ^ 53 + 1 / 2 ^ 1075) * (1 / 2 ^ 42)) +
        (R * (11 / 10) + (R * (1 / 2 ^ 42) + 11 / 10 * (R / 2 ^ 53 + 1 / 2 ^ 1075) +
          (R / 2 ^ 53 + 1 / 2 ^ 1075) * (1 / 2 ^ 42))) / 2 ^ 53 + 1 / 2 ^ 1075 =
        R * (1 / 2 ^ 42 + 11 / 10 / 2 ^ 53 + 1 / 2 ^ 53 / 2 ^ 42 + (11 / 10 + 1 / 2 ^ 42 +
          11 / 10 / 2 ^ 53 + 1 / 2 ^ 53 / 2 ^ 42) / 2 ^ 53) +
        (11 / 10 + 1 / 2 ^ 42 + (11 / 10 + 1 / 2 ^ 42) / 2 ^ 53 + 1) * (1 / 2 ^ 1075) := by ring
      rw [e1]
      have e2 : (1 / 2 ^ 42 + 11 / 10 / 2 ^ 53 + 1 / 2 ^ 53 / 2 ^ 42 + (11 / 10 + 1 / 2 ^ 42 +
          11 / 10 / 2 ^ 53 + 1 / 2 ^ 53 / 2 ^ 42) / 2 ^ 53 : ℝ) ≤ 1 / 2 ^ 41 := by norm_num
      have e3 : (11 / 10 + 1 / 2 ^ 42 + (11 / 10 + 1 / 2 ^ 42) / 2 ^ 53 + 1 : ℝ) ≤ 3 := by norm_num
      have e4 := mul_le_mul_of_nonneg_left e2 hd
      have e5 := mul_le_mul_of_nonneg_right e3 (show (0 : ℝ) ≤ 1 / 2 ^ 1075 by positivity)
      linarith) (by
      have : R / 2 ^ 41 ≤ R := div_le_self hd (by norm_num)
      have : (3 : ℝ) / 2 ^ 1075 ≤ 2 ^ 1000 := by norm_num
      linarith)
    have hprod : |(w.toR - v.toR) * bez e.o.y.toR e.i.y.toR u.toR| ≤ R * (11 / 10) := by
      rw [abs_mul]; exact mul_le_mul le_rfl hb (abs_nonneg _) hd
    have q3 := kv.add q2 (B := M + R * (11 / 10)) (E := R / 10 ^ 11 + M / 2 ^ 53 + 1 / 2 ^ 1072)
      ((abs_add_le _ _).trans (add_le_add hrv hprod)) (by
      have e1 : (0 + (R / 2 ^ 41 + 3 / 2 ^ 1075)) + (M + R * (11 / 10) +
          (0 + (R / 2 ^ 41 + 3 / 2 ^ 1075))) / 2 ^ 53 + 1 / 2 ^ 1075 =
          R * (1 / 2 ^ 41 + (11 / 10 + 1 / 2 ^ 41) / 2 ^ 53) + M / 2 ^ 53 +
          (3 + 3 / 2 ^ 53 + 1) * (1 / 2 ^ 1075) := by ring
      rw [e1]
      have e2 : (1 / 2 ^ 41 + (11 / 10 + 1 / 2 ^ 41) / 2 ^ 53 : ℝ) ≤ 1 / 10 ^ 11 := by norm_num
      have e3 : (3 + 3 / 2 ^ 53 + 1 : ℝ) ≤ 8 := by norm_num
      have e4 := mul_le_mul_of_nonneg_left e2 hd
      have e5 := mul_le_mul_of_nonneg_right e3 (show (0 : ℝ) ≤ 1 / 2 ^ 1075 by positivity)
      have e6 : (8 : ℝ) * (1 / 2 ^ 1075) = 1 / 2 ^ 1072 := by norm_num
      linarith) (by
      have : R / 10 ^ 11 ≤ R := div_le_self hd (by norm_num)
      have : M / 2 ^ 53 ≤ M := div_le_self hM0 (by norm_num)
      have : (1 : ℝ) / 2 ^ 1072 ≤ 2 ^ 1000 := by norm_num
      linarith)
    refine ⟨q3.fin, max 0 (min u.toR 1), le_max_left _ _,
      max_le (by norm_num) (min_le_right _ _), ?_, ?_⟩
    · rw [abs_le]; constructor <;> linarith
    · have e1 := q3.err
      set y := bez e.o.y.toR e.i.y.toR u.toR with hyd
      set y' := bez e.o.y.toR e.i.y.toR (max 0 (min u.toR 1)) with hyd'
      have e2 : |(w.toR - v.toR) * (y' - y)| ≤ R * (4 / 10 ^ 11) := by
        rw [abs_mul]; exact mul_le_mul le_rfl cy (abs_nonneg _) hd
      have e3 := abs_sub ((v +. (w -. v) *. cubicEvalY e.o.y e.i.y u : F64).toR -
        (v.toR + (w.toR - v.toR) * y))
        ((w.toR - v.toR) * (y' - y))
      refine le_trans (le_of_eq ?_) (e3.trans ?_)
      · congr 1; ring
      · have : R / 10 ^ 10 = R / 10 ^ 11 + R * (4 / 10 ^ 11) + R * (5 / 10 ^ 11) := by ring
        have : 0 ≤ R * (5 / 10 ^ 11) := by positivity
        linarith

/-- The value between two keyframes. -/
theorem evaluateOr_between {T : Type} [Tween F64 T] {a : Animated F64 T}
    (hst : SortedTimes a.times) (hlen : a.values.length = a.times.length)
    {k : Nat} {t0 t1 : Time F64} {v0 v1 : T}
    (h0 : a.times[k]? = some t0) (h1 : a.times[k + 1]? = some t1)
    (hv0 : a.values[k]? = some v0) (hv1 : a.values[k + 1]? = some v1)
    (b0 : t0.frame.isFin = true) (b1 : t1.frame.isFin = true) {frame : F64}
    (hf0 : (t0.frame <=. frame) = true) (hf1 : (frame <. t1.frame) = true) (d : T) :
    a.evaluateOr frame d = Tween.tween v0 v1 (mixWeight t0 t1 frame) t0.easing ∧
    frame.isFin = true := by
  constructor
  · have hse := search_in hst frame k t0 t1 h0 h1 hf0 hf1
    have hk := (List.getElem?_eq_some_iff.mp h1).1
    unfold Animated.evaluateOr
    rw [evaluateInner_eq a frame k (k + 1) t0 t1 (by rw [hse]; omega) (by omega) h0 h1, hv0, hv1]
    rfl
  · obtain ⟨s1, x1, e1, q1⟩ := isFin_iff.mp b0
    obtain ⟨s2, x2, e2, q2⟩ := isFin_iff.mp b1
    rw [q1] at hf0
    rw [q2] at hf1
    cases frame with
    | fin s a h => rfl
    | nan => simp [FloatOps.lt, F64.lt] at hf1
    | inf s => cases s <;> simp [FloatOps.le, FloatOps.lt, F64.le, F64.lt, F64.beq] at hf0 hf1

theorem forall₂_getElem?_right {α β : Type} {R : α → β → Prop} {l : List α} {l' : List β}
    (h : List.Forall₂ R l l') {i : Nat} {a : α} (ha : l[i]? = some a) :
    ∃ b, l'[i]? = some b ∧ R a b := by
  induction h generalizing i with
  | nil => simp at ha
  | cons h _ ih =>
    cases i with
    | zero => cases Option.some.inj ha; exact ⟨_, rfl, h⟩
    | succ i => exact ih (i := i) ha

theorem forall₂_pairwise {α β : Type} {R : α → β → Prop} {P : α → α → Prop} {l : List α}
    {l' : List β} (h : List.Forall₂ R l l') (hp : l.Pairwise P) :
    l'.Pairwise fun x y => ∃ a b, R a x ∧ R b y ∧ a ∈ l ∧ b ∈ l ∧ P a b := by
  rw [List.pairwise_iff_getElem]
  intro i j hi hj hij
  have hl := h.length_eq
  refine ⟨l[i], l[j], ?_, ?_, List.getElem_mem _, List.getElem_mem _,
    List.pairwise_iff_getElem.mp hp i j (by omega) (by omega) hij⟩
  · exact List.Forall₂.get h (by omega) hi
  · exact List.Forall₂.get h (by omega) hj

/-- A number in the unit interval next to a real number in it. -/
theorem exists_unit {x : ℝ} (h0 : 0 ≤ x) (h1 : x ≤ 1) :
    ∃ r : F64, r.Between 0 1 ∧ |r.toR - x| ≤ 1 / 2 ^ 52 := by
  obtain ⟨y, hy⟩ := exists_near x (B := 1) (E := 1 / 2 ^ 52) (by rw [abs_of_nonneg h0]; exact h1)
    (by norm_num) (by norm_num) (by norm_num)
  have e := abs_le.mp hy.err
  rcases lt_or_ge y.toR 0 with h | h
  · refine ⟨lit 0, near_lit0.inside (by norm_num) (by norm_num), ?_⟩
    rw [lit_toR0, abs_le]; constructor <;> linarith
  · rcases lt_or_ge 1 y.toR with h' | h'
    · refine ⟨lit 1, near_lit1.inside (by norm_num) (by norm_num), ?_⟩
      rw [lit_toR1, abs_le]; constructor <;> linarith
    · exact ⟨y, ⟨hy.fin, h, h'⟩, hy.err⟩

open Classical in
/-- A solver that is accurate: a number next to a root in the unit interval, if there is one. -/
@[instance_reducible] noncomputable def accurateKurbo : Kurbo F64 where
  solveCubic c0 c1 c2 c3 :=
    if h : ∃ r : F64, r.Between 0 1 ∧ ∃ x, 0 ≤ x ∧ x ≤ 1 ∧ cubicAt c0 c1 c2 c3 x = 0 ∧
      |r.toR - x| ≤ 1 / 2 ^ 52 then [h.choose] else []
  ellipsePath _ _ := []
  roundedRectPath _ _ _ _ _ := []
  arclen _ := lit 0
  invArclen _ x := x
  subsegment p _ _ := p

theorem accurateKurbo_accurate : @SolverWithin accurateKurbo (1 / 2 ^ 40) := by
  let _ := accurateKurbo
  constructor
  · intro c0 c1 c2 c3 r b0 b1 b2 b3 hr hb
    simp only [Kurbo.solveCubic] at hr
    split at hr
    · rename_i h
      rw [List.mem_singleton] at hr
      subst hr
      obtain ⟨⟨-, r0, r1⟩, x, hx0, hx1, hx, hrx⟩ := h.choose_spec
      generalize h.choose.toR = y at *
      have e : cubicAt c0 c1 c2 c3 y = (y - x) *
          (c1.toR + c2.toR * (y + x) + c3.toR * (y ^ 2 + y * x + x ^ 2)) := by
        have : cubicAt c0 c1 c2 c3 y = cubicAt c0 c1 c2 c3 y - cubicAt c0 c1 c2 c3 x := by
          rw [hx, sub_zero]
        rw [this]; unfold cubicAt; ring
      rw [e, abs_mul]
      have f1 := abs_le.mpr b1.2
      have f2 : |c2.toR * (y + x)| ≤ 8 * 2 := by
        rw [abs_mul]
        exact mul_le_mul (abs_le.mpr b2.2) (by rw [abs_of_nonneg] <;> linarith) (abs_nonneg _)
          (by norm_num)
      have f3 : |c3.toR * (y ^ 2 + y * x + x ^ 2)| ≤ 8 * 3 := by
        rw [abs_mul]
        refine mul_le_mul (abs_le.mpr b3.2) ?_ (abs_nonneg _) (by norm_num)
        rw [abs_of_nonneg (by positivity)]
        nlinarith
      have f4 := abs_add_three c1.toR (c2.toR * (y + x)) (c3.toR * (y ^ 2 + y * x + x ^ 2))
      calc _ ≤ 1 / 2 ^ 52 * 48 := mul_le_mul hrx (by linarith) (abs_nonneg _) (by positivity)
        _ ≤ 1 / 2 ^ 40 := by norm_num
    · cases hr
  · intro c0 c1 c2 c3 x _ _ _ _ hx0 hx1 hx
    obtain ⟨r, hr, hrx⟩ := exists_unit hx0 hx1
    have h : ∃ r : F64, r.Between 0 1 ∧ ∃ x, 0 ≤ x ∧ x ≤ 1 ∧ cubicAt c0 c1 c2 c3 x = 0 ∧
      |r.toR - x| ≤ 1 / 2 ^ 52 := ⟨r, hr, x, hx0, hx1, hx, hrx⟩
    left
    refine ⟨h.choose, ?_, h.choose_spec.1⟩
    simp only [Kurbo.solveCubic]
    rw [dif_pos h]
    exact List.mem_singleton.mpr rfl

end Velato
