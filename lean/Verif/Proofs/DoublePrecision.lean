import Verif.Spec.DoublePrecision
import Verif.Proofs.Easing
import Verif.Props.ImportValues
import Verif.Props.Keyframes

/-!
# Interpolation in double precision: helper lemmas
-/

set_option exponentiation.threshold 2000

namespace Velato
open FloatOps (lit)
open F64

theorem F64.Between.near {x : F64} {lo hi : ℝ} (h : x.Between lo hi) : Near x x.toR 0 := .self h.1

theorem fmax_cases (a b : F64) : fmax a b = a ∨ fmax a b = b := by
  unfold fmax; split_ifs <;> simp

theorem F64.abs_near {x : F64} {r e B : ℝ} (h : Near x r e) (hB : |r| ≤ B) :
    (FloatOps.abs x).isFin = true ∧ (FloatOps.abs x).toR ≤ B + e := by
  have h1 := h.abs_le hB
  obtain ⟨s, a, ha, rfl⟩ := isFin_iff.mp h.fin
  refine ⟨rfl, ?_⟩
  have h0 := isRepr_nonneg ha.1
  have : (FloatOps.abs (F64.fin s a ha)).toR = |(F64.fin s a ha).toR| := by
    show ((F64.toQ (F64.fin false a ha) : ℚ) : ℝ) = |((F64.toQ (F64.fin s a ha) : ℚ) : ℝ)|
    have h0' : (0 : ℝ) ≤ a := by exact_mod_cast h0
    cases s <;> simp [F64.toQ, abs_of_nonneg h0']
  rw [this]; exact h1

theorem toR_le {x y : F64} (hx : x.isFin = true) (hy : y.isFin = true) (h : (x <=. y) = true) :
    x.toR ≤ y.toR := by
  have := (le_fin hx hy).mp h
  unfold toR
  exact_mod_cast this

theorem near_lit0 : Near (lit 0 : F64) 0 0 := by simpa using near_lit (q := 0) (n := 0) (by norm_num) (by norm_num)
theorem near_lit1 : Near (lit 1 : F64) 1 0 := by simpa using near_lit (q := 1) (n := 1) (by norm_num) (by norm_num)
theorem near_lit2 : Near (lit 2 : F64) 2 0 := by simpa using near_lit (q := 2) (n := 2) (by norm_num) (by norm_num)
theorem near_lit3 : Near (lit 3 : F64) 3 0 := by simpa using near_lit (q := 3) (n := 3) (by norm_num) (by norm_num)

theorem near_lit_eps : Near (lit (1 / 1000000000000) : F64) (1 / 10 ^ 12) (1 / 10 ^ 20) := by
  have h := near_of_rnd (x := (lit (1 / 1000000000000) : F64)) (q := 1 / 1000000000000)
    (fun h => ofRat_fin h) (r := 1 / 10 ^ 12) (D := 0) (B := 1) (E := 1 / 10 ^ 10)
    (by norm_num) (by rw [abs_le]; norm_num) (by norm_num) (by norm_num)
  refine near_of_rnd (x := (lit (1 / 1000000000000) : F64)) (q := 1 / 1000000000000)
    (fun h => ofRat_fin h) (D := 0) (B := 1 / 10 ^ 12) (by norm_num) (by rw [abs_le]; norm_num)
    (by norm_num) (by norm_num)

/-- The handles of an easing are in the unit square. -/
structure Easing.InUnitSquare64 (e : Easing F64) : Prop where
  ox : e.o.x.Between 0 1
  oy : e.o.y.Between 0 1
  ix : e.i.x.Between 0 1
  iy : e.i.y.Between 0 1

theorem Time.HandlesInUnitSquare.easing {t : Time F64} (h : t.HandlesInUnitSquare) :
    t.easing.InUnitSquare64 := by
  have b0 : (lit 0 : F64).Between 0 1 :=
    ⟨near_lit0.fin, by have := abs_le.mp near_lit0.err; constructor <;> linarith⟩
  have b1 : (lit 1 : F64).Between 0 1 :=
    ⟨near_lit1.fin, by have := abs_le.mp near_lit1.err; constructor <;> linarith⟩
  unfold Time.easing
  constructor
  · cases ho : t.outTangent with
    | none => exact b0
    | some o => exact (h o (.inl ho)).1
  · cases ho : t.outTangent with
    | none => exact b0
    | some o => exact (h o (.inl ho)).2
  · cases hi : t.inTangent with
    | none => exact b1
    | some i => exact (h i (.inr hi)).1
  · cases hi : t.inTangent with
    | none => exact b1
    | some i => exact (h i (.inr hi)).2

/-- Whatever the solver returns, the parameter on the easing curve is in the unit interval up to
`1e-11`. -/
theorem easeParam_between [Kurbo F64] (t : F64) {e : Easing F64} (he : e.InUnitSquare64) :
    (easeParam t e).Between (-(1 / 10 ^ 11)) (1 + 1 / 10 ^ 11) := by
  obtain ⟨hox, -, hix, -⟩ := he
  have n0 := near_lit0
  have n1 := near_lit1
  have n2 := near_lit2
  have n3 := near_lit3
  have hx1 := hox.near
  have hx2 := hix.near
  obtain ⟨-, a1, a2⟩ := hox
  obtain ⟨-, b1, b2⟩ := hix
  generalize e.o.x.toR = r1 at *
  generalize e.i.x.toR = r2 at *
  have c1 : Near (lit 3 *. (e.o.x -. lit 0)) (3 * (r1 - 0)) (1 / 2 ^ 40) := by
    have h := hx1.sub n0 (B := 1) (E := 1 / 2 ^ 50) (by rw [abs_le]; constructor <;> linarith)
      (by norm_num) (by norm_num)
    exact n3.mul h (R := 3) (S := 1) (by norm_num) (by rw [abs_le]; constructor <;> linarith)
      (by norm_num) (by norm_num)
  have c2 : Near (lit 3 *. (e.i.x -. lit 2 *. e.o.x +. lit 0)) (3 * (r2 - 2 * r1 + 0)) (1 / 2 ^ 40) := by
    have h := n2.mul hx1 (R := 2) (S := 1) (E := 1 / 2 ^ 50) (by norm_num)
      (by rw [abs_le]; constructor <;> linarith) (by norm_num) (by norm_num)
    have h := hx2.sub h (B := 2) (E := 1 / 2 ^ 48) (by rw [abs_le]; constructor <;> linarith)
      (by norm_num) (by norm_num)
    have h := h.add n0 (B := 2) (E := 1 / 2 ^ 46) (by rw [abs_le]; constructor <;> linarith)
      (by norm_num) (by norm_num)
    exact n3.mul h (R := 3) (S := 2) (by norm_num) (by rw [abs_le]; constructor <;> linarith)
      (by norm_num) (by norm_num)
  have c3 : Near (lit 1 -. lit 3 *. e.i.x +. lit 3 *. e.o.x -. lit 0)
      (1 - 3 * r2 + 3 * r1 - 0) (1 / 2 ^ 40) := by
    have k := n3.mul hx2 (R := 3) (S := 1) (E := 1 / 2 ^ 50) (by norm_num)
      (by rw [abs_le]; constructor <;> linarith) (by norm_num) (by norm_num)
    have k' := n3.mul hx1 (R := 3) (S := 1) (E := 1 / 2 ^ 50) (by norm_num)
      (by rw [abs_le]; constructor <;> linarith) (by norm_num) (by norm_num)
    have h := n1.sub k (B := 4) (E := 1 / 2 ^ 47) (by rw [abs_le]; constructor <;> linarith)
      (by norm_num) (by norm_num)
    have h := h.add k' (B := 4) (E := 1 / 2 ^ 45) (by rw [abs_le]; constructor <;> linarith)
      (by norm_num) (by norm_num)
    exact h.sub n0 (B := 4) (by rw [abs_le]; constructor <;> linarith) (by norm_num) (by norm_num)
  have d0 := F64.abs_near n0 (B := 0) (by norm_num)
  have d1 := F64.abs_near c1 (B := 3) (by rw [abs_le]; constructor <;> linarith)
  have d2 := F64.abs_near c2 (B := 6) (by rw [abs_le]; constructor <;> linarith)
  have d3 := F64.abs_near c3 (B := 4) (by rw [abs_le]; constructor <;> linarith)
  have d4 : (lit 1 : F64).isFin = true ∧ (lit 1 : F64).toR ≤ 7 :=
    ⟨n1.fin, by have := abs_le.mp n1.err; linarith⟩
  have nonneg : ∀ x : F64, 0 ≤ (FloatOps.abs x).toR := by
    intro x
    show (0 : ℝ) ≤ ((F64.toQ (F64.abs x) : ℚ) : ℝ)
    have : 0 ≤ F64.toQ (F64.abs x) := by
      cases x with
      | nan => simp [F64.abs, F64.toQ]
      | inf s => simp [F64.abs, F64.toQ]
      | fin s a h => simpa [F64.abs, F64.toQ] using isRepr_nonneg h.1
    exact_mod_cast this
  unfold easeParam
  dsimp only
  -- the largest coefficient
  have hm : ∀ m : F64, m = fmax (fmax (fmax (fmax (FloatOps.abs (lit 0 : F64))
      (FloatOps.abs (lit 3 *. (e.o.x -. lit 0))))
      (FloatOps.abs (lit 3 *. (e.i.x -. lit 2 *. e.o.x +. lit 0))))
      (FloatOps.abs (lit 1 -. lit 3 *. e.i.x +. lit 3 *. e.o.x -. lit 0))) (lit 1) →
      m.isFin = true ∧ 0 ≤ m.toR ∧ m.toR ≤ 7 := by
    intro m h
    have hp : (1 : ℝ) / 2 ^ 40 ≤ 1 := by norm_num
    rcases fmax_cases (fmax (fmax (fmax (FloatOps.abs (lit 0 : F64))
      (FloatOps.abs (lit 3 *. (e.o.x -. lit 0))))
      (FloatOps.abs (lit 3 *. (e.i.x -. lit 2 *. e.o.x +. lit 0))))
      (FloatOps.abs (lit 1 -. lit 3 *. e.i.x +. lit 3 *. e.o.x -. lit 0))) (lit 1) with q | q
    · rw [q] at h
      rcases fmax_cases (fmax (fmax (FloatOps.abs (lit 0 : F64))
        (FloatOps.abs (lit 3 *. (e.o.x -. lit 0))))
        (FloatOps.abs (lit 3 *. (e.i.x -. lit 2 *. e.o.x +. lit 0))))
        (FloatOps.abs (lit 1 -. lit 3 *. e.i.x +. lit 3 *. e.o.x -. lit 0)) with q | q
      · rw [q] at h
        rcases fmax_cases (fmax (FloatOps.abs (lit 0 : F64))
          (FloatOps.abs (lit 3 *. (e.o.x -. lit 0))))
          (FloatOps.abs (lit 3 *. (e.i.x -. lit 2 *. e.o.x +. lit 0))) with q | q
        · rw [q] at h
          rcases fmax_cases (FloatOps.abs (lit 0 : F64))
            (FloatOps.abs (lit 3 *. (e.o.x -. lit 0))) with q | q
          · rw [q] at h; rw [h]; exact ⟨d0.1, nonneg _, by linarith [d0.2]⟩
          · rw [q] at h; rw [h]; exact ⟨d1.1, nonneg _, by linarith [d1.2]⟩
        · rw [q] at h; rw [h]; exact ⟨d2.1, nonneg _, by linarith [d2.2]⟩
      · rw [q] at h; rw [h]; exact ⟨d3.1, nonneg _, by linarith [d3.2]⟩
    · rw [q] at h; rw [h]
      exact ⟨d4.1, by have := abs_le.mp n1.err; linarith, d4.2⟩
  obtain ⟨hmf, hm0, hm7⟩ := hm _ rfl
  generalize fmax (fmax (fmax (fmax (FloatOps.abs (lit 0 : F64))
      (FloatOps.abs (lit 3 *. (e.o.x -. lit 0))))
      (FloatOps.abs (lit 3 *. (e.i.x -. lit 2 *. e.o.x +. lit 0))))
      (FloatOps.abs (lit 1 -. lit 3 *. e.i.x +. lit 3 *. e.o.x -. lit 0))) (lit 1) = m at hmf hm0 hm7 ⊢
  have heps := near_lit_eps.mul (F64.Near.self hmf) (R := 1 / 10 ^ 12) (S := 7) (E := 1 / 10 ^ 18)
    (by rw [abs_le]; norm_num) (by rw [abs_le]; constructor <;> linarith) (by norm_num) (by norm_num)
  have heb : |1 / 10 ^ 12 * m.toR| ≤ 7 / 10 ^ 12 := by
    rw [abs_of_nonneg (by positivity)]
    linarith
  generalize (lit (1 / 1000000000000) : F64) *. m = eps at heps ⊢
  have hhi := n1.add heps (B := 2) (E := 1 / 10 ^ 14)
    (by
      have := abs_le.mp heb
      rw [abs_le]; constructor <;> linarith) (by norm_num) (by norm_num)
  have hlo := heps.neg
  cases hf : List.find? (rootInRange eps) (Kurbo.solveCubic (lit 0 -. t) (lit 3 *. (e.o.x -. lit 0))
      (lit 3 *. (e.i.x -. lit 2 *. e.o.x +. lit 0))
      (lit 1 -. lit 3 *. e.i.x +. lit 3 *. e.o.x -. lit 0)) with
  | some r =>
    dsimp only
    have hr := List.find?_some hf
    unfold rootInRange at hr
    rw [Bool.and_eq_true] at hr
    have hrf : r.isFin = true := by
      cases r with
      | fin s a h => rfl
      | nan => obtain ⟨h1, -⟩ := hr; revert h1; cases FloatOps.neg eps <;> simp [FloatOps.le, F64.le, F64.lt, F64.beq]
      | inf s =>
        obtain ⟨s1, a1, h1, e1⟩ := isFin_iff.mp hlo.fin
        obtain ⟨s2, a2, h2, e2⟩ := isFin_iff.mp hhi.fin
        rw [e1, e2] at hr
        obtain ⟨h1, h2⟩ := hr
        cases s <;> simp [FloatOps.le, F64.le, F64.lt, F64.beq] at h1 h2
    have g1 := toR_le hlo.fin hrf hr.1
    have g2 := toR_le hrf hhi.fin hr.2
    have e1 := abs_le.mp hlo.err
    have e2 := abs_le.mp hhi.err
    have e3 := abs_le.mp heb
    have p1 : (7 : ℝ) / 10 ^ 12 + 1 / 10 ^ 18 ≤ 1 / 10 ^ 11 := by norm_num
    have p2 : (7 : ℝ) / 10 ^ 12 + 1 / 10 ^ 14 ≤ 1 / 10 ^ 11 := by norm_num
    exact ⟨hrf, by linarith, by linarith⟩
  | none =>
    dsimp only
    have p : (0 : ℝ) ≤ 1 / 10 ^ 11 := by positivity
    split_ifs
    · exact ⟨n0.fin, by have := abs_le.mp n0.err; linarith, by have := abs_le.mp n0.err; linarith⟩
    · exact ⟨n1.fin, by have := abs_le.mp n1.err; linarith, by have := abs_le.mp n1.err; linarith⟩

/-- The height of the easing curve in double precision. -/
theorem cubicEvalY_near {y1 y2 u : F64} (h1 : y1.Between 0 1) (h2 : y2.Between 0 1)
    (hu : u.Between (-(1 / 10 ^ 11)) (1 + 1 / 10 ^ 11)) :
    Near (cubicEvalY y1 y2 u) (bez y1.toR y2.toR u.toR) (1 / 2 ^ 42) := by
  have n0 := near_lit0
  have n1 := near_lit1
  have n3 := near_lit3
  have k1 := h1.near
  have k2 := h2.near
  have k := hu.near
  obtain ⟨-, a1, a2⟩ := h1
  obtain ⟨-, b1, b2⟩ := h2
  obtain ⟨-, u1, u2⟩ := hu
  have p : (1 : ℝ) / 10 ^ 11 ≤ 1 / 100 := by norm_num
  have hU : |u.toR| ≤ 101 / 100 := by rw [abs_le]; constructor <;> linarith
  have hMT : |1 - u.toR| ≤ 101 / 100 := by rw [abs_le]; constructor <;> linarith
  have hY1 : |y1.toR| ≤ 1 := by rw [abs_le]; constructor <;> linarith
  have hY2 : |y2.toR| ≤ 1 := by rw [abs_le]; constructor <;> linarith
  clear p u1 u2 a1 a2 b1 b2
  generalize y1.toR = r1 at *
  generalize y2.toR = r2 at *
  generalize u.toR = r at *
  have mul_le : ∀ {a b A B : ℝ}, |a| ≤ A → |b| ≤ B → |a * b| ≤ A * B := by
    intro a b A B ha hb
    rw [abs_mul]
    exact mul_le_mul ha hb (abs_nonneg _) ((abs_nonneg _).trans ha)
  have add_le : ∀ {a b A B : ℝ}, |a| ≤ A → |b| ≤ B → |a + b| ≤ A + B := by
    intro a b A B ha hb
    exact (abs_add_le _ _).trans (add_le_add ha hb)
  unfold cubicEvalY
  dsimp only
  have hmt := n1.sub k (B := 101 / 100) (E := 1 / 2 ^ 52) hMT (by norm_num) (by norm_num)
  generalize (lit 1 : F64) -. u = mt at *
  have q2 := hmt.mul hmt (R := 101 / 100) (S := 101 / 100) (E := 1 / 2 ^ 50) hMT hMT (by norm_num) (by norm_num)
  have B2 := mul_le hMT hMT
  have q3 := q2.mul hmt (E := 1 / 2 ^ 49) B2 hMT (by norm_num) (by norm_num)
  have B3 := mul_le B2 hMT
  have q4 := n0.mul q3 (R := 0) (E := 1 / 2 ^ 60) (by norm_num) B3 (by norm_num) (by norm_num)
  have q5 := q2.mul n3 (S := 3) (E := 1 / 2 ^ 48) B2 (by norm_num) (by norm_num) (by norm_num)
  have B5 := mul_le B2 (show |(3 : ℝ)| ≤ 3 by norm_num)
  have q6 := k1.mul q5 (E := 1 / 2 ^ 47) hY1 B5 (by norm_num) (by norm_num)
  have B6 := mul_le hY1 B5
  have q7 := hmt.mul n3 (S := 3) (E := 1 / 2 ^ 49) hMT (by norm_num) (by norm_num) (by norm_num)
  have B7 := mul_le hMT (show |(3 : ℝ)| ≤ 3 by norm_num)
  have q8 := k2.mul q7 (E := 1 / 2 ^ 48) hY2 B7 (by norm_num) (by norm_num)
  have B8 := mul_le hY2 B7
  have q9 := n1.mul k (R := 1) (E := 1 / 2 ^ 52) (by norm_num) hU (by norm_num) (by norm_num)
  have B9 := mul_le (show |(1 : ℝ)| ≤ 1 by norm_num) hU
  have q10 := q8.add q9 (E := 1 / 2 ^ 47) (add_le B8 B9) (by norm_num) (by norm_num)
  have B10 := add_le B8 B9
  have q11 := q10.mul k (E := 1 / 2 ^ 46) B10 hU (by norm_num) (by norm_num)
  have B11 := mul_le B10 hU
  have q12 := q6.add q11 (E := 1 / 2 ^ 45) (add_le B6 B11) (by norm_num) (by norm_num)
  have B12 := add_le B6 B11
  have q13 := q12.mul k (E := 1 / 2 ^ 44) B12 hU (by norm_num) (by norm_num)
  have B13 := mul_le B12 hU
  have q14 := q4.add q13 (B := 10) (E := 1 / 2 ^ 42)
    ((add_le (A := 0) (by norm_num) B13).trans (by norm_num)) (by norm_num) (by norm_num)
  have e : 0 * ((1 - r) * (1 - r) * (1 - r)) +
      (r1 * ((1 - r) * (1 - r) * 3) + (r2 * ((1 - r) * 3) + 1 * r) * r) * r = bez r1 r2 r := by
    unfold bez; ring
  rw [e] at q14
  exact q14

/-- Interpolation between two finite numbers in double precision. -/
theorem tweenScalar_between [Kurbo F64] {v w : F64} (t : F64) {e : Easing F64}
    (he : e.InUnitSquare64) {lo hi : ℝ} (hv : v.Between lo hi) (hw : w.Between lo hi) {M : ℝ}
    (hlo : |lo| ≤ M) (hhi : |hi| ≤ M) (hM : M ≤ 2 ^ 1000) :
    (tweenScalar v w t e).Between (lo - ((hi - lo) * (5 / 10 ^ 11) + M / 2 ^ 53 + 1 / 2 ^ 1072))
      (hi + ((hi - lo) * (5 / 10 ^ 11) + M / 2 ^ 53 + 1 / 2 ^ 1072)) := by
  have hd : 0 ≤ hi - lo := by linarith [hv.2.1, hv.2.2]
  have hM0 : 0 ≤ M := (abs_nonneg _).trans hlo
  have hτ : 0 ≤ (hi - lo) * (5 / 10 ^ 11) + M / 2 ^ 53 + 1 / 2 ^ 1072 := by positivity
  unfold tweenScalar
  split_ifs with h1 h2
  · exact ⟨hv.1, by linarith [hv.2.1], by linarith [hv.2.2]⟩
  · exact ⟨hw.1, by linarith [hw.2.1], by linarith [hw.2.2]⟩
  · dsimp only
    have hu := easeParam_between t he
    have hy := cubicEvalY_near he.oy he.iy hu
    obtain ⟨y1, y2⟩ := bez_ext he.oy.2 he.iy.2 hu.2.1 hu.2.2
    generalize cubicEvalY e.o.y e.i.y (easeParam t e) = y at hy ⊢
    generalize bez e.o.y.toR e.i.y.toR (easeParam t e).toR = b at hy y1 y2
    have kv := hv.near
    have kw := hw.near
    obtain ⟨-, v1, v2⟩ := hv
    obtain ⟨-, w1, w2⟩ := hw
    generalize v.toR = rv at *
    generalize w.toR = rw' at *
    have hR : |rw' - rv| ≤ hi - lo := by rw [abs_le]; constructor <;> linarith
    have hrv : |rv| ≤ M := by
      have := abs_le.mp hlo; have := abs_le.mp hhi
      rw [abs_le]; constructor <;> linarith
    have hRM : hi - lo ≤ 2 * M := by
      have := abs_le.mp hlo; have := abs_le.mp hhi; linarith
    have hb : |b| ≤ 11 / 10 := by
      have : (4 : ℝ) / 10 ^ 11 ≤ 1 / 10 := by norm_num
      rw [abs_le]; constructor <;> linarith
    set R := hi - lo with hRdef
    have pM : M ≤ 2 ^ 1000 := hM
    have p1000 : (2 : ℝ) ^ 1000 * 100 < 2 ^ 1024 := by norm_num
    -- the difference
    have q1 := kw.sub kv (E := R / 2 ^ 53 + 1 / 2 ^ 1075) hR (by linarith) (by
      have : R / 2 ^ 53 ≤ R := div_le_self hd (by norm_num)
      have : (1 : ℝ) / 2 ^ 1075 ≤ 2 ^ 1000 := by norm_num
      linarith)
    -- the product
    have q2 := q1.mul hy (E := R / 2 ^ 41 + 3 / 2 ^ 1075) hR hb (by
      have e1 : (R * (1 / 2 ^ 42) + 11 / 10 * (R / 2 ^ 53 + 1 / 2 ^ 1075) +
          (R / 2 ^ 53 + 1 / 2 ^ 1075) * (1 / 2 ^ 42)) +
        (R * (11 / 10) + (R * (1 / 2 ^ 42) + 11 / 10 * (R / 2 ^ 53 + 1 / 2 ^ 1075) +
          (R / 2 ^ 53 + 1 / 2 ^ 1075) * (1 / 2 ^ 42))) / 2 ^ 53 + 1 / 2 ^ 1075 =
        R * (1 / 2 ^ 42 + 11 / 10 / 2 ^ 53 + 1 / 2 ^ 53 / 2 ^ 42 + (11 / 10 + 1 / 2 ^ 42 +
          11 / 10 / 2 ^ 53 + 1 / 2 ^ 53 / 2 ^ 42) / 2 ^ 53) +
        (11 / 10 + 1 / 2 ^ 42 + (11 / 10 + 1 / 2 ^ 42) / 2 ^ 53 + 1) * (1 / 2 ^ 1075) := by ring
      rw [e1]
      have e2 : (1 / 2 ^ 42 + 11 / 10 / 2 ^ 53 + 1 / 2 ^ 53 / 2 ^ 42 + (11 / 10 + 1 / 2 ^ 42 +
          11 / 10 / 2 ^ 53 + 1 / 2 ^ 53 / 2 ^ 42) / 2 ^ 53 : ℝ) ≤ 1 / 2 ^ 41 := by norm_num
      have e3 : (11 / 10 + 1 / 2 ^ 42 + (11 / 10 + 1 / 2 ^ 42) / 2 ^ 53 + 1 : ℝ) ≤ 3 := by norm_num
      have e4 := mul_le_mul_of_nonneg_left e2 hd
      have e5 := mul_le_mul_of_nonneg_right e3 (show (0 : ℝ) ≤ 1 / 2 ^ 1075 by positivity)
      linarith) (by
      have : R / 2 ^ 41 ≤ R := div_le_self hd (by norm_num)
      have : (3 : ℝ) / 2 ^ 1075 ≤ 2 ^ 1000 := by norm_num
      linarith)
    have hprod : |(rw' - rv) * b| ≤ R * (11 / 10) := by
      rw [abs_mul]; exact mul_le_mul hR hb (abs_nonneg _) hd
    -- the sum
    have q3 := kv.add q2 (B := M + R * (11 / 10)) (E := R / 10 ^ 11 + M / 2 ^ 53 + 1 / 2 ^ 1072)
      ((abs_add_le _ _).trans (add_le_add hrv hprod)) (by
      have e1 : (0 + (R / 2 ^ 41 + 3 / 2 ^ 1075)) + (M + R * (11 / 10) +
          (0 + (R / 2 ^ 41 + 3 / 2 ^ 1075))) / 2 ^ 53 + 1 / 2 ^ 1075 =
          R * (1 / 2 ^ 41 + (11 / 10 + 1 / 2 ^ 41) / 2 ^ 53) + M / 2 ^ 53 +
          (3 + 3 / 2 ^ 53 + 1) * (1 / 2 ^ 1075) := by ring
      rw [e1]
      have e2 : (1 / 2 ^ 41 + (11 / 10 + 1 / 2 ^ 41) / 2 ^ 53 : ℝ) ≤ 1 / 10 ^ 11 := by norm_num
      have e3 : (3 + 3 / 2 ^ 53 + 1 : ℝ) ≤ 8 := by norm_num
      have e4 := mul_le_mul_of_nonneg_left e2 hd
      have e5 := mul_le_mul_of_nonneg_right e3 (show (0 : ℝ) ≤ 1 / 2 ^ 1075 by positivity)
      have e6 : (8 : ℝ) * (1 / 2 ^ 1075) = 1 / 2 ^ 1072 := by norm_num
      linarith) (by
      have : R / 10 ^ 11 ≤ R := div_le_self hd (by norm_num)
      have : M / 2 ^ 53 ≤ M := div_le_self hM0 (by norm_num)
      have : (1 : ℝ) / 2 ^ 1072 ≤ 2 ^ 1000 := by norm_num
      linarith)
    have hq := abs_le.mp q3.err
    -- the exact value
    have hx : lo - R * (4 / 10 ^ 11) ≤ rv + (rw' - rv) * b ∧ rv + (rw' - rv) * b ≤ hi + R * (4 / 10 ^ 11) := by
      have hR' := abs_le.mp hR
      set δ : ℝ := 4 / 10 ^ 11
      have hδ : 0 ≤ δ := by positivity
      rcases le_total rv rw' with h | h
      · constructor
        · nlinarith [mul_le_mul_of_nonneg_left y1 (sub_nonneg.mpr h)]
        · nlinarith [mul_le_mul_of_nonneg_left y2 (sub_nonneg.mpr h)]
      · constructor
        · nlinarith [mul_le_mul_of_nonneg_left y2 (sub_nonneg.mpr h)]
        · nlinarith [mul_le_mul_of_nonneg_left y1 (sub_nonneg.mpr h)]
    refine ⟨q3.fin, ?_, ?_⟩ <;> linarith [hq.1, hq.2, hx.1, hx.2]

theorem tweenScalar_overshoot [Kurbo F64] {v w : F64} (t : F64) {e : Easing F64}
    (he : e.InUnitSquare64) {lo hi M : ℝ} (hv : v.Between lo hi) (hw : w.Between lo hi)
    (hlo : |lo| ≤ M) (hhi : |hi| ≤ M) (hM : M ≤ 2 ^ 1000) :
    (tweenScalar v w t e).Between (lo - overshoot lo hi M) (hi + overshoot lo hi M) :=
  tweenScalar_between t he hv hw hlo hhi hM

/-- An animated value is a mix of two of its values with the easing of one of its keyframes. -/
theorem evaluateOr_mix {T : Type} [Tween F64 T] {P Q : T → Prop} {a : Animated F64 T}
    (hne : a.times ≠ []) (hlen : a.times.length ≤ a.values.length)
    (hh : ∀ t ∈ a.times, t.HandlesInUnitSquare) (hv : ∀ v ∈ a.values, P v)
    (hQ : ∀ v w t (e : Easing F64), P v → P w → e.InUnitSquare64 → Q (Tween.tween v w t e))
    (frame : F64) (d : T) : Q (a.evaluateOr frame d) := by
  rcases C01_total a frame d with ⟨h, -⟩ | ⟨k, k', t0, t1, h0, h1, -, he⟩
  · exact absurd h hne
  · have l0 := (List.getElem?_eq_some_iff.mp h0).1
    have l1 := (List.getElem?_eq_some_iff.mp h1).1
    rw [he, List.getElem?_eq_getElem (by omega), List.getElem?_eq_getElem (by omega)]
    exact hQ _ _ _ _ (hv _ (List.getElem_mem _)) (hv _ (List.getElem_mem _))
      (hh _ (List.mem_of_getElem? h0)).easing

theorem mem_numbers_of_axis {c : Nat} {k : Schema.KeyframeComponent F64} {x : F64}
    (h : k.axis c = some x) : x ∈ k.numbers := by
  cases k with
  | singleValue y => simp [Schema.KeyframeComponent.axis] at h; simp [Schema.KeyframeComponent.numbers, h]
  | arrayOfValues xs => exact List.mem_of_getElem? h

theorem mem_numbers_of_component {k : Schema.KeyframeComponent F64} {x : F64}
    (h : ComponentOf k x) : x ∈ k.numbers := by
  rcases h with rfl | rfl <;> simp [Schema.KeyframeComponent.numbers]

theorem EasedTimeOf.unit {k : Schema.KeyframeBase F64} {t : Time F64} (h : EasedTimeOf k t)
    (hk : k.HandlesInUnitSquare) : t.HandlesInUnitSquare := by
  obtain ⟨-, hi, ho⟩ := h
  rintro e (h | h)
  · rw [h] at ho
    cases hc : k.outTangent with
    | none => rw [hc] at ho; exact ho.elim
    | some h' =>
      rw [hc] at ho
      have := hk h' (.inl hc)
      exact ⟨this.1 _ (mem_numbers_of_component ho.1), this.2 _ (mem_numbers_of_component ho.2)⟩
  · rw [h] at hi
    cases hc : k.inTangent with
    | none => rw [hc] at hi; exact hi.elim
    | some h' =>
      rw [hc] at hi
      have := hk h' (.inr hc)
      exact ⟨this.1 _ (mem_numbers_of_component hi.1), this.2 _ (mem_numbers_of_component hi.2)⟩

theorem AxisTimeOf.unit {c : Nat} {k : Schema.KeyframeBase F64} {t : Time F64}
    (h : AxisTimeOf c k t) (hk : k.HandlesInUnitSquare) : t.HandlesInUnitSquare := by
  obtain ⟨-, i, o, ⟨hi, h1, h2, h3⟩, ⟨ho, h4, h5, h6⟩, e1, e2⟩ := h
  rintro e (h | h)
  · rw [e2] at h; cases h
    have := hk ho (.inl h4)
    exact ⟨this.1 _ (mem_numbers_of_axis h5), this.2 _ (mem_numbers_of_axis h6)⟩
  · rw [e1] at h; cases h
    have := hk hi (.inr h1)
    exact ⟨this.1 _ (mem_numbers_of_axis h2), this.2 _ (mem_numbers_of_axis h3)⟩

theorem FromKeyframes.unit {K V : Type} {base : K → Schema.KeyframeBase F64} {R : K → V → Prop}
    {P : V → Prop} {ks : List K} {ts : List (Time F64)} {vs : List V}
    (h : FromKeyframes base R ks ts vs) (hk : ∀ k ∈ ks, (base k).HandlesInUnitSquare)
    (hP : ∀ k ∈ ks, ∀ v, R k v → P v) :
    ts.length = vs.length ∧ (ks ≠ [] → ts ≠ []) ∧ (∀ t ∈ ts, t.HandlesInUnitSquare) ∧
      ∀ v ∈ vs, P v := by
  induction h with
  | nil => simp
  | @plain k ks t ts v vs h hv hs ih =>
    obtain ⟨i1, i2, i3, i4⟩ := ih (fun k hk' => hk k (by simp [hk'])) fun k hk' => hP k (by simp [hk'])
    refine ⟨by simp [i1], by simp, ?_, ?_⟩
    · intro t' ht'
      rcases List.mem_cons.mp ht' with rfl | ht'
      · rintro e (h' | h')
        · rw [h.2.2.1] at h'; cases h'
        · rw [h.2.1] at h'; cases h'
      · exact i3 _ ht'
    · simpa using ⟨hP k (by simp) v hv, i4⟩
  | @once k ks t ts v vs h h1 hv hs ih =>
    obtain ⟨i1, i2, i3, i4⟩ := ih (fun k hk' => hk k (by simp [hk'])) fun k hk' => hP k (by simp [hk'])
    refine ⟨by simp [i1], by simp, ?_, ?_⟩
    · simpa using ⟨h.unit (hk k (by simp)), i3⟩
    · simpa using ⟨hP k (by simp) v hv, i4⟩
  | @twice k ks t t' ts v v' vs h h' h2 hv hv' hs ih =>
    obtain ⟨i1, i2, i3, i4⟩ := ih (fun k hk' => hk k (by simp [hk'])) fun k hk' => hP k (by simp [hk'])
    refine ⟨by simp [i1], by simp, ?_, ?_⟩
    · simpa using ⟨h.unit (hk k (by simp)), h'.unit (hk k (by simp)), i3⟩
    · simpa using ⟨hP k (by simp) v hv, hP k (by simp) v' hv', i4⟩

/-- Rounding a colour channel to single precision. -/
theorem toF32_channel {x : F64} {lo : ℝ} (hlo : lo = 0 ∨ lo = -(1 / 10 ^ 10))
    (h : x.Between lo (1 + 1 / 10 ^ 10)) :
    (FloatOps.toF32 x).Between (2 * lo) 1 := by
  obtain ⟨hf, h1, h2⟩ := h
  obtain ⟨s, a, ha, rfl⟩ := isFin_iff.mp hf
  have h0 := isRepr_nonneg ha.1
  have hm0 := roundMag_nonneg fmt32 a
  have key : ∀ q : ℚ, |q| ≤ 1 → (ofRat s q).isFin = true ∧ (ofRat s q).toQ = rnd q := by
    intro q hq
    apply ofRat_fin
    rw [abs_rnd]
    refine lt_of_le_of_lt (roundMag_mono hq) ?_
    rw [roundMag_of_repr (by simpa using repr_natCast (f := fmt64) (n := 1) (by decide) (by decide))]
    unfold maxMag; norm_num
  have one : rnd 1 = 1 := by decide +kernel
  have q1 : roundMag fmt32 (1 + 1 / 10 ^ 10) = 1 := by decide +kernel
  have q2 : roundMag fmt32 (1 / 10 ^ 10) ≤ 3 / 2 / 10 ^ 10 := by decide +kernel
  have q3 : rnd (3 / 2 / 10 ^ 10) ≤ 2 / 10 ^ 10 := by decide +kernel
  cases s with
  | false =>
    have ha1 : a ≤ 1 + 1 / 10 ^ 10 := by
      have : ((a : ℚ) : ℝ) ≤ ((1 + 1 / 10 ^ 10 : ℚ) : ℝ) := by
        push_cast; simpa [F64.toR, F64.toQ] using h2
      exact_mod_cast this
    have hm : roundMag fmt32 a ≤ 1 := q1 ▸ roundMag_mono ha1
    have e : FloatOps.toF32 (F64.fin false a ha) = ofRat false (roundMag fmt32 a) := by
      show F64.toF32 _ = _
      simp only [F64.toF32]
      rw [if_pos (lt_of_le_of_lt hm (by norm_num))]; simp
    rw [e]
    obtain ⟨k1, k2⟩ := key (roundMag fmt32 a) (by rw [abs_of_nonneg hm0]; exact hm)
    have r0 : 0 ≤ rnd (roundMag fmt32 a) := rnd_zero ▸ rnd_mono hm0
    have r1 : rnd (roundMag fmt32 a) ≤ 1 := one ▸ rnd_mono hm
    refine ⟨k1, ?_, ?_⟩ <;> unfold F64.toR <;> rw [k2]
    · have : (0 : ℝ) ≤ (rnd (roundMag fmt32 a) : ℝ) := by exact_mod_cast r0
      rcases hlo with rfl | rfl <;> norm_num <;> linarith
    · exact_mod_cast r1
  | true =>
    have ha1 : (a : ℝ) ≤ -lo := by
      have : lo ≤ -(a : ℝ) := by simpa [F64.toR, F64.toQ] using h1
      linarith
    have ha2 : a ≤ 1 / 10 ^ 10 := by
      have : ((a : ℚ) : ℝ) ≤ ((1 / 10 ^ 10 : ℚ) : ℝ) := by
        push_cast
        rcases hlo with rfl | rfl
        · refine ha1.trans ?_; norm_num
        · simpa using ha1
      exact_mod_cast this
    have hm : roundMag fmt32 a ≤ 3 / 2 / 10 ^ 10 := (roundMag_mono ha2).trans q2
    have e : FloatOps.toF32 (F64.fin true a ha) = ofRat true (-(roundMag fmt32 a)) := by
      show F64.toF32 _ = _
      simp only [F64.toF32]
      rw [if_pos (lt_of_le_of_lt hm (by norm_num))]; simp
    rw [e]
    obtain ⟨k1, k2⟩ := key (-(roundMag fmt32 a)) (by
      rw [abs_neg, abs_of_nonneg hm0]; exact hm.trans (by norm_num))
    have r0 : 0 ≤ rnd (roundMag fmt32 a) := rnd_zero ▸ rnd_mono hm0
    have r1 : rnd (roundMag fmt32 a) ≤ 2 / 10 ^ 10 := (rnd_mono hm).trans q3
    refine ⟨k1, ?_, ?_⟩ <;> unfold F64.toR <;> rw [k2, rnd_neg]
    · rcases hlo with rfl | rfl
      · have : a = 0 := le_antisymm (by exact_mod_cast (by simpa using ha1 : (a : ℝ) ≤ 0)) h0
        subst this
        simp [roundMag_zero, rnd_zero]
      · have : ((rnd (roundMag fmt32 a) : ℚ) : ℝ) ≤ ((2 / 10 ^ 10 : ℚ) : ℝ) := by exact_mod_cast r1
        push_cast at this ⊢
        linarith
    · have : (0 : ℝ) ≤ (rnd (roundMag fmt32 a) : ℝ) := by exact_mod_cast r0
      push_cast
      linarith

theorem forall₂_mem_right {α β : Type} {R : α → β → Prop} {l : List α} {l' : List β}
    (h : List.Forall₂ R l l') {b : β} (hb : b ∈ l') : ∃ a ∈ l, R a b := by
  induction h with
  | nil => simp at hb
  | cons h _ ih =>
    rcases List.mem_cons.mp hb with rfl | hb
    · exact ⟨_, by simp, h⟩
    · obtain ⟨a, ha, hr⟩ := ih hb
      exact ⟨a, by simp [ha], hr⟩

theorem PairBetween.point {xlo xhi ylo yhi : ℝ} {xs : List F64} (h : PairBetween xlo xhi ylo yhi xs)
    {v : P2 F64} (hv : PointOf xs v) : v.x.Between xlo xhi ∧ v.y.Between ylo yhi := by
  obtain ⟨x, y, rest, rfl, hx, hy⟩ := h
  rcases hv with ⟨x', y', rest', e, rfl⟩ | ⟨h, -⟩
  · cases e; exact ⟨hx, hy⟩
  · simp at h

theorem between_overshoot {x : F64} {lo hi M : ℝ} (h : x.Between lo hi) (hM : |lo| ≤ M) :
    x.Between (lo - Velato.overshoot lo hi M) (hi + Velato.overshoot lo hi M) := by
  have h1 : 0 ≤ hi - lo := by linarith [h.2.1, h.2.2]
  have h2 : 0 ≤ M := (abs_nonneg _).trans hM
  have h3 : 0 ≤ Velato.overshoot lo hi M := by unfold Velato.overshoot; positivity
  exact ⟨h.1, by linarith [h.2.1], by linarith [h.2.2]⟩

theorem vectors_between [Kurbo F64] {K : Type} {base : K → Schema.KeyframeBase F64}
    {val : K → List F64} {ks : List K} {ts : List (Time F64)} {vs : List (P2 F64)}
    {xlo xhi ylo yhi M : ℝ} (hf : FromKeyframes base (fun k v => PointOf (val k) v) ks ts vs)
    (hne : ks ≠ []) (hh : ∀ k ∈ ks, (base k).HandlesInUnitSquare)
    (hv : ∀ k ∈ ks, PairBetween xlo xhi ylo yhi (val k))
    (h1 : |xlo| ≤ M) (h2 : |xhi| ≤ M) (h3 : |ylo| ≤ M) (h4 : |yhi| ≤ M) (hM : M ≤ 2 ^ 1000)
    (frame : F64) (d : P2 F64) :
    ((Value.animated ⟨ts, vs⟩ : Value F64 (P2 F64)).evaluateOr frame d).x.Between
      (xlo - overshoot xlo xhi M) (xhi + overshoot xlo xhi M) ∧
    ((Value.animated ⟨ts, vs⟩ : Value F64 (P2 F64)).evaluateOr frame d).y.Between
      (ylo - overshoot ylo yhi M) (yhi + overshoot ylo yhi M) := by
  obtain ⟨i1, i2, i3, i4⟩ := hf.unit hh (fun k hk v hp => (hv k hk).point hp)
  exact evaluateOr_mix (a := ⟨ts, vs⟩) (i2 hne) i1.le i3 i4
    (Q := fun v => v.x.Between (xlo - overshoot xlo xhi M) (xhi + overshoot xlo xhi M) ∧
      v.y.Between (ylo - overshoot ylo yhi M) (yhi + overshoot ylo yhi M))
    (fun v w t e hv hw he => ⟨tweenScalar_overshoot t he hv.1 hw.1 h1 h2 hM,
      tweenScalar_overshoot t he hv.2 hw.2 h3 h4 hM⟩) frame d

theorem lit_one_between : (lit 1 : F64).Between 1 1 :=
  ⟨near_lit1.fin, by have := abs_le.mp near_lit1.err; constructor <;> linarith⟩

theorem ColorOf.unit {xs : List F64} {c : Color F64} (h : ColorOf xs c)
    (hx : ∀ x ∈ xs, x.Between 0 1) :
    c.r.Between 0 1 ∧ c.g.Between 0 1 ∧ c.b.Between 0 1 ∧ c.a.Between 1 1 := by
  have w : ∀ {x : F64}, x.Between 0 1 → (FloatOps.toF32 x).Between 0 1 := fun {x} h => by
    have := toF32_channel (x := x) (.inl rfl) ⟨h.1, h.2.1, h.2.2.trans (by norm_num)⟩
    simpa using this
  have z : (lit 0 : F64).Between 0 1 :=
    ⟨near_lit0.fin, by have := abs_le.mp near_lit0.err; constructor <;> linarith⟩
  rcases h with ⟨r, g, b, rest, rfl, rfl⟩ | ⟨-, rfl⟩
  · exact ⟨w (hx r (by simp)), w (hx g (by simp)), w (hx b (by simp)), lit_one_between⟩
  · exact ⟨w z, w z, w z, lit_one_between⟩

/-- Rounding an opaque alpha to single precision. -/
theorem toF32_opaque {x : F64} (h : x.Between (1 - 1 / 10 ^ 10) (1 + 1 / 10 ^ 10)) :
    (FloatOps.toF32 x).Between 1 1 := by
  obtain ⟨hf, h1, h2⟩ := h
  obtain ⟨s, a, ha, rfl⟩ := isFin_iff.mp hf
  have h0 := isRepr_nonneg ha.1
  cases s with
  | true =>
    have : 1 - 1 / 10 ^ 10 ≤ -(a : ℝ) := by simpa [F64.toR, F64.toQ] using h1
    have : (0 : ℝ) ≤ a := by exact_mod_cast h0
    have : (0 : ℝ) < 1 - 1 / 10 ^ 10 := by norm_num
    linarith
  | false =>
    have ha1 : 1 - 1 / 10 ^ 10 ≤ a := by
      have : ((1 - 1 / 10 ^ 10 : ℚ) : ℝ) ≤ ((a : ℚ) : ℝ) := by
        push_cast; simpa [F64.toR, F64.toQ] using h1
      exact_mod_cast this
    have ha2 : a ≤ 1 + 1 / 10 ^ 10 := by
      have : ((a : ℚ) : ℝ) ≤ ((1 + 1 / 10 ^ 10 : ℚ) : ℝ) := by
        push_cast; simpa [F64.toR, F64.toQ] using h2
      exact_mod_cast this
    have q1 : roundMag fmt32 (1 + 1 / 10 ^ 10) = 1 := by decide +kernel
    have q2 : roundMag fmt32 (1 - 1 / 10 ^ 10) = 1 := by decide +kernel
    have hm : roundMag fmt32 a = 1 := le_antisymm (q1 ▸ roundMag_mono ha2) (q2 ▸ roundMag_mono ha1)
    have e : FloatOps.toF32 (F64.fin false a ha) = lit 1 := by
      show F64.toF32 _ = F64.ofRat false 1
      simp only [F64.toF32]
      rw [hm, if_pos (by norm_num)]; simp
    rw [e]
    exact lit_one_between

theorem overshoot_unit {lo : ℝ} (h0 : 0 ≤ lo) : overshoot lo 1 1 ≤ 1 / 10 ^ 10 := by
  unfold overshoot
  have : (1 - lo) * (5 / 10 ^ 11) ≤ 5 / 10 ^ 11 := by nlinarith
  have : (1 : ℝ) / 2 ^ 53 + 1 / 2 ^ 1072 ≤ 5 / 10 ^ 11 := by norm_num
  have : (5 : ℝ) / 10 ^ 11 + 5 / 10 ^ 11 = 1 / 10 ^ 10 := by norm_num
  linarith

theorem tweenColor_unit [Kurbo F64] {v w : Color F64} (t : F64) {e : Easing F64}
    (he : e.InUnitSquare64)
    (hv : v.r.Between 0 1 ∧ v.g.Between 0 1 ∧ v.b.Between 0 1 ∧ v.a.Between 1 1)
    (hw : w.r.Between 0 1 ∧ w.g.Between 0 1 ∧ w.b.Between 0 1 ∧ w.a.Between 1 1) :
    (Tween.tween v w t e : Color F64).r.Between (-(2 / 10 ^ 10)) 1 ∧
    (Tween.tween v w t e : Color F64).g.Between (-(2 / 10 ^ 10)) 1 ∧
    (Tween.tween v w t e : Color F64).b.Between (-(2 / 10 ^ 10)) 1 ∧
    (Tween.tween v w t e : Color F64).a.Between 1 1 := by
  have key : ∀ {x y : F64}, x.Between 0 1 → y.Between 0 1 →
      (FloatOps.toF32 (tweenScalar x y t e)).Between (-(2 / 10 ^ 10)) 1 := by
    intro x y hx hy
    have h := tweenScalar_overshoot t he hx hy (M := 1) (by simp) (by simp) (by norm_num)
    have h' := overshoot_unit (le_refl 0)
    have := toF32_channel (x := tweenScalar x y t e) (.inr rfl)
      ⟨h.1, by linarith [h.2.1], by linarith [h.2.2]⟩
    have e : (2 : ℝ) * -(1 / 10 ^ 10) = -(2 / 10 ^ 10) := by ring
    rwa [e] at this
  refine ⟨key hv.1 hw.1, key hv.2.1 hw.2.1, key hv.2.2.1 hw.2.2.1, ?_⟩
  have h := tweenScalar_overshoot t he hv.2.2.2 hw.2.2.2 (M := 1) (by simp) (by simp) (by norm_num)
  have h' := overshoot_unit (zero_le_one (α := ℝ))
  exact toF32_opaque ⟨h.1, by linarith [h.2.1], by linarith [h.2.2]⟩

theorem lit_between {q : ℚ} {n : ℕ} (hn : n < 2 ^ 53) (h : 0 ≤ q ∧ q ≤ n) :
    (lit q : F64).Between 0 n := by
  have b : |rnd q| < maxMag := by
    rw [abs_rnd, abs_of_nonneg h.1]
    refine lt_of_le_of_lt (roundMag_mono h.2) ?_
    rw [roundMag_of_repr (by simpa using repr_natCast (f := fmt64) (n := n) hn (by decide))]
    exact lt_trans (by exact_mod_cast hn) (by unfold maxMag; norm_num : ((2 : ℚ) ^ 53) < maxMag)
  obtain ⟨h1, h2⟩ := ofRat_fin (s := false) b
  have r0 : 0 ≤ rnd q := rnd_zero ▸ rnd_mono h.1
  have r1 : rnd q ≤ n := by
    have := rnd_mono h.2
    rwa [rnd_of_exact (q := n) (by simpa [Exact] using repr_natCast (f := fmt64) hn (by decide))] at this
  refine ⟨h1, ?_, ?_⟩
  · show (0 : ℝ) ≤ (((ofRat false q).toQ : ℚ) : ℝ)
    rw [h2]; exact_mod_cast r0
  · show (((ofRat false q).toQ : ℚ) : ℝ) ≤ n
    rw [h2]; exact_mod_cast r1

end Velato
