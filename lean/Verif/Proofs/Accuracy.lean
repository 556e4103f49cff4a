import Verif.Spec.Accuracy
import Verif.Proofs.DoublePrecision
import Verif.Proofs.TransformFormula
import Mathlib.Analysis.SpecialFunctions.Trigonometric.Bounds
import Mathlib.Analysis.Real.Pi.Bounds

/-!
# Transforms in double precision: helper lemmas
-/

set_option exponentiation.threshold 2000

namespace Velato
open FloatOps (lit)
open F64

/-- Multiplication of matrices, error of an entry of the linear part. -/
noncomputable def mulErr (L1 e1 L2 e2 : ℝ) : ℝ :=
  (L1 * e2 + L2 * e1 + e1 * e2) + (L1 * L2 + (L1 * e2 + L2 * e1 + e1 * e2)) / 2 ^ 53 + 1 / 2 ^ 1075

/-- Error of a sum of numbers at most `B1` and `B2` with errors `e1` and `e2`. -/
noncomputable def addErr (B1 e1 B2 e2 : ℝ) : ℝ := (e1 + e2) + (B1 + B2 + (e1 + e2)) / 2 ^ 53 + 1 / 2 ^ 1075

/-- A number approximated up to an error, with a bound. -/
structure Approx (x : F64) (r B e : ℝ) : Prop where
  near : Near x r e
  bound : |r| ≤ B

theorem Approx.mul {x y : F64} {r s B1 B2 e1 e2 : ℝ} (hx : Approx x r B1 e1) (hy : Approx y s B2 e2)
    (hM : B1 * B2 + mulErr B1 e1 B2 e2 < 2 ^ 1024) :
    Approx (x *. y) (r * s) (B1 * B2) (mulErr B1 e1 B2 e2) :=
  ⟨hx.near.mul hy.near hx.bound hy.bound (le_refl _) hM, by
    rw [abs_mul]
    exact mul_le_mul hx.bound hy.bound (abs_nonneg _) ((abs_nonneg _).trans hx.bound)⟩

theorem Approx.add {x y : F64} {r s B1 B2 e1 e2 : ℝ} (hx : Approx x r B1 e1) (hy : Approx y s B2 e2)
    (hM : B1 + B2 + addErr B1 e1 B2 e2 < 2 ^ 1024) :
    Approx (x +. y) (r + s) (B1 + B2) (addErr B1 e1 B2 e2) := by
  have hb : |r + s| ≤ B1 + B2 := (abs_add_le _ _).trans (add_le_add hx.bound hy.bound)
  exact ⟨hx.near.add hy.near hb (le_refl _) hM, hb⟩

theorem Approx.mono {x : F64} {r B e B' e' : ℝ} (h : Approx x r B e) (hB : B ≤ B') (he : e ≤ e') :
    Approx x r B' e' := ⟨h.near.mono he, h.bound.trans hB⟩

theorem Approx.neg {x : F64} {r B e : ℝ} (h : Approx x r B e) : Approx (FloatOps.neg x) (-r) B e :=
  ⟨h.near.neg, by rw [abs_neg]; exact h.bound⟩

theorem Approx.err_nonneg {x : F64} {r B e : ℝ} (h : Approx x r B e) : 0 ≤ e :=
  (abs_nonneg _).trans h.near.err

theorem mulErr_nonneg {L1 e1 L2 e2 : ℝ} (h1 : 0 ≤ L1) (h2 : 0 ≤ e1) (h3 : 0 ≤ L2) (h4 : 0 ≤ e2) :
    0 ≤ mulErr L1 e1 L2 e2 := by unfold mulErr; positivity

theorem addErr_nonneg {L1 e1 L2 e2 : ℝ} (h1 : 0 ≤ L1) (h2 : 0 ≤ e1) (h3 : 0 ≤ L2) (h4 : 0 ≤ e2) :
    0 ≤ addErr L1 e1 L2 e2 := by unfold addErr; positivity

/-- A matrix approximated up to errors: on the diagonal `u`, off it `w`, of the translation `v`. -/
structure ApproxAff (m : Affine F64) (r : Affine ℝ) (L u K w T v : ℝ) : Prop where
  a : Approx m.a r.a L u
  b : Approx m.b r.b K w
  c : Approx m.c r.c K w
  d : Approx m.d r.d L u
  e : Approx m.e r.e T v
  f : Approx m.f r.f T v

/-- Errors of a sum of two products. -/
theorem Approx.mulAdd {x y z w : F64} {r1 r2 r3 r4 B1 e1 B2 e2 B3 e3 B4 e4 : ℝ}
    (hx : Approx x r1 B1 e1) (hy : Approx y r2 B2 e2) (hz : Approx z r3 B3 e3)
    (hw : Approx w r4 B4 e4) {A C E : ℝ} (hA : mulErr B1 e1 B2 e2 ≤ A) (hC : mulErr B3 e3 B4 e4 ≤ C)
    (hE : addErr (B1 * B2) A (B3 * B4) C ≤ E) (bA : A ≤ 1) (bC : C ≤ 1) (bE : E ≤ 1)
    (bB : B1 * B2 + B3 * B4 ≤ 2 ^ 1000) :
    Approx (x *. y +. z *. w) (r1 * r2 + r3 * r4) (B1 * B2 + B3 * B4) E := by
  have n : ∀ {x : F64} {r B e : ℝ}, Approx x r B e → 0 ≤ B := fun h => (abs_nonneg _).trans h.bound
  have p1 : 0 ≤ B1 * B2 := mul_nonneg (n hx) (n hy)
  have p2 : 0 ≤ B3 * B4 := mul_nonneg (n hz) (n hw)
  have b1023 : (2 : ℝ) ^ 1000 + 1 < 2 ^ 1024 := by norm_num
  have m1 := (hx.mul hy (by linarith)).mono (le_refl _) hA
  have m2 := (hz.mul hw (by linarith)).mono (le_refl _) hC
  exact (m1.add m2 (by linarith)).mono (le_refl _) hE

theorem ApproxAff.mul {m n : Affine F64} {r s : Affine ℝ} {L1 u1 K1 w1 T1 v1 L2 u2 K2 w2 T2 v2 : ℝ}
    (h : ApproxAff m r L1 u1 K1 w1 T1 v1) (k : ApproxAff n s L2 u2 K2 w2 T2 v2)
    {L u K w T v A B C D G H I : ℝ}
    (hL : L1 * L2 + K1 * K2 = L) (hK : K1 * L2 + L1 * K2 = K) (hT : L1 * T2 + K1 * T2 + T1 = T)
    (hA : mulErr L1 u1 L2 u2 ≤ A) (hB : mulErr K1 w1 K2 w2 ≤ B)
    (hC : mulErr K1 w1 L2 u2 ≤ C) (hD : mulErr L1 u1 K2 w2 ≤ D)
    (hG : mulErr L1 u1 T2 v2 ≤ G) (hH : mulErr K1 w1 T2 v2 ≤ H)
    (hI : addErr (L1 * T2) G (K1 * T2) H ≤ I) (hu : addErr (L1 * L2) A (K1 * K2) B ≤ u)
    (hw : addErr (K1 * L2) C (L1 * K2) D ≤ w) (hv : addErr (L1 * T2 + K1 * T2) I T1 v1 ≤ v)
    (bs : (A ≤ 1 ∧ B ≤ 1 ∧ C ≤ 1 ∧ D ≤ 1) ∧ (G ≤ 1 ∧ H ≤ 1 ∧ I ≤ 1) ∧ u ≤ 1 ∧ w ≤ 1 ∧ v ≤ 1)
    (bb : L ≤ 2 ^ 1000 ∧ K ≤ 2 ^ 1000 ∧ T ≤ 2 ^ 1000) :
    ApproxAff (m.mul n) (r.mul s) L u K w T v := by
  obtain ⟨⟨bA, bB, bC, bD⟩, ⟨bG, bH, bI⟩, bu, bw, bv⟩ := bs
  obtain ⟨bL, bK, bT⟩ := bb
  subst hL hK hT
  have hT1 : 0 ≤ T1 := (abs_nonneg _).trans h.e.bound
  have hw' : addErr (L1 * K2) D (K1 * L2) C ≤ w := by
    refine le_trans (le_of_eq ?_) hw; unfold addErr; ring
  have b1023 : (2 : ℝ) ^ 1000 + 1 < 2 ^ 1024 := by norm_num
  have tr : ∀ {x y z w t : F64} {r1 r2 r3 r4 r5 : ℝ}, Approx x r1 L1 u1 → Approx y r2 T2 v2 →
      Approx z r3 K1 w1 → Approx w r4 T2 v2 → Approx t r5 T1 v1 →
      Approx (x *. y +. z *. w +. t) (r1 * r2 + r3 * r4 + r5) (L1 * T2 + K1 * T2 + T1) v := by
    intro x y z w t r1 r2 r3 r4 r5 hx hy hz hw ht
    have m := hx.mulAdd hy hz hw hG hH hI bG bH bI (by linarith)
    exact (m.add ht (by linarith)).mono (le_refl _) hv
  refine ⟨h.a.mulAdd k.a h.c k.b hA hB hu bA bB bu bL, h.b.mulAdd k.a h.d k.b hC hD hw bC bD bw bK,
    ?_, ?_, tr h.a k.e h.c k.f h.e, ?_⟩
  · exact (h.a.mulAdd k.c h.c k.d hD hC hw' bD bC bw (by linarith)).mono (by linarith) (le_refl _)
  · have := h.b.mulAdd k.c h.d k.d hB hA (E := u) (by
      refine le_trans (le_of_eq ?_) hu; unfold addErr; ring) bB bA bu (by linarith)
    exact this.mono (by linarith) (le_refl _)
  · have e1 : addErr (K1 * T2) H (L1 * T2) G ≤ I := by
      refine le_trans (le_of_eq ?_) hI; unfold addErr; ring
    have m := h.b.mulAdd k.e h.d k.f hH hG e1 bH bG bI (by linarith)
    have m' := m.mono (B' := L1 * T2 + K1 * T2) (by linarith) (le_refl _)
    exact (m'.add h.f (by linarith)).mono (le_refl _) hv

theorem ApproxAff.apply {m : Affine F64} {r : Affine ℝ} {L u K w T v : ℝ}
    (h : ApproxAff m r L u K w T v) {p : P2 ℝ} {B E : ℝ} (hx : |p.x| ≤ B) (hy : |p.y| ≤ B)
    (hE : u * B + w * B + v ≤ E) : CloseTo E (m.toR.apply p) (r.apply p) := by
  have hB : 0 ≤ B := (abs_nonneg _).trans hx
  have key : ∀ {x y z : F64} {a b c X Y : ℝ}, |X| ≤ B → |Y| ≤ B → Approx x a L u → Approx y b K w →
      Approx z c T v → |x.toR * X + y.toR * Y + z.toR - (a * X + b * Y + c)| ≤ E := by
    intro x y z a b c X Y hX hY h1 h2 h3
    have hu := h1.err_nonneg
    have hw := h2.err_nonneg
    calc _ = |(x.toR - a) * X + (y.toR - b) * Y + (z.toR - c)| := by ring_nf
      _ ≤ |(x.toR - a) * X| + |(y.toR - b) * Y| + |z.toR - c| := abs_add_three _ _ _
      _ ≤ u * B + w * B + v := by
        rw [abs_mul, abs_mul]
        have k1 := h1.near.err
        have k2 := h2.near.err
        have k3 := h3.near.err
        gcongr
      _ ≤ E := hE
  refine ⟨key hx hy h.a h.c h.e, ?_⟩
  have := key hy hx h.d h.b h.f
  show |m.b.toR * p.x + m.d.toR * p.y + m.f.toR - (r.b * p.x + r.d * p.y + r.f)| ≤ E
  rwa [add_comm (m.b.toR * p.x), add_comm (r.b * p.x)]

theorem ApproxAff.finite {m : Affine F64} {r : Affine ℝ} {L u K w T v : ℝ}
    (h : ApproxAff m r L u K w T v) : m.Finite :=
  ⟨h.a.near.fin, h.b.near.fin, h.c.near.fin, h.d.near.fin, h.e.near.fin, h.f.near.fin⟩

theorem F64.Between.approx {x : F64} {B : ℝ} (h : x.Between (-B) B) : Approx x x.toR B 0 :=
  ⟨h.near, abs_le.mpr h.2⟩

theorem approx_zero {B e : ℝ} (hB : 0 ≤ B) (he : 0 ≤ e) : Approx (lit 0 : F64) (lit 0 : ℝ) B e := by
  refine ⟨?_, ?_⟩
  · have := near_lit0.mono he
    simpa using this
  · simpa using hB

theorem approx_one {B e : ℝ} (hB : 1 ≤ B) (he : 0 ≤ e) : Approx (lit 1 : F64) (lit 1 : ℝ) B e := by
  refine ⟨?_, ?_⟩
  · have := near_lit1.mono he
    simpa using this
  · simpa using hB

theorem near_lit100 : Near (lit 100 : F64) 100 0 := by
  simpa using near_lit (q := 100) (n := 100) (by norm_num) (by norm_num)
theorem near_lit180 : Near (lit 180 : F64) 180 0 := by
  simpa using near_lit (q := 180) (n := 180) (by norm_num) (by norm_num)

section
variable [Libm F64]

theorem near_degree (hl : AccurateLibm) :
    Near ((Libm.pi : F64) /. lit 180) (Real.pi / 180) (1 / 2 ^ 58) := by
  have p1 := Real.pi_lt_d2
  have p0 := Real.pi_pos
  refine hl.pi.div near_lit180 (by norm_num) (B := 1 / 57) ?_ ?_ ?_
  · rw [abs_of_pos (by positivity)]; linarith
  · rw [abs_of_pos (by norm_num)]; norm_num
  · norm_num

/-- An angle in radians. -/
theorem near_radians (hl : AccurateLibm) {x : F64} {B E : ℝ} (hx : x.Between (-B) B)
    (hB : B ≤ 2 ^ 12)
    (hE : (B * (1 / 2 ^ 58) + 1 / 57 * 0 + 0 * (1 / 2 ^ 58)) +
      (B * (1 / 57) + (B * (1 / 2 ^ 58) + 1 / 57 * 0 + 0 * (1 / 2 ^ 58))) / 2 ^ 53 + 1 / 2 ^ 1075 ≤ E)
    (hE1 : E ≤ 1) :
    Near (toRadians x) (x.toR * (Real.pi / 180)) E := by
  have p1 := Real.pi_lt_d2
  have p0 := Real.pi_pos
  refine hx.near.mul (near_degree hl) (R := B) (S := 1 / 57) (abs_le.mpr hx.2) ?_ hE ?_
  · rw [abs_of_pos (by positivity)]; linarith
  · have : (2 : ℝ) ^ 12 + 1 < 2 ^ 1024 := by norm_num
    linarith

omit [Libm F64] in
theorem F64.Near.between {x : F64} {r e B : ℝ} (h : Near x r e) (hB : |r| + e ≤ B) : x.Between (-B) B :=
  ⟨h.fin, _root_.abs_le.mp ((h.abs_le (le_refl _)).trans hB)⟩

omit [Libm F64] in
theorem abs_degrees {x : F64} {B : ℝ} (hx : x.Between (-B) B) :
    |x.toR * (Real.pi / 180)| ≤ B * (1 / 57) := by
  have p1 := Real.pi_lt_d2
  have p0 := Real.pi_pos
  have hB : 0 ≤ B := by linarith [hx.2.1, hx.2.2]
  rw [abs_mul, abs_of_pos (show 0 < Real.pi / 180 by positivity)]
  have := abs_le.mpr hx.2
  have : Real.pi / 180 ≤ 1 / 57 := by linarith
  gcongr

/-- A rotation by a moderate number of degrees. -/
theorem approx_rotate (hl : AccurateLibm) {x : F64} (hx : x.Between (-(2 ^ 12)) (2 ^ 12)) :
    ApproxAff (Affine.rotate (toRadians x)) (Affine.rotate (toRadians x.toR)) 1 (13 / 2 ^ 49) 1 (13 / 2 ^ 49) 0 0 ∧
    ApproxAff (Affine.rotate (FloatOps.neg (toRadians x)))
      (Affine.rotate (FloatOps.neg (toRadians x.toR))) 1 (13 / 2 ^ 49) 1 (13 / 2 ^ 49) 0 0 := by
  have hr : toRadians x.toR = x.toR * (Real.pi / 180) := by simp [toRadians]
  have hn := near_radians hl hx (le_refl _) (E := 101 / 2 ^ 52) (by norm_num) (by norm_num)
  have ha := abs_degrees hx
  have key : ∀ {y : F64} {s : ℝ}, Near y s (101 / 2 ^ 52) → |s| ≤ 2 ^ 12 * (1 / 57) →
      ApproxAff (Affine.rotate y) (Affine.rotate s) 1 (13 / 2 ^ 49) 1 (13 / 2 ^ 49) 0 0 := by
    intro y s hy hs
    have hb : y.Between (-(2 ^ 10)) (2 ^ 10) := hy.between (by
      refine (add_le_add_left hs _).trans ?_; norm_num)
    have c1 : Approx (Libm.cos y) (Real.cos s) 1 (13 / 2 ^ 49) := by
      refine ⟨⟨(hl.cos y hb).fin, ?_⟩, Real.abs_cos_le_one _⟩
      have h1 := (hl.cos y hb).err
      have h2 := (Real.abs_cos_sub_cos_le y.toR s).trans hy.err
      have h3 : |(Libm.cos y).toR - Real.cos s| ≤ 1 / 2 ^ 52 + 101 / 2 ^ 52 :=
        (abs_sub_le _ (Real.cos y.toR) _).trans (add_le_add h1 h2)
      refine h3.trans ?_; norm_num
    have s1 : Approx (Libm.sin y) (Real.sin s) 1 (13 / 2 ^ 49) := by
      refine ⟨⟨(hl.sin y hb).fin, ?_⟩, Real.abs_sin_le_one _⟩
      have h1 := (hl.sin y hb).err
      have h2 := (Real.abs_sin_sub_sin_le y.toR s).trans hy.err
      have h3 : |(Libm.sin y).toR - Real.sin s| ≤ 1 / 2 ^ 52 + 101 / 2 ^ 52 :=
        (abs_sub_le _ (Real.sin y.toR) _).trans (add_le_add h1 h2)
      refine h3.trans ?_; norm_num
    exact ⟨c1, s1, s1.neg, c1, approx_zero (le_refl _) (le_refl _), approx_zero (le_refl _) (le_refl _)⟩
  rw [hr]
  refine ⟨key hn ha, key hn.neg ?_⟩
  rw [show (FloatOps.neg (x.toR * (Real.pi / 180)) : ℝ) = -(x.toR * (Real.pi / 180)) from rfl, abs_neg]
  exact ha

omit [Libm F64] in
theorem abs_tan_sub_tan_le {x y : ℝ} (hx : |x| ≤ 6 / 5) (hy : |y| ≤ 6 / 5) :
    |Real.tan x - Real.tan y| ≤ 16 * |x - y| := by
  have c : ∀ {z : ℝ}, |z| ≤ 6 / 5 → 28 / 100 ≤ Real.cos z := by
    intro z hz
    have h1 := Real.one_sub_sq_div_two_le_cos (x := z)
    have h2 : z ^ 2 ≤ (6 / 5) ^ 2 := sq_le_sq' (abs_le.mp hz).1 (abs_le.mp hz).2
    linarith
  have cx := c hx
  have cy := c hy
  have e : Real.tan x - Real.tan y = Real.sin (x - y) / (Real.cos x * Real.cos y) := by
    rw [Real.tan_eq_sin_div_cos, Real.tan_eq_sin_div_cos, Real.sin_sub]
    have : Real.cos x ≠ 0 := by linarith
    have : Real.cos y ≠ 0 := by linarith
    field_simp
  rw [e, abs_div, abs_of_pos (by nlinarith : 0 < Real.cos x * Real.cos y), div_le_iff₀ (by nlinarith)]
  have h1 : |Real.sin (x - y)| ≤ |x - y| := Real.abs_sin_le_abs
  have h2 : (1 : ℝ) ≤ 16 * (Real.cos x * Real.cos y) := by nlinarith
  have h3 := abs_nonneg (x - y)
  nlinarith

/-- The tangent of a skew. -/
theorem approx_tan (hl : AccurateLibm) {x : F64} (hx : x.Between (-60) 60) :
    Approx (Libm.tan (toRadians x)) (Real.tan (toRadians x.toR)) 2 (1 / 2 ^ 45) := by
  have hr : toRadians x.toR = x.toR * (Real.pi / 180) := by simp [toRadians]
  have hn := near_radians hl hx (by norm_num) (E := 1 / 2 ^ 50) (by norm_num) (by norm_num)
  have ha := abs_degrees hx
  have hb : (toRadians x).Between (-(6 / 5)) (6 / 5) := hn.between (by
    refine (add_le_add_left ha _).trans ?_; norm_num)
  rw [hr]
  refine ⟨⟨(hl.tan _ hb).fin, ?_⟩, ?_⟩
  · have h1 := (hl.tan _ hb).err
    have h2 := abs_tan_sub_tan_le (x := (toRadians x).toR) (y := x.toR * (Real.pi / 180))
      (abs_le.mpr hb.2) (ha.trans (by norm_num))
    have h3 := hn.err
    have h4 := (abs_sub_le (Libm.tan (toRadians x)).toR (Real.tan (toRadians x).toR)
      (Real.tan (x.toR * (Real.pi / 180)))).trans (add_le_add h1 h2)
    refine h4.trans ?_
    have : (16 : ℝ) * (1 / 2 ^ 50) + 1 / 2 ^ 50 ≤ 1 / 2 ^ 45 := by norm_num
    linarith
  · have hle : |x.toR * (Real.pi / 180)| ≤ Real.pi / 3 := by
      rw [abs_mul, abs_of_pos (show 0 < Real.pi / 180 by positivity)]
      have := abs_le.mpr hx.2
      have p0 := Real.pi_pos
      nlinarith
    have hc : 1 / 2 ≤ Real.cos (x.toR * (Real.pi / 180)) := by
      rw [← Real.cos_abs, ← Real.cos_pi_div_three]
      exact Real.cos_le_cos_of_nonneg_of_le_pi (abs_nonneg _) (by linarith [Real.pi_pos]) hle
    rw [Real.tan_eq_sin_div_cos, abs_div,
      abs_of_pos (show 0 < Real.cos (x.toR * (Real.pi / 180)) by linarith), div_le_iff₀ (by linarith)]
    have := Real.abs_sin_le_one (x.toR * (Real.pi / 180))
    linarith

omit [Libm F64] in
theorem eq_zero_toR {x : F64} (h : x.isFin = true) : (x ==. lit 0) = ((x.toR ==. lit 0 : Bool)) := by
  rw [Bool.eq_iff_iff]
  have h0 : (lit 0 : F64).isFin = true := near_lit0.fin
  have e0 : (lit 0 : F64).toQ = 0 := by decide +kernel
  rw [beq_fin h h0, e0]
  simp [F64.toR]

/-- Numerical conditions on errors. -/
macro "err_num" : tactic => `(tactic| (first | unfold mulErr | unfold addErr | skip) <;> norm_num)

theorem approx_skew (hl : AccurateLibm) {k x : F64} (hk : k.Between (-60) 60)
    (hk0 : k.toR ≠ 0) (hx : x.Between (-(2 ^ 12)) (2 ^ 12)) :
    ApproxAff (skewMatrix k x) (skewMatrix k.toR x.toR) 6 (97 / 2 ^ 48) 6 (97 / 2 ^ 48) 0
      (65 / 2 ^ 1078) := by
  unfold skewMatrix
  have hb : (k.toR ==. lit 0) = false := by simpa using hk0
  rw [eq_zero_toR hk.1, hb]
  simp only [Bool.not_false, if_true]
  have h1 := (approx_rotate hl hx).2
  have h2 := (approx_rotate hl hx).1
  have hs : ApproxAff (Affine.skew (Libm.tan (toRadians k)) (lit 0))
      (Affine.skew (Libm.tan (toRadians k.toR)) (lit 0)) 1 0 2 (1 / 2 ^ 45) 0 0 :=
    ⟨approx_one (le_refl _) (le_refl _), approx_zero (by norm_num) (by norm_num), approx_tan hl hk,
      approx_one (le_refl _) (le_refl _), approx_zero (le_refl _) (le_refl _),
      approx_zero (le_refl _) (le_refl _)⟩
  have h3 := h1.mul hs (L := 3) (u := 7 / 2 ^ 46) (K := 3) (w := 7 / 2 ^ 46) (T := 0)
    (v := 65 / 2 ^ 1079) (A := 105 / 2 ^ 52) (B := 85 / 2 ^ 50) (C := 105 / 2 ^ 52)
    (D := 85 / 2 ^ 50) (G := 1 / 2 ^ 1075) (H := 1 / 2 ^ 1075) (I := 97 / 2 ^ 1080)
    (by err_num) (by err_num) (by err_num) (by err_num) (by err_num) (by err_num) (by err_num)
    (by err_num) (by err_num) (by err_num) (by err_num) (by err_num) (by err_num) (by err_num)
    (by err_num)
  exact h3.mul h2 (L := 6) (u := 97 / 2 ^ 48) (K := 6) (w := 97 / 2 ^ 48) (T := 0)
    (v := 65 / 2 ^ 1078) (A := 3 / 2 ^ 44) (B := 3 / 2 ^ 44) (C := 3 / 2 ^ 44) (D := 3 / 2 ^ 44)
    (G := 1 / 2 ^ 1075) (H := 1 / 2 ^ 1075) (I := 97 / 2 ^ 1080)
    (by err_num) (by err_num) (by err_num) (by err_num) (by err_num) (by err_num) (by err_num)
    (by err_num) (by err_num) (by err_num) (by err_num) (by err_num) (by err_num) (by err_num)
    (by err_num)

omit [Libm F64] in
/-- Percent. -/
theorem approx_percent {x : F64} (hx : x.Between (-1600) 1600) :
    Approx (x /. lit 100) (x.toR /. lit 100) 16 (1 / 2 ^ 48) := by
  have hb : |x.toR / 100| ≤ 16 := by
    rw [abs_div, abs_of_pos (show (0 : ℝ) < 100 by norm_num)]
    linarith [abs_le.mpr hx.2]
  have e : (x.toR /. lit 100 : ℝ) = x.toR / 100 := by simp
  rw [e]
  refine ⟨hx.near.div near_lit100 (by norm_num) (B := 16) hb ?_ ?_, hb⟩
  · norm_num
  · norm_num

omit [Libm F64] in
theorem approx_position {q : P2 F64} (hq : q.AtMost (2 ^ 13)) :
    ApproxAff (Affine.translate q) (Affine.translate q.toR) 1 0 0 0 8192 0 := by
  have h1 := hq.1.approx.mono (B' := 8192) (by norm_num) (le_refl _)
  have h2 := hq.2.approx.mono (B' := 8192) (by norm_num) (le_refl _)
  exact ⟨approx_one (le_refl _) (le_refl _), approx_zero (le_refl _) (le_refl _),
    approx_zero (le_refl _) (le_refl _), approx_one (le_refl _) (le_refl _), h1, h2⟩

omit [Libm F64] in
theorem approx_anchor {q : P2 F64} (hq : q.AtMost (2 ^ 13)) :
    ApproxAff (Affine.translate ⟨FloatOps.neg q.x, FloatOps.neg q.y⟩)
      (Affine.translate ⟨FloatOps.neg q.toR.x, FloatOps.neg q.toR.y⟩) 1 0 0 0 8192 0 := by
  have h1 := hq.1.approx.neg.mono (B' := 8192) (by norm_num) (le_refl _)
  have h2 := hq.2.approx.neg.mono (B' := 8192) (by norm_num) (le_refl _)
  exact ⟨approx_one (le_refl _) (le_refl _), approx_zero (le_refl _) (le_refl _),
    approx_zero (le_refl _) (le_refl _), approx_one (le_refl _) (le_refl _), h1, h2⟩

omit [Libm F64] in
theorem approx_scale {s : P2 F64} (hs : s.AtMost 1600) :
    ApproxAff (Affine.scaleNonUniform (s.x /. lit 100) (s.y /. lit 100))
      (Affine.scaleNonUniform (s.toR.x /. lit 100) (s.toR.y /. lit 100)) 16 (1 / 2 ^ 48) 0 0 0 0 :=
  ⟨approx_percent hs.1, approx_zero (le_refl _) (le_refl _), approx_zero (le_refl _) (le_refl _),
    approx_percent hs.2, approx_zero (le_refl _) (le_refl _), approx_zero (le_refl _) (le_refl _)⟩

theorem approx_turn (hl : AccurateLibm) {q : P2 F64} (hq : q.AtMost (2 ^ 13)) {r : F64}
    (hr : r.Between (-(2 ^ 12)) (2 ^ 12)) :
    ApproxAff ((Affine.translate q).mul (Affine.rotate (toRadians r)))
      ((Affine.translate q.toR).mul (Affine.rotate (toRadians r.toR))) 1 (53 / 2 ^ 51) 1 (53 / 2 ^ 51)
      8192 (65 / 2 ^ 46) :=
  (approx_position hq).mul (approx_rotate hl hr).1 (A := 105 / 2 ^ 52) (B := 1 / 2 ^ 1075)
    (C := 1 / 2 ^ 1075) (D := 105 / 2 ^ 52) (G := 1 / 2 ^ 1075) (H := 1 / 2 ^ 1075)
    (I := 97 / 2 ^ 1080)
    (by err_num) (by err_num) (by err_num) (by err_num) (by err_num) (by err_num) (by err_num)
    (by err_num) (by err_num) (by err_num) (by err_num) (by err_num) (by err_num) (by err_num)
    (by err_num)

/-- A transform without skew. -/
theorem approx_transform (hl : AccurateLibm) {a q s : P2 F64} {r k x : F64}
    (ha : a.AtMost (2 ^ 13)) (hq : q.AtMost (2 ^ 13)) (hs : s.AtMost 1600)
    (hr : r.Between (-(2 ^ 12)) (2 ^ 12)) (hk : k.isFin = true) (hk0 : k.toR = 0) :
    ApproxAff (transformMatrix a q r s k x) (transformMatrix a.toR q.toR r.toR s.toR k.toR x.toR)
      16 (113 / 2 ^ 48) 16 (113 / 2 ^ 48) 270336 (57 / 2 ^ 33) := by
  have hsk : ApproxAff (skewMatrix k x) (skewMatrix k.toR x.toR) 1 0 0 0 0 0 := by
    unfold skewMatrix
    have hb : (k.toR ==. lit 0) = true := by simpa using hk0
    rw [eq_zero_toR hk, hb]
    simp only [Bool.not_true, Bool.false_eq_true, if_false]
    exact ⟨approx_one (le_refl _) (le_refl _), approx_zero (le_refl _) (le_refl _),
      approx_zero (le_refl _) (le_refl _), approx_one (le_refl _) (le_refl _),
      approx_zero (le_refl _) (le_refl _), approx_zero (le_refl _) (le_refl _)⟩
  have h1 := approx_turn hl hq hr
  have h2 := h1.mul hsk (L := 1) (u := 27 / 2 ^ 50) (K := 1) (w := 27 / 2 ^ 50) (T := 8192)
    (v := 65 / 2 ^ 45) (A := 107 / 2 ^ 52) (B := 1 / 2 ^ 1075) (C := 107 / 2 ^ 52)
    (D := 1 / 2 ^ 1075) (G := 1 / 2 ^ 1075) (H := 1 / 2 ^ 1075) (I := 97 / 2 ^ 1080)
    (by err_num) (by err_num) (by err_num) (by err_num) (by err_num) (by err_num) (by err_num)
    (by err_num) (by err_num) (by err_num) (by err_num) (by err_num) (by err_num) (by err_num)
    (by err_num)
  have h3 := h2.mul (approx_scale hs) (L := 16) (u := 111 / 2 ^ 48) (K := 16) (w := 111 / 2 ^ 48)
    (T := 8192) (v := 49 / 2 ^ 44) (A := 55 / 2 ^ 47) (B := 1 / 2 ^ 1075) (C := 55 / 2 ^ 47)
    (D := 1 / 2 ^ 1075) (G := 1 / 2 ^ 1075) (H := 1 / 2 ^ 1075) (I := 97 / 2 ^ 1080)
    (by err_num) (by err_num) (by err_num) (by err_num) (by err_num) (by err_num) (by err_num)
    (by err_num) (by err_num) (by err_num) (by err_num) (by err_num) (by err_num) (by err_num)
    (by err_num)
  exact h3.mul (approx_anchor ha) (A := 7 / 2 ^ 44) (B := 1 / 2 ^ 1075) (C := 7 / 2 ^ 44)
    (D := 1 / 2 ^ 1075) (G := 7 / 2 ^ 31) (H := 7 / 2 ^ 31) (I := 113 / 2 ^ 34)
    (by err_num) (by err_num) (by err_num) (by err_num) (by err_num) (by err_num) (by err_num)
    (by err_num) (by err_num) (by err_num) (by err_num) (by err_num) (by err_num) (by err_num)
    (by err_num)

/-- A skewed transform. -/
theorem approx_transform_skewed (hl : AccurateLibm) {a q s : P2 F64} {r k x : F64}
    (ha : a.AtMost (2 ^ 13)) (hq : q.AtMost (2 ^ 13)) (hs : s.AtMost 1600)
    (hr : r.Between (-(2 ^ 12)) (2 ^ 12)) (hk : k.Between (-60) 60) (hk0 : k.toR ≠ 0)
    (hx : x.Between (-(2 ^ 12)) (2 ^ 12)) :
    ApproxAff (transformMatrix a q r s k x) (transformMatrix a.toR q.toR r.toR s.toR k.toR x.toR)
      192 (37 / 2 ^ 41) 192 (37 / 2 ^ 41) 3153920 (75 / 2 ^ 28) := by
  have h1 := approx_turn hl hq hr
  have h2 := h1.mul (approx_skew hl hk hk0 hx) (L := 12) (u := 35 / 2 ^ 45) (K := 12)
    (w := 35 / 2 ^ 45) (T := 8192) (v := 65 / 2 ^ 45) (A := 69 / 2 ^ 47) (B := 69 / 2 ^ 47)
    (C := 69 / 2 ^ 47) (D := 69 / 2 ^ 47) (G := 37 / 2 ^ 1077) (H := 37 / 2 ^ 1077)
    (I := 79 / 2 ^ 1077)
    (by err_num) (by err_num) (by err_num) (by err_num) (by err_num) (by err_num) (by err_num)
    (by err_num) (by err_num) (by err_num) (by err_num) (by err_num) (by err_num) (by err_num)
    (by err_num)
  have h3 := h2.mul (approx_scale hs) (L := 192) (u := 9 / 2 ^ 39) (K := 192) (w := 9 / 2 ^ 39)
    (T := 8192) (v := 49 / 2 ^ 44) (A := 71 / 2 ^ 42) (B := 1 / 2 ^ 1075) (C := 71 / 2 ^ 42)
    (D := 1 / 2 ^ 1075) (G := 1 / 2 ^ 1075) (H := 1 / 2 ^ 1075) (I := 97 / 2 ^ 1080)
    (by err_num) (by err_num) (by err_num) (by err_num) (by err_num) (by err_num) (by err_num)
    (by err_num) (by err_num) (by err_num) (by err_num) (by err_num) (by err_num) (by err_num)
    (by err_num)
  exact h3.mul (approx_anchor ha) (A := 73 / 2 ^ 42) (B := 1 / 2 ^ 1075) (C := 73 / 2 ^ 42)
    (D := 1 / 2 ^ 1075) (G := 73 / 2 ^ 29) (H := 73 / 2 ^ 29) (I := 37 / 2 ^ 27)
    (by err_num) (by err_num) (by err_num) (by err_num) (by err_num) (by err_num) (by err_num)
    (by err_num) (by err_num) (by err_num) (by err_num) (by err_num) (by err_num) (by err_num)
    (by err_num)

end

/-- A number next to a real number. -/
theorem exists_near (r : ℝ) {B E : ℝ} (hB : |r| ≤ B) (hB' : B ≤ 2 ^ 20)
    (hE : (B + 1 / 2) / 2 ^ 53 + 1 / 2 ^ 1000 ≤ E) (hE1 : E ≤ 1) : ∃ x : F64, Near x r E := by
  obtain ⟨q, hq⟩ := exists_rat_near r (show (0 : ℝ) < 1 / 2 ^ 1001 by positivity)
  refine ⟨ofRat false q, near_of_rnd (q := q) (fun h => ofRat_fin h) (D := 1 / 2 ^ 1001)
    (by rw [abs_sub_comm]; exact hq.le) hB ?_ ?_⟩
  · refine le_trans ?_ hE
    have : (1 : ℝ) / 2 ^ 1001 + (1 / 2 ^ 1001) / 2 ^ 53 + 1 / 2 ^ 1075 ≤ 1 / 2 / 2 ^ 53 + 1 / 2 ^ 1000 := by
      norm_num
    have e1 : (B + 1 / 2) / 2 ^ 53 = B / 2 ^ 53 + 1 / 2 / 2 ^ 53 := by ring
    have e2 : (B + 1 / 2 ^ 1001) / 2 ^ 53 = B / 2 ^ 53 + 1 / 2 ^ 1001 / 2 ^ 53 := by ring
    rw [e1, e2]
    linarith
  · have : (2 : ℝ) ^ 20 + 1 < 2 ^ 1024 := by norm_num
    linarith

open Classical in
/-- Some number within `e` of `r`. -/
noncomputable def nearTo (r e : ℝ) : F64 := if h : ∃ x : F64, Near x r e then h.choose else .nan

theorem nearTo_spec {r e : ℝ} (h : ∃ x : F64, Near x r e) : Near (nearTo r e) r e := by
  unfold nearTo
  rw [dif_pos h]
  exact h.choose_spec

/-- A mathematical library that is accurate: the nearest numbers, and the constants of the Rust
library. -/
@[instance_reducible] noncomputable def accurateLibm : Libm F64 where
  sin x := nearTo (Real.sin x.toR) (1 / 2 ^ 52)
  cos x := nearTo (Real.cos x.toR) (1 / 2 ^ 52)
  tan x := nearTo (Real.tan x.toR) (1 / 2 ^ 50)
  powf x _ := x
  hypot x y := nearTo (Real.sqrt (x.toR ^ 2 + y.toR ^ 2)) (1 / 2 ^ 32)
  pi := lit (884279719003555 / 281474976710656)
  tau := lit (884279719003555 / 140737488355328)
  fracPi2 := lit (884279719003555 / 562949953421312)

theorem accurateLibm_accurate : @AccurateLibm accurateLibm := by
  let _ := accurateLibm
  refine ⟨?_, fun x _ => nearTo_spec ?_, fun x _ => nearTo_spec ?_, fun x hx => nearTo_spec ?_,
    fun x y hx hy => nearTo_spec ?_⟩
  · have h : rnd (884279719003555 / 281474976710656) = 884279719003555 / 281474976710656 := by
      decide +kernel
    obtain ⟨h1, h2⟩ := ofRat_fin (s := false) (q := 884279719003555 / 281474976710656) (by
      rw [h, abs_of_pos (by norm_num)]; unfold maxMag; norm_num)
    refine ⟨h1, ?_⟩
    show |(((ofRat false (884279719003555 / 281474976710656)).toQ : ℚ) : ℝ) - Real.pi| ≤ _
    rw [h2, h]
    have := Real.pi_gt_d20
    have := Real.pi_lt_d20
    push_cast
    rw [abs_le]
    constructor <;> norm_num at * <;> linarith
  · exact exists_near _ (Real.abs_sin_le_one _) (by norm_num) (by norm_num) (by norm_num)
  · exact exists_near _ (Real.abs_cos_le_one _) (by norm_num) (by norm_num) (by norm_num)
  · refine exists_near _ (B := 4) ?_ (by norm_num) (by norm_num) (by norm_num)
    have hc : 28 / 100 ≤ Real.cos x.toR := by
      have h1 := Real.one_sub_sq_div_two_le_cos (x := x.toR)
      have h2 : x.toR ^ 2 ≤ (6 / 5) ^ 2 := sq_le_sq' hx.2.1 hx.2.2
      linarith
    rw [Real.tan_eq_sin_div_cos, abs_div, abs_of_pos (show 0 < Real.cos x.toR by linarith),
      div_le_iff₀ (by linarith)]
    linarith [Real.abs_sin_le_one x.toR]
  · refine exists_near _ (B := 2 ^ 19) ?_ (by norm_num) (by norm_num) (by norm_num)
    rw [abs_of_nonneg (Real.sqrt_nonneg _)]
    refine Real.sqrt_le_iff.mpr ⟨by norm_num, ?_⟩
    have h1 : x.toR ^ 2 ≤ (2 ^ 18) ^ 2 := sq_le_sq' hx.2.1 hx.2.2
    have h2 : y.toR ^ 2 ≤ (2 ^ 18) ^ 2 := sq_le_sq' hy.2.1 hy.2.2
    refine (add_le_add h1 h2).trans (by norm_num)

end Velato
