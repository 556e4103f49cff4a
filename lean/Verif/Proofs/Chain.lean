import Verif.Spec.Chain
import Verif.Proofs.Tame
import Mathlib.Analysis.Complex.Norm

/-!
# Products of many matrices in double precision: helper lemmas

Lengths are Euclidean, so that turning does not enlarge errors.
-/

set_option exponentiation.threshold 2000

namespace Velato
open FloatOps (lit)
open F64
open Import

/-- The linear part of a map of the plane. -/
def Affine.lin (m : Affine ℝ) (z : ℂ) : ℂ := ⟨m.a * z.re + m.c * z.im, m.b * z.re + m.d * z.im⟩

/-- The translation of a map of the plane. -/
def Affine.tr (m : Affine ℝ) : ℂ := ⟨m.e, m.f⟩

theorem Affine.lin_mul (m n : Affine ℝ) (z : ℂ) : (m.mul n).lin z = m.lin (n.lin z) := by
  apply Complex.ext <;> simp only [Affine.lin, Affine.mul, real_add, real_mul] <;> ring

theorem Affine.tr_mul (m n : Affine ℝ) : (m.mul n).tr = m.lin n.tr + m.tr := by
  apply Complex.ext <;>
    simp only [Affine.lin, Affine.tr, Affine.mul, real_add, real_mul, Complex.add_re, Complex.add_im]

theorem Affine.lin_add (m : Affine ℝ) (z w : ℂ) : m.lin (z + w) = m.lin z + m.lin w := by
  apply Complex.ext <;> simp only [Affine.lin, Complex.add_re, Complex.add_im] <;> ring

theorem Affine.lin_sub (m : Affine ℝ) (z w : ℂ) : m.lin (z - w) = m.lin z - m.lin w := by
  apply Complex.ext <;> simp only [Affine.lin, Complex.sub_re, Complex.sub_im] <;> ring

theorem Affine.apply_re (m : Affine ℝ) (p : P2 ℝ) : (m.lin ⟨p.x, p.y⟩ + m.tr).re = (m.apply p).x := by
  simp only [Affine.lin, Affine.tr, Affine.apply, real_add, real_mul, Complex.add_re]

theorem Affine.apply_im (m : Affine ℝ) (p : P2 ℝ) : (m.lin ⟨p.x, p.y⟩ + m.tr).im = (m.apply p).y := by
  simp only [Affine.lin, Affine.tr, Affine.apply, real_add, real_mul, Complex.add_im]

theorem norm_le_of_coords {z : ℂ} {B : ℝ} (h1 : |z.re| ≤ B) (h2 : |z.im| ≤ B) : ‖z‖ ≤ 2 * B :=
  (Complex.norm_le_abs_re_add_abs_im z).trans (by linarith)

/-- Entries that differ by at most `d`. -/
theorem lin_close {m n : Affine ℝ} {d : ℝ} (ha : |m.a - n.a| ≤ d) (hb : |m.b - n.b| ≤ d) (hc : |m.c - n.c| ≤ d)
    (hd : |m.d - n.d| ≤ d) (z : ℂ) : ‖m.lin z - n.lin z‖ ≤ 2 * d * ‖z‖ := by
  have h0 : 0 ≤ d := (abs_nonneg _).trans ha
  have sq : ∀ w : ℂ, ‖w‖ ^ 2 = w.re ^ 2 + w.im ^ 2 := by
    intro w
    rw [← Complex.normSq_eq_norm_sq, Complex.normSq_apply]
    ring
  have n0 := norm_nonneg z
  refine abs_le_of_sq_le_sq' ?_ (by positivity) |>.2
  rw [sq, mul_pow, sq z]
  simp only [Affine.lin, Complex.sub_re, Complex.sub_im]
  have key : ∀ {x y : ℝ}, |x| ≤ d → |y| ≤ d → (x * z.re + y * z.im) ^ 2 ≤ 2 * d ^ 2 * (z.re ^ 2 + z.im ^ 2) := by
    intro x y hx hy
    have h1 : x ^ 2 ≤ d ^ 2 := sq_le_sq' (abs_le.mp hx).1 (abs_le.mp hx).2
    have h2 : y ^ 2 ≤ d ^ 2 := sq_le_sq' (abs_le.mp hy).1 (abs_le.mp hy).2
    nlinarith [sq_nonneg (x * z.im - y * z.re), sq_nonneg z.re, sq_nonneg z.im]
  have k1 := key ha hc
  have k2 := key hb hd
  nlinarith

/-- The matrix `m` fits the map `r`: `r` stretches by at most `L` and moves the origin by at most `T`; the matrix
differs from it by `e` per unit of length and by `t` at the origin. -/
structure Fits (m : Affine F64) (r : Affine ℝ) (L T e t : ℝ) : Prop where
  fin : m.Finite
  L0 : 0 ≤ L
  e0 : 0 ≤ e
  lin : ∀ z, ‖r.lin z‖ ≤ L * ‖z‖
  tr : ‖r.tr‖ ≤ T
  linErr : ∀ z, ‖m.toR.lin z - r.lin z‖ ≤ e * ‖z‖
  trErr : ‖m.toR.tr - r.tr‖ ≤ t

theorem Fits.mono {m : Affine F64} {r : Affine ℝ} {L T e t L' T' e' t' : ℝ} (h : Fits m r L T e t) (hL : L ≤ L')
    (hT : T ≤ T') (he : e ≤ e') (ht : t ≤ t') : Fits m r L' T' e' t' :=
  ⟨h.fin, h.L0.trans hL, h.e0.trans he, fun z => (h.lin z).trans (by gcongr), h.tr.trans hT,
    fun z => (h.linErr z).trans (by gcongr), h.trErr.trans ht⟩

theorem Fits.T0 {m : Affine F64} {r : Affine ℝ} {L T e t : ℝ} (h : Fits m r L T e t) : 0 ≤ T :=
  (norm_nonneg _).trans h.tr

theorem Fits.t0 {m : Affine F64} {r : Affine ℝ} {L T e t : ℝ} (h : Fits m r L T e t) : 0 ≤ t :=
  (norm_nonneg _).trans h.trErr

/-- The entries are bounded. -/
theorem Fits.entries {m : Affine F64} {r : Affine ℝ} {L T e t : ℝ} (h : Fits m r L T e t) :
    (|m.a.toR| ≤ L + e ∧ |m.b.toR| ≤ L + e ∧ |m.c.toR| ≤ L + e ∧ |m.d.toR| ≤ L + e) ∧
    |m.e.toR| ≤ T + t ∧ |m.f.toR| ≤ T + t := by
  have hl : ∀ z, ‖z‖ = 1 → ‖m.toR.lin z‖ ≤ L + e := by
    intro z hz
    have h1 := h.lin z
    have h2 := h.linErr z
    rw [hz] at h1 h2
    have h3 := norm_add_le (r.lin z) (m.toR.lin z - r.lin z)
    rw [add_sub_cancel] at h3
    linarith
  have h3 := norm_add_le r.tr (m.toR.tr - r.tr)
  rw [add_sub_cancel] at h3
  have ht : ‖m.toR.tr‖ ≤ T + t := by linarith [h.tr, h.trErr]
  have h1 := hl 1 (by simp)
  have hI := hl Complex.I (by simp)
  have r1 := (Complex.abs_re_le_norm _).trans h1
  have i1 := (Complex.abs_im_le_norm _).trans h1
  have r2 := (Complex.abs_re_le_norm _).trans hI
  have i2 := (Complex.abs_im_le_norm _).trans hI
  have r3 := (Complex.abs_re_le_norm _).trans ht
  have i3 := (Complex.abs_im_le_norm _).trans ht
  simp only [Affine.lin, Affine.toR, Affine.tr, Complex.one_re, Complex.one_im, Complex.I_re, Complex.I_im, mul_one,
    mul_zero, add_zero, zero_add] at r1 i1 r2 i2 r3 i3
  exact ⟨⟨r1, i1, r2, i2⟩, r3, i3⟩

/-- A sum of two products. -/
theorem near_mulAdd {x y z w : F64} (hx : x.isFin = true) (hy : y.isFin = true) (hz : z.isFin = true)
    (hw : w.isFin = true) {A B : ℝ} (ax : |x.toR| ≤ A) (ay : |y.toR| ≤ B) (az : |z.toR| ≤ A) (aw : |w.toR| ≤ B)
    (hM : A * B ≤ 2 ^ 1000) :
    Near (x *. y +. z *. w) (x.toR * y.toR + z.toR * w.toR) (A * B / 2 ^ 50 + 1 / 2 ^ 1072) ∧
      |x.toR * y.toR + z.toR * w.toR| ≤ 2 * (A * B) := by
  have A0 : 0 ≤ A := (abs_nonneg _).trans ax
  have B0 : 0 ≤ B := (abs_nonneg _).trans ay
  have u0 : 0 ≤ A * B := mul_nonneg A0 B0
  have m1 := (Near.self hx).mul (Near.self hy) ax ay (E := A * B / 2 ^ 53 + 1 / 2 ^ 1075) (by
    simp only [mul_zero, add_zero, zero_add]; exact le_refl _) (by
    generalize A * B = u at *
    have : (1 : ℝ) / 2 ^ 1075 ≤ 1 := by norm_num
    have : (2 : ℝ) ^ 1000 * 2 + 1 < 2 ^ 1024 := by norm_num
    linarith)
  have m2 := (Near.self hz).mul (Near.self hw) az aw (E := A * B / 2 ^ 53 + 1 / 2 ^ 1075) (by
    simp only [mul_zero, add_zero, zero_add]; exact le_refl _) (by
    generalize A * B = u at *
    have : (1 : ℝ) / 2 ^ 1075 ≤ 1 := by norm_num
    have : (2 : ℝ) ^ 1000 * 2 + 1 < 2 ^ 1024 := by norm_num
    linarith)
  have b1 : |x.toR * y.toR| ≤ A * B := by
    rw [abs_mul]
    exact mul_le_mul ax ay (abs_nonneg _) A0
  have b2 : |z.toR * w.toR| ≤ A * B := by
    rw [abs_mul]
    exact mul_le_mul az aw (abs_nonneg _) A0
  have b : |x.toR * y.toR + z.toR * w.toR| ≤ 2 * (A * B) := (abs_add_le _ _).trans (by linarith)
  generalize A * B = u at *
  have s1 : (1 : ℝ) / 2 ^ 1072 = 8 * (1 / 2 ^ 1075) := by norm_num
  have s2 : (0 : ℝ) ≤ 1 / 2 ^ 1075 := by positivity
  have s3 : (1 : ℝ) / 2 ^ 1075 ≤ 1 / 2 ^ 53 := by norm_num
  refine ⟨m1.add m2 b ?_ ?_, b⟩
  · rw [s1]
    generalize (1 : ℝ) / 2 ^ 1075 = c at *
    linarith
  · rw [s1]
    have : (2 : ℝ) ^ 1000 * 3 + 8 < 2 ^ 1024 := by norm_num
    generalize (1 : ℝ) / 2 ^ 1075 = c at *
    linarith

/-- Multiplication. -/
theorem Fits.mul {m n : Affine F64} {r s : Affine ℝ} {L1 T1 e1 t1 L2 T2 e2 t2 : ℝ} (h : Fits m r L1 T1 e1 t1)
    (k : Fits n s L2 T2 e2 t2) (hM : (L1 + e1) * (L2 + e2) ≤ 2 ^ 990)
    (hN : (L1 + e1) * (T2 + t2) + (T1 + t1) ≤ 2 ^ 990) :
    Fits (m.mul n) (r.mul s) (L1 * L2) (T1 + L1 * T2)
      (e1 * L2 + L1 * e2 + e1 * e2 + ((L1 + e1) * (L2 + e2) / 2 ^ 49 + 1 / 2 ^ 1070))
      (t1 + e1 * T2 + L1 * t2 + e1 * t2 +
        (((L1 + e1) * (T2 + t2) + (T1 + t1)) / 2 ^ 48 + 1 / 2 ^ 1070)) := by
  obtain ⟨⟨ma, mb, mc, md⟩, me, mf⟩ := h.entries
  obtain ⟨⟨na, nb, nc, nd⟩, ne, nf⟩ := k.entries
  obtain ⟨fa, fb, fc, fd, fe, ff⟩ := h.fin
  obtain ⟨ga, gb, gc, gd, ge, gf⟩ := k.fin
  have hL1 := h.L0
  have hL2 := k.L0
  have he1 := h.e0
  have he2 := k.e0
  have hT1 := h.T0
  have hT2 := k.T0
  have ht1 := h.t0
  have ht2 := k.t0
  have big : (2 : ℝ) ^ 990 ≤ 2 ^ 1000 := by norm_num
  have lin : ∀ {x y z w : F64}, x.isFin = true → y.isFin = true → z.isFin = true → w.isFin = true →
      |x.toR| ≤ L1 + e1 → |y.toR| ≤ L2 + e2 → |z.toR| ≤ L1 + e1 → |w.toR| ≤ L2 + e2 →
      Near (x *. y +. z *. w) (x.toR * y.toR + z.toR * w.toR) ((L1 + e1) * (L2 + e2) / 2 ^ 50 + 1 / 2 ^ 1072) :=
    fun hx hy hz hw ax ay az aw => (near_mulAdd hx hy hz hw ax ay az aw (hM.trans big)).1
  have tra : ∀ {x y z w o : F64}, x.isFin = true → y.isFin = true → z.isFin = true → w.isFin = true →
      o.isFin = true → |x.toR| ≤ L1 + e1 → |y.toR| ≤ T2 + t2 → |z.toR| ≤ L1 + e1 → |w.toR| ≤ T2 + t2 →
      |o.toR| ≤ T1 + t1 → Near (x *. y +. z *. w +. o) (x.toR * y.toR + z.toR * w.toR + o.toR)
        (((L1 + e1) * (T2 + t2) + (T1 + t1)) / 2 ^ 49 + 1 / 2 ^ 1071) := by
    intro x y z w o hx hy hz hw ho ax ay az aw ao
    have p0 : 0 ≤ (L1 + e1) * (T2 + t2) := by positivity
    obtain ⟨h1, h2⟩ := near_mulAdd hx hy hz hw ax ay az aw (by linarith)
    have b : |x.toR * y.toR + z.toR * w.toR + o.toR| ≤ 2 * ((L1 + e1) * (T2 + t2)) + (T1 + t1) :=
      (abs_add_le _ _).trans (by linarith)
    generalize (L1 + e1) * (T2 + t2) = u at *
    have s1 : (1 : ℝ) / 2 ^ 1072 = 8 * (1 / 2 ^ 1075) := by norm_num
    have s0 : (1 : ℝ) / 2 ^ 1071 = 16 * (1 / 2 ^ 1075) := by norm_num
    have s2 : (0 : ℝ) ≤ 1 / 2 ^ 1075 := by positivity
    have s3 : (1 : ℝ) / 2 ^ 1075 ≤ 1 / 2 ^ 53 := by norm_num
    rw [s1] at h1
    rw [s0]
    have big2 : (2 : ℝ) ^ 990 * 3 + 8 < 2 ^ 1024 := by norm_num
    generalize (1 : ℝ) / 2 ^ 1075 = c at *
    exact h1.add (Near.self ho) b (by linarith) (by linarith)
  have ra := lin fa ga fc gb ma na mc nb
  have rb := lin fb ga fd gb mb na md nb
  have rc := lin fa gc fc gd ma nc mc nd
  have rd := lin fb gc fd gd mb nc md nd
  have re := tra fa ge fc gf fe ma ne mc nf me
  have rf := tra fb ge fd gf ff mb ne md nf mf
  -- rounding
  have hround : ∀ z, ‖(m.mul n).toR.lin z - (m.toR.mul n.toR).lin z‖ ≤
      ((L1 + e1) * (L2 + e2) / 2 ^ 49 + 1 / 2 ^ 1070) * ‖z‖ := by
    intro z
    refine (lin_close (d := (L1 + e1) * (L2 + e2) / 2 ^ 50 + 1 / 2 ^ 1072) ra.err rb.err rc.err rd.err z).trans ?_
    refine mul_le_mul_of_nonneg_right ?_ (norm_nonneg _)
    have s1 : (1 : ℝ) / 2 ^ 1070 = 4 * (1 / 2 ^ 1072) := by norm_num
    have s2 : (0 : ℝ) ≤ 1 / 2 ^ 1072 := by positivity
    rw [s1]
    generalize (1 : ℝ) / 2 ^ 1072 = c at *
    linarith
  have hroundT : ‖(m.mul n).toR.tr - (m.toR.mul n.toR).tr‖ ≤
      ((L1 + e1) * (T2 + t2) + (T1 + t1)) / 2 ^ 48 + 1 / 2 ^ 1070 := by
    refine (norm_le_of_coords (B := ((L1 + e1) * (T2 + t2) + (T1 + t1)) / 2 ^ 49 + 1 / 2 ^ 1071) re.err
      rf.err).trans ?_
    have s1 : (1 : ℝ) / 2 ^ 1070 = 2 * (1 / 2 ^ 1071) := by norm_num
    rw [s1]
    generalize (1 : ℝ) / 2 ^ 1071 = c at *
    linarith
  refine ⟨⟨ra.fin, rb.fin, rc.fin, rd.fin, re.fin, rf.fin⟩, by positivity, by positivity, ?_, ?_, ?_, ?_⟩
  · intro z
    rw [Affine.lin_mul]
    calc _ ≤ L1 * ‖s.lin z‖ := h.lin _
      _ ≤ L1 * (L2 * ‖z‖) := by gcongr; exact k.lin z
      _ = _ := by ring
  · rw [Affine.tr_mul]
    calc _ ≤ ‖r.lin s.tr‖ + ‖r.tr‖ := norm_add_le _ _
      _ ≤ L1 * ‖s.tr‖ + T1 := add_le_add (h.lin _) h.tr
      _ ≤ L1 * T2 + T1 := by gcongr; exact k.tr
      _ = _ := by ring
  · intro z
    have e : (m.mul n).toR.lin z - (r.mul s).lin z =
        ((m.mul n).toR.lin z - (m.toR.mul n.toR).lin z) +
        ((m.toR.lin (n.toR.lin z - s.lin z) - r.lin (n.toR.lin z - s.lin z)) +
          (m.toR.lin (s.lin z) - r.lin (s.lin z)) + r.lin (n.toR.lin z - s.lin z)) := by
      rw [Affine.lin_mul, Affine.lin_mul, Affine.lin_sub, Affine.lin_sub]
      ring
    rw [e]
    have k1 := h.linErr (n.toR.lin z - s.lin z)
    have k2 := h.linErr (s.lin z)
    have k3 := h.lin (n.toR.lin z - s.lin z)
    have k4 := k.linErr z
    have k5 := k.lin z
    have k6 := hround z
    have n1 := norm_add_le ((m.mul n).toR.lin z - (m.toR.mul n.toR).lin z)
      ((m.toR.lin (n.toR.lin z - s.lin z) - r.lin (n.toR.lin z - s.lin z)) +
          (m.toR.lin (s.lin z) - r.lin (s.lin z)) + r.lin (n.toR.lin z - s.lin z))
    have n2 := norm_add₃_le (a := m.toR.lin (n.toR.lin z - s.lin z) - r.lin (n.toR.lin z - s.lin z))
      (b := m.toR.lin (s.lin z) - r.lin (s.lin z)) (c := r.lin (n.toR.lin z - s.lin z))
    have k1' := k1.trans (mul_le_mul_of_nonneg_left k4 he1)
    have k2' := k2.trans (mul_le_mul_of_nonneg_left k5 he1)
    have k3' := k3.trans (mul_le_mul_of_nonneg_left k4 hL1)
    have : (e1 * L2 + L1 * e2 + e1 * e2 + ((L1 + e1) * (L2 + e2) / 2 ^ 49 + 1 / 2 ^ 1070)) * ‖z‖ =
        ((L1 + e1) * (L2 + e2) / 2 ^ 49 + 1 / 2 ^ 1070) * ‖z‖ +
        (e1 * (e2 * ‖z‖) + e1 * (L2 * ‖z‖) + L1 * (e2 * ‖z‖)) := by ring
    rw [this]
    linarith
  · have e : (m.mul n).toR.tr - (r.mul s).tr =
        ((m.mul n).toR.tr - (m.toR.mul n.toR).tr) +
        ((m.toR.lin (n.toR.tr - s.tr) - r.lin (n.toR.tr - s.tr)) +
          (m.toR.lin s.tr - r.lin s.tr) + r.lin (n.toR.tr - s.tr)) + (m.toR.tr - r.tr) := by
      rw [Affine.tr_mul, Affine.tr_mul, Affine.lin_sub, Affine.lin_sub]
      ring
    rw [e]
    have k1 := (h.linErr (n.toR.tr - s.tr)).trans (mul_le_mul_of_nonneg_left k.trErr he1)
    have k2 := (h.linErr s.tr).trans (mul_le_mul_of_nonneg_left k.tr he1)
    have k3 := (h.lin (n.toR.tr - s.tr)).trans (mul_le_mul_of_nonneg_left k.trErr hL1)
    have n0 := norm_add₃_le (a := (m.mul n).toR.tr - (m.toR.mul n.toR).tr)
      (b := (m.toR.lin (n.toR.tr - s.tr) - r.lin (n.toR.tr - s.tr)) +
          (m.toR.lin s.tr - r.lin s.tr) + r.lin (n.toR.tr - s.tr)) (c := m.toR.tr - r.tr)
    have n2 := norm_add₃_le (a := m.toR.lin (n.toR.tr - s.tr) - r.lin (n.toR.tr - s.tr))
      (b := m.toR.lin s.tr - r.lin s.tr) (c := r.lin (n.toR.tr - s.tr))
    linarith [h.trErr]

/-! ## One transform -/

theorem fits_translate {q : P2 F64} {r : P2 ℝ} (h1 : Approx q.x r.x (2 ^ 13) 0) (h2 : Approx q.y r.y (2 ^ 13) 0) :
    Fits (Affine.translate q) (Affine.translate r) 1 (2 ^ 14) 0 0 := by
  have z : (lit 0 : F64).toR = 0 := by simpa [sub_eq_zero] using near_lit0.err
  have o : (lit 1 : F64).toR = 1 := by simpa [sub_eq_zero] using near_lit1.err
  have e1 : q.x.toR = r.x := by simpa [sub_eq_zero] using h1.near.err
  have e2 : q.y.toR = r.y := by simpa [sub_eq_zero] using h2.near.err
  have e : (Affine.translate q).toR = Affine.translate r := by
    simp [Affine.toR, Affine.translate, z, o, e1, e2]
  refine ⟨⟨near_lit1.fin, near_lit0.fin, near_lit0.fin, near_lit1.fin, h1.near.fin, h2.near.fin⟩, by norm_num,
    by norm_num, ?_, ?_, ?_, ?_⟩
  · intro w
    have : (Affine.translate r).lin w = w := by
      apply Complex.ext <;> simp [Affine.lin, Affine.translate]
    rw [this, one_mul]
  · exact (norm_le_of_coords (B := 2 ^ 13) h1.bound h2.bound).trans (by norm_num)
  · intro w; rw [e]; simp
  · rw [e]; simp

/-- A matrix without translation. -/
theorem fits_linear {m : Affine F64} {r : Affine ℝ} {K u w L e : ℝ} (h : ApproxAff m r K u K w 0 0) (h0 : 0 ≤ L)
    (hl : ∀ z, ‖r.lin z‖ ≤ L * ‖z‖) (hu : 2 * u ≤ e) (hw : 2 * w ≤ e) : Fits m r L 0 e 0 := by
  have key : ∀ {x : F64} {y B d : ℝ}, Approx x y B d → 2 * d ≤ e → |x.toR - y| ≤ e / 2 := fun h k => by
    linarith [h.near.err]
  have he : 0 ≤ e := by linarith [h.a.err_nonneg]
  have e1 : r.e = 0 := abs_nonpos_iff.mp h.e.bound
  have e2 : r.f = 0 := abs_nonpos_iff.mp h.f.bound
  have e3 : m.e.toR = r.e := by simpa [sub_eq_zero] using h.e.near.err
  have e4 : m.f.toR = r.f := by simpa [sub_eq_zero] using h.f.near.err
  refine ⟨h.finite, h0, he, hl, ?_, ?_, ?_⟩
  · exact (norm_le_of_coords (B := 0) (by simp [Affine.tr, e1]) (by simp [Affine.tr, e2])).trans (by norm_num)
  · intro z
    refine (lin_close (d := e / 2) (key h.a hu) (key h.b hw) (key h.c hw) (key h.d hu) z).trans (le_of_eq ?_)
    ring
  · refine (norm_le_of_coords (B := 0) ?_ ?_).trans (by norm_num)
    · simp [Affine.tr, Affine.toR, e3]
    · simp [Affine.tr, Affine.toR, e4]

theorem norm_sq_eq (w : ℂ) : ‖w‖ ^ 2 = w.re ^ 2 + w.im ^ 2 := by
  rw [← Complex.normSq_eq_norm_sq, Complex.normSq_apply]
  ring

section
variable [Libm F64]

/-- A rotation by an angle that is known up to rounding. -/
theorem fits_turn (hl : AccurateLibm) {y : F64} {a : ℝ} (hy : Near y a (101 / 2 ^ 52)) (ha : |a| ≤ 2 ^ 12 * (1 / 57)) :
    Fits (Affine.rotate y) (Affine.rotate a) 1 0 (13 / 2 ^ 49) 0 := by
  have hb : y.Between (-(2 ^ 10)) (2 ^ 10) := hy.between (by
    refine (add_le_add_left ha _).trans ?_; norm_num)
  have z : (lit 0 : F64).toR = 0 := by simpa [sub_eq_zero] using near_lit0.err
  have hc := hl.cos y hb
  have hs := hl.sin y hb
  have ns : ∀ {x : F64}, x.isFin = true → (FloatOps.neg x).isFin = true ∧ (FloatOps.neg x).toR = -x.toR := by
    intro x hx
    have k := (Near.self hx).neg
    exact ⟨k.fin, by simpa [sub_eq_zero, add_eq_zero_iff_eq_neg] using k.err⟩
  -- the errors of the cosine and of the sine, as one complex number
  have e : ∀ w : ℂ, (Affine.rotate y).toR.lin w - (Affine.rotate a).lin w =
      (⟨(Libm.cos y).toR - Real.cos a, (Libm.sin y).toR - Real.sin a⟩ : ℂ) * w := by
    intro w
    apply Complex.ext <;>
      simp only [Affine.lin, Affine.rotate, Affine.toR, (ns hs.fin).2, real_cos, real_sin, real_neg, Complex.sub_re,
        Complex.sub_im, Complex.mul_re, Complex.mul_im] <;> ring
  have e2 : (⟨(Libm.cos y).toR - Real.cos a, (Libm.sin y).toR - Real.sin a⟩ : ℂ) =
      ⟨(Libm.cos y).toR - Real.cos y.toR, (Libm.sin y).toR - Real.sin y.toR⟩ +
      ⟨Real.cos y.toR - Real.cos a, Real.sin y.toR - Real.sin a⟩ := by
    apply Complex.ext <;> simp
  have n1 := norm_le_of_coords (z := ⟨(Libm.cos y).toR - Real.cos y.toR, (Libm.sin y).toR - Real.sin y.toR⟩)
    hc.err hs.err
  have n2 : ‖(⟨Real.cos y.toR - Real.cos a, Real.sin y.toR - Real.sin a⟩ : ℂ)‖ ≤ 101 / 2 ^ 52 := by
    refine le_trans ?_ hy.err
    refine abs_le_of_sq_le_sq' ?_ (abs_nonneg _) |>.2
    rw [norm_sq_eq, sq_abs]
    have h1 := Real.one_sub_sq_div_two_le_cos (x := y.toR - a)
    rw [Real.cos_sub] at h1
    have h2 := Real.sin_sq_add_cos_sq y.toR
    have h3 := Real.sin_sq_add_cos_sq a
    nlinarith
  refine ⟨⟨hc.fin, hs.fin, (ns hs.fin).1, hc.fin, near_lit0.fin, near_lit0.fin⟩, by norm_num, by norm_num, ?_, ?_, ?_,
    ?_⟩
  · intro z
    refine abs_le_of_sq_le_sq' ?_ (by positivity) |>.2
    rw [one_mul, norm_sq_eq, norm_sq_eq]
    have h := Real.sin_sq_add_cos_sq a
    simp only [Affine.lin, Affine.rotate, real_cos, real_sin, real_neg]
    refine le_of_eq ?_
    linear_combination (z.re ^ 2 + z.im ^ 2) * h
  · exact (norm_le_of_coords (B := 0) (by simp [Affine.tr, Affine.rotate]) (by simp [Affine.tr, Affine.rotate])).trans
      (by norm_num)
  · intro w
    rw [e, norm_mul, e2]
    have n3 := norm_add_le (⟨(Libm.cos y).toR - Real.cos y.toR, (Libm.sin y).toR - Real.sin y.toR⟩ : ℂ)
      ⟨Real.cos y.toR - Real.cos a, Real.sin y.toR - Real.sin a⟩
    refine mul_le_mul_of_nonneg_right (n3.trans ((add_le_add n1 n2).trans ?_)) (norm_nonneg _)
    norm_num
  · refine (norm_le_of_coords (B := 0) ?_ ?_).trans (by norm_num) <;> simp [Affine.tr, Affine.toR, Affine.rotate, z]

theorem fits_rotate (hl : AccurateLibm) {x : F64} (hx : x.Between (-(2 ^ 12)) (2 ^ 12)) :
    Fits (Affine.rotate (toRadians x)) (Affine.rotate (toRadians x.toR)) 1 0 (13 / 2 ^ 49) 0 ∧
    Fits (Affine.rotate (FloatOps.neg (toRadians x))) (Affine.rotate (FloatOps.neg (toRadians x.toR))) 1 0
      (13 / 2 ^ 49) 0 := by
  have hr : toRadians x.toR = x.toR * (Real.pi / 180) := by simp [toRadians]
  have hn := near_radians hl hx (le_refl _) (E := 101 / 2 ^ 52) (by norm_num) (by norm_num)
  have ha := abs_degrees hx
  rw [hr]
  refine ⟨fits_turn hl hn ha, fits_turn hl hn.neg ?_⟩
  rw [show (FloatOps.neg (x.toR * (Real.pi / 180)) : ℝ) = -(x.toR * (Real.pi / 180)) from rfl, abs_neg]
  exact ha

omit [Libm F64] in
/-- The tangent of an angle of up to 60 degrees. -/
theorem abs_tan_le {x : ℝ} (hx : |x| ≤ 60) : |Real.tan (x * (Real.pi / 180))| ≤ |x| / 28 := by
  have p0 := Real.pi_pos
  have e : |x * (Real.pi / 180)| = |x| * (Real.pi / 180) := by
    rw [abs_mul, abs_of_pos (show 0 < Real.pi / 180 by positivity)]
  have hle : |x * (Real.pi / 180)| ≤ Real.pi / 3 := by
    rw [e]
    nlinarith
  have hc : 1 / 2 ≤ Real.cos (x * (Real.pi / 180)) := by
    rw [← Real.cos_abs, ← Real.cos_pi_div_three]
    exact Real.cos_le_cos_of_nonneg_of_le_pi (abs_nonneg _) (by linarith) hle
  rw [Real.tan_eq_sin_div_cos, abs_div,
    abs_of_pos (show 0 < Real.cos (x * (Real.pi / 180)) by linarith), div_le_iff₀ (by linarith)]
  have h1 := (Real.abs_sin_le_abs (x := x * (Real.pi / 180)))
  have h2 := Real.pi_lt_d2
  have h0 := abs_nonneg x
  rw [e] at h1
  have h3 : |x| * (Real.pi / 180) ≤ |x| / 28 * (1 / 2) := by
    have : Real.pi / 180 ≤ 1 / 56 := by linarith
    nlinarith
  have h4 : |x| / 28 * (1 / 2) ≤ |x| / 28 * Real.cos (x * (Real.pi / 180)) := by gcongr
  linarith

/-- The matrix of a skew, by up to 60 degrees. -/
theorem fits_skew (hl : AccurateLibm) {k x : F64} (hk : k.Between (-60) 60) (hx : x.Between (-(2 ^ 12)) (2 ^ 12)) :
    Fits (skewMatrix k x) (skewMatrix k.toR x.toR) (1 + |k.toR| / 28) 0 ((1 + |k.toR| / 28) * (45 / 2 ^ 49))
      (1 / 2 ^ 1060) := by
  obtain ⟨g, hg⟩ : ∃ g, g = 1 + |k.toR| / 28 := ⟨_, rfl⟩
  have g1 : 1 ≤ g := by have := abs_nonneg k.toR; linarith
  have g4 : g ≤ 4 := by have := abs_le.mpr hk.2; linarith
  rw [← hg]
  unfold skewMatrix
  rw [eq_zero_toR hk.1]
  by_cases hk0 : k.toR = 0
  · have hb : (k.toR ==. lit 0) = true := by simpa using hk0
    rw [hb]
    simp only [Bool.not_true, Bool.false_eq_true, if_false]
    refine (fits_linear (K := 1) (u := 0) (w := 0)
      ⟨approx_one (le_refl _) (le_refl _), approx_zero (by norm_num) (le_refl _),
      approx_zero (by norm_num) (le_refl _), approx_one (le_refl _) (le_refl _),
      approx_zero (le_refl _) (le_refl _), approx_zero (le_refl _) (le_refl _)⟩ (show 0 ≤ g by linarith) ?_
      (show _ ≤ g * (45 / 2 ^ 49) by linarith) (by linarith)).mono (le_refl _) (le_refl _) (le_refl _) (by norm_num)
    intro z
    have : (Affine.identity : Affine ℝ).lin z = z := by
      apply Complex.ext <;> simp [Affine.lin, Affine.identity]
    rw [this]
    exact le_mul_of_one_le_left (norm_nonneg _) g1
  · have hb : (k.toR ==. lit 0) = false := by simpa using hk0
    rw [hb]
    simp only [Bool.not_false, if_true]
    have ht := approx_tan hl hk
    have hr : toRadians k.toR = k.toR * (Real.pi / 180) := by simp [toRadians]
    have hb := abs_tan_le (abs_le.mpr hk.2)
    rw [← hr] at hb
    have z0 : (lit 0 : F64).toR = 0 := by simpa [sub_eq_zero] using near_lit0.err
    have o1 : (lit 1 : F64).toR = 1 := by simpa [sub_eq_zero] using near_lit1.err
    have hs : Fits (Affine.skew (Libm.tan (toRadians k)) (lit 0))
        (Affine.skew (Libm.tan (toRadians k.toR)) (lit 0)) g 0 (16 / 2 ^ 49) 0 := by
      refine ⟨⟨near_lit1.fin, near_lit0.fin, ht.near.fin, near_lit1.fin, near_lit0.fin, near_lit0.fin⟩, by linarith,
        by norm_num, ?_, ?_, ?_, ?_⟩
      · intro z
        have e : ∀ t : ℝ, (Affine.skew t (lit 0)).lin z = z + ((t * z.im : ℝ) : ℂ) := by
          intro t
          apply Complex.ext <;> simp [Affine.lin, Affine.skew]
        rw [e]
        refine (norm_add_le _ _).trans ?_
        rw [real_tan, Complex.norm_real, Real.norm_eq_abs, abs_mul, hg]
        have := mul_le_mul hb (Complex.abs_im_le_norm z) (abs_nonneg _) (by positivity)
        linarith
      · exact (norm_le_of_coords (B := 0) (by simp [Affine.tr, Affine.skew]) (by simp [Affine.tr, Affine.skew])).trans
          (by norm_num)
      · intro z
        have e : ∀ t : ℝ, (Affine.skew (Libm.tan (toRadians k)) (lit 0)).toR.lin z -
            (Affine.skew t (lit 0)).lin z = ((((Libm.tan (toRadians k)).toR - t) * z.im : ℝ) : ℂ) := by
          intro t
          apply Complex.ext <;> simp [Affine.lin, Affine.skew, Affine.toR, z0, o1]
          ring
        rw [e, real_tan, Complex.norm_real, Real.norm_eq_abs, abs_mul]
        refine mul_le_mul (ht.near.err.trans (by norm_num)) (Complex.abs_im_le_norm z) (abs_nonneg _) (by norm_num)
      · refine (norm_le_of_coords (B := 0) ?_ ?_).trans (by norm_num) <;>
          simp [Affine.tr, Affine.toR, Affine.skew, z0]
    have tiny : (1 : ℝ) / 2 ^ 1070 ≤ 1 / 2 ^ 80 := by norm_num
    have c1 := ((fits_rotate hl hx).2.mul hs (by linarith) (by linarith)).mono (L' := g) (T' := 0)
      (e' := g * (301 / 10 / 2 ^ 49)) (t' := 1 / 2 ^ 1069) (by linarith) (by norm_num) (by linarith) (by norm_num)
    exact (c1.mul (fits_rotate hl hx).1 (by linarith) (by norm_num)).mono (by linarith) (by norm_num) (by linarith)
      (by norm_num)

omit [Libm F64] in
theorem fits_scale {p : P2 F64} {s : ℝ} (h1 : 1 ≤ s) (h2 : s ≤ 16) (hp : p.AtMost (100 * s)) :
    Fits (Affine.scaleNonUniform (p.x /. lit 100) (p.y /. lit 100))
      (Affine.scaleNonUniform (p.toR.x /. lit 100) (p.toR.y /. lit 100)) s 0 (s / 2 ^ 51) 0 := by
  have per : ∀ {x : F64}, x.Between (-(100 * s)) (100 * s) →
      Approx (x /. lit 100) (x.toR /. lit 100) s (s / 2 ^ 52) := by
    intro x hx
    have hb : |x.toR / 100| ≤ s := by
      rw [abs_div, abs_of_pos (show (0 : ℝ) < 100 by norm_num)]
      linarith [abs_le.mpr hx.2]
    have e : (x.toR /. lit 100 : ℝ) = x.toR / 100 := by simp
    rw [e]
    refine ⟨hx.near.div near_lit100 (by norm_num) (B := s) hb ?_ ?_, hb⟩
    · have : (1 : ℝ) / 2 ^ 1075 ≤ 1 / 2 ^ 53 := by norm_num
      rw [zero_div, zero_add, add_zero]
      linarith
    · have : (17 : ℝ) < 2 ^ 1024 := by norm_num
      linarith
  have a1 := per hp.1
  have a2 := per hp.2
  have s0 : 0 ≤ s := by linarith
  refine fits_linear (K := s) (u := s / 2 ^ 52) (w := 0)
    ⟨a1, approx_zero s0 (le_refl _), approx_zero s0 (le_refl _), a2,
      approx_zero (le_refl _) (le_refl _), approx_zero (le_refl _) (le_refl _)⟩ s0 ?_ (by linarith) (by linarith)
  intro z
  refine abs_le_of_sq_le_sq' ?_ (by positivity) |>.2
  rw [norm_sq_eq, mul_pow, norm_sq_eq]
  have b1 := sq_le_sq' (abs_le.mp a1.bound).1 (abs_le.mp a1.bound).2
  have b2 := sq_le_sq' (abs_le.mp a2.bound).1 (abs_le.mp a2.bound).2
  simp only [Affine.lin, Affine.scaleNonUniform, P2.toR, real_lit, Rat.cast_zero, zero_mul, add_zero, zero_add]
  rw [real_lit] at b1 b2
  generalize (p.x.toR /. ((100 : ℚ) : ℝ)) = X at *
  generalize (p.y.toR /. ((100 : ℚ) : ℝ)) = Y at *
  nlinarith [sq_nonneg z.re, sq_nonneg z.im]

/-- The matrix of a transform that stretches by at most `s`: by scaling at most `u`, and by its skew. -/
theorem fits_transform (hl : AccurateLibm) {a q p : P2 F64} {r k x : F64} {u s : ℝ} (h1 : 1 ≤ u) (h2 : u ≤ 16)
    (hus : u * (1 + |k.toR| / 28) ≤ s) (ha : a.AtMost (2 ^ 13)) (hq : q.AtMost (2 ^ 13)) (hs : p.AtMost (100 * u))
    (hr : r.Between (-(2 ^ 12)) (2 ^ 12)) (hk : k.Between (-60) 60) (hx : x.Between (-(2 ^ 12)) (2 ^ 12)) :
    Fits (transformMatrix a q r p k x) (transformMatrix a.toR q.toR r.toR p.toR k.toR x.toR)
      s (2 ^ 15 * s) (s / 2 ^ 43) (2 ^ 15 * (s / 2 ^ 43)) := by
  have hsk := fits_skew hl hk hx
  obtain ⟨g, hg⟩ : ∃ g, g = 1 + |k.toR| / 28 := ⟨_, rfl⟩
  have g1 : 1 ≤ g := by have := abs_nonneg k.toR; linarith
  have g4 : g ≤ 4 := by have := abs_le.mpr hk.2; linarith
  rw [← hg] at hsk hus
  have t1 : Fits (Affine.translate q) (Affine.translate q.toR) 1 (2 ^ 14) 0 0 :=
    fits_translate hq.1.approx hq.2.approx
  have t2 : Fits (Affine.translate ⟨FloatOps.neg a.x, FloatOps.neg a.y⟩)
      (Affine.translate ⟨FloatOps.neg a.toR.x, FloatOps.neg a.toR.y⟩) 1 (2 ^ 14) 0 0 :=
    fits_translate ha.1.approx.neg ha.2.approx.neg
  have tiny : (1 : ℝ) / 2 ^ 1070 ≤ 1 / 2 ^ 60 := by norm_num
  have tiny' : (1 : ℝ) / 2 ^ 1060 ≤ 1 / 2 ^ 60 := by norm_num
  have c1 := (t1.mul (fits_rotate hl hr).1 (by norm_num) (by norm_num)).mono (L' := 1) (T' := 2 ^ 14)
    (e' := 141 / 10 / 2 ^ 49) (t' := 2 / 2 ^ 34) (by norm_num) (by norm_num) (by norm_num) (by norm_num)
  have c2 := (c1.mul hsk (by linarith) (by linarith)).mono (L' := g) (T' := 2 ^ 14)
    (e' := g * (602 / 10 / 2 ^ 49)) (t' := 4 / 2 ^ 34) (by linarith) (by norm_num) (by linarith) (by linarith)
  have gu : g * u ≤ 64 := by nlinarith
  have gu1 : 1 ≤ g * u := one_le_mul_of_one_le_of_one_le g1 h1
  have e1 : g * (602 / 10 / 2 ^ 49) * u = 602 / 10 / 2 ^ 49 * (g * u) := by ring
  have e2 : g * (u / 2 ^ 51) = (g * u) / 2 ^ 51 := by ring
  have e3 : g * (602 / 10 / 2 ^ 49) * (u / 2 ^ 51) = 602 / 10 / 2 ^ 100 * (g * u) := by ring
  have e4 : (g + g * (602 / 10 / 2 ^ 49)) * (u + u / 2 ^ 51) = (1 + 602 / 10 / 2 ^ 49) * (1 + 1 / 2 ^ 51) * (g * u) := by
    ring
  have c3 := (c2.mul (fits_scale h1 h2 hs) (by rw [e4]; linarith) (by norm_num)).mono (L' := g * u) (T' := 2 ^ 14)
    (e' := g * u * (616 / 10 / 2 ^ 49)) (t' := 6 / 2 ^ 34) (le_refl _) (by norm_num)
    (by rw [e1, e2, e3, e4]; linarith) (by norm_num)
  have su : g * u ≤ s := by linarith
  refine (c3.mul t2 (by linarith) (by linarith)).mono (by linarith) (by linarith) (by linarith) (by linarith)

end

/-! ## Many transforms -/

/-- The matrix of `n` transforms that scale by at most `s`. -/
def Multiplied (s : ℝ) (n : Nat) (m : Affine F64) (r : Affine ℝ) : Prop :=
  Fits m r (s ^ n) (n * 2 ^ 15 * s ^ n) ((2 * n - 1) / 2 ^ 43 * s ^ n) (2 * n ^ 2 * 2 ^ 15 / 2 ^ 43 * s ^ n)

theorem Multiplied.mul {s : ℝ} (h1 : 1 ≤ s) (h2 : s ≤ 16) {i j : Nat} (hi : 1 ≤ i) (hj : 1 ≤ j) (hij : i + j ≤ 41)
    {m n : Affine F64} {r t : Affine ℝ} (h : Multiplied s i m r) (k : Multiplied s j n t) :
    Multiplied s (i + j) (m.mul n) (r.mul t) := by
  unfold Multiplied at *
  have x1 : (1 : ℝ) ≤ i := by exact_mod_cast hi
  have y1 : (1 : ℝ) ≤ j := by exact_mod_cast hj
  have xy : (i : ℝ) + j ≤ 41 := by exact_mod_cast hij
  have a1 : 1 ≤ s ^ i := one_le_pow₀ h1
  have b1 : 1 ≤ s ^ j := one_le_pow₀ h1
  have ab : s ^ i * s ^ j ≤ 2 ^ 164 := by
    rw [← pow_add]
    calc s ^ (i + j) ≤ 16 ^ (i + j) := by gcongr
      _ ≤ 16 ^ 41 := pow_le_pow_right₀ (by norm_num) hij
      _ = 2 ^ 164 := by norm_num
  push_cast
  rw [pow_add]
  generalize (i : ℝ) = x at *
  generalize (j : ℝ) = y at *
  generalize s ^ i = a at *
  generalize s ^ j = b at *
  have a0 : 0 < a := by linarith
  have b0 : 0 < b := by linarith
  have x41 : x ≤ 40 := by linarith
  have y41 : y ≤ 40 := by linarith
  have u1 : 1 ≤ a * b := one_le_mul_of_one_le_of_one_le a1 b1
  have au : a ≤ a * b := le_mul_of_one_le_right a0.le b1
  have xy1 : 1 ≤ x * y := one_le_mul_of_one_le_of_one_le x1 y1
  have sum : x + y ≤ 2 * (x * y) := by nlinarith
  -- the relative errors of the factors
  obtain ⟨P, hP⟩ : ∃ P, P = (2 * x - 1) / 2 ^ 43 := ⟨_, rfl⟩
  obtain ⟨Q, hQ⟩ : ∃ Q, Q = (2 * y - 1) / 2 ^ 43 := ⟨_, rfl⟩
  obtain ⟨U, hU⟩ : ∃ U, U = 2 * x ^ 2 * 2 ^ 15 / 2 ^ 43 := ⟨_, rfl⟩
  obtain ⟨V, hV⟩ : ∃ V, V = 2 * y ^ 2 * 2 ^ 15 / 2 ^ 43 := ⟨_, rfl⟩
  rw [← hP, ← hU] at h
  rw [← hQ, ← hV] at k
  have P0 : 0 ≤ P := by rw [hP]; apply div_nonneg <;> linarith
  have Q0 : 0 ≤ Q := by rw [hQ]; apply div_nonneg <;> linarith
  have P1 : P ≤ 1 / 2 ^ 36 := by rw [hP]; linarith
  have Q1 : Q ≤ 1 / 2 ^ 36 := by rw [hQ]; linarith
  have U1 : U ≤ x / 2 ^ 20 := by rw [hU]; nlinarith
  have V1 : V ≤ y / 2 ^ 20 := by rw [hV]; nlinarith
  have U0 : 0 ≤ U := by rw [hU]; positivity
  have V0 : 0 ≤ V := by rw [hV]; positivity
  have PQ : P * Q ≤ 1 / 2 ^ 72 := by
    calc P * Q ≤ 1 / 2 ^ 36 * (1 / 2 ^ 36) := by gcongr
      _ = 1 / 2 ^ 72 := by norm_num
  have PV : P * V ≤ y / 2 ^ 56 := by
    calc P * V ≤ 1 / 2 ^ 36 * (y / 2 ^ 20) := by gcongr
      _ = y / 2 ^ 56 := by ring
  have Py : P * y ≤ y / 2 ^ 36 := by
    calc P * y ≤ 1 / 2 ^ 36 * y := by gcongr
      _ = y / 2 ^ 36 := by ring
  have tiny : (1 : ℝ) / 2 ^ 1070 ≤ 1 / 2 ^ 80 * (a * b) := by
    have : (1 : ℝ) / 2 ^ 1070 ≤ 1 / 2 ^ 80 := by norm_num
    nlinarith
  have big : (2 : ℝ) ^ 164 * 2 ^ 100 ≤ 2 ^ 990 := by norm_num
  have hlin : (a + P * a) * (b + Q * b) = (1 + (P + Q + P * Q)) * (a * b) := by ring
  have htr : (a + P * a) * (y * 2 ^ 15 * b + V * b) =
      (2 ^ 15 * y + 2 ^ 15 * (P * y) + V + P * V) * (a * b) := by ring
  have c1 : (2 ^ 15 * y + 2 ^ 15 * (P * y) + V + P * V) * (a * b) ≤ (2 ^ 16 * y) * (a * b) :=
    mul_le_mul_of_nonneg_right (by linarith) (by linarith)
  have c2 : x * 2 ^ 15 * a + U * a ≤ (2 ^ 16 * x) * (a * b) := by
    calc x * 2 ^ 15 * a + U * a = (2 ^ 15 * x + U) * a := by ring
      _ ≤ (2 ^ 16 * x) * a := mul_le_mul_of_nonneg_right (by linarith) a0.le
      _ ≤ _ := mul_le_mul_of_nonneg_left au (by linarith)
  have c3 : (2 ^ 16 * y) * (a * b) + (2 ^ 16 * x) * (a * b) ≤ 2 ^ 17 * (x * y) * (a * b) := by
    rw [← add_mul]
    exact mul_le_mul_of_nonneg_right (by linarith) (by linarith)
  have c4 : 2 ^ 17 * (x * y) * (a * b) ≤ 2 ^ 17 * 1600 * 2 ^ 164 := by
    have : x * y ≤ 1600 := by nlinarith
    have p0 : 0 ≤ a * b := by linarith
    calc 2 ^ 17 * (x * y) * (a * b) ≤ 2 ^ 17 * 1600 * (a * b) := by gcongr
      _ ≤ _ := by gcongr
  refine (h.mul k ?_ ?_).mono (le_refl _) ?_ ?_ ?_
  · rw [hlin]
    have : (1 + (P + Q + P * Q)) * (a * b) ≤ 2 * (a * b) :=
      mul_le_mul_of_nonneg_right (by linarith) (by linarith)
    linarith
  · rw [htr]
    linarith
  · calc x * 2 ^ 15 * a + a * (y * 2 ^ 15 * b) ≤ x * 2 ^ 15 * (a * b) + a * (y * 2 ^ 15 * b) := by gcongr
      _ = _ := by ring
  · rw [hlin]
    have e : (2 * (x + y) - 1) / 2 ^ 43 * (a * b) = (P + Q + 1 / 2 ^ 43) * (a * b) := by rw [hP, hQ]; ring
    rw [e]
    have e2 : P * a * b + a * (Q * b) + P * a * (Q * b) +
        ((1 + (P + Q + P * Q)) * (a * b) / 2 ^ 49 + 1 / 2 ^ 80 * (a * b)) =
        (P + Q + P * Q + (1 + (P + Q + P * Q)) / 2 ^ 49 + 1 / 2 ^ 80) * (a * b) := by ring
    have : (P + Q + P * Q + (1 + (P + Q + P * Q)) / 2 ^ 49 + 1 / 2 ^ 80) * (a * b) ≤
        (P + Q + 1 / 2 ^ 43) * (a * b) := mul_le_mul_of_nonneg_right (by linarith) (by linarith)
    linarith
  · rw [htr]
    have e : 2 * (x + y) ^ 2 * 2 ^ 15 / 2 ^ 43 * (a * b) = (U + V + x * y / 2 ^ 26) * (a * b) := by
      rw [hU, hV]; ring
    rw [e]
    have k1 : P * y ≤ 2 * (x * y) / 2 ^ 43 := by
      rw [hP]
      have : (2 * x - 1) / 2 ^ 43 * y = (2 * (x * y) - y) / 2 ^ 43 := by ring
      rw [this]
      linarith
    have k2 : P * V ≤ (x * y) / 2 ^ 56 := PV.trans (by
      have : y ≤ x * y := le_mul_of_one_le_left (by linarith) x1
      linarith)
    have k3 : (U + 2 ^ 15 * (P * y) + V + P * V + 2 ^ 17 * (x * y) / 2 ^ 48 + 1 / 2 ^ 80) * (a * b) ≤
        (U + V + x * y / 2 ^ 26) * (a * b) := mul_le_mul_of_nonneg_right (by linarith) (by linarith)
    have k4 : U * a ≤ U * (a * b) := mul_le_mul_of_nonneg_left au U0
    have e3 : P * a * (y * 2 ^ 15 * b) = 2 ^ 15 * (P * y) * (a * b) := by ring
    have e4 : a * (V * b) = V * (a * b) := by ring
    have e5 : P * a * (V * b) = P * V * (a * b) := by ring
    rw [e3, e4, e5]
    have e6 : (U + 2 ^ 15 * (P * y) + V + P * V + 2 ^ 17 * (x * y) / 2 ^ 48 + 1 / 2 ^ 80) * (a * b) =
        U * (a * b) + 2 ^ 15 * (P * y) * (a * b) + V * (a * b) + P * V * (a * b) +
          2 ^ 17 * (x * y) * (a * b) / 2 ^ 48 + 1 / 2 ^ 80 * (a * b) := by ring
    linarith

/-- How far points are put from where they are meant to be. -/
theorem Multiplied.apply {s : ℝ} (h1 : 1 ≤ s) {n : Nat} (hn : 1 ≤ n) {m : Affine F64} {r : Affine ℝ}
    (h : Multiplied s n m r) {p : P2 ℝ} (hx : |p.x| ≤ 2 ^ 13) (hy : |p.y| ≤ 2 ^ 13) :
    CloseTo (3 / 4 * (n ^ 2 * s ^ n / 2 ^ 26)) (m.toR.apply p) (r.apply p) := by
  have x1 : (1 : ℝ) ≤ n := by exact_mod_cast hn
  have a1 : 1 ≤ s ^ n := one_le_pow₀ h1
  have hz := norm_le_of_coords (z := ⟨p.x, p.y⟩) hx hy
  have e : ‖(m.toR.lin ⟨p.x, p.y⟩ + m.toR.tr) - (r.lin ⟨p.x, p.y⟩ + r.tr)‖ ≤ 3 / 4 * (n ^ 2 * s ^ n / 2 ^ 26) := by
    have k0 : (m.toR.lin ⟨p.x, p.y⟩ + m.toR.tr) - (r.lin ⟨p.x, p.y⟩ + r.tr) =
        (m.toR.lin ⟨p.x, p.y⟩ - r.lin ⟨p.x, p.y⟩) + (m.toR.tr - r.tr) := by ring
    rw [k0]
    have k1 := h.linErr ⟨p.x, p.y⟩
    have k2 := h.trErr
    have k3 := norm_add_le (m.toR.lin ⟨p.x, p.y⟩ - r.lin ⟨p.x, p.y⟩) (m.toR.tr - r.tr)
    have k4 := mul_le_mul_of_nonneg_left hz h.e0
    generalize (n : ℝ) = x at *
    generalize s ^ n = a at *
    have k5 : (2 * x - 1) / 2 ^ 43 * a * (2 * 2 ^ 13) ≤ x ^ 2 * 2 ^ 15 / 2 ^ 43 * a := by
      have : 2 * x - 1 ≤ x ^ 2 := by nlinarith [sq_nonneg (x - 1)]
      calc (2 * x - 1) / 2 ^ 43 * a * (2 * 2 ^ 13) ≤ x ^ 2 / 2 ^ 43 * a * (2 * 2 ^ 13) := by gcongr
        _ ≤ x ^ 2 / 2 ^ 43 * a * 2 ^ 15 := by gcongr; norm_num
        _ = _ := by ring
    have e : 3 / 4 * (x ^ 2 * a / 2 ^ 26) = x ^ 2 * 2 ^ 15 / 2 ^ 43 * a + 2 * x ^ 2 * 2 ^ 15 / 2 ^ 43 * a := by ring
    linarith
  have re := (Complex.abs_re_le_norm _).trans e
  have im := (Complex.abs_im_le_norm _).trans e
  rw [Complex.sub_re, Affine.apply_re, Affine.apply_re] at re
  rw [Complex.sub_im, Affine.apply_im, Affine.apply_im] at im
  exact ⟨re, im⟩

end Velato
