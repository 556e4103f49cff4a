import Verif.Spec.Tame
import Verif.Proofs.ModerateValues
import Verif.Props.Folding

/-!
# Documents with moderate numbers: helper lemmas
-/

set_option exponentiation.threshold 2000

namespace Velato
open FloatOps (lit)
open F64
open Import

/-! ## Rounding to single precision -/

theorem toF32_mono_large {x : F64} {p q : ℚ} (h : x.Between (-(p : ℝ)) (q : ℝ)) (hp : roundMag fmt32 p ≤ 2 ^ 20)
    (hq : roundMag fmt32 q ≤ 2 ^ 20) : (FloatOps.toF32 x).Between
      (-((rnd (roundMag fmt32 p) : ℚ) : ℝ)) ((rnd (roundMag fmt32 q) : ℚ) : ℝ) := by
  obtain ⟨hf, hl, hu⟩ := h
  obtain ⟨s, a, ha, rfl⟩ := isFin_iff.mp hf
  have ha0 := isRepr_nonneg ha.1
  have hm0 := roundMag_nonneg fmt32 a
  have key : ∀ q : ℚ, |q| ≤ 2 ^ 20 → (ofRat s q).isFin = true ∧ (ofRat s q).toQ = rnd q := by
    intro q hq
    apply ofRat_fin
    rw [abs_rnd]
    refine lt_of_le_of_lt (roundMag_mono hq) ?_
    rw [show ((2 : ℚ) ^ 20) = ((2 ^ 20 : ℕ) : ℚ) by norm_num,
      roundMag_of_repr (repr_natCast (f := fmt64) (n := 2 ^ 20) (by decide) (by decide))]
    unfold maxMag; norm_num
  have r0 : 0 ≤ rnd (roundMag fmt32 a) := rnd_zero ▸ rnd_mono hm0
  have p0 : 0 ≤ rnd (roundMag fmt32 p) := rnd_zero ▸ rnd_mono (roundMag_nonneg fmt32 p)
  have q0 : 0 ≤ rnd (roundMag fmt32 q) := rnd_zero ▸ rnd_mono (roundMag_nonneg fmt32 q)
  cases s with
  | false =>
    have ha1 : a ≤ q := by
      have : ((a : ℚ) : ℝ) ≤ (q : ℝ) := by simpa [F64.toR, F64.toQ] using hu
      exact_mod_cast this
    have hm : roundMag fmt32 a ≤ 2 ^ 20 := (roundMag_mono ha1).trans hq
    have e : FloatOps.toF32 (F64.fin false a ha) = ofRat false (roundMag fmt32 a) := by
      show F64.toF32 _ = _
      simp only [F64.toF32]
      rw [if_pos (lt_of_le_of_lt hm (by norm_num))]; simp
    rw [e]
    obtain ⟨k1, k2⟩ := key (roundMag fmt32 a) (by rw [abs_of_nonneg hm0]; exact hm)
    refine ⟨k1, ?_, ?_⟩ <;> unfold F64.toR <;> rw [k2]
    · exact_mod_cast (neg_nonpos.mpr p0).trans r0
    · exact_mod_cast rnd_mono (roundMag_mono ha1)
  | true =>
    have ha1 : a ≤ p := by
      have : (-(p : ℝ)) ≤ -((a : ℚ) : ℝ) := by simpa [F64.toR, F64.toQ] using hl
      exact_mod_cast neg_le_neg_iff.mp this
    have hm : roundMag fmt32 a ≤ 2 ^ 20 := (roundMag_mono ha1).trans hp
    have e : FloatOps.toF32 (F64.fin true a ha) = ofRat true (-(roundMag fmt32 a)) := by
      show F64.toF32 _ = _
      simp only [F64.toF32]
      rw [if_pos (lt_of_le_of_lt hm (by norm_num))]; simp
    rw [e]
    obtain ⟨k1, k2⟩ := key (-(roundMag fmt32 a)) (by rw [abs_neg, abs_of_nonneg hm0]; exact hm)
    refine ⟨k1, ?_, ?_⟩ <;> unfold F64.toR <;> rw [k2, rnd_neg]
    · have := rnd_mono (roundMag_mono (f := fmt32) ha1)
      exact_mod_cast neg_le_neg this
    · exact_mod_cast (neg_nonpos.mpr r0).trans q0

theorem toF32_mono {x : F64} {p q : ℚ} (h : x.Between (-(p : ℝ)) (q : ℝ)) (hp : roundMag fmt32 p ≤ 1)
    (hq : roundMag fmt32 q ≤ 1) : (FloatOps.toF32 x).Between
      (-((rnd (roundMag fmt32 p) : ℚ) : ℝ)) ((rnd (roundMag fmt32 q) : ℚ) : ℝ) :=
  toF32_mono_large h (hp.trans (by norm_num)) (hq.trans (by norm_num))

/-! ## Matrices -/

theorem Affine.AtMost.finite {B : ℝ} {m : Affine F64} (h : m.AtMost B) : m.Finite :=
  ⟨h.1.1, h.2.1.1, h.2.2.1.1, h.2.2.2.1.1, h.2.2.2.2.1.1, h.2.2.2.2.2.1⟩

theorem F64.Between.mono {x : F64} {lo hi lo' hi' : ℝ} (h : x.Between lo hi) (h1 : lo' ≤ lo) (h2 : hi ≤ hi') :
    x.Between lo' hi' := ⟨h.1, h1.trans h.2.1, h.2.2.trans h2⟩

theorem Affine.AtMost.mono {A B : ℝ} {m : Affine F64} (h : m.AtMost A) (hB : A ≤ B) : m.AtMost B := by
  obtain ⟨h1, h2, h3, h4, h5, h6⟩ := h
  have n := neg_le_neg hB
  exact ⟨h1.mono n hB, h2.mono n hB, h3.mono n hB, h4.mono n hB, h5.mono n hB, h6.mono n hB⟩

theorem Affine.AtMost.mul {A B : ℝ} {m n : Affine F64} (hm : m.AtMost A) (hn : n.AtMost B) (hA : 1 ≤ A)
    (hB : 1 ≤ B) (hM : 4 * (A * B) ≤ 2 ^ 1010) : (m.mul n).AtMost (4 * (A * B)) := by
  have hu : 1 ≤ A * B := one_le_mul_of_one_le_of_one_le hA hB
  have hAu : A ≤ A * B := le_mul_of_one_le_right (by linarith) hB
  have hs : (1 : ℝ) / 2 ^ 1075 ≤ 1 / 2 ^ 53 := by norm_num
  have hbig : (2 : ℝ) ^ 1010 * 2 < 2 ^ 1024 := by norm_num
  generalize hU : A * B = u at *
  have two : ∀ {x y z w : F64}, x.Between (-A) A → y.Between (-B) B → z.Between (-A) A → w.Between (-B) B →
      Near (x *. y +. z *. w) (x.toR * y.toR + z.toR * w.toR) (u / 2 ^ 48) ∧
      |x.toR * y.toR + z.toR * w.toR| ≤ 2 * u := by
    intro x y z w hx hy hz hw
    have ax : |x.toR| ≤ A := abs_le.mpr hx.2
    have ay : |y.toR| ≤ B := abs_le.mpr hy.2
    have az : |z.toR| ≤ A := abs_le.mpr hz.2
    have aw : |w.toR| ≤ B := abs_le.mpr hw.2
    have m1 := (Near.self hx.1).mul (Near.self hy.1) ax ay (E := u / 2 ^ 52) (by
      rw [hU]; simp only [mul_zero, add_zero, zero_add]; linarith) (by rw [hU]; linarith)
    have m2 := (Near.self hz.1).mul (Near.self hw.1) az aw (E := u / 2 ^ 52) (by
      rw [hU]; simp only [mul_zero, add_zero, zero_add]; linarith) (by rw [hU]; linarith)
    have b1 : |x.toR * y.toR| ≤ u := by
      rw [abs_mul, ← hU]
      exact mul_le_mul ax ay (abs_nonneg _) (by linarith)
    have b2 : |z.toR * w.toR| ≤ u := by
      rw [abs_mul, ← hU]
      exact mul_le_mul az aw (abs_nonneg _) (by linarith)
    have b : |x.toR * y.toR + z.toR * w.toR| ≤ 2 * u := (abs_add_le _ _).trans (by linarith)
    exact ⟨m1.add m2 b (by linarith) (by linarith), b⟩
  have lin : ∀ {x y z w : F64}, x.Between (-A) A → y.Between (-B) B → z.Between (-A) A → w.Between (-B) B →
      (x *. y +. z *. w).Between (-(4 * u)) (4 * u) := by
    intro x y z w hx hy hz hw
    obtain ⟨h1, h2⟩ := two hx hy hz hw
    exact h1.between (by linarith)
  have tra : ∀ {x y z w t : F64}, x.Between (-A) A → y.Between (-B) B → z.Between (-A) A → w.Between (-B) B →
      t.Between (-A) A → (x *. y +. z *. w +. t).Between (-(4 * u)) (4 * u) := by
    intro x y z w t hx hy hz hw ht
    obtain ⟨h1, h2⟩ := two hx hy hz hw
    have at' : |t.toR| ≤ u := (abs_le.mpr ht.2).trans hAu
    have b : |x.toR * y.toR + z.toR * w.toR + t.toR| ≤ 3 * u := (abs_add_le _ _).trans (by linarith)
    have := h1.add (Near.self ht.1) b (E := u / 2 ^ 40) (by linarith) (by linarith)
    exact this.between (by linarith)
  obtain ⟨a1, a2, a3, a4, a5, a6⟩ := hm
  obtain ⟨b1, b2, b3, b4, b5, b6⟩ := hn
  exact ⟨lin a1 b1 a3 b2, lin a2 b1 a4 b2, lin a1 b3 a3 b4, lin a2 b3 a4 b4, tra a1 b5 a3 b6 a5,
    tra a2 b5 a4 b6 a6⟩

/-- The matrix of at most `n + 1` transforms. -/
def Placement (n : Nat) (m : Affine F64) : Prop := m.AtMost (2 ^ (24 * n + 22))

theorem Placement.mono {n k : Nat} {m : Affine F64} (h : Placement n m) (hk : n ≤ k) : Placement k m :=
  Affine.AtMost.mono h (pow_le_pow_right₀ (by norm_num) (by omega))

theorem Placement.mul {n k : Nat} {m m' : Affine F64} (h : Placement n m) (h' : Placement k m')
    (hk : n + k + 1 ≤ 41) : Placement (n + k + 1) (m.mul m') := by
  have e : (4 : ℝ) * (2 ^ (24 * n + 22) * 2 ^ (24 * k + 22)) = 2 ^ (24 * (n + k + 1) + 22) := by
    rw [← pow_add, show (4 : ℝ) = 2 ^ 2 by norm_num, ← pow_add]
    congr 1
    ring
  have := Affine.AtMost.mul h h' (one_le_pow₀ (by norm_num)) (one_le_pow₀ (by norm_num)) (by
    rw [e]
    exact pow_le_pow_right₀ (by norm_num) (by omega))
  rwa [e] at this

theorem Placement.finite {n : Nat} {m : Affine F64} (h : Placement n m) : m.Finite := Affine.AtMost.finite h

theorem placement_identity : Placement 0 Affine.identity := by
  have h1 : (lit 1 : F64).Between (-(2 ^ (24 * 0 + 22))) (2 ^ (24 * 0 + 22)) :=
    lit_one_between.mono (by norm_num) (by norm_num)
  have h0 : (lit 0 : F64).Between (-(2 ^ (24 * 0 + 22))) (2 ^ (24 * 0 + 22)) := lit_zero_between (by norm_num)
  exact ⟨h1, h0, h0, h1, h0, h0⟩

section
variable [Libm F64] [Kurbo F64]

omit [Libm F64] [Kurbo F64] in
theorem ApproxAff.atMost {m : Affine F64} {r : Affine ℝ} {L u K w T v B : ℝ} (h : ApproxAff m r L u K w T v)
    (h1 : L + u ≤ B) (h2 : K + w ≤ B) (h3 : T + v ≤ B) : m.AtMost B := by
  have key : ∀ {x : F64} {r C e : ℝ}, Approx x r C e → C + e ≤ B → x.Between (-B) B := fun hx hB =>
    hx.near.between ((add_le_add_left hx.bound _).trans hB)
  exact ⟨key h.a h1, key h.b h2, key h.c h2, key h.d h1, key h.e h3, key h.f h3⟩

/-- The matrix of a moderate transform. -/
theorem placement_transform (hl : AccurateLibm) {v : Schema.Transform F64} {rot : Schema.FloatValue F64}
    {P : Position F64} {t : Transform F64} {o : Value F64 F64} (h : convTransformWith v rot P = .ok (t, o))
    (hv : v.Moderate) (hrot : ScalarWithin (-4000) 4000 rot) (frame : F64)
    (hP : (P.evaluate frame).AtMost (2 ^ 13)) : Placement 0 (t.evaluate frame) := by
  obtain ⟨R, hR, h⟩ := bind_ok h
  obtain ⟨K, hK, h⟩ := bind_ok h
  obtain ⟨X, hX, h⟩ := bind_ok h
  obtain ⟨O, hO, h⟩ := bind_ok h
  cases h
  have ha : ((convPosPoint (v.anchorPoint.getD positionZero)).evaluate frame).AtMost (2 ^ 13) := by
    refine position_within (p := v.anchorPoint.getD positionZero) ?_ frame
    cases ha : v.anchorPoint with
    | none => exact ⟨_, _, _, rfl, lit_zero_between (by norm_num), lit_zero_between (by norm_num)⟩
    | some p => exact hv.anchor p ha
  have hs : ((convMultiP2 (v.scale.getD multidimOne)).evaluate frame).AtMost 1600 := by
    have key : VectorWithin (-1500) 1500 (-1500) 1500 (v.scale.getD multidimOne) := by
      cases hs : v.scale with
      | none =>
        have : (lit 1 : F64).Between (-1500) 1500 := lit_one_between.mono (by norm_num) (by norm_num)
        exact ⟨_, _, _, rfl, this, this⟩
      | some p => exact hv.scale p hs
    have h := C114_vectors key (M := 1500) (by norm_num) (by norm_num) (by norm_num) (by norm_num)
      (by norm_num) frame RDefault.dflt
    rw [← Value.evaluate_eq] at h
    have e : overshoot (-1500) 1500 1500 ≤ 100 := by unfold overshoot; norm_num
    exact ⟨h.1.mono (by linarith) (by linarith), h.2.mono (by linarith) (by linarith)⟩
  have hr : (R.evaluate frame).Between (-(2 ^ 12)) (2 ^ 12) := scalar_within hR hrot (M := 4000) (by norm_num)
    (by norm_num) (by unfold overshoot; norm_num) frame
  have hk : (K.evaluate frame).Between (-60) 60 := by
    refine scalar_within hK (lo := 59) ?_ (M := 59) (by norm_num) (by norm_num)
      (by unfold overshoot; norm_num) frame
    cases hs : v.skew with
    | none => exact lit_zero_between (by norm_num)
    | some p => exact hv.skew p hs
  have hx : (X.evaluate frame).Between (-(2 ^ 12)) (2 ^ 12) := by
    refine scalar_within hX (lo := 4000) ?_ (M := 4000) (by norm_num) (by norm_num)
      (by unfold overshoot; norm_num) frame
    cases hs : v.skewAxis with
    | none => exact lit_zero_between (by norm_num)
    | some p => exact hv.axis p hs
  unfold Placement
  rw [C11_transform]
  by_cases hk0 : (K.evaluate frame).toR = 0
  · exact (approx_transform hl ha hP hs hr hk.1 hk0).atMost (by norm_num) (by norm_num) (by norm_num)
  · exact (approx_transform_skewed hl ha hP hs hr hk hk0 hx).atMost (by norm_num) (by norm_num) (by norm_num)

theorem placement_layer (hl : AccurateLibm) {v : Schema.Transform F64} {t : Transform F64}
    {o : Value F64 F64} (h : convTransform v = .ok (t, o)) (hv : v.Moderate) (frame : F64) :
    Placement 0 (t.evaluate frame) := by
  obtain ⟨rot, hrot, h⟩ := bind_ok h
  obtain ⟨P, hP, h⟩ := bind_ok h
  refine placement_transform hl h hv ?_ frame ?_
  · unfold layerRotation at hrot
    split at hrot
    · cases hrot; exact hv.rotation _ (by assumption)
    · cases hrot
    · cases hrot
  · cases hq : v.position with
    | position q =>
      rw [hq] at hP
      cases hP
      exact position_within (hv.position q hq) frame
    | splitPosition q =>
      rw [hq] at hP
      obtain ⟨x, hx, hP⟩ := bind_ok hP
      obtain ⟨y, hy, hP⟩ := bind_ok hP
      cases hP
      obtain ⟨k1, k2⟩ := hv.split q hq
      exact ⟨scalar_within hx k1 (B := 2 ^ 13) (M := 8000) (by norm_num) (by norm_num)
          (by unfold overshoot; norm_num) frame,
        scalar_within hy k2 (B := 2 ^ 13) (M := 8000) (by norm_num) (by norm_num)
          (by unfold overshoot; norm_num) frame⟩

theorem placement_group (hl : AccurateLibm) {s : Schema.TransformShape F64} {g : GroupTransform F64}
    (h : convShapeTransform s = .ok g) (hv : s.transform.Moderate) (frame : F64) :
    Placement 0 (g.transform.evaluate frame) := by
  obtain ⟨rot, hrot, h⟩ := bind_ok h
  obtain ⟨P, hP, h⟩ := bind_ok h
  obtain ⟨⟨t, o⟩, h', e⟩ := bind_ok h
  cases e
  refine placement_transform hl h' hv ?_ frame ?_
  · unfold groupRotation at hrot
    split at hrot
    · cases hrot; exact hv.rotation _ (by assumption)
    · cases hrot
    · cases hrot; exact lit_zero_between (by norm_num)
  · cases hq : s.transform.position with
    | position q =>
      rw [hq] at hP
      cases hP
      exact position_within (hv.position q hq) frame
    | splitPosition q =>
      rw [hq] at hP
      cases hP

end

/-! ## Opacities -/

/-- An opacity factor that is the product of at most `n` opacities. -/
def Faded (n : Nat) (x : F64) : Prop :=
  x.Between (-(6 / 10 ^ 11 * (1 + 6 / 10 ^ 11) ^ n)) ((1 + 6 / 10 ^ 11) ^ n)

theorem Faded.mono {n k : Nat} {x : F64} (h : Faded n x) (hk : n ≤ k) : Faded k x := by
  have : ((1 : ℝ) + 6 / 10 ^ 11) ^ n ≤ (1 + 6 / 10 ^ 11) ^ k := pow_le_pow_right₀ (by norm_num) hk
  exact F64.Between.mono h (by linarith) this

theorem fade_bound {n : Nat} (hn : n ≤ 42) : ((1 : ℝ) + 6 / 10 ^ 11) ^ n ≤ 1 + 1 / 10 ^ 8 :=
  (pow_le_pow_right₀ (by norm_num) hn).trans (by norm_num)

/-- Bounds of a rounded product. -/
theorem fade_step {C a k e : ℝ} (hC : 1 ≤ C) (h1 : -(6 / 10 ^ 11 * C) ≤ a) (h2 : a ≤ C)
    (k1 : -(51 / 10 ^ 12) ≤ k) (k2 : k ≤ 1 + 51 / 10 ^ 12) (he : |e - a * k| ≤ |a * k| / 2 ^ 50 + 1 / 2 ^ 1000) :
    -(6 / 10 ^ 11 * (C * (1 + 6 / 10 ^ 11))) ≤ e ∧ e ≤ C * (1 + 6 / 10 ^ 11) := by
  obtain ⟨e1, e2⟩ := abs_le.mp he
  have hs : (1 : ℝ) / 2 ^ 1000 ≤ 1 / 10 ^ 30 := by norm_num
  have lo : -(6 / 10 ^ 11 * C) * (1 + 51 / 10 ^ 12) ≤ a * k := by
    rcases le_total 0 k with hk | hk
    · have : -(6 / 10 ^ 11 * C) * k ≤ a * k := mul_le_mul_of_nonneg_right h1 hk
      nlinarith
    · have : -(C * (51 / 10 ^ 12)) ≤ a * k := by nlinarith
      nlinarith
  have hi : a * k ≤ C * (1 + 51 / 10 ^ 12) := by
    rcases le_total 0 k with hk | hk
    · nlinarith
    · have : a * k ≤ 6 / 10 ^ 11 * C * (51 / 10 ^ 12) := by nlinarith
      nlinarith
  generalize a * k = r at *
  constructor
  · rcases le_total 0 r with hr | hr
    · rw [abs_of_nonneg hr] at e1
      have : 0 ≤ r - r / 2 ^ 50 := by
        have : r / 2 ^ 50 ≤ r := div_le_self hr (by norm_num)
        linarith
      nlinarith
    · rw [abs_of_nonpos hr] at e1
      nlinarith
  · rcases le_total 0 r with hr | hr
    · rw [abs_of_nonneg hr] at e2
      nlinarith
    · rw [abs_of_nonpos hr] at e2
      have : r + -r / 2 ^ 50 ≤ 0 := by
        have : -r / 2 ^ 50 ≤ -r := div_le_self (by linarith) (by norm_num)
        linarith
      nlinarith

theorem mul_near {x y : F64} (hx : x.Between (-2) 2) (hy : y.Between (-200) 200) :
    Near (x *. y) (x.toR * y.toR) (|x.toR * y.toR| / 2 ^ 53 + 1 / 2 ^ 1075) := by
  have a1 : |x.toR| ≤ 2 := abs_le.mpr hx.2
  have a2 : |y.toR| ≤ 200 := abs_le.mpr hy.2
  have b : |x.toR| * |y.toR| ≤ 2 * 200 := mul_le_mul a1 a2 (abs_nonneg _) (by norm_num)
  refine (Near.self hx.1).mul (Near.self hy.1) (le_refl _) (le_refl _) ?_ ?_
  · rw [abs_mul]
    simp
  · rw [abs_mul]
    have : |x.toR| * |y.toR| / 2 ^ 53 ≤ 2 * 200 / 2 ^ 53 := by gcongr
    have h2 : (2 * 200 + (2 * 200 / 2 ^ 53 + 1 / 2 ^ 1075) : ℝ) < 2 ^ 1024 := by norm_num
    linarith

theorem div_hundred {x : F64} {r e : ℝ} (hx : Near x r e) (hr : |r| ≤ 1000) (he : e ≤ 1) :
    Near (x /. lit 100) (r / 100) (e / 100 + (|r| / 100 + e / 100) / 2 ^ 53 + 1 / 2 ^ 1075) := by
  have he0 : 0 ≤ e := (abs_nonneg _).trans hx.err
  have h100 : Near (lit 100 : F64) 100 0 := by
    have := near_lit (q := 100) (n := 100) (by norm_num) rfl
    simpa using this
  have e1 : |(100 : ℝ)| = 100 := by norm_num
  refine hx.div h100 (by norm_num) (B := |r| / 100) (by rw [abs_div, e1]) (by rw [e1]) ?_
  have hb : (2 : ℝ) ^ 12 < 2 ^ 1024 := by norm_num
  have : (|r| / 100 + e / 100) / 2 ^ 53 ≤ |r| / 100 + e / 100 := div_le_self (by positivity) (by norm_num)
  have h3 : (1 : ℝ) / 2 ^ 1075 ≤ 1 := by norm_num
  linarith

/-- The opacity of a layer, fill or stroke. -/
theorem Faded.percent {n : Nat} {x o : F64} (h : Faded n x) (hn : n ≤ 41)
    (ho : o.Between (-(51 / 10 ^ 10)) (100 + 51 / 10 ^ 10)) : Faded (n + 1) (x *. o /. lit 100) := by
  have hC : (1 : ℝ) ≤ (1 + 6 / 10 ^ 11) ^ n := one_le_pow₀ (by norm_num)
  have hC2 := fade_bound (n := n) (by omega)
  have hx : x.Between (-2) 2 := F64.Between.mono h (by linarith) (by linarith)
  have hy : o.Between (-200) 200 := ho.mono (by norm_num) (by norm_num)
  have m := mul_near hx hy
  have a1 : |x.toR| ≤ 2 := abs_le.mpr hx.2
  have a2 : |o.toR| ≤ 200 := abs_le.mpr hy.2
  have b : |x.toR * o.toR| ≤ 400 := by
    rw [abs_mul]
    exact (mul_le_mul a1 a2 (abs_nonneg _) (by norm_num)).trans (by norm_num)
  have hs : (1 : ℝ) / 2 ^ 1075 ≤ 1 / 2 ^ 1002 := by norm_num
  have hs' : (1 : ℝ) / 2 ^ 1002 ≤ 1 / 2 := by norm_num
  have d := div_hundred m (b.trans (by norm_num)) (by linarith)
  have := fade_step hC h.2.1 h.2.2 (k := o.toR / 100) (e := (x *. o /. lit 100).toR)
    (by linarith [ho.2.1]) (by linarith [ho.2.2]) (by
      have e := d.err
      rw [← mul_div_assoc]
      refine e.trans ?_
      have e1 : |x.toR * o.toR / 100| = |x.toR * o.toR| / 100 := by rw [abs_div]; norm_num
      rw [e1]
      have h0 := abs_nonneg (x.toR * o.toR)
      generalize |x.toR * o.toR| = r at *
      have h4 : (1 : ℝ) / 2 ^ 1002 * 4 = 1 / 2 ^ 1000 := by norm_num
      linarith)
  unfold Faded
  rw [pow_succ]
  exact ⟨d.fin, this⟩

/-- The opacity of a group. -/
theorem Faded.factor {n : Nat} {x k : F64} (h : Faded n x) (hn : n ≤ 41)
    (hk : k.Between (-(51 / 10 ^ 12)) (1 + 51 / 10 ^ 12)) : Faded (n + 1) (x *. k) := by
  have hC : (1 : ℝ) ≤ (1 + 6 / 10 ^ 11) ^ n := one_le_pow₀ (by norm_num)
  have hC2 := fade_bound (n := n) (by omega)
  have hx : x.Between (-2) 2 := F64.Between.mono h (by linarith) (by linarith)
  have m := mul_near hx (hk.mono (by norm_num) (by norm_num))
  have := fade_step hC h.2.1 h.2.2 hk.2.1 hk.2.2 (e := (x *. k).toR) (by
    refine m.err.trans ?_
    have h0 := abs_nonneg (x.toR * k.toR)
    have hs : (1 : ℝ) / 2 ^ 1075 ≤ 1 / 2 ^ 1000 := by norm_num
    linarith)
  unfold Faded
  rw [pow_succ]
  exact ⟨m.fin, this⟩

theorem percent_factor {o : F64} (ho : o.Between (-(505 / 10 ^ 11)) (100 + 505 / 10 ^ 11)) :
    (o /. lit 100).Between (-(51 / 10 ^ 12)) (1 + 51 / 10 ^ 12) := by
  have b : |o.toR| ≤ 101 := abs_le.mpr ⟨by linarith [ho.2.1], by linarith [ho.2.2]⟩
  have d := div_hundred (Near.self ho.1) (b.trans (by norm_num)) (by norm_num)
  obtain ⟨e1, e2⟩ := abs_le.mp d.err
  have hs : (1 : ℝ) / 2 ^ 1075 ≤ 1 / 10 ^ 30 := by norm_num
  refine ⟨d.fin, ?_, ?_⟩
  · rcases le_total 0 o.toR with h0 | h0
    · have hd : |o.toR| / 100 / 2 ^ 53 ≤ |o.toR| / 100 := div_le_self (by positivity) (by norm_num)
      rw [abs_of_nonneg h0] at *
      linarith [ho.2.1]
    · rw [abs_of_nonpos h0] at *
      linarith [ho.2.1]
  · linarith [ho.2.2]

section
variable [Kurbo F64]

theorem opacity_within {p : Schema.FloatValue F64} {v : Value F64 F64} (h : convScalar p = .ok v)
    (hp : ScalarWithin 0 100 p) (frame : F64) :
    (v.evaluate frame).Between (-(505 / 10 ^ 11)) (100 + 505 / 10 ^ 11) := by
  have := C114_scalars h hp (M := 100) (by norm_num) (by norm_num) (by norm_num) frame RDefault.dflt
  rw [← Value.evaluate_eq] at this
  have e : overshoot 0 100 100 ≤ 505 / 10 ^ 11 := by unfold overshoot; norm_num
  exact this.mono (by linarith) (by linarith)

theorem transform_opacity {v : Schema.Transform F64} {x : Value F64 F64} (hv : v.Tame)
    (h : convScalar (v.opacity.getD floatValueOneHundred) = .ok x) (frame : F64) :
    (x.evaluate frame).Between (-(505 / 10 ^ 11)) (100 + 505 / 10 ^ 11) := by
  refine opacity_within h ?_ frame
  cases ho : v.opacity with
  | some p => exact hv.2 p ho
  | none =>
    have h100 : Near (lit 100 : F64) 100 0 := by
      have := near_lit (q := 100) (n := 100) (by norm_num) rfl
      simpa using this
    have := abs_le.mp h100.err
    exact ⟨h100.fin, by linarith, by linarith⟩

end

end Velato
