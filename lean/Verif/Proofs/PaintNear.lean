import Verif.Spec.PaintNear
import Verif.Proofs.TameDraws
import Verif.Props.PlayedAs64

/-!
# The colours, widths and gradients of fills and strokes in double precision: lemmas
-/

set_option exponentiation.threshold 2000

namespace Velato
open FloatOps (lit)
open F64
open Import (convScalar convColor convMultiP2 convGradientColors)

/-- Rounding of numbers up to 32768. -/
theorem near_toF32_large {x : F64} (h : x.Between (-32768) 32768) :
    Near (FloatOps.toF32 x) x.toR (|x.toR| / 2 ^ 24 + 1 / 2 ^ 36) := by
  obtain ⟨hf, hl, hu⟩ := h
  obtain ⟨s, a, ha, rfl⟩ := isFin_iff.mp hf
  have ha0 := isRepr_nonneg ha.1
  have hm0 := roundMag_nonneg fmt32 a
  have ha2 : a ≤ 32768 := by
    have : ((a : ℚ) : ℝ) ≤ 32768 := by
      cases s
      · simpa [F64.toR, F64.toQ] using hu
      · have : -32768 ≤ -((a : ℚ) : ℝ) := by simpa [F64.toR, F64.toQ] using hl
        linarith
    exact_mod_cast this
  have herr := abs_roundMag32_sub ha0
  have hm3 : roundMag fmt32 a ≤ 32769 := by
    have := (abs_le.mp herr).2
    have : a / 2 ^ 24 ≤ 32768 / 2 ^ 24 := by gcongr
    have : (32768 : ℚ) / 2 ^ 24 + 1 / 2 ^ 150 ≤ 1 := by norm_num
    linarith
  set m := roundMag fmt32 a with hm
  have e : FloatOps.toF32 (F64.fin s a ha) = ofRat s (if s then -m else m) := by
    show F64.toF32 _ = _
    simp only [F64.toF32]
    rw [if_pos (lt_of_le_of_lt hm3 (by norm_num))]
  have habs : |(if s then -m else m)| = m := by
    cases s <;> simp [abs_of_nonneg hm0]
  have key : (ofRat s (if s then -m else m)).isFin = true ∧ (ofRat s (if s then -m else m)).toQ = rnd (if s then -m else m) := by
    apply ofRat_fin
    rw [abs_rnd, habs]
    refine lt_of_le_of_lt (roundMag_mono hm3) ?_
    rw [show ((32769 : ℚ)) = ((32769 : ℕ) : ℚ) by norm_num,
      roundMag_of_repr (repr_natCast (f := fmt64) (n := 32769) (by decide) (by decide))]
    unfold maxMag; norm_num
  have hr := abs_rnd_sub (if s then -m else m)
  rw [habs] at hr
  refine ⟨by rw [e]; exact key.1, ?_⟩
  rw [e]
  unfold F64.toR
  rw [key.2]
  have hx : (F64.fin s a ha).toQ = if s then -a else a := by cases s <;> rfl
  rw [hx]
  have habs' : |(if s then -a else a)| = a := by
    cases s <;> simp [abs_of_nonneg ha0]
  have h1 : |(if s then -m else m) - (if s then -a else a)| ≤ a / 2 ^ 24 + 1 / 2 ^ 150 := by
    cases s
    · simpa using herr
    · simp only [if_true]
      rw [show -m - -a = -(m - a) by ring, abs_neg]
      exact herr
  have h2 : |rnd (if s then -m else m) - (if s then -a else a)| ≤ a / 2 ^ 24 + 1 / 2 ^ 36 := by
    have t := abs_sub_le (rnd (if s then -m else m)) (if s then -m else m) (if s then -a else a)
    have : m / 2 ^ 53 ≤ 32769 / 2 ^ 53 := by gcongr
    have : (32769 : ℚ) / 2 ^ 53 + 1 / 2 ^ 1075 + 1 / 2 ^ 150 ≤ 1 / 2 ^ 36 := by norm_num
    linarith
  have h3 : |((if s then -a else a : ℚ) : ℝ)| = (a : ℝ) := by
    have := congrArg (fun q : ℚ => (q : ℝ)) habs'
    simpa only [Rat.cast_abs] using this
  rw [h3]
  have := (Rat.cast_le (K := ℝ)).mpr h2
  push_cast at this ⊢
  exact this


section
variable [Kurbo F64] {δ : ℝ}

omit [Kurbo F64] in
theorem saysNear_static {R : Schema.KeyframeBase F64 → Schema.KeyframeBase F64 → Prop} {e : ℝ}
    {p : Schema.AnimatedProperty F64 (List F64)} {ys : List F64} (hp : p.value = .static ys) {j : Nat} {frame x : F64}
    (h : x.isFin = true ∧ |x.toR - (ys.getD j (lit 0)).toR| ≤ e) : SaysNear R δ e p j frame x := by
  unfold SaysNear
  rw [hp]
  exact h

omit [Kurbo F64] in
theorem saysNear_animated {R : Schema.KeyframeBase F64 → Schema.KeyframeBase F64 → Prop} {e : ℝ}
    {p : Schema.AnimatedProperty F64 (List F64)} {ks : List (Schema.Keyframe F64)} (hp : p.value = .animatedValue ks)
    {j : Nat} {frame x : F64} (b : Schema.Keyframe F64 → Schema.KeyframeBase F64) (hb : ∀ k, R k.base (b k))
    (h : ShownNear 0 δ e (ks.map fun k => (b k, k.value.getD j (lit 0))) frame x) : SaysNear R δ e p j frame x := by
  unfold SaysNear
  rw [hp]
  exact ⟨b, hb, h⟩

omit [Kurbo F64] in
theorem toF32_static {y : F64} (h : y.Between 0 1) {e : ℝ} (he : 1 / 2 ^ 23 ≤ e) :
    (FloatOps.toF32 y).isFin = true ∧ |(FloatOps.toF32 y).toR - y.toR| ≤ e := by
  have n := near_toF32 (h.mono (by norm_num) (by norm_num))
  have h2 : |y.toR| / 2 ^ 24 ≤ 1 / 2 ^ 24 :=
    div_le_div_of_nonneg_right (abs_le.mpr ⟨by linarith [h.2.1], h.2.2⟩) (by positivity)
  have := n.err
  exact ⟨n.fin, this.trans (le_trans (by norm_num at *; linarith) he)⟩

omit [Kurbo F64] in
/-- Every keyframe is played in some way. -/
theorem exists_played : ∃ p : Schema.Keyframe F64 → Schema.KeyframeBase F64, ∀ k, PlayedAs k.base (p k) :=
  ⟨_, fun k => (C68_played_unique k.base).exists.choose_spec⟩

theorem color_near (hδ : 0 ≤ δ) (hs : SolverWithin δ) {p : Schema.ColorValue F64} (hp : OrdinaryLists 3 0 1 p) {frame : F64}
    (hf : isNaN frame = false) (d : Color F64) :
    SaysNear PlayedAs (δ + 1 / 10 ^ 10) (1 / 2 ^ 22) p 0 frame ((convColor p).evaluateOr frame d).r ∧
    SaysNear PlayedAs (δ + 1 / 10 ^ 10) (1 / 2 ^ 22) p 1 frame ((convColor p).evaluateOr frame d).g ∧
    SaysNear PlayedAs (δ + 1 / 10 ^ 10) (1 / 2 ^ 22) p 2 frame ((convColor p).evaluateOr frame d).b := by
  unfold OrdinaryLists at hp
  cases hv : p.value with
  | static xs =>
    rw [hv] at hp
    have h51 := C51_colors p
    rw [hv] at h51
    obtain ⟨v, e, hc⟩ := h51
    rw [e]
    obtain ⟨e1, e2, e3⟩ := colorOf_getD64 hp.1 hc
    have hb : ∀ j, j < 3 → (xs.getD j (lit 0)).Between 0 1 := fun j hj => getD_between (by omega) hp.2 _
    refine ⟨saysNear_static hv ?_, saysNear_static hv ?_, saysNear_static hv ?_⟩
    · show v.r.isFin = true ∧ _
      rw [show ((Value.fixed v : Value F64 (Color F64)).evaluateOr frame d).r = v.r from rfl, e1]
      exact toF32_static (hb 0 (by omega)) (by norm_num)
    · show v.g.isFin = true ∧ _
      rw [show ((Value.fixed v : Value F64 (Color F64)).evaluateOr frame d).g = v.g from rfl, e2]
      exact toF32_static (hb 1 (by omega)) (by norm_num)
    · show v.b.isFin = true ∧ _
      rw [show ((Value.fixed v : Value F64 (Color F64)).evaluateOr frame d).b = v.b from rfl, e3]
      exact toF32_static (hb 2 (by omega)) (by norm_num)
  | animatedValue ks =>
    rw [hv] at hp
    obtain ⟨hne, hk, hx⟩ := hp
    obtain ⟨b, hb⟩ := exists_played
    obtain ⟨h1, h2, h3⟩ := C136_colors_played hδ hs hv hk hne hb (fun k hm => (hx k hm).1) (fun k hm => (hx k hm).2) hf d
    exact ⟨saysNear_animated hv b hb h1, saysNear_animated hv b hb h2, saysNear_animated hv b hb h3⟩

omit [Kurbo F64] in
theorem small_error : (8000 : ℝ) / 10 ^ 9 + 1 / 2 ^ 1072 ≤ 1 / 10 ^ 5 := by
  have : (1 : ℝ) / 2 ^ 1072 ≤ 1 / 2 ^ 30 := one_div_le_one_div_of_le (by positivity) (pow_le_pow_right₀ (by norm_num) (by norm_num))
  norm_num at this ⊢

theorem point_near (hδ : 0 ≤ δ) (hs : SolverWithin δ) {p : Schema.MultiDimensional F64}
    (hp : OrdinaryLists 2 (-8000) 8000 p.animatedProperty) {frame : F64} (hf : isNaN frame = false) (d : P2 F64) :
    PointNear (δ + 1 / 10 ^ 10) p frame ((convMultiP2 p).evaluateOr frame d) ∧
    P2.AtMost 8001 ((convMultiP2 p).evaluateOr frame d) := by
  unfold OrdinaryLists at hp
  cases hv : p.animatedProperty.value with
  | static xs =>
    rw [hv] at hp
    have h51 := C51_vectors p
    rw [hv] at h51
    obtain ⟨v, e, hc⟩ := h51
    rw [e]
    obtain ⟨e1, e2⟩ := pointOf_getD64 hp.1 hc
    have hb : ∀ j, j < 2 → (xs.getD j (lit 0)).Between (-8000) 8000 := fun j hj => getD_between (by omega) hp.2 _
    show PointNear _ p frame v ∧ P2.AtMost 8001 v
    refine ⟨⟨saysNear_static hv ?_, saysNear_static hv ?_⟩, ?_, ?_⟩
    · rw [e1]
      exact ⟨(hb 0 (by omega)).1, by norm_num⟩
    · rw [e2]
      exact ⟨(hb 1 (by omega)).1, by norm_num⟩
    · rw [e1]
      exact (hb 0 (by omega)).mono (by norm_num) (by norm_num)
    · rw [e2]
      exact (hb 1 (by omega)).mono (by norm_num) (by norm_num)
  | animatedValue ks =>
    rw [hv] at hp
    obtain ⟨hne, hk, hx⟩ := hp
    obtain ⟨b, hb⟩ := exists_played
    obtain ⟨h1, h2⟩ := C136_vectors_played (M := 8000) hδ hs hv hk hne hb
      ((by norm_num : (8000 : ℝ) ≤ 2 ^ 13).trans (pow_le_pow_right₀ (by norm_num) (by norm_num)))
      (fun k hm => (hx k hm).1) (fun k hm => (hx k hm).2) hf d
    have bound : ∀ {j : Nat} {y : F64}, j < 2 → ShownNear 0 (δ + 1 / 10 ^ 10) (8000 / 10 ^ 9 + 1 / 2 ^ 1072)
        (ks.map fun k => (b k, k.value.getD j (lit 0))) frame y → y.Between (-8001) 8001 := by
      intro j y hj h
      have := abs_le.mp (h.bound (m := 8000) (hk.played hb).handles fun k hm => by
        have := getD_between (j := j) (by have := (hx k hm).1; omega) (hx k hm).2 (lit 0)
        exact abs_le.mpr ⟨this.2.1, this.2.2⟩)
      have hsm := small_error
      exact ⟨h.1, by norm_num at hsm this ⊢; linarith, by norm_num at hsm this ⊢; linarith⟩
    exact ⟨⟨saysNear_animated hv b hb (h1.mono small_error), saysNear_animated hv b hb (h2.mono small_error)⟩,
      bound (by omega) h1, bound (by omega) h2⟩

theorem number_near (hδ : 0 ≤ δ) (hs : SolverWithin δ) {p : Schema.FloatValue F64} (hp : OrdinaryNumber p) {frame x : F64}
    (hf : isNaN frame = false) (h : ScalarAt p frame x) : NumberNear (δ + 1 / 10 ^ 10) (1 / 10 ^ 5) p frame x := by
  obtain ⟨v, hv, rfl⟩ := h
  unfold NumberNear
  cases hpv : p.value with
  | static y =>
    have h51 := C51_scalars hv
    rw [hpv] at h51
    rw [h51]
    rfl
  | animatedValue ks =>
    obtain ⟨hne, hk, hx⟩ := hp ks hpv
    have := C136_scalars (M := 8000) hδ hs hv hpv hk hne
      ((by norm_num : (8000 : ℝ) ≤ 2 ^ 13).trans (pow_le_pow_right₀ (by norm_num) (by norm_num))) hx hf RDefault.dflt
    rw [← Value.evaluate_eq] at this
    exact this.mono small_error

theorem stops_near (hδ : 0 ≤ δ) (hs : SolverWithin δ) {g : Schema.GradientColors F64} {s : ColorStops F64}
    (h : convGradientColors g = .ok s) (h0 : 1 ≤ g.count) (hp : OrdinaryLists (4 * g.count) 0 1 g.colors.animatedProperty) {frame : F64}
    (hf : isNaN frame = false) :
    (s.evaluate frame).length = g.count ∧ ∀ i < g.count, ∃ st, (s.evaluate frame)[i]? = some st ∧
      SaysNear (fun b b' => b' = { b with hold := none }) (δ + 1 / 10 ^ 10) (1 / 2 ^ 23) g.colors.animatedProperty (4 * i) frame st.offset ∧
      SaysNear (fun b b' => b' = b) (δ + 1 / 10 ^ 10) (1 / 2 ^ 23) g.colors.animatedProperty (4 * i + 1) frame st.color.r ∧
      SaysNear (fun b b' => b' = b) (δ + 1 / 10 ^ 10) (1 / 2 ^ 23) g.colors.animatedProperty (4 * i + 2) frame st.color.g ∧
      SaysNear (fun b b' => b' = b) (δ + 1 / 10 ^ 10) (1 / 2 ^ 23) g.colors.animatedProperty (4 * i + 3) frame st.color.b := by
  unfold OrdinaryLists at hp
  cases hv : g.colors.animatedProperty.value with
  | static xs =>
    rw [hv] at hp
    unfold convGradientColors at h
    rw [hv] at h
    cases Except.ok.inj h
    have hl : (Import.convStops xs g.count).length = g.count := by
      have := (C49_stops xs g.count h0).1
      have := hp.1
      omega
    refine ⟨by simpa [ColorStops.evaluate] using hl, fun i hi => ?_⟩
    obtain ⟨st, hst, e0, e1, e2, e3⟩ := keyframe_stop_get (lit 0) hp.1 hi
    have hb : ∀ j < 4, (xs.getD (4 * i + j) (lit 0)).Between 0 1 := fun j hj => getD_between (by omega) hp.2 _
    refine ⟨st.toColorStop, by simp [ColorStops.evaluate, hst], saysNear_static hv ?_, saysNear_static hv ?_,
      saysNear_static hv ?_, saysNear_static hv ?_⟩
    · show (FloatOps.toF32 st.offset).isFin = true ∧ |(FloatOps.toF32 st.offset).toR - _| ≤ _
      rw [e0]
      exact toF32_static (hb 0 (by omega)) le_rfl
    · show (FloatOps.toF32 st.r).isFin = true ∧ |(FloatOps.toF32 st.r).toR - _| ≤ _
      rw [e1]
      exact toF32_static (hb 1 (by omega)) le_rfl
    · show (FloatOps.toF32 st.g).isFin = true ∧ |(FloatOps.toF32 st.g).toR - _| ≤ _
      rw [e2]
      exact toF32_static (hb 2 (by omega)) le_rfl
    · show (FloatOps.toF32 st.b).isFin = true ∧ |(FloatOps.toF32 st.b).toR - _| ≤ _
      rw [e3]
      exact toF32_static (hb 3 (by omega)) le_rfl
  | animatedValue ks =>
    rw [hv] at hp
    obtain ⟨hne, hk, hx⟩ := hp
    obtain ⟨h1, h2⟩ := C136_gradients_partial hδ hs h hv hk hne (fun k hm => (hx k hm).1) (fun k hm => (hx k hm).2) hf
    refine ⟨h1, fun i hi => ?_⟩
    obtain ⟨st, hst, er, eg, eb, -, -⟩ := h2 i hi
    obtain ⟨st', hst', eo⟩ := C136_offsets hδ hs h hv hk hne (fun k hm => (hx k hm).1) (fun k hm => (hx k hm).2) hf i hi
    cases hst.symm.trans hst'
    exact ⟨st, hst, saysNear_animated hv (fun k => { k.base with hold := none }) (fun _ => rfl) eo,
      saysNear_animated hv (fun k => k.base) (fun _ => rfl) er, saysNear_animated hv (fun k => k.base) (fun _ => rfl) eg,
      saysNear_animated hv (fun k => k.base) (fun _ => rfl) eb⟩

omit [Kurbo F64] in
theorem sqrt_near (x y a b : ℝ) :
    Real.sqrt (x ^ 2 + y ^ 2) ≤ Real.sqrt (a ^ 2 + b ^ 2) + (|x - a| + |y - b|) := by
  set t := Real.sqrt (a ^ 2 + b ^ 2) with ht
  have t0 : 0 ≤ t := Real.sqrt_nonneg _
  have tt : t ^ 2 = a ^ 2 + b ^ 2 := Real.sq_sqrt (by positivity)
  have ta : |a| ≤ t := Real.abs_le_sqrt (by nlinarith [sq_nonneg b])
  have tb : |b| ≤ t := Real.abs_le_sqrt (by nlinarith [sq_nonneg a])
  have key : ∀ u v : ℝ, |v| ≤ t → u ^ 2 ≤ v ^ 2 + 2 * t * |u - v| + |u - v| ^ 2 := by
    intro u v hv
    have h1 : u ^ 2 = v ^ 2 + 2 * v * (u - v) + (u - v) ^ 2 := by ring
    have h2 : v * (u - v) ≤ t * |u - v| := by
      calc v * (u - v) ≤ |v * (u - v)| := le_abs_self _
        _ = |v| * |u - v| := abs_mul _ _
        _ ≤ t * |u - v| := mul_le_mul_of_nonneg_right hv (abs_nonneg _)
    rw [sq_abs]
    linarith
  have kx := key x a ta
  have ky := key y b tb
  have h0 : 0 ≤ |x - a| * |y - b| := by positivity
  refine Real.sqrt_le_iff.mpr ⟨by positivity, ?_⟩
  nlinarith

omit [Kurbo F64] in
/-- The radius of a radial gradient. -/
theorem radius_near [Libm F64] (hl : AccurateLibm) {p q : P2 F64} (hp : p.AtMost 8001) (hq : q.AtMost 8001) :
    (FloatOps.toF32 (Libm.hypot (q.x -. p.x) (q.y -. p.y))).isFin = true ∧
    |(FloatOps.toF32 (Libm.hypot (q.x -. p.x) (q.y -. p.y))).toR -
      Real.sqrt ((q.x.toR - p.x.toR) ^ 2 + (q.y.toR - p.y.toR) ^ 2)| ≤ 1 / 500 := by
  have diff : ∀ {x y : F64}, x.Between (-8001) 8001 → y.Between (-8001) 8001 →
      (x -. y).Between (-16003) 16003 ∧ |(x -. y).toR - (x.toR - y.toR)| ≤ 1 / 2 ^ 30 := by
    intro x y hx hy
    have n := hx.near.sub hy.near (B := 16002) (E := 1 / 2 ^ 30) (by
      rw [abs_le]; constructor <;> linarith [hx.2.1, hx.2.2, hy.2.1, hy.2.2]) (by norm_num) (by norm_num)
    obtain ⟨e1, e2⟩ := abs_le.mp n.err
    have : (1 : ℝ) / 2 ^ 30 ≤ 1 := by norm_num
    exact ⟨⟨n.fin, by linarith [hx.2.1, hy.2.2], by linarith [hx.2.2, hy.2.1]⟩, n.err⟩
  obtain ⟨hx, ex⟩ := diff hq.1 hp.1
  obtain ⟨hy, ey⟩ := diff hq.2 hp.2
  generalize q.x -. p.x = x at hx ex
  generalize q.y -. p.y = y at hy ey
  have n := hl.hypot x y (hx.mono (by norm_num) (by norm_num)) (hy.mono (by norm_num) (by norm_num))
  obtain ⟨e1, e2⟩ := abs_le.mp n.err
  have h0 := Real.sqrt_nonneg (x.toR ^ 2 + y.toR ^ 2)
  have h1 : Real.sqrt (x.toR ^ 2 + y.toR ^ 2) ≤ 32000 := by
    refine Real.sqrt_le_iff.mpr ⟨by norm_num, ?_⟩
    have h1 : x.toR ^ 2 ≤ 16003 ^ 2 := sq_le_sq' hx.2.1 hx.2.2
    have h2 : y.toR ^ 2 ≤ 16003 ^ 2 := sq_le_sq' hy.2.1 hy.2.2
    exact (add_le_add h1 h2).trans (by norm_num)
  have sm : (1 : ℝ) / 2 ^ 32 ≤ 1 / 10 ^ 9 := by norm_num
  have f := near_toF32_large (x := Libm.hypot x y) ⟨n.fin, by norm_num at sm; linarith, by norm_num at sm; linarith⟩
  have f1 : |(Libm.hypot x y).toR| / 2 ^ 24 ≤ 32001 / 2 ^ 24 :=
    div_le_div_of_nonneg_right (abs_le.mpr ⟨by norm_num at sm; linarith, by norm_num at sm; linarith⟩) (by positivity)
  have f2 := f.err
  have s1 := sqrt_near x.toR y.toR (q.x.toR - p.x.toR) (q.y.toR - p.y.toR)
  have s2 := sqrt_near (q.x.toR - p.x.toR) (q.y.toR - p.y.toR) x.toR y.toR
  rw [abs_sub_comm _ x.toR, abs_sub_comm _ y.toR] at s2
  refine ⟨f.fin, abs_le.mpr ?_⟩
  obtain ⟨g1, g2⟩ := abs_le.mp f2
  have tot : (32001 : ℝ) / 2 ^ 24 + 1 / 2 ^ 36 + 1 / 2 ^ 32 + 2 * (1 / 2 ^ 30) ≤ 1 / 500 := by norm_num
  constructor <;> linarith

omit [Kurbo F64] in
/-- The opacity factor changes only opacities. -/
theorem finalBrush_solid {p : Paint F64} {c : Color F64} (h : p.brush = .solid c) :
    ∃ c', p.finalBrush = .solid c' ∧ c'.r = c.r ∧ c'.g = c.g ∧ c'.b = c.b := by
  unfold Paint.finalBrush
  rw [h]
  dsimp only
  split
  · exact ⟨c, rfl, rfl, rfl, rfl⟩
  · exact ⟨_, rfl, rfl, rfl, rfl⟩

omit [Kurbo F64] in
theorem finalBrush_gradient {p : Paint F64} {kind : GradientKind F64} {stops : List (ColorStop F64)}
    (h : p.brush = .gradient kind stops) : ∃ stops', p.finalBrush = .gradient kind stops' ∧ stops'.length = stops.length ∧
      ∀ (i : Nat) st, stops[i]? = some st → ∃ st', stops'[i]? = some st' ∧ st'.offset = st.offset ∧ st'.color.r = st.color.r ∧
        st'.color.g = st.color.g ∧ st'.color.b = st.color.b := by
  unfold Paint.finalBrush
  rw [h]
  dsimp only
  split
  · exact ⟨stops, rfl, rfl, fun i st hst => ⟨st, hst, rfl, rfl, rfl, rfl⟩⟩
  · refine ⟨_, rfl, by simp, fun i st hst => ⟨{ st with color := { st.color with a := mulF32 st.color.a (FloatOps.toF32 p.alpha) } },
      by rw [List.getElem?_map, hst]; rfl, rfl, rfl, rfl, rfl⟩⟩

theorem solid_near (hδ : 0 ≤ δ) (hs : SolverWithin δ) {c : Schema.ColorValue F64} (hc : OrdinaryLists 3 0 1 c) {frame : F64}
    (hf : isNaN frame = false) {p : Paint F64} (h : p.brush = .solid ((convColor c).evaluateOr frame invisible).once) :
    SolidNear (δ + 1 / 10 ^ 10) c frame p.finalBrush := by
  obtain ⟨c', e, e1, e2, e3⟩ := finalBrush_solid h
  obtain ⟨h1, h2, h3⟩ := color_near hδ hs hc hf invisible
  exact ⟨c', e, by rw [e1]; exact h1, by rw [e2]; exact h2, by rw [e3]; exact h3⟩

theorem gradient_near [Libm F64] (hl : AccurateLibm) (hδ : 0 ≤ δ) (hs : SolverWithin δ) {g : Schema.BaseGradient F64}
    (hg : OrdinaryGradient g) {frame : F64} (hf : isNaN frame = false) {p : Paint F64} (h : GradientAt g frame p.brush) :
    GradientNear (δ + 1 / 10 ^ 10) g frame p.finalBrush := by
  obtain ⟨stops, hst, hb⟩ := h
  obtain ⟨o0, o1, o2, o3⟩ := hg
  obtain ⟨stops', e, hlen, hget⟩ := finalBrush_gradient hb
  obtain ⟨p1, b1⟩ := point_near hδ hs o1 hf RDefault.dflt
  obtain ⟨p2, b2⟩ := point_near hδ hs o2 hf RDefault.dflt
  rw [← Value.evaluate_eq] at p1 b1 p2 b2
  obtain ⟨n1, n2⟩ := stops_near hδ hs hst o0 o3 hf
  refine ⟨_, stops', _, _, e, p1, p2, fun hr => ?_, fun hr => ?_, hlen.trans n1, fun i hi => ?_⟩
  · rw [if_pos hr]
    exact ⟨_, rfl, radius_near hl b1 b2⟩
  · rw [if_neg hr]
  · obtain ⟨st, h0, h1, h2, h3, h4⟩ := n2 i hi
    obtain ⟨st', e0, e1, e2, e3, e4⟩ := hget i st h0
    exact ⟨st', e0, by rw [e1]; exact h1, by rw [e2]; exact h2, by rw [e3]; exact h3, by rw [e4]; exact h4⟩

theorem paint_near [Libm F64] (hl : AccurateLibm) (hδ : 0 ≤ δ) (hs : SolverWithin δ) {t : Schema.AnyShape F64}
    (ht : OrdinaryPaint t) {alpha frame : F64} (hf : isNaN frame = false) {p : Paint F64} (h : PaintOf alpha frame p t) :
    PaintNear (δ + 1 / 10 ^ 10) frame p.stroke p.finalBrush t := by
  cases t with
  | fill s => exact ⟨h.1, solid_near hδ hs ht hf h.2.1⟩
  | stroke s =>
    obtain ⟨⟨k, hk, hw⟩, hb, -⟩ := h
    exact ⟨⟨k, hk, number_near hδ hs ht.1 hf hw.width, hw⟩, solid_near hδ hs ht.2 hf hb⟩
  | gradientFill s => exact ⟨h.1, gradient_near hl hδ hs ht hf h.2.1⟩
  | gradientStroke s =>
    obtain ⟨⟨k, hk, hw⟩, hb, -⟩ := h
    exact ⟨⟨k, hk, number_near hδ hs ht.1 hf hw.width, hw⟩, gradient_near hl hδ hs ht.2 hf hb⟩
  | _ => exact h.elim

end

end Velato
