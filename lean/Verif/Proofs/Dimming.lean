import Verif.Spec.Dimming
import Verif.Proofs.TameDraws

/-!
# How opaque fills and strokes are: helper lemmas
-/

set_option exponentiation.threshold 2000

namespace Velato
open FloatOps (lit)
open F64
open Import

/-! ## Rounding to single precision -/

theorem abs_roundMag32_sub {q : ℚ} (hq : 0 ≤ q) : |roundMag fmt32 q - q| ≤ q / 2 ^ 24 + 1 / 2 ^ 150 := by
  unfold roundMag
  split_ifs with h
  · have : q = 0 := le_antisymm h hq
    subst this
    simp
  · have hpos : 0 < q := not_le.mp h
    have hp : (0 : ℚ) < 2 ^ ulpExp fmt32 q := by positivity
    have h1 : (rne (q / 2 ^ ulpExp fmt32 q) : ℚ) * 2 ^ ulpExp fmt32 q - q =
        ((rne (q / 2 ^ ulpExp fmt32 q) : ℚ) - q / 2 ^ ulpExp fmt32 q) * 2 ^ ulpExp fmt32 q := by
      field_simp
    rw [h1, abs_mul, abs_of_pos hp]
    have h2 := abs_rne_sub (q / 2 ^ ulpExp fmt32 q)
    have h3 : (2 : ℚ) ^ ulpExp fmt32 q ≤ 2 * (q / 2 ^ 24) + 2 * (1 / 2 ^ 150) := by
      unfold ulpExp
      rcases le_total (ilog2 q - ((fmt32.prec : ℤ) - 1)) fmt32.emin with h4 | h4
      · rw [max_eq_right h4]
        have : (2 : ℚ) ^ fmt32.emin = 2 * (1 / 2 ^ 150) := by
          show (2 : ℚ) ^ (-149 : ℤ) = _
          norm_num
        rw [this]
        have : 0 ≤ 2 * (q / 2 ^ 24) := by positivity
        linarith
      · rw [max_eq_left h4]
        have h5 : (2 : ℚ) ^ (ilog2 q - ((fmt32.prec : ℤ) - 1)) = 2 ^ ilog2 q / 2 ^ 23 := by
          show (2 : ℚ) ^ (ilog2 q - ((24 : ℕ) - 1 : ℤ)) = _
          rw [zpow_sub₀ (by norm_num)]
          norm_num
        rw [h5]
        have h6 := (ilog2_spec hpos).1
        have h7 : (2 : ℚ) ^ ilog2 q / 2 ^ 23 ≤ q / 2 ^ 23 := by gcongr
        have h8 : q / 2 ^ 23 = 2 * (q / 2 ^ 24) := by ring
        have : (0 : ℚ) ≤ 2 * (1 / 2 ^ 150) := by positivity
        linarith
    have := mul_le_mul_of_nonneg_right h2 hp.le
    linarith

/-- Rounding of numbers up to 2. -/
theorem near_toF32 {x : F64} (h : x.Between (-2) 2) :
    Near (FloatOps.toF32 x) x.toR (|x.toR| / 2 ^ 24 + 1 / 2 ^ 50) := by
  obtain ⟨hf, hl, hu⟩ := h
  obtain ⟨s, a, ha, rfl⟩ := isFin_iff.mp hf
  have ha0 := isRepr_nonneg ha.1
  have hm0 := roundMag_nonneg fmt32 a
  have ha2 : a ≤ 2 := by
    have : ((a : ℚ) : ℝ) ≤ 2 := by
      cases s
      · simpa [F64.toR, F64.toQ] using hu
      · have : -2 ≤ -((a : ℚ) : ℝ) := by simpa [F64.toR, F64.toQ] using hl
        linarith
    exact_mod_cast this
  have herr := abs_roundMag32_sub ha0
  have hm3 : roundMag fmt32 a ≤ 3 := by
    have := (abs_le.mp herr).2
    have : a / 2 ^ 24 ≤ 2 / 2 ^ 24 := by gcongr
    have : (2 : ℚ) / 2 ^ 24 + 1 / 2 ^ 150 ≤ 1 := by norm_num
    linarith
  set m := roundMag fmt32 a with hm
  have e : FloatOps.toF32 (F64.fin s a ha) = ofRat s (if s then -m else m) := by
    show F64.toF32 _ = _
    simp only [F64.toF32]
    rw [if_pos (lt_of_le_of_lt hm3 (by norm_num))]
  have habs : |(if s then -m else m)| = m := by
    cases s <;> simp [abs_of_nonneg hm0]
  have key : (ofRat s (if s then -m else m)).isFin = true ∧ (ofRat s (if s then -m else m)).toQ = rnd (if s then -m else m) := by
    apply ofRat_fin
    rw [abs_rnd, habs]
    refine lt_of_le_of_lt (roundMag_mono hm3) ?_
    rw [show ((3 : ℚ)) = ((3 : ℕ) : ℚ) by norm_num,
      roundMag_of_repr (repr_natCast (f := fmt64) (n := 3) (by decide) (by decide))]
    unfold maxMag; norm_num
  have hr := abs_rnd_sub (if s then -m else m)
  rw [habs] at hr
  refine ⟨by rw [e]; exact key.1, ?_⟩
  rw [e]
  unfold F64.toR
  rw [key.2]
  have hx : (F64.fin s a ha).toQ = if s then -a else a := by cases s <;> rfl
  rw [hx]
  have habs' : |(if s then -a else a)| = a := by
    cases s <;> simp [abs_of_nonneg ha0]
  have h1 : |(if s then -m else m) - (if s then -a else a)| ≤ a / 2 ^ 24 + 1 / 2 ^ 150 := by
    cases s
    · simpa using herr
    · simp only [if_true]
      rw [show -m - -a = -(m - a) by ring, abs_neg]
      exact herr
  have h2 : |rnd (if s then -m else m) - (if s then -a else a)| ≤ a / 2 ^ 24 + 1 / 2 ^ 50 := by
    have t := abs_sub_le (rnd (if s then -m else m)) (if s then -m else m) (if s then -a else a)
    have : m / 2 ^ 53 ≤ 3 / 2 ^ 53 := by gcongr
    have : (3 : ℚ) / 2 ^ 53 + 1 / 2 ^ 1075 + 1 / 2 ^ 150 ≤ 1 / 2 ^ 50 := by norm_num
    linarith
  have h3 : |((if s then -a else a : ℚ) : ℝ)| = (a : ℝ) := by
    have := congrArg (fun q : ℚ => (q : ℝ)) habs'
    simpa only [Rat.cast_abs] using this
  rw [h3]
  have := (Rat.cast_le (K := ℝ)).mpr h2
  push_cast at this ⊢
  exact this

/-! ## Products of opacities -/

/-- After `n` factors `x` has been computed, where `r` is meant. -/
structure Dims (n : Nat) (x : F64) (r : ℝ) : Prop where
  faded : Faded n x
  err : |x.toR - r| ≤ n / 2 ^ 50

theorem Faded.bounds {n : Nat} {x : F64} (h : Faded n x) (hn : n ≤ 42) : x.Between (-(1 + 1 / 10 ^ 8)) (1 + 1 / 10 ^ 8) := by
  have h1 := fade_bound hn
  exact F64.Between.mono h (by linarith) h1

/-- One more factor `k`, which is exactly `q`. -/
theorem dims_step {n : Nat} (hn : n ≤ 42) {x r k q y : ℝ} (hx : |x| ≤ 1 + 1 / 10 ^ 8) (h : |x - r| ≤ n / 2 ^ 50)
    (hq : |q| ≤ 1 + 52 / 10 ^ 12) (hk : |k - q| ≤ 1 / 2 ^ 52) (hy : |y - x * k| ≤ 1 / 2 ^ 51) :
    |y - r * q| ≤ (n + 1 : ℕ) / 2 ^ 50 := by
  have e : y - r * q = (y - x * k) + (x * (k - q) + (x - r) * q) := by ring
  have h1 : |x * (k - q)| ≤ (1 + 1 / 10 ^ 8) * (1 / 2 ^ 52) := by
    rw [abs_mul]
    exact mul_le_mul hx hk (abs_nonneg _) (by norm_num)
  have h2 : |(x - r) * q| ≤ n / 2 ^ 50 * (1 + 52 / 10 ^ 12) := by
    rw [abs_mul]
    exact mul_le_mul h hq (abs_nonneg _) (by positivity)
  have h3 := abs_add_le (y - x * k) (x * (k - q) + (x - r) * q)
  have h4 := abs_add_le (x * (k - q)) ((x - r) * q)
  have hn' : (n : ℝ) ≤ 42 := by exact_mod_cast hn
  rw [e]
  push_cast
  have h5 : (n : ℝ) / 2 ^ 50 * (52 / 10 ^ 12) ≤ 42 / 2 ^ 50 * (52 / 10 ^ 12) := by gcongr
  have h6 : (1 : ℝ) / 2 ^ 51 + (1 + 1 / 10 ^ 8) * (1 / 2 ^ 52) + 42 / 2 ^ 50 * (52 / 10 ^ 12) ≤ 1 / 2 ^ 50 := by norm_num
  have h7 : ((n : ℝ) + 1) / 2 ^ 50 = n / 2 ^ 50 + 1 / 2 ^ 50 := by ring
  linarith

/-- The opacity of a layer, fill or stroke. -/
theorem Dims.percent {n : Nat} {x o : F64} {r : ℝ} (h : Dims n x r) (hn : n ≤ 41)
    (ho : o.Between (-(51 / 10 ^ 10)) (100 + 51 / 10 ^ 10)) : Dims (n + 1) (x *. o /. lit 100) (r * (o.toR / 100)) := by
  refine ⟨h.faded.percent hn ho, ?_⟩
  have hb := h.faded.bounds (by omega)
  have a1 : |x.toR| ≤ 1 + 1 / 10 ^ 8 := abs_le.mpr hb.2
  have a2 : |o.toR| ≤ 100 + 51 / 10 ^ 10 := abs_le.mpr ⟨by linarith [ho.2.1], ho.2.2⟩
  have m := mul_near (hb.mono (by norm_num) (by norm_num)) (ho.mono (by norm_num) (by norm_num))
  have b : |x.toR * o.toR| ≤ 101 := by
    rw [abs_mul]
    exact (mul_le_mul a1 a2 (abs_nonneg _) (by norm_num)).trans (by norm_num)
  have hs : (1 : ℝ) / 2 ^ 1075 ≤ 1 / 2 ^ 60 := by norm_num
  have hs' : |x.toR * o.toR| / 2 ^ 53 ≤ 101 / 2 ^ 53 := by gcongr
  have d := div_hundred m (b.trans (by norm_num)) (by
    have : (101 : ℝ) / 2 ^ 53 + 1 / 2 ^ 60 ≤ 1 := by norm_num
    linarith)
  refine dims_step (by omega) a1 h.err (k := o.toR / 100) ?_ (by simp) ?_
  · rw [abs_div, show |(100 : ℝ)| = 100 by norm_num]
    linarith
  · have e := d.err
    rw [← mul_div_assoc]
    refine e.trans ?_
    generalize |x.toR * o.toR| = z at *
    have h0 : z / 2 ^ 53 ≤ 101 / 2 ^ 53 := hs'
    have : (1 : ℝ) / 2 ^ 60 ≤ 1 / 2 ^ 59 := by norm_num
    have h1 : (z / 2 ^ 53 + 1 / 2 ^ 1075) / 100 ≤ (101 / 2 ^ 53 + 1 / 2 ^ 60) / 100 := by gcongr
    have h2 : (z / 100 + (z / 2 ^ 53 + 1 / 2 ^ 1075) / 100) / 2 ^ 53 ≤ (101 / 100 + (101 / 2 ^ 53 + 1 / 2 ^ 60) / 100) / 2 ^ 53 := by
      gcongr
    have h3 : ((101 : ℝ) / 2 ^ 53 + 1 / 2 ^ 60) / 100 + (101 / 100 + (101 / 2 ^ 53 + 1 / 2 ^ 60) / 100) / 2 ^ 53 + 1 / 2 ^ 60 ≤ 1 / 2 ^ 51 := by
      norm_num
    linarith

/-- The opacity of a group. -/
theorem Dims.factor {n : Nat} {x k : F64} {r q : ℝ} (h : Dims n x r) (hn : n ≤ 41)
    (hk : k.Between (-(51 / 10 ^ 12)) (1 + 51 / 10 ^ 12)) (hq : |k.toR - q| ≤ 1 / 2 ^ 52)
    (hq' : |q| ≤ 1 + 52 / 10 ^ 12) : Dims (n + 1) (x *. k) (r * q) := by
  refine ⟨h.faded.factor hn hk, ?_⟩
  have hb := h.faded.bounds (by omega)
  have a1 : |x.toR| ≤ 1 + 1 / 10 ^ 8 := abs_le.mpr hb.2
  have a2 : |k.toR| ≤ 1 + 51 / 10 ^ 12 := abs_le.mpr ⟨by linarith [hk.2.1], hk.2.2⟩
  have m := mul_near (hb.mono (by norm_num) (by norm_num)) (hk.mono (by norm_num) (by norm_num))
  refine dims_step (by omega) a1 h.err hq' hq (m.err.trans ?_)
  have b : |x.toR * k.toR| ≤ 3 / 2 := by
    rw [abs_mul]
    exact (mul_le_mul a1 a2 (abs_nonneg _) (by norm_num)).trans (by norm_num)
  have hs : (1 : ℝ) / 2 ^ 1075 ≤ 1 / 2 ^ 60 := by norm_num
  have hs' : |x.toR * k.toR| / 2 ^ 53 ≤ 3 / 2 / 2 ^ 53 := by gcongr
  have : (3 : ℝ) / 2 / 2 ^ 53 + 1 / 2 ^ 60 ≤ 1 / 2 ^ 51 := by norm_num
  linarith

/-! ## Into groups and layers -/

section
variable [Kurbo F64]

/-- As `FadedInGroups`, with the opacity that is computed for it. -/
inductive GroupsFade [Libm F64] (frame : F64) :
    List (Schema.AnyShape F64) → F64 → Schema.AnyShape F64 → F64 → ℝ → Nat → Prop where
  | here {ss al s} (h : s ∈ ss) : GroupsFade frame ss al s al 1 0
  | group {ss al e nm items i s al' k f n M o} (h : .group e nm items i ∈ ss)
      (hM : GroupAt frame (groupTransform items) M o) (hk : GroupFades frame (groupTransform items) k)
      (hs : GroupsFade frame items (al *. o) s al' f n) : GroupsFade frame ss al s al' (k * f) (n + 1)

/-- As `FadedIn`, with the opacity that is computed for it. -/
inductive LayersFade [Libm F64] (a : Schema.Animation F64) :
    List (Schema.AnyLayer F64) → F64 → F64 → F64 → Schema.AnyShape F64 → F64 → ℝ → Nat → Prop where
  | shape {ls frame al q s al' k f n M o} (h : .shape q ∈ ls) (hM : LayerAt frame (.shape q) M o)
      (hk : (Schema.AnyLayer.shape q).visual.transform.Fades frame k)
      (hs : GroupsFade frame q.shapes (al *. o /. lit 100) s al' f n) :
      LayersFade a ls frame al frame s al' (k * f) (n + 1)
  | instance {ls frame al frame' q p s al' k f n M o} (h : .precomposition q ∈ ls)
      (hM : LayerAt frame (.precomposition q) M o)
      (hk : (Schema.AnyLayer.precomposition q).visual.transform.Fades frame k)
      (hp : .precomposition p ∈ a.assetList) (hid : p.asset.id = q.refId)
      (hs : LayersFade a p.layers (q.time frame) (al *. o /. lit 100) frame' s al' f n) :
      LayersFade a ls frame al frame' s al' (k * f) (n + 1)

variable [Libm F64]

theorem GroupsFade.meant {frame : F64} {ss : List (Schema.AnyShape F64)} {al : F64} {s : Schema.AnyShape F64}
    {al' : F64} {f : ℝ} {n : Nat} (h : GroupsFade frame ss al s al' f n) : FadedInGroups frame ss s f n := by
  induction h with
  | here h => exact .here h
  | group h _ hk _ ih => exact .group h hk ih

theorem LayersFade.meant {a : Schema.Animation F64} {ls : List (Schema.AnyLayer F64)} {frame al frame' : F64}
    {s : Schema.AnyShape F64} {al' : F64} {f : ℝ} {n : Nat} (h : LayersFade a ls frame al frame' s al' f n) :
    FadedIn a ls frame frame' s f n := by
  induction h with
  | shape h _ hk hs => exact .shape h hk hs.meant
  | «instance» h _ hk hp hid _ ih => exact .instance h hk hp hid ih

theorem GroupsFade.mono {frame : F64} {ss ss' : List (Schema.AnyShape F64)} {al : F64} {s : Schema.AnyShape F64}
    {al' : F64} {f : ℝ} {n : Nat} (h : GroupsFade frame ss al s al' f n) (hs : ∀ s ∈ ss, s ∈ ss') :
    GroupsFade frame ss' al s al' f n := by
  cases h with
  | here h => exact .here (hs _ h)
  | group h hM hk h' => exact .group (hs _ h) hM hk h'

omit [Libm F64] in
/-- A transform fades by the value of its opacity. -/
theorem fades_of {v : Schema.Transform F64} {O : Value F64 F64} (hO : convScalar (v.opacity.getD floatValueOneHundred) = .ok O)
    (frame : F64) : v.Fades frame ((O.evaluate frame).toR / 100) := by
  unfold Schema.Transform.Fades
  cases h : v.opacity with
  | some p =>
    rw [h] at hO
    exact ⟨_, ⟨O, hO, rfl⟩, rfl⟩
  | none =>
    rw [h] at hO
    cases hO
    have h100 : Near (lit 100 : F64) 100 0 := by
      have := near_lit (q := 100) (n := 100) (by norm_num) rfl
      simpa using this
    have e : (lit 100 : F64).toR = 100 := by
      have := h100.err
      have := abs_nonpos_iff.mp this
      linarith
    show (lit 100 : F64).toR / 100 = 1
    rw [e]
    norm_num

omit [Libm F64] in
theorem Schema.Transform.Fades.unique {v : Schema.Transform F64} {frame : F64} {k k' : ℝ} (h : v.Fades frame k)
    (h' : v.Fades frame k') : k = k' := by
  unfold Schema.Transform.Fades at h h'
  cases e : v.opacity with
  | none =>
    rw [e] at h h'
    exact h.trans h'.symm
  | some p =>
    rw [e] at h h'
    obtain ⟨o, ⟨O, hO, rfl⟩, rfl⟩ := h
    obtain ⟨o', ⟨O', hO', rfl⟩, rfl⟩ := h'
    rw [hO] at hO'
    cases hO'
    rfl

theorem layer_opacity {frame : F64} {l : Schema.AnyLayer F64} {M : Affine F64} {o : F64} (h : LayerAt frame l M o) :
    ∃ O : Value F64 F64, convScalar (l.visual.transform.opacity.getD floatValueOneHundred) = .ok O ∧
      o = O.evaluate frame := by
  obtain ⟨t, v, ht, -, rfl⟩ := h
  obtain ⟨rot, hrot, h⟩ := bind_ok ht
  obtain ⟨P', hP', h⟩ := bind_ok h
  obtain ⟨R, hR, h⟩ := bind_ok h
  obtain ⟨K, hK, h⟩ := bind_ok h
  obtain ⟨X, hX, h⟩ := bind_ok h
  obtain ⟨O, hO, h⟩ := bind_ok h
  cases h
  exact ⟨_, hO, rfl⟩

theorem layer_fades {frame : F64} {l : Schema.AnyLayer F64} {M : Affine F64} {o : F64} (h : LayerAt frame l M o) :
    l.visual.transform.Fades frame (o.toR / 100) := by
  obtain ⟨O, hO, rfl⟩ := layer_opacity h
  exact fades_of hO frame

theorem group_opacity {frame : F64} {t : Schema.TransformShape F64} {M : Affine F64} {o : F64}
    (h : GroupAt frame (some t) M o) : ∃ O : Value F64 F64,
      convScalar (t.transform.opacity.getD floatValueOneHundred) = .ok O ∧ o = O.evaluate frame /. lit 100 := by
  obtain ⟨g, hg', rfl, rfl⟩ := h
  obtain ⟨rot, hrot, h⟩ := bind_ok hg'
  obtain ⟨P, hP, h⟩ := bind_ok h
  obtain ⟨⟨t', o⟩, h', e⟩ := bind_ok h
  cases e
  obtain ⟨R, hR, h⟩ := bind_ok h'
  obtain ⟨K, hK, h⟩ := bind_ok h
  obtain ⟨X, hX, h⟩ := bind_ok h
  obtain ⟨O, hO, h⟩ := bind_ok h
  cases h
  exact ⟨_, hO, rfl⟩

theorem group_fades {frame : F64} {g : Option (Schema.TransformShape F64)} {M : Affine F64} {o : F64}
    (h : GroupAt frame g M o) : ∃ k, GroupFades frame g k := by
  cases g with
  | none => exact ⟨1, rfl⟩
  | some t =>
    obtain ⟨O, hO, -⟩ := group_opacity h
    exact ⟨_, fades_of hO frame⟩

theorem Dims.group {n : Nat} {x : F64} {r : ℝ} (h : Dims n x r) (hn : n ≤ 41) {frame : F64}
    {g : Option (Schema.TransformShape F64)} (hg : ∀ t, g = some t → t.transform.Tame) {M : Affine F64} {o : F64}
    (hM : GroupAt frame g M o) {k : ℝ} (hk : GroupFades frame g k) : Dims (n + 1) (x *. o) (r * k) := by
  cases g with
  | none =>
    obtain ⟨-, rfl⟩ := hM
    cases hk
    have b := lit_one_between
    have e : (lit 1 : F64).toR = 1 := le_antisymm b.2.2 b.2.1
    refine h.factor hn (b.mono (by norm_num) (by norm_num)) ?_ (by norm_num)
    rw [e]
    norm_num
  | some t =>
    obtain ⟨O, hO, rfl⟩ := group_opacity hM
    cases (show t.transform.Fades frame k from hk).unique (fades_of hO frame)
    have w := transform_opacity (hg t rfl) hO frame
    generalize O.evaluate frame = y at *
    have b : |y.toR| ≤ 100 + 51 / 10 ^ 10 := abs_le.mpr ⟨by linarith [w.2.1], by linarith [w.2.2]⟩
    have d := div_hundred (Near.self w.1) (b.trans (by norm_num)) (by norm_num)
    refine h.factor hn (percent_factor w) (d.err.trans ?_) ?_
    · have hs : (1 : ℝ) / 2 ^ 1075 ≤ 1 / 2 ^ 60 := by norm_num
      have : (|y.toR| / 100 + 0 / 100) / 2 ^ 53 ≤ ((100 + 51 / 10 ^ 10) / 100 + 0 / 100) / 2 ^ 53 := by gcongr
      have : (0 : ℝ) / 100 + ((100 + 51 / 10 ^ 10) / 100 + 0 / 100) / 2 ^ 53 + 1 / 2 ^ 60 ≤ 1 / 2 ^ 52 := by norm_num
      linarith
    · rw [abs_div, show |(100 : ℝ)| = 100 by norm_num]
      linarith

theorem GroupsFade.dims {frame : F64} {ss : List (Schema.AnyShape F64)} {al : F64} {s : Schema.AnyShape F64}
    {al' : F64} {f : ℝ} {n : Nat} (h : GroupsFade frame ss al s al' f n) : ∀ {d m : Nat} {r : ℝ}, ShapesTame d ss →
      Dims m al r → m + d ≤ 41 → n ≤ d ∧ s.TamePaint ∧ Dims (m + n) al' (r * f) := by
  induction h with
  | here h =>
    intro d m r hd ha hm
    refine ⟨Nat.zero_le _, ?_, by simpa using ha⟩
    cases d <;> exact (hd _ h).1
  | @group ss al e nm items i s al' k f n M o h hM hk hs ih =>
    intro d m r hd ha hm
    cases d with
    | zero => exact absurd rfl ((hd _ h).2 e nm items i)
    | succ d =>
      obtain ⟨htr, hit⟩ := (hd _ h).2 e nm items i rfl
      obtain ⟨h1, h2, h3⟩ := ih hit (ha.group (by omega) htr hM hk) (by omega)
      refine ⟨by omega, h2, ?_⟩
      rw [← mul_assoc, show m + (n + 1) = m + 1 + n by omega]
      exact h3

theorem LayersFade.dims {a : Schema.Animation F64} {depth : String → Nat}
    (hassets : ∀ p, .precomposition p ∈ a.assetList → LayersTame depth (depth p.asset.id) p.layers)
    {ls : List (Schema.AnyLayer F64)} {frame al frame' : F64}
    {s : Schema.AnyShape F64} {al' : F64} {f : ℝ} {n : Nat} (h : LayersFade a ls frame al frame' s al' f n) :
    ∀ {b m : Nat} {r : ℝ}, LayersTame depth b ls → Dims m al r → m + b ≤ 41 →
      n ≤ b ∧ s.TamePaint ∧ Dims (m + n) al' (r * f) := by
  induction h with
  | @shape ls frame al q s al' k f n M o h hM hk hs =>
    intro b m r hb ha hm
    obtain ⟨hv, j, hj1, hj2, hsh, -⟩ := hb _ h
    obtain ⟨g, hg, hgn⟩ := hsh q rfl
    cases hk.unique (layer_fades hM)
    obtain ⟨O, hO, rfl⟩ := layer_opacity hM
    have := ha.percent (by omega) ((transform_opacity hv hO frame).mono (by norm_num) (by norm_num))
    obtain ⟨h1, h2, h3⟩ := hs.dims hg this (by omega)
    refine ⟨by omega, h2, ?_⟩
    rw [← mul_assoc, show m + (n + 1) = m + 1 + n by omega]
    exact h3
  | @«instance» ls frame al frame' q p s al' k f n M o h hM hk hp hid hs ih =>
    intro b m r hb ha hm
    obtain ⟨hv, j, hj1, hj2, -, hpre⟩ := hb _ h
    have h4 := hpre q rfl
    rw [← hid] at h4
    cases hk.unique (layer_fades hM)
    obtain ⟨O, hO, rfl⟩ := layer_opacity hM
    have := ha.percent (by omega) ((transform_opacity hv hO frame).mono (by norm_num) (by norm_num))
    obtain ⟨h1, h2, h3⟩ := ih (hassets _ hp) this (by omega)
    refine ⟨by omega, h2, ?_⟩
    rw [← mul_assoc, show m + (n + 1) = m + 1 + n by omega]
    exact h3

/-! ## Brushes -/

omit [Kurbo F64] [Libm F64] in
theorem toR_one {x : F64} (hx : x.isFin = true) (h : (x ==. lit 1) = true) : x.toR = 1 := by
  have h1 : (lit 1 : F64).isFin = true := lit_one_between.1
  have e : (lit 1 : F64).toR = 1 := le_antisymm lit_one_between.2.2 lit_one_between.2.1
  rw [beq_fin hx h1] at h
  unfold F64.toR at e ⊢
  rw [h, e]

omit [Kurbo F64] [Libm F64] in
/-- The factor in single precision. -/
theorem Dims.single {n : Nat} {x : F64} {r : ℝ} (h : Dims n x r) (hn : n ≤ 42) :
    (FloatOps.toF32 x).Between (-(1 + 1 / 10 ^ 6)) (1 + 1 / 10 ^ 6) ∧ |(FloatOps.toF32 x).toR - r| ≤ 5 / 4 / 2 ^ 24 := by
  have hb := h.faded.bounds hn
  have a1 : |x.toR| ≤ 1 + 1 / 10 ^ 8 := abs_le.mpr hb.2
  have f := near_toF32 (hb.mono (by norm_num) (by norm_num))
  have hn' : (n : ℝ) ≤ 42 := by exact_mod_cast hn
  have e1 : (n : ℝ) / 2 ^ 50 ≤ 42 / 2 ^ 50 := by gcongr
  have e2 : |x.toR| / 2 ^ 24 ≤ (1 + 1 / 10 ^ 8) / 2 ^ 24 := by gcongr
  have e3 := abs_sub_le (FloatOps.toF32 x).toR x.toR r
  have e4 := h.err
  have e5 := f.err
  have e6 : (1 + 1 / 10 ^ 8 : ℝ) / 2 ^ 24 + 1 / 2 ^ 50 + 42 / 2 ^ 50 ≤ 5 / 4 / 2 ^ 24 := by norm_num
  have e7 : (1 + 1 / 10 ^ 8 : ℝ) / 2 ^ 24 + 1 / 2 ^ 50 ≤ 1 / 10 ^ 7 := by norm_num
  obtain ⟨b1, b2⟩ := abs_le.mp a1
  obtain ⟨c1, c2⟩ := abs_le.mp e5
  exact ⟨⟨f.fin, by linarith, by linarith⟩, by linarith⟩

omit [Kurbo F64] [Libm F64] in
/-- A colour that has been multiplied. -/
theorem Dims.multiplied {n : Nat} {x : F64} {r : ℝ} (h : Dims n x r) (hn : n ≤ 42) {a : F64} (ha : a.Between (-1) 1) :
    (mulF32 a (FloatOps.toF32 x)).isFin = true ∧ |(mulF32 a (FloatOps.toF32 x)).toR - a.toR * r| ≤ 1 / 2 ^ 22 := by
  obtain ⟨hy, he⟩ := h.single hn
  unfold mulF32
  generalize FloatOps.toF32 x = y at hy he
  have a1 : |a.toR| ≤ 1 := abs_le.mpr ha.2
  have a2 : |y.toR| ≤ 1 + 1 / 10 ^ 6 := abs_le.mpr hy.2
  have m := mul_near (ha.mono (by norm_num) (by norm_num)) (hy.mono (by norm_num) (by norm_num))
  have b : |a.toR * y.toR| ≤ 1 + 1 / 10 ^ 6 := by
    rw [abs_mul]
    exact (mul_le_mul a1 a2 (abs_nonneg _) (by norm_num)).trans (by norm_num)
  have hs : (1 : ℝ) / 2 ^ 1075 ≤ 1 / 2 ^ 60 := by norm_num
  have hs' : |a.toR * y.toR| / 2 ^ 53 ≤ (1 + 1 / 10 ^ 6) / 2 ^ 53 := by gcongr
  have hs2 : (1 + 1 / 10 ^ 6 : ℝ) / 2 ^ 53 + 1 / 2 ^ 60 ≤ 1 / 2 ^ 50 := by norm_num
  have e1 : |(a *. y).toR - a.toR * y.toR| ≤ 1 / 2 ^ 50 := by linarith [m.err]
  have b2 : |(a *. y).toR| ≤ 1 + 1 / 10 ^ 5 := by
    have := abs_sub_abs_le_abs_sub (a *. y).toR (a.toR * y.toR)
    have : (1 : ℝ) / 2 ^ 50 + 1 / 10 ^ 6 ≤ 1 / 10 ^ 5 := by norm_num
    linarith
  have b3 : (a *. y).Between (-2) 2 := by
    obtain ⟨c1, c2⟩ := abs_le.mp b2
    exact ⟨m.fin, by linarith, by linarith⟩
  have f := near_toF32 b3
  refine ⟨f.fin, ?_⟩
  have e2 : |a.toR * y.toR - a.toR * r| ≤ 5 / 4 / 2 ^ 24 := by
    rw [← mul_sub, abs_mul]
    exact (mul_le_mul a1 he (abs_nonneg _) (by norm_num)).trans (by norm_num)
  have e3 := f.err
  have e4 : |(a *. y).toR| / 2 ^ 24 ≤ (1 + 1 / 10 ^ 5) / 2 ^ 24 := by gcongr
  have e5 := abs_sub_le (FloatOps.toF32 (a *. y)).toR (a *. y).toR (a.toR * r)
  have e6 := abs_sub_le (a *. y).toR (a.toR * y.toR) (a.toR * r)
  have e7 : (1 + 1 / 10 ^ 5 : ℝ) / 2 ^ 24 + 1 / 2 ^ 50 + (1 / 2 ^ 50 + 5 / 4 / 2 ^ 24) ≤ 1 / 2 ^ 22 := by norm_num
  linarith

omit [Kurbo F64] [Libm F64] in
/-- The opacities of the final brush. -/
theorem Dims.final {n : Nat} {P : Paint F64} {r : ℝ} (h : Dims n P.alpha r) (hn : n ≤ 42) {b : Brush F64}
    (hb : match b, P.brush with
      | .solid c, .solid c' => c.a.Between 1 1 ∧ c'.a = lit 1 ∧ c'.r = c.r ∧ c'.g = c.g ∧ c'.b = c.b
      | .gradient g ss, .gradient g' ss' => g' = g ∧ ss' = ss ∧ ∀ s ∈ ss, s.color.a.Between (-1) 1
      | _, _ => False) : b.FadedBy (1 / 2 ^ 22) r P.finalBrush := by
  have same : ∀ a : F64, a.Between (-1) 1 → ((P.alpha ==. lit 1) || (FloatOps.toF32 P.alpha ==. lit 1)) = true →
      |a.toR - a.toR * r| ≤ 1 / 2 ^ 22 := by
    intro a ha hc
    have h1 : |1 - r| ≤ 1 / 2 ^ 22 := by
      rcases Bool.or_eq_true _ _ ▸ hc with hc | hc
      · have e := h.err
        rw [toR_one h.faded.1 hc] at e
        refine e.trans ?_
        have hn' : (n : ℝ) ≤ 42 := by exact_mod_cast hn
        have e1 : (n : ℝ) / 2 ^ 50 ≤ 42 / 2 ^ 50 := by gcongr
        exact e1.trans (by norm_num)
      · obtain ⟨h1, h2⟩ := h.single hn
        rw [toR_one h1.1 hc] at h2
        exact h2.trans (by norm_num)
    have a1 : |a.toR| ≤ 1 := abs_le.mpr ha.2
    rw [show a.toR - a.toR * r = a.toR * (1 - r) by ring, abs_mul]
    exact (mul_le_mul a1 h1 (abs_nonneg _) (by norm_num)).trans (by norm_num)
  have one : (lit 1 : F64).Between (-1) 1 := lit_one_between.mono (by norm_num) (le_refl _)
  unfold Paint.finalBrush
  dsimp only
  cases hB : P.brush with
  | solid c' =>
    rw [hB] at hb
    cases b with
    | gradient => exact hb.elim
    | solid c =>
      obtain ⟨h1, h2, h3, h4, h5⟩ := hb
      have h1 := eq_one_of_between h1
      split_ifs with hc
      · exact ⟨h3, h4, h5, by rw [h2]; exact one.1, by rw [h2, h1]; exact same _ one hc⟩
      · have := h.multiplied hn one
        refine ⟨h3, h4, h5, ?_, ?_⟩
        · show (mulF32 c'.a _).isFin = true
          rw [h2]; exact this.1
        · show |(mulF32 c'.a _).toR - _| ≤ _
          rw [h2, h1]; exact this.2
  | gradient g' ss' =>
    rw [hB] at hb
    cases b with
    | solid => exact hb.elim
    | gradient g ss =>
      obtain ⟨rfl, rfl, h1⟩ := hb
      split_ifs with hc
      · refine ⟨rfl, List.forall₂_same.mpr fun s hs => ⟨rfl, rfl, rfl, rfl, (h1 s hs).1, same _ (h1 s hs) hc⟩⟩
      · refine ⟨rfl, ?_⟩
        rw [List.forall₂_map_right_iff]
        exact List.forall₂_same.mpr fun s hs => ⟨rfl, rfl, rfl, rfl, h.multiplied hn (h1 s hs)⟩

theorem Dims.paint {n : Nat} {al : F64} {r : ℝ} (h : Dims n al r) (hn : n ≤ 41) {frame : F64} {p : Paint F64}
    {s : Schema.AnyShape F64} (hp : PaintOf al frame p s) (hs : s.TamePaint) :
    ∃ b o, Declares frame s b o ∧ b.FadedBy (1 / 2 ^ 22) (r * o) p.finalBrush := by
  have h100 : Near (lit 100 : F64) 100 0 := by
    have := near_lit (q := 100) (n := 100) (by norm_num) rfl
    simpa using this
  have e100 : (lit 100 : F64).toR = 100 := by
    have := abs_nonpos_iff.mp h100.err
    linarith
  have hundred : (lit 100 : F64).Between (-(51 / 10 ^ 10)) (100 + 51 / 10 ^ 10) :=
    (lit_between (q := 100) (n := 100) (by norm_num) (by norm_num)).mono (by norm_num) (by norm_num)
  have full : p.alpha = al *. lit 100 /. lit 100 → Dims (n + 1) p.alpha (r * 1) := by
    intro e
    rw [e]
    have := h.percent hn hundred
    rwa [e100, show (100 : ℝ) / 100 = 1 by norm_num] at this
  have grad : ∀ {g : Schema.BaseGradient F64}, GradientWithin g → GradientAt g frame p.brush →
      Dims (n + 1) p.alpha (r * 1) → p.brush.FadedBy (1 / 2 ^ 22) (r * 1) p.finalBrush := by
    intro g hg hb ha
    refine ha.final (by omega) ?_
    obtain ⟨st, hst, e⟩ := hb
    have hu := stops_unit hg.2.2 hst frame
    rw [e]
    refine ⟨rfl, rfl, fun s hs => ?_⟩
    obtain ⟨-, -, -, -, s5⟩ := hu s hs
    exact s5.mono (by norm_num) (le_refl _)
  cases s with
  | fill s =>
    obtain ⟨-, h2, o, ho, e⟩ := hp
    refine ⟨_, _, .fill ho, Dims.final (n := n + 1) ?_ (by omega) ?_⟩
    · rw [e]
      exact h.percent hn (ho.percent hs.2)
    · rw [h2]
      exact ⟨(C114_colors hs.1 frame invisible).2.2.2, color_once hs.1 frame invisible, rfl, rfl, rfl⟩
  | stroke s =>
    obtain ⟨-, h2, o, ho, e⟩ := hp
    refine ⟨_, _, .stroke ho, Dims.final (n := n + 1) ?_ (by omega) ?_⟩
    · rw [e]
      exact h.percent hn (ho.percent hs.2.1)
    · rw [h2]
      exact ⟨(C114_colors hs.1 frame invisible).2.2.2, color_once hs.1 frame invisible, rfl, rfl, rfl⟩
  | gradientFill s =>
    obtain ⟨-, h2, e⟩ := hp
    exact ⟨_, _, .gradientFill h2, grad hs h2 (full e)⟩
  | gradientStroke s =>
    obtain ⟨-, h2, e⟩ := hp
    exact ⟨_, _, .gradientStroke h2, grad hs.1 h2 (full e)⟩
  | _ => exact hp.elim

/-! ## The calls of a document -/

theorem items_fade {G : Paint F64 → Prop} {frame : F64} {T : Affine F64} {alpha : F64}
    {items : List (Schema.AnyShape F64)} {S S' : Sheet F64} (h : ItemsDrawn frame T alpha items S S') :
    (∀ s al' f n p, GroupsFade frame items alpha s al' f n → PaintOf al' frame p s → G p) →
      (∀ p ∈ S.paintings, G p.paint) → ∀ p ∈ S'.paintings, G p.paint := by
  have tail : ∀ {alpha : F64} {s : Schema.AnyShape F64} {rest : List (Schema.AnyShape F64)},
      (∀ t al' f n p, GroupsFade frame (s :: rest) alpha t al' f n → PaintOf al' frame p t → G p) →
      ∀ t al' f n p, GroupsFade frame rest alpha t al' f n → PaintOf al' frame p t → G p :=
    fun hG t al' f n p h => hG t al' f n p (h.mono fun _ hs => List.mem_cons_of_mem _ hs)
  induction h with
  | nil => exact fun _ hS => hS
  | geometry h hr ih =>
    intro hG hS
    refine ih (tail hG) ?_
    unfold Sheet.add
    dsimp only
    split
    · split_ifs <;> exact hS
    · exact hS
  | @group T alpha e nm i items rest M k S E S' ht hi hr ihi ihr =>
    intro hG hS
    obtain ⟨q, hq⟩ := group_fades ht
    have hE := ihi (fun t al' f n p h => hG t al' _ _ p (.group List.mem_cons_self ht hq h))
      (fun _ h => absurd h List.not_mem_nil)
    exact ihr (tail hG) fun p hp => (List.mem_append.mp hp).elim (hS p) (hE p)
  | paint hp hr ih =>
    intro hG hS
    refine ih (tail hG) fun p hp' => ?_
    rcases List.mem_append.mp hp' with h | h
    · exact hS p h
    · cases List.mem_singleton.mp h
      exact hG _ _ _ _ _ (.here List.mem_cons_self) hp
  | @trim T alpha s t rest S S' ht hr ih =>
    intro hG hS
    have h2 : ∀ p ∈ S.paintings.map fun p => (⟨p.paint, p.outlines.map t.cut⟩ : Painting F64), G p.paint := by
      intro p hp
      obtain ⟨p', hp', rfl⟩ := List.mem_map.mp hp
      exact hS p' hp'
    refine ih (tail hG) ?_
    unfold Sheet.trim
    dsimp only
    split_ifs <;> exact h2
  | ignored h hr ih => exact fun hG hS => ih (tail hG) hS

/-- If the call draws, its brush has the property. -/
def Op.Brushed (G : Brush F64 → Prop) (op : Op F64) : Prop := ∀ st T b path, op = .draw st T b path → G b

omit [Libm F64] [Kurbo F64] in
theorem calls_brushed {G : Brush F64 → Prop} {S : Sheet F64} (h : ∀ p ∈ S.paintings, G p.paint.finalBrush) :
    ∀ op ∈ S.calls, op.Brushed G := by
  intro op hop
  obtain ⟨p, hp, hop⟩ := List.mem_flatMap.mp hop
  obtain ⟨o, ho, rfl⟩ := List.mem_map.mp hop
  intro st T b path e
  cases e
  exact h p (List.mem_reverse.mp hp)

theorem masks_brushed {G : Brush F64 → Prop} {frame : F64} {T : Affine F64} {ms : List (Schema.Mask F64)}
    {ops : List (Op F64)} (h : MasksDrawn frame T ms ops) : ∀ op ∈ ops, op.Brushed G := by
  induction h with
  | nil => exact fun _ h => absurd h List.not_mem_nil
  | keep _ _ _ _ ih =>
    intro op hop
    rcases List.mem_cons.mp hop with rfl | hop
    · intro st T b path e; cases e
    · exact ih op hop
  | drop _ _ ih => exact ih

omit [Libm F64] [Kurbo F64] in
theorem announced_brushed {G : Brush F64 → Prop} {l : Schema.AnyLayer F64} {ix : Nat} {ops : List (Op F64)}
    (h : ∀ op ∈ ops, op.Brushed G) : ∀ op ∈ announced l ix ops, op.Brushed G := by
  intro op hop
  unfold announced at hop
  simp only [List.mem_append, List.mem_singleton] at hop
  rcases hop with (rfl | hop) | rfl
  · intro st T b path e; cases e
  · exact h op hop
  · intro st T b path e; cases e

omit [Libm F64] [Kurbo F64] in
theorem body_brushed {G : Brush F64 → Prop} {ms co : List (Op F64)} (h1 : ∀ op ∈ ms, op.Brushed G)
    (h2 : ∀ op ∈ co, op.Brushed G) : ∀ op ∈ ms ++ co ++ List.replicate ms.length .pop, op.Brushed G := by
  intro op hop
  simp only [List.mem_append, List.mem_replicate] at hop
  rcases hop with (hop | hop) | ⟨-, rfl⟩
  · exact h1 op hop
  · exact h2 op hop
  · intro st T b path e; cases e

theorem layers_fade {G : Brush F64 → Prop} {a : Schema.Animation F64}
    {src ls : List (Schema.AnyLayer F64)} {T : Affine F64} {al fr : F64} {number : Nat → Nat} {i : Nat}
    {per : List (List (Op F64))} (hd : LayerListDrawn a src T al fr number i ls per) :
    (∀ fr' s al' f n p, LayersFade a src fr al fr' s al' f n → PaintOf al' fr' p s → G p.finalBrush) →
      (∀ l ∈ ls, l ∈ src) → ∀ ops ∈ per, ∀ op ∈ ops, op.Brushed G := by
  have own : ∀ {ls : List (Schema.AnyLayer F64)} {T P M : Affine F64} {alpha frame o : F64} {l : Schema.AnyLayer F64}
      {ms co : List (Op F64)}, LayerAt frame l M o →
      MasksDrawn frame (T.mul P) (l.visual.masksProperties.getD []) ms →
      ((∀ q, l = .shape q → ∀ s al' f n p, GroupsFade frame q.shapes (alpha *. o /. lit 100) s al' f n →
          PaintOf al' frame p s → G p.finalBrush) →
        (∀ q, l = .precomposition q → ∀ x, .precomposition x ∈ a.assetList → x.asset.id = q.refId →
          ∀ fr' s al' f n p, LayersFade a x.layers (q.time frame) (alpha *. o /. lit 100) fr' s al' f n →
            PaintOf al' fr' p s → G p.finalBrush) → ∀ op ∈ co, op.Brushed G) →
      (∀ fr' s al' f n p, LayersFade a ls frame alpha fr' s al' f n → PaintOf al' fr' p s → G p.finalBrush) →
        l ∈ ls → ∀ op ∈ ms ++ co ++ List.replicate ms.length .pop, op.Brushed G := by
    intro ls T P M alpha frame o l ms co hk hms hco hG hm
    refine body_brushed (masks_brushed hms) (hco ?_ ?_)
    · rintro q rfl s al' f n p h
      exact hG _ _ _ _ _ _ (.shape hm hk (layer_fades hk) h)
    · rintro q rfl x hx hid fr' s al' f n p h
      exact hG _ _ _ _ _ _ (.instance hm hk (layer_fades hk) hx hid h)
  refine LayerListDrawn.rec
    (motive_1 := fun src T al fr ix i l ops _ =>
      (∀ fr' s al' f n p, LayersFade a src fr al fr' s al' f n → PaintOf al' fr' p s → G p.finalBrush) → l ∈ src →
      ∀ op ∈ ops, op.Brushed G)
    (motive_2 := fun T al fr l co _ =>
      (∀ q, l = .shape q → ∀ s al' f n p, GroupsFade fr q.shapes al s al' f n →
          PaintOf al' fr p s → G p.finalBrush) →
      (∀ q, l = .precomposition q → ∀ x, .precomposition x ∈ a.assetList → x.asset.id = q.refId →
          ∀ fr' s al' f n p, LayersFade a x.layers (q.time fr) al fr' s al' f n →
            PaintOf al' fr' p s → G p.finalBrush) → ∀ op ∈ co, op.Brushed G)
    (motive_3 := fun src T al fr number i ls per _ =>
      (∀ fr' s al' f n p, LayersFade a src fr al fr' s al' f n → PaintOf al' fr' p s → G p.finalBrush) →
      (∀ l ∈ ls, l ∈ src) → ∀ ops ∈ per, ∀ op ∈ ops, op.Brushed G)
    ?_ ?_ ?_ ?_ ?_ ?_ ?_ ?_ ?_ ?_ ?_ hd
  · intros
    rename_i h
    cases h
  · intro ls T alpha frame ix i l P M o ms co h hm hP hk hms _ ih hG hmem
    exact announced_brushed (own hk hms ih hG hmem)
  · intro ls T alpha frame ix i l P M o ms co bl j m mo h hm hj _ hP hk hms _ ihm ih hG hmem
    refine announced_brushed fun op hop => ?_
    unfold composed at hop
    simp only [List.mem_append, List.mem_cons, List.not_mem_nil, or_false] at hop
    rcases hop with (((rfl | hop) | rfl) | hop) | rfl | rfl
    · intro st T b path e; cases e
    · exact ihm hG (List.mem_of_getElem? hj) op hop
    · intro st T b path e; cases e
    · refine own hk hms ih hG hmem op ?_
      simpa only [List.mem_append] using hop
    · intro st T b path e; cases e
    · intro st T b path e; cases e
  · intros
    rename_i h
    cases h
  · intros
    rename_i h
    cases h
  · intro T alpha frame q S hv hss hG _
    exact calls_brushed (items_fade (G := fun p => G p.finalBrush) hss (hG q rfl)
      (fun _ h => absurd h List.not_mem_nil))
  · intros
    rename_i h
    cases h
  · intro T alpha frame q p per i hv hp hid hlast _ ih _ hG op hop
    obtain ⟨ops, hops, hop⟩ := List.mem_flatten.mp hop
    exact ih (hG q rfl p (List.mem_of_getElem? hp) hid) (fun _ h => h) ops (List.mem_reverse.mp hops) op hop
  · intros
    rename_i h _ _
    cases h
  · intro ls T alpha frame number i l ls' per h _ ih hG hsub ops hops
    rcases List.mem_cons.mp hops with rfl | hops
    · exact fun _ h => absurd h List.not_mem_nil
    · exact ih hG (fun l hl' => hsub l (List.mem_cons_of_mem _ hl')) ops hops
  · intro ls T alpha frame number i l ops ls' per h _ _ ih1 ih2 hG hsub os hos
    rcases List.mem_cons.mp hos with rfl | hos
    · exact ih1 hG (hsub l List.mem_cons_self)
    · exact ih2 hG (fun l hl' => hsub l (List.mem_cons_of_mem _ hl')) os hos

end

end Velato
