import Verif.Proofs.Timeline
import Verif.Proofs.GradientPlayback

/-!
# C136 — numbers and gradients play accurately at every frame
-/

namespace Velato
open FloatOps (lit)
open F64
open Import (convScalar convGradientColors convMultiP2 convPosPoint convColor)

set_option exponentiation.threshold 2000

section
variable [Kurbo F64] {δ M : ℝ}

/-- **C136.** An imported number (opacity, rotation, width, …) with ordinary keyframes and values up to `M`: at every frame,
before, between and after the keyframes, it is what they say up to `M / 10^9`, in double precision and with a cubic solver that is
accurate up to `δ`. -/
theorem C136_scalars (hδ : 0 ≤ δ) (hs : SolverWithin δ) {p : Schema.FloatValue F64} {v : Value F64 F64}
    (h : convScalar p = .ok v) {ks : List (Schema.Keyframe F64)} (hp : p.value = .animatedValue ks)
    (hk : OrdinaryTimes (·.base) ks) (hne : ks ≠ []) (hM : M ≤ 2 ^ 1000)
    (hx : ∀ k ∈ ks, ∀ x ∈ k.value, x.Between (-M) M) {frame : F64} (hf : isNaN frame = false) (d : F64) :
    ShownNear 0 (δ + 1 / 10 ^ 10) (M / 10 ^ 9 + 1 / 2 ^ 1072) (ks.map fun k => (k.base, k.value.headD (lit 0))) frame
      (v.evaluateOr frame d) := by
  have h51 := C51_scalars h
  rw [hp] at h51
  obtain ⟨ts, vs, rfl, ht, hv⟩ := h51
  have hvs : vs = ks.map fun k => k.value.headD (lit 0) := by
    clear h hx hne hk hp ht
    induction hv with
    | nil => rfl
    | @cons k v ks vs e _ ih =>
      rw [List.map_cons, ih]
      cases hkv : k.value with
      | nil => rw [hkv] at e; cases e
      | cons a l => rw [hkv] at e; rw [← Option.some.inj e]; rfl
  have hx' : ∀ k ∈ ks, (k.value.headD (lit 0)).Between (-M) M := by
    intro k hm
    obtain ⟨n, hn, rfl⟩ := List.getElem_of_mem hm
    have := (List.forall₂_iff_get.mp hv).2 n hn (by rw [← hv.length_eq]; exact hn)
    simp only [List.get_eq_getElem] at this
    cases hkv : ks[n].value with
    | nil => rw [hkv] at this; cases this
    | cons a l => exact hx _ hm a (by rw [hkv]; exact List.mem_cons_self)
  rw [hvs]
  exact shownNear_evaluate hδ hs ht hk hne hM hx' hf d

/-- **C136 (partial).** The same for the coordinates of vectors (anchor points, scales, sizes), each with the handles of its
keyframes, if these have both handles or none, the same for both coordinates.  Missing: other handles, which the code does not use as declared
(`C68_counterexample`, `C68_counterexample_handle`). -/
theorem C136_vectors_partial (hδ : 0 ≤ δ) (hs : SolverWithin δ) {p : Schema.MultiDimensional F64}
    {ks : List (Schema.Keyframe F64)} (hp : p.animatedProperty.value = .animatedValue ks)
    (hk : OrdinaryTimes (·.base) ks) (hne : ks ≠ []) (he : ∀ k ∈ ks, OneEasing k.base) (hM : M ≤ 2 ^ 1000)
    (hv : ∀ k ∈ ks, 2 ≤ k.value.length) (hx : ∀ k ∈ ks, ∀ x ∈ k.value, x.Between (-M) M) {frame : F64}
    (hf : isNaN frame = false) (d : P2 F64) :
    ShownNear 0 (δ + 1 / 10 ^ 10) (M / 10 ^ 9 + 1 / 2 ^ 1072) (ks.map fun k => (k.base, k.value.getD 0 (lit 0))) frame
      ((convMultiP2 p).evaluateOr frame d).x ∧
    ShownNear 1 (δ + 1 / 10 ^ 10) (M / 10 ^ 9 + 1 / 2 ^ 1072) (ks.map fun k => (k.base, k.value.getD 1 (lit 0))) frame
      ((convMultiP2 p).evaluateOr frame d).y := by
  have h51 := C51_vectors p
  rw [hp] at h51
  obtain ⟨ts, vs, h, hfk⟩ := h51
  have hen := Entries.of_keyframes64 hfk he hv
  rw [h]
  constructor
  · obtain ⟨y, e, h⟩ := Entries.shownNear (π := P2.x) (post := id) (c := 0)
      (x := fun k : Schema.Keyframe F64 => k.value.getD 0 (lit 0)) hδ hs (fun _ _ _ _ => rfl)
      (fun k t v hr => ⟨hr.1 0, (pointOf_getD64 hr.2.1 hr.2.2).1⟩) hen hk hne hM
      (fun k hm => getD_between (by have := hv k hm; omega) (hx k hm) _) hf d
    exact (show _ = y from e) ▸ h
  · obtain ⟨y, e, h⟩ := Entries.shownNear (π := P2.y) (post := id) (c := 1)
      (x := fun k : Schema.Keyframe F64 => k.value.getD 1 (lit 0)) hδ hs (fun _ _ _ _ => rfl)
      (fun k t v hr => ⟨hr.1 1, (pointOf_getD64 hr.2.1 hr.2.2).2⟩) hen hk hne hM
      (fun k hm => getD_between (by have := hv k hm; omega) (hx k hm) _) hf d
    exact (show _ = y from e) ▸ h

/-- **C136 (partial).** The same for positions. -/
theorem C136_positions_partial (hδ : 0 ≤ δ) (hs : SolverWithin δ) {p : Schema.Position F64}
    {ks : List (Schema.PositionKeyframe F64)} (hp : p.value = .animated ks)
    (hk : OrdinaryTimes (·.keyframe.base) ks) (hne : ks ≠ []) (he : ∀ k ∈ ks, OneEasing k.keyframe.base)
    (hM : M ≤ 2 ^ 1000) (hv : ∀ k ∈ ks, 2 ≤ k.keyframe.value.length)
    (hx : ∀ k ∈ ks, ∀ x ∈ k.keyframe.value, x.Between (-M) M) {frame : F64} (hf : isNaN frame = false) (d : P2 F64) :
    ShownNear 0 (δ + 1 / 10 ^ 10) (M / 10 ^ 9 + 1 / 2 ^ 1072)
      (ks.map fun k => (k.keyframe.base, k.keyframe.value.getD 0 (lit 0))) frame ((convPosPoint p).evaluateOr frame d).x ∧
    ShownNear 1 (δ + 1 / 10 ^ 10) (M / 10 ^ 9 + 1 / 2 ^ 1072)
      (ks.map fun k => (k.keyframe.base, k.keyframe.value.getD 1 (lit 0))) frame ((convPosPoint p).evaluateOr frame d).y := by
  have h51 := C51_positions p
  rw [hp] at h51
  obtain ⟨ts, vs, h, hfk⟩ := h51
  have hen := Entries.of_keyframes64 hfk he hv
  rw [h]
  constructor
  · obtain ⟨y, e, h⟩ := Entries.shownNear (π := P2.x) (post := id) (c := 0)
      (x := fun k : Schema.PositionKeyframe F64 => k.keyframe.value.getD 0 (lit 0)) hδ hs (fun _ _ _ _ => rfl)
      (fun k t v hr => ⟨hr.1 0, (pointOf_getD64 hr.2.1 hr.2.2).1⟩) hen hk hne hM
      (fun k hm => getD_between (by have := hv k hm; omega) (hx k hm) _) hf d
    exact (show _ = y from e) ▸ h
  · obtain ⟨y, e, h⟩ := Entries.shownNear (π := P2.y) (post := id) (c := 1)
      (x := fun k : Schema.PositionKeyframe F64 => k.keyframe.value.getD 1 (lit 0)) hδ hs (fun _ _ _ _ => rfl)
      (fun k t v hr => ⟨hr.1 1, (pointOf_getD64 hr.2.1 hr.2.2).2⟩) hen hk hne hM
      (fun k hm => getD_between (by have := hv k hm; omega) (hx k hm) _) hf d
    exact (show _ = y from e) ▸ h

/-- **C136 (partial).** The same for colours, with numbers from 0 to 1: red, green and blue are right up to `2^-22`, in single precision. -/
theorem C136_colors_partial (hδ : 0 ≤ δ) (hs : SolverWithin δ) {p : Schema.ColorValue F64}
    {ks : List (Schema.Keyframe F64)} (hp : p.value = .animatedValue ks)
    (hk : OrdinaryTimes (·.base) ks) (hne : ks ≠ []) (he : ∀ k ∈ ks, OneEasing k.base)
    (hv : ∀ k ∈ ks, 3 ≤ k.value.length) (hx : ∀ k ∈ ks, ∀ x ∈ k.value, x.Between 0 1) {frame : F64}
    (hf : isNaN frame = false) (d : Color F64) :
    ShownNear 0 (δ + 1 / 10 ^ 10) (1 / 2 ^ 22) (ks.map fun k => (k.base, k.value.getD 0 (lit 0))) frame
      ((convColor p).evaluateOr frame d).r ∧
    ShownNear 1 (δ + 1 / 10 ^ 10) (1 / 2 ^ 22) (ks.map fun k => (k.base, k.value.getD 1 (lit 0))) frame
      ((convColor p).evaluateOr frame d).g ∧
    ShownNear 2 (δ + 1 / 10 ^ 10) (1 / 2 ^ 22) (ks.map fun k => (k.base, k.value.getD 2 (lit 0))) frame
      ((convColor p).evaluateOr frame d).b := by
  have h51 := C51_colors p
  rw [hp] at h51
  obtain ⟨ts, vs, h, hfk⟩ := h51
  have hen := Entries.of_keyframes64 hfk he hv
  rw [h]
  have key : ∀ (c : Nat) (π : Color F64 → F64), c < 3 →
      (∀ v v' w e, π (Tween.tween v v' w e) = FloatOps.toF32 (tweenScalar (π v) (π v') w e)) →
      (∀ (k : Schema.Keyframe F64) v, 3 ≤ k.value.length → ColorOf k.value v →
        π v = FloatOps.toF32 (k.value.getD c (lit 0))) →
      ShownNear c (δ + 1 / 10 ^ 10) (1 / 2 ^ 22) (ks.map fun k => (k.base, k.value.getD c (lit 0))) frame
        (π ((⟨ts, vs⟩ : Animated F64 (Color F64)).evaluateOr frame d)) := by
    intro c π hc hπ hval
    have hb : ∀ k ∈ ks, (k.value.getD c (lit 0)).Between 0 1 := fun k hm =>
      getD_between (by have := hv k hm; omega) (hx k hm) _
    have hn : ∀ k ∈ ks, |(FloatOps.toF32 (k.value.getD c (lit 0))).toR - (k.value.getD c (lit 0)).toR| ≤ 1 / 2 ^ 24 + 1 / 2 ^ 50 := by
      intro k hm
      have h1 := (near_toF32 ((hb k hm).mono (by norm_num) (by norm_num))).err
      have h2 : |(k.value.getD c (lit 0)).toR| / 2 ^ 24 ≤ 1 / 2 ^ 24 :=
        div_le_div_of_nonneg_right (abs_le.mpr ⟨by linarith [(hb k hm).2.1], (hb k hm).2.2⟩) (by positivity)
      linarith
    obtain ⟨y, e, h⟩ := Entries.shownNear (π := π) (post := FloatOps.toF32) (c := c) (M := 1)
      (x := fun k : Schema.Keyframe F64 => FloatOps.toF32 (k.value.getD c (lit 0))) hδ hs hπ
      (fun k t v hr => ⟨hr.1 c, hval k v hr.2.1 hr.2.2⟩) hen hk hne (by norm_num)
      (fun k hm => (toF32_channel (.inl rfl) ((hb k hm).mono le_rfl (by norm_num))).mono (by norm_num) le_rfl) hf d
    have hy := h.bound (m := 1) hk.handles fun k hm => by
      have := toF32_channel (.inl rfl) ((hb k hm).mono le_rfl (by norm_num))
      exact abs_le.mpr ⟨by linarith [this.2.1], this.2.2⟩
    have hy' := abs_le.mp hy
    have hsm : (1 : ℝ) / 10 ^ 9 + 1 / 2 ^ 1072 ≤ 1 / 8 := by
      have : (1 : ℝ) / 2 ^ 1072 ≤ 1 / 2 ^ 30 := one_div_le_one_div_of_le (by positivity) (pow_le_pow_right₀ (by norm_num) (by norm_num))
      norm_num at this ⊢
    rw [e]
    exact ((h.single ⟨h.1, by linarith, by linarith⟩).values hk.handles hn).mono (by norm_num)
  exact ⟨key 0 Color.r (by omega) (fun _ _ _ _ => rfl) fun k v h1 h2 => (colorOf_getD64 h1 h2).1,
    key 1 Color.g (by omega) (fun _ _ _ _ => rfl) fun k v h1 h2 => (colorOf_getD64 h1 h2).2.1,
    key 2 Color.b (by omega) (fun _ _ _ _ => rfl) fun k v h1 h2 => (colorOf_getD64 h1 h2).2.2⟩

/-- **C136 (partial).** An imported gradient with ordinary keyframes and numbers from 0 to 1: at every frame it has the
declared number of stops, and each of them has red, green and blue, in single precision, as the keyframes say up to `2^-23`; unless
keyframes are held, also the offset; without opacity data the stops are opaque.  Missing as in `C135_stops_partial`: offsets during a
hold, and opacity data. -/
theorem C136_gradients_partial (hδ : 0 ≤ δ) (hs : SolverWithin δ) {g : Schema.GradientColors F64} {s : ColorStops F64}
    (h : convGradientColors g = .ok s) {ks : List (Schema.Keyframe F64)}
    (hp : g.colors.animatedProperty.value = .animatedValue ks) (hk : OrdinaryTimes (·.base) ks) (hne : ks ≠ [])
    (hv : ∀ k ∈ ks, 4 * g.count ≤ k.value.length) (hx : ∀ k ∈ ks, ∀ x ∈ k.value, x.Between 0 1) {frame : F64}
    (hf : isNaN frame = false) :
    (s.evaluate frame).length = g.count ∧
    ∀ i < g.count, ∃ st, (s.evaluate frame)[i]? = some st ∧
      ShownNear 0 (δ + 1 / 10 ^ 10) (1 / 2 ^ 23) (ks.map fun k => (k.base, k.value.getD (4 * i + 1) (lit 0))) frame st.color.r ∧
      ShownNear 0 (δ + 1 / 10 ^ 10) (1 / 2 ^ 23) (ks.map fun k => (k.base, k.value.getD (4 * i + 2) (lit 0))) frame st.color.g ∧
      ShownNear 0 (δ + 1 / 10 ^ 10) (1 / 2 ^ 23) (ks.map fun k => (k.base, k.value.getD (4 * i + 3) (lit 0))) frame st.color.b ∧
      ((∀ k ∈ ks, k.base.hold ≠ some .true) →
        ShownNear 0 (δ + 1 / 10 ^ 10) (1 / 2 ^ 23) (ks.map fun k => (k.base, k.value.getD (4 * i) (lit 0))) frame st.offset) ∧
      ((∀ k ∈ ks, k.value.length < 4 * g.count + 4) → st.color.a.isFin = true ∧ st.color.a.toR = 1) := by
  obtain ⟨ts, vs, rfl, ht, hvs⟩ := C51_gradients h hp
  have hl : vs.length = ts.length := by rw [← ht.length_eq, ← hvs.length_eq]
  have htne : ts ≠ [] := by
    intro e
    rw [e] at ht
    exact hne (List.forall₂_nil_right_iff.mp ht)
  have hlen : ∀ v ∈ vs, 5 * g.count ≤ v.length := by
    rcases Nat.eq_zero_or_pos g.count with h0 | h0
    · intro v _
      omega
    · exact (stored_entries hvs hv h0 ts).1
  obtain ⟨h1, h2⟩ := stops_evaluate (s := ⟨ts, vs, g.count⟩) (frame := frame) hl htne hlen
  refine ⟨h1, fun i hi => ?_⟩
  obtain ⟨st, hst, er, eg, eb, ea, eo⟩ := h2 i hi
  obtain ⟨-, s0, s1, s2, s3, s4⟩ := stored_entries hvs hv hi ts
  have hunit : ∀ t ∈ ts, t.HandlesInUnitSquare := by
    intro t hm
    obtain ⟨j, hj, rfl⟩ := List.getElem_of_mem hm
    have hjk : j < ks.length := by rw [ht.length_eq]; exact hj
    have := (List.forall₂_iff_get.mp ht).2 j hjk hj
    exact this.unit (hk.handles _ (List.getElem_mem _))
  have hrange : ∀ (x : Schema.Keyframe F64 → F64) {lo : ℝ}, 0 ≤ lo → lo ≤ 1 → (∀ k ∈ ks, (x k).Between lo 1) →
      ((⟨ts, ks.map x⟩ : Animated F64 F64).evaluateOr frame (lit 0)).Between (lo - overshoot lo 1 1)
        (1 + overshoot lo 1 1) := by
    intro x lo h0 h1 hb
    refine C114_numbers (⟨ts, ks.map x⟩ : Animated F64 F64) htne (by simp [ht.length_eq]) hunit ?_
      (by rw [abs_of_nonneg h0]; exact h1) (by simp) (by norm_num) frame _
    intro v hm
    obtain ⟨k, hkm, rfl⟩ := List.mem_map.mp hm
    exact hb k hkm
  have key : ∀ j < 4, ShownNear 0 (δ + 1 / 10 ^ 10) (1 / 2 ^ 23)
      (ks.map fun k => (k.base, k.value.getD (4 * i + j) (lit 0))) frame
      (FloatOps.toF32 ((⟨ts, ks.map fun k => k.value.getD (4 * i + j) (lit 0)⟩ : Animated F64 F64).evaluateOr frame (lit 0))) := by
    intro j hj
    have hb : ∀ k ∈ ks, (k.value.getD (4 * i + j) (lit 0)).Between 0 1 := by
      intro k hm
      have := hv k hm
      have hlt : 4 * i + j < k.value.length := by omega
      rw [List.getD_eq_getElem?_getD, List.getElem?_eq_getElem hlt, Option.getD_some]
      exact hx k hm _ (List.getElem_mem _)
    have hsn := shownNear_evaluate (M := 1) (x := fun k => k.value.getD (4 * i + j) (lit 0)) hδ hs ht hk hne
      (by norm_num) (fun k hm => (hb k hm).mono (by norm_num) le_rfl) hf (lit 0)
    have hr := hrange (fun k => k.value.getD (4 * i + j) (lit 0)) le_rfl zero_le_one hb
    exact hsn.single (hr.mono (by norm_num [overshoot]) (by norm_num [overshoot])) 
  refine ⟨st, hst, ?_, ?_, ?_, ?_, ?_⟩
  · rw [er, s1]
    exact key 1 (by omega)
  · rw [eg, s2]
    exact key 2 (by omega)
  · rw [eb, s3]
    exact key 3 (by omega)
  · intro hno
    rw [eo fun t htm => ?_, s0]
    · exact key 0 (by omega)
    · obtain ⟨n, n2, rfl⟩ := List.getElem_of_mem htm
      have n1 : n < ks.length := by rw [ht.length_eq]; exact n2
      have := (List.forall₂_iff_get.mp ht).2 n n1 n2
      simp only [List.get_eq_getElem] at this
      cases hh : ts[n].hold with
      | false => rfl
      | true => exact absurd (this.1.2.mp hh) (hno _ (List.getElem_mem n1))
  · intro hop
    rw [ea, s4 hop]
    have b1 : (lit 1 : F64).Between 1 1 := ⟨near_lit1.fin, by have := abs_le.mp near_lit1.err; constructor <;> linarith⟩
    have hr := hrange (fun _ => lit 1) zero_le_one le_rfl fun _ _ => b1
    have := toF32_opaque (hr.mono (by norm_num [overshoot]) (by norm_num [overshoot]))
    exact ⟨this.1, le_antisymm this.2.2 this.2.1⟩

omit [Kurbo F64] in
/-- The keyframes of a fade in and out over 60 frames are ordinary. -/
theorem exFade_times : OrdinaryTimes (·.base) exFade :=
  ⟨exFade_ordinary.order, exFade_ordinary.times, exFade_ordinary.handles⟩

/-- The hypotheses of `C136_scalars` are met, for an opacity that fades in and out. -/
example : (∃ v, convScalar ⟨none, none, none, none, .animatedValue exFade⟩ = .ok v) ∧
    OrdinaryTimes (·.base) exFade ∧ (∀ k ∈ exFade, ∀ x ∈ k.value, x.Between (-100) 100) := by
  refine ⟨⟨_, rfl⟩, exFade_times, fun k hk x hx => ?_⟩
  refine exFade_ordinary.values k hk x ?_
  simp only [exFade, List.mem_cons, List.not_mem_nil, or_false] at hk
  rcases hk with rfl | rfl | rfl <;> rw [List.mem_singleton.mp hx] <;> rfl

/-- The keyframes of the fade with the numbers of two stops, which change places half way. -/
def exTwoStops : List (Schema.Keyframe F64) :=
  exFade.map fun k => ⟨k.base, if k.base.time <. lit 30 then [lit 0, lit 1, lit 0, lit 0, lit 1, lit 0, lit 0, lit 1]
    else [lit 1, lit 0, lit 0, lit 1, lit 0, lit 1, lit 0, lit 0], none⟩

/-- The hypotheses of `C136_gradients_partial` are met. -/
example : (∃ s, convGradientColors (⟨⟨⟨none, none, none, none, .animatedValue exTwoStops⟩, none⟩, 2⟩ :
      Schema.GradientColors F64) = .ok s) ∧
    OrdinaryTimes (·.base) exTwoStops ∧ (∀ k ∈ exTwoStops, 4 * 2 ≤ k.value.length) ∧
    (∀ k ∈ exTwoStops, ∀ x ∈ k.value, x.Between 0 1) ∧ (∀ k ∈ exTwoStops, k.base.hold ≠ some .true) := by
  have hm : ∀ k ∈ exTwoStops, ∃ k' ∈ exFade, k.base = k'.base ∧ (k.value =
      [lit 0, lit 1, lit 0, lit 0, lit 1, lit 0, lit 0, lit 1] ∨
      k.value = [lit 1, lit 0, lit 0, lit 1, lit 0, lit 1, lit 0, lit 0]) := by
    intro k hk
    obtain ⟨k', h, rfl⟩ := List.mem_map.mp hk
    refine ⟨k', h, rfl, ?_⟩
    dsimp only
    split
    · exact .inl rfl
    · exact .inr rfl
  have b0 : (lit 0 : F64).Between 0 1 :=
    ⟨near_lit0.fin, by have := abs_le.mp near_lit0.err; constructor <;> linarith⟩
  have b1 : (lit 1 : F64).Between 0 1 :=
    ⟨near_lit1.fin, by have := abs_le.mp near_lit1.err; constructor <;> linarith⟩
  refine ⟨⟨_, rfl⟩, ⟨?_, fun k hk => ?_, fun k hk => ?_⟩, fun k hk => ?_, fun k hk x hx => ?_, fun k hk => ?_⟩
  · unfold exTwoStops
    rw [List.pairwise_map]
    exact exFade_times.order
  · obtain ⟨k', h, e, -⟩ := hm k hk
    rw [e]
    exact exFade_times.times k' h
  · obtain ⟨k', h, e, -⟩ := hm k hk
    rw [e]
    exact exFade_times.handles k' h
  · obtain ⟨k', h, e, e' | e'⟩ := hm k hk <;> rw [e'] <;> simp
  · obtain ⟨k', h, e, e' | e'⟩ := hm k hk <;> rw [e'] at hx <;>
      simp only [List.mem_cons, List.not_mem_nil, or_false] at hx <;>
      rcases hx with rfl | rfl | rfl | rfl | rfl | rfl | rfl | rfl <;> first | exact b0 | exact b1
  · obtain ⟨k', h, e, -⟩ := hm k hk
    rw [e]
    simp only [exFade, List.mem_cons, List.not_mem_nil, or_false] at h
    rcases h with rfl | rfl | rfl <;> decide

/-- The keyframes of the fade with a vector or colour that changes half way. -/
def exMoves : List (Schema.Keyframe F64) :=
  exFade.map fun k => ⟨k.base, if k.base.time <. lit 30 then [lit 0, lit 1, lit 0] else [lit 1, lit 0, lit 0], none⟩

/-- The hypotheses of `C136_vectors_partial` and `C136_colors_partial` are met, and with a position keyframe around each those of
`C136_positions_partial`. -/
example : OrdinaryTimes (·.base) exMoves ∧
    OrdinaryTimes (·.keyframe.base) (exMoves.map fun k => (⟨k, none, none⟩ : Schema.PositionKeyframe F64)) ∧
    exMoves ≠ [] ∧ (∀ k ∈ exMoves, OneEasing k.base) ∧ (∀ k ∈ exMoves, 3 ≤ k.value.length) ∧
    (∀ k ∈ exMoves, ∀ x ∈ k.value, x.Between 0 1) := by
  have hm : ∀ k ∈ exMoves, ∃ k' ∈ exFade, k.base = k'.base ∧ (k.value = [lit 0, lit 1, lit 0] ∨
      k.value = [lit 1, lit 0, lit 0]) := by
    intro k hk
    obtain ⟨k', h, rfl⟩ := List.mem_map.mp hk
    refine ⟨k', h, rfl, ?_⟩
    dsimp only
    split
    · exact .inl rfl
    · exact .inr rfl
  have b0 : (lit 0 : F64).Between 0 1 :=
    ⟨near_lit0.fin, by have := abs_le.mp near_lit0.err; constructor <;> linarith⟩
  have b1 : (lit 1 : F64).Between 0 1 :=
    ⟨near_lit1.fin, by have := abs_le.mp near_lit1.err; constructor <;> linarith⟩
  have ht : OrdinaryTimes (·.base) exMoves := by
    refine ⟨?_, fun k hk => ?_, fun k hk => ?_⟩
    · unfold exMoves
      rw [List.pairwise_map]
      exact exFade_times.order
    · obtain ⟨k', h, e, -⟩ := hm k hk
      rw [e]
      exact exFade_times.times k' h
    · obtain ⟨k', h, e, -⟩ := hm k hk
      rw [e]
      exact exFade_times.handles k' h
  refine ⟨ht, ⟨by rw [List.pairwise_map]; exact ht.order, fun k hk => ?_, fun k hk => ?_⟩, by simp [exMoves, exFade],
    fun k hk => ?_, fun k hk => ?_, fun k hk x hx => ?_⟩
  · obtain ⟨k', h, rfl⟩ := List.mem_map.mp hk
    exact ht.times k' h
  · obtain ⟨k', h, rfl⟩ := List.mem_map.mp hk
    exact ht.handles k' h
  · obtain ⟨k', h, e, -⟩ := hm k hk
    rw [e]
    simp only [exFade, List.mem_cons, List.not_mem_nil, or_false] at h
    rcases h with rfl | rfl | rfl
    · exact .inl ⟨rfl, rfl⟩
    · exact .inr ⟨_, _, rfl, rfl, ⟨⟨lit (2 / 3), lit 1⟩, by simp⟩, ⟨⟨lit (1 / 3), lit 0⟩, by simp⟩⟩
    · exact .inr ⟨_, _, rfl, rfl, ⟨⟨lit (2 / 3), lit 1⟩, by simp⟩, ⟨⟨lit (1 / 3), lit 0⟩, by simp⟩⟩
  · obtain ⟨k', h, e, e' | e'⟩ := hm k hk <;> rw [e'] <;> simp
  · obtain ⟨k', h, e, e' | e'⟩ := hm k hk <;> rw [e'] at hx <;>
      simp only [List.mem_cons, List.not_mem_nil, or_false] at hx <;>
      rcases hx with rfl | rfl | rfl <;> first | exact b0 | exact b1

end

end Velato
