import Verif.Proofs.PlayedAs64
import Verif.Props.PlayedAs
import Verif.Props.Timeline

/-!
# C136 — how vectors, positions and colours play with any handles, and offsets during holds, in double precision
-/

namespace Velato
open FloatOps (lit)
open F64
open Import (convGradientColors convMultiP2 convPosPoint convColor)

set_option exponentiation.threshold 2000

section
variable [Kurbo F64] {δ M : ℝ}

/-- **C136.** What points, sizes and scales with ordinary keyframes and any easing handles show in double precision: what the same
keyframes with the handles of `PlayedAs` say, up to `M / 10^9`. -/
theorem C136_vectors_played (hδ : 0 ≤ δ) (hs : SolverWithin δ) {p : Schema.MultiDimensional F64}
    {ks : List (Schema.Keyframe F64)} (hp : p.animatedProperty.value = .animatedValue ks)
    (hk : OrdinaryTimes (·.base) ks) (hne : ks ≠ []) {played : Schema.Keyframe F64 → Schema.KeyframeBase F64}
    (hb : ∀ k, PlayedAs k.base (played k)) (hM : M ≤ 2 ^ 1000)
    (hv : ∀ k ∈ ks, 2 ≤ k.value.length) (hx : ∀ k ∈ ks, ∀ x ∈ k.value, x.Between (-M) M) {frame : F64}
    (hf : isNaN frame = false) (d : P2 F64) :
    ShownNear 0 (δ + 1 / 10 ^ 10) (M / 10 ^ 9 + 1 / 2 ^ 1072) (ks.map fun k => (played k, k.value.getD 0 (lit 0))) frame
      ((convMultiP2 p).evaluateOr frame d).x ∧
    ShownNear 0 (δ + 1 / 10 ^ 10) (M / 10 ^ 9 + 1 / 2 ^ 1072) (ks.map fun k => (played k, k.value.getD 1 (lit 0))) frame
      ((convMultiP2 p).evaluateOr frame d).y := by
  have h51 := C51_vectors p
  rw [hp] at h51
  obtain ⟨ts, vs, h, hfk⟩ := h51
  have hen := Entries₂.of_keyframes64 hb hfk hv
  have hk' := hk.played hb
  rw [h]
  constructor
  · obtain ⟨y, e, h⟩ := Entries₂.shownNear (π := P2.x) (post := id) (c := 0)
      (x := fun k : Schema.Keyframe F64 => k.value.getD 0 (lit 0)) hδ hs (fun _ _ _ _ => rfl) (fun _ _ _ hr => hr.1)
      (fun k t v hr => ⟨hr.1, (pointOf_getD64 hr.2.1 hr.2.2).1⟩) (fun _ _ _ hr => hr.2) hen hk' hne hM
      (fun k hm => getD_between (by have := hv k hm; omega) (hx k hm) _) hf d
    exact (show _ = y from e) ▸ h
  · obtain ⟨y, e, h⟩ := Entries₂.shownNear (π := P2.y) (post := id) (c := 0)
      (x := fun k : Schema.Keyframe F64 => k.value.getD 1 (lit 0)) hδ hs (fun _ _ _ _ => rfl) (fun _ _ _ hr => hr.1)
      (fun k t v hr => ⟨hr.1, (pointOf_getD64 hr.2.1 hr.2.2).2⟩) (fun _ _ _ hr => hr.2) hen hk' hne hM
      (fun k hm => getD_between (by have := hv k hm; omega) (hx k hm) _) hf d
    exact (show _ = y from e) ▸ h

/-- **C136.** The same for positions. -/
theorem C136_positions_played (hδ : 0 ≤ δ) (hs : SolverWithin δ) {p : Schema.Position F64}
    {ks : List (Schema.PositionKeyframe F64)} (hp : p.value = .animated ks)
    (hk : OrdinaryTimes (·.keyframe.base) ks) (hne : ks ≠ []) {played : Schema.PositionKeyframe F64 → Schema.KeyframeBase F64}
    (hb : ∀ k, PlayedAs k.keyframe.base (played k)) (hM : M ≤ 2 ^ 1000)
    (hv : ∀ k ∈ ks, 2 ≤ k.keyframe.value.length) (hx : ∀ k ∈ ks, ∀ x ∈ k.keyframe.value, x.Between (-M) M) {frame : F64}
    (hf : isNaN frame = false) (d : P2 F64) :
    ShownNear 0 (δ + 1 / 10 ^ 10) (M / 10 ^ 9 + 1 / 2 ^ 1072) (ks.map fun k => (played k, k.keyframe.value.getD 0 (lit 0))) frame
      ((convPosPoint p).evaluateOr frame d).x ∧
    ShownNear 0 (δ + 1 / 10 ^ 10) (M / 10 ^ 9 + 1 / 2 ^ 1072) (ks.map fun k => (played k, k.keyframe.value.getD 1 (lit 0))) frame
      ((convPosPoint p).evaluateOr frame d).y := by
  have h51 := C51_positions p
  rw [hp] at h51
  obtain ⟨ts, vs, h, hfk⟩ := h51
  have hen := Entries₂.of_keyframes64 hb hfk hv
  have hk' := hk.played hb
  rw [h]
  constructor
  · obtain ⟨y, e, h⟩ := Entries₂.shownNear (π := P2.x) (post := id) (c := 0)
      (x := fun k : Schema.PositionKeyframe F64 => k.keyframe.value.getD 0 (lit 0)) hδ hs (fun _ _ _ _ => rfl) (fun _ _ _ hr => hr.1)
      (fun k t v hr => ⟨hr.1, (pointOf_getD64 hr.2.1 hr.2.2).1⟩) (fun _ _ _ hr => hr.2) hen hk' hne hM
      (fun k hm => getD_between (by have := hv k hm; omega) (hx k hm) _) hf d
    exact (show _ = y from e) ▸ h
  · obtain ⟨y, e, h⟩ := Entries₂.shownNear (π := P2.y) (post := id) (c := 0)
      (x := fun k : Schema.PositionKeyframe F64 => k.keyframe.value.getD 1 (lit 0)) hδ hs (fun _ _ _ _ => rfl) (fun _ _ _ hr => hr.1)
      (fun k t v hr => ⟨hr.1, (pointOf_getD64 hr.2.1 hr.2.2).2⟩) (fun _ _ _ hr => hr.2) hen hk' hne hM
      (fun k hm => getD_between (by have := hv k hm; omega) (hx k hm) _) hf d
    exact (show _ = y from e) ▸ h

/-- **C136.** The same for colours, with numbers from 0 to 1: red, green and blue are right up to `2^-22`, in single precision. -/
theorem C136_colors_played (hδ : 0 ≤ δ) (hs : SolverWithin δ) {p : Schema.ColorValue F64}
    {ks : List (Schema.Keyframe F64)} (hp : p.value = .animatedValue ks)
    (hk : OrdinaryTimes (·.base) ks) (hne : ks ≠ []) {played : Schema.Keyframe F64 → Schema.KeyframeBase F64}
    (hb : ∀ k, PlayedAs k.base (played k))
    (hv : ∀ k ∈ ks, 3 ≤ k.value.length) (hx : ∀ k ∈ ks, ∀ x ∈ k.value, x.Between 0 1) {frame : F64}
    (hf : isNaN frame = false) (d : Color F64) :
    ShownNear 0 (δ + 1 / 10 ^ 10) (1 / 2 ^ 22) (ks.map fun k => (played k, k.value.getD 0 (lit 0))) frame
      ((convColor p).evaluateOr frame d).r ∧
    ShownNear 0 (δ + 1 / 10 ^ 10) (1 / 2 ^ 22) (ks.map fun k => (played k, k.value.getD 1 (lit 0))) frame
      ((convColor p).evaluateOr frame d).g ∧
    ShownNear 0 (δ + 1 / 10 ^ 10) (1 / 2 ^ 22) (ks.map fun k => (played k, k.value.getD 2 (lit 0))) frame
      ((convColor p).evaluateOr frame d).b := by
  have h51 := C51_colors p
  rw [hp] at h51
  obtain ⟨ts, vs, h, hfk⟩ := h51
  have hen := Entries₂.of_keyframes64 hb hfk hv
  have hk' := hk.played hb
  rw [h]
  have key : ∀ (c : Nat) (π : Color F64 → F64), c < 3 →
      (∀ v v' w e, π (Tween.tween v v' w e) = FloatOps.toF32 (tweenScalar (π v) (π v') w e)) →
      (∀ (k : Schema.Keyframe F64) v, 3 ≤ k.value.length → ColorOf k.value v →
        π v = FloatOps.toF32 (k.value.getD c (lit 0))) →
      ShownNear 0 (δ + 1 / 10 ^ 10) (1 / 2 ^ 22) (ks.map fun k => (played k, k.value.getD c (lit 0))) frame
        (π ((⟨ts, vs⟩ : Animated F64 (Color F64)).evaluateOr frame d)) := by
    intro c π hc hπ hval
    have hbt : ∀ k ∈ ks, (k.value.getD c (lit 0)).Between 0 1 := fun k hm =>
      getD_between (by have := hv k hm; omega) (hx k hm) _
    have hn : ∀ k ∈ ks, |(FloatOps.toF32 (k.value.getD c (lit 0))).toR - (k.value.getD c (lit 0)).toR| ≤ 1 / 2 ^ 24 + 1 / 2 ^ 50 := by
      intro k hm
      have h1 := (near_toF32 ((hbt k hm).mono (by norm_num) (by norm_num))).err
      have h2 : |(k.value.getD c (lit 0)).toR| / 2 ^ 24 ≤ 1 / 2 ^ 24 :=
        div_le_div_of_nonneg_right (abs_le.mpr ⟨by linarith [(hbt k hm).2.1], (hbt k hm).2.2⟩) (by positivity)
      linarith
    obtain ⟨y, e, h⟩ := Entries₂.shownNear (π := π) (post := FloatOps.toF32) (c := 0) (M := 1)
      (x := fun k : Schema.Keyframe F64 => FloatOps.toF32 (k.value.getD c (lit 0))) hδ hs hπ
      (fun _ _ _ hr => hr.1) (fun k t v hr => ⟨hr.1, hval k v hr.2.1 hr.2.2⟩) (fun _ _ _ hr => hr.2) hen hk' hne (by norm_num)
      (fun k hm => (toF32_channel (.inl rfl) ((hbt k hm).mono le_rfl (by norm_num))).mono (by norm_num) le_rfl) hf d
    have hy := h.bound (m := 1) hk'.handles fun k hm => by
      have := toF32_channel (.inl rfl) ((hbt k hm).mono le_rfl (by norm_num))
      exact abs_le.mpr ⟨by linarith [this.2.1], this.2.2⟩
    have hy' := abs_le.mp hy
    have hsm : (1 : ℝ) / 10 ^ 9 + 1 / 2 ^ 1072 ≤ 1 / 8 := by
      have : (1 : ℝ) / 2 ^ 1072 ≤ 1 / 2 ^ 30 := one_div_le_one_div_of_le (by positivity) (pow_le_pow_right₀ (by norm_num) (by norm_num))
      norm_num at this ⊢
    rw [e]
    exact ((h.single ⟨h.1, by linarith, by linarith⟩).values hk'.handles hn).mono (by norm_num)
  exact ⟨key 0 Color.r (by omega) (fun _ _ _ _ => rfl) fun k v h1 h2 => (colorOf_getD64 h1 h2).1,
    key 1 Color.g (by omega) (fun _ _ _ _ => rfl) fun k v h1 h2 => (colorOf_getD64 h1 h2).2.1,
    key 2 Color.b (by omega) (fun _ _ _ _ => rfl) fun k v h1 h2 => (colorOf_getD64 h1 h2).2.2⟩

/-- **C136.** The offsets of the stops of an animated gradient take no notice of holds: in double precision, they are what the
keyframes say without the hold flags, up to `2^-23`. -/
theorem C136_offsets (hδ : 0 ≤ δ) (hs : SolverWithin δ) {g : Schema.GradientColors F64} {s : ColorStops F64}
    (h : convGradientColors g = .ok s) {ks : List (Schema.Keyframe F64)}
    (hp : g.colors.animatedProperty.value = .animatedValue ks) (hk : OrdinaryTimes (·.base) ks) (hne : ks ≠ [])
    (hv : ∀ k ∈ ks, 4 * g.count ≤ k.value.length) (hx : ∀ k ∈ ks, ∀ x ∈ k.value, x.Between 0 1) {frame : F64}
    (hf : isNaN frame = false) (i : Nat) (hi : i < g.count) :
    ∃ st, (s.evaluate frame)[i]? = some st ∧
      ShownNear 0 (δ + 1 / 10 ^ 10) (1 / 2 ^ 23)
        (ks.map fun k => ({ k.base with hold := none }, k.value.getD (4 * i) (lit 0))) frame st.offset := by
  obtain ⟨st, hst, -⟩ := (C136_gradients_partial hδ hs h hp hk hne hv hx hf).2 i hi
  refine ⟨st, hst, ?_⟩
  obtain ⟨ts, vs, rfl, ht, hvs⟩ := C51_gradients h hp
  obtain ⟨-, s0, -⟩ := stored_entries hvs hv hi (ts.map Time.unheld)
  rw [stops_offset hst, s0]
  have ht' : List.Forall₂ (fun (k : Schema.Keyframe F64) t => EasedTimeOf { k.base with hold := none } t) ks
      (ts.map Time.unheld) := by
    rw [List.forall₂_map_right_iff]
    exact ht.imp fun k t ht => ⟨⟨ht.1.1, by simp [Time.unheld]⟩, ht.2⟩
  have hk' : OrdinaryTimes (fun k : Schema.Keyframe F64 => { k.base with hold := none }) ks := ⟨hk.order, hk.times, hk.handles⟩
  have hb : ∀ k ∈ ks, (k.value.getD (4 * i) (lit 0)).Between 0 1 := by
    intro k hm
    have := hv k hm
    exact getD_between (by omega) (hx k hm) _
  have hsn := shownNear_evaluate (M := 1) (x := fun k => k.value.getD (4 * i) (lit 0)) hδ hs ht' hk' hne
    (by norm_num) (fun k hm => (hb k hm).mono (by norm_num) le_rfl) hf (lit 0)
  have hy := abs_le.mp (hsn.bound (m := 1) hk'.handles fun k hm => abs_le.mpr ⟨by linarith [(hb k hm).2.1], (hb k hm).2.2⟩)
  have hsm : (1 : ℝ) / 10 ^ 9 + 1 / 2 ^ 1072 ≤ 1 / 8 := by
    have : (1 : ℝ) / 2 ^ 1072 ≤ 1 / 2 ^ 30 := one_div_le_one_div_of_le (by positivity) (pow_le_pow_right₀ (by norm_num) (by norm_num))
    norm_num at this ⊢
  exact hsn.single ⟨hsn.1, by linarith, by linarith⟩

end

/-- The keyframes of the fade with handles for two coordinates, of which only the second is eased; the first one is held. -/
def exTwoHandles : List (Schema.Keyframe F64) :=
  exMoves.map fun k => { k with base := { k.base with
    hold := if k.base.time <. lit 30 then some .true else none
    outTangent := some ⟨.arrayOfValues [lit 0, lit (1 / 3)], .arrayOfValues [lit 0, lit 0]⟩
    inTangent := some ⟨.arrayOfValues [lit 1, lit (2 / 3)], .arrayOfValues [lit 1, lit 1]⟩ } }

/-- The hypotheses of `C136_vectors_played` and `C136_colors_played` are met by keyframes that are not those of one easing. -/
example : OrdinaryTimes (·.base) exTwoHandles ∧ exTwoHandles ≠ [] ∧ (∀ k ∈ exTwoHandles, 3 ≤ k.value.length) ∧
    (∀ k ∈ exTwoHandles, ¬ OneEasing k.base) ∧
    ∃ played : Schema.Keyframe F64 → Schema.KeyframeBase F64, ∀ k, PlayedAs k.base (played k) := by
  have hm : ∀ k ∈ exTwoHandles, ∃ k' ∈ exFade, k.base.time = k'.base.time ∧ k.value.length = 3 ∧
      k.base.outTangent = some ⟨.arrayOfValues [lit 0, lit (1 / 3)], .arrayOfValues [lit 0, lit 0]⟩ ∧
      k.base.inTangent = some ⟨.arrayOfValues [lit 1, lit (2 / 3)], .arrayOfValues [lit 1, lit 1]⟩ := by
    intro k hk
    obtain ⟨k1, h1, rfl⟩ := List.mem_map.mp hk
    obtain ⟨k', h, rfl⟩ := List.mem_map.mp h1
    refine ⟨k', h, rfl, ?_, rfl, rfl⟩
    dsimp only
    split <;> rfl
  have hu := exEased64_unit (lit 0) (lit 0)
  have hu1 := hu _ (.inl rfl)
  have hu2 := hu _ (.inr rfl)
  simp only [Schema.KeyframeComponent.numbers, List.mem_singleton, forall_eq] at hu1 hu2
  refine ⟨⟨?_, fun k hk => ?_, fun k hk => ?_⟩, by simp [exTwoHandles, exMoves, exFade], fun k hk => ?_, fun k hk => ?_,
    ⟨_, fun k => (C68_played_unique k.base).exists.choose_spec⟩⟩
  · unfold exTwoHandles exMoves
    rw [List.pairwise_map, List.pairwise_map]
    exact exFade_times.order
  · obtain ⟨k', h, e, -⟩ := hm k hk
    rw [e]
    exact exFade_times.times k' h
  · obtain ⟨k', h, -, -, e1, e2⟩ := hm k hk
    rintro h' (e | e)
    · rw [e1] at e
      cases e
      simp only [Schema.KeyframeComponent.numbers, List.mem_cons, List.not_mem_nil, or_false, forall_eq_or_imp, forall_eq]
      exact ⟨⟨hu1.2, hu1.1⟩, hu1.2, hu1.2⟩
    · rw [e2] at e
      cases e
      simp only [Schema.KeyframeComponent.numbers, List.mem_cons, List.not_mem_nil, or_false, forall_eq_or_imp, forall_eq]
      exact ⟨⟨hu2.2, hu2.1⟩, hu2.2, hu2.2⟩
  · obtain ⟨k', h, -, e, -⟩ := hm k hk
    omega
  · obtain ⟨k', h, -, -, e1, e2⟩ := hm k hk
    rintro (⟨e, -⟩ | ⟨i, o, e, -, ⟨a, h, -⟩, -⟩)
    · rw [e2] at e
      cases e
    · rw [e2] at e
      cases e
      replace h := h.2
      have h1 := (h (lit 1) (by simp)).trans (h (lit (2 / 3)) (by simp)).symm
      revert h1
      decide +kernel

end Velato
