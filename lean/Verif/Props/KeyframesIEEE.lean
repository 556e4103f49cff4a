import Verif.Proofs.NanTween
import Verif.Num.KernelDecide

/-!
# Keyframe evaluation in IEEE double arithmetic (C03, C04, C06)
-/

namespace Velato
open FloatOps (lit)
open F64

/-! ### Helpers -/

theorem finiteGaps_of_bdd {times : List (Time F64)} (h : ∀ t ∈ times, F64.Bdd t.frame 1022) :
    FiniteGaps times := by
  intro i t0 t1 h0 h1
  exact ((h t1 (List.mem_of_getElem? h1)).sub' (h t0 (List.mem_of_getElem? h0)) (by omega)).1

theorem sorted_of_strict {times : List (Time F64)} (h : StrictTimes times) :
    SortedTimes times := h.imp fun h => le_of_lt' h

theorem search_before {times : List (Time F64)} (hs : SortedTimes times) (frame : F64)
    (first : Time F64) (hf : times.head? = some first) (h : (frame <. first.frame) = true) :
    Time.search times frame = 0 := by
  have hne : times ≠ [] := by intro e; simp [e] at hf
  obtain ⟨hl, hle, hgt⟩ := search_spec hs hne frame
  rcases hle with h0 | h0
  · exact h0
  · by_contra hc
    have h0 := h0 hl
    rw [List.head?_eq_getElem?, List.getElem?_eq_getElem (by omega), Option.some.injEq] at hf
    subst hf
    have := lt_of_lt_of_le' h ((List.pairwise_iff_getElem.mp hs) 0 _ (by omega) hl (by omega))
    rw [this] at h0; simp at h0

theorem search_from_last {times : List (Time F64)} (hs : SortedTimes times) (frame : F64)
    (last : Time F64) (hf : times.getLast? = some last) (h : (last.frame <=. frame) = true) :
    Time.search times frame = times.length - 1 := by
  have hne : times ≠ [] := by intro e; simp [e] at hf
  obtain ⟨hl, hle, hgt⟩ := search_spec hs hne frame
  by_contra hc
  have := hgt (times.length - 1) (by omega) (by omega)
  rw [List.getLast?_eq_getElem?, List.getElem?_eq_getElem (by omega), Option.some.injEq] at hf
  rw [hf, not_lt_of_le' h] at this; simp at this

theorem search_at {times : List (Time F64)} (hs : StrictTimes times) (frame : F64) (k : Nat)
    (t : Time F64) (hk : times[k]? = some t) (h : (frame ==. t.frame) = true) :
    Time.search times frame = k := by
  have hne : times ≠ [] := by intro e; simp [e] at hk
  obtain ⟨hl, hle, hgt⟩ := search_spec (sorted_of_strict hs) hne frame
  obtain ⟨hkl, rfl⟩ := List.getElem?_eq_some_iff.mp hk
  have heq : (frame <=. times[k].frame) = true ∧ (times[k].frame <=. frame) = true := by
    rw [LawfulCmp.eq_iff] at h
    obtain ⟨a, b, h1, h2, h3⟩ := h
    rw [LawfulCmp.le_iff, LawfulCmp.le_iff]
    exact ⟨⟨a, b, h1, h2, h3.le⟩, ⟨b, a, h2, h1, h3.ge⟩⟩
  rcases lt_trichotomy (Time.search times frame) k with h' | h' | h'
  · have := hgt k hkl h'
    rw [not_lt_of_le' heq.2] at this; simp at this
  · exact h'
  · rcases hle with h0 | h0
    · omega
    · have h0 := h0 hl
      have := lt_of_le_of_lt' heq.1 ((List.pairwise_iff_getElem.mp hs) k _ hkl hl h')
      rw [this] at h0; simp at h0

theorem tween_le_zero [Kurbo F64] {t : F64} (v w : F64) (e : Easing F64)
    (h : (t <=. lit 0) = true) : tweenScalar v w t e = v := by
  unfold tweenScalar; rw [if_pos h]

theorem tween_one [Kurbo F64] (v w : F64) (e : Easing F64) :
    tweenScalar v w (lit 1) e = w := by
  unfold tweenScalar
  rw [one_not_le_zero, one_le_one]; rfl

/-- Evaluation at the keyframe index found, with a successor. -/
theorem eval_pair {T : Type} [Tween F64 T] (a : Animated F64 T) (frame : F64) (d : T) (k : Nat)
    (hv : a.values.length = a.times.length) (hs : Time.search a.times frame = k)
    (hk : k + 1 < a.times.length) :
    a.evaluateOr frame d = Tween.tween (a.values[k]'(by omega)) (a.values[k + 1]'(by omega))
      (mixWeight (a.times[k]'(by omega)) a.times[k + 1] frame)
      (a.times[k]'(by omega)).easing := by
  unfold Animated.evaluateOr
  rw [evaluateInner_eq a frame k (k + 1) _ _ (by omega) (by omega)
    (List.getElem?_eq_getElem (by omega)) (List.getElem?_eq_getElem hk),
    List.getElem?_eq_getElem (by omega), List.getElem?_eq_getElem (by omega)]
  rfl

/-- Evaluation at the last keyframe. -/
theorem eval_last {T : Type} [Tween F64 T] (a : Animated F64 T) (frame : F64) (d : T) (k : Nat)
    (hv : a.values.length = a.times.length) (hs : Time.search a.times frame = k)
    (hk : k + 1 = a.times.length) :
    a.evaluateOr frame d = Tween.tween (a.values[k]'(by omega)) (a.values[k]'(by omega))
      (mixWeight (a.times[k]'(by omega)) (a.times[k]'(by omega)) frame)
      (a.times[k]'(by omega)).easing := by
  unfold Animated.evaluateOr
  rw [evaluateInner_eq a frame k k _ _ (by omega) (by omega)
    (List.getElem?_eq_getElem (by omega)) (List.getElem?_eq_getElem (by omega)),
    List.getElem?_eq_getElem (by omega)]
  rfl

/-! ## C03 — clamping outside the keyframe range -/

/-- **C03.** At every frame before the first keyframe (minus infinity included) an animated scalar
has exactly the first keyframe's value. -/
theorem C03_before_first [Kurbo F64] (a : Animated F64 F64) (frame d : F64)
    (hs : StrictTimes a.times) (hf : FiniteTimes a.times) (hg : FiniteGaps a.times)
    (hv : a.values.length = a.times.length) (first : Time F64) (v : F64)
    (h1 : a.times.head? = some first) (h2 : a.values.head? = some v)
    (h : (frame <. first.frame) = true) :
    a.evaluateOr frame d = v := by
  have hse := search_before (sorted_of_strict hs) frame first h1 h
  have hlen : 0 < a.times.length := by
    rcases Nat.eq_zero_or_pos a.times.length with e | e
    · rw [List.length_eq_zero_iff.mp e] at h1; simp at h1
    · exact e
  rw [List.head?_eq_getElem?, List.getElem?_eq_getElem hlen, Option.some.injEq] at h1
  rw [List.head?_eq_getElem?, List.getElem?_eq_getElem (by omega), Option.some.injEq] at h2
  subst h1; subst h2
  rcases (show 1 < a.times.length ∨ 0 + 1 = a.times.length by omega) with hk | hk
  · rw [eval_pair a frame d 0 hv hse hk]
    apply tween_le_zero
    unfold mixWeight
    split_ifs
    · exact zero_le_zero
    · exact weight_before (hf _ (List.getElem_mem _)) (hf _ (List.getElem_mem _))
        ((List.pairwise_iff_getElem.mp hs) 0 1 hlen hk (by omega))
        (hg 0 _ _ (List.getElem?_eq_getElem _) (List.getElem?_eq_getElem _)) (le_of_lt' h)
  · rw [eval_last a frame d 0 hv hse hk]
    apply tween_le_zero
    unfold mixWeight
    split_ifs
    · exact zero_le_zero
    · exact weight_before_self (hf _ (List.getElem_mem _)) h

/-- **C03.** At every frame after the last keyframe (infinity included) an animated scalar has
exactly the last keyframe's value. -/
theorem C03_after_last [Kurbo F64] (a : Animated F64 F64) (frame d : F64)
    (hs : SortedTimes a.times) (hv : a.values.length = a.times.length)
    (last : Time F64) (hl : last.frame.isFin = true) (v : F64)
    (h1 : a.times.getLast? = some last) (h2 : a.values.getLast? = some v)
    (h : (last.frame <. frame) = true) :
    a.evaluateOr frame d = v := by
  have hse := search_from_last hs frame last h1 (le_of_lt' h)
  have hlen : 0 < a.times.length := by
    rcases Nat.eq_zero_or_pos a.times.length with e | e
    · rw [List.length_eq_zero_iff.mp e] at h1; simp at h1
    · exact e
  rw [List.getLast?_eq_getElem?, List.getElem?_eq_getElem (by omega), Option.some.injEq] at h1 h2
  rw [eval_last a frame d (a.times.length - 1) hv hse (by omega)]
  simp only [hv] at h2
  rw [h2, h1]
  unfold mixWeight
  split_ifs
  · exact tween_le_zero _ _ _ zero_le_zero
  · rw [weight_after_self hl h]; exact tween_one _ _ _

/-- **C03.** Exactly at the last keyframe, where the weight is `0/0`, an animated scalar still has
the last keyframe's value (up to the sign of zero): for finite values and handles up to `2^200`,
whatever roots the cubic solver returns. -/
theorem C03_at_last [Kurbo F64] (a : Animated F64 F64) (frame d : F64)
    (hs : SortedTimes a.times) (hv : a.values.length = a.times.length)
    (last : Time F64) (hl : last.frame.isFin = true) (he : last.easing.Bdd 200)
    (v : F64) (hvf : v.isFin = true)
    (h1 : a.times.getLast? = some last) (h2 : a.values.getLast? = some v)
    (h : (frame ==. last.frame) = true) :
    (a.evaluateOr frame d ==. v) = true := by
  have hle : (last.frame <=. frame) = true := by
    rw [LawfulCmp.eq_iff] at h
    obtain ⟨a, b, h1, h2, h3⟩ := h
    rw [LawfulCmp.le_iff]
    exact ⟨b, a, h2, h1, h3.ge⟩
  have hse := search_from_last hs frame last h1 hle
  have hlen : 0 < a.times.length := by
    rcases Nat.eq_zero_or_pos a.times.length with e | e
    · rw [List.length_eq_zero_iff.mp e] at h1; simp at h1
    · exact e
  rw [List.getLast?_eq_getElem?, List.getElem?_eq_getElem (by omega), Option.some.injEq] at h1 h2
  rw [eval_last a frame d (a.times.length - 1) hv hse (by omega)]
  simp only [hv] at h2
  rw [h2, h1]
  unfold mixWeight
  split_ifs
  · rw [show Tween.tween v v (lit 0) last.easing = v from tween_le_zero _ _ _ zero_le_zero]
    exact (beq_fin hvf hvf).mpr rfl
  · rw [weight_at_self hl h]; exact tween_nan_bdd hvf he

/-- **C03.** As `C03_at_last`, for all finite handles without bound, if the solver finds no root
of a polynomial with a NaN coefficient (as kurbo's does not). -/
theorem C03_at_last_any_handles [Kurbo F64] (hk : NanNoRoots)
    (a : Animated F64 F64) (frame d : F64)
    (hs : SortedTimes a.times) (hv : a.values.length = a.times.length)
    (last : Time F64) (hl : last.frame.isFin = true) (he : last.easing.Finite)
    (v : F64) (hvf : v.isFin = true)
    (h1 : a.times.getLast? = some last) (h2 : a.values.getLast? = some v)
    (h : (frame ==. last.frame) = true) :
    (a.evaluateOr frame d ==. v) = true := by
  have hle : (last.frame <=. frame) = true := by
    rw [LawfulCmp.eq_iff] at h
    obtain ⟨a, b, h1, h2, h3⟩ := h
    rw [LawfulCmp.le_iff]
    exact ⟨b, a, h2, h1, h3.ge⟩
  have hse := search_from_last hs frame last h1 hle
  have hlen : 0 < a.times.length := by
    rcases Nat.eq_zero_or_pos a.times.length with e | e
    · rw [List.length_eq_zero_iff.mp e] at h1; simp at h1
    · exact e
  rw [List.getLast?_eq_getElem?, List.getElem?_eq_getElem (by omega), Option.some.injEq] at h1 h2
  rw [eval_last a frame d (a.times.length - 1) hv hse (by omega)]
  simp only [hv] at h2
  rw [h2, h1]
  unfold mixWeight
  split_ifs
  · rw [show Tween.tween v v (lit 0) last.easing = v from tween_le_zero _ _ _ zero_le_zero]
    exact (beq_fin hvf hvf).mpr rfl
  · rw [weight_at_self hl h]; exact tween_nan_finite hk hvf he

/-- Two keyframes at 1 and 5 (with and without handles) used in the examples. -/
def exTime0 : Time F64 := ⟨lit 1, none, some ⟨lit (1/2), lit 0⟩, false⟩
@[inherit_doc exTime0] def exTime1 : Time F64 := ⟨lit 5, none, none, false⟩
@[inherit_doc exTime0] def exTimes : List (Time F64) := [exTime0, exTime1]

theorem exTimes_strict : StrictTimes exTimes := by unfold StrictTimes exTimes; decide +kernel
theorem exTimes_finite : FiniteTimes exTimes := by
  unfold FiniteTimes exTimes
  simp only [List.mem_cons, List.not_mem_nil, or_false, forall_eq_or_imp, forall_eq]
  decide +kernel
theorem exTimes_bdd : ∀ t ∈ exTimes, F64.Bdd t.frame 1022 := by
  unfold exTimes
  simp only [List.mem_cons, List.not_mem_nil, or_false, forall_eq_or_imp, forall_eq]
  exact ⟨⟨by decide +kernel, by decide +kernel⟩, ⟨by decide +kernel, by decide +kernel⟩⟩

/-- The hypotheses of the C03 theorems are met by a two-keyframe scalar, below and above. -/
example [Kurbo F64] : (⟨exTimes, [lit 3, lit 4]⟩ : Animated F64 F64).evaluateOr (lit 0) (lit 9)
      = lit 3 ∧
    (⟨exTimes, [lit 3, lit 4]⟩ : Animated F64 F64).evaluateOr (lit 6) (lit 9) = lit 4 ∧
    ((⟨exTimes, [lit 3, lit 4]⟩ : Animated F64 F64).evaluateOr (lit 5) (lit 9) ==. lit 4) = true :=
  ⟨C03_before_first ⟨exTimes, [lit 3, lit 4]⟩ _ _ exTimes_strict exTimes_finite
      (finiteGaps_of_bdd exTimes_bdd) rfl exTime0 (lit 3) rfl rfl (by decide +kernel),
   C03_after_last ⟨exTimes, [lit 3, lit 4]⟩ _ _ (sorted_of_strict exTimes_strict) rfl exTime1
      (by decide +kernel) (lit 4) rfl rfl (by decide +kernel),
   C03_at_last ⟨exTimes, [lit 3, lit 4]⟩ _ _ (sorted_of_strict exTimes_strict) rfl exTime1
      (by decide +kernel)
      ⟨bdd_lit0.mono (by omega), bdd_lit0.mono (by omega), bdd_lit1.mono (by omega),
        bdd_lit1.mono (by omega)⟩ (lit 4) (by decide +kernel) rfl rfl (by decide +kernel)⟩

/-! ## C04 — keyframes are hit exactly -/

theorem mixWeight_at_keyframe (a : List (Time F64)) (hs : StrictTimes a) (hf : FiniteTimes a)
    (k : Nat) (hk : k + 1 < a.length) (frame : F64) (h : (frame ==. a[k].frame) = true) :
    (mixWeight a[k] a[k + 1] frame <=. lit 0) = true := by
  unfold mixWeight
  split_ifs
  · exact zero_le_zero
  · exact weight_at (hf _ (List.getElem_mem _)) (hf _ (List.getElem_mem _))
      ((List.pairwise_iff_getElem.mp hs) k (k + 1) (by omega) hk (by omega)) h

/-- **C04.** At the time of any keyframe but the last an animated scalar is bit for bit that
keyframe's value, whatever the handles (NaN and infinities included) and the values. -/
theorem C04_scalar [Kurbo F64] (a : Animated F64 F64) (frame d : F64) (k : Nat) (t : Time F64)
    (v : F64) (hs : StrictTimes a.times) (hf : FiniteTimes a.times)
    (hv : a.values.length = a.times.length)
    (hk : a.times[k]? = some t) (hvk : a.values[k]? = some v) (hnl : k + 1 < a.times.length)
    (h : (frame ==. t.frame) = true) :
    a.evaluateOr frame d = v := by
  have hse := search_at hs frame k t hk h
  obtain ⟨_, rfl⟩ := List.getElem?_eq_some_iff.mp hk
  obtain ⟨_, rfl⟩ := List.getElem?_eq_some_iff.mp hvk
  rw [eval_pair a frame d k hv hse hnl]
  exact tween_le_zero _ _ _ (mixWeight_at_keyframe a.times hs hf k hnl frame h)

/-- **C04.** The same for points, vectors and sizes. -/
theorem C04_point [Kurbo F64] (a : Animated F64 (P2 F64)) (frame : F64) (d : P2 F64) (k : Nat)
    (t : Time F64) (v : P2 F64) (hs : StrictTimes a.times) (hf : FiniteTimes a.times)
    (hv : a.values.length = a.times.length)
    (hk : a.times[k]? = some t) (hvk : a.values[k]? = some v) (hnl : k + 1 < a.times.length)
    (h : (frame ==. t.frame) = true) :
    a.evaluateOr frame d = v := by
  have hse := search_at hs frame k t hk h
  obtain ⟨_, rfl⟩ := List.getElem?_eq_some_iff.mp hk
  obtain ⟨_, rfl⟩ := List.getElem?_eq_some_iff.mp hvk
  rw [eval_pair a frame d k hv hse hnl]
  have hw := mixWeight_at_keyframe a.times hs hf k hnl frame h
  show (⟨tweenScalar _ _ _ _, tweenScalar _ _ _ _⟩ : P2 F64) = _
  rw [tween_le_zero _ _ _ hw, tween_le_zero _ _ _ hw]

/-- **C04.** The same for colours (whose components are `f32` values). -/
theorem C04_color [Kurbo F64] (a : Animated F64 (Color F64)) (frame : F64) (d : Color F64)
    (k : Nat) (t : Time F64) (v : Color F64) (hs : StrictTimes a.times) (hf : FiniteTimes a.times)
    (hv : a.values.length = a.times.length)
    (hk : a.times[k]? = some t) (hvk : a.values[k]? = some v) (hnl : k + 1 < a.times.length)
    (h : (frame ==. t.frame) = true)
    (hf32 : FloatOps.toF32 v.r = v.r ∧ FloatOps.toF32 v.g = v.g ∧ FloatOps.toF32 v.b = v.b ∧
      FloatOps.toF32 v.a = v.a) :
    a.evaluateOr frame d = v := by
  have hse := search_at hs frame k t hk h
  obtain ⟨_, rfl⟩ := List.getElem?_eq_some_iff.mp hk
  obtain ⟨_, rfl⟩ := List.getElem?_eq_some_iff.mp hvk
  rw [eval_pair a frame d k hv hse hnl]
  have hw := mixWeight_at_keyframe a.times hs hf k hnl frame h
  show (⟨FloatOps.toF32 (tweenScalar _ _ _ _), FloatOps.toF32 (tweenScalar _ _ _ _),
    FloatOps.toF32 (tweenScalar _ _ _ _), FloatOps.toF32 (tweenScalar _ _ _ _)⟩ : Color F64) = _
  rw [tween_le_zero _ _ _ hw, tween_le_zero _ _ _ hw, tween_le_zero _ _ _ hw,
    tween_le_zero _ _ _ hw, hf32.1, hf32.2.1, hf32.2.2.1, hf32.2.2.2]

/-- **C04.** At the time of the last keyframe an animated scalar is that keyframe's value up to
the sign of zero (finite value, handles up to `2^200`, any solver). -/
theorem C04_scalar_last [Kurbo F64] (a : Animated F64 F64) (frame d : F64) (k : Nat)
    (t : Time F64) (v : F64) (hs : StrictTimes a.times) (hf : FiniteTimes a.times)
    (hv : a.values.length = a.times.length)
    (hk : a.times[k]? = some t) (hvk : a.values[k]? = some v) (hnl : k + 1 = a.times.length)
    (hvf : v.isFin = true) (he : t.easing.Bdd 200)
    (h : (frame ==. t.frame) = true) :
    (a.evaluateOr frame d ==. v) = true := by
  refine C03_at_last a frame d (sorted_of_strict hs) hv t (hf _ (List.mem_of_getElem? hk)) he v hvf
    ?_ ?_ h
  · rw [List.getLast?_eq_getElem?, ← hnl]; simpa using hk
  · rw [List.getLast?_eq_getElem?, hv, ← hnl]; simpa using hvk

/-- **C04.** The same for points, vectors and sizes. -/
theorem C04_point_last [Kurbo F64] (a : Animated F64 (P2 F64)) (frame : F64) (d : P2 F64) (k : Nat)
    (t : Time F64) (v : P2 F64) (hs : StrictTimes a.times) (hf : FiniteTimes a.times)
    (hv : a.values.length = a.times.length)
    (hk : a.times[k]? = some t) (hvk : a.values[k]? = some v) (hnl : k + 1 = a.times.length)
    (hvx : v.x.isFin = true) (hvy : v.y.isFin = true) (he : t.easing.Bdd 200)
    (h : (frame ==. t.frame) = true) :
    ((a.evaluateOr frame d).x ==. v.x) = true ∧ ((a.evaluateOr frame d).y ==. v.y) = true := by
  have hse := search_at hs frame k t hk h
  have htf := hf _ (List.mem_of_getElem? hk)
  obtain ⟨_, rfl⟩ := List.getElem?_eq_some_iff.mp hk
  obtain ⟨_, rfl⟩ := List.getElem?_eq_some_iff.mp hvk
  rw [eval_last a frame d k hv hse hnl]
  show (tweenScalar _ _ _ _ ==. _) = true ∧ (tweenScalar _ _ _ _ ==. _) = true
  unfold mixWeight
  split_ifs
  · rw [tween_le_zero _ _ _ zero_le_zero, tween_le_zero _ _ _ zero_le_zero]
    exact ⟨(beq_fin hvx hvx).mpr rfl, (beq_fin hvy hvy).mpr rfl⟩
  · rw [weight_at_self htf h]
    exact ⟨tween_nan_bdd hvx he, tween_nan_bdd hvy he⟩

/-- **C04.** The same for colours, whose channels are single precision numbers. -/
theorem C04_color_last [Kurbo F64] (a : Animated F64 (Color F64)) (frame : F64) (d : Color F64)
    (k : Nat) (t : Time F64) (v : Color F64) (hs : StrictTimes a.times) (hf : FiniteTimes a.times)
    (hv : a.values.length = a.times.length)
    (hk : a.times[k]? = some t) (hvk : a.values[k]? = some v) (hnl : k + 1 = a.times.length)
    (hvr : v.r.isFin = true) (hvg : v.g.isFin = true) (hvb : v.b.isFin = true)
    (hva : v.a.isFin = true) (he : t.easing.Bdd 200)
    (h : (frame ==. t.frame) = true)
    (hf32 : FloatOps.toF32 v.r = v.r ∧ FloatOps.toF32 v.g = v.g ∧ FloatOps.toF32 v.b = v.b ∧
      FloatOps.toF32 v.a = v.a) :
    ((a.evaluateOr frame d).r ==. v.r) = true ∧ ((a.evaluateOr frame d).g ==. v.g) = true ∧
      ((a.evaluateOr frame d).b ==. v.b) = true ∧ ((a.evaluateOr frame d).a ==. v.a) = true := by
  have hse := search_at hs frame k t hk h
  have htf := hf _ (List.mem_of_getElem? hk)
  obtain ⟨_, rfl⟩ := List.getElem?_eq_some_iff.mp hk
  obtain ⟨_, rfl⟩ := List.getElem?_eq_some_iff.mp hvk
  rw [eval_last a frame d k hv hse hnl]
  show (FloatOps.toF32 (tweenScalar _ _ _ _) ==. _) = true ∧ (FloatOps.toF32 (tweenScalar _ _ _ _) ==. _) = true ∧
    (FloatOps.toF32 (tweenScalar _ _ _ _) ==. _) = true ∧ (FloatOps.toF32 (tweenScalar _ _ _ _) ==. _) = true
  unfold mixWeight
  split_ifs
  · rw [tween_le_zero _ _ _ zero_le_zero, tween_le_zero _ _ _ zero_le_zero,
      tween_le_zero _ _ _ zero_le_zero, tween_le_zero _ _ _ zero_le_zero]
    rw [hf32.1, hf32.2.1, hf32.2.2.1, hf32.2.2.2]
    exact ⟨(beq_fin hvr hvr).mpr rfl, (beq_fin hvg hvg).mpr rfl, (beq_fin hvb hvb).mpr rfl,
      (beq_fin hva hva).mpr rfl⟩
  · rw [weight_at_self htf h]
    exact ⟨toF32_of_beq hvr hf32.1 (tween_nan_bdd hvr he), toF32_of_beq hvg hf32.2.1 (tween_nan_bdd hvg he),
      toF32_of_beq hvb hf32.2.2.1 (tween_nan_bdd hvb he), toF32_of_beq hva hf32.2.2.2 (tween_nan_bdd hva he)⟩

/-- The hypotheses are met: a colour at the last keyframe. -/
example [Kurbo F64] : (((⟨exTimes, [⟨lit 0, lit 0, lit 0, lit 1⟩, ⟨lit 1, lit (1 / 2), lit 0, lit 1⟩]⟩ :
    Animated F64 (Color F64)).evaluateOr (lit 5) ⟨lit 0, lit 0, lit 0, lit 0⟩).g ==. lit (1 / 2)) = true :=
  (C04_color_last (t := exTime1) (v := ⟨lit 1, lit (1 / 2), lit 0, lit 1⟩) _ (lit 5) _ 1 exTimes_strict exTimes_finite rfl
    rfl rfl rfl (by decide +kernel) (by decide +kernel) (by decide +kernel) (by decide +kernel)
    (by unfold Easing.Bdd F64.Bdd; decide +kernel) (by decide +kernel) (by decide +kernel)).2.1

/-- The hypotheses of C04 are met at keyframe 0 of the example. -/
example [Kurbo F64] : (⟨exTimes, [lit 3, lit 4]⟩ : Animated F64 F64).evaluateOr (lit 1) (lit 9)
    = lit 3 :=
  C04_scalar ⟨exTimes, [lit 3, lit 4]⟩ _ _ 0 exTime0 (lit 3) exTimes_strict exTimes_finite rfl rfl rfl
    (by decide) (by decide +kernel)

/-! ## C06 — the weight is in `[0,1]` -/

/-- **C06.** For strictly increasing finite times whose consecutive distances do not overflow, and
any frame but NaN, the weight computed with IEEE rounding is in `[0,1]` — except that it is NaN
exactly when the frame equals the last time. -/
theorem C06_weight (times : List (Time F64)) (frame : F64) (last : Time F64)
    (hs : StrictTimes times) (hf : FiniteTimes times) (hg : FiniteGaps times)
    (hl : times.getLast? = some last) (hn : frame ≠ .nan) :
    ∃ w, Time.framesAndWeight times frame = some w ∧
      (w.t = .nan ↔ (frame ==. last.frame) = true) ∧
      (w.t ≠ .nan → (lit 0 <=. w.t) = true ∧ (w.t <=. lit 1) = true) := by
  have hne : times ≠ [] := by intro e; simp [e] at hl
  have hso := sorted_of_strict hs
  have hlen : 0 < times.length := List.length_pos_iff.mpr hne
  obtain ⟨hsl, hle, hgt⟩ := search_spec hso hne frame
  rw [List.getLast?_eq_getElem?, List.getElem?_eq_getElem (by omega), Option.some.injEq] at hl
  have hnf : isNaN frame = false := by rw [Bool.eq_false_iff, ne_eq, isNaN_iff']; exact hn
  rcases (show Time.search times frame + 1 < times.length ∨
      Time.search times frame = times.length - 1 by omega) with hk | hk
  · generalize hks : Time.search times frame = k at *
    have h0 : times[k]? = some times[k] := List.getElem?_eq_getElem (by omega)
    have h1 : times[k + 1]? = some times[k + 1] := List.getElem?_eq_getElem hk
    have e0 : min (Time.search times frame) (times.length - 1) = k := by omega
    have e1 : min (min (Time.search times frame) (times.length - 1) + 1) (times.length - 1)
        = k + 1 := by omega
    refine ⟨_, framesAndWeight_eq times frame times[k] times[k + 1] (by rw [e0, h0])
      (by rw [e1, h1]), ?_⟩
    have hu := weight_unit (hf _ (List.getElem_mem _)) (hf _ (List.getElem_mem _))
      ((List.pairwise_iff_getElem.mp hs) k (k + 1) (by omega) hk (by omega))
      (hg k _ _ h0 h1) hn
    refine ⟨⟨fun e => absurd e (ne_nan_of_le_left hu.2), fun e => ?_⟩, fun _ => hu⟩
    exfalso
    have := hgt (times.length - 1) (by omega) (by omega)
    rw [hl] at this
    rw [LawfulCmp.eq_iff] at e
    rw [LawfulCmp.lt_iff] at this
    obtain ⟨a, b, g1, g2, g3⟩ := e
    obtain ⟨a', b', g4, g5, g6⟩ := this
    rw [g1] at g4; rw [g2] at g5; cases g4; cases g5
    exact absurd g3 g6.ne
  · have h0 : times[times.length - 1]? = some last := by
      rw [List.getElem?_eq_getElem (by omega), hl]
    have hlf : last.frame.isFin = true := hf _ (List.mem_of_getElem? h0)
    have e0 : min (Time.search times frame) (times.length - 1) = times.length - 1 := by omega
    have e1 : min (min (Time.search times frame) (times.length - 1) + 1) (times.length - 1)
        = times.length - 1 := by omega
    refine ⟨_, framesAndWeight_eq times frame last last (by rw [e0, h0]) (by rw [e1, h0]), ?_⟩
    dsimp only
    by_cases heq : (frame ==. last.frame) = true
    · rw [weight_at_self hlf heq]
      exact ⟨⟨fun _ => heq, fun _ => rfl⟩, fun h => absurd rfl h⟩
    · have hd : (frame <. last.frame) = true ∨ (last.frame <. frame) = true := by
        cases hc : (frame <. last.frame) with
        | true => exact Or.inl rfl
        | false =>
          right
          have hnl : isNaN last.frame = false := by
            rw [Bool.eq_false_iff, ne_eq, isNaN_iff']; exact not_nan_of_fin hlf
          have := le_of_not_lt' hnf hnl hc
          rw [LawfulCmp.le_iff] at this
          obtain ⟨a, b, g1, g2, g3⟩ := this
          rw [LawfulCmp.lt_iff]
          refine ⟨a, b, g1, g2, lt_of_le_of_ne g3 ?_⟩
          rintro rfl
          exact heq ((LawfulCmp.eq_iff _ _).mpr ⟨a, a, g2, g1, rfl⟩)
      have hu : (lit 0 <=. clamp ((frame -. last.frame) /. (last.frame -. last.frame)) (lit 0)
          (lit 1)) = true ∧ (clamp ((frame -. last.frame) /. (last.frame -. last.frame)) (lit 0)
          (lit 1) <=. lit 1) = true := by
        rcases hd with hd | hd
        · have hz := weight_before_self hlf hd
          apply clamp_unit
          intro e
          rw [e, clamp_nan] at hz
          exact absurd rfl (ne_nan_of_le_left hz)
        · rw [weight_after_self hlf hd]
          exact ⟨by decide +kernel, by decide +kernel⟩
      exact ⟨⟨fun e => absurd e (ne_nan_of_le_left hu.2), fun e => absurd e heq⟩, fun _ => hu⟩

/-- The largest finite `f64`. -/
def f64Max : F64 := F64.ofRat false ((2 ^ 53 - 1) * 2 ^ 971)

/-- **C06**, necessity of the hypothesis on distances: between keyframes at `-MAX` and `MAX` the
weight is `∞/∞`, NaN. -/
theorem C06_overflow_counterexample :
    (Time.framesAndWeight [⟨F64.neg f64Max, none, none, false⟩, ⟨f64Max, none, none, false⟩]
      (lit 1000 /. lit 1001 *. f64Max : F64)).map (·.t) = some .nan := by
  decide +kernel

/-- The hypotheses of C06 are met by the example list at frame 3. -/
example : ∃ w, Time.framesAndWeight exTimes (lit 3) = some w ∧
    (w.t = .nan ↔ ((lit 3 : F64) ==. lit 5) = true) ∧
    (w.t ≠ .nan → (lit 0 <=. w.t) = true ∧ (w.t <=. lit 1) = true) :=
  C06_weight exTimes (lit 3) exTime1 exTimes_strict exTimes_finite (finiteGaps_of_bdd exTimes_bdd) rfl
    (by decide +kernel)

end Velato
