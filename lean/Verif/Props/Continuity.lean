import Verif.Proofs.Continuity
import Verif.Props.Playback
import Verif.Props.Easing
import Verif.Props.Keyframes

/-!
# C111 — animated values do not jump
-/

namespace Velato
open FloatOps (lit)
open Import (convScalar convMultiP2 convPosPoint convColor)

section
variable [Kurbo ℝ]

/-! ## Eased keyframes -/

/-- **C111 (partial).** An imported animated scalar whose keyframes are not held and are eased with
handles in the unit square has no jump of more than a millionth of the largest step between
neighbouring keyframes.  Missing: that it has no jump at all (`C111_counterexample`). -/
theorem C111_scalars_partial (hk : ExactSolver) {p : Schema.FloatValue ℝ} {v : Value ℝ ℝ}
    (h : convScalar p = .ok v) {ks : List (Schema.Keyframe ℝ)} (hp : p.value = .animatedValue ks)
    (hs : InOrder (·.base) ks) (hne : ks ≠ []) (hn : ∀ k ∈ ks, NotHeld k.base)
    (he : ∀ k ∈ ks, EasedInUnitSquare 0 k.base) {S : ℝ} (hS0 : 0 ≤ S)
    (hS : StepsAtMost S (ks.map fun k => k.value.headD 0)) (d : ℝ) :
    JumpsAtMost (S / 10 ^ 6) fun f => v.evaluateOr f d := by
  refine shown_jumps (ks := ks.map fun k => (k.base, k.value.headD 0)) ?_ ?_ ?_ hS0 ?_
    fun f => C68_scalars hk h hp hs hne f d
  · simpa using hn
  · simpa using he
  · rw [List.pairwise_map]; exact hs
  · rw [List.map_map]; exact hS

/-- **C111 (partial).** The same for both coordinates of points, sizes and scales. -/
theorem C111_vectors_partial (hk : ExactSolver) {p : Schema.MultiDimensional ℝ}
    {ks : List (Schema.Keyframe ℝ)} (hp : p.animatedProperty.value = .animatedValue ks)
    (hs : InOrder (·.base) ks) (hne : ks ≠ []) (ho : ∀ k ∈ ks, OneEasing k.base)
    (hv : ∀ k ∈ ks, 2 ≤ k.value.length) (hn : ∀ k ∈ ks, NotHeld k.base)
    (he : ∀ c < 2, ∀ k ∈ ks, EasedInUnitSquare c k.base) {S : ℝ} (hS0 : 0 ≤ S)
    (hS : ∀ c < 2, StepsAtMost S (ks.map fun k => k.value.getD c 0)) (d : P2 ℝ) :
    JumpsAtMost (S / 10 ^ 6) (fun f => ((convMultiP2 p).evaluateOr f d).x) ∧
    JumpsAtMost (S / 10 ^ 6) (fun f => ((convMultiP2 p).evaluateOr f d).y) := by
  have key : ∀ c < 2, ∀ x : ℝ → ℝ,
      (∀ f, Shown c (ks.map fun k => (k.base, k.value.getD c 0)) f (x f)) →
      JumpsAtMost (S / 10 ^ 6) x := by
    intro c hc x hx
    refine shown_jumps ?_ ?_ ?_ hS0 ?_ hx
    · simpa using hn
    · simpa using he c hc
    · rw [List.pairwise_map]; exact hs
    · rw [List.map_map]; exact hS c hc
  exact ⟨key 0 (by omega) _ fun f => (C68_vectors_partial hk hp hs hne ho hv f d).1,
    key 1 (by omega) _ fun f => (C68_vectors_partial hk hp hs hne ho hv f d).2⟩

/-- **C111 (partial).** The same for positions. -/
theorem C111_positions_partial (hk : ExactSolver) {p : Schema.Position ℝ}
    {ks : List (Schema.PositionKeyframe ℝ)} (hp : p.value = .animated ks)
    (hs : InOrder (·.keyframe.base) ks) (hne : ks ≠ []) (ho : ∀ k ∈ ks, OneEasing k.keyframe.base)
    (hv : ∀ k ∈ ks, 2 ≤ k.keyframe.value.length) (hn : ∀ k ∈ ks, NotHeld k.keyframe.base)
    (he : ∀ c < 2, ∀ k ∈ ks, EasedInUnitSquare c k.keyframe.base) {S : ℝ} (hS0 : 0 ≤ S)
    (hS : ∀ c < 2, StepsAtMost S (ks.map fun k => k.keyframe.value.getD c 0)) (d : P2 ℝ) :
    JumpsAtMost (S / 10 ^ 6) (fun f => ((convPosPoint p).evaluateOr f d).x) ∧
    JumpsAtMost (S / 10 ^ 6) (fun f => ((convPosPoint p).evaluateOr f d).y) := by
  have key : ∀ c < 2, ∀ x : ℝ → ℝ,
      (∀ f, Shown c (ks.map fun k => (k.keyframe.base, k.keyframe.value.getD c 0)) f (x f)) →
      JumpsAtMost (S / 10 ^ 6) x := by
    intro c hc x hx
    refine shown_jumps ?_ ?_ ?_ hS0 ?_ hx
    · simpa using hn
    · simpa using he c hc
    · rw [List.pairwise_map]; exact hs
    · rw [List.map_map]; exact hS c hc
  exact ⟨key 0 (by omega) _ fun f => (C68_positions_partial hk hp hs hne ho hv f d).1,
    key 1 (by omega) _ fun f => (C68_positions_partial hk hp hs hne ho hv f d).2⟩

/-- **C111 (partial).** The same for the red, green and blue of colours. -/
theorem C111_colors_partial (hk : ExactSolver) {p : Schema.ColorValue ℝ}
    {ks : List (Schema.Keyframe ℝ)} (hp : p.value = .animatedValue ks)
    (hs : InOrder (·.base) ks) (hne : ks ≠ []) (ho : ∀ k ∈ ks, OneEasing k.base)
    (hv : ∀ k ∈ ks, 3 ≤ k.value.length) (hn : ∀ k ∈ ks, NotHeld k.base)
    (he : ∀ c < 3, ∀ k ∈ ks, EasedInUnitSquare c k.base) {S : ℝ} (hS0 : 0 ≤ S)
    (hS : ∀ c < 3, StepsAtMost S (ks.map fun k => k.value.getD c 0)) (d : Color ℝ) :
    JumpsAtMost (S / 10 ^ 6) (fun f => ((convColor p).evaluateOr f d).r) ∧
    JumpsAtMost (S / 10 ^ 6) (fun f => ((convColor p).evaluateOr f d).g) ∧
    JumpsAtMost (S / 10 ^ 6) (fun f => ((convColor p).evaluateOr f d).b) := by
  have key : ∀ c < 3, ∀ x : ℝ → ℝ,
      (∀ f, Shown c (ks.map fun k => (k.base, k.value.getD c 0)) f (x f)) →
      JumpsAtMost (S / 10 ^ 6) x := by
    intro c hc x hx
    refine shown_jumps ?_ ?_ ?_ hS0 ?_ hx
    · simpa using hn
    · simpa using he c hc
    · rw [List.pairwise_map]; exact hs
    · rw [List.map_map]; exact hS c hc
  exact ⟨key 0 (by omega) _ fun f => (C68_colors_partial hk hp hs hne ho hv f d).1,
    key 1 (by omega) _ fun f => (C68_colors_partial hk hp hs hne ho hv f d).2.1,
    key 2 (by omega) _ fun f => (C68_colors_partial hk hp hs hne ho hv f d).2.2⟩

/-! ## Keyframes without easing -/

/-- **C111.** Without easing an imported scalar does not jump at all, and between any two frames it
changes no faster than between the keyframes. -/
theorem C111_scalars_straight (hk : ExactSolver) {p : Schema.FloatValue ℝ} {v : Value ℝ ℝ}
    (h : convScalar p = .ok v) {ks : List (Schema.Keyframe ℝ)} (hp : p.value = .animatedValue ks)
    (hs : InOrder (·.base) ks) (hne : ks ≠ []) (hn : ∀ k ∈ ks, NotHeld k.base)
    (he : ∀ k ∈ ks, NotEased k.base) {L : ℝ} (hL0 : 0 ≤ L)
    (hL : SpeedsAtMost L (ks.map (·.base.time)) (ks.map fun k => k.value.headD 0)) (d : ℝ) :
    ∀ f g, |v.evaluateOr g d - v.evaluateOr f d| ≤ L * |g - f| := by
  refine shown_straight (x := fun f => v.evaluateOr f d)
    (ks := ks.map fun k => (k.base, k.value.headD 0)) ?_ ?_ ?_ hL0 ?_
    fun f => C68_scalars hk h hp hs hne f d
  · simpa using hn
  · simpa using he
  · rw [List.pairwise_map]; exact hs
  · rw [List.map_map, List.map_map]; exact hL

/-- **C111.** The same for both coordinates of points, sizes and scales. -/
theorem C111_vectors_straight (hk : ExactSolver) {p : Schema.MultiDimensional ℝ}
    {ks : List (Schema.Keyframe ℝ)} (hp : p.animatedProperty.value = .animatedValue ks)
    (hs : InOrder (·.base) ks) (hne : ks ≠ []) (hv : ∀ k ∈ ks, 2 ≤ k.value.length)
    (hn : ∀ k ∈ ks, NotHeld k.base) (he : ∀ k ∈ ks, NotEased k.base) {L : ℝ} (hL0 : 0 ≤ L)
    (hL : ∀ c < 2, SpeedsAtMost L (ks.map (·.base.time)) (ks.map fun k => k.value.getD c 0))
    (d : P2 ℝ) : ∀ f g,
    |((convMultiP2 p).evaluateOr g d).x - ((convMultiP2 p).evaluateOr f d).x| ≤ L * |g - f| ∧
    |((convMultiP2 p).evaluateOr g d).y - ((convMultiP2 p).evaluateOr f d).y| ≤ L * |g - f| := by
  have ho : ∀ k ∈ ks, OneEasing k.base := fun k hk => .inl ⟨(he k hk).2, (he k hk).1⟩
  have key : ∀ c < 2, ∀ x : ℝ → ℝ,
      (∀ f, Shown c (ks.map fun k => (k.base, k.value.getD c 0)) f (x f)) →
      ∀ f g, |x g - x f| ≤ L * |g - f| := by
    intro c hc x hx
    refine shown_straight ?_ ?_ ?_ hL0 ?_ hx
    · simpa using hn
    · simpa using he
    · rw [List.pairwise_map]; exact hs
    · rw [List.map_map, List.map_map]; exact hL c hc
  exact fun f g => ⟨key 0 (by omega) _ (fun f => (C68_vectors_partial hk hp hs hne ho hv f d).1) f g,
    key 1 (by omega) _ (fun f => (C68_vectors_partial hk hp hs hne ho hv f d).2) f g⟩

/-- **C111.** The same for positions. -/
theorem C111_positions_straight (hk : ExactSolver) {p : Schema.Position ℝ}
    {ks : List (Schema.PositionKeyframe ℝ)} (hp : p.value = .animated ks)
    (hs : InOrder (·.keyframe.base) ks) (hne : ks ≠ [])
    (hv : ∀ k ∈ ks, 2 ≤ k.keyframe.value.length) (hn : ∀ k ∈ ks, NotHeld k.keyframe.base)
    (he : ∀ k ∈ ks, NotEased k.keyframe.base) {L : ℝ} (hL0 : 0 ≤ L)
    (hL : ∀ c < 2, SpeedsAtMost L (ks.map (·.keyframe.base.time))
      (ks.map fun k => k.keyframe.value.getD c 0)) (d : P2 ℝ) : ∀ f g,
    |((convPosPoint p).evaluateOr g d).x - ((convPosPoint p).evaluateOr f d).x| ≤ L * |g - f| ∧
    |((convPosPoint p).evaluateOr g d).y - ((convPosPoint p).evaluateOr f d).y| ≤ L * |g - f| := by
  have ho : ∀ k ∈ ks, OneEasing k.keyframe.base := fun k hk => .inl ⟨(he k hk).2, (he k hk).1⟩
  have key : ∀ c < 2, ∀ x : ℝ → ℝ,
      (∀ f, Shown c (ks.map fun k => (k.keyframe.base, k.keyframe.value.getD c 0)) f (x f)) →
      ∀ f g, |x g - x f| ≤ L * |g - f| := by
    intro c hc x hx
    refine shown_straight ?_ ?_ ?_ hL0 ?_ hx
    · simpa using hn
    · simpa using he
    · rw [List.pairwise_map]; exact hs
    · rw [List.map_map, List.map_map]; exact hL c hc
  exact fun f g =>
    ⟨key 0 (by omega) _ (fun f => (C68_positions_partial hk hp hs hne ho hv f d).1) f g,
    key 1 (by omega) _ (fun f => (C68_positions_partial hk hp hs hne ho hv f d).2) f g⟩

end

/-! ## Concrete cases -/

/-- From 0 to 10 in twenty frames, eased, then to 4 in ten. -/
noncomputable def exGlidingKeys : List (Schema.Keyframe ℝ) :=
  [⟨⟨0, none, some ⟨.singleValue (1 / 2), .singleValue 1⟩,
      some ⟨.arrayOfValues [1 / 3], .arrayOfValues [0]⟩⟩, [0], none⟩,
    ⟨⟨20, none, none, none⟩, [10], none⟩, ⟨⟨30, none, none, none⟩, [4], none⟩]

/-- The hypotheses of `C111_scalars_partial` can be met. -/
example [Kurbo ℝ] (hk : ExactSolver) :
    ∃ v, convScalar (⟨none, none, none, none, .animatedValue exGlidingKeys⟩ : Schema.FloatValue ℝ) =
        .ok v ∧ JumpsAtMost (10 / 10 ^ 6) fun f => v.evaluateOr f 0 := by
  refine ⟨_, rfl, C111_scalars_partial hk (p := ⟨none, none, none, none, .animatedValue exGlidingKeys⟩)
    (ks := exGlidingKeys) rfl rfl ?_ ?_ ?_ ?_ (by norm_num) ?_ 0⟩
  · simp [InOrder, exGlidingKeys]; norm_num
  · simp [exGlidingKeys]
  · simp [exGlidingKeys, NotHeld]
  · simp only [exGlidingKeys, List.forall_mem_cons]
    refine ⟨?_, ?_, ?_, by simp⟩
    · rintro o i ⟨h1, h2⟩ ⟨h3, h4⟩
      simp [CoordOf] at h1 h2 h3 h4
      cases o; cases i
      simp only at h1 h2 h3 h4
      subst h1 h2 h3 h4
      constructor <;> norm_num
    · rintro o i rfl rfl; constructor <;> norm_num
    · rintro o i rfl rfl; constructor <;> norm_num
  · intro k a b h1 h2
    match k with
    | 0 => cases h1; cases h2; norm_num
    | 1 => cases h1; cases h2; norm_num [abs_of_neg]
    | k + 2 => simp [exGlidingKeys] at h2

/-- The same without easing. -/
noncomputable def exStraightKeys : List (Schema.Keyframe ℝ) :=
  [⟨⟨0, none, none, none⟩, [0], none⟩, ⟨⟨20, none, none, none⟩, [10], none⟩,
    ⟨⟨30, none, none, none⟩, [4], none⟩]

/-- The hypotheses of `C111_scalars_straight` can be met: 10 in twenty frames and -6 in ten is at most
0.6 per frame. -/
example [Kurbo ℝ] (hk : ExactSolver) :
    ∃ v, convScalar (⟨none, none, none, none, .animatedValue exStraightKeys⟩ : Schema.FloatValue ℝ) =
        .ok v ∧
      ∀ f g, |v.evaluateOr g 0 - v.evaluateOr f 0| ≤ 6 / 10 * |g - f| := by
  refine ⟨_, rfl, C111_scalars_straight hk
    (p := ⟨none, none, none, none, .animatedValue exStraightKeys⟩) (ks := exStraightKeys) rfl rfl ?_ ?_ ?_ ?_ (by norm_num) ?_ 0⟩
  · simp [InOrder, exStraightKeys]; norm_num
  · simp [exStraightKeys]
  · simp [NotHeld, exStraightKeys]
  · simp [NotEased, exStraightKeys]
  · intro k s t a b h1 h2 h3 h4
    match k with
    | 0 => cases h1; cases h2; cases h3; cases h4; norm_num
    | 1 => cases h1; cases h2; cases h3; cases h4; norm_num [abs_of_neg]
    | k + 2 => simp [exStraightKeys] at h2

/-- Without jumps means continuous. -/
theorem jumpsAtMost_zero {x : ℝ → ℝ} : JumpsAtMost 0 x ↔ Continuous x := by
  rw [Metric.continuous_iff]
  simp only [JumpsAtMost, zero_add, Real.dist_eq]

/-- From 0 to 1 in one frame, eased in and out. -/
noncomputable def exEaseInOut : Schema.FloatValue ℝ :=
  ⟨none, none, none, none, .animatedValue
    [⟨⟨0, none, some ⟨.singleValue 1, .singleValue 1⟩, some ⟨.singleValue 0, .singleValue 1⟩⟩, [0], none⟩,
      ⟨⟨1, none, none, none⟩, [1], none⟩]⟩

theorem exEaseInOut_value [Kurbo ℝ] : ∃ v, convScalar exEaseInOut = .ok v ∧
    ∀ f d, 0 ≤ f → f < 1 → v.evaluateOr f d = tweenScalar 0 1 f exEase := by
  refine ⟨_, rfl, fun f d h0 h1 => ?_⟩
  have hs : SortedTimes [⟨(0 : ℝ), some ⟨1, 1⟩, some ⟨0, 1⟩, false⟩, ⟨1, none, none, false⟩] := by
    simp [SortedTimes]
  have hse := search_in hs f 0 _ _ rfl rfl (by simpa using h0) (by simpa using h1)
  show Animated.evaluateOr ⟨[⟨(0 : ℝ), some ⟨1, 1⟩, some ⟨0, 1⟩, false⟩, ⟨1, none, none, false⟩],
    [(0 : ℝ), 1]⟩ f d = _
  unfold Animated.evaluateOr
  rw [evaluateInner_eq _ f 0 1 _ _ (by rw [hse]; rfl) rfl rfl rfl]
  show tweenScalar (0 : ℝ) 1 _ _ = _
  have hw : mixWeight (⟨0, some ⟨1, 1⟩, some ⟨0, 1⟩, false⟩ : Time ℝ) ⟨1, none, none, false⟩ f = f := by
    unfold mixWeight
    simp only [Bool.false_eq_true, if_false, real_clamp01, real_sub, real_div]
    rw [sub_zero, sub_zero, div_one, min_eq_left h1.le, max_eq_right h0]
  rw [hw]
  rfl

/-- **C111 is false of the code:** just behind a keyframe an easing in the unit square can have a
jump. -/
theorem C111_counterexample : ∃ _ : Kurbo ℝ, ExactSolver ∧ ∃ v, convScalar exEaseInOut = .ok v ∧
    ¬ JumpsAtMost 0 fun f => v.evaluateOr f 0 := by
  let _ := exactKurbo
  have hk : ExactSolver := exactKurbo_exact
  refine ⟨exactKurbo, hk, ?_⟩
  obtain ⟨v, hv, he⟩ := exEaseInOut_value
  refine ⟨v, hv, ?_⟩
  rw [jumpsAtMost_zero]
  intro hc
  have ht0 : (0 : ℝ) < 3 / 10 ^ 24 + 2 / 10 ^ 36 := by norm_num
  have ht1 : (3 / 10 ^ 24 + 2 / 10 ^ 36 : ℝ) < 1 / 2 := by norm_num
  have hneg : v.evaluateOr (3 / 10 ^ 24 + 2 / 10 ^ 36 : ℝ) 0 < 0 := by
    rw [he _ _ ht0.le (by linarith)]; exact C08_tolerance_needed
  have hpos : 0 < v.evaluateOr (1 / 2 : ℝ) 0 := by
    rw [he _ _ (by norm_num) (by norm_num), tweenScalar_real _ _ _ _ (by norm_num) (by norm_num)]
    obtain ⟨h1, h2, h3⟩ := easeParam_unit hk (t := 1 / 2) exEase_unit (by norm_num) (by norm_num)
    have := bez_half h2 h3 h1
    rw [this]
    norm_num [bez, exEase]
  obtain ⟨t, ⟨h1, h2⟩, h3⟩ := intermediate_value_Icc ht1.le hc.continuousOn
    (show (0 : ℝ) ∈ Set.Icc _ _ from ⟨hneg.le, hpos.le⟩)
  have h3 : v.evaluateOr t 0 = 0 := h3
  have h0 : 0 < t := by linarith
  rw [he t 0 h0.le (by linarith), tweenScalar_real _ _ _ _ h0 (by linarith)] at h3
  obtain ⟨_, -, hb, -⟩ := easeParam_real hk t h0 (by linarith) exEase
  generalize easeParam t exEase = u at hb h3
  have hu : u = 0 := by
    have : bez exEase.o.y exEase.i.y u = 0 := by linarith
    have : (1 - u) ^ 3 = 1 ^ 3 := by unfold bez exEase at this; nlinarith
    have := (Odd.strictMono_pow (R := ℝ) (n := 3) (by decide)).injective this
    linarith
  rw [hu, bez_zero] at hb
  linarith

/-- Held keyframes do jump, by the whole step. -/
example [Kurbo ℝ] : ∃ v, convScalar (⟨none, none, none, none, .animatedValue
      [⟨⟨0, some .true, none, none⟩, [0], none⟩, ⟨⟨1, none, none, none⟩, [1], none⟩]⟩ :
        Schema.FloatValue ℝ) = .ok v ∧ ∀ tol < 1, ¬ JumpsAtMost tol fun f => v.evaluateOr f 0 := by
  refine ⟨_, rfl, fun tol ht h => ?_⟩
  obtain ⟨δ, hδ, hd⟩ := h 1 (1 - tol) (by linarith)
  have hs : SortedTimes [⟨(0 : ℝ), none, none, true⟩, ⟨1, none, none, false⟩] := by simp [SortedTimes]
  have a0 := C05_hold_scalar (⟨[⟨0, none, none, true⟩, ⟨1, none, none, false⟩], [0, 1]⟩ : Animated ℝ ℝ)
    (max 0 (1 - δ / 2)) 0 hs 0 _ _ 0 1 rfl rfl rfl rfl (by simp) (by simp; linarith) rfl
  have a1 : (⟨[⟨0, none, none, true⟩, ⟨1, none, none, false⟩], [0, 1]⟩ : Animated ℝ ℝ).evaluateOr 1 0 = 1 := by
    have hse : Time.search [⟨(0 : ℝ), none, none, true⟩, ⟨1, none, none, false⟩] 1 = 1 := by
      obtain ⟨h1, h2, h3⟩ := search_spec hs (by simp) 1
      by_contra hc
      have := h3 1 (by simp) (by simp at h1; omega)
      simp at this
    unfold Animated.evaluateOr
    rw [evaluateInner_eq _ 1 1 1 _ _ (by rw [hse]; rfl) rfl rfl rfl]
    show tweenScalar (1 : ℝ) 1 _ _ = 1
    rw [tween_progress]; ring
  have := hd (max 0 (1 - δ / 2)) (by
    rw [abs_lt]
    constructor
    · linarith [le_max_right 0 (1 - δ / 2)]
    · rcases max_cases 0 (1 - δ / 2) with h | h <;> linarith [h.1])
  have e0 : Value.evaluateOr (.animated ⟨[⟨0, none, none, true⟩, ⟨1, none, none, false⟩], [0, 1]⟩ :
    Value ℝ ℝ) (max 0 (1 - δ / 2)) 0 = 0 := a0
  have e1 : Value.evaluateOr (.animated ⟨[⟨0, none, none, true⟩, ⟨1, none, none, false⟩], [0, 1]⟩ :
    Value ℝ ℝ) 1 0 = 1 := a1
  have this : |Value.evaluateOr (.animated ⟨[⟨0, none, none, true⟩, ⟨1, none, none, false⟩], [0, 1]⟩ :
    Value ℝ ℝ) (max 0 (1 - δ / 2)) 0 - Value.evaluateOr (.animated ⟨[⟨0, none, none, true⟩,
      ⟨1, none, none, false⟩], [0, 1]⟩ : Value ℝ ℝ) 1 0| < tol + (1 - tol) := this
  rw [e0, e1] at this
  norm_num at this

end Velato
