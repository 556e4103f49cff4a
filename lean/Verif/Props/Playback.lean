import Verif.Proofs.Playback
import Verif.Props.ImportValues
import Verif.Props.Easing

/-!
# C68 — imported properties play as the document says
-/

namespace Velato
open FloatOps (lit)
open Import (convScalar convMultiP2 convPosPoint convColor)

section
variable [Kurbo ℝ]

/-- **C68.** Scalars: an imported animated scalar has at every frame the value that the keyframes of
the document, their hold flags and their easing handles give it. -/
theorem C68_scalars (hk : ExactSolver) {p : Schema.FloatValue ℝ} {v : Value ℝ ℝ}
    (h : convScalar p = .ok v) {ks : List (Schema.Keyframe ℝ)} (hp : p.value = .animatedValue ks)
    (hs : InOrder (·.base) ks) (hne : ks ≠ []) (frame d : ℝ) :
    Shown 0 (ks.map fun k => (k.base, k.value.headD 0)) frame (v.evaluateOr frame d) := by
  have h51 := C51_scalars h
  rw [hp] at h51
  obtain ⟨ts, vs, rfl, h1, h2⟩ := h51
  refine Entries.shown (π := id) (x := fun k : Schema.Keyframe ℝ => k.value.headD 0) hk
    (fun _ _ _ _ => rfl) ?_ (Entries.of_forall₂ h1 h2) hs hne frame d
  rintro k t v ⟨ht, hv⟩
  refine ⟨entryFor_of_eased ht, ?_⟩
  cases hkv : k.value with
  | nil => rw [hkv] at hv; cases hv
  | cons a l => rw [hkv] at hv; exact (Option.some.inj hv).symm

/-- **C68 (partial).** Points, sizes and scales: the same for both coordinates, if the easing of
every keyframe is the same for both.  Missing: easing that differs between the coordinates
(`C68_counterexample`) and keyframes with only one of the two handles
(`C68_counterexample_handle`). -/
theorem C68_vectors_partial (hk : ExactSolver) {p : Schema.MultiDimensional ℝ}
    {ks : List (Schema.Keyframe ℝ)} (hp : p.animatedProperty.value = .animatedValue ks)
    (hs : InOrder (·.base) ks) (hne : ks ≠ []) (he : ∀ k ∈ ks, OneEasing k.base)
    (hv : ∀ k ∈ ks, 2 ≤ k.value.length) (frame : ℝ) (d : P2 ℝ) :
    Shown 0 (ks.map fun k => (k.base, k.value.getD 0 0)) frame
      ((convMultiP2 p).evaluateOr frame d).x ∧
    Shown 1 (ks.map fun k => (k.base, k.value.getD 1 0)) frame
      ((convMultiP2 p).evaluateOr frame d).y := by
  have h51 := C51_vectors p
  rw [hp] at h51
  obtain ⟨ts, vs, h, hf⟩ := h51
  have hen := Entries.of_keyframes hf he hv
  rw [h]
  exact ⟨Entries.shown (π := P2.x) (x := fun k : Schema.Keyframe ℝ => k.value.getD 0 0) hk
      (fun _ _ _ _ => rfl) (fun k t v hr => ⟨hr.1 0, (pointOf_getD hr.2.1 hr.2.2).1⟩)
      hen hs hne frame d,
    Entries.shown (π := P2.y) (x := fun k : Schema.Keyframe ℝ => k.value.getD 1 0) hk
      (fun _ _ _ _ => rfl) (fun k t v hr => ⟨hr.1 1, (pointOf_getD hr.2.1 hr.2.2).2⟩)
      hen hs hne frame d⟩

/-- **C68 (partial).** The same for positions (the curvature of the path between positions is not
implemented, see the README of velato: positions move on straight lines). -/
theorem C68_positions_partial (hk : ExactSolver) {p : Schema.Position ℝ}
    {ks : List (Schema.PositionKeyframe ℝ)} (hp : p.value = .animated ks)
    (hs : InOrder (·.keyframe.base) ks) (hne : ks ≠ []) (he : ∀ k ∈ ks, OneEasing k.keyframe.base)
    (hv : ∀ k ∈ ks, 2 ≤ k.keyframe.value.length) (frame : ℝ) (d : P2 ℝ) :
    Shown 0 (ks.map fun k => (k.keyframe.base, k.keyframe.value.getD 0 0)) frame
      ((convPosPoint p).evaluateOr frame d).x ∧
    Shown 1 (ks.map fun k => (k.keyframe.base, k.keyframe.value.getD 1 0)) frame
      ((convPosPoint p).evaluateOr frame d).y := by
  have h51 := C51_positions p
  rw [hp] at h51
  obtain ⟨ts, vs, h, hf⟩ := h51
  have hen := Entries.of_keyframes hf he hv
  rw [h]
  exact ⟨Entries.shown (π := P2.x)
      (x := fun k : Schema.PositionKeyframe ℝ => k.keyframe.value.getD 0 0) hk
      (fun _ _ _ _ => rfl) (fun k t v hr => ⟨hr.1 0, (pointOf_getD hr.2.1 hr.2.2).1⟩)
      hen hs hne frame d,
    Entries.shown (π := P2.y)
      (x := fun k : Schema.PositionKeyframe ℝ => k.keyframe.value.getD 1 0) hk
      (fun _ _ _ _ => rfl) (fun k t v hr => ⟨hr.1 1, (pointOf_getD hr.2.1 hr.2.2).2⟩)
      hen hs hne frame d⟩

/-- **C68 (partial).** The same for colours: red, green and blue. -/
theorem C68_colors_partial (hk : ExactSolver) {p : Schema.ColorValue ℝ}
    {ks : List (Schema.Keyframe ℝ)} (hp : p.value = .animatedValue ks)
    (hs : InOrder (·.base) ks) (hne : ks ≠ []) (he : ∀ k ∈ ks, OneEasing k.base)
    (hv : ∀ k ∈ ks, 3 ≤ k.value.length) (frame : ℝ) (d : Color ℝ) :
    Shown 0 (ks.map fun k => (k.base, k.value.getD 0 0)) frame
      ((convColor p).evaluateOr frame d).r ∧
    Shown 1 (ks.map fun k => (k.base, k.value.getD 1 0)) frame
      ((convColor p).evaluateOr frame d).g ∧
    Shown 2 (ks.map fun k => (k.base, k.value.getD 2 0)) frame
      ((convColor p).evaluateOr frame d).b := by
  have h51 := C51_colors p
  rw [hp] at h51
  obtain ⟨ts, vs, h, hf⟩ := h51
  have hen := Entries.of_keyframes hf he hv
  rw [h]
  exact ⟨Entries.shown (π := Color.r) (x := fun k : Schema.Keyframe ℝ => k.value.getD 0 0) hk
      (fun _ _ _ _ => rfl) (fun k t v hr => ⟨hr.1 0, (colorOf_getD hr.2.1 hr.2.2).1⟩)
      hen hs hne frame d,
    Entries.shown (π := Color.g) (x := fun k : Schema.Keyframe ℝ => k.value.getD 1 0) hk
      (fun _ _ _ _ => rfl) (fun k t v hr => ⟨hr.1 1, (colorOf_getD hr.2.1 hr.2.2).2.1⟩)
      hen hs hne frame d,
    Entries.shown (π := Color.b) (x := fun k : Schema.Keyframe ℝ => k.value.getD 2 0) hk
      (fun _ _ _ _ => rfl) (fun k t v hr => ⟨hr.1 2, (colorOf_getD hr.2.1 hr.2.2).2.2.1⟩)
      hen hs hne frame d⟩

end

/-! ### Easing per coordinate -/

section
open Schema

/-- Keyframes at 0 and 1 from `(0, 0)` to `(1, 1)`, the first with the given handles. -/
noncomputable def exEased (o i : Option (KeyframeBezierHandle ℝ)) : MultiDimensional ℝ :=
  ⟨⟨none, none, none, none, .animatedValue
    [⟨⟨0, none, i, o⟩, [0, 0], none⟩, ⟨⟨1, none, none, none⟩, [1, 1], none⟩]⟩, none⟩

/-- Horizontally linear, vertically eased. -/
noncomputable def exTwoEasings : MultiDimensional ℝ :=
  exEased (some ⟨.arrayOfValues [0, 0], .arrayOfValues [0, 0]⟩)
    (some ⟨.arrayOfValues [1, 1], .arrayOfValues [1, 0]⟩)

/-- With an out handle only. -/
noncomputable def exOneHandle : MultiDimensional ℝ :=
  exEased (some ⟨.singleValue 0, .singleValue 1⟩) none

/-- The only parameter at which the curve with handles 0 and 1 is half way. -/
theorem bez_half {u : ℝ} (h0 : 0 ≤ u) (h1 : u ≤ 1) (h : bez 0 1 u = 1 / 2) : u = 1 / 2 := by
  unfold bez at h
  have : (2 * u - 1) * (2 * u * (u - 1) - 1) = 0 := by nlinarith
  rcases mul_eq_zero.mp this with h | h
  · linarith
  · nlinarith [mul_nonneg h0 (sub_nonneg.mpr h1)]

/-- The keyframes of an example and one coordinate of their values. -/
noncomputable def exChannel (o i : Option (KeyframeBezierHandle ℝ)) : List (KeyframeBase ℝ × ℝ) :=
  [(⟨0, none, i, o⟩, 0), (⟨1, none, none, none⟩, 1)]

/-- Half way between the keyframes of an example the value is the progress on the easing curve. -/
theorem shown_half {c : Nat} {o i : Option (KeyframeBezierHandle ℝ)} {x : ℝ}
    (h : Shown c (exChannel o i) (1 / 2) x) :
    ∃ ho hi, EasingHandleOf c 0 o ho ∧ EasingHandleOf c 1 i hi ∧
      (0 ≤ ho.x ∧ ho.x ≤ 1 → 0 ≤ hi.x ∧ hi.x ≤ 1 → OnEasingCurve ho hi (1 / 2) x) := by
  rcases h with ⟨b, v, h, hlt, -⟩ | ⟨b, v, h, hle, -⟩ | ⟨k, b0, v0, b1, v1, h0, h1, -, -, -, h⟩
  · cases Option.some.inj h; norm_num at hlt
  · cases Option.some.inj h; norm_num at hle
  · cases k with
    | succ k => cases k <;> cases h1
    | zero =>
      cases Option.some.inj h0; cases Option.some.inj h1
      obtain ⟨ho, hi, e, h1, h2, h3, h4⟩ := h (by simp)
      refine ⟨ho, hi, h1, h2, fun a b => ?_⟩
      have := h4 a b
      rw [h3]
      norm_num at this ⊢
      exact this

/-- **C68 is false of the code:** with horizontal and vertical easing given separately, the vertical
easing is used for both: half way the first coordinate is 1/8 instead of 1/2. -/
theorem C68_counterexample [Kurbo ℝ] (hk : ExactSolver) (d : P2 ℝ) :
    ((convMultiP2 exTwoEasings).evaluateOr (1 / 2) d).x = 1 / 8 ∧
    ∀ x, Shown 0 (exChannel (some ⟨.arrayOfValues [0, 0], .arrayOfValues [0, 0]⟩)
      (some ⟨.arrayOfValues [1, 1], .arrayOfValues [1, 0]⟩)) (1 / 2) x → x = 1 / 2 := by
  constructor
  · have hs : SortedTimes [⟨(0 : ℝ), some ⟨1, 1⟩, some ⟨0, 0⟩, false⟩,
        ⟨0, some ⟨1, 0⟩, some ⟨0, 0⟩, false⟩, ⟨1, none, none, false⟩] := by
      simp [SortedTimes]
    have hse := search_in hs (1 / 2) 1 _ _ rfl rfl (by norm_num) (by norm_num)
    show (Animated.evaluateOr ⟨[⟨(0 : ℝ), some ⟨1, 1⟩, some ⟨0, 0⟩, false⟩,
        ⟨0, some ⟨1, 0⟩, some ⟨0, 0⟩, false⟩, ⟨1, none, none, false⟩],
        [(⟨0, 0⟩ : P2 ℝ), ⟨0, 0⟩, ⟨1, 1⟩]⟩ (1 / 2) d).x = 1 / 8
    unfold Animated.evaluateOr
    rw [evaluateInner_eq _ (1 / 2 : ℝ) 1 2 _ _ (by rw [hse]; rfl) rfl rfl rfl]
    show tweenScalar (0 : ℝ) 1 _ _ = 1 / 8
    have hw : mixWeight (⟨0, some ⟨1, 0⟩, some ⟨0, 0⟩, false⟩ : Time ℝ) ⟨1, none, none, false⟩
        (1 / 2) = 1 / 2 := by
      unfold mixWeight
      simp only [Bool.false_eq_true, if_false, real_clamp01, real_sub, real_div]
      norm_num
    rw [hw, tween_progress]
    obtain ⟨u, h1, h2, -, -, h3⟩ := progress_curve hk
      (Time.easing (⟨0, some ⟨1, 0⟩, some ⟨0, 0⟩, false⟩ : Time ℝ)) (w := 1 / 2) (by norm_num)
      (by norm_num) (by simp [Time.easing]) (by simp [Time.easing])
    obtain ⟨a, b⟩ := h3 (by norm_num) (by norm_num)
    have hu := bez_half a b h1
    rw [h2, hu]
    simp only [Time.easing, bez]
    norm_num
  · intro x hx
    obtain ⟨ho, hi, ⟨a1, a2⟩, ⟨b1, b2⟩, h⟩ := shown_half hx
    have e1 : ho = ⟨0, 0⟩ := by
      rcases ho with ⟨p, q⟩
      simp [CoordOf] at a1 a2
      rw [← a1, ← a2]
    have e2 : hi = ⟨1, 1⟩ := by
      rcases hi with ⟨p, q⟩
      simp [CoordOf] at b1 b2
      rw [← b1, ← b2]
    subst e1; subst e2
    obtain ⟨u, h1, h2, -⟩ := h (by norm_num) (by norm_num)
    rw [h2, ← h1]

/-- **C68 is false of the code:** a keyframe of a vector that has only one of its handles is not
eased at all: half way the value is 1/2 instead of 7/8 (scalars are eased, `C68_scalars`). -/
theorem C68_counterexample_handle [Kurbo ℝ] (hk : ExactSolver) (d : P2 ℝ) :
    ((convMultiP2 exOneHandle).evaluateOr (1 / 2) d).x = 1 / 2 ∧
    ∀ x, Shown 0 (exChannel (some ⟨.singleValue 0, .singleValue 1⟩) none) (1 / 2) x →
      x = 7 / 8 := by
  constructor
  · have hs : SortedTimes [⟨(0 : ℝ), none, none, false⟩, ⟨1, none, none, false⟩] := by
      simp [SortedTimes]
    have hse := search_in hs (1 / 2) 0 _ _ rfl rfl (by norm_num) (by norm_num)
    show (Animated.evaluateOr ⟨[⟨(0 : ℝ), none, none, false⟩, ⟨1, none, none, false⟩],
        [(⟨0, 0⟩ : P2 ℝ), ⟨1, 1⟩]⟩ (1 / 2) d).x = 1 / 2
    unfold Animated.evaluateOr
    rw [evaluateInner_eq _ (1 / 2 : ℝ) 0 1 _ _ (by rw [hse]; rfl) rfl rfl rfl]
    show tweenScalar (0 : ℝ) 1 _ _ = 1 / 2
    have hw : mixWeight (⟨0, none, none, false⟩ : Time ℝ) ⟨1, none, none, false⟩
        (1 / 2) = 1 / 2 := by
      unfold mixWeight
      simp only [Bool.false_eq_true, if_false, real_clamp01, real_sub, real_div]
      norm_num
    rw [hw]
    have := C07_linear hk 0 1 (1 / 2) (by norm_num) (by norm_num)
    refine Eq.trans (congrArg _ ?_) (this.trans (by norm_num))
    rfl
  · intro x hx
    obtain ⟨ho, hi, ⟨a1, a2⟩, b, h⟩ := shown_half hx
    have e1 : ho = ⟨0, 1⟩ := by
      rcases ho with ⟨p, q⟩
      simp [CoordOf] at a1 a2
      rw [a1, a2]
    have e2 : hi = ⟨1, 1⟩ := b
    subst e1; subst e2
    obtain ⟨u, h1, h2, -, -, h3⟩ := h (by norm_num) (by norm_num)
    obtain ⟨p, q⟩ := h3 (by norm_num) (by norm_num)
    have hu := bez_half p q h1
    rw [h2, hu]
    simp only [bez]
    norm_num

/-- The hypotheses of the theorems are met: keyframes with the same handles for both coordinates. -/
example : let ks : List (Keyframe ℝ) :=
      [⟨⟨0, none, some ⟨.arrayOfValues [1, 1], .singleValue 1⟩,
          some ⟨.singleValue 0, .arrayOfValues [1 / 2, 1 / 2]⟩⟩, [0, 0], none⟩,
        ⟨⟨5, some .true, none, none⟩, [1, 2], none⟩, ⟨⟨9, none, none, none⟩, [3, 4], none⟩]
    InOrder (·.base) ks ∧ (∀ k ∈ ks, OneEasing k.base) ∧ (∀ k ∈ ks, 2 ≤ k.value.length) := by
  refine ⟨by norm_num [InOrder], fun k hk => ?_, fun k hk => ?_⟩
  · simp only [List.mem_cons, List.not_mem_nil, or_false] at hk
    rcases hk with rfl | rfl | rfl
    · refine .inr ⟨_, _, rfl, rfl, ⟨⟨1, 1⟩, ?_, ?_⟩, ⟨⟨0, 1 / 2⟩, ?_, ?_⟩⟩ <;> simp
    · exact .inl ⟨rfl, rfl⟩
    · exact .inl ⟨rfl, rfl⟩
  · simp only [List.mem_cons, List.not_mem_nil, or_false] at hk
    rcases hk with rfl | rfl | rfl <;> simp

/-- A scalar with handles imports. -/
example : ∃ v, convScalar (⟨none, none, none, none, .animatedValue
    [⟨⟨0, none, some ⟨.arrayOfValues [1], .singleValue 1⟩,
        some ⟨.singleValue 0, .arrayOfValues [1 / 2]⟩⟩, [7], none⟩,
      ⟨⟨5, none, none, none⟩, [1], none⟩]⟩ : FloatValue ℝ) = .ok v := ⟨_, rfl⟩

end
end Velato
