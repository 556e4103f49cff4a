import Verif.Proofs.InsertedDoc
import Verif.Proofs.InsertedPaths
import Verif.Proofs.InsertedGradients
import Verif.Proofs.ElsewhereDoc

/-!
# Keyframes added anywhere in a document
-/

namespace Velato
open FloatOps (lit)
open Import

theorem KeyframeAdded.inOrder {n : Nat} {ks ks' : List (Schema.Keyframe ℝ)} (h : KeyframeAdded n ks ks')
    (ho : InOrder (·.base) ks) : InOrder (·.base) ks' := by
  obtain @⟨pre, post, k₀, m, k₁, -, -, lo, hi, -⟩ := h
  unfold InOrder at *
  rw [List.pairwise_append, List.pairwise_cons, List.pairwise_cons] at *
  obtain ⟨h1, ⟨h2, h3, h4⟩, h5⟩ := ho
  refine ⟨h1, ⟨?_, ?_⟩, ?_⟩
  · intro x hx
    rcases List.mem_cons.mp hx with rfl | hx
    · exact lo
    · exact h2 x hx
  · rw [List.pairwise_cons]
    refine ⟨fun x hx => ?_, h3, h4⟩
    rcases List.mem_cons.mp hx with rfl | hx
    · exact hi
    · exact hi.trans (h3 x hx)
  · intro x hx y hy
    rcases List.mem_cons.mp hy with rfl | hy
    · exact h5 x hx _ (by simp)
    rcases List.mem_cons.mp hy with rfl | hy
    · exact (h5 x hx k₀ (by simp)).trans lo
    · exact h5 x hx y (by simp only [List.mem_cons] at hy ⊢; exact .inr hy)

section
variable [Kurbo ℝ]

omit [Kurbo ℝ] in
theorem keyframes_addedAll {T : Type} [Tween ℝ T] {n : Nat} {h : List ℝ → T} (hT : OnStraight n h)
    {ks ks' : List (Schema.Keyframe ℝ)} (ha : KeyframesAdded n ks ks') (ho : InOrder (·.base) ks) (fr : ℝ) (d : T) :
    (convKeyframes ks' h).evaluateOr fr d = (convKeyframes ks h).evaluateOr fr d := by
  induction ha with
  | none => rfl
  | more h _ ih => rw [ih (h.inOrder ho), keyframes_added hT ho h]

omit [Kurbo ℝ] in
theorem keyframes_sameValue {T : Type} [Tween ℝ T] {n : Nat} {h : List ℝ → T} (hT : OnStraight n h)
    {ks ks' : List (Schema.Keyframe ℝ)} (ha : ks' = ks ∨ InOrder (·.base) ks ∧ KeyframesAdded n ks ks') (fr : ℝ) :
    SameValue fr fr (convKeyframes ks h) (convKeyframes ks' h) := by
  rcases ha with rfl | ⟨ho, ha⟩
  · exact .inr ⟨_, _, rfl, rfl, fun _ => rfl⟩
  · exact .inr ⟨_, _, rfl, rfl, fun d => keyframes_addedAll hT ha ho fr d⟩

/-- A number with these keyframes. -/
def keyedNumber (ks : List (Schema.Keyframe ℝ)) : Schema.FloatValue ℝ := ⟨none, none, none, none, .animatedValue ks⟩

theorem scalar_addedAll (hk : ExactSolver) {ks ks' : List (Schema.Keyframe ℝ)} (h : KeyframesAdded 1 ks ks')
    (ho : InOrder (·.base) ks) {v : Value ℝ ℝ} (hv : convScalar (keyedNumber ks) = .ok v) :
    ∃ v', convScalar (keyedNumber ks') = .ok v' ∧ ∀ fr d, v'.evaluateOr fr d = v.evaluateOr fr d := by
  induction h generalizing v with
  | none => exact ⟨v, hv, fun _ _ => rfl⟩
  | @more ks ks' ks'' h _ ih =>
    obtain ⟨h1, -, h3⟩ := scalar_added hk (p := keyedNumber ks) (p' := keyedNumber ks') rfl rfl ho h
    obtain ⟨w, hw⟩ := h1 v hv
    obtain ⟨v', hv', e⟩ := ih (h.inOrder ho) hw
    exact ⟨v', hv', fun fr d => (e fr d).trans (h3 v w hv hw fr d)⟩

omit [Kurbo ℝ] in
theorem keyedNumber_animated {ks : List (Schema.Keyframe ℝ)} {v : Value ℝ ℝ} (h : convScalar (keyedNumber ks) = .ok v) :
    ∃ a, v = .animated a := by
  unfold convScalar keyedNumber at h
  obtain ⟨es, -, h⟩ := bind_ok h
  cases h
  exact ⟨_, rfl⟩

theorem gradient_addedAll (hk : ExactSolver) {n : Nat} (hn : 0 < n) {ks ks' : List (Schema.Keyframe ℝ)}
    (h : KeyframesAdded (4 * n) ks ks') (ho : InOrder (·.base) ks) (hl : ∀ k ∈ ks', k.value.length < 4 * n + 4) (fr : ℝ) :
    stopsShown n ks' fr = stopsShown n ks fr := by
  induction h with
  | none => rfl
  | more h hs ih => rw [ih (h.inOrder ho) hl, gradient_added hk hn h ho fun k hk => hl k (hs.subset k hk)]

theorem gradients_added (hk : ExactSolver) (fr : ℝ) {g g' : Schema.GradientColors ℝ} (h : g.Agrees straightAdded g') :
    Both (fun s s' => s'.evaluate fr = s.evaluate fr) (convGradientColors g) (convGradientColors g') := by
  obtain ⟨hc, hn⟩ := h
  unfold convGradientColors
  rw [hn]
  cases hc with
  | static h h' =>
    rw [h, h']
    exact Both.ok rfl
  | @animated ks ks' h h' hr =>
    rw [h, h']
    rcases hr with rfl | ⟨h0, ho, hr, hl⟩
    · intro s s' e e'
      cases e.symm.trans e'
      rfl
    · intro s s' e e'
      obtain ⟨ts, ht, e⟩ := bind_ok e
      obtain ⟨ts', ht', e'⟩ := bind_ok e'
      obtain ⟨a1, a2⟩ := gradient_pairs (n := g.count) ht
      obtain ⟨b1, b2⟩ := gradient_pairs (n := g.count) ht'
      rw [a1, a2] at e
      rw [b1, b2] at e'
      cases e
      cases e'
      exact congrArg (·.getD []) (gradient_addedAll hk h0 hr ho hl fr)

theorem straightAdded_sound [Libm ℝ] (hk : ExactSolver) (fr : ℝ) : straightAdded.Sound fr where
  numbers p p' h := by
    cases h with
    | static h h' =>
      unfold convScalar
      rw [h, h']
      exact Both.ok (.refl _)
    | @animated ks ks' h h' hr =>
      have e : convScalar p = convScalar (keyedNumber ks) := by unfold convScalar keyedNumber; rw [h]
      have e' : convScalar p' = convScalar (keyedNumber ks') := by unfold convScalar keyedNumber; rw [h']
      rw [e, e']
      intro v v' hv hv'
      obtain ⟨a, rfl⟩ := keyedNumber_animated hv
      obtain ⟨a', rfl⟩ := keyedNumber_animated hv'
      intro d
      rcases hr with rfl | ⟨ho, hr⟩
      · cases hv.symm.trans hv'
        rfl
      · obtain ⟨w, hw, e⟩ := scalar_addedAll hk hr ho hv
        cases hw.symm.trans hv'
        exact e fr d
  vectors p p' h := by
    unfold convMulti
    cases h with
    | static h h' =>
      rw [h, h']
      exact .refl _
    | animated h h' hr =>
      rw [h, h']
      exact (keyframes_sameValue (points_onStraight hk) hr fr).alike
  colors p p' h := by
    refine SameValue.alike ?_
    unfold convColor convMulti
    cases h with
    | static h h' =>
      rw [h, h']
      exact .inl ⟨_, rfl, rfl⟩
    | animated h h' hr =>
      rw [h, h']
      exact keyframes_sameValue (colors_onStraight hk) hr fr
  gradients g g' h := gradients_added hk fr h
  positions p p' h := by
    unfold convPosPoint
    cases h with
    | static h h' =>
      rw [h, h']
      exact .refl _
    | animated h h' hr =>
      rw [h, h']
      refine (keyframes_sameValue (points_onStraight hk) ?_ fr).alike
      rcases hr with rfl | ⟨ho, hr⟩
      · exact .inl rfl
      · exact .inr ⟨by unfold InOrder at *; rwa [List.pairwise_map], hr⟩
  paths p p' h := paths_added fr h

end
end Velato
