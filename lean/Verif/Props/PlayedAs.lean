import Verif.Proofs.PlayedAs
import Verif.Props.Playback

/-!
# C68 — how vectors, positions and colours play with any handles
-/

namespace Velato
open FloatOps (lit)
open Import (convMultiP2 convPosPoint convColor)

/-- **C68.** Every keyframe is played as exactly one keyframe with handles for all coordinates (or none). -/
theorem C68_played_unique {F : Type} (b : Schema.KeyframeBase F) : ∃! b', PlayedAs b b' := by
  have hex : ∃ b', PlayedAs b b' := by
    by_cases h0 : (∃ i, HandleAxis 0 b.inTangent i) ∧ ∃ o, HandleAxis 0 b.outTangent o
    · by_cases h2 : TwoAxes b.inTangent ∧ TwoAxes b.outTangent
      · obtain ⟨⟨i, hi⟩, -⟩ := h2.1
        obtain ⟨⟨o, ho⟩, -⟩ := h2.2
        exact ⟨⟨b.time, b.hold, some ⟨.singleValue i.x, .singleValue i.y⟩, some ⟨.singleValue o.x, .singleValue o.y⟩⟩, rfl, rfl,
          .inr ⟨1, i, o, .inr ⟨rfl, h2⟩, hi, ho, rfl, rfl⟩⟩
      · obtain ⟨⟨i, hi⟩, ⟨o, ho⟩⟩ := h0
        exact ⟨⟨b.time, b.hold, some ⟨.singleValue i.x, .singleValue i.y⟩, some ⟨.singleValue o.x, .singleValue o.y⟩⟩, rfl, rfl,
          .inr ⟨0, i, o, .inl ⟨rfl, h2⟩, hi, ho, rfl, rfl⟩⟩
    · exact ⟨⟨b.time, b.hold, none, none⟩, rfl, rfl, .inl ⟨h0, rfl, rfl⟩⟩
  obtain ⟨b', hb⟩ := hex
  refine ⟨b', hb, fun b'' hb' => ?_⟩
  obtain ⟨t1, h1, r1⟩ := hb
  obtain ⟨t2, h2, r2⟩ := hb'
  have none0 : ∀ {c i o}, (c = 0 ∧ ¬ (TwoAxes b.inTangent ∧ TwoAxes b.outTangent) ∨
      c = 1 ∧ TwoAxes b.inTangent ∧ TwoAxes b.outTangent) → HandleAxis c b.inTangent i → HandleAxis c b.outTangent o →
      (∃ i, HandleAxis 0 b.inTangent i) ∧ ∃ o, HandleAxis 0 b.outTangent o := by
    rintro c i o (⟨rfl, -⟩ | ⟨rfl, -⟩) hi ho
    · exact ⟨⟨i, hi⟩, ⟨o, ho⟩⟩
    · exact ⟨hi.first, ho.first⟩
  have hin : b''.inTangent = b'.inTangent ∧ b''.outTangent = b'.outTangent := by
    rcases r1 with ⟨n1, i1, o1⟩ | ⟨c1, i1, o1, k1, a1, e1, f1, g1⟩ <;>
      rcases r2 with ⟨n2, i2, o2⟩ | ⟨c2, i2, o2, k2, a2, e2, f2, g2⟩
    · exact ⟨i2.trans i1.symm, o2.trans o1.symm⟩
    · exact absurd (none0 k2 a2 e2) n1
    · exact absurd (none0 k1 a1 e1) n2
    · have hcc : c1 = c2 := by
        rcases k1 with ⟨rfl, hn⟩ | ⟨rfl, hy⟩ <;> rcases k2 with ⟨rfl, hn'⟩ | ⟨rfl, hy'⟩
        · rfl
        · exact absurd hy' hn
        · exact absurd hy hn'
        · rfl
      subst hcc
      cases a1.unique a2
      cases e1.unique e2
      exact ⟨f2.trans f1.symm, g2.trans g1.symm⟩
  cases b'
  cases b''
  simp only [Schema.KeyframeBase.mk.injEq]
  exact ⟨t2.trans t1.symm, h2.trans h1.symm, hin.1, hin.2⟩

section
variable [Kurbo ℝ]

/-- **C68.** What points, sizes and scales show with any easing handles: what the same keyframes with the handles of
`PlayedAs` say. -/
theorem C68_vectors_played (hk : ExactSolver) {p : Schema.MultiDimensional ℝ}
    {ks : List (Schema.Keyframe ℝ)} (hp : p.animatedProperty.value = .animatedValue ks)
    (hs : InOrder (·.base) ks) (hne : ks ≠ []) {played : Schema.Keyframe ℝ → Schema.KeyframeBase ℝ}
    (hb : ∀ k, PlayedAs k.base (played k)) (hv : ∀ k ∈ ks, 2 ≤ k.value.length) (frame : ℝ) (d : P2 ℝ) :
    Shown 0 (ks.map fun k => (played k, k.value.getD 0 0)) frame ((convMultiP2 p).evaluateOr frame d).x ∧
    Shown 0 (ks.map fun k => (played k, k.value.getD 1 0)) frame ((convMultiP2 p).evaluateOr frame d).y := by
  have h51 := C51_vectors p
  rw [hp] at h51
  obtain ⟨ts, vs, h, hf⟩ := h51
  have hen := Entries₂.of_keyframes hb hf hv
  rw [h]
  exact ⟨hen.shown (π := P2.x) (x := fun k => k.value.getD 0 0) hk (fun _ _ _ _ => rfl) (fun _ _ _ h => h.1)
      (fun k t v h => ⟨h.1, (pointOf_getD h.2.1 h.2.2).1⟩) (fun k => (hb k).1) (fun _ _ _ h => h.2) hs hne frame d,
    hen.shown (π := P2.y) (x := fun k => k.value.getD 1 0) hk (fun _ _ _ _ => rfl) (fun _ _ _ h => h.1)
      (fun k t v h => ⟨h.1, (pointOf_getD h.2.1 h.2.2).2⟩) (fun k => (hb k).1) (fun _ _ _ h => h.2) hs hne frame d⟩

/-- **C68.** The same for positions. -/
theorem C68_positions_played (hk : ExactSolver) {p : Schema.Position ℝ}
    {ks : List (Schema.PositionKeyframe ℝ)} (hp : p.value = .animated ks)
    (hs : InOrder (·.keyframe.base) ks) (hne : ks ≠ []) {played : Schema.PositionKeyframe ℝ → Schema.KeyframeBase ℝ}
    (hb : ∀ k, PlayedAs k.keyframe.base (played k)) (hv : ∀ k ∈ ks, 2 ≤ k.keyframe.value.length) (frame : ℝ) (d : P2 ℝ) :
    Shown 0 (ks.map fun k => (played k, k.keyframe.value.getD 0 0)) frame ((convPosPoint p).evaluateOr frame d).x ∧
    Shown 0 (ks.map fun k => (played k, k.keyframe.value.getD 1 0)) frame ((convPosPoint p).evaluateOr frame d).y := by
  have h51 := C51_positions p
  rw [hp] at h51
  obtain ⟨ts, vs, h, hf⟩ := h51
  have hen := Entries₂.of_keyframes hb hf hv
  rw [h]
  exact ⟨hen.shown (π := P2.x) (x := fun k => k.keyframe.value.getD 0 0) hk (fun _ _ _ _ => rfl) (fun _ _ _ h => h.1)
      (fun k t v h => ⟨h.1, (pointOf_getD h.2.1 h.2.2).1⟩) (fun k => (hb k).1) (fun _ _ _ h => h.2) hs hne frame d,
    hen.shown (π := P2.y) (x := fun k => k.keyframe.value.getD 1 0) hk (fun _ _ _ _ => rfl) (fun _ _ _ h => h.1)
      (fun k t v h => ⟨h.1, (pointOf_getD h.2.1 h.2.2).2⟩) (fun k => (hb k).1) (fun _ _ _ h => h.2) hs hne frame d⟩

/-- **C68.** The same for colours. -/
theorem C68_colors_played (hk : ExactSolver) {p : Schema.ColorValue ℝ}
    {ks : List (Schema.Keyframe ℝ)} (hp : p.value = .animatedValue ks)
    (hs : InOrder (·.base) ks) (hne : ks ≠ []) {played : Schema.Keyframe ℝ → Schema.KeyframeBase ℝ}
    (hb : ∀ k, PlayedAs k.base (played k)) (hv : ∀ k ∈ ks, 3 ≤ k.value.length) (frame : ℝ) (d : Color ℝ) :
    Shown 0 (ks.map fun k => (played k, k.value.getD 0 0)) frame ((convColor p).evaluateOr frame d).r ∧
    Shown 0 (ks.map fun k => (played k, k.value.getD 1 0)) frame ((convColor p).evaluateOr frame d).g ∧
    Shown 0 (ks.map fun k => (played k, k.value.getD 2 0)) frame ((convColor p).evaluateOr frame d).b := by
  have h51 := C51_colors p
  rw [hp] at h51
  obtain ⟨ts, vs, h, hf⟩ := h51
  have hen := Entries₂.of_keyframes hb hf hv
  rw [h]
  exact ⟨hen.shown (π := Color.r) (x := fun k => k.value.getD 0 0) hk (fun _ _ _ _ => rfl) (fun _ _ _ h => h.1)
      (fun k t v h => ⟨h.1, (colorOf_getD h.2.1 h.2.2).1⟩) (fun k => (hb k).1) (fun _ _ _ h => h.2) hs hne frame d,
    hen.shown (π := Color.g) (x := fun k => k.value.getD 1 0) hk (fun _ _ _ _ => rfl) (fun _ _ _ h => h.1)
      (fun k t v h => ⟨h.1, (colorOf_getD h.2.1 h.2.2).2.1⟩) (fun k => (hb k).1) (fun _ _ _ h => h.2) hs hne frame d,
    hen.shown (π := Color.b) (x := fun k => k.value.getD 2 0) hk (fun _ _ _ _ => rfl) (fun _ _ _ h => h.1)
      (fun k t v h => ⟨h.1, (colorOf_getD h.2.1 h.2.2).2.2.1⟩) (fun k => (hb k).1) (fun _ _ _ h => h.2) hs hne frame d⟩

end

/-- Horizontally linear, vertically eased: played with the vertical handles. -/
example : PlayedAs (⟨0, none, some ⟨.arrayOfValues [1, 1], .arrayOfValues [1, 0]⟩,
      some ⟨.arrayOfValues [0, 0], .arrayOfValues [0, 0]⟩⟩ : Schema.KeyframeBase ℝ)
    ⟨0, none, some ⟨.singleValue 1, .singleValue 0⟩, some ⟨.singleValue 0, .singleValue 0⟩⟩ :=
  ⟨rfl, rfl, .inr ⟨1, ⟨1, 0⟩, ⟨0, 0⟩,
    .inr ⟨rfl, ⟨⟨⟨1, 0⟩, _, rfl, rfl, rfl⟩, fun x y h => by cases h⟩, ⟨⟨⟨0, 0⟩, _, rfl, rfl, rfl⟩, fun x y h => by cases h⟩⟩,
    ⟨_, rfl, rfl, rfl⟩, ⟨_, rfl, rfl, rfl⟩, rfl, rfl⟩⟩

/-- The hypotheses of `C68_vectors_played` are met by the example whose coordinates are eased differently. -/
example : (∃ ks, exTwoEasings.animatedProperty.value = .animatedValue ks ∧ InOrder (·.base) ks ∧ ks ≠ [] ∧
      ∀ k ∈ ks, 2 ≤ k.value.length) ∧
    ∃ played : Schema.Keyframe ℝ → Schema.KeyframeBase ℝ, ∀ k, PlayedAs k.base (played k) :=
  ⟨⟨_, rfl, by norm_num [InOrder], by simp, by simp⟩, ⟨_, fun k => (C68_played_unique k.base).exists.choose_spec⟩⟩

end Velato
