import Verif.Proofs.GradientPlayback

/-!
# C135 — animated gradients play as the document says
-/

namespace Velato
open FloatOps (lit)
open Import (convGradientColors convStops)

section
variable [Kurbo ℝ]

/-- **C135 (partial).** An imported animated gradient has at every frame the declared number of stops, and every stop
has the red, green and blue that its keyframes, their hold flags and their easing handles give it; unless keyframes are held,
also the offset.  Without opacity data the stops are opaque.  Missing: the offsets during a hold, which are not
held (`C135_counterexample`; `C135_offsets` says what they are).  For the opacity where there is opacity data see `C135_opacity`. -/
theorem C135_stops_partial (hk : ExactSolver) {g : Schema.GradientColors ℝ} {s : ColorStops ℝ}
    (h : convGradientColors g = .ok s) {ks : List (Schema.Keyframe ℝ)}
    (hp : g.colors.animatedProperty.value = .animatedValue ks) (hs : InOrder (·.base) ks) (hne : ks ≠ [])
    (hv : ∀ k ∈ ks, 4 * g.count ≤ k.value.length) (frame : ℝ) :
    (s.evaluate frame).length = g.count ∧
    ∀ i < g.count, ∃ st, (s.evaluate frame)[i]? = some st ∧
      Shown 0 (ks.map fun k => (k.base, k.value.getD (4 * i + 1) 0)) frame st.color.r ∧
      Shown 0 (ks.map fun k => (k.base, k.value.getD (4 * i + 2) 0)) frame st.color.g ∧
      Shown 0 (ks.map fun k => (k.base, k.value.getD (4 * i + 3) 0)) frame st.color.b ∧
      ((∀ k ∈ ks, k.base.hold ≠ some .true) →
        Shown 0 (ks.map fun k => (k.base, k.value.getD (4 * i) 0)) frame st.offset) ∧
      ((∀ k ∈ ks, k.value.length < 4 * g.count + 4) → st.color.a = 1) := by
  obtain ⟨ts, vs, rfl, ht, hvs⟩ := C51_gradients h hp
  have hl : vs.length = ts.length := by rw [← ht.length_eq, ← hvs.length_eq]
  have htne : ts ≠ [] := by
    intro e
    rw [e] at ht
    exact hne (List.forall₂_nil_right_iff.mp ht)
  have hlen : ∀ v ∈ vs, 5 * g.count ≤ v.length := by
    rcases Nat.eq_zero_or_pos g.count with h0 | h0
    · intro v _
      omega
    · exact (stored_entries hvs hv h0 ts).1
  obtain ⟨h1, h2⟩ := stops_evaluate (s := ⟨ts, vs, g.count⟩) (frame := frame) hl htne hlen
  refine ⟨h1, fun i hi => ?_⟩
  obtain ⟨st, hst, er, eg, eb, ea, eo⟩ := h2 i hi
  obtain ⟨-, s0, s1, s2, s3, s4⟩ := stored_entries hvs hv hi ts
  have key : ∀ (x : Schema.Keyframe ℝ → ℝ), Shown 0 (ks.map fun k => (k.base, x k)) frame
      ((⟨ts, ks.map x⟩ : Animated ℝ ℝ).evaluateOr frame (lit 0)) := by
    intro x
    have hen : List.Forall₂ (fun (k : Schema.Keyframe ℝ) y => y = x k) ks (ks.map x) := by
      rw [List.forall₂_map_right_iff, List.forall₂_same]
      exact fun _ _ => rfl
    exact Entries.shown (π := id) (x := x) hk (fun _ _ _ _ => rfl)
      (fun k t v hr => ⟨entryFor_of_eased hr.1, hr.2⟩) (Entries.of_forall₂ ht hen) hs hne frame _
  simp only [real_lit, Rat.cast_zero, Rat.cast_one] at s0 s1 s2 s3 s4
  refine ⟨st, hst, ?_, ?_, ?_, ?_, ?_⟩
  · rw [er, s1]
    exact key _
  · rw [eg, s2]
    exact key _
  · rw [eb, s3]
    exact key _
  · intro hno
    rw [eo fun t htm => ?_, s0]
    · exact key _
    · obtain ⟨n, n2, rfl⟩ := List.getElem_of_mem htm
      have n1 : n < ks.length := by rw [ht.length_eq]; exact n2
      have := (List.forall₂_iff_get.mp ht).2 n n1 n2
      simp only [List.get_eq_getElem] at this
      cases hh : ts[n].hold with
      | false => rfl
      | true => exact absurd (this.1.2.mp hh) (hno _ (List.getElem_mem n1))
  · intro hop
    rw [ea, s4 hop]
    exact shown_const (key fun _ => 1)

/-- **C135.** What the offsets are during a hold, too: every stop has at every frame the offset that the keyframes would give it
if none of them were held. -/
theorem C135_offsets (hk : ExactSolver) {g : Schema.GradientColors ℝ} {s : ColorStops ℝ}
    (h : convGradientColors g = .ok s) {ks : List (Schema.Keyframe ℝ)}
    (hp : g.colors.animatedProperty.value = .animatedValue ks) (hs : InOrder (·.base) ks) (hne : ks ≠ [])
    (hv : ∀ k ∈ ks, 4 * g.count ≤ k.value.length) (frame : ℝ) (i : Nat) (hi : i < g.count) :
    ∃ st, (s.evaluate frame)[i]? = some st ∧
      Shown 0 (ks.map fun k => ({ k.base with hold := none }, k.value.getD (4 * i) 0)) frame st.offset := by
  obtain ⟨st, hst, -⟩ := (C135_stops_partial hk h hp hs hne hv frame).2 i hi
  refine ⟨st, hst, ?_⟩
  obtain ⟨ts, vs, rfl, ht, hvs⟩ := C51_gradients h hp
  obtain ⟨-, s0, -⟩ := stored_entries hvs hv hi (ts.map Time.unheld)
  rw [stops_offset hst, s0]
  have hen : List.Forall₂ (fun (k : Schema.Keyframe ℝ) y => y = k.value.getD (4 * i) (lit 0)) ks
      (ks.map fun k => k.value.getD (4 * i) (lit 0)) := by
    rw [List.forall₂_map_right_iff, List.forall₂_same]
    exact fun _ _ => rfl
  have ht' : List.Forall₂ (fun (k : Schema.Keyframe ℝ) t => EasedTimeOf { k.base with hold := none } t) ks
      (ts.map Time.unheld) := by
    rw [List.forall₂_map_right_iff]
    exact ht.imp fun k t ht => ⟨⟨ht.1.1, by simp [Time.unheld]⟩, ht.2⟩
  have := Entries.shown (π := id) (x := fun k : Schema.Keyframe ℝ => k.value.getD (4 * i) (lit 0))
    (base := fun k => { k.base with hold := none }) hk (fun _ _ _ _ => rfl)
    (fun k t v hr => ⟨entryFor_of_eased hr.1, hr.2⟩) (Entries.of_forall₂ ht' hen) hs hne frame (lit 0)
  simpa using this

/-- **C135.** With opacity data, whose offsets are in order at every keyframe, the opacity of every stop is played with the hold
flags and the easing handles of the keyframes from the opacities that the stop has at the keyframes; at a keyframe that is the
least of full opacity and the opacities of all ramps between consecutive opacity stops (as for static gradients, `C60_exact`). -/
theorem C135_opacity (hk : ExactSolver) {g : Schema.GradientColors ℝ} {s : ColorStops ℝ}
    (h : convGradientColors g = .ok s) {ks : List (Schema.Keyframe ℝ)}
    (hp : g.colors.animatedProperty.value = .animatedValue ks) (hs : InOrder (·.base) ks) (hne : ks ≠ [])
    (hv : ∀ k ∈ ks, 4 * g.count ≤ k.value.length)
    (hord : ∀ k ∈ ks, ∀ j o₀ a₀ o₁ a₁, OpacityStop k.value g.count j o₀ a₀ →
      OpacityStop k.value g.count (j + 1) o₁ a₁ → o₀ ≤ o₁) (frame : ℝ) :
    ∀ i < g.count, ∃ (st : ColorStop ℝ) (α : Schema.Keyframe ℝ → ℝ), (s.evaluate frame)[i]? = some st ∧
      (∀ k ∈ ks, IsLeast {y | y = 1 ∨ ∃ j o₀ a₀ o₁ a₁, OpacityStop k.value g.count j o₀ a₀ ∧
        OpacityStop k.value g.count (j + 1) o₁ a₁ ∧ y = rampOpacity o₀ a₀ o₁ a₁ (k.value.getD (4 * i) 0)} (α k)) ∧
      Shown 0 (ks.map fun k => (k.base, α k)) frame st.color.a := by
  obtain ⟨ts, vs, rfl, ht, hvs⟩ := C51_gradients h hp
  have hl : vs.length = ts.length := by rw [← ht.length_eq, ← hvs.length_eq]
  have htne : ts ≠ [] := by
    intro e
    rw [e] at ht
    exact hne (List.forall₂_nil_right_iff.mp ht)
  intro i hi
  have hlen := (stored_entries hvs hv hi ts).1
  obtain ⟨st, hst, -, -, -, ea, -⟩ := (stops_evaluate (s := ⟨ts, vs, g.count⟩) (frame := frame) hl htne hlen).2 i hi
  refine ⟨st, storedOpacity g.count i, hst, fun k hkm => ?_, ?_⟩
  · obtain ⟨r, hr, e0, -⟩ := keyframe_stop_get (0 : ℝ) (hv k hkm) hi
    have hvk := hv k hkm
    have := C60_exact hk k.value g.count (by omega) (by omega) (hord k hkm) r (List.mem_of_getElem? hr)
    rw [e0] at this
    unfold storedOpacity
    rw [hr]
    exact this
  · rw [ea, stored_opacities hvs hv hi ts]
    have hen : List.Forall₂ (fun (k : Schema.Keyframe ℝ) y => y = storedOpacity g.count i k) ks
        (ks.map (storedOpacity g.count i)) := by
      rw [List.forall₂_map_right_iff, List.forall₂_same]
      exact fun _ _ => rfl
    exact Entries.shown (π := id) (x := storedOpacity g.count i) hk (fun _ _ _ _ => rfl)
      (fun k t v hr => ⟨entryFor_of_eased hr.1, hr.2⟩) (Entries.of_forall₂ ht hen) hs hne frame _

/-- **C135.** In particular with two opacity stops, at most opaque, at every keyframe: what is played are the opacities on the
ramp between them. -/
theorem C135_ramp (hk : ExactSolver) {g : Schema.GradientColors ℝ} {s : ColorStops ℝ}
    (h : convGradientColors g = .ok s) {ks : List (Schema.Keyframe ℝ)}
    (hp : g.colors.animatedProperty.value = .animatedValue ks) (hs : InOrder (·.base) ks) (hne : ks ≠ [])
    {o₀ a₀ o₁ a₁ : Schema.Keyframe ℝ → ℝ}
    (hop : ∀ k ∈ ks, OpacityStop k.value g.count 0 (o₀ k) (a₀ k) ∧ OpacityStop k.value g.count 1 (o₁ k) (a₁ k) ∧
      k.value.length < 4 * g.count + 6 ∧ o₀ k ≤ o₁ k ∧ a₀ k ≤ 1 ∧ a₁ k ≤ 1) (frame : ℝ) :
    ∀ i < g.count, ∃ st, (s.evaluate frame)[i]? = some st ∧
      Shown 0 (ks.map fun k => (k.base, rampOpacity (o₀ k) (a₀ k) (o₁ k) (a₁ k) (k.value.getD (4 * i) 0)))
        frame st.color.a := by
  have uniq : ∀ k ∈ ks, ∀ j p a q b, OpacityStop k.value g.count j p a → OpacityStop k.value g.count (j + 1) q b →
      p = o₀ k ∧ a = a₀ k ∧ q = o₁ k ∧ b = a₁ k := by
    intro k hkm j p a q b h0 h1
    obtain ⟨e0, e1, hl, -⟩ := hop k hkm
    have := (List.getElem?_eq_some_iff.mp h1.2).1
    obtain rfl : j = 0 := by omega
    exact ⟨Option.some.inj (h0.1.symm.trans e0.1), Option.some.inj (h0.2.symm.trans e0.2),
      Option.some.inj (h1.1.symm.trans e1.1), Option.some.inj (h1.2.symm.trans e1.2)⟩
  intro i hi
  obtain ⟨st, α, hst, hα, hsh⟩ := C135_opacity hk h hp hs hne
    (fun k hkm => by have := (List.getElem?_eq_some_iff.mp (hop k hkm).1.2).1; omega)
    (fun k hkm j p a q b h0 h1 => by
      obtain ⟨rfl, -, rfl, -⟩ := uniq k hkm j p a q b h0 h1
      exact (hop k hkm).2.2.2.1) frame i hi
  refine ⟨st, hst, ?_⟩
  have : (ks.map fun k => (k.base, α k)) =
      ks.map fun k => (k.base, rampOpacity (o₀ k) (a₀ k) (o₁ k) (a₁ k) (k.value.getD (4 * i) 0)) := by
    refine List.map_congr_left fun k hkm => ?_
    obtain ⟨e0, e1, -, ho, ha, hb⟩ := hop k hkm
    have hr := rampOpacity_le_one (x := k.value.getD (4 * i) 0) ho ha hb
    congr 1
    refine le_antisymm ((hα k hkm).2 (Or.inr ⟨0, _, _, _, _, e0, e1, rfl⟩)) ?_
    rcases (hα k hkm).1 with e | ⟨j, p, a, q, b, h0, h1, e⟩
    · rw [e]; exact hr
    · obtain ⟨rfl, rfl, rfl, rfl⟩ := uniq k hkm j p a q b h0 h1
      exact e.ge
  rwa [this] at hsh

/-- The hypotheses of `C135_ramp` are met: the opacity falls off more and more. -/
example : let ks : List (Schema.Keyframe ℝ) :=
      [⟨⟨0, none, none, none⟩, [0, 1, 0, 0, 1, 0, 0, 1, 0, 1, 1, 3 / 4], none⟩,
        ⟨⟨5, some .true, none, none⟩, [0, 1, 0, 0, 1, 0, 0, 1, 0, 1, 1 / 2, 1 / 4], none⟩]
    (∃ s, convGradientColors (⟨⟨⟨none, none, none, none, .animatedValue ks⟩, none⟩, 2⟩ : Schema.GradientColors ℝ) = .ok s) ∧
    InOrder (·.base) ks ∧
    ∀ k ∈ ks, OpacityStop k.value 2 0 (k.value.getD 8 0) (k.value.getD 9 0) ∧
      OpacityStop k.value 2 1 (k.value.getD 10 0) (k.value.getD 11 0) ∧ k.value.length < 4 * 2 + 6 ∧
      k.value.getD 8 0 ≤ k.value.getD 10 0 ∧ k.value.getD 9 0 ≤ 1 ∧ k.value.getD 11 0 ≤ 1 := by
  refine ⟨⟨_, rfl⟩, by norm_num [InOrder], fun k hk => ?_⟩
  simp only [List.mem_cons, List.not_mem_nil, or_false] at hk
  rcases hk with rfl | rfl <;> refine ⟨⟨rfl, rfl⟩, ⟨rfl, rfl⟩, by simp, ?_⟩ <;> simp <;> norm_num

/-- A gradient with one white stop: held from frame 0 to frame 10, where the stop moves to the other end. -/
noncomputable def exHeldGradient : Schema.GradientColors ℝ :=
  ⟨⟨⟨none, none, none, none, .animatedValue [⟨⟨0, some .true, none, none⟩, [0, 1, 1, 1], none⟩,
    ⟨⟨10, some .true, none, none⟩, [1, 1, 1, 1], none⟩]⟩, none⟩, 1⟩

/-- **C135.** The restriction to keyframes without hold is needed for the offsets: at frame 5 of the hold the stop is half way
to its next place, where the document keeps it at 0. -/
theorem C135_counterexample (hk : ExactSolver) :
    (∃ s, convGradientColors exHeldGradient = .ok s ∧ (s.evaluate 5).map (·.offset) = [1 / 2]) ∧
    ∀ x, Shown 0 [(⟨0, some .true, none, none⟩, 0), (⟨10, some .true, none, none⟩, 1)] 5 x → x = 0 := by
  constructor
  · refine ⟨.animated exHoldStops, ?_, (C50_counterexample hk).1⟩
    show Except.ok (ColorStops.animated ⟨[⟨0, none, none, true⟩, ⟨10, none, none, true⟩],
      [[0, 1, 1, 1, lit 1], [1, 1, 1, 1, lit 1]], 1⟩) = _
    unfold exHoldStops
    simp
  · rintro x (⟨b, v, h, h1, -⟩ | ⟨b, v, h, h1, -⟩ | ⟨k, b0, v0, b1, v1, h0, h1, -, -, h2, -⟩)
    · cases h
      norm_num at h1
    · cases h
      norm_num at h1
    · match k with
      | 0 => cases h0; exact h2 rfl
      | k + 1 => cases h1

/-- The hypotheses of `C135_stops_partial` are met: two stops, three keyframes, the second one held. -/
example : let ks : List (Schema.Keyframe ℝ) :=
      [⟨⟨0, none, some ⟨.arrayOfValues [1], .singleValue 1⟩, some ⟨.singleValue 0, .arrayOfValues [1 / 2]⟩⟩,
          [0, 1, 0, 0, 1, 0, 0, 1], none⟩,
        ⟨⟨5, some .true, none, none⟩, [1 / 4, 1, 1, 0, 1, 0, 1, 1], none⟩,
        ⟨⟨9, none, none, none⟩, [1 / 2, 1, 1, 1, 1, 0, 0, 0], none⟩]
    (∃ s, convGradientColors (⟨⟨⟨none, none, none, none, .animatedValue ks⟩, none⟩, 2⟩ : Schema.GradientColors ℝ) = .ok s) ∧
    InOrder (·.base) ks ∧ (∀ k ∈ ks, 4 * 2 ≤ k.value.length) ∧ (∀ k ∈ ks, k.value.length < 4 * 2 + 4) := by
  refine ⟨⟨_, rfl⟩, by norm_num [InOrder], fun k hk => ?_, fun k hk => ?_⟩ <;>
    simp only [List.mem_cons, List.not_mem_nil, or_false] at hk <;> rcases hk with rfl | rfl | rfl <;> simp

end

end Velato
