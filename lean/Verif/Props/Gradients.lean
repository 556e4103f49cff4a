import Verif.Proofs.Gradients
import Verif.Proofs.RenderLayer
import Verif.Props.Keyframes
import Verif.Props.Easing
import Verif.Num.KernelDecide

/-!
# Gradients: import of stops (C49, C60) and hold keyframes (C50)

The numbers of a gradient in a document are `count` groups of four (offset, red, green, blue)
followed by pairs (offset, opacity).
-/

namespace Velato
open FloatOps (lit)
open Import (convStops convGradientColors)

section
variable {F : Type} [FloatOps F] [Kurbo F]

/-! ## C49 — gradient stops -/

/-- **C49.** Number of stops and their offsets and colours: the leading groups of four numbers. -/
theorem C49_stops (value : List F) (count : Nat) (hc : 1 ≤ count) :
    (convStops value count).length = min count (value.length / 4) ∧
    ∀ (i : Nat) s, (convStops value count)[i]? = some s →
      value[4 * i]? = some s.offset ∧ value[4 * i + 1]? = some s.r ∧
      value[4 * i + 2]? = some s.g ∧ value[4 * i + 3]? = some s.b := by
  refine ⟨Import.convStops_length value count hc, fun i s h => ?_⟩
  obtain ⟨⟨o, r, g, b⟩, hg, -, rfl⟩ := Import.convStops_mem hc h
  exact Import.chunks4_get value i o r g b hg

/-- **C49.** Without opacity data (fewer than two pairs after the colours) every stop is opaque. -/
theorem C49_opaque (value : List F) (count : Nat) (hc : 1 ≤ count)
    (hl : value.length < 4 * count + 4) (s : Import.RawStop F) (hs : s ∈ convStops value count) :
    s.a = lit 1 := by
  obtain ⟨i, h⟩ := List.mem_iff_getElem?.mp hs
  obtain ⟨c, hg, -, rfl⟩ := Import.convStops_mem hc h
  show (if _ then _ else _) = _
  split
  · exact Import.alphaLoop_short _ _ _ (by rw [List.length_drop, Import.chunks2_length]; omega)
  · rfl

/-- **C49.** Whatever the data (NaN included), no stop is more than opaque. -/
theorem C49_at_most_opaque [LawfulCmp F] (value : List F) (count : Nat) (hc : 1 ≤ count)
    (s : Import.RawStop F) (hs : s ∈ convStops value count) : (s.a <=. lit 1) = true := by
  obtain ⟨i, h⟩ := List.mem_iff_getElem?.mp hs
  obtain ⟨c, hg, -, rfl⟩ := Import.convStops_mem hc h
  show ((if _ then _ else _) <=. _) = true
  split
  · exact Import.alphaLoop_le _ _ _ _ _ one_le_one
  · exact one_le_one

/-- **C49.** A static gradient is imported as exactly these stops, in single precision. -/
theorem C49_static (g : Schema.GradientColors F) (value : List F)
    (hv : g.colors.animatedProperty.value = .static value) :
    ∃ stops, convGradientColors g = .ok (.fixed stops) ∧
      List.Forall₂ (fun s (c : ColorStop F) =>
        c.offset = FloatOps.toF32 s.offset ∧ c.color.r = FloatOps.toF32 s.r ∧
        c.color.g = FloatOps.toF32 s.g ∧ c.color.b = FloatOps.toF32 s.b ∧
        c.color.a = FloatOps.toF32 s.a) (convStops value g.count) stops := by
  refine ⟨(convStops value g.count).map Import.RawStop.toColorStop, ?_, ?_⟩
  · unfold convGradientColors; rw [hv]
  · exact List.forall₂_map_right_iff.mpr
      (List.forall₂_same.mpr fun _ _ => ⟨rfl, rfl, rfl, rfl, rfl⟩)

end

/-- **C49.** With all opacities in `[0, 1]`, so is the opacity of every stop (exact arithmetic). -/
theorem C49_range [Kurbo ℝ] (hk : ExactSolver) (value : List ℝ) (count : Nat) (hc : 1 ≤ count)
    (hv : ∀ (j : Nat) x, value[4 * count + 2 * j + 1]? = some x → 0 ≤ x ∧ x ≤ 1)
    (s : Import.RawStop ℝ) (hs : s ∈ convStops value count) : 0 ≤ s.a ∧ s.a ≤ 1 := by
  refine ⟨?_, by simpa using C49_at_most_opaque value count hc s hs⟩
  obtain ⟨i, h⟩ := List.mem_iff_getElem?.mp hs
  obtain ⟨c, hg, -, rfl⟩ := Import.convStops_mem hc h
  show (0 : ℝ) ≤ if _ then _ else _
  split
  · refine Import.alphaLoop_nonneg hk _ _ _ _ (by simp) ?_ (fun p hp => nomatch hp)
    intro p hp
    obtain ⟨j, hj⟩ := List.mem_iff_getElem?.mp hp
    rw [List.getElem?_drop] at hj
    have := (Import.chunks2_get value _ p.1 p.2 hj).2
    rw [show 2 * (count * 2 + j) + 1 = 4 * count + 2 * j + 1 by omega] at this
    exact hv j p.2 this
  · simp

/-- Three numbers too many for two stops, in double precision and with any solver. -/
example [Kurbo F64] : (convStops ([0, 1, 0, 0, 1, 0, 1, 0, 5, 6, 7].map lit : List F64) 2).map
    (fun s => (s.offset, s.g, s.a)) = [(lit 0, lit 0, lit 1), (lit 1, lit 1, lit 1)] := by
  kernel_decide

/-- Opacity data that meets the hypothesis of `C49_range`. -/
example : ∀ (j : Nat) x, ([0, 1, 0, 0, 1, 0, 1, 0, 0, 1, 1, 1 / 2] : List ℝ)[4 * 2 + 2 * j + 1]?
    = some x → 0 ≤ x ∧ x ≤ 1 := by
  intro j x h
  match j with
  | 0 => cases h; norm_num
  | 1 => cases h; norm_num
  | j + 2 =>
    have := (List.getElem?_eq_some_iff.mp h).1
    simp only [List.length_cons, List.length_nil] at this
    omega

/-! ## C60 — opacity ramps -/

/-- The opacity data `(offset, opacity)` of `value` for `count` colour stops. -/
def OpacityStop {F : Type} (value : List F) (count j : Nat) (o a : F) : Prop :=
  value[4 * count + 2 * j]? = some o ∧ value[4 * count + 2 * j + 1]? = some a

theorem OpacityStop.chunk {F : Type} {value : List F} {count j : Nat} {o a : F}
    (h : OpacityStop value count j o a) :
    ((Import.chunks2 value).drop (count * 2))[j]? = some (o, a) := by
  have hl := (List.getElem?_eq_some_iff.mp h.2).1
  rw [List.getElem?_drop]
  have hlen : count * 2 + j < (Import.chunks2 value).length := by
    rw [Import.chunks2_length]; omega
  obtain ⟨o', a'⟩ : F × F := (Import.chunks2 value)[count * 2 + j]
  have hg := List.getElem?_eq_getElem hlen
  obtain ⟨h1, h2⟩ := Import.chunks2_get value _ _ _ hg
  rw [show 2 * (count * 2 + j) = 4 * count + 2 * j by omega] at h1 h2
  rw [h.1] at h1
  rw [h.2] at h2
  rw [hg]
  congr 1
  exact Prod.ext (Option.some.inj h1).symm (Option.some.inj h2).symm

theorem OpacityStop.of_chunk {F : Type} {value : List F} {count j : Nat} {p : F × F}
    (h : ((Import.chunks2 value).drop (count * 2))[j]? = some p) :
    OpacityStop value count j p.1 p.2 := by
  rw [List.getElem?_drop] at h
  obtain ⟨h1, h2⟩ := Import.chunks2_get value _ p.1 p.2 h
  rw [show 2 * (count * 2 + j) = 4 * count + 2 * j by omega] at h1 h2
  exact ⟨h1, h2⟩

/-- **C60.** The claim is false: with opacity 1 at offset 0, 0 at 1/2 and 1 at 1, the colour stops
at 0 and at 1 are imported fully transparent instead of opaque (in double precision, whatever
the cubic solver). -/
theorem C60_counterexample [Kurbo F64] :
    OpacityStop ([0, 1, 0, 0, 1, 0, 1, 0, 0, 1, 1 / 2, 0, 1, 1].map lit : List F64) 2 0
      (lit 0) (lit 1) ∧
    OpacityStop ([0, 1, 0, 0, 1, 0, 1, 0, 0, 1, 1 / 2, 0, 1, 1].map lit : List F64) 2 2
      (lit 1) (lit 1) ∧
    (convStops ([0, 1, 0, 0, 1, 0, 1, 0, 0, 1, 1 / 2, 0, 1, 1].map lit : List F64) 2).map
      (fun s => (s.offset, s.a)) = [(lit 0, lit 0), (lit 1, lit 0)] := by
  refine ⟨⟨by decide +kernel, by decide +kernel⟩, ⟨by decide +kernel, by decide +kernel⟩, ?_⟩
  kernel_decide

/-- **C60.** What happens instead, for all opacity data with increasing offsets: every colour stop
is at most as opaque as *every* opacity stop strictly between the first and the last, wherever the
colour stop is. -/
theorem C60_interior [Kurbo ℝ] (value : List ℝ) (count : Nat) (hc : 1 ≤ count)
    (hl : count ≤ value.length / 4) (j : Nat) (o₀ a₀ o₁ a₁ o₂ a₂ : ℝ)
    (h₀ : OpacityStop value count j o₀ a₀) (h₁ : OpacityStop value count (j + 1) o₁ a₁)
    (h₂ : OpacityStop value count (j + 2) o₂ a₂) (h01 : o₀ < o₁) (h12 : o₁ < o₂)
    (s : Import.RawStop ℝ) (hs : s ∈ convStops value count) : s.a ≤ a₁ := by
  obtain ⟨i, h⟩ := List.mem_iff_getElem?.mp hs
  obtain ⟨c, hg, -, rfl⟩ := Import.convStops_mem hc h
  show (if _ then _ else _) ≤ _
  rw [if_pos (by rw [Import.chunks4_length]; exact hl)]
  rcases le_total o₁ c.1 with hx | hx
  · have := Import.alphaLoop_le_pair c.1 _ none (lit 1) j _ _ h₀.chunk h₁.chunk
    rwa [Import.alphaBetween_after _ _ _ h01 hx] at this
  · have := Import.alphaLoop_le_pair c.1 _ none (lit 1) (j + 1) _ _ h₁.chunk h₂.chunk
    rwa [Import.alphaBetween_before _ _ _ h12 hx] at this

/-- **C60.** Proved part: with exactly two opacity stops `o₀ < o₁`, a colour stop at or before `o₀`
has the first opacity and one at or after `o₁` the second (opacities at most 1).  Missing, and
false: three or more opacity stops. -/
theorem C60_two_partial [Kurbo ℝ] (value : List ℝ) (count : Nat) (hc : 1 ≤ count)
    (o₀ a₀ o₁ a₁ : ℝ) (h₀ : OpacityStop value count 0 o₀ a₀) (h₁ : OpacityStop value count 1 o₁ a₁)
    (hl : value.length < 4 * count + 6) (h01 : o₀ < o₁) (ha₀ : a₀ ≤ 1) (ha₁ : a₁ ≤ 1)
    (s : Import.RawStop ℝ) (hs : s ∈ convStops value count) :
    (s.offset ≤ o₀ → s.a = a₀) ∧ (o₁ ≤ s.offset → s.a = a₁) := by
  obtain ⟨i, h⟩ := List.mem_iff_getElem?.mp hs
  obtain ⟨c, hg, -, rfl⟩ := Import.convStops_mem hc h
  have hle : count ≤ (Import.chunks4 value).length := by
    have := (List.getElem?_eq_some_iff.mp h₁.2).1
    rw [Import.chunks4_length]; omega
  have hd : (Import.chunks2 value).drop (count * 2) = [(o₀, a₀), (o₁, a₁)] := by
    have hlen : ((Import.chunks2 value).drop (count * 2)).length = 2 := by
      have := (List.getElem?_eq_some_iff.mp h₁.2).1
      rw [List.length_drop, Import.chunks2_length]; omega
    have e0 := h₀.chunk
    have e1 := h₁.chunk
    match (Import.chunks2 value).drop (count * 2), hlen, e0, e1 with
    | [p, q], _, e0, e1 => cases e0; cases e1; rfl
  have ha : (if count ≤ (Import.chunks4 value).length then
      Import.alphaLoop c.1 ((Import.chunks2 value).drop (count * 2)) none (lit 1) else lit 1)
      = min 1 (Import.alphaBetween c.1 (o₀, a₀) (o₁, a₁)) := by
    rw [if_pos hle, hd]
    show fmin _ _ = _
    rw [Import.fmin_real]; simp
  constructor
  · intro hx
    show (if _ then _ else _) = _
    rw [ha, Import.alphaBetween_before _ _ _ h01 hx]
    exact min_eq_right ha₀
  · intro hx
    show (if _ then _ else _) = _
    rw [ha, Import.alphaBetween_after _ _ _ h01 hx]
    exact min_eq_right ha₁

/-- **C60.** Exactly which opacity a colour stop gets, for any number of opacity stops in order: the
least of full opacity and the opacities of *all* ramps between consecutive opacity stops, each
continued as a constant on both sides (exact cubic solver). -/
theorem C60_exact [Kurbo ℝ] (hk : ExactSolver) (value : List ℝ) (count : Nat) (hc : 1 ≤ count)
    (hl : count ≤ value.length / 4)
    (hord : ∀ j o₀ a₀ o₁ a₁, OpacityStop value count j o₀ a₀ →
      OpacityStop value count (j + 1) o₁ a₁ → o₀ ≤ o₁)
    (s : Import.RawStop ℝ) (hs : s ∈ convStops value count) :
    IsLeast {y | y = 1 ∨ ∃ j o₀ a₀ o₁ a₁, OpacityStop value count j o₀ a₀ ∧
      OpacityStop value count (j + 1) o₁ a₁ ∧ y = rampOpacity o₀ a₀ o₁ a₁ s.offset} s.a := by
  obtain ⟨i, h⟩ := List.mem_iff_getElem?.mp hs
  obtain ⟨c, hg, -, rfl⟩ := Import.convStops_mem hc h
  have ha : (if count ≤ (Import.chunks4 value).length then
      Import.alphaLoop c.1 ((Import.chunks2 value).drop (count * 2)) none (lit 1) else lit 1)
      = Import.alphaLoop c.1 ((Import.chunks2 value).drop (count * 2)) none 1 := by
    rw [if_pos (by rw [Import.chunks4_length]; exact hl)]; simp
  have key : IsLeast {y | y = 1 ∨ ∃ j o₀ a₀ o₁ a₁, OpacityStop value count j o₀ a₀ ∧
      OpacityStop value count (j + 1) o₁ a₁ ∧ y = rampOpacity o₀ a₀ o₁ a₁ c.1}
      (Import.alphaLoop c.1 ((Import.chunks2 value).drop (count * 2)) none 1) := by
    constructor
    · rcases Import.alphaLoop_attained c.1 ((Import.chunks2 value).drop (count * 2)) none 1 with
        h | ⟨_, _, h, -⟩ | ⟨j, pa, pb, h0, h1, h2⟩
      · exact Or.inl h
      · cases h
      · have e0 := OpacityStop.of_chunk h0
        have e1 := OpacityStop.of_chunk h1
        refine Or.inr ⟨j, _, _, _, _, e0, e1, ?_⟩
        rw [h2, Import.alphaBetween_ramp hk _ _ _ (hord _ _ _ _ _ e0 e1)]
    · rintro y (rfl | ⟨j, o₀, a₀, o₁, a₁, e0, e1, rfl⟩)
      · exact Import.alphaLoop_le_acc _ _ _ _
      · have := Import.alphaLoop_le_pair c.1 _ none 1 j _ _ e0.chunk e1.chunk
        rwa [Import.alphaBetween_ramp hk c.1 (o₀, a₀) (o₁, a₁) (hord _ _ _ _ _ e0 e1)] at this
  rw [← ha] at key
  exact key

/-- The hypothesis of `C60_exact` is met by the dip of the counterexample. -/
example : ∀ j o₀ a₀ o₁ a₁,
    OpacityStop ([0, 1, 0, 0, 1, 0, 1, 0, 0, 1, 1 / 2, 0, 1, 1] : List ℝ) 2 j o₀ a₀ →
    OpacityStop ([0, 1, 0, 0, 1, 0, 1, 0, 0, 1, 1 / 2, 0, 1, 1] : List ℝ) 2 (j + 1) o₁ a₁ →
    o₀ ≤ o₁ := by
  intro j o₀ a₀ o₁ a₁ h0 h1
  match j with
  | 0 => cases h0.1; cases h1.1; norm_num
  | 1 => cases h0.1; cases h1.1; norm_num
  | j + 2 =>
    have := (List.getElem?_eq_some_iff.mp h1.1).1
    simp only [List.length_cons, List.length_nil] at this
    omega

/-- In the middle of a gradient whose opacity falls from 1 to 0 a colour is half opaque; close to
the start it is still opaque. -/
example : rampOpacity 0 1 1 0 (1 / 2) = 1 / 2 ∧ rampOpacity 0 1 1 0 (1 / 16) = 1 := by
  unfold rampOpacity; constructor <;> norm_num

/-- The hypotheses of `C60_two_partial` are met: opacity from 1 to 1/2. -/
example : OpacityStop ([0, 1, 0, 0, 1, 0, 1, 0, 0, 1, 1, 1 / 2] : List ℝ) 2 0 0 1 ∧
    OpacityStop ([0, 1, 0, 0, 1, 0, 1, 0, 0, 1, 1, 1 / 2] : List ℝ) 2 1 1 (1 / 2) ∧
    ([0, 1, 0, 0, 1, 0, 1, 0, 0, 1, 1, 1 / 2] : List ℝ).length < 4 * 2 + 6 :=
  ⟨⟨rfl, rfl⟩, ⟨rfl, rfl⟩, by decide⟩

/-- The hypotheses of `C60_interior` are met: the dip of the counterexample. -/
example : OpacityStop ([0, 1, 0, 0, 1, 0, 1, 0, 0, 1, 1 / 2, 0, 1, 1] : List ℝ) 2 1 (1 / 2) 0 :=
  ⟨rfl, rfl⟩

/-! ## C50 — hold keyframes hold gradients -/

section
variable {F : Type} [FloatOps F] [Kurbo F]

/-- **C50.** Proved part: during a hold keyframe the number of stops and their colours are those of
the keyframe.  Missing: the offsets, which the code moves towards the next keyframe
(`C50_counterexample`). -/
theorem C50_colours_partial [LawfulCmp F] (s : AnimColorStops F) (frame : F)
    (hs : SortedTimes s.frames) (k : Nat) (t0 t1 : Time F) (v0 v1 : List F)
    (h0 : s.frames[k]? = some t0) (h1 : s.frames[k + 1]? = some t1)
    (hv0 : s.values[k]? = some v0) (hv1 : s.values[k + 1]? = some v1)
    (hl0 : 5 * s.count ≤ v0.length) (hl1 : 5 * s.count ≤ v1.length)
    (hle : (t0.frame <=. frame) = true) (hlt : (frame <. t1.frame) = true)
    (hold : t0.hold = true) :
    ((ColorStops.animated s).evaluate frame).length = s.count ∧
    ∀ (i : Nat) st, ((ColorStops.animated s).evaluate frame)[i]? = some st →
      v0[5 * i + 1]?.map FloatOps.toF32 = some st.color.r ∧
      v0[5 * i + 2]?.map FloatOps.toF32 = some st.color.g ∧
      v0[5 * i + 3]?.map FloatOps.toF32 = some st.color.b ∧
      v0[5 * i + 4]?.map FloatOps.toF32 = some st.color.a ∧
      ∃ o0 o1, v0[5 * i]? = some o0 ∧ v1[5 * i]? = some o1 ∧
        st.offset = FloatOps.toF32 (tweenScalar o0 o1
          (clamp ((frame -. t0.frame) /. (t1.frame -. t0.frame)) (lit 0) (lit 1)) t0.easing) := by
  have hse := search_in hs frame k t0 t1 h0 h1 hle hlt
  have hk1 := (List.getElem?_eq_some_iff.mp h1).1
  have e0 : min (Time.search s.frames frame) (s.frames.length - 1) = k := by omega
  have e1 : min (k + 1) (s.frames.length - 1) = k + 1 := by omega
  have hw := framesAndWeight_eq s.frames frame t0 t1 (by rw [e0]; exact h0)
    (by rw [e0, e1]; exact h1)
  rw [e0, e1] at hw
  set w := clamp ((frame -. t0.frame) /. (t1.frame -. t0.frame)) (lit 0 : F) (lit 1) with hwdef
  have hstop : ∀ i < s.count, ∃ st, AnimColorStops.stop v0 v1 w (lit 0) t0.easing i = some st ∧
      v0[5 * i + 1]?.map FloatOps.toF32 = some st.color.r ∧
      v0[5 * i + 2]?.map FloatOps.toF32 = some st.color.g ∧
      v0[5 * i + 3]?.map FloatOps.toF32 = some st.color.b ∧
      v0[5 * i + 4]?.map FloatOps.toF32 = some st.color.a ∧
      ∃ o0 o1, v0[5 * i]? = some o0 ∧ v1[5 * i]? = some o1 ∧
        st.offset = FloatOps.toF32 (tweenScalar o0 o1 w t0.easing) := by
    intro i hi
    have hget : ∀ (v : List F), 5 * s.count ≤ v.length → ∀ d < 5, ∃ x, v[5 * i + d]? = some x :=
      fun v hv d hd => ⟨_, List.getElem?_eq_getElem (by omega)⟩
    obtain ⟨a0, ha0⟩ := hget v0 hl0 0 (by omega)
    obtain ⟨a1, ha1⟩ := hget v0 hl0 1 (by omega)
    obtain ⟨a2, ha2⟩ := hget v0 hl0 2 (by omega)
    obtain ⟨a3, ha3⟩ := hget v0 hl0 3 (by omega)
    obtain ⟨a4, ha4⟩ := hget v0 hl0 4 (by omega)
    obtain ⟨b0, hb0⟩ := hget v1 hl1 0 (by omega)
    obtain ⟨b1, hb1⟩ := hget v1 hl1 1 (by omega)
    obtain ⟨b2, hb2⟩ := hget v1 hl1 2 (by omega)
    obtain ⟨b3, hb3⟩ := hget v1 hl1 3 (by omega)
    obtain ⟨b4, hb4⟩ := hget v1 hl1 4 (by omega)
    rw [Nat.add_zero] at ha0 hb0
    refine ⟨⟨FloatOps.toF32 (tweenScalar a0 b0 w t0.easing),
      ⟨FloatOps.toF32 (tweenScalar a1 b1 (lit 0) t0.easing),
        FloatOps.toF32 (tweenScalar a2 b2 (lit 0) t0.easing),
        FloatOps.toF32 (tweenScalar a3 b3 (lit 0) t0.easing),
        FloatOps.toF32 (tweenScalar a4 b4 (lit 0) t0.easing)⟩⟩, ?_, ?_⟩
    · unfold AnimColorStops.stop
      dsimp only
      rw [Nat.mul_comm i 5, ha0, ha1, ha2, ha3, ha4, hb0, hb1, hb2, hb3, hb4]
      rfl
    · simp only [ha0, ha1, ha2, ha3, ha4, hb0, tweenScalar_zero]
      exact ⟨rfl, rfl, rfl, rfl, a0, b0, rfl, rfl, rfl⟩
  have hev : s.evaluateInner frame
      = (List.range s.count).mapM fun i => AnimColorStops.stop v0 v1 w (lit 0) t0.easing i := by
    unfold AnimColorStops.evaluateInner
    rw [hw]
    simp only [Option.bind_eq_bind, Option.bind_some, hv0, hv1, hold, if_true]
  have key : ∀ n ≤ s.count, ∃ sts, (List.range n).mapM
      (fun i => AnimColorStops.stop v0 v1 w (lit 0) t0.easing i) = some sts ∧ sts.length = n ∧
      ∀ (i : Nat) st, sts[i]? = some st →
        AnimColorStops.stop v0 v1 w (lit 0) t0.easing i = some st := by
    intro n hn
    induction n with
    | zero => exact ⟨[], rfl, rfl, fun i st h => nomatch h⟩
    | succ n ih =>
      obtain ⟨sts, hm, hlen, hg⟩ := ih (by omega)
      obtain ⟨st, hst, -⟩ := hstop n (by omega)
      refine ⟨sts ++ [st], ?_, by simp [hlen], fun i st' h => ?_⟩
      · rw [List.range_succ, List.mapM_append, hm]
        simp [hst]
      · rcases Nat.lt_or_ge i sts.length with hi | hi
        · rw [List.getElem?_append_left hi] at h; exact hg i st' h
        · rw [List.getElem?_append_right hi] at h
          have : i = n := by
            have := (List.getElem?_eq_some_iff.mp h).1
            simp at this; omega
          subst this
          rw [hlen, Nat.sub_self] at h
          cases h
          exact hst
  obtain ⟨sts, hm, hlen, hg⟩ := key s.count (le_refl _)
  have hres : (ColorStops.animated s).evaluate frame = sts := by
    show (s.evaluateInner frame).getD [] = sts
    rw [hev, hm]; rfl
  rw [hres]
  refine ⟨hlen, fun i st h => ?_⟩
  have hi := (List.getElem?_eq_some_iff.mp h).1
  obtain ⟨st', h1, h2⟩ := hstop i (by omega)
  rw [hg i st h] at h1
  cases h1
  exact h2

end

/-- A gradient whose two keyframes hold, with the same colours and different offsets. -/
noncomputable def exHoldStops : AnimColorStops ℝ :=
  ⟨[⟨0, none, none, true⟩, ⟨10, none, none, true⟩],
    [[0, 1, 1, 1, 1], [1, 1, 1, 1, 1]], 1⟩

/-- **C50.** The claim is false: at frame 5 of the hold from 0 to 10, the stop of the first keyframe
(offset 0) is at offset 1/2, halfway to the next keyframe. -/
theorem C50_counterexample [Kurbo ℝ] (hk : ExactSolver) :
    ((ColorStops.animated exHoldStops).evaluate 5).map (·.offset) = [1 / 2] ∧
    ((ColorStops.animated exHoldStops).evaluate 0).map (·.offset) = [0] := by
  have key : ∀ frame : ℝ, 0 ≤ frame → frame < 10 →
      ((ColorStops.animated exHoldStops).evaluate frame).map (·.offset) = [frame / 10] := by
    intro frame hf0 hf1
    obtain ⟨hlen, hst⟩ := C50_colours_partial exHoldStops frame
      (by simp [SortedTimes, exHoldStops]) 0 ⟨0, none, none, true⟩ ⟨10, none, none, true⟩
      [0, 1, 1, 1, 1] [1, 1, 1, 1, 1] rfl rfl rfl rfl (by simp [exHoldStops])
      (by simp [exHoldStops]) (by simpa using hf0) (by simpa using hf1) rfl
    match h : (ColorStops.animated exHoldStops).evaluate frame, hlen with
    | [st], _ =>
      obtain ⟨-, -, -, -, o0, o1, h0, h1, ho⟩ := hst 0 st (by rw [h]; rfl)
      cases h0
      cases h1
      have e : (Time.easing ⟨0, none, none, true⟩ : Easing ℝ) = Easing.lerp := rfl
      have hw : clamp ((frame -. (0 : ℝ)) /. ((10 : ℝ) -. 0)) (lit 0) (lit 1) = frame / 10 := by
        unfold clamp
        simp only [real_sub, real_div, real_lit, real_lt, Rat.cast_zero, Rat.cast_one, sub_zero,
          decide_eq_true_eq]
        have h1 : ¬ frame / 10 < 0 := by linarith
        have h2 : ¬ 1 < frame / 10 := by linarith
        simp only [h1, h2, if_false]
      rw [e, hw, C07_linear hk 0 1 _ (by linarith) (by linarith)] at ho
      simp only [List.map_cons, List.map_nil, ho, real_toF32]
      ring_nf
  refine ⟨?_, ?_⟩
  · rw [key 5 (by norm_num) (by norm_num)]; norm_num
  · rw [key 0 (by norm_num) (by norm_num)]; norm_num

/-- **C50.** Proved part: if the next keyframe has the same offsets, the whole gradient is held
(exact arithmetic). -/
theorem C50_same_offsets_partial [Kurbo ℝ] (s : AnimColorStops ℝ) (frame : ℝ)
    (hs : SortedTimes s.frames) (k : Nat) (t0 t1 : Time ℝ) (v0 v1 : List ℝ)
    (h0 : s.frames[k]? = some t0) (h1 : s.frames[k + 1]? = some t1)
    (hv0 : s.values[k]? = some v0) (hv1 : s.values[k + 1]? = some v1)
    (hl0 : 5 * s.count ≤ v0.length) (hl1 : 5 * s.count ≤ v1.length)
    (hle : t0.frame ≤ frame) (hlt : frame < t1.frame) (hold : t0.hold = true)
    (ho : ∀ i < s.count, v0[5 * i]? = v1[5 * i]?) :
    (ColorStops.animated s).evaluate frame = (ColorStops.animated s).evaluate t0.frame := by
  have A := C50_colours_partial s frame hs k t0 t1 v0 v1 h0 h1 hv0 hv1 hl0 hl1
    (by simpa using hle) (by simpa using hlt) hold
  have B := C50_colours_partial s t0.frame hs k t0 t1 v0 v1 h0 h1 hv0 hv1 hl0 hl1
    (by simp) (by simpa using hle.trans_lt hlt) hold
  apply List.ext_getElem?
  intro i
  by_cases hi : i < s.count
  · have ga := List.getElem?_eq_getElem (l := (ColorStops.animated s).evaluate frame) (i := i)
      (by rw [A.1]; exact hi)
    have gb := List.getElem?_eq_getElem (l := (ColorStops.animated s).evaluate t0.frame) (i := i)
      (by rw [B.1]; exact hi)
    obtain ⟨a1, a2, a3, a4, o0, o1, a5, a6, a7⟩ := A.2 i _ ga
    obtain ⟨b1, b2, b3, b4, p0, p1, b5, b6, b7⟩ := B.2 i _ gb
    rw [ga, gb]
    congr 1
    rw [a1] at b1
    rw [a2] at b2
    rw [a3] at b3
    rw [a4] at b4
    have e := ho i hi
    rw [a5, a6] at e
    rw [b5] at a5
    rw [b6] at a6
    cases a5
    cases a6
    cases e
    rw [tween_progress, sub_self, zero_mul, add_zero] at a7 b7
    generalize ((ColorStops.animated s).evaluate frame)[i] = x at *
    generalize ((ColorStops.animated s).evaluate t0.frame)[i] = y at *
    obtain ⟨xo, ⟨xr, xg, xb, xa⟩⟩ := x
    obtain ⟨yo, ⟨yr, yg, yb, ya⟩⟩ := y
    cases b1
    cases b2
    cases b3
    cases b4
    dsimp only at a7 b7
    rw [a7, b7]
  · rw [List.getElem?_eq_none (by rw [A.1]; omega), List.getElem?_eq_none (by rw [B.1]; omega)]

/-- The hypotheses are met: the example above with equal offsets. -/
example : SortedTimes exHoldStops.frames ∧ 5 * exHoldStops.count ≤ [(0 : ℝ), 1, 1, 1, 1].length ∧
    ∀ i < exHoldStops.count, [(0 : ℝ), 1, 1, 1, 1][5 * i]? = [(0 : ℝ), 0, 0, 0, 0][5 * i]? := by
  refine ⟨by simp [SortedTimes, exHoldStops], by simp [exHoldStops], fun i hi => ?_⟩
  have : i = 0 := by simp [exHoldStops] at hi; exact hi
  subst this; rfl

end Velato
