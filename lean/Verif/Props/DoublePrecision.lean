import Verif.Proofs.DoublePrecision

/-!
# C114 — animated values stay in range in double precision
-/

set_option exponentiation.threshold 2000

namespace Velato
open FloatOps (lit)
open F64
open Import (convScalar convMultiP2 convPosPoint convColor)

/-- The usual ease in and out. -/
def exEased64 (t v : F64) : Schema.Keyframe F64 :=
  ⟨⟨t, none, some ⟨.arrayOfValues [lit (2 / 3)], .arrayOfValues [lit 1]⟩,
    some ⟨.arrayOfValues [lit (1 / 3)], .singleValue (lit 0)⟩⟩, [v], none⟩

theorem exEased64_unit (t v : F64) : (exEased64 t v).base.HandlesInUnitSquare := by
  rintro h (hh | hh) <;> cases hh <;>
    simp only [Schema.KeyframeComponent.numbers, List.mem_singleton, forall_eq] <;>
    exact ⟨by simpa using lit_between (n := 1) (by norm_num) (by norm_num),
      by simpa using lit_between (n := 1) (by norm_num) (by norm_num)⟩

/-- An opacity that goes up to 100 and back. -/
def exPulse : Schema.FloatValue F64 :=
  ⟨none, none, none, none, .animatedValue
    [exEased64 (lit 0) (lit 0), exEased64 (lit 30) (lit 100), exEased64 (lit 30) (lit 0)]⟩

section
variable [Kurbo F64]

/-- **C114.** In double precision, whatever roots the cubic solver reports, whatever the order of
the keyframes and at every frame, NaN and infinities included: an animated number with handles in
the unit square is finite and leaves the range of its values by no more than `overshoot`. -/
theorem C114_numbers (a : Animated F64 F64) {lo hi M : ℝ} (hne : a.times ≠ [])
    (hlen : a.times.length ≤ a.values.length) (hh : ∀ t ∈ a.times, t.HandlesInUnitSquare)
    (hv : ∀ v ∈ a.values, v.Between lo hi) (hlo : |lo| ≤ M) (hhi : |hi| ≤ M) (hM : M ≤ 2 ^ 1000)
    (frame d : F64) :
    (a.evaluateOr frame d).Between (lo - overshoot lo hi M) (hi + overshoot lo hi M) :=
  evaluateOr_mix hne hlen hh hv
    (fun _ _ t _ hv hw he => tweenScalar_overshoot t he hv hw hlo hhi hM) frame d

/-- **C114.** An imported scalar property (opacity, rotation, width, …), static or animated, with
values from `lo` to `hi`. -/
theorem C114_scalars {p : Schema.FloatValue F64} {v : Value F64 F64} (h : convScalar p = .ok v)
    {lo hi M : ℝ} (hp : ScalarWithin lo hi p)
    (hlo : |lo| ≤ M) (hhi : |hi| ≤ M) (hM : M ≤ 2 ^ 1000) (frame d : F64) :
    (v.evaluateOr frame d).Between (lo - overshoot lo hi M) (hi + overshoot lo hi M) := by
  have hc := C51_scalars h
  unfold ScalarWithin at hp
  cases hv : p.value with
  | static x =>
    rw [hv] at hc hp
    simp only at hc hp
    subst hc
    exact between_overshoot hp hlo
  | animatedValue ks =>
    rw [hv] at hc hp
    obtain ⟨ts, vs, rfl, ht, hx⟩ := hc
    obtain ⟨hne, hk⟩ := hp
    refine C114_numbers ⟨ts, vs⟩ ?_ ?_ ?_ ?_ hlo hhi hM frame d
    · rintro rfl; exact hne (List.forall₂_nil_right_iff.mp ht)
    · simp only; rw [← ht.length_eq, ← hx.length_eq]
    · intro t htm
      obtain ⟨k, hkm, hkt⟩ := forall₂_mem_right ht htm
      exact hkt.unit (hk k hkm).1
    · intro x hxm
      obtain ⟨k, hkm, hkx⟩ := forall₂_mem_right hx hxm
      exact (hk k hkm).2 x hkx

/-- **C114.** An imported point, size or scale, coordinate by coordinate. -/
theorem C114_vectors {p : Schema.MultiDimensional F64} {xlo xhi ylo yhi M : ℝ}
    (hp : VectorWithin xlo xhi ylo yhi p)
    (h1 : |xlo| ≤ M) (h2 : |xhi| ≤ M) (h3 : |ylo| ≤ M) (h4 : |yhi| ≤ M) (hM : M ≤ 2 ^ 1000)
    (frame : F64) (d : P2 F64) :
    ((convMultiP2 p).evaluateOr frame d).x.Between (xlo - overshoot xlo xhi M)
      (xhi + overshoot xlo xhi M) ∧
    ((convMultiP2 p).evaluateOr frame d).y.Between (ylo - overshoot ylo yhi M)
      (yhi + overshoot ylo yhi M) := by
  have hc := C51_vectors p
  unfold VectorWithin at hp
  cases hv : p.animatedProperty.value with
  | static xs =>
    rw [hv] at hc hp
    obtain ⟨v, hv, ho⟩ := hc
    rw [hv]
    exact ⟨between_overshoot (hp.point ho).1 h1, between_overshoot (hp.point ho).2 h3⟩
  | animatedValue ks =>
    rw [hv] at hc hp
    obtain ⟨ts, vs, hv, hf⟩ := hc
    rw [hv]
    exact vectors_between hf hp.1 (fun k hk => (hp.2 k hk).1) (fun k hk => (hp.2 k hk).2)
      h1 h2 h3 h4 hM frame d

/-- **C114.** The same for positions. -/
theorem C114_positions {p : Schema.Position F64} {xlo xhi ylo yhi M : ℝ}
    (hp : PositionWithin xlo xhi ylo yhi p)
    (h1 : |xlo| ≤ M) (h2 : |xhi| ≤ M) (h3 : |ylo| ≤ M) (h4 : |yhi| ≤ M) (hM : M ≤ 2 ^ 1000)
    (frame : F64) (d : P2 F64) :
    ((convPosPoint p).evaluateOr frame d).x.Between (xlo - overshoot xlo xhi M)
      (xhi + overshoot xlo xhi M) ∧
    ((convPosPoint p).evaluateOr frame d).y.Between (ylo - overshoot ylo yhi M)
      (yhi + overshoot ylo yhi M) := by
  have hc := C51_positions p
  unfold PositionWithin at hp
  cases hv : p.value with
  | static xs =>
    rw [hv] at hc hp
    obtain ⟨v, hv, ho⟩ := hc
    rw [hv]
    exact ⟨between_overshoot (hp.point ho).1 h1, between_overshoot (hp.point ho).2 h3⟩
  | animated ks =>
    rw [hv] at hc hp
    obtain ⟨ts, vs, hv, hf⟩ := hc
    rw [hv]
    exact vectors_between hf hp.1 (fun k hk => (hp.2 k hk).1) (fun k hk => (hp.2 k hk).2)
      h1 h2 h3 h4 hM frame d

/-- **C114.** The channels of an imported colour with numbers from 0 to 1 are never above 1, and
below 0 by at most 2e-10; its alpha is exactly 1. -/
theorem C114_colors {p : Schema.ColorValue F64}
    (hp : match p.value with
      | .static xs => ∀ x ∈ xs, x.Between 0 1
      | .animatedValue ks => ks ≠ [] ∧ ∀ k ∈ ks, k.base.HandlesInUnitSquare ∧
          ∀ x ∈ k.value, x.Between 0 1)
    (frame : F64) (d : Color F64) :
    ((convColor p).evaluateOr frame d).r.Between (-(2 / 10 ^ 10)) 1 ∧
    ((convColor p).evaluateOr frame d).g.Between (-(2 / 10 ^ 10)) 1 ∧
    ((convColor p).evaluateOr frame d).b.Between (-(2 / 10 ^ 10)) 1 ∧
    ((convColor p).evaluateOr frame d).a.Between 1 1 := by
  have hc := C51_colors p
  cases hv : p.value with
  | static xs =>
    rw [hv] at hc hp
    obtain ⟨v, hv, ho⟩ := hc
    rw [hv]
    have h := ColorOf.unit ho hp
    have w : ∀ {x : F64}, x.Between 0 1 → x.Between (-(2 / 10 ^ 10)) 1 := fun h =>
      ⟨h.1, le_trans (by norm_num) h.2.1, h.2.2⟩
    exact ⟨w h.1, w h.2.1, w h.2.2.1, h.2.2.2⟩
  | animatedValue ks =>
    rw [hv] at hc hp
    obtain ⟨ts, vs, hv, hf⟩ := hc
    rw [hv]
    obtain ⟨i1, i2, i3, i4⟩ := hf.unit (fun k hk => (hp.2 k hk).1)
      (fun k hk v hv => ColorOf.unit hv (hp.2 k hk).2)
    exact evaluateOr_mix (a := ⟨ts, vs⟩) (i2 hp.1) i1.le i3 i4
      (Q := fun c => c.r.Between (-(2 / 10 ^ 10)) 1 ∧ c.g.Between (-(2 / 10 ^ 10)) 1 ∧
        c.b.Between (-(2 / 10 ^ 10)) 1 ∧ c.a.Between 1 1)
      (fun v w t e hv hw he => tweenColor_unit t he hv hw) frame d

/-- The bound for opacities, 0 to 100: less than a hundred-millionth of a per cent. -/
example : overshoot 0 100 100 < 1 / 10 ^ 8 := by unfold overshoot; norm_num

/-- An imported opacity that goes from 0 to 100 and back with the usual ease in and out stays
within 1e-8 of that range at every frame, also where the two keyframes of the end coincide. -/
example (v : Value F64 F64) (h : convScalar exPulse = .ok v) (frame : F64) :
    (v.evaluateOr frame (lit 100)).Between (0 - 1 / 10 ^ 8) (100 + 1 / 10 ^ 8) := by
  have := C114_scalars h (lo := 0) (hi := 100) (M := 100) (by
      refine ⟨by decide, ?_⟩
      intro k hk
      simp only [List.mem_cons, List.not_mem_nil, or_false] at hk
      rcases hk with rfl | rfl | rfl <;>
        exact ⟨exEased64_unit _ _, fun x hx => by
          cases hx; simpa using lit_between (n := 100) (by norm_num) (by norm_num)⟩) (by norm_num) (by norm_num) (by norm_num) frame (lit 100)
  have h' : overshoot 0 100 100 < 1 / 10 ^ 8 := by unfold overshoot; norm_num
  exact ⟨this.1, by linarith [this.2.1], by linarith [this.2.2]⟩

/-- A colour fading from black to a red, with the same easing. -/
example (frame : F64) (d : Color F64) :
    ((convColor ⟨none, none, none, none, .animatedValue
      [{ exEased64 (lit 0) (lit 0) with value := [lit 0, lit 0, lit 0, lit 1] },
       { exEased64 (lit 30) (lit 0) with value := [lit (9 / 10), lit (1 / 10), lit (1 / 5), lit 1] }]⟩
      ).evaluateOr frame d).r.Between (-(2 / 10 ^ 10)) 1 :=
  (C114_colors (by
    refine ⟨by simp, ?_⟩
    intro k hk
    simp only [List.mem_cons, List.not_mem_nil, or_false] at hk
    rcases hk with rfl | rfl <;>
    · refine ⟨exEased64_unit _ (lit 0), ?_⟩
      intro x hx
      simp only [List.mem_cons, List.not_mem_nil, or_false] at hx
      rcases hx with rfl | rfl | rfl | rfl <;>
        simpa using lit_between (n := 1) (by norm_num) (by norm_num)) frame d).1

/-- A position moving between two points. -/
example (frame : F64) (d : P2 F64) :
    ((convMultiP2 ⟨⟨none, none, none, none, .animatedValue
      [{ exEased64 (lit 0) (lit 0) with value := [lit 0, lit 200] },
       { exEased64 (lit 30) (lit 0) with value := [lit 512, lit 100, lit 0] }]⟩, none⟩).evaluateOr frame d
      ).x.isFin = true :=
  (C114_vectors (xlo := 0) (xhi := 512) (ylo := 0) (yhi := 200) (M := 512) (by
    refine ⟨by simp, ?_⟩
    intro k hk
    simp only [List.mem_cons, List.not_mem_nil, or_false] at hk
    rcases hk with rfl | rfl <;>
    exact ⟨exEased64_unit _ (lit 0), _, _, _, rfl,
      by simpa using lit_between (n := 512) (by norm_num) (by norm_num),
      by simpa using lit_between (n := 200) (by norm_num) (by norm_num)⟩)
    (by norm_num) (by norm_num) (by norm_num) (by norm_num) (by norm_num) frame d).1.1

/-- It is imported. -/
example : ∃ v, convScalar exPulse = .ok v := ⟨_, rfl⟩

end
end Velato
