import Verif.Proofs.Search
import Verif.Num.Real
import Verif.Num.KernelDecide

/-!
# Keyframe lookup and evaluation (C01, C02, C05, C10)
-/

namespace Velato
open FloatOps (lit)

section
variable {F : Type} [FloatOps F]

/-! ## C01 — evaluation is total -/

/-- **C01.** The two slice accesses of `frames_and_weight` never panic: for every list of times
(empty, unsorted, with NaNs) and every frame. -/
theorem C01_no_panic (times : List (Time F)) (frame : F) :
    Time.framesAndWeightRaw times frame = .ok (Time.framesAndWeight times frame) := by
  unfold Time.framesAndWeightRaw Time.framesAndWeight
  by_cases h : times.length = 0
  · simp [h]; rfl
  · have h0 : min (Time.search times frame) (times.length - 1) < times.length := by omega
    have h1 : min (min (Time.search times frame) (times.length - 1) + 1) (times.length - 1)
        < times.length := by omega
    simp only [h, if_false, dite_false, indexPanic, List.getElem?_eq_getElem h0,
      List.getElem?_eq_getElem h1]
    rfl

/-- **C01.** Evaluation of an animated value always returns: the default if there are no
keyframes, otherwise the mix of two adjacent keyframes (or of the last one with itself), and the
default if one of these has no value.  No hypothesis on the lists or the frame. -/
theorem C01_total {T : Type} [Tween F T] (a : Animated F T) (frame : F) (d : T) :
    (a.times = [] ∧ a.evaluateOr frame d = d) ∨
    ∃ k k' t0 t1, a.times[k]? = some t0 ∧ a.times[k']? = some t1 ∧
      (k' = k + 1 ∨ (k' = k ∧ k + 1 = a.times.length)) ∧
      a.evaluateOr frame d =
        match a.values[k]?, a.values[k']? with
        | some v0, some v1 => Tween.tween v0 v1 (mixWeight t0 t1 frame) t0.easing
        | _, _ => d := by
  by_cases h : a.times = []
  · left
    refine ⟨h, ?_⟩
    unfold Animated.evaluateOr Animated.evaluateInner Time.framesAndWeight
    simp [h]
  · right
    have hlen : 0 < a.times.length := List.length_pos_iff.mpr h
    refine ⟨min (Time.search a.times frame) (a.times.length - 1),
      min (min (Time.search a.times frame) (a.times.length - 1) + 1) (a.times.length - 1),
      a.times[min (Time.search a.times frame) (a.times.length - 1)]'(by omega),
      a.times[min (min (Time.search a.times frame) (a.times.length - 1) + 1)
        (a.times.length - 1)]'(by omega),
      List.getElem?_eq_getElem _, List.getElem?_eq_getElem _, by omega, ?_⟩
    unfold Animated.evaluateOr
    rw [evaluateInner_eq a frame _ _ _ _ rfl rfl (List.getElem?_eq_getElem _)
      (List.getElem?_eq_getElem _)]
    cases a.values[min (Time.search a.times frame) (a.times.length - 1)]? with
    | none => rfl
    | some v0 =>
      cases a.values[min (min (Time.search a.times frame) (a.times.length - 1) + 1)
        (a.times.length - 1)]? with
      | none => rfl
      | some v1 => rfl

/-- A fixed value evaluates to itself. -/
theorem C01_fixed {T : Type} [Tween F T] [RDefault T] (v : T) (frame : F) :
    (Value.fixed v : Value F T).evaluate frame = v ∧
      (Value.fixed v : Value F T).evaluateOr frame (RDefault.dflt : T) = v := ⟨rfl, rfl⟩

/-- C01 is not vacuous: NaN frame, unsorted and NaN times, fewer values than times. -/
example [Kurbo F64] :
    (⟨[⟨lit 5, none, none, false⟩, ⟨.nan, none, none, false⟩, ⟨lit 1, none, none, true⟩],
      [lit 7]⟩ : Animated F64 F64).evaluateOr F64.nan (lit 3) = lit 3 := by
  kernel_decide

/-! ## C02 — the frame is bracketed -/

/-- **C02.** On sorted times, at a frame from the first keyframe on and before the last one, two
consecutive keyframes `k`, `k+1` with `time k ≤ frame < time (k+1)` are mixed, with weight
`(frame - time k) / (time (k+1) - time k)` (0 on hold). -/
theorem C02_bracket [LawfulCmp F] {T : Type} [Tween F T] (a : Animated F T) (frame : F) (d : T)
    (hs : SortedTimes a.times) (hv : a.values.length = a.times.length)
    (first last : Time F) (hfirst : a.times.head? = some first) (hlast : a.times.getLast? = some last)
    (h1 : (first.frame <=. frame) = true) (h2 : (frame <. last.frame) = true) :
    ∃ k t0 t1 v0 v1, a.times[k]? = some t0 ∧ a.times[k + 1]? = some t1 ∧
      a.values[k]? = some v0 ∧ a.values[k + 1]? = some v1 ∧
      (t0.frame <=. frame) = true ∧ (frame <. t1.frame) = true ∧
      a.evaluateOr frame d = Tween.tween v0 v1 (mixWeight t0 t1 frame) t0.easing := by
  have hne : a.times ≠ [] := by intro h; simp [h] at hfirst
  obtain ⟨hl, hle, hgt⟩ := search_spec hs hne frame
  generalize hk : Time.search a.times frame = k at hl hle hgt
  -- `k` is not the last index
  have hk1 : k + 1 < a.times.length := by
    by_contra hc
    have hke : k = a.times.length - 1 := by omega
    have hlast' : a.times[k] = last := by
      rw [List.getLast?_eq_getElem?, ← hke, List.getElem?_eq_getElem hl] at hlast
      simpa using hlast
    rcases hle with h0 | h0
    · have : first = last := by
        subst h0
        rw [List.head?_eq_getElem?, List.getElem?_eq_getElem hl] at hfirst
        rw [← hlast']; simpa using hfirst.symm
      subst this
      have := not_lt_of_le' h1
      rw [this] at h2; exact absurd h2 (by simp)
    · have := h0 hl
      rw [hlast'] at this
      rw [this] at h2; exact absurd h2 (by simp)
  have hnan : isNaN frame = false := not_nan_of_le_right h1
  have hle' : (a.times[k].frame <=. frame) = true := by
    rcases hle with h0 | h0
    · subst h0
      rw [List.head?_eq_getElem?, List.getElem?_eq_getElem hl] at hfirst
      have : a.times[0] = first := by simpa using hfirst
      rw [this]; exact h1
    · have hlt : (a.times[k].frame <=. a.times[k + 1].frame) = true :=
        (List.pairwise_iff_getElem.mp hs) k (k + 1) hl hk1 (by omega)
      exact le_of_not_lt' hnan (not_nan_of_le_left hlt) (h0 hl)
  refine ⟨k, a.times[k], a.times[k + 1], a.values[k]'(by omega), a.values[k + 1]'(by omega),
    List.getElem?_eq_getElem _, List.getElem?_eq_getElem _, List.getElem?_eq_getElem _,
    List.getElem?_eq_getElem _, hle', hgt _ hk1 (by omega), ?_⟩
  unfold Animated.evaluateOr
  rw [evaluateInner_eq a frame k (k + 1) a.times[k] a.times[k + 1] (by omega) (by omega)
    (List.getElem?_eq_getElem _) (List.getElem?_eq_getElem _)]
  rw [List.getElem?_eq_getElem (by omega : k < a.values.length),
    List.getElem?_eq_getElem (by omega : k + 1 < a.values.length)]
  rfl

/-- Concrete case of C02: three keyframes, a frame strictly inside the second interval. -/
example : SortedTimes [⟨lit 0, none, none, false⟩, ⟨lit 10, none, none, false⟩,
      (⟨lit 20, none, none, false⟩ : Time F64)] ∧
    ((lit 0 : F64) <=. lit 15) = true ∧ ((lit 15 : F64) <. lit 20) = true := by
  refine ⟨?_, by decide +kernel, by decide +kernel⟩
  unfold SortedTimes; decide +kernel

/-- **C02.** The modelled search satisfies the documented contract of
`<[T]>::binary_search_by` on sorted times. -/
theorem C02_search_contract [LawfulCmp F] (times : List (Time F)) (frame : F)
    (hs : SortedTimes times) :
    BinarySearchContract times (Time.cmpFrame frame)
      (binarySearchBy times (Time.cmpFrame frame)) := by
  unfold binarySearchBy
  split
  · rename_i h
    exact ⟨by omega, fun j hj => by omega, fun j hj => by omega⟩
  rename_i hlen
  have hlen' : 0 < times.length := by omega
  have hb := bsearchLoop_bounds times (Time.cmpFrame frame) 0 times.length hlen'
  have hsp := bsearchLoop_spec times (Time.cmpFrame frame) (ordered_of_sorted hs frame) 0
    times.length hlen' (by omega) (Or.inl rfl) (by rintro j hj ⟨h, _⟩; omega)
  generalize hr : bsearchLoop times (Time.cmpFrame frame) 0 times.length = r at hb hsp
  have hrl : r < times.length := by omega
  simp only [List.getElem?_eq_getElem hrl]
  have hgt : ∀ j (h : j < times.length), r < j → Time.cmpFrame frame times[j] = .gt := by
    intro j hj hlt
    by_contra hc
    exact hsp.2 j hlt ⟨hj, hc⟩
  cases hc : Time.cmpFrame frame times[r] with
  | eq => exact ⟨hrl, hc⟩
  | lt =>
    refine ⟨by omega, ?_, fun j hj hij => hgt j hj (by omega)⟩
    intro j hj hij
    rcases (show j = r ∨ j < r by omega) with rfl | hlt
    · exact hc
    · rw [cmpFrame_lt_iff] at hc ⊢
      exact lt_of_le_of_lt' ((List.pairwise_iff_getElem.mp hs) j r hj hrl hlt) hc
  | gt =>
    rcases hsp.1 with h | ⟨_, h⟩
    · subst h
      exact ⟨by omega, fun j hj hij => by omega, fun j hj hij => by
        rcases (show j = 0 ∨ 0 < j by omega) with rfl | hlt
        · exact hc
        · exact hgt j hj hlt⟩
    · exact absurd hc h

/-- **C02.** The choice made by the binary search is irrelevant: on strictly sorted times *every*
result allowed by the documented contract yields the keyframe index used by the model. -/
theorem C02_any_conforming_search [LawfulCmp F] (times : List (Time F)) (frame : F)
    (hs : StrictTimes times) (hf : isNaN frame = false) (r : Except Nat Nat)
    (hr : BinarySearchContract times (Time.cmpFrame frame) r) :
    (match r with
      | .ok ix => ix
      | .error ix => ix - 1) = Time.search times frame := by
  have hs' : SortedTimes times := hs.imp fun h => le_of_lt' h
  have hm := C02_search_contract times frame hs'
  have hcmp : ∀ i j (hi : i < times.length) (hj : j < times.length), i < j →
      Time.cmpFrame frame times[j] ≠ .gt → Time.cmpFrame frame times[i] = .lt := by
    intro i j hi hj hij hg
    rw [cmpFrame_lt_iff]
    have hlt := (List.pairwise_iff_getElem.mp hs) i j hi hj hij
    rw [ne_eq, cmpFrame_gt_iff, Bool.not_eq_true] at hg
    exact lt_of_lt_of_le' hlt (le_of_not_lt' hf (not_nan_of_lt_right hlt) hg)
  unfold Time.search
  cases r with
  | ok i =>
    obtain ⟨hi, hie⟩ := hr
    cases hb : binarySearchBy times (Time.cmpFrame frame) with
    | ok j =>
      rw [hb] at hm
      obtain ⟨hj, hje⟩ := hm
      simp only
      rcases lt_trichotomy i j with h | h | h
      · have := hcmp i j hi hj h (by rw [hje]; simp)
        rw [this] at hie; simp at hie
      · exact h
      · have := hcmp j i hj hi h (by rw [hie]; simp)
        rw [this] at hje; simp at hje
    | error j =>
      rw [hb] at hm
      obtain ⟨hj, h1, h2⟩ := hm
      exfalso
      rcases lt_or_ge i j with h | h
      · have := h1 i hi h; rw [this] at hie; simp at hie
      · have := h2 i hi h; rw [this] at hie; simp at hie
  | error i =>
    obtain ⟨hi, h1, h2⟩ := hr
    cases hb : binarySearchBy times (Time.cmpFrame frame) with
    | ok j =>
      rw [hb] at hm
      obtain ⟨hj, hje⟩ := hm
      exfalso
      rcases lt_or_ge j i with h | h
      · have := h1 j hj h; rw [this] at hje; simp at hje
      · have := h2 j hj h; rw [this] at hje; simp at hje
    | error j =>
      rw [hb] at hm
      obtain ⟨hj, h3, h4⟩ := hm
      simp only
      have : i = j := by
        rcases lt_trichotomy i j with h | h | h
        · have e1 := h3 i (by omega) h
          have e2 := h2 i (by omega) le_rfl
          rw [e1] at e2; simp at e2
        · exact h
        · have e1 := h1 j (by omega) h
          have e2 := h4 j (by omega) le_rfl
          rw [e1] at e2; simp at e2
      rw [this]

/-! ## C05 — hold keyframes -/

/-- **C05.** If keyframe `k` holds, the value at every frame in `[time k, time (k+1))` is the mix
of keyframe `k` with the next at weight exactly 0, for every kind of value. -/
theorem C05_hold_weight [LawfulCmp F] {T : Type} [Tween F T] (a : Animated F T) (frame : F)
    (d : T) (hs : SortedTimes a.times) (k : Nat) (t0 t1 : Time F) (v0 v1 : T)
    (h0 : a.times[k]? = some t0) (h1 : a.times[k + 1]? = some t1)
    (hv0 : a.values[k]? = some v0) (hv1 : a.values[k + 1]? = some v1)
    (hle : (t0.frame <=. frame) = true) (hlt : (frame <. t1.frame) = true)
    (hold : t0.hold = true) :
    a.evaluateOr frame d = Tween.tween v0 v1 (lit 0) t0.easing := by
  have hse := search_in hs frame k t0 t1 h0 h1 hle hlt
  obtain ⟨hk, rfl⟩ := List.getElem?_eq_some_iff.mp h0
  obtain ⟨hk1, rfl⟩ := List.getElem?_eq_some_iff.mp h1
  unfold Animated.evaluateOr
  rw [evaluateInner_eq a frame k (k + 1) a.times[k] a.times[k + 1] (by omega) (by omega) h0 h1,
    hv0, hv1]
  simp only [mixWeight, hold, if_true]
  rfl

theorem tweenScalar_zero [LawfulCmp F] [Kurbo F] (v w : F) (e : Easing F) :
    tweenScalar v w (lit 0) e = v := by
  unfold tweenScalar; rw [if_pos zero_le_zero]

/-- **C05.** Scalars: a hold keyframe holds its value exactly. -/
theorem C05_hold_scalar [LawfulCmp F] [Kurbo F] (a : Animated F F) (frame : F)
    (d : F) (hs : SortedTimes a.times) (k : Nat) (t0 t1 : Time F) (v0 v1 : F)
    (h0 : a.times[k]? = some t0) (h1 : a.times[k + 1]? = some t1)
    (hv0 : a.values[k]? = some v0) (hv1 : a.values[k + 1]? = some v1)
    (hle : (t0.frame <=. frame) = true) (hlt : (frame <. t1.frame) = true)
    (hold : t0.hold = true) :
    a.evaluateOr frame d = v0 := by
  rw [C05_hold_weight a frame d hs k t0 t1 v0 v1 h0 h1 hv0 hv1 hle hlt hold]
  exact tweenScalar_zero _ _ _

/-- **C05.** Points, vectors and sizes: a hold keyframe holds its value exactly. -/
theorem C05_hold_point [LawfulCmp F] [Kurbo F] (a : Animated F (P2 F)) (frame : F)
    (d : P2 F) (hs : SortedTimes a.times) (k : Nat) (t0 t1 : Time F) (v0 v1 : P2 F)
    (h0 : a.times[k]? = some t0) (h1 : a.times[k + 1]? = some t1)
    (hv0 : a.values[k]? = some v0) (hv1 : a.values[k + 1]? = some v1)
    (hle : (t0.frame <=. frame) = true) (hlt : (frame <. t1.frame) = true)
    (hold : t0.hold = true) :
    a.evaluateOr frame d = v0 := by
  rw [C05_hold_weight a frame d hs k t0 t1 v0 v1 h0 h1 hv0 hv1 hle hlt hold]
  show (⟨tweenScalar _ _ _ _, tweenScalar _ _ _ _⟩ : P2 F) = v0
  rw [tweenScalar_zero, tweenScalar_zero]

/-- Concrete case of C05: hold from 0 to 10, evaluated at 9. -/
example : SortedTimes [⟨lit 0, none, none, true⟩, (⟨lit 10, none, none, false⟩ : Time F64)] ∧
    ((lit 0 : F64) <=. lit 9) = true ∧ ((lit 9 : F64) <. lit 10) = true := by
  refine ⟨?_, by decide +kernel, by decide +kernel⟩
  unfold SortedTimes; decide +kernel

/-! ## C10 — componentwise animation -/

/-- The animation of one component of an animated value. -/
def Animated.component {T : Type} (a : Animated F T) (proj : T → F) : Animated F F :=
  ⟨a.times, a.values.map proj⟩

/-- **C10.** Each coordinate of an animated point, vector or size is the animated scalar with the
same times and the coordinates as values, at every frame. -/
theorem C10_point [Kurbo F] (a : Animated F (P2 F)) (frame : F) (d : P2 F) :
    (a.evaluateOr frame d).x = (a.component P2.x).evaluateOr frame d.x ∧
    (a.evaluateOr frame d).y = (a.component P2.y).evaluateOr frame d.y := by
  unfold Animated.evaluateOr Animated.evaluateInner Animated.component
  simp only
  cases Time.framesAndWeight a.times frame with
  | none => exact ⟨rfl, rfl⟩
  | some w =>
    simp only [List.getElem?_map, Option.bind_eq_bind, Option.bind_some]
    cases a.values[w.ix0]? with
    | none => exact ⟨rfl, rfl⟩
    | some v0 =>
      cases a.values[w.ix1]? with
      | none => exact ⟨rfl, rfl⟩
      | some v1 => exact ⟨rfl, rfl⟩

/-- **C10.** Each channel of an animated colour is the animated scalar of that channel, rounded to
`f32`, whenever the colour has a value at this frame. -/
theorem C10_color [Kurbo F] (a : Animated F (Color F)) (frame : F) (c : Color F)
    (h : a.evaluateInner frame = some c) (d : F) :
    c.r = FloatOps.toF32 ((a.component Color.r).evaluateOr frame d) ∧
    c.g = FloatOps.toF32 ((a.component Color.g).evaluateOr frame d) ∧
    c.b = FloatOps.toF32 ((a.component Color.b).evaluateOr frame d) ∧
    c.a = FloatOps.toF32 ((a.component Color.a).evaluateOr frame d) := by
  unfold Animated.evaluateOr Animated.component
  unfold Animated.evaluateInner at h ⊢
  simp only at h ⊢
  cases hw : Time.framesAndWeight a.times frame with
  | none => simp [hw] at h
  | some w =>
    simp only [hw, List.getElem?_map, Option.bind_eq_bind, Option.bind_some] at h ⊢
    cases h0 : a.values[w.ix0]? with
    | none => simp [h0] at h
    | some v0 =>
      cases h1 : a.values[w.ix1]? with
      | none => simp [h0, h1] at h
      | some v1 =>
        simp only [h0, h1, Option.bind_some, Option.some.injEq] at h
        subst h
        exact ⟨rfl, rfl, rfl, rfl⟩

/-- The hypothesis of `C10_color` is met: two colour keyframes. -/
example [Kurbo F64] : ∃ c, (⟨[⟨lit 0, none, none, false⟩, ⟨lit 10, none, none, false⟩],
    [⟨lit 0, lit 0, lit 0, lit 1⟩, ⟨lit 1, lit 1, lit 1, lit 1⟩]⟩ :
      Animated F64 (Color F64)).evaluateInner (lit 0) = some c :=
  ⟨⟨lit 0, lit 0, lit 0, lit 1⟩, by kernel_decide⟩

end
end Velato
