import Verif.Proofs.Playback
import Verif.Props.Gradients
import Verif.Props.ImportValues
import Verif.Proofs.Retime

/-!
# Animated gradients: what is shown, lemmas
-/

namespace Velato
open FloatOps (lit)
open Import (convGradientColors convStops)

section
variable {F : Type}

theorem mapM_range_some {α : Type} {f : Nat → Option α} {g : Nat → α} (n : Nat) (h : ∀ i < n, f i = some (g i)) :
    (List.range n).mapM f = some ((List.range n).map g) := by
  induction n with
  | zero => rfl
  | succ n ih =>
    rw [List.range_succ, List.mapM_append, ih fun i hi => h i (by omega)]
    simp [h n (by omega)]

theorem mapM_option_get {α β : Type} {f : α → Option β} {l : List α} {r : List β} (h : l.mapM f = some r) (i : Nat) :
    r[i]? = l[i]?.bind f := by
  induction l generalizing r i with
  | nil => cases h; rfl
  | cons a l ih =>
    rw [List.mapM_cons] at h
    obtain ⟨b, hb, h⟩ := Option.bind_eq_some_iff.mp h
    obtain ⟨t, ht, h⟩ := Option.bind_eq_some_iff.mp h
    cases h
    cases i with
    | zero => exact hb.symm
    | succ i => exact ih ht i

variable [FloatOps F] [Kurbo F]

/-- Entry `j` of the numbers of a gradient, as an animated number. -/
def AnimColorStops.entry (s : AnimColorStops F) (j : Nat) : Animated F F := ⟨s.frames, s.values.map fun v => v.getD j (lit 0)⟩

theorem entry_evaluate {s : AnimColorStops F} {frame : F} {w : FrameWeight F}
    (hw : Time.framesAndWeight s.frames frame = some w) {v0 v1 : List F} (h0 : s.values[w.ix0]? = some v0)
    (h1 : s.values[w.ix1]? = some v1) (j : Nat) (d : F) : (s.entry j).evaluateOr frame d =
      tweenScalar (v0.getD j (lit 0)) (v1.getD j (lit 0)) (if w.hold then lit 0 else w.t) w.easing := by
  unfold Animated.evaluateOr Animated.evaluateInner AnimColorStops.entry
  simp only [hw, Option.bind_eq_bind, Option.bind_some, List.getElem?_map, h0, h1, Option.map_some]
  rfl

/-- The stops of an animated gradient, number by number. -/
theorem stops_evaluate {s : AnimColorStops F} {frame : F} (hlen : s.values.length = s.frames.length)
    (hne : s.frames ≠ []) (hv : ∀ v ∈ s.values, 5 * s.count ≤ v.length) :
    ((ColorStops.animated s).evaluate frame).length = s.count ∧
    ∀ i < s.count, ∃ st, ((ColorStops.animated s).evaluate frame)[i]? = some st ∧
      st.color.r = FloatOps.toF32 ((s.entry (5 * i + 1)).evaluateOr frame (lit 0)) ∧
      st.color.g = FloatOps.toF32 ((s.entry (5 * i + 2)).evaluateOr frame (lit 0)) ∧
      st.color.b = FloatOps.toF32 ((s.entry (5 * i + 3)).evaluateOr frame (lit 0)) ∧
      st.color.a = FloatOps.toF32 ((s.entry (5 * i + 4)).evaluateOr frame (lit 0)) ∧
      ((∀ t ∈ s.frames, t.hold = false) → st.offset = FloatOps.toF32 ((s.entry (5 * i)).evaluateOr frame (lit 0))) := by
  have hl : 0 < s.frames.length := List.length_pos_iff.mpr hne
  have hw : ∃ w, Time.framesAndWeight s.frames frame = some w ∧ w.ix0 < s.values.length ∧ w.ix1 < s.values.length ∧
      ∃ t ∈ s.frames, w.hold = t.hold := by
    unfold Time.framesAndWeight
    rw [dif_neg (by omega)]
    exact ⟨_, rfl, by dsimp only; omega, by dsimp only; omega, _, List.getElem_mem _, rfl⟩
  obtain ⟨w, hw, l0, l1, t, ht, hh⟩ := hw
  have h0 := List.getElem?_eq_getElem l0
  have h1 := List.getElem?_eq_getElem l1
  have b0 := hv _ (List.getElem_mem l0)
  have b1 := hv _ (List.getElem_mem l1)
  have hent := entry_evaluate hw h0 h1
  generalize s.values[w.ix0] = v0 at *
  generalize s.values[w.ix1] = v1 at *
  have hev : (ColorStops.animated s).evaluate frame = (List.range s.count).map fun i =>
      (⟨FloatOps.toF32 (tweenScalar (v0.getD (5 * i) (lit 0)) (v1.getD (5 * i) (lit 0)) w.t w.easing),
        ⟨FloatOps.toF32 ((s.entry (5 * i + 1)).evaluateOr frame (lit 0)),
          FloatOps.toF32 ((s.entry (5 * i + 2)).evaluateOr frame (lit 0)),
          FloatOps.toF32 ((s.entry (5 * i + 3)).evaluateOr frame (lit 0)),
          FloatOps.toF32 ((s.entry (5 * i + 4)).evaluateOr frame (lit 0))⟩⟩ : ColorStop F) := by
    show (s.evaluateInner frame).getD [] = _
    unfold AnimColorStops.evaluateInner
    simp only [hw, Option.bind_eq_bind, Option.bind_some, h0, h1]
    rw [mapM_range_some s.count]
    · rfl
    · intro i hi
      have hget : ∀ (v : List F), 5 * s.count ≤ v.length → ∀ d < 5,
          v[5 * i + d]? = some (v.getD (5 * i + d) (lit 0)) := by
        intro v hv d hd
        have : 5 * i + d < v.length := by omega
        rw [List.getD_eq_getElem?_getD, List.getElem?_eq_getElem this, Option.getD_some]
      have g0 := hget v0 b0 0 (by omega)
      have g0' := hget v1 b1 0 (by omega)
      rw [Nat.add_zero] at g0 g0'
      unfold AnimColorStops.stop
      dsimp only
      rw [Nat.mul_comm i 5, g0, g0', hget v0 b0 1 (by omega), hget v0 b0 2 (by omega), hget v0 b0 3 (by omega),
        hget v0 b0 4 (by omega), hget v1 b1 1 (by omega), hget v1 b1 2 (by omega), hget v1 b1 3 (by omega),
        hget v1 b1 4 (by omega), hent, hent, hent, hent]
      rfl
  rw [hev]
  refine ⟨by simp, fun i hi => ⟨_, by rw [List.getElem?_map, List.getElem?_range hi]; rfl, rfl, rfl, rfl, rfl, ?_⟩⟩
  intro hno
  dsimp only
  rw [hent, hh, hno t ht, if_neg (by simp)]

omit [Kurbo F] in
/-- The numbers of stop `i` as they are stored. -/
theorem stored_get {l : List (Import.RawStop F)} {i : Nat} {st : Import.RawStop F} (h : l[i]? = some st) :
    ∀ v, v = (l.flatMap fun st => [st.offset, st.r, st.g, st.b, st.a]) →
      v.getD (5 * i) (lit 0) = st.offset ∧ v.getD (5 * i + 1) (lit 0) = st.r ∧ v.getD (5 * i + 2) (lit 0) = st.g ∧
      v.getD (5 * i + 3) (lit 0) = st.b ∧ v.getD (5 * i + 4) (lit 0) = st.a := by
  rintro v rfl
  induction l generalizing i with
  | nil => cases h
  | cons a l ih =>
    cases i with
    | zero => cases h; exact ⟨rfl, rfl, rfl, rfl, rfl⟩
    | succ i => exact ih h

omit [FloatOps F] [Kurbo F] in
theorem stored_length (l : List (Import.RawStop F)) :
    (l.flatMap fun st => [st.offset, st.r, st.g, st.b, st.a]).length = 5 * l.length := by
  induction l with
  | nil => rfl
  | cons a l ih => simp only [List.flatMap_cons, List.length_append, ih, List.length_cons, List.length_nil]; omega

/-- The stops of a keyframe. -/
theorem keyframe_stop_get {value : List F} {count i : Nat} (d : F) (hv : 4 * count ≤ value.length) (hi : i < count) :
    ∃ st, (convStops value count)[i]? = some st ∧ st.offset = value.getD (4 * i) d ∧ st.r = value.getD (4 * i + 1) d ∧
      st.g = value.getD (4 * i + 2) d ∧ st.b = value.getD (4 * i + 3) d := by
  obtain ⟨h1, h2⟩ := C49_stops value count (by omega)
  have hl : i < (convStops value count).length := by omega
  obtain ⟨e1, e2, e3, e4⟩ := h2 i _ (List.getElem?_eq_getElem hl)
  refine ⟨_, List.getElem?_eq_getElem hl, ?_, ?_, ?_, ?_⟩ <;>
    simp only [List.getD_eq_getElem?_getD, e1, e2, e3, e4, Option.getD_some]

/-- The numbers that are stored for an imported gradient. -/
theorem stored_entries {ks : List (Schema.Keyframe F)} {vs : List (List F)} {count i : Nat}
    (hvs : List.Forall₂ (fun (k : Schema.Keyframe F) v =>
      v = (convStops k.value count).flatMap fun st => [st.offset, st.r, st.g, st.b, st.a]) ks vs)
    (hv : ∀ k ∈ ks, 4 * count ≤ k.value.length) (hi : i < count) (ts : List (Time F)) :
    (∀ v ∈ vs, 5 * count ≤ v.length) ∧
    (⟨ts, vs, count⟩ : AnimColorStops F).entry (5 * i) = ⟨ts, ks.map fun k => k.value.getD (4 * i) (lit 0)⟩ ∧
    (⟨ts, vs, count⟩ : AnimColorStops F).entry (5 * i + 1) = ⟨ts, ks.map fun k => k.value.getD (4 * i + 1) (lit 0)⟩ ∧
    (⟨ts, vs, count⟩ : AnimColorStops F).entry (5 * i + 2) = ⟨ts, ks.map fun k => k.value.getD (4 * i + 2) (lit 0)⟩ ∧
    (⟨ts, vs, count⟩ : AnimColorStops F).entry (5 * i + 3) = ⟨ts, ks.map fun k => k.value.getD (4 * i + 3) (lit 0)⟩ ∧
    ((∀ k ∈ ks, k.value.length < 4 * count + 4) →
      (⟨ts, vs, count⟩ : AnimColorStops F).entry (5 * i + 4) = ⟨ts, ks.map fun _ => lit 1⟩) := by
  unfold AnimColorStops.entry
  dsimp only
  induction hvs with
  | nil => exact ⟨fun v h => absurd h List.not_mem_nil, rfl, rfl, rfl, rfl, fun _ => rfl⟩
  | @cons k v ks vs e _ ih =>
    obtain ⟨h0, h1, h2, h3, h4, h5⟩ := ih fun k hm => hv k (List.mem_cons_of_mem _ hm)
    have hvk := hv k List.mem_cons_self
    obtain ⟨st, g, e0, e1, e2, e3⟩ := keyframe_stop_get (lit 0) hvk hi
    obtain ⟨f0, f1, f2, f3, f4⟩ := stored_get g v e
    simp only [Animated.mk.injEq, true_and] at h1 h2 h3 h4 h5 ⊢
    refine ⟨?_, ?_, ?_, ?_, ?_, fun ho => ?_⟩
    · intro w hw
      rcases List.mem_cons.mp hw with rfl | hw
      · rw [e, stored_length, (C49_stops k.value count (by omega)).1]
        omega
      · exact h0 w hw
    · rw [List.map_cons, List.map_cons, h1, f0, e0]
    · rw [List.map_cons, List.map_cons, h2, f1, e1]
    · rw [List.map_cons, List.map_cons, h3, f2, e2]
    · rw [List.map_cons, List.map_cons, h4, f3, e3]
    · rw [List.map_cons, List.map_cons, h5 fun k hm => ho k (List.mem_cons_of_mem _ hm), f4,
        C49_opaque k.value count (by omega) (ho k List.mem_cons_self) st (List.mem_of_getElem? g)]

/-- A time that is not held. -/
def Time.unheld (t : Time F) : Time F := { t with hold := false }

omit [Kurbo F] in
theorem framesAndWeight_unheld (ts : List (Time F)) (frame : F) :
    Time.framesAndWeight (ts.map Time.unheld) frame =
      (Time.framesAndWeight ts frame).map fun w => { w with hold := false } := by
  have hsearch : Time.search (ts.map Time.unheld) frame = Time.search ts frame := by
    unfold Time.search
    rw [binarySearchBy_map]
    rfl
  unfold Time.framesAndWeight
  by_cases h : ts.length = 0
  · rw [dif_pos h, dif_pos (by simpa using h)]
    rfl
  · rw [dif_neg h, dif_neg (by simpa using h)]
    simp only [List.length_map, hsearch, List.getElem_map]
    rfl

/-- The offsets of the stops take no notice of holds. -/
theorem stops_offset {s : AnimColorStops F} {frame : F} {i : Nat} {st : ColorStop F}
    (h : ((ColorStops.animated s).evaluate frame)[i]? = some st) :
    st.offset = FloatOps.toF32
      ((({ s with frames := s.frames.map Time.unheld } : AnimColorStops F).entry (5 * i)).evaluateOr frame (lit 0)) := by
  change ((s.evaluateInner frame).getD [])[i]? = some st at h
  unfold AnimColorStops.evaluateInner at h
  simp only [Option.bind_eq_bind] at h
  cases hw : Time.framesAndWeight s.frames frame with
  | none => rw [hw] at h; cases h
  | some w =>
    have hw' := framesAndWeight_unheld s.frames frame
    simp only [hw, Option.bind_some] at h
    cases h0 : s.values[w.ix0]? with
    | none => rw [h0] at h; cases h
    | some v0 =>
      cases h1 : s.values[w.ix1]? with
      | none => rw [h0, h1] at h; cases h
      | some v1 =>
        simp only [h0, h1, Option.bind_some] at h
        rw [hw] at hw'
        rw [entry_evaluate (s := { s with frames := s.frames.map Time.unheld }) hw' h0 h1, if_neg (by simp)]
        cases hm : (List.range s.count).mapM fun i =>
            AnimColorStops.stop v0 v1 w.t (if w.hold then lit 0 else w.t) w.easing i with
        | none => rw [hm] at h; cases h
        | some l =>
          rw [hm] at h
          have hi := mapM_option_get hm i
          rw [Option.getD_some] at h
          rw [h] at hi
          obtain ⟨i', e, hst⟩ := Option.bind_eq_some_iff.mp hi.symm
          obtain ⟨hlt, e⟩ := List.getElem?_eq_some_iff.mp e
          rw [List.getElem_range] at e
          subst e
          unfold AnimColorStops.stop at hst
          dsimp only at hst
          obtain ⟨a, ha, hst⟩ := Option.bind_eq_some_iff.mp hst
          obtain ⟨b, hb, hst⟩ := Option.bind_eq_some_iff.mp hst
          simp only [Option.bind_eq_bind, Option.bind_eq_some_iff] at hst
          obtain ⟨_, _, _, _, _, _, _, _, _, _, _, _, _, _, _, _, hst⟩ := hst
          cases hst
          rw [Nat.mul_comm] at ha hb
          rw [List.getD_eq_getElem?_getD, List.getD_eq_getElem?_getD, ha, hb]
          rfl

/-- The opacity that is stored for stop `i` of a keyframe. -/
def storedOpacity (count i : Nat) (k : Schema.Keyframe F) : F := (((convStops k.value count)[i]?).map (·.a)).getD (lit 0)

/-- The opacities that are stored for an imported gradient. -/
theorem stored_opacities {ks : List (Schema.Keyframe F)} {vs : List (List F)} {count i : Nat}
    (hvs : List.Forall₂ (fun (k : Schema.Keyframe F) v =>
      v = (convStops k.value count).flatMap fun st => [st.offset, st.r, st.g, st.b, st.a]) ks vs)
    (hv : ∀ k ∈ ks, 4 * count ≤ k.value.length) (hi : i < count) (ts : List (Time F)) :
    (⟨ts, vs, count⟩ : AnimColorStops F).entry (5 * i + 4) = ⟨ts, ks.map (storedOpacity count i)⟩ := by
  unfold AnimColorStops.entry
  dsimp only
  induction hvs with
  | nil => rfl
  | @cons k v ks vs e _ ih =>
    have := ih fun k hm => hv k (List.mem_cons_of_mem _ hm)
    obtain ⟨st, g, -⟩ := keyframe_stop_get (lit 0) (hv k List.mem_cons_self) hi
    obtain ⟨-, -, -, -, f4⟩ := stored_get g v e
    simp only [Animated.mk.injEq, true_and] at this ⊢
    rw [List.map_cons, List.map_cons, this, f4]
    unfold storedOpacity
    rw [g]
    rfl

end

/-- A number that is the same at all keyframes. -/
theorem shown_const {K : Type} {ks : List K} {base : K → Schema.KeyframeBase ℝ} {c : Nat} {a x frame : ℝ}
    (h : Shown c (ks.map fun k => (base k, a)) frame x) : x = a := by
  have hm : ∀ {b v}, (b, v) ∈ ks.map (fun k => (base k, a)) → v = a := by
    intro b v hm
    obtain ⟨k, -, e⟩ := List.mem_map.mp hm
    exact (Prod.mk.inj e).2.symm
  rcases h with ⟨b, v, h, -, rfl⟩ | ⟨b, v, h, -, rfl⟩ | ⟨j, b0, v0, b1, v1, h0, h1, -, -, h2, h3⟩
  · exact hm (List.mem_of_head? h)
  · exact hm (List.mem_of_getLast? h)
  · have e0 := hm (List.mem_of_getElem? h0)
    have e1 := hm (List.mem_of_getElem? h1)
    by_cases hh : b0.hold = some .true
    · rw [h2 hh, e0]
    · obtain ⟨o, i, e, -, -, hx, -⟩ := h3 hh
      rw [hx, e0, e1]
      ring

/-- A ramp between opacities of at most 1 is at most 1. -/
theorem rampOpacity_le_one {o₀ a₀ o₁ a₁ x : ℝ} (ho : o₀ ≤ o₁) (h₀ : a₀ ≤ 1) (h₁ : a₁ ≤ 1) :
    rampOpacity o₀ a₀ o₁ a₁ x ≤ 1 := by
  unfold rampOpacity
  split_ifs with h1 h2 h3 h4
  · exact h₀
  · exact h₁
  · exact h₀
  · exact h₁
  · push Not at h1 h2
    have hd : 0 < o₁ - o₀ := sub_pos.mpr (lt_of_le_of_ne ho h1.2)
    have t0 : 0 ≤ (x - o₀) / (o₁ - o₀) := div_nonneg (by linarith [h1.1]) hd.le
    have t1 : (x - o₀) / (o₁ - o₀) ≤ 1 := (div_le_one hd).mpr (by linarith)
    nlinarith

end Velato
