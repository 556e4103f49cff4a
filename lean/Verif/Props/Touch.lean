import Verif.Proofs.Touch
import Verif.Num.KernelDecide
import Verif.Num.F64

/-!
# C95, C96 — gestures
-/

namespace Velato
open FloatOps (lit)

/-! ## C95 -/

/-- **C95.** The fingers on the screen are those that were put down and not lifted since, where they were last
seen. -/
theorem C95_fingers {F : Type} [FloatOps F] [Libm F] [Atan2 F] (frames : List (List (TouchEvent F))) :
    ListsFingers (TouchState.afterFrames frames).activeTouches
      fun id => fingerFrom id none frames.flatten := by
  induction frames using List.reverseRecOn with
  | nil => exact ⟨List.Pairwise.nil, fun id p => by simp [TouchState.afterFrames, TouchState.new, fingerFrom]⟩
  | append_singleton fs evs ih =>
    rw [afterFrames_append, endFrame_active]
    have h := listsFingers_events ih evs
    have e : (fun id => fingerFrom id none (fs ++ [evs]).flatten)
        = fun id => fingerFrom id (fingerFrom id none fs.flatten) evs := by
      funext id
      rw [List.flatten_append, fingerFrom_append, List.flatten_singleton]
    rw [e]
    exact h

/-- **C95.** What a gesture does in a frame is determined by the fingers at the end of the frame and at the end
of the previous one: no fingers, no gesture; otherwise, the zoom is the change of their average distance from
their centre (nothing, for one finger), the rotation that of the direction of the first finger, the
translation that of the centre.  When fingers were put down or lifted, the frame is compared with itself.
The zoom in two directions is that of the kind of gesture, which is determined by its first frame. -/
theorem C95_info (frames : List (List (TouchEvent ℝ))) (evs : List (TouchEvent ℝ)) :
    let before := (TouchState.afterFrames frames).activeTouches
    let now := (TouchState.afterFrames (frames ++ [evs])).activeTouches
    let old := if fingersChanged evs then now else before
    let zoom := if 1 < now.length then spread now / spread old else 1
    (TouchState.afterFrames (frames ++ [evs])).info = if now = [] then none else some
      { numTouches := now.length
        zoomDelta := zoom
        zoomDelta2d :=
          if 1 < now.length then
            match pinchOf (gestureStart (touchHistory (frames ++ [evs]))) with
            | .horizontal => ⟨spreadX now / spreadX old, 1⟩
            | .vertical => ⟨1, spreadY now / spreadY old⟩
            | .proportional => ⟨zoom, zoom⟩
          else ⟨1, 1⟩
        rotationDelta := heading now - heading old
        translationDelta := ⟨(centroid now).x - (centroid old).x, (centroid now).y - (centroid old).y⟩
        zoomCentre := centroid now } := by
  intro before now old zoom
  have h := info_step (settled_after frames) evs
  have hnow : now = (evs.foldl TouchState.addEvent (TouchState.afterFrames frames)).activeTouches := by
    show (TouchState.afterFrames (frames ++ [evs])).activeTouches = _
    rw [afterFrames_append, endFrame_active]
  rw [afterFrames_append, h]
  rw [← hnow]
  simp only [classify_eq]
  by_cases hn : now = []
  · rw [if_pos hn, if_pos hn]
  rw [if_neg hn, if_neg hn]
  have hstart : gestureStart (touchHistory (frames ++ [evs]))
      = if (TouchState.afterFrames frames).activeTouches = [] then now
        else gestureStart (touchHistory frames) := by
    rw [touchHistory_append, gestureStart_append _ _ hn, touchHistory_last]
  rw [hstart]
  have hold : (if fingersChanged evs = true ∨ (TouchState.afterFrames frames).activeTouches = [] then now
      else (TouchState.afterFrames frames).activeTouches) = old := by
    show _ = if fingersChanged evs = true then now else (TouchState.afterFrames frames).activeTouches
    by_cases hc : fingersChanged evs = true
    · rw [if_pos (.inl hc), if_pos hc]
    · rw [if_neg hc]
      by_cases hb : (TouchState.afterFrames frames).activeTouches = []
      · -- without a change, there are still no fingers
        exfalso
        apply hn
        rw [hnow]
        have : ∀ (l : List (TouchEvent ℝ)) (s : TouchState ℝ), fingersChanged l = false →
            s.activeTouches = [] → (l.foldl TouchState.addEvent s).activeTouches = [] := by
          intro l
          induction l with
          | nil => exact fun s _ h => h
          | cons e l ih =>
            intro s hl hs
            unfold fingersChanged at hl
            rw [List.any_cons, Bool.or_eq_false_iff] at hl
            refine ih _ hl.2 ?_
            obtain ⟨k, ph, loc⟩ := e
            have : ph = .moved := by simpa using hl.1
            subst this
            show mapUpdate _ _ s.activeTouches = []
            rw [hs]; rfl
        exact this evs _ (by simpa using hc) hb
      · rw [if_neg (by rintro (h | h); exacts [hc h, hb h])]
  rw [hold]
  rfl

/-- **C95 (partial).** When fingers are put down or lifted, the picture does not jump, if the fingers are not
all at the same place.  What is missing: `C95_counterexample`. -/
theorem C95_no_jump_partial (frames : List (List (TouchEvent ℝ))) (evs : List (TouchEvent ℝ))
    (hc : fingersChanged evs = true) {i : MultiTouchInfo ℝ}
    (hi : (TouchState.afterFrames (frames ++ [evs])).info = some i)
    (hs : ¬ ∃ p, ∀ t ∈ (TouchState.afterFrames (frames ++ [evs])).activeTouches, t.2 = p) (m : Affine ℝ)
    (p : P2 ℝ) : (gestureTransform i m).apply p = m.apply p := by
  have h := C95_info frames evs
  dsimp only at h
  rw [if_pos hc] at h
  generalize (TouchState.afterFrames (frames ++ [evs])).activeTouches = now at h hs
  rw [hi] at h
  by_cases hn : now = []
  · rw [if_pos hn] at h; cases h
  rw [if_neg hn] at h
  obtain ⟨t, ht, hne⟩ : ∃ t ∈ now, t.2 ≠ centroid now := by
    by_contra hcon
    push Not at hcon
    exact hs ⟨_, hcon⟩
  have hsp := spread_pos ht hne
  rw [← toC_inj, gesture_toC]
  injection h with h
  rw [h]
  dsimp only
  have hz : (if 1 < now.length then spread now / spread now else 1) = 1 := by
    split_ifs
    · exact div_self hsp.ne'
    · rfl
  rw [hz, sub_self, sub_self, sub_self]
  simp only [Real.cos_zero, Real.sin_zero]
  apply Complex.ext <;> simp [P2.toC]

/-- The same for one finger: whatever happens in the frame where it is put down, the picture does not move. -/
theorem C95_one_finger (frames : List (List (TouchEvent ℝ))) (evs : List (TouchEvent ℝ))
    (hc : fingersChanged evs = true) {i : MultiTouchInfo ℝ}
    (hi : (TouchState.afterFrames (frames ++ [evs])).info = some i)
    (hs : (TouchState.afterFrames (frames ++ [evs])).activeTouches.length = 1) (m : Affine ℝ)
    (p : P2 ℝ) : (gestureTransform i m).apply p = m.apply p := by
  have h := C95_info frames evs
  dsimp only at h
  rw [if_pos hc] at h
  generalize (TouchState.afterFrames (frames ++ [evs])).activeTouches = now at h hs
  rw [hi] at h
  rw [if_neg (by rintro rfl; simp at hs), if_neg (by omega)] at h
  rw [← toC_inj, gesture_toC]
  injection h with h
  rw [h]
  dsimp only
  rw [sub_self, sub_self, sub_self]
  simp only [Real.cos_zero, Real.sin_zero]
  apply Complex.ext <;> simp [P2.toC]

/-- **C95 is false of the code**: if two fingers are put down at the same place, the zoom is not a number (and
with it every coordinate of the camera). -/
theorem C95_counterexample [Atan2 F64] (L : Libm F64)
    (hypot0 : Libm.hypot (lit 0 : F64) (lit 0) = lit 0) :
    ((TouchState.afterFrames [[⟨0, .started, ⟨lit 0, lit 0⟩⟩, ⟨1, .started, ⟨lit 0, lit 0⟩⟩]]).info.map
      fun i => isNaN (F := F64) i.zoomDelta) = some true := by
  have e0 : (lit 0 : F64) +. lit 0 = lit 0 := by decide +kernel
  have e1 : (lit 0 : F64) -. lit 0 = lit 0 := by decide +kernel
  have e2 : (lit 0 : F64) *. (lit 1 /. FloatOps.ofUsize 2) = lit 0 := by decide +kernel
  have e3 : isNaN ((lit 0 : F64) /. lit 0) = true := by decide +kernel
  simp only [TouchState.afterFrames, List.foldl_cons, List.foldl_nil, TouchState.addEvent, TouchState.new,
    mapInsert, TouchState.endFrame, TouchState.updateGesture, TouchState.calcDynamicState, TouchState.info,
    Nat.not_lt_zero, if_false, Option.map_some, if_true, Option.getD_none,
    List.length_cons, List.length_nil, e0, e1, e2, hypot0, e3, Nat.reduceAdd, Nat.reduceLT,
    one_ne_zero]

/-- **C95 is false of the code**: the documentation says that there is no information for one finger. -/
theorem C95_single_counterexample {F : Type} [FloatOps F] [Libm F] [Atan2 F] (p : P2 F) :
    ((TouchState.afterFrames [[⟨0, .started, p⟩]]).info.map fun i => i.numTouches) = some 1 := rfl

/-- Two fingers, one of which has moved: the information after the second frame. -/
example : ∃ i, (TouchState.afterFrames (F := ℝ) ([[⟨7, .started, ⟨0, 0⟩⟩, ⟨3, .started, ⟨2, 0⟩⟩]] ++
    [[⟨7, .moved, ⟨-2, 0⟩⟩]])).info = some i ∧ i.zoomDelta = 2 ∧ i.numTouches = 2 ∧
      i.translationDelta = ⟨-1, 0⟩ := by
  have h := C95_info [[⟨7, .started, ⟨0, 0⟩⟩, ⟨3, .started, ⟨2, 0⟩⟩]] [⟨7, .moved, ⟨-2, 0⟩⟩]
  have e1 : (TouchState.afterFrames (F := ℝ) [[⟨7, .started, ⟨0, 0⟩⟩, ⟨3, .started, ⟨2, 0⟩⟩]]).activeTouches
      = [(3, ⟨2, 0⟩), (7, ⟨0, 0⟩)] := rfl
  have e2 : (TouchState.afterFrames (F := ℝ) ([[⟨7, .started, ⟨0, 0⟩⟩, ⟨3, .started, ⟨2, 0⟩⟩]] ++
      [[⟨7, .moved, ⟨-2, 0⟩⟩]])).activeTouches = [(3, ⟨2, 0⟩), (7, ⟨-2, 0⟩)] := rfl
  have e3 : fingersChanged ([⟨7, .moved, ⟨-2, 0⟩⟩] : List (TouchEvent ℝ)) = false := rfl
  dsimp only at h
  rw [e1, e2, e3, if_neg (by simp)] at h
  refine ⟨_, h, ?_, rfl, ?_⟩
  · norm_num [spread_toC, centroid, P2.toC, Complex.norm_def, Complex.normSq_apply]
  · norm_num [centroid]

/-! ## C96 -/

/-- **C96 (partial).** If all fingers move by the same similarity, then what was under a finger moves with it,
except for a slip: `δ - uδ`, where `δ` is the movement of the centre of the fingers.  So it stays under the
finger if the centre does not move or the fingers move without turning and spreading.
What is missing: `C96_counterexample`. -/
theorem C96_similarity_partial (frames : List (List (TouchEvent ℝ))) (evs : List (TouchEvent ℝ))
    (hc : fingersChanged evs = false) {u v : ℂ}
    (hmove : (TouchState.afterFrames (frames ++ [evs])).activeTouches
      = moveFingers u v (TouchState.afterFrames frames).activeTouches)
    (h2 : 2 ≤ (TouchState.afterFrames frames).activeTouches.length)
    (hfirst : ∀ t, (TouchState.afterFrames frames).activeTouches.head? = some t →
      t.2 ≠ centroid (TouchState.afterFrames frames).activeTouches)
    {camera : Affine ℝ} {t : Nat × P2 ℝ} (_ht : t ∈ (TouchState.afterFrames frames).activeTouches)
    {p : P2 ℝ} (hp : camera.apply p = t.2) :
    ∃ i, (TouchState.afterFrames (frames ++ [evs])).info = some i ∧
      let δ := (centroid (TouchState.afterFrames (frames ++ [evs])).activeTouches).toC
        - (centroid (TouchState.afterFrames frames).activeTouches).toC
      ((gestureTransform i camera).apply p).toC = (u * t.2.toC + v) + (δ - u * δ) := by
  have h := C95_info frames evs
  dsimp only at h
  rw [if_neg (c := fingersChanged evs = true) (by rw [hc]; simp), hmove] at h
  rw [hmove]
  generalize (TouchState.afterFrames frames).activeTouches = old at *
  obtain ⟨f, l, rfl⟩ : ∃ f l, old = f :: l := by
    cases old with
    | nil => simp at h2
    | cons f l => exact ⟨f, l, rfl⟩
  have hne : f :: l ≠ [] := by simp
  have hlen : (moveFingers u v (f :: l)).length = (f :: l).length := List.length_map _
  rw [if_neg (by simp [moveFingers]), if_pos (by omega)] at h
  refine ⟨_, h, ?_⟩
  intro δ
  rw [gesture_toC, hp]
  dsimp only
  have hf : f.2 ≠ centroid (f :: l) := hfirst f rfl
  have hsp := spread_pos (List.mem_cons_self) hf
  have hw : (centroid (f :: l)).toC - f.2.toC ≠ 0 := by
    rw [sub_ne_zero]; exact fun e => hf (toC_inj.mp e.symm)
  have hδ : (⟨(centroid (moveFingers u v (f :: l))).x - (centroid (f :: l)).x,
      (centroid (moveFingers u v (f :: l))).y - (centroid (f :: l)).y⟩ : P2 ℝ).toC = δ := rfl
  have hh : heading (moveFingers u v (f :: l)) = (u * ((centroid (f :: l)).toC - f.2.toC)).arg := by
    show Complex.arg ((centroid (moveFingers u v (f :: l))).toC - (P2.ofC (u * f.2.toC + v)).toC) = _
    rw [centroid_move hne, ofC_toC]
    congr 1
    ring
  have hh' : heading (f :: l) = ((centroid (f :: l)).toC - f.2.toC).arg := rfl
  rw [hδ, hh, hh', spread_move hne, mul_div_assoc, div_self hsp.ne', mul_one, polar_ratio hw,
    centroid_move hne]
  have hδ' : δ = u * (centroid (f :: l)).toC + v - (centroid (f :: l)).toC := by
    show (centroid (moveFingers u v (f :: l))).toC - _ = _
    rw [centroid_move hne]
  rw [hδ']
  ring

/-- Any movement of two fingers that are at different places is a similarity. -/
theorem two_fingers_similarity {a b a' b' : P2 ℝ} (h : a ≠ b) (i j : Nat) :
    [(i, a'), (j, b')] = moveFingers ((b'.toC - a'.toC) / (b.toC - a.toC))
      (a'.toC - (b'.toC - a'.toC) / (b.toC - a.toC) * a.toC) [(i, a), (j, b)] := by
  have hne : b.toC - a.toC ≠ 0 := by
    rw [sub_ne_zero]; exact fun e => h (toC_inj.mp e.symm)
  unfold moveFingers
  simp only [List.map_cons, List.map_nil]
  have e1 : P2.ofC ((b'.toC - a'.toC) / (b.toC - a.toC) * a.toC
      + (a'.toC - (b'.toC - a'.toC) / (b.toC - a.toC) * a.toC)) = a' := by
    rw [← toC_inj, ofC_toC]; ring
  have e2 : P2.ofC ((b'.toC - a'.toC) / (b.toC - a.toC) * b.toC
      + (a'.toC - (b'.toC - a'.toC) / (b.toC - a.toC) * a.toC)) = b' := by
    rw [← toC_inj, ofC_toC]; field_simp; ring
  rw [e1, e2]

/-- **C96 (partial).** Two fingers move from different places `a`, `b` to `a'`, `b'`.  What was under the first
is under it again exactly if the centre of the fingers did not move or the fingers moved without turning and
spreading. -/
theorem C96_two_fingers_partial (frames : List (List (TouchEvent ℝ))) (evs : List (TouchEvent ℝ))
    (hc : fingersChanged evs = false) {i j : Nat} {a b a' b' : P2 ℝ} (hab : a ≠ b)
    (hold : (TouchState.afterFrames frames).activeTouches = [(i, a), (j, b)])
    (hnow : (TouchState.afterFrames (frames ++ [evs])).activeTouches = [(i, a'), (j, b')])
    {camera : Affine ℝ} {p : P2 ℝ} (hp : camera.apply p = a) :
    ∃ info, (TouchState.afterFrames (frames ++ [evs])).info = some info ∧
      ((gestureTransform info camera).apply p = a' ↔
        a.toC + b.toC = a'.toC + b'.toC ∨ b'.toC - a'.toC = b.toC - a.toC) := by
  have hcen : ∀ (x y : P2 ℝ), (centroid [(i, x), (j, y)]).toC = (x.toC + y.toC) / 2 := by
    intro x y
    rw [centroid_toC]
    simp
  have hne : b.toC - a.toC ≠ 0 := by
    rw [sub_ne_zero]; exact fun e => hab (toC_inj.mp e.symm)
  have hfirst : ∀ t, (TouchState.afterFrames frames).activeTouches.head? = some t →
      t.2 ≠ centroid (TouchState.afterFrames frames).activeTouches := by
    intro t ht e
    rw [hold] at ht e
    cases ht
    rw [← toC_inj, hcen] at e
    apply hne
    linear_combination (-2) * e
  obtain ⟨info, h1, h2⟩ := C96_similarity_partial frames evs hc
    (u := (b'.toC - a'.toC) / (b.toC - a.toC))
    (v := a'.toC - (b'.toC - a'.toC) / (b.toC - a.toC) * a.toC)
    (by rw [hold, hnow]; exact two_fingers_similarity hab i j) (by rw [hold]; simp) hfirst
    (t := (i, a)) (by rw [hold]; simp) hp
  refine ⟨info, h1, ?_⟩
  dsimp only at h2
  rw [hold, hnow, hcen, hcen] at h2
  rw [← toC_inj, h2]
  have key : (b'.toC - a'.toC) / (b.toC - a.toC) * a.toC
      + (a'.toC - (b'.toC - a'.toC) / (b.toC - a.toC) * a.toC)
      + ((a'.toC + b'.toC) / 2 - (a.toC + b.toC) / 2
        - (b'.toC - a'.toC) / (b.toC - a.toC) * ((a'.toC + b'.toC) / 2 - (a.toC + b.toC) / 2))
      = a'.toC + ((a'.toC + b'.toC) - (a.toC + b.toC)) / 2
        * (((b.toC - a.toC) - (b'.toC - a'.toC)) / (b.toC - a.toC)) := by
    field_simp
    ring
  rw [key]
  constructor
  · intro e
    have e' : ((a'.toC + b'.toC) - (a.toC + b.toC)) / 2
        * (((b.toC - a.toC) - (b'.toC - a'.toC)) / (b.toC - a.toC)) = 0 := by linear_combination e
    rcases mul_eq_zero.mp e' with e' | e'
    · left; linear_combination -2 * e'
    · right
      rcases div_eq_zero_iff.mp e' with e' | e'
      · linear_combination -e'
      · exact absurd e' hne
  · rintro (e | e)
    · rw [e]; ring
    · rw [e]; ring

/-- **C96.** The picture follows one finger. -/
theorem C96_one_finger (frames : List (List (TouchEvent ℝ))) (evs : List (TouchEvent ℝ))
    (hc : fingersChanged evs = false) {i : Nat} {a a' : P2 ℝ}
    (hold : (TouchState.afterFrames frames).activeTouches = [(i, a)])
    (hnow : (TouchState.afterFrames (frames ++ [evs])).activeTouches = [(i, a')])
    {camera : Affine ℝ} :
    ∃ info, (TouchState.afterFrames (frames ++ [evs])).info = some info ∧
      ∀ p, (gestureTransform info camera).apply p
        = ⟨(camera.apply p).x + (a'.x - a.x), (camera.apply p).y + (a'.y - a.y)⟩ := by
  have h := C95_info frames evs
  dsimp only at h
  rw [if_neg (c := fingersChanged evs = true) (by rw [hc]; simp), hold, hnow, if_neg (by simp), if_neg (by simp)] at h
  refine ⟨_, h, fun p => ?_⟩
  have hcen : ∀ x : P2 ℝ, centroid [(i, x)] = x := by intro x; simp [centroid]
  have hh : ∀ x : P2 ℝ, heading [(i, x)] = 0 := by
    intro x
    show Complex.arg ((centroid [(i, x)]).toC - x.toC) = 0
    rw [hcen, sub_self, Complex.arg_zero]
  rw [← toC_inj, gesture_toC]
  dsimp only
  rw [hh, hh, hcen, hcen, sub_self, Real.cos_zero, Real.sin_zero]
  apply Complex.ext
  · simp [P2.toC]; ring
  · simp [P2.toC]; ring

/-- **C96 is false of the code**: one finger rests at the origin, another moves away from it; then what was
under the resting finger is not there any more. -/
theorem C96_counterexample :
    ∃ i, (TouchState.afterFrames (F := ℝ) ([[⟨0, .started, ⟨0, 0⟩⟩, ⟨1, .started, ⟨2, 0⟩⟩]] ++
        [[⟨1, .moved, ⟨4, 0⟩⟩]])).info = some i ∧
      (gestureTransform i Affine.identity).apply ⟨0, 0⟩ ≠ ⟨0, 0⟩ := by
  obtain ⟨i, h1, h2⟩ := C96_two_fingers_partial [[⟨0, .started, ⟨0, 0⟩⟩, ⟨1, .started, ⟨2, 0⟩⟩]]
    [⟨1, .moved, ⟨4, 0⟩⟩] rfl (i := 0) (j := 1) (a := ⟨0, 0⟩) (b := ⟨2, 0⟩) (a' := ⟨0, 0⟩) (b' := ⟨4, 0⟩)
    (by rw [Ne, P2.mk.injEq]; norm_num) rfl rfl (camera := Affine.identity) (p := ⟨0, 0⟩)
    (by simp [Affine.apply, Affine.identity])
  refine ⟨i, h1, fun e => ?_⟩
  rcases h2.mp e with h | h <;>
  · have := congrArg Complex.re h
    simp at this

/-- Two fingers turn by a right angle about their centre and move apart: what was under them still is. -/
example : ∃ i, (TouchState.afterFrames (F := ℝ) ([[⟨0, .started, ⟨-1, 0⟩⟩, ⟨1, .started, ⟨1, 0⟩⟩]] ++
        [[⟨0, .moved, ⟨0, -2⟩⟩, ⟨1, .moved, ⟨0, 2⟩⟩]])).info = some i ∧
      (gestureTransform i Affine.identity).apply ⟨-1, 0⟩ = ⟨0, -2⟩ := by
  obtain ⟨i, h1, h2⟩ := C96_two_fingers_partial [[⟨0, .started, ⟨-1, 0⟩⟩, ⟨1, .started, ⟨1, 0⟩⟩]]
    [⟨0, .moved, ⟨0, -2⟩⟩, ⟨1, .moved, ⟨0, 2⟩⟩] rfl (i := 0) (j := 1) (a := ⟨-1, 0⟩) (b := ⟨1, 0⟩)
    (a' := ⟨0, -2⟩) (b' := ⟨0, 2⟩)
    (by rw [Ne, P2.mk.injEq]; norm_num) rfl rfl (camera := Affine.identity) (p := ⟨-1, 0⟩)
    (by simp [Affine.apply, Affine.identity])
  exact ⟨i, h1, h2.mpr (.inl (by apply Complex.ext <;> simp))⟩

/-- One finger is dragged. -/
example : ∃ i, (TouchState.afterFrames (F := ℝ) ([[⟨5, .started, ⟨1, 1⟩⟩]] ++
        [[⟨5, .moved, ⟨4, 5⟩⟩]])).info = some i ∧
      (gestureTransform i Affine.identity).apply ⟨1, 1⟩ = ⟨4, 5⟩ := by
  obtain ⟨i, h1, h2⟩ := C96_one_finger [[⟨5, .started, ⟨1, 1⟩⟩]] [⟨5, .moved, ⟨4, 5⟩⟩] rfl (i := 5)
    (a := ⟨1, 1⟩) (a' := ⟨4, 5⟩) rfl rfl (camera := Affine.identity)
  refine ⟨i, h1, ?_⟩
  rw [h2]
  norm_num [Affine.apply, Affine.identity]

end Velato
