import Verif.Spec.Viewer
import Verif.Proofs.Touch
import Verif.Proofs.RenderLayer

/-!
# Lemmas about the window of the example application
-/

namespace Velato
open FloatOps (lit)

section
variable {F : Type} [FloatOps F] [Libm F] [Atan2 F] {n : Nat}

theorem Viewer.run_cons {v v' : Viewer F} {e : ViewerEvent F} {es : List (ViewerEvent F)}
    {fs : List (ViewerFrame F)} :
    v.run n (e :: es) = .ok (v', fs) ↔ ∃ v1 f fs', v.step n e = .ok (v1, f) ∧ v1.run n es = .ok (v', fs') ∧
      fs = f.toList ++ fs' := by
  constructor
  · intro h
    unfold Viewer.run at h
    cases hs : v.step n e with
    | error x => rw [hs] at h; cases h
    | ok p =>
      obtain ⟨v1, f⟩ := p
      rw [hs] at h
      change (v1.run n es >>= _) = _ at h
      cases hr : v1.run n es with
      | error x => rw [hr] at h; cases h
      | ok q =>
        obtain ⟨v2, fs'⟩ := q
        rw [hr] at h
        cases h
        exact ⟨v1, f, fs', rfl, hr, rfl⟩
  · rintro ⟨v1, f, fs', hs, hr, rfl⟩
    unfold Viewer.run
    rw [hs]
    show (v1.run n es >>= _) = _
    rw [hr]
    rfl

theorem Viewer.run_append {v v' : Viewer F} {es es' : List (ViewerEvent F)} {fs : List (ViewerFrame F)} :
    v.run n (es ++ es') = .ok (v', fs) ↔ ∃ v1 fs1 fs2, v.run n es = .ok (v1, fs1) ∧
      v1.run n es' = .ok (v', fs2) ∧ fs = fs1 ++ fs2 := by
  induction es generalizing v fs with
  | nil =>
    constructor
    · exact fun h => ⟨v, [], fs, rfl, h, rfl⟩
    · rintro ⟨v1, fs1, fs2, h1, h2, rfl⟩
      cases h1
      exact h2
  | cons e es ih =>
    rw [List.cons_append, Viewer.run_cons]
    constructor
    · rintro ⟨v1, f, fs', hs, hr, rfl⟩
      obtain ⟨v2, fs1, fs2, h1, h2, rfl⟩ := ih.mp hr
      exact ⟨v2, f.toList ++ fs1, fs2, Viewer.run_cons.mpr ⟨v1, f, fs1, hs, h1, rfl⟩, h2,
        (List.append_assoc _ _ _).symm⟩
    · rintro ⟨v1, fs1, fs2, h1, h2, rfl⟩
      obtain ⟨v0, f, fs', hs, hr, rfl⟩ := Viewer.run_cons.mp h1
      exact ⟨v0, f, fs' ++ fs2, hs, ih.mpr ⟨v1, fs', fs2, hr, h2, rfl⟩, List.append_assoc _ _ _⟩

/-- A frame is displayed by a redraw. -/
theorem Viewer.step_frame {v v' : Viewer F} {e : ViewerEvent F} {f : ViewerFrame F}
    (h : v.step n e = .ok (v', some f)) : ∃ r l m, e = .redraw r l m ∧ v.onRedraw n r l m = .ok (v', f) := by
  cases e with
  | redraw r l m =>
    change (v.onRedraw n r l m >>= _) = _ at h
    cases hr : v.onRedraw n r l m with
    | error x => rw [hr] at h; cases h
    | ok p => rw [hr] at h; cases h; exact ⟨r, l, m, rfl, hr⟩
  | arrowUp => unfold Viewer.step at h; dsimp only at h; split_ifs at h; cases h
  | _ => cases h

theorem Viewer.step_redraw {v v' : Viewer F} {r : Option (P2 F)} {l : Nat} {m : Option Nat}
    {f : Option (ViewerFrame F)} (h : v.step n (.redraw r l m) = .ok (v', f)) :
    ∃ f', f = some f' ∧ v.onRedraw n r l m = .ok (v', f') := by
  change (v.onRedraw n r l m >>= _) = _ at h
  cases hr : v.onRedraw n r l m with
  | error x => rw [hr] at h; cases h
  | ok p => rw [hr] at h; cases h; exact ⟨_, rfl, rfl⟩

/-- The frames of a run. -/
theorem Viewer.run_frame {v v' : Viewer F} {es : List (ViewerEvent F)} {fs : List (ViewerFrame F)}
    (h : v.run n es = .ok (v', fs)) {f : ViewerFrame F} (hf : f ∈ fs) :
    ∃ es1 r l m es2 v1 fs1 v2, es = es1 ++ .redraw r l m :: es2 ∧ v.run n es1 = .ok (v1, fs1) ∧
      v1.onRedraw n r l m = .ok (v2, f) := by
  induction es generalizing v fs with
  | nil => cases h; cases hf
  | cons e es ih =>
    obtain ⟨v1, o, fs', hs, hr, rfl⟩ := Viewer.run_cons.mp h
    rcases List.mem_append.mp hf with hf | hf
    · cases o with
      | none => cases hf
      | some g =>
        rw [Option.toList_some, List.mem_singleton] at hf
        subst hf
        obtain ⟨r, l, m, rfl, hr'⟩ := Viewer.step_frame hs
        exact ⟨[], r, l, m, es, v, [], v1, rfl, rfl, hr'⟩
    · obtain ⟨es1, r, l, m, es2, v2, fs1, v3, rfl, h1, h2⟩ := ih hr hf
      exact ⟨e :: es1, r, l, m, es2, v2, _, v3, rfl, Viewer.run_cons.mpr ⟨v1, o, fs1, hs, h1, rfl⟩, h2⟩

omit [Libm F] [Atan2 F] in
/-- What a redraw does. -/
theorem Viewer.onRedraw_ok {v v' : Viewer F} {r : Option (P2 F)} {l : Nat} {m : Option Nat}
    {f : ViewerFrame F} (h : v.onRedraw n r l m = .ok (v', f)) :
    n ≠ 0 ∧ v' = { v with
        sceneIx := v.sceneIx % (n : Int)
        aaConfigIx := v.aaConfigIx % 3
        transform := f.cameraTransform
        prevSceneIx := v.sceneIx % (n : Int)
        stats := v'.stats } ∧
      f.scene = (v.sceneIx % (n : Int)).toNat ∧ f.antialiasing = (v.aaConfigIx % 3).toNat ∧
      f.cameraTransform = (if v.prevSceneIx ≠ v.sceneIx % (n : Int) then Affine.identity else v.transform) ∧
      f.viewportSize = ⟨FloatOps.ofUsize v.width, FloatOps.ofUsize v.height⟩ ∧
      f.transform = displayTransform f.cameraTransform f.viewportSize r ∧
      f.cursorPosition = v.priorPosition ∧ f.complexity = v.complexity ∧
      v.panel l = .ok f.panel ∧ v.sample m = .ok v'.stats := by
  unfold Viewer.onRedraw at h
  dsimp only at h
  split_ifs at h with hn hi ha
  all_goals
    cases hp : v.panel l with
    | error e => rw [hp] at h; cases h
    | ok panel =>
      rw [hp] at h
      change (v.sample m >>= _) = _ at h
      cases hs : v.sample m with
      | error e => rw [hs] at h; cases h
      | ok stats =>
        rw [hs] at h
        cases h
        refine ⟨hn, rfl, rfl, rfl, ?_, rfl, rfl, rfl, rfl, rfl, rfl⟩
        simp_all

end


/-! ## The camera -/

theorem Affine.IsSimilarity.mul {m k : Affine ℝ} (h : m.IsSimilarity) (h' : k.IsSimilarity) :
    (m.mul k).IsSimilarity := by
  obtain ⟨h1, h2⟩ := h
  obtain ⟨h3, h4⟩ := h'
  constructor <;> simp only [Affine.mul, real_add, real_mul, h1, h2, h3, h4] <;> ring

theorem Affine.IsSimilarity.identity : (Affine.identity : Affine ℝ).IsSimilarity := by
  constructor <;> simp [Affine.identity]

theorem Affine.IsSimilarity.translate (p : P2 ℝ) : (Affine.translate p).IsSimilarity := by
  constructor <;> simp [Affine.translate]

theorem Affine.IsSimilarity.scale (s : ℝ) : (Affine.scale s).IsSimilarity := by
  constructor <;> simp [Affine.scale, Affine.scaleNonUniform]

theorem Affine.IsSimilarity.rotate (a : ℝ) : (Affine.rotate a).IsSimilarity := by
  constructor <;> simp [Affine.rotate]

theorem Affine.det_mul (m k : Affine ℝ) : (m.mul k).det = m.det * k.det := by
  simp only [Affine.det, Affine.mul, real_add, real_mul]; ring

theorem det_aboutPoint (p : P2 ℝ) (m t : Affine ℝ) : (aboutPoint p m t).det = m.det * t.det := by
  unfold aboutPoint
  simp only [Affine.det_mul]
  have h : ∀ q : P2 ℝ, (Affine.translate q).det = 1 := by intro q; simp [Affine.det, Affine.translate]
  rw [h, h]; ring

theorem det_translate (q : P2 ℝ) : (Affine.translate q).det = 1 := by simp [Affine.det, Affine.translate]

theorem det_rotate (a : ℝ) : (Affine.rotate a).det = 1 := by
  have h := Real.sin_sq_add_cos_sq a
  have hs : Libm.sin a = Real.sin a := rfl
  have hc : Libm.cos a = Real.cos a := rfl
  simp only [Affine.det, Affine.rotate, real_neg, hs, hc]
  linear_combination h

theorem det_scale (s : ℝ) : (Affine.scale s).det = s ^ 2 := by
  simp [Affine.det, Affine.scale, Affine.scaleNonUniform]; ring

theorem det_gesture (i : MultiTouchInfo ℝ) (t : Affine ℝ) :
    (gestureTransform i t).det = i.zoomDelta ^ 2 * t.det := by
  unfold gestureTransform
  simp only [Affine.det_mul, det_translate, det_rotate, det_scale]
  ring

theorem onTouch_transform (v : Viewer ℝ) (e : TouchEvent ℝ) : (v.onTouch e).transform = v.transform := by
  obtain ⟨id, ph, loc⟩ := e
  unfold Viewer.onTouch
  cases ph <;> dsimp only <;> split_ifs <;> rfl

theorem step_similarity {n : Nat} {v v' : Viewer ℝ} {e : ViewerEvent ℝ} {f : Option (ViewerFrame ℝ)}
    (hv : v.transform.IsSimilarity) (h : v.step n e = .ok (v', f)) : v'.transform.IsSimilarity := by
  cases e with
  | redraw r l m =>
    obtain ⟨f', -, h⟩ := Viewer.step_redraw h
    obtain ⟨-, h1, -, -, h2, -⟩ := Viewer.onRedraw_ok h
    rw [h1]
    show f'.cameraTransform.IsSimilarity
    rw [h2]
    split_ifs
    · exact .identity
    · exact hv
  | arrowUp =>
    unfold Viewer.step at h; dsimp only at h; split_ifs at h; cases h; exact hv
  | space => cases h; exact .identity
  | rotate c =>
    cases h
    cases hp : v.priorPosition with
    | none => exact hv
    | some p => exact (((Affine.IsSimilarity.translate _).mul (.rotate _)).mul (.translate _)).mul hv
  | mouseWheel d =>
    cases h
    cases hp : v.priorPosition with
    | none => exact hv
    | some p => exact (((Affine.IsSimilarity.translate _).mul (.scale _)).mul (.translate _)).mul hv
  | cursorMoved p =>
    cases h
    dsimp only
    split
    · exact (Affine.IsSimilarity.translate _).mul hv
    · exact hv
  | touch e => cases h; rw [onTouch_transform]; exact hv
  | aboutToWait =>
    cases h
    dsimp only
    split
    · exact (((((Affine.IsSimilarity.translate _).mul (.translate _)).mul (.scale _)).mul
        (.rotate _)).mul (.translate _)).mul hv
    · exact hv
  | _ => cases h; exact hv

theorem run_similarity {n : Nat} {v v' : Viewer ℝ} {es : List (ViewerEvent ℝ)} {fs : List (ViewerFrame ℝ)}
    (hv : v.transform.IsSimilarity) (h : v.run n es = .ok (v', fs)) : v'.transform.IsSimilarity := by
  induction es generalizing v fs with
  | nil => cases h; exact hv
  | cons e es ih =>
    obtain ⟨v1, f, fs', hs, hr, rfl⟩ := Viewer.run_cons.mp h
    exact ih (step_similarity hv hs) hr

theorem aboutPoint_toC (p : P2 ℝ) (m t : Affine ℝ) (h : m.IsSimilarity) (h0 : m.e = 0 ∧ m.f = 0) (q : P2 ℝ) :
    ((aboutPoint p m t).apply q).toC - p.toC = (⟨m.a, m.b⟩ : ℂ) * ((t.apply q).toC - p.toC) := by
  obtain ⟨h1, h2⟩ := h
  unfold aboutPoint
  apply Complex.ext <;>
  · simp only [toC_re, toC_im, Affine.apply, Affine.mul, Affine.translate, real_add, real_mul, real_neg,
      real_lit, Complex.mul_re, Complex.mul_im, Complex.sub_re, Complex.sub_im, h1, h2, h0.1, h0.2]
    push_cast
    ring

/-! ## The camera is invertible -/

theorem spread_apart {l : List (Nat × P2 ℝ)} (h : FingersApart l) (h2 : 1 < l.length) : 0 < spread l := by
  obtain ⟨t, ht, hne⟩ : ∃ t ∈ l, t.2 ≠ centroid l := by
    by_contra hcon
    push Not at hcon
    exact h h2 ⟨_, hcon⟩
  exact spread_pos ht hne

/-- What is known of the gesture between two events. -/
def GestureApart (s : TouchState ℝ) : Prop :=
  match s.gestureState with
  | none => s.addedOrRemovedTouches = false → s.activeTouches = []
  | some g => ∃ l, g.current = dynOf l ∧ FingersApart l ∧
      (s.addedOrRemovedTouches = false → s.activeTouches.length = l.length)

theorem GestureApart.addEvent {s : TouchState ℝ} (h : GestureApart s) (e : TouchEvent ℝ) :
    GestureApart (s.addEvent e) := by
  obtain ⟨h1, h2⟩ := addEvent_gesture s e
  unfold GestureApart at h ⊢
  rw [h1]
  cases hg : s.gestureState with
  | none =>
    rw [hg] at h
    intro hc
    rw [h2, Bool.or_eq_false_iff] at hc
    obtain ⟨k, ph, loc⟩ := e
    have : ph = .moved := by simpa using hc.2
    subst this
    show mapUpdate _ _ s.activeTouches = []
    rw [h hc.1]; rfl
  | some g =>
    rw [hg] at h
    obtain ⟨l, h3, h4, h5⟩ := h
    refine ⟨l, h3, h4, fun hc => ?_⟩
    rw [h2, Bool.or_eq_false_iff] at hc
    obtain ⟨k, ph, loc⟩ := e
    have : ph = .moved := by simpa using hc.2
    subst this
    show (mapUpdate _ _ s.activeTouches).length = _
    unfold mapUpdate
    rw [List.length_map, h5 hc.1]

theorem GestureApart.endFrame {s : TouchState ℝ} (h : GestureApart s) (ha : FingersApart s.activeTouches) :
    GestureApart s.endFrame ∧ ∀ i, s.endFrame.info = some i → i.zoomDelta ≠ 0 := by
  have hd := real_dynamic s
  by_cases hn : s.activeTouches = []
  · rw [if_pos hn] at hd
    have e : s.endFrame = ⟨[], none, false⟩ := by
      unfold TouchState.endFrame TouchState.updateGesture
      rw [hd, hn]
      dsimp only
      split_ifs <;> rfl
    rw [e]
    exact ⟨fun _ => rfl, fun i hi => by cases hi⟩
  rw [if_neg hn] at hd
  change s.calcDynamicState = some (dynOf s.activeTouches) at hd
  obtain ⟨pt, prev, e, hz⟩ : ∃ pt prev, s.endFrame = ⟨s.activeTouches, some ⟨pt, prev, dynOf s.activeTouches⟩, false⟩
      ∧ (1 < s.activeTouches.length → ∀ d, prev = some d → d.avgDistance ≠ 0) := by
    unfold TouchState.endFrame TouchState.updateGesture
    unfold GestureApart at h
    rw [hd]
    cases hg : s.gestureState with
    | none =>
      dsimp only
      refine ⟨PinchType.classify s.activeTouches, none, ?_, fun _ d h => by cases h⟩
      split_ifs <;> rfl
    | some g =>
      rw [hg] at h
      obtain ⟨l, h3, h4, h5⟩ := h
      cases hf : s.addedOrRemovedTouches with
      | true => exact ⟨g.pinchType, none, rfl, fun _ d h => by cases h⟩
      | false =>
        refine ⟨g.pinchType, some g.current, rfl, fun h1 d hd' => ?_⟩
        cases hd'
        rw [h3]
        exact (spread_apart h4 (by rw [← h5 hf]; exact h1)).ne'
  rw [e]
  refine ⟨⟨_, rfl, ha, fun _ => rfl⟩, fun i hi => ?_⟩
  cases hi
  show (if 1 < s.activeTouches.length then _ /. _ else (lit 1 : ℝ)) ≠ 0
  split_ifs with h1
  · rw [real_div]
    refine div_ne_zero (spread_apart ha h1).ne' ?_
    cases prev with
    | none => exact (spread_apart ha h1).ne'
    | some d => exact hz h1 d rfl
  · rw [real_lit]; norm_num

/-- What is known of the camera between two events. -/
structure CameraOk (v : Viewer ℝ) : Prop where
  det : v.transform.det ≠ 0
  gesture : GestureApart v.touchState

theorem det_identity : (Affine.identity : Affine ℝ).det = 1 := by simp [Affine.det, Affine.identity]

theorem onTouch_gesture {v : Viewer ℝ} (e : TouchEvent ℝ) (h : GestureApart v.touchState) :
    GestureApart (v.onTouch e).touchState := by
  have hk := h.addEvent e
  obtain ⟨id, ph, loc⟩ := e
  unfold Viewer.onTouch
  cases ph <;> dsimp only <;> split_ifs <;> first | exact h | exact hk

theorem cameraOk_step {n : Nat} {v v' : Viewer ℝ} {e : ViewerEvent ℝ} {f : Option (ViewerFrame ℝ)}
    (hv : CameraOk v) (ha : e = .aboutToWait → FingersApart v.touchState.activeTouches)
    (h : v.step n e = .ok (v', f)) : CameraOk v' := by
  obtain ⟨hd, hg⟩ := hv
  cases e with
  | redraw r l m =>
    obtain ⟨f', -, h⟩ := Viewer.step_redraw h
    obtain ⟨-, h1, -, -, h2, -⟩ := Viewer.onRedraw_ok h
    rw [h1]
    refine ⟨?_, hg⟩
    show f'.cameraTransform.det ≠ 0
    rw [h2]
    split_ifs
    · rw [det_identity]; exact one_ne_zero
    · exact hd
  | arrowUp =>
    unfold Viewer.step at h; dsimp only at h; split_ifs at h; cases h; exact ⟨hd, hg⟩
  | space => cases h; exact ⟨by rw [det_identity]; exact one_ne_zero, hg⟩
  | rotate c =>
    cases h
    cases hp : v.priorPosition with
    | none => exact ⟨hd, hg⟩
    | some p =>
      refine ⟨?_, hg⟩
      show (aboutPoint _ _ _).det ≠ 0
      rw [det_aboutPoint, det_rotate, one_mul]; exact hd
  | mouseWheel d =>
    cases h
    cases hp : v.priorPosition with
    | none => exact ⟨hd, hg⟩
    | some p =>
      refine ⟨?_, hg⟩
      show (aboutPoint _ (Affine.scale (Libm.powf (lit (105 / 100) : ℝ) _)) _).det ≠ 0
      rw [det_aboutPoint, det_scale]
      refine mul_ne_zero (pow_ne_zero _ ?_) hd
      have hb : (lit (105 / 100) : ℝ) = 1.05 := by rw [real_lit]; norm_num
      rw [hb]
      exact (Real.rpow_pos_of_pos (by norm_num) _).ne'
  | cursorMoved p =>
    cases h
    refine ⟨?_, hg⟩
    dsimp only
    split
    · rw [Affine.det_mul, det_translate, one_mul]; exact hd
    · exact hd
  | touch e => cases h; exact ⟨by rw [onTouch_transform]; exact hd, onTouch_gesture e hg⟩
  | aboutToWait =>
    cases h
    obtain ⟨h1, h2⟩ := hg.endFrame (ha rfl)
    refine ⟨?_, h1⟩
    dsimp only
    split
    · rename_i i hi
      rw [det_gesture]
      exact mul_ne_zero (pow_ne_zero _ (h2 i hi)) hd
    · exact hd
  | _ => cases h; exact ⟨hd, hg⟩

theorem cameraOk_run {n : Nat} {v v' : Viewer ℝ} {es : List (ViewerEvent ℝ)} {fs : List (ViewerFrame ℝ)}
    (hv : CameraOk v) (ha : ∀ es1 es2 v1 fs1, es = es1 ++ .aboutToWait :: es2 →
      v.run n es1 = .ok (v1, fs1) → FingersApart v1.touchState.activeTouches)
    (h : v.run n es = .ok (v', fs)) : CameraOk v' := by
  induction es generalizing v fs with
  | nil => cases h; exact hv
  | cons e es ih =>
    obtain ⟨v1, f, fs', hs, hr, rfl⟩ := Viewer.run_cons.mp h
    refine ih (cameraOk_step hv ?_ hs) ?_ hr
    · rintro rfl
      exact ha [] es v [] rfl rfl
    · rintro es1 es2 v2 fs1 rfl hr1
      exact ha (e :: es1) es2 v2 _ rfl (Viewer.run_cons.mpr ⟨v1, f, fs1, hs, hr1, rfl⟩)


/-! ## Scenes and statistics -/

theorem Int.emod_toNat_cast (x : Int) {n : Nat} (h : n ≠ 0) : ((x % (n : Int)).toNat : Int) = x % n :=
  Int.toNat_of_nonneg (Int.emod_nonneg _ (by exact_mod_cast h))

theorem i32Succ_small {x : Int} (h : |x| < 2 ^ 31 - 1) : i32Succ x = x + 1 := by
  rw [abs_lt] at h; unfold i32Succ i32Max; omega

theorem i32Pred_small {x : Int} (h : |x| < 2 ^ 31 - 1) : i32Pred x = x - 1 := by
  rw [abs_lt] at h; unfold i32Pred i32Min; omega

theorem onTouch_scene {v : Viewer ℝ} (h : |v.sceneIx| < 2 ^ 31 - 1) (e : TouchEvent ℝ) :
    (v.onTouch e).sceneIx = v.sceneIx + touchNavigates v.width v.height e := by
  obtain ⟨id, ph, loc⟩ := e
  unfold Viewer.onTouch touchNavigates
  cases ph with
  | started =>
    simp only [real_lt, real_mul, real_div, real_ofUsize, real_lit, decide_eq_true_eq, true_and,
      i32Succ_small h, i32Pred_small h]
    push_cast
    split_ifs <;> (simp_all; try omega)
  | _ => dsimp only; split_ifs <;> simp_all

theorem onTouch_rest (v : Viewer ℝ) (e : TouchEvent ℝ) : v.onTouch e = { v with
    touchState := (v.onTouch e).touchState
    navigationFingers := (v.onTouch e).navigationFingers
    sceneIx := (v.onTouch e).sceneIx } := by
  obtain ⟨id, ph, loc⟩ := e
  unfold Viewer.onTouch
  cases ph <;> dsimp only <;> split_ifs <;> rfl

theorem touchNavigates_le (w h : Nat) (e : TouchEvent ℝ) : |touchNavigates w h e| ≤ 1 := by
  unfold touchNavigates; split_ifs <;> simp

/-- What an event does to everything but the camera and the fingers. -/
theorem step_counts {n : Nat} {v v' : Viewer ℝ} {e : ViewerEvent ℝ} {f : Option (ViewerFrame ℝ)}
    (h : v.step n e = .ok (v', f)) :
    (v'.width, v'.height) = sizeAfter (v.width, v.height) [e] ∧
    v'.priorPosition = cursorAfter v.priorPosition [e] ∧
    v'.complexity = complexityAfter v.complexity [e] ∧
    v'.statsShown = (v.statsShown == statsVisible [e]) ∧
    (statsEvents [e]).foldlM Stats.step v.stats = .ok v'.stats := by
  cases e with
  | redraw r l m =>
    obtain ⟨f', -, h⟩ := Viewer.step_redraw h
    obtain ⟨-, h1, -, -, -, -, -, -, -, -, h2⟩ := Viewer.onRedraw_ok h
    refine ⟨by rw [h1]; rfl, by rw [h1]; rfl, by rw [h1]; rfl, by rw [h1]; simp [statsVisible], ?_⟩
    cases m with
    | none => exact h2
    | some m =>
      change v.stats.addSample m = _ at h2
      show (v.stats.addSample m >>= fun s => _) = _
      rw [h2]; rfl
  | arrowUp =>
    unfold Viewer.step at h; dsimp only at h; split_ifs at h; cases h
    exact ⟨rfl, rfl, rfl, by simp [statsVisible], rfl⟩
  | touch e =>
    cases h
    rw [onTouch_rest]
    exact ⟨rfl, rfl, rfl, by simp [statsVisible], rfl⟩
  | rotate c =>
    cases h
    cases hp : v.priorPosition
    · exact ⟨rfl, hp, rfl, by simp [statsVisible], rfl⟩
    · exact ⟨rfl, rfl, rfl, by simp [statsVisible], rfl⟩
  | mouseWheel c =>
    cases h
    cases hp : v.priorPosition
    · exact ⟨rfl, hp, rfl, by simp [statsVisible], rfl⟩
    · exact ⟨rfl, rfl, rfl, by simp [statsVisible], rfl⟩
  | toggleStats => cases h; exact ⟨rfl, rfl, rfl, by cases hs : v.statsShown <;> simp [statsVisible], rfl⟩
  | _ => cases h; exact ⟨rfl, rfl, rfl, by simp [statsVisible], rfl⟩

theorem sizeAfter_cons (s : Nat × Nat) (e : ViewerEvent ℝ) (es : List (ViewerEvent ℝ)) :
    sizeAfter s (e :: es) = sizeAfter (sizeAfter s [e]) es := by cases e <;> rfl

theorem cursorAfter_cons (s : Option (P2 ℝ)) (e : ViewerEvent ℝ) (es : List (ViewerEvent ℝ)) :
    cursorAfter s (e :: es) = cursorAfter (cursorAfter s [e]) es := by cases e <;> rfl

theorem complexityAfter_cons (s : Nat) (e : ViewerEvent ℝ) (es : List (ViewerEvent ℝ)) :
    complexityAfter s (e :: es) = complexityAfter (complexityAfter s [e]) es := by cases e <;> rfl

theorem statsVisible_cons (e : ViewerEvent ℝ) (es : List (ViewerEvent ℝ)) :
    statsVisible (e :: es) = (statsVisible [e] == statsVisible es) := by
  cases e <;> simp [statsVisible]

theorem statsEvents_append (a b : List (ViewerEvent ℝ)) :
    statsEvents (a ++ b) = statsEvents a ++ statsEvents b := by
  unfold statsEvents; rw [List.filterMap_append]

theorem run_counts {n : Nat} {v v' : Viewer ℝ} {es : List (ViewerEvent ℝ)} {fs : List (ViewerFrame ℝ)}
    (h : v.run n es = .ok (v', fs)) :
    (v'.width, v'.height) = sizeAfter (v.width, v.height) es ∧
    v'.priorPosition = cursorAfter v.priorPosition es ∧
    v'.complexity = complexityAfter v.complexity es ∧
    v'.statsShown = (v.statsShown == statsVisible es) ∧
    (statsEvents es).foldlM Stats.step v.stats = .ok v'.stats := by
  induction es generalizing v fs with
  | nil => cases h; exact ⟨rfl, rfl, rfl, by simp [statsVisible], rfl⟩
  | cons e es ih =>
    obtain ⟨v1, f, fs', hs, hr, rfl⟩ := Viewer.run_cons.mp h
    obtain ⟨h1, h2, h3, h4, h5⟩ := step_counts hs
    obtain ⟨k1, k2, k3, k4, k5⟩ := ih hr
    refine ⟨?_, ?_, ?_, ?_, ?_⟩
    · rw [sizeAfter_cons, ← h1]; exact k1
    · rw [cursorAfter_cons, ← h2]; exact k2
    · rw [complexityAfter_cons, ← h3]; exact k3
    · rw [k4, h4, statsVisible_cons e es]
      cases v.statsShown <;> cases statsVisible [e] <;> cases statsVisible es <;> rfl
    · rw [show e :: es = [e] ++ es from rfl, statsEvents_append, List.foldlM_append, h5]
      exact k5

/-- What an event does to the choice of the scene. -/
theorem step_scene {n : Nat} {v v' : Viewer ℝ} {e : ViewerEvent ℝ} {f : Option (ViewerFrame ℝ)}
    (h : v.step n e = .ok (v', f)) (hv : |v.sceneIx| < 2 ^ 31 - 1) :
    v'.sceneIx ≡ v.sceneIx + navigation v.width v.height [e] [ZMOD n] ∧ |v'.sceneIx| ≤ max (|v.sceneIx| + 1) n := by
  have keep : ∀ x : Int, |x| ≤ max (|x| + 1) n := fun x => le_max_of_le_left (by omega)
  cases e with
  | redraw r l m =>
    obtain ⟨f', -, h⟩ := Viewer.step_redraw h
    obtain ⟨hn, h1, -⟩ := Viewer.onRedraw_ok h
    rw [h1]
    refine ⟨?_, ?_⟩
    · show v.sceneIx % (n : Int) ≡ v.sceneIx + 0 [ZMOD n]
      rw [add_zero]
      exact Int.mod_modEq _ _
    · show |v.sceneIx % (n : Int)| ≤ _
      have h2 := Int.emod_nonneg v.sceneIx (b := n) (by exact_mod_cast hn)
      have h3 := Int.emod_lt_of_pos v.sceneIx (b := n) (by omega)
      rw [abs_of_nonneg h2]
      exact le_max_of_le_right h3.le
  | arrowLeft =>
    cases h
    refine ⟨?_, ?_⟩
    · show i32Pred v.sceneIx ≡ _ [ZMOD n]
      rw [i32Pred_small hv]
      show _ ≡ v.sceneIx + (0 - 1) [ZMOD n]
      rw [show v.sceneIx + (0 - 1) = v.sceneIx - 1 by omega]
    · show |i32Pred v.sceneIx| ≤ _
      rw [i32Pred_small hv]
      refine le_max_of_le_left ((abs_sub _ _).trans ?_)
      simp
  | arrowRight =>
    cases h
    refine ⟨?_, ?_⟩
    · show i32Succ v.sceneIx ≡ _ [ZMOD n]
      rw [i32Succ_small hv]
      show _ ≡ v.sceneIx + (0 + 1) [ZMOD n]
      rw [zero_add]
    · show |i32Succ v.sceneIx| ≤ _
      rw [i32Succ_small hv]
      refine le_max_of_le_left ((abs_add_le _ _).trans ?_)
      simp
  | touch e =>
    cases h
    rw [onTouch_scene hv]
    refine ⟨?_, ?_⟩
    · show _ ≡ v.sceneIx + (0 + touchNavigates v.width v.height e) [ZMOD n]
      rw [zero_add]
    · refine le_max_of_le_left ((abs_add_le _ _).trans ?_)
      have := touchNavigates_le v.width v.height e
      omega
  | arrowUp =>
    unfold Viewer.step at h; dsimp only at h; split_ifs at h; cases h
    exact ⟨by show _ ≡ v.sceneIx + 0 [ZMOD n]; rw [add_zero], keep _⟩
  | rotate c =>
    cases h
    cases v.priorPosition <;> exact ⟨by show _ ≡ v.sceneIx + 0 [ZMOD n]; rw [add_zero], keep _⟩
  | mouseWheel c =>
    cases h
    cases v.priorPosition <;> exact ⟨by show _ ≡ v.sceneIx + 0 [ZMOD n]; rw [add_zero], keep _⟩
  | _ => cases h; exact ⟨by show _ ≡ v.sceneIx + 0 [ZMOD n]; rw [add_zero], keep _⟩

theorem navigation_cons (w h : Nat) (e : ViewerEvent ℝ) (es : List (ViewerEvent ℝ)) :
    navigation w h (e :: es) = navigation w h [e]
      + navigation (sizeAfter (w, h) [e]).1 (sizeAfter (w, h) [e]).2 es := by
  cases e <;> simp [navigation, sizeAfter] <;> omega

theorem run_scene {n : Nat} {v v' : Viewer ℝ} {es : List (ViewerEvent ℝ)} {fs : List (ViewerFrame ℝ)}
    (h : v.run n es = .ok (v', fs)) (hv : max |v.sceneIx| n + es.length ≤ 2 ^ 31 - 1) :
    v'.sceneIx ≡ v.sceneIx + navigation v.width v.height es [ZMOD n] := by
  induction es generalizing v fs with
  | nil => cases h; show _ ≡ _ + 0 [ZMOD n]; rw [add_zero]
  | cons e es ih =>
    obtain ⟨v1, f, fs', hs, hr, rfl⟩ := Viewer.run_cons.mp h
    rw [List.length_cons] at hv
    push_cast at hv
    obtain ⟨h1, h2⟩ := step_scene hs (by omega)
    obtain ⟨h3, -⟩ := step_counts hs
    have h4 := ih hr (by omega)
    rw [navigation_cons, ← h3]
    dsimp only
    have := h1.add_right (navigation v1.width v1.height es)
    rw [add_assoc] at this
    exact h4.trans this

/-- What an event does to the antialiasing. -/
theorem step_antialiasing {n : Nat} {v v' : Viewer ℝ} {e : ViewerEvent ℝ} {f : Option (ViewerFrame ℝ)}
    (h : v.step n e = .ok (v', f)) (hv : |v.aaConfigIx| < 2 ^ 31 - 1) :
    v'.aaConfigIx ≡ v.aaConfigIx + antialiasingSteps v.shift [e] [ZMOD 3] ∧
      |v'.aaConfigIx| ≤ max (|v.aaConfigIx| + 1) 3 ∧
      ∀ es, antialiasingSteps v.shift (e :: es)
        = antialiasingSteps v.shift [e] + antialiasingSteps v'.shift es := by
  have keep : ∀ x : Int, |x| ≤ max (|x| + 1) 3 := fun x => le_max_of_le_left (by omega)
  have z : v.aaConfigIx ≡ v.aaConfigIx + 0 [ZMOD 3] := by rw [add_zero]
  cases e with
  | redraw r l m =>
    obtain ⟨f', -, h⟩ := Viewer.step_redraw h
    obtain ⟨hn, h1, -⟩ := Viewer.onRedraw_ok h
    rw [h1]
    refine ⟨?_, ?_, fun es => ?_⟩
    · show v.aaConfigIx % 3 ≡ v.aaConfigIx + 0 [ZMOD 3]
      rw [add_zero]
      exact Int.mod_modEq _ _
    · show |v.aaConfigIx % 3| ≤ _
      rw [abs_of_nonneg (by omega)]
      omega
    · simp [antialiasingSteps]
  | nextAntialiasing =>
    cases h
    refine ⟨?_, ?_, fun es => ?_⟩
    · show (if v.shift then i32Pred v.aaConfigIx else i32Succ v.aaConfigIx)
        ≡ v.aaConfigIx + (0 + if v.shift then -1 else 1) [ZMOD 3]
      rw [i32Succ_small hv, i32Pred_small hv, zero_add]
      split_ifs
      · rfl
      · rfl
    · show |if v.shift then i32Pred v.aaConfigIx else i32Succ v.aaConfigIx| ≤ _
      rw [i32Succ_small hv, i32Pred_small hv]
      have h1 := abs_sub v.aaConfigIx 1
      have h2 := abs_add_le v.aaConfigIx 1
      rw [abs_one] at h1 h2
      split_ifs <;> omega
    · simp only [antialiasingSteps]; omega
  | arrowUp =>
    unfold Viewer.step at h; dsimp only at h; split_ifs at h; cases h
    exact ⟨z, keep _, fun es => by simp [antialiasingSteps]⟩
  | touch e =>
    cases h
    rw [onTouch_rest]
    exact ⟨z, keep _, fun es => by simp [antialiasingSteps]⟩
  | rotate c =>
    cases h
    cases v.priorPosition <;> exact ⟨z, keep _, fun es => by simp [antialiasingSteps]⟩
  | mouseWheel c =>
    cases h
    cases v.priorPosition <;> exact ⟨z, keep _, fun es => by simp [antialiasingSteps]⟩
  | _ => cases h; exact ⟨z, keep _, fun es => by simp [antialiasingSteps]⟩

theorem run_antialiasing {n : Nat} {v v' : Viewer ℝ} {es : List (ViewerEvent ℝ)} {fs : List (ViewerFrame ℝ)}
    (h : v.run n es = .ok (v', fs)) (hv : max |v.aaConfigIx| 3 + es.length ≤ 2 ^ 31 - 1) :
    v'.aaConfigIx ≡ v.aaConfigIx + antialiasingSteps v.shift es [ZMOD 3] := by
  induction es generalizing v fs with
  | nil => cases h; show _ ≡ _ + 0 [ZMOD 3]; rw [add_zero]
  | cons e es ih =>
    obtain ⟨v1, f, fs', hs, hr, rfl⟩ := Viewer.run_cons.mp h
    rw [List.length_cons] at hv
    push_cast at hv
    obtain ⟨h1, h2, h3⟩ := step_antialiasing hs (by omega)
    have h4 := ih hr (by omega)
    rw [h3]
    have := h1.add_right (antialiasingSteps v1.shift es)
    rw [add_assoc] at this
    exact h4.trans this

/-- The scene of the last redraw is remembered. -/
theorem step_prevScene {n : Nat} {v v' : Viewer ℝ} {e : ViewerEvent ℝ} (h : v.step n e = .ok (v', none)) :
    v'.prevSceneIx = v.prevSceneIx := by
  cases e with
  | redraw r l m => obtain ⟨f', h', -⟩ := Viewer.step_redraw h; cases h'
  | arrowUp => unfold Viewer.step at h; dsimp only at h; split_ifs at h; cases h; rfl
  | touch e => cases h; rw [onTouch_rest]
  | rotate c => cases h; cases v.priorPosition <;> rfl
  | mouseWheel c => cases h; cases v.priorPosition <;> rfl
  | _ => cases h; rfl

theorem run_prevScene {n : Nat} {v v' : Viewer ℝ} {es : List (ViewerEvent ℝ)} (h : v.run n es = .ok (v', [])) :
    v'.prevSceneIx = v.prevSceneIx := by
  induction es generalizing v with
  | nil => cases h; rfl
  | cons e es ih =>
    obtain ⟨v1, f, fs', hs, hr, h0⟩ := Viewer.run_cons.mp h
    cases f with
    | some f => simp at h0
    | none =>
      rw [Option.toList_none, List.nil_append] at h0
      subst h0
      exact (ih hr).trans (step_prevScene hs)

theorem complexityAfter_le (k : Nat) (es : List (ViewerEvent ℝ)) : complexityAfter k es ≤ k + es.length := by
  induction es generalizing k with
  | nil => exact le_rfl
  | cons e es ih =>
    rw [complexityAfter_cons, List.length_cons]
    refine (ih _).trans ?_
    cases e <;> simp [complexityAfter] <;> omega


theorem Viewer.new_ok {start : Option Int} {w h : Nat} {v : Viewer ℝ} (hv : Viewer.new start w h = .ok v) :
    v = ⟨Stats.new, true, 0, TouchState.new, [], Affine.identity, false, none, start.getD 0, 0,
      start.getD 0 - 1, false, w, h⟩ := by
  unfold Viewer.new at hv
  dsimp only at hv
  split_ifs at hv
  cases hv
  rfl

theorem cameraOk_new {start : Option Int} {w h : Nat} {v : Viewer ℝ} (hv : Viewer.new start w h = .ok v) :
    CameraOk v := by
  rw [Viewer.new_ok hv]
  exact ⟨by rw [det_identity]; exact one_ne_zero, fun _ => rfl⟩

theorem onRedraw_isOk {n : Nat} {v : Viewer ℝ} {l : Nat} {m : Option Nat} {ops : List (PanelOp ℝ)} {s : Stats}
    (hn : n ≠ 0) (hp : v.panel l = .ok ops) (hs : v.sample m = .ok s) (r : Option (P2 ℝ)) :
    ∃ x, v.onRedraw n r l m = .ok x := by
  have h2 := Int.emod_nonneg v.sceneIx (b := n) (by exact_mod_cast hn)
  have h3 := Int.emod_lt_of_pos v.sceneIx (b := n) (by omega)
  unfold Viewer.onRedraw
  rw [if_neg hn]
  dsimp only
  rw [if_neg (by omega), if_neg (by unfold aaConfigs; omega), hp]
  show ∃ x, (v.sample m >>= _) = _
  rw [hs]
  exact ⟨_, rfl⟩

theorem step_isOk {n : Nat} {v : Viewer ℝ} {e : ViewerEvent ℝ} (hc : v.complexity + 1 ≤ u64Max)
    (he : ∀ r l m, e ≠ .redraw r l m) : ∃ x, v.step n e = .ok x := by
  cases e with
  | redraw r l m => exact absurd rfl (he r l m)
  | arrowUp =>
    unfold Viewer.step; dsimp only; rw [if_neg (by omega)]; exact ⟨_, rfl⟩
  | _ => exact ⟨_, rfl⟩

theorem timesSinceClear_mem {evs : List StatsEvent} {x : Nat} (h : x ∈ timesSinceClear evs) :
    x ∈ frameTimes evs := by
  unfold timesSinceClear frameTimes at h
  unfold frameTimes
  rw [List.mem_filterMap] at h ⊢
  obtain ⟨e, he, hx⟩ := h
  exact ⟨e, List.mem_reverse.mp ((List.takeWhile_prefix _).subset (List.mem_reverse.mp he)), hx⟩


/-! ## Fingers that navigate -/

theorem Viewer.run_append_ok {n : Nat} {v w : Viewer ℝ} {es es' : List (ViewerEvent ℝ)}
    {fs : List (ViewerFrame ℝ)} (h : v.run n es = .ok (w, fs)) :
    v.run n (es ++ es') = (w.run n es').map fun x => (x.1, fs ++ x.2) := by
  cases hr : w.run n es' with
  | ok x => exact Viewer.run_append.mpr ⟨w, fs, x.2, h, hr, rfl⟩
  | error x =>
    induction es generalizing v fs with
    | nil => cases h; rw [List.nil_append, hr]; rfl
    | cons e es ih =>
      obtain ⟨v1, f, fs', hs, hr', rfl⟩ := Viewer.run_cons.mp h
      have := ih hr'
      rw [List.cons_append]
      show (v.step n e >>= _) = _
      rw [hs]
      show (v1.run n (es ++ es') >>= _) = _
      rw [this]
      rfl

/-- The same, except that a finger navigates. -/
structure NavigationTwin (id : Nat) (v w : Viewer ℝ) : Prop where
  rest : w = { v with navigationFingers := w.navigationFingers }
  mem : id ∈ v.navigationFingers
  other : ∀ k, k ≠ id → (k ∈ v.navigationFingers ↔ k ∈ w.navigationFingers)

theorem step_navigation {n : Nat} (v : Viewer ℝ) (N : List Nat) {e : ViewerEvent ℝ} (he : ∀ t, e ≠ .touch t) :
    ({ v with navigationFingers := N } : Viewer ℝ).step n e
      = (v.step n e).map (fun x => ({ x.1 with navigationFingers := N }, x.2)) ∧
    ∀ v' f, v.step n e = .ok (v', f) → v'.navigationFingers = v.navigationFingers := by
  cases e with
  | touch t => exact absurd rfl (he t)
  | redraw r l m =>
    refine ⟨?_, fun v' f h => ?_⟩
    · show (Viewer.onRedraw _ n r l m >>= _) = (v.onRedraw n r l m >>= _).map _
      unfold Viewer.onRedraw
      have e1 : ({ v with navigationFingers := N } : Viewer ℝ).panel l = v.panel l := rfl
      have e2 : ({ v with navigationFingers := N } : Viewer ℝ).sample m = v.sample m := rfl
      rw [e1, e2]
      dsimp only
      split_ifs
      all_goals first
        | rfl
        | cases v.panel l with
          | error x => rfl
          | ok ops => cases v.sample m <;> rfl
    · obtain ⟨f', -, h⟩ := Viewer.step_redraw h
      obtain ⟨-, h1, -⟩ := Viewer.onRedraw_ok h
      rw [h1]
  | arrowUp =>
    unfold Viewer.step
    dsimp only
    split_ifs
    · exact ⟨rfl, fun v' f h => by cases h⟩
    · exact ⟨rfl, fun v' f h => by cases h; rfl⟩
  | rotate c =>
    obtain ⟨s1, s2, s3, s4, s5, s6, s7, s8, s9, s10, s11, s12, s13, s14⟩ := v
    cases s8 with
    | none => exact ⟨rfl, fun v' f h => by cases h; rfl⟩
    | some p => exact ⟨rfl, fun v' f h => by cases h; rfl⟩
  | mouseWheel c =>
    obtain ⟨s1, s2, s3, s4, s5, s6, s7, s8, s9, s10, s11, s12, s13, s14⟩ := v
    cases s8 with
    | none => exact ⟨rfl, fun v' f h => by cases h; rfl⟩
    | some p => exact ⟨rfl, fun v' f h => by cases h; rfl⟩
  | _ => exact ⟨rfl, fun v' f h => by cases h; rfl⟩

theorem NavigationTwin.touch {id : Nat} {v w : Viewer ℝ} (h : NavigationTwin id v w) {e : TouchEvent ℝ}
    (he : e.id ≠ id) : NavigationTwin id (v.onTouch e) (w.onTouch e) := by
  obtain ⟨k, ph, loc⟩ := e
  obtain ⟨h1, h2, h3⟩ := h
  obtain ⟨s1, s2, s3, s4, N, s6, s7, s8, s9, s10, s11, s12, s13, s14⟩ := v
  obtain ⟨t1, t2, t3, t4, M, t6, t7, t8, t9, t10, t11, t12, t13, t14⟩ := w
  simp only [Viewer.mk.injEq, true_and] at h1
  obtain ⟨rfl, rfl, rfl, rfl, rfl, rfl, rfl, rfl, rfl, rfl, rfl, rfl, rfl⟩ := h1
  dsimp only at he h2 h3
  have hk := h3 k he
  unfold Viewer.onTouch
  cases ph with
  | started =>
    dsimp only
    split_ifs with c1 c2 c3 c4
    all_goals simp_all
    all_goals exact ⟨rfl, by simp [h2], fun j hj => by simp [h3 j hj]⟩
  | moved =>
    dsimp only
    split_ifs
    all_goals simp_all
    all_goals exact ⟨rfl, h2, h3⟩
  | _ =>
    dsimp only
    split_ifs
    all_goals simp_all
    all_goals exact ⟨rfl, by simpa using ⟨h2, fun e => he e.symm⟩, fun j hj => by simp [h3 j hj]⟩

theorem onTouch_navigating {id : Nat} {v : Viewer ℝ} (h : id ∈ v.navigationFingers) (p : P2 ℝ) :
    v.onTouch ⟨id, .moved, p⟩ = v := by
  unfold Viewer.onTouch
  dsimp only
  rw [if_pos (by simpa using h)]

/-- The frames of the twin are the same, without the movements of the finger. -/
theorem NavigationTwin.run {id n : Nat} {v w : Viewer ℝ} (h : NavigationTwin id v w)
    {es : List (ViewerEvent ℝ)} (hm : ∀ e, ViewerEvent.touch e ∈ es → e.id = id → e.phase = .moved) :
    (v.run n es).map Prod.snd = (w.run n (es.filter fun e => !e.byFinger id)).map Prod.snd := by
  induction es generalizing v w with
  | nil => rfl
  | cons e es ih =>
    have ih := fun {v w} h => ih (v := v) (w := w) h fun t ht => hm t (List.mem_cons_of_mem _ ht)
    have key : ∀ {v w v' w' : Viewer ℝ} {f : Option (ViewerFrame ℝ)} {e : ViewerEvent ℝ},
        v.step n e = .ok (v', f) → w.step n e = .ok (w', f) → NavigationTwin id v' w' →
        e.byFinger id = false →
        (v.run n (e :: es)).map Prod.snd
          = (w.run n ((e :: es).filter fun e => !e.byFinger id)).map Prod.snd := by
      intro v w v' w' f e hv hw h hf
      rw [List.filter_cons_of_pos (by simpa using hf)]
      show (v.step n e >>= _).map _ = (w.step n e >>= _).map _
      rw [hv, hw]
      have := ih h
      show (v'.run n es >>= _).map _ = (w'.run n _ >>= _).map _
      cases h1 : v'.run n es with
      | error x =>
        rw [h1] at this
        cases h2 : w'.run n (es.filter fun e => !e.byFinger id) with
        | error y => rw [h2] at this; cases this; rfl
        | ok y => rw [h2] at this; cases this
      | ok x =>
        rw [h1] at this
        cases h2 : w'.run n (es.filter fun e => !e.byFinger id) with
        | error y => rw [h2] at this; cases this
        | ok y =>
          rw [h2] at this
          have h3 : x.2 = y.2 := by injection this
          show Except.ok (f.toList ++ x.2) = Except.ok (f.toList ++ y.2)
          rw [h3]
    by_cases ht : ∃ t, e = .touch t
    · obtain ⟨t, rfl⟩ := ht
      by_cases hid : t.id = id
      · obtain ⟨k, ph, loc⟩ := t
        have hp := hm _ List.mem_cons_self hid
        dsimp only at hid hp
        subst hid hp
        rw [List.filter_cons_of_neg (by simp [ViewerEvent.byFinger])]
        have e1 : v.run n (.touch ⟨k, .moved, loc⟩ :: es) = v.run n es := by
          show ((v.onTouch ⟨k, .moved, loc⟩).run n es >>= fun x => Except.ok (x.1, [] ++ x.2)) = _
          rw [onTouch_navigating h.mem]
          cases v.run n es <;> rfl
        rw [e1]
        exact ih h
      · exact key (v' := v.onTouch t) (w' := w.onTouch t) (f := none) rfl rfl (h.touch hid)
          (by simpa [ViewerEvent.byFinger] using hid)
    · push Not at ht
      have hf : e.byFinger id = false := by
        cases e with
        | touch t => exact absurd rfl (ht t)
        | _ => rfl
      obtain ⟨h1, h2⟩ := step_navigation (n := n) v w.navigationFingers ht
      rw [← h.rest] at h1
      cases hs : v.step n e with
      | error x =>
        rw [hs] at h1
        rw [List.filter_cons_of_pos (by simpa using hf)]
        show (v.step n e >>= _).map _ = (w.step n e >>= _).map _
        rw [hs, h1]
        rfl
      | ok x =>
        rw [hs] at h1
        refine key (v' := x.1) (w' := { x.1 with navigationFingers := w.navigationFingers }) (f := x.2)
          hs h1 ⟨rfl, ?_, ?_⟩ hf
        · rw [h2 x.1 x.2 hs]; exact h.mem
        · rw [h2 x.1 x.2 hs]; exact h.other

end Velato
