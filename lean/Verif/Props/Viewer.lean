import Verif.Proofs.Viewer
import Verif.Props.Player
import Verif.Props.Stats
import Verif.Props.Touch

/-!
# C97 to C101 — the window of the example application
-/

namespace Velato
open FloatOps (lit)

/-! ## C97 -/

/-- **C97.** Scrolling zooms about the cursor: everything moves away from the cursor by the same factor, a power
of 1.05 (by lines, or by twenty pixels). Nothing else changes. -/
theorem C97_zoom {n : Nat} {v : Viewer ℝ} {p : P2 ℝ} (hp : v.priorPosition = some p) (d : ScrollDelta ℝ) :
    ∃ v', v.step n (.mouseWheel d) = .ok (v', none) ∧ v' = { v with transform := v'.transform } ∧
      ∀ q, (v'.transform.apply q).toC - p.toC
        = (((1.05 : ℝ) ^ (match d with | .pixels _ y => y / 20 | .lines _ y => y) : ℝ) : ℂ)
          * ((v.transform.apply q).toC - p.toC) := by
  refine ⟨_, rfl, ?_, fun q => ?_⟩
  · dsimp only; rw [hp]
  · rw [hp]
    dsimp only
    rw [aboutPoint_toC _ _ _ ⟨rfl, by simp [Affine.scale, Affine.scaleNonUniform]⟩
      ⟨by simp [Affine.scale, Affine.scaleNonUniform], by simp [Affine.scale, Affine.scaleNonUniform]⟩]
    congr 1
    have hb : (lit (105 / 100) : ℝ) = 1.05 := by rw [real_lit]; norm_num
    have h20 : (lit 20 : ℝ) = 20 := by rw [real_lit]; norm_num
    apply Complex.ext
    · rw [Complex.ofReal_re]
      show Libm.powf (lit (105 / 100) : ℝ) _ = _
      rw [hb]
      cases d with
      | pixels x y =>
        show (1.05 : ℝ) ^ (y /. lit 20 : ℝ) = _
        rw [real_div, h20]
      | lines x y => rfl
    · simp [Affine.scale, Affine.scaleNonUniform]

/-- **C97.** The keys Q and E rotate about the cursor, by a twentieth of a radian. -/
theorem C97_rotate {n : Nat} {v : Viewer ℝ} {p : P2 ℝ} (hp : v.priorPosition = some p) (e : Bool) :
    ∃ v', v.step n (.rotate e) = .ok (v', none) ∧ v' = { v with transform := v'.transform } ∧
      ∀ q, (v'.transform.apply q).toC - p.toC
        = Complex.exp (((if e then -0.05 else 0.05 : ℝ) : ℂ) * Complex.I)
          * ((v.transform.apply q).toC - p.toC) := by
  refine ⟨_, rfl, ?_, fun q => ?_⟩
  · dsimp only; rw [hp]
  · rw [hp]
    dsimp only
    rw [aboutPoint_toC _ _ _ ⟨rfl, by simp [Affine.rotate]⟩
      ⟨by simp [Affine.rotate], by simp [Affine.rotate]⟩]
    congr 1
    have ha : (if e = true then lit (-5 / 100) else lit (5 / 100) : ℝ) = if e then -0.05 else 0.05 := by
      simp only [real_lit]; split_ifs <;> norm_num
    rw [ha]
    generalize (if e then -0.05 else 0.05 : ℝ) = θ
    exact Complex.ext (Complex.exp_ofReal_mul_I_re θ).symm (Complex.exp_ofReal_mul_I_im θ).symm

/-- **C97.** While the button is down, the picture follows the cursor, however it moves. -/
theorem C97_drag {n : Nat} {v : Viewer ℝ} {p : P2 ℝ} (hp : v.priorPosition = some p) (hm : v.mouseDown = true)
    (path : List (P2 ℝ)) :
    ∃ v', v.run n (path.map .cursorMoved) = .ok (v', []) ∧ v'.priorPosition = some ((path.getLast?).getD p) ∧
      v'.mouseDown = true ∧
      ∀ q, (v'.transform.apply q).toC - (v.transform.apply q).toC = ((path.getLast?).getD p).toC - p.toC := by
  induction path generalizing v p with
  | nil => exact ⟨v, rfl, hp, hm, fun q => by simp⟩
  | cons r path ih =>
    obtain ⟨v', h1, h2, h3, h4⟩ := ih (v := { v with
      transform := (Affine.translate ⟨r.x -. p.x, r.y -. p.y⟩).mul v.transform
      priorPosition := some r }) (p := r) rfl hm
    have hstep : v.step n (.cursorMoved r) = .ok ({ v with
      transform := (Affine.translate ⟨r.x -. p.x, r.y -. p.y⟩).mul v.transform
      priorPosition := some r }, none) := by
      unfold Viewer.step
      rw [hm, hp]
    have hl : ((r :: path).getLast?).getD p = (path.getLast?).getD r := by
      cases path with
      | nil => rfl
      | cons s path => rw [List.getLast?_cons_cons, List.getLast?_eq_getLast_of_ne_nil (by simp)]; rfl
    refine ⟨v', ?_, by rw [hl]; exact h2, h3, fun q => ?_⟩
    · show (v.step n (.cursorMoved r) >>= _) = _
      rw [hstep]
      show (Viewer.run n _ _ >>= _) = _
      rw [h1]
      rfl
    · rw [hl]
      have e : (((Affine.translate ⟨r.x -. p.x, r.y -. p.y⟩).mul v.transform).apply q).toC
          = (v.transform.apply q).toC + (r.toC - p.toC) := by
        apply Complex.ext <;>
        · simp only [toC_re, toC_im, Affine.apply, Affine.mul, Affine.translate, real_add, real_mul,
            real_sub, real_lit, Complex.add_re, Complex.add_im, Complex.sub_re, Complex.sub_im]
          push_cast
          ring
      have := h4 q
      rw [e] at this
      linear_combination this

/-- **C97.** Without the button, moving the cursor does not move the picture; space resets the camera. -/
theorem C97_still {n : Nat} {v : Viewer ℝ} (p : P2 ℝ) (hm : v.mouseDown = false) :
    (v.step n (.cursorMoved p)).map (fun x => x.1.transform) = .ok v.transform ∧
      (v.step n .space).map (fun x => x.1.transform.apply p) = .ok p := by
  unfold Viewer.step
  rw [hm]
  refine ⟨rfl, ?_⟩
  show Except.ok _ = _
  congr 1
  simp [Affine.apply, Affine.identity]

/-- **C97.** Whatever happens, the picture is displayed without distortion: the camera is a similarity. -/
theorem C97_similarity {start : Option Int} {w h n : Nat} {v v' : Viewer ℝ} {es : List (ViewerEvent ℝ)}
    {fs : List (ViewerFrame ℝ)} (hv : Viewer.new start w h = .ok v) (hr : v.run n es = .ok (v', fs)) :
    v'.transform.IsSimilarity ∧ ∀ f ∈ fs, f.cameraTransform.IsSimilarity := by
  have h0 : v.transform.IsSimilarity := by rw [Viewer.new_ok hv]; exact .identity
  refine ⟨run_similarity h0 hr, fun f hf => ?_⟩
  obtain ⟨es1, r, l, m, es2, v1, fs1, v2, rfl, h1, h2⟩ := Viewer.run_frame hr hf
  obtain ⟨-, h3, -⟩ := Viewer.onRedraw_ok h2
  have : v2.transform.IsSimilarity := step_similarity (n := n) (e := .redraw r l m) (f := some f)
    (run_similarity h0 h1) (by show (v1.onRedraw n r l m >>= _) = _; rw [h2]; rfl)
  rw [h3] at this
  exact this

/-- **C97.** The camera can be inverted, whatever happens, as long as there are never two or more fingers all at
the same place. -/
theorem C97_invertible {start : Option Int} {w h n : Nat} {v v' : Viewer ℝ} {es : List (ViewerEvent ℝ)}
    {fs : List (ViewerFrame ℝ)} (hv : Viewer.new start w h = .ok v) (hr : v.run n es = .ok (v', fs))
    (ha : ∀ es1 es2 v1 fs1, es = es1 ++ .aboutToWait :: es2 → v.run n es1 = .ok (v1, fs1) →
      FingersApart v1.touchState.activeTouches) :
    v'.transform.det ≠ 0 ∧ ∀ f ∈ fs, f.cameraTransform.det ≠ 0 := by
  have h0 := cameraOk_new hv
  refine ⟨(cameraOk_run h0 ha hr).det, fun f hf => ?_⟩
  obtain ⟨es1, r, l, m, es2, v1, fs1, v2, rfl, h1, h2⟩ := Viewer.run_frame hr hf
  obtain ⟨-, h3, -⟩ := Viewer.onRedraw_ok h2
  have hc := cameraOk_run h0 (fun a b v3 fs3 e1 e2 => ha a (b ++ .redraw r l m :: es2) v3 fs3
    (by rw [e1]; simp) e2) h1
  have : CameraOk v2 := cameraOk_step (n := n) (e := .redraw r l m) (f := some f) hc (by rintro ⟨⟩)
    (by show (v1.onRedraw n r l m >>= _) = _; rw [h2]; rfl)
  have := this.det
  rw [h3] at this
  exact this

/-- The cursor is in the window, the wheel is turned: C97_zoom, C97_similarity and C97_invertible apply. -/
example : ∃ v v' : Viewer ℝ, Viewer.new none 800 600 = .ok v ∧
    v.run 2 [.cursorMoved ⟨100, 50⟩, .mouseWheel (.lines 0 2)] = .ok (v', []) ∧
    (v'.transform.apply ⟨0, 0⟩).toC - (⟨100, 50⟩ : P2 ℝ).toC
      = (((1.05 : ℝ) ^ (2 : ℝ) : ℝ) : ℂ) * (0 - (⟨100, 50⟩ : P2 ℝ).toC) ∧
    v'.transform.IsSimilarity ∧ v'.transform.det ≠ 0 := by
  obtain ⟨v', h1, -, h3⟩ := C97_zoom (n := 2) (v := ⟨Stats.new, true, 0, TouchState.new, [], Affine.identity, false,
    some ⟨100, 50⟩, 0, 0, -1, false, 800, 600⟩) (p := ⟨100, 50⟩) rfl (.lines 0 2)
  have hr : Viewer.run 2 (⟨Stats.new, true, 0, TouchState.new, [], Affine.identity, false, none, 0, 0, -1, false, 800,
      600⟩ : Viewer ℝ) [.cursorMoved ⟨100, 50⟩, .mouseWheel (.lines 0 2)] = .ok (v', []) :=
    Viewer.run_cons.mpr ⟨_, none, [], rfl, Viewer.run_cons.mpr ⟨_, none, [], h1, rfl, rfl⟩, rfl⟩
  have hv : Viewer.new (F := ℝ) none 800 600 = .ok ⟨Stats.new, true, 0, TouchState.new, [], Affine.identity, false,
    none, 0, 0, -1, false, 800, 600⟩ := rfl
  refine ⟨_, v', hv, hr, ?_, (C97_similarity hv hr).1, (C97_invertible hv hr ?_).1⟩
  · have h0 : ((Affine.identity : Affine ℝ).apply ⟨0, 0⟩).toC = 0 := by
      apply Complex.ext <;> simp [Affine.apply, Affine.identity]
    have := h3 ⟨0, 0⟩
    rw [h0] at this
    exact this
  · intro es1 es2 v1 fs1 he
    have : ViewerEvent.aboutToWait ∈ ([.cursorMoved ⟨100, 50⟩, .mouseWheel (.lines 0 2)] : List (ViewerEvent ℝ)) := by
      rw [he]; simp
    simp at this

/-! ## C98 -/

/-- **C98.** What a redraw displays: the scene is chosen by the arrow keys left and right and by touches, going
round the scenes in a circle; likewise the antialiasing by the key M; the scene is told the
number set with the arrow keys up and down, the cursor and the size of the window. (As long as there are
less than two thousand million events.) -/
theorem C98_frame {start : Option Int} {w h n : Nat} {v v' : Viewer ℝ} {es : List (ViewerEvent ℝ)}
    {r : Option (P2 ℝ)} {l : Nat} {m : Option Nat} {fs : List (ViewerFrame ℝ)}
    (hv : Viewer.new start w h = .ok v) (hr : v.run n (es ++ [.redraw r l m]) = .ok (v', fs))
    (hn : max |start.getD 0| (max n 3) + es.length ≤ 2 ^ 31 - 1) :
    ∃ f, fs.getLast? = some f ∧
      (f.scene : Int) = (start.getD 0 + navigation w h es) % n ∧
      (f.antialiasing : Int) = antialiasingSteps false es % 3 ∧
      f.complexity = complexityAfter 0 es ∧
      f.cursorPosition = cursorAfter none es ∧
      f.viewportSize = ⟨((sizeAfter (w, h) es).1 : ℝ), ((sizeAfter (w, h) es).2 : ℝ)⟩ := by
  obtain ⟨v1, fs1, fs2, h1, h2, rfl⟩ := Viewer.run_append.mp hr
  obtain ⟨v2, o, fs', hs, h3, rfl⟩ := Viewer.run_cons.mp h2
  obtain ⟨f, rfl, h4⟩ := Viewer.step_redraw hs
  cases h3
  obtain ⟨hn0, -, hscene, haa, -, hvp, -, hcur, hcom, -⟩ := Viewer.onRedraw_ok h4
  have hv' := Viewer.new_ok hv
  obtain ⟨k1, k2, k3, -, -⟩ := run_counts h1
  have hsc := run_scene h1 (by rw [hv']; dsimp only; omega)
  have hac := run_antialiasing h1 (by rw [hv']; simp only [abs_zero]; omega)
  rw [hv'] at k1 k2 k3 hsc hac
  dsimp only at k1 k2 k3 hsc hac
  refine ⟨f, by simp, ?_, ?_, ?_, ?_, ?_⟩
  · rw [hscene, Int.emod_toNat_cast _ hn0]; exact hsc
  · rw [haa, zero_add] at *
    rw [Int.toNat_of_nonneg (by omega)]
    exact hac
  · rw [hcom, k3]
  · rw [hcur, k2]
  · rw [hvp, ← k1]; rfl

/-- **C98.** When another scene is displayed than in the last frame, the camera is reset; else it is where the
events have moved it (C97), and where it was if there were none. -/
theorem C98_camera {n : Nat} {v v1 v2 v3 : Viewer ℝ} {mid : List (ViewerEvent ℝ)}
    {r r' : Option (P2 ℝ)} {l l' : Nat} {m m' : Option Nat} {f g : ViewerFrame ℝ}
    (h1 : v.run n [.redraw r l m] = .ok (v1, [f])) (h2 : v1.run n mid = .ok (v2, []))
    (h3 : v2.run n [.redraw r' l' m'] = .ok (v3, [g])) :
    v1.transform = f.cameraTransform ∧ v3.transform = g.cameraTransform ∧
      g.cameraTransform = if g.scene = f.scene then v2.transform else Affine.identity := by
  obtain ⟨v1', o, fs', hs, hr, hf⟩ := Viewer.run_cons.mp h1
  obtain ⟨f', rfl, h4⟩ := Viewer.step_redraw hs
  cases hr
  cases hf
  obtain ⟨v3', o, fs', hs, hr, hf⟩ := Viewer.run_cons.mp h3
  obtain ⟨g', rfl, h5⟩ := Viewer.step_redraw hs
  cases hr
  cases hf
  obtain ⟨hn, h6, h7, -⟩ := Viewer.onRedraw_ok h4
  obtain ⟨-, h8, h9, -, h10, -⟩ := Viewer.onRedraw_ok h5
  have hp := run_prevScene h2
  refine ⟨by rw [h6], by rw [h8], ?_⟩
  rw [h10, hp, h6]
  dsimp only
  have e1 := Int.emod_nonneg v.sceneIx (b := n) (by exact_mod_cast hn)
  have e2 := Int.emod_nonneg v2.sceneIx (b := n) (by exact_mod_cast hn)
  rw [h7, h9]
  by_cases he : v.sceneIx % (n : Int) = v2.sceneIx % (n : Int)
  · rw [if_neg (by simpa using he), if_pos (by rw [he])]
  · rw [if_pos he, if_neg (by omega)]

/-- Two scenes on from the second of three, then one back, with the statistics hidden. -/
example : ∃ v v' : Viewer ℝ, ∃ f g, Viewer.new (some 1) 800 600 = .ok v ∧
    v.run 3 [.toggleStats, .arrowRight, .arrowRight, .nextAntialiasing, .arrowUp, .cursorMoved ⟨5, 6⟩,
      .resized 900 700, .redraw none 6 none, .arrowLeft, .redraw none 6 none] = .ok (v', [f, g]) ∧
    f.scene = 0 ∧ f.antialiasing = 1 ∧ f.complexity = 1 ∧ f.cursorPosition = some ⟨5, 6⟩ ∧ g.scene = 2 :=
  ⟨_, _, _, _, rfl, rfl, rfl, rfl, rfl, rfl, rfl⟩

/-! ## C99 -/

/-- The statistics can be drawn unless they are broken. -/
theorem panel_isOk {start : Option Int} {w h n : Nat} {v v1 : Viewer ℝ} {es : List (ViewerEvent ℝ)}
    {fs : List (ViewerFrame ℝ)} (hv : Viewer.new start w h = .ok v) (hr : v.run n es = .ok (v1, fs))
    (ht : ∀ t ∈ frameTimes (statsEvents es), t ≤ 2 ^ 57) (l : Nat) :
    (∃ ops, v1.panel l = .ok ops) ↔ (statsVisible es = true → ¬ StatsBroken es) := by
  obtain ⟨-, -, -, h4, h5⟩ := run_counts hr
  rw [Viewer.new_ok hv] at h4 h5
  dsimp only at h4 h5
  have h4' : v1.statsShown = statsVisible es := by rw [h4]; simp
  obtain ⟨s, hs, h6, h7, h8, -, h10⟩ := C93_window (statsEvents es) ht
  unfold Stats.after at hs
  rw [h5] at hs
  cases hs
  unfold Viewer.panel
  rw [h4']
  cases statsVisible es with
  | false => simp
  | true =>
    rw [if_pos rfl]
    have hlen := lastN_length 100 (frameTimes (statsEvents es))
    have hsum : v1.stats.samples.sum ≤ v1.stats.samples.length * 2 ^ 57 :=
      sum_le_of_le _ _ fun x hx => ht x (by rw [h6] at hx; exact List.mem_of_mem_drop hx)
    have havg : (v1.stats.snapshot (F := ℝ)).frameTimeMs
        = (v1.stats.samples.sum : ℝ) / v1.stats.samples.length / 1000 := by
      unfold Stats.snapshot
      simp only [real_mul, real_div, real_lit, real_ofUsize, h7, h8]
      push_cast; ring
    have hmax : (v1.stats.snapshot (F := ℝ)).frameTimeMaxMs = (v1.stats.max : ℝ) / 1000 := by
      unfold Stats.snapshot
      simp only [real_mul, real_lit, real_ofUsize]
      push_cast; ring
    rw [C94_no_panic_partial (by rw [havg]; positivity) ?_, forall_prop_of_true rfl, not_iff_not, havg, hmax]
    · unfold StatsBroken
      dsimp only
      rw [← h6, ← h10]
      by_cases h0 : v1.stats.samples.length = 0
      · have hnil := List.eq_nil_of_length_eq_zero h0
        have hf : frameTimes (statsEvents es) = [] := by
          rw [← h6, h0] at hlen
          exact List.eq_nil_of_length_eq_zero (by omega)
        have hm : v1.stats.max = 0 := by
          have : timesSinceClear (statsEvents es) = [] :=
            List.eq_nil_iff_forall_not_mem.mpr fun x hx => by
              have := timesSinceClear_mem hx
              rw [hf] at this
              cases this
          rw [h10, this]; rfl
        simp [hnil, hm]
      · have hp : (0 : ℝ) < v1.stats.samples.length := by exact_mod_cast Nat.pos_of_ne_zero h0
        generalize v1.stats.samples.sum = a at *
        generalize v1.stats.samples.length = k at *
        generalize v1.stats.max = b at *
        refine and_congr ?_ ?_
        · rw [show 3 * ((a : ℝ) / k / 1000) = (3 * a) / k / 1000 by ring,
            div_lt_div_iff_of_pos_right (by norm_num), div_lt_iff₀ hp]
          norm_cast
        · rw [show 133334 / 100000 * ((a : ℝ) / k / 1000) = (133334 * a) / (100000000 * k) by
            field_simp; ring, div_lt_one (by positivity)]
          norm_cast
    · rw [havg]
      by_cases h0 : v1.stats.samples.length = 0
      · rw [h0]; norm_num
      · have hp : (0 : ℝ) < v1.stats.samples.length := by exact_mod_cast Nat.pos_of_ne_zero h0
        rw [div_div, div_lt_iff₀ (by positivity)]
        have : (v1.stats.samples.sum : ℝ) ≤ v1.stats.samples.length * 2 ^ 57 := by exact_mod_cast hsum
        nlinarith

/-- **C99 (partial).** With scenes to display, and frame times of less than 4000 years, the viewer never panics
unless it displays broken statistics. What is missing: the statistics do break
(`C99_counterexample`). -/
theorem C99_no_panic_partial {start : Option Int} {w h n : Nat} {v : Viewer ℝ} (es : List (ViewerEvent ℝ))
    (hv : Viewer.new start w h = .ok v) (hn : 0 < n) (hlen : es.length < 2 ^ 64)
    (ht : ∀ t ∈ frameTimes (statsEvents es), t ≤ 2 ^ 57) :
    (∃ x, v.run n es = .ok x) ↔ ∀ es1 r l m es2, es = es1 ++ .redraw r l m :: es2 → statsVisible es1 = true →
      ¬ StatsBroken es1 := by
  have sub : ∀ {a b : List (ViewerEvent ℝ)}, es = a ++ b → ∀ t ∈ frameTimes (statsEvents a), t ≤ 2 ^ 57 :=
    fun e t h => ht t (by rw [e, statsEvents_append, frameTimes_append]; exact List.mem_append_left _ h)
  constructor
  · rintro ⟨⟨v', fs⟩, hr⟩ es1 r l m es2 he
    subst he
    obtain ⟨v1, fs1, fs2, h1, h2, rfl⟩ := Viewer.run_append.mp hr
    obtain ⟨v2, o, fs', hs, -, -⟩ := Viewer.run_cons.mp h2
    obtain ⟨f, -, h4⟩ := Viewer.step_redraw hs
    obtain ⟨-, -, -, -, -, -, -, -, -, h5, -⟩ := Viewer.onRedraw_ok h4
    exact (panel_isOk hv h1 (sub rfl) l).mp ⟨_, h5⟩
  · induction es using List.reverseRecOn with
    | nil => exact fun _ => ⟨_, rfl⟩
    | append_singleton es e ih =>
      intro hall
      rw [List.length_append, List.length_singleton] at hlen
      obtain ⟨⟨v1, fs⟩, h1⟩ := ih (by omega) (sub rfl)
        (fun he t h => sub rfl t (by
          rw [he, statsEvents_append, frameTimes_append]; exact List.mem_append_left _ h))
        (fun es1 r l m es2 he => hall es1 r l m (es2 ++ [e]) (by rw [he]; simp))
      suffices hstep : ∃ x, v1.step n e = .ok x by
        obtain ⟨⟨v2, f⟩, h2⟩ := hstep
        exact ⟨_, Viewer.run_append.mpr ⟨v1, fs, _, h1, Viewer.run_cons.mpr ⟨v2, f, [], h2, rfl, rfl⟩, rfl⟩⟩
      by_cases he : ∃ r l m, e = .redraw r l m
      · obtain ⟨r, l, m, rfl⟩ := he
        obtain ⟨ops, hp⟩ := (panel_isOk hv h1 (sub rfl) l).mpr (hall es r l m [] rfl)
        have hsm : ∃ s, v1.sample m = .ok s := by
          cases m with
          | none => exact ⟨_, rfl⟩
          | some m =>
            obtain ⟨s, hs, -⟩ := C93_window _ ht
            obtain ⟨-, -, -, -, h5⟩ := run_counts h1
            rw [Viewer.new_ok hv] at h5
            unfold Stats.after at hs
            rw [statsEvents_append, List.foldlM_append, h5] at hs
            change (v1.stats.addSample m >>= fun s => _) = _ at hs
            show ∃ s, v1.stats.addSample m = .ok s
            cases ha : v1.stats.addSample m with
            | ok s => exact ⟨s, rfl⟩
            | error x => rw [ha] at hs; cases hs
        obtain ⟨s, hs⟩ := hsm
        obtain ⟨x, hx⟩ := onRedraw_isOk (n := n) (by omega) hp hs r
        refine ⟨(x.1, some x.2), ?_⟩
        show (v1.onRedraw n r l m >>= _) = _
        rw [hx]; rfl
      · push Not at he
        refine step_isOk ?_ he
        obtain ⟨-, -, h3, -⟩ := run_counts h1
        have := complexityAfter_le v.complexity es
        rw [← h3, Viewer.new_ok hv] at this
        dsimp only at this
        unfold u64Max
        omega

/-- **C99 is false of the code**: after nine frames of 0.1 ms and one of 1 ms, the viewer panics, whatever it
displays. -/
theorem C99_counterexample (n : Nat) (r : Option (P2 ℝ)) : ∃ v : Viewer ℝ, Viewer.new none 800 600 = .ok v ∧
    (∃ x, v.run (n + 1) (List.replicate 9 (.redraw r 6 (some 100)) ++ [.redraw r 6 (some 1000)]) = .ok x) ∧
    ¬ ∃ x, v.run (n + 1) (List.replicate 9 (.redraw r 6 (some 100)) ++ [.redraw r 6 (some 1000)]
      ++ [.redraw r 6 (some 100)]) = .ok x := by
  have hb : StatsBroken (List.replicate 9 (.redraw r 6 (some 100)) ++ [.redraw r 6 (some 1000)]) := by
    show 3 * 1900 < 1000 * 10 ∧ 133334 * 1900 < 100000000 * 10
    decide
  have hlen : (List.replicate 9 (.redraw r 6 (some 100)) ++ [.redraw r 6 (some 1000)] : List (ViewerEvent ℝ)).length = 10 := rfl
  refine ⟨_, rfl, ?_, ?_⟩
  · refine (C99_no_panic_partial (start := none) (w := 800) (h := 600) _ rfl (Nat.succ_pos n) (by rw [hlen]; norm_num) ?_).mpr ?_
    · intro t ht
      have : t ∈ [100, 100, 100, 100, 100, 100, 100, 100, 100, 1000] := ht
      fin_cases this <;> norm_num
    · intro es1 r' l m es2 he _ hbr
      have hl := congrArg List.length he
      rw [hlen, List.length_append, List.length_cons] at hl
      have ht := congrArg (List.take es1.length) he
      rw [List.take_left] at ht
      rw [← ht] at hbr
      have hk : es1.length ≤ 9 := by omega
      generalize es1.length = k at hk hbr
      interval_cases k <;> · revert hbr; unfold StatsBroken; simp [statsEvents, frameTimes, timesSinceClear, lastN, List.replicate]
  · intro hx
    refine (C99_no_panic_partial (start := none) (w := 800) (h := 600) _ rfl (Nat.succ_pos n) ?_ ?_).mp hx _ r 6 (some 100) [] rfl rfl hb
    · rw [List.length_append, hlen]; norm_num
    · intro t ht
      have : t ∈ [100, 100, 100, 100, 100, 100, 100, 100, 100, 1000, 100] := ht
      fin_cases this <;> norm_num

/-- **C99 is false of the code**: without scenes there is a panic, and `--scene -2147483648` is one. -/
theorem C99_no_scenes_counterexample :
    (∀ v : Viewer ℝ, ∀ r l m, v.run 0 [.redraw r l m] = .error .remByZero) ∧
      (Viewer.new (some (-2147483648)) 800 600 : Except _ (Viewer ℝ)) = .error .underflow :=
  ⟨fun _ _ _ _ => rfl, rfl⟩

/-! ## C100 -/

/-- **C100.** What is displayed under the cursor is what is picked: the place of the scene that picking computes
for a point of the window is displayed at that point. -/
theorem C100_pick {start : Option Int} {w h n : Nat} {v v' : Viewer ℝ} {es : List (ViewerEvent ℝ)}
    {r : P2 ℝ} {l : Nat} {m : Option Nat} {fs : List (ViewerFrame ℝ)}
    (hv : Viewer.new start w h = .ok v) (hr : v.run n (es ++ [.redraw (some r) l m]) = .ok (v', fs))
    (ha : ∀ es1 es2 v1 fs1, es = es1 ++ .aboutToWait :: es2 → v.run n es1 = .ok (v1, fs1) →
      FingersApart v1.touchState.activeTouches)
    (hpos : 0 < (sizeAfter (w, h) es).1 ∧ 0 < (sizeAfter (w, h) es).2) (hres : 0 < r.x ∧ 0 < r.y) :
    ∃ f, fs.getLast? = some f ∧ ∀ p q : P2 ℝ,
      q = cursorToScene p f.viewportSize r f.cameraTransform ↔ f.transform.apply q = p := by
  have hinv := (C97_invertible hv hr ?_).2
  · obtain ⟨v1, fs1, fs2, h1, h2, rfl⟩ := Viewer.run_append.mp hr
    obtain ⟨v2, o, fs', hs, h3, rfl⟩ := Viewer.run_cons.mp h2
    obtain ⟨f, rfl, h4⟩ := Viewer.step_redraw hs
    cases h3
    obtain ⟨-, -, -, -, -, hvp, htr, -⟩ := Viewer.onRedraw_ok h4
    have hv' := Viewer.new_ok hv
    obtain ⟨k1, -⟩ := run_counts h1
    rw [hv'] at k1
    dsimp only at k1
    rw [← k1] at hpos
    refine ⟨f, by simp, fun p q => ?_⟩
    have hvx : 0 < f.viewportSize.x ∧ 0 < f.viewportSize.y := by
      rw [hvp]
      simp only [real_ofUsize]
      exact_mod_cast hpos
    rw [C92_inverse (hinv f (by simp)) hvx hres, htr]
    unfold displayTransform
    simp only [real_fmin, real_div]
    generalize min (f.viewportSize.x / r.x) (f.viewportSize.y / r.y) = s
    have e : (f.cameraTransform.mul (Affine.scale s)).apply q = f.cameraTransform.apply ⟨s * q.x, s * q.y⟩ := by
      simp only [Affine.apply, Affine.mul, Affine.scale, Affine.scaleNonUniform, real_add, real_mul, real_lit,
        P2.mk.injEq]
      push_cast
      constructor <;> ring
    rw [e]
  · intro es1 es2 v1 fs1 he hrun
    rcases List.eq_nil_or_concat es2 with rfl | ⟨es3, x, rfl⟩
    · have := congrArg List.getLast? he
      simp at this
    · have he' : es = es1 ++ .aboutToWait :: es3 := by
        rw [List.concat_eq_append, ← List.cons_append, ← List.append_assoc] at he
        exact (List.append_inj' he rfl).1
      exact ha es1 es3 v1 fs1 he' hrun

/-- C100_pick applies to a picture of 400 × 400 in a window of 800 × 600, dragged. -/
example : ∃ v v' : Viewer ℝ, ∃ f, Viewer.new none 800 600 = .ok v ∧
    v.run 1 ([.toggleStats, .redraw (some ⟨400, 400⟩) 6 none, .cursorMoved ⟨5, 6⟩, .mouseInput true,
      .cursorMoved ⟨7, 8⟩] ++ [.redraw (some ⟨400, 400⟩) 6 none]) = .ok (v', f) ∧
    ∃ g, f.getLast? = some g ∧ ∀ p, g.transform.apply
      (cursorToScene p g.viewportSize ⟨400, 400⟩ g.cameraTransform) = p := by
  have hv : Viewer.new (F := ℝ) none 800 600 = .ok ⟨Stats.new, true, 0, TouchState.new, [], Affine.identity, false,
    none, 0, 0, -1, false, 800, 600⟩ := rfl
  obtain ⟨⟨v', fs⟩, hr⟩ : ∃ x, Viewer.run 1 (⟨Stats.new, true, 0, TouchState.new, [], Affine.identity, false,
      none, 0, 0, -1, false, 800, 600⟩ : Viewer ℝ) ([.toggleStats, .redraw (some ⟨400, 400⟩) 6 none,
      .cursorMoved ⟨5, 6⟩, .mouseInput true, .cursorMoved ⟨7, 8⟩] ++ [.redraw (some ⟨400, 400⟩) 6 none]) = .ok x :=
    ⟨_, rfl⟩
  refine ⟨_, v', fs, hv, hr, ?_⟩
  obtain ⟨g, hg, h⟩ := C100_pick hv hr
    (fun es1 es2 v1 fs1 he => by
      have : ViewerEvent.aboutToWait ∈ ([.toggleStats, .redraw (some ⟨400, 400⟩) 6 none, .cursorMoved ⟨5, 6⟩,
          .mouseInput true, .cursorMoved ⟨7, 8⟩] : List (ViewerEvent ℝ)) := by rw [he]; simp
      simp at this) (by simp [sizeAfter]) (by norm_num)
  exact ⟨g, hg, fun p => (h p _).mp rfl⟩

/-! ## C101 -/

/-- **C101 (partial).** A finger put down in the lower third of the window does what an arrow key does (or nothing,
in the middle), and until it is lifted nothing else: the frames are the same as with the key instead, without
the movements of the finger. What is missing: lifting the finger (`C101_counterexample`). -/
theorem C101_navigation_finger_partial {n : Nat} {v : Viewer ℝ} {id : Nat} {p : P2 ℝ}
    (hp : (v.height : ℝ) * 2 / 3 < p.y) {es : List (ViewerEvent ℝ)}
    (hm : ∀ e, ViewerEvent.touch e ∈ es → e.id = id → e.phase = .moved) :
    (v.run n (.touch ⟨id, .started, p⟩ :: es)).map Prod.snd
      = (v.run n (touchKey v.width p ++ es.filter fun e => !e.byFinger id)).map Prod.snd := by
  have hz : (FloatOps.ofUsize v.height *. lit 2 /. lit 3 <. p.y) = true := by
    simp only [real_lt, real_mul, real_div, real_ofUsize, real_lit, decide_eq_true_eq]; push_cast; exact hp
  obtain ⟨w, h1, h2⟩ : ∃ w, v.run n (touchKey v.width p) = .ok (w, []) ∧
      NavigationTwin id (v.onTouch ⟨id, .started, p⟩) w := by
    have hx1 : (p.x <. (FloatOps.ofUsize v.width /. lit 3)) = decide (p.x < (v.width : ℝ) / 3) := by
      simp only [real_lt, real_div, real_ofUsize, real_lit]; norm_num
    have hx2 : ((lit 2 *. FloatOps.ofUsize v.width /. lit 3) <. p.x) = decide (2 * (v.width : ℝ) / 3 < p.x) := by
      simp only [real_lt, real_mul, real_div, real_ofUsize, real_lit]; norm_num
    unfold touchKey Viewer.onTouch
    dsimp only
    rw [if_pos hz, hx1, hx2]
    simp only [List.contains_cons, BEq.rfl, Bool.true_or, if_true, decide_eq_true_eq]
    split_ifs
    · exact ⟨_, rfl, rfl, by simp, fun k hk => by simp [hk]⟩
    · exact ⟨_, rfl, rfl, by simp, fun k hk => by simp [hk]⟩
    · exact ⟨_, rfl, rfl, by simp, fun k hk => by simp [hk]⟩
  have e1 : v.run n (.touch ⟨id, .started, p⟩ :: es) = (v.onTouch ⟨id, .started, p⟩).run n es := by
    show ((v.onTouch ⟨id, .started, p⟩).run n es >>= fun x => Except.ok (x.1, [] ++ x.2)) = _
    cases (v.onTouch ⟨id, .started, p⟩).run n es <;> rfl
  rw [e1, Viewer.run_append_ok h1, h2.run hm]
  cases w.run n _ <;> rfl

/-- A finger in the lower left corner, moved while another finger drags. -/
example (v : Viewer ℝ) (hh : v.height = 600) (hw : v.width = 900) :
    (v.run 4 [.touch ⟨2, .started, ⟨50, 500⟩⟩, .touch ⟨1, .started, ⟨100, 100⟩⟩, .aboutToWait,
      .touch ⟨2, .moved, ⟨90, 90⟩⟩, .touch ⟨1, .moved, ⟨110, 100⟩⟩, .aboutToWait, .redraw none 0 none]).map Prod.snd
    = (v.run 4 [.arrowLeft, .touch ⟨1, .started, ⟨100, 100⟩⟩, .aboutToWait,
      .touch ⟨1, .moved, ⟨110, 100⟩⟩, .aboutToWait, .redraw none 0 none]).map Prod.snd := by
  have h := C101_navigation_finger_partial (n := 4) (v := v) (id := 2) (p := ⟨50, 500⟩)
    (es := [.touch ⟨1, .started, ⟨100, 100⟩⟩, .aboutToWait, .touch ⟨2, .moved, ⟨90, 90⟩⟩,
      .touch ⟨1, .moved, ⟨110, 100⟩⟩, .aboutToWait, .redraw none 0 none]) (by rw [hh]; norm_num)
    (by simp)
  have hk : touchKey v.width (⟨50, 500⟩ : P2 ℝ) = [.arrowLeft] := by
    unfold touchKey; rw [hw, if_pos (by norm_num)]
  rw [hk] at h
  exact h

/-- **C101 is false of the code**: lifting the navigation finger swallows the movement of another finger that
drags the picture. -/
theorem C101_counterexample (n : Nat) : ∃ v va vb : Viewer ℝ, Viewer.new none 900 600 = .ok v ∧
    v.run n [.touch ⟨1, .started, ⟨100, 100⟩⟩, .aboutToWait, .touch ⟨2, .started, ⟨450, 500⟩⟩,
      .touch ⟨1, .moved, ⟨110, 100⟩⟩, .touch ⟨2, .ended, ⟨450, 500⟩⟩, .aboutToWait] = .ok (va, []) ∧
    va.transform.apply ⟨0, 0⟩ = ⟨0, 0⟩ ∧
    v.run n [.touch ⟨1, .started, ⟨100, 100⟩⟩, .aboutToWait, .touch ⟨1, .moved, ⟨110, 100⟩⟩,
      .aboutToWait] = .ok (vb, []) ∧
    vb.transform.apply ⟨0, 0⟩ = ⟨10, 0⟩ := by
  have z1 : (FloatOps.ofUsize 600 *. lit 2 /. lit 3 <. (100 : ℝ)) = false := by
    simp only [real_lt, real_mul, real_div, real_ofUsize, real_lit]; norm_num
  have z2 : (FloatOps.ofUsize 600 *. lit 2 /. lit 3 <. (500 : ℝ)) = true := by
    simp only [real_lt, real_mul, real_div, real_ofUsize, real_lit]; norm_num
  have z3 : ((450 : ℝ) <. (FloatOps.ofUsize 900 /. lit 3)) = false := by
    simp only [real_lt, real_div, real_ofUsize, real_lit]; norm_num
  have z4 : ((lit 2 *. FloatOps.ofUsize 900 /. lit 3) <. (450 : ℝ)) = false := by
    simp only [real_lt, real_mul, real_div, real_ofUsize, real_lit]; norm_num
  obtain ⟨i1, hi1⟩ : ∃ i, (TouchState.afterFrames (F := ℝ) ([] ++ [[⟨1, .started, ⟨100, 100⟩⟩]])).info = some i :=
    ⟨_, rfl⟩
  obtain ⟨i2, hi2⟩ : ∃ i, (TouchState.afterFrames (F := ℝ) ([[⟨1, .started, ⟨100, 100⟩⟩]] ++
    [[⟨1, .moved, ⟨110, 100⟩⟩, ⟨2, .ended, ⟨450, 500⟩⟩]])).info = some i := ⟨_, rfl⟩
  obtain ⟨i3, hi3, h3⟩ := C96_one_finger [[⟨1, .started, ⟨100, 100⟩⟩]] [⟨1, .moved, ⟨110, 100⟩⟩] rfl (i := 1)
    (a := ⟨100, 100⟩) (a' := ⟨110, 100⟩) rfl rfl (camera := gestureTransform i1 Affine.identity)
  have h1 := C95_one_finger [] [⟨1, .started, ⟨100, 100⟩⟩] rfl hi1 rfl Affine.identity ⟨0, 0⟩
  have h2 := C95_one_finger [[⟨1, .started, ⟨100, 100⟩⟩]] [⟨1, .moved, ⟨110, 100⟩⟩, ⟨2, .ended, ⟨450, 500⟩⟩] rfl
    hi2 rfl (gestureTransform i1 Affine.identity) ⟨0, 0⟩
  have h0 : (Affine.identity : Affine ℝ).apply ⟨0, 0⟩ = ⟨0, 0⟩ := by simp [Affine.apply, Affine.identity]
  have hi1' : (TouchState.new.addEvent (⟨1, .started, ⟨100, 100⟩⟩ : TouchEvent ℝ)).endFrame.info = some i1 := hi1
  have hi2' : (((TouchState.new.addEvent (⟨1, .started, ⟨100, 100⟩⟩ : TouchEvent ℝ)).endFrame.addEvent
    ⟨1, .moved, ⟨110, 100⟩⟩).addEvent ⟨2, .ended, ⟨450, 500⟩⟩).endFrame.info = some i2 := hi2
  have hi3' : ((TouchState.new.addEvent (⟨1, .started, ⟨100, 100⟩⟩ : TouchEvent ℝ)).endFrame.addEvent
    ⟨1, .moved, ⟨110, 100⟩⟩).endFrame.info = some i3 := hi3
  have step1 : ∀ v : Viewer ℝ, v.height = 600 → v.navigationFingers = [] →
      v.onTouch ⟨1, .started, ⟨100, 100⟩⟩
        = { v with touchState := v.touchState.addEvent ⟨1, .started, ⟨100, 100⟩⟩ } := by
    intro v hh hn
    obtain ⟨s1, s2, s3, s4, s5, s6, s7, s8, s9, s10, s11, s12, s13, s14⟩ := v
    dsimp only at hh hn
    subst hh hn
    unfold Viewer.onTouch
    dsimp only
    simp only [z1, Bool.false_eq_true, if_false, List.contains_nil]
  have step2 : ∀ v : Viewer ℝ, v.height = 600 → v.width = 900 →
      v.onTouch ⟨2, .started, ⟨450, 500⟩⟩
        = { v with navigationFingers := 2 :: v.navigationFingers } := by
    intro v hh hw
    obtain ⟨s1, s2, s3, s4, s5, s6, s7, s8, s9, s10, s11, s12, s13, s14⟩ := v
    dsimp only at hh hw
    subst hh hw
    unfold Viewer.onTouch
    dsimp only
    simp only [z2, z3, z4, if_true, Bool.false_eq_true, if_false, List.contains_cons, BEq.rfl, Bool.true_or]
  have stepT : ∀ {v v' : Viewer ℝ} {e}, v.onTouch e = v' → v.step n (.touch e) = .ok (v', none) := by
    rintro _ _ _ rfl; rfl
  have step4 : ∀ (v : Viewer ℝ) i, v.touchState.endFrame.info = some i → v.step n .aboutToWait = .ok ({ v with
      touchState := v.touchState.endFrame
      transform := gestureTransform i v.transform }, none) := by
    intro v i hi
    unfold Viewer.step
    dsimp only
    rw [hi]
  refine ⟨_, ⟨Stats.new, true, 0, TouchState.afterFrames [[⟨1, .started, ⟨100, 100⟩⟩],
      [⟨1, .moved, ⟨110, 100⟩⟩, ⟨2, .ended, ⟨450, 500⟩⟩]], [],
      gestureTransform i2 (gestureTransform i1 Affine.identity), false, none, 0, 0, -1, false, 900, 600⟩,
    ⟨Stats.new, true, 0, TouchState.afterFrames [[⟨1, .started, ⟨100, 100⟩⟩], [⟨1, .moved, ⟨110, 100⟩⟩]], [],
      gestureTransform i3 (gestureTransform i1 Affine.identity), false, none, 0, 0, -1, false, 900, 600⟩, rfl, ?_, (h2.trans h1).trans h0, ?_, ?_⟩
  · exact Viewer.run_cons.mpr ⟨_, none, [], stepT (step1 _ rfl rfl),
      Viewer.run_cons.mpr ⟨_, none, [], step4 _ _ hi1',
      Viewer.run_cons.mpr ⟨_, none, [], stepT (step2 _ rfl rfl),
      Viewer.run_cons.mpr ⟨_, none, [], rfl, Viewer.run_cons.mpr ⟨_, none, [], rfl,
      Viewer.run_cons.mpr ⟨_, none, [], step4 _ _ hi2', rfl, rfl⟩, rfl⟩, rfl⟩, rfl⟩, rfl⟩, rfl⟩
  · exact Viewer.run_cons.mpr ⟨_, none, [], stepT (step1 _ rfl rfl),
      Viewer.run_cons.mpr ⟨_, none, [], step4 _ _ hi1',
      Viewer.run_cons.mpr ⟨_, none, [], rfl,
      Viewer.run_cons.mpr ⟨_, none, [], step4 _ _ hi3', rfl, rfl⟩, rfl⟩, rfl⟩, rfl⟩
  · rw [h3, h1, h0]; norm_num

end Velato
