import Verif.Proofs.App
import Verif.Props.Viewer

/-!
# The life of the window

C120 to C122: what the example application does with its window, its surface and its renderers, over all
sequences of events of the application.
-/

namespace Velato

variable {F : Type} [FloatOps F] [Libm F] [Atan2 F]

/-! ## C120 -/

/-- **C120.** The application uses one window only, however often it is suspended and resumed: it creates it
before anything else is done with it, and all surfaces and frames are those of this window. -/
theorem C120_one_window {scene : Option Int} {n : Nat} {a b : App F} {es : List (AppEvent F)}
    {acts : List (AppAction F)} (ha : App.new scene = .ok a) (h : a.run n es = .ok (b, acts)) :
    OneWindow acts := by
  obtain ⟨-, -, h1, h2, -⟩ := App.new_ok ha
  exact run_oneWindow h (by simp [App.theWindow, h1, h2])

/-- **C120.** A device draws, or compiles shaders, only after a renderer was created for it. -/
theorem C120_renderers {scene : Option Int} {n : Nat} {a b : App F} {es : List (AppEvent F)}
    {acts : List (AppAction F)} (ha : App.new scene = .ok a) (h : a.run n es = .ok (b, acts)) :
    RenderersFirst acts := by
  obtain ⟨-, -, -, -, h1, -⟩ := App.new_ok ha
  intro pre act post d hacts hd
  have := run_renderers (hist := []) h (by simp [h1])
  simpa using this.first hacts hd

/-- **C120.** No device gets two renderers, if the answers of the system are sensible. -/
theorem C120_renderers_once {scene : Option Int} {n : Nat} {a b : App F} {es : List (AppEvent F)}
    {acts : List (AppAction F)} (ha : App.new scene = .ok a) (h : a.run n es = .ok (b, acts))
    (hs : SensibleAnswers 0 es) : (acts.filterMap AppAction.rendererOf).Nodup := by
  obtain ⟨-, -, -, -, h1, -⟩ := App.new_ok ha
  exact (run_renderers_nodup h (by rw [h1]; exact hs)).1

/-- **C120.** The pictures are those that C97 to C101 are about, for the events of the window while it is shown,
the size it has when it is resumed, and the ends of the rounds of events. -/
theorem C120_pictures {scene : Option Int} {n : Nat} {a b : App F} {es : List (AppEvent F)}
    {acts : List (AppAction F)} (ha : App.new scene = .ok a) (h : a.run n es = .ok (b, acts)) :
    ∃ v v' : Viewer F, Viewer.new scene 0 0 = .ok v ∧
      v.run n (delivered none none es) = .ok (v', acts.filterMap AppAction.pictureOf) := by
  obtain ⟨h0, -, h1, h2, -⟩ := App.new_ok ha
  have := run_delivered h
  rw [show a.shown = none by simp [App.shown, h1], show a.kept = none by simp [App.kept, h2]] at this
  exact ⟨_, _, h0, this⟩

/-- **C120.** The application panics only if the events of the picture make it panic (C99): there always is a
renderer for the surface, if the system answers with a device that is there. -/
theorem C120_no_panic {scene : Option Int} {n : Nat} {a : App F} {es : List (AppEvent F)}
    {v : Viewer F} {x : Viewer F × List (ViewerFrame F)} (ha : App.new scene = .ok a)
    (hr : ∀ r, .resumed r ∈ es → r.device < r.devices) (hv : Viewer.new scene 0 0 = .ok v)
    (h : v.run n (delivered none none es) = .ok x) : ∃ y, a.run n es = .ok y := by
  cases hx : a.run n es with
  | ok y => exact ⟨y, rfl⟩
  | error p =>
    obtain ⟨h0, -, h1, h2, -⟩ := App.new_ok ha
    obtain ⟨q, -, hq⟩ := run_panics (App.Inv.new ha) hr hx
    rw [show a.shown = none by simp [App.shown, h1], show a.kept = none by simp [App.kept, h2],
      Except.ok.inj (h0.symm.trans hv), h] at hq
    cases hq

/-- **C120.** Nothing is done while the application is suspended, whatever events there are. -/
theorem C120_suspended {scene : Option Int} {n : Nat} {a b c : App F} {es es' : List (AppEvent F)}
    {acts acts' : List (AppAction F)} (ha : App.new scene = .ok a) (h : a.run n es = .ok (b, acts))
    (hw : windowShown false es = false) (hes : ∀ r, .resumed r ∉ es')
    (h' : a.run n (es ++ es') = .ok (c, acts')) : acts' = acts := by
  obtain ⟨-, -, h1, -⟩ := App.new_ok ha
  obtain ⟨b', acts1, acts2, h3, h4, rfl⟩ := run_appended h'
  rw [h] at h3
  cases h3
  have := run_isShown h
  rw [h1, Option.isSome_none, hw, Option.isSome_eq_false_iff, Option.isNone_iff_eq_none] at this
  rw [run_hidden h4 this hes, List.append_nil]

/-- **C120.** The application runs continuously (instead of waiting for events) while the window is
shown, and only then. -/
theorem C120_polling {scene : Option Int} {n : Nat} {a b : App F} {es : List (AppEvent F)}
    {acts : List (AppAction F)} (ha : App.new scene = .ok a) (h : a.run n es = .ok (b, acts)) :
    b.polling = windowShown false es := by
  obtain ⟨-, -, h1, -⟩ := App.new_ok ha
  have := run_isShown h
  rw [h1] at this
  rw [((App.Inv.new ha).run h).polling, this]
  rfl

/-- The redraw of window 7. -/
noncomputable def exRedraw : AppEvent ℝ := .window 7 (.viewer (.redraw none 6 none))

/-- Suspended and resumed on another device, with the statistics hidden. -/
noncomputable def exLife : List (AppEvent ℝ) :=
  [exRedraw, .hotReload, .resumed ⟨7, 800, 600, 0, 1⟩, .window 7 (.viewer .toggleStats), exRedraw,
    .window 8 (.viewer .arrowRight), .window 7 (.viewer .arrowRight), exRedraw, .hotReload, .aboutToWait,
    .suspended, exRedraw, .window 7 .exit, .resumed ⟨9, 900, 700, 1, 2⟩, exRedraw, .suspended,
    .resumed ⟨10, 1000, 700, 0, 2⟩, .window 7 .exit]

/-- The hypotheses of C120 are met: one window, two renderers, three frames. -/
example : ∃ a b : App ℝ, ∃ acts, App.new (some 1) = .ok a ∧ a.run 3 exLife = .ok (b, acts) ∧
    SensibleAnswers 0 exLife ∧ acts.filterMap AppAction.rendererOf = [0, 1] ∧
    acts.filterMap AppAction.windowOf = [7, 7, 7, 7, 7, 7, 7] ∧
    (acts.filterMap AppAction.pictureOf).map (fun f => (f.scene, f.viewportSize)) =
      [(1, ⟨((800 : Nat) : ℝ), ((600 : Nat) : ℝ)⟩), (2, ⟨((800 : Nat) : ℝ), ((600 : Nat) : ℝ)⟩),
        (2, ⟨((900 : Nat) : ℝ), ((700 : Nat) : ℝ)⟩)] :=
  ⟨_, _, _, rfl, rfl, by simp [SensibleAnswers, exLife, exRedraw], rfl, rfl, rfl⟩

/-! ## C121 -/

/-- **C121 (partial).** The title of the window names the scene that is displayed, unless the application was
started with a positive scene number: then it may be the initial title, as long as the scene before
that number is displayed. What is missing: C121 claims this for all start-up arguments, and that is false
(`C121_counterexample`). -/
theorem C121_title_partial {scene : Option Int} {n : Nat} {a b : App F} {es : List (AppEvent F)}
    {acts : List (AppAction F)} (ha : App.new scene = .ok a) (h : a.run n es = .ok (b, acts))
    {w : AppWindow} {s : AppSurface} {l : Bool} {f : ViewerFrame F} (hf : .frame w s l f ∈ acts) :
    w.title = some f.scene ∨ w.title = none ∧ (f.scene : Int) + 1 = scene.getD 0 := by
  obtain ⟨h0, -, h1, h2, -⟩ := App.new_ok ha
  have hp : a.viewer.prevSceneIx = scene.getD 0 - 1 := by
    unfold Viewer.new at h0
    dsimp only at h0
    split_ifs at h0
    rw [← Except.ok.inj h0]
  rcases run_titled h (.inl ⟨hp, by simp [App.theWindow, h1, h2]⟩) hf with h | ⟨h, h'⟩
  · exact .inl h
  · exact .inr ⟨h, by omega⟩

/-- **C121 (partial).** So it always does if the application is started without a scene number. -/
theorem C121_no_argument_partial {n : Nat} {a b : App F} {es : List (AppEvent F)}
    {acts : List (AppAction F)} (ha : App.new none = .ok a) (h : a.run n es = .ok (b, acts))
    {w : AppWindow} {s : AppSurface} {l : Bool} {f : ViewerFrame F} (hf : .frame w s l f ∈ acts) :
    w.title = some f.scene := by
  rcases C121_title_partial ha h hf with h | ⟨-, h⟩
  · exact h
  · rw [Option.getD_none] at h
    omega

/-- Another scene, and another title. -/
example : ∃ a b : App ℝ, ∃ acts w s l f, App.new none = .ok a ∧
    a.run 3 [.resumed ⟨7, 800, 600, 0, 1⟩, .window 7 (.viewer .toggleStats), exRedraw,
      .window 7 (.viewer .arrowLeft), exRedraw] = .ok (b, acts) ∧ .frame w s l f ∈ acts ∧ f.scene = 2 ∧
    w.title = some 2 :=
  ⟨_, _, _, _, _, _, _, rfl, rfl, List.mem_of_getElem? (i := 4) rfl, rfl, rfl⟩

/-- **C121 is false of the code**: with `--scene 1` and one scene only, and with `--scene 1` and
the key "left" before the first frame, the window keeps its initial title. -/
theorem C121_counterexample :
    (∃ a b : App ℝ, ∃ acts w s l f, App.new (some 1) = .ok a ∧
      a.run 1 [.resumed ⟨7, 800, 600, 0, 1⟩, .window 7 (.viewer .toggleStats), exRedraw] = .ok (b, acts) ∧
      .frame w s l f ∈ acts ∧ w.title ≠ some f.scene) ∧
    ∃ a b : App ℝ, ∃ acts w s l f, App.new (some 1) = .ok a ∧
      a.run 2 [.resumed ⟨7, 800, 600, 0, 1⟩, .window 7 (.viewer .toggleStats), .window 7 (.viewer .arrowLeft),
        exRedraw] = .ok (b, acts) ∧
      .frame w s l f ∈ acts ∧ w.title ≠ some f.scene :=
  ⟨⟨_, _, _, _, _, _, _, rfl, rfl, List.mem_of_getElem? (i := 3) rfl, by simp [AppWindow.redrawn]⟩,
    ⟨_, _, _, _, _, _, _, rfl, rfl, List.mem_of_getElem? (i := 3) rfl, by decide⟩⟩

/-! ## C122 -/

/-- **C122 (partial).** The panel of statistics says whether frames wait for the display, as long as the
application has not been suspended after the key V was used. What is missing: C122 claims this for all
sequences of events, and that is false (`C122_counterexample`). -/
theorem C122_vsync_partial {scene : Option Int} {n : Nat} {a b : App F} {es : List (AppEvent F)}
    {acts : List (AppAction F)} (ha : App.new scene = .ok a) (h : a.run n es = .ok (b, acts))
    (hes : ∀ pre post, es = pre ++ .suspended :: post → ∀ id, .window id .toggleVsync ∉ pre)
    {w : AppWindow} {s : AppSurface} {l : Bool} {f : ViewerFrame F} (hf : .frame w s l f ∈ acts) :
    l = s.vsync := by
  obtain ⟨-, hv, h1, -⟩ := App.new_ok ha
  refine run_synced h ⟨fun s w hx => ?_, fun _ => hv⟩ (fun pre post he => ⟨hv, hes pre post he⟩) hf
  rw [h1] at hx
  cases hx

/-- Not waiting for the display. -/
example : ∃ a b : App ℝ, ∃ acts w s f, App.new none = .ok a ∧
    a.run 3 [.resumed ⟨7, 800, 600, 0, 1⟩, .window 7 (.viewer .toggleStats), .window 7 .toggleVsync,
      exRedraw] = .ok (b, acts) ∧ .frame w s false f ∈ acts ∧ s.vsync = false :=
  ⟨_, _, _, _, _, _, rfl, rfl, List.mem_of_getElem? (i := 3) rfl, rfl⟩

/-- **C122 is false of the code**: after the key V, suspending and resuming, frames wait for the display, and
the panel says that they do not. -/
theorem C122_counterexample : ∃ a b : App ℝ, ∃ acts w s f, App.new none = .ok a ∧
    a.run 3 ([.resumed ⟨7, 800, 600, 0, 1⟩, .window 7 .toggleVsync, .suspended, .resumed ⟨8, 800, 600, 0, 1⟩] ++
      [exRedraw]) = .ok (b, acts) ∧ .frame w s false f ∈ acts ∧ s.vsync = true := by
  -- the panel is displayed without a panic
  obtain ⟨v, fs, hr⟩ : ∃ v fs, Viewer.run 3 _ [.resized 800 600, .resized 800 600, .redraw none 6 none] =
      .ok (v, fs) := by
    obtain ⟨x, hx⟩ := (C99_no_panic_partial (start := none) (w := 0) (h := 0) (n := 3)
      [.resized 800 600, .resized 800 600, .redraw none 6 none] rfl (by norm_num) (by norm_num)
      (by simp [statsEvents, frameTimes])).mpr (by
        intro es1 r l m es2 he _ hb
        have hs : statsEvents es1 = [] := by
          match es1, he with
          | [], he => simp at he
          | [_], he => simp at he
          | [e, e'], he => simp at he; obtain ⟨rfl, rfl, -⟩ := he; rfl
          | e :: e' :: e'' :: es, he => simp at he
        unfold StatsBroken at hb
        rw [hs] at hb
        revert hb
        decide)
    exact ⟨x.1, x.2, hx⟩
  obtain ⟨v1, f1, fs1, h1, hr, -⟩ := Viewer.run_cons.mp hr
  cases h1
  obtain ⟨v2, f2, fs2, h2, hr, -⟩ := Viewer.run_cons.mp hr
  cases h2
  obtain ⟨v3, f3, fs3, h3, -, -⟩ := Viewer.run_cons.mp hr
  obtain ⟨f, rfl, h4⟩ := Viewer.step_redraw h3
  exact ⟨_, _, _, _, _, f, rfl, App.run_append_ok rfl (App.run_redraw (w := ⟨7, none⟩) rfl rfl h4),
    List.mem_append_right _ List.mem_cons_self, rfl⟩

end Velato
