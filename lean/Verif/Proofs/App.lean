import Verif.Spec.App
import Verif.Proofs.Viewer

/-!
# The life of the window
-/

namespace Velato

variable {F : Type} [FloatOps F] [Libm F] [Atan2 F]

omit [FloatOps F] [Libm F] [Atan2 F] in
theorem appBind_ok {α β : Type} {x : Except AppPanic α} {f : α → Except AppPanic β} {b : β}
    (h : (x >>= f) = .ok b) : ∃ a, x = .ok a ∧ f a = .ok b := by
  cases x with
  | error p => cases h
  | ok a => exact ⟨a, rfl, h⟩

/-- The id of the window that is shown, and of the one that is kept. -/
def App.shown (a : App F) : Option Nat := a.renderState.map (·.2.id)
@[inherit_doc App.shown]
def App.kept (a : App F) : Option Nat := a.cachedWindow.map (·.id)

/-- There is a renderer for the surface; the window is not kept while it is shown. -/
structure App.Inv (a : App F) : Prop where
  renderer : ∀ s w, a.renderState = some (s, w) → a.renderers[s.device]? = some true
  kept : a.renderState ≠ none → a.cachedWindow = none
  polling : a.polling = a.renderState.isSome

omit [Libm F] [Atan2 F] in
theorem App.new_ok {scene : Option Int} {a : App F} (h : App.new scene = .ok a) :
    Viewer.new scene 0 0 = .ok a.viewer ∧ a.vsyncOn = true ∧ a.renderState = none ∧ a.cachedWindow = none ∧
      a.renderers = [] ∧ a.polling = false := by
  unfold App.new at h
  cases hv : (Viewer.new scene 0 0 : Except ViewerPanic (Viewer F)) with
  | error p => rw [hv] at h; cases h
  | ok v => rw [hv] at h; cases h; exact ⟨rfl, rfl, rfl, rfl, rfl, rfl⟩

omit [Libm F] [Atan2 F] in
theorem App.Inv.new {scene : Option Int} {a : App F} (h : App.new scene = .ok a) : a.Inv := by
  obtain ⟨-, -, h1, h2, -, h4⟩ := App.new_ok h
  refine ⟨fun s w hx => ?_, fun hx => (hx h1).elim, ?_⟩
  · rw [h1] at hx; cases hx
  · rw [h1, h4]; rfl

omit [FloatOps F] [Libm F] [Atan2 F] in
theorem App.renderer_ok {a : App F} {d : Nat} {u : Unit} (h : a.renderer d = .ok u) :
    a.renderers[d]? = some true := by
  unfold App.renderer at h
  split at h
  · cases h
  · cases h
  · assumption

/-- What one event does. -/
inductive App.Does (n : Nat) (a : App F) : AppEvent F → App F → List (AppAction F) → Prop where
  | ignored {e} (hd : ∀ es, delivered a.shown a.kept (e :: es) = delivered a.shown a.kept es) :
      App.Does n a e a []
  | exit {id s w} (hs : a.renderState = some (s, w)) : App.Does n a (.window id .exit) a [.exit]
  | complexity {id b} : App.Does n a (.window id .toggleComplexity) { a with complexityShown := b } []
  | vsync {id s w} (hs : a.renderState = some (s, w)) :
      App.Does n a (.window id .toggleVsync) { a with
        vsyncOn := !a.vsyncOn
        renderState := some ({ s with vsync := !a.vsyncOn }, w) } []
  | viewer {e e' v} (hv : a.viewer.step n e' = .ok (v, none))
      (hd : ∀ es, delivered a.shown a.kept (e :: es) = e' :: delivered a.shown a.kept es) :
      App.Does n a e { a with viewer := v } []
  | redraw {id s w r l m v f} (hs : a.renderState = some (s, w)) (hid : w.id = id)
      (hv : a.viewer.onRedraw n r l m = .ok (v, f)) (hr : a.renderers[s.device]? = some true) :
      App.Does n a (.window id (.viewer (.redraw r l m)))
        { a with viewer := v, renderState := some (s, w.redrawn n a.viewer) }
        [.frame (w.redrawn n a.viewer) s a.vsyncOn f]
  | reload {s w} (hs : a.renderState = some (s, w)) (hr : a.renderers[s.device]? = some true) :
      App.Does n a .hotReload a [.reloadShaders s.device]
  | suspended {c} (hc : c = a.cachedWindow ∧ a.renderState = none ∨
      ∃ s w, a.renderState = some (s, w) ∧ c = some w) :
      App.Does n a .suspended { a with renderState := none, cachedWindow := c, polling := false } []
  | resumed {r w created there} (hs : a.renderState = none)
      (hw : a.cachedWindow = some w ∧ created = [] ∨
        a.cachedWindow = none ∧ w = ⟨r.window, none⟩ ∧ created = [.createWindow r.window])
      (hr : (resizeRenderers a.renderers r.devices)[r.device]? = some there) :
      App.Does n a (.resumed r) { a with
          viewer := { a.viewer with width := r.width, height := r.height }
          renderState := some (⟨r.device, true⟩, w)
          cachedWindow := none
          renderers := (resizeRenderers a.renderers r.devices).set r.device true
          polling := true }
        (created ++ [.createSurface w.id] ++ if there then [] else [.createRenderer r.device])


omit [FloatOps F] [Libm F] [Atan2 F] in
theorem delivered_other {shown kept : Option Nat} {id : Nat} (h : shown ≠ some id) (e : WindowInput F)
    (es : List (AppEvent F)) : delivered shown kept (.window id e :: es) = delivered shown kept es := by
  cases e with
  | viewer e => cases e <;> simp [delivered, h]
  | _ => rfl

theorem does_of {n : Nat} {a b : App F} {e : AppEvent F} {acts : List (AppAction F)}
    (h : a.step n e = .ok (b, acts)) : App.Does n a e b acts := by
  -- an event of the picture that displays nothing
  have viewer : ∀ {e e'} {x : App F × Option (ViewerFrame F)}, a.onViewer n e' = .ok x →
      (∀ r l m, e' ≠ .redraw r l m) →
      (∀ es, delivered a.shown a.kept (e :: es) = e' :: delivered a.shown a.kept es) →
      App.Does n a e x.1 [] := by
    intro e e' x hx hr hd
    unfold App.onViewer at hx
    cases hv : a.viewer.step n e' with
    | error p => rw [hv] at hx; cases hx
    | ok y =>
      obtain ⟨v, f⟩ := y
      rw [hv] at hx
      cases hx
      cases f with
      | none => exact .viewer hv hd
      | some f =>
        obtain ⟨r, l, m, he, -⟩ := Viewer.step_frame hv
        exact (hr r l m he).elim
  cases e with
  | window id e =>
    cases hs : a.renderState with
    | none =>
      simp only [App.step, hs] at h
      cases h
      exact .ignored fun es => delivered_other (by simp [App.shown, hs]) e es
    | some x =>
      obtain ⟨s, w⟩ := x
      simp only [App.step, hs] at h
      split_ifs at h with hid
      · cases h
        exact .ignored fun es => delivered_other (by simpa [App.shown, hs] using hid) e es
      · have hid : w.id = id := not_not.mp hid
        have hsh : a.shown = some id := by simp [App.shown, hs, hid]
        cases e with
        | toggleComplexity => cases h; exact .complexity
        | toggleVsync => cases h; exact .vsync hs
        | exit => cases h; exact .exit hs
        | viewer e =>
          cases e with
          | aboutToWait => cases h; exact .ignored fun es => rfl
          | redraw r l m =>
            obtain ⟨⟨c, f⟩, hc, h⟩ := appBind_ok (show (a.onViewer n (.redraw r l m) >>= _) = _ from h)
            obtain ⟨u, hu, h⟩ := appBind_ok h
            cases h
            unfold App.onViewer at hc
            cases hv : a.viewer.step n (.redraw r l m) with
            | error p => rw [hv] at hc; cases hc
            | ok y =>
              obtain ⟨v, f'⟩ := y
              rw [hv] at hc
              cases hc
              obtain ⟨f'', rfl, hv'⟩ := Viewer.step_redraw hv
              exact .redraw hs hid hv' (App.renderer_ok hu)
          | _ =>
            obtain ⟨x, hx, h⟩ := appBind_ok (show (a.onViewer n _ >>= _) = _ from h)
            cases h
            exact viewer hx (by simp) fun es => by simp [delivered, hsh]
  | aboutToWait =>
    obtain ⟨x, hx, h⟩ := appBind_ok (show (a.onViewer n _ >>= _) = _ from h)
    cases h
    exact viewer hx (by simp) fun es => rfl
  | hotReload =>
    cases hs : a.renderState with
    | none =>
      simp only [App.step, hs] at h
      cases h
      exact .ignored fun es => rfl
    | some x =>
      obtain ⟨s, w⟩ := x
      simp only [App.step, hs] at h
      obtain ⟨u, hu, h⟩ := appBind_ok h
      cases h
      exact .reload hs (App.renderer_ok hu)
  | suspended =>
    simp only [App.step] at h
    cases h
    refine .suspended ?_
    cases hs : a.renderState with
    | none => exact .inl ⟨rfl, rfl⟩
    | some x => exact .inr ⟨x.1, x.2, rfl, rfl⟩
  | resumed r =>
    simp only [App.step, App.onResumed] at h
    cases hs : a.renderState with
    | some x =>
      rw [hs] at h
      cases h
      exact .ignored fun es => by simp [delivered, App.shown, hs]
    | none =>
      rw [hs] at h
      dsimp only at h
      cases hr : (resizeRenderers a.renderers r.devices)[r.device]? with
      | none => rw [hr] at h; cases h
      | some there =>
        rw [hr] at h
        cases hc : a.cachedWindow with
        | none =>
          rw [hc] at h
          cases h
          exact .resumed hs (.inr ⟨hc, rfl, rfl⟩) hr
        | some w =>
          rw [hc] at h
          cases h
          exact .resumed hs (.inl ⟨hc, rfl⟩) hr

theorem App.run_cons {n : Nat} {a c : App F} {e : AppEvent F} {es : List (AppEvent F)}
    {acts : List (AppAction F)} (h : a.run n (e :: es) = .ok (c, acts)) :
    ∃ b acts1 acts2, App.Does n a e b acts1 ∧ b.run n es = .ok (c, acts2) ∧ acts = acts1 ++ acts2 := by
  obtain ⟨⟨b, acts1⟩, h1, h⟩ := appBind_ok (show (a.step n e >>= _) = _ from h)
  obtain ⟨⟨d, acts2⟩, h2, h⟩ := appBind_ok h
  cases h
  exact ⟨b, acts1, acts2, does_of h1, h2, rfl⟩

omit [Libm F] [Atan2 F] [FloatOps F] in
theorem resizeRenderers_length (l : List Bool) (n : Nat) : (resizeRenderers l n).length = n := by
  simp [resizeRenderers]
  omega

theorem Does.inv {n : Nat} {a b : App F} {e : AppEvent F} {acts : List (AppAction F)}
    (h : App.Does n a e b acts) (hi : a.Inv) : b.Inv := by
  cases h with
  | ignored | exit | complexity | viewer | reload => exact ⟨hi.renderer, hi.kept, hi.polling⟩
  | vsync hs =>
    refine ⟨?_, fun _ => hi.kept (by rw [hs]; simp), ?_⟩
    · rintro s w hx
      cases hx
      have := hi.renderer _ _ hs
      exact this
    · show a.polling = true
      rw [hi.polling, hs]
      rfl
  | redraw hs _ _ hr =>
    refine ⟨?_, fun _ => hi.kept (by rw [hs]; simp), ?_⟩
    · rintro s w ⟨⟩
      exact hr
    · show a.polling = true
      rw [hi.polling, hs]
      rfl
  | suspended =>
    refine ⟨fun s w hx => ?_, fun hx => (hx rfl).elim, rfl⟩
    cases hx
  | resumed _ _ hr =>
    refine ⟨?_, fun _ => rfl, rfl⟩
    rintro s w ⟨⟩
    obtain ⟨h, -⟩ := List.getElem?_eq_some_iff.mp hr
    show (List.set _ _ _)[_]? = _
    rw [List.getElem?_set_self h]

theorem App.Inv.run {n : Nat} {a b : App F} {es : List (AppEvent F)} {acts : List (AppAction F)}
    (hi : a.Inv) (h : a.run n es = .ok (b, acts)) : b.Inv := by
  induction es generalizing a acts with
  | nil => cases h; exact hi
  | cons e es ih =>
    obtain ⟨c, _, _, h1, h2, -⟩ := App.run_cons h
    exact ih (Does.inv h1 hi) h2

/-! ## Pictures -/

/-- What reaches the picture, of one event. -/
theorem Does.delivered {n : Nat} {a b : App F} {e : AppEvent F} {acts : List (AppAction F)}
    (h : App.Does n a e b acts) : ∃ evs, a.viewer.run n evs = .ok (b.viewer, acts.filterMap AppAction.pictureOf) ∧
      ∀ es, Velato.delivered a.shown a.kept (e :: es) = evs ++ Velato.delivered b.shown b.kept es := by
  cases h with
  | ignored hd => exact ⟨[], rfl, hd⟩
  | exit => exact ⟨[], rfl, fun _ => rfl⟩
  | complexity => exact ⟨[], rfl, fun _ => rfl⟩
  | @vsync id s w hs =>
    have : App.shown (F := F) { a with
      vsyncOn := !a.vsyncOn
      renderState := some ({ s with vsync := !a.vsyncOn }, w) } = a.shown := by simp [App.shown, hs]
    refine ⟨[], rfl, fun es => ?_⟩
    rw [this]
    rfl
  | @viewer e e' v hv hd =>
    refine ⟨[e'], Viewer.run_cons.mpr ⟨_, _, _, hv, rfl, rfl⟩, hd⟩
  | @redraw id s w r l m v f hs hid hv _ =>
    have hsh : a.shown = some id := by simp [App.shown, hs, hid]
    have hsh' : App.shown (F := F) { a with viewer := v, renderState := some (s, w.redrawn n a.viewer) }
        = some id := by
      simp only [App.shown, Option.map_some, AppWindow.redrawn, ← hid]
      split_ifs <;> rfl
    refine ⟨[.redraw r l m], Viewer.run_cons.mpr ⟨v, some f, [], ?_, rfl, rfl⟩, fun es => ?_⟩
    · show (a.viewer.onRedraw n r l m >>= _) = _
      rw [hv]
      rfl
    · rw [hsh', hsh]
      simp only [Velato.delivered, if_true]
      rfl
  | reload => exact ⟨[], rfl, fun _ => rfl⟩
  | @suspended c hc =>
    have : App.kept (F := F) { a with renderState := none, cachedWindow := c, polling := false }
        = a.shown.or a.kept := by
      rcases hc with ⟨rfl, hc⟩ | ⟨s, w, hs, rfl⟩
      · simp [App.kept, App.shown, hc]
      · simp [App.kept, App.shown, hs]
    refine ⟨[], rfl, fun es => ?_⟩
    rw [this]
    rfl
  | @resumed r w created there hs hw _ =>
    have hsh : a.shown = none := by simp [App.shown, hs]
    have hid : a.kept.getD r.window = w.id := by
      rcases hw with ⟨hw, -⟩ | ⟨hw, rfl, -⟩ <;> simp [App.kept, hw]
    have hac : List.filterMap AppAction.pictureOf (created ++ [.createSurface w.id] ++
        if there then [] else [.createRenderer r.device] : List (AppAction F)) = [] := by
      rcases hw with ⟨-, rfl⟩ | ⟨-, -, rfl⟩ <;> cases there <;> rfl
    refine ⟨[.resized r.width r.height], ?_, fun es => ?_⟩
    · rw [hac]
      exact Viewer.run_cons.mpr ⟨_, _, _, rfl, rfl, rfl⟩
    · rw [hsh]
      simp only [Velato.delivered, hid]
      rfl

/-- What reaches the picture. -/
theorem run_delivered {n : Nat} {a b : App F} {es : List (AppEvent F)} {acts : List (AppAction F)}
    (h : a.run n es = .ok (b, acts)) :
    a.viewer.run n (delivered a.shown a.kept es) = .ok (b.viewer, acts.filterMap AppAction.pictureOf) := by
  induction es generalizing a acts with
  | nil => cases h; rfl
  | cons e es ih =>
    obtain ⟨c, acts1, acts2, h1, h2, rfl⟩ := App.run_cons h
    obtain ⟨evs, hv, hd⟩ := Does.delivered h1
    rw [hd, List.filterMap_append]
    exact Viewer.run_append.mpr ⟨_, _, _, hv, ih h2, rfl⟩

/-! ## Panics -/

theorem step_panics {n : Nat} {a : App F} {e : AppEvent F} {p : AppPanic} (hi : a.Inv)
    (hr : ∀ r, e = .resumed r → r.device < r.devices) (h : a.step n e = .error p) :
    ∃ q e', p = .viewer q ∧ a.viewer.step n e' = .error q ∧
      ∀ es, ∃ es', delivered a.shown a.kept (e :: es) = e' :: es' := by
  have viewer : ∀ {e e'} {p}, a.onViewer n e' = .error p →
      (∀ es, ∃ es', delivered a.shown a.kept (e :: es) = e' :: es') →
      ∃ q e', p = .viewer q ∧ a.viewer.step n e' = .error q ∧
        ∀ es, ∃ es', delivered a.shown a.kept (e :: es) = e' :: es' := by
    intro e e' p hx hd
    unfold App.onViewer at hx
    split at hx
    · rename_i hs
      cases hx
      exact ⟨_, _, rfl, hs, hd⟩
    · cases hx
  have bindErr : ∀ {α β : Type} {x : Except AppPanic α} {f : α → Except AppPanic β} {p},
      (x >>= f) = .error p → x = .error p ∨ ∃ y, x = .ok y ∧ f y = .error p := by
    intro α β x f p hx
    cases x with
    | error q => cases hx; exact .inl rfl
    | ok y => exact .inr ⟨y, rfl, hx⟩
  have rend : ∀ {s w p}, a.renderState = some (s, w) → a.renderer s.device = .error p → False := by
    intro s w p hs hx
    unfold App.renderer at hx
    rw [hi.renderer s w hs] at hx
    cases hx
  cases e with
  | window id e =>
    cases hs : a.renderState with
    | none => simp only [App.step, hs] at h; cases h
    | some x =>
      obtain ⟨s, w⟩ := x
      simp only [App.step, hs] at h
      split_ifs at h with hid
      have hsh : a.shown = some id := by simp [App.shown, hs, not_not.mp hid]
      cases e with
      | viewer e =>
        cases e with
        | aboutToWait => cases h
        | redraw r l m =>
          rcases bindErr (show (a.onViewer n (.redraw r l m) >>= _) = _ from h) with h | ⟨y, -, h⟩
          · exact viewer h fun es => ⟨_, by rw [hsh]; simp only [delivered, if_true]; rfl⟩
          · rcases bindErr h with h | ⟨y, -, h⟩
            · exact (rend hs h).elim
            · cases h
        | _ =>
          rcases bindErr (show (a.onViewer n _ >>= _) = _ from h) with h | ⟨y, -, h⟩
          · exact viewer h fun es => ⟨_, by rw [hsh]; simp only [delivered, if_true]; rfl⟩
          · cases h
      | _ => cases h
  | aboutToWait =>
    rcases bindErr (show (a.onViewer n _ >>= _) = _ from h) with h | ⟨y, -, h⟩
    · exact viewer h fun es => ⟨_, rfl⟩
    · cases h
  | hotReload =>
    cases hs : a.renderState with
    | none => simp only [App.step, hs] at h; cases h
    | some x =>
      obtain ⟨s, w⟩ := x
      simp only [App.step, hs] at h
      rcases bindErr h with h | ⟨y, -, h⟩
      · exact (rend hs h).elim
      · cases h
  | suspended => cases h
  | resumed r =>
    simp only [App.step, App.onResumed] at h
    cases hs : a.renderState with
    | some x => rw [hs] at h; cases h
    | none =>
      rw [hs] at h
      dsimp only at h
      cases hx : (resizeRenderers a.renderers r.devices)[r.device]? with
      | none =>
        have := hr r rfl
        rw [List.getElem?_eq_none_iff, resizeRenderers_length] at hx
        omega
      | some there => rw [hx] at h; cases h

theorem Viewer.run_append_error {n : Nat} {v w : Viewer F} {es es' : List (ViewerEvent F)}
    {fs : List (ViewerFrame F)} {q : ViewerPanic} (h : v.run n es = .ok (w, fs)) (h' : w.run n es' = .error q) :
    v.run n (es ++ es') = .error q := by
  induction es generalizing v fs with
  | nil => cases h; exact h'
  | cons e es ih =>
    obtain ⟨v1, f, fs', hs, hr, -⟩ := Viewer.run_cons.mp h
    show (v.step n e >>= _) = _
    rw [hs]
    show (v1.run n (es ++ es') >>= _) = _
    rw [ih hr]
    rfl

theorem run_panics {n : Nat} {a : App F} {es : List (AppEvent F)} {p : AppPanic} (hi : a.Inv)
    (hr : ∀ r, .resumed r ∈ es → r.device < r.devices) (h : a.run n es = .error p) :
    ∃ q, p = .viewer q ∧ a.viewer.run n (delivered a.shown a.kept es) = .error q := by
  induction es generalizing a with
  | nil => cases h
  | cons e es ih =>
    change (a.step n e >>= _) = _ at h
    cases hs : a.step n e with
    | error q =>
      rw [hs] at h
      cases h
      obtain ⟨q, e', rfl, hv, hd⟩ := step_panics hi (fun r he => hr r (by simp [he])) hs
      obtain ⟨es', hd⟩ := hd es
      refine ⟨q, rfl, ?_⟩
      rw [hd]
      show (a.viewer.step n e' >>= _) = _
      rw [hv]
      rfl
    | ok x =>
      obtain ⟨b, acts⟩ := x
      rw [hs] at h
      change (b.run n es >>= _) = _ at h
      cases hb : b.run n es with
      | error q =>
        rw [hb] at h
        cases h
        obtain ⟨q, rfl, hq⟩ := ih (Does.inv (does_of hs) hi) (fun r he => hr r (List.mem_cons_of_mem _ he)) hb
        obtain ⟨evs, hv, hd⟩ := Does.delivered (does_of hs)
        refine ⟨q, rfl, ?_⟩
        rw [hd]
        exact Viewer.run_append_error hv hq
      | ok y => rw [hb] at h; cases h

/-! ## The window -/

/-- The window there is. -/
def App.theWindow (a : App F) : Option AppWindow := (a.renderState.map (·.2)).or a.cachedWindow

omit [FloatOps F] [Libm F] [Atan2 F] in
theorem redrawn_id [FloatOps F] (w : AppWindow) (n : Nat) (v : Viewer F) : (w.redrawn n v).id = w.id := by
  unfold AppWindow.redrawn
  split_ifs <;> rfl

theorem Does.window {n : Nat} {a b : App F} {e : AppEvent F} {acts : List (AppAction F)}
    (h : App.Does n a e b acts) {w : AppWindow} (hw : a.theWindow = some w) :
    (∃ w', b.theWindow = some w' ∧ w'.id = w.id) ∧
      ∀ act ∈ acts, ¬ act.CreatesWindow ∧ ∀ i, act.windowOf = some i → i = w.id := by
  cases h with
  | ignored | complexity | viewer => exact ⟨⟨w, hw, rfl⟩, by simp⟩
  | exit =>
    refine ⟨⟨w, hw, rfl⟩, fun act ha => ?_⟩
    cases List.mem_singleton.mp ha
    exact ⟨id, fun i hi => by cases hi⟩
  | vsync hs =>
    rw [App.theWindow, hs] at hw
    cases hw
    exact ⟨⟨_, rfl, rfl⟩, by simp⟩
  | redraw hs =>
    rw [App.theWindow, hs] at hw
    cases hw
    refine ⟨⟨_, rfl, redrawn_id _ _ _⟩, fun act ha => ?_⟩
    cases List.mem_singleton.mp ha
    refine ⟨id, fun i hi => ?_⟩
    cases hi
    exact redrawn_id _ _ _
  | reload =>
    refine ⟨⟨w, hw, rfl⟩, fun act ha => ?_⟩
    cases List.mem_singleton.mp ha
    exact ⟨id, fun i hi => by cases hi⟩
  | suspended hc =>
    rcases hc with ⟨rfl, hs⟩ | ⟨s, w', hs, rfl⟩
    · rw [App.theWindow, hs] at hw
      exact ⟨⟨w, hw, rfl⟩, by simp⟩
    · rw [App.theWindow, hs] at hw
      cases hw
      exact ⟨⟨_, rfl, rfl⟩, by simp⟩
  | @resumed r w' created there hs hcw =>
    rw [App.theWindow, hs] at hw
    rcases hcw with ⟨hc, rfl⟩ | ⟨hc, -⟩
    · rw [hc] at hw
      cases hw
      refine ⟨⟨_, rfl, rfl⟩, fun act ha => ?_⟩
      simp only [List.nil_append, List.mem_append, List.mem_singleton] at ha
      rcases ha with rfl | ha
      · exact ⟨id, fun i hi => by cases hi; rfl⟩
      · cases there with
        | true => cases ha
        | false =>
          cases List.mem_singleton.mp ha
          exact ⟨id, fun i hi => by cases hi⟩
    · rw [hc] at hw
      cases hw

theorem run_window {n : Nat} {a b : App F} {es : List (AppEvent F)} {acts : List (AppAction F)}
    (h : a.run n es = .ok (b, acts)) {w : AppWindow} (hw : a.theWindow = some w) :
    ∀ act ∈ acts, ¬ act.CreatesWindow ∧ ∀ i, act.windowOf = some i → i = w.id := by
  induction es generalizing a acts w with
  | nil => cases h; simp
  | cons e es ih =>
    obtain ⟨c, acts1, acts2, h1, h2, rfl⟩ := App.run_cons h
    obtain ⟨⟨w', hw', hid⟩, ha⟩ := Does.window h1 hw
    intro act hact
    rcases List.mem_append.mp hact with hact | hact
    · exact ha act hact
    · rw [← hid]
      exact ih h2 hw' act hact

theorem Does.no_window {n : Nat} {a b : App F} {e : AppEvent F} {acts : List (AppAction F)}
    (h : App.Does n a e b acts) (hw : a.theWindow = none) :
    (b.theWindow = none ∧ ∀ act ∈ acts, act.windowOf = none) ∨
      ∃ w post, b.theWindow = some w ∧ acts = .createWindow w.id :: post ∧
        ∀ act ∈ post, ¬ act.CreatesWindow ∧ ∀ i, act.windowOf = some i → i = w.id := by
  have hno : ∀ {x}, a.renderState ≠ some x := by
    intro x hx
    rw [App.theWindow, hx] at hw
    cases hw
  cases h with
  | ignored | complexity | viewer => exact .inl ⟨hw, by simp⟩
  | exit hs => exact (hno hs).elim
  | vsync hs => exact (hno hs).elim
  | redraw hs => exact (hno hs).elim
  | reload hs => exact (hno hs).elim
  | suspended hc =>
    rcases hc with ⟨rfl, hs⟩ | ⟨s, w', hs, rfl⟩
    · rw [App.theWindow, hs] at hw
      exact .inl ⟨hw, by simp⟩
    · exact (hno hs).elim
  | @resumed r w' created there hs hcw =>
    rw [App.theWindow, hs] at hw
    rcases hcw with ⟨hc, -⟩ | ⟨-, rfl, rfl⟩
    · rw [hc] at hw
      cases hw
    · refine .inr ⟨_, _, rfl, rfl, fun act ha => ?_⟩
      rcases List.mem_cons.mp ha with rfl | ha
      · exact ⟨id, fun i hi => by cases hi; rfl⟩
      · change act ∈ (if there then [] else [.createRenderer r.device] : List (AppAction F)) at ha
        cases there with
        | true => cases ha
        | false =>
          cases List.mem_singleton.mp ha
          exact ⟨id, fun i hi => by cases hi⟩

theorem run_oneWindow {n : Nat} {a b : App F} {es : List (AppEvent F)} {acts : List (AppAction F)}
    (h : a.run n es = .ok (b, acts)) (hw : a.theWindow = none) : OneWindow acts := by
  induction es generalizing a acts with
  | nil => cases h; exact .inl (by simp)
  | cons e es ih =>
    obtain ⟨c, acts1, acts2, h1, h2, rfl⟩ := App.run_cons h
    rcases Does.no_window h1 hw with ⟨hc, ha⟩ | ⟨w, post, hc, rfl, ha⟩
    · rcases ih h2 hc with h | ⟨pre, w, post, rfl, hp, hq⟩
      · refine .inl fun act hact => ?_
        rcases List.mem_append.mp hact with hact | hact
        · exact ha act hact
        · exact h act hact
      · refine .inr ⟨acts1 ++ pre, w, post, (List.append_assoc _ _ _).symm, fun act hact => ?_, hq⟩
        rcases List.mem_append.mp hact with hact | hact
        · exact ha act hact
        · exact hp act hact
    · refine .inr ⟨[], w.id, post ++ acts2, rfl, by simp, fun act hact => ?_⟩
      rcases List.mem_append.mp hact with hact | hact
      · exact ha act hact
      · exact run_window h2 hc act hact

/-! ## Renderers -/

omit [Libm F] [Atan2 F] [FloatOps F] in
theorem resizeRenderers_true {l : List Bool} {n d : Nat} (h : (resizeRenderers l n)[d]? = some true) :
    l[d]? = some true := by
  unfold resizeRenderers at h
  rw [List.getElem?_append] at h
  split_ifs at h
  · rw [List.getElem?_take] at h
    split_ifs at h
    exact h
  · have := List.mem_of_getElem? h
    simp at this

omit [Libm F] [Atan2 F] [FloatOps F] in
theorem resizeRenderers_keeps {l : List Bool} {n d : Nat} (hl : l.length ≤ n) (h : l[d]? = some true) :
    (resizeRenderers l n)[d]? = some true := by
  unfold resizeRenderers
  rw [List.take_of_length_le hl, List.getElem?_append_left (List.getElem?_eq_some_iff.mp h).1]
  exact h

/-- Whatever draws has been created before, or in the past `hist`. -/
def RenderersAfter (hist : List (AppAction F)) : List (AppAction F) → Prop
  | [] => True
  | a :: as => (∀ d, a.deviceOf = some d → .createRenderer d ∈ hist) ∧ RenderersAfter (hist ++ [a]) as

omit [Libm F] [Atan2 F] [FloatOps F] in
theorem RenderersAfter.append {hist as bs : List (AppAction F)} (h : RenderersAfter hist as)
    (h' : RenderersAfter (hist ++ as) bs) : RenderersAfter hist (as ++ bs) := by
  induction as generalizing hist with
  | nil => simpa using h'
  | cons a as ih => exact ⟨h.1, ih h.2 (by simpa using h')⟩

omit [Libm F] [Atan2 F] [FloatOps F] in
theorem RenderersAfter.of_none {hist as : List (AppAction F)} (h : ∀ a ∈ as, a.deviceOf = none) :
    RenderersAfter hist as := by
  induction as generalizing hist with
  | nil => trivial
  | cons a as ih =>
    refine ⟨fun d hd => ?_, ih fun b hb => h b (List.mem_cons_of_mem _ hb)⟩
    rw [h a (by simp)] at hd
    cases hd

omit [Libm F] [Atan2 F] [FloatOps F] in
theorem RenderersAfter.first {hist as : List (AppAction F)} (h : RenderersAfter hist as)
    {pre post : List (AppAction F)} {a : AppAction F} {d : Nat} (has : as = pre ++ a :: post)
    (hd : a.deviceOf = some d) : .createRenderer d ∈ hist ++ pre := by
  induction pre generalizing hist as with
  | nil => subst has; simpa using h.1 d hd
  | cons b pre ih =>
    subst has
    simpa using ih h.2 rfl

theorem Does.renderers {n : Nat} {a b : App F} {e : AppEvent F} {acts hist : List (AppAction F)}
    (h : App.Does n a e b acts) (ha : ∀ d, a.renderers[d]? = some true → .createRenderer d ∈ hist) :
    RenderersAfter hist acts ∧ ∀ d, b.renderers[d]? = some true → .createRenderer d ∈ hist ++ acts := by
  have keep : ∀ {c : App F}, c.renderers = a.renderers →
      ∀ d, c.renderers[d]? = some true → .createRenderer d ∈ hist ++ acts := by
    intro c hc d hd
    rw [hc] at hd
    exact List.mem_append_left _ (ha d hd)
  cases h with
  | ignored | complexity | viewer | vsync | suspended => exact ⟨trivial, keep rfl⟩
  | exit => exact ⟨⟨fun d hd => by (cases hd), trivial⟩, keep rfl⟩
  | redraw _ _ _ hr | reload _ hr =>
    refine ⟨⟨fun d hd => ?_, trivial⟩, keep rfl⟩
    cases hd
    exact ha _ hr
  | @resumed r w created there hs hw hr =>
    refine ⟨.of_none fun act hact => ?_, fun d hd => ?_⟩
    · simp only [List.mem_append, List.mem_singleton] at hact
      rcases hact with (hact | rfl) | hact
      · rcases hw with ⟨-, rfl⟩ | ⟨-, -, rfl⟩
        · cases hact
        · cases List.mem_singleton.mp hact; rfl
      · rfl
      · cases there with
        | true => cases hact
        | false => cases List.mem_singleton.mp hact; rfl
    · change (List.set _ _ _)[_]? = _ at hd
      by_cases hdr : r.device = d
      · subst hdr
        cases there with
        | true => exact List.mem_append_left _ (ha _ (resizeRenderers_true hr))
        | false => simp
      · rw [List.getElem?_set_ne hdr] at hd
        exact List.mem_append_left _ (ha _ (resizeRenderers_true hd))

theorem run_renderers {n : Nat} {a b : App F} {es : List (AppEvent F)} {acts hist : List (AppAction F)}
    (h : a.run n es = .ok (b, acts)) (ha : ∀ d, a.renderers[d]? = some true → .createRenderer d ∈ hist) :
    RenderersAfter hist acts := by
  induction es generalizing a acts hist with
  | nil => cases h; trivial
  | cons e es ih =>
    obtain ⟨c, acts1, acts2, h1, h2, rfl⟩ := App.run_cons h
    obtain ⟨h3, h4⟩ := Does.renderers h1 ha
    exact h3.append (ih h2 h4)

omit [Libm F] [Atan2 F] [FloatOps F] in
theorem SensibleAnswers.mono {m n : Nat} {es : List (AppEvent F)} (h : SensibleAnswers n es) (hm : m ≤ n) :
    SensibleAnswers m es := by
  induction es generalizing m n with
  | nil => trivial
  | cons e es ih =>
    cases e with
    | resumed r => exact ⟨h.1, hm.trans h.2.1, h.2.2⟩
    | _ => exact ih (n := n) h hm

omit [Libm F] [Atan2 F] [FloatOps F] in
theorem SensibleAnswers.tail {m : Nat} {e : AppEvent F} {es : List (AppEvent F)}
    (h : SensibleAnswers m (e :: es)) : SensibleAnswers m es := by
  cases e with
  | resumed r => exact h.2.2.mono h.2.1
  | _ => exact h

theorem run_renderers_nodup {n : Nat} {a b : App F} {es : List (AppEvent F)} {acts : List (AppAction F)}
    (h : a.run n es = .ok (b, acts)) (hs : SensibleAnswers a.renderers.length es) :
    (acts.filterMap AppAction.rendererOf).Nodup ∧
      ∀ d ∈ acts.filterMap AppAction.rendererOf, a.renderers[d]? ≠ some true := by
  induction es generalizing a acts with
  | nil => cases h; exact ⟨List.nodup_nil, by simp⟩
  | cons e es ih =>
    obtain ⟨c, acts1, acts2, h1, h2, rfl⟩ := App.run_cons h
    -- an event that leaves the renderers
    have keep : c.renderers = a.renderers → acts1.filterMap AppAction.rendererOf = [] →
        SensibleAnswers a.renderers.length es →
        ((acts1 ++ acts2).filterMap AppAction.rendererOf).Nodup ∧
          ∀ d ∈ (acts1 ++ acts2).filterMap AppAction.rendererOf, a.renderers[d]? ≠ some true := by
      intro hc h0 hes
      rw [List.filterMap_append, h0, List.nil_append, ← hc]
      exact ih h2 (by rw [hc]; exact hes)
    cases h1 with
    | ignored | viewer => exact keep rfl rfl hs.tail
    | exit | complexity | vsync | redraw | reload | suspended => exact keep rfl rfl hs.tail
    | @resumed r w created there hr hw hre =>
      obtain ⟨hs1, hs2, hs3⟩ := hs
      have hlen : ((resizeRenderers a.renderers r.devices).set r.device true).length = r.devices := by
        rw [List.length_set, resizeRenderers_length]
      obtain ⟨i1, i2⟩ := ih h2 (hlen.symm ▸ hs3)
      dsimp only at i2
      have hself : ((resizeRenderers a.renderers r.devices).set r.device true)[r.device]? = some true :=
        List.getElem?_set_self (by rw [resizeRenderers_length]; exact hs1)
      have hkeep : ∀ d : Nat, a.renderers[d]? = some true →
          ((resizeRenderers a.renderers r.devices).set r.device true)[d]? = some true := by
        intro d hd
        by_cases hdr : r.device = d
        · exact hdr ▸ hself
        · rw [List.getElem?_set_ne hdr]
          exact resizeRenderers_keeps hs2 hd
      have hac : (created ++ [.createSurface w.id] ++
          if there then [] else [.createRenderer r.device] : List (AppAction F)).filterMap AppAction.rendererOf =
          if there then [] else [r.device] := by
        rcases hw with ⟨-, rfl⟩ | ⟨-, -, rfl⟩ <;> cases there <;> rfl
      rw [List.filterMap_append, hac]
      cases there with
      | true => exact ⟨i1, fun d hd hx => i2 d hd (hkeep d hx)⟩
      | false =>
        refine ⟨List.nodup_cons.mpr ⟨fun hd => i2 _ hd hself, i1⟩, fun d hd hx => ?_⟩
        rcases List.mem_cons.mp hd with rfl | hd
        · have := resizeRenderers_keeps hs2 hx
          rw [hre] at this
          cases this
        · exact i2 d hd (hkeep d hx)

/-! ## Suspended -/

theorem Does.isShown {n : Nat} {a b : App F} {e : AppEvent F} {acts : List (AppAction F)}
    (h : a.step n e = .ok (b, acts)) : b.renderState.isSome = windowShown a.renderState.isSome [e] := by
  cases e with
  | resumed r =>
    simp only [App.step, App.onResumed] at h
    cases hs : a.renderState with
    | some x =>
      rw [hs] at h
      cases h
      rw [hs]
      rfl
    | none =>
      rw [hs] at h
      dsimp only at h
      cases hr : (resizeRenderers a.renderers r.devices)[r.device]? with
      | none => rw [hr] at h; cases h
      | some there => rw [hr] at h; cases h; rfl
  | suspended => cases h; rfl
  | window id e =>
    have := does_of h
    cases this with
    | ignored | exit | complexity | viewer => rfl
    | vsync hs => rw [hs]; rfl
    | redraw hs => rw [hs]; rfl
  | hotReload =>
    have := does_of h
    cases this with
    | ignored | viewer | reload => rfl
  | aboutToWait =>
    have := does_of h
    cases this with
    | ignored | viewer => rfl

theorem run_step {n : Nat} {a c : App F} {e : AppEvent F} {es : List (AppEvent F)}
    {acts : List (AppAction F)} (h : a.run n (e :: es) = .ok (c, acts)) :
    ∃ b acts1 acts2, a.step n e = .ok (b, acts1) ∧ b.run n es = .ok (c, acts2) ∧ acts = acts1 ++ acts2 := by
  obtain ⟨⟨b, acts1⟩, h1, h⟩ := appBind_ok (show (a.step n e >>= _) = _ from h)
  obtain ⟨⟨d, acts2⟩, h2, h⟩ := appBind_ok h
  cases h
  exact ⟨b, acts1, acts2, h1, h2, rfl⟩

theorem run_isShown {n : Nat} {a b : App F} {es : List (AppEvent F)} {acts : List (AppAction F)}
    (h : a.run n es = .ok (b, acts)) : b.renderState.isSome = windowShown a.renderState.isSome es := by
  induction es generalizing a acts with
  | nil => cases h; rfl
  | cons e es ih =>
    obtain ⟨c, _, _, h1, h2, -⟩ := run_step h
    rw [ih h2, Does.isShown h1]
    cases e <;> rfl

theorem run_appended {n : Nat} {a c : App F} {es es' : List (AppEvent F)} {acts : List (AppAction F)}
    (h : a.run n (es ++ es') = .ok (c, acts)) :
    ∃ b acts1 acts2, a.run n es = .ok (b, acts1) ∧ b.run n es' = .ok (c, acts2) ∧ acts = acts1 ++ acts2 := by
  induction es generalizing a acts with
  | nil => exact ⟨a, [], acts, rfl, h, rfl⟩
  | cons e es ih =>
    obtain ⟨b, acts1, acts2, h1, h2, rfl⟩ := run_step h
    obtain ⟨d, acts3, acts4, h3, h4, rfl⟩ := ih h2
    refine ⟨d, acts1 ++ acts3, acts4, ?_, h4, (List.append_assoc _ _ _).symm⟩
    show (a.step n e >>= _) = _
    rw [h1]
    show (b.run n es >>= _) = _
    rw [h3]
    rfl

theorem App.run_append_ok {n : Nat} {a b c : App F} {es es' : List (AppEvent F)}
    {acts acts' : List (AppAction F)} (h : a.run n es = .ok (b, acts)) (h' : b.run n es' = .ok (c, acts')) :
    a.run n (es ++ es') = .ok (c, acts ++ acts') := by
  induction es generalizing a acts with
  | nil => cases h; exact h'
  | cons e es ih =>
    obtain ⟨d, acts1, acts2, h1, h2, rfl⟩ := run_step h
    show (a.step n e >>= _) = _
    rw [h1]
    show (d.run n (es ++ es') >>= _) = _
    rw [ih h2, List.append_assoc]
    rfl

/-- A redraw of the window that is shown. -/
theorem App.run_redraw {n : Nat} {a : App F} {s : AppSurface} {w : AppWindow} {r : Option (P2 F)} {l : Nat}
    {m : Option Nat} {v : Viewer F} {f : ViewerFrame F} (hs : a.renderState = some (s, w))
    (hr : a.renderers[s.device]? = some true) (hv : a.viewer.onRedraw n r l m = .ok (v, f)) :
    a.run n [.window w.id (.viewer (.redraw r l m))] =
      .ok ({ a with viewer := v, renderState := some (s, w.redrawn n a.viewer) },
        [.frame (w.redrawn n a.viewer) s a.vsyncOn f]) := by
  have h1 : a.viewer.step n (.redraw r l m) = .ok (v, some f) := by
    show (a.viewer.onRedraw n r l m >>= _) = _
    rw [hv]
    rfl
  simp only [App.run, App.step, hs, App.onWindow, App.onRedraw, App.onViewer, h1, App.renderer, hr]
  simp only [ne_eq, not_true_eq_false, if_false]
  rfl

/-- Nothing is done while there is no window to show. -/
theorem run_hidden {n : Nat} {a b : App F} {es : List (AppEvent F)} {acts : List (AppAction F)}
    (h : a.run n es = .ok (b, acts)) (ha : a.renderState = none) (hes : ∀ r, .resumed r ∉ es) : acts = [] := by
  induction es generalizing a acts with
  | nil => cases h; rfl
  | cons e es ih =>
    obtain ⟨c, acts1, acts2, h1, h2, rfl⟩ := run_step h
    have hc : c.renderState = none := by
      have := Does.isShown h1
      rw [ha] at this
      cases e with
      | resumed r => exact (hes r (by simp)).elim
      | _ => simpa [windowShown] using this
    rw [ih h2 hc fun r hr => hes r (List.mem_cons_of_mem _ hr), List.append_nil]
    have := does_of h1
    cases this with
    | ignored | complexity | viewer | suspended | vsync => rfl
    | exit hs => rw [ha] at hs; cases hs
    | redraw hs => rw [ha] at hs; cases hs
    | reload hs => rw [ha] at hs; cases hs
    | resumed => exact (hes _ List.mem_cons_self).elim

/-! ## The title -/

theorem step_previousScene {n : Nat} {v v' : Viewer F} {e : ViewerEvent F} (h : v.step n e = .ok (v', none)) :
    v'.prevSceneIx = v.prevSceneIx := by
  cases e with
  | redraw r l m => obtain ⟨f', h', -⟩ := Viewer.step_redraw h; cases h'
  | arrowUp => unfold Viewer.step at h; dsimp only at h; split_ifs at h; cases h; rfl
  | touch e =>
    cases h
    obtain ⟨id, ph, loc⟩ := e
    unfold Viewer.onTouch
    cases ph <;> dsimp only <;> split_ifs <;> rfl
  | rotate c => cases h; cases v.priorPosition <;> rfl
  | mouseWheel c => cases h; cases v.priorPosition <;> rfl
  | _ => cases h; rfl

/-- No title has been set, or that of the scene of the last redraw. -/
def App.Titled (start : Int) (a : App F) : Prop :=
  (a.viewer.prevSceneIx = start ∧ ∀ w, a.theWindow = some w → w.title = none) ∨
    ∃ w, a.theWindow = some w ∧ 0 ≤ a.viewer.prevSceneIx ∧ w.title = some a.viewer.prevSceneIx.toNat

theorem Does.titled {n : Nat} {a b : App F} {e : AppEvent F} {acts : List (AppAction F)} {start : Int}
    (h : App.Does n a e b acts) (ha : a.Titled start) : b.Titled start ∧
      ∀ w s l f, .frame w s l f ∈ acts → w.title = some f.scene ∨ w.title = none ∧ (f.scene : Int) = start := by
  -- nothing changes
  have keep : ∀ {c : App F}, c.viewer.prevSceneIx = a.viewer.prevSceneIx → c.theWindow = a.theWindow →
      c.Titled start := by
    intro c h1 h2
    unfold App.Titled
    rw [h1, h2]
    exact ha
  cases h with
  | ignored => exact ⟨ha, by simp⟩
  | complexity => exact ⟨keep rfl rfl, by simp⟩
  | exit => exact ⟨ha, by simp⟩
  | reload => exact ⟨ha, by simp⟩
  | viewer hv => exact ⟨keep (step_previousScene hv) rfl, by simp⟩
  | vsync hs => exact ⟨keep rfl (by simp [App.theWindow, hs]), by simp⟩
  | suspended hc =>
    refine ⟨keep rfl ?_, by simp⟩
    rcases hc with ⟨rfl, hs⟩ | ⟨s, w, hs, rfl⟩ <;> simp [App.theWindow, hs]
  | @redraw id s w r l m v f hs hid hv hr =>
    obtain ⟨hn, h1, hf, -⟩ := Viewer.onRedraw_ok hv
    have hprev : v.prevSceneIx = a.viewer.sceneIx % (n : Int) := by rw [h1]
    have hpos : 0 ≤ a.viewer.sceneIx % (n : Int) := Int.emod_nonneg _ (by exact_mod_cast hn)
    have hw : a.theWindow = some w := by simp [App.theWindow, hs]
    have hb : App.theWindow (F := F) { a with viewer := v, renderState := some (s, w.redrawn n a.viewer) } =
        some (w.redrawn n a.viewer) := rfl
    -- the title that is displayed
    have main : (w.redrawn n a.viewer).title = some f.scene ∨
        (w.redrawn n a.viewer).title = none ∧ a.viewer.sceneIx % (n : Int) = start := by
      unfold AppWindow.redrawn
      split_ifs with hp
      · exact .inl (by rw [hf])
      · rw [not_not] at hp
        rcases ha with ⟨h3, h4⟩ | ⟨w', h3, h4, h5⟩
        · exact .inr ⟨h4 w hw, by rw [← hp, h3]⟩
        · rw [hw] at h3
          cases h3
          exact .inl (by rw [h5, hf, hp])
    constructor
    · rcases main with h | ⟨h, h'⟩
      · refine .inr ⟨_, hb, ?_, ?_⟩
        · show 0 ≤ v.prevSceneIx
          rw [hprev]; exact hpos
        · show _ = some v.prevSceneIx.toNat
          rw [h, hf, hprev]
      · refine .inl ⟨?_, fun w' hw' => ?_⟩
        · show v.prevSceneIx = start
          rw [hprev, h']
        · rw [hb] at hw'
          cases hw'
          exact h
    · intro w' s' l' f' hm
      cases List.mem_singleton.mp hm
      rcases main with h | ⟨h, h'⟩
      · exact .inl h
      · exact .inr ⟨h, by rw [hf, Int.toNat_of_nonneg hpos, h']⟩
  | @resumed r w created there hs hw hr =>
    constructor
    · rcases hw with ⟨hc, -⟩ | ⟨hc, rfl, -⟩
      · exact keep rfl (by simp [App.theWindow, hs, hc])
      · rcases ha with ⟨h1, -⟩ | ⟨w', h1, -⟩
        · refine .inl ⟨h1, fun w' hw' => ?_⟩
          cases hw'
          rfl
        · simp [App.theWindow, hs, hc] at h1
    · intro w' s' l' f' hm
      rcases hw with ⟨-, rfl⟩ | ⟨-, -, rfl⟩ <;> cases there <;> simp at hm

theorem run_titled {n : Nat} {a b : App F} {es : List (AppEvent F)} {acts : List (AppAction F)} {start : Int}
    (h : a.run n es = .ok (b, acts)) (ha : a.Titled start) {w : AppWindow} {s : AppSurface} {l : Bool}
    {f : ViewerFrame F} (hf : .frame w s l f ∈ acts) :
    w.title = some f.scene ∨ w.title = none ∧ (f.scene : Int) = start := by
  induction es generalizing a acts with
  | nil => cases h; cases hf
  | cons e es ih =>
    obtain ⟨c, acts1, acts2, h1, h2, rfl⟩ := App.run_cons h
    obtain ⟨h3, h4⟩ := Does.titled h1 ha
    rcases List.mem_append.mp hf with hf | hf
    · exact h4 _ _ _ _ hf
    · exact ih h2 h3 hf

/-! ## The present mode -/

/-- The present mode is what the application believes. -/
def App.Synced (a : App F) : Prop :=
  (∀ s w, a.renderState = some (s, w) → s.vsync = a.vsyncOn) ∧ (a.renderState = none → a.vsyncOn = true)

theorem Does.synced {n : Nat} {a b : App F} {e : AppEvent F} {acts : List (AppAction F)}
    (h : App.Does n a e b acts) (ha : a.Synced) (he : e = .suspended → a.vsyncOn = true) :
    b.Synced ∧ ∀ w s l f, .frame w s l f ∈ acts → l = s.vsync := by
  cases h with
  | ignored | viewer | exit | reload | complexity => exact ⟨ha, by simp⟩
  | vsync hs =>
    refine ⟨⟨?_, fun h => ?_⟩, by simp⟩
    · rintro s w ⟨⟩; rfl
    · cases h
  | suspended hc =>
    refine ⟨⟨?_, fun _ => he rfl⟩, by simp⟩
    rintro s w ⟨⟩
  | redraw hs =>
    refine ⟨⟨?_, fun h => ?_⟩, ?_⟩
    · rintro s w ⟨⟩; exact ha.1 _ _ hs
    · cases h
    · intro w' s' l' f' hm
      cases List.mem_singleton.mp hm
      exact (ha.1 _ _ hs).symm
  | @resumed r w created there hs hw =>
    refine ⟨⟨?_, fun h => ?_⟩, ?_⟩
    · rintro s w ⟨⟩; exact (ha.2 hs).symm
    · cases h
    · intro w' s' l' f' hm
      rcases hw with ⟨-, rfl⟩ | ⟨-, -, rfl⟩ <;> cases there <;> simp at hm

theorem Does.vsyncOn {n : Nat} {a b : App F} {e : AppEvent F} {acts : List (AppAction F)}
    (h : App.Does n a e b acts) (he : ∀ id, e ≠ .window id .toggleVsync) : b.vsyncOn = a.vsyncOn := by
  cases h with
  | @vsync id => exact (he id rfl).elim
  | _ => rfl

theorem run_synced {n : Nat} {a b : App F} {es : List (AppEvent F)} {acts : List (AppAction F)}
    (h : a.run n es = .ok (b, acts)) (ha : a.Synced)
    (hes : ∀ pre post, es = pre ++ .suspended :: post → a.vsyncOn = true ∧ ∀ id, .window id .toggleVsync ∉ pre)
    {w : AppWindow} {s : AppSurface} {l : Bool} {f : ViewerFrame F} (hf : .frame w s l f ∈ acts) :
    l = s.vsync := by
  induction es generalizing a acts with
  | nil => cases h; cases hf
  | cons e es ih =>
    obtain ⟨c, acts1, acts2, h1, h2, rfl⟩ := App.run_cons h
    obtain ⟨h3, h4⟩ := Does.synced h1 ha fun he => (hes [] es (by rw [he]; rfl)).1
    rcases List.mem_append.mp hf with hf | hf
    · exact h4 _ _ _ _ hf
    · refine ih h2 h3 (fun pre post he => ?_) hf
      obtain ⟨h5, h6⟩ := hes (e :: pre) post (by rw [he]; rfl)
      refine ⟨?_, fun id hid => h6 id (List.mem_cons_of_mem _ hid)⟩
      rw [Does.vsyncOn h1 fun id hid => h6 id (by simp [hid]), h5]

end Velato
