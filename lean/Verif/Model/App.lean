import Verif.Model.Viewer

/-!
# `/repo/examples/with_winit/src/lib.rs`: the life of the window

What `run` does with the events of the application (not wasm): creating the window, its surface and the
renderers, suspending and resuming, the title of the window, the keys that concern the surface, reloading
shaders.  What the events of the window do to the picture is in `Model/Viewer`.  Not modelled: the work of
`wgpu`, `vello` and `winit` (a failure to create a window, a surface or a renderer, or to draw, ends the
application); the statistics of the work of the renderer, which only the labels of the panel show.
-/

namespace Velato

/-- Panics of `run`: those of the events of the window, an index out of bounds, `unwrap` of nothing.  Used at
`lib.rs:402-404,511-513,554`. -/
inductive AppPanic where
  | viewer (p : ViewerPanic)
  | index
  | unwrap
  deriving DecidableEq, Repr, Inhabited

/-- What is known of a `vello::util::RenderSurface`: the device, and whether its present mode is `AutoVsync`
(else `AutoNoVsync`); the size is in the `Viewer`.  Used at `lib.rs:70-75`. -/
structure AppSurface where
  device : Nat
  vsync : Bool
  deriving DecidableEq, Repr, Inhabited

/-- A window: its id, and the scene its title names (`none` for "Vello demo").  Used at
`lib.rs:70-75,335-338,579-590`. -/
structure AppWindow where
  id : Nat
  title : Option Nat
  deriving DecidableEq, Repr, Inhabited

/-- The variables of `run` (`lib.rs:87-156`) besides those of the `Viewer`; `renderers` says for which devices
there is a renderer, `polling` is the control flow of the event loop. -/
structure App (F : Type) where
  viewer : Viewer F
  vsyncOn : Bool
  complexityShown : Bool
  renderState : Option (AppSurface × AppWindow)
  cachedWindow : Option AppWindow
  renderers : List Bool
  polling : Bool
  deriving DecidableEq, Repr, Inhabited

/-- What the system answers when the application resumes (`lib.rs:537-551`): the id of the window, if one is
created; the size of the window; the device of the surface, and how many devices there are then. -/
structure ResumeAnswer where
  window : Nat
  width : Nat
  height : Nat
  device : Nat
  devices : Nat
  deriving DecidableEq, Repr, Inhabited

/-- Events of a window (`lib.rs:169-482`): those of `ViewerEvent` (other than `aboutToWait`); the keys d and v;
the request to close, or the key escape. -/
inductive WindowInput (F : Type) where
  | viewer (e : ViewerEvent F)
  | toggleComplexity
  | toggleVsync
  | exit
  deriving DecidableEq, Repr, Inhabited

/-- The events of the application (`lib.rs:158-574`). -/
inductive AppEvent (F : Type) where
  | window (id : Nat) (e : WindowInput F)
  | aboutToWait
  | hotReload
  | suspended
  | resumed (answer : ResumeAnswer)
  deriving DecidableEq, Repr, Inhabited

/-- What the application does that can be seen from outside.  For a frame: the window, its title, the device
that draws, the present mode of the surface, what the panel says about it, and the picture.  Used at
`lib.rs:158-574`. -/
inductive AppAction (F : Type) where
  | createWindow (id : Nat)
  | createSurface (window : Nat)
  | createRenderer (device : Nat)
  | frame (window : AppWindow) (surface : AppSurface) (label : Bool) (picture : ViewerFrame F)
  | reloadShaders (device : Nat)
  | exit
  deriving DecidableEq, Repr, Inhabited

variable {F : Type} [FloatOps F]

/-- The state before the first event (`lib.rs:87-156`).  There is no window yet, so its size is irrelevant. -/
def App.new (scene : Option Int) : Except AppPanic (App F) :=
  match Viewer.new scene 0 0 with
  | .error p => .error (.viewer p)
  | .ok v => .ok
    { viewer := v
      vsyncOn := true
      complexityShown := false
      renderState := none
      cachedWindow := none
      renderers := []
      polling := false }

/-- `renderers[dev_id].as_mut().unwrap()` (`lib.rs:402-404`, `lib.rs:511-513`). -/
def App.renderer (a : App F) (device : Nat) : Except AppPanic Unit :=
  match a.renderers[device]? with
  | none => .error .index
  | some false => .error .unwrap
  | some true => .ok ()

/-- An event of the picture (`lib.rs:172-501`). -/
def App.onViewer [Libm F] [Atan2 F] (scenes : Nat) (a : App F) (e : ViewerEvent F) :
    Except AppPanic (App F × Option (ViewerFrame F)) :=
  match a.viewer.step scenes e with
  | .error p => .error (.viewer p)
  | .ok (v, f) => .ok ({ a with viewer := v }, f)

/-- The title of the window after a redraw (`lib.rs:328-339`). -/
def AppWindow.redrawn (w : AppWindow) (scenes : Nat) (v : Viewer F) : AppWindow :=
  if v.prevSceneIx ≠ v.sceneIx % (scenes : Int) then
    { w with title := some (v.sceneIx % (scenes : Int)).toNat }
  else w

/-- `RedrawRequested` (`lib.rs:322-481`). -/
def App.onRedraw [Libm F] [Atan2 F] (scenes : Nat) (a : App F) (s : AppSurface) (w : AppWindow)
    (resolution : Option (P2 F)) (labels : Nat) (micros : Option Nat) :
    Except AppPanic (App F × List (AppAction F)) := do
  let (b, f) ← a.onViewer scenes (.redraw resolution labels micros)
  a.renderer s.device
  let w' := w.redrawn scenes a.viewer
  .ok ({ b with renderState := some (s, w') }, f.toList.map (.frame w' s a.vsyncOn))

/-- An event of the window with the surface `s` (`lib.rs:169-482`). -/
def App.onWindow [Libm F] [Atan2 F] (scenes : Nat) (a : App F) (s : AppSurface) (w : AppWindow) :
    WindowInput F → Except AppPanic (App F × List (AppAction F))
  | .viewer .aboutToWait => .ok (a, [])
  | .viewer (.redraw resolution labels micros) => a.onRedraw scenes s w resolution labels micros
  | .viewer e => do
    let (b, _) ← a.onViewer scenes e
    .ok (b, [])
  | .toggleComplexity => .ok ({ a with complexityShown := !a.complexityShown }, [])
  | .toggleVsync =>
    .ok ({ a with
      vsyncOn := !a.vsyncOn
      renderState := some ({ s with vsync := !a.vsyncOn }, w) }, [])
  | .exit => .ok (a, [.exit])

/-- `renderers.resize_with(devices, || None)` (`lib.rs:552`). -/
def resizeRenderers (renderers : List Bool) (devices : Nat) : List Bool :=
  renderers.take devices ++ List.replicate (devices - renderers.length) false

/-- `Resumed` (`lib.rs:531-573`). -/
def App.onResumed (a : App F) (r : ResumeAnswer) : Except AppPanic (App F × List (AppAction F)) :=
  match a.renderState with
  | some _ => .ok (a, [])
  | none =>
    let (window, created) := match a.cachedWindow with
      | some w => (w, [])
      | none => ((⟨r.window, none⟩ : AppWindow), [AppAction.createWindow r.window])
    let renderers := resizeRenderers a.renderers r.devices
    match renderers[r.device]? with
    | none => .error .index
    | some there =>
      .ok ({ a with
        viewer := { a.viewer with
          width := r.width
          height := r.height }
        renderState := some (⟨r.device, true⟩, window)
        cachedWindow := none
        renderers := renderers.set r.device true
        polling := true },
        created ++ [.createSurface window.id] ++ if there then [] else [.createRenderer r.device])

/-- The effect of an event (`lib.rs:158-574`). -/
def App.step [Libm F] [Atan2 F] (scenes : Nat) (a : App F) :
    AppEvent F → Except AppPanic (App F × List (AppAction F))
  | .window id e =>
    match a.renderState with
    | none => .ok (a, [])
    | some (s, w) => if w.id ≠ id then .ok (a, []) else a.onWindow scenes s w e
  | .aboutToWait => do
    let (b, _) ← a.onViewer scenes .aboutToWait
    .ok (b, [])
  | .hotReload =>
    match a.renderState with
    | none => .ok (a, [])
    | some (s, _) => do
      a.renderer s.device
      .ok (a, [.reloadShaders s.device])
  | .suspended =>
    .ok ({ a with
      renderState := none
      cachedWindow := match a.renderState with
        | some (_, w) => some w
        | none => a.cachedWindow
      polling := false }, [])
  | .resumed r => a.onResumed r

/-- The state after some events and what the application has done.  Used at `lib.rs:158-574`. -/
def App.run [Libm F] [Atan2 F] (scenes : Nat) (a : App F) :
    List (AppEvent F) → Except AppPanic (App F × List (AppAction F))
  | [] => .ok (a, [])
  | e :: es => do
    let (b, acts) ← a.step scenes e
    let (c, more) ← b.run scenes es
    .ok (c, acts ++ more)

end Velato
