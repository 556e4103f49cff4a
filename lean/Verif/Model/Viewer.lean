import Verif.Model.Stats
import Verif.Model.Touch

/-!
# `/repo/examples/with_winit/src/lib.rs`: the window of the example application

The events of the window, as far as they change what is displayed: `run` from `lib.rs:157`, while there is
a window.  The window itself (its title, closing, its surface and renderers, suspending and resuming, hot
reloading) is in `Model/App`.  Not modelled: the text of the statistics, the work of `wgpu`.
-/

namespace Velato
open FloatOps (lit)

/-- `i32::MIN` and `i32::MAX`.  Used at `lib.rs:136,150`. -/
def i32Min : Int := -2147483648
@[inherit_doc i32Min]
def i32Max : Int := 2147483647

/-- `i32::saturating_add(1)` and `i32::saturating_sub(1)`.  Used at
`lib.rs:177-184,215-217,258-262`. -/
def i32Succ (x : Int) : Int := min i32Max (x + 1)
@[inherit_doc i32Succ]
def i32Pred (x : Int) : Int := max i32Min (x - 1)

/-- The variables of `run` (`lib.rs:122-156`); `width` and `height` are those of the surface. -/
structure Viewer (F : Type) where
  stats : Stats
  statsShown : Bool
  aaConfigIx : Int
  touchState : TouchState F
  navigationFingers : List Nat
  transform : Affine F
  mouseDown : Bool
  priorPosition : Option (P2 F)
  sceneIx : Int
  complexity : Nat
  prevSceneIx : Int
  shift : Bool
  width : Nat
  height : Nat
  deriving DecidableEq, Repr, Inhabited

/-- `winit::event::MouseScrollDelta`.  Used at `lib.rs:295-297`. -/
inductive ScrollDelta (F : Type) where
  | pixels (x y : F)
  | lines (x y : F)
  deriving DecidableEq, Repr, Inhabited

/-- The events of the window (`lib.rs:170-501`).  For a redraw: what the scene answers for its resolution,
how many lines of statistics there are, and the time the frame took, if it was presented. -/
inductive ViewerEvent (F : Type) where
  | arrowLeft | arrowRight | arrowUp | arrowDown | space
  /-- the keys q and e -/
  | rotate (isClockwise : Bool)
  /-- the keys s, c, m -/
  | toggleStats | clearStats | nextAntialiasing
  | modifiersChanged (shift : Bool)
  | touch (e : TouchEvent F)
  | resized (width height : Nat)
  | mouseInput (pressed : Bool)
  | mouseWheel (delta : ScrollDelta F)
  | cursorLeft
  | cursorMoved (position : P2 F)
  | redraw (resolution : Option (P2 F)) (labels : Nat) (micros : Option Nat)
  | aboutToWait
  deriving DecidableEq, Repr, Inhabited

/-- What a redraw displays: the scene with the parameters it is given, the antialiasing method, the transform
of the picture, the panel of the statistics.  Used at `lib.rs:322-480`. -/
structure ViewerFrame (F : Type) where
  scene : Nat
  complexity : Nat
  cursorPosition : Option (P2 F)
  viewportSize : P2 F
  cameraTransform : Affine F
  antialiasing : Nat
  transform : Affine F
  panel : List (PanelOp F)
  deriving DecidableEq, Repr, Inhabited

variable {F : Type} [FloatOps F]

/-- The state before the first event (`lib.rs:122-156`), with a window of some size.  `scene_ix - 1` panics
for the smallest integer (`lib.rs:155`). -/
def Viewer.new (scene : Option Int) (width height : Nat) : Except ViewerPanic (Viewer F) :=
  let sceneIx := scene.getD 0
  if sceneIx = i32Min then .error .underflow
  else .ok
    { stats := Stats.new
      statsShown := true
      aaConfigIx := 0
      touchState := TouchState.new
      navigationFingers := []
      transform := Affine.identity
      mouseDown := false
      priorPosition := none
      sceneIx := sceneIx
      complexity := 0
      prevSceneIx := sceneIx - 1
      shift := false
      width := width
      height := height }

/-- A change of the camera about a point (`lib.rs:198-201`, `lib.rs:302-305`). -/
def aboutPoint (p : P2 F) (m : Affine F) (transform : Affine F) : Affine F :=
  (((Affine.translate p).mul m).mul (Affine.translate ⟨FloatOps.neg p.x, FloatOps.neg p.y⟩)).mul transform

/-- A touch (`lib.rs:238-276`); `HashSet` is the list of its members. -/
def Viewer.onTouch (v : Viewer F) (e : TouchEvent F) : Viewer F :=
  let v := match e.phase with
    | .started =>
      if (FloatOps.ofUsize v.height *. lit 2 /. lit 3) <. e.location.y then
        { v with
          navigationFingers := e.id :: v.navigationFingers
          sceneIx :=
            if e.location.x <. (FloatOps.ofUsize v.width /. lit 3) then i32Pred v.sceneIx
            else if (lit 2 *. FloatOps.ofUsize v.width /. lit 3) <. e.location.x then i32Succ v.sceneIx
            else v.sceneIx }
      else v
    | .ended | .cancelled => { v with navigationFingers := v.navigationFingers.filter (· ≠ e.id) }
    | .moved => v
  if v.navigationFingers.contains e.id then v
  else { v with touchState := v.touchState.addEvent e }

/-- The camera after a gesture (`lib.rs:488-496`). -/
def gestureTransform [Libm F] (i : MultiTouchInfo F) (transform : Affine F) : Affine F :=
  (((((Affine.translate i.translationDelta).mul (Affine.translate i.zoomCentre)).mul
    (Affine.scale i.zoomDelta)).mul (Affine.rotate i.rotationDelta)).mul
    (Affine.translate ⟨FloatOps.neg i.zoomCentre.x, FloatOps.neg i.zoomCentre.y⟩)).mul transform

/-- The transform of the picture (`lib.rs:371-378`). -/
def displayTransform (camera : Affine F) (viewport : P2 F) (resolution : Option (P2 F)) : Affine F :=
  match resolution with
  | some r => camera.mul (Affine.scale (fmin (viewport.x /. r.x) (viewport.y /. r.y)))
  | none => camera

/-- `AA_CONFIGS.len()` (`lib.rs:133`). -/
def aaConfigs : Nat := 3

/-- The panel of the statistics (`lib.rs:380-391`); the snapshot is that of `lib.rs:326`. -/
def Viewer.panel (v : Viewer F) (labels : Nat) : Except ViewerPanic (List (PanelOp F)) :=
  if v.statsShown then
    v.stats.snapshot.drawLayer (FloatOps.ofUsize v.width) (FloatOps.ofUsize v.height) v.stats.samples labels
  else .ok []

/-- The statistics after a frame (`lib.rs:476-479`), or if there was no texture for it
(`lib.rs:450`, `lib.rs:454`). -/
def Viewer.sample (v : Viewer F) (micros : Option Nat) : Except ViewerPanic Stats :=
  match micros with
  | some n => v.stats.addSample n
  | none => .ok v.stats

/-- `RedrawRequested` (`lib.rs:322-481`) with a set of `scenes` scenes (less than 2^31). -/
def Viewer.onRedraw (v : Viewer F) (scenes : Nat) (resolution : Option (P2 F)) (labels : Nat)
    (micros : Option Nat) : Except ViewerPanic (Viewer F × ViewerFrame F) :=
  if scenes = 0 then .error .remByZero
  else
    let sceneIx := v.sceneIx % (scenes : Int)
    let aaConfigIx := v.aaConfigIx % (aaConfigs : Int)
    if scenes ≤ sceneIx.toNat then .error .index
    else if aaConfigs ≤ aaConfigIx.toNat then .error .index
    else do
      let transform := if v.prevSceneIx ≠ sceneIx then Affine.identity else v.transform
      let viewport : P2 F := ⟨FloatOps.ofUsize v.width, FloatOps.ofUsize v.height⟩
      let panel ← v.panel labels
      let stats ← v.sample micros
      let v' : Viewer F := { v with
        sceneIx := sceneIx
        aaConfigIx := aaConfigIx
        transform := transform
        prevSceneIx := sceneIx
        stats := stats }
      .ok (v',
        { scene := sceneIx.toNat
          complexity := v.complexity
          cursorPosition := v.priorPosition
          viewportSize := viewport
          cameraTransform := transform
          antialiasing := aaConfigIx.toNat
          transform := displayTransform transform viewport resolution
          panel := panel })

/-- The effect of an event (`lib.rs:170-501`). -/
def Viewer.step [Libm F] [Atan2 F] (scenes : Nat) (v : Viewer F) :
    ViewerEvent F → Except ViewerPanic (Viewer F × Option (ViewerFrame F))
  | .arrowLeft => .ok ({ v with sceneIx := i32Pred v.sceneIx }, none)
  | .arrowRight => .ok ({ v with sceneIx := i32Succ v.sceneIx }, none)
  | .arrowUp =>
    if u64Max < v.complexity + 1 then .error .overflow
    else .ok ({ v with complexity := v.complexity + 1 }, none)
  | .arrowDown => .ok ({ v with complexity := v.complexity - 1 }, none)
  | .space => .ok ({ v with transform := Affine.identity }, none)
  | .rotate isClockwise => .ok (match v.priorPosition with
    | some p =>
      let angle : F := if isClockwise then lit (-5 / 100) else lit (5 / 100)
      { v with transform := aboutPoint p (Affine.rotate angle) v.transform }
    | none => v, none)
  | .toggleStats => .ok ({ v with statsShown := !v.statsShown }, none)
  | .clearStats => .ok ({ v with stats := v.stats.clearMinAndMax }, none)
  | .nextAntialiasing =>
    .ok ({ v with aaConfigIx := if v.shift then i32Pred v.aaConfigIx else i32Succ v.aaConfigIx }, none)
  | .modifiersChanged shift => .ok ({ v with shift := shift }, none)
  | .touch e => .ok (v.onTouch e, none)
  | .resized width height =>
    .ok ({ v with
      width := width
      height := height }, none)
  | .mouseInput pressed => .ok ({ v with mouseDown := pressed }, none)
  | .mouseWheel delta => .ok (match v.priorPosition with
    | some p =>
      let exponent := match delta with
        | .pixels _ y => y /. lit 20
        | .lines _ y => y
      { v with transform :=
        aboutPoint p (Affine.scale (Libm.powf (lit (105 / 100)) exponent)) v.transform }
    | none => v, none)
  | .cursorLeft => .ok ({ v with priorPosition := none }, none)
  | .cursorMoved position =>
    let transform := match v.mouseDown, v.priorPosition with
      | true, some prior => (Affine.translate ⟨position.x -. prior.x, position.y -. prior.y⟩).mul v.transform
      | _, _ => v.transform
    .ok ({ v with
      transform := transform
      priorPosition := some position }, none)
  | .redraw resolution labels micros => do
    let (v', f) ← v.onRedraw scenes resolution labels micros
    .ok (v', some f)
  | .aboutToWait =>
    let touchState := v.touchState.endFrame
    .ok ({ v with
      touchState := touchState
      transform := match touchState.info with
        | some i => gestureTransform i v.transform
        | none => v.transform }, none)

/-- The state after some events and the frames displayed.  Used at `lib.rs:158-535`. -/
def Viewer.run [Libm F] [Atan2 F] (scenes : Nat) (v : Viewer F) :
    List (ViewerEvent F) → Except ViewerPanic (Viewer F × List (ViewerFrame F))
  | [] => .ok (v, [])
  | e :: es => do
    let (v', f) ← v.step scenes e
    let (v'', fs) ← v'.run scenes es
    .ok (v'', f.toList ++ fs)

end Velato
