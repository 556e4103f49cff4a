import Verif.Model.Kurbo

/-!
# `/repo/examples/with_winit/src/multi_touch.rs`: gestures

Not modelled: `Debug for TouchState` (`multi_touch.rs:246-255`).
-/

namespace Velato
open FloatOps (lit)

/-- `f64::atan2` (from `std`, unspecified; for real numbers see `Spec/Touch.lean`).  Used at
`multi_touch.rs:240`. -/
class Atan2 (F : Type) where
  atan2 : F → F → F

/-- `winit::event::TouchPhase`.  Used at `multi_touch.rs:107-117`. -/
inductive TouchPhase where
  | started | moved | ended | cancelled
  deriving DecidableEq, Repr, Inhabited

/-- `winit::event::Touch`, as far as it is used.  Used at `multi_touch.rs:107-117`. -/
structure TouchEvent (F : Type) where
  id : Nat
  phase : TouchPhase
  location : P2 F
  deriving DecidableEq, Repr, Inhabited

/-- `BTreeMap::insert` on the list of entries in the order of their keys.  Used at
`multi_touch.rs:107-117`. -/
def mapInsert {α : Type} (k : Nat) (v : α) : List (Nat × α) → List (Nat × α)
  | [] => [(k, v)]
  | (k', v') :: l =>
    if k < k' then (k, v) :: (k', v') :: l
    else if k = k' then (k, v) :: l
    else (k', v') :: mapInsert k v l

/-- `BTreeMap::get_mut` and an assignment to the value, if there is one.  Used at
`multi_touch.rs:107-117`. -/
def mapUpdate {α : Type} (k : Nat) (v : α) (l : List (Nat × α)) : List (Nat × α) :=
  l.map fun e => if e.1 = k then (k, v) else e

/-- `BTreeMap::remove`.  Used at `multi_touch.rs:107-117`. -/
def mapRemove {α : Type} (k : Nat) (l : List (Nat × α)) : List (Nat × α) := l.filter fun e => e.1 ≠ k

/-- `PinchType` (`multi_touch.rs:257-262`). -/
inductive PinchType where
  | horizontal | vertical | proportional
  deriving DecidableEq, Repr, Inhabited

/-- `DynGestureState` (`multi_touch.rs:76-86`). -/
structure DynGestureState (F : Type) where
  avgDistance : F
  avgAbsDistance2 : P2 F
  avgPos : P2 F
  heading : F
  deriving DecidableEq, Repr, Inhabited

/-- `GestureState` (`multi_touch.rs:69-74`). -/
structure GestureState (F : Type) where
  pinchType : PinchType
  previous : Option (DynGestureState F)
  current : DynGestureState F
  deriving DecidableEq, Repr, Inhabited

/-- `TouchState` (`multi_touch.rs:51-67`); `ActiveTouch` (`multi_touch.rs:87-93`) is its position. -/
structure TouchState (F : Type) where
  activeTouches : List (Nat × P2 F)
  gestureState : Option (GestureState F)
  addedOrRemovedTouches : Bool
  deriving DecidableEq, Repr, Inhabited

/-- `MultiTouchInfo` (`multi_touch.rs:10-50`). -/
structure MultiTouchInfo (F : Type) where
  numTouches : Nat
  zoomDelta : F
  zoomDelta2d : P2 F
  rotationDelta : F
  translationDelta : P2 F
  zoomCentre : P2 F
  deriving DecidableEq, Repr, Inhabited

variable {F : Type} [FloatOps F]

/-- `TouchState::new` (`multi_touch.rs:96-102`). -/
def TouchState.new : TouchState F := ⟨[], none, false⟩

/-- `TouchState::add_event` (`multi_touch.rs:104-121`). -/
def TouchState.addEvent (s : TouchState F) (e : TouchEvent F) : TouchState F :=
  match e.phase with
  | .started =>
    { s with
      activeTouches := mapInsert e.id e.location s.activeTouches
      addedOrRemovedTouches := true }
  | .moved => { s with activeTouches := mapUpdate e.id e.location s.activeTouches }
  | .ended | .cancelled =>
    { s with
      activeTouches := mapRemove e.id s.activeTouches
      addedOrRemovedTouches := true }

/-- `PinchType::classify` (`multi_touch.rs:265-293`). -/
def PinchType.classify (touches : List (Nat × P2 F)) : PinchType :=
  match touches with
  | [(_, t0), (_, t1)] =>
    let dx := FloatOps.abs (t0.x -. t1.x)
    let dy := FloatOps.abs (t0.y -. t1.y)
    if (lit 3 *. dy) <. dx then .horizontal
    else if (lit 3 *. dx) <. dy then .vertical
    else .proportional
  | _ => .proportional

/-- `TouchState::calc_dynamic_state` (`multi_touch.rs:198-243`).  `Point::distance` is the `hypot` of the
difference, `Vec2::atan2` is `y.atan2(x)`. -/
def TouchState.calcDynamicState [Libm F] [Atan2 F] (s : TouchState F) : Option (DynGestureState F) :=
  match s.activeTouches with
  | [] => none
  | (_, first) :: _ =>
    let recip := lit 1 /. FloatOps.ofUsize s.activeTouches.length
    let sum := s.activeTouches.foldl (fun a t => ⟨a.x +. t.2.x, a.y +. t.2.y⟩) (⟨lit 0, lit 0⟩ : P2 F)
    let avgPos : P2 F := ⟨sum.x *. recip, sum.y *. recip⟩
    let dist := s.activeTouches.foldl
      (fun a t => a +. Libm.hypot (avgPos.x -. t.2.x) (avgPos.y -. t.2.y)) (lit 0)
    let dist2 := s.activeTouches.foldl (fun a t =>
      ⟨a.x +. FloatOps.abs (avgPos.x -. t.2.x), a.y +. FloatOps.abs (avgPos.y -. t.2.y)⟩)
      (⟨lit 0, lit 0⟩ : P2 F)
    some
      { avgDistance := dist *. recip
        avgAbsDistance2 := ⟨dist2.x *. recip, dist2.y *. recip⟩
        avgPos := avgPos
        heading := Atan2.atan2 (avgPos.y -. first.y) (avgPos.x -. first.x) }

/-- `TouchState::update_gesture` (`multi_touch.rs:178-196`). -/
def TouchState.updateGesture [Libm F] [Atan2 F] (s : TouchState F) : TouchState F :=
  match s.calcDynamicState with
  | some dynState =>
    match s.gestureState with
    | some state =>
      { s with gestureState := some ⟨state.pinchType, some state.current, dynState⟩ }
    | none =>
      { s with gestureState := some ⟨PinchType.classify s.activeTouches, none, dynState⟩ }
  | none => { s with gestureState := none }

/-- `TouchState::end_frame` (`multi_touch.rs:123-136`). -/
def TouchState.endFrame [Libm F] [Atan2 F] (s : TouchState F) : TouchState F :=
  let s := s.updateGesture
  { s with
    gestureState :=
      if s.addedOrRemovedTouches then s.gestureState.map fun g => { g with previous := none }
      else s.gestureState
    addedOrRemovedTouches := false }

/-- `TouchState::info` (`multi_touch.rs:138-176`). -/
def TouchState.info (s : TouchState F) : Option (MultiTouchInfo F) :=
  s.gestureState.map fun state =>
    let prev := state.previous.getD state.current
    let zoomDelta :=
      if 1 < s.activeTouches.length then state.current.avgDistance /. prev.avgDistance else lit 1
    let zoomDelta2 : P2 F :=
      if 1 < s.activeTouches.length then
        match state.pinchType with
        | .horizontal => ⟨state.current.avgAbsDistance2.x /. prev.avgAbsDistance2.x, lit 1⟩
        | .vertical => ⟨lit 1, state.current.avgAbsDistance2.y /. prev.avgAbsDistance2.y⟩
        | .proportional => ⟨zoomDelta, zoomDelta⟩
      else ⟨lit 1, lit 1⟩
    { numTouches := s.activeTouches.length
      zoomDelta := zoomDelta
      zoomDelta2d := zoomDelta2
      zoomCentre := state.current.avgPos
      rotationDelta := state.current.heading -. prev.heading
      translationDelta :=
        ⟨state.current.avgPos.x -. prev.avgPos.x, state.current.avgPos.y -. prev.avgPos.y⟩ }

end Velato
