import Verif.Model.Vello

/-!
# `/repo/examples/scenes/src/{lottie,picking}.rs`: playing a composition, picking layers

`Instant::elapsed` is a parameter (seconds, a non-negative float).  The overlays drawn on top of the picture
and text are in `Model/Overlay.lean`, the list of files in `Model/SceneList.lean`.
-/

namespace Velato
open FloatOps (lit)

/-- `kurbo::Rect`.  Used at `picking.rs:134,188-189`. -/
structure KRect (F : Type) where
  x0 : F
  y0 : F
  x1 : F
  y1 : F
  deriving DecidableEq, Repr, Inhabited

/-- `ParamCurveExtrema::bounding_box` of a segment (kurbo), a parameter.  Used at `picking.rs:188`.
-/
class KurboBox (F : Type) where
  segBox : PathSeg F → KRect F

section
variable {F : Type} [FloatOps F]

/-! ## kurbo -/

/-- `Rect::union`.  Used at `picking.rs:265`. -/
def KRect.union (r s : KRect F) : KRect F :=
  ⟨fmin r.x0 s.x0, fmin r.y0 s.y0, fmax r.x1 s.x1, fmax r.y1 s.y1⟩

/-- `Rect::contains`: the left and upper sides belong to the rectangle.  Used at `picking.rs:134`.
-/
def KRect.contains (r : KRect F) (p : P2 F) : Bool :=
  (r.x0 <=. p.x) && (p.x <. r.x1) && (r.y0 <=. p.y) && (p.y <. r.y1)

/-- `Rect::from_points`: `Rect::new(p.x, p.y, q.x, q.y).abs()`.  Used at `picking.rs:189`. -/
def KRect.fromPoints (p q : P2 F) : KRect F :=
  ⟨fmin p.x q.x, fmin p.y q.y, fmax p.x q.x, fmax p.y q.y⟩

/-- `Affine::transform_rect_bbox`.  Used at `picking.rs:189`. -/
def Affine.transformRectBbox (m : Affine F) (r : KRect F) : KRect F :=
  let p00 := m.apply ⟨r.x0, r.y0⟩
  let p01 := m.apply ⟨r.x0, r.y1⟩
  let p10 := m.apply ⟨r.x1, r.y0⟩
  let p11 := m.apply ⟨r.x1, r.y1⟩
  (KRect.fromPoints p00 p01).union (KRect.fromPoints p10 p11)

/-- `Shape::bounding_box` of a path: the union of the boxes of its segments, `Rect::ZERO` if there are
none.  Used at `picking.rs:188`. -/
def boundingBox [KurboBox F] (path : List (PathEl F)) : KRect F :=
  match (segments path).map KurboBox.segBox with
  | [] => ⟨lit 0, lit 0, lit 0, lit 0⟩
  | b :: bs => bs.foldl KRect.union b

/-- `Affine::scale`.  Used at `picking.rs:126-127`. -/
def Affine.scale (s : F) : Affine F := Affine.scaleNonUniform s s

/-- `Affine::inverse`.  Used at `picking.rs:126-127`. -/
def Affine.inverse (m : Affine F) : Affine F :=
  let invDet := lit 1 /. (m.a *. m.d -. m.b *. m.c)
  { a := invDet *. m.d
    b := FloatOps.neg invDet *. m.b
    c := FloatOps.neg invDet *. m.c
    d := invDet *. m.a
    e := invDet *. (m.c *. m.f -. m.d *. m.e)
    f := invDet *. (m.b *. m.e -. m.a *. m.f) }

/-! ## Playing -/

/-- The frame shown `elapsed` seconds after the start (`lottie.rs:106-108`, `picking.rs:51-53`). -/
def playFrame (c : Composition F) (elapsed : F) : F :=
  FloatOps.rem (elapsed *. c.frameRate) (c.frames.stop -. c.frames.start) +. c.frames.start

/-! ## Picking -/

/-- `LayerHit` (`picking.rs:210-214`). -/
structure LayerHit (F : Type) where
  name : String
  rect : KRect F
  paintOrder : Nat
  deriving DecidableEq, Repr, Inhabited

/-- `LayerBoundsTracker` (`picking.rs:223-232`).  `counter` is a `usize` in the code; it would overflow
after more than 10¹⁶ layer groups in one frame, which is ignored here. -/
structure Tracker (F : Type) where
  interactive : List String
  currentLayer : Option String
  currentPaintOrder : Nat
  currentBounds : Option (KRect F)
  nesting : Nat
  counter : Nat
  collected : List (LayerHit F)

/-- `LayerBoundsTracker::new` (`picking.rs:235-245`). -/
def Tracker.new (interactive : List String) : Tracker F where
  interactive := interactive
  currentLayer := none
  currentPaintOrder := 0
  currentBounds := none
  nesting := 0
  counter := 0
  collected := []

/-- `LayerBoundsTracker::begin_layer_group` (`picking.rs:251-263`); `DEPTH_BAND` is 1000
(`picking.rs:29`). -/
def Tracker.beginLayerGroup (s : Tracker F) (name : String) : Tracker F :=
  let s := { s with counter := s.counter + 1000 }
  if s.currentLayer.isSome then { s with nesting := s.nesting + 1 }
  else if s.interactive.contains name then
    { s with
      currentLayer := some name
      currentPaintOrder := s.counter
      currentBounds := none
      nesting := 0 }
  else s

/-- `LayerBoundsTracker::accumulate_bounds` (`picking.rs:265-272`). -/
def Tracker.accumulateBounds (s : Tracker F) (rect : KRect F) : Tracker F :=
  if s.currentLayer.isSome then
    { s with
      currentBounds := some (match s.currentBounds with
        | some existing => existing.union rect
        | none => rect) }
  else s

/-- `LayerBoundsTracker::end_layer_group` (`picking.rs:274-291`).  `take` empties `current_layer` also if
there are no bounds; `current_bounds` is only taken if there is a layer. -/
def Tracker.endLayerGroup (s : Tracker F) : Tracker F :=
  match s.currentLayer with
  | none => s
  | some name =>
    if s.nesting > 0 then { s with nesting := s.nesting - 1 }
    else match s.currentBounds with
      | some rect =>
        { s with
          currentLayer := none
          currentBounds := none
          collected := s.collected ++ [⟨name, rect, s.currentPaintOrder⟩] }
      | none => { s with currentLayer := none }

/-- `impl RenderSink for PickingScene` (`picking.rs:160-208, 247-249`): the new state of the tracker and the calls
made on the vello scene. -/
def Tracker.sink [KurboBox F] (s : Tracker F) : Op F → Tracker F × List (SceneOp F)
  | .pushLayer blend alpha transform shape => (s, [.pushLayer .nonZero blend alpha transform shape])
  | .pushClip transform shape => (s, [.pushClip .nonZero transform shape])
  | .pop => (s, [.pop])
  | .draw stroke transform brush path =>
    let s :=
      if s.currentLayer.isSome then
        s.accumulateBounds (transform.transformRectBbox (boundingBox path))
      else s
    match stroke with
    | some stroke => (s, [.stroke stroke transform brush path])
    | none => (s, [.fill .nonZero transform brush path])
  | .beginGroup name _ => (s.beginLayerGroup name, [])
  | .endGroup => (s.endLayerGroup, [])

/-- The calls one after the other.  Used at `picking.rs:160-208`. -/
def Tracker.sinkAll [KurboBox F] (s : Tracker F) : List (Op F) → Tracker F × List (SceneOp F)
  | [] => (s, [])
  | op :: ops =>
    let (s, out) := s.sink op
    let (s, outs) := s.sinkAll ops
    (s, out ++ outs)

/-- `pick_layer` (`picking.rs:131-137`): `max_by_key` returns the last of several maximal elements. -/
def pickLayer (hits : List (LayerHit F)) (cursor : P2 F) : Option Nat :=
  let found := hits.zipIdx.filter fun p => p.1.rect.contains cursor
  (found.foldl (fun (best : Option (LayerHit F × Nat)) p =>
    match best with
    | none => some p
    | some b => if b.1.paintOrder ≤ p.1.paintOrder then some p else some b) none).map (·.2)

/-- `cursor_to_scene` (`picking.rs:124-129`). -/
def cursorToScene (cursor viewport resolution : P2 F) (camera : Affine F) : P2 F :=
  let scaleFactor := fmin (viewport.x /. resolution.x) (viewport.y /. resolution.y)
  let fullTransform := camera.mul (Affine.scale scaleFactor)
  fullTransform.inverse.apply cursor

/-- One frame of `picking_scene` (`picking.rs:48-70, 293-295`): the layers of the composition are interactive
(`picking.rs:42`); the collected hits, the index of the hovered hit and the calls on the scene.  The
overlays (`picking.rs:72-120`) are `pickingOverlays`. -/
def pickingFrame [Libm F] [Kurbo F] [KurboBox F] (fuel : Nat) (r : Renderer F) (c : Composition F)
    (elapsed : F) (cursor viewport : Option (P2 F)) (camera : Affine F) :
    Except Fault (Renderer F × List (SceneOp F) × List (LayerHit F) × Option Nat) := do
  let (r', ops) ← r.append fuel c (playFrame c elapsed) Affine.identity (lit 1)
  let (s, out) := (Tracker.new (c.layers.map (·.name))).sinkAll ops
  let hits := s.collected
  let sceneCursor := match cursor, viewport with
    | some cursor, some viewport =>
      some (cursorToScene cursor viewport ⟨FloatOps.ofUsize c.width, FloatOps.ofUsize c.height⟩ camera)
    | _, _ => none
  .ok (r', out, hits, sceneCursor.bind (pickLayer hits))

end
end Velato
