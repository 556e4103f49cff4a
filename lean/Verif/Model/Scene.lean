import Verif.Model.Fixed

/-!
# `/repo/src/runtime/model/animated.rs` and `/repo/src/runtime/model/mod.rs`
-/

namespace Velato
open FloatOps (lit)

/-- `animated::Position` (`animated.rs:12-16`). -/
inductive Position (F : Type) where
  | value (v : Value F (P2 F))
  | splitValues (x y : Value F F)

/-- `animated::Transform` (`animated.rs:18-33`). -/
structure AnimTransform (F : Type) where
  anchor : Value F (P2 F)
  position : Position F
  rotation : Value F F
  scale : Value F (P2 F)
  skew : Value F F
  skewAngle : Value F F

/-- `animated::Ellipse` (`animated.rs:88-97`). -/
structure AnimEllipse (F : Type) where
  isCcw : Bool
  position : Value F (P2 F)
  size : Value F (P2 F)

/-- `animated::Rect` (`animated.rs:112-123`). -/
structure AnimRect (F : Type) where
  isCcw : Bool
  position : Value F (P2 F)
  size : Value F (P2 F)
  cornerRadius : Value F F

/-- `animated::Star` (`animated.rs:150-162`). -/
structure AnimStar (F : Type) where
  isPolygon : Bool
  direction : F
  position : Value F (P2 F)
  innerRadius : Value F F
  innerRoundness : Value F F
  outerRadius : Value F F
  outerRoundness : Value F F
  rotation : Value F F
  points : Value F F

/-- `animated::SplineKeyframeValues` (`animated.rs:295-300`). -/
structure SplineValues (F : Type) where
  start : List (P2 F)
  stop : Option (List (P2 F))

/-- `animated::Spline` (`animated.rs:283-293`). -/
structure AnimSpline (F : Type) where
  isClosed : Bool
  times : List (Time F)
  values : List (SplineValues F)

/-- `animated::Repeater` (`animated.rs:326-345`). -/
structure AnimRepeater (F : Type) where
  copies : Value F F
  offset : Value F F
  anchorPoint : Value F (P2 F)
  position : Value F (P2 F)
  rotation : Value F F
  scale : Value F (P2 F)
  startOpacity : Value F F
  endOpacity : Value F F

/-- `animated::Stroke` (`animated.rs:392-403`). -/
structure AnimStroke (F : Type) where
  width : Value F F
  join : Join
  miterLimit : Option F
  cap : Cap

/-- `animated::ColorStops` (`animated.rs:470-475`). -/
structure AnimColorStops (F : Type) where
  frames : List (Time F)
  values : List (List F)
  count : Nat

/-- `model::ColorStops` (`mod.rs:83-87`). -/
inductive ColorStops (F : Type) where
  | fixed (s : List (ColorStop F))
  | animated (s : AnimColorStops F)

/-- `animated::Gradient` (`animated.rs:433-444`). -/
structure AnimGradient (F : Type) where
  isRadial : Bool
  startPoint : Value F (P2 F)
  endPoint : Value F (P2 F)
  stops : ColorStops F

/-- `animated::Brush` (`animated.rs:507-514`). -/
inductive AnimBrush (F : Type) where
  | solid (c : Value F (Color F))
  | gradient (g : AnimGradient F)

/-- `animated::Trim` (`animated.rs:546-554`). -/
structure AnimTrim (F : Type) where
  start : Value F F
  stop : Value F F
  offset : Value F F

/-- `model::Transform` (`mod.rs:26-29`). -/
inductive Transform (F : Type) where
  | fixed (a : Affine F)
  | animated (a : AnimTransform F)

/-- `model::Stroke` (`mod.rs:42-46`). -/
inductive Stroke (F : Type) where
  | fixed (s : KStroke F)
  | animated (s : AnimStroke F)

/-- `model::Repeater` (`mod.rs:67-70`). -/
inductive Repeater (F : Type) where
  | fixed (r : FixedRepeater F)
  | animated (r : AnimRepeater F)

/-- `model::Brush` (`mod.rs:100-104`). -/
inductive MBrush (F : Type) where
  | fixed (b : Brush F)
  | animated (b : AnimBrush F)

/-- `model::Trim` (`mod.rs:265-269`). -/
inductive Trim (F : Type) where
  | fixed (t : FixedTrim F)
  | animated (t : AnimTrim F)

/-- `model::Geometry` (`mod.rs:131-138`). -/
inductive Geometry (F : Type) where
  | fixed (p : List (PathEl F))
  | rect (r : AnimRect F)
  | ellipse (e : AnimEllipse F)
  | spline (s : AnimSpline F)
  | star (s : AnimStar F)

/-- `model::Draw` (`mod.rs:162-170`). -/
structure Draw (F : Type) where
  stroke : Option (Stroke F)
  brush : MBrush F
  opacity : Value F F

/-- `model::GroupTransform` (`mod.rs:187-192`). -/
structure GroupTransform (F : Type) where
  transform : Transform F
  opacity : Value F F

/-- `model::Shape` (`mod.rs:172-185`). -/
inductive Shape (F : Type) where
  | group (shapes : List (Shape F)) (transform : Option (GroupTransform F))
  | geometry (g : Geometry F)
  | draw (d : Draw F)
  | repeater (r : Repeater F)
  | trim (t : Trim F)

/-- `model::Mask` (`mod.rs:239-248`). -/
structure Mask (F : Type) where
  mode : BlendMode
  geometry : Geometry F
  opacity : Value F F

/-- `model::Content` (`mod.rs:250-263`). -/
inductive Content (F : Type) where
  | none
  | instance (name : String) (timeRemap : Option (Value F F))
  | shape (shapes : List (Shape F))

/-- `Range<f64>`.  Used at `runtime/model/mod.rs:212`, `runtime/mod.rs:24`. -/
structure FRange (F : Type) where
  start : F
  stop : F
  deriving DecidableEq, Repr, Inhabited

/-- `model::Layer` (`mod.rs:194-225`). -/
structure Layer (F : Type) where
  name : String
  parent : Option Nat
  transform : Transform F
  opacity : Value F F
  width : F
  height : F
  blendMode : Option BlendMode
  frames : FRange F
  stretch : F
  startFrame : F
  masks : List (Mask F)
  isMask : Bool
  maskLayer : Option (BlendMode × Nat)
  content : Content F

/-- `Composition` (`/repo/src/runtime/mod.rs:20-34`).  `assets` is a `HashMap<String, Vec<Layer>>`:
an association list in which the *last* entry for a key is the one the map holds (insertions
in order). -/
structure Composition (F : Type) where
  frames : FRange F
  frameRate : F
  width : Nat
  height : Nat
  assets : List (String × List (Layer F))
  layers : List (Layer F)

/-- `HashMap::get` on the insertion-ordered list of entries: the last insertion wins.  Used at
`runtime/mod.rs:31`, `render.rs:145`. -/
def Composition.asset {F : Type} (c : Composition F) (name : String) : Option (List (Layer F)) :=
  (c.assets.reverse.find? (fun e => e.1 == name)).map (·.2)

section
variable {F : Type} [FloatOps F]

/-- `Range::contains` for `f64`: `start <= x && x < end`.  Used at `render.rs:102`. -/
def FRange.contains (r : FRange F) (x : F) : Bool := (r.start <=. x) && (x <. r.stop)

section
omit [FloatOps F]

/-- `animated::Transform::is_fixed` (`animated.rs:36-49`). -/
def AnimTransform.isFixed (t : AnimTransform F) : Bool :=
  t.anchor.isFixed
    && (match t.position with
        | .value v => v.isFixed
        | .splitValues x y => x.isFixed && y.isFixed)
    && t.rotation.isFixed && t.scale.isFixed && t.skew.isFixed && t.skewAngle.isFixed

/-- `animated::Ellipse::is_fixed` (`animated.rs:100-102`). -/
def AnimEllipse.isFixed (e : AnimEllipse F) : Bool := e.position.isFixed && e.size.isFixed

/-- `animated::Rect::is_fixed` (`animated.rs:126-129`). -/
def AnimRect.isFixed (r : AnimRect F) : Bool :=
  r.position.isFixed && r.size.isFixed && r.cornerRadius.isFixed

/-- `animated::Star::is_fixed` (`animated.rs:165-173`). -/
def AnimStar.isFixed (s : AnimStar F) : Bool :=
  s.position.isFixed && s.innerRadius.isFixed && s.innerRoundness.isFixed
    && s.outerRadius.isFixed && s.outerRoundness.isFixed && s.rotation.isFixed && s.points.isFixed

/-- `animated::Repeater::is_fixed` (`animated.rs:348-358`). -/
def AnimRepeater.isFixed (r : AnimRepeater F) : Bool :=
  r.copies.isFixed && r.offset.isFixed && r.anchorPoint.isFixed && r.position.isFixed
    && r.rotation.isFixed && r.scale.isFixed && r.startOpacity.isFixed && r.endOpacity.isFixed

/-- `animated::Stroke::is_fixed` (`animated.rs:406-409`). -/
def AnimStroke.isFixed (s : AnimStroke F) : Bool := s.width.isFixed

/-- `model::ColorStops::is_fixed` (`mod.rs:89-91`). -/
def ColorStops.isFixed : ColorStops F → Bool
  | .fixed _ => true
  | .animated _ => false

/-- `animated::Gradient::is_fixed` (`animated.rs:447-450`). -/
def AnimGradient.isFixed (g : AnimGradient F) : Bool :=
  g.startPoint.isFixed && g.endPoint.isFixed && g.stops.isFixed

/-- `animated::Brush::is_fixed` (`animated.rs:517-523`). -/
def AnimBrush.isFixed : AnimBrush F → Bool
  | .solid v => v.isFixed
  | .gradient g => g.isFixed

/-- `animated::Trim::is_fixed` (`animated.rs:557-560`). -/
def AnimTrim.isFixed (t : AnimTrim F) : Bool :=
  t.start.isFixed && t.stop.isFixed && t.offset.isFixed

end

variable [Libm F] [Kurbo F]

/-- The position point (`animated.rs:54-60`). -/
def Position.evaluate (p : Position F) (frame : F) : P2 F :=
  match p with
  | .value v => v.evaluate frame
  | .splitValues x y => ⟨x.evaluate frame, y.evaluate frame⟩

/-- The skew matrix (`animated.rs:65-71`). -/
def skewMatrix (skew skewAngle : F) : Affine F :=
  if !(skew ==. lit 0) then
    let skew := toRadians skew
    let angle := toRadians skewAngle
    ((Affine.rotate (FloatOps.neg angle)).mul (Affine.skew (Libm.tan skew) (lit 0))).mul
      (Affine.rotate angle)
  else Affine.identity

/-- `animated::Transform::evaluate` (`animated.rs:51-77`). -/
def AnimTransform.evaluate (t : AnimTransform F) (frame : F) : Affine F :=
  let anchor := t.anchor.evaluate frame
  let position := t.position.evaluate frame
  let rotation := t.rotation.evaluate frame
  let scale := t.scale.evaluate frame
  let skew := t.skew.evaluate frame
  let skewAngle := t.skewAngle.evaluate frame
  ((((Affine.translate position).mul (Affine.rotate (toRadians rotation))).mul
      (skewMatrix skew skewAngle)).mul
      (Affine.scaleNonUniform (scale.x /. lit 100) (scale.y /. lit 100))).mul
    (Affine.translate ⟨FloatOps.neg anchor.x, FloatOps.neg anchor.y⟩)

/-- `animated::Transform::into_model` (`animated.rs:79-86`). -/
def AnimTransform.intoModel (t : AnimTransform F) : Transform F :=
  if t.isFixed then .fixed (t.evaluate (lit 0)) else .animated t

/-- `model::Transform::evaluate` (`mod.rs:34-39`). -/
def Transform.evaluate (t : Transform F) (frame : F) : Affine F :=
  match t with
  | .fixed a => a
  | .animated a => a.evaluate frame

/-- `animated::Ellipse::evaluate` followed by `path_elements(0.1)`
(`animated.rs:104-109`, `mod.rs:149-151`). -/
def AnimEllipse.evaluate (e : AnimEllipse F) (frame : F) : List (PathEl F) :=
  let position := e.position.evaluate frame
  let size := e.size.evaluate frame
  Kurbo.ellipsePath position ⟨size.x *. lit (1 / 2), size.y *. lit (1 / 2)⟩

/-- `animated::Rect::evaluate` followed by `path_elements(0.1)`
(`animated.rs:131-147`, `mod.rs:146-148`). -/
def AnimRect.evaluate (r : AnimRect F) (frame : F) : List (PathEl F) :=
  let position := r.position.evaluate frame
  let size := r.size.evaluate frame
  let px := position.x -. size.x *. lit (1 / 2)
  let py := position.y -. size.y *. lit (1 / 2)
  let radius := r.cornerRadius.evaluate frame
  Kurbo.roundedRectPath px py (px +. size.x) (py +. size.y) radius

/-- One vertex of a star: point, in-handle, out-handle.  Used at `animated.rs:206-232`. -/
structure StarVertex (F : Type) where
  pt : P2 F
  inPt : P2 F
  outPt : P2 F
  deriving DecidableEq, Repr, Inhabited

/-- One iteration of the vertex loop (`animated.rs:209-233`). -/
def starVertex (center : P2 F) (radius roundness angle step : F) : StarVertex F :=
  let x := center.x +. radius *. Libm.cos angle
  let y := center.y +. radius *. Libm.sin angle
  if lit (1 / 1000000) <. FloatOps.abs roundness then
    let tangentLen :=
      radius *. Libm.tan (step /. lit 2) *. roundness *. lit 4 /. lit 3
    let perpX := FloatOps.neg (Libm.sin angle)
    let perpY := Libm.cos angle
    ⟨⟨x, y⟩, ⟨x -. tangentLen *. perpX, y -. tangentLen *. perpY⟩,
      ⟨x +. tangentLen *. perpX, y +. tangentLen *. perpY⟩⟩
  else ⟨⟨x, y⟩, ⟨x, y⟩, ⟨x, y⟩⟩

/-- The vertex loop (`animated.rs:207-235`): `n` remaining iterations starting at index `i` with
the accumulated `current_angle`. -/
def starVertices (center : P2 F) (isStar : Bool) (outer inner : F × F) (step : F) :
    (n i : Nat) → (angle : F) → List (StarVertex F)
  | 0, _, _ => []
  | n + 1, i, angle =>
    let rr := if !isStar || i % 2 == 0 then outer else inner
    starVertex center rr.1 rr.2 angle step
      :: starVertices center isStar outer inner step n (i + 1) (angle +. step)

omit [Libm F] [Kurbo F] in
/-- The test on handle deviations (`animated.rs:248-251,262-265`). -/
def starStraight (prev cur : StarVertex F) : Bool :=
  (FloatOps.abs (prev.outPt.x -. prev.pt.x) <. lit (1 / 1000000))
    && (FloatOps.abs (prev.outPt.y -. prev.pt.y) <. lit (1 / 1000000))
    && (FloatOps.abs (cur.inPt.x -. cur.pt.x) <. lit (1 / 1000000))
    && (FloatOps.abs (cur.inPt.y -. cur.pt.y) <. lit (1 / 1000000))

omit [Libm F] [Kurbo F] in
/-- One step of the element loop (`animated.rs:243-257`). -/
def starEdge (prev cur : StarVertex F) : PathEl F :=
  if starStraight prev cur then .lineTo cur.pt else .curveTo prev.outPt cur.inPt cur.pt

omit [Libm F] [Kurbo F] in
/-- The element loop and the closing edge (`animated.rs:243-271`): consecutive pairs, then
last-to-first.  (Indices `i-1`, `i` of the Rust loop become structural recursion.) -/
def starEdges (first : StarVertex F) : StarVertex F → List (StarVertex F) → List (PathEl F)
  | prev, [] =>
    if starStraight prev first then [.closePath]
    else [.curveTo prev.outPt first.inPt first.pt, .closePath]
  | prev, cur :: rest => starEdge prev cur :: starEdges first cur rest

/-- `usize::MAX` of a 64-bit target.  Used at `animated.rs:203`. -/
def usizeMax : Nat := 2 ^ 64 - 1
/-- `isize::MAX` of a 64-bit target: the largest allocation in bytes.  Used at `animated.rs:206`. -/
def isizeMax : Nat := 2 ^ 63 - 1

/-- `animated::Star::evaluate` (`animated.rs:175-272`): the appended elements.
`num_points * 2` panics on overflow (overflow checks on) and
`Vec::<(Point, Point, Point)>::with_capacity(total_vertices)` (48 bytes per vertex) panics if the
size exceeds `isize::MAX`.  Failing allocations of smaller sizes are not modelled; the later
`path.reserve` is smaller than what has then been allocated up to a factor 3.5 and is not
modelled either. -/
def AnimStar.evaluate (s : AnimStar F) (frame : F) : Except Fault (List (PathEl F)) :=
  let center := s.position.evaluate frame
  let numPoints := FloatOps.toUsize (FloatOps.round (s.points.evaluate frame))
  if numPoints = 0 then .ok [] else
  let rotationDeg := s.rotation.evaluate frame
  let outerRadius := s.outerRadius.evaluate frame
  let outerRoundness := s.outerRoundness.evaluate frame /. lit 100
  let isStar := !s.isPolygon
  let inner : F × F :=
    if isStar then (s.innerRadius.evaluate frame, s.innerRoundness.evaluate frame /. lit 100)
    else (outerRadius, lit 0)
  let anglePerPoint := Libm.tau /. FloatOps.ofUsize numPoints
  let halfAngle := anglePerPoint /. lit 2
  let rotationRad := toRadians rotationDeg -. Libm.fracPi2
  let totalVertices := if isStar then numPoints * 2 else numPoints
  if usizeMax < totalVertices ∨ isizeMax < totalVertices * 48 then
    .error (.panic .starCapacity)
  else
  let step := if isStar then halfAngle else anglePerPoint
  match starVertices center isStar (outerRadius, outerRoundness) inner step
      totalVertices 0 rotationRad with
  | [] => .ok []
  | first :: rest => .ok (.moveTo first.pt :: starEdges first first rest)

/-- `animated::Star::into_model` (`animated.rs:274-282`). -/
def AnimStar.intoModel (s : AnimStar F) : Except Fault (Geometry F) :=
  if s.isFixed then (s.evaluate (lit 0)).map .fixed else .ok (.star s)

omit [Libm F] [Kurbo F] in
/-- `animated::Spline::evaluate` (`animated.rs:302-324`): the appended elements (nothing is
appended when it returns `false`). -/
def AnimSpline.evaluate (s : AnimSpline F) (frame : F) : List (PathEl F) :=
  match Time.framesAndWeight s.times frame with
  | none => []
  | some w =>
    let t := if w.hold then lit 0 else w.t
    match s.values[w.ix0]?, s.values[w.ix1]? with
    | some from_, some to_ =>
      let toSlice := match from_.stop with
        | some e => e
        | none => to_.start
      splineLerpToPath from_.start toSlice t s.isClosed
    | _, _ => []

/-- `animated::Repeater::evaluate` (`animated.rs:360-380`). -/
def AnimRepeater.evaluate (r : AnimRepeater F) (frame : F) : FixedRepeater F where
  copies := FloatOps.toUsize (FloatOps.round (r.copies.evaluate frame))
  offset := r.offset.evaluate frame
  anchorPoint := r.anchorPoint.evaluate frame
  position := r.position.evaluate frame
  rotation := r.rotation.evaluate frame
  scale := r.scale.evaluate frame
  startOpacity := r.startOpacity.evaluate frame
  endOpacity := r.endOpacity.evaluate frame

/-- `animated::Repeater::into_model` (`animated.rs:382-389`). -/
def AnimRepeater.intoModel (r : AnimRepeater F) : Repeater F :=
  if r.isFixed then .fixed (r.evaluate (lit 0)) else .animated r

/-- `model::Repeater::evaluate` (`mod.rs:75-80`). -/
def Repeater.evaluate (r : Repeater F) (frame : F) : FixedRepeater F :=
  match r with
  | .fixed r => r
  | .animated r => r.evaluate frame

/-- `animated::Stroke::evaluate` (`animated.rs:411-421`).  `kurbo::Stroke::new` has miter limit 4;
join and caps are overwritten. -/
def AnimStroke.evaluate (s : AnimStroke F) (frame : F) : KStroke F where
  width := s.width.evaluate frame
  join := s.join
  miterLimit := match s.miterLimit with
    | some m => m
    | none => lit 4
  cap := s.cap

/-- `animated::Stroke::into_model` (`animated.rs:423-430`). -/
def AnimStroke.intoModel (s : AnimStroke F) : Stroke F :=
  if s.isFixed then .fixed (s.evaluate (lit 0)) else .animated s

/-- `model::Stroke::evaluate` (`mod.rs:51-56`). -/
def Stroke.evaluate (s : Stroke F) (frame : F) : KStroke F :=
  match s with
  | .fixed s => s
  | .animated s => s.evaluate frame

omit [Libm F] in
/-- One stop of `ColorStops::evaluate_inner` (`animated.rs:489-501`).  `tOff` is the weight used
for the offset, `t` the weight used for the colour. -/
def AnimColorStops.stop (v0 v1 : List F) (tOff t : F) (e : Easing F) (i : Nat) :
    Option (ColorStop F) := do
  let j := i * 5
  let offset := tweenScalar (← v0[j]?) (← v1[j]?) tOff e
  let r := tweenScalar (← v0[j + 1]?) (← v1[j + 1]?) t e
  let g := tweenScalar (← v0[j + 2]?) (← v1[j + 2]?) t e
  let b := tweenScalar (← v0[j + 3]?) (← v1[j + 3]?) t e
  let a := tweenScalar (← v0[j + 4]?) (← v1[j + 4]?) t e
  some ⟨FloatOps.toF32 offset,
    ⟨FloatOps.toF32 r, FloatOps.toF32 g, FloatOps.toF32 b, FloatOps.toF32 a⟩⟩

omit [Libm F] in
/-- `ColorStops::evaluate_inner` (`animated.rs:482-504`).  Note that the offset is tweened with
the un-held weight: the shadowing `let t = if hold ..` comes after it (line 492). -/
def AnimColorStops.evaluateInner (s : AnimColorStops F) (frame : F) :
    Option (List (ColorStop F)) := do
  let w ← Time.framesAndWeight s.frames frame
  let v0 ← s.values[w.ix0]?
  let v1 ← s.values[w.ix1]?
  (List.range s.count).mapM fun i =>
    AnimColorStops.stop v0 v1 w.t (if w.hold then lit 0 else w.t) w.easing i

omit [Libm F] in
/-- `model::ColorStops::evaluate` (`mod.rs:92-97`, `animated.rs:478-480`). -/
def ColorStops.evaluate (s : ColorStops F) (frame : F) : List (ColorStop F) :=
  match s with
  | .fixed s => s
  | .animated s => (s.evaluateInner frame).getD []

/-- `animated::Gradient::evaluate` (`animated.rs:452-467`). -/
def AnimGradient.evaluate (g : AnimGradient F) (frame : F) : Brush F :=
  let start := g.startPoint.evaluate frame
  let stop := g.endPoint.evaluate frame
  let stops := g.stops.evaluate frame
  if g.isRadial then
    let radius := Libm.hypot (stop.x -. start.x) (stop.y -. start.y)
    .gradient (.radial start (FloatOps.toF32 radius)) stops
  else .gradient (.linear start stop) stops

/-- `animated::Brush::evaluate` (`animated.rs:525-534`). -/
def AnimBrush.evaluate (b : AnimBrush F) (alpha frame : F) : Brush F :=
  match b with
  | .solid v =>
    .solid ((v.evaluateOr frame Color.transparent).multiplyAlpha (FloatOps.toF32 alpha))
  | .gradient g => g.evaluate frame

/-- `animated::Brush::into_model` (`animated.rs:536-543`). -/
def AnimBrush.intoModel (b : AnimBrush F) : MBrush F :=
  if b.isFixed then .fixed (b.evaluate (lit 1) (lit 0)) else .animated b

/-- `model::Brush::evaluate` (`mod.rs:111-122`). -/
def MBrush.evaluate (b : MBrush F) (alpha frame : F) : Brush F :=
  match b with
  | .fixed v => if alpha ==. lit 1 then v else v.multiplyAlpha (FloatOps.toF32 alpha)
  | .animated v => v.evaluate alpha frame

/-- `animated::Trim::evaluate` (`animated.rs:562-569`). -/
def AnimTrim.evaluate (t : AnimTrim F) (frame : F) : FixedTrim F where
  start := t.start.evaluate frame
  stop := t.stop.evaluate frame
  offset := t.offset.evaluate frame

/-- `animated::Trim::into_model` (`animated.rs:571-578`). -/
def AnimTrim.intoModel (t : AnimTrim F) : Trim F :=
  if t.isFixed then .fixed (t.evaluate (lit 0)) else .animated t

/-- `model::Trim::evaluate` (`mod.rs:276-281`). -/
def Trim.evaluate (t : Trim F) (frame : F) : FixedTrim F :=
  match t with
  | .fixed t => t
  | .animated t => t.evaluate frame

/-- `Geometry::evaluate` (`mod.rs:140-160`): the elements appended to the path. -/
def Geometry.evaluate (g : Geometry F) (frame : F) : Except Fault (List (PathEl F)) :=
  match g with
  | .fixed p => .ok p
  | .rect r => .ok (r.evaluate frame)
  | .ellipse e => .ok (e.evaluate frame)
  | .spline s => .ok (s.evaluate frame)
  | .star s => s.evaluate frame

end
end Velato
