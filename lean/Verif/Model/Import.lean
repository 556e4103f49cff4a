import Verif.Model.Scene
import Verif.Model.Schema

/-!
# `/repo/src/import`: conversion of the schema into the runtime model

All line numbers without a file are `/repo/src/import/converters.rs`.
-/

namespace Velato.Import
open Velato
open Velato.FloatOps (lit)

section
variable {F : Type} [FloatOps F]

/-! ### Defaults (`/repo/src/import/defaults.rs`) -/

/-- A non-animated property (`defaults.rs:12-30`). -/
def staticValue {S : Type} (s : S) : Schema.AnimatedProperty F S :=
  ⟨none, some .false, none, none, .static s⟩

/-- `FLOAT_VALUE_ZERO` (`defaults.rs:12-20`). -/
def floatValueZero : Schema.FloatValue F := staticValue (lit 0)
/-- `FLOAT_VALUE_ONE_HUNDRED` (`defaults.rs:22-30`). -/
def floatValueOneHundred : Schema.FloatValue F := staticValue (lit 100)
/-- `MULTIDIM_ONE` (`defaults.rs:32-41`). -/
def multidimOne : Schema.MultiDimensional F := ⟨staticValue [lit 1, lit 1, lit 1], none⟩
/-- `POSITION_ZERO` (`defaults.rs:43-49`). -/
def positionZero : Schema.Position F :=
  ⟨none, some .false, none, none, .static [lit 0, lit 0]⟩

/-! ### Keyframes -/

omit [FloatOps F] in
/-- `hold.as_ref().map(|b| b.eq(&BoolInt::True)).unwrap_or(false)` (`converters.rs:325-330`, `converters.rs:412-417`,
`converters.rs:709-714`, `converters.rs:820-825`). -/
def isHold (b : Schema.KeyframeBase F) : Bool :=
  match b.hold with
  | some .true => true
  | _ => false

omit [FloatOps F] in
/-- The closure `collect_tangents` (`converters.rs:298-322`). -/
def collectTangents (h : Option (Schema.KeyframeBezierHandle F)) : List (EasingHandle F) :=
  match h with
  | none => []
  | some h =>
    match h.x, h.y with
    | .arrayOfValues xs, .arrayOfValues ys =>
      ((xs.take 2).zip (ys.take 2)).map fun p => ⟨p.1, p.2⟩
    | .arrayOfValues xs, .singleValue y => (xs.take 2).map fun x => ⟨x, y⟩
    | .singleValue x, .arrayOfValues ys => (ys.take 2).map fun y => ⟨x, y⟩
    | .singleValue x, .singleValue y => [⟨x, y⟩]

omit [FloatOps F] in
/-- The entries one keyframe contributes in `conv_keyframes` (`converters.rs:324-353`). -/
def keyframeTimes (k : Schema.KeyframeBase F) : List (Time F) :=
  let tangents := (collectTangents k.inTangent).zip (collectTangents k.outTangent)
  if tangents.isEmpty then [⟨k.time, none, none, isHold k⟩]
  else tangents.map fun p => ⟨k.time, some p.1, some p.2, isHold k⟩

omit [FloatOps F] in
/-- `conv_keyframes` (`converters.rs:291-358`). -/
def convKeyframes {T : Type} (ks : List (Schema.Keyframe F)) (f : List F → T) : Value F T :=
  .animated
    ⟨ks.flatMap fun k => keyframeTimes k.base,
     ks.flatMap fun k => (keyframeTimes k.base).map fun _ => f k.value⟩

omit [FloatOps F] in
/-- One component of `conv_keyframe_handle` (`converters.rs:365-378`): an array must have length 1. -/
def convComponent (c : Schema.KeyframeComponent F) : Except Fault F :=
  match c with
  | .arrayOfValues [x] => .ok x
  | .arrayOfValues _ => .error (.panic .handleArray)
  | .singleValue x => .ok x

omit [FloatOps F] in
/-- `conv_keyframe_handle` (`converters.rs:360-380`). -/
def convKeyframeHandle (h : Schema.KeyframeBezierHandle F) : Except Fault (EasingHandle F) := do
  let x ← convComponent h.x
  let y ← convComponent h.y
  .ok ⟨x, y⟩

omit [FloatOps F] in
/-- `handle.as_ref().map(conv_keyframe_handle)` (`converters.rs:420-421`, `converters.rs:718-719`, `converters.rs:828-829`). -/
def convHandle? (h : Option (Schema.KeyframeBezierHandle F)) :
    Except Fault (Option (EasingHandle F)) :=
  match h with
  | none => .ok none
  | some h => (convKeyframeHandle h).map some

omit [FloatOps F] in
/-- The `Time` of a keyframe (`converters.rs:418-423`, `converters.rs:716-721`, `converters.rs:826-831`). -/
def convTime (b : Schema.KeyframeBase F) : Except Fault (Time F) := do
  let i ← convHandle? b.inTangent
  let o ← convHandle? b.outTangent
  .ok ⟨b.time, i, o, isHold b⟩

omit [FloatOps F] in
/-- One keyframe of `conv_scalar` (`converters.rs:817-832`): `keyframe.value[0]` panics if empty. -/
def convScalarKeyframe (k : Schema.Keyframe F) : Except Fault (Time F × F) := do
  match k.value with
  | [] => .error (.panic .emptyKeyframe)
  | data :: _ => do
    let t ← convTime k.base
    .ok (t, data)

omit [FloatOps F] in
/-- `conv_scalar` (`converters.rs:810-842`). -/
def convScalar (v : Schema.FloatValue F) : Except Fault (Value F F) :=
  match v.value with
  | .static x => .ok (.fixed x)
  | .animatedValue ks => do
    let es ← ks.mapM convScalarKeyframe
    .ok (.animated ⟨es.map (·.1), es.map (·.2)⟩)

omit [FloatOps F] in
/-- `conv_multi` (`converters.rs:844-854`) and `conv_multi_color` (`converters.rs:856-866`). -/
def convMulti {T : Type} (p : Schema.AnimatedProperty F (List F)) (f : List F → T) : Value F T :=
  match p.value with
  | .static xs => .fixed (f xs)
  | .animatedValue ks => convKeyframes ks f

/-- The closure `x.get(0..=1)` with default `(0.0, 0.0)` (`converters.rs:886-890`, `converters.rs:898-902`, `converters.rs:918-922`,
`converters.rs:928-932`). -/
def toP2 (xs : List F) : P2 F :=
  match xs with
  | x0 :: x1 :: _ => ⟨x0, x1⟩
  | _ => ⟨lit 0, lit 0⟩

/-- `conv_pos_point` (`converters.rs:868-892`). -/
def convPosPoint (p : Schema.Position F) : Value F (P2 F) :=
  match p.value with
  | .static xs => .fixed (toP2 xs)
  | .animated ks => convKeyframes (ks.map (·.keyframe)) toP2

/-- `conv_multi_point` (`converters.rs:894-904`), `conv_vec2` (`converters.rs:916-924`), `conv_size` (`converters.rs:926-934`). -/
def convMultiP2 (p : Schema.MultiDimensional F) : Value F (P2 F) :=
  convMulti p.animatedProperty toP2

/-- The closure of `conv_color` (`converters.rs:908-912`). -/
def toColor (xs : List F) : Color F :=
  match xs with
  | x0 :: x1 :: x2 :: _ => ⟨FloatOps.toF32 x0, FloatOps.toF32 x1, FloatOps.toF32 x2, lit 1⟩
  | _ => ⟨FloatOps.toF32 (lit 0), FloatOps.toF32 (lit 0), FloatOps.toF32 (lit 0), lit 1⟩

/-- `conv_color` (`converters.rs:906-914`). -/
def convColor (c : Schema.ColorValue F) : Value F (Color F) := convMulti c toColor

/-! ### Gradients -/

omit [FloatOps F] in
/-- `value.chunks_exact(4)`.  Used at `converters.rs:939`. -/
def chunks4 : List F → List (F × F × F × F)
  | a :: b :: c :: d :: rest => (a, b, c, d) :: chunks4 rest
  | _ => []

omit [FloatOps F] in
/-- `value.chunks_exact(2)`.  Used at `converters.rs:944`. -/
def chunks2 : List F → List (F × F)
  | a :: b :: rest => (a, b) :: chunks2 rest
  | _ => []

/-- `[f64; 5]`: offset, r, g, b, alpha.  Used at `converters.rs:936-937`. -/
structure RawStop (F : Type) where
  offset : F
  r : F
  g : F
  b : F
  a : F
  deriving DecidableEq, Repr, Inhabited

/-- `normalize_to_range` (`converters.rs:984-992`). -/
def normalizeToRange (a b x : F) : F :=
  if a ==. b then lit 0 else (x -. a) /. (b -. a)

variable [Kurbo F]

/-- The body of the loop over alpha stops for one consecutive pair (`converters.rs:953-973`). -/
def alphaBetween (x : F) (pa pb : F × F) : F :=
  let a := pa.1
  let b := pb.1
  let t := normalizeToRange a b x
  let alphaInterp := tweenScalar pa.2 pb.2 t Easing.lerp
  let alphaInterp :=
    if ((a <=. x) && (x <=. b)) && (t <=. lit (1 / 4)) && (x <=. lit (1 / 10)) then pa.2
    else alphaInterp
  if ((a <=. x) && (x <=. b)) && (lit (3 / 4) <=. t) && (lit (9 / 10) <=. x) then pb.2
  else alphaInterp

/-- The loop over the alpha stops for one colour stop (`converters.rs:951-975`). -/
def alphaLoop (x : F) : List (F × F) → Option (F × F) → F → F
  | [], _, acc => acc
  | pb :: rest, last, acc =>
    let acc := match last with
      | some pa => fmin acc (alphaBetween x pa pb)
      | none => acc
    alphaLoop x rest (some pb) acc

/-- The colour-stop loop of `conv_stops` (`converters.rs:939-979`): `acc` are the stops pushed so far. -/
def stopsLoop (count : Nat) (alphaStops : List (F × F)) :
    List (F × F × F × F) → List (RawStop F) → List (RawStop F)
  | [], acc => acc
  | (o, r, g, b) :: rest, acc =>
    let acc := acc ++ [⟨o, r, g, b, lit 1⟩]
    if count ≤ acc.length then
      acc.map fun s => { s with a := alphaLoop s.offset alphaStops none s.a }
    else stopsLoop count alphaStops rest acc

/-- `conv_stops` (`converters.rs:936-982`). -/
def convStops (value : List F) (count : Nat) : List (RawStop F) :=
  stopsLoop count ((chunks2 value).drop (count * 2)) (chunks4 value) []

omit [Kurbo F] in
/-- `(values[0] as f32, Color::new([..])).into()` (`converters.rs:393-404`). -/
def RawStop.toColorStop (s : RawStop F) : ColorStop F :=
  ⟨FloatOps.toF32 s.offset,
    ⟨FloatOps.toF32 s.r, FloatOps.toF32 s.g, FloatOps.toF32 s.b, FloatOps.toF32 s.a⟩⟩

omit [FloatOps F] [Kurbo F] in
/-- Flattening of `[f64; 5]` (`converters.rs:425-428`). -/
def RawStop.toList (s : RawStop F) : List F := [s.offset, s.r, s.g, s.b, s.a]

/-- `conv_gradient_colors` (`converters.rs:382-439`). -/
def convGradientColors (g : Schema.GradientColors F) : Except Fault (ColorStops F) :=
  match g.colors.animatedProperty.value with
  | .static xs => .ok (.fixed ((convStops xs g.count).map RawStop.toColorStop))
  | .animatedValue ks => do
    let frames ← ks.mapM fun k => convTime k.base
    .ok (.animated
      ⟨frames, ks.map fun k => (convStops k.value g.count).flatMap RawStop.toList, g.count⟩)

/-! ### Geometry -/

omit [Kurbo F] in
/-- `conv_spline` (`converters.rs:765-781`): vertices zipped with the tangents padded by zeros. -/
def splinePoints : List (F × F) → List (F × F) → List (F × F) → List (P2 F)
  | [], _, _ => []
  | v :: vs, is, os =>
    let i := is.headD (lit 0, lit 0)
    let o := os.headD (lit 0, lit 0)
    ⟨v.1, v.2⟩ :: ⟨i.1, i.2⟩ :: ⟨o.1, o.2⟩ :: splinePoints vs is.tail os.tail

omit [Kurbo F] in
/-- `conv_spline` (`converters.rs:765-781`). -/
def convSpline (b : Schema.Bezier F) : List (P2 F) × Bool :=
  (splinePoints b.vertices b.inTangents b.outTangents, b.closed.getD false)

omit [FloatOps F] [Kurbo F] in
/-- The start bezier of a path keyframe (`converters.rs:723-740`); `none` makes the whole conversion return
`None`.  `prev` is `animated.get(idx - 1)`; for the first keyframe `idx - 1` underflows, a panic
with overflow checks (without them the lookup yields `None`). -/
def startBezier (prev : Option (Schema.ShapeKeyframe F)) (k : Schema.ShapeKeyframe F) :
    Except Fault (Option (Schema.Bezier F)) :=
  match k.start with
  | some start => .ok start.head?
  | none =>
    match prev with
    | none => .error (.panic .underflow)
    | some prev =>
      match prev.stop with
      | some (e :: _) => .ok (some e)
      | _ =>
        match prev.start with
        | none => .ok none
        | some start => .ok start.head?

omit [Kurbo F] in
/-- The keyframe loop of `conv_shape_geometry` (`converters.rs:707-755`): times, values and the closed flag. -/
def splineLoop (prev : Option (Schema.ShapeKeyframe F)) :
    List (Schema.ShapeKeyframe F) →
      Except Fault (Option (List (Time F) × List (SplineValues F) × Bool))
  | [] => .ok (some ([], [], false))
  | k :: ks => do
    let t ← convTime k.base
    match ← startBezier prev k with
    | none => .ok none
    | some sb =>
      let (points, closed) := convSpline sb
      let (stop, stopClosed) := match k.stop with
        | some (e :: _) => (some (convSpline e).1, (convSpline e).2)
        | _ => (none, false)
      match ← splineLoop (some k) ks with
      | none => .ok none
      | some (ts, vs, c) => .ok (some (t :: ts, ⟨points, stop⟩ :: vs, closed || stopClosed || c))

omit [Kurbo F] in
/-- `conv_shape_geometry` (`converters.rs:690-763`). -/
def convShapeGeometry (p : Schema.ShapeProperty F) : Except Fault (Option (Geometry F)) :=
  match p.value with
  | .static b => .ok (some (.fixed (splineToPath (convSpline b).1 (convSpline b).2)))
  | .animated ks => do
    match ← splineLoop none ks with
    | none => .ok none
    | some (ts, vs, c) => .ok (some (.spline ⟨c, ts, vs⟩))

omit [FloatOps F] [Kurbo F] in
/-- `value.as_ref().map(conv_scalar).unwrap_or(Value::Fixed(d))` (`converters.rs:663-672`). -/
def convScalarOr (v : Option (Schema.FloatValue F)) (d : F) : Except Fault (Value F F) :=
  match v with
  | some v => convScalar v
  | none => .ok (.fixed d)

variable [Libm F]

/-- `conv_polystar_geometry` (`converters.rs:648-688`). -/
def convPolystar (s : Schema.PolyStarShape F) : Except Fault (Geometry F) := do
  let isPolygon := s.starType == .polygon
  let position := convPosPoint s.position
  let outerRadius ← convScalar s.outerRadius
  let outerRoundness ← convScalar s.outerRoundness
  let rotation ← convScalar s.rotation
  let points ← convScalar s.points
  let innerRadius ← if isPolygon then .ok (.fixed (lit 0)) else convScalarOr s.innerRadius (lit 0)
  let innerRoundness ←
    if isPolygon then .ok (.fixed (lit 0)) else convScalarOr s.innerRoundness (lit 0)
  AnimStar.intoModel
    { isPolygon := isPolygon, direction := lit 1, position := position,
      innerRadius := innerRadius, innerRoundness := innerRoundness,
      outerRadius := outerRadius, outerRoundness := outerRoundness,
      rotation := rotation, points := points }

/-- `conv_geometry` (`converters.rs:620-646`). -/
def convGeometry (s : Schema.AnyShape F) : Except Fault (Option (Geometry F)) :=
  match s with
  | .ellipse s => .ok (some (.ellipse ⟨false, convPosPoint s.position, convMultiP2 s.size⟩))
  | .rectangle s => do
    let r ← convScalar s.roundedCornerRadius
    .ok (some (.rect ⟨false, convPosPoint s.position, convMultiP2 s.size, r⟩))
  | .path s => convShapeGeometry s.shapeProperty
  | .polyStar s => (convPolystar s).map some
  | _ => .ok none

/-! ### Draws -/

/-- `LineJoin` to `Join` (`converters.rs:466-468`, `converters.rs:517-519`). -/
def convJoin : Schema.LineJoin → Join
  | .bevel => .bevel
  | .round => .round
  | .miter => .miter

/-- `LineCap` to `Cap` (`converters.rs:477-479`, `converters.rs:528-530`). -/
def convCap : Schema.LineCap → Cap
  | .butt => .butt
  | .round => .round
  | .square => .square

omit [FloatOps F] [Kurbo F] [Libm F] in
/-- The stroke style (`converters.rs:458-481`, `converters.rs:509-532`) with the default join and cap of the shape. -/
def convStroke (s : Schema.BaseStroke F) (dj : Schema.LineJoin) (dc : Schema.LineCap) :
    Except Fault (AnimStroke F) := do
  let width ← convScalar s.width
  .ok ⟨width, convJoin (s.lineJoin.getD dj), s.miterLimit, convCap (s.lineCap.getD dc)⟩

omit [Libm F] in
/-- The gradient brush (`converters.rs:492-500`, `converters.rs:533-548`). -/
def convGradient (g : Schema.BaseGradient F) : Except Fault (AnimGradient F) := do
  let stops ← convGradientColors g.colors
  .ok ⟨g.gradientType == some .radial, convMultiP2 g.startPoint, convMultiP2 g.endPoint, stops⟩

/-- `conv_draw` (`converters.rs:441-558`). -/
def convDraw (s : Schema.AnyShape F) : Except Fault (Option (Draw F)) :=
  match s with
  | .fill s => do
    let brush := (AnimBrush.solid (convColor s.color)).intoModel
    let opacity ← convScalar s.shapeStyle.opacity
    .ok (some ⟨none, brush, opacity⟩)
  | .stroke s => do
    let stroke ← convStroke s.baseStroke .bevel .butt
    let brush := (AnimBrush.solid (convColor s.strokeColor)).intoModel
    let opacity ← convScalar s.shapeStyle.opacity
    .ok (some ⟨some stroke.intoModel, brush, opacity⟩)
  | .gradientFill s => do
    let g ← convGradient s.gradient
    .ok (some ⟨none, (AnimBrush.gradient g).intoModel, .fixed (lit 100)⟩)
  | .gradientStroke s => do
    let stroke ← convStroke s.baseStroke .round .round
    let g ← convGradient s.gradient
    .ok (some ⟨some stroke.intoModel, (AnimBrush.gradient g).intoModel, .fixed (lit 100)⟩)
  | _ => .ok none

/-! ### Transforms -/

/-- The part common to `conv_transform` (`converters.rs:225-233`) and `conv_shape_transform` (`converters.rs:256-283`). -/
def convTransformWith (v : Schema.Transform F) (rotationIn : Schema.FloatValue F)
    (position : Position F) : Except Fault (Transform F × Value F F) := do
  let rotation ← convScalar rotationIn
  let skew ← convScalar (v.skew.getD floatValueZero)
  let skewAngle ← convScalar (v.skewAxis.getD floatValueZero)
  let transform : AnimTransform F :=
    { anchor := convPosPoint (v.anchorPoint.getD positionZero)
      position := position
      rotation := rotation
      scale := convMultiP2 (v.scale.getD multidimOne)
      skew := skew
      skewAngle := skewAngle }
  let opacity ← convScalar (v.opacity.getD floatValueOneHundred)
  .ok (transform.intoModel, opacity)

omit [FloatOps F] [Kurbo F] [Libm F] in
/-- The rotation of a layer transform (`converters.rs:207-214`): `todo!` for split or missing rotations. -/
def layerRotation (r : Option (Schema.AnyTransformR F)) : Except Fault (Schema.FloatValue F) :=
  match r with
  | some (.rotation r) => .ok r
  | some (.splitRotation ..) => .error (.panic .splitRotation)
  | none => .error (.panic .missingRotation)

omit [Kurbo F] [Libm F] in
/-- The position of a layer transform (`converters.rs:216-223`). -/
def layerPosition (p : Schema.AnyTransformP F) : Except Fault (Position F) :=
  match p with
  | .position p => .ok (.value (convPosPoint p))
  | .splitPosition s => do
    let x ← convScalar s.x
    let y ← convScalar s.y
    .ok (.splitValues x y)

/-- `conv_transform` (`converters.rs:204-235`). -/
def convTransform (v : Schema.Transform F) : Except Fault (Transform F × Value F F) := do
  let rotationIn ← layerRotation v.rotation
  let position ← layerPosition v.position
  convTransformWith v rotationIn position

omit [Kurbo F] [Libm F] in
/-- The rotation of a group transform (`converters.rs:238-247`): `todo!` for split rotations. -/
def groupRotation (r : Option (Schema.AnyTransformR F)) : Except Fault (Schema.FloatValue F) :=
  match r with
  | some (.rotation r) => .ok r
  | some (.splitRotation ..) => .error (.panic .splitRotation)
  | none => .ok floatValueZero

omit [Kurbo F] [Libm F] in
/-- The position of a group transform (`converters.rs:248-254`, `converters.rs:265`): `todo!` for split positions. -/
def groupPosition (p : Schema.AnyTransformP F) : Except Fault (Position F) :=
  match p with
  | .position p => .ok (.value (convPosPoint p))
  | .splitPosition _ => .error (.panic .splitPosition)

/-- `conv_shape_transform` (`converters.rs:237-289`). -/
def convShapeTransform (s : Schema.TransformShape F) : Except Fault (GroupTransform F) := do
  let rotationIn ← groupRotation s.transform.rotation
  let position ← groupPosition s.transform.position
  let (t, o) ← convTransformWith s.transform rotationIn position
  .ok ⟨t, o⟩

/-! ### Shapes -/

mutual
/-- `conv_shape` (`converters.rs:560-618`). -/
def convShape (s : Schema.AnyShape F) : Except Fault (Option (Shape F)) := do
  match ← convDraw s with
  | some draw => .ok (some (.draw draw))
  | none =>
    match ← convGeometry s with
    | some g => .ok (some (.geometry g))
    | none =>
      match s with
      | .group _ _ items _ => do
        let (shapes, t) ← convGroupItems items none
        if !shapes.isEmpty then .ok (some (.group shapes t)) else .ok none
      | .trim s => do
        let start ← convScalar s.start
        let stop ← convScalar s.stop
        let offset ← convScalar s.offset
        .ok (some (.trim (AnimTrim.intoModel ⟨start, stop, offset⟩)))
      | _ => .ok none

/-- The loop over the items of a group (`converters.rs:576-587`): `t` is the current `group_transform`. -/
def convGroupItems (items : List (Schema.AnyShape F)) (t : Option (GroupTransform F)) :
    Except Fault (List (Shape F) × Option (GroupTransform F)) :=
  match items with
  | [] => .ok ([], t)
  | .transform tr :: rest => do
    let gt ← convShapeTransform tr
    convGroupItems rest (some gt)
  | item :: rest => do
    let s ← convShape item
    let (shapes, t') ← convGroupItems rest t
    .ok (s.toList ++ shapes, t')
end

/-- The shapes of a shape layer (`converters.rs:162-167`). -/
def convShapes (ss : List (Schema.AnyShape F)) : Except Fault (List (Shape F)) := do
  let os ← ss.mapM convShape
  .ok (os.flatMap Option.toList)

/-! ### Layers -/

/-- `conv_blend_mode` (`converters.rs:783-808`). -/
def convBlendMode (b : Schema.BlendMode) : Except Fault (Option BlendMode) :=
  match b with
  | .normal => .ok none
  | .multiply => .ok (some (.ofMix .multiply))
  | .screen => .ok (some (.ofMix .screen))
  | .overlay => .ok (some (.ofMix .overlay))
  | .darken => .ok (some (.ofMix .darken))
  | .lighten => .ok (some (.ofMix .lighten))
  | .colorDodge => .ok (some (.ofMix .colorDodge))
  | .colorBurn => .ok (some (.ofMix .colorBurn))
  | .hardLight => .ok (some (.ofMix .hardLight))
  | .softLight => .ok (some (.ofMix .softLight))
  | .difference => .ok (some (.ofMix .difference))
  | .exclusion => .ok (some (.ofMix .exclusion))
  | .hue => .ok (some (.ofMix .hue))
  | .saturation => .ok (some (.ofMix .saturation))
  | .color => .ok (some (.ofMix .color))
  | .luminosity => .ok (some (.ofMix .luminosity))
  | .add => .error (.panic .unknownBlendMode)
  | .hardMix => .error (.panic .unknownBlendMode)

/-- The matte mode (`/repo/src/import/builders.rs:40-50,123-133,199-205`). -/
def convMatteMode : Schema.MatteMode → BlendMode
  | .normal => .ofMix .normal
  | .alpha | .luma => .ofCompose .srcIn
  | .invertedAlpha | .invertedLuma => .ofCompose .srcOut

omit [Kurbo F] [Libm F] in
/-- One mask (`builders.rs:77-92`): skipped when it has no shape or the shape does not convert. -/
def convMask (m : Schema.Mask F) : Except Fault (Option (Mask F)) := do
  match m.shape with
  | none => .ok none
  | some shape =>
    match ← convShapeGeometry shape with
    | none => .ok none
    | some g => do
      let opacity ← convScalar (m.opacity.getD floatValueOneHundred)
      .ok (some ⟨.ofMix .normal, g, opacity⟩)

omit [Kurbo F] [Libm F] in
/-- The loop over the masks (`builders.rs:71-93,154-176,223-240`). -/
def convMasks (ms : List (Schema.Mask F)) : Except Fault (List (Mask F)) := do
  let os ← ms.mapM convMask
  .ok (os.flatMap Option.toList)

/-- `LayerSetupParams` (`builders.rs:11-15`). -/
structure LayerSetupParams where
  layerIndex : Nat
  matteMode : Option BlendMode
  matteLayerIndex : Option Nat
  deriving DecidableEq, Repr, Inhabited

/-- `setup_layer_base` (`builders.rs:185-247`), identical to `setup_shape_layer`
(`builders.rs:102-183`); `setup_precomp_layer` (`builders.rs:17-100`) differs in the width,
height and start frame, which are arguments here.  The result is `Layer::default()` after the
assignments: content and matte layer are still empty. -/
def setupLayer (v : Schema.VisualLayer F) (width height startFrame : F) :
    Except Fault (Layer F × LayerSetupParams) := do
  let (transform, opacity) ← convTransform v.transform
  let blendMode ← convBlendMode (v.blendMode.getD .normal)
  let masks ← convMasks (v.masksProperties.getD [])
  let layer : Layer F :=
    { name := v.layer.visualObject.name.getD ""
      parent := v.layer.parentIndex
      transform := transform
      opacity := opacity
      width := width
      height := height
      blendMode := if blendMode = some (.ofMix .normal) then none else blendMode
      frames := ⟨v.layer.inPoint, v.layer.outPoint⟩
      stretch := v.layer.timeStretch.getD (lit 1)
      startFrame := startFrame
      masks := masks
      isMask := v.matteTarget == some .true
      maskLayer := none
      content := .none }
  .ok (layer,
    { layerIndex := v.layer.index.getD 0
      matteMode := v.matteMode.map convMatteMode
      matteLayerIndex := v.matteLayerIndex.map FloatOps.toUsize })

omit [FloatOps F] [Kurbo F] [Libm F] in
/-- The visual layer of any layer.  Used at `schema/layers/mod.rs:24-44`. -/
def visualLayer : Schema.AnyLayer F → Schema.VisualLayer F
  | .precomposition l => l.visualLayer
  | .solid l => l.visualLayer
  | .shape l => l.visualLayer
  | .null l => l
  | .image l => l.visualLayer

omit [FloatOps F] [Kurbo F] [Libm F] in
/-- `is_layer_hidden` (`converters.rs:193-202`). -/
def isLayerHidden (l : Schema.AnyLayer F) : Bool := (visualLayer l).layer.hidden == some true

/-- The part of `conv_layer` that does not depend on visibility (`converters.rs:146-177`): the call of
`setup_layer_base`, `setup_precomp_layer` or `setup_shape_layer`. -/
def layerSetup (source : Schema.AnyLayer F) : Except Fault (Layer F × LayerSetupParams) :=
  match source with
  | .null l => setupLayer l (lit 0) (lit 0) (l.layer.startTime.getD (lit 0))
  | .precomposition l => setupLayer l.visualLayer l.width l.height l.startTime
  | .shape l =>
    setupLayer l.visualLayer (lit 0) (lit 0) (l.visualLayer.layer.startTime.getD (lit 0))
  | .solid l =>
    setupLayer l.visualLayer (lit 0) (lit 0) (l.visualLayer.layer.startTime.getD (lit 0))
  | .image l =>
    setupLayer l.visualLayer (lit 0) (lit 0) (l.visualLayer.layer.startTime.getD (lit 0))

omit [FloatOps F] [Kurbo F] [Libm F] in
/-- `time_remap.as_ref().map(conv_scalar)` (`converters.rs:154`). -/
def convRemap (v : Option (Schema.FloatValue F)) : Except Fault (Option (Value F F)) :=
  match v with
  | none => .ok none
  | some v => (convScalar v).map some

/-- The content of a visible layer (`converters.rs:152-156`, `converters.rs:161-169`). -/
def layerContent (source : Schema.AnyLayer F) : Except Fault (Content F) :=
  match source with
  | .precomposition l => (convRemap l.timeRemap).map fun tr => .instance l.refId tr
  | .shape l => (convShapes l.shapes).map .shape
  | _ => .ok .none

/-- `conv_layer` (`converters.rs:139-191`).  The Rust function always returns `Some`. -/
def convLayer (source : Schema.AnyLayer F) : Except Fault (Layer F × LayerSetupParams) := do
  let (layer, params) ← layerSetup source
  if isLayerHidden source then .ok ({ layer with isMask := false }, params)
  else do
    let content ← layerContent source
    .ok ({ layer with content := content }, params)

/-- `idmap` (`converters.rs:33-39`): the entries `(id, index)` in insertion order. -/
def idMap (converted : List (Layer F × LayerSetupParams)) : List (Nat × Nat) :=
  converted.zipIdx.map fun p => (p.1.2.layerIndex, p.2)

/-- `HashMap::get` on `idmap`: the last insertion wins.  Used at `converters.rs:55,60`. -/
def idGet (m : List (Nat × Nat)) (id : Nat) : Option Nat :=
  (m.reverse.find? (fun e => e.1 == id)).map (·.2)

omit [FloatOps F] [Kurbo F] [Libm F] in
/-- One step of the linking loop (`converters.rs:51-77`): the linked layer and the next `prev_matte_layer`. -/
def linkLayer (m : List (Nat × Nat)) (idx : Nat) (prev : Option Nat)
    (e : Layer F × LayerSetupParams) : Layer F × Option Nat :=
  let (layer, params) := e
  let parent := layer.parent.bind (idGet m)
  let maskLayer := match params.matteMode with
    | none => layer.maskLayer
    | some mode =>
      let matteIdx := match params.matteLayerIndex with
        | some explicit => idGet m explicit
        | none => prev
      match matteIdx with
      | some ix => some (mode, ix)
      | none => layer.maskLayer
  let prev' :=
    if layer.isMask then some idx
    else if params.matteMode.isSome then none
    else prev
  ({ layer with parent := parent, maskLayer := maskLayer }, prev')

omit [FloatOps F] [Kurbo F] [Libm F] in
/-- The linking loop (`converters.rs:51-77`). -/
def linkLayers (m : List (Nat × Nat)) :
    Nat → Option Nat → List (Layer F × LayerSetupParams) → List (Layer F)
  | _, _, [] => []
  | idx, prev, e :: es =>
    let (layer, prev') := linkLayer m idx prev e
    layer :: linkLayers m (idx + 1) prev' es

/-- `process_layers` (`converters.rs:25-80`). -/
def processLayers (ls : List (Schema.AnyLayer F)) : Except Fault (List (Layer F)) := do
  let converted ← ls.mapM convLayer
  .ok (linkLayers (idMap converted) 0 none converted)

/-- One asset (`converters.rs:96-106`). -/
def convAsset (a : Schema.AnyAsset F) : Except Fault (String × List (Layer F)) :=
  match a with
  | .precomposition p => do
    let layers ← processLayers p.layers
    .ok (p.asset.id, layers)
  | .image _ => .error (.panic .unsupportedAsset)

/-- `conv_animation` (`converters.rs:82-137`). -/
def convAnimation (a : Schema.Animation F) : Except Fault (Composition F) := do
  let assets ← (a.assets.getD []).mapM convAsset
  let layers ← processLayers a.layers
  .ok
    { frames := ⟨a.inPoint, a.outPoint⟩
      frameRate := a.frameRate
      width := a.width
      height := a.height
      assets := assets
      layers := layers }

end
end Velato.Import
