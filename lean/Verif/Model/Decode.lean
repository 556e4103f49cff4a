import Verif.Model.Schema
import Verif.Model.Import

/-!
# Parsing: `serde_json::from_value::<Animation>` (`/repo/src/schema`)

The `Deserialize` implementations that `#[derive(Deserialize)]` generates, and the hand-written
ones.  `none` stands for `Err`; error messages are not modelled.  The semantics of serde, serde_json
and serde_repr is part of the trusted base; what is used:

* a struct with a `flatten` field is read from an object only; its own keys are taken first, the
  flattened structs read the remaining entries; unknown keys are ignored;
* any other struct is read from an object or from an array of exactly its fields in order
  (fields marked `default` may be missing at the end);
* `Option<T>`: a missing key or `null` is `None`;
* `f64` takes every JSON number; `u8`, `u32`, `usize` take non-negative integers in range; a
  `Deserialize_repr` enum takes a `u8` that is one of its discriminants;
* an `untagged` enum takes the first variant that parses;
* an enum of unit variants takes its name or an object `{name: null}`;
* an internally tagged enum takes an object whose tag is the name of a variant; when the value has
  already been buffered (shapes inside groups) the tag may also be the position of the variant.
-/

namespace Velato.Decode
open Schema

/-- The entries of an object, in the order of insertion: the last entry for a key is the one the
map holds.  Used at `schema/layers/mod.rs:47-336` and the derived `Deserialize` of every struct of
`src/schema`. -/
abbrev Obj (F : Type) := List (String × Json F)

section
variable {F : Type}

/-- `map.get(key)`.  Used at `schema/layers/mod.rs:47-336`, and every derived `Deserialize`. -/
def lookup : Obj F → String → Option (Json F)
  | [], _ => none
  | (k, v) :: es, key =>
    match lookup es key with
    | some x => some x
    | none => if k == key then some v else none

/-- A required field.  Used at `schema/animation/animation.rs:25-48`, for instance. -/
def req {α : Type} (d : Json F → Option α) (es : Obj F) (k : String) : Option α :=
  match lookup es k with
  | some v => d v
  | none => none

/-- An `Option` field: missing or `null` is `None`.  Used at
`schema/helpers/visual_object.rs:9-16`, for instance. -/
def opt {α : Type} (d : Json F → Option α) (es : Obj F) (k : String) : Option (Option α) :=
  match lookup es k with
  | none => some none
  | some .null => some none
  | some v => (d v).map some

/-- The entries of a struct without `flatten`: an object, or an array with one element per field.
Used at `schema/helpers/transform.rs:12-45`, for instance. -/
def entries (keys : List String) : Json F → Option (Obj F)
  | .obj es => some es
  | .arr xs => if xs.length = keys.length then some (keys.zip xs) else none
  | _ => none

/-- The entries of a struct with `flatten`: an object.  Used at `schema/layers/visual.rs:12-60`,
`schema/shapes/group.rs:7-23`, for instance. -/
def objOnly : Json F → Option (Obj F)
  | .obj es => some es
  | _ => none

/-- `bool`.  Used at `schema/helpers/bezier.rs:14`, for instance. -/
def jBool : Json F → Option Bool
  | .bool b => some b
  | _ => none

/-- `String`.  Used at `schema/helpers/visual_object.rs:11`, for instance. -/
def jStr : Json F → Option String
  | .str s => some s
  | _ => none

/-- An unsigned integer type with the given maximum.  Used at
`schema/animation/animation.rs:29,42,45`, `schema/layers/layer.rs:30-38`. -/
def jNat (max : Nat) : Json F → Option Nat
  | .num (.posInt n) => if n ≤ max then some n else none
  | _ => none

/-- `u8`.  Used at `schema/layers/layer.rs:30`, for instance. -/
def jU8 : Json F → Option Nat := jNat 255
/-- `u32`.  Used at `schema/animation/animation.rs:29`. -/
def jU32 : Json F → Option Nat := jNat 4294967295
/-- `usize` (64 bits).  Used at `schema/layers/layer.rs:34,38`,
`schema/animated_properties/gradient_colors.rs:21`, `schema/animation/animation.rs:42,45`. -/
def jUsize : Json F → Option Nat := jNat usizeMax

/-- `Vec<T>`.  Used at `schema/helpers/bezier.rs:18-26`, for instance. -/
def jVec {α : Type} (d : Json F → Option α) : Json F → Option (List α)
  | .arr xs => xs.mapM d
  | _ => none

/-- `#[derive(Deserialize_repr)]` for the discriminants `first, first + 1, ..` of `vs`.  Used at
`schema/helpers/int_boolean.rs:7-12` and the constants in `src/schema/constants`. -/
def jRepr {α : Type} (first : Nat) (vs : List α) : Json F → Option α
  | .num (.posInt n) => if first ≤ n ∧ n ≤ 255 then vs[n - first]? else none
  | _ => none

/-- `#[derive(Deserialize)]` for an enum of unit variants.  `empty`: serde's owned buffer also takes
an empty object for the unit content.  Used at `schema/constants/mask_mode.rs:8-24`,
`schema/constants/stroke_dash_type.rs`. -/
def jUnitEnum {α : Type} (empty : Bool) (table : String → Option α) : Json F → Option α
  | .str s => table s
  | .obj [(k, .null)] => table k
  | .obj [(k, .obj [])] => if empty then table k else none
  | _ => none

variable [FloatOps F]

/-- `f64`: every JSON number.  Used at `schema/animation/animation.rs:33-37`, for instance. -/
def jF64 : Json F → Option F
  | .num (.posInt n) => some (FloatOps.ofUsize n)
  | .num (.negInt n) => some (FloatOps.neg (FloatOps.ofUsize n.natAbs))
  | .num (.float x) => some x
  | _ => none

/-- `[f64; 2]`.  Used at `schema/helpers/bezier.rs:18-26`. -/
def jPair : Json F → Option (F × F)
  | .arr [a, b] => do
    let x ← jF64 a
    let y ← jF64 b
    some (x, y)
  | _ => none

/-! ### Constants -/

/-- `/repo/src/schema/helpers/int_boolean.rs:6-15`. -/
def jBoolInt : Json F → Option BoolInt := jRepr 0 [.false, .true]

/-- `/repo/src/schema/constants/blend_mode.rs:6-28`. -/
def jBlendMode : Json F → Option Schema.BlendMode :=
  jRepr 0 [.normal, .multiply, .screen, .overlay, .darken, .lighten, .colorDodge, .colorBurn,
    .hardLight, .softLight, .difference, .exclusion, .hue, .saturation, .color, .luminosity,
    .add, .hardMix]

/-- `/repo/src/schema/constants/matte_mode.rs:6-15`. -/
def jMatteMode : Json F → Option MatteMode :=
  jRepr 0 [.normal, .alpha, .invertedAlpha, .luma, .invertedLuma]

/-- `/repo/src/schema/constants/mask_mode.rs:6-24`. -/
def maskModeOf : String → Option MaskMode
  | "n" => some .none
  | "a" => some .add
  | "s" => some .subtract
  | "i" => some .intersect
  | "l" => some .lighten
  | "d" => some .darken
  | "f" => some .difference
  | _ => none

/-- `/repo/src/schema/constants/stroke_dash_type.rs:6-15`. -/
def strokeDashTypeOf : String → Option StrokeDashType
  | "d" => some .dash
  | "g" => some .gap
  | "o" => some .offset
  | _ => none

/-- `/repo/src/schema/constants/line_cap.rs:6-16`. -/
def jLineCap : Json F → Option LineCap := jRepr 1 [.butt, .round, .square]
/-- `/repo/src/schema/constants/line_join.rs:6-13`. -/
def jLineJoin : Json F → Option LineJoin := jRepr 1 [.miter, .round, .bevel]
/-- `/repo/src/schema/constants/gradient_type.rs:6-12`. -/
def jGradientType : Json F → Option GradientType := jRepr 1 [.linear, .radial]
/-- `/repo/src/schema/constants/fill_rule.rs:6-15`. -/
def jFillRule : Json F → Option FillRule := jRepr 1 [.nonZero, .evenOdd]
/-- `/repo/src/schema/constants/merge_mode.rs:6-15`. -/
def jMergeMode : Json F → Option MergeMode :=
  jRepr 1 [.normal, .add, .subtract, .intersect, .excludeIntersections]
/-- `/repo/src/schema/constants/shape_direction.rs:6-14`: discriminants 1 and 3. -/
def jShapeDirection : Json F → Option ShapeDirection
  | .num (.posInt 1) => some .normal
  | .num (.posInt 3) => some .reversed
  | _ => none
/-- `/repo/src/schema/constants/star_type.rs:6-12`. -/
def jStarType : Json F → Option StarType := jRepr 1 [.star, .polygon]
/-- `/repo/src/schema/constants/trim_multiple_shapes.rs:6-14`. -/
def jTrimMultiple : Json F → Option TrimMultipleShapes := jRepr 1 [.individually, .simultaneously]
/-- `/repo/src/schema/constants/composite.rs:6-12`. -/
def jComposite : Json F → Option Composite := jRepr 1 [.above, .below]

/-! ### Animated properties -/

/-- `/repo/src/schema/helpers/visual_object.rs:6-16` (always flattened). -/
def dVisualObject (es : Obj F) : Option VisualObject := do
  let name ← opt jStr es "nm"
  let matchName ← opt jStr es "mn"
  some ⟨name, matchName⟩

/-- `/repo/src/schema/helpers/bezier.rs:6-27`, entries. -/
def dBezier (es : Obj F) : Option (Bezier F) := do
  let closed ← opt jBool es "c"
  let vertices ← req (jVec jPair) es "v"
  let inTangents ← req (jVec jPair) es "i"
  let outTangents ← req (jVec jPair) es "o"
  some ⟨closed, vertices, inTangents, outTangents⟩

/-- `/repo/src/schema/helpers/bezier.rs:6-27`. -/
def jBezier (j : Json F) : Option (Bezier F) := (entries ["c", "v", "i", "o"] j).bind dBezier

/-- `/repo/src/schema/animated_properties/keyframe_bezier_handle.rs:21-29` (untagged). -/
def jKeyframeComponent (j : Json F) : Option (KeyframeComponent F) :=
  match jVec jF64 j with
  | some xs => some (.arrayOfValues xs)
  | none => (jF64 j).map .singleValue

/-- `/repo/src/schema/animated_properties/keyframe_bezier_handle.rs:6-19`, entries. -/
def dHandle (es : Obj F) : Option (KeyframeBezierHandle F) := do
  let x ← req jKeyframeComponent es "x"
  let y ← req jKeyframeComponent es "y"
  some ⟨x, y⟩

/-- `/repo/src/schema/animated_properties/keyframe_bezier_handle.rs:6-19`. -/
def jHandle (j : Json F) : Option (KeyframeBezierHandle F) := (entries ["x", "y"] j).bind dHandle

/-- `/repo/src/schema/animated_properties/keyframe_base.rs:8-29` (always flattened). -/
def dKeyframeBase (es : Obj F) : Option (KeyframeBase F) := do
  let time ← req jF64 es "t"
  let hold ← opt jBoolInt es "h"
  let inTangent ← opt jHandle es "i"
  let outTangent ← opt jHandle es "o"
  some ⟨time, hold, inTangent, outTangent⟩

/-- `/repo/src/schema/animated_properties/keyframe.rs:7-22`, entries. -/
def dKeyframe (es : Obj F) : Option (Keyframe F) := do
  let base ← dKeyframeBase es
  let value ← req (jVec jF64) es "s"
  let stop ← opt (jVec jF64) es "e"
  some ⟨base, value, stop⟩

/-- `/repo/src/schema/animated_properties/keyframe.rs:7-22`. -/
def jKeyframe (j : Json F) : Option (Keyframe F) := (objOnly j).bind dKeyframe

/-- `AnimatedPropertyK` (`/repo/src/schema/animated_properties/animated_property.rs:33-41`,
untagged). -/
def jAnimatedPropertyK {S : Type} (static : Json F → Option S) (j : Json F) :
    Option (AnimatedPropertyK F S) :=
  match jVec jKeyframe j with
  | some ks => some (.animatedValue ks)
  | none => (static j).map .static

/-- `AnimatedProperty` (`/repo/src/schema/animated_properties/animated_property.rs:9-31`, always
flattened). -/
def dAnimatedProperty {S : Type} (static : Json F → Option S) (es : Obj F) :
    Option (AnimatedProperty F S) := do
  let ix ← opt jF64 es "ix"
  let animated ← opt jBoolInt es "a"
  let expression ← opt jStr es "x"
  let sid ← opt jStr es "sid"
  let value ← req (jAnimatedPropertyK static) es "k"
  some ⟨ix, animated, expression, sid, value⟩

/-- `/repo/src/schema/animated_properties/value.rs:7-14`. -/
def jFloatValue (j : Json F) : Option (FloatValue F) := (objOnly j).bind (dAnimatedProperty jF64)

/-- `/repo/src/schema/animated_properties/color_value.rs:8-13`. -/
def jColorValue (j : Json F) : Option (ColorValue F) :=
  (objOnly j).bind (dAnimatedProperty (jVec jF64))

/-- `/repo/src/schema/animated_properties/multi_dimensional.rs:7-19`, entries. -/
def dMultiDimensional (es : Obj F) : Option (MultiDimensional F) := do
  let p ← dAnimatedProperty (jVec jF64) es
  let length ← opt jF64 es "l"
  some ⟨p, length⟩

/-- `/repo/src/schema/animated_properties/multi_dimensional.rs:7-19`. -/
def jMultiDimensional (j : Json F) : Option (MultiDimensional F) :=
  (objOnly j).bind dMultiDimensional

/-- `/repo/src/schema/animated_properties/gradient_colors.rs:7-22`, entries. -/
def dGradientColors (es : Obj F) : Option (GradientColors F) := do
  let colors ← req jMultiDimensional es "k"
  let count ← req jUsize es "p"
  some ⟨colors, count⟩

/-- `/repo/src/schema/animated_properties/gradient_colors.rs:7-22`. -/
def jGradientColors (j : Json F) : Option (GradientColors F) :=
  (entries ["k", "p"] j).bind dGradientColors

/-- `/repo/src/schema/animated_properties/position_keyframe.rs:7-20`, entries. -/
def dPositionKeyframe (es : Obj F) : Option (PositionKeyframe F) := do
  let keyframe ← dKeyframe es
  let ti ← opt (jVec jF64) es "ti"
  let to_ ← opt (jVec jF64) es "to"
  some ⟨keyframe, ti, to_⟩

/-- `/repo/src/schema/animated_properties/position_keyframe.rs:7-20`. -/
def jPositionKeyframe (j : Json F) : Option (PositionKeyframe F) :=
  (objOnly j).bind dPositionKeyframe

/-- `PositionValueK` (`/repo/src/schema/animated_properties/position.rs:33-39`, untagged). -/
def jPositionValueK (j : Json F) : Option (PositionValueK F) :=
  match jVec jPositionKeyframe j with
  | some ks => some (.animated ks)
  | none => (jVec jF64 j).map .static

/-- `/repo/src/schema/animated_properties/position.rs:8-31`, entries. -/
def dPosition (es : Obj F) : Option (Schema.Position F) := do
  let ix ← opt jF64 es "ix"
  let animated ← opt jBoolInt es "a"
  let expression ← opt jStr es "x"
  let length ← opt jF64 es "l"
  let value ← req jPositionValueK es "k"
  some ⟨ix, animated, expression, length, value⟩

/-- `/repo/src/schema/animated_properties/position.rs:8-31`. -/
def jPosition (j : Json F) : Option (Schema.Position F) :=
  (entries ["ix", "a", "x", "l", "k"] j).bind dPosition

/-- `/repo/src/schema/animated_properties/shape_keyframe.rs:8-25`, entries. -/
def dShapeKeyframe (es : Obj F) : Option (ShapeKeyframe F) := do
  let base ← dKeyframeBase es
  let start ← opt (jVec jBezier) es "s"
  let stop ← opt (jVec jBezier) es "e"
  some ⟨base, start, stop⟩

/-- `/repo/src/schema/animated_properties/shape_keyframe.rs:8-25`. -/
def jShapeKeyframe (j : Json F) : Option (ShapeKeyframe F) := (objOnly j).bind dShapeKeyframe

/-- The checks of `deserialize_keyframes` (`shape_property.rs:44-77`).  The slice
`keyframes[0..len - 1]` is taken after the test for emptiness. -/
def keyframesOk (ks : List (ShapeKeyframe F)) : Bool :=
  if ks.isEmpty then true
  else if !(ks.take (ks.length - 1)).all (fun k => k.start.isSome) then false
  else
    match ks.getLast? with
    | some last => if last.start.isSome then true else !(decide (ks.length < 2))
    | none => !(decide (ks.length < 2))

/-- `deserialize_keyframes` (`/repo/src/schema/animated_properties/shape_property.rs:41-77`). -/
def jShapeKeyframes (j : Json F) : Option (List (ShapeKeyframe F)) :=
  match jVec jShapeKeyframe j with
  | some ks => if keyframesOk ks then some ks else none
  | none => none

/-- `ShapePropertyK` (`/repo/src/schema/animated_properties/shape_property.rs:31-39`, untagged). -/
def jShapePropertyK (j : Json F) : Option (ShapePropertyK F) :=
  match jShapeKeyframes j with
  | some ks => some (.animated ks)
  | none => (jBezier j).map .static

/-- `/repo/src/schema/animated_properties/shape_property.rs:11-29`, entries. -/
def dShapeProperty (es : Obj F) : Option (ShapeProperty F) := do
  let ix ← opt jF64 es "ix"
  let animated ← opt jBoolInt es "a"
  let expression ← opt jStr es "x"
  let value ← req jShapePropertyK es "k"
  some ⟨ix, animated, expression, value⟩

/-- `/repo/src/schema/animated_properties/shape_property.rs:11-29`. -/
def jShapeProperty (j : Json F) : Option (ShapeProperty F) :=
  (entries ["ix", "a", "x", "k"] j).bind dShapeProperty

/-- `/repo/src/schema/animated_properties/split_vector.rs:7-27`, entries. -/
def dSplitVector (es : Obj F) : Option (SplitVector F) := do
  let split ← req jBool es "s"
  let x ← req jFloatValue es "x"
  let y ← req jFloatValue es "y"
  let z ← opt jFloatValue es "z"
  some ⟨split, x, y, z⟩

/-- `/repo/src/schema/animated_properties/split_vector.rs:7-27`. -/
def jSplitVector (j : Json F) : Option (SplitVector F) :=
  (entries ["s", "x", "y", "z"] j).bind dSplitVector

/-- `AnyTransformP` (`/repo/src/schema/helpers/transform.rs:46-54`, untagged). -/
def jTransformP (j : Json F) : Option (AnyTransformP F) :=
  match jPosition j with
  | some p => some (.position p)
  | none => (jSplitVector j).map .splitPosition

/-- The struct variant `SplitRotation` (`/repo/src/schema/helpers/transform.rs:63-77`): objects
only, entries. -/
def dSplitRotation (es : Obj F) : Option (AnyTransformR F) := do
  let x ← req jFloatValue es "x"
  let y ← req jFloatValue es "y"
  let z ← req jFloatValue es "z"
  let o ← req jMultiDimensional es "or"
  some (.splitRotation x y z o)

/-- The struct variant `SplitRotation` (`/repo/src/schema/helpers/transform.rs:63-77`): objects
only. -/
def jSplitRotation (j : Json F) : Option (AnyTransformR F) := (objOnly j).bind dSplitRotation

/-- `AnyTransformR` (`/repo/src/schema/helpers/transform.rs:56-78`, untagged). -/
def jTransformR (j : Json F) : Option (AnyTransformR F) :=
  match jFloatValue j with
  | some v => some (.rotation v)
  | none => jSplitRotation j

/-- `/repo/src/schema/helpers/transform.rs:12-44`, entries. -/
def dTransform (es : Obj F) : Option (Schema.Transform F) := do
  let a ← opt jPosition es "a"
  let p ← req jTransformP es "p"
  let s ← opt jMultiDimensional es "s"
  let r ← opt jTransformR es "r"
  let sk ← opt jFloatValue es "sk"
  let sa ← opt jFloatValue es "sa"
  let o ← opt jFloatValue es "o"
  some ⟨a, p, s, r, sk, sa, o⟩

/-- `/repo/src/schema/helpers/transform.rs:12-44`. -/
def jTransform (j : Json F) : Option (Schema.Transform F) :=
  (entries ["a", "p", "s", "r", "sk", "sa", "o"] j).bind dTransform

/-- `/repo/src/schema/helpers/mask.rs:9-52`, entries. -/
def dMask (es : Obj F) : Option (Schema.Mask F) := do
  let name ← opt jStr es "nm"
  let matchName ← opt jStr es "mn"
  let inverted ← opt jBool es "inv"
  let shape ← opt jShapeProperty es "pt"
  let opacity ← opt jFloatValue es "o"
  let mode ← opt (jUnitEnum false maskModeOf) es "mode"
  let expand ← opt jFloatValue es "x"
  some ⟨name, matchName, inverted, shape, opacity, mode, expand⟩

/-- `/repo/src/schema/helpers/mask.rs:9-52`. -/
def jMask (j : Json F) : Option (Schema.Mask F) :=
  (entries ["nm", "mn", "inv", "pt", "o", "mode", "x"] j).bind dMask

/-! ### Shapes -/

/-- `/repo/src/schema/shapes/graphic_element.rs:8-43`. -/
def dGraphicElement (es : Obj F) : Option (GraphicElement F) := do
  let vo ← dVisualObject es
  let hidden ← opt jBool es "hd"
  let blendMode ← opt jBlendMode es "bm"
  let ix ← opt jF64 es "ix"
  let cl ← opt jStr es "cl"
  let ln ← opt jStr es "ln"
  let ind ← opt jF64 es "ind"
  some ⟨vo, hidden, blendMode, ix, cl, ln, ind⟩

/-- `/repo/src/schema/shapes/shape.rs:8-18`. -/
def dShapeBase (es : Obj F) : Option (ShapeBase F) := do
  let ge ← dGraphicElement es
  let d ← opt jShapeDirection es "d"
  some ⟨ge, d⟩

/-- `/repo/src/schema/shapes/shape_style.rs:10-18`. -/
def dShapeStyle (es : Obj F) : Option (ShapeStyle F) := do
  let ge ← dGraphicElement es
  let o ← req jFloatValue es "o"
  some ⟨ge, o⟩

/-- `/repo/src/schema/shapes/stroke_dash.rs:9-24`, entries. -/
def dStrokeDash (es : Obj F) : Option (StrokeDash F) := do
  let vo ← dVisualObject es
  let n ← opt (jUnitEnum true strokeDashTypeOf) es "n"
  let v ← opt jFloatValue es "v"
  some ⟨vo, n, v⟩

/-- `/repo/src/schema/shapes/stroke_dash.rs:9-24`. -/
def jStrokeDash (j : Json F) : Option (StrokeDash F) := (objOnly j).bind dStrokeDash

/-- `/repo/src/schema/shapes/base_stroke.rs:12-37` (always flattened). -/
def dBaseStroke (es : Obj F) : Option (BaseStroke F) := do
  let lc ← opt jLineCap es "lc"
  let lj ← opt jLineJoin es "lj"
  let ml ← opt jF64 es "ml"
  let ml2 ← opt jFloatValue es "ml2"
  let w ← req jFloatValue es "w"
  let d ← opt (jVec jStrokeDash) es "d"
  some ⟨lc, lj, ml, ml2, w, d⟩

/-- `/repo/src/schema/shapes/base_gradient.rs:11-39` (always flattened). -/
def dBaseGradient (es : Obj F) : Option (BaseGradient F) := do
  let g ← req jGradientColors es "g"
  let s ← req jMultiDimensional es "s"
  let e ← req jMultiDimensional es "e"
  let t ← opt jGradientType es "t"
  let h ← opt jFloatValue es "h"
  let a ← opt jFloatValue es "a"
  some ⟨g, s, e, t, h, a⟩

/-- `/repo/src/schema/shapes/rectangle.rs:13-27`. -/
def dRectangle (es : Obj F) : Option (RectangleShape F) := do
  let shape ← dShapeBase es
  let p ← req jPosition es "p"
  let s ← req jMultiDimensional es "s"
  let r ← req jFloatValue es "r"
  some ⟨shape, p, s, r⟩

/-- `/repo/src/schema/shapes/ellipse.rs:11-21`. -/
def dEllipse (es : Obj F) : Option (EllipseShape F) := do
  let shape ← dShapeBase es
  let p ← req jPosition es "p"
  let s ← req jMultiDimensional es "s"
  some ⟨shape, p, s⟩

/-- `/repo/src/schema/shapes/path.rs:8-17`. -/
def dPath (es : Obj F) : Option (PathShape F) := do
  let shape ← dShapeBase es
  let ks ← req jShapeProperty es "ks"
  some ⟨shape, ks⟩

/-- `/repo/src/schema/shapes/polystar.rs:9-40`. -/
def dPolyStar (es : Obj F) : Option (PolyStarShape F) := do
  let shape ← dShapeBase es
  let p ← req jPosition es "p"
  let or_ ← req jFloatValue es "or"
  let os ← req jFloatValue es "os"
  let r ← req jFloatValue es "r"
  let pt ← req jFloatValue es "pt"
  let sy ← req jStarType es "sy"
  let ir ← opt jFloatValue es "ir"
  let is ← opt jFloatValue es "is"
  some ⟨shape, p, or_, os, r, pt, sy, ir, is⟩

/-- `/repo/src/schema/shapes/transform.rs:8-15`. -/
def dTransformShape (es : Obj F) : Option (TransformShape F) := do
  let ge ← dGraphicElement es
  let t ← dTransform es
  some ⟨ge, t⟩

/-- `/repo/src/schema/shapes/fill.rs:12-26`. -/
def dFill (es : Obj F) : Option (FillShape F) := do
  let style ← dShapeStyle es
  let c ← req jColorValue es "c"
  let r ← opt jFillRule es "r"
  some ⟨style, c, r⟩

/-- `/repo/src/schema/shapes/stroke.rs:15-26`. -/
def dStroke (es : Obj F) : Option (StrokeShape F) := do
  let style ← dShapeStyle es
  let base ← dBaseStroke es
  let c ← req jColorValue es "c"
  some ⟨style, base, c⟩

/-- `/repo/src/schema/shapes/gradient_fill.rs:9-21`. -/
def dGradientFill (es : Obj F) : Option (GradientFillShape F) := do
  let style ← dShapeStyle es
  let g ← dBaseGradient es
  let r ← opt jFillRule es "r"
  some ⟨style, g, r⟩

/-- `/repo/src/schema/shapes/gradient_stroke.rs:11-21`. -/
def dGradientStroke (es : Obj F) : Option (GradientStrokeShape F) := do
  let style ← dShapeStyle es
  let base ← dBaseStroke es
  let g ← dBaseGradient es
  some ⟨style, base, g⟩

/-- `/repo/src/schema/shapes/trim_path.rs:10-32`. -/
def dTrim (es : Obj F) : Option (TrimPathShape F) := do
  let ge ← dGraphicElement es
  let s ← req jFloatValue es "s"
  let e ← req jFloatValue es "e"
  let o ← req jFloatValue es "o"
  let m ← opt jTrimMultiple es "m"
  some ⟨ge, s, e, o, m⟩

/-- `/repo/src/schema/shapes/repeater_transform.rs:7-23`, entries. -/
def dRepeaterTransform (es : Obj F) : Option (RepeaterTransformShape F) := do
  let t ← dTransformShape es
  let so ← opt jFloatValue es "so"
  let eo ← opt jFloatValue es "eo"
  some ⟨t, so, eo⟩

/-- `/repo/src/schema/shapes/repeater_transform.rs:7-23`. -/
def jRepeaterTransform (j : Json F) : Option (RepeaterTransformShape F) :=
  (objOnly j).bind dRepeaterTransform

/-- `/repo/src/schema/shapes/repeater.rs:14-35`. -/
def dRepeater (es : Obj F) : Option (RepeaterShape F) := do
  let ge ← dGraphicElement es
  let c ← req jFloatValue es "c"
  let o ← opt jFloatValue es "o"
  let m ← opt jComposite es "m"
  let tr ← req jRepeaterTransform es "tr"
  some ⟨ge, c, o, m, tr⟩

/-- `/repo/src/schema/shapes/pucker_bloat.rs:7-18`. -/
def dPuckerBloat (es : Obj F) : Option (PuckerBloatShape F) := do
  let ge ← dGraphicElement es
  let a ← opt jFloatValue es "a"
  some ⟨ge, a⟩

/-- `/repo/src/schema/shapes/merge.rs:10-20`. -/
def dMerge (es : Obj F) : Option (MergeShape F) := do
  let ge ← dGraphicElement es
  let mm ← opt jMergeMode es "mm"
  some ⟨ge, mm⟩

/-- `/repo/src/schema/shapes/offset_path.rs:8-26`. -/
def dOffsetPath (es : Obj F) : Option (OffsetPathShape F) := do
  let ge ← dGraphicElement es
  let a ← opt jFloatValue es "a"
  let lj ← opt jLineJoin es "lj"
  let ml ← opt jFloatValue es "ml"
  some ⟨ge, a, lj, ml⟩

/-- `/repo/src/schema/shapes/twist.rs:11-23`. -/
def dTwist (es : Obj F) : Option (TwistShape F) := do
  let ge ← dGraphicElement es
  let a ← req jFloatValue es "a"
  let p ← req jPosition es "p"
  some ⟨ge, a, p⟩

/-- `/repo/src/schema/shapes/rounded_corners.rs:11-19`. -/
def dRoundedCorners (es : Obj F) : Option (RoundedCornersShape F) := do
  let ge ← dGraphicElement es
  let r ← req jFloatValue es "r"
  some ⟨ge, r⟩

/-- The variants of `AnyShape`, in order.  Used at `schema/shapes/mod.rs:61-103`. -/
inductive Tag where
  | group | rectangle | ellipse | transform | stroke | puckerBloat | merge | repeater | offsetPath
  | fill | trim | path | gradientFill | gradientStroke | twist | roundedCorners | polyStar
  deriving DecidableEq, Repr, Inhabited

/-- The names of the variants (`/repo/src/schema/shapes/mod.rs:61-96`). -/
def Tag.ofName : String → Option Tag
  | "gr" => some .group
  | "rc" => some .rectangle
  | "el" => some .ellipse
  | "tr" => some .transform
  | "st" => some .stroke
  | "pb" => some .puckerBloat
  | "mm" => some .merge
  | "rp" => some .repeater
  | "op" => some .offsetPath
  | "fl" => some .fill
  | "tm" => some .trim
  | "sh" => some .path
  | "gf" => some .gradientFill
  | "gs" => some .gradientStroke
  | "tw" => some .twist
  | "rd" => some .roundedCorners
  | "sr" => some .polyStar
  | _ => none

/-- All variants in order of declaration.  Used at `schema/shapes/mod.rs:61-103`. -/
def Tag.all : List Tag :=
  [.group, .rectangle, .ellipse, .transform, .stroke, .puckerBloat, .merge, .repeater, .offsetPath,
    .fill, .trim, .path, .gradientFill, .gradientStroke, .twist, .roundedCorners, .polyStar]

/-- The variant identifier.  `nested`: the value comes from serde's buffer, where the position of
the variant is accepted as well.  Used at `schema/shapes/mod.rs:61-103`. -/
def jTag (nested : Bool) : Json F → Option Tag
  | .str s => Tag.ofName s
  | .num (.posInt n) => if nested then Tag.all[n]? else none
  | _ => none

/-- The variants of `AnyShape` other than groups.  Used at `schema/shapes/mod.rs:61-103`. -/
def dLeaf (tag : Tag) (es : Obj F) : Option (AnyShape F) :=
  match tag with
  | .group => none
  | .rectangle => (dRectangle es).map .rectangle
  | .ellipse => (dEllipse es).map .ellipse
  | .transform => (dTransformShape es).map .transform
  | .stroke => (dStroke es).map .stroke
  | .puckerBloat => (dPuckerBloat es).map .puckerBloat
  | .merge => (dMerge es).map .merge
  | .repeater => (dRepeater es).map .repeater
  | .offsetPath => (dOffsetPath es).map .offsetPath
  | .fill => (dFill es).map .fill
  | .trim => (dTrim es).map .trim
  | .path => (dPath es).map .path
  | .gradientFill => (dGradientFill es).map .gradientFill
  | .gradientStroke => (dGradientStroke es).map .gradientStroke
  | .twist => (dTwist es).map .twist
  | .roundedCorners => (dRoundedCorners es).map .roundedCorners
  | .polyStar => (dPolyStar es).map .polyStar

/-- `GroupShape` (`/repo/src/schema/shapes/group.rs:7-23`) given its items. -/
def dGroup (es : Obj F) (items : List (AnyShape F)) : Option (AnyShape F) := do
  let ge ← dGraphicElement es
  let np ← opt jF64 es "np"
  let cix ← opt jU8 es "cix"
  some (.group ge np items cix)

mutual
/-- `AnyShape` (`/repo/src/schema/shapes/mod.rs:53-103`). -/
def jShape (nested : Bool) : Json F → Option (AnyShape F)
  | .obj es =>
    match lookup es "ty" with
    | none => none
    | some t =>
      match jTag nested t with
      | none => none
      | some .group =>
        match dItems es with
        | some (some items) => dGroup es items
        | _ => none
      | some tag => dLeaf tag es
  | _ => none

/-- The field `it` of a group (the last entry with that key): `none` if missing.  Used at
`schema/shapes/group.rs:18`. -/
def dItems : List (String × Json F) → Option (Option (List (AnyShape F)))
  | [] => none
  | (k, v) :: es =>
    match dItems es with
    | some r => some r
    | none => if k == "it" then some (jItems v) else none

/-- `Vec<AnyShape>` inside a group.  Used at `schema/shapes/group.rs:18`. -/
def jItems : Json F → Option (List (AnyShape F))
  | .arr xs => jShapes xs
  | _ => none

/-- The elements of `Vec<AnyShape>` inside a group.  Used at `schema/shapes/group.rs:18`. -/
def jShapes : List (Json F) → Option (List (AnyShape F))
  | [] => some []
  | x :: xs =>
    match jShape true x with
    | none => none
    | some s => (jShapes xs).map (s :: ·)
end

/-! ### Layers -/

/-- The field `st` of `Layer` (`/repo/src/schema/layers/layer.rs:50-52`).  `start`: whether the key
is still available (`PrecompositionLayer` has a field of its own with that key, which takes it). -/
def dStart (start : Bool) (es : Obj F) : Option (Option F) :=
  if start then opt jF64 es "st" else some none

/-- `/repo/src/schema/layers/layer.rs:13-53`. -/
def dLayerBase (start : Bool) (es : Obj F) : Option (LayerBase F) := do
  let vo ← dVisualObject es
  let ddd ← opt jBoolInt es "ddd"
  let hd ← opt jBool es "hd"
  let ty ← req jU8 es "ty"
  let ind ← opt jUsize es "ind"
  let parent ← opt jUsize es "parent"
  let sr ← opt jF64 es "sr"
  let ip ← req jF64 es "ip"
  let op ← req jF64 es "op"
  let st ← dStart start es
  some ⟨vo, ddd, hd, ty, ind, parent, sr, ip, op, st⟩

/-- `/repo/src/schema/layers/visual.rs:11-85`. -/
def dVisualLayer (start : Bool) (es : Obj F) : Option (VisualLayer F) := do
  let layer ← dLayerBase start es
  let tt ← opt jMatteMode es "tt"
  let td ← opt jBoolInt es "td"
  let masks ← opt (jVec jMask) es "masksProperties"
  let ks ← req jTransform es "ks"
  let ao ← opt jBoolInt es "ao"
  let tp ← opt jF64 es "tp"
  let hasMask ← opt jBool es "hasMask"
  let mb ← opt jBool es "mb"
  let bm ← opt jBlendMode es "bm"
  let cl ← opt jStr es "cl"
  let ln ← opt jStr es "ln"
  let tg ← opt jStr es "tg"
  let cp ← opt jStr es "cp"
  let ct ← opt jBoolInt es "ct"
  some ⟨layer, tt, td, masks, ks, ao, tp, hasMask, mb, bm, cl, ln, tg, cp, ct⟩

/-- `/repo/src/schema/layers/precomposition.rs:10-32`. -/
def dPrecompositionLayer (es : Obj F) : Option (PrecompositionLayer F) := do
  let v ← dVisualLayer false es
  let refId ← req jStr es "refId"
  let w ← req jF64 es "w"
  let h ← req jF64 es "h"
  let st ← req jF64 es "st"
  let tm ← opt jFloatValue es "tm"
  some ⟨v, refId, w, h, st, tm⟩

/-- `/repo/src/schema/layers/solid.rs:7-21`. -/
def dSolidLayer (es : Obj F) : Option (SolidLayer F) := do
  let v ← dVisualLayer true es
  let w ← req jF64 es "sw"
  let h ← req jF64 es "sh"
  let c ← req jStr es "sc"
  some ⟨v, w, h, c⟩

/-- `/repo/src/schema/layers/shape.rs:10-19`. -/
def dShapeLayer (es : Obj F) : Option (ShapeLayer F) := do
  let v ← dVisualLayer true es
  let shapes ← req (jVec (jShape false)) es "shapes"
  some ⟨v, shapes⟩

/-- `/repo/src/schema/layers/image.rs:13-22`. -/
def dImageLayer (es : Obj F) : Option (ImageLayer F) := do
  let v ← dVisualLayer true es
  let refId ← req jStr es "refId"
  some ⟨v, refId⟩

/-- `AnyLayer::deserialize` (`/repo/src/schema/layers/mod.rs:47-83`); `NullLayer`
(`/repo/src/schema/layers/null.rs:7-12`) only wraps a `VisualLayer`. -/
def jLayer (j : Json F) : Option (AnyLayer F) :=
  match objOnly j with
  | none => none
  | some es =>
    match lookup es "ty" with
    | some (.num (.posInt 0)) => (dPrecompositionLayer es).map .precomposition
    | some (.num (.posInt 1)) => (dSolidLayer es).map .solid
    | some (.num (.posInt 2)) => (dImageLayer es).map .image
    | some (.num (.posInt 3)) => (dVisualLayer true es).map .null
    | some (.num (.posInt 4)) => (dShapeLayer es).map .shape
    | _ => none

/-! ### Assets and animations -/

/-- `/repo/src/schema/assets/asset.rs:8-16`. -/
def dAsset (es : Obj F) : Option AssetBase := do
  let id ← req jStr es "id"
  let vo ← dVisualObject es
  some ⟨id, vo⟩

/-- `/repo/src/schema/assets/file_asset.rs:8-24`. -/
def dFileAsset (es : Obj F) : Option FileAsset := do
  let a ← dAsset es
  let u ← opt jStr es "u"
  let p ← req jStr es "p"
  let e ← opt jBoolInt es "e"
  some ⟨a, u, p, e⟩

/-- `seq_from_str` with `default` (`/repo/src/schema/assets/image.rs:27-47`): `null` is an error. -/
def dSequence (es : Obj F) : Option (Option Bool) :=
  match lookup es "t" with
  | none => some none
  | some (.str s) => some (if s == "seq" then some true else none)
  | some _ => none

/-- `/repo/src/schema/assets/image.rs:10-36`. -/
def dImageAsset (es : Obj F) : Option (ImageAsset F) := do
  let f ← dFileAsset es
  let sid ← opt jStr es "sid"
  let w ← opt jF64 es "w"
  let h ← opt jF64 es "h"
  let t ← dSequence es
  some ⟨f, sid, w, h, t⟩

/-- `/repo/src/schema/assets/precomposition.rs:9-24`; the flattened `Composition` is
`/repo/src/schema/animation/composition.rs:7-13`. -/
def dPrecompAsset (es : Obj F) : Option (PrecompAsset F) := do
  let a ← dAsset es
  let layers ← req (jVec jLayer) es "layers"
  let fr ← opt jF64 es "fr"
  let xt ← opt jBoolInt es "xt"
  some ⟨a, layers, fr, xt⟩

/-- `AnyAsset::deserialize` (`/repo/src/schema/assets/mod.rs:22-55`). -/
def jAsset (j : Json F) : Option (AnyAsset F) :=
  match objOnly j with
  | none => none
  | some es =>
    if (lookup es "layers").isSome then (dPrecompAsset es).map .precomposition
    else
      match lookup es "t" with
      | some (.num (.posInt 3)) => none
      | _ =>
        if (lookup es "w").isSome || (lookup es "h").isSome then (dImageAsset es).map .image
        else none

/-- `/repo/src/schema/helpers/marker.rs:8-24`, entries. -/
def dMarker (es : Obj F) : Option (Marker F) := do
  let cm ← opt jStr es "cm"
  let tm ← opt jF64 es "tm"
  let dr ← opt jF64 es "dr"
  some ⟨cm, tm, dr⟩

/-- `/repo/src/schema/helpers/marker.rs:8-24`. -/
def jMarker (j : Json F) : Option (Marker F) := (entries ["cm", "tm", "dr"] j).bind dMarker

/-- The entries of `Meta`, all of whose fields are `default`: an array may be shorter.  Used at
`schema/animation/meta.rs`. -/
def metaEntries : Json F → Option (Obj F)
  | .obj es => some es
  | .arr xs =>
    if xs.length ≤ 5 then some ((["a", "d", "tc", "g", "k"] : List String).zip xs) else none
  | _ => none

/-- `/repo/src/schema/animation/meta.rs:6-26`, entries. -/
def dMeta (es : Obj F) : Option (Meta F) := do
  let a ← opt jStr es "a"
  let d ← opt jStr es "d"
  let tc ← opt jStr es "tc"
  let g ← opt jStr es "g"
  let k ← opt some es "k"
  some ⟨a, d, tc, g, k⟩

/-- `/repo/src/schema/animation/meta.rs:6-26`. -/
def jMeta (j : Json F) : Option (Meta F) := (metaEntries j).bind dMeta

/-- `Animation` (`/repo/src/schema/animation/animation.rs:13-76`), entries. -/
def dAnimation (es : Obj F) : Option (Animation F) := do
  let vo ← dVisualObject es
  let layers ← req (jVec jLayer) es "layers"
  let v ← opt jStr es "v"
  let ver ← opt jU32 es "ver"
  let fr ← req jF64 es "fr"
  let ip ← req jF64 es "ip"
  let op ← req jF64 es "op"
  let w ← req jUsize es "w"
  let h ← req jUsize es "h"
  let ddd ← opt jBoolInt es "ddd"
  let assets ← opt (jVec jAsset) es "assets"
  let markers ← opt (jVec jMarker) es "markers"
  let m ← opt jMeta es "meta"
  let metadata ← opt some es "metadata"
  some ⟨vo, layers, v, ver, fr, ip, op, w, h, ddd, assets, markers, m, metadata⟩

/-- `Animation` (`/repo/src/schema/animation/animation.rs:13-76`). -/
def jAnimation (j : Json F) : Option (Animation F) := (objOnly j).bind dAnimation

/-- `Composition::from_json` (`/repo/src/runtime/mod.rs:44-49`): `none` is a parse error, a fault is
a panic of the importer. -/
def fromJson [Kurbo F] [Libm F] (j : Json F) : Option (Except Fault (Composition F)) :=
  (jAnimation j).map Import.convAnimation

end
end Velato.Decode
