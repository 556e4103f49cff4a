import Verif.Model.Decode

/-!
# Writing: `serde_json::to_value(&animation)` (`/repo/src/schema`)

The `Serialize` implementations that `#[derive(Serialize)]` generates, and the hand-written
`seq_to_str`.  An object is the list of its entries in the order in which they are inserted: the
flattened structs where they are declared.  An `Option` field with `skip_serializing_if` leaves no
entry when it is `None`; without it the entry is `null`.  A number that is not finite would be
written as `null`; numbers read from JSON are finite, and the model writes every number.
`Display` writes the same value as text.
-/

namespace Velato.Encode
open Schema Decode

section
variable {F : Type}

/-- A field.  Used by the derived `Serialize` of the structs of `src/schema`. -/
def put (k : String) (v : Json F) : Obj F := [(k, v)]

/-- A field with `skip_serializing_if = "Option::is_none"`.  Used by the derived `Serialize` of the
structs of `src/schema`. -/
def skip {α : Type} (w : α → Json F) (k : String) : Option α → Obj F
  | none => []
  | some v => [(k, w v)]

/-- An `Option` field without `skip_serializing_if`.  Used by the derived `Serialize` of the
structs of `src/schema`. -/
def nul {α : Type} (w : α → Json F) (k : String) : Option α → Obj F
  | none => [(k, .null)]
  | some v => [(k, w v)]

/-- `f64`.  Used at `schema/animation/animation.rs:33-37`, for instance. -/
def wF64 (x : F) : Json F := .num (.float x)
/-- `bool`.  Used at `schema/helpers/bezier.rs:14`, for instance. -/
def wBool (b : Bool) : Json F := .bool b
/-- `String`.  Used at `schema/helpers/visual_object.rs:11`, for instance. -/
def wStr (s : String) : Json F := .str s
/-- `u8`.  Used at `schema/layers/layer.rs:30`, for instance. -/
def wU8 (n : Nat) : Json F := .num (.posInt n)
/-- `u32`.  Used at `schema/animation/animation.rs:29`. -/
def wU32 (n : Nat) : Json F := .num (.posInt n)
/-- `usize`.  Used at `schema/layers/layer.rs:34,38`, for instance. -/
def wUsize (n : Nat) : Json F := .num (.posInt n)
/-- `[f64; 2]`.  Used at `schema/helpers/bezier.rs:18-26`. -/
def wPair (p : F × F) : Json F := .arr [wF64 p.1, wF64 p.2]
/-- `Vec<T>`.  Used at `schema/helpers/bezier.rs:18-26`, for instance. -/
def wVec {α : Type} (w : α → Json F) (xs : List α) : Json F := .arr (xs.map w)
/-- `serde_json::Value`.  Used at `schema/animation/meta.rs`. -/
def wValue (v : Json F) : Json F := v

/-! ### Constants -/

/-- `/repo/src/schema/helpers/int_boolean.rs:6-15`. -/
def wBoolInt : BoolInt → Json F
  | .false => .num (.posInt 0)
  | .true => .num (.posInt 1)
/-- `/repo/src/schema/constants/blend_mode.rs:6-28`. -/
def wBlendMode (m : Schema.BlendMode) : Json F :=
  .num (.posInt (match m with
    | .normal => 0 | .multiply => 1 | .screen => 2 | .overlay => 3 | .darken => 4 | .lighten => 5
    | .colorDodge => 6 | .colorBurn => 7 | .hardLight => 8 | .softLight => 9 | .difference => 10
    | .exclusion => 11 | .hue => 12 | .saturation => 13 | .color => 14 | .luminosity => 15
    | .add => 16 | .hardMix => 17))
/-- `/repo/src/schema/constants/matte_mode.rs:6-15`. -/
def wMatteMode (m : MatteMode) : Json F :=
  .num (.posInt (match m with
    | .normal => 0 | .alpha => 1 | .invertedAlpha => 2 | .luma => 3 | .invertedLuma => 4))
/-- `/repo/src/schema/constants/mask_mode.rs:6-24`. -/
def wMaskMode (m : MaskMode) : Json F :=
  .str (match m with
    | .none => "n" | .add => "a" | .subtract => "s" | .intersect => "i" | .lighten => "l"
    | .darken => "d" | .difference => "f")
/-- `/repo/src/schema/constants/stroke_dash_type.rs:6-15`. -/
def wStrokeDashType (m : StrokeDashType) : Json F :=
  .str (match m with | .dash => "d" | .gap => "g" | .offset => "o")
/-- `/repo/src/schema/constants/line_cap.rs:6-16`. -/
def wLineCap (m : LineCap) : Json F :=
  .num (.posInt (match m with | .butt => 1 | .round => 2 | .square => 3))
/-- `/repo/src/schema/constants/line_join.rs:6-13`. -/
def wLineJoin (m : LineJoin) : Json F :=
  .num (.posInt (match m with | .miter => 1 | .round => 2 | .bevel => 3))
/-- `/repo/src/schema/constants/gradient_type.rs:6-12`. -/
def wGradientType (m : GradientType) : Json F :=
  .num (.posInt (match m with | .linear => 1 | .radial => 2))
/-- `/repo/src/schema/constants/fill_rule.rs:6-15`. -/
def wFillRule (m : FillRule) : Json F :=
  .num (.posInt (match m with | .nonZero => 1 | .evenOdd => 2))
/-- `/repo/src/schema/constants/merge_mode.rs:6-15`. -/
def wMergeMode (m : MergeMode) : Json F :=
  .num (.posInt (match m with
    | .normal => 1 | .add => 2 | .subtract => 3 | .intersect => 4 | .excludeIntersections => 5))
/-- `/repo/src/schema/constants/shape_direction.rs:6-14`. -/
def wShapeDirection (m : ShapeDirection) : Json F :=
  .num (.posInt (match m with | .normal => 1 | .reversed => 3))
/-- `/repo/src/schema/constants/star_type.rs:6-12`. -/
def wStarType (m : StarType) : Json F :=
  .num (.posInt (match m with | .star => 1 | .polygon => 2))
/-- `/repo/src/schema/constants/trim_multiple_shapes.rs:6-14`. -/
def wTrimMultiple (m : TrimMultipleShapes) : Json F :=
  .num (.posInt (match m with | .individually => 1 | .simultaneously => 2))
/-- `/repo/src/schema/constants/composite.rs:6-12`. -/
def wComposite (m : Composite) : Json F :=
  .num (.posInt (match m with | .above => 1 | .below => 2))

/-! ### Animated properties -/

/-- `/repo/src/schema/helpers/visual_object.rs:6-16`. -/
def eVisualObject (a : VisualObject) : Obj F :=
  skip wStr "nm" a.name ++
  skip wStr "mn" a.matchName

/-- `/repo/src/schema/helpers/bezier.rs:6-27`, entries. -/
def eBezier (a : Bezier F) : Obj F :=
  skip wBool "c" a.closed ++
  put "v" (wVec wPair a.vertices) ++
  put "i" (wVec wPair a.inTangents) ++
  put "o" (wVec wPair a.outTangents)

/-- `/repo/src/schema/helpers/bezier.rs:6-27`. -/
def wBezier (a : Bezier F) : Json F := .obj (eBezier a)

/-- `/repo/src/schema/animated_properties/keyframe_bezier_handle.rs:21-29` (untagged). -/
def wKeyframeComponent : KeyframeComponent F → Json F
  | .arrayOfValues xs => wVec wF64 xs
  | .singleValue x => wF64 x

/-- `/repo/src/schema/animated_properties/keyframe_bezier_handle.rs:6-19`, entries. -/
def eHandle (a : KeyframeBezierHandle F) : Obj F :=
  put "x" (wKeyframeComponent a.x) ++
  put "y" (wKeyframeComponent a.y)

/-- `/repo/src/schema/animated_properties/keyframe_bezier_handle.rs:6-19`. -/
def wHandle (a : KeyframeBezierHandle F) : Json F := .obj (eHandle a)

/-- `/repo/src/schema/animated_properties/keyframe_base.rs:8-29`. -/
def eKeyframeBase (a : KeyframeBase F) : Obj F :=
  put "t" (wF64 a.time) ++
  skip wBoolInt "h" a.hold ++
  skip wHandle "i" a.inTangent ++
  skip wHandle "o" a.outTangent

/-- `/repo/src/schema/animated_properties/keyframe.rs:7-22`, entries. -/
def eKeyframe (a : Keyframe F) : Obj F :=
  eKeyframeBase a.base ++
  put "s" (wVec wF64 a.value) ++
  skip (wVec wF64) "e" a.endValueDeprecated

/-- `/repo/src/schema/animated_properties/keyframe.rs:7-22`. -/
def wKeyframe (a : Keyframe F) : Json F := .obj (eKeyframe a)

/-- `AnimatedPropertyK` (`/repo/src/schema/animated_properties/animated_property.rs:33-41`,
untagged). -/
def wAnimatedPropertyK {S : Type} (static : S → Json F) : AnimatedPropertyK F S → Json F
  | .animatedValue ks => wVec wKeyframe ks
  | .static s => static s

/-- `AnimatedProperty` (`/repo/src/schema/animated_properties/animated_property.rs:9-31`), entries. -/
def eAnimatedProperty {S : Type} (static : S → Json F) (a : AnimatedProperty F S) : Obj F :=
  skip wF64 "ix" a.propertyIndex ++
  skip wBoolInt "a" a.animated ++
  skip wStr "x" a.expression ++
  skip wStr "sid" a.slotId ++
  put "k" (wAnimatedPropertyK static a.value)

/-- `/repo/src/schema/animated_properties/value.rs:7-14`. -/
def wFloatValue (a : FloatValue F) : Json F := .obj (eAnimatedProperty wF64 a)

/-- `/repo/src/schema/animated_properties/color_value.rs:8-13`, entries. -/
def eColorValue (a : ColorValue F) : Obj F := eAnimatedProperty (wVec wF64) a

/-- `/repo/src/schema/animated_properties/color_value.rs:8-13`. -/
def wColorValue (a : ColorValue F) : Json F := .obj (eColorValue a)

/-- `/repo/src/schema/animated_properties/multi_dimensional.rs:7-19`, entries. -/
def eMultiDimensional (a : MultiDimensional F) : Obj F :=
  eColorValue a.animatedProperty ++
  skip wF64 "l" a.length

/-- `/repo/src/schema/animated_properties/multi_dimensional.rs:7-19`. -/
def wMultiDimensional (a : MultiDimensional F) : Json F := .obj (eMultiDimensional a)

/-- `/repo/src/schema/animated_properties/gradient_colors.rs:7-22`, entries. -/
def eGradientColors (a : GradientColors F) : Obj F :=
  put "k" (wMultiDimensional a.colors) ++
  put "p" (wUsize a.count)

/-- `/repo/src/schema/animated_properties/gradient_colors.rs:7-22`. -/
def wGradientColors (a : GradientColors F) : Json F := .obj (eGradientColors a)

/-- `/repo/src/schema/animated_properties/position_keyframe.rs:7-20`, entries. -/
def ePositionKeyframe (a : PositionKeyframe F) : Obj F :=
  eKeyframe a.keyframe ++
  skip (wVec wF64) "ti" a.valueInTangent ++
  skip (wVec wF64) "to" a.valueOutTangent

/-- `/repo/src/schema/animated_properties/position_keyframe.rs:7-20`. -/
def wPositionKeyframe (a : PositionKeyframe F) : Json F := .obj (ePositionKeyframe a)

/-- `PositionValueK` (`/repo/src/schema/animated_properties/position.rs:33-39`, untagged). -/
def wPositionValueK : PositionValueK F → Json F
  | .animated ks => wVec wPositionKeyframe ks
  | .static xs => wVec wF64 xs

/-- `/repo/src/schema/animated_properties/position.rs:8-31`, entries. -/
def ePosition (a : Schema.Position F) : Obj F :=
  skip wF64 "ix" a.propertyIndex ++
  nul wBoolInt "a" a.animated ++
  skip wStr "x" a.expression ++
  skip wF64 "l" a.length ++
  put "k" (wPositionValueK a.value)

/-- `/repo/src/schema/animated_properties/position.rs:8-31`. -/
def wPosition (a : Schema.Position F) : Json F := .obj (ePosition a)

/-- `/repo/src/schema/animated_properties/shape_keyframe.rs:8-25`, entries. -/
def eShapeKeyframe (a : ShapeKeyframe F) : Obj F :=
  eKeyframeBase a.base ++
  skip (wVec wBezier) "s" a.start ++
  skip (wVec wBezier) "e" a.stop

/-- `/repo/src/schema/animated_properties/shape_keyframe.rs:8-25`. -/
def wShapeKeyframe (a : ShapeKeyframe F) : Json F := .obj (eShapeKeyframe a)

/-- `ShapePropertyK` (`/repo/src/schema/animated_properties/shape_property.rs:31-39`, untagged). -/
def wShapePropertyK : ShapePropertyK F → Json F
  | .animated ks => wVec wShapeKeyframe ks
  | .static b => wBezier b

/-- `/repo/src/schema/animated_properties/shape_property.rs:11-29`, entries. -/
def eShapeProperty (a : ShapeProperty F) : Obj F :=
  skip wF64 "ix" a.propertyIndex ++
  skip wBoolInt "a" a.animated ++
  skip wStr "x" a.expression ++
  put "k" (wShapePropertyK a.value)

/-- `/repo/src/schema/animated_properties/shape_property.rs:11-29`. -/
def wShapeProperty (a : ShapeProperty F) : Json F := .obj (eShapeProperty a)

/-- `/repo/src/schema/animated_properties/split_vector.rs:7-27`, entries. -/
def eSplitVector (a : SplitVector F) : Obj F :=
  put "s" (wBool a.split) ++
  put "x" (wFloatValue a.x) ++
  put "y" (wFloatValue a.y) ++
  skip wFloatValue "z" a.z

/-- `/repo/src/schema/animated_properties/split_vector.rs:7-27`. -/
def wSplitVector (a : SplitVector F) : Json F := .obj (eSplitVector a)

/-- `AnyTransformP` (`/repo/src/schema/helpers/transform.rs:46-54`, untagged). -/
def wTransformP : AnyTransformP F → Json F
  | .position p => wPosition p
  | .splitPosition s => wSplitVector s

/-- `AnyTransformR` (`/repo/src/schema/helpers/transform.rs:56-78`, untagged). -/
def wTransformR : AnyTransformR F → Json F
  | .rotation v => wFloatValue v
  | .splitRotation x y z o =>
    .obj (put "x" (wFloatValue x) ++ put "y" (wFloatValue y) ++ put "z" (wFloatValue z) ++
      put "or" (wMultiDimensional o))

/-- `/repo/src/schema/helpers/transform.rs:12-44`, entries. -/
def eTransform (a : Schema.Transform F) : Obj F :=
  skip wPosition "a" a.anchorPoint ++
  put "p" (wTransformP a.position) ++
  skip wMultiDimensional "s" a.scale ++
  skip wTransformR "r" a.rotation ++
  skip wFloatValue "sk" a.skew ++
  skip wFloatValue "sa" a.skewAxis ++
  skip wFloatValue "o" a.opacity

/-- `/repo/src/schema/helpers/transform.rs:12-44`. -/
def wTransform (a : Schema.Transform F) : Json F := .obj (eTransform a)

/-- `/repo/src/schema/helpers/mask.rs:9-52`, entries. -/
def eMask (a : Schema.Mask F) : Obj F :=
  skip wStr "nm" a.name ++
  skip wStr "mn" a.matchName ++
  skip wBool "inv" a.inverted ++
  skip wShapeProperty "pt" a.shape ++
  skip wFloatValue "o" a.opacity ++
  skip wMaskMode "mode" a.mode ++
  skip wFloatValue "x" a.expand

/-- `/repo/src/schema/helpers/mask.rs:9-52`. -/
def wMask (a : Schema.Mask F) : Json F := .obj (eMask a)

/-! ### Shapes -/

/-- `/repo/src/schema/shapes/graphic_element.rs:8-43`. -/
def eGraphicElement (a : GraphicElement F) : Obj F :=
  eVisualObject a.visualObject ++
  skip wBool "hd" a.hidden ++
  skip wBlendMode "bm" a.blendMode ++
  skip wF64 "ix" a.propertyIndex ++
  skip wStr "cl" a.cssClass ++
  skip wStr "ln" a.xmlId ++
  skip wF64 "ind" a.index

/-- `/repo/src/schema/shapes/shape.rs:8-18`. -/
def eShapeBase (a : ShapeBase F) : Obj F :=
  eGraphicElement a.graphicElement ++
  skip wShapeDirection "d" a.direction

/-- `/repo/src/schema/shapes/shape_style.rs:10-18`. -/
def eShapeStyle (a : ShapeStyle F) : Obj F :=
  eGraphicElement a.graphicElement ++
  put "o" (wFloatValue a.opacity)

/-- `/repo/src/schema/shapes/stroke_dash.rs:9-24`, entries. -/
def eStrokeDash (a : StrokeDash F) : Obj F :=
  eVisualObject a.visualObject ++
  skip wStrokeDashType "n" a.dashType ++
  skip wFloatValue "v" a.length

/-- `/repo/src/schema/shapes/stroke_dash.rs:9-24`. -/
def wStrokeDash (a : StrokeDash F) : Json F := .obj (eStrokeDash a)

/-- `/repo/src/schema/shapes/base_stroke.rs:12-37`. -/
def eBaseStroke (a : BaseStroke F) : Obj F :=
  nul wLineCap "lc" a.lineCap ++
  nul wLineJoin "lj" a.lineJoin ++
  nul wF64 "ml" a.miterLimit ++
  nul wFloatValue "ml2" a.miterLimitAnim ++
  put "w" (wFloatValue a.width) ++
  nul (wVec wStrokeDash) "d" a.dashes

/-- `/repo/src/schema/shapes/base_gradient.rs:11-39`. -/
def eBaseGradient (a : BaseGradient F) : Obj F :=
  put "g" (wGradientColors a.colors) ++
  put "s" (wMultiDimensional a.startPoint) ++
  put "e" (wMultiDimensional a.endPoint) ++
  nul wGradientType "t" a.gradientType ++
  nul wFloatValue "h" a.highlightLength ++
  nul wFloatValue "a" a.highlightAngle

/-- `/repo/src/schema/shapes/rectangle.rs:13-27`. -/
def eRectangle (a : RectangleShape F) : Obj F :=
  eShapeBase a.shape ++
  put "p" (wPosition a.position) ++
  put "s" (wMultiDimensional a.size) ++
  put "r" (wFloatValue a.roundedCornerRadius)

/-- `/repo/src/schema/shapes/ellipse.rs:11-21`. -/
def eEllipse (a : EllipseShape F) : Obj F :=
  eShapeBase a.shape ++
  put "p" (wPosition a.position) ++
  put "s" (wMultiDimensional a.size)

/-- `/repo/src/schema/shapes/path.rs:8-17`. -/
def ePath (a : PathShape F) : Obj F :=
  eShapeBase a.shape ++
  put "ks" (wShapeProperty a.shapeProperty)

/-- `/repo/src/schema/shapes/polystar.rs:9-40`. -/
def ePolyStar (a : PolyStarShape F) : Obj F :=
  eShapeBase a.shape ++
  put "p" (wPosition a.position) ++
  put "or" (wFloatValue a.outerRadius) ++
  put "os" (wFloatValue a.outerRoundness) ++
  put "r" (wFloatValue a.rotation) ++
  put "pt" (wFloatValue a.points) ++
  put "sy" (wStarType a.starType) ++
  nul wFloatValue "ir" a.innerRadius ++
  nul wFloatValue "is" a.innerRoundness

/-- `/repo/src/schema/shapes/transform.rs:8-15`. -/
def eTransformShape (a : TransformShape F) : Obj F :=
  eGraphicElement a.graphicElement ++
  eTransform a.transform

/-- `/repo/src/schema/shapes/fill.rs:12-26`. -/
def eFill (a : FillShape F) : Obj F :=
  eShapeStyle a.shapeStyle ++
  put "c" (wColorValue a.color) ++
  skip wFillRule "r" a.fillRule

/-- `/repo/src/schema/shapes/stroke.rs:15-26`. -/
def eStroke (a : StrokeShape F) : Obj F :=
  eShapeStyle a.shapeStyle ++
  eBaseStroke a.baseStroke ++
  put "c" (wColorValue a.strokeColor)

/-- `/repo/src/schema/shapes/gradient_fill.rs:9-21`. -/
def eGradientFill (a : GradientFillShape F) : Obj F :=
  eShapeStyle a.shapeStyle ++
  eBaseGradient a.gradient ++
  nul wFillRule "r" a.fillRule

/-- `/repo/src/schema/shapes/gradient_stroke.rs:11-21`. -/
def eGradientStroke (a : GradientStrokeShape F) : Obj F :=
  eShapeStyle a.shapeStyle ++
  eBaseStroke a.baseStroke ++
  eBaseGradient a.gradient

/-- `/repo/src/schema/shapes/trim_path.rs:10-32`. -/
def eTrim (a : TrimPathShape F) : Obj F :=
  eGraphicElement a.modifier ++
  put "s" (wFloatValue a.start) ++
  put "e" (wFloatValue a.stop) ++
  put "o" (wFloatValue a.offset) ++
  skip wTrimMultiple "m" a.multiple

/-- `/repo/src/schema/shapes/repeater_transform.rs:7-23`, entries. -/
def eRepeaterTransform (a : RepeaterTransformShape F) : Obj F :=
  eTransformShape a.transform ++
  skip wFloatValue "so" a.startOpacity ++
  skip wFloatValue "eo" a.endOpacity

/-- `/repo/src/schema/shapes/repeater_transform.rs:7-23`. -/
def wRepeaterTransform (a : RepeaterTransformShape F) : Json F := .obj (eRepeaterTransform a)

/-- `/repo/src/schema/shapes/repeater.rs:14-35`. -/
def eRepeater (a : RepeaterShape F) : Obj F :=
  eGraphicElement a.modifier ++
  put "c" (wFloatValue a.copies) ++
  skip wFloatValue "o" a.offset ++
  skip wComposite "m" a.composite ++
  put "tr" (wRepeaterTransform a.transform)

/-- `/repo/src/schema/shapes/pucker_bloat.rs:7-18`. -/
def ePuckerBloat (a : PuckerBloatShape F) : Obj F :=
  eGraphicElement a.modifier ++
  skip wFloatValue "a" a.amount

/-- `/repo/src/schema/shapes/merge.rs:10-20`. -/
def eMerge (a : MergeShape F) : Obj F :=
  eGraphicElement a.graphicElement ++
  skip wMergeMode "mm" a.mergeMode

/-- `/repo/src/schema/shapes/offset_path.rs:8-26`. -/
def eOffsetPath (a : OffsetPathShape F) : Obj F :=
  eGraphicElement a.modifier ++
  skip wFloatValue "a" a.amount ++
  skip wLineJoin "lj" a.lineJoin ++
  skip wFloatValue "ml" a.miterLimit

/-- `/repo/src/schema/shapes/twist.rs:11-23`. -/
def eTwist (a : TwistShape F) : Obj F :=
  eGraphicElement a.modifier ++
  put "a" (wFloatValue a.angle) ++
  put "p" (wPosition a.position)

/-- `/repo/src/schema/shapes/rounded_corners.rs:11-19`. -/
def eRoundedCorners (a : RoundedCornersShape F) : Obj F :=
  eGraphicElement a.modifier ++
  put "r" (wFloatValue a.radius)

mutual
/-- `AnyShape` (`/repo/src/schema/shapes/mod.rs:53-103`): the tag comes first.  A group is
`/repo/src/schema/shapes/group.rs:7-23`. -/
def wShape : AnyShape F → Json F
  | .group ge np items cix =>
    .obj (put "ty" (.str "gr") ++ eGraphicElement ge ++ skip wF64 "np" np ++
      put "it" (.arr (wShapes items)) ++ skip wU8 "cix" cix)
  | .rectangle s => .obj (put "ty" (.str "rc") ++ eRectangle s)
  | .ellipse s => .obj (put "ty" (.str "el") ++ eEllipse s)
  | .transform s => .obj (put "ty" (.str "tr") ++ eTransformShape s)
  | .stroke s => .obj (put "ty" (.str "st") ++ eStroke s)
  | .puckerBloat s => .obj (put "ty" (.str "pb") ++ ePuckerBloat s)
  | .merge s => .obj (put "ty" (.str "mm") ++ eMerge s)
  | .repeater s => .obj (put "ty" (.str "rp") ++ eRepeater s)
  | .offsetPath s => .obj (put "ty" (.str "op") ++ eOffsetPath s)
  | .fill s => .obj (put "ty" (.str "fl") ++ eFill s)
  | .trim s => .obj (put "ty" (.str "tm") ++ eTrim s)
  | .path s => .obj (put "ty" (.str "sh") ++ ePath s)
  | .gradientFill s => .obj (put "ty" (.str "gf") ++ eGradientFill s)
  | .gradientStroke s => .obj (put "ty" (.str "gs") ++ eGradientStroke s)
  | .twist s => .obj (put "ty" (.str "tw") ++ eTwist s)
  | .roundedCorners s => .obj (put "ty" (.str "rd") ++ eRoundedCorners s)
  | .polyStar s => .obj (put "ty" (.str "sr") ++ ePolyStar s)

/-- The items of a group.  Used at `schema/shapes/group.rs:18`. -/
def wShapes : List (AnyShape F) → List (Json F)
  | [] => []
  | s :: ss => wShape s :: wShapes ss
end

/-! ### Layers -/

/-- `/repo/src/schema/layers/layer.rs:13-53`. -/
def eLayerBase (a : LayerBase F) : Obj F :=
  eVisualObject a.visualObject ++
  skip wBoolInt "ddd" a.threeDimensional ++
  skip wBool "hd" a.hidden ++
  put "ty" (wU8 a.layerType) ++
  skip wUsize "ind" a.index ++
  skip wUsize "parent" a.parentIndex ++
  skip wF64 "sr" a.timeStretch ++
  put "ip" (wF64 a.inPoint) ++
  put "op" (wF64 a.outPoint) ++
  skip wF64 "st" a.startTime

/-- `/repo/src/schema/layers/visual.rs:11-85`. -/
def eVisualLayer (a : VisualLayer F) : Obj F :=
  eLayerBase a.layer ++
  skip wMatteMode "tt" a.matteMode ++
  skip wBoolInt "td" a.matteTarget ++
  skip (wVec wMask) "masksProperties" a.masksProperties ++
  put "ks" (wTransform a.transform) ++
  skip wBoolInt "ao" a.rotateToMatch ++
  skip wF64 "tp" a.matteLayerIndex ++
  skip wBool "hasMask" a.hasMask ++
  skip wBool "mb" a.motionBlur ++
  skip wBlendMode "bm" a.blendMode ++
  skip wStr "cl" a.cssClass ++
  skip wStr "ln" a.id ++
  skip wStr "tg" a.tagName ++
  skip wStr "cp" a.transformBeforeMaskDeprecated ++
  skip wBoolInt "ct" a.transformBeforeMask

/-- `/repo/src/schema/layers/precomposition.rs:10-32`. -/
def ePrecompositionLayer (a : PrecompositionLayer F) : Obj F :=
  eVisualLayer a.visualLayer ++
  put "refId" (wStr a.refId) ++
  put "w" (wF64 a.width) ++
  put "h" (wF64 a.height) ++
  put "st" (wF64 a.startTime) ++
  skip wFloatValue "tm" a.timeRemap

/-- `/repo/src/schema/layers/solid.rs:7-21`. -/
def eSolidLayer (a : SolidLayer F) : Obj F :=
  eVisualLayer a.visualLayer ++
  put "sw" (wF64 a.width) ++
  put "sh" (wF64 a.height) ++
  put "sc" (wStr a.color)

/-- `/repo/src/schema/layers/shape.rs:10-19`. -/
def eShapeLayer (a : ShapeLayer F) : Obj F :=
  eVisualLayer a.visualLayer ++
  put "shapes" (wVec wShape a.shapes)

/-- `/repo/src/schema/layers/image.rs:13-22`. -/
def eImageLayer (a : ImageLayer F) : Obj F :=
  eVisualLayer a.visualLayer ++
  put "refId" (wStr a.refId)

/-- `AnyLayer` (`/repo/src/schema/layers/mod.rs:20-45`, untagged); `NullLayer`
(`/repo/src/schema/layers/null.rs:7-11`) only wraps a `VisualLayer`. -/
def wLayer : AnyLayer F → Json F
  | .precomposition l => .obj (ePrecompositionLayer l)
  | .solid l => .obj (eSolidLayer l)
  | .shape l => .obj (eShapeLayer l)
  | .null l => .obj (eVisualLayer l)
  | .image l => .obj (eImageLayer l)

/-! ### Assets and animations -/

/-- `/repo/src/schema/assets/asset.rs:8-16`. -/
def eAsset (a : AssetBase) : Obj F :=
  put "id" (wStr a.id) ++
  eVisualObject a.visualObject

/-- `/repo/src/schema/assets/file_asset.rs:8-24`. -/
def eFileAsset (a : FileAsset) : Obj F :=
  eAsset a.asset ++
  skip wStr "u" a.dir ++
  put "p" (wStr a.fileName) ++
  skip wBoolInt "e" a.embedded

/-- `seq_to_str` (`/repo/src/schema/assets/image.rs:49-59`); `None` is skipped. -/
def wSequence : Bool → Json F
  | true => .str "seq"
  | false => .str ""

/-- `/repo/src/schema/assets/image.rs:10-36`. -/
def eImageAsset (a : ImageAsset F) : Obj F :=
  eFileAsset a.fileAsset ++
  skip wStr "sid" a.slotId ++
  skip wF64 "w" a.width ++
  skip wF64 "h" a.height ++
  skip wSequence "t" a.sequence

/-- `/repo/src/schema/assets/precomposition.rs:9-24`. -/
def ePrecompAsset (a : PrecompAsset F) : Obj F :=
  eAsset a.asset ++
  put "layers" (wVec wLayer a.layers) ++
  skip wF64 "fr" a.frameRate ++
  skip wBoolInt "xt" a.extra

/-- `AnyAsset` (`/repo/src/schema/assets/mod.rs:13-20`, untagged). -/
def wAnyAsset : AnyAsset F → Json F
  | .image a => .obj (eImageAsset a)
  | .precomposition a => .obj (ePrecompAsset a)

/-- `/repo/src/schema/helpers/marker.rs:8-24`, entries. -/
def eMarker (a : Marker F) : Obj F :=
  skip wStr "cm" a.comment ++
  skip wF64 "tm" a.time ++
  skip wF64 "dr" a.duration

/-- `/repo/src/schema/helpers/marker.rs:8-24`. -/
def wMarker (a : Marker F) : Json F := .obj (eMarker a)

/-- `/repo/src/schema/animation/meta.rs:6-26`, entries. -/
def eMeta (a : Meta F) : Obj F :=
  skip wStr "a" a.author ++
  skip wStr "d" a.description ++
  skip wStr "tc" a.themeColor ++
  skip wStr "g" a.generator ++
  skip wValue "k" a.keywords

/-- `/repo/src/schema/animation/meta.rs:6-26`. -/
def wMeta (a : Meta F) : Json F := .obj (eMeta a)

/-- `/repo/src/schema/animation/animation.rs:13-76`, entries. -/
def eAnimation (a : Animation F) : Obj F :=
  eVisualObject a.visualObject ++
  put "layers" (wVec wLayer a.layers) ++
  skip wStr "v" a.version ++
  skip wU32 "ver" a.ver ++
  put "fr" (wF64 a.frameRate) ++
  put "ip" (wF64 a.inPoint) ++
  put "op" (wF64 a.outPoint) ++
  put "w" (wUsize a.width) ++
  put "h" (wUsize a.height) ++
  skip wBoolInt "ddd" a.threeDimensional ++
  skip (wVec wAnyAsset) "assets" a.assets ++
  skip (wVec wMarker) "markers" a.markers ++
  skip wMeta "meta" a.metaInfo ++
  skip wValue "metadata" a.metadata

/-- `serde_json::to_value(&animation)` (`/repo/src/schema/animation/animation.rs:13-76`). -/
def wAnimation (a : Animation F) : Json F := .obj (eAnimation a)

end
end Velato.Encode
