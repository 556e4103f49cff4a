import Verif.Model.Json

/-!
# `/repo/src/schema`

The Lottie schema types, field by field.  `usize`/`u8`/`u32` fields are `Nat`.
-/

namespace Velato.Schema
open Velato (Json)

/-- `/repo/src/schema/helpers/int_boolean.rs:6-15` (`False = 0`, `True = 1`). -/
inductive BoolInt where | false | true
  deriving DecidableEq, Repr, Inhabited

/-- `/repo/src/schema/helpers/visual_object.rs:6-16`. -/
structure VisualObject where
  name : Option String
  matchName : Option String
  deriving DecidableEq, Repr, Inhabited

/-- `/repo/src/schema/helpers/bezier.rs:6-27`.  `[f64; 2]` is a pair. -/
structure Bezier (F : Type) where
  closed : Option Bool
  vertices : List (F × F)
  inTangents : List (F × F)
  outTangents : List (F × F)
  deriving DecidableEq, Repr, Inhabited

/-- `/repo/src/schema/animated_properties/keyframe_bezier_handle.rs:21-29`. -/
inductive KeyframeComponent (F : Type) where
  | arrayOfValues (xs : List F)
  | singleValue (x : F)
  deriving DecidableEq, Repr, Inhabited

/-- `/repo/src/schema/animated_properties/keyframe_bezier_handle.rs:6-19`. -/
structure KeyframeBezierHandle (F : Type) where
  x : KeyframeComponent F
  y : KeyframeComponent F
  deriving DecidableEq, Repr, Inhabited

/-- `/repo/src/schema/animated_properties/keyframe_base.rs:8-29`. -/
structure KeyframeBase (F : Type) where
  time : F
  hold : Option BoolInt
  inTangent : Option (KeyframeBezierHandle F)
  outTangent : Option (KeyframeBezierHandle F)
  deriving DecidableEq, Repr, Inhabited

/-- `/repo/src/schema/animated_properties/keyframe.rs:7-22`. -/
structure Keyframe (F : Type) where
  base : KeyframeBase F
  value : List F
  endValueDeprecated : Option (List F)
  deriving DecidableEq, Repr, Inhabited

/-- `/repo/src/schema/animated_properties/animated_property.rs:33-41`. -/
inductive AnimatedPropertyK (F S : Type) where
  | animatedValue (ks : List (Keyframe F))
  | static (s : S)
  deriving DecidableEq, Repr, Inhabited

/-- `/repo/src/schema/animated_properties/animated_property.rs:9-31`. -/
structure AnimatedProperty (F S : Type) where
  propertyIndex : Option F
  animated : Option BoolInt
  expression : Option String
  slotId : Option String
  value : AnimatedPropertyK F S
  deriving DecidableEq, Repr, Inhabited

/-- `/repo/src/schema/animated_properties/value.rs:7-14`. -/
abbrev FloatValue (F : Type) := AnimatedProperty F F

/-- `/repo/src/schema/animated_properties/color_value.rs:8-13` (`helpers/color.rs`: `Color = Vec<f64>`). -/
abbrev ColorValue (F : Type) := AnimatedProperty F (List F)

/-- `/repo/src/schema/animated_properties/multi_dimensional.rs:7-19`. -/
structure MultiDimensional (F : Type) where
  animatedProperty : AnimatedProperty F (List F)
  length : Option F
  deriving DecidableEq, Repr, Inhabited

/-- `/repo/src/schema/animated_properties/gradient_colors.rs:7-22`. -/
structure GradientColors (F : Type) where
  colors : MultiDimensional F
  count : Nat
  deriving DecidableEq, Repr, Inhabited

/-- `/repo/src/schema/animated_properties/position_keyframe.rs:7-20`. -/
structure PositionKeyframe (F : Type) where
  keyframe : Keyframe F
  valueInTangent : Option (List F)
  valueOutTangent : Option (List F)
  deriving DecidableEq, Repr, Inhabited

/-- `/repo/src/schema/animated_properties/position.rs:33-39`. -/
inductive PositionValueK (F : Type) where
  | animated (ks : List (PositionKeyframe F))
  | static (xs : List F)
  deriving DecidableEq, Repr, Inhabited

/-- `/repo/src/schema/animated_properties/position.rs:8-31`. -/
structure Position (F : Type) where
  propertyIndex : Option F
  animated : Option BoolInt
  expression : Option String
  length : Option F
  value : PositionValueK F
  deriving DecidableEq, Repr, Inhabited

/-- `/repo/src/schema/animated_properties/shape_keyframe.rs:8-25`. -/
structure ShapeKeyframe (F : Type) where
  base : KeyframeBase F
  start : Option (List (Bezier F))
  stop : Option (List (Bezier F))
  deriving DecidableEq, Repr, Inhabited

/-- `/repo/src/schema/animated_properties/shape_property.rs:31-39`. -/
inductive ShapePropertyK (F : Type) where
  | animated (ks : List (ShapeKeyframe F))
  | static (b : Bezier F)
  deriving DecidableEq, Repr, Inhabited

/-- `/repo/src/schema/animated_properties/shape_property.rs:11-29`. -/
structure ShapeProperty (F : Type) where
  propertyIndex : Option F
  animated : Option BoolInt
  expression : Option String
  value : ShapePropertyK F
  deriving DecidableEq, Repr, Inhabited

/-- `/repo/src/schema/animated_properties/split_vector.rs:7-27`. -/
structure SplitVector (F : Type) where
  split : Bool
  x : FloatValue F
  y : FloatValue F
  z : Option (FloatValue F)
  deriving DecidableEq, Repr, Inhabited

/-- `/repo/src/schema/helpers/transform.rs:46-54` (`AnyTransformP`). -/
inductive AnyTransformP (F : Type) where
  | position (p : Position F)
  | splitPosition (s : SplitVector F)
  deriving DecidableEq, Repr, Inhabited

/-- `/repo/src/schema/helpers/transform.rs:56-78` (`AnyTransformR`). -/
inductive AnyTransformR (F : Type) where
  | rotation (v : FloatValue F)
  | splitRotation (x y z : FloatValue F) (orientation : MultiDimensional F)
  deriving DecidableEq, Repr, Inhabited

/-- `/repo/src/schema/helpers/transform.rs:12-44`. -/
structure Transform (F : Type) where
  anchorPoint : Option (Position F)
  position : AnyTransformP F
  scale : Option (MultiDimensional F)
  rotation : Option (AnyTransformR F)
  skew : Option (FloatValue F)
  skewAxis : Option (FloatValue F)
  opacity : Option (FloatValue F)
  deriving DecidableEq, Repr, Inhabited

/-- `/repo/src/schema/constants/blend_mode.rs:6-28` (discriminants 0..17 in order). -/
inductive BlendMode where
  | normal | multiply | screen | overlay | darken | lighten | colorDodge | colorBurn
  | hardLight | softLight | difference | exclusion | hue | saturation | color | luminosity
  | add | hardMix
  deriving DecidableEq, Repr, Inhabited

/-- `/repo/src/schema/constants/matte_mode.rs:6-15` (discriminants 0..4 in order). -/
inductive MatteMode where | normal | alpha | invertedAlpha | luma | invertedLuma
  deriving DecidableEq, Repr, Inhabited

/-- `/repo/src/schema/constants/mask_mode.rs:6-24`. -/
inductive MaskMode where | none | add | subtract | intersect | lighten | darken | difference
  deriving DecidableEq, Repr, Inhabited

/-- `/repo/src/schema/constants/line_cap.rs:6-16`. -/
inductive LineCap where | butt | round | square
  deriving DecidableEq, Repr, Inhabited
/-- `/repo/src/schema/constants/line_join.rs:6-13`. -/
inductive LineJoin where | miter | round | bevel
  deriving DecidableEq, Repr, Inhabited
/-- `/repo/src/schema/constants/gradient_type.rs:6-12`. -/
inductive GradientType where | linear | radial
  deriving DecidableEq, Repr, Inhabited
/-- `/repo/src/schema/constants/fill_rule.rs:6-15`. -/
inductive FillRule where | nonZero | evenOdd
  deriving DecidableEq, Repr, Inhabited
/-- `/repo/src/schema/constants/merge_mode.rs:6-15`. -/
inductive MergeMode where | normal | add | subtract | intersect | excludeIntersections
  deriving DecidableEq, Repr, Inhabited
/-- `/repo/src/schema/constants/shape_direction.rs:6-14` (`Normal = 1`, `Reversed = 3`). -/
inductive ShapeDirection where | normal | reversed
  deriving DecidableEq, Repr, Inhabited
/-- `/repo/src/schema/constants/star_type.rs:6-12`. -/
inductive StarType where | star | polygon
  deriving DecidableEq, Repr, Inhabited
/-- `/repo/src/schema/constants/stroke_dash_type.rs:6-15`. -/
inductive StrokeDashType where | dash | gap | offset
  deriving DecidableEq, Repr, Inhabited
/-- `/repo/src/schema/constants/trim_multiple_shapes.rs:6-14`. -/
inductive TrimMultipleShapes where | individually | simultaneously
  deriving DecidableEq, Repr, Inhabited
/-- `/repo/src/schema/constants/composite.rs:6-12`. -/
inductive Composite where | above | below
  deriving DecidableEq, Repr, Inhabited

/-- `/repo/src/schema/helpers/mask.rs:9-52`. -/
structure Mask (F : Type) where
  name : Option String
  matchName : Option String
  inverted : Option Bool
  shape : Option (ShapeProperty F)
  opacity : Option (FloatValue F)
  mode : Option MaskMode
  expand : Option (FloatValue F)
  deriving DecidableEq, Repr, Inhabited

/-- `/repo/src/schema/shapes/graphic_element.rs:8-43`. -/
structure GraphicElement (F : Type) where
  visualObject : VisualObject
  hidden : Option Bool
  blendMode : Option BlendMode
  propertyIndex : Option F
  cssClass : Option String
  xmlId : Option String
  index : Option F
  deriving DecidableEq, Repr, Inhabited

/-- `/repo/src/schema/shapes/shape.rs:8-18`. -/
structure ShapeBase (F : Type) where
  graphicElement : GraphicElement F
  direction : Option ShapeDirection
  deriving DecidableEq, Repr, Inhabited

/-- `/repo/src/schema/shapes/shape_style.rs:10-18`. -/
structure ShapeStyle (F : Type) where
  graphicElement : GraphicElement F
  opacity : FloatValue F
  deriving DecidableEq, Repr, Inhabited

/-- `/repo/src/schema/shapes/stroke_dash.rs:9-24`. -/
structure StrokeDash (F : Type) where
  visualObject : VisualObject
  dashType : Option StrokeDashType
  length : Option (FloatValue F)
  deriving DecidableEq, Repr, Inhabited

/-- `/repo/src/schema/shapes/base_stroke.rs:12-37`. -/
structure BaseStroke (F : Type) where
  lineCap : Option LineCap
  lineJoin : Option LineJoin
  miterLimit : Option F
  miterLimitAnim : Option (FloatValue F)
  width : FloatValue F
  dashes : Option (List (StrokeDash F))
  deriving DecidableEq, Repr, Inhabited

/-- `/repo/src/schema/shapes/base_gradient.rs:11-39`. -/
structure BaseGradient (F : Type) where
  colors : GradientColors F
  startPoint : MultiDimensional F
  endPoint : MultiDimensional F
  gradientType : Option GradientType
  highlightLength : Option (FloatValue F)
  highlightAngle : Option (FloatValue F)
  deriving DecidableEq, Repr, Inhabited

/-- `/repo/src/schema/shapes/rectangle.rs:13-27`. -/
structure RectangleShape (F : Type) where
  shape : ShapeBase F
  position : Position F
  size : MultiDimensional F
  roundedCornerRadius : FloatValue F
  deriving DecidableEq, Repr, Inhabited

/-- `/repo/src/schema/shapes/ellipse.rs:11-21`. -/
structure EllipseShape (F : Type) where
  shape : ShapeBase F
  position : Position F
  size : MultiDimensional F
  deriving DecidableEq, Repr, Inhabited

/-- `/repo/src/schema/shapes/path.rs:8-17`. -/
structure PathShape (F : Type) where
  shape : ShapeBase F
  shapeProperty : ShapeProperty F
  deriving DecidableEq, Repr, Inhabited

/-- `/repo/src/schema/shapes/polystar.rs:9-40`. -/
structure PolyStarShape (F : Type) where
  shape : ShapeBase F
  position : Position F
  outerRadius : FloatValue F
  outerRoundness : FloatValue F
  rotation : FloatValue F
  points : FloatValue F
  starType : StarType
  innerRadius : Option (FloatValue F)
  innerRoundness : Option (FloatValue F)
  deriving DecidableEq, Repr, Inhabited

/-- `/repo/src/schema/shapes/transform.rs:8-15`. -/
structure TransformShape (F : Type) where
  graphicElement : GraphicElement F
  transform : Transform F
  deriving DecidableEq, Repr, Inhabited

/-- `/repo/src/schema/shapes/fill.rs:12-26`. -/
structure FillShape (F : Type) where
  shapeStyle : ShapeStyle F
  color : ColorValue F
  fillRule : Option FillRule
  deriving DecidableEq, Repr, Inhabited

/-- `/repo/src/schema/shapes/stroke.rs:15-26`. -/
structure StrokeShape (F : Type) where
  shapeStyle : ShapeStyle F
  baseStroke : BaseStroke F
  strokeColor : ColorValue F
  deriving DecidableEq, Repr, Inhabited

/-- `/repo/src/schema/shapes/gradient_fill.rs:9-21`. -/
structure GradientFillShape (F : Type) where
  shapeStyle : ShapeStyle F
  gradient : BaseGradient F
  fillRule : Option FillRule
  deriving DecidableEq, Repr, Inhabited

/-- `/repo/src/schema/shapes/gradient_stroke.rs:11-21`. -/
structure GradientStrokeShape (F : Type) where
  shapeStyle : ShapeStyle F
  baseStroke : BaseStroke F
  gradient : BaseGradient F
  deriving DecidableEq, Repr, Inhabited

/-- `/repo/src/schema/shapes/trim_path.rs:10-32` (`modifier.rs` only wraps the graphic element). -/
structure TrimPathShape (F : Type) where
  modifier : GraphicElement F
  start : FloatValue F
  stop : FloatValue F
  offset : FloatValue F
  multiple : Option TrimMultipleShapes
  deriving DecidableEq, Repr, Inhabited

/-- `/repo/src/schema/shapes/repeater_transform.rs:7-23`. -/
structure RepeaterTransformShape (F : Type) where
  transform : TransformShape F
  startOpacity : Option (FloatValue F)
  endOpacity : Option (FloatValue F)
  deriving DecidableEq, Repr, Inhabited

/-- `/repo/src/schema/shapes/repeater.rs:14-35`. -/
structure RepeaterShape (F : Type) where
  modifier : GraphicElement F
  copies : FloatValue F
  offset : Option (FloatValue F)
  composite : Option Composite
  transform : RepeaterTransformShape F
  deriving DecidableEq, Repr, Inhabited

/-- `/repo/src/schema/shapes/pucker_bloat.rs:7-18`. -/
structure PuckerBloatShape (F : Type) where
  modifier : GraphicElement F
  amount : Option (FloatValue F)
  deriving DecidableEq, Repr, Inhabited

/-- `/repo/src/schema/shapes/merge.rs:10-20`. -/
structure MergeShape (F : Type) where
  graphicElement : GraphicElement F
  mergeMode : Option MergeMode
  deriving DecidableEq, Repr, Inhabited

/-- `/repo/src/schema/shapes/offset_path.rs:8-26`. -/
structure OffsetPathShape (F : Type) where
  modifier : GraphicElement F
  amount : Option (FloatValue F)
  lineJoin : Option LineJoin
  miterLimit : Option (FloatValue F)
  deriving DecidableEq, Repr, Inhabited

/-- `/repo/src/schema/shapes/twist.rs:11-23`. -/
structure TwistShape (F : Type) where
  modifier : GraphicElement F
  angle : FloatValue F
  position : Position F
  deriving DecidableEq, Repr, Inhabited

/-- `/repo/src/schema/shapes/rounded_corners.rs:11-19`. -/
structure RoundedCornersShape (F : Type) where
  modifier : GraphicElement F
  radius : FloatValue F
  deriving DecidableEq, Repr, Inhabited

/-- `AnyShape` (`/repo/src/schema/shapes/mod.rs:53-103`).  `GroupShape` (`schema/shapes/group.rs`) is inlined
into its variant because the two types are mutually recursive. -/
inductive AnyShape (F : Type) where
  | group (graphicElement : GraphicElement F) (numProperties : Option F)
      (shapes : List (AnyShape F)) (propertyIndex : Option Nat)
  | rectangle (s : RectangleShape F)
  | ellipse (s : EllipseShape F)
  | transform (s : TransformShape F)
  | stroke (s : StrokeShape F)
  | puckerBloat (s : PuckerBloatShape F)
  | merge (s : MergeShape F)
  | repeater (s : RepeaterShape F)
  | offsetPath (s : OffsetPathShape F)
  | fill (s : FillShape F)
  | trim (s : TrimPathShape F)
  | path (s : PathShape F)
  | gradientFill (s : GradientFillShape F)
  | gradientStroke (s : GradientStrokeShape F)
  | twist (s : TwistShape F)
  | roundedCorners (s : RoundedCornersShape F)
  | polyStar (s : PolyStarShape F)

/-- `/repo/src/schema/layers/layer.rs:13-53`. -/
structure LayerBase (F : Type) where
  visualObject : VisualObject
  threeDimensional : Option BoolInt
  hidden : Option Bool
  layerType : Nat
  index : Option Nat
  parentIndex : Option Nat
  timeStretch : Option F
  inPoint : F
  outPoint : F
  startTime : Option F
  deriving DecidableEq, Repr, Inhabited

/-- `/repo/src/schema/layers/visual.rs:11-85`. -/
structure VisualLayer (F : Type) where
  layer : LayerBase F
  matteMode : Option MatteMode
  matteTarget : Option BoolInt
  masksProperties : Option (List (Mask F))
  transform : Transform F
  rotateToMatch : Option BoolInt
  matteLayerIndex : Option F
  hasMask : Option Bool
  motionBlur : Option Bool
  blendMode : Option BlendMode
  cssClass : Option String
  id : Option String
  tagName : Option String
  transformBeforeMaskDeprecated : Option String
  transformBeforeMask : Option BoolInt
  deriving DecidableEq, Repr, Inhabited

/-- `/repo/src/schema/layers/precomposition.rs:10-32`. -/
structure PrecompositionLayer (F : Type) where
  visualLayer : VisualLayer F
  refId : String
  width : F
  height : F
  startTime : F
  timeRemap : Option (FloatValue F)
  deriving DecidableEq, Repr, Inhabited

/-- `/repo/src/schema/layers/solid.rs:7-21`. -/
structure SolidLayer (F : Type) where
  visualLayer : VisualLayer F
  width : F
  height : F
  color : String
  deriving DecidableEq, Repr, Inhabited

/-- `/repo/src/schema/layers/shape.rs:10-19`. -/
structure ShapeLayer (F : Type) where
  visualLayer : VisualLayer F
  shapes : List (AnyShape F)

/-- `/repo/src/schema/layers/image.rs:13-22`. -/
structure ImageLayer (F : Type) where
  visualLayer : VisualLayer F
  refId : String
  deriving DecidableEq, Repr, Inhabited

/-- `AnyLayer` (`/repo/src/schema/layers/mod.rs:20-45`); `NullLayer` only wraps a `VisualLayer`. -/
inductive AnyLayer (F : Type) where
  | precomposition (l : PrecompositionLayer F)
  | solid (l : SolidLayer F)
  | shape (l : ShapeLayer F)
  | null (l : VisualLayer F)
  | image (l : ImageLayer F)

/-- `/repo/src/schema/assets/asset.rs:8-16`. -/
structure AssetBase where
  id : String
  visualObject : VisualObject
  deriving DecidableEq, Repr, Inhabited

/-- `/repo/src/schema/assets/file_asset.rs:8-24`. -/
structure FileAsset where
  asset : AssetBase
  dir : Option String
  fileName : String
  embedded : Option BoolInt
  deriving DecidableEq, Repr, Inhabited

/-- `/repo/src/schema/assets/image.rs:10-36` (`SlottableObject` is the optional slot id). -/
structure ImageAsset (F : Type) where
  fileAsset : FileAsset
  slotId : Option String
  width : Option F
  height : Option F
  sequence : Option Bool
  deriving DecidableEq, Repr, Inhabited

/-- `/repo/src/schema/assets/precomposition.rs:9-24` (`Composition` only wraps the layers). -/
structure PrecompAsset (F : Type) where
  asset : AssetBase
  layers : List (AnyLayer F)
  frameRate : Option F
  extra : Option BoolInt

/-- `AnyAsset` (`/repo/src/schema/assets/mod.rs:13-20`). -/
inductive AnyAsset (F : Type) where
  | image (a : ImageAsset F)
  | precomposition (a : PrecompAsset F)

/-- `/repo/src/schema/helpers/marker.rs:8-24`. -/
structure Marker (F : Type) where
  comment : Option String
  time : Option F
  duration : Option F
  deriving DecidableEq, Repr, Inhabited

/-- `/repo/src/schema/animation/meta.rs:6-26`. -/
structure Meta (F : Type) where
  author : Option String
  description : Option String
  themeColor : Option String
  generator : Option String
  keywords : Option (Json F)

/-- `/repo/src/schema/animation/animation.rs:13-76` (`composition.rs` only wraps the layers). -/
structure Animation (F : Type) where
  visualObject : VisualObject
  layers : List (AnyLayer F)
  version : Option String
  ver : Option Nat
  frameRate : F
  inPoint : F
  outPoint : F
  width : Nat
  height : Nat
  threeDimensional : Option BoolInt
  assets : Option (List (AnyAsset F))
  markers : Option (List (Marker F))
  metaInfo : Option (Meta F)
  metadata : Option (Json F)

end Velato.Schema
