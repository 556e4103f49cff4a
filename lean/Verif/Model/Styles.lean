import Verif.Model.Encode

/-!
# Layer styles and the constants of text (`/repo/src/schema/styles`, `/repo/src/schema/constants`)

Types of the schema that no type of `Animation` refers to: their values, and the derived
implementations of `Deserialize` and `Serialize`, as in `Model/Decode` and `Model/Encode`.
-/

namespace Velato.Schema

/-- `/repo/src/schema/constants/text_based.rs:6-13`. -/
inductive TextBased where
  | characters | characterExcludingSpaces | words | lines
  deriving DecidableEq, Repr

/-- `/repo/src/schema/constants/text_caps.rs:7-13`. -/
inductive TextCaps where
  | regular | allCaps | smallCaps
  deriving DecidableEq, Repr

/-- `/repo/src/schema/constants/text_grouping.rs:7-14`. -/
inductive TextGrouping where
  | characters | words | lines | all
  deriving DecidableEq, Repr

/-- `/repo/src/schema/constants/text_justify.rs:7-17`. -/
inductive TextJustify where
  | left | right | center | justifyWithLastLineLeft | justifyWithLastLineRight | justifyWithLastLineCenter | justifyWithLastLineFull
  deriving DecidableEq, Repr

/-- `/repo/src/schema/constants/text_range_units.rs:7-12`. -/
inductive TextRangeUnits where
  | percent | index
  deriving DecidableEq, Repr

/-- `/repo/src/schema/constants/text_shape.rs:8-17`. -/
inductive TextShape where
  | square | rampUp | rampDown | triangle | round | smooth
  deriving DecidableEq, Repr

/-- `/repo/src/schema/constants/font_path_origin.rs:7-14`. -/
inductive FontPathOrigin where
  | local_ | cssUrl | scriptUrl | fontUrl
  deriving DecidableEq, Repr

/-- `/repo/src/schema/styles/layer_style.rs:8-21`. -/
inductive StyleType where
  | stroke | dropShadow | innerShadow | outerGlow | innerGlow | bevelEmboss | satin | colorOverlay | gradientOverlay
  deriving DecidableEq, Repr

section
variable (F : Type)

/-- `/repo/src/schema/styles/layer_style.rs:23-31`. -/
structure LayerStyle where
  visualObject : VisualObject
  styleType : StyleType

/-- `/repo/src/schema/styles/color_overlay_style.rs:10-26`. -/
structure ColorOverlayStyle where
  layerStyle : LayerStyle
  blendMode : Option (FloatValue F)
  color : Option (ColorValue F)
  opacity : Option (FloatValue F)

/-- `/repo/src/schema/styles/gradient_overlay_style.rs:12-60`. -/
structure GradientOverlayStyle where
  layerStyle : LayerStyle
  blendMode : Option (FloatValue F)
  color : Option (ColorValue F)
  opacity : Option (FloatValue F)
  gradient : Option (GradientColors F)
  smoothness : Option (FloatValue F)
  angle : Option (FloatValue F)
  gradientType : Option GradientType
  reverse : Option (FloatValue F)
  align : Option (FloatValue F)
  scale : Option (FloatValue F)
  offset : Option (FloatValue F)

/-- `/repo/src/schema/styles/outer_glow_style.rs:10-42`. -/
structure OuterGlowStyle where
  layerStyle : LayerStyle
  blendMode : Option (FloatValue F)
  color : Option (ColorValue F)
  opacity : Option (FloatValue F)
  range : Option (FloatValue F)
  chokeSpread : Option (FloatValue F)
  noise : Option (FloatValue F)
  jitter : Option (FloatValue F)

/-- `/repo/src/schema/styles/satin_style.rs:10-35`. -/
structure SatinStyle where
  layerStyle : LayerStyle
  blendMode : Option (FloatValue F)
  color : Option (ColorValue F)
  opacity : Option (FloatValue F)
  angle : Option (FloatValue F)
  distance : Option (FloatValue F)
  size : Option (FloatValue F)
  invert : Option (FloatValue F)

end
end Velato.Schema

namespace Velato.Decode
open Schema

section
variable {F : Type}

/-- `/repo/src/schema/constants/text_based.rs:6-13`. -/
def jTextBased : Json F → Option TextBased :=
  jRepr 1 [.characters, .characterExcludingSpaces, .words, .lines]

/-- `/repo/src/schema/constants/text_caps.rs:7-13`. -/
def jTextCaps : Json F → Option TextCaps :=
  jRepr 0 [.regular, .allCaps, .smallCaps]

/-- `/repo/src/schema/constants/text_grouping.rs:7-14`. -/
def jTextGrouping : Json F → Option TextGrouping :=
  jRepr 1 [.characters, .words, .lines, .all]

/-- `/repo/src/schema/constants/text_justify.rs:7-17`. -/
def jTextJustify : Json F → Option TextJustify :=
  jRepr 0 [.left, .right, .center, .justifyWithLastLineLeft, .justifyWithLastLineRight, .justifyWithLastLineCenter, .justifyWithLastLineFull]

/-- `/repo/src/schema/constants/text_range_units.rs:7-12`. -/
def jTextRangeUnits : Json F → Option TextRangeUnits :=
  jRepr 1 [.percent, .index]

/-- `/repo/src/schema/constants/text_shape.rs:8-17`. -/
def jTextShape : Json F → Option TextShape :=
  jRepr 1 [.square, .rampUp, .rampDown, .triangle, .round, .smooth]

/-- `/repo/src/schema/constants/font_path_origin.rs:7-14`. -/
def jFontPathOrigin : Json F → Option FontPathOrigin :=
  jRepr 0 [.local_, .cssUrl, .scriptUrl, .fontUrl]

/-- `/repo/src/schema/styles/layer_style.rs:8-21`. -/
def jStyleType : Json F → Option StyleType :=
  jRepr 0 [.stroke, .dropShadow, .innerShadow, .outerGlow, .innerGlow, .bevelEmboss, .satin, .colorOverlay, .gradientOverlay]

/-- `/repo/src/schema/styles/layer_style.rs:23-31`. -/
def dLayerStyle (es : Obj F) : Option LayerStyle := do
  let vo ← dVisualObject es
  let ty ← req jStyleType es "ty"
  some ⟨vo, ty⟩

variable [FloatOps F]

/-- `/repo/src/schema/styles/color_overlay_style.rs:10-26`. -/
def dColorOverlayStyle (es : Obj F) : Option (ColorOverlayStyle F) := do
  let style ← dLayerStyle es
  let blendMode ← opt jFloatValue es "bm"
  let color ← opt jColorValue es "c"
  let opacity ← opt jFloatValue es "so"
  some ⟨style, blendMode, color, opacity⟩

/-- `/repo/src/schema/styles/color_overlay_style.rs:10-26`: it has a flattened field. -/
def jColorOverlayStyle (j : Json F) : Option (ColorOverlayStyle F) := (objOnly j).bind dColorOverlayStyle

/-- `/repo/src/schema/styles/gradient_overlay_style.rs:12-60`. -/
def dGradientOverlayStyle (es : Obj F) : Option (GradientOverlayStyle F) := do
  let style ← dLayerStyle es
  let blendMode ← opt jFloatValue es "bm"
  let color ← opt jColorValue es "c"
  let opacity ← opt jFloatValue es "o"
  let gradient ← opt jGradientColors es "gf"
  let smoothness ← opt jFloatValue es "gs"
  let angle ← opt jFloatValue es "a"
  let gradientType ← opt jGradientType es "gt"
  let reverse ← opt jFloatValue es "re"
  let align ← opt jFloatValue es "al"
  let scale ← opt jFloatValue es "s"
  let offset ← opt jFloatValue es "of"
  some ⟨style, blendMode, color, opacity, gradient, smoothness, angle, gradientType, reverse, align, scale, offset⟩

/-- `/repo/src/schema/styles/gradient_overlay_style.rs:12-60`: it has a flattened field. -/
def jGradientOverlayStyle (j : Json F) : Option (GradientOverlayStyle F) := (objOnly j).bind dGradientOverlayStyle

/-- `/repo/src/schema/styles/outer_glow_style.rs:10-42`. -/
def dOuterGlowStyle (es : Obj F) : Option (OuterGlowStyle F) := do
  let style ← dLayerStyle es
  let blendMode ← opt jFloatValue es "bm"
  let color ← opt jColorValue es "c"
  let opacity ← opt jFloatValue es "o"
  let range ← opt jFloatValue es "r"
  let chokeSpread ← opt jFloatValue es "ch"
  let noise ← opt jFloatValue es "no"
  let jitter ← opt jFloatValue es "j"
  some ⟨style, blendMode, color, opacity, range, chokeSpread, noise, jitter⟩

/-- `/repo/src/schema/styles/outer_glow_style.rs:10-42`: it has a flattened field. -/
def jOuterGlowStyle (j : Json F) : Option (OuterGlowStyle F) := (objOnly j).bind dOuterGlowStyle

/-- `/repo/src/schema/styles/satin_style.rs:10-35`. -/
def dSatinStyle (es : Obj F) : Option (SatinStyle F) := do
  let style ← dLayerStyle es
  let blendMode ← opt jFloatValue es "bm"
  let color ← opt jColorValue es "c"
  let opacity ← opt jFloatValue es "o"
  let angle ← opt jFloatValue es "a"
  let distance ← opt jFloatValue es "d"
  let size ← opt jFloatValue es "s"
  let invert ← opt jFloatValue es "in"
  some ⟨style, blendMode, color, opacity, angle, distance, size, invert⟩

/-- `/repo/src/schema/styles/satin_style.rs:10-35`: it has a flattened field. -/
def jSatinStyle (j : Json F) : Option (SatinStyle F) := (objOnly j).bind dSatinStyle

end
end Velato.Decode

namespace Velato.Encode
open Schema Decode

section
variable {F : Type}

/-- `/repo/src/schema/constants/text_based.rs:6-13`. -/
def wTextBased (m : TextBased) : Json F :=
  .num (.posInt (match m with
    | .characters => 1 | .characterExcludingSpaces => 2 | .words => 3 | .lines => 4))

/-- `/repo/src/schema/constants/text_caps.rs:7-13`. -/
def wTextCaps (m : TextCaps) : Json F :=
  .num (.posInt (match m with
    | .regular => 0 | .allCaps => 1 | .smallCaps => 2))

/-- `/repo/src/schema/constants/text_grouping.rs:7-14`. -/
def wTextGrouping (m : TextGrouping) : Json F :=
  .num (.posInt (match m with
    | .characters => 1 | .words => 2 | .lines => 3 | .all => 4))

/-- `/repo/src/schema/constants/text_justify.rs:7-17`. -/
def wTextJustify (m : TextJustify) : Json F :=
  .num (.posInt (match m with
    | .left => 0 | .right => 1 | .center => 2 | .justifyWithLastLineLeft => 3 | .justifyWithLastLineRight => 4 | .justifyWithLastLineCenter => 5 | .justifyWithLastLineFull => 6))

/-- `/repo/src/schema/constants/text_range_units.rs:7-12`. -/
def wTextRangeUnits (m : TextRangeUnits) : Json F :=
  .num (.posInt (match m with
    | .percent => 1 | .index => 2))

/-- `/repo/src/schema/constants/text_shape.rs:8-17`. -/
def wTextShape (m : TextShape) : Json F :=
  .num (.posInt (match m with
    | .square => 1 | .rampUp => 2 | .rampDown => 3 | .triangle => 4 | .round => 5 | .smooth => 6))

/-- `/repo/src/schema/constants/font_path_origin.rs:7-14`. -/
def wFontPathOrigin (m : FontPathOrigin) : Json F :=
  .num (.posInt (match m with
    | .local_ => 0 | .cssUrl => 1 | .scriptUrl => 2 | .fontUrl => 3))

/-- `/repo/src/schema/styles/layer_style.rs:8-21`. -/
def wStyleType (m : StyleType) : Json F :=
  .num (.posInt (match m with
    | .stroke => 0 | .dropShadow => 1 | .innerShadow => 2 | .outerGlow => 3 | .innerGlow => 4 | .bevelEmboss => 5 | .satin => 6 | .colorOverlay => 7 | .gradientOverlay => 8))

/-- `/repo/src/schema/styles/layer_style.rs:23-31`. -/
def eLayerStyle (a : LayerStyle) : Obj F :=
  eVisualObject a.visualObject ++
  put "ty" (wStyleType a.styleType)

/-- `/repo/src/schema/styles/color_overlay_style.rs:10-26`. -/
def eColorOverlayStyle (a : ColorOverlayStyle F) : Obj F :=
  eLayerStyle a.layerStyle ++
  skip wFloatValue "bm" a.blendMode ++
  skip wColorValue "c" a.color ++
  skip wFloatValue "so" a.opacity

/-- `/repo/src/schema/styles/color_overlay_style.rs:10-26`. -/
def wColorOverlayStyle (a : ColorOverlayStyle F) : Json F := .obj (eColorOverlayStyle a)

/-- `/repo/src/schema/styles/gradient_overlay_style.rs:12-60`. -/
def eGradientOverlayStyle (a : GradientOverlayStyle F) : Obj F :=
  eLayerStyle a.layerStyle ++
  skip wFloatValue "bm" a.blendMode ++
  skip wColorValue "c" a.color ++
  skip wFloatValue "o" a.opacity ++
  skip wGradientColors "gf" a.gradient ++
  skip wFloatValue "gs" a.smoothness ++
  skip wFloatValue "a" a.angle ++
  skip wGradientType "gt" a.gradientType ++
  skip wFloatValue "re" a.reverse ++
  skip wFloatValue "al" a.align ++
  skip wFloatValue "s" a.scale ++
  skip wFloatValue "of" a.offset

/-- `/repo/src/schema/styles/gradient_overlay_style.rs:12-60`. -/
def wGradientOverlayStyle (a : GradientOverlayStyle F) : Json F := .obj (eGradientOverlayStyle a)

/-- `/repo/src/schema/styles/outer_glow_style.rs:10-42`. -/
def eOuterGlowStyle (a : OuterGlowStyle F) : Obj F :=
  eLayerStyle a.layerStyle ++
  skip wFloatValue "bm" a.blendMode ++
  skip wColorValue "c" a.color ++
  skip wFloatValue "o" a.opacity ++
  skip wFloatValue "r" a.range ++
  skip wFloatValue "ch" a.chokeSpread ++
  skip wFloatValue "no" a.noise ++
  skip wFloatValue "j" a.jitter

/-- `/repo/src/schema/styles/outer_glow_style.rs:10-42`. -/
def wOuterGlowStyle (a : OuterGlowStyle F) : Json F := .obj (eOuterGlowStyle a)

/-- `/repo/src/schema/styles/satin_style.rs:10-35`. -/
def eSatinStyle (a : SatinStyle F) : Obj F :=
  eLayerStyle a.layerStyle ++
  skip wFloatValue "bm" a.blendMode ++
  skip wColorValue "c" a.color ++
  skip wFloatValue "o" a.opacity ++
  skip wFloatValue "a" a.angle ++
  skip wFloatValue "d" a.distance ++
  skip wFloatValue "s" a.size ++
  skip wFloatValue "in" a.invert

/-- `/repo/src/schema/styles/satin_style.rs:10-35`. -/
def wSatinStyle (a : SatinStyle F) : Json F := .obj (eSatinStyle a)

end
end Velato.Encode
