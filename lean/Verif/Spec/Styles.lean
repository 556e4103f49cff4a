import Verif.Spec.Format
import Verif.Model.Styles

/-!
# The format of layer styles and of the constants of text
-/

namespace Velato.Format
open Schema

section
variable {F : Type}

/-- The numbers of what a text range counts. -/
def IsTextBased : Json F → TextBased → Prop :=
  Code [(1, .characters), (2, .characterExcludingSpaces), (3, .words), (4, .lines)]

/-- The numbers of how text is capitalised. -/
def IsTextCaps : Json F → TextCaps → Prop :=
  Code [(0, .regular), (1, .allCaps), (2, .smallCaps)]

/-- The numbers of how glyphs are grouped. -/
def IsTextGrouping : Json F → TextGrouping → Prop :=
  Code [(1, .characters), (2, .words), (3, .lines), (4, .all)]

/-- The numbers of how text is justified. -/
def IsTextJustify : Json F → TextJustify → Prop :=
  Code [(0, .left), (1, .right), (2, .center), (3, .justifyWithLastLineLeft), (4, .justifyWithLastLineRight), (5, .justifyWithLastLineCenter), (6, .justifyWithLastLineFull)]

/-- The numbers of the units of a text range. -/
def IsTextRangeUnits : Json F → TextRangeUnits → Prop :=
  Code [(1, .percent), (2, .index)]

/-- The numbers of the shape of a text range. -/
def IsTextShape : Json F → TextShape → Prop :=
  Code [(1, .square), (2, .rampUp), (3, .rampDown), (4, .triangle), (5, .round), (6, .smooth)]

/-- The numbers of where a font is found. -/
def IsFontPathOrigin : Json F → FontPathOrigin → Prop :=
  Code [(0, .local_), (1, .cssUrl), (2, .scriptUrl), (3, .fontUrl)]

/-- The numbers of the kinds of layer styles. -/
def IsStyleType : Json F → StyleType → Prop :=
  Code [(0, .stroke), (1, .dropShadow), (2, .innerShadow), (3, .outerGlow), (4, .innerGlow), (5, .bevelEmboss), (6, .satin), (7, .colorOverlay), (8, .gradientOverlay)]

variable [FloatOps F]

/-- What all layer styles have: names and a kind. -/
def LayerStyleEntries (es : Entries F) (s : LayerStyle) : Prop :=
  Names es s.visualObject ∧ Req IsStyleType es "ty" s.styleType

/-- A colour laid over a layer. -/
def IsColorOverlayStyle : Json F → ColorOverlayStyle F → Prop :=
  Object fun es s => LayerStyleEntries es s.layerStyle ∧
    Opt Scalar es "bm" s.blendMode ∧ Opt Colour es "c" s.color ∧
    Opt Scalar es "so" s.opacity

/-- A gradient laid over a layer. -/
def IsGradientOverlayStyle : Json F → GradientOverlayStyle F → Prop :=
  Object fun es s => LayerStyleEntries es s.layerStyle ∧
    Opt Scalar es "bm" s.blendMode ∧ Opt Colour es "c" s.color ∧
    Opt Scalar es "o" s.opacity ∧ Opt Stops es "gf" s.gradient ∧
    Opt Scalar es "gs" s.smoothness ∧ Opt Scalar es "a" s.angle ∧
    Opt GradientKind es "gt" s.gradientType ∧ Opt Scalar es "re" s.reverse ∧
    Opt Scalar es "al" s.align ∧ Opt Scalar es "s" s.scale ∧
    Opt Scalar es "of" s.offset

/-- A glow around a layer. -/
def IsOuterGlowStyle : Json F → OuterGlowStyle F → Prop :=
  Object fun es s => LayerStyleEntries es s.layerStyle ∧
    Opt Scalar es "bm" s.blendMode ∧ Opt Colour es "c" s.color ∧
    Opt Scalar es "o" s.opacity ∧ Opt Scalar es "r" s.range ∧
    Opt Scalar es "ch" s.chokeSpread ∧ Opt Scalar es "no" s.noise ∧
    Opt Scalar es "j" s.jitter

/-- A satin effect. -/
def IsSatinStyle : Json F → SatinStyle F → Prop :=
  Object fun es s => LayerStyleEntries es s.layerStyle ∧
    Opt Scalar es "bm" s.blendMode ∧ Opt Colour es "c" s.color ∧
    Opt Scalar es "o" s.opacity ∧ Opt Scalar es "a" s.angle ∧
    Opt Scalar es "d" s.distance ∧ Opt Scalar es "s" s.size ∧
    Opt Scalar es "in" s.invert

end
end Velato.Format
