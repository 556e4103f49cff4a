import Verif.Proofs.Styles
import Verif.Num.F64
import Verif.Num.KernelDecide

/-!
# C113: the format of layer styles and of the constants of text
-/

namespace Velato
open Schema Decode Encode
open FloatOps (lit)

section
variable {F : Type} [FloatOps F]

/-- **C113**, styles: a JSON value is read as a style exactly if its keys say so. -/
theorem C113_styles (j : Json F) :
    (∀ s, jColorOverlayStyle j = some s ↔ Format.IsColorOverlayStyle j s) ∧
    (∀ s, jGradientOverlayStyle j = some s ↔ Format.IsGradientOverlayStyle j s) ∧
    (∀ s, jOuterGlowStyle j = some s ↔ Format.IsOuterGlowStyle j s) ∧
    (∀ s, jSatinStyle j = some s ↔ Format.IsSatinStyle j s) :=
  ⟨Format.isColorOverlayStyle j, Format.isGradientOverlayStyle j, Format.isOuterGlowStyle j, Format.isSatinStyle j⟩

omit [FloatOps F] in
/-- **C113**, constants: each name has its number. -/
theorem C113_constants (j : Json F) :
    (∀ c, jTextBased j = some c ↔ Format.IsTextBased j c) ∧
    (∀ c, jTextCaps j = some c ↔ Format.IsTextCaps j c) ∧
    (∀ c, jTextGrouping j = some c ↔ Format.IsTextGrouping j c) ∧
    (∀ c, jTextJustify j = some c ↔ Format.IsTextJustify j c) ∧
    (∀ c, jTextRangeUnits j = some c ↔ Format.IsTextRangeUnits j c) ∧
    (∀ c, jTextShape j = some c ↔ Format.IsTextShape j c) ∧
    (∀ c, jFontPathOrigin j = some c ↔ Format.IsFontPathOrigin j c) ∧
    (∀ c, jStyleType j = some c ↔ Format.IsStyleType j c) :=
  ⟨Format.isTextBased j,
    Format.isTextCaps j,
    Format.isTextGrouping j,
    Format.isTextJustify j,
    Format.isTextRangeUnits j,
    Format.isTextShape j,
    Format.isFontPathOrigin j,
    Format.isStyleType j⟩

/-- **C113**, round trip: what is written of a style that was read is read as the same style. -/
theorem C113_round_trip (j : Json F) :
    (∀ s, jColorOverlayStyle j = some s → jColorOverlayStyle (wColorOverlayStyle s) = some s) ∧
    (∀ s, jGradientOverlayStyle j = some s → jGradientOverlayStyle (wGradientOverlayStyle s) = some s) ∧
    (∀ s, jOuterGlowStyle j = some s → jOuterGlowStyle (wOuterGlowStyle s) = some s) ∧
    (∀ s, jSatinStyle j = some s → jSatinStyle (wSatinStyle s) = some s) :=
  ⟨fun s h => (rt_ColorOverlayStyle j s h).1,
    fun s h => (rt_GradientOverlayStyle j s h).1,
    fun s h => (rt_OuterGlowStyle j s h).1,
    fun s h => (rt_SatinStyle j s h).1⟩

omit [FloatOps F] in
/-- **C113**, round trip of the constants. -/
theorem C113_constants_round_trip :
    (∀ c, jTextBased (wTextBased c : Json F) = some c) ∧
    (∀ c, jTextCaps (wTextCaps c : Json F) = some c) ∧
    (∀ c, jTextGrouping (wTextGrouping c : Json F) = some c) ∧
    (∀ c, jTextJustify (wTextJustify c : Json F) = some c) ∧
    (∀ c, jTextRangeUnits (wTextRangeUnits c : Json F) = some c) ∧
    (∀ c, jTextShape (wTextShape c : Json F) = some c) ∧
    (∀ c, jFontPathOrigin (wFontPathOrigin c : Json F) = some c) ∧
    (∀ c, jStyleType (wStyleType c : Json F) = some c) := by
  refine ⟨?_, ?_, ?_, ?_, ?_, ?_, ?_, ?_⟩ <;> intro c <;> cases c <;> rfl

/-- A style that is read, and one that is not: its kind is missing. -/
example : (jSatinStyle (F := F64) (.obj [("ty", .num (.posInt 6)), ("nm", .str "x"),
      ("d", .obj [("k", .num (.posInt 3))])])).map (fun s => (s.layerStyle.styleType, s.distance.isSome))
    = some (.satin, true) ∧
    (jSatinStyle (F := F64) (.obj [("nm", .str "x")])).isNone := by
  decide +kernel

end
end Velato
