import Verif.Model.Kurbo
import Verif.Model.Schema
import Verif.Num.Real

/-!
# Vocabulary for statements about transforms, in exact arithmetic
-/

namespace Velato

/-- The determinant of the linear part: the factor by which areas are scaled. -/
def Affine.det (m : Affine ℝ) : ℝ := m.a * m.d - m.b * m.c

end Velato

namespace Velato.Schema
open Velato.FloatOps (lit)
variable {F : Type} [FloatOps F]

/-- A property with a constant value, as written `{"a": 0, "k": v}`. -/
def constProp {S : Type} (v : S) : AnimatedProperty F S := ⟨none, some .false, none, none, .static v⟩

/-- The transform with omitted anchor, scale, skew, skew axis and opacity written out with the
values that mean "no effect": anchor (0, 0), scale 100%, skew 0, opacity 100%. -/
def Transform.fillNeutral (v : Transform F) : Transform F where
  anchorPoint := some (v.anchorPoint.getD ⟨none, some .false, none, none, .static [lit 0, lit 0]⟩)
  position := v.position
  scale := some (v.scale.getD ⟨constProp [lit 100, lit 100], none⟩)
  rotation := v.rotation
  skew := some (v.skew.getD (constProp (lit 0)))
  skewAxis := some (v.skewAxis.getD (constProp (lit 0)))
  opacity := some (v.opacity.getD (constProp (lit 100)))

/-- The transform with an omitted rotation written out as 0. -/
def Transform.fillRotation (v : Transform F) : Transform F :=
  { v with rotation := some (v.rotation.getD (.rotation (constProp (lit 0)))) }

end Velato.Schema

namespace Velato

/-- Where a transform is meant to put the point `p`: taken relative to the anchor and scaled (in
percent), sheared along the skew axis (the direction at minus `axis` degrees; a vector is displaced
in that direction by `tan skew` times its distance from the axis), turned by `rotation` degrees,
and moved to the position. -/
noncomputable def placed (anchor position scale : P2 ℝ) (rotation skew axis : ℝ) (p : P2 ℝ) :
    P2 ℝ :=
  let deg := Real.pi / 180
  let vx := scale.x / 100 * (p.x - anchor.x)
  let vy := scale.y / 100 * (p.y - anchor.y)
  let dist := vx * Real.sin (axis * deg) + vy * Real.cos (axis * deg)
  let wx := vx + Real.tan (skew * deg) * dist * Real.cos (axis * deg)
  let wy := vy - Real.tan (skew * deg) * dist * Real.sin (axis * deg)
  let c := Real.cos (rotation * deg)
  let s := Real.sin (rotation * deg)
  ⟨position.x + (c * wx - s * wy), position.y + (s * wx + c * wy)⟩

end Velato
