import Verif.Spec.Timeline
import Verif.Spec.PlayedAs
import Verif.Spec.Paint
import Verif.Spec.Accuracy

/-!
# Specification: the colours, widths and gradients of fills and strokes, in double precision

What the document says is read off its keyframes (`ShownNear`), with the handles of `PlayedAs` for colours and points (C68).
-/

set_option exponentiation.threshold 2000

namespace Velato
open FloatOps (lit)
open F64

/-- The number is static, or has ordinary keyframes with values up to 8000. -/
def OrdinaryNumber (p : Schema.FloatValue F64) : Prop :=
  ∀ ks, p.value = .animatedValue ks → ks ≠ [] ∧ OrdinaryTimes (·.base) ks ∧ ∀ k ∈ ks, ∀ x ∈ k.value, x.Between (-8000) 8000

/-- All lists of numbers of the property have at least `n` numbers, all of them from `lo` to `hi`; if it is animated, there is a
keyframe, and the keyframes are ordinary. -/
def OrdinaryLists (n : Nat) (lo hi : ℝ) (p : Schema.AnimatedProperty F64 (List F64)) : Prop :=
  match p.value with
  | .static xs => n ≤ xs.length ∧ ∀ x ∈ xs, x.Between lo hi
  | .animatedValue ks => ks ≠ [] ∧ OrdinaryTimes (·.base) ks ∧ ∀ k ∈ ks, n ≤ k.value.length ∧ ∀ x ∈ k.value, x.Between lo hi

/-- The properties of a gradient, and their keyframes, are ordinary: coordinates up to 8000, at least one stop, numbers of stops
from 0 to 1. -/
def OrdinaryGradient (g : Schema.BaseGradient F64) : Prop :=
  1 ≤ g.colors.count ∧
  OrdinaryLists 2 (-8000) 8000 g.startPoint.animatedProperty ∧ OrdinaryLists 2 (-8000) 8000 g.endPoint.animatedProperty ∧
  OrdinaryLists (4 * g.colors.count) 0 1 g.colors.colors.animatedProperty

/-- The properties of a fill or stroke, and their keyframes, are ordinary. -/
def OrdinaryPaint : Schema.AnyShape F64 → Prop
  | .fill s => OrdinaryLists 3 0 1 s.color
  | .stroke s => OrdinaryNumber s.baseStroke.width ∧ OrdinaryLists 3 0 1 s.strokeColor
  | .gradientFill s => OrdinaryGradient s.gradient
  | .gradientStroke s => OrdinaryNumber s.baseStroke.width ∧ OrdinaryGradient s.gradient
  | _ => True

section
variable [Kurbo F64]

/-- `x` is what the property says about its number at the frame, up to `e`. -/
def NumberNear (δ e : ℝ) (p : Schema.FloatValue F64) (frame x : F64) : Prop :=
  match p.value with
  | .static y => x = y
  | .animatedValue ks => ShownNear 0 δ e (ks.map fun k => (k.base, k.value.headD (lit 0))) frame x

/-- `x` is what the property says about number `j` of its lists at the frame, up to `e`.  `R` tells how the times and handles of the
keyframes are used. -/
def SaysNear (R : Schema.KeyframeBase F64 → Schema.KeyframeBase F64 → Prop) (δ e : ℝ)
    (p : Schema.AnimatedProperty F64 (List F64)) (j : Nat) (frame x : F64) : Prop :=
  match p.value with
  | .static ys => x.isFin = true ∧ |x.toR - (ys.getD j (lit 0)).toR| ≤ e
  | .animatedValue ks => ∃ b : Schema.Keyframe F64 → Schema.KeyframeBase F64, (∀ k, R k.base (b k)) ∧
      ShownNear 0 δ e (ks.map fun k => (b k, k.value.getD j (lit 0))) frame x

/-- A point of a gradient is right up to `1 / 10^5`. -/
def PointNear (δ : ℝ) (p : Schema.MultiDimensional F64) (frame : F64) (v : P2 F64) : Prop :=
  SaysNear PlayedAs δ (1 / 10 ^ 5) p.animatedProperty 0 frame v.x ∧ SaysNear PlayedAs δ (1 / 10 ^ 5) p.animatedProperty 1 frame v.y

/-- A single colour whose red, green and blue are right up to `2^-22`. -/
def SolidNear (δ : ℝ) (p : Schema.ColorValue F64) (frame : F64) (b : Brush F64) : Prop :=
  ∃ c, b = .solid c ∧ SaysNear PlayedAs δ (1 / 2 ^ 22) p 0 frame c.r ∧ SaysNear PlayedAs δ (1 / 2 ^ 22) p 1 frame c.g ∧
    SaysNear PlayedAs δ (1 / 2 ^ 22) p 2 frame c.b

/-- A gradient of the declared type, with the declared number of stops, red, green and blue of which are right up to `2^-23`, and
the offsets, too, which take no notice of holds (C135).  The points are right up to `1 / 10^5`, and the radius is the distance of
these points up to `1 / 500`. -/
def GradientNear (δ : ℝ) (g : Schema.BaseGradient F64) (frame : F64) (b : Brush F64) : Prop :=
  ∃ kind stops start stop, b = .gradient kind stops ∧ PointNear δ g.startPoint frame start ∧ PointNear δ g.endPoint frame stop ∧
    (g.gradientType = some .radial → ∃ r, kind = .radial start r ∧ r.isFin = true ∧
      |r.toR - Real.sqrt ((stop.x.toR - start.x.toR) ^ 2 + (stop.y.toR - start.y.toR) ^ 2)| ≤ 1 / 500) ∧
    (g.gradientType ≠ some .radial → kind = .linear start stop) ∧
    stops.length = g.colors.count ∧ ∀ i < g.colors.count, ∃ st, stops[i]? = some st ∧
      SaysNear (fun b b' => b' = { b with hold := none }) δ (1 / 2 ^ 23) g.colors.colors.animatedProperty (4 * i) frame st.offset ∧
      SaysNear (fun b b' => b' = b) δ (1 / 2 ^ 23) g.colors.colors.animatedProperty (4 * i + 1) frame st.color.r ∧
      SaysNear (fun b b' => b' = b) δ (1 / 2 ^ 23) g.colors.colors.animatedProperty (4 * i + 2) frame st.color.g ∧
      SaysNear (fun b b' => b' = b) δ (1 / 2 ^ 23) g.colors.colors.animatedProperty (4 * i + 3) frame st.color.b

/-- The stroke style is the declared one, the width right up to `1 / 10^5`. -/
def StrokeNear (δ : ℝ) (s : Schema.BaseStroke F64) (dj : Schema.LineJoin) (dc : Schema.LineCap) (frame : F64)
    (st : Option (KStroke F64)) : Prop :=
  ∃ k, st = some k ∧ NumberNear δ (1 / 10 ^ 5) s.width frame k.width ∧ StrokeAt s dj dc frame k

/-- A fill or stroke is drawn with the stroke style and the brush that the document says (but for the opacity of the brush,
which is the subject of C132). -/
def PaintNear (δ : ℝ) (frame : F64) (st : Option (KStroke F64)) (b : Brush F64) : Schema.AnyShape F64 → Prop
  | .fill s => st = none ∧ SolidNear δ s.color frame b
  | .stroke s => StrokeNear δ s.baseStroke .bevel .butt frame st ∧ SolidNear δ s.strokeColor frame b
  | .gradientFill s => st = none ∧ GradientNear δ s.gradient frame b
  | .gradientStroke s => StrokeNear δ s.baseStroke .round .round frame st ∧ GradientNear δ s.gradient frame b
  | _ => False

end

end Velato
