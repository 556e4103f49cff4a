import Verif.Spec.Easing
import Verif.Model.Schema

/-!
# What an animated property of a document shows, in exact arithmetic
-/

namespace Velato

/-- Coordinate `c` of an easing handle as the format has it: one number for all coordinates, or one
number per coordinate, the last one standing for those that are missing. -/
def CoordOf {F : Type} (c : Nat) : Schema.KeyframeComponent F → F → Prop
  | .singleValue x, y => y = x
  | .arrayOfValues xs, y => xs[c]? = some y ∨ (xs.length ≤ c ∧ xs.getLast? = some y)

/-- The easing handle of a keyframe for coordinate `c`; `(d, d)` if there is none. -/
def EasingHandleOf {F : Type} (c : Nat) (d : F) :
    Option (Schema.KeyframeBezierHandle F) → EasingHandle F → Prop
  | none, e => e = ⟨d, d⟩
  | some h, e => CoordOf c h.x e.x ∧ CoordOf c h.y e.y

/-- The progress `e` at weight `w` on the easing curve with handles `o` and `i`: the height of the
curve where its first coordinate is `w`.  The curve is prolonged by `1e-11` at both ends, which
matters only within `1e-21` of them (compare C08). -/
def OnEasingCurve (o i : EasingHandle ℝ) (w e : ℝ) : Prop :=
  ∃ u, bez o.x i.x u = w ∧ e = bez o.y i.y u ∧ -(1 / 10 ^ 11) ≤ u ∧ u ≤ 1 + 1 / 10 ^ 11 ∧
    (1 / 10 ^ 21 ≤ w → w ≤ 1 - 1 / 10 ^ 21 → 0 ≤ u ∧ u ≤ 1)

/-- Coordinate `c` of a property with the keyframes and values `ks` is `x` at `frame`: before the
first keyframe its value, from the last one on the value of that; in between the values are mixed
as the handles of the earlier keyframe say, or held. -/
def Shown (c : Nat) (ks : List (Schema.KeyframeBase ℝ × ℝ)) (frame x : ℝ) : Prop :=
  (∃ b v, ks.head? = some (b, v) ∧ frame < b.time ∧ x = v) ∨
  (∃ b v, ks.getLast? = some (b, v) ∧ b.time ≤ frame ∧ x = v) ∨
  ∃ (k : Nat) (b0 : Schema.KeyframeBase ℝ) (v0 : ℝ) (b1 : Schema.KeyframeBase ℝ) (v1 : ℝ),
    ks[k]? = some (b0, v0) ∧ ks[k + 1]? = some (b1, v1) ∧ b0.time ≤ frame ∧ frame < b1.time ∧
    (b0.hold = some .true → x = v0) ∧
    (b0.hold ≠ some .true → ∃ o i e, EasingHandleOf c 0 b0.outTangent o ∧
      EasingHandleOf c 1 b0.inTangent i ∧ x = v0 + (v1 - v0) * e ∧
      (0 ≤ o.x ∧ o.x ≤ 1 → 0 ≤ i.x ∧ i.x ≤ 1 →
        OnEasingCurve o i ((frame - b0.time) / (b1.time - b0.time)) e))

/-- The keyframes are in order. -/
def InOrder {K : Type} (base : K → Schema.KeyframeBase ℝ) (ks : List K) : Prop :=
  ks.Pairwise fun a b => (base a).time < (base b).time

/-- A handle that is the same for all coordinates. -/
def SameForAll {F : Type} (h : Schema.KeyframeBezierHandle F) : Prop :=
  ∃ e : EasingHandle F,
    (match h.x with | .singleValue x => x = e.x | .arrayOfValues xs => xs ≠ [] ∧ ∀ x ∈ xs, x = e.x) ∧
    (match h.y with | .singleValue y => y = e.y | .arrayOfValues ys => ys ≠ [] ∧ ∀ y ∈ ys, y = e.y)

/-- The keyframe has both handles or none, and they are the same for all coordinates. -/
def OneEasing {F : Type} (b : Schema.KeyframeBase F) : Prop :=
  (b.inTangent = none ∧ b.outTangent = none) ∨
  ∃ i o, b.inTangent = some i ∧ b.outTangent = some o ∧ SameForAll i ∧ SameForAll o

end Velato
