import Verif.Model.Fixed
import Verif.Num.F64

/-!
# Vocabulary for statements about paths
-/

namespace Velato
open FloatOps (lit)

section
variable {F : Type} [FloatOps F]

/-- The `i`-th point of a list of coordinate pairs, zero if missing. -/
def pointAt (l : List (F × F)) (i : Nat) : P2 F :=
  match l[i]? with
  | some t => ⟨t.1, t.2⟩
  | none => ⟨lit 0, lit 0⟩

/-- The path element from vertex `p0` (outgoing tangent `o`) to vertex `p1` (incoming tangent
`i`): a cubic with control points tangent + vertex, or a line if both control points coincide with
their vertices. -/
def bezierSegment (p0 o p1 i : P2 F) : PathEl F :=
  if (o.x +. p0.x ==. p0.x) && (o.y +. p0.y ==. p0.y) &&
      ((i.x +. p1.x ==. p1.x) && (i.y +. p1.y ==. p1.y))
  then .lineTo p1
  else .curveTo ⟨o.x +. p0.x, o.y +. p0.y⟩ ⟨i.x +. p1.x, i.y +. p1.y⟩ p1

end

/-- Two doubles are identical, or zeros of any sign. -/
def F64.Same (x y : F64) : Prop := x = y ∨ (x ==. y) = true

/-- Points with the same coordinates up to the sign of zeros. -/
def P2.Same (p q : P2 F64) : Prop := F64.Same p.x q.x ∧ F64.Same p.y q.y

/-- Path elements of the same kind with the same points up to the sign of zeros. -/
inductive PathEl.Same : PathEl F64 → PathEl F64 → Prop
  | moveTo {p q} : p.Same q → PathEl.Same (.moveTo p) (.moveTo q)
  | lineTo {p q} : p.Same q → PathEl.Same (.lineTo p) (.lineTo q)
  | quadTo {p1 p2 q1 q2} : p1.Same q1 → p2.Same q2 → PathEl.Same (.quadTo p1 p2) (.quadTo q1 q2)
  | curveTo {p1 p2 p3 q1 q2 q3} : p1.Same q1 → p2.Same q2 → p3.Same q3 →
      PathEl.Same (.curveTo p1 p2 p3) (.curveTo q1 q2 q3)
  | closePath : PathEl.Same .closePath .closePath

/-- The same path up to the sign of zeros. -/
def SamePath (p q : List (PathEl F64)) : Prop := List.Forall₂ PathEl.Same p q

end Velato
