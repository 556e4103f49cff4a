import Verif.Model.Player
import Verif.Spec.Render
import Verif.Spec.TrimCurve
import Verif.Num.Real

/-!
# Specification: what a layer covers, what is smallest

Used by the statements about the player and the picking of layers (C88 – C92).
-/

namespace Velato

section
variable {F : Type} [FloatOps F] [KurboBox F]

omit [KurboBox F] in
/-- The point is in the rectangle; of the sides, the left and the upper one belong to it. -/
def KRect.covers (r : KRect F) (p : P2 F) : Bool :=
  ((r.x0 <=. p.x) && (p.x <. r.x1)) && ((r.y0 <=. p.y) && (p.y <. r.y1))

/-- The boxes of what is drawn by a list of calls, in order. -/
def drawnBoxes (ops : List (Op F)) : List (KRect F) :=
  ops.filterMap fun
    | .draw _ T _ path => some (T.transformRectBbox (boundingBox path))
    | _ => none

/-- The rectangle around what is drawn by a list of calls, `none` if nothing is drawn. -/
def drawnBox (ops : List (Op F)) : Option (KRect F) :=
  match drawnBoxes ops with
  | [] => none
  | b :: bs => some (bs.foldl KRect.union b)

end

section
variable {F : Type} [FloatOps F] [Libm F] [Kurbo F]

/-- `per` lists the calls of each layer of the composition at a frame, the front-most layer first; layers
marked as mattes are not drawn for themselves. -/
def LayersDrawn (c : Composition F) (fr : F) (per : List (List (Op F))) : Prop :=
  List.Forall₂ (fun (p : Layer F × Nat) os =>
    if p.1.isMask then os = [] else LayerCalls c c.layers p.1 p.2 Affine.identity (FloatOps.lit 1) fr os)
    c.layers.zipIdx per

end

/-- The point is in the rectangle, borders included. -/
def KRect.Has (r : KRect ℝ) (p : P2 ℝ) : Prop := r.x0 ≤ p.x ∧ p.x ≤ r.x1 ∧ r.y0 ≤ p.y ∧ p.y ≤ r.y1

/-- `r` is the smallest rectangle (with sides parallel to the axes) around the points. -/
def KRect.IsHull (r : KRect ℝ) (S : Set (P2 ℝ)) : Prop :=
  (∀ p ∈ S, r.Has p) ∧
    ∀ r' : KRect ℝ, (∀ p ∈ S, r'.Has p) → r'.x0 ≤ r.x0 ∧ r.x1 ≤ r'.x1 ∧ r'.y0 ≤ r.y0 ∧ r.y1 ≤ r'.y1

/-- kurbo's bounding boxes of segments are exact. -/
def ExactBoxes [KurboBox ℝ] : Prop :=
  ∀ s : PathSeg ℝ, (KurboBox.segBox s).IsHull {p | ∃ t : ℝ, 0 ≤ t ∧ t ≤ 1 ∧ p = s.at t}

/-- The point lies on the path. -/
def OnPath (path : List (PathEl ℝ)) (p : P2 ℝ) : Prop :=
  ∃ s ∈ segments path, ∃ t : ℝ, 0 ≤ t ∧ t ≤ 1 ∧ p = s.at t

end Velato
