import Verif.Model.Touch
import Verif.Num.Real
import Mathlib.Analysis.SpecialFunctions.Complex.Arg

/-!
# Specification: fingers

Used by the statements about gestures (C95, C96).
-/

namespace Velato

/-- For real numbers, `atan2 y x` is the argument of `x + iy`. -/
noncomputable instance : Atan2 ℝ where
  atan2 y x := Complex.arg ⟨x, y⟩

section
variable {F : Type}

/-- Where a finger is after some events, given where it was before them. -/
def fingerFrom (id : Nat) (start : Option (P2 F)) (evs : List (TouchEvent F)) : Option (P2 F) :=
  evs.foldl (fun o e =>
    if e.id = id then
      match e.phase, o with
      | .started, _ => some e.location
      | .moved, some _ => some e.location
      | .moved, none => none
      | .ended, _ => none
      | .cancelled, _ => none
    else o) start

/-- A list of fingers is in the order of their ids, and says where they are. -/
def ListsFingers (l : List (Nat × P2 F)) (at_ : Nat → Option (P2 F)) : Prop :=
  l.Pairwise (fun a b => a.1 < b.1) ∧ ∀ id p, (id, p) ∈ l ↔ at_ id = some p

/-- The state of the touches after frames with some events each. -/
def TouchState.afterFrames [FloatOps F] [Libm F] [Atan2 F] (frames : List (List (TouchEvent F))) : TouchState F :=
  frames.foldl (fun s evs => (evs.foldl TouchState.addEvent s).endFrame) TouchState.new

/-- The fingers at the end of each frame. -/
def touchHistory [FloatOps F] [Libm F] [Atan2 F] (frames : List (List (TouchEvent F))) :
    List (List (Nat × P2 F)) :=
  (List.range frames.length).map fun k => (TouchState.afterFrames (frames.take (k + 1))).activeTouches

/-- The fingers at the end of the first frame of the gesture: the frames at the end in which there are
fingers. -/
def gestureStart (history : List (List (Nat × P2 F))) : List (Nat × P2 F) :=
  ((history.reverse.takeWhile fun l => !l.isEmpty).getLast?).getD []

/-- A finger was put down or lifted. -/
def fingersChanged (evs : List (TouchEvent F)) : Bool := evs.any fun e => e.phase ≠ .moved

end

/-- The average position. -/
noncomputable def centroid (l : List (Nat × P2 ℝ)) : P2 ℝ :=
  ⟨(l.map fun t => t.2.x).sum / l.length, (l.map fun t => t.2.y).sum / l.length⟩

/-- The average distance from the average position. -/
noncomputable def spread (l : List (Nat × P2 ℝ)) : ℝ :=
  (l.map fun t => Real.sqrt (((centroid l).x - t.2.x) ^ 2 + ((centroid l).y - t.2.y) ^ 2)).sum / l.length

/-- The average horizontal and vertical distances from the average position. -/
noncomputable def spreadX (l : List (Nat × P2 ℝ)) : ℝ :=
  (l.map fun t => |(centroid l).x - t.2.x|).sum / l.length
noncomputable def spreadY (l : List (Nat × P2 ℝ)) : ℝ :=
  (l.map fun t => |(centroid l).y - t.2.y|).sum / l.length

/-- The point of the plane as a complex number, and back. -/
noncomputable def P2.toC (p : P2 ℝ) : ℂ := ⟨p.x, p.y⟩
noncomputable def P2.ofC (z : ℂ) : P2 ℝ := ⟨z.re, z.im⟩

/-- The direction from the first finger to the average position. -/
noncomputable def heading : List (Nat × P2 ℝ) → ℝ
  | [] => 0
  | (i, p) :: l => Complex.arg ((centroid ((i, p) :: l)).toC - p.toC)

/-- Fingers moved by a similarity: rotated and scaled by `u`, then moved by `v`. -/
noncomputable def moveFingers (u v : ℂ) (l : List (Nat × P2 ℝ)) : List (Nat × P2 ℝ) :=
  l.map fun t => (t.1, P2.ofC (u * t.2.toC + v))

open Classical in
/-- The kind of gesture that fingers begin: two fingers side by side (three times as far from each other
horizontally as vertically) zoom horizontally, two fingers one above the other vertically, all others in both
directions. -/
noncomputable def pinchOf (fingers : List (Nat × P2 ℝ)) : PinchType :=
  if ∃ i j p q, fingers = [(i, p), (j, q)] ∧ 3 * |p.y - q.y| < |p.x - q.x| then .horizontal
  else if ∃ i j p q, fingers = [(i, p), (j, q)] ∧ 3 * |p.x - q.x| < |p.y - q.y| then .vertical
  else .proportional

end Velato
