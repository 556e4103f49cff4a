import Verif.Model.Stats
import Verif.Spec.Player

/-!
# Specification: sequences of frame times

Used by the statements about the statistics of the example application (C93, C94).
-/

namespace Velato

/-- What happens to the statistics: a frame took some microseconds, or the extreme values are cleared. -/
inductive StatsEvent where
  | frame (micros : Nat)
  | clear
  deriving DecidableEq, Repr

/-- The effect of an event. -/
def Stats.step (s : Stats) : StatsEvent → Except ViewerPanic Stats
  | .frame n => s.addSample n
  | .clear => .ok s.clearMinAndMax

/-- The statistics after some events. -/
def Stats.after (evs : List StatsEvent) : Except ViewerPanic Stats := evs.foldlM Stats.step Stats.new

/-- All frame times, the first one first. -/
def frameTimes (evs : List StatsEvent) : List Nat :=
  evs.filterMap fun
    | .frame n => some n
    | .clear => none

/-- The frame times after the last time the extreme values were cleared. -/
def timesSinceClear (evs : List StatsEvent) : List Nat :=
  frameTimes (evs.reverse.takeWhile (· ≠ .clear)).reverse

/-- The last `n` elements of a list (all of them, if there are fewer). -/
def lastN {α : Type} (n : Nat) (l : List α) : List α := l.drop (l.length - n)

/-- The points of a path without curves. -/
def linePoints {F : Type} : List (PathEl F) → List (P2 F)
  | [] => []
  | .moveTo p :: es => p :: linePoints es
  | .lineTo p :: es => p :: linePoints es
  | _ :: es => linePoints es

/-- The colour and the corners of a bar, in the window. -/
def PanelOp.bar? {F : Type} [FloatOps F] : PanelOp F → Option ((Nat × Nat × Nat) × List (P2 F))
  | .bar T rgb path => some (rgb, (linePoints path).map T.apply)
  | _ => none

/-- The ends of a line, in the window. -/
def PanelOp.line? {F : Type} [FloatOps F] : PanelOp F → Option (List (P2 F))
  | .line _ T path => some ((linePoints path).map T.apply)
  | _ => none

/-- The width of a line. -/
def PanelOp.lineWidth? {F : Type} : PanelOp F → Option F
  | .line w _ _ => some w
  | _ => none

/-- The upper left and the lower right corner of the background, in the window. -/
def PanelOp.background? {F : Type} [FloatOps F] : PanelOp F → Option (P2 F × P2 F)
  | .background T w h => some (T.apply ⟨FloatOps.lit 0, FloatOps.lit 0⟩, T.apply ⟨w, h⟩)
  | _ => none

/-- The width of the panel in a window of a width. -/
noncomputable def panelWidth (vw : ℝ) : ℝ := max 200 (min (vw * (4 / 10)) 600)

/-- The height of the graph, the lower half of the panel. -/
noncomputable def graphHeight (vw : ℝ) : ℝ := panelWidth vw * (7 / 10) / 2

end Velato
