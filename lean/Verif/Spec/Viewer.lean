import Verif.Model.Viewer
import Verif.Spec.Stats
import Verif.Spec.Touch
import Verif.Spec.Transforms

/-!
# Specification: the window of the example application

Used by the statements about the viewer (C97 to C100).
-/

namespace Velato

/-- The transform is a similarity that preserves orientation: multiplication with a complex number, and a
translation. -/
def Affine.IsSimilarity (m : Affine ℝ) : Prop := m.d = m.a ∧ m.c = -m.b

/-- Fingers that are not all at the same place (or only one, or none). -/
def FingersApart (l : List (Nat × P2 ℝ)) : Prop := 1 < l.length → ¬ ∃ p, ∀ t ∈ l, t.2 = p

/-- By how many scenes a touch in a window navigates: the lower third of the window is for navigation, its
left third goes back, its right third goes on. -/
noncomputable def touchNavigates (w h : Nat) (e : TouchEvent ℝ) : Int :=
  if e.phase = .started ∧ (h : ℝ) * 2 / 3 < e.location.y then
    if e.location.x < (w : ℝ) / 3 then -1 else if 2 * (w : ℝ) / 3 < e.location.x then 1 else 0
  else 0

/-- By how many scenes some events navigate, where the window has a size at first. -/
noncomputable def navigation : Nat → Nat → List (ViewerEvent ℝ) → Int
  | _, _, [] => 0
  | _, _, .resized w h :: es => navigation w h es
  | w, h, .arrowLeft :: es => navigation w h es - 1
  | w, h, .arrowRight :: es => navigation w h es + 1
  | w, h, .touch e :: es => navigation w h es + touchNavigates w h e
  | w, h, _ :: es => navigation w h es

/-- By how many antialiasing methods some events (the key M, with or without shift) go on. -/
def antialiasingSteps : Bool → List (ViewerEvent ℝ) → Int
  | _, [] => 0
  | _, .modifiersChanged s :: es => antialiasingSteps s es
  | s, .nextAntialiasing :: es => antialiasingSteps s es + (if s then -1 else 1)
  | s, _ :: es => antialiasingSteps s es

/-- What the events do to the statistics: a frame that is presented adds its time, the key C clears the extreme
values. -/
def statsEvents (es : List (ViewerEvent ℝ)) : List StatsEvent :=
  es.filterMap fun
    | .redraw _ _ (some micros) => some (.frame micros)
    | .clearStats => some .clear
    | _ => none

/-- The statistics are displayed at first; the key S hides them or shows them again. -/
def statsVisible : List (ViewerEvent ℝ) → Bool
  | [] => true
  | .toggleStats :: es => !statsVisible es
  | _ :: es => statsVisible es

/-- The statistics cannot be drawn after these events: the largest of the frame times since the extreme values
were cleared is more than three times the average of the last hundred frame times, which is less than three
quarters of a millisecond (times are in microseconds). -/
def StatsBroken (es : List (ViewerEvent ℝ)) : Prop :=
  let times := lastN 100 (frameTimes (statsEvents es))
  3 * times.sum < (timesSinceClear (statsEvents es)).foldl Nat.max 0 * times.length ∧
    133334 * times.sum < 100000000 * times.length

/-- The size of the window after some events. -/
def sizeAfter : Nat × Nat → List (ViewerEvent ℝ) → Nat × Nat
  | s, [] => s
  | _, .resized w h :: es => sizeAfter (w, h) es
  | s, _ :: es => sizeAfter s es

/-- Where the cursor is after some events, if it is in the window. -/
def cursorAfter : Option (P2 ℝ) → List (ViewerEvent ℝ) → Option (P2 ℝ)
  | c, [] => c
  | _, .cursorMoved p :: es => cursorAfter (some p) es
  | _, .cursorLeft :: es => cursorAfter none es
  | c, _ :: es => cursorAfter c es

/-- The number set with the keys up and down. -/
def complexityAfter : Nat → List (ViewerEvent ℝ) → Nat
  | k, [] => k
  | k, .arrowUp :: es => complexityAfter (k + 1) es
  | k, .arrowDown :: es => complexityAfter (k - 1) es
  | k, _ :: es => complexityAfter k es

/-- The arrow key that does what a touch at a place of the lower third of a window does. -/
noncomputable def touchKey (w : Nat) (p : P2 ℝ) : List (ViewerEvent ℝ) :=
  if p.x < (w : ℝ) / 3 then [.arrowLeft] else if 2 * (w : ℝ) / 3 < p.x then [.arrowRight] else []

/-- The event is a touch of a finger. -/
def ViewerEvent.byFinger (id : Nat) : ViewerEvent ℝ → Bool
  | .touch e => e.id = id
  | _ => false

end Velato
