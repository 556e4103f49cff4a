import Verif.Model.Player

/-!
# `/repo/examples/with_winit/src/stats.rs`: frame times and their display

`u64` and `usize` values are natural numbers; arithmetic that would overflow panics (as it does with
overflow checks).  Text is not modelled, only how many lines there are.
-/

namespace Velato
open FloatOps (lit)

/-- Panics of the example application.  Used at `stats.rs:23-178`, `lib.rs:329-330`. -/
inductive ViewerPanic where
  /-- an addition overflows -/
  | overflow
  /-- a subtraction underflows -/
  | underflow
  /-- `rem_euclid` by zero -/
  | remByZero
  /-- index out of bounds -/
  | index
  deriving DecidableEq, Repr, Inhabited

/-- `u64::MAX`.  Used at `stats.rs:23-178`. -/
def u64Max : Nat := 2 ^ 64 - 1

/-- `SLIDING_WINDOW_SIZE` (`stats.rs:11`). -/
def slidingWindow : Nat := 100

/-- `Stats` (`stats.rs:185-191`). -/
structure Stats where
  count : Nat
  sum : Nat
  min : Nat
  max : Nat
  samples : List Nat
  deriving DecidableEq, Repr, Inhabited

/-- `Stats::new` (`stats.rs:194-202`). -/
def Stats.new : Stats := ⟨0, 0, u64Max, 0, []⟩

/-- `Stats::clear_min_and_max` (`stats.rs:219-222`). -/
def Stats.clearMinAndMax (s : Stats) : Stats :=
  { s with
    min := u64Max
    max := 0 }

/-- `Stats::add_sample` (`stats.rs:224-239`). -/
def Stats.addSample (s : Stats) (micros : Nat) : Except ViewerPanic Stats :=
  let (count, oldest, samples) :=
    if s.count < slidingWindow then (s.count + 1, none, s.samples)
    else (s.count, s.samples.head?, s.samples.tail)
  if u64Max < s.sum + micros then .error .overflow
  else
    let sum := s.sum + micros
    let done (sum : Nat) : Stats :=
      ⟨count, sum, Nat.min s.min micros, Nat.max s.max micros, samples ++ [micros]⟩
    match oldest with
    | some oldest => if sum < oldest then .error .underflow else .ok (done (sum - oldest))
    | none => .ok (done sum)

section
variable {F : Type} [FloatOps F]

/-- `Snapshot` (`stats.rs:14-19`). -/
structure Snapshot (F : Type) where
  fps : F
  frameTimeMs : F
  frameTimeMinMs : F
  frameTimeMaxMs : F
  deriving DecidableEq, Repr, Inhabited

/-- `Stats::snapshot` (`stats.rs:208-217`). -/
def Stats.snapshot (s : Stats) : Snapshot F :=
  let frameTimeMs := (FloatOps.ofUsize s.sum /. FloatOps.ofUsize s.count) *. lit (1 / 1000)
  { fps := lit 1000 /. frameTimeMs
    frameTimeMs := frameTimeMs
    frameTimeMinMs := FloatOps.ofUsize s.min *. lit (1 / 1000)
    frameTimeMaxMs := FloatOps.ofUsize s.max *. lit (1 / 1000) }

/-- `round_up` (`stats.rs:242-244`); the final `+ f` is checked, too. -/
def roundUp (n f : Nat) : Except ViewerPanic Nat :=
  if n = 0 then .error .underflow
  else if u64Max < n - 1 - (n - 1) % f + f then .error .overflow
  else .ok (n - 1 - (n - 1) % f + f)

/-- The scale of the graph (`stats.rs:120-124`). -/
def Snapshot.displayMax (s : Snapshot F) : Except ViewerPanic F :=
  if (lit 3 *. s.frameTimeMs) <. s.frameTimeMaxMs then do
    .ok (FloatOps.ofUsize (← roundUp (FloatOps.toUsize (lit (133334 / 100000) *. s.frameTimeMs)) 5))
  else .ok s.frameTimeMaxMs

/-- What is drawn for the statistics, without text: a rectangle, bars (with the red, green and blue value of
their colour), lines.  Used at `stats.rs:23-178`. -/
inductive PanelOp (F : Type) where
  | background (transform : Affine F) (width height : F)
  | bar (transform : Affine F) (rgb : Nat × Nat × Nat) (path : List (PathEl F))
  | line (width : F) (transform : Affine F) (path : List (PathEl F))
  deriving DecidableEq, Repr, Inhabited

/-- The colour of a bar (`stats.rs:132-136`). -/
def barColor (sample : Nat) : Nat × Nat × Nat :=
  if sample ≤ 16667 then (100, 143, 255)
  else if sample ≤ 33334 then (255, 176, 0)
  else (220, 38, 127)

/-- The height of a bar, as a part of the height of the graph (`stats.rs:128-129`). -/
def barHeight (sample : Nat) (displayMax : F) : F :=
  fmin (FloatOps.ofUsize sample *. lit (1 / 1000)) displayMax /. displayMax

/-- `Snapshot::draw_layer` without its text (`stats.rs:23-178`); `labels` is the number of lines of text
(`stats.rs:51-75`). -/
def Snapshot.drawLayer (s : Snapshot F) (vw vh : F) (samples : List Nat) (labels : Nat) :
    Except ViewerPanic (List (PanelOp F)) := do
  let width := clamp (vw *. lit (4 / 10)) (lit 200) (lit 600)
  let height := width *. lit (7 / 10)
  let offset := Affine.translate ⟨vw -. width, vh -. height⟩
  let textHeight := height *. lit (5 / 10) /. FloatOps.ofUsize (1 + labels)
  let leftMargin := width *. lit (1 / 100)
  let leftPadding := width *. lit (5 / 100)
  let graphMaxHeight := height *. lit (5 / 10)
  let graphMaxWidth := width -. lit 2 *. leftMargin -. leftPadding
  let leftMarginPadding := leftMargin +. leftPadding
  let barExtent := graphMaxWidth /. FloatOps.ofUsize slidingWindow
  let barWidth := barExtent *. lit (4 / 10)
  let bar := [.moveTo ⟨lit 0, graphMaxHeight⟩, .lineTo ⟨lit 0, lit 0⟩, .lineTo ⟨barWidth, lit 0⟩,
    .lineTo ⟨barWidth, graphMaxHeight⟩]
  let displayMax ← s.displayMax
  let bars := samples.zipIdx.map fun (sample, i) =>
    let t := offset.mul (.translate ⟨FloatOps.ofUsize i *. barExtent, graphMaxHeight⟩)
    let s := Affine.scaleNonUniform (lit 1) (FloatOps.neg (barHeight sample displayMax))
    PanelOp.bar ((t.mul (.translate ⟨leftMarginPadding, FloatOps.ofUsize (1 + labels) *. textHeight⟩)).mul s)
      (barColor sample) bar
  let marker := [.moveTo ⟨lit 0, graphMaxHeight⟩, .lineTo ⟨graphMaxWidth, graphMaxHeight⟩]
  let thresholds : List F := [lit (833 / 100), lit (1666 / 100), lit (3333 / 100)]
  let lines := (thresholds.filter (· <. displayMax)).map fun t =>
    let y := t /. displayMax
    PanelOp.line (graphMaxHeight *. lit (1 / 100))
      (offset.mul (.translate ⟨leftMarginPadding, (lit 1 -. y) *. graphMaxHeight⟩)) marker
  .ok ([PanelOp.background offset width height] ++ bars ++ lines)

end
end Velato
