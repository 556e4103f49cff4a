import Verif.Model.Kurbo
import Verif.Model.Fault

/-!
# `/repo/src/runtime/model/value.rs`
-/

namespace Velato
open FloatOps (lit)

/-- `EasingHandle` (`value.rs:87-91`). -/
structure EasingHandle (F : Type) where
  x : F
  y : F
  deriving DecidableEq, Repr, Inhabited

/-- `Easing` (`value.rs:74-78`). -/
structure Easing (F : Type) where
  o : EasingHandle F
  i : EasingHandle F
  deriving DecidableEq, Repr, Inhabited

/-- `Easing::LERP` (`value.rs:80-85`). -/
def Easing.lerp {F : Type} [FloatOps F] : Easing F := ⟨⟨lit 0, lit 0⟩, ⟨lit 1, lit 1⟩⟩

/-- `Time` (`value.rs:93-104`). -/
structure Time (F : Type) where
  frame : F
  inTangent : Option (EasingHandle F)
  outTangent : Option (EasingHandle F)
  hold : Bool
  deriving DecidableEq, Repr, Inhabited

/-- The loop of `<[T]>::binary_search_by` in std:
`while size > 1 { half = size/2; mid = base+half; base = if f(mid)==Greater {base} else {mid};
size -= half }`.  `mid < len` always holds; the `none` branch is unreachable.  Used at
`value.rs:117`. -/
def bsearchLoop {α : Type} (l : List α) (f : α → Ordering) (base size : Nat) : Nat :=
  if _h : 1 < size then
    let half := size / 2
    let mid := base + half
    let base' := match l[mid]? with
      | some x => if f x == .gt then base else mid
      | none => base
    bsearchLoop l f base' (size - half)
  else base
termination_by size
decreasing_by omega

/-- `<[T]>::binary_search_by` (std): `ok ix` for `Ok(ix)`, `error ix` for `Err(ix)`.  Used at
`value.rs:117`. -/
def binarySearchBy {α : Type} (l : List α) (f : α → Ordering) : Except Nat Nat :=
  if l.length = 0 then .error 0 else
  let base := bsearchLoop l f 0 l.length
  match l[base]? with
  | some x =>
    match f x with
    | .eq => .ok base
    | .lt => .error (base + 1)
    | .gt => .error base
  | none => .error base

section
variable {F : Type} [FloatOps F]

/-- The comparison closure (`value.rs:117-125`). -/
def Time.cmpFrame (frame : F) (x : Time F) : Ordering :=
  if x.frame <. frame then .lt else if frame <. x.frame then .gt else .eq

/-- `value.rs:117-128`: the index found, `Err` saturating-decremented. -/
def Time.search (times : List (Time F)) (frame : F) : Nat :=
  match binarySearchBy times (Time.cmpFrame frame) with
  | .ok ix => ix
  | .error ix => ix - 1

/-- `value.rs:134-139`: the easing used from a keyframe to the next. -/
def Time.easing (t0 : Time F) : Easing F :=
  let o := match t0.outTangent with
    | some o => (o.x, o.y)
    | none => (lit 0, lit 0)
  let i := match t0.inTangent with
    | some i => (i.x, i.y)
    | none => (lit 1, lit 1)
  ⟨⟨o.1, o.2⟩, ⟨i.1, i.2⟩⟩

/-- The result of `frames_and_weight`.  Used at `value.rs:109-147`. -/
structure FrameWeight (F : Type) where
  ix0 : Nat
  ix1 : Nat
  t : F
  easing : Easing F
  hold : Bool

/-- `Time::frames_and_weight` (`value.rs:109-143`).  The two slice accesses `times[ix0]` and
`times[ix1]` carry proofs that they are in bounds, so the panic of the Rust indexing is ruled
out here by the type checker. -/
def Time.framesAndWeight (times : List (Time F)) (frame : F) : Option (FrameWeight F) :=
  if h : times.length = 0 then none else
  let ix := Time.search times frame
  let ix0 := min ix (times.length - 1)
  let ix1 := min (ix0 + 1) (times.length - 1)
  let t0 := times[ix0]'(by omega)
  let t1 := times[ix1]'(by omega)
  let t := (frame -. t0.frame) /. (t1.frame -. t0.frame)
  some ⟨ix0, ix1, clamp t (lit 0) (lit 1), t0.easing, t0.hold⟩

/-- `&v[i]` with the panic of slice indexing.  Used at `value.rs:158-166`. -/
def indexPanic {α : Type} (l : List α) (i : Nat) : Except Fault α :=
  match l[i]? with
  | some x => .ok x
  | none => .error (.panic .sliceIndex)

/-- `Time::frames_and_weight` (`value.rs:109-143`) again, with the slice accesses as panicking
operations.  `C01_no_panic` proves that it is the function above. -/
def Time.framesAndWeightRaw (times : List (Time F)) (frame : F) :
    Except Fault (Option (FrameWeight F)) := do
  if times.length = 0 then return none
  let ix := Time.search times frame
  let ix0 := min ix (times.length - 1)
  let ix1 := min (ix0 + 1) (times.length - 1)
  let t0 ← indexPanic times ix0
  let t1 ← indexPanic times ix1
  let t := (frame -. t0.frame) /. (t1.frame -. t0.frame)
  return some ⟨ix0, ix1, clamp t (lit 0) (lit 1), t0.easing, t0.hold⟩

/-- The tests on candidate roots: `(-eps..=1.0 + eps).contains(&r)` (`value.rs:215`). -/
def rootInRange (eps r : F) : Bool := (FloatOps.neg eps <=. r) && (r <=. (lit 1 +. eps))

/-- The parameter `u` of the easing curve at time `t` (`value.rs:198-223`). -/
def easeParam [Kurbo F] (t : F) (e : Easing F) : F :=
  let x0 : F := lit 0
  let x1 := e.o.x
  let x2 := e.i.x
  let x3 : F := lit 1
  let c0 := x0
  let c1 := lit 3 *. (x1 -. x0)
  let c2 := lit 3 *. (x2 -. lit 2 *. x1 +. x0)
  let c3 := x3 -. lit 3 *. x2 +. lit 3 *. x1 -. x0
  let maxCoeff := fmax (fmax (fmax (FloatOps.abs c0) (FloatOps.abs c1)) (FloatOps.abs c2))
    (FloatOps.abs c3)
  let eps := lit (1 / 1000000000000) *. fmax maxCoeff (lit 1)
  let roots := Kurbo.solveCubic (c0 -. t) c1 c2 c3
  match roots.find? (rootInRange eps) with
  | some r => r
  | none =>
    let valAt0 := FloatOps.abs (c0 -. t)
    let valAt1 := FloatOps.abs (c0 +. c1 +. c2 +. c3 -. t)
    if valAt0 <=. valAt1 then lit 0 else lit 1

/-- `Tween for f64` (`value.rs:174-230`). -/
def tweenScalar [Kurbo F] (v w t : F) (e : Easing F) : F :=
  if t <=. lit 0 then v
  else if lit 1 <=. t then w
  else
    let u := easeParam t e
    let easedY := cubicEvalY e.o.y e.i.y u
    v +. (w -. v) *. easedY

end

/-- The trait `Tween` (`value.rs:169-172`). -/
class Tween (F T : Type) where
  tween : T → T → F → Easing F → T

/-- `T::default()` of the value types.  Used at `value.rs:18-26,43-48`. -/
class RDefault (T : Type) where
  dflt : T

section
variable {F : Type} [FloatOps F]

/-- `Tween for f64` (`value.rs:174-230`). -/
instance [Kurbo F] : Tween F F where
  tween := tweenScalar

/-- `Tween` for `kurbo::Point`, `kurbo::Vec2`, `kurbo::Size` (`value.rs:232-257`). -/
instance [Kurbo F] : Tween F (P2 F) where
  tween v w t e := ⟨tweenScalar v.x w.x t e, tweenScalar v.y w.y t e⟩

/-- `Tween for peniko::Color` (`value.rs:259-269`). -/
instance [Kurbo F] : Tween F (Color F) where
  tween v w t e :=
    ⟨FloatOps.toF32 (tweenScalar v.r w.r t e), FloatOps.toF32 (tweenScalar v.g w.g t e),
     FloatOps.toF32 (tweenScalar v.b w.b t e), FloatOps.toF32 (tweenScalar v.a w.a t e)⟩

/-- `f64::default()` (`value.rs:22,45`). -/
instance : RDefault F where dflt := lit 0
/-- `Point::default()`, `Vec2::default()`, `Size::default()` (`value.rs:22,45`). -/
instance : RDefault (P2 F) where dflt := ⟨lit 0, lit 0⟩

end

/-- `Animated<T>` (`value.rs:146-150`). -/
structure Animated (F T : Type) where
  times : List (Time F)
  values : List T
  deriving DecidableEq, Repr, Inhabited

/-- `Value<T>` (`value.rs:9-16`). -/
inductive Value (F T : Type) where
  | fixed (v : T)
  | animated (a : Animated F T)
  deriving DecidableEq, Repr

section
variable {F T : Type} [FloatOps F] [Tween F T]

/-- `Animated::evaluate_inner` (`value.rs:158-166`). -/
def Animated.evaluateInner (a : Animated F T) (frame : F) : Option T := do
  let w ← Time.framesAndWeight a.times frame
  let t := if w.hold then lit 0 else w.t
  let v1 ← a.values[w.ix0]?
  let v2 ← a.values[w.ix1]?
  some (Tween.tween v1 v2 t w.easing)

/-- `Animated::evaluate_or` (`value.rs:152-156`). -/
def Animated.evaluateOr (a : Animated F T) (frame : F) (d : T) : T :=
  (a.evaluateInner frame).getD d

/-- `Value::evaluate_or` (`value.rs:34-40`). -/
def Value.evaluateOr (v : Value F T) (frame : F) (d : T) : T :=
  match v with
  | .fixed x => x
  | .animated a => a.evaluateOr frame d

/-- `Value::evaluate` (`value.rs:18-26`). -/
def Value.evaluate [RDefault T] (v : Value F T) (frame : F) : T :=
  match v with
  | .fixed x => x
  | .animated a => a.evaluateOr frame RDefault.dflt

omit [FloatOps F] [Tween F T] in
/-- `Value::is_fixed` (`value.rs:29-32`). -/
def Value.isFixed (v : Value F T) : Bool :=
  match v with
  | .fixed _ => true
  | .animated _ => false

end
end Velato
