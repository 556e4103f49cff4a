import Verif.Model.Value

/-!
# `/repo/src/runtime/model/fixed.rs` and `/repo/src/runtime/model/spline.rs`
-/

namespace Velato
open FloatOps (lit)

/-- `fixed::Repeater` (`fixed.rs:27-46`). -/
structure FixedRepeater (F : Type) where
  copies : Nat
  offset : F
  anchorPoint : P2 F
  position : P2 F
  rotation : F
  scale : P2 F
  startOpacity : F
  endOpacity : F
  deriving DecidableEq, Repr, Inhabited

/-- `fixed::Trim` (`fixed.rs:64-72`). -/
structure FixedTrim (F : Type) where
  start : F
  stop : F
  offset : F
  deriving DecidableEq, Repr, Inhabited

section
variable {F : Type} [FloatOps F]

/-- `fixed::Repeater::transform` (`fixed.rs:48-62`). -/
def FixedRepeater.transform [Libm F] (r : FixedRepeater F) (index : Nat) : Affine F :=
  let t := r.offset +. FloatOps.ofUsize index
  (((Affine.translate
        ⟨t *. r.position.x +. r.anchorPoint.x, t *. r.position.y +. r.anchorPoint.y⟩).mul
      (Affine.rotate (toRadians (t *. r.rotation)))).mul
      (Affine.scaleNonUniform (Libm.powf (r.scale.x /. lit 100) t)
        (Libm.powf (r.scale.y /. lit 100) t))).mul
    (Affine.translate ⟨FloatOps.neg r.anchorPoint.x, FloatOps.neg r.anchorPoint.y⟩)

/-- `1e-9`, used in `fixed.rs:87,90` and `render.rs:382,420,424,441`. -/
def tiny : F := lit (1 / 1000000000)

/-- `fixed::Trim::normalized` (`fixed.rs:76-106`). -/
def FixedTrim.normalized (tr : FixedTrim F) : Option ((F × F) × Option (F × F)) :=
  let (startPct, endPct) :=
    if tr.start <=. tr.stop then (tr.start, tr.stop) else (tr.stop, tr.start)
  let rangePct := endPct -. startPct
  if rangePct <. tiny then none
  else if (lit 100 -. tiny) <=. rangePct then some ((lit 0, lit 1), none)
  else
    let offsetPct := tr.offset *. (lit 100 /. lit 360)
    let startPct := remEuclid (startPct +. offsetPct) (lit 100)
    let endPct := startPct +. rangePct
    if endPct <=. lit 100 then some ((startPct /. lit 100, endPct /. lit 100), none)
    else some ((startPct /. lit 100, lit 1), some (lit 0, (endPct -. lit 100) /. lit 100))

/-- The closure `add_element` (`spline.rs:18-34`), for the four points it reads:
`p0 = get(3*from)`, `c0 = get(3*from+2)`, `c1 = get(3*to+1)`, `p1 = get(3*to)`. -/
def splineElement (p0 c0 c1 p1 : P2 F) : PathEl F :=
  let c0 : P2 F := ⟨c0.x +. p0.x, c0.y +. p0.y⟩
  let c1 : P2 F := ⟨c1.x +. p1.x, c1.y +. p1.y⟩
  if c0.beq p0 && c1.beq p1 then .lineTo p1 else .curveTo c0 c1 p1

/-- `SplineToPath::to_path` (`spline.rs:11-43`) for a source of `len` points given by an
in-bounds accessor `get` (every access of the Rust code is shown in bounds here, so the panic of
slice indexing cannot happen).  Returns the elements appended to the path; the code's
`Option<()>` result is unused by its callers. -/
def toPath (len : Nat) (get : Fin len → P2 F) (isClosed : Bool) : List (PathEl F) :=
  if h : len = 0 then [] else
  let n := len / 3
  let addElement (i j : Fin n) : PathEl F :=
    splineElement (get ⟨3 * i.1, by have := i.2; omega⟩)
      (get ⟨3 * i.1 + 2, by have := i.2; omega⟩)
      (get ⟨3 * j.1 + 1, by have := j.2; omega⟩)
      (get ⟨3 * j.1, by have := j.2; omega⟩)
  [PathEl.moveTo (get ⟨0, by omega⟩)]
    ++ (List.finRange (n - 1)).map
        (fun k => addElement ⟨k.1, by have := k.2; omega⟩ ⟨k.1 + 1, by have := k.2; omega⟩)
    ++ (if hn : isClosed = true ∧ n ≠ 0 then
          [addElement ⟨n - 1, by omega⟩ ⟨0, by omega⟩, .closePath]
        else [])

/-- `SplineToPath::to_path` (`spline.rs:11-43`) again, with `get` as a possibly panicking access at
a plain index, in the order of the Rust code.  `C15_no_panic` proves that it never panics and is
`toPath`. -/
def toPathRaw (len : Nat) (get : Nat → Except Fault (P2 F)) (isClosed : Bool) :
    Except Fault (List (PathEl F)) := do
  if len = 0 then return []
  let first ← get 0
  let n := len / 3
  let addElement (i j : Nat) : Except Fault (PathEl F) := do
    let p0 ← get (3 * i)
    let p1 ← get (3 * j)
    let c0 ← get (3 * i + 2)
    let c1 ← get (3 * j + 1)
    return splineElement p0 c0 c1 p1
  let body ← (List.range (n - 1)).mapM fun k => addElement k (k + 1)
  let close ←
    if isClosed = true ∧ n ≠ 0 then do
      let e ← addElement (n - 1) 0
      pure [e, .closePath]
    else pure []
  return [PathEl.moveTo first] ++ body ++ close

/-- `SplineToPath for &[Point]` (`spline.rs:46-55`). -/
def splineToPath (pts : List (P2 F)) (isClosed : Bool) : List (PathEl F) :=
  toPath pts.length (fun i => pts[i]) isClosed

/-- `SplineToPath for (&[Point], &[Point], f64)` (`spline.rs:57-67`). -/
def splineLerpToPath (from_ to_ : List (P2 F)) (t : F) (isClosed : Bool) : List (PathEl F) :=
  toPath (min from_.length to_.length)
    (fun i => (from_[i.1]'(by have := i.2; omega)).lerp (to_[i.1]'(by have := i.2; omega)) t)
    isClosed

/-- `get` of `&[Point]` (`spline.rs:52-54`), with the panic of slice indexing. -/
def splineToPathRaw (pts : List (P2 F)) (isClosed : Bool) : Except Fault (List (PathEl F)) :=
  toPathRaw pts.length (indexPanic pts) isClosed

/-- `get` of `(&[Point], &[Point], f64)` (`spline.rs:63-66`), with the panics of slice indexing. -/
def splineLerpToPathRaw (from_ to_ : List (P2 F)) (t : F) (isClosed : Bool) :
    Except Fault (List (PathEl F)) :=
  toPathRaw (min from_.length to_.length)
    (fun i => do
      let p ← indexPanic from_ i
      let q ← indexPanic to_ i
      pure (p.lerp q t))
    isClosed

end
end Velato
