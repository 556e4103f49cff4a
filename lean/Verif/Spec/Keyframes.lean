import Verif.Model.Value
import Verif.Num.Cmp

/-!
# Vocabulary for statements about keyframes
-/

namespace Velato

/-- Keyframe times in (weakly) increasing order; in particular none is NaN if there are two. -/
def SortedTimes {F : Type} [FloatOps F] (times : List (Time F)) : Prop :=
  times.Pairwise fun a b => (a.frame <=. b.frame) = true

/-- Keyframe times in strictly increasing order. -/
def StrictTimes {F : Type} [FloatOps F] (times : List (Time F)) : Prop :=
  times.Pairwise fun a b => (a.frame <. b.frame) = true

/-- The documented contract of `<[T]>::binary_search_by` for the comparison closure `f`:
`Ok(i)`: element `i` compares `Equal`; `Err(i)`: `i` is an insertion point. -/
def BinarySearchContract {α : Type} (l : List α) (f : α → Ordering) : Except Nat Nat → Prop
  | .ok i => ∃ h : i < l.length, f l[i] = .eq
  | .error i => i ≤ l.length ∧ (∀ j (h : j < l.length), j < i → f l[j] = .lt) ∧
      (∀ j (h : j < l.length), i ≤ j → f l[j] = .gt)

/-- The weight with which keyframes at times `t0`, `t1` are mixed at `frame`. -/
def mixWeight {F : Type} [FloatOps F] (t0 t1 : Time F) (frame : F) : F :=
  if t0.hold then FloatOps.lit 0
  else clamp ((frame -. t0.frame) /. (t1.frame -. t0.frame)) (FloatOps.lit 0) (FloatOps.lit 1)

end Velato

namespace Velato

/-- All keyframe times are finite numbers. -/
def FiniteTimes (times : List (Time F64)) : Prop := ∀ t ∈ times, t.frame.isFin = true

/-- The distance of consecutive keyframes does not overflow to infinity (implied by all times
being at most `2^1022` in magnitude, `finiteGaps_of_bdd`). -/
def FiniteGaps (times : List (Time F64)) : Prop :=
  ∀ i t0 t1, times[i]? = some t0 → times[i + 1]? = some t1 →
    (t1.frame -. t0.frame).isFin = true

/-- The cubic solver finds no root of a polynomial whose constant coefficient is NaN (true of
`kurbo::common::solve_cubic`: every branch tests finiteness of the scaled coefficients and ends
with `if root.is_finite()` on the linear equation). -/
def NanNoRoots [Kurbo F64] : Prop :=
  ∀ c1 c2 c3 : F64, Kurbo.solveCubic (F64.nan) c1 c2 c3 = []

end Velato
