import Verif.Spec.Overlay
import Verif.Num.Real
import Mathlib.Data.List.Basic

/-!
# Lemmas about overlays and text
-/

namespace Velato

/-- Splitting the overlays into those of the hits. -/
theorem filterMap_boxes {α : Type} {g : OverlayOp ℝ → Option α} {hovered : Option Nat}
    {hits : List (LayerHit ℝ)} {k : Nat} {a b : LayerHit ℝ → List α}
    (hh : ∀ i h, (hitOverlay hovered i h).filterMap g = if hovered = some i then a h else b h) :
    ((hits.zipIdx k).flatMap fun p => hitOverlay hovered p.2 p.1).filterMap g
      = (hits.zipIdx k).flatMap fun p => if hovered = some p.2 then a p.1 else b p.1 := by
  induction hits generalizing k with
  | nil => rfl
  | cons h hits ih =>
    rw [List.zipIdx_cons, List.flatMap_cons, List.flatMap_cons, List.filterMap_append, hh, ih]

theorem flatMap_at {α β : Type} (f : α → β) (l : List α) (i k : Nat) :
    ((l.zipIdx k).flatMap fun p => if some (k + i) = some p.2 then [f p.1] else [])
      = (l[i]?.map f).toList := by
  induction l generalizing i k with
  | nil => simp
  | cons a l ih =>
    rw [List.zipIdx_cons, List.flatMap_cons]
    cases i with
    | zero =>
      rw [if_pos (by simp)]
      have : ((l.zipIdx (k + 1)).flatMap fun p => if some (k + 0) = some p.2 then [f p.1] else []) = [] := by
        rw [List.flatMap_eq_nil_iff]
        intro p hp
        have hle := List.le_snd_of_mem_zipIdx hp
        rw [if_neg]
        intro h
        have := Option.some.inj h
        omega
      rw [this]
      simp
    | succ i =>
      rw [if_neg (by simp), List.nil_append]
      have := ih i (k + 1)
      rw [show k + 1 + i = k + (i + 1) by omega] at this
      rw [this]
      simp

theorem flatMap_hovered {α β : Type} (f : α → β) (l : List α) (hovered : Option Nat) :
    (l.zipIdx.flatMap fun p => if hovered = some p.2 then [f p.1] else [])
      = ((hovered.bind fun i => l[i]?).map f).toList := by
  cases hovered with
  | none => simp
  | some i => simpa using flatMap_at f l i 0

theorem flatMap_others {α β : Type} (f : α → β) (l : List (α × Nat)) (hovered : Option Nat) :
    (l.flatMap fun p => if hovered = some p.2 then [] else [f p.1])
      = (l.filter fun p => decide (hovered ≠ some p.2)).map fun p => f p.1 := by
  induction l with
  | nil => rfl
  | cons p l ih =>
    rw [List.flatMap_cons, ih, List.filter_cons]
    by_cases h : hovered = some p.2
    · rw [if_pos h, if_neg (by simpa using h), List.nil_append]
    · rw [if_neg h, if_pos (by simpa using h)]; rfl

theorem boxes_all {α : Type} {g : OverlayOp ℝ → Option α} {hovered : Option Nat}
    (hits : List (LayerHit ℝ)) (f f' : LayerHit ℝ → α)
    (hh : ∀ i h, (hitOverlay hovered i h).filterMap g = if hovered = some i then [f h] else [f' h]) :
    (hits.zipIdx.flatMap fun p => hitOverlay hovered p.2 p.1).filterMap g
      = hits.zipIdx.map fun p => if hovered = some p.2 then f p.1 else f' p.1 := by
  rw [filterMap_boxes (a := fun h => [f h]) (b := fun h => [f' h]) hh, List.map_eq_flatMap]
  refine congrArg (fun k => List.flatMap k hits.zipIdx) (funext fun p => ?_)
  split_ifs <;> rfl

theorem boxes_hovered {α : Type} {g : OverlayOp ℝ → Option α} {hovered : Option Nat}
    (hits : List (LayerHit ℝ)) (f : LayerHit ℝ → α)
    (hh : ∀ i h, (hitOverlay hovered i h).filterMap g = if hovered = some i then [f h] else []) :
    (hits.zipIdx.flatMap fun p => hitOverlay hovered p.2 p.1).filterMap g
      = (hovered.bind fun i => hits[i]?).toList.map f := by
  rw [filterMap_boxes (a := fun h => [f h]) (b := fun h => []) hh, flatMap_hovered f]
  cases (hovered.bind fun i => hits[i]?) <;> rfl

theorem boxes_others {α : Type} {g : OverlayOp ℝ → Option α} {hovered : Option Nat}
    (hits : List (LayerHit ℝ)) (f : LayerHit ℝ → α)
    (hh : ∀ i h, (hitOverlay hovered i h).filterMap g = if hovered = some i then [] else [f h]) :
    (hits.zipIdx.flatMap fun p => hitOverlay hovered p.2 p.1).filterMap g
      = ((hits.zipIdx.filter fun p => decide (hovered ≠ some p.2)).map (·.1)).map f := by
  rw [filterMap_boxes (a := fun h => []) (b := fun h => [f h]) hh, flatMap_others f, List.map_map]
  rfl

/-! ## Text -/

theorem layout_line (advance : Char → ℝ) (lineHeight : ℝ) (line rest : List Char) (h : '\n' ∉ line)
    (x y : ℝ) :
    layoutGlyphs advance lineHeight (line ++ rest) x y
      = (line.zipIdx.map fun p => (p.1, ⟨x + ((line.take p.2).map advance).sum, y⟩))
        ++ layoutGlyphs advance lineHeight rest (x + (line.map advance).sum) y := by
  induction line generalizing x with
  | nil => simp
  | cons c line ih =>
    rw [List.mem_cons, not_or] at h
    rw [List.cons_append]
    unfold layoutGlyphs
    rw [if_neg (Ne.symm h.1), ih h.2, List.zipIdx_cons, List.map_cons, List.cons_append]
    simp only [real_add, real_toF32]
    congr 1
    · simp
    · rw [Nat.zero_add, List.zipIdx_succ, List.map_map]
      congr 1
      · refine List.map_congr_left fun p _ => ?_
        simp [add_assoc]
      · rw [List.map_cons, List.sum_cons, add_assoc]
        cases rest <;> rfl

end Velato
