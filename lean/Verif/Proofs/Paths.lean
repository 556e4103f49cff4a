import Verif.Spec.Paths
import Verif.Proofs.Weight

/-!
# Lemmas on spline paths
-/

namespace Velato
open FloatOps (lit)

theorem mapM_ok {α β ε : Type} (f : α → Except ε β) (g : α → β) (l : List α)
    (h : ∀ x ∈ l, f x = .ok (g x)) : l.mapM f = .ok (l.map g) := by
  induction l with
  | nil => rfl
  | cons a l ih =>
    rw [List.mapM_cons, h a (by simp), ih (fun x hx => h x (by simp [hx]))]
    rfl

theorem map_finRange {β : Type} (n : Nat) (f : Nat → β) :
    (List.finRange n).map (fun i => f i.1) = (List.range n).map f := by
  rw [← List.map_coe_finRange_eq_range, List.map_map]
  rfl

section
variable {F : Type} [FloatOps F]

theorem toPathRaw_ok (len : Nat) (get : Fin len → P2 F) (getR : Nat → Except Fault (P2 F))
    (isClosed : Bool) (h : ∀ i : Fin len, getR i.1 = .ok (get i)) :
    toPathRaw len getR isClosed = .ok (toPath len get isClosed) := by
  have hget : ∀ i (hi : i < len), getR i = .ok (get ⟨i, hi⟩) := fun i hi => h ⟨i, hi⟩
  unfold toPathRaw toPath
  by_cases h0 : len = 0
  · simp [h0]; rfl
  simp only [h0, if_false, dite_false]
  rw [hget 0 (by omega)]
  have hb : (List.range (len / 3 - 1)).mapM (fun k => (do
      let p0 ← getR (3 * k)
      let p1 ← getR (3 * (k + 1))
      let c0 ← getR (3 * k + 2)
      let c1 ← getR (3 * (k + 1) + 1)
      return splineElement p0 c0 c1 p1)) = .ok ((List.finRange (len / 3 - 1)).map fun k =>
      splineElement (get ⟨3 * k.1, by have := k.2; omega⟩)
        (get ⟨3 * k.1 + 2, by have := k.2; omega⟩)
        (get ⟨3 * (k.1 + 1) + 1, by have := k.2; omega⟩)
        (get ⟨3 * (k.1 + 1), by have := k.2; omega⟩)) := by
    let g : Nat → PathEl F := fun k =>
      if hk : k < len / 3 - 1 then
        splineElement (get ⟨3 * k, by omega⟩) (get ⟨3 * k + 2, by omega⟩)
          (get ⟨3 * (k + 1) + 1, by omega⟩) (get ⟨3 * (k + 1), by omega⟩)
      else .closePath
    rw [mapM_ok _ g]
    · congr 1
      rw [← map_finRange]
      apply List.map_congr_left
      intro k _
      simp only [g, k.2, dite_true]
    · intro k hk
      rw [List.mem_range] at hk
      rw [hget (3 * k) (by omega), hget (3 * (k + 1)) (by omega), hget (3 * k + 2) (by omega),
        hget (3 * (k + 1) + 1) (by omega)]
      simp only [g, hk, dite_true]
      rfl
  by_cases hc : isClosed = true ∧ len / 3 ≠ 0
  · have h1 := hget (3 * (len / 3 - 1)) (by omega)
    have h3 := hget (3 * (len / 3 - 1) + 2) (by omega)
    have h4 := hget (3 * 0 + 1) (by omega)
    simp only [hc, if_true, dite_true, ne_eq, not_false_eq_true, and_self, hb, h1, h3, h4]
    rfl
  · simp only [hc, if_false, dite_false, hb]
    rfl

theorem splineToPathRaw_ok (pts : List (P2 F)) (isClosed : Bool) :
    splineToPathRaw pts isClosed = .ok (splineToPath pts isClosed) := by
  unfold splineToPathRaw splineToPath
  apply toPathRaw_ok
  intro i
  simp [indexPanic]

theorem splineLerpToPathRaw_ok (from_ to_ : List (P2 F)) (t : F) (isClosed : Bool) :
    splineLerpToPathRaw from_ to_ t isClosed = .ok (splineLerpToPath from_ to_ t isClosed) := by
  unfold splineLerpToPathRaw splineLerpToPath
  apply toPathRaw_ok
  intro i
  have h1 : i.1 < from_.length := by have := i.2; omega
  have h2 : i.1 < to_.length := by have := i.2; omega
  simp only [indexPanic, List.getElem?_eq_getElem h1, List.getElem?_eq_getElem h2]
  rfl

/-- `toPath` through an accessor on plain indices. -/
theorem toPath_eq (len : Nat) (get : Fin len → P2 F) (g : Nat → P2 F)
    (hg : ∀ i : Fin len, get i = g i.1) (isClosed : Bool) (h0 : len ≠ 0) :
    toPath len get isClosed =
      .moveTo (g 0) :: ((List.range (len / 3 - 1)).map fun k =>
        splineElement (g (3 * k)) (g (3 * k + 2)) (g (3 * (k + 1) + 1)) (g (3 * (k + 1))))
      ++ (if isClosed = true ∧ len / 3 ≠ 0 then
        [splineElement (g (3 * (len / 3 - 1))) (g (3 * (len / 3 - 1) + 2)) (g 1) (g 0),
          .closePath] else []) := by
  unfold toPath
  rw [dif_neg h0]
  simp only [hg, ← map_finRange]
  simp only [List.cons_append, dite_eq_ite]
  congr 1

end
end Velato
