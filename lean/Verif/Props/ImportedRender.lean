import Verif.Proofs.ImportedGeometry
import Verif.Props.ImportFails

/-!
# C56 — rendering imported compositions
-/

namespace Velato
open FloatOps (lit)
open Import

section
variable {F : Type} [FloatOps F] [Kurbo F] [Libm F]

/-- **C56.** Whatever the document, rendering the imported composition at any frame panics nowhere
but in the allocation for the vertices of a star of the document. -/
theorem C56_only_stars [KurboPaths F] {a : Schema.Animation F} {c : Composition F}
    (h : convAnimation a = .ok c) {r : Renderer F} (hr : Reachable r) (fuel : Nat) (fr : F)
    (T : Affine F) (al : F) (site : PanicSite)
    (hp : Renderer.append fuel r c fr T al = .error (.panic site)) :
    site = .starCapacity ∧ ∃ t, a.HasStar t := by
  have hs := C29_only_stars (imported_paths h) hr fuel fr T al site hp
  refine ⟨hs, ?_⟩
  by_contra hno
  refine C29_no_panic (imported_paths h) (fun l hl s hs => ?_) hr fuel fr T al site hp
  obtain ⟨t, ht, -⟩ := imported_star h hl hs
  exact absurd ⟨t, ht⟩ hno

/-- **C56.** If the stars of the document have at most 2⁵⁶ points, not animated, nothing panics:
at no frame, with no transform and alpha, to no recursion depth. -/
theorem C56_no_panic_partial [KurboPaths F] {a : Schema.Animation F} {c : Composition F}
    (h : convAnimation a = .ok c)
    (hst : ∀ t, a.HasStar t → ∃ x, t.points.value = .static x ∧
      FloatOps.toUsize (FloatOps.round x) ≤ 2 ^ 56)
    {r : Renderer F} (hr : Reachable r) (fuel : Nat) (fr : F) (T : Affine F) (al : F)
    (site : PanicSite) : Renderer.append fuel r c fr T al ≠ .error (.panic site) := by
  refine C29_no_panic (imported_paths h) (fun l hl s hs fr => ?_) hr fuel fr T al site
  obtain ⟨t, ht, hof⟩ := imported_star h hl hs
  obtain ⟨x, hx, hle⟩ := hst t ht
  have hp := hof.points
  unfold ScalarOf at hp
  rw [hx] at hp
  unfold AnimStar.pointCount
  rw [hp]
  exact hle

/-- **C56.** If moreover the composition has no reference cycles (C36), rendering returns. -/
theorem C56_returns_partial [KurboPaths F] {a : Schema.Animation F} {c : Composition F}
    (h : convAnimation a = .ok c)
    (hst : ∀ t, a.HasStar t → ∃ x, t.points.value = .static x ∧
      FloatOps.toUsize (FloatOps.round x) ≤ 2 ^ 56)
    (hc : NoReferenceCycles c) {r : Renderer F} (hr : Reachable r) (fr : F) (T : Affine F)
    (al : F) : ∃ r' ops, AppendCalls r c fr T al r' ops := by
  obtain ⟨fuel, hf⟩ := C36_terminates_partial hc hr fr T al
  cases hx : Renderer.append fuel r c fr T al with
  | ok p => exact ⟨p.1, p.2, fuel, hx⟩
  | error e =>
    cases e with
    | fuel => exact absurd hx hf
    | panic site => exact absurd hx (C56_no_panic_partial h hst hr fuel fr T al site)

/-- A layer with one star at an animated position, with the given number of points. -/
def exMovingStarDoc (points : F) : Schema.Animation F :=
  { exDoc with
    assets := none
    layers := [.shape ⟨exVisual "a" none,
      [.group exElement none
        [.polyStar ⟨⟨exElement, none⟩, ⟨none, none, none, none, .animated
            [⟨⟨⟨lit 0, none, none, none⟩, [lit 5, lit 5], none⟩, none, none⟩,
             ⟨⟨⟨lit 9, none, none, none⟩, [lit 6, lit 5], none⟩, none, none⟩]⟩,
          exStatic (lit 4), exStatic (lit 0), exStatic (lit 0), exStatic points, .star,
          some (exStatic (lit 2)), none⟩, exFillShape] none]⟩] }

end

section
variable [Kurbo F64] [Libm F64]

/-- The hypotheses are met by a document with a moving five-pointed star. -/
example : (∃ c, convAnimation (exMovingStarDoc (F := F64) (lit 5)) = .ok c) ∧
    (∃ t, (exMovingStarDoc (F := F64) (lit 5)).HasStar t) ∧
    ∀ t, (exMovingStarDoc (F := F64) (lit 5)).HasStar t → ∃ x, t.points.value = .static x ∧
      FloatOps.toUsize (FloatOps.round x) ≤ 2 ^ 56 := by
  refine ⟨?_, ?_, ?_⟩
  · have h : (faultOf (convAnimation (exMovingStarDoc (F := F64) (lit 5)))) = none := by
      kernel_decide
    cases hc : convAnimation (exMovingStarDoc (F := F64) (lit 5)) with
    | ok c => exact ⟨c, rfl⟩
    | error e => rw [hc] at h; cases h
  · exact ⟨_, _, List.mem_append_left _ (List.mem_singleton.mpr rfl), _, rfl, _,
      List.mem_singleton.mpr rfl, .item List.mem_cons_self .self⟩
  · rintro t ⟨l, hl, q, rfl, s, hs, hw⟩
    rcases List.mem_append.mp hl with hl | hl
    · have hl' := List.mem_singleton.mp hl
      injection hl' with hl'
      subst hl'
      rw [List.mem_singleton.mp hs] at hw
      cases hw with
      | item hm hw =>
        rcases List.mem_cons.mp hm with rfl | hm
        · cases hw
          exact ⟨_, rfl, by decide +kernel⟩
        · rw [List.mem_singleton.mp hm] at hw
          cases hw
    · cases hl

/-- **C56** is false without the condition: a document whose star moves and has 10²⁰ points is
imported, and panics when it is rendered. -/
theorem C56_counterexample :
    (convAnimation (exMovingStarDoc (F := F64) (lit (10 ^ 20))) >>= fun c =>
      Renderer.append 2 Renderer.new c (lit 1) Affine.identity (lit 1)) =
      .error (.panic .starCapacity) ∧
    ∃ c, convAnimation (exMovingStarDoc (F := F64) (lit (10 ^ 20))) = .ok c := by
  constructor
  · apply eq_error_of_fault
    kernel_decide
  · have h : (faultOf (convAnimation (exMovingStarDoc (F := F64) (lit (10 ^ 20))))) = none := by
      kernel_decide
    cases hc : convAnimation (exMovingStarDoc (F := F64) (lit (10 ^ 20))) with
    | ok c => exact ⟨c, rfl⟩
    | error e => rw [hc] at h; cases h

end
end Velato
