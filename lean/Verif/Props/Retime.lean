import Verif.Proofs.Retime
import Verif.Proofs.Still
import Verif.Proofs.LayerSets
import Verif.Spec.Examples

/-!
# C73, C74 — still pictures, and moving everything in time
-/

namespace Velato
open FloatOps (lit)

section
variable {F : Type} [FloatOps F] [Libm F] [Kurbo F]

/-! ## C73 -/

/-- **C73.** If no property of the composition depends on the frame, and the same layers are visible
at two frames (in the composition and, at the frames at which assets are shown, in the assets), then
`append` does the same at both: same calls, same panics, same non-termination. -/
theorem C73_still {c : Composition F} (hl : ∀ l ∈ c.layers, l.Still)
    (ha : ∀ name ls, c.asset name = some ls → ∀ l ∈ ls, l.Still) {R : String → F → F → Prop} {fr fr' : F}
    (hv : SameVisibleAll R c.layers fr fr')
    (hR : ∀ name f f', R name f f' → ∀ ls, c.asset name = some ls → SameVisibleAll R ls f f')
    {r : Renderer F} (hr : Reachable r) (n : Nat) (T : Affine F) (a : F) :
    Renderer.append n r c fr T a = Renderer.append n r c fr' T a := by
  refine appendCalls_sameAt (R := R) ⟨rfl, rfl, fun name f f' h => ?_⟩ (still_layers hl hv) hr.idle
    n T a
  cases hn : c.asset name with
  | none => exact .none
  | some ls => exact .some (still_layers (ha name ls hn) (hR name f f' h ls hn))

/-- **C73.** For compositions without asset instances only the visibility of the layers matters. -/
theorem C73_flat {c : Composition F} (hl : ∀ l ∈ c.layers, l.Still)
    (hi : ∀ l ∈ c.layers, ∀ name tr, l.content ≠ .instance name tr) {fr fr' : F}
    (hv : ∀ l ∈ c.layers, l.SameVisible fr fr') {r : Renderer F} (hr : Reachable r) (n : Nat)
    (T : Affine F) (a : F) : Renderer.append n r c fr T a = Renderer.append n r c fr' T a := by
  exact appendCalls_sameAt (R := fun _ _ _ => False) ⟨rfl, rfl, fun name f f' h => h.elim⟩
    (still_layers hl fun l h => ⟨hv l h, fun name tr h' => (hi l h name tr h').elim⟩) hr.idle n T a

theorem exLayer_still (name : String) (co : Content F)
    (h : ∀ ss, co = .shape ss → Shape.StillAll ss) : (exLayer name co).Still where
  transform := fun _ _ => rfl
  opacity := fun _ _ => rfl
  masks := fun _ h => nomatch h
  shapes := h

theorem exShapeLayer_still (name : String) : (exShapeLayer (F := F) name).Still := by
  refine exLayer_still _ _ fun ss h => ?_
  cases h
  unfold Shape.StillAll Shape.StillAll Shape.StillAll Shape.Still
  exact ⟨fun _ _ => rfl, ⟨fun s h => (nomatch h), fun _ _ => rfl, fun _ _ => rfl⟩, trivial⟩

end

/-- The composition with an instance, a mask, a parent and a matte is still, and the same layers are
visible at the frames 1 and 2: the hypotheses of `C73_still` are met. -/
example [Libm F64] [Kurbo F64] : (∀ l ∈ (exComp (F := F64)).layers, l.Still) ∧
    (∀ name ls, (exComp (F := F64)).asset name = some ls → ∀ l ∈ ls, l.Still) ∧
    SameVisibleAll (fun _ f f' => f = lit 1 ∧ f' = lit 2) (exComp (F := F64)).layers (lit 1) (lit 2) ∧
    (∀ name f f', (f = lit 1 ∧ f' = lit 2) → ∀ ls, (exComp (F := F64)).asset name = some ls →
      SameVisibleAll (fun _ f f' => f = lit 1 ∧ f' = lit 2) ls f f') := by
  have hx : ∀ name ls, (exComp (F := F64)).asset name = some ls →
      ls = [exShapeLayer "x", exShapeLayer "y"] := by
    intro name ls h
    obtain ⟨e, he, rfl⟩ := Option.map_eq_some_iff.mp h
    have := List.mem_of_find?_eq_some he
    simp only [exComp, List.reverse_cons, List.reverse_nil, List.nil_append,
      List.mem_singleton] at this
    rw [this]
  refine ⟨?_, ?_, ?_, ?_⟩
  · intro l hl
    simp only [exComp, List.mem_cons, List.not_mem_nil, or_false] at hl
    rcases hl with rfl | rfl | rfl | rfl
    · exact exLayer_still _ _ fun ss h => nomatch h
    · have := exShapeLayer_still (F := F64) "m"
      refine ⟨this.transform, this.opacity, ?_, this.shapes⟩
      intro m hm
      simp only [List.mem_singleton] at hm
      subst hm
      exact fun _ _ => rfl
    · exact ⟨(exShapeLayer_still "t").transform, (exShapeLayer_still "t").opacity,
        fun _ h => (nomatch h), (exShapeLayer_still "t").shapes⟩
    · exact ⟨(exShapeLayer_still "matte").transform, (exShapeLayer_still "matte").opacity,
        fun _ h => (nomatch h), (exShapeLayer_still "matte").shapes⟩
  · intro name ls h l hl
    rw [hx name ls h] at hl
    simp only [List.mem_cons, List.not_mem_nil, or_false] at hl
    rcases hl with rfl | rfl <;> exact exShapeLayer_still _
  · intro l hl
    have hv : (exLayer (F := F64) "i" .none).SameVisible (lit 1) (lit 2) := by
      unfold Layer.SameVisible; decide +kernel
    simp only [exComp, List.mem_cons, List.not_mem_nil, or_false] at hl
    rcases hl with rfl | rfl | rfl | rfl
    · exact ⟨hv, fun _ _ _ => by dsimp only; decide +kernel⟩
    · exact ⟨hv, fun _ _ h => nomatch h⟩
    · exact ⟨hv, fun _ _ h => nomatch h⟩
    · exact ⟨hv, fun _ _ h => nomatch h⟩
  · rintro name f f' ⟨rfl, rfl⟩ ls h l hl
    have hv : (exLayer (F := F64) "i" .none).SameVisible (lit 1) (lit 2) := by
      unfold Layer.SameVisible; decide +kernel
    rw [hx name ls h] at hl
    simp only [List.mem_cons, List.not_mem_nil, or_false] at hl
    rcases hl with rfl | rfl
    · exact ⟨hv, fun _ _ h => nomatch h⟩
    · exact ⟨hv, fun _ _ h => nomatch h⟩

/-! ## C74 -/

section
variable [Kurbo ℝ]

/-- **C74.** In exact arithmetic: move every time of the composition by `t ↦ α t + β` with `α > 0`
(the times of keyframes, the ranges of the layers and the starts of precompositions, whose stretch
is multiplied by `α`).  Then `append` does at the frame `α t + β` what it did before at the frame
`t`: same calls, same panics, same non-termination. -/
theorem C74_retime {α : ℝ} (hα : 0 < α) (β : ℝ) (c : Composition ℝ) (fr : ℝ) {r : Renderer ℝ}
    (hr : Reachable r) (n : Nat) (T : Affine ℝ) (a : ℝ) :
    Renderer.append n r (c.retime (fun t => α * t + β) (fun s => α * s)) (α * fr + β) T a
      = Renderer.append n r c fr T a := by
  refine appendCalls_sameAt (c := c.retime (fun t => α * t + β) (fun s => α * s)) (c' := c)
    (R := fun _ => Eq) ⟨rfl, rfl, fun name f f' h => ?_⟩ ?_ hr.idle n T a
  · subst h
    show Option.Rel _ (c.asset name) (c.asset name)
    cases c.asset name with
    | none => exact .none
    | some ls => exact .some (layers_sameAt_refl f ls)
  · show List.Forall₂ _ (c.layers.map _) _
    generalize c.layers = ls
    induction ls with
    | nil => exact .nil
    | cons l ls ih => exact .cons (layer_retime hα fr l) ih

/-- Doubling the speed and starting three frames later: `C74_retime` has no other hypotheses. -/
example : (0 : ℝ) < 2 ∧ Reachable (F := ℝ) Renderer.new := ⟨by norm_num, .new⟩

/-- A keyframe at 4 with the next one at 6 is moved to 11 and 15; at frame 13 the moved property has
the value the original has at 5. -/
example (v : List ℝ) : (Value.retime (fun t => 2 * t + 3)
      (.animated ⟨[⟨4, none, none, false⟩, ⟨6, none, none, false⟩], v⟩) : Value ℝ ℝ)
    = .animated ⟨[⟨11, none, none, false⟩, ⟨15, none, none, false⟩], v⟩ := by
  simp only [Value.retime, List.map_cons, List.map_nil, Time.retime]
  norm_num

end
end Velato
