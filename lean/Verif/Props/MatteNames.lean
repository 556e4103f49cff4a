import Verif.Proofs.MatteNames
import Verif.Spec.ExampleDoc

/-!
# C148: how layers refer to their mattes
-/

namespace Velato
open FloatOps (lit)

section
variable {F : Type} [FloatOps F] [Libm F] [Kurbo F] [KurboPaths F] [LawfulCmp F]

/-- **C148.** Two documents that differ only in how layers refer to their mattes (the layers of the assets included), such that each
layer has the same matte in both, are rendered with the same calls. -/
theorem C148_same {a a' : Schema.Animation F} (h : a.SameMattes a') {c : Composition F} (hc : Import.convAnimation a = .ok c) :
    ∃ c', Import.convAnimation a' = .ok c' ∧ ∀ {r r' : Renderer F}, Reachable r → ∀ {frame : F} {T : Affine F} {al : F}
      {ops : List (Op F)}, AppendCalls r c frame T al r' ops ↔ AppendCalls r c' frame T al r' ops := by
  obtain ⟨c', hc'⟩ := Import.convAnimation_sameMattes h hc
  have har : a'.area = a.area := by
    obtain ⟨ls, as, he⟩ := h.result
    rw [he]
    rfl
  refine ⟨c', hc', fun {r r'} hr {frame T al ops} => ?_⟩
  rw [C117_calls hc hr, C117_calls hc' hr]
  refine and_congr_right fun _ => ⟨?_, ?_⟩
  · rintro ⟨per, hper, rfl⟩
    exact ⟨per, sameMattes_drawn har h.assets hper h.layers rfl, by rw [har]⟩
  · rintro ⟨per, hper, rfl⟩
    exact ⟨per, sameMattes_drawn har.symm h.symm.assets hper h.symm.layers rfl, by rw [har]⟩

/-- **C148**, the main case: a layer of a document that uses the matte before it names this matte instead.  Rendering makes the same
calls. -/
theorem C148_named {a : Schema.Animation F} {c : Composition F} (hc : Import.convAnimation a = .ok c) {i j : Nat}
    {l m : Schema.AnyLayer F} (hl : a.layers[i]? = some l) (hn : l.visual.matteLayerIndex = none)
    (hj : PendingMatte a.layers i j) (hm : a.layers[j]? = some m)
    (hu : ∀ (k : Nat) s, j < k → a.layers[k]? = some s → s.ident ≠ m.ident) {x : F} (hx : FloatOps.toUsize x = m.ident) :
    ∃ c', Import.convAnimation { a with layers := a.layers.set i (l.withMatte (some x)) } = .ok c' ∧
      ∀ {r r' : Renderer F}, Reachable r → ∀ {frame : F} {T : Affine F} {al : F} {ops : List (Op F)},
        AppendCalls r c frame T al r' ops ↔ AppendCalls r c' frame T al r' ops :=
  C148_same ⟨⟨_, a.assets, rfl⟩, sameMattes_named hl hn hj hm hu hx, List.forall₂_same.mpr fun _ _ => .same⟩ hc

end

/-! ## An example -/

/-- The layer "matted" of the example document names its matte, the layer number 3. -/
example [Kurbo F64] [KurboPaths F64] [Libm F64] {c : Composition F64} (hc : Import.convAnimation (exDoc (F := F64)) = .ok c) :
    ∃ c', Import.convAnimation { exDoc with
        layers := exDocLayers.set 4 (exShapeDoc { exVisual "matted" none with
          matteMode := some .alpha, matteLayerIndex := some (lit 3) }) } = .ok c' ∧
      ∀ {r r' : Renderer F64}, Reachable r → ∀ {frame : F64} {T : Affine F64} {al : F64} {ops : List (Op F64)},
        AppendCalls r c frame T al r' ops ↔ AppendCalls r c' frame T al r' ops := by
  refine C148_named (i := 4) (j := 3) (m := exShapeDoc { exVisual "matte" (some 3) with matteTarget := some .true })
    (l := exShapeDoc { exVisual "matted" none with matteMode := some .alpha }) hc rfl rfl ?_ rfl ?_ (x := lit 3) ?_
  · exact ⟨by omega, ⟨_, rfl, fun h => (by cases h), rfl⟩, fun k s h1 h2 => by omega⟩
  · intro k s hk hs
    match k, hk with
    | 4, _ => cases hs; exact (show 0 ≠ 3 by decide)
    | 5, _ => cases hs; exact (show 5 ≠ 3 by decide)
    | k + 6, _ =>
      rw [show (exDoc (F := F64)).layers[k + 6]? = none from List.getElem?_eq_none_iff.mpr (by simp [exDoc, exDocLayers])] at hs
      cases hs
  · show FloatOps.toUsize (lit 3 : F64) = 3
    decide +kernel

end Velato
