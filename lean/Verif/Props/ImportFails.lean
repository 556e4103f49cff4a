import Verif.Proofs.ImportSites
import Verif.Spec.ExampleDoc
import Verif.Props.NoPanic

/-!
# C48 — when import fails
-/

namespace Velato
open FloatOps (lit)
open Import

section
variable {F : Type} [FloatOps F] [Kurbo F] [Libm F]

/-- **C48.** Importing a document panics exactly when the document has one of the unsupported parts
(`Unsupported`). -/
theorem C48_panics_iff (a : Schema.Animation F) :
    (∃ s, convAnimation a = .error (.panic s)) ↔ Unsupported a := by
  rw [← fails_animation]
  constructor
  · rintro ⟨s, hs⟩; exact ⟨_, hs⟩
  · rintro ⟨e, he⟩
    obtain ⟨s, rfl, -⟩ := importSites a e he
    exact ⟨s, he⟩

/-- **C48.** In all other cases import returns a composition. -/
theorem C48_returns_iff (a : Schema.Animation F) :
    (∃ c, convAnimation a = .ok c) ↔ ¬ Unsupported a := by
  rw [← fails_animation]
  constructor
  · rintro ⟨c, hc⟩ ⟨e, he⟩; rw [hc] at he; cases he
  · intro h
    cases hc : convAnimation a with
    | ok c => exact ⟨c, rfl⟩
    | error e => exact absurd ⟨e, hc⟩ h

/-- **C48.** Import panics for no other reason than those of the unsupported parts: in particular no
slice is indexed out of bounds. -/
theorem C48_sites (a : Schema.Animation F) (e : Fault) (h : convAnimation a = .error e) :
    e ∈ [PanicSite.unsupportedAsset, .unknownBlendMode, .missingRotation, .splitRotation,
      .splitPosition, .emptyKeyframe, .handleArray, .starCapacity, .underflow].map Fault.panic := by
  obtain ⟨s, rfl, hs⟩ := importSites a e h
  exact List.mem_map_of_mem hs

/-- A document without shapes and assets that is supported for every number type. -/
def exPlainDoc : Schema.Animation F :=
  { exDoc with layers := [.null (exVisual "a" none)], assets := none }

/-- The same document with the layer changed. -/
def exPlainDoc.with (f : Schema.VisualLayer F → Schema.VisualLayer F) : Schema.Animation F :=
  { exDoc with layers := [.null (f (exVisual "a" none))], assets := none }

omit [Kurbo F] [Libm F] in
/-- The example is supported; with blend mode Add it is not. -/
example : ¬ Unsupported (exPlainDoc (F := F)) ∧
    Unsupported (exPlainDoc.with (F := F) fun v => { v with blendMode := some .add }) := by
  constructor
  · rintro (⟨x, hx, -⟩ | ⟨l, hl, h⟩)
    · cases hx
    · rw [exPlainDoc, List.mem_singleton] at hl
      subst hl
      rcases h with h | h | ⟨m, hm, -⟩ | ⟨-, h⟩
      · rcases h with h | ⟨_, _, _, _, h⟩ | ⟨_, h, -⟩ | h
        · cases h
        · cases h
        · cases h
        · rcases h with ⟨r, hr, ks, h, -⟩ | ⟨_, h, -⟩ | ⟨_, h, -⟩ | ⟨r, hr, ks, h, -⟩
          · cases hr; cases h
          · cases h
          · cases h
          · cases hr; cases h
      · rcases h with h | h <;> cases h
      · cases hm
      · exact h
  · exact .inr ⟨_, List.mem_singleton.mpr rfl, .inr (.inl (.inl rfl))⟩

/-- The large example is imported; without rotation it is not. -/
example [Kurbo F64] [Libm F64] : ¬ Unsupported (exDoc (F := F64)) ∧
    Unsupported ({ exDoc with layers := [.null ((fun v => { v with
      transform := { v.transform with rotation := none } }) (exVisual "a" none))] } :
        Schema.Animation F64) := by
  constructor
  · rw [← C48_returns_iff]
    have h : (faultOf (convAnimation (exDoc (F := F64)))) = none := by kernel_decide
    cases hc : convAnimation (exDoc (F := F64)) with
    | ok c => exact ⟨c, rfl⟩
    | error e => rw [hc] at h; cases h
  · exact .inr ⟨_, List.mem_singleton.mpr rfl, .inl (.inl rfl)⟩

/-- A layer with one star with the given number of points. -/
def exStarDoc (points : F) : Schema.Animation F :=
  { exDoc with
    layers := [.shape ⟨exVisual "a" none,
      [.polyStar ⟨⟨exElement, none⟩, ⟨none, none, none, none, .static [lit 5, lit 5]⟩,
        exStatic (lit 4), exStatic (lit 0), exStatic (lit 0), exStatic points, .star,
        some (exStatic (lit 2)), none⟩]⟩] }

/-- A star with 10¹⁸ points cannot be imported; one with 5 can. -/
example [Kurbo F64] [Libm F64] : Unsupported (exStarDoc (F := F64) (lit (10 ^ 18))) ∧
    ¬ Unsupported (exStarDoc (F := F64) (lit 5)) := by
  rw [← C48_panics_iff, ← C48_returns_iff]
  constructor
  · refine ⟨.starCapacity, eq_error_of_fault ?_⟩
    kernel_decide
  · have h : (faultOf (convAnimation (exStarDoc (F := F64) (lit 5)))) = none := by kernel_decide
    cases hc : convAnimation (exStarDoc (F := F64) (lit 5)) with
    | ok c => exact ⟨c, rfl⟩
    | error e => rw [hc] at h; cases h

end
end Velato
