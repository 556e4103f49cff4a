import Verif.Proofs.Spelled
import Verif.Spec.ExampleDoc

/-!
# C153 — what is left out can be written out
-/

namespace Velato
open FloatOps (lit)

/-- **C153.** A document in which everything that `spell` names is written out is imported as the same composition as before, or
rejected in the same way. -/
theorem C153_spelled {F : Type} [FloatOps F] [Kurbo F] [Libm F] (a : Schema.Animation F) :
    Import.convAnimation a.spell = Import.convAnimation a :=
  convAnimation_spell a

/-- **C153.** Two documents that are the same once all this is written out are imported as the same composition, or rejected in the
same way. -/
theorem C153_import {F : Type} [FloatOps F] [Kurbo F] [Libm F] {a b : Schema.Animation F} (h : a.spell = b.spell) :
    Import.convAnimation a = Import.convAnimation b := by
  rw [← convAnimation_spell a, h, convAnimation_spell]

/-! ### An example -/

/-- The blend modes that the layers of a document and those of its assets name. -/
def blendModesOf (a : Schema.Animation F64) : List (Option Schema.BlendMode) × List (List (Option Schema.BlendMode)) :=
  (a.layers.map fun l => (Import.visualLayer l).blendMode, (a.assets.getD []).map fun
    | .precomposition p => p.layers.map fun l => (Import.visualLayer l).blendMode
    | .image _ => [])

/-- The example document with the layers written out, but not those of the assets. -/
def exHalfSpelled : Schema.Animation F64 := { exDoc with layers := exDoc.layers.map Schema.AnyLayer.spell }

/-- Three different documents that are the same once everything is written out: the example document, the one above, and the one in
which everything is written out.  The first can be imported. -/
example [Kurbo F64] [Libm F64] : exHalfSpelled ≠ exDoc ∧ exHalfSpelled ≠ exDoc.spell ∧ exHalfSpelled.spell = exDoc.spell ∧
    ∃ c, Import.convAnimation (exDoc : Schema.Animation F64) = .ok c :=
  ⟨fun h => absurd (congrArg blendModesOf h) (by decide +kernel), fun h => absurd (congrArg blendModesOf h) (by decide +kernel),
    rfl, _, rfl⟩

end Velato
