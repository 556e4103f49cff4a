import Verif.Proofs.JsonSteps
import Verif.Props.Format

/-!
# C128: the order of keys and unknown keys do not matter
-/

namespace Velato
open Schema Decode

section
variable {F : Type} [FloatOps F]

/-- **C128.** JSON values that differ in the order of the entries of objects and in entries with keys that are not
documented, at any depth, are read as the same document, up to its descriptions (which are kept as they are
written). -/
theorem C128_read {j j' : Json F} (h : j.Same j') {a : Animation F} (ha : jAnimation j = some a) :
    ∃ m d, jAnimation j' = some { a with metaInfo := m, metadata := d } := by
  have key := same_bare h
  rw [ha] at key
  obtain ⟨a', ha', e⟩ := Option.map_eq_some_iff.mp key.symm
  refine ⟨a'.metaInfo, a'.metadata, ?_⟩
  rw [ha']
  obtain ⟨x1, x2, x3, x4, x5, x6, x7, x8, x9, x10, x11, x12, x13, x14⟩ := a
  obtain ⟨y1, y2, y3, y4, y5, y6, y7, y8, y9, y10, y11, y12, y13, y14⟩ := a'
  cases e
  rfl

/-- **C128.** If one of them is rejected, so is the other. -/
theorem C128_rejected {j j' : Json F} (h : j.Same j') (hj : jAnimation j = none) : jAnimation j' = none := by
  have key := same_bare h
  rw [hj] at key
  exact Option.map_eq_none_iff.mp key.symm

/-- **C128.** They are loaded as the same composition, or neither is loaded. -/
theorem C128_loaded [Kurbo F] [Libm F] {j j' : Json F} (h : j.Same j') : fromJson j = fromJson j' := by
  have e : ∀ j : Json F, fromJson j = ((jAnimation j).map bare).map Import.convAnimation := by
    intro j
    unfold fromJson
    rw [Option.map_map]
    rfl
  rw [e, e, same_bare h]

/-- A document with its layers at the end instead of the beginning of the file and an unknown key in a layer. -/
def reorderedDoc : Json F :=
  .obj [("fr", jsonInt 60), ("layers", .arr [jsonLayer (jsonInt 3) [("nm", .str "x"), ("zzz", .obj [])]]),
    ("ip", jsonInt 0), ("op", jsonInt 60), ("w", jsonInt 100), ("h", jsonInt 100), ("assets", .arr [])]

omit [FloatOps F] in
theorem reorderedDoc_same : (jsonDoc (F := F) [jsonLayer (jsonInt 3) [("nm", .str "x")]] []).Same reorderedDoc := by
  refine .trans _ _ _ (.rel _ _ (.entry (A := []) (w := .arr [jsonLayer (jsonInt 3) [("nm", .str "x"), ("zzz", .obj [])]])
    (.element (A := []) (B := []) (.extra (A := [("ty", jsonInt 3), ("ip", jsonInt 0), ("op", jsonInt 60), ("ks", jsonKs),
      ("nm", .str "x")]) (B := []) (by decide) (by simp) (by simp) (by simp)))))
    (.rel _ _ (.swap (A := []) (by simp)))

/-- It is read. -/
example : ∃ a : Animation F, jAnimation (jsonDoc (F := F) [jsonLayer (jsonInt 3) [("nm", .str "x")]] []) = some a ∧
    ∃ m d, jAnimation reorderedDoc = some { a with metaInfo := m, metadata := d } :=
  ⟨_, rfl, C128_read reorderedDoc_same rfl⟩

example : jsonDoc (F := F) [jsonLayer (jsonInt 3) [("nm", .str "x")]] [] ≠ reorderedDoc := by
  simp [jsonDoc, reorderedDoc]

end
end Velato
