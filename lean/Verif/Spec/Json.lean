import Verif.Model.Schema

/-!
# JSON objects
-/

namespace Velato

section
variable {F : Type}

/-- The object `j` holds `v` at the key `k` (of entries with the same key the last one counts). -/
def Json.At (j : Json F) (k : String) (v : Json F) : Prop :=
  ∃ pre post, j = .obj (pre ++ (k, v) :: post) ∧ ∀ e ∈ post, e.1 ≠ k

/-- The object `j` has the key `k`. -/
def Json.HasKey (j : Json F) (k : String) : Prop := ∃ v, j.At k v

/-- The number of the layer type that belongs to a kind of layer. -/
def Schema.AnyLayer.typeCode : Schema.AnyLayer F → Nat
  | .precomposition _ => 0
  | .solid _ => 1
  | .image _ => 2
  | .null _ => 3
  | .shape _ => 4

end
end Velato
