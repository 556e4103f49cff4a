import Verif.Spec.Import
import Verif.Spec.Render

/-!
# Vocabulary for statements about removing a layer of a document
-/

namespace Velato

variable {F : Type}

/-- No layer of the list refers to the number of the layer `s`, as parent or as matte. -/
def Schema.AnyLayer.Unreferenced [FloatOps F] (s : Schema.AnyLayer F)
    (ts : List (Schema.AnyLayer F)) : Prop :=
  ∀ t ∈ ts, t.visual.layer.parentIndex ≠ some s.ident ∧
    ∀ x, t.visual.matteLayerIndex = some x → FloatOps.toUsize x ≠ s.ident

/-- No chain of parents comes back to a layer: the numbers can be ranked such that every layer refers
to a parent of smaller rank. -/
def ParentsAcyclic (src : List (Schema.AnyLayer F)) : Prop :=
  ∃ rank : Nat → Nat, ∀ s ∈ src, ∀ id, s.visual.layer.parentIndex = some id → rank id < rank s.ident

/-- The same call, without the position of the layer in a group. -/
def Op.unnumbered : Op F → Op F
  | .beginGroup name _ => .beginGroup name 0
  | op => op

/-- The same calls, except that groups are announced with other positions. -/
def SameButPositions (ops ops' : List (Op F)) : Prop :=
  ops.map Op.unnumbered = ops'.map Op.unnumbered

end Velato
