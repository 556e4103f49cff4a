import Verif.Spec.Remove
import Verif.Spec.Import

/-!
# Vocabulary for statements about a common parent of the layers of a document
-/

namespace Velato

variable {F : Type}

namespace Schema

/-- The same attributes, with the parent `id` if there is none. -/
def VisualLayer.withParent (id : Nat) (v : VisualLayer F) : VisualLayer F :=
  { v with layer := { v.layer with parentIndex := some (v.layer.parentIndex.getD id) } }

/-- The same layer, with the parent `id` if it has none. -/
def AnyLayer.withParent (id : Nat) : AnyLayer F → AnyLayer F
  | .precomposition l => .precomposition { l with visualLayer := l.visualLayer.withParent id }
  | .solid l => .solid { l with visualLayer := l.visualLayer.withParent id }
  | .shape l => .shape { l with visualLayer := l.visualLayer.withParent id }
  | .null l => .null (l.withParent id)
  | .image l => .image { l with visualLayer := l.visualLayer.withParent id }

/-- The document `a'` is `a` with a new null layer `n` at the end, which is the parent of all layers that had none.  No layer has
the number of the new one, every parent that a layer names is there, and no layer has a matte. -/
structure Animation.Parented (a a' : Animation F) (n : VisualLayer F) : Prop where
  result : a' = { a with layers := a.layers.map (AnyLayer.withParent (AnyLayer.null n).ident) ++ [.null n] }
  fresh : ∀ s ∈ a.layers, s.ident ≠ (AnyLayer.null n).ident
  parents : ∀ s ∈ a.layers, ∀ id, s.visual.layer.parentIndex = some id → ∃ t ∈ a.layers, t.ident = id
  unmatted : ∀ s ∈ a.layers, ¬ s.Matted
  top : n.layer.parentIndex = none
  plain : n.matteMode = none ∧ n.matteTarget ≠ some .true
  unmasked : n.masksProperties.getD [] = []
  unblended : n.blendMode.getD .normal = .normal

end Schema

/-- The calls of a null layer without masks that is announced with the position `i`: its group, if it is there. -/
def NullCalls [FloatOps F] (n : Schema.VisualLayer F) (i : Nat) (frame : F) (ops : List (Op F)) : Prop :=
  (FloatOps.le n.layer.inPoint frame = true ∧ FloatOps.lt frame n.layer.outPoint = true ∧
    ops = [.beginGroup (n.layer.visualObject.name.getD "") i, .endGroup]) ∨
  (¬ (FloatOps.le n.layer.inPoint frame = true ∧ FloatOps.lt frame n.layer.outPoint = true) ∧ ops = [])

end Velato
