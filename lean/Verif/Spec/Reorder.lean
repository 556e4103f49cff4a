import Verif.Spec.Remove

/-!
# Vocabulary for statements about rearranging the layers of a document
-/

namespace Velato

variable {F : Type}

/-- The layer `m` of the list is the matte that the layer `t` uses if it does not say which. -/
def MatteBefore (ls : List (Schema.AnyLayer F)) (t m : Schema.AnyLayer F) : Prop :=
  ∃ i j, ls[i]? = some t ∧ ls[j]? = some m ∧ PendingMatte ls i j

/-- `a'` has the layers of `a` in another order.  The layers are different from each other, and so are the numbers of layers that
somebody refers to; layers that do not say which matte they use have the same matte before them. -/
structure Schema.Animation.Rearranged [FloatOps F] (a a' : Schema.Animation F) : Prop where
  same : a' = { a with layers := a'.layers }
  perm : a'.layers.Perm a.layers
  distinct : a.layers.Nodup
  numbers : ∀ s ∈ a.layers, ∀ t ∈ a.layers, s.ident = t.ident → s = t ∨ s.Unreferenced a.layers
  mattes : ∀ t m, t.visual.matteMode ≠ none → t.visual.matteLayerIndex = none →
    (MatteBefore a.layers t m ↔ MatteBefore a'.layers t m)

end Velato
