import Verif.Spec.DocStars

/-!
# The paths of a document
-/

namespace Velato

section
variable {F : Type}

/-- The paths of a layer: those of its masks and, in a shape layer, the path shapes at any depth. -/
def Schema.AnyLayer.HasPath (l : Schema.AnyLayer F) (p : Schema.ShapeProperty F) : Prop :=
  (∃ ms m, l.visual.masksProperties = some ms ∧ m ∈ ms ∧ m.shape = some p) ∨
  (∃ q, l = .shape q ∧ ∃ s ∈ q.shapes, ∃ t, Within (.path t) s ∧ t.shapeProperty = p)

/-- The paths of a document, in its layers and those of its assets. -/
def Schema.Animation.HasPath (a : Schema.Animation F) (p : Schema.ShapeProperty F) : Prop :=
  ∃ l ∈ a.allLayers, l.HasPath p

/-- What the parser demands of the keyframes of a path: every keyframe has a start shape, except
that the last of at least two may lack it. -/
def Schema.StartsGiven (ks : List (Schema.ShapeKeyframe F)) : Prop :=
  ∀ (i : Nat) (h : i < ks.length), ks[i].start = none → 0 < i ∧ i + 1 = ks.length

end
end Velato
