import Verif.Spec.ImportShapes

/-!
# The stars of a document
-/

namespace Velato

section
variable {F : Type}

/-- `Within t s`: the shape `t` is `s` or nested in the groups of `s`. -/
inductive Within (t : Schema.AnyShape F) : Schema.AnyShape F → Prop where
  | self : Within t t
  | item {e n items i s} (hs : s ∈ items) (h : Within t s) : Within t (.group e n items i)

/-- The layers of a document and of its assets. -/
def Schema.Animation.allLayers (a : Schema.Animation F) : List (Schema.AnyLayer F) :=
  a.layers ++ a.assetList.flatMap fun
    | .precomposition p => p.layers
    | .image _ => []

/-- The stars of a document, at any depth. -/
def Schema.Animation.HasStar (a : Schema.Animation F) (t : Schema.PolyStarShape F) : Prop :=
  ∃ l ∈ a.allLayers, ∃ q, l = .shape q ∧ ∃ s ∈ q.shapes, Within (.polyStar t) s

end
end Velato
