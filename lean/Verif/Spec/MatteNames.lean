import Verif.Spec.DocDraws

/-!
# Vocabulary for statements about how layers refer to their mattes
-/

namespace Velato

variable {F : Type}

namespace Schema

/-- The same attributes with another number of the matte (`tp`), or none. -/
def VisualLayer.withMatte (x : Option F) (v : VisualLayer F) : VisualLayer F := { v with matteLayerIndex := x }

/-- The same layer with another number of the matte, or none. -/
def AnyLayer.withMatte (x : Option F) : AnyLayer F → AnyLayer F
  | .precomposition l => .precomposition { l with visualLayer := l.visualLayer.withMatte x }
  | .solid l => .solid { l with visualLayer := l.visualLayer.withMatte x }
  | .shape l => .shape { l with visualLayer := l.visualLayer.withMatte x }
  | .null l => .null (l.withMatte x)
  | .image l => .image { l with visualLayer := l.visualLayer.withMatte x }

end Schema

section
variable [FloatOps F]

/-- The layers are the same except for how they refer to their mattes, and each has the same matte as before. -/
structure SameMattes (ls ls' : List (Schema.AnyLayer F)) : Prop where
  layers : List.Forall₂ (fun l l' => ∃ x, l' = l.withMatte x) ls ls'
  mattes : ∀ (i : Nat) l l', ls[i]? = some l → ls'[i]? = some l' → ∀ m, MatteOf ls i l m ↔ MatteOf ls i l' m

/-- The assets are the same except for how their layers refer to their mattes. -/
inductive AssetSameMattes : Schema.AnyAsset F → Schema.AnyAsset F → Prop where
  | same {x} : AssetSameMattes x x
  | precomposition {p ls} (h : SameMattes p.layers ls) :
      AssetSameMattes (.precomposition p) (.precomposition { p with layers := ls })

/-- The document `a'` is `a` except for how layers, its own and those of its assets, refer to their mattes. -/
structure Schema.Animation.SameMattes (a a' : Schema.Animation F) : Prop where
  result : ∃ ls as, a' = { a with layers := ls, assets := as }
  layers : Velato.SameMattes a.layers a'.layers
  assets : List.Forall₂ AssetSameMattes a.assetList a'.assetList

end
end Velato
