import Verif.Spec.Sources

/-!
# Vocabulary: the geometry that a fill or stroke has to paint
-/

namespace Velato
open FloatOps (lit)

section
variable {F : Type}

/-- Going through the shapes, groups included: if there is geometry behind which no fill or stroke has come yet
(`true`) or not (`false`) at the beginning, then likewise at the end. -/
inductive Opens : List (Schema.AnyShape F) → Bool → Bool → Prop where
  | nil {b} : Opens [] b b
  | geometry {s rest b b'} (h : s.IsGeometry) (hr : Opens rest true b') : Opens (s :: rest) b b'
  | paint {s rest b b'} (h : s.IsPaint) (hr : Opens rest false b') : Opens (s :: rest) b b'
  | group {e n items i rest b c b'} (hi : Opens items b c) (hr : Opens rest c b') :
      Opens (.group e n items i :: rest) b b'
  | ignored {s rest b b'} (h : s.IsIgnored) (hr : Opens rest b b') : Opens (s :: rest) b b'

/-- From the shapes `ss` into groups, one in the other, as far as the shapes `xs`; all geometry that is before one of
these groups in its list has a fill or stroke behind it before the group begins. -/
inductive ClearTo : List (Schema.AnyShape F) → List (Schema.AnyShape F) → Prop where
  | here {ss} : ClearTo ss ss
  | group {pre e n items i post xs} (hp : Opens pre false false) (hx : ClearTo items xs) :
      ClearTo (pre ++ .group e n items i :: post) xs

variable [FloatOps F] [Libm F] [Kurbo F]

/-- The geometry among the shapes, in groups included, in order: the matrix that places it, if the shapes are placed by
`T`, and its outline. -/
inductive GeometryOf (frame : F) : Affine F → List (Schema.AnyShape F) → List (Affine F × List (PathEl F)) → Prop where
  | nil {T} : GeometryOf frame T [] []
  | geometry {T s els rest gs} (h : OutlineAt frame s els) (hr : GeometryOf frame T rest gs) :
      GeometryOf frame T (s :: rest) ((T, els) :: gs)
  | group {T e n items i rest M k gs gs'} (hM : GroupAt frame (groupTransform items) M k)
      (hi : GeometryOf frame (T.mul M) items gs) (hr : GeometryOf frame T rest gs') :
      GeometryOf frame T (.group e n items i :: rest) (gs ++ gs')
  | paint {T s rest gs} (h : s.IsPaint) (hr : GeometryOf frame T rest gs) : GeometryOf frame T (s :: rest) gs
  | ignored {T s rest gs} (h : s.IsIgnored) (hr : GeometryOf frame T rest gs) : GeometryOf frame T (s :: rest) gs

/-- The outlines are those of the geometry, all of it and in order, where some that follow each other and are placed by
equal matrices may be one outline. -/
def GroupedInto (gs : List (Affine F × List (PathEl F))) (os : List (Outline F)) : Prop :=
  ∃ parts : List (List (Affine F × List (PathEl F))), gs = parts.flatten ∧
    List.Forall₂ (fun part o => part ≠ [] ∧ o.path = part.flatMap Prod.snd ∧
      ∀ g ∈ part, o.transform = g.1 ∨ o.transform.beq g.1 = true) parts os

/-- The shape layer `q` is one of the layers, or one in the asset that one of them shows, and so on, none of them a matte
or hidden, and all there at their frame.  When the layers are at `frame`, then `q` is at `frame'`. -/
inductive ShownLayer (a : Schema.Animation F) : List (Schema.AnyLayer F) → F → Schema.ShapeLayer F → F → Prop where
  | here {ls frame q} (h : .shape q ∈ ls) (hm : ¬ (Schema.AnyLayer.shape q).Matte)
      (hd : (Schema.AnyLayer.shape q).During frame) (hv : ¬ (Schema.AnyLayer.shape q).Hidden) :
      ShownLayer a ls frame q frame
  | instance {ls frame x p q frame'} {i : Nat} (h : .precomposition x ∈ ls)
      (hm : ¬ (Schema.AnyLayer.precomposition x).Matte) (hd : (Schema.AnyLayer.precomposition x).During frame)
      (hv : ¬ (Schema.AnyLayer.precomposition x).Hidden) (hp : a.assetList[i]? = some (.precomposition p))
      (hid : p.asset.id = x.refId)
      (hlast : ∀ (j : Nat) p', i < j → a.assetList[j]? = some (.precomposition p') → p'.asset.id ≠ x.refId)
      (hq : ShownLayer a p.layers (x.time frame) q frame') : ShownLayer a ls frame q frame'

end
end Velato
