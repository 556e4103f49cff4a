import Verif.Spec.DocDraws

/-!
# Vocabulary: how many calls a document may take
-/

namespace Velato

section
variable {F : Type}

mutual
/-- The number of fills and strokes of a shape, those in groups included. -/
def Schema.AnyShape.paints : Schema.AnyShape F → Nat
  | .group _ _ items _ => countPaints items
  | .fill _ | .stroke _ | .gradientFill _ | .gradientStroke _ => 1
  | _ => 0

/-- The number of fills and strokes of a list of shapes. -/
def countPaints : List (Schema.AnyShape F) → Nat
  | [] => 0
  | s :: ss => s.paints + countPaints ss
end

mutual
/-- The number of rectangles, ellipses, stars and paths of a shape, those in groups included. -/
def Schema.AnyShape.geometries : Schema.AnyShape F → Nat
  | .group _ _ items _ => countGeometries items
  | .rectangle _ | .ellipse _ | .polyStar _ | .path _ => 1
  | _ => 0

/-- The number of rectangles, ellipses, stars and paths of a list of shapes. -/
def countGeometries : List (Schema.AnyShape F) → Nat
  | [] => 0
  | s :: ss => s.geometries + countGeometries ss
end

/-- The calls that are allowed for a layer without its matte, if `w` are allowed for each asset: one for each geometry
and each fill or stroke of its shapes, or those of the asset it shows, two for each mask and two for its group. -/
def Schema.AnyLayer.calls (w : String → Nat) (l : Schema.AnyLayer F) : Nat :=
  2 + 2 * (l.visual.masksProperties.getD []).length +
    match l with
    | .shape q => countPaints q.shapes * countGeometries q.shapes
    | .precomposition q => w q.refId
    | _ => 0

/-- The lists of layers that can be shown: those of the document, and those of the assets that are shown by layers
of such lists. -/
inductive ListShown (a : Schema.Animation F) : List (Schema.AnyLayer F) → Prop where
  | root : ListShown a a.layers
  | asset {ls q p} (h : ListShown a ls) (hq : .precomposition q ∈ ls) (hp : .precomposition p ∈ a.assetList)
      (hid : p.asset.id = q.refId) : ListShown a p.layers

/-- The calls allowed for all layers of a list. -/
def callsOf (c : List (Schema.AnyLayer F) → Nat → Nat) (ls : List (Schema.AnyLayer F)) : Nat :=
  ((List.range ls.length).map (c ls)).sum

/-- `w` for each asset and `c` for each layer (at a position of a list) are enough: those of an asset for all its
layers, those of a layer for itself and, if it has a matte, for this and for four more calls. -/
structure Enough [FloatOps F] (a : Schema.Animation F) (w : String → Nat)
    (c : List (Schema.AnyLayer F) → Nat → Nat) : Prop where
  plain : ∀ ls, ListShown a ls → ∀ (i : Nat) l, ls[i]? = some l → l.calls w ≤ c ls i
  matted : ∀ ls, ListShown a ls → ∀ (i : Nat) l b j, ls[i]? = some l → MatteOf ls i l (some (b, j)) → j < ls.length →
    l.calls w + 4 + c ls j ≤ c ls i
  asset : ∀ p, .precomposition p ∈ a.assetList → ListShown a p.layers → callsOf c p.layers ≤ w p.asset.id

/-- Layers of a document that is nested at most `d` deep: a list of layers of depth 0 shows no assets, and those of
depth `d + 1` only assets of depth `d`.  Every list has at most `n` layers, each of which by itself is allowed at most
`B` calls, and has no matte. -/
inductive NestedWithin (a : Schema.Animation F) (n B : Nat) : Nat → List (Schema.AnyLayer F) → Prop where
  | flat {ls} (hn : ls.length ≤ n) (hB : ∀ l ∈ ls, l.calls (fun _ => 0) ≤ B)
      (hm : ∀ l ∈ ls, l.visual.matteMode = none) (hp : ∀ q, .precomposition q ∉ ls) : NestedWithin a n B 0 ls
  | deeper {d ls} (hn : ls.length ≤ n) (hB : ∀ l ∈ ls, l.calls (fun _ => 0) ≤ B)
      (hm : ∀ l ∈ ls, l.visual.matteMode = none)
      (hp : ∀ q, .precomposition q ∈ ls → ∀ p, .precomposition p ∈ a.assetList → p.asset.id = q.refId →
        NestedWithin a n B d p.layers) : NestedWithin a n B (d + 1) ls

end
end Velato
