import Verif.Spec.Chain
import Verif.Spec.Dimming

/-!
# Vocabulary: the fill or stroke and the geometry that a call comes from
-/

namespace Velato
open FloatOps (lit)

section
variable {F : Type} [FloatOps F] [Libm F] [Kurbo F]

/-- From the shapes `ss` into groups, one in the other, as far as the shapes `xs`.  If `ss` are placed by `T` and have
the opacity factor `al`, then `xs` are placed by `T'` and have the opacity factor `al'`. -/
inductive GroupsTo (frame : F) : List (Schema.AnyShape F) → Affine F → F → List (Schema.AnyShape F) → Affine F → F →
    Prop where
  | here {ss T al} : GroupsTo frame ss T al ss T al
  | group {ss T al e n items i M k xs T' al'} (h : .group e n items i ∈ ss)
      (hM : GroupAt frame (groupTransform items) M k)
      (hx : GroupsTo frame items (T.mul M) (al *. k) xs T' al') : GroupsTo frame ss T al xs T' al'

/-- From the layers `ls` to the shape layer `q`, which is one of them, or one in the asset that one of them shows, and
so on.  All these layers are there at their frame and not hidden.  If `ls` are at `frame`, are placed by `T` and
have the opacity factor `al`, then the shapes of `q` are at `frame'`, are placed by `T'` and have the opacity factor
`al'`. -/
inductive Reaches (a : Schema.Animation F) : List (Schema.AnyLayer F) → F → Affine F → F → Schema.ShapeLayer F → F →
    Affine F → F → Prop where
  | here {ls frame T al q P M o} (h : .shape q ∈ ls) (hd : (Schema.AnyLayer.shape q).During frame)
      (hv : ¬ (Schema.AnyLayer.shape q).Hidden) (hP : PlacedAt ls frame (.shape q) P)
      (hM : LayerAt frame (.shape q) M o) : Reaches a ls frame T al q frame (T.mul P) (al *. o /. lit 100)
  | instance {ls frame T al x p q frame' T' al' P M o} (h : .precomposition x ∈ ls)
      (hd : (Schema.AnyLayer.precomposition x).During frame) (hv : ¬ (Schema.AnyLayer.precomposition x).Hidden)
      (hP : PlacedAt ls frame (.precomposition x) P) (hM : LayerAt frame (.precomposition x) M o)
      (hp : .precomposition p ∈ a.assetList) (hid : p.asset.id = x.refId)
      (hq : Reaches a p.layers (x.time frame) (T.mul P) (al *. o /. lit 100) q frame' T' al') :
      Reaches a ls frame T al q frame' T' al'

/-- `els` is the outline of a geometry that is one of the shapes `ss` or in a group of them, and so on.  If `ss` are
placed by `T`, then it is placed by `T'`. -/
def Supplies (frame : F) (ss : List (Schema.AnyShape F)) (T : Affine F) (T' : Affine F) (els : List (PathEl F)) :
    Prop :=
  ∃ al xs al' g, GroupsTo frame ss T al xs T' al' ∧ g ∈ xs ∧ OutlineAt frame g els

end

/-- There is a trim among the shapes, or in a group of them, and so on. -/
inductive TrimIn {F : Type} : List (Schema.AnyShape F) → Prop where
  | here {ss t} (h : .trim t ∈ ss) : TrimIn ss
  | inner {ss e n items i} (h : .group e n items i ∈ ss) (ht : TrimIn items) : TrimIn ss

section
variable [Kurbo F64]

/-- From the shapes `ss` into `n` groups, one in the other, as far as the shapes `xs`.  These are meant to be put, by
these groups, at `Q p`, and to have their opacities multiplied by `f`. -/
inductive MeantGroups (frame : F64) : List (Schema.AnyShape F64) → List (Schema.AnyShape F64) → (P2 ℝ → P2 ℝ) → ℝ →
    Nat → Prop where
  | here {ss} : MeantGroups frame ss ss id 1 0
  | group {ss e nm items i r k xs Q f n} (h : .group e nm items i ∈ ss)
      (hr : GroupMeans frame (groupTransform items) r) (hk : GroupFades frame (groupTransform items) k)
      (hx : MeantGroups frame items xs Q f n) : MeantGroups frame ss xs (r ∘ Q) (k * f) (n + 1)

/-- From the layers `ls` to the shape layer `q`, which is one of them, or one in the asset that one of them shows, and
so on.  All these layers are there at their frame and not hidden.  When `ls` are at `frame`, then `q` is at `frame'`.
Its shapes are meant to be put, by these layers and their parents, `n` layers together, at `Q p`.  They are meant to have
their opacities multiplied by `f`, by these layers alone. -/
inductive MeantLayer (a : Schema.Animation F64) : List (Schema.AnyLayer F64) → F64 → Schema.ShapeLayer F64 → F64 →
    (P2 ℝ → P2 ℝ) → ℝ → Nat → Prop where
  | here {ls frame q Q k n} (h : .shape q ∈ ls) (hd : (Schema.AnyLayer.shape q).During frame)
      (hv : ¬ (Schema.AnyLayer.shape q).Hidden) (hQ : MeantAt ls frame (.shape q) Q n)
      (hk : (Schema.AnyLayer.shape q).visual.transform.Fades frame k) : MeantLayer a ls frame q frame Q k (n + 1)
  | instance {ls frame x p q frame' Q k n R f m} (h : .precomposition x ∈ ls)
      (hd : (Schema.AnyLayer.precomposition x).During frame) (hv : ¬ (Schema.AnyLayer.precomposition x).Hidden)
      (hQ : MeantAt ls frame (.precomposition x) Q n)
      (hk : (Schema.AnyLayer.precomposition x).visual.transform.Fades frame k)
      (hp : .precomposition p ∈ a.assetList) (hid : p.asset.id = x.refId)
      (hq : MeantLayer a p.layers (x.time frame) q frame' R f m) :
      MeantLayer a ls frame q frame' (Q ∘ R) (k * f) (n + 1 + m)

end
end Velato
