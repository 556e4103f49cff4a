import Verif.Spec.Tame

/-!
# Vocabulary: where layers, groups and instances are meant to put a point
-/

namespace Velato
open Import

section
variable [Kurbo F64]

/-- The value of a position at a frame. -/
inductive PositionAt (frame : F64) : Schema.AnyTransformP F64 → P2 F64 → Prop where
  | plain {q} : PositionAt frame (.position q) ((convPosPoint q).evaluate frame)
  | split {q x y} (hx : convScalar q.x = .ok x) (hy : convScalar q.y = .ok y) :
      PositionAt frame (.splitPosition q) ⟨x.evaluate frame, y.evaluate frame⟩

/-- The transform is meant to put every point `p` at `q p`: from the values that its properties have at the
frame, without any further rounding. -/
def Schema.Transform.Means (v : Schema.Transform F64) (frame : F64) (q : P2 ℝ → P2 ℝ) : Prop :=
  ∃ (rot : Schema.FloatValue F64) (R K X : Value F64 F64) (P : P2 F64),
    v.rotation.getD (.rotation floatValueZero) = .rotation rot ∧ convScalar rot = .ok R ∧
    convScalar (v.skew.getD floatValueZero) = .ok K ∧
    convScalar (v.skewAxis.getD floatValueZero) = .ok X ∧ PositionAt frame v.position P ∧
    q = placed ((convPosPoint (v.anchorPoint.getD positionZero)).evaluate frame).toR P.toR
      ((convMultiP2 (v.scale.getD multidimOne)).evaluate frame).toR
      (R.evaluate frame).toR (K.evaluate frame).toR (X.evaluate frame).toR

/-- `Q` is `q` followed by what the transforms of the parents of a layer are meant to do at a frame, the nearest
first; there are `k` of them.  As in `PlacedWithin`, this ends after `n` of them. -/
inductive MeantWithin (ls : List (Schema.AnyLayer F64)) (frame : F64) :
    Nat → Schema.AnyLayer F64 → (P2 ℝ → P2 ℝ) → (P2 ℝ → P2 ℝ) → Nat → Prop where
  | root {n l q} (h : l.visual.layer.parentIndex = none) : MeantWithin ls frame n l q q 0
  | stray {n l id q} (h : l.visual.layer.parentIndex = some id)
      (hn : LastPosition (ls.map Schema.AnyLayer.ident) id none) : MeantWithin ls frame n l q q 0
  | child {n l id j p q r Q k} (h : l.visual.layer.parentIndex = some id)
      (hj : LastPosition (ls.map Schema.AnyLayer.ident) id (some j)) (hp : ls[j]? = some p)
      (hr : p.visual.transform.Means frame r) (hQ : MeantWithin ls frame n p (r ∘ q) Q k) :
      MeantWithin ls frame (n + 1) l q Q (k + 1)
  | limit {l q} : MeantWithin ls frame 0 l q q 0

/-- The layer is meant to put every point `p` at `Q p`: its own transform, and then those of its `k` parents. -/
def MeantAt (ls : List (Schema.AnyLayer F64)) (frame : F64) (l : Schema.AnyLayer F64) (Q : P2 ℝ → P2 ℝ) (k : Nat) :
    Prop :=
  ∃ q, l.visual.transform.Means frame q ∧ MeantWithin ls frame ls.length l q Q k

/-- A group is meant to put every point `p` at `q p`; if it has no transform, where it is. -/
def GroupMeans (frame : F64) : Option (Schema.TransformShape F64) → (P2 ℝ → P2 ℝ) → Prop
  | none, q => q = id
  | some t, q => t.transform.Means frame q

/-- Into `k` groups, one in the other: if the shapes `ss` are placed by `T`, then those in the innermost group are
placed by `T'`; they are meant to be put, by these groups, at `Q p`. -/
inductive IntoGroups [Libm F64] (frame : F64) : List (Schema.AnyShape F64) → Affine F64 → Affine F64 →
    (P2 ℝ → P2 ℝ) → Nat → Prop where
  | here {ss T} : IntoGroups frame ss T T id 0
  | group {ss T T' e n i items M o r Q k} (h : .group e n items i ∈ ss)
      (hM : GroupAt frame (groupTransform items) M o) (hr : GroupMeans frame (groupTransform items) r)
      (hQ : IntoGroups frame items (T.mul M) T' Q k) : IntoGroups frame ss T T' (r ∘ Q) (k + 1)

/-- Into a document: if the layers `ls` are placed by `T` at a frame, then some part of one of them (a layer, shapes
in some groups of it, or some part of a layer of the asset it shows) is placed by `T'`; it is meant to be put, by
`n` transforms, at `Q p`. -/
inductive Into [Libm F64] (a : Schema.Animation F64) : List (Schema.AnyLayer F64) → F64 → Affine F64 → Affine F64 →
    (P2 ℝ → P2 ℝ) → Nat → Prop where
  | here {ls frame T} : Into a ls frame T T id 0
  | layer {ls frame T l P Q k} (h : l ∈ ls) (hP : PlacedAt ls frame l P) (hQ : MeantAt ls frame l Q k) :
      Into a ls frame T (T.mul P) Q (k + 1)
  | shapes {ls frame T T' q P Q R k n} (h : .shape q ∈ ls) (hP : PlacedAt ls frame (.shape q) P)
      (hQ : MeantAt ls frame (.shape q) Q k) (hR : IntoGroups frame q.shapes (T.mul P) T' R n) :
      Into a ls frame T T' (Q ∘ R) (k + 1 + n)
  | instance {ls frame T T' q P Q R k n p} (h : .precomposition q ∈ ls)
      (hP : PlacedAt ls frame (.precomposition q) P) (hQ : MeantAt ls frame (.precomposition q) Q k)
      (hp : .precomposition p ∈ a.assetList) (hid : p.asset.id = q.refId)
      (hR : Into a p.layers (q.time frame) (T.mul P) T' R n) :
      Into a ls frame T T' (Q ∘ R) (k + 1 + n)

end

/-- A transform with moderate numbers that stretches by at most the factor `s`: it scales by at most `u`, and its skew
is at most `d` degrees, which is counted as the factor `1 + d / 28` (this is more than one plus the tangent). -/
structure Schema.Transform.Stretches (s : ℝ) (v : Schema.Transform F64) : Prop where
  moderate : v.Moderate
  bounds : ∃ u d : ℝ, 1 ≤ u ∧ 0 ≤ d ∧ u * (1 + d / 28) ≤ s ∧
    (∀ p, v.scale = some p → VectorWithin (-(100 * u)) (100 * u) (-(100 * u)) (100 * u) p) ∧
    ∀ p, v.skew = some p → ScalarWithin (-d) d p

/-- `t` is the transform of one of the groups in the shapes, or in groups in them, and so on. -/
inductive GroupIn : List (Schema.AnyShape F64) → Schema.TransformShape F64 → Prop where
  | here {ss e n items i t} (h : .group e n items i ∈ ss) (ht : groupTransform items = some t) : GroupIn ss t
  | inner {ss e n items i t} (h : .group e n items i ∈ ss) (ht : GroupIn items t) : GroupIn ss t

/-- The transforms of the layers and of all groups in them. -/
def LayersStretch (s : ℝ) (ls : List (Schema.AnyLayer F64)) : Prop :=
  ∀ l ∈ ls, l.visual.transform.Stretches s ∧ ∀ q, l = .shape q → ∀ t, GroupIn q.shapes t → t.transform.Stretches s

/-- The transforms of all layers of a document, of those in its assets, and of all groups. -/
def Schema.Animation.Stretches (a : Schema.Animation F64) (s : ℝ) : Prop :=
  LayersStretch s a.layers ∧ ∀ p, .precomposition p ∈ a.assetList → LayersStretch s p.layers

/-- The map that the matrix stands for stretches by at most the factor `s`, and moves the origin by at most 8192 in
both directions. -/
def Affine.Stretches (s : ℝ) (T : Affine F64) : Prop :=
  T.Finite ∧ (∀ x y : ℝ, (T.a.toR * x + T.c.toR * y) ^ 2 + (T.b.toR * x + T.d.toR * y) ^ 2 ≤ s ^ 2 * (x ^ 2 + y ^ 2)) ∧
    |T.e.toR| ≤ 2 ^ 13 ∧ |T.f.toR| ≤ 2 ^ 13

/-- The matrix with which the call places what it draws or clips to. -/
def Op.matrix : Op F64 → Option (Affine F64)
  | .draw _ T _ _ => some T
  | .pushClip T _ => some T
  | .pushLayer _ _ T _ => some T
  | _ => none

end Velato
