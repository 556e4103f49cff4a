import Verif.Spec.Accuracy
import Verif.Spec.DocDraws
import Verif.Spec.DocPaths
import Verif.Spec.Figures

/-!
# Vocabulary: outlines with finite coordinates in double precision
-/

namespace Velato
open F64

/-- Both coordinates are finite and at most `2^k` in magnitude. -/
def P2.UpTo (k : Nat) (p : P2 F64) : Prop := F64.Bdd p.x k ∧ F64.Bdd p.y k

/-- So are the coordinates of all points of the element, control points included. -/
def PathEl.UpTo (k : Nat) (el : PathEl F64) : Prop := ∀ p ∈ el.points, p.UpTo k

/-- The points of a segment, control points included. -/
def PathSeg.points {F : Type} : PathSeg F → List (P2 F)
  | .line p q => [p, q]
  | .quad p q r => [p, q, r]
  | .cubic p q r s => [p, q, r, s]

/-- So are the coordinates of all points of the segment. -/
def PathSeg.UpTo (k : Nat) (seg : PathSeg F64) : Prop := ∀ p ∈ seg.points, p.UpTo k

/-- What is expected of kurbo: the outlines of ellipses and rectangles of moderate size have moderate coordinates;
a part of a segment is at most eight times as far out as the segment. -/
structure BoundedKurbo [Kurbo F64] : Prop where
  ellipse : ∀ c r : P2 F64, c.UpTo 15 → r.UpTo 15 → ∀ el ∈ Kurbo.ellipsePath c r, el.UpTo 22
  rect : ∀ x0 y0 x1 y1 r : F64, P2.UpTo 15 ⟨x0, y0⟩ → P2.UpTo 15 ⟨x1, y1⟩ → F64.Bdd r 15 →
    ∀ el ∈ Kurbo.roundedRectPath x0 y0 x1 y1 r, el.UpTo 22
  subsegment : ∀ (k : Nat) (seg : PathSeg F64) (t0 t1 : F64), k ≤ 50 → seg.UpTo k → t0.Between 0 1 →
    t1.Between 0 1 → (Kurbo.subsegment seg t0 t1).UpTo (k + 3)

/-- The constants τ and π/2 are accurate to about one unit in the last place. -/
structure AccurateAngles [Libm F64] : Prop where
  tau : Near (Libm.tau : F64) (2 * Real.pi) (1 / 2 ^ 51)
  quarter : Near (Libm.fracPi2 : F64) (Real.pi / 2) (1 / 2 ^ 53)

/-- All coordinates of a shape of a path are at most 8000 in magnitude, also those of the handles. -/
def Schema.Bezier.Modest (b : Schema.Bezier F64) : Prop :=
  ∀ p ∈ b.vertices ++ b.inTangents ++ b.outTangents, p.1.Between (-8000) 8000 ∧ p.2.Between (-8000) 8000

/-- All shapes of a path have moderate coordinates; the times of keyframes are at most `2^1000` in magnitude. -/
def Schema.ShapeProperty.Modest (p : Schema.ShapeProperty F64) : Prop :=
  match p.value with
  | .static b => b.Modest
  | .animated ks => ∀ k ∈ ks, k.base.time.Between (-2 ^ 1000) (2 ^ 1000) ∧
      ∀ b ∈ k.start.getD [] ++ k.stop.getD [], b.Modest

/-- The path has a weight at the frame: not at a keyframe which is not held and which is the last one, or at the
same time as the next one. -/
def Schema.ShapeProperty.DefinedAt (p : Schema.ShapeProperty F64) (frame : F64) : Prop :=
  ∀ ks, p.value = .animated ks → ∀ (i : Nat) (k : Schema.ShapeKeyframe F64), ks[i]? = some k →
    k.base.hold ≠ some .true → (frame ==. k.base.time) = true →
      ∃ k', ks[i + 1]? = some k' ∧ (k'.base.time ==. k.base.time) = false

/-- Every keyframe of the path which is not held is followed by one at another time. -/
def Schema.ShapeProperty.EndsHeld (p : Schema.ShapeProperty F64) : Prop :=
  ∀ ks, p.value = .animated ks → ∀ (i : Nat) (k : Schema.ShapeKeyframe F64), ks[i]? = some k →
    k.base.hold ≠ some .true → ∃ k', ks[i + 1]? = some k' ∧ (k'.base.time ==. k.base.time) = false

/-- Geometry with moderate numbers: coordinates, sizes and radii up to 8000, roundness up to 1500 per cent,
rotations up to 4000 degrees, stars and polygons with 3 to 100000 points. -/
def Schema.AnyShape.Modest : Schema.AnyShape F64 → Prop
  | .path s => s.shapeProperty.Modest
  | .rectangle s => PositionWithin (-8000) 8000 (-8000) 8000 s.position ∧
      VectorWithin (-8000) 8000 (-8000) 8000 s.size ∧ ScalarWithin (-8000) 8000 s.roundedCornerRadius
  | .ellipse s => PositionWithin (-8000) 8000 (-8000) 8000 s.position ∧
      VectorWithin (-8000) 8000 (-8000) 8000 s.size
  | .polyStar s => PositionWithin (-8000) 8000 (-8000) 8000 s.position ∧
      ScalarWithin (-8000) 8000 s.outerRadius ∧ ScalarWithin (-1500) 1500 s.outerRoundness ∧
      ScalarWithin (-4000) 4000 s.rotation ∧ ScalarWithin 3 100000 s.points ∧
      (∀ r, s.innerRadius = some r → ScalarWithin (-8000) 8000 r) ∧
      ∀ r, s.innerRoundness = some r → ScalarWithin (-1500) 1500 r
  | _ => True

section
variable {F : Type}

mutual
/-- The number of trims in a shape, including those in nested groups. -/
def Schema.AnyShape.trims : Schema.AnyShape F → Nat
  | .group _ _ items _ => trimsOf items
  | .trim _ => 1
  | _ => 0

/-- The number of trims in a list of shapes, including those in nested groups. -/
def trimsOf : List (Schema.AnyShape F) → Nat
  | [] => 0
  | s :: ss => s.trims + trimsOf ss
end

end

/-- All geometry of the document and all masks have moderate numbers; no layer has more than `n` trims. -/
structure Schema.Animation.Modest (n : Nat) (a : Schema.Animation F64) : Prop where
  paths : ∀ p, a.HasPath p → p.Modest
  shapes : ∀ l ∈ a.allLayers, ∀ q, l = .shape q → ∀ s ∈ q.shapes, ∀ t, Within t s → t.Modest
  trims : ∀ l ∈ a.allLayers, ∀ q, l = .shape q → trimsOf q.shapes ≤ n

/-- `ShownAt a ls frame l x`: if the layers `ls` are shown at `frame`, then the layer `l`, which is one of them
or in an asset that is shown, is shown at its frame `x`. -/
inductive ShownAt (a : Schema.Animation F64) :
    List (Schema.AnyLayer F64) → F64 → Schema.AnyLayer F64 → F64 → Prop where
  | here {ls frame l} (h : l ∈ ls) (hd : l.During frame) : ShownAt a ls frame l frame
  | inside {ls frame q p l x} (h : .precomposition q ∈ ls)
      (hd : (Schema.AnyLayer.precomposition q).During frame) (hp : .precomposition p ∈ a.assetList)
      (hid : p.asset.id = q.refId) (hr : ShownAt a p.layers (q.time frame) l x) : ShownAt a ls frame l x

/-- All paths of the layers that are shown at a frame of the document have a weight. -/
def Schema.Animation.PathsDefined (a : Schema.Animation F64) (frame : F64) : Prop :=
  ∀ l x, ShownAt a a.layers frame l x → ∀ p, l.HasPath p → p.DefinedAt x

/-- The outline of a call, if it has one. -/
def Op.outline {F : Type} : Op F → Option (List (PathEl F))
  | .draw _ _ _ path => some path
  | .pushClip _ (.path path) => some path
  | .pushLayer _ _ _ (.path path) => some path
  | _ => none

end Velato
