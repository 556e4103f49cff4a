import Verif.Spec.Paint

/-!
# Specification: the calls that a document stands for

From the document to the calls on the sink, without the imported composition and without the
renderer's buffers.  The value of a property at a frame is that of the imported property
(`convGeometry`, `convShapeGeometry`, `convShapeTransform`, `convTransform`, and those of Spec/Paint;
subject of C15 – C18, C51, C61, C68 and C75).  Blend modes of layers, modes and opacities of masks, fill
rules and hidden marks of shapes do not occur here, because the code does not look at them (C62 – C65).

Everything is for any arithmetic `F`.  Where numbers are calculated with, the operations and their order
are part of what is specified, so that in double precision the calls are determined to the last bit.
-/

namespace Velato
open FloatOps (lit)
open Import (convGeometry convShapeGeometry convShapeTransform convTransform)

/-- Rectangles, ellipses, stars, and paths all of whose keyframes have a shape to start from. -/
def Schema.AnyShape.IsGeometry {F : Type} : Schema.AnyShape F → Prop
  | .rectangle _ | .ellipse _ | .polyStar _ => True
  | .path s => ¬ NoPath s.shapeProperty
  | _ => False

/-- Fills and strokes. -/
def Schema.AnyShape.IsPaint {F : Type} : Schema.AnyShape F → Prop
  | .fill _ | .stroke _ | .gradientFill _ | .gradientStroke _ => True
  | _ => False

/-- The transform of a group: the last transform element in it, if there is one. -/
def groupTransform {F : Type} (items : List (Schema.AnyShape F)) : Option (Schema.TransformShape F) :=
  (items.filterMap fun s => match s with | .transform t => some t | _ => none).getLast?

/-- Trims. -/
def Schema.AnyShape.IsTrim {F : Type} : Schema.AnyShape F → Prop
  | .trim _ => True
  | _ => False

/-- What the code does not look at: repeaters and other modifiers but trims; paths with a keyframe
without a shape to start from; and (here) transforms, which count for their group as a whole. -/
def Schema.AnyShape.IsIgnored {F : Type} : Schema.AnyShape F → Prop
  | .puckerBloat _ | .merge _ | .repeater _ | .offsetPath _ | .twist _ | .roundedCorners _
  | .transform _ => True
  | .path s => NoPath s.shapeProperty
  | _ => False

/-- What there is after the last fill or stroke of the shapes of a layer: nothing, or geometry, or geometry
of which a trim has left nothing. -/
inductive Unpainted where
  | nothing
  | geometry
  | emptied
  deriving DecidableEq

section
variable {F : Type} [FloatOps F] [Libm F] [Kurbo F]

/-- The outline of a geometry at a frame. -/
def OutlineAt (frame : F) (s : Schema.AnyShape F) (els : List (PathEl F)) : Prop :=
  ∃ g, convGeometry s = .ok (some g) ∧ g.evaluate frame = .ok els

/-- The matrix and opacity factor of a group at a frame. -/
def GroupAt (frame : F) : Option (Schema.TransformShape F) → Affine F → F → Prop
  | none, M, k => M = Affine.identity ∧ k = lit 1
  | some t, M, k => ∃ g, convShapeTransform t = .ok g ∧ M = g.transform.evaluate frame ∧
      k = g.opacity.evaluate frame /. lit 100

/-- The values of a trim at a frame. -/
def TrimAt (frame : F) (s : Schema.TrimPathShape F) (t : FixedTrim F) : Prop :=
  ScalarAt s.start frame t.start ∧ ScalarAt s.stop frame t.stop ∧ ScalarAt s.offset frame t.offset

/-- What a trim leaves of an outline: nothing, everything, or the parts in one or two ranges (subject of
C24, C84, C91). -/
def FixedTrim.cut (t : FixedTrim F) (o : Outline F) : Outline F :=
  match t.normalized with
  | none => { o with path := [] }
  | some (first, second) =>
    if first.1 <=. tiny ∧ lit 1 -. tiny <=. first.2 ∧ second = none then o
    else { o with path := ((trimPath first second o.path).toOption).getD [] }

/-- One fill or stroke of a list of shapes: how it paints, and which outlines. -/
structure Painting (F : Type) where
  paint : Paint F
  outlines : List (Outline F)

/-- What has been seen of the shapes of a group, and of what is before the group in its layer. -/
structure Sheet (F : Type) where
  /-- The outlines before the group. -/
  outer : List (Outline F)
  /-- The outlines in the group. -/
  outlines : List (Outline F)
  /-- The fills and strokes in the group. -/
  paintings : List (Painting F)
  /-- What there is after the last fill or stroke. -/
  unpainted : Unpainted
  /-- The elements of all geometry of the layer so far, in order; after a trim that cut pieces out, of the
  outlines as they are then. -/
  elements : List (PathEl F)

/-- At the beginning of a layer. -/
def Sheet.empty : Sheet F := ⟨[], [], [], .nothing, []⟩

/-- With more geometry.  If no fill or stroke has come after the last outline, and this is placed by an
equal transform, then the geometry becomes part of this outline, even if it is in another group.  If a trim has
left nothing of this outline, then, instead of nothing, it has all elements there have been so far. -/
def Sheet.add (S : Sheet F) (T : Affine F) (path : List (PathEl F)) : Sheet F :=
  let all := S.outer ++ S.outlines
  let S' := { S with unpainted := .geometry, elements := S.elements ++ path }
  match all.getLast? with
  | some o =>
    if S.unpainted ≠ .nothing ∧ o.transform.beq T then
      let before := if S.unpainted = .emptied then S.elements else o.path
      let all' := all.dropLast ++ [⟨o.transform, before ++ path⟩]
      { S' with outer := all'.take S.outer.length, outlines := all'.drop S.outer.length }
    else { S' with outlines := S.outlines ++ [⟨T, path⟩] }
  | none => { S' with outlines := S.outlines ++ [⟨T, path⟩] }

/-- With another fill or stroke, of all outlines of the group there are. -/
def Sheet.draw (S : Sheet F) (p : Paint F) : Sheet F :=
  { S with paintings := S.paintings ++ [⟨p, S.outlines⟩], unpainted := .nothing }

/-- The trim leaves nothing. -/
def FixedTrim.Empties (t : FixedTrim F) : Prop := t.normalized = none

/-- The trim leaves everything. -/
def FixedTrim.Spares (t : FixedTrim F) : Prop :=
  ∃ first, t.normalized = some (first, none) ∧ first.1 <=. tiny ∧ lit 1 -. tiny <=. first.2

/-- With all outlines of the group trimmed, also in the fills and strokes that there are. -/
noncomputable def Sheet.trim (S : Sheet F) (t : FixedTrim F) : Sheet F :=
  let S' := { S with
    outlines := S.outlines.map t.cut
    paintings := S.paintings.map fun p => ⟨p.paint, p.outlines.map t.cut⟩ }
  open Classical in
  if t.Spares then S'
  else if t.Empties then
    if S.unpainted = .nothing ∨ S.outlines = [] then S' else { S' with unpainted := .emptied }
  else { S' with
    unpainted := if S.unpainted = .nothing then .nothing else .geometry
    elements := (S'.outer ++ S'.outlines).flatMap Outline.path }

/-- At the beginning of a group. -/
def Sheet.enter (S : Sheet F) : Sheet F := { S with outer := S.outer ++ S.outlines, outlines := [], paintings := [] }

/-- After the end of a group, where `E` is what has been seen at its end. -/
def Sheet.leave (S E : Sheet F) : Sheet F :=
  { E with
    outer := E.outer.take S.outer.length
    outlines := E.outer.drop S.outer.length ++ E.outlines
    paintings := S.paintings ++ E.paintings }

/-- What a list of shapes stands for at a frame, after what is before it; `T` and `alpha` are the
transform and the opacity factor of what contains it.  Fills and strokes paint, and trims cut, all
outlines before them in their group, those of inner groups included. -/
inductive ItemsDrawn (frame : F) : Affine F → F → List (Schema.AnyShape F) → Sheet F → Sheet F → Prop where
  | nil {T alpha S} : ItemsDrawn frame T alpha [] S S
  | geometry {T alpha s els rest S S'} (h : OutlineAt frame s els)
      (hr : ItemsDrawn frame T alpha rest (S.add T els) S') : ItemsDrawn frame T alpha (s :: rest) S S'
  | group {T alpha e n i items rest M k S E S'} (ht : GroupAt frame (groupTransform items) M k)
      (hi : ItemsDrawn frame (T.mul M) (alpha *. k) items S.enter E)
      (hr : ItemsDrawn frame T alpha rest (S.leave E) S') :
      ItemsDrawn frame T alpha (.group e n items i :: rest) S S'
  | paint {T alpha s p rest S S'} (hp : PaintOf alpha frame p s)
      (hr : ItemsDrawn frame T alpha rest (S.draw p) S') : ItemsDrawn frame T alpha (s :: rest) S S'
  | trim {T alpha s t rest S S'} (ht : TrimAt frame s t)
      (hr : ItemsDrawn frame T alpha rest (S.trim t) S') : ItemsDrawn frame T alpha (.trim s :: rest) S S'
  | ignored {T alpha s rest S S'} (h : s.IsIgnored) (hr : ItemsDrawn frame T alpha rest S S') :
      ItemsDrawn frame T alpha (s :: rest) S S'

/-- The calls of a fill or stroke: one for each outline. -/
def Painting.calls (p : Painting F) : List (Op F) :=
  p.outlines.map fun o => .draw p.paint.stroke o.transform p.paint.finalBrush o.path

/-- The calls of the shapes of a layer: the last fill or stroke is drawn first. -/
def Sheet.calls (S : Sheet F) : List (Op F) := S.paintings.reverse.flatMap Painting.calls

/-- The matrix and opacity (in percent) of a layer by itself at a frame. -/
def LayerAt (frame : F) (l : Schema.AnyLayer F) (M : Affine F) (o : F) : Prop :=
  ∃ t v, convTransform l.visual.transform = .ok (t, v) ∧ M = t.evaluate frame ∧ o = v.evaluate frame

/-- The matrix `P` is `M` after the matrices of at most `n` parents of a layer at a frame, the nearest
first. -/
inductive PlacedWithin (ls : List (Schema.AnyLayer F)) (frame : F) :
    Nat → Schema.AnyLayer F → Affine F → Affine F → Prop where
  | root {n l M} (h : l.visual.layer.parentIndex = none) : PlacedWithin ls frame n l M M
  | stray {n l id M} (h : l.visual.layer.parentIndex = some id)
      (hn : LastPosition (ls.map Schema.AnyLayer.ident) id none) : PlacedWithin ls frame n l M M
  | child {n l id j p M N o P} (h : l.visual.layer.parentIndex = some id)
      (hj : LastPosition (ls.map Schema.AnyLayer.ident) id (some j)) (hp : ls[j]? = some p)
      (hl : LayerAt frame p N o) (hr : PlacedWithin ls frame n p (N.mul M) P) :
      PlacedWithin ls frame (n + 1) l M P
  | limit {l M} : PlacedWithin ls frame 0 l M M

/-- The matrix that places a layer at a frame: its own, after those of its parents.  If the parents go
round in a circle, this ends after as many of them as there are layers. -/
def PlacedAt (ls : List (Schema.AnyLayer F)) (frame : F) (l : Schema.AnyLayer F) (P : Affine F) : Prop :=
  ∃ M o, LayerAt frame l M o ∧ PlacedWithin ls frame ls.length l M P

/-- The layer is there at the frame. -/
def Schema.AnyLayer.During (l : Schema.AnyLayer F) (frame : F) : Prop :=
  l.visual.layer.inPoint <=. frame ∧ frame <. l.visual.layer.outPoint

/-- The matte of a layer `l` at position `i` of `ls`, and how it is composed with it: the last layer
with the index that `l` names; or, if it names none, the matte before it. -/
inductive MatteOf (ls : List (Schema.AnyLayer F)) (i : Nat) (l : Schema.AnyLayer F) :
    Option (BlendMode × Nat) → Prop where
  | without (h : l.visual.matteMode = none) : MatteOf ls i l none
  | named {mode x r} (h : l.visual.matteMode = some mode) (hx : l.visual.matteLayerIndex = some x)
      (hr : LastPosition (ls.map Schema.AnyLayer.ident) (FloatOps.toUsize x) r) :
      MatteOf ls i l (r.map fun j => (matteBlend mode, j))
  | pending {mode j} (h : l.visual.matteMode = some mode) (hx : l.visual.matteLayerIndex = none)
      (hj : PendingMatte ls i j) : MatteOf ls i l (some (matteBlend mode, j))
  | nothing {mode} (h : l.visual.matteMode = some mode) (hx : l.visual.matteLayerIndex = none)
      (hj : ∀ j, ¬ PendingMatte ls i j) : MatteOf ls i l none

/-- The clips of the masks of a layer that is placed by `T`; masks without a path do nothing. -/
inductive MasksDrawn (frame : F) (T : Affine F) : List (Schema.Mask F) → List (Op F) → Prop where
  | nil : MasksDrawn frame T [] []
  | keep {m ms p g els ops} (hp : m.shape = some p)
      (hg : convShapeGeometry p = .ok (some g))
      (he : g.evaluate frame = .ok els) (hs : MasksDrawn frame T ms ops) :
      MasksDrawn frame T (m :: ms) (.pushClip T (.path els) :: ops)
  | drop {m ms ops} (hp : ∀ p, m.shape = some p → NoPath p) (hs : MasksDrawn frame T ms ops) :
      MasksDrawn frame T (m :: ms) ops

/-- The calls of a layer in the group with which it is announced. -/
def announced (l : Schema.AnyLayer F) (ix : Nat) (ops : List (Op F)) : List (Op F) :=
  [.beginGroup (l.visual.layer.visualObject.name.getD "") ix] ++ ops ++ [.endGroup]

/-- The whole area of a document. -/
def Schema.Animation.area (a : Schema.Animation F) : ClipShape F :=
  .rect (lit 0) (lit 0) (FloatOps.ofUsize a.width) (FloatOps.ofUsize a.height)

/-- The calls for a matte and for what it applies to. -/
def composed (a : Schema.Animation F) (T : Affine F) (b : BlendMode) (mo ops : List (Op F)) :
    List (Op F) :=
  [.pushLayer (.ofMix .normal) (lit 1) T a.area] ++ mo ++ [.pushLayer b (lit 1) T a.area] ++ ops ++ [.pop, .pop]

/-- The frame of the asset at a frame of the layer that shows it: the start of the layer is subtracted, in
units of the asset. -/
def Schema.PrecompositionLayer.time (q : Schema.PrecompositionLayer F) (frame : F) : F :=
  let stretch := q.visualLayer.layer.timeStretch.getD (lit 1)
  frame /. stretch +. FloatOps.neg q.startTime /. stretch

mutual
/-- The calls of the layer at position `i` of the list `ls`, announced as `ix`, where `T` and `alpha`
are the transform and the opacity factor of the composition that contains it. -/
inductive LayerDrawn (a : Schema.Animation F) : List (Schema.AnyLayer F) → Affine F → F → F → Nat →
    Nat → Schema.AnyLayer F → List (Op F) → Prop where
  | absent {ls T alpha frame ix i l} (h : ¬ l.During frame) : LayerDrawn a ls T alpha frame ix i l []
  | plain {ls T alpha frame ix i l P M o ms co} (h : l.During frame) (hm : MatteOf ls i l none)
      (hP : PlacedAt ls frame l P) (hk : LayerAt frame l M o)
      (hms : MasksDrawn frame (T.mul P) (l.visual.masksProperties.getD []) ms)
      (hco : ContentDrawn a (T.mul P) (alpha *. o /. lit 100) frame l co) :
      LayerDrawn a ls T alpha frame ix i l
        (announced l ix (ms ++ co ++ List.replicate ms.length .pop))
  | matted {ls T alpha frame ix i l P M o ms co b j m mo} (h : l.During frame)
      (hm : MatteOf ls i l (some (b, j))) (hj : ls[j]? = some m)
      (hmo : LayerDrawn a ls T alpha frame 0 j m mo)
      (hP : PlacedAt ls frame l P) (hk : LayerAt frame l M o)
      (hms : MasksDrawn frame (T.mul P) (l.visual.masksProperties.getD []) ms)
      (hco : ContentDrawn a (T.mul P) (alpha *. o /. lit 100) frame l co) :
      LayerDrawn a ls T alpha frame ix i l
        (announced l ix (composed a T b mo (ms ++ co ++ List.replicate ms.length .pop)))

/-- The calls for what a layer shows, placed by `T` and with the opacity factor `alpha`. -/
inductive ContentDrawn (a : Schema.Animation F) : Affine F → F → F → Schema.AnyLayer F →
    List (Op F) → Prop where
  | hidden {T alpha frame l} (h : l.Hidden) : ContentDrawn a T alpha frame l []
  | nothing {T alpha frame l} (hs : ∀ q, l ≠ .shape q) (hp : ∀ q, l ≠ .precomposition q) :
      ContentDrawn a T alpha frame l []
  | shape {T alpha frame q S} (hv : ¬ (Schema.AnyLayer.shape q).Hidden)
      (hss : ItemsDrawn frame T alpha q.shapes .empty S) :
      ContentDrawn a T alpha frame (.shape q) S.calls
  | missing {T alpha frame q} (hn : ∀ p, .precomposition p ∈ a.assetList → p.asset.id ≠ q.refId) :
      ContentDrawn a T alpha frame (.precomposition q) []
  | precomposition {T alpha frame q p per} {i : Nat}
      (hv : ¬ (Schema.AnyLayer.precomposition q).Hidden)
      (hp : a.assetList[i]? = some (.precomposition p)) (hid : p.asset.id = q.refId)
      (hlast : ∀ (j : Nat) p', i < j → a.assetList[j]? = some (.precomposition p') →
        p'.asset.id ≠ q.refId)
      (hls : LayerListDrawn a p.layers T alpha
        (q.time frame) (fun _ => 0) 0 p.layers per) :
      ContentDrawn a T alpha frame (.precomposition q) per.reverse.flatten

/-- The calls of each of the layers of a list `ls` from position `i` on, where `number` gives the
numbers with which they are announced.  Mattes are not drawn by themselves. -/
inductive LayerListDrawn (a : Schema.Animation F) : List (Schema.AnyLayer F) → Affine F → F → F →
    (Nat → Nat) → Nat → List (Schema.AnyLayer F) → List (List (Op F)) → Prop where
  | nil {ls T alpha frame number i} : LayerListDrawn a ls T alpha frame number i [] []
  | matte {ls T alpha frame number i l ls' per} (h : l.Matte)
      (hs : LayerListDrawn a ls T alpha frame number (i + 1) ls' per) :
      LayerListDrawn a ls T alpha frame number i (l :: ls') ([] :: per)
  | layer {ls T alpha frame number i l ops ls' per} (h : ¬ l.Matte)
      (hl : LayerDrawn a ls T alpha frame (number i) i l ops)
      (hs : LayerListDrawn a ls T alpha frame number (i + 1) ls' per) :
      LayerListDrawn a ls T alpha frame number i (l :: ls') (ops :: per)
end

/-- The calls of a document: everything is clipped to its size, and the last layer is drawn first.
Its own layers are announced with their positions, all others with 0. -/
def DocumentDrawn (a : Schema.Animation F) (T : Affine F) (alpha frame : F) (ops : List (Op F)) :
    Prop :=
  ∃ per, LayerListDrawn a a.layers T alpha frame id 0 a.layers per ∧
    ops = [.pushClip T a.area] ++ per.reverse.flatten ++ [.pop]

end
end Velato
