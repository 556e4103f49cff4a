import Verif.Model.Schema
import Verif.Num.Ops

/-!
# The keyframes of a document, and documents whose keyframes are over
-/

namespace Velato.Schema

section
variable {F : Type}

/-- The keyframes of a property. -/
def AnimatedProperty.keyframes {S : Type} (p : AnimatedProperty F S) : List (KeyframeBase F) :=
  match p.value with
  | .animatedValue ks => ks.map (·.base)
  | .static _ => []

/-- The keyframes of a position. -/
def Position.keyframes (p : Position F) : List (KeyframeBase F) :=
  match p.value with
  | .animated ks => ks.map (·.keyframe.base)
  | .static _ => []

/-- The keyframes of a path. -/
def ShapeProperty.keyframes (p : ShapeProperty F) : List (KeyframeBase F) :=
  match p.value with
  | .animated ks => ks.map (·.base)
  | .static _ => []

/-- The keyframes of one property, and whether they are those of the stops of a gradient. -/
structure Track (F : Type) where
  keyframes : List (KeyframeBase F)
  gradient : Bool

/-- The property, as a track. -/
def AnimatedProperty.track {S : Type} (p : AnimatedProperty F S) : Track F := ⟨p.keyframes, false⟩

/-- The position, as a track. -/
def Position.track (p : Position F) : Track F := ⟨p.keyframes, false⟩

/-- The path, as a track. -/
def ShapeProperty.track (p : ShapeProperty F) : Track F := ⟨p.keyframes, false⟩

/-- The stops of a gradient, as a track. -/
def GradientColors.track (g : GradientColors F) : Track F := ⟨g.colors.animatedProperty.keyframes, true⟩

/-- A property that may be missing. -/
def tracksOpt {S : Type} (p : Option (AnimatedProperty F S)) : List (Track F) := p.toList.map AnimatedProperty.track

/-- The properties of the position of a transform. -/
def AnyTransformP.tracks : AnyTransformP F → List (Track F)
  | .position p => [p.track]
  | .splitPosition s => [s.x.track, s.y.track]

/-- The properties of the rotation of a transform. -/
def AnyTransformR.tracks : AnyTransformR F → List (Track F)
  | .rotation v => [v.track]
  | .splitRotation x y z o => [x.track, y.track, z.track, o.animatedProperty.track]

/-- The properties of a transform. -/
def Transform.tracks (t : Transform F) : List (Track F) :=
  t.anchorPoint.toList.map Position.track ++ t.position.tracks ++
  t.scale.toList.map (·.animatedProperty.track) ++ t.rotation.toList.flatMap AnyTransformR.tracks ++
  tracksOpt t.skew ++ tracksOpt t.skewAxis ++ tracksOpt t.opacity

/-- The properties of a gradient. -/
def BaseGradient.tracks (g : BaseGradient F) : List (Track F) :=
  [g.colors.track, g.startPoint.animatedProperty.track, g.endPoint.animatedProperty.track]

mutual
/-- The properties of a shape (those that are imported). -/
def AnyShape.tracks : AnyShape F → List (Track F)
  | .group _ _ ss _ => AnyShape.tracksAll ss
  | .rectangle s => [s.position.track, s.size.animatedProperty.track, s.roundedCornerRadius.track]
  | .ellipse s => [s.position.track, s.size.animatedProperty.track]
  | .transform s => s.transform.tracks
  | .stroke s => [s.shapeStyle.opacity.track, s.baseStroke.width.track, s.strokeColor.track]
  | .fill s => [s.shapeStyle.opacity.track, s.color.track]
  | .trim s => [s.start.track, s.stop.track, s.offset.track]
  | .path s => [s.shapeProperty.track]
  | .gradientFill s => s.gradient.tracks
  | .gradientStroke s => s.baseStroke.width.track :: s.gradient.tracks
  | .polyStar s => [s.position.track, s.outerRadius.track, s.outerRoundness.track, s.rotation.track, s.points.track] ++
      tracksOpt s.innerRadius ++ tracksOpt s.innerRoundness
  | _ => []

/-- The properties of shapes. -/
def AnyShape.tracksAll : List (AnyShape F) → List (Track F)
  | [] => []
  | s :: ss => s.tracks ++ AnyShape.tracksAll ss
end

/-- The properties of a mask (those that are imported). -/
def Mask.tracks (m : Mask F) : List (Track F) := m.shape.toList.map ShapeProperty.track ++ tracksOpt m.opacity

/-- The properties of the transform and the masks of a layer. -/
def VisualLayer.tracks (v : VisualLayer F) : List (Track F) :=
  v.transform.tracks ++ (v.masksProperties.getD []).flatMap Mask.tracks

/-- The properties of a layer: those of its transform, its masks and its shapes. -/
def AnyLayer.tracks : AnyLayer F → List (Track F)
  | .precomposition l => l.visualLayer.tracks ++ tracksOpt l.timeRemap
  | .solid l => l.visualLayer.tracks
  | .shape l => l.visualLayer.tracks ++ AnyShape.tracksAll l.shapes
  | .null l => l.tracks
  | .image l => l.visualLayer.tracks

end
end Velato.Schema

namespace Velato
open FloatOps (lit)

section
variable {F : Type} [FloatOps F]

/-- All keyframes of the layer are at finite times before the frame. -/
def Schema.AnyLayer.EndedAt (isFin : F → Bool) (l : Schema.AnyLayer F) (fr : F) : Prop :=
  ∀ t ∈ l.tracks, ∀ k ∈ t.keyframes, isFin k.time = true ∧ (k.time <. fr) = true

/-- The part of a layer that all kinds of layers have. -/
def Schema.AnyLayer.base : Schema.AnyLayer F → Schema.LayerBase F
  | .precomposition l => l.visualLayer.layer
  | .solid l => l.visualLayer.layer
  | .shape l => l.visualLayer.layer
  | .null l => l.layer
  | .image l => l.visualLayer.layer

/-- The layer is shown at the frame. -/
def Schema.AnyLayer.ShownAt (l : Schema.AnyLayer F) (fr : F) : Prop :=
  (l.base.inPoint <=. fr) = true ∧ (fr <. l.base.outPoint) = true

/-- The frame of its asset a precomposition shows: its stretch is 1 if none is given. -/
def Schema.PrecompositionLayer.assetFrame (l : Schema.PrecompositionLayer F) (fr : F) : F :=
  fr /. l.visualLayer.layer.timeStretch.getD (lit 1) +.
    FloatOps.neg l.startTime /. l.visualLayer.layer.timeStretch.getD (lit 1)

/-- At the two frames all keyframes of the layers are over and the same layers are shown; and so it is with the assets
they show, at the frames at which they show them. -/
inductive Ended (isFin : F → Bool) (a : Schema.Animation F) : List (Schema.AnyLayer F) → F → F → Prop where
  | mk {ls : List (Schema.AnyLayer F)} {fr fr' : F}
      (keyframes : ∀ l ∈ ls, l.EndedAt isFin fr ∧ l.EndedAt isFin fr')
      (shown : ∀ l ∈ ls, l.ShownAt fr ↔ l.ShownAt fr')
      (assets : ∀ q, Schema.AnyLayer.precomposition q ∈ ls → ∀ p, Schema.AnyAsset.precomposition p ∈ a.assets.getD [] →
        p.asset.id = q.refId → Ended isFin a p.layers (q.assetFrame fr) (q.assetFrame fr')) : Ended isFin a ls fr fr'

/-- The property has not begun at the frame: its first keyframe is at a finite time at least `2^-500` frames later, and
the others are after the first one, at finite times not more than `2^500` frames later. -/
inductive Schema.Track.Early (isFin : F → Bool) (t : Schema.Track F) (fr : F) : Prop where
  | mk {k : Schema.KeyframeBase F} {post : List (Schema.KeyframeBase F)} (hk : t.keyframes = k :: post)
      (fin : isFin k.time = true) (before : ((fr -. k.time) <=. lit (-(1 / 2 ^ 500))) = true)
      (after : ∀ j ∈ post, isFin j.time = true ∧ (k.time <. j.time) = true ∧ ((j.time -. k.time) <=. lit (2 ^ 500)) = true)

/-- The property is over at the frame: all its keyframes, if there are any, are at finite times before it. -/
def Schema.Track.Over (isFin : F → Bool) (t : Schema.Track F) (fr : F) : Prop :=
  ∀ k ∈ t.keyframes, isFin k.time = true ∧ (k.time <. fr) = true

/-- At both frames the property is held by the same keyframe: one with the hold flag, which is the last one at or before
both frames, or the first one and after both frames. -/
inductive Schema.Track.Held (t : Schema.Track F) (fr fr' : F) : Prop where
  | mk {pre post : List (Schema.KeyframeBase F)} {k : Schema.KeyframeBase F} (hk : t.keyframes = pre ++ k :: post)
      (hold : k.hold = some .true)
      (before : ∀ j ∈ pre, (j.time <=. fr) = true ∧ (j.time <=. fr') = true)
      (now : (k.time <=. fr) = true ∧ (k.time <=. fr') = true ∨ pre = [] ∧ (fr <. k.time) = true ∧ (fr' <. k.time) = true)
      (after : ∀ j ∈ post, (fr <. j.time) = true ∧ (fr' <. j.time) = true)

/-- At the two frames the property rests: it has not begun at either, is over at both, or is held by the same keyframe;
the stops of gradients have to be over or not to have begun. -/
def Schema.Track.Rests (isFin : F → Bool) (t : Schema.Track F) (fr fr' : F) : Prop :=
  t.Early isFin fr ∧ t.Early isFin fr' ∨ t.Over isFin fr ∧ t.Over isFin fr' ∨ t.gradient = false ∧ t.Held fr fr'

/-- At the two frames all properties of the layers rest and the same layers are shown; and so it is with the assets they
show, at the frames at which they show them. -/
inductive AtRest (isFin : F → Bool) (a : Schema.Animation F) : List (Schema.AnyLayer F) → F → F → Prop where
  | mk {ls : List (Schema.AnyLayer F)} {fr fr' : F}
      (tracks : ∀ l ∈ ls, ∀ t ∈ l.tracks, t.Rests isFin fr fr')
      (shown : ∀ l ∈ ls, l.ShownAt fr ↔ l.ShownAt fr')
      (assets : ∀ q, Schema.AnyLayer.precomposition q ∈ ls → ∀ p, Schema.AnyAsset.precomposition p ∈ a.assets.getD [] →
        p.asset.id = q.refId → AtRest isFin a p.layers (q.assetFrame fr) (q.assetFrame fr')) : AtRest isFin a ls fr fr'

end
end Velato
