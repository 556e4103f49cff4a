import Verif.Spec.DocDraws
import Verif.Spec.Picture

/-!
# Specification: what a document shows at one pixel, in exact arithmetic

As in Spec/DocDraws, but with pictures instead of calls: there are no clips and layers to be opened and
closed, only coverages, one thing in front of another, and mattes.  Which part of the pixel a shape covers
and which colour a brush has there is left open (`Rasteriser`).
-/

namespace Velato
open Import (convShapeGeometry)

/-- Pictures one in front of the other, the first one on top. -/
noncomputable def stacked (ps : List Pixel) : Pixel := ps.foldr Pixel.over .clear

/-- A picture behind which there is a matte: the matte's opacity (or what is missing to 1) multiplies the
picture, in the mode Normal the matte is seen behind it. -/
noncomputable def throughMatte : Schema.MatteMode → Pixel → Pixel → Pixel
  | .normal, own, matte => own.over matte
  | .alpha, own, matte | .luma, own, matte => own.scale matte.a
  | .invertedAlpha, own, matte | .invertedLuma, own, matte => own.scale (1 - matte.a)

section
variable [Kurbo ℝ]

/-- One fill or stroke, placed by `T`, of an outline. -/
noncomputable def paintShown (R : Rasteriser) (T : Affine ℝ) (outline : List (PathEl ℝ)) (p : Paint ℝ) :
    Pixel :=
  (Pixel.ofColor (R.colour p.finalBrush T)).scale (R.cover p.stroke T outline)

/-- A fill or stroke of outlines, the last of which is in front. -/
noncomputable def Painting.shown (R : Rasteriser) (p : Painting ℝ) : Pixel :=
  stacked (p.outlines.reverse.map fun o => paintShown R o.transform o.path p.paint)

/-- What a list of shapes shows: its fills and strokes, the first one in front. -/
noncomputable def Sheet.shown (R : Rasteriser) (S : Sheet ℝ) : Pixel :=
  stacked (S.paintings.map (Painting.shown R))

/-- How much of the pixel lies inside of all masks of a layer that is placed by `T`. -/
inductive MasksCover (R : Rasteriser) (frame : ℝ) (T : Affine ℝ) : List (Schema.Mask ℝ) → ℝ → Prop where
  | nil : MasksCover R frame T [] 1
  | keep {m ms p g els k} (hp : m.shape = some p) (hg : convShapeGeometry p = .ok (some g))
      (he : g.evaluate frame = .ok els) (hs : MasksCover R frame T ms k) :
      MasksCover R frame T (m :: ms) (R.clip T (.path els) * k)
  | drop {m ms k} (hp : ∀ p, m.shape = some p → NoPath p) (hs : MasksCover R frame T ms k) :
      MasksCover R frame T (m :: ms) k

mutual
/-- What the layer at position `i` of the list `ls` shows, where `T` and `alpha` are the transform and
the opacity factor of the composition that contains it.  Matted layers are cut off at the rectangle of
the document. -/
inductive LayerShown (R : Rasteriser) (a : Schema.Animation ℝ) : List (Schema.AnyLayer ℝ) → Affine ℝ →
    ℝ → ℝ → Nat → Schema.AnyLayer ℝ → Pixel → Prop where
  | absent {ls T alpha frame i l} (h : ¬ l.During frame) : LayerShown R a ls T alpha frame i l .clear
  | plain {ls T alpha frame i l P M o cov q} (h : l.During frame) (hm : MatteOf ls i l none)
      (hP : PlacedAt ls frame l P) (hk : LayerAt frame l M o)
      (hms : MasksCover R frame (T.mul P) (l.visual.masksProperties.getD []) cov)
      (hco : ContentShown R a (T.mul P) (alpha * (o / 100)) frame l q) :
      LayerShown R a ls T alpha frame i l (q.scale cov)
  | matted {ls T alpha frame i l P M o cov q b j m mode mq} (h : l.During frame)
      (hmode : l.visual.matteMode = some mode) (hm : MatteOf ls i l (some (b, j))) (hj : ls[j]? = some m)
      (hmq : LayerShown R a ls T alpha frame j m mq)
      (hP : PlacedAt ls frame l P) (hk : LayerAt frame l M o)
      (hms : MasksCover R frame (T.mul P) (l.visual.masksProperties.getD []) cov)
      (hco : ContentShown R a (T.mul P) (alpha * (o / 100)) frame l q) :
      LayerShown R a ls T alpha frame i l
        ((throughMatte mode ((q.scale cov).scale (R.clip T (.rect 0 0 a.width a.height))) mq).scale
          (R.clip T (.rect 0 0 a.width a.height)))

/-- What the content of a layer shows, placed by `T` and with the opacity factor `alpha`. -/
inductive ContentShown (R : Rasteriser) (a : Schema.Animation ℝ) : Affine ℝ → ℝ → ℝ →
    Schema.AnyLayer ℝ → Pixel → Prop where
  | hidden {T alpha frame l} (h : l.Hidden) : ContentShown R a T alpha frame l .clear
  | nothing {T alpha frame l} (hs : ∀ q, l ≠ .shape q) (hp : ∀ q, l ≠ .precomposition q) :
      ContentShown R a T alpha frame l .clear
  | shape {T alpha frame q S} (hv : ¬ (Schema.AnyLayer.shape q).Hidden)
      (hss : ItemsDrawn frame T alpha q.shapes .empty S) :
      ContentShown R a T alpha frame (.shape q) (S.shown R)
  | missing {T alpha frame q} (hn : ∀ p, .precomposition p ∈ a.assetList → p.asset.id ≠ q.refId) :
      ContentShown R a T alpha frame (.precomposition q) .clear
  | precomposition {T alpha frame q p qs} {i : Nat}
      (hv : ¬ (Schema.AnyLayer.precomposition q).Hidden)
      (hp : a.assetList[i]? = some (.precomposition p)) (hid : p.asset.id = q.refId)
      (hlast : ∀ (j : Nat) p', i < j → a.assetList[j]? = some (.precomposition p') →
        p'.asset.id ≠ q.refId)
      (hls : LayerListShown R a p.layers T alpha
        ((frame - q.startTime) / q.visualLayer.layer.timeStretch.getD 1) 0 p.layers qs) :
      ContentShown R a T alpha frame (.precomposition q) (stacked qs)

/-- What each of the layers of a list `ls` from position `i` on shows, except mattes. -/
inductive LayerListShown (R : Rasteriser) (a : Schema.Animation ℝ) : List (Schema.AnyLayer ℝ) →
    Affine ℝ → ℝ → ℝ → Nat → List (Schema.AnyLayer ℝ) → List Pixel → Prop where
  | nil {ls T alpha frame i} : LayerListShown R a ls T alpha frame i [] []
  | matte {ls T alpha frame i l ls' qs} (h : l.Matte)
      (hs : LayerListShown R a ls T alpha frame (i + 1) ls' qs) :
      LayerListShown R a ls T alpha frame i (l :: ls') qs
  | layer {ls T alpha frame i l q ls' qs} (h : ¬ l.Matte)
      (hl : LayerShown R a ls T alpha frame i l q)
      (hs : LayerListShown R a ls T alpha frame (i + 1) ls' qs) :
      LayerListShown R a ls T alpha frame i (l :: ls') (q :: qs)
end

/-- What a document shows: its layers one in front of the other, the first one on top, cut off at its
rectangle. -/
def DocumentShown (R : Rasteriser) (a : Schema.Animation ℝ) (T : Affine ℝ) (alpha frame : ℝ)
    (q : Pixel) : Prop :=
  ∃ qs, LayerListShown R a a.layers T alpha frame 0 a.layers qs ∧
    q = (stacked qs).scale (R.clip T (.rect 0 0 a.width a.height))

end
end Velato
