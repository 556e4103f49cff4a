import Verif.Spec.Ended

/-!
# Two documents that differ only in the values of properties

The values of each property, static or keyframes, are related by a relation, which is a parameter; the rest is the same.
-/

namespace Velato

section
variable {F : Type} [FloatOps F]

/-- The keyframes around the frame are the same: the last one at or before the frame and the one after it; or the last
one of all, if the frame is not before it; or the first two, if the frame is before them.  The other keyframes, those
before and those after, may be different ones, and more or fewer. -/
inductive AgreeAround {K : Type} (time : K → F) (fr : F) : List K → List K → Prop where
  | same (ks : List K) : AgreeAround time fr ks ks
  | between {pre pre' post post' : List K} {a b : K} (before : ∀ k ∈ pre ++ pre', (time k <=. fr) = true)
      (ha : (time a <=. fr) = true) (hb : (fr <. time b) = true) (after : ∀ k ∈ post ++ post', (fr <. time k) = true) :
      AgreeAround time fr (pre ++ a :: b :: post) (pre' ++ a :: b :: post')
  | last {pre pre' : List K} {a : K} (before : ∀ k ∈ pre ++ pre', (time k <=. fr) = true) (ha : (time a <=. fr) = true) :
      AgreeAround time fr (pre ++ [a]) (pre' ++ [a])
  | first {post post' : List K} {a b : K} (ha : (fr <. time a) = true) (hb : (fr <. time b) = true)
      (after : ∀ k ∈ post ++ post', (fr <. time k) = true) : AgreeAround time fr (a :: b :: post) (a :: b :: post')

end

namespace Schema

/-- How numbers, points and sizes, colours, the colours of gradients with a number of stops, positions and paths may differ, and which
positions may be split into which coordinates (none, if this is left out). -/
structure KeyframeRelations (F : Type) where
  numbers : AnimatedPropertyK F F → AnimatedPropertyK F F → Prop
  vectors : AnimatedPropertyK F (List F) → AnimatedPropertyK F (List F) → Prop
  colors : AnimatedPropertyK F (List F) → AnimatedPropertyK F (List F) → Prop
  gradients : Nat → AnimatedPropertyK F (List F) → AnimatedPropertyK F (List F) → Prop
  positions : PositionValueK F → PositionValueK F → Prop
  paths : ShapePropertyK F → ShapePropertyK F → Prop
  splits : PositionValueK F → AnimatedPropertyK F F → AnimatedPropertyK F F → Prop := fun _ _ _ => False

/-- The value is the same, apart from its keyframes, which are related. -/
inductive AnimatedPropertyK.Keyed {F S : Type} (R : List (Keyframe F) → List (Keyframe F) → Prop) (v v' : AnimatedPropertyK F S) :
    Prop where
  | static {s : S} (h : v = .static s) (h' : v' = .static s)
  | animated {ks ks' : List (Keyframe F)} (h : v = .animatedValue ks) (h' : v' = .animatedValue ks') (hk : R ks ks')

/-- The position is the same, apart from its keyframes, which are related. -/
inductive PositionValueK.Keyed {F : Type} (R : List (PositionKeyframe F) → List (PositionKeyframe F) → Prop)
    (v v' : PositionValueK F) : Prop where
  | static {s : List F} (h : v = .static s) (h' : v' = .static s)
  | animated {ks ks' : List (PositionKeyframe F)} (h : v = .animated ks) (h' : v' = .animated ks') (hk : R ks ks')

/-- The path is the same, apart from its keyframes, which are related. -/
inductive ShapePropertyK.Keyed {F : Type} (R : List (ShapeKeyframe F) → List (ShapeKeyframe F) → Prop) (v v' : ShapePropertyK F) :
    Prop where
  | same (h : v' = v)
  | animated {ks ks' : List (ShapeKeyframe F)} (h : v = .animated ks) (h' : v' = .animated ks') (hk : R ks ks')

/-- The values of the properties are related. -/
def AnimatedProperty.Agrees {F S : Type} (R : AnimatedPropertyK F S → AnimatedPropertyK F S → Prop) (p p' : AnimatedProperty F S) :
    Prop := R p.value p'.value

section
variable {F : Type}

/-- A shape that is not missing and says that it is closed. -/
def closedShape (bs : Option (List (Bezier F))) : Bool :=
  match bs with
  | some (b :: _) => b.closed.getD false
  | _ => false

/-- The keyframe says that the path is closed. -/
def ShapeKeyframe.closes (k : ShapeKeyframe F) : Bool := closedShape k.start || closedShape k.stop

/-- The keyframes around the frame are the same; those of paths have shapes of their own, and if one of the keyframes of
one path says that the path is closed, one of the other does. -/
def aroundFrame [FloatOps F] (fr : F) : KeyframeRelations F where
  numbers := AnimatedPropertyK.Keyed (AgreeAround (·.base.time) fr)
  vectors := AnimatedPropertyK.Keyed (AgreeAround (·.base.time) fr)
  colors := AnimatedPropertyK.Keyed (AgreeAround (·.base.time) fr)
  gradients _ := AnimatedPropertyK.Keyed (AgreeAround (·.base.time) fr)
  positions := PositionValueK.Keyed (AgreeAround (·.keyframe.base.time) fr)
  paths := ShapePropertyK.Keyed fun ks ks' => AgreeAround (·.base.time) fr ks ks' ∧
    (∀ k ∈ ks ++ ks', ∃ b bs, k.start = some (b :: bs)) ∧ ks'.any ShapeKeyframe.closes = ks.any ShapeKeyframe.closes

end

variable {F : Type} (R : KeyframeRelations F)

/-- The colours are the same, apart from values. -/
structure GradientColors.Agrees (p p' : GradientColors F) : Prop where
  colors : p.colors.animatedProperty.Agrees (R.gradients p.count) p'.colors.animatedProperty
  count : p'.count = p.count

/-- The values of the positions are related. -/
def Position.Agrees (p p' : Position F) : Prop := R.positions p.value p'.value

/-- The values of the paths are related. -/
def ShapeProperty.Agrees (p p' : ShapeProperty F) : Prop := R.paths p.value p'.value

/-- The position is the same, apart from values. -/
inductive AnyTransformP.Agrees : AnyTransformP F → AnyTransformP F → Prop where
  | position {p p' : Position F} (h : p.Agrees R p') : Agrees (.position p) (.position p')
  | splitPosition {s s' : SplitVector F} (hx : s.x.Agrees R.numbers s'.x) (hy : s.y.Agrees R.numbers s'.y) :
      Agrees (.splitPosition s) (.splitPosition s')
  | split {p : Position F} {s : SplitVector F} (h : R.splits p.value s.x.value s.y.value) : Agrees (.position p) (.splitPosition s)
  | joined {p : Position F} {s : SplitVector F} (h : R.splits p.value s.x.value s.y.value) : Agrees (.splitPosition s) (.position p)

/-- The rotation is the same, apart from values. -/
inductive AnyTransformR.Agrees : AnyTransformR F → AnyTransformR F → Prop where
  | rotation {p p' : FloatValue F} (h : p.Agrees R.numbers p') : Agrees (.rotation p) (.rotation p')
  | splitRotation {x y z x' y' z' : FloatValue F} {o o' : MultiDimensional F} (hx : x.Agrees R.numbers x') (hy : y.Agrees R.numbers y')
      (hz : z.Agrees R.numbers z') (ho : o.animatedProperty.Agrees R.vectors o'.animatedProperty) :
      Agrees (.splitRotation x y z o) (.splitRotation x' y' z' o')

/-- The transform is the same, apart from values. -/
structure Transform.Agrees (t t' : Transform F) : Prop where
  anchorPoint : Option.Rel (Position.Agrees R) t.anchorPoint t'.anchorPoint
  position : t.position.Agrees R t'.position
  scale : Option.Rel (fun p p' => p.animatedProperty.Agrees R.vectors p'.animatedProperty) t.scale t'.scale
  rotation : Option.Rel (AnyTransformR.Agrees R) t.rotation t'.rotation
  skew : Option.Rel (AnimatedProperty.Agrees R.numbers) t.skew t'.skew
  skewAxis : Option.Rel (AnimatedProperty.Agrees R.numbers) t.skewAxis t'.skewAxis
  opacity : Option.Rel (AnimatedProperty.Agrees R.numbers) t.opacity t'.opacity

/-- The stroke is the same, apart from values of its width. -/
structure BaseStroke.Agrees (s s' : BaseStroke F) : Prop where
  width : s.width.Agrees R.numbers s'.width
  rest : s' = { s with width := s'.width }

/-- The gradient is the same, apart from values. -/
structure BaseGradient.Agrees (g g' : BaseGradient F) : Prop where
  colors : g.colors.Agrees R g'.colors
  startPoint : g.startPoint.animatedProperty.Agrees R.vectors g'.startPoint.animatedProperty
  endPoint : g.endPoint.animatedProperty.Agrees R.vectors g'.endPoint.animatedProperty
  rest : g' = { g with colors := g'.colors, startPoint := g'.startPoint, endPoint := g'.endPoint }

/-- The star or polygon is the same, apart from values. -/
structure PolyStarShape.Agrees (s s' : PolyStarShape F) : Prop where
  position : s.position.Agrees R s'.position
  outerRadius : s.outerRadius.Agrees R.numbers s'.outerRadius
  outerRoundness : s.outerRoundness.Agrees R.numbers s'.outerRoundness
  rotation : s.rotation.Agrees R.numbers s'.rotation
  points : s.points.Agrees R.numbers s'.points
  innerRadius : Option.Rel (AnimatedProperty.Agrees R.numbers) s.innerRadius s'.innerRadius
  innerRoundness : Option.Rel (AnimatedProperty.Agrees R.numbers) s.innerRoundness s'.innerRoundness
  starType : s'.starType = s.starType

mutual
/-- The shape is the same, apart from values.  The kinds of shapes in the last two lines are never
drawn, and may differ in any way. -/
inductive AnyShape.Agrees : AnyShape F → AnyShape F → Prop where
  | group {e n ss ss' i} (h : AnyShape.AgreeAll ss ss') : Agrees (.group e n ss i) (.group e n ss' i)
  | rectangle {s s' : RectangleShape F} (position : s.position.Agrees R s'.position)
      (size : s.size.animatedProperty.Agrees R.vectors s'.size.animatedProperty)
      (radius : s.roundedCornerRadius.Agrees R.numbers s'.roundedCornerRadius) : Agrees (.rectangle s) (.rectangle s')
  | ellipse {s s' : EllipseShape F} (position : s.position.Agrees R s'.position)
      (size : s.size.animatedProperty.Agrees R.vectors s'.size.animatedProperty) : Agrees (.ellipse s) (.ellipse s')
  | path {s s' : PathShape F} (h : s.shapeProperty.Agrees R s'.shapeProperty) : Agrees (.path s) (.path s')
  | polyStar {s s' : PolyStarShape F} (h : s.Agrees R s') : Agrees (.polyStar s) (.polyStar s')
  | transform {s s' : TransformShape F} (h : s.transform.Agrees R s'.transform) : Agrees (.transform s) (.transform s')
  | fill {s s' : FillShape F} (opacity : s.shapeStyle.opacity.Agrees R.numbers s'.shapeStyle.opacity)
      (color : s.color.Agrees R.colors s'.color) : Agrees (.fill s) (.fill s')
  | stroke {s s' : StrokeShape F} (opacity : s.shapeStyle.opacity.Agrees R.numbers s'.shapeStyle.opacity)
      (stroke : s.baseStroke.Agrees R s'.baseStroke) (color : s.strokeColor.Agrees R.colors s'.strokeColor) :
      Agrees (.stroke s) (.stroke s')
  | gradientFill {s s' : GradientFillShape F} (opacity : s.shapeStyle.opacity.Agrees R.numbers s'.shapeStyle.opacity)
      (gradient : s.gradient.Agrees R s'.gradient) : Agrees (.gradientFill s) (.gradientFill s')
  | gradientStroke {s s' : GradientStrokeShape F} (opacity : s.shapeStyle.opacity.Agrees R.numbers s'.shapeStyle.opacity)
      (stroke : s.baseStroke.Agrees R s'.baseStroke) (gradient : s.gradient.Agrees R s'.gradient) :
      Agrees (.gradientStroke s) (.gradientStroke s')
  | trim {s s' : TrimPathShape F} (start : s.start.Agrees R.numbers s'.start) (stop : s.stop.Agrees R.numbers s'.stop)
      (offset : s.offset.Agrees R.numbers s'.offset) : Agrees (.trim s) (.trim s')
  | puckerBloat {s s'} : Agrees (.puckerBloat s) (.puckerBloat s') | merge {s s'} : Agrees (.merge s) (.merge s')
  | repeater {s s'} : Agrees (.repeater s) (.repeater s') | offsetPath {s s'} : Agrees (.offsetPath s) (.offsetPath s')
  | twist {s s'} : Agrees (.twist s) (.twist s') | roundedCorners {s s'} : Agrees (.roundedCorners s) (.roundedCorners s')

/-- The shapes are the same, one by one, apart from values. -/
inductive AnyShape.AgreeAll : List (AnyShape F) → List (AnyShape F) → Prop where
  | nil : AgreeAll [] []
  | cons {s s' ss ss'} (h : AnyShape.Agrees s s') (hs : AgreeAll ss ss') : AgreeAll (s :: ss) (s' :: ss')
end

/-- The mask is the same, apart from values. -/
structure Mask.Agrees (m m' : Mask F) : Prop where
  shape : Option.Rel (ShapeProperty.Agrees R) m.shape m'.shape
  opacity : Option.Rel (AnimatedProperty.Agrees R.numbers) m.opacity m'.opacity
  rest : m' = { m with shape := m'.shape, opacity := m'.opacity }

/-- The transform and the masks of the layer are the same, apart from values. -/
structure VisualLayer.Agrees (v v' : VisualLayer F) : Prop where
  transform : v.transform.Agrees R v'.transform
  masks : List.Forall₂ (Mask.Agrees R) (v.masksProperties.getD []) (v'.masksProperties.getD [])
  rest : v' = { v with transform := v'.transform, masksProperties := v'.masksProperties }

/-- The layer is the same, apart from values. -/
inductive AnyLayer.Agrees : AnyLayer F → AnyLayer F → Prop where
  | precomposition {l l' : PrecompositionLayer F} (visual : l.visualLayer.Agrees R l'.visualLayer)
      (timeRemap : Option.Rel (AnimatedProperty.Agrees R.numbers) l.timeRemap l'.timeRemap)
      (rest : l' = { l with visualLayer := l'.visualLayer, timeRemap := l'.timeRemap }) :
      Agrees (.precomposition l) (.precomposition l')
  | solid {l l' : SolidLayer F} (visual : l.visualLayer.Agrees R l'.visualLayer)
      (rest : l' = { l with visualLayer := l'.visualLayer }) : Agrees (.solid l) (.solid l')
  | shape {l l' : ShapeLayer F} (visual : l.visualLayer.Agrees R l'.visualLayer)
      (shapes : AnyShape.AgreeAll R l.shapes l'.shapes) : Agrees (.shape l) (.shape l')
  | null {v v' : VisualLayer F} (visual : v.Agrees R v') : Agrees (.null v) (.null v')
  | image {l l' : ImageLayer F} (visual : l.visualLayer.Agrees R l'.visualLayer)
      (rest : l' = { l with visualLayer := l'.visualLayer }) : Agrees (.image l) (.image l')

/-- The asset is the same, apart from its layers. -/
inductive AnyAsset.SameBut : AnyAsset F → AnyAsset F → Prop where
  | image (i : ImageAsset F) : SameBut (.image i) (.image i)
  | precomposition {p p' : PrecompAsset F} (h : p' = { p with layers := p'.layers }) :
      SameBut (.precomposition p) (.precomposition p')

/-- The asset is the same, apart from values. -/
inductive AnyAsset.Agrees : AnyAsset F → AnyAsset F → Prop where
  | image (i : ImageAsset F) : Agrees (.image i) (.image i)
  | precomposition {p p' : PrecompAsset F} (h : p' = { p with layers := p'.layers })
      (layers : List.Forall₂ (AnyLayer.Agrees R) p.layers p'.layers) : Agrees (.precomposition p) (.precomposition p')

/-- The document is the same, apart from values in its layers and in those of its assets. -/
structure Animation.Agrees (a a' : Animation F) : Prop where
  layers : List.Forall₂ (AnyLayer.Agrees R) a.layers a'.layers
  assets : List.Forall₂ (AnyAsset.Agrees R) (a.assets.getD []) (a'.assets.getD [])
  rest : a' = { a with layers := a'.layers, assets := a'.assets }

end Schema

section
variable {F : Type} [FloatOps F] (R : F → Schema.KeyframeRelations F)

/-- The layers are the same at the frame, apart from values; and so it is with those of the assets they show, at the
frame at which they show them. -/
inductive AgreeAt (a a' : Schema.Animation F) : List (Schema.AnyLayer F) → List (Schema.AnyLayer F) → F → Prop where
  | mk {ls ls' : List (Schema.AnyLayer F)} {fr : F} (layers : List.Forall₂ (Schema.AnyLayer.Agrees (R fr)) ls ls')
      (assets : ∀ q, Schema.AnyLayer.precomposition q ∈ ls → ∀ p p',
        (Schema.AnyAsset.precomposition p, Schema.AnyAsset.precomposition p') ∈ (a.assets.getD []).zip (a'.assets.getD []) →
        p.asset.id = q.refId → AgreeAt a a' p.layers p'.layers (q.assetFrame fr)) : AgreeAt a a' ls ls' fr

end
end Velato
