import Verif.Spec.Ignored
import Verif.Proofs.NormalMatte

/-!
# Import does not look at what `strip` drops
-/

namespace Velato
open FloatOps (lit)
open Import

section
variable {F : Type}

theorem mapM_strip {α β : Type} (f : α → Except Fault β) (g : α → α) (l : List α)
    (h : ∀ x, f (g x) = f x) : (l.map g).mapM f = l.mapM f := by
  induction l with
  | nil => rfl
  | cons x xs ih => rw [List.map_cons, mapM_cons', mapM_cons', h, ih]

theorem convScalar_strip (v : Schema.FloatValue F) : convScalar v.strip = convScalar v := by
  obtain ⟨_, _, _, _, v⟩ := v
  cases v with
  | static s => rfl
  | animatedValue ks =>
    unfold convScalar Schema.AnimatedProperty.strip
    dsimp only
    rw [mapM_strip _ Schema.Keyframe.strip _ fun k => rfl]

theorem convKeyframes_strip {T : Type} (ks : List (Schema.Keyframe F)) (f : List F → T) :
    convKeyframes (ks.map Schema.Keyframe.strip) f = convKeyframes ks f := by
  unfold convKeyframes
  rw [List.flatMap_map, List.flatMap_map]
  rfl

theorem convMulti_strip {T : Type} (p : Schema.AnimatedProperty F (List F)) (f : List F → T) :
    convMulti p.strip f = convMulti p f := by
  obtain ⟨_, _, _, _, v⟩ := p
  cases v with
  | static s => rfl
  | animatedValue ks => exact convKeyframes_strip ks f

variable [FloatOps F]

theorem convMultiP2_strip (p : Schema.MultiDimensional F) : convMultiP2 p.strip = convMultiP2 p :=
  convMulti_strip _ _

theorem convColor_strip (p : Schema.ColorValue F) : convColor p.strip = convColor p :=
  convMulti_strip _ _

theorem convPosPoint_strip (p : Schema.Position F) : convPosPoint p.strip = convPosPoint p := by
  obtain ⟨_, _, _, _, v⟩ := p
  cases v with
  | static s => rfl
  | animated ks =>
    unfold convPosPoint Schema.Position.strip
    dsimp only
    rw [List.map_map, ← convKeyframes_strip (ks.map fun k => k.keyframe), List.map_map]
    rfl

omit [FloatOps F] in
theorem convStroke_strip (s : Schema.BaseStroke F) (j : Schema.LineJoin) (c : Schema.LineCap) :
    convStroke s.strip j c = convStroke s j c := by
  unfold convStroke Schema.BaseStroke.strip
  dsimp only
  rw [convScalar_strip]

variable [Kurbo F]

theorem convGradientColors_strip (g : Schema.GradientColors F) :
    convGradientColors g.strip = convGradientColors g := by
  obtain ⟨⟨⟨_, _, _, _, v⟩, _⟩, _⟩ := g
  cases v with
  | static s => rfl
  | animatedValue ks =>
    unfold convGradientColors Schema.GradientColors.strip Schema.MultiDimensional.strip
      Schema.AnimatedProperty.strip
    dsimp only
    rw [mapM_strip _ Schema.Keyframe.strip _ fun k => rfl, List.map_map]
    rfl

theorem convGradient_strip (g : Schema.BaseGradient F) : convGradient g.strip = convGradient g := by
  unfold convGradient Schema.BaseGradient.strip
  dsimp only
  rw [convGradientColors_strip, convMultiP2_strip, convMultiP2_strip]

omit [FloatOps F] [Kurbo F] in
theorem convScalarOr_strip (o : Option (Schema.FloatValue F)) (d : F) :
    convScalarOr (o.map Schema.AnimatedProperty.strip) d = convScalarOr o d := by
  cases o with
  | none => rfl
  | some v => exact convScalar_strip v

variable [Libm F]

theorem convPolystar_strip (s : Schema.PolyStarShape F) : convPolystar s.strip = convPolystar s := by
  obtain ⟨_, _, _, _, _, _, ty, _, _⟩ := s
  cases ty <;>
  · unfold convPolystar Schema.PolyStarShape.strip
    simp only [convScalar_strip, convPosPoint_strip, convScalarOr_strip, reduceCtorEq, if_false,
      if_true]
    try rfl

theorem convTransformWith_strip (v : Schema.Transform F) (r : Schema.FloatValue F) (p : Position F) :
    convTransformWith v.strip r.strip p = convTransformWith v r p := by
  obtain ⟨a, q, sc, rt, sk, sa, o⟩ := v
  have h0 : ∀ (x : Option (Schema.FloatValue F)) d,
      convScalar ((x.map Schema.AnimatedProperty.strip).getD d) = convScalar (x.getD d) := by
    intro x d
    cases x with
    | none => rfl
    | some x => exact convScalar_strip x
  have h1 : ∀ (x : Option (Schema.Position F)) d,
      convPosPoint ((x.map Schema.Position.strip).getD d) = convPosPoint (x.getD d) := by
    intro x d
    cases x with
    | none => rfl
    | some x => exact convPosPoint_strip x
  have h2 : ∀ (x : Option (Schema.MultiDimensional F)) d,
      convMultiP2 ((x.map Schema.MultiDimensional.strip).getD d) = convMultiP2 (x.getD d) := by
    intro x d
    cases x with
    | none => rfl
    | some x => exact convMultiP2_strip x
  unfold convTransformWith Schema.Transform.strip
  simp only [h0, h1, h2, convScalar_strip]

theorem convTransform_strip (v : Schema.Transform F) : convTransform v.strip = convTransform v := by
  unfold convTransform
  have hp : layerPosition v.strip.position = layerPosition v.position := by
    unfold Schema.Transform.strip
    dsimp only
    cases v.position with
    | position p => exact congrArg (fun x => Except.ok (Position.value x)) (convPosPoint_strip p)
    | splitPosition s =>
      unfold Schema.AnyTransformP.strip layerPosition
      dsimp only
      rw [convScalar_strip, convScalar_strip]
  rw [hp, show v.strip.rotation = v.rotation.map Schema.AnyTransformR.strip from rfl]
  cases v.rotation with
  | none => rfl
  | some r =>
    cases r with
    | splitRotation => rfl
    | rotation r =>
      show (layerPosition v.position >>= fun p => convTransformWith v.strip r.strip p)
        = (layerPosition v.position >>= fun p => convTransformWith v r p)
      simp only [convTransformWith_strip]

theorem convShapeTransform_strip (g g' : Schema.GraphicElement F) (v : Schema.Transform F) :
    convShapeTransform ⟨g, v.strip⟩ = convShapeTransform ⟨g', v⟩ := by
  unfold convShapeTransform
  dsimp only
  have hp : groupPosition v.strip.position = groupPosition v.position := by
    unfold Schema.Transform.strip
    dsimp only
    cases v.position with
    | position p => exact congrArg (fun x => Except.ok (Position.value x)) (convPosPoint_strip p)
    | splitPosition s => rfl
  rw [hp, show v.strip.rotation = v.rotation.map Schema.AnyTransformR.strip from rfl]
  have h : ∀ r : Schema.FloatValue F, (groupPosition v.position >>= fun p =>
      convTransformWith v.strip r.strip p >>= fun x => Except.ok (GroupTransform.mk x.1 x.2))
        = (groupPosition v.position >>= fun p =>
      convTransformWith v r p >>= fun x => Except.ok (GroupTransform.mk x.1 x.2)) := by
    intro r
    simp only [convTransformWith_strip]
  cases v.rotation with
  | none =>
    have h' := h floatValueZero
    rw [show convTransformWith v.strip floatValueZero.strip
      = convTransformWith v.strip floatValueZero from rfl] at h'
    exact h'
  | some r =>
    cases r with
    | splitRotation => rfl
    | rotation r => exact h r

mutual
theorem convShape_strip : ∀ s : Schema.AnyShape F, convShape s.strip = convShape s
  | .group g n items i => by
    unfold Schema.AnyShape.strip convShape
    simp only [convDraw, convGeometry, convGroupItems_strip items]
  | .rectangle s => by
    unfold Schema.AnyShape.strip convShape
    simp only [convDraw, convGeometry, convScalar_strip, convPosPoint_strip, convMultiP2_strip]
  | .ellipse s => by
    unfold Schema.AnyShape.strip convShape
    simp only [convDraw, convGeometry, convPosPoint_strip, convMultiP2_strip]
  | .transform s => by
    unfold Schema.AnyShape.strip convShape
    rfl
  | .stroke s => by
    unfold Schema.AnyShape.strip convShape
    simp only [convDraw, convStroke_strip, convColor_strip, Schema.ShapeStyle.strip,
      convScalar_strip]
    rfl
  | .fill s => by
    unfold Schema.AnyShape.strip convShape
    simp only [convDraw, convColor_strip, Schema.ShapeStyle.strip, convScalar_strip]
    rfl
  | .trim s => by
    unfold Schema.AnyShape.strip convShape
    simp only [convDraw, convGeometry, convScalar_strip]
  | .path s => by
    unfold Schema.AnyShape.strip convShape
    rfl
  | .gradientFill s => by
    unfold Schema.AnyShape.strip convShape
    simp only [convDraw, convGradient_strip]
    rfl
  | .gradientStroke s => by
    unfold Schema.AnyShape.strip convShape
    simp only [convDraw, convGradient_strip, convStroke_strip]
    rfl
  | .polyStar s => by
    unfold Schema.AnyShape.strip convShape
    simp only [convDraw, convGeometry, convPolystar_strip]
  | .puckerBloat s => by unfold Schema.AnyShape.strip; rfl
  | .merge s => by unfold Schema.AnyShape.strip; rfl
  | .repeater s => by unfold Schema.AnyShape.strip; rfl
  | .offsetPath s => by unfold Schema.AnyShape.strip; rfl
  | .twist s => by unfold Schema.AnyShape.strip; rfl
  | .roundedCorners s => by unfold Schema.AnyShape.strip; rfl

theorem convGroupItems_strip : ∀ (ss : List (Schema.AnyShape F)) (t : Option (GroupTransform F)),
    convGroupItems (Schema.AnyShape.stripAll ss) t = convGroupItems ss t
  | [], t => by unfold Schema.AnyShape.stripAll; rfl
  | s :: ss, t => by
    unfold Schema.AnyShape.stripAll
    have h1 := convShape_strip s
    have h2 := convGroupItems_strip ss
    cases s with
    | transform tr =>
      unfold Schema.AnyShape.strip convGroupItems
      simp only [h2, convShapeTransform_strip _ tr.graphicElement]
    | _ =>
      unfold Schema.AnyShape.strip at h1 ⊢
      unfold convGroupItems
      simp only [h2, h1]
end

omit [FloatOps F] [Kurbo F] [Libm F] in
theorem stripAll_map (ss : List (Schema.AnyShape F)) :
    Schema.AnyShape.stripAll ss = ss.map Schema.AnyShape.strip := by
  induction ss with
  | nil => unfold Schema.AnyShape.stripAll; rfl
  | cons s ss ih => unfold Schema.AnyShape.stripAll; rw [ih]; rfl

theorem convShapes_strip (ss : List (Schema.AnyShape F)) :
    convShapes (Schema.AnyShape.stripAll ss) = convShapes ss := by
  unfold convShapes
  rw [stripAll_map, mapM_strip _ _ _ convShape_strip]

omit [Kurbo F] [Libm F] in
theorem convMask_strip (m : Schema.Mask F) : convMask m.strip = convMask m := by
  obtain ⟨_, _, _, sh, o, _, _⟩ := m
  unfold convMask Schema.Mask.strip
  dsimp only
  cases sh with
  | none => rfl
  | some sh =>
    cases o with
    | none => rfl
    | some o =>
      show (convShapeGeometry sh >>= _) = (convShapeGeometry sh >>= _)
      congr 1
      funext g
      cases g with
      | none => rfl
      | some g =>
        show (convScalar o.strip >>= _) = (convScalar o >>= _)
        rw [convScalar_strip]

theorem setupLayer_strip (v : Schema.VisualLayer F) (w h st : F) :
    setupLayer v.strip w h st = setupLayer v w h st := by
  unfold setupLayer
  have hm : convMasks (v.strip.masksProperties.getD []) = convMasks (v.masksProperties.getD []) := by
    show convMasks ((v.masksProperties.map (List.map Schema.Mask.strip)).getD []) = _
    cases v.masksProperties with
    | none => rfl
    | some ms =>
      unfold convMasks
      dsimp only [Option.map_some, Option.getD_some]
      rw [mapM_strip _ _ _ convMask_strip]
  rw [hm, show v.strip.transform = v.transform.strip from rfl, convTransform_strip]
  rfl

theorem convLayer_strip (l : Schema.AnyLayer F) : convLayer l.strip = convLayer l := by
  have hs : layerSetup l.strip = layerSetup l := by
    cases l <;> exact setupLayer_strip _ _ _ _
  have hh : isLayerHidden l.strip = isLayerHidden l := by cases l <;> rfl
  have hc : layerContent l.strip = layerContent l := by
    cases l with
    | shape l =>
      show (convShapes (Schema.AnyShape.stripAll l.shapes)).map _ = _
      rw [convShapes_strip]
      rfl
    | precomposition l =>
      show (convRemap (l.timeRemap.map _)).map _ = (convRemap l.timeRemap).map _
      congr 1
      cases l.timeRemap with
      | none => rfl
      | some v => exact congrArg (Except.map some) (convScalar_strip v)
    | _ => rfl
  unfold convLayer
  rw [hs, hh, hc]

theorem processLayers_strip (ls : List (Schema.AnyLayer F)) :
    processLayers (ls.map Schema.AnyLayer.strip) = processLayers ls := by
  unfold processLayers
  rw [mapM_strip _ _ _ convLayer_strip]

theorem convAnimation_strip (a : Schema.Animation F) : convAnimation a.strip = convAnimation a := by
  have ha : ∀ x : Schema.AnyAsset F, convAsset x.strip = convAsset x := by
    intro x
    cases x with
    | image i => rfl
    | precomposition p =>
      unfold Schema.AnyAsset.strip convAsset
      dsimp only
      rw [processLayers_strip]
  unfold convAnimation
  rw [show a.strip.layers = a.layers.map Schema.AnyLayer.strip from rfl, processLayers_strip]
  rw [show a.strip.assets = a.assets.map (List.map Schema.AnyAsset.strip) from rfl]
  cases a.assets with
  | none => rfl
  | some as =>
    dsimp only [Option.map_some, Option.getD_some]
    rw [mapM_strip _ _ _ ha]
    rfl

end
end Velato
