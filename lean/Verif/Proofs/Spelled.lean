import Verif.Spec.Spelled
import Verif.Proofs.Ignored

/-!
# Import does not look at whether defaults are written out
-/

namespace Velato
open FloatOps (lit)
open Import

section
variable {F : Type}

theorem head?_spell (bs : List (Schema.Bezier F)) : (bs.map Schema.Bezier.spell).head? = bs.head?.map Schema.Bezier.spell := by
  cases bs <;> rfl

theorem startBezier_spell (prev : Option (Schema.ShapeKeyframe F)) (k : Schema.ShapeKeyframe F) :
    startBezier (prev.map Schema.ShapeKeyframe.spell) k.spell = (startBezier prev k).map (Option.map Schema.Bezier.spell) := by
  obtain ⟨_, st, _⟩ := k
  cases st with
  | some bs => exact congrArg Except.ok (head?_spell bs)
  | none =>
    cases prev with
    | none => rfl
    | some p =>
      obtain ⟨_, ps, pe⟩ := p
      have h : (match (ps.map (List.map Schema.Bezier.spell)) with
          | none => (Except.ok none : Except Fault (Option (Schema.Bezier F)))
          | some start => .ok start.head?) = ((match ps with
          | none => (Except.ok none : Except Fault (Option (Schema.Bezier F)))
          | some start => .ok start.head?)).map (Option.map Schema.Bezier.spell) := by
        cases ps with
        | none => rfl
        | some bs => exact congrArg Except.ok (head?_spell bs)
      match pe with
      | some (e :: _) => rfl
      | some [] => exact h
      | none => exact h

variable [FloatOps F]

theorem convSpline_spell (b : Schema.Bezier F) : convSpline b.spell = convSpline b := by
  obtain ⟨c, _, _, _⟩ := b
  cases c <;> rfl

theorem splineLoop_spell (ks : List (Schema.ShapeKeyframe F)) (prev : Option (Schema.ShapeKeyframe F)) :
    splineLoop (prev.map Schema.ShapeKeyframe.spell) (ks.map Schema.ShapeKeyframe.spell) = splineLoop prev ks := by
  induction ks generalizing prev with
  | nil => rfl
  | cons k ks ih =>
    rw [List.map_cons, splineLoop, splineLoop, startBezier_spell, show k.spell.base = k.base from rfl]
    have ih' := ih (some k)
    rw [Option.map_some] at ih'
    rw [ih']
    congr 1
    funext t
    cases startBezier prev k with
    | error e => rfl
    | ok o =>
      cases o with
      | none => rfl
      | some b =>
        obtain ⟨_, _, e⟩ := k
        match e with
        | some (e :: _) =>
          simp only [Schema.ShapeKeyframe.spell, Except.map, Option.map_some, List.map_cons, bind, Except.bind, convSpline_spell]
        | some [] => simp only [Schema.ShapeKeyframe.spell, Except.map, Option.map_some, List.map_nil, bind, Except.bind, convSpline_spell]
        | none => simp only [Schema.ShapeKeyframe.spell, Except.map, Option.map_some, Option.map_none, bind, Except.bind, convSpline_spell]

variable [Kurbo F]

omit [Kurbo F] in
theorem convShapeGeometry_spell (p : Schema.ShapeProperty F) : convShapeGeometry p.spell = convShapeGeometry p := by
  obtain ⟨_, _, _, v⟩ := p
  cases v with
  | static b =>
    show Except.ok (some (Geometry.fixed (splineToPath (convSpline b.spell).1 (convSpline b.spell).2))) = _
    rw [convSpline_spell]
    rfl
  | animated ks =>
    have h := splineLoop_spell ks none
    rw [Option.map_none] at h
    unfold convShapeGeometry Schema.ShapeProperty.spell
    dsimp only
    rw [h]

omit [FloatOps F] [Kurbo F] in
theorem convStroke_spell (s : Schema.BaseStroke F) (j : Schema.LineJoin) (c : Schema.LineCap) :
    convStroke (s.spell j c) j c = convStroke s j c := rfl

theorem convGradient_spell (g : Schema.BaseGradient F) : convGradient g.spell = convGradient g := by
  obtain ⟨_, _, _, t, _, _⟩ := g
  cases t <;> rfl

variable [Libm F]

theorem convPolystar_spell (s : Schema.PolyStarShape F) : convPolystar s.spell = convPolystar s := by
  obtain ⟨_, _, _, _, _, _, ty, i, r⟩ := s
  cases i <;> cases r <;> rfl

theorem convTransformWith_spell (v : Schema.Transform F) (rt : Option (Schema.AnyTransformR F)) (r : Schema.FloatValue F)
    (p : Position F) : convTransformWith { v.spell with rotation := rt } r p = convTransformWith v r p := by
  obtain ⟨a, q, sc, rt, sk, sa, o⟩ := v
  have ha : convPosPoint (a.getD ⟨none, none, none, none, .static [lit 0, lit 0]⟩) = convPosPoint (a.getD positionZero) := by
    cases a <;> rfl
  have h : ∀ (x : Option (Schema.FloatValue F)) (y : F),
      convScalar (x.getD (Schema.FloatValue.plain y)) = convScalar (x.getD (staticValue y)) := by
    intro x y
    cases x <;> rfl
  unfold convTransformWith Schema.Transform.spell
  dsimp only [Option.getD_some]
  rw [ha, h, h, h]
  rfl

theorem convTransform_spell (v : Schema.Transform F) : convTransform v.spell = convTransform v := by
  have h := convTransformWith_spell v v.rotation
  unfold convTransform
  simp only [show ({ v.spell with rotation := v.rotation } : Schema.Transform F) = v.spell from rfl] at h
  simp only [h]
  rfl

theorem convShapeTransform_spell (s : Schema.TransformShape F) :
    convShapeTransform { s with transform := s.transform.spellGroup } = convShapeTransform s := by
  unfold convShapeTransform Schema.Transform.spellGroup
  simp only [convTransformWith_spell]
  cases hr : s.transform.rotation with
  | none => rfl
  | some r => rfl

mutual
theorem convShape_spell : ∀ s : Schema.AnyShape F, convShape s.spell = convShape s
  | .group g n items i => by
    unfold Schema.AnyShape.spell convShape
    simp only [convDraw, convGeometry, convGroupItems_spell items]
  | .rectangle s => by unfold Schema.AnyShape.spell; rfl
  | .ellipse s => by unfold Schema.AnyShape.spell; rfl
  | .transform s => by
    unfold Schema.AnyShape.spell convShape
    rfl
  | .stroke s => by
    unfold Schema.AnyShape.spell convShape
    simp only [convDraw, convStroke_spell]
    rfl
  | .fill s => by unfold Schema.AnyShape.spell; rfl
  | .trim s => by unfold Schema.AnyShape.spell; rfl
  | .path s => by
    unfold Schema.AnyShape.spell convShape
    simp only [convDraw, convGeometry, convShapeGeometry_spell]
  | .gradientFill s => by
    unfold Schema.AnyShape.spell convShape
    simp only [convDraw, convGradient_spell]
    rfl
  | .gradientStroke s => by
    unfold Schema.AnyShape.spell convShape
    simp only [convDraw, convGradient_spell, convStroke_spell]
    rfl
  | .polyStar s => by
    unfold Schema.AnyShape.spell convShape
    simp only [convDraw, convGeometry, convPolystar_spell]
  | .puckerBloat s => by unfold Schema.AnyShape.spell; rfl
  | .merge s => by unfold Schema.AnyShape.spell; rfl
  | .repeater s => by unfold Schema.AnyShape.spell; rfl
  | .offsetPath s => by unfold Schema.AnyShape.spell; rfl
  | .twist s => by unfold Schema.AnyShape.spell; rfl
  | .roundedCorners s => by unfold Schema.AnyShape.spell; rfl

theorem convGroupItems_spell : ∀ (ss : List (Schema.AnyShape F)) (t : Option (GroupTransform F)),
    convGroupItems (Schema.AnyShape.spellAll ss) t = convGroupItems ss t
  | [], t => by unfold Schema.AnyShape.spellAll; rfl
  | s :: ss, t => by
    unfold Schema.AnyShape.spellAll
    have h1 := convShape_spell s
    have h2 := convGroupItems_spell ss
    cases s with
    | transform tr =>
      unfold Schema.AnyShape.spell convGroupItems
      simp only [h2, convShapeTransform_spell]
    | _ =>
      unfold Schema.AnyShape.spell at h1 ⊢
      unfold convGroupItems
      simp only [h2, h1]
end

omit [Kurbo F] [Libm F] in
theorem spellAll_map (ss : List (Schema.AnyShape F)) : Schema.AnyShape.spellAll ss = ss.map Schema.AnyShape.spell := by
  induction ss with
  | nil => unfold Schema.AnyShape.spellAll; rfl
  | cons s ss ih => unfold Schema.AnyShape.spellAll; rw [ih]; rfl

theorem convShapes_spell (ss : List (Schema.AnyShape F)) : convShapes (Schema.AnyShape.spellAll ss) = convShapes ss := by
  unfold convShapes
  rw [spellAll_map, mapM_strip _ _ _ convShape_spell]

omit [Kurbo F] [Libm F] in
theorem convMask_spell (m : Schema.Mask F) : convMask m.spell = convMask m := by
  obtain ⟨_, _, _, sh, o, _, _⟩ := m
  cases sh with
  | none => rfl
  | some sh =>
    show (convShapeGeometry sh.spell >>= _) = (convShapeGeometry sh >>= _)
    rw [convShapeGeometry_spell]
    cases o <;> rfl

theorem setupLayer_spell (v : Schema.VisualLayer F) (w h st : F) : setupLayer v.spell w h st = setupLayer v w h st := by
  have hm : convMasks (v.spell.masksProperties.getD []) = convMasks (v.masksProperties.getD []) := by
    show convMasks ((v.masksProperties.getD []).map Schema.Mask.spell) = _
    unfold convMasks
    rw [mapM_strip _ _ _ convMask_spell]
  have ht : (v.spell.matteTarget == some .true) = (v.matteTarget == some .true) := by
    show (some (v.matteTarget.getD .false) == some .true) = _
    cases v.matteTarget <;> rfl
  unfold setupLayer
  rw [hm, ht, show v.spell.transform = v.transform.spell from rfl, convTransform_spell]
  rfl

theorem convLayer_spell (l : Schema.AnyLayer F) : convLayer l.spell = convLayer l := by
  have hs : layerSetup l.spell = layerSetup l := by
    cases l <;> exact setupLayer_spell _ _ _ _
  have hv : ∀ v : Schema.VisualLayer F, (v.spell.layer.hidden == some true) = (v.layer.hidden == some true) := by
    intro v
    show (some (v.layer.hidden.getD false) == some true) = _
    cases v.layer.hidden <;> rfl
  have hh : isLayerHidden l.spell = isLayerHidden l := by cases l <;> exact hv _
  have hc : layerContent l.spell = layerContent l := by
    cases l with
    | shape l =>
      show (convShapes (Schema.AnyShape.spellAll l.shapes)).map _ = _
      rw [convShapes_spell]
      rfl
    | _ => rfl
  unfold convLayer
  rw [hs, hh, hc]

theorem processLayers_spell (ls : List (Schema.AnyLayer F)) :
    processLayers (ls.map Schema.AnyLayer.spell) = processLayers ls := by
  unfold processLayers
  rw [mapM_strip _ _ _ convLayer_spell]

theorem convAnimation_spell (a : Schema.Animation F) : convAnimation a.spell = convAnimation a := by
  have ha : ∀ x : Schema.AnyAsset F, convAsset x.spell = convAsset x := by
    intro x
    cases x with
    | image i => rfl
    | precomposition p =>
      unfold Schema.AnyAsset.spell convAsset
      dsimp only
      rw [processLayers_spell]
  unfold convAnimation
  rw [show a.spell.layers = a.layers.map Schema.AnyLayer.spell from rfl, processLayers_spell,
    show a.spell.assets.getD [] = (a.assets.getD []).map Schema.AnyAsset.spell from rfl, mapM_strip _ _ _ ha]
  rfl

end
end Velato
