import Verif.Proofs.Elsewhere

/-!
# Two documents that differ only in the values of properties: shapes, layers and documents
-/

namespace Velato
open FloatOps (lit)

section
variable {F : Type} [FloatOps F] [Kurbo F] [Libm F] {fr : F} {K : Schema.KeyframeRelations F} [K.Sound fr]

open Import

theorem scalarOr_agrees {p p' : Option (Schema.FloatValue F)} (h : Option.Rel (Schema.AnimatedProperty.Agrees K.numbers) p p') (d : F) :
    Both (EvalsAlike fr) (convScalarOr p d) (convScalarOr p' d) := by
  cases h with
  | none => exact Both.ok (.refl _)
  | some h => exact scalar_agrees h

omit [K.Sound fr] in
theorem star_both {s s' : AnimStar F} (hv : s'.evaluate fr = s.evaluate fr) :
    Both (SameGeometry fr fr) s.intoModel s'.intoModel := fun v v' h h' =>
  ((C11_star s' fr).1 v' h').trans (hv.trans ((C11_star s fr).1 v h).symm)

theorem star_agrees {s s' : Schema.PolyStarShape F} (hs : s.Agrees K s') :
    Both (SameGeometry fr fr) (convPolystar s) (convPolystar s') := by
  unfold convPolystar
  rw [hs.starType]
  have hpos := position_agrees hs.position
  refine (scalar_agrees hs.outerRadius).bind fun o1 o1' h1 => ?_
  refine (scalar_agrees hs.outerRoundness).bind fun o2 o2' h2 => ?_
  refine (scalar_agrees hs.rotation).bind fun o3 o3' h3 => ?_
  refine (scalar_agrees hs.points).bind fun o4 o4' h4 => ?_
  suffices h : ∀ o5 o5' o6 o6', EvalsAlike fr o5 o5' → EvalsAlike fr o6 o6' →
      Both (SameGeometry fr fr)
        (AnimStar.intoModel ⟨s.starType == .polygon, lit 1, convPosPoint s.position, o5, o6, o1, o2, o3, o4⟩)
        (AnimStar.intoModel ⟨s.starType == .polygon, lit 1, convPosPoint s'.position, o5', o6', o1', o2', o3', o4'⟩) by
    have a5 := scalarOr_agrees hs.innerRadius (lit 0)
    have a6 := scalarOr_agrees hs.innerRoundness (lit 0)
    have z : Both (EvalsAlike fr) (.ok (.fixed (lit 0)) : Except Fault (Value F F)) (.ok (.fixed (lit 0))) :=
      Both.ok (.refl _)
    split
    · exact z.bind fun o5 o5' h5 => z.bind fun o6 o6' h6 => h _ _ _ _ h5 h6
    · exact a5.bind fun o5 o5' h5 => a6.bind fun o6 o6' h6 => h _ _ _ _ h5 h6
  intro o5 o5' o6 o6' h5 h6
  refine star_both ?_
  unfold AnimStar.evaluate
  dsimp only
  rw [hpos.evaluate, h1.evaluate, h2.evaluate, h3.evaluate, h4.evaluate, h5.evaluate, h6.evaluate]

theorem geometry_agrees {s s' : Schema.AnyShape F} (h : s.Agrees K s') :
    Both (OptRel (SameGeometry fr fr)) (convGeometry s) (convGeometry s') := by
  cases h with
  | @ellipse s s' hp hs =>
    refine Both.ok (.some ?_)
    show Except.ok _ = Except.ok _
    unfold AnimEllipse.evaluate
    dsimp only
    rw [(position_agrees hp).evaluate]
    rw [show (convMultiP2 s'.size).evaluate fr = (convMultiP2 s.size).evaluate fr from (vector_agrees hs).evaluate]
  | @rectangle s s' hp hs hr =>
    refine (scalar_agrees hr).bind fun r r' hr => Both.ok (.some ?_)
    show Except.ok _ = Except.ok _
    unfold AnimRect.evaluate
    dsimp only
    rw [(position_agrees hp).evaluate, hr.evaluate]
    rw [show (convMultiP2 s'.size).evaluate fr = (convMultiP2 s.size).evaluate fr from (vector_agrees hs).evaluate]
  | path h => exact path_agrees h
  | polyStar h => exact (star_agrees h).map fun v v' h => .some h
  | _ => exact Both.ok .none

theorem solid_agrees [LawfulCmp F] {c c' : Schema.ColorValue F} (hc : c.Agrees K.colors c') :
    (AnimBrush.solid (convColor c')).intoModel.evaluate (lit 1) fr = (AnimBrush.solid (convColor c)).intoModel.evaluate (lit 1) fr := by
  rw [brush_unfolded, brush_unfolded]
  unfold AnimBrush.evaluate
  dsimp only
  rw [color_agrees hc]

theorem gradient_agrees [LawfulCmp F] {g g' : Schema.BaseGradient F} (hg : g.Agrees K g') :
    Both (fun x x' => (AnimBrush.gradient x').intoModel.evaluate (lit 1) fr =
      (AnimBrush.gradient x).intoModel.evaluate (lit 1) fr) (convGradient g) (convGradient g') := by
  obtain ⟨hc, hs, he, hr⟩ := hg
  have hty : g'.gradientType = g.gradientType := by rw [hr]
  unfold convGradient
  refine (gradientColors_agree hc).bind fun s s' hs' => Both.ok ?_
  have h1 : EvalsAlike fr (convMultiP2 g.startPoint) (convMultiP2 g'.startPoint) := vector_agrees hs
  have h2 : EvalsAlike fr (convMultiP2 g.endPoint) (convMultiP2 g'.endPoint) := vector_agrees he
  rw [hty, brush_unfolded, brush_unfolded]
  unfold AnimBrush.evaluate AnimGradient.evaluate
  dsimp only
  rw [h1.evaluate, h2.evaluate, hs']

theorem stroke_agrees {s s' : Schema.BaseStroke F} (hs : s.Agrees K s') (dj : Schema.LineJoin) (dc : Schema.LineCap) :
    Both (fun x x' : AnimStroke F => x'.intoModel.evaluate fr = x.intoModel.evaluate fr)
      (convStroke s dj dc) (convStroke s' dj dc) := by
  obtain ⟨hw, hr⟩ := hs
  rw [hr]
  unfold convStroke
  refine (scalar_agrees hw).bind fun w w' hw => Both.ok ?_
  dsimp only
  rw [C11_stroke, C11_stroke]
  unfold AnimStroke.evaluate
  dsimp only
  rw [hw.evaluate]

theorem draw_agrees [LawfulCmp F] {s s' : Schema.AnyShape F} (h : s.Agrees K s') :
    Both (OptRel (fun d d' => Shape.SameAt fr fr (.draw d) (.draw d'))) (convDraw s) (convDraw s') := by
  cases h with
  | fill ho hc =>
    exact (scalar_agrees ho).bind fun o o' ho => Both.ok (.some (.draw rfl (solid_agrees hc).symm ho.evaluate.symm))
  | stroke ho hs hc =>
    exact (stroke_agrees hs _ _).bind fun x x' hx => (scalar_agrees ho).bind fun o o' ho =>
      Both.ok (.some (.draw (congrArg some hx.symm) (solid_agrees hc).symm ho.evaluate.symm))
  | gradientFill ho hg =>
    exact (gradient_agrees hg).bind fun g g' hg => Both.ok (.some (.draw rfl hg.symm rfl))
  | gradientStroke ho hs hg =>
    exact (stroke_agrees hs _ _).bind fun x x' hx => (gradient_agrees hg).bind fun g g' hg =>
      Both.ok (.some (.draw (congrArg some hx.symm) hg.symm rfl))
  | _ => exact Both.ok .none

/-! ### Transforms -/

theorem layerPosition_agrees {p p' : Schema.AnyTransformP F} (h : p.Agrees K p') :
    Both (fun p p' : Position F => p'.evaluate fr = p.evaluate fr) (layerPosition p) (layerPosition p') := by
  cases h with
  | position h => exact Both.ok (position_agrees h).evaluate
  | splitPosition hx hy =>
    refine (scalar_agrees hx).bind fun x x' hx => (scalar_agrees hy).bind fun y y' hy => Both.ok ?_
    unfold Position.evaluate
    dsimp only
    rw [hx.evaluate, hy.evaluate]
  | split h =>
    intro v v' e e'
    cases e
    obtain ⟨vx, hx, e'⟩ := bind_ok e'
    obtain ⟨vy, hy, e'⟩ := bind_ok e'
    cases e'
    exact split_agrees h hx hy
  | joined h =>
    intro v v' e e'
    cases e'
    obtain ⟨vx, hx, e⟩ := bind_ok e
    obtain ⟨vy, hy, e⟩ := bind_ok e
    cases e
    exact (split_agrees h hx hy).symm

theorem groupPosition_agrees {p p' : Schema.AnyTransformP F} (h : p.Agrees K p') :
    Both (fun p p' : Position F => p'.evaluate fr = p.evaluate fr) (groupPosition p) (groupPosition p') := by
  cases h with
  | position h => exact Both.ok (position_agrees h).evaluate
  | splitPosition hx hy => exact Both.error
  | split h => rintro _ _ _ ⟨⟩
  | joined h => rintro _ _ ⟨⟩

theorem getD_agrees {p p' : Option (Schema.FloatValue F)} (h : Option.Rel (Schema.AnimatedProperty.Agrees K.numbers) p p') (d : F) :
    Both (EvalsAlike fr) (convScalar (p.getD (staticValue d))) (convScalar (p'.getD (staticValue d))) := by
  cases h with
  | none => exact Both.ok (.refl _)
  | some h => exact scalar_agrees h

theorem layerRotation_agrees {r r' : Option (Schema.AnyTransformR F)} (h : Option.Rel (Schema.AnyTransformR.Agrees K) r r') :
    Both (fun x x' => Both (EvalsAlike fr) (convScalar x) (convScalar x')) (layerRotation r) (layerRotation r') := by
  cases h with
  | none => exact Both.error
  | some h =>
    cases h with
    | rotation h => exact Both.ok (scalar_agrees h)
    | splitRotation => exact Both.error

theorem groupRotation_agrees {r r' : Option (Schema.AnyTransformR F)} (h : Option.Rel (Schema.AnyTransformR.Agrees K) r r') :
    Both (fun x x' => Both (EvalsAlike fr) (convScalar x) (convScalar x')) (groupRotation r) (groupRotation r') := by
  cases h with
  | none => exact Both.ok (Both.ok (.refl _))
  | some h =>
    cases h with
    | rotation h => exact Both.ok (scalar_agrees h)
    | splitRotation => exact Both.error

theorem transformWith_agrees {t t' : Schema.Transform F} (ht : t.Agrees K t') {r r' : Schema.FloatValue F}
    (hr : Both (EvalsAlike fr) (convScalar r) (convScalar r')) {p p' : Position F} (hpos : p'.evaluate fr = p.evaluate fr) :
    Both (fun x x' : Transform F × Value F F => x'.1.evaluate fr = x.1.evaluate fr ∧ EvalsAlike fr x.2 x'.2)
      (convTransformWith t r p) (convTransformWith t' r' p') := by
  unfold convTransformWith
  refine Both.bind hr fun x1 x1' h1 => ?_
  refine (getD_agrees ht.skew _).bind fun x2 x2' h2 => ?_
  refine (getD_agrees ht.skewAxis _).bind fun x3 x3' h3 => ?_
  refine (getD_agrees ht.opacity _).bind fun x4 x4' h4 => ?_
  refine Both.ok ⟨?_, h4⟩
  have h5 : EvalsAlike fr (convPosPoint (t.anchorPoint.getD positionZero)) (convPosPoint (t'.anchorPoint.getD positionZero)) := by
    have := ht.anchorPoint
    generalize t.anchorPoint = o, t'.anchorPoint = o' at this
    cases this with
    | none => exact .refl _
    | some h => exact position_agrees h
  have h6 : EvalsAlike fr (convMultiP2 (t.scale.getD multidimOne)) (convMultiP2 (t'.scale.getD multidimOne)) := by
    have := ht.scale
    generalize t.scale = o, t'.scale = o' at this
    cases this with
    | none => exact .refl _
    | some h => exact vector_agrees h
  dsimp only
  generalize convPosPoint (t.anchorPoint.getD positionZero) = x5, convPosPoint (t'.anchorPoint.getD positionZero) = x5' at h5
  generalize convMultiP2 (t.scale.getD multidimOne) = x6, convMultiP2 (t'.scale.getD multidimOne) = x6' at h6
  rw [C11_transform, C11_transform]
  unfold AnimTransform.evaluate
  dsimp only
  rw [h1.evaluate, h2.evaluate, h3.evaluate, h5.evaluate, h6.evaluate, hpos]

theorem transform_agrees {t t' : Schema.Transform F} (ht : t.Agrees K t') :
    Both (fun x x' : Transform F × Value F F => x'.1.evaluate fr = x.1.evaluate fr ∧ EvalsAlike fr x.2 x'.2)
      (convTransform t) (convTransform t') := by
  unfold convTransform
  exact (layerRotation_agrees ht.rotation).bind fun r r' hr => (layerPosition_agrees ht.position).bind
    fun p p' h => transformWith_agrees ht hr h

theorem groupTransform_agrees {t t' : Schema.TransformShape F} (ht : t.transform.Agrees K t'.transform) :
    Both (fun x x' => groupParams (some x) fr = groupParams (some x') fr) (convShapeTransform t) (convShapeTransform t') := by
  unfold convShapeTransform
  refine (groupRotation_agrees ht.rotation).bind fun r r' hr => ?_
  refine (groupPosition_agrees ht.position).bind fun p p' h => ?_
  refine (transformWith_agrees ht hr h).bind fun x x' hx => Both.ok ?_
  unfold groupParams
  dsimp only
  rw [hx.1, hx.2.evaluate]

omit [K.Sound fr] [Libm F] in
theorem trim_alike {t t' : AnimTrim F} (h1 : EvalsAlike fr t.start t'.start) (h2 : EvalsAlike fr t.stop t'.stop)
    (h3 : EvalsAlike fr t.offset t'.offset) : t.intoModel.evaluate fr = t'.intoModel.evaluate fr := by
  rw [C11_trim, C11_trim]
  unfold AnimTrim.evaluate
  rw [h1.evaluate, h2.evaluate, h3.evaluate]

/-! ### Shapes -/

mutual
theorem shape_agrees [LawfulCmp F] : ∀ {s s' : Schema.AnyShape F}, s.Agrees K s' →
    Both (OptRel (Shape.SameAt fr fr)) (convShape s) (convShape s')
  | s, s', h => by
    have hd := draw_agrees h
    have hg := geometry_agrees h
    unfold convShape
    refine hd.bind fun d d' hd => ?_
    cases hd with
    | some h => exact Both.ok (.some h)
    | none =>
      refine hg.bind fun g g' hg => ?_
      cases hg with
      | some h => exact Both.ok (.some (.geometry (Eq.symm h)))
      | none =>
        match h with
        | .group hs =>
          refine (groupItems_agree hs none none rfl).bind fun x x' hx => ?_
          dsimp only
          rw [sameAtAll_isEmpty hx.1]
          split
          · exact Both.ok (.some (.group hx.1 hx.2))
          · exact Both.ok .none
        | .trim a b c =>
          refine (scalar_agrees a).bind fun x1 x1' h1 => ?_
          refine (scalar_agrees b).bind fun x2 x2' h2 => ?_
          refine (scalar_agrees c).bind fun x3 x3' h3 => ?_
          exact Both.ok (.some (.trim (trim_alike h1 h2 h3)))
        | .rectangle _ _ _ | .ellipse _ _ | .transform _ | .stroke _ _ _ | .puckerBloat | .merge | .repeater | .offsetPath
        | .fill _ _ | .path _ | .gradientFill _ _ | .gradientStroke _ _ _ | .twist | .roundedCorners | .polyStar _ =>
          exact Both.ok .none

theorem groupItems_agree [LawfulCmp F] : ∀ {ss ss' : List (Schema.AnyShape F)}, Schema.AnyShape.AgreeAll K ss ss' →
    ∀ t t' : Option (GroupTransform F), groupParams t fr = groupParams t' fr →
    Both (fun x x' => Shape.SameAtAll fr fr x.1 x'.1 ∧ groupParams x.2 fr = groupParams x'.2 fr)
      (convGroupItems ss t) (convGroupItems ss' t')
  | _, _, .nil, t, t', ht => by
    unfold convGroupItems
    exact Both.ok ⟨.nil, ht⟩
  | _, _, .cons (s := s) (s' := s') h hs, t, t', ht => by
    by_cases hx : ∃ tr, s = .transform tr
    · obtain ⟨tr, rfl⟩ := hx
      cases h with
      | transform h =>
        unfold convGroupItems
        exact (groupTransform_agrees h).bind fun g g' hg => groupItems_agree hs (some g) (some g') hg
    · have key : ∀ (s : Schema.AnyShape F) (ss : List (Schema.AnyShape F)) (t : Option (GroupTransform F)),
          (∀ tr, s ≠ .transform tr) → convGroupItems (s :: ss) t =
            (convShape s >>= fun s => convGroupItems ss t >>= fun x => .ok (s.toList ++ x.1, x.2)) := by
        intro s ss t h
        cases s <;> first | (rw [convGroupItems]; intro tr; nofun) | exact absurd rfl (h _)
      rw [key _ _ _ (fun tr h => hx ⟨tr, h⟩), key _ _ _ (fun tr e => by
        subst e
        cases h
        exact hx ⟨_, rfl⟩)]
      refine (shape_agrees h).bind fun x x' hx => ?_
      refine (groupItems_agree hs t t' ht).bind fun y y' hy => ?_
      exact Both.ok ⟨sameAtAll_append (sameAtAll_toList hx) hy.1, hy.2⟩
end

theorem shapes_agree [LawfulCmp F] {ss ss' : List (Schema.AnyShape F)} (h : Schema.AnyShape.AgreeAll K ss ss') :
    Both (Shape.SameAtAll fr fr) (convShapes ss) (convShapes ss') := by
  unfold convShapes
  have : Both (List.Forall₂ (OptRel (Shape.SameAt fr fr))) (ss.mapM convShape) (ss'.mapM convShape) := by
    refine Both.mapM ?_
    induction ss generalizing ss' with
    | nil => cases h; exact .nil
    | cons s ss ih =>
      cases h with
      | cons h hs => exact .cons (shape_agrees h) (ih hs)
  refine this.bind fun os os' h => Both.ok ?_
  induction h with
  | nil => exact .nil
  | cons h _ ih => exact sameAtAll_append (sameAtAll_toList h) ih

/-! ### Layers -/

theorem mask_agrees {m m' : Schema.Mask F} (hm : m.Agrees K m') :
    Both (OptRel fun x x' : Mask F => x.geometry.evaluate fr = x'.geometry.evaluate fr) (convMask m) (convMask m') := by
  obtain ⟨hs, ho, -⟩ := hm
  unfold convMask
  generalize m.shape = s, m'.shape = s' at hs
  cases hs with
  | none => exact Both.ok .none
  | some h =>
    refine (path_agrees h).bind fun g g' hg => ?_
    cases hg with
    | none => exact Both.ok .none
    | some hg => exact (getD_agrees ho _).bind fun o o' ho => Both.ok (.some (Eq.symm hg))

theorem masks_agree {ms ms' : List (Schema.Mask F)} (h : List.Forall₂ (Schema.Mask.Agrees K) ms ms') :
    Both (List.Forall₂ fun x x' : Mask F => x.geometry.evaluate fr = x'.geometry.evaluate fr) (convMasks ms)
      (convMasks ms') := by
  unfold convMasks
  refine (Both.mapM (h.imp fun _ _ h => mask_agrees h)).bind fun os os' h => Both.ok ?_
  induction h with
  | nil => exact .nil
  | cons h _ ih =>
    cases h with
    | none => exact ih
    | some h => exact .cons h ih

theorem setup_agrees {v v' : Schema.VisualLayer F} (hv : v.Agrees K v') (w h st : F) :
    Both (fun e e' => SameSetup fr fr e e' ∧ e.1.frames = e'.1.frames ∧ e.1.stretch = e'.1.stretch ∧
        e.1.startFrame = e'.1.startFrame ∧ e.1.stretch = v.layer.timeStretch.getD (lit 1) ∧ e.1.startFrame = st)
      (setupLayer v w h st) (setupLayer v' w h st) := by
  obtain ⟨ht, hm, hr⟩ := hv
  have hl : v'.layer = v.layer := by rw [hr]
  have hb : v'.blendMode = v.blendMode := by rw [hr]
  have h1 : v'.matteTarget = v.matteTarget := by rw [hr]
  have h2 : v'.matteMode = v.matteMode := by rw [hr]
  have h3 : v'.matteLayerIndex = v.matteLayerIndex := by rw [hr]
  unfold setupLayer
  rw [hb]
  refine (transform_agrees ht).bind fun x x' hx => ?_
  refine Both.bind (R := Eq) Both.same fun b _ e => ?_
  subst e
  refine (masks_agree hm).bind fun ms ms' hm => Both.ok ?_
  exact ⟨⟨by dsimp only; rw [hl], by dsimp only; rw [hl], hx.1.symm, hx.2.evaluate.symm, hm,
    by dsimp only; rw [h1], rfl, ⟨rfl, rfl⟩, by dsimp only; rw [hl, h2, h3]⟩,
    by dsimp only; rw [hl], by dsimp only; rw [hl], rfl, rfl, rfl⟩

theorem layer_agrees [LawfulCmp F] {s s' : Schema.AnyLayer F} (h : s.Agrees K s') {R : String → F → F → Prop}
    (hR : ∀ l, s = .precomposition l → R l.refId (l.assetFrame fr) (l.assetFrame fr)) :
    Both (SameEntryAt R fr fr) (convLayer s) (convLayer s') := by
  have mk : ∀ (e e' : Layer F × LayerSetupParams) (co co' : Content F) (b : Bool), SameSetup fr fr e e' →
      e.1.frames = e'.1.frames →
      (Content.SameAt R fr fr { e.1 with content := co } { e'.1 with content := co' }) →
      SameEntryAt R fr fr ({ e.1 with content := co }, e.2) ({ e'.1 with content := co' }, e'.2) ∧
      SameEntryAt R fr fr ({ e.1 with isMask := b }, e.2) ({ e'.1 with isMask := b }, e'.2) := by
    intro e e' co co' b h hc hco
    exact ⟨⟨⟨h.name, h.parent, by dsimp only; rw [hc], h.transform, h.opacity, h.masks, h.isMask, h.maskLayer, hco⟩,
      h.params⟩, ⟨⟨h.name, h.parent, by dsimp only; rw [hc], h.transform, h.opacity, h.masks, rfl, h.maskLayer,
        .none h.content.1 h.content.2⟩, h.params⟩⟩
  unfold convLayer
  cases h with
  | @precomposition l l' hv htr hr =>
    have hl : l'.visualLayer.layer = l.visualLayer.layer := by rw [hv.rest]
    rw [show isLayerHidden (.precomposition l') = isLayerHidden (.precomposition l) by
      unfold isLayerHidden visualLayer; dsimp only; rw [hl]]
    have e1 : l'.refId = l.refId := by rw [hr]
    have e2 : l'.width = l.width := by rw [hr]
    have e3 : l'.height = l.height := by rw [hr]
    have e4 : l'.startTime = l.startTime := by rw [hr]
    unfold layerSetup
    dsimp only
    rw [e2, e3, e4]
    refine (setup_agrees hv _ _ _).bind fun e e' he => ?_
    obtain ⟨h1, h2, h3, h4, h5, h6⟩ := he
    split
    · exact Both.ok (mk e e' .none .none false h1 h2 (.none rfl rfl)).2
    · have : Both (fun co co' => ∃ tr tr', co = .instance l.refId tr ∧ co' = .instance l.refId tr')
          (layerContent (.precomposition l)) (layerContent (.precomposition l')) := by
        unfold layerContent
        dsimp only
        rw [e1]
        exact Both.map (R := fun _ _ => True) (fun _ _ _ _ => trivial) fun tr tr' _ => ⟨tr, tr', rfl, rfl⟩
      refine this.bind fun co co' hco => Both.ok ?_
      obtain ⟨tr, tr', rfl, rfl⟩ := hco
      refine (mk e e' _ _ false h1 h2 (.inst rfl rfl ?_)).1
      dsimp only
      rw [← h3, ← h4, h5, h6]
      exact hR l rfl
  | @shape l l' hv hss =>
    have hl : l'.visualLayer.layer = l.visualLayer.layer := by rw [hv.rest]
    rw [show isLayerHidden (.shape l') = isLayerHidden (.shape l) by
      unfold isLayerHidden visualLayer; dsimp only; rw [hl]]
    unfold layerSetup
    dsimp only
    rw [hl]
    refine (setup_agrees hv _ _ _).bind fun e e' he => ?_
    obtain ⟨h1, h2, h3, h4, h5, h6⟩ := he
    split
    · exact Both.ok (mk e e' .none .none false h1 h2 (.none rfl rfl)).2
    · unfold layerContent
      dsimp only
      refine (Both.map (shapes_agree hss)
        (S := fun co co' : Content F => ∃ ss ss', co = .shape ss ∧ co' = .shape ss' ∧ Shape.SameAtAll fr fr ss ss')
        fun ss ss' h => ⟨ss, ss', rfl, rfl, h⟩).bind fun co co' hco => Both.ok ?_
      obtain ⟨ss, ss', rfl, rfl, h⟩ := hco
      exact (mk e e' _ _ false h1 h2 (.shape rfl rfl h)).1
  | @solid l l' hv hr =>
    have hl : l'.visualLayer.layer = l.visualLayer.layer := by rw [hv.rest]
    rw [show isLayerHidden (.solid l') = isLayerHidden (.solid l) by
      unfold isLayerHidden visualLayer; dsimp only; rw [hl]]
    unfold layerSetup
    dsimp only
    rw [hl]
    refine (setup_agrees hv _ _ _).bind fun e e' he => ?_
    obtain ⟨h1, h2, h3, h4, h5, h6⟩ := he
    split
    · exact Both.ok (mk e e' .none .none false h1 h2 (.none rfl rfl)).2
    · exact Both.ok (mk e e' .none .none false h1 h2 (.none rfl rfl)).1
  | @null l l' hv =>
    have hl : l'.layer = l.layer := by rw [hv.rest]
    rw [show isLayerHidden (.null l') = isLayerHidden (.null l) by
      unfold isLayerHidden visualLayer; dsimp only; rw [hl]]
    unfold layerSetup
    dsimp only
    rw [hl]
    refine (setup_agrees hv _ _ _).bind fun e e' he => ?_
    obtain ⟨h1, h2, h3, h4, h5, h6⟩ := he
    split
    · exact Both.ok (mk e e' .none .none false h1 h2 (.none rfl rfl)).2
    · exact Both.ok (mk e e' .none .none false h1 h2 (.none rfl rfl)).1
  | @image l l' hv hr =>
    have hl : l'.visualLayer.layer = l.visualLayer.layer := by rw [hv.rest]
    rw [show isLayerHidden (.image l') = isLayerHidden (.image l) by
      unfold isLayerHidden visualLayer; dsimp only; rw [hl]]
    unfold layerSetup
    dsimp only
    rw [hl]
    refine (setup_agrees hv _ _ _).bind fun e e' he => ?_
    obtain ⟨h1, h2, h3, h4, h5, h6⟩ := he
    split
    · exact Both.ok (mk e e' .none .none false h1 h2 (.none rfl rfl)).2
    · exact Both.ok (mk e e' .none .none false h1 h2 (.none rfl rfl)).1

end

section
variable {F : Type} [FloatOps F] [Kurbo F] [Libm F] {fr : F}

open Import

/-- The layers of the assets that are shown are related too. -/
def Closed (K : F → Schema.KeyframeRelations F) (S : List (Schema.AnyLayer F) → List (Schema.AnyLayer F) → F → Prop)
    (a a' : Schema.Animation F) : Prop :=
  ∀ ls ls' fr, S ls ls' fr → List.Forall₂ (Schema.AnyLayer.Agrees (K fr)) ls ls' ∧
    ∀ q, Schema.AnyLayer.precomposition q ∈ ls → ∀ p p',
      (Schema.AnyAsset.precomposition p, Schema.AnyAsset.precomposition p') ∈ (a.assets.getD []).zip (a'.assets.getD []) →
      p.asset.id = q.refId → S p.layers p'.layers (q.assetFrame fr)

/-- The relation between the frames at which an asset is shown. -/
def AgreeingAsset (S : List (Schema.AnyLayer F) → List (Schema.AnyLayer F) → F → Prop) (a a' : Schema.Animation F)
    (name : String) (fr fr' : F) : Prop :=
  fr' = fr ∧ ∀ p p', (Schema.AnyAsset.precomposition p, Schema.AnyAsset.precomposition p') ∈
    (a.assets.getD []).zip (a'.assets.getD []) → p.asset.id = name → S p.layers p'.layers fr

theorem processLayers_agree [LawfulCmp F] {K : F → Schema.KeyframeRelations F} [∀ fr, (K fr).Sound fr] {a a' : Schema.Animation F}
    {S : List (Schema.AnyLayer F) → List (Schema.AnyLayer F) → F → Prop} (hS : Closed K S a a')
    {ss ss' : List (Schema.AnyLayer F)} (h : S ss ss' fr) :
    Both (List.Forall₂ (Layer.SameAt (AgreeingAsset S a a') fr fr)) (processLayers ss) (processLayers ss') := by
  obtain ⟨hl, ha⟩ := hS _ _ _ h
  clear h
  unfold processLayers
  have : List.Forall₂ (fun s s' => Both (SameEntryAt (AgreeingAsset S a a') fr fr) (convLayer s) (convLayer s')) ss ss' := by
    induction hl with
    | nil => exact .nil
    | @cons s s' ss ss' h _ ih =>
      refine .cons (layer_agrees h fun l e => ⟨rfl, fun p p' hp hid => ha l (by simp [e]) p p' hp hid⟩) (ih fun q hq => ?_)
      exact ha q (List.mem_cons_of_mem _ hq)
  refine (Both.mapM this).bind fun es es' he => Both.ok ?_
  rw [idMap_sameAt he]
  exact linkLayers_sameAt _ he 0 none

end

section
variable {F : Type} [FloatOps F] [Kurbo F] [Libm F] {fr : F}

theorem assets_agree {R : String → F → F → Prop} {name : String} {ps ps' : List (Schema.AnyAsset F)}
    (h : List.Forall₂ Schema.AnyAsset.SameBut ps ps') {as as' : List (String × List (Layer F))}
    (hc : List.Forall₂ (fun s e => Import.convAsset s = .ok e) ps as)
    (hc' : List.Forall₂ (fun s e => Import.convAsset s = .ok e) ps' as')
    (hR : ∀ p p', (Schema.AnyAsset.precomposition p, Schema.AnyAsset.precomposition p') ∈ ps.zip ps' → p.asset.id = name →
      Both (List.Forall₂ (Layer.SameAt R fr fr)) (Import.processLayers p.layers) (Import.processLayers p'.layers)) :
    List.Forall₂ (fun e e' : String × List (Layer F) => e'.1 = e.1 ∧ (e.1 = name → List.Forall₂ (Layer.SameAt R fr fr) e.2 e'.2))
      as as' := by
  induction h generalizing as as' with
  | nil => cases hc; cases hc'; exact .nil
  | @cons p p' ps ps' h _ ih =>
    cases hc with
    | @cons _ e _ as he hc =>
      cases hc' with
      | @cons _ e' _ as' he' hc' =>
        refine .cons ?_ (ih hc hc' fun p p' hp => hR p p' (by rw [List.zip_cons_cons]; exact List.mem_cons_of_mem _ hp))
        obtain ⟨q, rfl, h1, h2⟩ := Import.convAsset_ok he
        obtain ⟨q', rfl, h1', h2'⟩ := Import.convAsset_ok he'
        cases h with
        | precomposition hq =>
          refine ⟨?_, fun hn => hR q q' (by rw [List.zip_cons_cons]; exact List.mem_cons_self ..) (by rw [← h1, hn]) _ _ h2 h2'⟩
          rw [h1, h1', hq]

theorem find_agree {R : String → F → F → Prop} {name : String} {as as' : List (String × List (Layer F))}
    (h : List.Forall₂ (fun e e' : String × List (Layer F) => e'.1 = e.1 ∧
      (e.1 = name → List.Forall₂ (Layer.SameAt R fr fr) e.2 e'.2)) as as') :
    Option.Rel (List.Forall₂ (Layer.SameAt R fr fr)) ((as.find? fun e => e.1 == name).map (·.2))
      ((as'.find? fun e => e.1 == name).map (·.2)) := by
  induction h with
  | nil => exact .none
  | @cons e e' es es' h _ ih =>
    rw [List.find?_cons, List.find?_cons, h.1]
    cases hn : e.1 == name with
    | true => exact .some (h.2 (beq_iff_eq.mp hn))
    | false => exact ih

theorem append_agree [LawfulCmp F] {K : F → Schema.KeyframeRelations F} [hK : ∀ fr, (K fr).Sound fr] {a a' : Schema.Animation F} {c c' : Composition F} (hc : Import.convAnimation a = .ok c)
    (hc' : Import.convAnimation a' = .ok c') (hd : a' = { a with layers := a'.layers, assets := a'.assets })
    (has : List.Forall₂ Schema.AnyAsset.SameBut (a.assets.getD []) (a'.assets.getD []))
    {S : List (Schema.AnyLayer F) → List (Schema.AnyLayer F) → F → Prop} (hS : Closed K S a a')
    (h : S a.layers a'.layers fr) {r : Renderer F} (hr : Reachable r) (n : Nat) (T : Affine F) (al : F) :
    Renderer.append n r c fr T al = Renderer.append n r c' fr T al := by
  obtain ⟨hca, hp, -, -, h3, h4⟩ := Import.convAnimation_ok hc
  obtain ⟨hca', hp', -, -, h3', h4'⟩ := Import.convAnimation_ok hc'
  have hls := processLayers_agree hS h _ _ hp hp'
  refine appendCalls_sameAt (R := AgreeingAsset S a a') ⟨by rw [h3, h3', hd], by rw [h4, h4', hd], fun name f f' hR => ?_⟩
    hls hr.idle n T al
  obtain ⟨rfl, hR⟩ := hR
  exact find_agree (List.rel_reverse (assets_agree has hca hca' fun p p' hm hn => processLayers_agree hS (hR p p' hm hn)))

omit [Kurbo F] [Libm F] in
theorem agreeAt_closed {K : F → Schema.KeyframeRelations F} {a a' : Schema.Animation F} : Closed K (AgreeAt K a a') a a' := by
  rintro ls ls' fr ⟨h, h'⟩
  exact ⟨h, h'⟩

theorem append_agree_always [LawfulCmp F] {R : Schema.KeyframeRelations F} (hR : ∀ fr, R.Sound fr) {a a' : Schema.Animation F}
    (h : a.Agrees R a') {c c' : Composition F} (hc : Import.convAnimation a = .ok c) (hc' : Import.convAnimation a' = .ok c')
    {r : Renderer F} (hr : Reachable r) (n : Nat) (fr : F) (T : Affine F) (al : F) :
    Renderer.append n r c fr T al = Renderer.append n r c' fr T al := by
  refine append_agree (K := fun _ => R) (hK := hR) (S := fun ls ls' _ => List.Forall₂ (Schema.AnyLayer.Agrees R) ls ls')
    hc hc' h.rest (h.assets.imp ?_) ?_ h.layers hr n T al
  · intro x x' hx
    cases hx with
    | image i => exact .image i
    | precomposition e => exact .precomposition e
  · intro ls ls' fr hl
    refine ⟨hl, fun q _ p p' hp _ => ?_⟩
    have := List.forall₂_iff_zip.mp h.assets
    cases this.2 hp with
    | precomposition _ hl => exact hl

end
end Velato
