import Verif.Proofs.HandleForms
import Verif.Proofs.InsertedAll
import Verif.Props.ImportFails

/-!
# Documents that differ only in the values of properties: when they can be imported
-/

namespace Velato
open FloatOps (lit)
open Import

/-- Values that are related to values that can be imported can be imported. -/
structure Schema.KeyframeRelations.Keeps {F : Type} [FloatOps F] (R : Schema.KeyframeRelations F) : Prop where
  numbers : ∀ p p' : Schema.FloatValue F, p.Agrees R.numbers p' → BadScalar p' → BadScalar p
  static : ∀ (p p' : Schema.FloatValue F) x, p.Agrees R.numbers p' → p'.value = .static x → p.value = .static x
  positions : ∀ (p p' : Schema.Position F) xs, p.Agrees R p' → p'.value = .static xs → ∃ xs, p.value = .static xs
  gradients : ∀ g g' : Schema.GradientColors F, g.Agrees R g' → BadGradient g' → BadGradient g
  paths : ∀ p p' : Schema.ShapeProperty F, p.Agrees R p' → (BadPath p' → BadPath p) ∧ (NoPath p → NoPath p')
  splits : ∀ p x y, ¬ R.splits p x y := by exact fun _ _ _ h => False.elim h

section
variable {F : Type} [FloatOps F] {R : Schema.KeyframeRelations F} (hR : R.Keeps)
include hR

theorem badScalar?_agrees {p p' : Option (Schema.FloatValue F)} (h : Option.Rel (Schema.AnimatedProperty.Agrees R.numbers) p p')
    (hb : BadScalar? p') : BadScalar? p := by
  obtain ⟨q', rfl, hb⟩ := hb
  cases h with
  | some h => exact ⟨_, rfl, hR.numbers _ _ h hb⟩

theorem static?_agrees {p p' : Option (Schema.FloatValue F)} (h : Option.Rel (Schema.AnimatedProperty.Agrees R.numbers) p p')
    (hb : ∀ q, p' = some q → StaticScalar q) : ∀ q, p = some q → StaticScalar q := by
  rintro q rfl
  cases h with
  | some h =>
    obtain ⟨x, hx⟩ := hb _ rfl
    exact ⟨x, hR.static _ _ x h hx⟩

theorem badStar_agrees {s s' : Schema.PolyStarShape F} (h : s.Agrees R s') (hb : BadStar s') : BadStar s := by
  have st : ∀ {p p' : Schema.FloatValue F}, p.Agrees R.numbers p' → StaticScalar p' → StaticScalar p := fun h ⟨x, hx⟩ =>
    ⟨x, hR.static _ _ x h hx⟩
  rcases hb with hb | hb | hb | hb | ⟨ht, hb⟩ | hb
  · exact .inl (hR.numbers _ _ h.outerRadius hb)
  · exact .inr (.inl (hR.numbers _ _ h.outerRoundness hb))
  · exact .inr (.inr (.inl (hR.numbers _ _ h.rotation hb)))
  · exact .inr (.inr (.inr (.inl (hR.numbers _ _ h.points hb))))
  · refine .inr (.inr (.inr (.inr (.inl ⟨h.starType ▸ ht, ?_⟩))))
    rcases hb with hb | hb
    · exact .inl (badScalar?_agrees hR h.innerRadius hb)
    · exact .inr (badScalar?_agrees hR h.innerRoundness hb)
  · obtain ⟨⟨xs, h1⟩, h2, h3, h4, h5, x, h6, h7⟩ := hb
    refine .inr (.inr (.inr (.inr (.inr ⟨hR.positions _ _ xs h.position h1, st h.outerRadius h2, st h.outerRoundness h3,
      st h.rotation h4, fun ht => ?_, x, hR.static _ _ x h.points h6, ?_⟩))))
    · obtain ⟨g1, g2⟩ := h5 (h.starType.trans ht)
      exact ⟨static?_agrees hR h.innerRadius g1, static?_agrees hR h.innerRoundness g2⟩
    · rw [← h.starType]
      exact h7

theorem badRest_agrees {t t' : Schema.Transform F} (h : t.Agrees R t') (hb : BadRest t') : BadRest t := by
  rcases hb with ⟨r', hr, hb⟩ | hb | hb | hb
  · have := h.rotation
    rw [hr] at this
    generalize ho : t.rotation = o at this
    cases this with
    | some hx =>
      cases hx with
      | rotation hx => exact .inl ⟨_, ho, hR.numbers _ _ hx hb⟩
  · exact .inr (.inl (badScalar?_agrees hR h.skew hb))
  · exact .inr (.inr (.inl (badScalar?_agrees hR h.skewAxis hb)))
  · exact .inr (.inr (.inr (badScalar?_agrees hR h.opacity hb)))

omit [FloatOps F] hR in
theorem splitRotation_agrees {t t' : Schema.Transform F} (h : t.Agrees R t')
    (hb : ∃ x y z o, t'.rotation = some (.splitRotation x y z o)) : ∃ x y z o, t.rotation = some (.splitRotation x y z o) := by
  obtain ⟨x, y, z, o, hb⟩ := hb
  have := h.rotation
  rw [hb] at this
  generalize ho : t.rotation = q at this
  cases this with
  | some hx =>
    cases hx with
    | splitRotation => exact ⟨_, _, _, _, rfl⟩

theorem splitPosition_agrees {t t' : Schema.Transform F} (h : t.Agrees R t') {v' : Schema.SplitVector F}
    (hb : t'.position = .splitPosition v') : ∃ v, t.position = .splitPosition v ∧ v.x.Agrees R.numbers v'.x ∧
      v.y.Agrees R.numbers v'.y := by
  have := h.position
  rw [hb] at this
  generalize ho : t.position = q at this
  cases this with
  | splitPosition hx hy => exact ⟨_, rfl, hx, hy⟩
  | split h => exact absurd h (hR.splits _ _ _)

theorem badLayerTransform_agrees {t t' : Schema.Transform F} (h : t.Agrees R t') (hb : BadLayerTransform t') :
    BadLayerTransform t := by
  rcases hb with hb | hb | ⟨v, hv, hb⟩ | hb
  · have := h.rotation
    rw [hb] at this
    generalize ho : t.rotation = q at this
    cases this
    exact .inl ho
  · exact .inr (.inl (splitRotation_agrees h hb))
  · obtain ⟨w, hw, hx, hy⟩ := splitPosition_agrees hR h hv
    exact .inr (.inr (.inl ⟨w, hw, hb.imp (hR.numbers _ _ hx) (hR.numbers _ _ hy)⟩))
  · exact .inr (.inr (.inr (badRest_agrees hR h hb)))

theorem badGroupTransform_agrees {t t' : Schema.Transform F} (h : t.Agrees R t') (hb : BadGroupTransform t') :
    BadGroupTransform t := by
  rcases hb with hb | ⟨v, hv⟩ | hb
  · exact .inl (splitRotation_agrees h hb)
  · obtain ⟨w, hw, -⟩ := splitPosition_agrees hR h hv
    exact .inr (.inl ⟨w, hw⟩)
  · exact .inr (.inr (badRest_agrees hR h hb))

omit [FloatOps F] hR in
theorem agreeAll_mem {ss ss' : List (Schema.AnyShape F)} (h : Schema.AnyShape.AgreeAll R ss ss') :
    ∀ s' ∈ ss', ∃ s ∈ ss, s.Agrees R s' := by
  induction ss generalizing ss' with
  | nil => cases h; simp
  | cons s ss ih =>
    cases h with
    | cons h hs =>
      intro s' hm
      rcases List.mem_cons.mp hm with rfl | hm
      · exact ⟨s, by simp, h⟩
      · obtain ⟨x, hx, hxs⟩ := ih hs s' hm
        exact ⟨x, List.mem_cons_of_mem _ hx, hxs⟩

theorem badShape_agrees {s' : Schema.AnyShape F} (hb : BadShape s') : ∀ s : Schema.AnyShape F, s.Agrees R s' → BadShape s := by
  induction hb with
  | rectangle hb => intro s h; cases h with | rectangle _ _ hr => exact .rectangle (hR.numbers _ _ hr hb)
  | path hb => intro s h; cases h with | path h => exact .path ((hR.paths _ _ h).1 hb)
  | polyStar hb => intro s h; cases h with | polyStar h => exact .polyStar (badStar_agrees hR h hb)
  | fill hb => intro s h; cases h with | fill ho _ => exact .fill (hR.numbers _ _ ho hb)
  | stroke hb =>
    intro s h
    cases h with
    | stroke ho hs _ => exact .stroke (hb.imp (hR.numbers _ _ hs.width) (hR.numbers _ _ ho))
  | gradientFill hb => intro s h; cases h with | gradientFill _ hg => exact .gradientFill (hR.gradients _ _ hg.colors hb)
  | gradientStroke hb =>
    intro s h
    cases h with
    | gradientStroke _ hs hg => exact .gradientStroke (hb.imp (hR.numbers _ _ hs.width) (hR.gradients _ _ hg.colors))
  | trim hb =>
    intro s h
    cases h with
    | trim h1 h2 h3 => exact .trim (hb.imp (hR.numbers _ _ h1) fun hb => hb.imp (hR.numbers _ _ h2) (hR.numbers _ _ h3))
  | item hs _ ih =>
    intro s h
    cases h with
    | group h =>
      obtain ⟨x, hx, hxs⟩ := agreeAll_mem h _ hs
      exact .item hx (ih x hxs)
  | transform ht hb =>
    intro s h
    cases h with
    | group h =>
      obtain ⟨x, hx, hxs⟩ := agreeAll_mem h _ ht
      cases hxs with
      | transform hxs => exact .transform hx (badGroupTransform_agrees hR hxs hb)

theorem badMask_agrees {m m' : Schema.Mask F} (h : m.Agrees R m') (hb : BadMask m') : BadMask m := by
  obtain ⟨p', hp, hb⟩ := hb
  have := h.shape
  rw [hp] at this
  generalize ho : m.shape = q at this
  cases this with
  | some hx =>
    refine ⟨_, ho, hb.imp (hR.paths _ _ hx).1 fun hb => ⟨fun hn => hb.1 ((hR.paths _ _ hx).2 hn), ?_⟩⟩
    exact badScalar?_agrees hR h.opacity hb.2

theorem badLayer_agrees {l l' : Schema.AnyLayer F} (h : l.Agrees R l') (hb : BadLayer l') : BadLayer l := by
  have hv : l.visual.Agrees R l'.visual := by cases h <;> assumption
  have e1 : l'.visual.blendMode = l.visual.blendMode := by rw [hv.rest]
  have e2 : l'.visual.layer = l.visual.layer := by rw [hv.rest]
  rcases hb with hb | hb | ⟨m', hm, hb⟩ | ⟨hh, hb⟩
  · exact .inl (badLayerTransform_agrees hR hv.transform hb)
  · exact .inr (.inl (e1 ▸ hb))
  · refine .inr (.inr (.inl ?_))
    have := hv.masks
    generalize l.visual.masksProperties.getD [] = ms, l'.visual.masksProperties.getD [] = ms' at this hm
    induction this with
    | nil => cases hm
    | @cons m _ ms _ h _ ih =>
      rcases List.mem_cons.mp hm with rfl | hm
      · exact ⟨m, by simp, badMask_agrees hR h hb⟩
      · obtain ⟨x, hx, hxb⟩ := ih hm
        exact ⟨x, List.mem_cons_of_mem _ hx, hxb⟩
  · refine .inr (.inr (.inr ⟨fun hn => hh ?_, ?_⟩))
    · unfold Schema.AnyLayer.Hidden at *
      rw [e2]
      exact hn
    · cases h with
      | precomposition _ ht _ => exact badScalar?_agrees hR ht hb
      | shape _ hs =>
        obtain ⟨s', hm, hb⟩ := hb
        obtain ⟨x, hx, hxs⟩ := agreeAll_mem hs s' hm
        exact ⟨x, hx, badShape_agrees hR hb x hxs⟩
      | _ => exact hb

theorem badLayers_agree {ls ls' : List (Schema.AnyLayer F)} (h : List.Forall₂ (Schema.AnyLayer.Agrees R) ls ls')
    (hb : ∃ l ∈ ls', BadLayer l) : ∃ l ∈ ls, BadLayer l := by
  induction h with
  | nil => exact hb
  | @cons l l' ls ls' h _ ih =>
    obtain ⟨x, hx, hb⟩ := hb
    rcases List.mem_cons.mp hx with rfl | hx
    · exact ⟨l, by simp, badLayer_agrees hR h hb⟩
    · obtain ⟨y, hy, hyb⟩ := ih ⟨x, hx, hb⟩
      exact ⟨y, List.mem_cons_of_mem _ hy, hyb⟩

theorem unsupported_agrees {a a' : Schema.Animation F} (h : a.Agrees R a') (hb : Unsupported a') : Unsupported a := by
  rcases hb with hb | hb
  · refine .inl ?_
    have := h.assets
    generalize a.assets.getD [] = ps, a'.assets.getD [] = ps' at this hb
    induction this with
    | nil => exact hb
    | @cons p p' ps ps' h _ ih =>
      obtain ⟨x, hx, hb⟩ := hb
      rcases List.mem_cons.mp hx with rfl | hx
      · refine ⟨p, by simp, ?_⟩
        cases h with
        | image => trivial
        | precomposition _ hl => exact badLayers_agree hR hl hb
      · obtain ⟨y, hy, hyb⟩ := ih ⟨x, hx, hb⟩
        exact ⟨y, List.mem_cons_of_mem _ hy, hyb⟩
  · exact .inr (badLayers_agree hR h.layers hb)

theorem import_agrees [Kurbo F] [Libm F] {a a' : Schema.Animation F} (h : a.Agrees R a') {c : Composition F}
    (hc : convAnimation a = .ok c) : ∃ c', convAnimation a' = .ok c' :=
  (C48_returns_iff a').mpr fun hb => (C48_returns_iff a).mp ⟨c, hc⟩ (unsupported_agrees hR h hb)

end

/-! ### Handles written in another way -/

section
variable {F : Type} [FloatOps F]

omit [FloatOps F] in
theorem not_bad_at {h : Schema.KeyframeBezierHandle F} {x y : F} (hp : h.At x y) : ¬ (BadComponent h.x ∨ BadComponent h.y) := by
  have : ∀ {c : Schema.KeyframeComponent F} {x : F}, c.Is x → ¬ BadComponent c := by
    rintro c x (rfl | rfl) ⟨xs, e, hl⟩
    · cases e
    · cases e
      exact hl rfl
  rintro (hb | hb)
  · exact this hp.1 hb
  · exact this hp.2 hb

theorem badHandles_same {b b' : Schema.KeyframeBase F} (h : b.SameHandles b') (hb : BadHandles b') : BadHandles b := by
  obtain ⟨x, hx, hb⟩ := hb
  cases h with
  | equal hi ho => exact ⟨x, by rw [← hi, ← ho]; exact hx, hb⟩
  | written hi ho =>
    exfalso
    rcases hx with hx | hx
    · rw [hx] at hi
      generalize b.inTangent = o at hi
      cases hi with
      | some hs =>
        obtain ⟨u, v, -, hp⟩ := hs
        exact not_bad_at hp hb
    · rw [hx] at ho
      generalize b.outTangent = o at ho
      cases ho with
      | some hs =>
        obtain ⟨u, v, -, hp⟩ := hs
        exact not_bad_at hp hb
  | added _ _ hi' ho' pi po =>
    exfalso
    rcases hx with hx | hx
    · cases hi'.symm.trans hx
      exact not_bad_at pi hb
    · cases ho'.symm.trans hx
      exact not_bad_at po hb
  | removed _ _ hi' ho' =>
    exfalso
    rcases hx with hx | hx
    · cases hi'.symm.trans hx
    · cases ho'.symm.trans hx

theorem forall₂_mem {α : Type} {S : α → α → Prop} {l l' : List α} (h : List.Forall₂ S l l') {x' : α} (hx : x' ∈ l') :
    ∃ x ∈ l, S x x' := by
  induction h with
  | nil => cases hx
  | @cons x _ l _ h _ ih =>
    rcases List.mem_cons.mp hx with rfl | hx
    · exact ⟨x, by simp, h⟩
    · obtain ⟨y, hy, hs⟩ := ih hx
      exact ⟨y, List.mem_cons_of_mem _ hy, hs⟩

theorem forall₂_rel_getElem? {α : Type} {S : α → α → Prop} {l l' : List α} (h : List.Forall₂ S l l') (i : Nat) :
    Option.Rel S l[i]? l'[i]? := by
  induction h generalizing i with
  | nil => exact .none
  | cons h _ ih =>
    cases i with
    | zero => exact .some h
    | succ i => exact ih i

theorem startOf_same {ks ks' : List (Schema.ShapeKeyframe F)} (h : List.Forall₂ Schema.ShapeKeyframe.Same ks ks') (i : Nat)
    {k k' : Schema.ShapeKeyframe F} (hk : k.Same k') (b : Schema.Bezier F) :
    StartOf (prevKeyframe ks' i) k' b ↔ StartOf (prevKeyframe ks i) k b := by
  have e : k'.start = k.start := by rw [hk.rest]
  have hp : Option.Rel Schema.ShapeKeyframe.Same (prevKeyframe ks i) (prevKeyframe ks' i) := by
    cases i with
    | zero => exact .none
    | succ i => exact forall₂_rel_getElem? h i
  unfold StartOf
  rw [e]
  cases k.start with
  | some bs => exact Iff.rfl
  | none =>
    generalize prevKeyframe ks i = o, prevKeyframe ks' i = o' at hp
    cases hp with
    | none => simp
    | @some p p' hs =>
      have e1 : p'.start = p.start := by rw [hs.rest]
      have e2 : p'.stop = p.stop := by rw [hs.rest]
      simp [e1, e2]

theorem sameKeyframes_keeps : (Schema.sameKeyframes : Schema.KeyframeRelations F).Keeps where
  numbers p p' h := by
    rintro ⟨ks', e, k', hk, hb⟩
    cases h with
    | static _ h' => cases h'.symm.trans e
    | animated h h' hr =>
      cases h'.symm.trans e
      obtain ⟨k, hk, hs⟩ := forall₂_mem hr hk
      have e : k'.value = k.value := by rw [hs.rest]
      exact ⟨_, h, k, hk, hb.imp (fun hb => e ▸ hb) (badHandles_same hs.base.handles)⟩
  static p p' x h e := by
    cases h with
    | static h h' => cases h'.symm.trans e; exact h
    | animated h h' => cases h'.symm.trans e
  positions p p' xs h e := by
    cases h with
    | static h h' => exact ⟨_, h⟩
    | animated h h' => cases h'.symm.trans e
  gradients g g' h := by
    rintro ⟨ks', e, k', hk, hb⟩
    cases h.colors with
    | static _ h' => cases h'.symm.trans e
    | animated h h' hr =>
      cases h'.symm.trans e
      obtain ⟨k, hk, hs⟩ := forall₂_mem hr hk
      exact ⟨_, h, k, hk, badHandles_same hs.base.handles hb⟩
  paths p p' h := by
    cases h with
    | same h => exact ⟨fun ⟨ks, e, hb⟩ => ⟨ks, h ▸ e, hb⟩, fun ⟨ks, e, hb⟩ => ⟨ks, h ▸ e, hb⟩⟩
    | @animated ks ks' h h' hr =>
      constructor
      · rintro ⟨ks'', e, i, k', hk, hj, hb⟩
        cases h'.symm.trans e
        have := forall₂_rel_getElem? hr i
        rw [hk] at this
        generalize ho : ks[i]? = o at this
        cases this with
        | @some k _ hs =>
          have e1 : k'.start = k.start := by rw [hs.rest]
          refine ⟨ks, h, i, k, ho, fun j hji k₁ hk₁ => ?_, hb.imp (badHandles_same hs.base.handles) fun hb => ⟨hb.1, e1 ▸ hb.2⟩⟩
          have := forall₂_rel_getElem? hr j
          rw [hk₁] at this
          generalize ho' : ks'[j]? = o' at this
          cases this with
          | some hs₁ =>
            obtain ⟨b, hb⟩ := hj j hji _ ho'
            exact ⟨b, (startOf_same hr j hs₁ b).mp hb⟩
      · rintro ⟨ks'', e, i, k, hk, hb⟩
        cases h.symm.trans e
        have := forall₂_rel_getElem? hr i
        rw [hk] at this
        generalize ho : ks'[i]? = o at this
        cases this with
        | some hs => exact ⟨ks', h', i, _, ho, fun ⟨b, hx⟩ => hb ⟨b, (startOf_same hr i hs b).mp hx⟩⟩

end

/-! ### Added keyframes -/

theorem KeyframesAdded.fine {n : Nat} (hn : 0 < n) {ks ks' : List (Schema.Keyframe ℝ)} (h : KeyframesAdded n ks ks') {k : Schema.Keyframe ℝ}
    (hk : k ∈ ks') (hb : k.value = [] ∨ BadHandles k.base) : k ∈ ks := by
  induction h with
  | none => exact hk
  | more h _ ih =>
    have := ih hk
    obtain @⟨pre, post, k₀, m, k₁, -, hm, -, -, hv⟩ := h
    by_cases e : k = m
    · exfalso
      subst e
      rcases hb with hb | ⟨x, hx, -⟩
      · obtain ⟨_, _, -, -, hv⟩ := hv 0 hn
        rw [hb] at hv
        cases hv
      · rw [hm.1, hm.2.1] at hx
        rcases hx with hx | hx <;> cases hx
    · simp only [List.mem_append, List.mem_cons] at this ⊢
      tauto

theorem PathKeyframesAdded.fine {ks ks' : List (Schema.ShapeKeyframe ℝ)} (h : PathKeyframesAdded ks ks') {k : Schema.ShapeKeyframe ℝ}
    (hk : k ∈ ks') (hb : BadHandles k.base) : k ∈ ks := by
  induction h with
  | none => exact hk
  | more h _ ih =>
    have := ih hk
    obtain @⟨pre, post, k₀, m, k₁, b₀, b, b₁, bs₀, bs, bs₁, -, hm, -⟩ := h
    by_cases e : k = m
    · exfalso
      subst e
      obtain ⟨x, hx, -⟩ := hb
      rw [hm.1, hm.2.1] at hx
      rcases hx with hx | hx <;> cases hx
    · simp only [List.mem_append, List.mem_cons] at this ⊢
      tauto

theorem PathKeyframesAdded.own {ks ks' : List (Schema.ShapeKeyframe ℝ)} (h : PathKeyframesAdded ks ks')
    (ho : ∀ k ∈ ks, ∃ b bs, k.start = some (b :: bs)) : ∀ k ∈ ks', ∃ b bs, k.start = some (b :: bs) := by
  induction h with
  | none => exact ho
  | more h _ ih => exact ih (h.own ho)

theorem straightAdded_keeps : straightAdded.Keeps where
  numbers p p' h := by
    rintro ⟨ks', e, k', hk, hb⟩
    cases h with
    | static _ h' => cases h'.symm.trans e
    | animated h h' hr =>
      cases h'.symm.trans e
      rcases hr with rfl | ⟨-, hr⟩
      · exact ⟨_, h, k', hk, hb⟩
      · exact ⟨_, h, k', hr.fine one_pos hk hb, hb⟩
  static p p' x h e := by
    cases h with
    | static h h' => cases h'.symm.trans e; exact h
    | animated h h' => cases h'.symm.trans e
  positions p p' xs h e := by
    cases h with
    | static h h' => exact ⟨_, h⟩
    | animated h h' => cases h'.symm.trans e
  gradients g g' h := by
    rintro ⟨ks', e, k, hk, hb⟩
    cases h.colors with
    | static _ h' => cases h'.symm.trans e
    | animated h h' hr =>
      cases h'.symm.trans e
      rcases hr with rfl | ⟨h0, -, hr, -⟩
      · exact ⟨_, h, k, hk, hb⟩
      · exact ⟨_, h, k, hr.fine (by omega) hk (.inr hb), hb⟩
  paths p p' h := by
    cases h with
    | same h => exact ⟨fun ⟨ks, e, hb⟩ => ⟨ks, h ▸ e, hb⟩, fun ⟨ks, e, hb⟩ => ⟨ks, h ▸ e, hb⟩⟩
    | @animated ks ks' h h' hr =>
      obtain ⟨-, own, hr⟩ := hr
      constructor
      · rintro ⟨ks'', e, i, k', hk, -, hb⟩
        cases h'.symm.trans e
        rcases hb with hb | ⟨-, hn⟩
        · obtain ⟨i, hi⟩ := List.mem_iff_getElem?.mp (hr.fine (List.mem_of_getElem? hk) hb)
          refine ⟨_, h, i, k', hi, fun j _ k hj => ?_, .inl hb⟩
          obtain ⟨b, bs, e⟩ := own k (List.mem_of_getElem? hj)
          exact ⟨b, by unfold StartOf; rw [e]; rfl⟩
        · obtain ⟨b, bs, e⟩ := hr.own own k' (List.mem_of_getElem? hk)
          rw [hn] at e
          cases e
      · rintro ⟨ks'', e, i, k, hk, hb⟩
        cases h.symm.trans e
        obtain ⟨b, bs, e⟩ := own k (List.mem_of_getElem? hk)
        exact (hb ⟨b, by unfold StartOf; rw [e]; rfl⟩).elim

end Velato
