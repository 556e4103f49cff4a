import Verif.Proofs.AgreeImport

/-!
# Documents that differ only in the values of properties: the other way round
-/

namespace Velato
open FloatOps (lit)

namespace Schema

/-- If the first relations hold, then the second ones in the other direction. -/
structure KeyframeRelations.FlipsTo {F : Type} (R R' : KeyframeRelations F) : Prop where
  numbers : ∀ {v v'}, R.numbers v v' → R'.numbers v' v
  vectors : ∀ {v v'}, R.vectors v v' → R'.vectors v' v
  colors : ∀ {v v'}, R.colors v v' → R'.colors v' v
  gradients : ∀ {n v v'}, R.gradients n v v' → R'.gradients n v' v
  positions : ∀ {v v'}, R.positions v v' → R'.positions v' v
  paths : ∀ {v v'}, R.paths v v' → R'.paths v' v
  splits : ∀ {p x y}, R.splits p x y → R'.splits p x y := by exact fun h => False.elim h

/-- The relations in the other direction. -/
def KeyframeRelations.flip {F : Type} (R : KeyframeRelations F) : KeyframeRelations F where
  numbers v v' := R.numbers v' v
  vectors v v' := R.vectors v' v
  colors v v' := R.colors v' v
  gradients n v v' := R.gradients n v' v
  positions v v' := R.positions v' v
  paths v v' := R.paths v' v
  splits := R.splits

theorem KeyframeRelations.flips {F : Type} (R : KeyframeRelations F) : R.FlipsTo R.flip := ⟨id, id, id, id, id, id, id⟩

/-- The relations hold in both directions. -/
abbrev KeyframeRelations.Symm {F : Type} (R : KeyframeRelations F) : Prop := R.FlipsTo R

theorem forall₂_symm {α : Type} {S S' : α → α → Prop} (hS : ∀ {x y}, S x y → S' y x) {l l' : List α} (h : List.Forall₂ S l l') :
    List.Forall₂ S' l' l := by
  induction h with
  | nil => exact .nil
  | cons h _ ih => exact .cons (hS h) ih

theorem rel_symm {α : Type} {S S' : α → α → Prop} (hS : ∀ {x y}, S x y → S' y x) {o o' : Option α} (h : Option.Rel S o o') :
    Option.Rel S' o' o := by
  cases h with
  | none => exact .none
  | some h => exact .some (hS h)

section
variable {F : Type} {R R' : KeyframeRelations F} (hR : R.FlipsTo R')
include hR

theorem Transform.Agrees.symm {t t' : Transform F} (h : t.Agrees R t') : t'.Agrees R' t := by
  refine ⟨rel_symm hR.positions h.anchorPoint, ?_, rel_symm hR.vectors h.scale, rel_symm ?_ h.rotation, rel_symm hR.numbers h.skew,
    rel_symm hR.numbers h.skewAxis, rel_symm hR.numbers h.opacity⟩
  · have := h.position
    generalize t.position = q, t'.position = q' at this
    cases this with
    | position h => exact .position (hR.positions h)
    | splitPosition hx hy => exact .splitPosition (hR.numbers hx) (hR.numbers hy)
    | split h => exact .joined (hR.splits h)
    | joined h => exact .split (hR.splits h)
  · intro x y h
    cases h with
    | rotation h => exact .rotation (hR.numbers h)
    | splitRotation hx hy hz ho => exact .splitRotation (hR.numbers hx) (hR.numbers hy) (hR.numbers hz) (hR.vectors ho)

theorem ShapeProperty.Agrees.symm {p p' : ShapeProperty F} (h : p.Agrees R p') : p'.Agrees R' p := hR.paths h

theorem BaseStroke.Agrees.symm {s s' : BaseStroke F} (h : s.Agrees R s') : s'.Agrees R' s :=
  ⟨hR.numbers h.width, by rw [h.rest]⟩

theorem BaseGradient.Agrees.symm {s s' : BaseGradient F} (h : s.Agrees R s') : s'.Agrees R' s :=
  ⟨⟨hR.gradients (h.colors.count ▸ h.colors.colors), h.colors.count.symm⟩, hR.vectors h.startPoint, hR.vectors h.endPoint, by rw [h.rest]⟩

theorem AnyShape.AgreeAll.symm {ss ss' : List (AnyShape F)} (h : AnyShape.AgreeAll R ss ss') : AnyShape.AgreeAll R' ss' ss := by
  refine AnyShape.AgreeAll.rec (motive_1 := fun s s' _ => s'.Agrees R' s) (motive_2 := fun ss ss' _ => AnyShape.AgreeAll R' ss' ss)
    ?_ ?_ ?_ ?_ ?_ ?_ ?_ ?_ ?_ ?_ ?_ ?_ ?_ ?_ ?_ ?_ ?_ ?_ ?_ h
  · intro e n ss ss' i _ ih; exact .group ih
  · intro s s' h1 h2 h3; exact .rectangle (hR.positions h1) (hR.vectors h2) (hR.numbers h3)
  · intro s s' h1 h2; exact .ellipse (hR.positions h1) (hR.vectors h2)
  · intro s s' h; exact .path (h.symm hR)
  · intro s s' h
    exact .polyStar ⟨hR.positions h.position, hR.numbers h.outerRadius, hR.numbers h.outerRoundness, hR.numbers h.rotation,
      hR.numbers h.points, rel_symm hR.numbers h.innerRadius, rel_symm hR.numbers h.innerRoundness, h.starType.symm⟩
  · intro s s' h; exact .transform (h.symm hR)
  · intro s s' h1 h2; exact .fill (hR.numbers h1) (hR.colors h2)
  · intro s s' h1 h2 h3; exact .stroke (hR.numbers h1) (h2.symm hR) (hR.colors h3)
  · intro s s' h1 h2; exact .gradientFill (hR.numbers h1) (h2.symm hR)
  · intro s s' h1 h2 h3; exact .gradientStroke (hR.numbers h1) (h2.symm hR) (h3.symm hR)
  · intro s s' h1 h2 h3; exact .trim (hR.numbers h1) (hR.numbers h2) (hR.numbers h3)
  · intro s s'; exact .puckerBloat
  · intro s s'; exact .merge
  · intro s s'; exact .repeater
  · intro s s'; exact .offsetPath
  · intro s s'; exact .twist
  · intro s s'; exact .roundedCorners
  · exact .nil
  · intro s s' ss ss' _ _ h hs; exact .cons h hs

theorem VisualLayer.Agrees.symm {v v' : VisualLayer F} (h : v.Agrees R v') : v'.Agrees R' v :=
  ⟨h.transform.symm hR, forall₂_symm (S' := Mask.Agrees R') (fun h => ⟨rel_symm (fun h => h.symm hR) h.shape, rel_symm hR.numbers h.opacity,
    by rw [h.rest]⟩) h.masks, by rw [h.rest]⟩

theorem AnyLayer.Agrees.symm {l l' : AnyLayer F} (h : l.Agrees R l') : l'.Agrees R' l := by
  cases h with
  | precomposition hv ht hr => exact .precomposition (hv.symm hR) (rel_symm hR.numbers ht) (by rw [hr])
  | solid hv hr => exact .solid (hv.symm hR) (by rw [hr])
  | shape hv hs => exact .shape (hv.symm hR) (hs.symm hR)
  | null hv => exact .null (hv.symm hR)
  | image hv hr => exact .image (hv.symm hR) (by rw [hr])

theorem Animation.Agrees.symm {a a' : Animation F} (h : a.Agrees R a') : a'.Agrees R' a := by
  refine ⟨forall₂_symm (S' := AnyLayer.Agrees R') (fun h => h.symm hR) h.layers, forall₂_symm (S' := AnyAsset.Agrees R') ?_ h.assets, by rw [h.rest]⟩
  intro p p' h
  cases h with
  | image i => exact .image i
  | precomposition hr hl => exact .precomposition (by rw [hr]) (forall₂_symm (fun h => h.symm hR) hl)

end

section
variable {F : Type} [FloatOps F]

theorem KeyframeBase.Same.symm {b b' : KeyframeBase F} (h : b.Same b') : b'.Same b := by
  refine ⟨h.time.symm, h.hold.symm, ?_⟩
  have hs : ∀ {x y : KeyframeBezierHandle F}, x.Same y → y.Same x := fun ⟨u, v, p, q⟩ => ⟨u, v, q, p⟩
  cases h.handles with
  | equal hi ho => exact .equal hi.symm ho.symm
  | written hi ho => exact .written (rel_symm hs hi) (rel_symm hs ho)
  | added hi ho hi' ho' pi po => exact .removed hi' ho' hi ho pi po
  | removed hi ho hi' ho' pi po => exact .added hi' ho' hi ho pi po

theorem Keyframe.Same.symm {k k' : Keyframe F} (h : k.Same k') : k'.Same k := ⟨h.base.symm, by rw [h.rest]⟩

omit [FloatOps F] in
theorem AnimatedPropertyK.Keyed.symm {S : Type} {Q : List (Keyframe F) → List (Keyframe F) → Prop} (hQ : ∀ {x y}, Q x y → Q y x)
    {v v' : AnimatedPropertyK F S} (h : v.Keyed Q v') : v'.Keyed Q v := by
  cases h with
  | static h h' => exact .static h' h
  | animated h h' hk => exact .animated h' h (hQ hk)

omit [FloatOps F] in
theorem ShapePropertyK.Keyed.symm {Q : List (ShapeKeyframe F) → List (ShapeKeyframe F) → Prop} (hQ : ∀ {x y}, Q x y → Q y x)
    {v v' : ShapePropertyK F} (h : v.Keyed Q v') : v'.Keyed Q v := by
  cases h with
  | same h => exact .same h.symm
  | animated h h' hk => exact .animated h' h (hQ hk)

theorem sameKeyframes_symm : (sameKeyframes : KeyframeRelations F).Symm where
  numbers h := h.symm (forall₂_symm Keyframe.Same.symm)
  vectors h := h.symm (forall₂_symm Keyframe.Same.symm)
  colors h := h.symm (forall₂_symm Keyframe.Same.symm)
  gradients h := h.symm (forall₂_symm Keyframe.Same.symm)
  positions h := by
    cases h with
    | static h h' => exact .static h' h
    | animated h h' hk => exact .animated h' h (forall₂_symm (fun h => ⟨h.keyframe.symm, by rw [h.rest]⟩) hk)
  paths h := h.symm (forall₂_symm fun h => ⟨h.base.symm, by rw [h.rest]⟩)

end
end Schema

/-! ### Removed keyframes -/

theorem PathKeyframesAdded.subset {ks ks' : List (Schema.ShapeKeyframe ℝ)} (h : PathKeyframesAdded ks ks') : ∀ k ∈ ks, k ∈ ks' := by
  induction h with
  | none => exact fun _ h => h
  | more h _ ih =>
    intro k hk
    obtain @⟨pre, post, k₀, m, k₁, b₀, b, b₁, bs₀, bs, bs₁, -⟩ := h
    refine ih k ?_
    simp only [List.mem_append, List.mem_cons] at hk ⊢
    tauto

theorem straightRemoved_keeps : straightAdded.flip.Keeps where
  numbers p p' h := by
    rintro ⟨ks', e, k', hk, hb⟩
    have h : straightAdded.numbers p'.value p.value := h
    cases h with
    | static h _ => cases h.symm.trans e
    | animated h h' hr =>
      cases h.symm.trans e
      rcases hr with rfl | ⟨-, hr⟩
      · exact ⟨_, h', k', hk, hb⟩
      · exact ⟨_, h', k', hr.subset k' hk, hb⟩
  static p p' x h e := by
    have h : straightAdded.numbers p'.value p.value := h
    cases h with
    | static h h' => cases h.symm.trans e; exact h'
    | animated h h' => cases h.symm.trans e
  positions p p' xs h e := by
    have h : straightAdded.positions p'.value p.value := h
    cases h with
    | static h h' => exact ⟨_, h'⟩
    | animated h h' => cases h.symm.trans e
  gradients g g' h := by
    rintro ⟨ks', e, k, hk, hb⟩
    have h : straightAdded.gradients g.count g'.colors.animatedProperty.value g.colors.animatedProperty.value := h.colors
    cases h with
    | static h _ => cases h.symm.trans e
    | animated h h' hr =>
      cases h.symm.trans e
      rcases hr with rfl | ⟨-, -, hr, -⟩
      · exact ⟨_, h', k, hk, hb⟩
      · exact ⟨_, h', k, hr.subset k hk, hb⟩
  paths p p' h := by
    have h : straightAdded.paths p'.value p.value := h
    cases h with
    | same h => exact ⟨fun ⟨ks, e, hb⟩ => ⟨ks, h.trans e, hb⟩, fun ⟨ks, e, hb⟩ => ⟨ks, h.symm.trans e, hb⟩⟩
    | @animated ks' ks h' h hr =>
      obtain ⟨-, own, hr⟩ := hr
      have own' := hr.own own
      constructor
      · rintro ⟨ks'', e, i, k', hk, -, hb⟩
        cases h'.symm.trans e
        rcases hb with hb | ⟨-, hn⟩
        · obtain ⟨i, hi⟩ := List.mem_iff_getElem?.mp (hr.subset k' (List.mem_of_getElem? hk))
          refine ⟨_, h, i, k', hi, fun j _ k hj => ?_, .inl hb⟩
          obtain ⟨b, bs, e⟩ := own' k (List.mem_of_getElem? hj)
          exact ⟨b, by unfold StartOf; rw [e]; rfl⟩
        · obtain ⟨b, bs, e⟩ := own k' (List.mem_of_getElem? hk)
          rw [hn] at e
          cases e
      · rintro ⟨ks'', e, i, k, hk, hb⟩
        cases h.symm.trans e
        obtain ⟨b, bs, e⟩ := own' k (List.mem_of_getElem? hk)
        exact (hb ⟨b, by unfold StartOf; rw [e]; rfl⟩).elim

end Velato
