import Verif.Spec.Regroup
import Verif.Proofs.DocDraws
import Verif.Proofs.SameDoc

/-!
# Groups that change nothing: helper lemmas
-/

namespace Velato
open FloatOps (lit)
open Import (convShape convGroupItems convShapeTransform convShapes)

section
variable {F : Type} [FloatOps F] [Libm F] [Kurbo F]

/-- The shapes are converted one by one. -/
def ConvAll (xs : List (Schema.AnyShape F)) (os : List (Option (Shape F))) : Prop :=
  List.Forall₂ (fun x o => convShape x = .ok o) xs os

/-- The transforms in the list are converted. -/
def TransformsConv (xs : List (Schema.AnyShape F)) : Prop :=
  ∀ t, .transform t ∈ xs → ∃ g, convShapeTransform t = .ok g

/-- Both lists do the same to a batch. -/
def SameRender (ss ss' : List (Shape F)) : Prop :=
  ∀ T a fr b, renderShapes ss T a fr b = renderShapes ss' T a fr b

omit [FloatOps F] [Libm F] [Kurbo F] in
theorem forall₂_split_append {α β : Type} {R : α → β → Prop} {xs ys : List α} {os : List β}
    (h : List.Forall₂ R (xs ++ ys) os) :
    ∃ ox oy, os = ox ++ oy ∧ List.Forall₂ R xs ox ∧ List.Forall₂ R ys oy := by
  induction xs generalizing os with
  | nil => exact ⟨[], os, rfl, .nil, h⟩
  | cons x xs ih =>
    cases h with
    | cons h1 h2 =>
      obtain ⟨ox, oy, rfl, h3, h4⟩ := ih h2
      exact ⟨_ :: ox, oy, rfl, .cons h1 h3, h4⟩

theorem convGroupItems_of {xs : List (Schema.AnyShape F)} {os : List (Option (Shape F))}
    (h : ConvAll xs os) (ht : TransformsConv xs) (t0 : Option (GroupTransform F)) :
    ∃ gt, convGroupItems xs t0 = .ok (os.flatMap Option.toList, gt) := by
  induction h generalizing t0 with
  | nil => exact ⟨t0, by rw [convGroupItems]; rfl⟩
  | @cons x o xs os hx _ ih =>
    have ih := ih fun t h => ht t (List.mem_cons_of_mem _ h)
    by_cases hxt : ∃ t, x = .transform t
    · obtain ⟨t, rfl⟩ := hxt
      obtain ⟨g, hg⟩ := ht t (by simp)
      obtain ⟨gt, hgt⟩ := ih (some g)
      rw [convShape_transform] at hx
      cases hx
      refine ⟨gt, ?_⟩
      rw [convGroupItems, hg]
      exact hgt
    · obtain ⟨gt, hgt⟩ := ih t0
      refine ⟨gt, ?_⟩
      rw [convGroupItems]
      · rw [hx, hgt]
        rfl
      · exact fun t' ht => hxt ⟨t', ht⟩

theorem convGroupItems_transforms : ∀ (xs : List (Schema.AnyShape F)) {t0 : Option (GroupTransform F)}
    {shapes gt}, convGroupItems xs t0 = .ok (shapes, gt) → TransformsConv xs
  | [], _, _, _, _ => fun t h => by cases h
  | x :: xs, t0, shapes, gt, h => by
    by_cases hx : ∃ t, x = .transform t
    · obtain ⟨t, rfl⟩ := hx
      rw [convGroupItems] at h
      obtain ⟨g, hg, h⟩ := bind_ok h
      intro t' ht'
      rcases List.mem_cons.mp ht' with he | ht'
      · cases he; exact ⟨g, hg⟩
      · exact convGroupItems_transforms xs h t' ht'
    · rw [convGroupItems] at h
      · obtain ⟨o, ho, h⟩ := bind_ok h
        obtain ⟨⟨ss, t'⟩, hss, h⟩ := bind_ok h
        intro t' ht'
        rcases List.mem_cons.mp ht' with he | ht'
        · exact (hx ⟨t', he.symm⟩).elim
        · exact convGroupItems_transforms xs hss t' ht'
      · exact fun t' ht => hx ⟨t', ht⟩

omit [FloatOps F] [Libm F] [Kurbo F] in
theorem transformOf_eq {x : Schema.AnyShape F} {t} : transformOf x = some t ↔ x = .transform t := by
  cases x <;> simp [transformOf]

omit [FloatOps F] [Libm F] [Kurbo F] in
theorem mem_transforms {xs : List (Schema.AnyShape F)} {t} :
    .transform t ∈ xs ↔ t ∈ xs.filterMap transformOf := by
  rw [List.mem_filterMap]
  constructor
  · exact fun h => ⟨_, h, rfl⟩
  · rintro ⟨x, hx, h⟩
    rw [transformOf_eq] at h
    rwa [← h]

omit [FloatOps F] [Libm F] [Kurbo F] in
theorem groupTransform_eq (xs : List (Schema.AnyShape F)) :
    groupTransform xs = (xs.filterMap transformOf).getLast? := by
  unfold groupTransform
  congr 1

theorem ItemOf.unique {t : Option (Schema.TransformShape F)} {g g' : Option (GroupTransform F)}
    (h : ItemOf t g) (h' : ItemOf t g') : g = g' := by
  cases t with
  | none => exact (show g = none from h).trans (show g' = none from h').symm
  | some t =>
    obtain ⟨x, hx, rfl⟩ := h
    obtain ⟨x', hx', rfl⟩ := h'
    rw [hx] at hx'
    cases hx'
    rfl

theorem SameRender.symm {ss ss' : List (Shape F)} (h : SameRender ss ss') : SameRender ss' ss :=
  fun T a fr b => (h T a fr b).symm

/-- What is put in place of a group: nothing if nothing is left in it. -/
def groupOf (shapes : List (Shape F)) (gt : Option (GroupTransform F)) : Option (Shape F) :=
  if shapes.isEmpty then none else some (.group shapes gt)

theorem convShape_groupOf {e n i} {items : List (Schema.AnyShape F)} {shapes gt}
    (h : convGroupItems items none = .ok (shapes, gt)) :
    convShape (.group e n items i) = .ok (groupOf shapes gt) := by
  rw [convShape]
  show (convGroupItems items none >>= _) = _
  rw [h]
  cases shapes <;> rfl

theorem render_groupOf (shapes : List (Shape F)) (gt : Option (GroupTransform F)) (gs ds : Nat)
    (T : Affine F) (a fr : F) (b : Batch F) :
    renderShapesFrom (groupOf shapes gt).toList gs ds T a fr b =
      renderShapes shapes (T.mul (groupParams gt fr).1) (a *. (groupParams gt fr).2) fr b := by
  cases shapes with
  | nil =>
    show renderShapesFrom [] gs ds T a fr b = renderShapesFrom [] _ _ _ _ _ _
    rw [renderShapesFrom, renderShapesFrom]
  | cons x xs =>
    show renderShapesFrom [.group (x :: xs) gt] gs ds T a fr b = _
    rw [renderShapesFrom, renderShape]
    show (renderShapesFrom (x :: xs) _ _ _ _ _ _ >>= _) = renderShapesFrom _ _ _ _ _ _ _
    generalize renderShapesFrom (x :: xs) _ _ _ _ _ _ = y
    cases y with
    | error e => rfl
    | ok b' =>
      show renderShapesFrom [] gs ds T a fr b' = _
      rw [renderShapesFrom]

theorem sameRender_inside {xs xs' : List (Shape F)} (h : SameRender xs xs') (gt : Option (GroupTransform F))
    (pre post : List (Shape F)) :
    SameRender (pre ++ ((groupOf xs gt).toList ++ post)) (pre ++ ((groupOf xs' gt).toList ++ post)) := by
  intro T a fr b
  unfold renderShapes
  rw [renderShapesFrom_append, renderShapesFrom_append]
  congr 1
  funext b'
  rw [renderShapesFrom_append, renderShapesFrom_append, render_groupOf, render_groupOf, h]

end

section
variable [Kurbo ℝ]

theorem sameRender_wrap {gt : Option (GroupTransform ℝ)} (hg : ∀ fr, groupParams gt fr = (Affine.identity, 1))
    (xs ys : List (Shape ℝ)) : SameRender (xs ++ ys) ((groupOf xs gt).toList ++ ys) := by
  intro T a fr b
  unfold renderShapes
  rw [renderShapesFrom_append, renderShapesFrom_append, render_groupOf, hg]
  have h1 : T.mul Affine.identity = T := by cases T; simp [Affine.mul, Affine.identity]
  have h2 : a *. (1 : ℝ) = a := by simp
  dsimp only
  rw [h1, h2]
  rfl

/-- What regrouping does to the imported shapes. -/
structure Regroups (xs xs' : List (Schema.AnyShape ℝ)) : Prop where
  forward : ∀ os, ConvAll xs os → ∃ os', ConvAll xs' os' ∧
    SameRender (os.flatMap Option.toList) (os'.flatMap Option.toList)
  backward : ∀ os, ConvAll xs' os → ∃ os', ConvAll xs os' ∧
    SameRender (os.flatMap Option.toList) (os'.flatMap Option.toList)
  transforms : xs.filterMap transformOf = xs'.filterMap transformOf

theorem neutral_params {trs : List (Schema.AnyShape ℝ)}
    (htrs : ∀ s ∈ trs, ∃ t, s = .transform t ∧ NeutralTransform t) {gt : Option (GroupTransform ℝ)}
    {xs : List (Schema.AnyShape ℝ)} (hxs : ∀ t, .transform t ∉ xs)
    (h : ItemOf (groupTransform (xs ++ trs)) gt) : ∀ fr, groupParams gt fr = (Affine.identity, 1) := by
  have hx : (xs ++ trs).filterMap transformOf = trs.filterMap transformOf := by
    rw [List.filterMap_append]
    have : xs.filterMap transformOf = [] := by
      rw [List.eq_nil_iff_forall_not_mem]
      exact fun t ht => hxs t (mem_transforms.mpr ht)
    rw [this, List.nil_append]
  rw [groupTransform_eq, hx] at h
  intro fr
  cases hl : (trs.filterMap transformOf).getLast? with
  | none =>
    rw [hl] at h
    cases (show gt = none from h)
    show (Affine.identity, lit 1) = (Affine.identity, (1 : ℝ))
    rw [show (lit 1 : ℝ) = 1 by simp]
  | some t =>
    rw [hl] at h
    obtain ⟨g, hg, rfl⟩ := h
    obtain ⟨t', he, hn⟩ := htrs _ (mem_transforms.mpr (List.mem_of_getLast? hl))
    cases he
    obtain ⟨g', hg', hM, hk⟩ := hn fr
    rw [hg] at hg'
    cases hg'
    show (g.transform.evaluate fr, _) = _
    rw [← hM, Prod.mk.injEq]
    exact ⟨rfl, hk.symm⟩

theorem neutral_none {trs : List (Schema.AnyShape ℝ)}
    (htrs : ∀ s ∈ trs, ∃ t, s = .transform t ∧ NeutralTransform t) {os : List (Option (Shape ℝ))} :
    ConvAll trs os ↔ os = trs.map fun _ => none := by
  induction trs generalizing os with
  | nil =>
    constructor
    · intro h; cases h; rfl
    · rintro rfl; exact .nil
  | cons x trs ih =>
    have ih := fun {os} => ih (os := os) fun s hs => htrs s (by simp [hs])
    obtain ⟨t, rfl, -⟩ := htrs x (by simp)
    constructor
    · intro h
      cases h with
      | cons h1 h2 =>
        rw [convShape_transform] at h1
        cases h1
        rw [ih.mp h2]
        rfl
    · rintro rfl
      exact .cons (convShape_transform t) (ih.mpr rfl)

theorem regroups_of_wraps {xs xs' : List (Schema.AnyShape ℝ)} (h : Wraps xs xs') : Regroups xs xs' := by
  induction h with
  | @wrap xs trs ys e n i hxs htrs =>
    have hflat : ∀ os : List (Option (Shape ℝ)),
        (os ++ trs.map fun _ => (none : Option (Shape ℝ))).flatMap Option.toList
          = os.flatMap Option.toList := by
      intro os
      rw [List.flatMap_append]
      have : (trs.map fun _ => (none : Option (Shape ℝ))).flatMap Option.toList = [] := by
        rw [List.flatMap_eq_nil_iff]
        intro o ho
        obtain ⟨x, -, rfl⟩ := List.mem_map.mp ho
        rfl
      rw [this, List.append_nil]
    have hnil : xs.filterMap transformOf = [] := by
      rw [List.eq_nil_iff_forall_not_mem]
      exact fun t ht => hxs t (mem_transforms.mpr ht)
    refine ⟨fun os hos => ?_, fun os hos => ?_, ?_⟩
    · obtain ⟨ox, oy, rfl, hox, hoy⟩ := forall₂_split_append hos
      obtain ⟨gt, hgt⟩ := convGroupItems_of (os := ox ++ trs.map fun _ => none)
        (List.rel_append hox (neutral_none htrs |>.mpr rfl)) (fun t ht => by
          rcases List.mem_append.mp ht with ht | ht
          · exact (hxs t ht).elim
          · obtain ⟨t', he, hn⟩ := htrs _ ht
            cases he
            obtain ⟨g, hg, -⟩ := hn 0
            exact ⟨g, hg⟩) none
      rw [hflat] at hgt
      obtain ⟨-, -, -, hio⟩ := convGroupItems_group hgt
      refine ⟨groupOf (ox.flatMap Option.toList) gt :: oy, .cons (convShape_groupOf hgt) hoy, ?_⟩
      rw [List.flatMap_append, List.flatMap_cons]
      exact sameRender_wrap (neutral_params htrs hxs hio) _ _
    · cases hos with
      | @cons _ o _ oy h1 h2 =>
        obtain ⟨shapes, gt, h3, -⟩ := convShape_group h1
        rw [convShape_groupOf h3] at h1
        cases h1
        obtain ⟨os, h4, rfl, hio⟩ := convGroupItems_group h3
        obtain ⟨ox, ot, rfl, hox, hot⟩ := forall₂_split_append h4
        rw [(neutral_none htrs).mp hot, hflat]
        refine ⟨ox ++ oy, List.rel_append hox h2, ?_⟩
        rw [List.flatMap_append, List.flatMap_cons]
        exact (sameRender_wrap (neutral_params htrs hxs hio) _ _).symm
    · rw [List.filterMap_append, hnil]
      rfl
  | @inside pre post e n i xs xs' h ih =>
    have key : ∀ {ys ys' : List (Schema.AnyShape ℝ)},
        (∀ os, ConvAll ys os → ∃ os', ConvAll ys' os' ∧
          SameRender (os.flatMap Option.toList) (os'.flatMap Option.toList)) →
        ys.filterMap transformOf = ys'.filterMap transformOf →
        ∀ os, ConvAll (pre ++ .group e n ys i :: post) os → ∃ os',
          ConvAll (pre ++ .group e n ys' i :: post) os' ∧
          SameRender (os.flatMap Option.toList) (os'.flatMap Option.toList) := by
      intro ys ys' hf ht os hos
      obtain ⟨ox, oy, rfl, hox, hoy⟩ := forall₂_split_append hos
      cases hoy with
      | @cons _ o _ oy h1 h2 =>
        obtain ⟨shapes, gt, h3, -⟩ := convShape_group h1
        rw [convShape_groupOf h3] at h1
        cases h1
        obtain ⟨os, h4, rfl, hio⟩ := convGroupItems_group h3
        obtain ⟨os', h5, h6⟩ := hf os h4
        have htc := convGroupItems_transforms ys h3
        obtain ⟨gt', hgt'⟩ := convGroupItems_of h5 (fun t h =>
          htc t (mem_transforms.mpr (by rw [ht]; exact mem_transforms.mp h))) none
        obtain ⟨-, -, -, hio'⟩ := convGroupItems_group hgt'
        rw [groupTransform_eq, ← ht, ← groupTransform_eq] at hio'
        cases hio.unique hio'
        refine ⟨ox ++ groupOf (os'.flatMap Option.toList) gt :: oy,
          List.rel_append hox (.cons (convShape_groupOf hgt') h2), ?_⟩
        rw [List.flatMap_append, List.flatMap_append, List.flatMap_cons, List.flatMap_cons]
        exact sameRender_inside h6 gt _ _
    refine ⟨key ih.forward ih.transforms, key ih.backward ih.transforms.symm, ?_⟩
    rw [List.filterMap_append, List.filterMap_append]
    rfl

theorem regroups_of_eqvGen {xs xs' : List (Schema.AnyShape ℝ)} (h : Relation.EqvGen Wraps xs xs') :
    Regroups xs xs' := by
  induction h with
  | rel _ _ h => exact regroups_of_wraps h
  | refl x => exact ⟨fun os h => ⟨os, h, fun _ _ _ _ => rfl⟩, fun os h => ⟨os, h, fun _ _ _ _ => rfl⟩, rfl⟩
  | symm _ _ _ ih => exact ⟨ih.backward, ih.forward, ih.transforms.symm⟩
  | trans _ _ _ _ _ ih1 ih2 =>
    refine ⟨fun os h => ?_, fun os h => ?_, ih1.transforms.trans ih2.transforms⟩
    · obtain ⟨o1, h1, h2⟩ := ih1.forward os h
      obtain ⟨o2, h3, h4⟩ := ih2.forward o1 h1
      exact ⟨o2, h3, fun T a fr b => (h2 T a fr b).trans (h4 T a fr b)⟩
    · obtain ⟨o1, h1, h2⟩ := ih2.backward os h
      obtain ⟨o2, h3, h4⟩ := ih1.backward o1 h1
      exact ⟨o2, h3, fun T a fr b => (h2 T a fr b).trans (h4 T a fr b)⟩

theorem convShapes_regroup {xs xs' : List (Schema.AnyShape ℝ)} (h : Relation.EqvGen Wraps xs xs')
    {ss : List (Shape ℝ)} (hs : convShapes xs = .ok ss) :
    ∃ ss', convShapes xs' = .ok ss' ∧ SameRender ss ss' := by
  obtain ⟨os, hos, hs⟩ := bind_ok (show (xs.mapM convShape >>= _) = _ from hs)
  cases hs
  obtain ⟨os', h1, h2⟩ := (regroups_of_eqvGen h).forward os (mapM_ok_iff.mp hos)
  refine ⟨_, ?_, h2⟩
  show (xs'.mapM convShape >>= _) = _
  rw [mapM_ok_iff.mpr h1]
  rfl

theorem sameConv_regroup {s s' : Schema.AnyLayer ℝ} (h : s.Regrouped s') : SameConv s s' := by
  rcases h with rfl | ⟨v, xs, xs', rfl, rfl, h⟩
  · exact SameConv.refl s
  · intro e he
    unfold Import.convLayer at he ⊢
    obtain ⟨⟨l, p⟩, h1, he⟩ := bind_ok he
    rw [show Import.layerSetup (.shape ⟨v, xs'⟩) = Import.layerSetup (.shape ⟨v, xs⟩) from rfl, h1]
    show ∃ e', (if Import.isLayerHidden (.shape ⟨v, xs⟩) = true then _ else _) = _ ∧ _
    dsimp only at he
    split at he
    · rename_i hh
      cases he
      rw [if_pos hh]
      exact ⟨_, rfl, SameEntry.refl _⟩
    · rename_i hh
      rw [if_neg hh]
      obtain ⟨k, hk, he⟩ := bind_ok he
      cases he
      obtain ⟨ss, hss, rfl⟩ := map_ok (show (convShapes xs).map _ = _ from hk)
      obtain ⟨ss', h2, h3⟩ := convShapes_regroup h hss
      have h4 : Import.layerContent (.shape ⟨v, xs'⟩) = .ok (.shape ss') := by
        show (convShapes xs').map _ = _
        rw [h2]
        rfl
      rw [h4]
      refine ⟨_, rfl, fun fr => ?_, rfl⟩
      have hr := layer_sameAt_refl fr l
      exact { hr with
        content := .shapes rfl rfl fun T a => h3 T a fr Batch.empty }

end
end Velato
