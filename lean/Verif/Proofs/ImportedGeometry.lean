import Verif.Spec.DocStars
import Verif.Props.ImportShapes
import Verif.Props.NoPanic

/-!
# The geometries of imported compositions
-/

namespace Velato
open FloatOps (lit)
open Import

section
variable {F : Type} [FloatOps F] [Kurbo F] [Libm F]

mutual
theorem keeps_geometry (s : Schema.AnyShape F) {x : Shape F} (h : KeepsShape s (some x))
    {g : Geometry F} (hg : g ∈ x.geometries) :
    ∃ t, Within t s ∧ KeepsShape t (some (.geometry g)) := by
  cases s with
  | group e n items i =>
    cases h with
    | group hi hne ht hgt =>
      rw [Shape.geometries] at hg
      obtain ⟨s, hs, t, ht, hk⟩ := keepsItems_geometry items hi hg
      exact ⟨t, .item hs ht, hk⟩
  | ellipse s => cases h; rw [Shape.geometries, List.mem_singleton] at hg; subst hg
                 exact ⟨_, .self, .ellipse ‹_› ‹_›⟩
  | rectangle s => cases h; rw [Shape.geometries, List.mem_singleton] at hg; subst hg
                   exact ⟨_, .self, .rectangle ‹_› ‹_› ‹_›⟩
  | path s => cases h; rw [Shape.geometries, List.mem_singleton] at hg; subst hg
              exact ⟨_, .self, .path ‹_›⟩
  | polyStar s => cases h; rw [Shape.geometries, List.mem_singleton] at hg; subst hg
                  exact ⟨_, .self, .polyStar ‹_› ‹_›⟩
  | fill s => cases h; cases hg
  | stroke s => cases h; cases hg
  | gradientFill s => cases h; cases hg
  | gradientStroke s => cases h; cases hg
  | trim s => cases h; cases hg
  | transform s => cases h
  | puckerBloat s => cases h
  | merge s => cases h
  | repeater s => cases h
  | offsetPath s => cases h
  | twist s => cases h
  | roundedCorners s => cases h
termination_by sizeOf s

theorem keepsItems_geometry (ss : List (Schema.AnyShape F)) {out : List (Shape F)}
    (h : KeepsItems ss out) {g : Geometry F} (hg : g ∈ geometriesOf out) :
    ∃ s ∈ ss, ∃ t, Within t s ∧ KeepsShape t (some (.geometry g)) := by
  match ss with
  | [] => cases h; cases hg
  | s :: ss =>
    cases h with
    | keep hk hs =>
      rw [geometriesOf, List.mem_append] at hg
      rcases hg with hg | hg
      · exact ⟨s, List.mem_cons_self, keeps_geometry s hk hg⟩
      · obtain ⟨s', hs', h⟩ := keepsItems_geometry ss hs hg
        exact ⟨s', List.mem_cons_of_mem _ hs', h⟩
    | drop hk hs =>
      obtain ⟨s', hs', h⟩ := keepsItems_geometry ss hs hg
      exact ⟨s', List.mem_cons_of_mem _ hs', h⟩
termination_by sizeOf ss
end

/-- An imported layer comes from a layer of the document. -/
theorem imported_layer {a : Schema.Animation F} {c : Composition F} (h : convAnimation a = .ok c)
    {l : Layer F} (hl : l ∈ c.allLayers) :
    ∃ s ∈ a.allLayers, ∃ l' p, Converted s l' p ∧ l.content = l'.content ∧ l.masks = l'.masks := by
  have key : ∀ {src dst}, processLayers src = .ok dst → l ∈ dst →
      ∃ s ∈ src, ∃ l' p, Converted s l' p ∧ l.content = l'.content ∧ l.masks = l'.masks := by
    intro src dst hp hl
    obtain ⟨i, hi, hil⟩ := List.mem_iff_getElem.mp hl
    have hlen := processLayers_length hp
    obtain ⟨es, e, -, -, hc, he⟩ := processLayers_get hp
      (List.getElem?_eq_getElem (show i < src.length by omega))
      ((List.getElem?_eq_getElem hi).trans (congrArg some hil))
    refine ⟨_, List.getElem_mem _, e.1, e.2, hc, ?_, ?_⟩
    · rw [he]; rfl
    · rw [he]; rfl
  obtain ⟨has, hls, -⟩ := convAnimation_ok h
  unfold Composition.allLayers at hl
  unfold Schema.Animation.allLayers
  rcases List.mem_append.mp hl with hl | hl
  · obtain ⟨s, hs, r⟩ := key hls hl
    exact ⟨s, List.mem_append_left _ hs, r⟩
  · obtain ⟨e, he, hle⟩ := List.mem_flatMap.mp hl
    obtain ⟨x, hx, hxe⟩ := forall₂_right has he
    obtain ⟨p, rfl, -, hpl⟩ := convAsset_ok hxe
    obtain ⟨s, hs, r⟩ := key hpl hle
    exact ⟨s, List.mem_append_right _ (List.mem_flatMap.mpr ⟨_, hx, hs⟩), r⟩

/-- Every geometry painted by an imported composition comes from a shape of the document. -/
theorem imported_geometry {a : Schema.Animation F} {c : Composition F} (h : convAnimation a = .ok c)
    {l : Layer F} (hl : l ∈ c.allLayers) {g : Geometry F} (hg : g ∈ l.geometries) :
    ∃ s ∈ a.allLayers, ∃ q, s = .shape q ∧ ∃ x ∈ q.shapes, ∃ t, Within t x ∧
      KeepsShape t (some (.geometry g)) := by
  obtain ⟨s, hs, l', p, hc, hcont, -⟩ := imported_layer h hl
  unfold Layer.geometries at hg
  rw [hcont] at hg
  by_cases hh : s.Hidden
  · rw [hc.hidden hh] at hg; cases hg
  · have hct := hc.content hh
    cases s with
    | shape q =>
      obtain ⟨ss, hss, hct⟩ := hct
      rw [hct] at hg
      obtain ⟨x, hx, t, ht⟩ := keepsItems_geometry q.shapes (C53_shapes q.shapes hss) hg
      exact ⟨_, hs, q, rfl, x, hx, t, ht⟩
    | precomposition q =>
      obtain ⟨tr, -, hct⟩ := hct
      rw [hct] at hg; cases hg
    | solid q => rw [show l'.content = .none from hct] at hg; cases hg
    | null q => rw [show l'.content = .none from hct] at hg; cases hg
    | image q => rw [show l'.content = .none from hct] at hg; cases hg

/-- The geometry of an imported mask is a path. -/
theorem imported_mask {a : Schema.Animation F} {c : Composition F} (h : convAnimation a = .ok c)
    {l : Layer F} (hl : l ∈ c.allLayers) {m : Mask F} (hm : m ∈ l.masks) :
    ∃ p, PathOf p m.geometry := by
  obtain ⟨s, hs, l', p, hc, -, hmasks⟩ := imported_layer h hl
  rw [hmasks] at hm
  obtain ⟨os, hos, he⟩ := bind_ok hc.masks
  rw [← Except.ok.inj he] at hm
  obtain ⟨o, ho, hm⟩ := List.mem_flatMap.mp hm
  obtain ⟨x, -, hx⟩ := forall₂_right (mapM_ok_iff.mp hos) ho
  cases o with
  | none => cases hm
  | some m' =>
    rw [Option.mem_toList, Option.some.injEq] at hm
    subst hm
    unfold convMask at hx
    cases hsh : x.shape with
    | none => rw [hsh] at hx; cases hx
    | some p =>
      rw [hsh] at hx
      obtain ⟨g, hg, hx⟩ := bind_ok (show (convShapeGeometry p >>= fun g => _) = _ from hx)
      cases g with
      | none => cases hx
      | some g =>
        obtain ⟨o, -, hx⟩ := bind_ok hx
        rcases shapeGeometry_ok hg with ⟨g', e, hp⟩ | ⟨e, -⟩
        · cases e
          cases Except.ok.inj hx
          exact ⟨p, hp⟩
        · cases e

omit [Kurbo F] [Libm F] in
theorem pathOf_not_star {p : Schema.ShapeProperty F} {s : AnimStar F} :
    ¬ PathOf p (.star s) := by
  unfold PathOf
  cases p.value with
  | static b => rintro ⟨_, _, h⟩; cases h
  | animated ks => rintro ⟨_, h, _⟩; cases h

omit [Kurbo F] [Libm F] in
theorem pathOf_fixed {p : Schema.ShapeProperty F} {els : List (PathEl F)}
    (h : PathOf p (.fixed els)) : bezPathOk els = true := by
  unfold PathOf at h
  split at h
  · obtain ⟨ps, -, h⟩ := h
    cases h
    exact toPath_starts _ _ _
  · obtain ⟨s, h, -⟩ := h
    cases h

theorem star_fixed {a : AnimStar F} {els : List (PathEl F)} (h : a.intoModel = .ok (.fixed els)) :
    bezPathOk els = true := by
  unfold AnimStar.intoModel at h
  split at h
  · obtain ⟨els', he, e⟩ := map_ok h
    cases e
    unfold AnimStar.evaluate at he
    simp only [] at he
    repeat' split at he
    all_goals first
      | (cases he; rfl)
      | cases he
  · cases h

theorem imported_paths {a : Schema.Animation F} {c : Composition F} (h : convAnimation a = .ok c) :
    c.PathsStartWithMove := by
  intro l hl p hg
  obtain ⟨s, -, q, -, x, -, t, -, hk⟩ := imported_geometry h hl hg
  cases hk with
  | polyStar ha hs => exact star_fixed hs
  | path hp => exact pathOf_fixed hp

/-- Every star of an imported composition comes from a star of the document. -/
theorem imported_star {a : Schema.Animation F} {c : Composition F} (h : convAnimation a = .ok c)
    {l : Layer F} (hl : l ∈ c.allLayers) {s : AnimStar F}
    (hs : Geometry.star s ∈ l.geometries ++ l.masks.map (·.geometry)) :
    ∃ t, a.HasStar t ∧ StarOf t s := by
  rcases List.mem_append.mp hs with hs | hs
  · obtain ⟨d, hd, q, hq, x, hx, t, ht, hk⟩ := imported_geometry h hl hs
    cases hk with
    | polyStar ha hg =>
      rename_i t a'
      have : a' = s := by
        unfold AnimStar.intoModel at hg
        split at hg
        · obtain ⟨_, _, e⟩ := map_ok hg; cases e
        · cases Except.ok.inj hg; rfl
      subst this
      exact ⟨t, ⟨d, hd, q, hq, x, hx, ht⟩, ha⟩
    | path hp => exact absurd hp pathOf_not_star
  · obtain ⟨m, hm, e⟩ := List.mem_map.mp hs
    obtain ⟨p, hp⟩ := imported_mask h hl hm
    rw [e] at hp
    exact absurd hp pathOf_not_star

end
end Velato
