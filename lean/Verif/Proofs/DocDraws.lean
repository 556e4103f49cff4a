import Verif.Spec.DocDraws
import Verif.Props.Paint
import Verif.Props.Placement
import Verif.Props.LayerOrder
import Verif.Props.ModifierValues
import Verif.Proofs.ImportedGeometry
import Verif.Proofs.ImportFails

/-!
# The calls of lists of shapes
-/

namespace Velato
open FloatOps (lit)
open Import

/-! ## Import of shapes -/

section
variable {F : Type} [FloatOps F] [Libm F] [Kurbo F]

theorem convDraw_geometry {s : Schema.AnyShape F} (h : s.IsGeometry) : convDraw s = .ok none := by
  cases s <;> first | rfl | exact h.elim

theorem convDraw_group {e n items i} : convDraw (.group e n items i : Schema.AnyShape F) = .ok none :=
  rfl

theorem convGeometry_some {s : Schema.AnyShape F} (h : s.IsGeometry) {o : Option (Geometry F)}
    (hs : convGeometry s = .ok o) : ∃ g, o = some g := by
  cases s <;> try exact h.elim
  · obtain ⟨_, -, e⟩ := bind_ok hs
    exact ⟨_, (Except.ok.inj e).symm⟩
  · exact ⟨_, (Except.ok.inj hs).symm⟩
  · rcases shapeGeometry_ok hs with ⟨g, hg, -⟩ | ⟨-, hn⟩
    · exact ⟨g, hg⟩
    · exact (h hn).elim
  · obtain ⟨g, -, e⟩ := map_ok hs
    exact ⟨g, e.symm⟩

theorem convShape_geometry {s : Schema.AnyShape F} (h : s.IsGeometry) {o : Option (Shape F)}
    (hs : convShape s = .ok o) : ∃ g, o = some (.geometry g) ∧ convGeometry s = .ok (some g) := by
  rw [convShape, convDraw_geometry h] at hs
  · obtain ⟨og, hg, hs⟩ := bind_ok (show (convGeometry s >>= _) = _ from hs)
    obtain ⟨g, rfl⟩ := convGeometry_some h hg
    exact ⟨g, (Except.ok.inj hs).symm, hg⟩
  all_goals
    intros
    subst_vars
    exact h.elim

theorem convDraw_some {s : Schema.AnyShape F} (h : s.IsPaint) {o : Option (Draw F)}
    (hs : convDraw s = .ok o) : ∃ d, o = some d := by
  cases s <;> try exact h.elim
  all_goals
    unfold convDraw at hs
    dsimp only at hs
    repeat' (obtain ⟨_, -, hs⟩ := bind_ok hs)
    exact ⟨_, (Except.ok.inj hs).symm⟩

theorem convShape_paint {s : Schema.AnyShape F} (h : s.IsPaint) {o : Option (Shape F)}
    (hs : convShape s = .ok o) : ∃ d, o = some (.draw d) ∧ convDraw s = .ok (some d) := by
  rw [convShape] at hs
  · obtain ⟨od, hd, hs⟩ := bind_ok hs
    obtain ⟨d, rfl⟩ := convDraw_some h hd
    exact ⟨d, (Except.ok.inj hs).symm, hd⟩
  all_goals
    intros
    subst_vars
    exact h.elim

/-- The imported transform of a group. -/
def ItemOf (t : Option (Schema.TransformShape F)) (gt : Option (GroupTransform F)) : Prop :=
  match t with
  | none => gt = none
  | some t => ∃ g, convShapeTransform t = .ok g ∧ gt = some g

theorem convShape_transform (t : Schema.TransformShape F) : convShape (.transform t) = .ok none := by
  rw [convShape]
  · rfl
  all_goals simp

/-- The transform that a shape is. -/
def transformOf : Schema.AnyShape F → Option (Schema.TransformShape F)
  | .transform t => some t
  | _ => none

omit [FloatOps F] [Libm F] [Kurbo F] in
/-- The transform of a group: the last one in a list, or else the given one. -/
theorem groupTransform_cons (x : Schema.AnyShape F) (xs : List (Schema.AnyShape F)) :
    groupTransform (x :: xs) = (groupTransform xs).or (transformOf x) := by
  unfold groupTransform
  cases x
  case transform t =>
    rw [List.filterMap_cons]
    dsimp only
    rw [List.getLast?_cons]
    cases (List.filterMap _ xs).getLast? <;> rfl
  all_goals
    rw [List.filterMap_cons]
    dsimp only
    cases (List.filterMap _ xs).getLast? <;> rfl

theorem convGroupItems_items :
    ∀ (xs : List (Schema.AnyShape F)) {t0 : Option (GroupTransform F)} {shapes gt},
      convGroupItems xs t0 = .ok (shapes, gt) →
      ∃ os, List.Forall₂ (fun x o => convShape x = .ok o) xs os ∧ shapes = os.flatMap Option.toList ∧
        ((groupTransform xs = none ∧ gt = t0) ∨ (groupTransform xs ≠ none ∧ ItemOf (groupTransform xs) gt))
  | [], t0, shapes, gt, h => by
    rw [convGroupItems] at h
    cases h
    exact ⟨[], .nil, rfl, .inl ⟨rfl, rfl⟩⟩
  | x :: xs, t0, shapes, gt, h => by
    rw [groupTransform_cons]
    by_cases hx : ∃ t, x = .transform t
    · obtain ⟨t, rfl⟩ := hx
      rw [convGroupItems] at h
      obtain ⟨g, hg, h⟩ := bind_ok h
      obtain ⟨os, h1, h2, h3⟩ := convGroupItems_items xs h
      refine ⟨none :: os, .cons (convShape_transform t) h1, h2, .inr ?_⟩
      rcases h3 with ⟨h3, rfl⟩ | ⟨h3, h4⟩
      · rw [h3]
        exact ⟨by simp [transformOf], g, hg, rfl⟩
      · obtain ⟨t', ht'⟩ := Option.ne_none_iff_exists'.mp h3
        rw [ht'] at h4 ⊢
        exact ⟨by simp, h4⟩
    · rw [convGroupItems] at h
      · obtain ⟨o, ho, h⟩ := bind_ok h
        obtain ⟨⟨ss, t'⟩, hss, h⟩ := bind_ok h
        cases h
        obtain ⟨os, h1, rfl, h3⟩ := convGroupItems_items xs hss
        refine ⟨o :: os, .cons ho h1, rfl, ?_⟩
        have : transformOf x = none := by
          cases x <;> first | rfl | exact (hx ⟨_, rfl⟩).elim
        rw [this, Option.or_none]
        exact h3
      · exact fun t' ht => hx ⟨t', ht⟩

theorem convGroupItems_group {xs : List (Schema.AnyShape F)} {shapes gt}
    (h : convGroupItems xs none = .ok (shapes, gt)) :
    ∃ os, List.Forall₂ (fun x o => convShape x = .ok o) xs os ∧ shapes = os.flatMap Option.toList ∧
      ItemOf (groupTransform xs) gt := by
  obtain ⟨os, h1, h2, h3⟩ := convGroupItems_items xs h
  refine ⟨os, h1, h2, ?_⟩
  rcases h3 with ⟨h3, rfl⟩ | ⟨-, h3⟩
  · rw [h3]; rfl
  · exact h3

theorem convShape_group {e n items i} {o : Option (Shape F)}
    (hs : convShape (.group e n items i : Schema.AnyShape F) = .ok o) :
    ∃ shapes gt, convGroupItems items none = .ok (shapes, gt) ∧
      ((shapes = [] ∧ o = none) ∨ (shapes ≠ [] ∧ o = some (.group shapes gt))) := by
  rw [convShape] at hs
  obtain ⟨⟨shapes, gt⟩, h, hs⟩ := bind_ok (show (convGroupItems items none >>= _) = _ from hs)
  refine ⟨shapes, gt, h, ?_⟩
  cases shapes with
  | nil => exact .inl ⟨rfl, (Except.ok.inj hs).symm⟩
  | cons x xs => exact .inr ⟨List.cons_ne_nil _ _, (Except.ok.inj hs).symm⟩

/-! ## Rendering of lists of shapes -/

theorem renderShapesFrom_append (xs ys : List (Shape F)) (gs ds : Nat) (T : Affine F) (a fr : F)
    (b : Batch F) : renderShapesFrom (xs ++ ys) gs ds T a fr b
      = renderShapesFrom xs gs ds T a fr b >>= renderShapesFrom ys gs ds T a fr := by
  induction xs generalizing b with
  | nil => rw [List.nil_append, renderShapesFrom]; rfl
  | cons x xs ih =>
    rw [List.cons_append, renderShapesFrom, renderShapesFrom, bind_assoc]
    congr 1
    funext b'
    exact ih b'

/-- The outlines after a trim. -/
theorem slice_map {α : Type} (f : α → α) (l : List α) {g s e : Nat} (hg : g ≤ l.length) (hs : g ≤ s) :
    ((l.take g ++ (l.drop g).map f).take e).drop s = ((l.take e).drop s).map f := by
  have hl : (l.take g).length = g := by rw [List.length_take]; exact Nat.min_eq_left hg
  apply List.ext_getElem?
  intro i
  simp only [List.getElem?_drop, List.getElem?_take, List.getElem?_append, List.getElem?_map, hl]
  split
  · rw [if_neg (by omega)]
    congr 2
    omega
  · rfl

end

section
variable {F : Type} [FloatOps F] [Libm F] [Kurbo F]

theorem groupAt_of {t : Option (Schema.TransformShape F)} {gt : Option (GroupTransform F)}
    (h : ItemOf t gt) (fr : F) :
    GroupAt fr t (groupMatrix gt fr) (groupFactor gt fr) := by
  cases t with
  | none =>
    subst h
    exact ⟨rfl, rfl⟩
  | some t =>
    obtain ⟨g, hg, rfl⟩ := h
    exact ⟨g, hg, rfl, rfl⟩

omit [Libm F] [Kurbo F] in
omit [FloatOps F] in
theorem outlines_at {b : Batch F} {o : Outline F} (hb : b.WF) (ho : o ∈ b.outlines) :
    bezPathOk o.path = true := by
  obtain ⟨g, hg, rfl⟩ := List.mem_map.mp ho
  exact hb.slice_ok hg

omit [Libm F] in
/-- The outlines after a trim. -/
theorem outlines_trimmed {b : Batch F} (hb : b.WF) (t : FixedTrim F) (gs : Nat) :
    (b.trimmed t gs).outlines = b.outlines.take gs ++ (b.outlines.drop gs).map t.cut := by
  cases hn : t.normalized with
  | none =>
    rw [outlines_trimmed_none gs hn]
    unfold FixedTrim.cut
    rw [hn]
  | some p =>
    obtain ⟨first, second⟩ := p
    by_cases hf : first.1 <=. tiny ∧ lit 1 -. tiny <=. first.2 ∧ second = none
    · have hx : ((first.1 <=. tiny) && ((lit 1 -. tiny) <=. first.2) && second.isNone) = true := by
        simpa [and_assoc] using hf
      rw [trimmed_full gs hn hx]
      have : t.cut = id := by
        funext o
        unfold FixedTrim.cut
        rw [hn]
        exact if_pos hf
      rw [this, List.map_id, List.take_append_drop]
    · have hx : ((first.1 <=. tiny) && ((lit 1 -. tiny) <=. first.2) && second.isNone) = false := by
        rw [← Bool.not_eq_true]
        intro h
        exact hf (by simpa [and_assoc] using h)
      rw [outlines_trimmed_some gs hn hx, trimOutlines]
      congr 1
      refine List.map_congr_left fun o ho => ?_
      unfold FixedTrim.cut
      rw [hn]
      dsimp only
      rw [if_neg hf, trimPath_ok (outlines_at hb (List.mem_of_mem_drop ho))]
      rfl

/-- What the batch `b` holds, where the group was entered with `s` geometries and fills. -/
structure Holds (b : Batch F) (s : Nat × Nat) (S : Sheet F) : Prop where
  outer : b.outlines.take s.1 = S.outer
  outlines : b.outlines.drop s.1 = S.outlines
  draws : (b.draws.drop s.2).map (fun d => (⟨d.paint, b.painted d⟩ : Painting F)) = S.paintings
  loose : S.unpainted ≠ .nothing ↔ b.drawnGeometry < b.geometries.length
  drawn : ∀ d ∈ b.draws, d.gstop ≤ b.drawnGeometry
  elements : b.elements = S.elements
  whole : S.unpainted = .geometry → ∀ g, b.geometries.getLast? = some g → g.stop = b.elements.length
  emptied : S.unpainted = .emptied → ∀ g, b.geometries.getLast? = some g → g.start = 0 ∧ g.stop = 0

/-- The batch `b'` has what `b` had before the group, as far as it is painted. -/
structure Keeps (b b' : Batch F) (s : Nat × Nat) : Prop where
  outlines : b'.outlines.take (min s.1 b.drawnGeometry) = b.outlines.take (min s.1 b.drawnGeometry)
  draws : b'.draws.take s.2 = b.draws.take s.2
  drawn : b.drawnGeometry ≤ b'.drawnGeometry

omit [Libm F] [Kurbo F] in
omit [FloatOps F] in
theorem Keeps.refl (b : Batch F) (s : Nat × Nat) : Keeps b b s := ⟨rfl, rfl, Nat.le_refl _⟩

omit [Libm F] [Kurbo F] in
theorem take_mono {α : Type} {l l' : List α} {m n : Nat} (hmn : m ≤ n) (h : l.take n = l'.take n) :
    l.take m = l'.take m := by
  have := congrArg (List.take m) h
  rwa [List.take_take, List.take_take, Nat.min_eq_left hmn] at this

omit [Libm F] [Kurbo F] in
omit [FloatOps F] in
theorem Keeps.trans {b b' b'' : Batch F} {s : Nat × Nat} (h : Keeps b b' s) (h' : Keeps b' b'' s) :
    Keeps b b'' s :=
  ⟨(take_mono (by have := h.drawn; omega) h'.outlines).trans h.outlines, h'.draws.trans h.draws,
    h.drawn.trans h'.drawn⟩

omit [Libm F] [Kurbo F] in
omit [FloatOps F] in
theorem Holds.all {b : Batch F} {s : Nat × Nat} {S : Sheet F} (h : Holds b s S) :
    S.outer ++ S.outlines = b.outlines := by
  rw [← h.outer, ← h.outlines, List.take_append_drop]

omit [Libm F] [Kurbo F] in
omit [FloatOps F] in
theorem Holds.outer_length {b : Batch F} {s : Nat × Nat} {S : Sheet F} (h : Holds b s S)
    (hs : s.1 ≤ b.geometries.length) : S.outer.length = s.1 := by
  rw [← h.outer, List.length_take, outlines_length]
  exact Nat.min_eq_left hs

omit [Libm F] [Kurbo F] in
omit [FloatOps F] in
theorem painted_congr {b b' : Batch F} {d : DrawData F} {n : Nat} (h : d.gstop ≤ n)
    (ho : b'.outlines.take n = b.outlines.take n) : b'.painted d = b.painted d := by
  unfold Batch.painted
  have : ∀ l : List (Outline F), l.take d.gstop = (l.take n).take d.gstop := fun l => by
    rw [List.take_take, Nat.min_eq_left h]
  rw [this b'.outlines, ho, ← this]

theorem holds_draw {b : Batch F} {s : Nat × Nat} {S : Sheet F} (hs : s.2 ≤ b.draws.length)
    (hb : b.drawnGeometry ≤ b.geometries.length) (h : Holds b s S) (d : Draw F) (a fr : F) :
    Holds (b.pushDraw d a s.1 fr) s (S.draw (d.paint a fr)) ∧ Keeps b (b.pushDraw d a s.1 fr) s := by
  have ho : (b.pushDraw d a s.1 fr).outlines = b.outlines := rfl
  have hd : (b.pushDraw d a s.1 fr).drawnGeometry = b.geometries.length := rfl
  have hg : (b.pushDraw d a s.1 fr).geometries = b.geometries := rfl
  refine ⟨⟨h.outer, h.outlines, ?_, ?_, ?_, h.elements, ?_, ?_⟩, ⟨by rw [ho], ?_, hb⟩⟩
  · show ((b.draws ++ [DrawData.new d a s.1 b.geometries.length fr]).drop s.2).map _ = _
    rw [List.drop_append_of_le_length hs, List.map_append, Sheet.draw, ← h.draws, ← h.outlines]
    congr 1
    show [(⟨_, ((b.outlines.take b.geometries.length).drop s.1)⟩ : Painting F)] = _
    rw [← outlines_length, List.take_length]
    rfl
  · rw [hd, hg]
    simp [Sheet.draw]
  · show ∀ d' ∈ b.draws ++ [_], _
    rw [hd]
    intro d' hd'
    rcases List.mem_append.mp hd' with hd' | hd'
    · exact (h.drawn d' hd').trans hb
    · rw [List.mem_singleton.mp hd']
      exact Nat.le_refl _
  · intro hx
    cases hx
  · intro hx
    cases hx
  · show (b.draws ++ [_]).take s.2 = _
    rw [List.take_append_of_le_length hs]

omit [Libm F] [Kurbo F] in
theorem trim_spares {t : FixedTrim F} {first : F × F} {second} (hn : t.normalized = some (first, second)) :
    ((first.1 <=. tiny) && ((lit 1 -. tiny) <=. first.2) && second.isNone) = true ↔ t.Spares := by
  unfold FixedTrim.Spares
  rw [hn]
  constructor
  · intro h
    have hf : first.1 <=. tiny ∧ lit 1 -. tiny <=. first.2 ∧ second = none := by simpa [and_assoc] using h
    exact ⟨first, by rw [hf.2.2], hf.1, hf.2.1⟩
  · rintro ⟨f, he, h1, h2⟩
    cases he
    simpa using ⟨h1, h2⟩

omit [Libm F] in
theorem trim_parts (S : Sheet F) (t : FixedTrim F) : (S.trim t).outer = S.outer ∧
    (S.trim t).outlines = S.outlines.map t.cut ∧
    (S.trim t).paintings = S.paintings.map fun p => ⟨p.paint, p.outlines.map t.cut⟩ := by
  unfold Sheet.trim
  dsimp only
  split_ifs <;> exact ⟨rfl, rfl, rfl⟩

omit [Libm F] in
theorem trim_loose (S : Sheet F) (t : FixedTrim F) :
    (S.trim t).unpainted ≠ .nothing ↔ S.unpainted ≠ .nothing := by
  unfold Sheet.trim
  dsimp only
  split_ifs <;> simp_all

omit [Libm F] in
/-- The buffer after a trim. -/
theorem trimmed_marks {b : Batch F} {s : Nat × Nat} {st} {S : Sheet F} (hi : b.Inv (s :: st))
    (h : Holds b s S) (t : FixedTrim F) :
    (b.trimmed t s.1).elements = (S.trim t).elements ∧
    ((S.trim t).unpainted = .geometry → ∀ g, (b.trimmed t s.1).geometries.getLast? = some g →
      g.stop = (b.trimmed t s.1).elements.length) ∧
    ((S.trim t).unpainted = .emptied → ∀ g, (b.trimmed t s.1).geometries.getLast? = some g →
      g.start = 0 ∧ g.stop = 0) := by
  have hs := hi.scopes s (by simp)
  cases hn : t.normalized with
  | none =>
    have hsp : ¬ t.Spares := by rintro ⟨_, he, -⟩; rw [hn] at he; cases he
    have hb : b.trimmed t s.1 = { b with
        geometries := b.geometries.take s.1
          ++ (b.geometries.drop s.1).map fun g => { g with start := 0, stop := 0 } } := by
      unfold Batch.trimmed
      rw [hn]
    have hgl : (b.geometries.drop s.1).length = S.outlines.length := by
      rw [← h.outlines, List.length_drop, List.length_drop, outlines_length]
    rw [hb]
    unfold Sheet.trim
    dsimp only
    rw [if_neg hsp, if_pos (show t.Empties from hn)]
    by_cases hc : S.unpainted = .nothing ∨ S.outlines = []
    · rw [if_pos hc]
      refine ⟨h.elements, ?_⟩
      rcases hc with hc | hc
      · dsimp only
        rw [hc]
        exact ⟨fun h => (nomatch h), fun h => (nomatch h)⟩
      · rw [hc, List.length_nil, List.length_eq_zero_iff] at hgl
        have hg : b.geometries.take s.1 = b.geometries := by
          conv => rhs; rw [← List.take_append_drop s.1 b.geometries, hgl, List.append_nil]
        rw [hgl, hg, List.map_nil, List.append_nil]
        exact ⟨h.whole, h.emptied⟩
    · rw [if_neg hc]
      refine ⟨h.elements, fun h => (nomatch h), fun _ g hg => ?_⟩
      have hne : (b.geometries.drop s.1).map (fun g => ({ g with start := 0, stop := 0 } : GeometryData F)) ≠ [] := by
        intro he
        rw [List.map_eq_nil_iff] at he
        rw [he] at hgl
        exact hc (.inr (List.length_eq_zero_iff.mp hgl.symm))
      rw [List.getLast?_append_of_ne_nil _ hne, List.getLast?_map] at hg
      obtain ⟨g', -, rfl⟩ := Option.map_eq_some_iff.mp hg
      exact ⟨rfl, rfl⟩
  | some p =>
    obtain ⟨first, second⟩ := p
    have hem : ¬ t.Empties := by unfold FixedTrim.Empties; rw [hn]; simp
    by_cases hsp : t.Spares
    · rw [trimmed_full s.1 hn ((trim_spares hn).mpr hsp)]
      unfold Sheet.trim
      dsimp only
      rw [if_pos hsp]
      exact ⟨h.elements, h.whole, h.emptied⟩
    · have hx := Bool.eq_false_iff.mpr (mt (trim_spares hn).mp hsp)
      have ho := outlines_trimmed hi.wf t s.1
      rw [h.outer, h.outlines, outlines_trimmed_some s.1 hn hx] at ho
      have hb : b.trimmed t s.1 = { b with
          elements := (S.outer ++ S.outlines.map t.cut).flatMap Outline.path
          geometries := layout (S.outer ++ S.outlines.map t.cut) 0
          trimElements := [] } := by
        rw [← ho]
        unfold Batch.trimmed
        rw [hn]
        dsimp only
        rw [if_neg (Bool.eq_false_iff.mp hx)]
      rw [hb]
      unfold Sheet.trim
      dsimp only
      rw [if_neg hsp, if_neg hem]
      refine ⟨rfl, fun _ g hg => ?_, fun hu => ?_⟩
      · rw [layout_last _ _ g hg, Nat.zero_add]
      · dsimp only at hu
        split at hu <;> cases hu

omit [Libm F] in
theorem holds_trim {b : Batch F} {s : Nat × Nat} {st} {S : Sheet F} (hi : b.Inv (s :: st))
    (h : Holds b s S) (t : FixedTrim F) :
    Holds (b.trimmed t s.1) s (S.trim t) ∧ Keeps b (b.trimmed t s.1) s := by
  have hs := hi.scopes s (by simp)
  have hg : s.1 ≤ b.outlines.length := by rw [outlines_length]; exact hs.geometries
  have hl : (b.outlines.take s.1).length = s.1 := by rw [List.length_take]; exact Nat.min_eq_left hg
  have ho := outlines_trimmed hi.wf t s.1
  obtain ⟨hd, hdg⟩ := trimmed_fields b t s.1
  obtain ⟨p1, p2, p3⟩ := trim_parts S t
  obtain ⟨m1, m2, m3⟩ := trimmed_marks hi h t
  refine ⟨⟨?_, ?_, ?_, ?_, ?_, m1, m2, m3⟩, ⟨?_, by rw [hd], hdg.ge⟩⟩
  · rw [ho, List.take_left' hl, h.outer, p1]
  · rw [ho, List.drop_left' hl, h.outlines, p2]
  · rw [hd, p3, ← h.draws, List.map_map]
    refine List.map_congr_left fun d hdm => ?_
    show (⟨_, _⟩ : Painting F) = ⟨_, _⟩
    congr 1
    show ((b.trimmed t s.1).outlines.take d.gstop).drop d.gstart = _
    rw [ho, slice_map _ _ hg (hs.after d hdm)]
    rfl
  · rw [hdg, trimmed_length, ← h.loose]
    exact trim_loose S t
  · rw [hd, hdg]
    exact h.drawn
  · rw [ho]
    refine take_mono (Nat.min_le_left _ _) ?_
    rw [List.take_left' hl]

omit [FloatOps F] [Libm F] [Kurbo F] in
/-- The outlines after more geometry has been appended to the last one. -/
theorem outlines_merge {b : Batch F} (hb : b.WF) {G : List (GeometryData F)} {g : GeometryData F}
    (hg : b.geometries = G ++ [g]) (els : List (PathEl F)) :
    ({ b with elements := b.elements ++ els, geometries := G ++ [{ g with stop := (b.elements ++ els).length }] }
      : Batch F).outlines = b.outlines.dropLast
        ++ [⟨g.transform, b.elements.drop g.start ++ els⟩] := by
  unfold Batch.outlines
  rw [hg]
  simp only [List.map_append, List.map_cons, List.map_nil, List.dropLast_concat]
  congr 1
  · refine List.map_congr_left fun g' hg' => ?_
    congr 2
    rw [List.take_append_of_le_length (hb.ranges g' (by rw [hg]; exact List.mem_append_left _ hg')).2]
  · have := hb.ranges g (by rw [hg]; simp)
    rw [List.take_length, List.drop_append_of_le_length (by omega)]

omit [FloatOps F] [Libm F] [Kurbo F] in
/-- The outlines after more geometry has been appended as a new one. -/
theorem outlines_new {b : Batch F} (hb : b.WF) (els : List (PathEl F)) (T : Affine F) :
    ({ b with elements := b.elements ++ els, geometries := b.geometries
        ++ [⟨b.elements.length, (b.elements ++ els).length, T⟩] } : Batch F).outlines
      = b.outlines ++ [⟨T, els⟩] := by
  unfold Batch.outlines
  simp only [List.map_append, List.map_cons, List.map_nil, List.take_length]
  congr 1
  · refine List.map_congr_left fun g hg => ?_
    congr 2
    rw [List.take_append_of_le_length (hb.ranges g hg).2]
  · rw [List.drop_left]

omit [Libm F] [Kurbo F] in
theorem holds_add {b : Batch F} {s : Nat × Nat} {st} {S : Sheet F} (hi : b.Inv (s :: st))
    (h : Holds b s S) (T : Affine F) (els : List (PathEl F)) :
    Holds (b.pushEls els T) s (S.add T els) ∧ Keeps b (b.pushEls els T) s := by
  have hs := hi.scopes s (by simp)
  have hg : s.1 ≤ b.outlines.length := by rw [outlines_length]; exact hs.geometries
  have hout := h.outer_length hs.geometries
  have hw := hi.wf
  -- a new outline
  have hnew : b.canMerge T = false →
      Holds (b.pushEls els T) s { S with
        outlines := S.outlines ++ [⟨T, els⟩]
        unpainted := .geometry
        elements := S.elements ++ els } ∧
        Keeps b (b.pushEls els T) s := by
    intro hc
    rw [pushEls_new els hc]
    have ho := outlines_new hw els T
    refine ⟨⟨?_, ?_, ?_, ?_, h.drawn, congrArg (· ++ els) h.elements, ?_, fun hu => by cases hu⟩,
      ⟨?_, rfl, Nat.le_refl _⟩⟩
    · rw [ho, List.take_append_of_le_length hg]
      exact h.outer
    · rw [ho, List.drop_append_of_le_length hg, h.outlines]
    · show List.map _ (b.draws.drop s.2) = S.paintings
      rw [← h.draws]
      refine List.map_congr_left fun d hd => ?_
      congr 1
      refine painted_congr (n := b.outlines.length) ?_ ?_
      · rw [outlines_length]
        exact (hw.draws d (List.mem_of_mem_drop hd)).2
      · rw [ho, List.take_left, List.take_length]
    · show Unpainted.geometry ≠ .nothing ↔ b.drawnGeometry < (b.geometries ++ [_]).length
      have := hw.drawn
      rw [List.length_append, List.length_singleton]
      exact ⟨fun _ => by omega, fun _ => by simp⟩
    · intro _ g hlast
      rw [List.getLast?_concat] at hlast
      cases hlast
      rfl
    · rw [ho]
      refine take_mono (n := b.outlines.length) (by omega) ?_
      rw [List.take_left, List.take_length]
  unfold Sheet.add
  dsimp only
  rw [h.all]
  cases hlast : b.geometries.getLast? with
  | none =>
    have hnil := List.getLast?_eq_none_iff.mp hlast
    have : b.outlines = [] := by unfold Batch.outlines; rw [hnil]; rfl
    rw [this]
    refine hnew ?_
    unfold Batch.canMerge
    rw [hlast, Bool.and_false]
  | some g =>
    obtain ⟨G, hG⟩ := List.getLast?_eq_some_iff.mp hlast
    have hol : b.outlines.getLast? = some ⟨g.transform, (b.elements.take g.stop).drop g.start⟩ := by
      unfold Batch.outlines
      rw [List.getLast?_map, hlast]
      rfl
    rw [hol]
    dsimp only
    by_cases hc : S.unpainted ≠ .nothing ∧ g.transform.beq T
    · obtain ⟨hl, hT⟩ := hc
      rw [if_pos ⟨hl, hT⟩]
      have hlt := h.loose.mp hl
      have hcm : b.canMerge T = true := by
        unfold Batch.canMerge
        rw [hlast]
        simp only [hT, Bool.and_true, decide_eq_true_eq]
        exact hlt
      have hbefore : (if S.unpainted = .emptied then S.elements else (b.elements.take g.stop).drop g.start)
          = b.elements.drop g.start := by
        cases hu : S.unpainted with
        | nothing => exact (hl hu).elim
        | geometry => rw [if_neg (by simp), h.whole hu g hlast, List.take_length]
        | emptied => rw [if_pos rfl, (h.emptied hu g hlast).1, List.drop_zero, h.elements]
      rw [pushEls_merge els hcm hlast, hG, List.dropLast_concat, hbefore]
      have ho := outlines_merge hw hG els
      have hlen : b.outlines.length = G.length + 1 := by rw [outlines_length, hG]; simp
      have hpre : ∀ {n}, n ≤ b.drawnGeometry → ({ b with elements := b.elements ++ els, geometries :=
          G ++ [{ g with stop := (b.elements ++ els).length }] } : Batch F).outlines.take n
          = b.outlines.take n := by
        intro n hn
        rw [hG, List.length_append, List.length_singleton] at hlt
        rw [ho, List.take_append_of_le_length (by rw [List.length_dropLast]; omega),
          List.dropLast_eq_take, List.take_take, Nat.min_eq_left (by omega)]
      refine ⟨⟨?_, ?_, ?_, ?_, h.drawn, congrArg (· ++ els) h.elements, ?_, fun hu => by cases hu⟩,
        ⟨hpre (Nat.min_le_right _ _), rfl, Nat.le_refl _⟩⟩
      · rw [ho, hout]
      · rw [ho, hout]
      · show List.map _ (b.draws.drop s.2) = S.paintings
        rw [← h.draws]
        refine List.map_congr_left fun d hd => ?_
        congr 1
        exact painted_congr (h.drawn d (List.mem_of_mem_drop hd)) (hpre (Nat.le_refl _))
      · show Unpainted.geometry ≠ .nothing ↔ b.drawnGeometry < (G ++ [_]).length
        rw [hG] at hlt
        simpa using hlt
      · intro _ g' hlast'
        rw [List.getLast?_concat] at hlast'
        cases hlast'
        rfl
    · rw [if_neg hc]
      refine hnew ?_
      unfold Batch.canMerge
      rw [hlast]
      dsimp only
      cases hb : g.transform.beq T with
      | false => rw [Bool.and_false]
      | true =>
        rw [Bool.and_true, decide_eq_false_iff_not]
        exact fun hlt => hc ⟨h.loose.mpr hlt, hb⟩

omit [FloatOps F] [Libm F] [Kurbo F] in
/-- Entering a group. -/
theorem holds_enter {b : Batch F} {s : Nat × Nat} {S : Sheet F} (h : Holds b s S) :
    Holds b (b.geometries.length, b.draws.length) S.enter where
  outer := by
    show b.outlines.take b.geometries.length = S.outer ++ S.outlines
    rw [h.all, ← outlines_length, List.take_length]
  outlines := by
    show b.outlines.drop b.geometries.length = []
    rw [← outlines_length, List.drop_length]
  draws := by simp [Sheet.enter]
  loose := h.loose
  drawn := h.drawn
  elements := h.elements
  whole := h.whole
  emptied := h.emptied

omit [FloatOps F] [Libm F] [Kurbo F] in
/-- Leaving a group. -/
theorem holds_leave {b b' : Batch F} {s : Nat × Nat} {st} {S E : Sheet F} (hi : b.Inv (s :: st))
    (hi' : b'.Inv (s :: st))
    (h : Holds b s S) (h' : Holds b' (b.geometries.length, b.draws.length) E)
    (hk : Keeps b b' (b.geometries.length, b.draws.length)) :
    Holds b' s (S.leave E) ∧ Keeps b b' s := by
  have hs := hi.scopes s (by simp)
  have hs' := hi'.scopes s (by simp)
  have hout := h.outer_length hs.geometries
  have hd : b'.draws = b.draws ++ b'.draws.drop b.draws.length := by
    have := hk.draws
    dsimp only at this
    rw [List.take_length] at this
    conv => lhs; rw [← List.take_append_drop b.draws.length b'.draws, this]
  have hdr : min b.geometries.length b.drawnGeometry = b.drawnGeometry := Nat.min_eq_right hi.wf.drawn
  have hko := hk.outlines
  dsimp only at hko
  rw [hdr] at hko
  refine ⟨⟨?_, ?_, ?_, h'.loose, h'.drawn, h'.elements, h'.whole, h'.emptied⟩, ⟨?_, ?_, hk.drawn⟩⟩
  · show _ = E.outer.take S.outer.length
    rw [← h'.outer, hout, List.take_take, Nat.min_eq_left hs.geometries]
  · show _ = E.outer.drop S.outer.length ++ E.outlines
    rw [← h'.outer, ← h'.outlines, hout]
    dsimp only
    rw [List.drop_take]
    conv => lhs; rw [← List.take_append_drop (b.geometries.length - s.1) (b'.outlines.drop s.1)]
    rw [List.drop_drop, Nat.add_sub_cancel' hs.geometries]
  · show _ = S.paintings ++ E.paintings
    rw [hd, List.drop_append_of_le_length hs.draws, List.map_append, ← h.draws]
    congr 1
    · refine List.map_congr_left fun d hdm => ?_
      congr 1
      exact painted_congr (h.drawn d (List.mem_of_mem_drop hdm)) hko
    · exact h'.draws
  · exact take_mono (Nat.min_le_right _ _) hko
  · rw [hd, List.take_append_of_le_length hs.draws]

/-! ## Import of the parts -/

theorem convShape_ignored {s : Schema.AnyShape F} (h : s.IsIgnored) {o : Option (Shape F)}
    (hs : convShape s = .ok o) : o = none := by
  cases s <;> try exact h.elim
  case path s =>
    rw [convShape] at hs
    · obtain ⟨og, hg, hs⟩ := bind_ok (show (convGeometry (.path s) >>= _) = _ from hs)
      rcases shapeGeometry_ok hg with ⟨g, -, hp⟩ | ⟨rfl, -⟩
      · exact (not_noPath hp h).elim
      · exact (Except.ok.inj hs).symm
    all_goals simp
  all_goals
    rw [convShape] at hs
    · exact (Except.ok.inj hs).symm
    all_goals simp

theorem isPaint_of {s : Schema.AnyShape F} {a fr : F} {p : Paint F} (h : PaintOf a fr p s) :
    s.IsPaint := by
  cases s <;> first | exact h.elim | trivial

theorem isGeometry_of {s : Schema.AnyShape F} {fr : F} {els : List (PathEl F)}
    (h : OutlineAt fr s els) : s.IsGeometry := by
  obtain ⟨g, hg, -⟩ := h
  cases s <;> try trivial
  case path s =>
    rcases shapeGeometry_ok hg with ⟨g', -, hp⟩ | ⟨hn, -⟩
    · exact not_noPath hp
    · cases hn
  all_goals cases Except.ok.inj hg

theorem geometry_starts [KurboPaths F] {s : Schema.AnyShape F} {g : Geometry F}
    (hs : convShape s = .ok (some (.geometry g))) (fr : F) : g.StartsOk fr := by
  refine g.startsOk fr fun p hp => ?_
  subst hp
  have hc : convShapes [s] = .ok [.geometry (.fixed p)] := by
    unfold convShapes
    rw [mapM_cons', hs]
    rfl
  obtain ⟨x, -, t, -, hk⟩ := keepsItems_geometry [s] (C53_shapes [s] hc) (g := .fixed p)
    (by simp [geometriesOf, Shape.geometries])
  cases hk with
  | polyStar ha hs => exact star_fixed hs
  | path hp => exact pathOf_fixed hp

omit [Libm F] in
theorem scalarAt_unique {p : Schema.FloatValue F} {fr x y : F} (h : ScalarAt p fr x)
    (h' : ScalarAt p fr y) : x = y := by
  obtain ⟨v, hv, rfl⟩ := h
  obtain ⟨w, hw, rfl⟩ := h'
  rw [hv] at hw
  rw [Except.ok.inj hw]

theorem trim_rendered {q : Schema.TrimPathShape F} {fr : F} {t : FixedTrim F} (h : TrimAt fr q t)
    {o : Option (Shape F)} (ho : convShape (.trim q) = .ok o) (T : Affine F) (a : F) {b : Batch F}
    {s : Nat × Nat} {st} {S : Sheet F} (hi : b.Inv (s :: st)) (hh : Holds b s S) :
    ∃ b', renderShapesFrom o.toList s.1 s.2 T a fr b = .ok b' ∧ b'.Inv (s :: st) ∧
      Holds b' s (S.trim t) ∧ Keeps b b' s := by
  obtain ⟨t', rfl, hv⟩ := C84_document ho
  obtain ⟨h1, h2, h3⟩ := hv fr
  have ht : t'.evaluate fr = t := by
    obtain ⟨g1, g2, g3⟩ := h
    cases t
    cases hx : t'.evaluate fr
    rw [hx] at h1 h2 h3
    simp only at h1 h2 h3 g1 g2 g3
    rw [scalarAt_unique h1 g1, scalarAt_unique h2 g2, scalarAt_unique h3 g3]
  have hs := hi.scopes s (by simp)
  obtain ⟨k1, k2⟩ := holds_trim hi hh t
  refine ⟨b.trimmed t s.1, ?_, trimmed_inv hi t, k1, k2⟩
  rw [Option.toList_some, renderShapesFrom, renderShape, ht, applyTrim_ok hi.wf hs.geometries]
  show renderShapesFrom [] s.1 s.2 T a fr _ = _
  rw [renderShapesFrom]

omit [Libm F] in
theorem strokeAt_unique {s : Schema.BaseStroke F} {dj dc} {fr : F} {k k' : KStroke F}
    (h : StrokeAt s dj dc fr k) (h' : StrokeAt s dj dc fr k') : k = k' := by
  obtain ⟨w, j, m, c⟩ := k
  obtain ⟨w', j', m', c'⟩ := k'
  have h1 := scalarAt_unique h.width h'.width
  have h2 := h.miter.trans h'.miter.symm
  have h3 : j = j' := by
    have a := h.join
    have b := h'.join
    cases hj : s.lineJoin.getD dj <;> rw [hj] at a b <;> exact a.trans b.symm
  have h4 : c = c' := by
    have a := h.cap
    have b := h'.cap
    cases hj : s.lineCap.getD dc <;> rw [hj] at a b <;> exact a.trans b.symm
  simp only at h1 h2
  rw [h1, h2, h3, h4]

theorem gradientAt_unique {g : Schema.BaseGradient F} {fr : F} {b b' : Brush F}
    (h : GradientAt g fr b) (h' : GradientAt g fr b') : b = b' := by
  obtain ⟨s, hs, rfl⟩ := h
  obtain ⟨s', hs', rfl⟩ := h'
  rw [hs] at hs'
  rw [Except.ok.inj hs']

theorem paintOf_unique {s : Schema.AnyShape F} {a fr : F} {p p' : Paint F} (h : PaintOf a fr p s)
    (h' : PaintOf a fr p' s) : p = p' := by
  obtain ⟨st, br, al⟩ := p
  obtain ⟨st', br', al'⟩ := p'
  cases s <;> try exact h.elim
  case fill s =>
    obtain ⟨h1, h2, o, h3, h4⟩ := h
    obtain ⟨h1', h2', o', h3', h4'⟩ := h'
    simp only at h1 h2 h4 h1' h2' h4'
    rw [h1, h2, h4, h1', h2', h4', scalarAt_unique h3 h3']
  case stroke s =>
    obtain ⟨⟨k, h1, hk⟩, h2, o, h3, h4⟩ := h
    obtain ⟨⟨k', h1', hk'⟩, h2', o', h3', h4'⟩ := h'
    simp only at h1 h2 h4 h1' h2' h4'
    rw [h1, h2, h4, h1', h2', h4', scalarAt_unique h3 h3', strokeAt_unique hk hk']
  case gradientFill s =>
    obtain ⟨h1, h2, h4⟩ := h
    obtain ⟨h1', h2', h4'⟩ := h'
    simp only at h1 h2 h4 h1' h2' h4'
    rw [h1, gradientAt_unique h2 h2', h4, h1', h4']
  case gradientStroke s =>
    obtain ⟨⟨k, h1, hk⟩, h2, h4⟩ := h
    obtain ⟨⟨k', h1', hk'⟩, h2', h4'⟩ := h'
    simp only at h1 h2 h4 h1' h2' h4'
    rw [h1, gradientAt_unique h2 h2', h4, h1', h4', strokeAt_unique hk hk']

theorem groupAt_unique {t : Option (Schema.TransformShape F)} {fr : F} {M M' : Affine F} {k k' : F}
    (h : GroupAt fr t M k) (h' : GroupAt fr t M' k') : M = M' ∧ k = k' := by
  cases t with
  | none => exact ⟨h.1.trans h'.1.symm, h.2.trans h'.2.symm⟩
  | some t =>
    obtain ⟨g, hg, rfl, rfl⟩ := h
    obtain ⟨g', hg', rfl, rfl⟩ := h'
    rw [hg] at hg'
    rw [Except.ok.inj hg']
    exact ⟨rfl, rfl⟩

theorem renderGroup_mpr {shapes : List (Shape F)} {gt : Option (GroupTransform F)} {g0 d0 : Nat}
    {T : Affine F} {a fr : F} {b b' : Batch F}
    (hr : renderShapesFrom shapes b.geometries.length b.draws.length (T.mul (groupMatrix gt fr))
      (a *. groupFactor gt fr) fr b = .ok b') :
    renderShapesFrom [.group shapes gt] g0 d0 T a fr b = .ok b' := by
  rw [renderShapesFrom, renderShape, groupParams_eq]
  show (renderShapesFrom shapes b.geometries.length b.draws.length (T.mul (groupMatrix gt fr))
    (a *. groupFactor gt fr) fr b >>= renderShapesFrom [] g0 d0 T a fr) = _
  rw [hr]
  show renderShapesFrom [] g0 d0 T a fr b' = _
  rw [renderShapesFrom]

theorem paint_rendered [LawfulCmp F] {x : Schema.AnyShape F} {fr a : F} {p : Paint F} (h : PaintOf a fr p x)
    {o : Option (Shape F)} (ho : convShape x = .ok o) (T : Affine F) {b : Batch F}
    {s : Nat × Nat} {st} {S : Sheet F} (hi : b.Inv (s :: st)) (hh : Holds b s S) :
    ∃ b', renderShapesFrom o.toList s.1 s.2 T a fr b = .ok b' ∧ b'.Inv (s :: st) ∧
      Holds b' s (S.draw p) ∧ Keeps b b' s := by
  obtain ⟨d, rfl, hd⟩ := convShape_paint (isPaint_of h) ho
  have hs := hi.scopes s (by simp)
  cases paintOf_unique h (C76_paint hd _ _)
  obtain ⟨k1, k2⟩ := holds_draw hs.draws hi.wf.drawn hh d a fr
  refine ⟨b.pushDraw d a s.1 fr, ?_, pushDraw_inv hi d a fr, k1, k2⟩
  rw [Option.toList_some, renderShapesFrom, renderShape]
  show renderShapesFrom [] s.1 s.2 T a fr _ = _
  rw [renderShapesFrom]

theorem geometry_rendered [KurboPaths F] {x : Schema.AnyShape F} {fr : F} {els : List (PathEl F)}
    (h : OutlineAt fr x els) {o : Option (Shape F)} (ho : convShape x = .ok o) (T : Affine F) (a : F)
    {b : Batch F} {s : Nat × Nat} {st} {S : Sheet F} (hi : b.Inv (s :: st)) (hh : Holds b s S) :
    ∃ b', renderShapesFrom o.toList s.1 s.2 T a fr b = .ok b' ∧ b'.Inv (s :: st) ∧
      Holds b' s (S.add T els) ∧ Keeps b b' s := by
  obtain ⟨g, rfl, hg⟩ := convShape_geometry (isGeometry_of h) ho
  obtain ⟨g', hg', he⟩ := h
  rw [hg] at hg'
  cases Except.ok.inj hg'
  obtain ⟨k1, k2⟩ := holds_add hi hh T els
  refine ⟨b.pushEls els T, ?_, pushEls_inv hi (geometry_starts ho fr els he) T, k1, k2⟩
  rw [Option.toList_some, renderShapesFrom, renderShape, pushGeometry_eq, he]
  show renderShapesFrom [] s.1 s.2 T a fr _ = _
  rw [renderShapesFrom]

/-- A list of shapes is rendered to what it stands for. -/
theorem items_rendered [LawfulCmp F] [KurboPaths F] {fr : F} {T : Affine F} {a : F} {xs : List (Schema.AnyShape F)}
    {S S' : Sheet F} (h : ItemsDrawn fr T a xs S S') {os : List (Option (Shape F))}
    (hos : List.Forall₂ (fun s o => convShape s = .ok o) xs os) {b : Batch F} {s : Nat × Nat} {st}
    (hi : b.Inv (s :: st)) (hh : Holds b s S) :
    ∃ b', renderShapesFrom (os.flatMap Option.toList) s.1 s.2 T a fr b = .ok b' ∧
      b'.Inv (s :: st) ∧ Holds b' s S' ∧ Keeps b b' s := by
  -- one shape after the other
  have step : ∀ {T : Affine F} {a : F} {o : Option (Shape F)} {os : List (Option (Shape F))}
      {b : Batch F} {s : Nat × Nat} {st : List (Nat × Nat)} {S1 S' : Sheet F},
      (∃ b', renderShapesFrom o.toList s.1 s.2 T a fr b = .ok b' ∧ b'.Inv (s :: st) ∧ Holds b' s S1 ∧
        Keeps b b' s) →
      (∀ {b : Batch F}, b.Inv (s :: st) → Holds b s S1 →
        ∃ b', renderShapesFrom (os.flatMap Option.toList) s.1 s.2 T a fr b = .ok b' ∧
          b'.Inv (s :: st) ∧ Holds b' s S' ∧ Keeps b b' s) →
      ∃ b', renderShapesFrom ((o :: os).flatMap Option.toList) s.1 s.2 T a fr b = .ok b' ∧
        b'.Inv (s :: st) ∧ Holds b' s S' ∧ Keeps b b' s := by
    rintro T a o os b s st S1 S' ⟨b1, e1, i1, h1, k1⟩ hr
    obtain ⟨b2, e2, i2, h2, k2⟩ := hr i1 h1
    refine ⟨b2, ?_, i2, h2, k1.trans k2⟩
    rw [List.flatMap_cons, renderShapesFrom_append, e1]
    exact e2
  induction h generalizing os b s st with
  | nil =>
    cases hos
    exact ⟨b, by rw [List.flatMap_nil, renderShapesFrom], hi, hh, .refl b s⟩
  | geometry h _ ih =>
    cases hos with
    | cons hx hos => exact step (geometry_rendered h hx _ _ hi hh) (ih hos)
  | @group T a e n i items rest M k S E S' ht _ _ ihi ihr =>
    cases hos with
    | @cons _ o _ os hx hos =>
      refine step ?_ (ihr hos)
      obtain ⟨shapes, gt, hci, ho⟩ := convShape_group hx
      obtain ⟨oi, foi, rfl, hgt⟩ := convGroupItems_group hci
      obtain ⟨rfl, rfl⟩ := groupAt_unique ht (groupAt_of hgt fr)
      obtain ⟨b1, e1, i1, h1, k1⟩ := ihi foi hi.enter (holds_enter hh)
      obtain ⟨h1', k1'⟩ := holds_leave hi i1.leave hh h1 k1
      refine ⟨b1, ?_, i1.leave, h1', k1'⟩
      rcases ho with ⟨he, rfl⟩ | ⟨-, rfl⟩
      · rw [he, renderShapesFrom] at e1
        rw [Option.toList_none, renderShapesFrom]
        exact e1
      · exact renderGroup_mpr e1
  | paint hp _ ih =>
    cases hos with
    | cons hx hos => exact step (paint_rendered hp hx _ hi hh) (ih hos)
  | trim ht _ ih =>
    cases hos with
    | cons hx hos => exact step (trim_rendered ht hx _ _ hi hh) (ih hos)
  | ignored hig _ ih =>
    cases hos with
    | cons hx hos =>
      cases convShape_ignored hig hx
      exact ih hos hi hh

omit [Libm F] [Kurbo F] in
omit [FloatOps F] in
theorem holds_empty : Holds (Batch.empty : Batch F) (0, 0) .empty := by
  constructor <;> simp [Batch.empty, Sheet.empty, Batch.outlines]

/-- The shapes of a layer make the calls of what they stand for. -/
theorem shapes_rendered [LawfulCmp F] [KurboPaths F] {fr : F} {T : Affine F} {a : F} {xs : List (Schema.AnyShape F)}
    {S : Sheet F} (h : ItemsDrawn fr T a xs .empty S) {ss : List (Shape F)}
    (hss : convShapes xs = .ok ss) :
    ∃ b, renderShapes ss T a fr Batch.empty = .ok b ∧ b.render = .ok S.calls := by
  obtain ⟨os, hos, he⟩ := bind_ok hss
  cases Except.ok.inj he
  obtain ⟨b, hb, hi, hh, -⟩ := items_rendered h (mapM_ok_iff.mp hos) (s := (0, 0)) (st := [])
    Batch.Inv.empty holds_empty
  refine ⟨b, hb, ?_⟩
  rw [render_ok hi.wf.inBounds, Sheet.calls, ← hh.draws, List.drop_zero, ← List.map_reverse,
    List.flatMap_map]
  congr 2
  funext d
  rw [finalBrush_eq]
  rfl

/-! ## Every list of shapes that can be rendered stands for something -/

mutual
theorem evaluates_shape (sh : Shape F) {g0 d0 : Nat} {T : Affine F} {a fr : F} {b b' : Batch F}
    (h : renderShape sh g0 d0 T a fr b = .ok b') :
    ∀ g ∈ sh.geometries, ∃ els, g.evaluate fr = .ok els := by
  cases sh with
  | group shapes gt =>
    rw [renderShape] at h
    exact evaluates_shapes shapes h
  | geometry g =>
    rw [renderShape, pushGeometry_eq] at h
    obtain ⟨els, he, -⟩ := map_ok h
    intro g' hg'
    rw [Shape.geometries, List.mem_singleton] at hg'
    exact ⟨els, hg' ▸ he⟩
  | draw _ => intro g hg; cases hg
  | repeater _ => intro g hg; cases hg
  | trim _ => intro g hg; cases hg

theorem evaluates_shapes (shs : List (Shape F)) {g0 d0 : Nat} {T : Affine F} {a fr : F}
    {b b' : Batch F} (h : renderShapesFrom shs g0 d0 T a fr b = .ok b') :
    ∀ g ∈ geometriesOf shs, ∃ els, g.evaluate fr = .ok els := by
  cases shs with
  | nil => intro g hg; cases hg
  | cons sh shs =>
    rw [renderShapesFrom] at h
    obtain ⟨b1, h1, h2⟩ := bind_ok h
    intro g hg
    rw [geometriesOf, List.mem_append] at hg
    rcases hg with hg | hg
    · exact evaluates_shape sh h1 g hg
    · exact evaluates_shapes shs h2 g hg
end

omit [Libm F] [Kurbo F] in
omit [FloatOps F] in
theorem geometriesOf_append (xs ys : List (Shape F)) :
    geometriesOf (xs ++ ys) = geometriesOf xs ++ geometriesOf ys := by
  induction xs with
  | nil => rfl
  | cons x xs ih => rw [List.cons_append, geometriesOf, geometriesOf, ih, List.append_assoc]

theorem trimAt_exists {q : Schema.TrimPathShape F} {o : Option (Shape F)}
    (ho : convShape (.trim q) = .ok o) (fr : F) : ∃ t, TrimAt fr q t := by
  obtain ⟨t, -, h⟩ := C84_document ho
  exact ⟨t.evaluate fr, h fr⟩

theorem paint_exists [LawfulCmp F] {s : Schema.AnyShape F} (h : s.IsPaint) {o : Option (Shape F)}
    (hs : convShape s = .ok o) (a fr : F) : ∃ p, PaintOf a fr p s := by
  obtain ⟨d, -, hd⟩ := convShape_paint h hs
  exact ⟨_, C76_paint hd a fr⟩

omit [Libm F] [Kurbo F] in
omit [FloatOps F] in
theorem shape_kinds {x : Schema.AnyShape F} :
    x.IsGeometry ∨ x.IsPaint ∨ (∃ q, x = .trim q) ∨ (∃ e n items i, x = .group e n items i) ∨ x.IsIgnored := by
  cases x
  case path s => exact (Classical.em _).elim (fun h => .inr (.inr (.inr (.inr h)))) .inl
  case trim q => exact .inr (.inr (.inl ⟨q, rfl⟩))
  case group e n items i => exact .inr (.inr (.inr (.inl ⟨e, n, items, i, rfl⟩)))
  all_goals first
    | exact .inl trivial
    | exact .inr (.inl trivial)
    | exact .inr (.inr (.inr (.inr trivial)))

theorem items_exist [LawfulCmp F] {fr : F} : ∀ (xs : List (Schema.AnyShape F)) {os : List (Option (Shape F))},
    List.Forall₂ (fun s o => convShape s = .ok o) xs os →
      (∀ g ∈ geometriesOf (os.flatMap Option.toList), ∃ els, g.evaluate fr = .ok els) →
      ∀ T a S, ∃ S', ItemsDrawn fr T a xs S S'
  | [], _, _, _, _, _, S => ⟨S, .nil⟩
  | x :: rest, os, hos, he, T, a, S => by
    cases hos with
    | @cons _ o _ os hx hos =>
    rw [List.flatMap_cons, geometriesOf_append] at he
    have ih := items_exist rest hos (fun g hg => he g (List.mem_append_right _ hg)) T a
    rcases shape_kinds (x := x) with h | h | ⟨q, rfl⟩ | ⟨e, n, items, i, rfl⟩ | h
    · obtain ⟨g, rfl, hg⟩ := convShape_geometry h hx
      obtain ⟨els, hels⟩ := he g (List.mem_append_left _ (by simp [geometriesOf, Shape.geometries]))
      obtain ⟨S', hS'⟩ := ih (S.add T els)
      exact ⟨S', .geometry ⟨g, hg, hels⟩ hS'⟩
    · obtain ⟨p, hp⟩ := paint_exists h hx a fr
      obtain ⟨S', hS'⟩ := ih (S.draw p)
      exact ⟨S', .paint hp hS'⟩
    · obtain ⟨t, ht⟩ := trimAt_exists hx fr
      obtain ⟨S', hS'⟩ := ih (S.trim t)
      exact ⟨S', .trim ht hS'⟩
    · obtain ⟨shapes, gt, hci, ho⟩ := convShape_group hx
      obtain ⟨oi, foi, rfl, hgt⟩ := convGroupItems_group hci
      obtain ⟨E, hE⟩ := items_exist (fr := fr) items foi (by
        rcases ho with ⟨h0, -⟩ | ⟨-, rfl⟩
        · rw [h0]; intro g hg; cases hg
        · intro g hg
          refine he g (List.mem_append_left _ ?_)
          rw [Option.toList_some, geometriesOf, Shape.geometries, geometriesOf, List.append_nil]
          exact hg) (T.mul (groupMatrix gt fr)) (a *. groupFactor gt fr) S.enter
      obtain ⟨S', hS'⟩ := ih (S.leave E)
      exact ⟨S', .group (groupAt_of hgt fr) hE hS'⟩
    · obtain ⟨S', hS'⟩ := ih S
      exact ⟨S', .ignored h hS'⟩

end
end Velato
