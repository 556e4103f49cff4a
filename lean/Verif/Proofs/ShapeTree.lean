import Verif.Proofs.Outlines
import Mathlib.Data.List.Forall2

/-!
# Shape trees
-/

namespace Velato
open FloatOps (lit)

section
variable {F : Type} [FloatOps F] [Libm F] [Kurbo F]

/-! ## The paints -/

theorem groupParams_eq (gt : Option (GroupTransform F)) (fr : F) :
    groupParams gt fr = (groupMatrix gt fr, groupFactor gt fr) := by
  cases gt <;> rfl

/-- The paint of a draw. -/
def DrawData.paint (d : DrawData F) : Paint F := ⟨d.stroke, d.brush, d.alpha⟩

omit [Libm F] [Kurbo F] in
theorem finalBrush_eq (d : DrawData F) : d.finalBrush = d.paint.finalBrush := by
  unfold DrawData.finalBrush Paint.finalBrush
  unfold Brush.multiplyAlpha
  show (if (!(d.alpha ==. lit 1)) = true then _ else d.brush)
    = if ((d.alpha ==. lit 1) || (FloatOps.toF32 d.alpha ==. lit 1)) = true then d.brush
      else match d.brush with
        | .solid c => _
        | .gradient kind stops => _
  cases (d.alpha ==. lit 1) with
  | true => rfl
  | false =>
    cases (FloatOps.toF32 d.alpha ==. lit 1) with
    | true => rfl
    | false => cases d.brush <;> rfl

omit [Libm F] [Kurbo F] in
theorem paint_repDraws (r : FixedRepeater F) (gs : Nat) (ds : List (DrawData F)) :
    (repDraws r gs ds).map DrawData.paint
      = (List.range r.copies).flatMap fun i => if repeatAlpha r i <=. lit 0 then []
        else (ds.map DrawData.paint).map fun p => { p with alpha := p.alpha *. repeatAlpha r i } := by
  unfold repDraws
  rw [List.map_flatMap]
  congr 1
  funext i
  split
  · rfl
  · rw [List.map_map, List.map_map]; rfl

mutual
theorem paints_shape (sh : Shape F) {s : Nat × Nat} {st} {T : Affine F} {a fr : F} {b b' : Batch F}
    (h : b.Inv (s :: st)) (hg : ∀ g ∈ sh.geometries, g.StartsOk fr)
    (hr : renderShape sh s.1 s.2 T a fr b = .ok b') :
    b'.draws.take s.2 = b.draws.take s.2 ∧
    (b'.draws.drop s.2).map DrawData.paint
      = sh.paints a fr ((b.draws.drop s.2).map DrawData.paint) := by
  have hs := h.scopes s (by simp)
  have hl : (b.draws.take s.2).length = s.2 := by
    rw [List.length_take]; exact Nat.min_eq_left hs.draws
  cases sh with
  | group shapes gt =>
    rw [renderShape, groupParams_eq] at hr
    rw [Shape.geometries] at hg
    have := paints_shapes shapes (s := (b.geometries.length, b.draws.length)) h.enter hg hr
    simp only [List.take_length, List.drop_length, List.map_nil] at this
    have e : b'.draws = b.draws ++ b'.draws.drop b.draws.length := by
      conv => rhs; arg 1; rw [← this.1]
      rw [List.take_append_drop]
    rw [e, Shape.paints, ← this.2]
    constructor
    · rw [List.take_append_of_le_length hs.draws]
    · rw [List.drop_append_of_le_length hs.draws, List.map_append]
  | geometry g =>
    rw [renderShape, pushGeometry_eq] at hr
    cases he : g.evaluate fr with
    | error e => rw [he] at hr; cases hr
    | ok els =>
      rw [he] at hr
      cases hr
      rw [(pushEls_fields b els T).1, Shape.paints]
      · exact ⟨rfl, rfl⟩
      all_goals simp
  | draw d =>
    rw [renderShape] at hr
    cases hr
    show (b.draws ++ [_]).take s.2 = _ ∧ ((b.draws ++ [_]).drop s.2).map _ = _
    rw [List.take_append_of_le_length hs.draws, List.drop_append_of_le_length hs.draws,
      List.map_append, Shape.paints]
    exact ⟨rfl, rfl⟩
  | repeater r =>
    rw [renderShape, repeat_ok h] at hr
    cases hr
    show (b.draws.take s.2 ++ repDraws _ s.1 (b.draws.drop s.2)).take s.2 = _ ∧
      ((b.draws.take s.2 ++ repDraws _ s.1 (b.draws.drop s.2)).drop s.2).map _ = _
    rw [List.take_left' hl, List.drop_left' hl, paint_repDraws, Shape.paints]
    exact ⟨rfl, rfl⟩
  | trim t =>
    rw [renderShape, applyTrim_ok h.wf hs.geometries] at hr
    cases hr
    rw [(trimmed_fields b _ s.1).1, Shape.paints]
    · exact ⟨rfl, rfl⟩
    all_goals simp

theorem paints_shapes (shs : List (Shape F)) {s : Nat × Nat} {st} {T : Affine F} {a fr : F}
    {b b' : Batch F} (h : b.Inv (s :: st)) (hg : ∀ g ∈ geometriesOf shs, g.StartsOk fr)
    (hr : renderShapesFrom shs s.1 s.2 T a fr b = .ok b') :
    b'.draws.take s.2 = b.draws.take s.2 ∧
    (b'.draws.drop s.2).map DrawData.paint
      = paintsOf a fr shs ((b.draws.drop s.2).map DrawData.paint) := by
  cases shs with
  | nil => rw [renderShapesFrom] at hr; cases hr; rw [paintsOf]; exact ⟨rfl, rfl⟩
  | cons sh shs =>
    rw [geometriesOf] at hg
    rw [renderShapesFrom] at hr
    obtain ⟨b1, hb1, hr⟩ := bind_ok hr
    have h1 := (renderShape_safe (A := fun _ => True) sh T a fr h
      (fun g hg' => ⟨fun _ _ => trivial, hg g (by simp [hg'])⟩)).2 b1 hb1
    have p1 := paints_shape sh h (fun g hg' => hg g (by simp [hg'])) hb1
    have p2 := paints_shapes shs h1 (fun g hg' => hg g (by simp [hg'])) hr
    rw [paintsOf, ← p1.2, p2.1, p2.2]
    exact ⟨p1.1, rfl⟩
end

/-! ## The targets -/

omit [FloatOps F] [Libm F] [Kurbo F] in
theorem elementsOf_append (a b : List (Outline F)) :
    elementsOf (a ++ b) = elementsOf a ++ elementsOf b := by
  unfold elementsOf; rw [List.flatMap_append]

omit [Libm F] [Kurbo F] in
theorem SameElements.refl (a : List (Outline F)) : SameElements a a :=
  List.forall₂_same.mpr fun _ _ => ⟨.inl rfl, rfl⟩

omit [Libm F] [Kurbo F] in
theorem SameElements.append {a a' b b' : List (Outline F)} (h : SameElements a a')
    (h' : SameElements b b') : SameElements (a ++ b) (a' ++ b') := by
  unfold SameElements at *
  rw [elementsOf_append, elementsOf_append]
  exact List.rel_append h h'

/-- The invariant of the batch when there are no trims and repeaters; `pend` is the transform of the
last geometry if nothing was drawn since. -/
structure PlainInv (b : Batch F) (pend : Option (Affine F)) : Prop where
  ranges : ∀ g ∈ b.geometries, g.start ≤ g.stop ∧ g.stop ≤ b.elements.length
  draws : ∀ d ∈ b.draws, d.gstart ≤ d.gstop ∧ d.gstop ≤ b.drawnGeometry
  drawn : b.drawnGeometry ≤ b.geometries.length
  last : b.drawnGeometry < b.geometries.length → ∀ g, b.geometries.getLast? = some g →
    g.stop = b.elements.length
  pend : pend = if b.drawnGeometry < b.geometries.length
    then b.geometries.getLast?.map (·.transform) else none

omit [FloatOps F] [Libm F] [Kurbo F] in
theorem PlainInv.empty : PlainInv (Batch.empty : Batch F) none := by
  constructor <;> simp [Batch.empty]

omit [FloatOps F] [Libm F] [Kurbo F] in
theorem outlineOf_append {g : GeometryData F} {els els' : List (PathEl F)}
    (h : g.stop ≤ els.length) : outlineOf (els ++ els') g = outlineOf els g := by
  unfold outlineOf
  rw [List.take_append_of_le_length h]

omit [Libm F] [Kurbo F] in
theorem outlines_push_new {b : Batch F} {p} (h : PlainInv b p) {T : Affine F}
    (els : List (PathEl F)) (hm : b.canMerge T = false) :
    (b.pushEls els T).outlines = b.outlines ++ [⟨T, els⟩] := by
  rw [pushEls_new els hm, outlines_eq, outlines_eq]
  simp only [List.map_append, List.map_cons, List.map_nil]
  congr 1
  · exact List.map_congr_left fun g hg => outlineOf_append (h.ranges g hg).2
  · simp only [outlineOf, List.take_length, List.drop_left]

omit [Libm F] [Kurbo F] in
theorem outlines_push_merge {b : Batch F} {p} (h : PlainInv b p) {T : Affine F}
    (els : List (PathEl F)) (hm : b.canMerge T = true) :
    ∃ init o, b.outlines = init ++ [o] ∧ p = some o.transform ∧ o.transform.beq T = true ∧
      (b.pushEls els T).outlines = init ++ [⟨o.transform, o.path ++ els⟩] ∧
      b.drawnGeometry ≤ init.length := by
  obtain ⟨hlt, g, hg, hgs, hT⟩ := Batch.canMerge_last hm
  have hst := h.last hlt g hg
  have hgm : g ∈ b.geometries := List.mem_of_getLast? hg
  refine ⟨b.geometries.dropLast.map (outlineOf b.elements), outlineOf b.elements g, ?_, ?_, hT, ?_,
    ?_⟩
  · conv => lhs; rw [outlines_eq, hgs]
    simp
  · rw [h.pend, if_pos hlt, hg]; rfl
  · rw [pushEls_merge els hm hg, outlines_eq]
    simp only [List.map_append, List.map_cons, List.map_nil]
    congr 1
    · refine List.map_congr_left fun g' hg' => outlineOf_append ?_
      exact (h.ranges g' ((List.dropLast_sublist _).subset hg')).2
    · unfold outlineOf
      have := h.ranges g hgm
      simp only [List.take_length, List.cons.injEq, and_true]
      rw [List.drop_append_of_le_length (by omega), hst, List.take_length]
  · rw [List.length_map, List.length_dropLast]; omega

/-- The effect of rendering a part of a group: `L` are its outlines, `tg` what its draws paint. -/
structure PlainStep (b b' : Batch F) (gs : Nat) (pre L : List (Outline F))
    (tg : List (List (Outline F))) (p' : Option (Affine F)) : Prop where
  inv : PlainInv b' p'
  len : b.geometries.length ≤ b'.geometries.length
  own : gs < b'.geometries.length ↔ gs < b.geometries.length ∨ L ≠ []
  before : b'.outlines.take gs = b.outlines.take gs
  same : SameElements (b'.outlines.drop gs) (pre ++ L)
  old : ∀ d ∈ b.draws, b'.painted d = b.painted d
  new : ∃ new, b'.draws = b.draws ++ new ∧
    List.Forall₂ (fun d os => SameElements (b'.painted d) os) new tg

omit [FloatOps F] [Libm F] [Kurbo F] in
theorem painted_of_take {b b' : Batch F} {n : Nat}
    (h : b'.outlines.take n = b.outlines.take n) {d : DrawData F} (hd : d.gstop ≤ n) :
    b'.painted d = b.painted d := by
  unfold Batch.painted
  rw [← Nat.min_eq_left hd, ← List.take_take, h, List.take_take]

omit [Libm F] [Kurbo F] in
theorem plain_push {b : Batch F} {gs : Nat} {p} (h : PlainInv b p) (hgs : gs ≤ b.geometries.length)
    {pre : List (Outline F)} (hpre : SameElements (b.outlines.drop gs) pre) {T : Affine F}
    (els : List (PathEl F))
    (hsep : gs < b.geometries.length ∨ ∀ T0, p = some T0 → T0.beq T = false) :
    PlainStep b (b.pushEls els T) gs pre [⟨T, els⟩] []
      (joinPending p T) := by
  have hf := pushEls_fields b els T
  have hlen := outlines_length b
  have hdr : (b.pushEls els T).outlines.take b.drawnGeometry = b.outlines.take b.drawnGeometry := by
    cases hm : b.canMerge T with
    | true =>
      obtain ⟨init, o, e1, -, -, e2, hle⟩ := outlines_push_merge h els hm
      rw [e1, e2, List.take_append_of_le_length hle, List.take_append_of_le_length hle]
    | false =>
      rw [outlines_push_new h els hm, List.take_append_of_le_length (by rw [hlen]; exact h.drawn)]
  have hold : ∀ d ∈ b.draws, (b.pushEls els T).painted d = b.painted d :=
    fun d hd => painted_of_take hdr (h.draws d hd).2
  have hnew : ∃ new, (b.pushEls els T).draws = b.draws ++ new ∧
      List.Forall₂ (fun d os => SameElements ((b.pushEls els T).painted d) os) new [] :=
    ⟨[], by rw [hf.1, List.append_nil], .nil⟩
  cases hm : b.canMerge T with
  | true =>
    obtain ⟨init, o, e1, e3, e4, e2, hle⟩ := outlines_push_merge h els hm
    obtain ⟨hlt, g, hg, hgs', hT⟩ := Batch.canMerge_last hm
    have hlen2 : (b.pushEls els T).geometries.length = b.geometries.length := by
      rw [← outlines_length, ← outlines_length, e1, e2]; simp
    have hil : b.geometries.length = init.length + 1 := by rw [← hlen, e1]; simp
    have hgs2 : gs < b.geometries.length := by
      rcases hsep with hsep | hsep
      · exact hsep
      · rw [hsep _ e3] at e4; cases e4
    refine ⟨⟨?_, ?_, ?_, ?_, ?_⟩, hf.2.2.2, ?_, ?_, ?_, hold, hnew⟩
    · rw [pushEls_merge els hm hg]
      intro g' hg'
      simp only [List.mem_append, List.mem_singleton] at hg'
      rcases hg' with hg' | rfl
      · have := h.ranges g' ((List.dropLast_sublist _).subset hg')
        simp only [List.length_append]; omega
      · have := h.ranges g (List.mem_of_getLast? hg)
        simp only [List.length_append]; omega
    · rw [hf.1, hf.2.1]; exact h.draws
    · rw [hf.2.1, hlen2]; exact h.drawn
    · rw [pushEls_merge els hm hg]
      intro _ g' hg'
      simp only [List.getLast?_append, List.getLast?_singleton, Option.some_or,
        Option.some.injEq] at hg'
      subst hg'
      rfl
    · rw [hf.2.1, hlen2, if_pos hlt, e3]
      simp only [joinPending, e4, if_true]
      rw [pushEls_merge els hm hg]
      simp only [List.getLast?_append, List.getLast?_singleton, Option.some_or, Option.map_some]
      have := h.pend
      rw [if_pos hlt, hg, e3] at this
      exact this
    · rw [hlen2]; simp [hgs2]
    · rw [e1, e2, List.take_append_of_le_length (by omega), List.take_append_of_le_length (by omega)]
    · rw [e1, List.drop_append_of_le_length (by omega)] at hpre
      rw [e2, List.drop_append_of_le_length (by omega)]
      have e5 : elementsOf (init.drop gs ++ [⟨o.transform, o.path ++ els⟩])
          = elementsOf (init.drop gs ++ [o]) ++ elementsOf [⟨o.transform, els⟩] := by
        rw [elementsOf_append, elementsOf_append, List.append_assoc]
        congr 1
        simp [elementsOf]
      unfold SameElements at *
      rw [e5, elementsOf_append pre]
      refine List.rel_append hpre ?_
      simp only [elementsOf, List.flatMap_cons, List.flatMap_nil, List.append_nil]
      rw [List.forall₂_map_left_iff, List.forall₂_map_right_iff, List.forall₂_same]
      exact fun _ _ => ⟨.inr e4, rfl⟩
  | false =>
    have e2 := outlines_push_new h els hm
    have hlen2 : (b.pushEls els T).geometries.length = b.geometries.length + 1 := by
      rw [← outlines_length, e2]; simp [hlen]
    refine ⟨⟨?_, ?_, ?_, ?_, ?_⟩, hf.2.2.2, ?_, ?_, ?_, hold, hnew⟩
    · rw [pushEls_new els hm]
      intro g' hg'
      simp only [List.mem_append, List.mem_singleton] at hg'
      rcases hg' with hg' | rfl
      · have := h.ranges g' hg'
        simp only [List.length_append]; omega
      · simp
    · rw [hf.1, hf.2.1]; exact h.draws
    · rw [hf.2.1, hlen2]; exact Nat.le_succ_of_le h.drawn
    · rw [pushEls_new els hm]
      intro _ g' hg'
      simp only [List.getLast?_append, List.getLast?_singleton, Option.some_or,
        Option.some.injEq] at hg'
      subst hg'
      rfl
    · rw [hf.2.1, hlen2, if_pos (Nat.lt_succ_of_le h.drawn), pushEls_new els hm]
      simp only [List.getLast?_append, List.getLast?_singleton, Option.some_or, Option.map_some]
      cases hp : p with
      | none => rfl
      | some T0 =>
        have hpe := h.pend
        rw [hp] at hpe
        by_cases hlt : b.drawnGeometry < b.geometries.length
        · rw [if_pos hlt] at hpe
          unfold Batch.canMerge at hm
          cases hgl : b.geometries.getLast? with
          | none => rw [hgl] at hpe; cases hpe
          | some g =>
            rw [hgl] at hpe hm
            simp only [Option.map_some, Option.some.injEq] at hpe
            simp only [hlt, decide_true, Bool.true_and] at hm
            subst hpe
            simp [joinPending, hm]
        · rw [if_neg hlt] at hpe; cases hpe
    · rw [hlen2]; simp; omega
    · rw [e2, List.take_append_of_le_length (by rw [hlen]; exact hgs)]
    · rw [e2, List.drop_append_of_le_length (by rw [hlen]; exact hgs)]
      exact hpre.append (SameElements.refl _)

omit [FloatOps F] [Libm F] [Kurbo F] in
theorem drop_of_take_eq {α : Type} {l l' : List α} {gs n : Nat} (hn : n = l.length) (hgs : gs ≤ n)
    (h : l'.take n = l) : l'.drop gs = l.drop gs ++ l'.drop n := by
  subst hn
  conv => lhs; rw [← List.take_append_drop l.length l', h]
  rw [List.drop_append_of_le_length hgs]

mutual
theorem plain_shape (sh : Shape F) (hpl : sh.Plain) {gs ds : Nat} {T : Affine F} {a fr : F}
    {b b' : Batch F} {p} (h : PlainInv b p) (hgs : gs ≤ b.geometries.length)
    {pre : List (Outline F)} (hpre : SameElements (b.outlines.drop gs) pre)
    (hsep : sh.Separated T fr (decide (gs < b.geometries.length)) p)
    (hr : renderShape sh gs ds T a fr b = .ok b') :
    PlainStep b b' gs pre (sh.leaves T fr) (sh.targets T fr pre) (sh.pending T fr p) := by
  cases sh with
  | group shapes gt =>
    rw [renderShape, groupParams_eq] at hr
    rw [Shape.Plain] at hpl
    rw [Shape.Separated] at hsep
    rw [Shape.leaves, Shape.targets, Shape.pending]
    have hd : SameElements (b.outlines.drop b.geometries.length) [] := by
      rw [← outlines_length, List.drop_length]; exact SameElements.refl _
    have st := plain_shapes shapes hpl h (Nat.le_refl _) hd (by simpa using hsep) hr
    have htk : b'.outlines.take b.geometries.length = b.outlines := by
      rw [st.before, ← outlines_length, List.take_length]
    refine ⟨st.inv, st.len, ?_, ?_, ?_, st.old, st.new⟩
    · have := st.own
      have := st.len
      constructor
      · intro hlt
        by_cases hg2 : gs < b.geometries.length
        · exact .inl hg2
        · right
          have : b.geometries.length < b'.geometries.length := by omega
          rcases st.own.mp this with h1 | h1
          · omega
          · exact h1
      · rintro (h1 | h1)
        · omega
        · have := st.own.mpr (.inr h1); omega
    · rw [← Nat.min_eq_left hgs, ← List.take_take, htk]
      rw [Nat.min_eq_left hgs]
    · rw [drop_of_take_eq (outlines_length b).symm hgs htk]
      exact hpre.append st.same
  | geometry g =>
    rw [renderShape, pushGeometry_eq] at hr
    cases he : g.evaluate fr with
    | error e => rw [he] at hr; cases hr
    | ok els =>
      rw [he] at hr
      cases hr
      rw [Shape.leaves, Shape.targets, Shape.pending, Geometry.pathAt, he]
      · rw [Shape.Separated, decide_eq_true_eq] at hsep
        exact plain_push h hgs hpre els hsep
      all_goals simp
  | draw d =>
    rw [renderShape] at hr
    cases hr
    rw [Shape.leaves, Shape.targets, Shape.pending]
    · have hlen := outlines_length b
      refine ⟨⟨h.ranges, ?_, Nat.le_refl _, ?_, ?_⟩, Nat.le_refl _, ?_, rfl, ?_, fun _ _ => rfl, ?_⟩
      · intro d' hd'
        have hd' : d' ∈ b.draws ++ [_] := hd'
        rw [List.mem_append, List.mem_singleton] at hd'
        rcases hd' with hd' | rfl
        · exact ⟨(h.draws d' hd').1, Nat.le_trans (h.draws d' hd').2 h.drawn⟩
        · exact ⟨hgs, Nat.le_refl _⟩
      · intro hlt; exact absurd hlt (Nat.lt_irrefl _)
      · show none = if b.geometries.length < b.geometries.length then _ else none
        rw [if_neg (Nat.lt_irrefl _)]
      · show gs < b.geometries.length ↔ _
        simp
      · rw [List.append_nil]; exact hpre
      · refine ⟨_, rfl, .cons ?_ .nil⟩
        show SameElements ((b.outlines.take b.geometries.length).drop gs) pre
        rw [← hlen, List.take_length]; exact hpre
    all_goals simp
  | repeater r => rw [Shape.Plain] at hpl; exact hpl.elim
  | trim t => rw [Shape.Plain] at hpl; exact hpl.elim

theorem plain_shapes (shs : List (Shape F)) (hpl : PlainShapes shs) {gs ds : Nat} {T : Affine F}
    {a fr : F} {b b' : Batch F} {p} (h : PlainInv b p) (hgs : gs ≤ b.geometries.length)
    {pre : List (Outline F)} (hpre : SameElements (b.outlines.drop gs) pre)
    (hsep : SeparatedIn T fr (decide (gs < b.geometries.length)) p shs)
    (hr : renderShapesFrom shs gs ds T a fr b = .ok b') :
    PlainStep b b' gs pre (leavesOf T fr shs) (targetsOf T fr pre shs) (pendingOf T fr p shs) := by
  cases shs with
  | nil =>
    rw [renderShapesFrom] at hr
    cases hr
    rw [leavesOf, targetsOf, pendingOf]
    refine ⟨h, Nat.le_refl _, by simp, rfl, by rw [List.append_nil]; exact hpre, fun _ _ => rfl,
      [], by simp, .nil⟩
  | cons sh shs =>
    rw [renderShapesFrom] at hr
    obtain ⟨b1, hb1, hr⟩ := bind_ok hr
    rw [PlainShapes] at hpl
    rw [SeparatedIn] at hsep
    have s1 := plain_shape sh hpl.1 h hgs hpre hsep.1 hb1
    have hown : (decide (gs < b.geometries.length) || !(sh.leaves T fr).isEmpty)
        = decide (gs < b1.geometries.length) := by
      rw [Bool.eq_iff_iff, Bool.or_eq_true, decide_eq_true_eq, decide_eq_true_eq, s1.own]
      simp
    rw [hown] at hsep
    have s2 := plain_shapes shs hpl.2 s1.inv (Nat.le_trans hgs s1.len) s1.same hsep.2 hr
    rw [leavesOf, targetsOf, pendingOf]
    refine ⟨s2.inv, Nat.le_trans s1.len s2.len, ?_, s2.before.trans s1.before, ?_, ?_, ?_⟩
    · rw [s2.own, s1.own]
      simp only [ne_eq, List.append_eq_nil_iff, not_and_or]
      tauto
    · have := s2.same
      rwa [List.append_assoc] at this
    · obtain ⟨n1, e1, -⟩ := s1.new
      intro d hd
      rw [s2.old d (by rw [e1]; simp [hd]), s1.old d hd]
    · obtain ⟨n1, e1, f1⟩ := s1.new
      obtain ⟨n2, e2, f2⟩ := s2.new
      refine ⟨n1 ++ n2, by rw [e2, e1, List.append_assoc], List.rel_append ?_ f2⟩
      have hm : ∀ d ∈ n1, b'.painted d = b1.painted d :=
        fun d hd => s2.old d (by rw [e1]; simp [hd])
      clear e1 e2
      generalize sh.targets T fr pre = tg at f1 ⊢
      induction f1 with
      | nil => exact .nil
      | cons hx _ ih =>
        refine .cons ?_ (ih fun d hd => hm d (List.mem_cons_of_mem _ hd))
        rw [hm _ (List.mem_cons_self ..)]
        exact hx
end

end
end Velato
