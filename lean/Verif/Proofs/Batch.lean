import Verif.Spec.Shapes
import Verif.Proofs.RenderLayer

/-!
# Invariants of the batch
-/

namespace Velato
open FloatOps (lit)

theorem take_drop_append {α : Type} (l l' : List α) {s e : Nat} (he : e ≤ l.length) :
    ((l ++ l').take e).drop s = (l.take e).drop s := by
  rw [List.take_append_of_le_length he]

theorem sliceRange_ok {α : Type} {l : List α} {s e : Nat} (h1 : s ≤ e) (h2 : e ≤ l.length) :
    sliceRange l s e = .ok ((l.take e).drop s) := by
  unfold sliceRange
  rw [if_pos ⟨h1, h2⟩]

theorem sliceRange_tail {α : Type} {l : List α} {s : Nat} (h1 : s ≤ l.length) :
    sliceRange l s l.length = .ok (l.drop s) := by
  rw [sliceRange_ok h1 (Nat.le_refl _), List.take_length]

theorem sliceRange_head {α : Type} {l : List α} {e : Nat} (h1 : e ≤ l.length) :
    sliceRange l 0 e = .ok (l.take e) := by
  rw [sliceRange_ok (Nat.zero_le _) h1, List.drop_zero]

section
variable {F : Type} [FloatOps F] [Libm F] [Kurbo F]

omit [FloatOps F] [Libm F] [Kurbo F] in
theorem bezPathOk_append {a b : List (PathEl F)} (ha : bezPathOk a = true)
    (hb : bezPathOk b = true) : bezPathOk (a ++ b) = true := by
  cases a with
  | nil => exact hb
  | cons e a => cases e <;> simp_all [bezPathOk]

omit [FloatOps F] [Libm F] [Kurbo F] in
theorem bezPathOk_take {a : List (PathEl F)} (n : Nat) (ha : bezPathOk a = true) :
    bezPathOk (a.take n) = true := by
  cases n with
  | zero => rfl
  | succ n =>
    cases a with
    | nil => rfl
    | cons e a => cases e <;> simp_all [bezPathOk]

/-- The invariant of the batch between operations. -/
structure Batch.WF (b : Batch F) : Prop where
  ranges : ∀ g ∈ b.geometries, g.start ≤ g.stop ∧ g.stop ≤ b.elements.length
  starts : ∀ g ∈ b.geometries, bezPathOk (b.elements.drop g.start) = true
  whole : bezPathOk b.elements = true
  repeatGeometries : b.repeatGeometries = []
  repeatDraws : b.repeatDraws = []
  trimElements : b.trimElements = []
  drawn : b.drawnGeometry ≤ b.geometries.length
  last : b.drawnGeometry < b.geometries.length → ∀ g, b.geometries.getLast? = some g →
    g.stop = b.elements.length ∨ (g.start = 0 ∧ g.stop = 0)
  draws : ∀ d ∈ b.draws, d.gstart ≤ d.gstop ∧ d.gstop ≤ b.geometries.length

/-- A group was entered with `gs` geometries and `ds` draws. -/
structure Batch.Scope (b : Batch F) (s : Nat × Nat) : Prop where
  geometries : s.1 ≤ b.geometries.length
  draws : s.2 ≤ b.draws.length
  before : ∀ d ∈ b.draws.take s.2, d.gstop ≤ s.1
  after : ∀ d ∈ b.draws.drop s.2, s.1 ≤ d.gstart

/-- The invariant with the stack of groups. -/
structure Batch.Inv (b : Batch F) (st : List (Nat × Nat)) : Prop where
  wf : b.WF
  scopes : ∀ s ∈ st, b.Scope s
  nested : st.Pairwise fun inner outer => outer.1 ≤ inner.1 ∧ outer.2 ≤ inner.2

omit [FloatOps F] [Libm F] [Kurbo F] in
theorem Batch.WF.slice_ok {b : Batch F} (h : b.WF) {g : GeometryData F} (hg : g ∈ b.geometries) :
    bezPathOk ((b.elements.take g.stop).drop g.start) = true := by
  rw [List.drop_take]
  exact bezPathOk_take _ (h.starts g hg)

omit [FloatOps F] [Libm F] [Kurbo F] in
theorem Batch.Inv.empty : (Batch.empty : Batch F).Inv [(0, 0)] where
  wf := by
    constructor <;> simp [Batch.empty, bezPathOk]
  scopes := by
    intro s hs
    simp only [List.mem_singleton] at hs
    subst hs
    constructor <;> simp [Batch.empty]
  nested := by simp

omit [FloatOps F] [Libm F] [Kurbo F] in
theorem Batch.Inv.enter {b : Batch F} {st} (h : b.Inv st) :
    b.Inv ((b.geometries.length, b.draws.length) :: st) where
  wf := h.wf
  scopes := by
    intro s hs
    rw [List.mem_cons] at hs
    rcases hs with rfl | hs
    · refine ⟨Nat.le_refl _, Nat.le_refl _, ?_, ?_⟩
      · intro d hd
        exact (h.wf.draws d (List.mem_of_mem_take hd)).2
      · simp
    · exact h.scopes s hs
  nested := by
    refine List.pairwise_cons.mpr ⟨fun s hs => ?_, h.nested⟩
    exact ⟨(h.scopes s hs).geometries, (h.scopes s hs).draws⟩

omit [FloatOps F] [Libm F] [Kurbo F] in
theorem Batch.Inv.leave {b : Batch F} {s st} (h : b.Inv (s :: st)) : b.Inv st where
  wf := h.wf
  scopes := fun s' hs => h.scopes s' (List.mem_cons_of_mem s hs)
  nested := (List.pairwise_cons.mp h.nested).2

omit [FloatOps F] [Libm F] [Kurbo F] in
/-- The new geometries and draws of the innermost group determine the outer scopes. -/
theorem Batch.Inv.update {b b' : Batch F} {s st} (h : b.Inv (s :: st)) (hwf : b'.WF)
    (hlen : s.1 ≤ b'.geometries.length) (new : List (DrawData F))
    (hd : b'.draws = b.draws.take s.2 ++ new) (hnew : ∀ d ∈ new, s.1 ≤ d.gstart) :
    b'.Inv (s :: st) where
  wf := hwf
  nested := h.nested
  scopes := by
    have hs := h.scopes s (by simp)
    have hl : (b.draws.take s.2).length = s.2 := by
      rw [List.length_take]; exact Nat.min_eq_left hs.draws
    intro s' hs'
    have hle : s'.1 ≤ s.1 ∧ s'.2 ≤ s.2 := by
      rw [List.mem_cons] at hs'
      rcases hs' with rfl | hs'
      · exact ⟨Nat.le_refl _, Nat.le_refl _⟩
      · exact (List.pairwise_cons.mp h.nested).1 s' hs'
    have hsc := h.scopes s' hs'
    refine ⟨by omega, ?_, ?_, ?_⟩
    · rw [hd, List.length_append, hl]; omega
    · rw [hd, List.take_append_of_le_length (by omega), List.take_take,
        Nat.min_eq_left hle.2]
      exact hsc.before
    · rw [hd, List.drop_append_of_le_length (by omega)]
      intro d hd'
      rw [List.mem_append] at hd'
      rcases hd' with hd' | hd'
      · refine hsc.after d ?_
        rw [List.drop_take] at hd'
        exact List.mem_of_mem_take hd'
      · exact Nat.le_trans hle.1 (hnew d hd')

/-! ## push_geometry -/

omit [Libm F] [Kurbo F] in
theorem Batch.canMerge_last {b : Batch F} {T : Affine F} (h : b.canMerge T = true) :
    b.drawnGeometry < b.geometries.length ∧ ∃ g, b.geometries.getLast? = some g ∧
      b.geometries = b.geometries.dropLast ++ [g] ∧ g.transform.beq T = true := by
  unfold Batch.canMerge at h
  rw [Bool.and_eq_true, decide_eq_true_eq] at h
  obtain ⟨h1, h2⟩ := h
  cases hl : b.geometries.getLast? with
  | none => rw [hl] at h2; cases h2
  | some g =>
    rw [hl] at h2
    refine ⟨h1, g, rfl, ?_, h2⟩
    have hne : b.geometries ≠ [] := by rintro h; rw [h] at hl; cases hl
    rw [List.getLast?_eq_some_getLast hne] at hl
    cases hl
    exact (List.dropLast_concat_getLast hne).symm

/-- `pushGeometry` without the evaluation: the elements are given. -/
def Batch.pushEls (b : Batch F) (els : List (PathEl F)) (T : Affine F) : Batch F :=
  if b.canMerge T then
    match b.geometries.getLast? with
    | some last =>
      { b with
        elements := b.elements ++ els
        geometries := b.geometries.dropLast
          ++ [{ last with stop := (b.elements ++ els).length }] }
    | none => { b with elements := b.elements ++ els }
  else
    { b with
      elements := b.elements ++ els
      geometries := b.geometries ++ [⟨b.elements.length, (b.elements ++ els).length, T⟩] }

theorem pushGeometry_eq (b : Batch F) (g : Geometry F) (T : Affine F) (fr : F) :
    b.pushGeometry g T fr = (g.evaluate fr).map fun els => b.pushEls els T := by
  unfold Batch.pushGeometry Batch.pushEls
  cases g.evaluate fr with
  | error e => rfl
  | ok els =>
    show (if b.canMerge T = true then _ else _) = Except.ok _
    split
    · cases b.geometries.getLast? <;> rfl
    · rfl

omit [Libm F] [Kurbo F] in
theorem pushEls_merge {b : Batch F} {T : Affine F} (els : List (PathEl F))
    (h : b.canMerge T = true) {g : GeometryData F} (hg : b.geometries.getLast? = some g) :
    b.pushEls els T = { b with
        elements := b.elements ++ els
        geometries := b.geometries.dropLast
          ++ [{ g with stop := (b.elements ++ els).length }] } := by
  unfold Batch.pushEls
  rw [if_pos h, hg]

omit [Libm F] [Kurbo F] in
theorem pushEls_new {b : Batch F} {T : Affine F} (els : List (PathEl F))
    (h : b.canMerge T = false) :
    b.pushEls els T = { b with
      elements := b.elements ++ els
      geometries := b.geometries ++ [⟨b.elements.length, (b.elements ++ els).length, T⟩] } := by
  unfold Batch.pushEls
  rw [if_neg (by simp [h])]

omit [Libm F] [Kurbo F] in
theorem pushEls_fields (b : Batch F) (els : List (PathEl F)) (T : Affine F) :
    (b.pushEls els T).draws = b.draws ∧ (b.pushEls els T).drawnGeometry = b.drawnGeometry ∧
    (b.pushEls els T).elements = b.elements ++ els ∧
    b.geometries.length ≤ (b.pushEls els T).geometries.length := by
  unfold Batch.pushEls
  split
  · rename_i h
    obtain ⟨_, g, hg, hgs, _⟩ := Batch.canMerge_last h
    rw [hg]
    refine ⟨rfl, rfl, rfl, ?_⟩
    conv => lhs; rw [hgs]
    simp
  · simp

omit [Libm F] [Kurbo F] in
theorem pushEls_wf {b : Batch F} (h : b.WF) {els : List (PathEl F)} (hels : bezPathOk els = true)
    (T : Affine F) : (b.pushEls els T).WF := by
  have hstarts : ∀ g ∈ b.geometries, bezPathOk ((b.elements ++ els).drop g.start) = true := by
    intro g hg
    have := h.ranges g hg
    rw [List.drop_append_of_le_length (by omega)]
    exact bezPathOk_append (h.starts g hg) hels
  cases hm : b.canMerge T with
  | true =>
    obtain ⟨hdr, g, hg, hgs, _⟩ := Batch.canMerge_last hm
    have hgm : g ∈ b.geometries := List.mem_of_getLast? hg
    have hlen : b.geometries.length = b.geometries.dropLast.length + 1 := by
      conv => lhs; rw [hgs]
      simp
    have hin : ∀ g', g' ∈ b.geometries.dropLast → g' ∈ b.geometries :=
      fun g' h' => (List.dropLast_sublist _).subset h'
    rw [pushEls_merge els hm hg]
    refine ⟨?_, ?_, bezPathOk_append h.whole hels, h.repeatGeometries, h.repeatDraws,
      h.trimElements, ?_, ?_, ?_⟩
    · intro g' hg'
      simp only [List.mem_append, List.mem_singleton] at hg'
      rcases hg' with hg' | rfl
      · have := h.ranges g' (hin g' hg')
        simp only [List.length_append]; omega
      · have := h.ranges g hgm
        simp only [List.length_append]; omega
    · intro g' hg'
      simp only [List.mem_append, List.mem_singleton] at hg'
      rcases hg' with hg' | rfl
      · exact hstarts g' (hin g' hg')
      · exact hstarts g hgm
    · show b.drawnGeometry ≤ (b.geometries.dropLast ++ [_]).length
      rw [List.length_append, List.length_singleton, ← hlen]
      exact h.drawn
    · intro _ g' hg'
      simp only [List.getLast?_append, List.getLast?_singleton, Option.some_or,
        Option.some.injEq] at hg'
      subst hg'
      exact .inl rfl
    · intro d hd
      show _ ∧ d.gstop ≤ (b.geometries.dropLast ++ [_]).length
      rw [List.length_append, List.length_singleton, ← hlen]
      exact h.draws d hd
  | false =>
    rw [pushEls_new els hm]
    refine ⟨?_, ?_, bezPathOk_append h.whole hels, h.repeatGeometries, h.repeatDraws,
      h.trimElements, ?_, ?_, ?_⟩
    · intro g' hg'
      simp only [List.mem_append, List.mem_singleton] at hg'
      rcases hg' with hg' | rfl
      · have := h.ranges g' hg'
        simp only [List.length_append]; omega
      · simp
    · intro g' hg'
      simp only [List.mem_append, List.mem_singleton] at hg'
      rcases hg' with hg' | rfl
      · exact hstarts g' hg'
      · simp only [List.drop_left]
        exact hels
    · show b.drawnGeometry ≤ (b.geometries ++ [_]).length
      have := h.drawn
      simp only [List.length_append, List.length_singleton]; omega
    · intro _ g' hg'
      simp only [List.getLast?_append, List.getLast?_singleton, Option.some_or,
        Option.some.injEq] at hg'
      subst hg'
      exact .inl rfl
    · intro d hd
      have := h.draws d hd
      show _ ∧ d.gstop ≤ (b.geometries ++ [_]).length
      simp only [List.length_append, List.length_singleton]; omega

omit [Libm F] [Kurbo F] in
theorem pushEls_inv {b : Batch F} {s st} (h : b.Inv (s :: st)) {els : List (PathEl F)}
    (hels : bezPathOk els = true) (T : Affine F) : (b.pushEls els T).Inv (s :: st) := by
  obtain ⟨h1, -, -, h4⟩ := pushEls_fields b els T
  have hs := h.scopes s (by simp)
  refine h.update (pushEls_wf h.wf hels T) (Nat.le_trans hs.geometries h4) (b.draws.drop s.2)
    (by rw [h1, List.take_append_drop]) hs.after

/-! ## push_draw -/

theorem pushDraw_inv {b : Batch F} {s st} (h : b.Inv (s :: st)) (d : Draw F) (a fr : F) :
    (b.pushDraw d a s.1 fr).Inv (s :: st) := by
  have hs := h.scopes s (by simp)
  refine h.update ?_ hs.geometries (b.draws.drop s.2 ++ [DrawData.new d a s.1 b.geometries.length fr])
    ?_ ?_
  · refine ⟨h.wf.ranges, h.wf.starts, h.wf.whole, h.wf.repeatGeometries, h.wf.repeatDraws,
      h.wf.trimElements, Nat.le_refl _, fun h' => absurd h' (Nat.lt_irrefl _), ?_⟩
    intro d' hd'
    simp only [Batch.pushDraw, List.mem_append, List.mem_singleton] at hd'
    rcases hd' with hd' | rfl
    · exact h.wf.draws d' hd'
    · exact ⟨hs.geometries, Nat.le_refl _⟩
  · show b.draws ++ _ = _
    rw [← List.append_assoc, List.take_append_drop]
  · intro d' hd'
    rw [List.mem_append, List.mem_singleton] at hd'
    rcases hd' with hd' | rfl
    · exact hs.after d' hd'
    · exact Nat.le_refl _

/-! ## repeat -/

omit [Libm F] [Kurbo F] in
/-- One repeated draw. -/
def repDraw (r : FixedRepeater F) (gs i : Nat) (d : DrawData F) : DrawData F :=
  { d with
    alpha := d.alpha *. repeatAlpha r i
    gstart := gs + (d.gstart - gs) * r.copies
    gstop := gs + (d.gstart - gs) * r.copies + (d.gstop - d.gstart) * r.copies }

omit [Libm F] [Kurbo F] in
/-- The repeated draws. -/
def repDraws (r : FixedRepeater F) (gs : Nat) (ds : List (DrawData F)) : List (DrawData F) :=
  (List.range r.copies).flatMap fun i =>
    if repeatAlpha r i <=. lit 0 then [] else ds.map (repDraw r gs i)

theorem mapM_ok_map {α β : Type} {f : α → Except Fault β} {g : α → β} {l : List α}
    (h : ∀ x ∈ l, f x = .ok (g x)) : l.mapM f = .ok (l.map g) := by
  induction l with
  | nil => rfl
  | cons x l ih =>
    rw [mapM_cons', h x (by simp), ih fun y hy => h y (by simp [hy])]
    rfl

omit [Libm F] [Kurbo F] in
theorem repeatDrawList_ok (r : FixedRepeater F) (gs : Nat) {ds : List (DrawData F)}
    (h : ∀ d ∈ ds, gs ≤ d.gstart ∧ d.gstart ≤ d.gstop) :
    repeatDrawList r gs ds = .ok (repDraws r gs ds) := by
  unfold repeatDrawList
  rw [mapM_ok_map (g := fun i => if repeatAlpha r i <=. lit 0 then [] else ds.map (repDraw r gs i))]
  · show Except.ok _ = _
    rw [repDraws, List.flatMap_def]
  · intro i _
    dsimp only
    split
    · rfl
    · refine mapM_ok_map fun d hd => ?_
      unfold repeatDraw checkedSub
      rw [if_pos (h d hd).2, if_pos (h d hd).1]
      rfl

theorem flatMap_const_length {α β : Type} {f : α → List β} {n : Nat} :
    ∀ (l : List α), (∀ x ∈ l, (f x).length = n) → (l.flatMap f).length = l.length * n
  | [], _ => by simp
  | x :: l, h => by
    rw [List.flatMap_cons, List.length_append, h x (by simp),
      flatMap_const_length l fun y hy => h y (by simp [hy]), List.length_cons, Nat.succ_mul]
    omega

omit [Kurbo F] in
theorem repeatGeomList_length (r : FixedRepeater F) (gs : List (GeometryData F)) :
    (repeatGeomList r gs).length = gs.length * r.copies :=
  flatMap_const_length gs fun g _ => by simp

omit [Kurbo F] in
/-- The result of a repeater, panics excluded. -/
def Batch.repeated (b : Batch F) (r : FixedRepeater F) (gs ds : Nat) : Batch F :=
  { b with
    geometries := b.geometries.take gs ++ repeatGeomList r (b.geometries.drop gs)
    draws := b.draws.take ds ++ repDraws r gs (b.draws.drop ds)
    repeatGeometries := []
    repeatDraws := []
    drawnGeometry := (b.geometries.take gs ++ repeatGeomList r (b.geometries.drop gs)).length }

omit [Kurbo F] in
theorem repeat_ok {b : Batch F} {s st} (h : b.Inv (s :: st)) (r : FixedRepeater F) :
    b.repeat r s.1 s.2 = .ok (b.repeated r s.1 s.2) := by
  have hs := h.scopes s (by simp)
  unfold Batch.repeat
  rw [sliceRange_tail hs.geometries, sliceRange_tail hs.draws]
  show (repeatDrawList r s.1 (b.repeatDraws ++ b.draws.drop s.2) >>= _) = _
  rw [h.wf.repeatDraws, List.nil_append, repeatDrawList_ok]
  · show Except.ok _ = _
    rw [h.wf.repeatGeometries, List.nil_append]
    rfl
  · intro d hd
    exact ⟨hs.after d hd, (h.wf.draws d (List.mem_of_mem_drop hd)).1⟩

omit [Kurbo F] in
theorem repeated_length {b : Batch F} (r : FixedRepeater F) {gs : Nat} (ds : Nat)
    (h : gs ≤ b.geometries.length) :
    (b.repeated r gs ds).geometries.length = gs + (b.geometries.length - gs) * r.copies := by
  show (b.geometries.take gs ++ repeatGeomList r (b.geometries.drop gs)).length = _
  rw [List.length_append, repeatGeomList_length, List.length_take, List.length_drop,
    Nat.min_eq_left h]

omit [Libm F] [Kurbo F] in
theorem mem_repDraws {r : FixedRepeater F} {gs : Nat} {ds : List (DrawData F)} {d : DrawData F}
    (h : d ∈ repDraws r gs ds) : ∃ i, i < r.copies ∧ ∃ d' ∈ ds, d = repDraw r gs i d' := by
  unfold repDraws at h
  rw [List.mem_flatMap] at h
  obtain ⟨i, hi, h⟩ := h
  split at h
  · cases h
  · rw [List.mem_map] at h
    obtain ⟨d', hd', rfl⟩ := h
    exact ⟨i, List.mem_range.mp hi, d', hd', rfl⟩

omit [Kurbo F] in
theorem repeated_mem {b : Batch F} {r : FixedRepeater F} {gs ds : Nat} {g : GeometryData F}
    (h : g ∈ (b.repeated r gs ds).geometries) :
    ∃ g' ∈ b.geometries, g.start = g'.start ∧ g.stop = g'.stop := by
  simp only [Batch.repeated, List.mem_append, repeatGeomList, List.mem_flatMap, List.mem_map] at h
  rcases h with h | ⟨g', hg', i, _, rfl⟩
  · exact ⟨g, List.mem_of_mem_take h, rfl, rfl⟩
  · exact ⟨g', List.mem_of_mem_drop hg', rfl, rfl⟩

omit [Kurbo F] in
theorem repeated_inv {b : Batch F} {s st} (h : b.Inv (s :: st)) (r : FixedRepeater F) :
    (b.repeated r s.1 s.2).Inv (s :: st) := by
  have hs := h.scopes s (by simp)
  have hlen := repeated_length r s.2 hs.geometries
  refine h.update ⟨?_, ?_, h.wf.whole, rfl, rfl, h.wf.trimElements, Nat.le_refl _,
    fun h' => absurd h' (Nat.lt_irrefl _), ?_⟩ (by omega) _ rfl ?_
  · intro g hg
    obtain ⟨g', hg', h1, h2⟩ := repeated_mem hg
    rw [h1, h2]
    exact h.wf.ranges g' hg'
  · intro g hg
    obtain ⟨g', hg', h1, h2⟩ := repeated_mem hg
    rw [h1]
    exact h.wf.starts g' hg'
  · intro d hd
    rw [hlen]
    replace hd : d ∈ b.draws.take s.2 ++ repDraws r s.1 (b.draws.drop s.2) := hd
    rw [List.mem_append] at hd
    rcases hd with hd | hd
    · exact ⟨(h.wf.draws d (List.mem_of_mem_take hd)).1,
        Nat.le_trans (hs.before d hd) (Nat.le_add_right _ _)⟩
    · obtain ⟨i, -, d', hd', rfl⟩ := mem_repDraws hd
      have h1 := hs.after d' hd'
      have h2 := h.wf.draws d' (List.mem_of_mem_drop hd')
      refine ⟨Nat.le_add_right _ _, ?_⟩
      show s.1 + (d'.gstart - s.1) * r.copies + (d'.gstop - d'.gstart) * r.copies ≤ _
      rw [Nat.add_assoc, ← Nat.add_mul]
      exact Nat.add_le_add_left (Nat.mul_le_mul_right _ (by omega)) _
  · intro d hd
    obtain ⟨i, -, d', hd', rfl⟩ := mem_repDraws hd
    exact Nat.le_add_right _ _

/-! ## apply_trim -/

omit [Libm F] in
/-- The trimmed path, panic excluded. -/
def trimmed (first : F × F) (second : Option (F × F)) (els : List (PathEl F)) : List (PathEl F) :=
  if (totalLength (segments els) <=. lit 0) || (segments els).isEmpty then []
  else (first :: second.toList).flatMap fun range =>
    trimSegs (range.1 *. totalLength (segments els)) (range.2 *. totalLength (segments els))
      (segments els) (lit 0) true

omit [Libm F] in
theorem trimPath_ok {first : F × F} {second : Option (F × F)} {els : List (PathEl F)}
    (h : bezPathOk els = true) : trimPath first second els = .ok (trimmed first second els) := by
  unfold trimPath trimmed
  rw [h]
  simp only [Bool.not_true, Bool.false_eq_true, if_false]
  split <;> rfl

omit [Libm F] in
theorem trimSegs_starts (a b : F) :
    ∀ (segs : List (PathSeg F)) (c : F), bezPathOk (trimSegs a b segs c true) = true
  | [], _ => rfl
  | seg :: segs, c => by
    unfold trimSegs
    simp only []
    split
    · exact trimSegs_starts a b segs _
    · split
      · rfl
      · repeat' first | rfl | exact trimSegs_starts a b segs _ | split

omit [FloatOps F] [Libm F] [Kurbo F] in
theorem bezPathOk_flatMap {α : Type} {f : α → List (PathEl F)} :
    ∀ l : List α, (∀ x ∈ l, bezPathOk (f x) = true) → bezPathOk (l.flatMap f) = true
  | [], _ => rfl
  | x :: l, h => by
    rw [List.flatMap_cons]
    exact bezPathOk_append (h x (by simp)) (bezPathOk_flatMap l fun y hy => h y (by simp [hy]))

omit [Libm F] in
theorem trimmed_starts (first : F × F) (second : Option (F × F)) (els : List (PathEl F)) :
    bezPathOk (trimmed first second els) = true := by
  unfold trimmed
  split
  · rfl
  · exact bezPathOk_flatMap _ fun _ _ => trimSegs_starts _ _ _ _

/-- Geometries laid out one after the other. -/
def layout : List (Outline F) → Nat → List (GeometryData F)
  | [], _ => []
  | o :: os, n => ⟨n, n + o.path.length, o.transform⟩ :: layout os (n + o.path.length)

omit [FloatOps F] [Libm F] [Kurbo F] in
theorem layout_length : ∀ (os : List (Outline F)) (n : Nat), (layout os n).length = os.length
  | [], _ => rfl
  | o :: os, n => by simp [layout, layout_length os]

omit [FloatOps F] [Libm F] [Kurbo F] in
theorem layout_append : ∀ (os os' : List (Outline F)) (n : Nat),
    layout (os ++ os') n = layout os n ++ layout os' (n + (os.flatMap (·.path)).length)
  | [], _, _ => rfl
  | o :: os, os', n => by
    simp only [List.cons_append, layout, layout_append os, List.flatMap_cons, List.length_append,
      Nat.add_assoc]

omit [FloatOps F] [Libm F] [Kurbo F] in
theorem layout_outlines : ∀ (os : List (Outline F)) (pre : List (PathEl F)),
    (layout os pre.length).map (fun g => (⟨g.transform,
      ((pre ++ os.flatMap (·.path)).take g.stop).drop g.start⟩ : Outline F)) = os
  | [], _ => rfl
  | o :: os, pre => by
    have ih := layout_outlines os (pre ++ o.path)
    rw [layout, List.map_cons]
    congr 1
    · obtain ⟨T, p⟩ := o
      simp only [List.flatMap_cons]
      rw [← List.append_assoc, List.take_append_of_le_length (by simp),
        List.take_of_length_le (by simp), List.drop_left]
    · rw [List.length_append] at ih
      rw [List.flatMap_cons, ← List.append_assoc]
      exact ih

omit [FloatOps F] [Libm F] [Kurbo F] in
theorem layout_wf : ∀ (os : List (Outline F)) (pre : List (PathEl F)),
    (∀ o ∈ os, bezPathOk o.path = true) → ∀ g ∈ layout os pre.length,
      g.start ≤ g.stop ∧ g.stop ≤ (pre ++ os.flatMap (·.path)).length ∧
      bezPathOk ((pre ++ os.flatMap (·.path)).drop g.start) = true
  | [], _, _, g, hg => by cases hg
  | o :: os, pre, h, g, hg => by
    rw [layout, List.mem_cons] at hg
    rcases hg with rfl | hg
    · refine ⟨Nat.le_add_right _ _, by simp, ?_⟩
      simp only [List.drop_left]
      exact bezPathOk_flatMap _ h
    · have := layout_wf os (pre ++ o.path) (fun o' ho' => h o' (by simp [ho'])) g
        (by rw [List.length_append]; exact hg)
      rw [List.flatMap_cons, ← List.append_assoc]
      exact this

omit [FloatOps F] [Libm F] [Kurbo F] in
theorem layout_last (os : List (Outline F)) (n : Nat) (g : GeometryData F)
    (h : (layout os n).getLast? = some g) : g.stop = n + (os.flatMap (·.path)).length := by
  induction os generalizing n with
  | nil => cases h
  | cons o os ih =>
    rw [layout] at h
    cases os with
    | nil =>
      simp only [layout, List.getLast?_singleton, Option.some.injEq] at h
      subst h
      simp
    | cons o' os =>
      rw [layout, List.getLast?_cons_cons, ← layout] at h
      rw [ih _ h, List.flatMap_cons (x := o), List.length_append]
      omega

/-- The outline of a geometry. -/
def outlineOf (els : List (PathEl F)) (g : GeometryData F) : Outline F :=
  ⟨g.transform, (els.take g.stop).drop g.start⟩

omit [FloatOps F] [Libm F] [Kurbo F] in
theorem copyElements_ok {els : List (PathEl F)} :
    ∀ {gs : List (GeometryData F)}, (∀ g ∈ gs, g.start ≤ g.stop ∧ g.stop ≤ els.length) →
      ∀ acc, copyElements els gs acc = .ok (acc ++ (gs.map (outlineOf els)).flatMap (·.path))
  | [], _, acc => by simp [copyElements]
  | g :: gs, h, acc => by
    rw [copyElements, sliceRange_ok (h g (by simp)).1 (h g (by simp)).2]
    show copyElements els gs _ = _
    rw [copyElements_ok fun g' hg' => h g' (by simp [hg'])]
    simp [outlineOf]

omit [FloatOps F] [Libm F] [Kurbo F] in
theorem renumber_eq {els : List (PathEl F)} :
    ∀ {gs : List (GeometryData F)}, (∀ g ∈ gs, g.start ≤ g.stop ∧ g.stop ≤ els.length) →
      ∀ n, renumber gs n = layout (gs.map (outlineOf els)) n
  | [], _, _ => rfl
  | g :: gs, h, n => by
    have hg := h g (by simp)
    rw [renumber, List.map_cons, layout, renumber_eq fun g' hg' => h g' (by simp [hg'])]
    have : (outlineOf els g).path.length = g.stop - g.start := by
      simp only [outlineOf, List.length_drop, List.length_take]; omega
    rw [this]
    rfl

omit [Libm F] in
theorem trimGeoms_ok {first : F × F} {second : Option (F × F)} {els : List (PathEl F)} :
    ∀ {gs : List (GeometryData F)}, (∀ g ∈ gs, g.start ≤ g.stop ∧ g.stop ≤ els.length) →
      (∀ g ∈ gs, bezPathOk ((els.take g.stop).drop g.start) = true) →
      ∀ acc, trimGeoms first second els gs acc
        = .ok (acc ++ (gs.map (outlineOf els)).flatMap (fun o => trimmed first second o.path),
          layout ((gs.map (outlineOf els)).map fun o => ⟨o.transform, trimmed first second o.path⟩)
            acc.length)
  | [], _, _, acc => by simp [trimGeoms, layout]
  | g :: gs, h, h', acc => by
    rw [trimGeoms, sliceRange_ok (h g (by simp)).1 (h g (by simp)).2]
    show (trimPath first second _ >>= _) = _
    rw [trimPath_ok (h' g (by simp))]
    show (trimGeoms first second els gs _ >>= _) = _
    rw [trimGeoms_ok (fun g' hg' => h g' (by simp [hg'])) (fun g' hg' => h' g' (by simp [hg']))]
    show Except.ok _ = _
    simp [outlineOf, layout]

omit [Libm F] in
/-- The outlines after a trim that is neither empty nor full. -/
def trimOutlines (first : F × F) (second : Option (F × F)) (gs : Nat) (os : List (Outline F)) :
    List (Outline F) :=
  os.take gs ++ (os.drop gs).map fun o => ⟨o.transform, trimmed first second o.path⟩

omit [Libm F] in
/-- The result of a trim, panics excluded. -/
def Batch.trimmed (b : Batch F) (t : FixedTrim F) (gs : Nat) : Batch F :=
  match t.normalized with
  | none =>
    { b with
      geometries := b.geometries.take gs
        ++ (b.geometries.drop gs).map fun g => { g with start := 0, stop := 0 } }
  | some (first, second) =>
    if (first.1 <=. tiny) && ((lit 1 -. tiny) <=. first.2) && second.isNone then b
    else
      { b with
        elements := (trimOutlines first second gs b.outlines).flatMap (·.path)
        geometries := layout (trimOutlines first second gs b.outlines) 0
        trimElements := [] }

omit [Libm F] in
theorem applyTrim_ok {b : Batch F} (h : b.WF) {gs : Nat} (hgs : gs ≤ b.geometries.length)
    (t : FixedTrim F) : b.applyTrim t gs = .ok (b.trimmed t gs) := by
  unfold Batch.applyTrim Batch.trimmed
  cases t.normalized with
  | none =>
    dsimp only
    rw [sliceRange_tail hgs]
    rfl
  | some p =>
    obtain ⟨first, second⟩ := p
    dsimp only
    split
    · rfl
    · have h1 : ∀ g ∈ b.geometries.take gs, g.start ≤ g.stop ∧ g.stop ≤ b.elements.length :=
        fun g hg => h.ranges g (List.mem_of_mem_take hg)
      have h2 : ∀ g ∈ b.geometries.drop gs, g.start ≤ g.stop ∧ g.stop ≤ b.elements.length :=
        fun g hg => h.ranges g (List.mem_of_mem_drop hg)
      rw [sliceRange_head hgs, sliceRange_tail hgs]
      show (copyElements b.elements (b.geometries.take gs) b.trimElements >>= _) = _
      rw [copyElements_ok h1, h.trimElements]
      show (trimGeoms first second b.elements (b.geometries.drop gs) _ >>= _) = _
      rw [trimGeoms_ok h2 fun g hg => h.slice_ok (List.mem_of_mem_drop hg)]
      show Except.ok _ = _
      rw [renumber_eq h1, trimOutlines, List.flatMap_append, layout_append]
      have ho : b.outlines = b.geometries.map (outlineOf b.elements) := rfl
      rw [ho, ← List.map_take, ← List.map_drop, List.flatMap_map (l := List.map _ (b.geometries.drop gs))]
      congr 2
      rw [List.nil_append, Nat.zero_add]

omit [Libm F] in
theorem trimmed_length (b : Batch F) (t : FixedTrim F) (gs : Nat) :
    (b.trimmed t gs).geometries.length = b.geometries.length := by
  unfold Batch.trimmed
  cases t.normalized with
  | none =>
    dsimp only
    rw [List.length_append, List.length_map, ← List.length_append, List.take_append_drop]
  | some p =>
    dsimp only
    split
    · rfl
    · rw [layout_length, trimOutlines, List.length_append, List.length_map, ← List.length_append,
        List.take_append_drop, Batch.outlines, List.length_map]

omit [Libm F] in
theorem trimmed_fields (b : Batch F) (t : FixedTrim F) (gs : Nat) :
    (b.trimmed t gs).draws = b.draws ∧ (b.trimmed t gs).drawnGeometry = b.drawnGeometry := by
  unfold Batch.trimmed
  cases t.normalized with
  | none => exact ⟨rfl, rfl⟩
  | some p =>
    dsimp only
    split <;> exact ⟨rfl, rfl⟩

omit [Libm F] in
theorem trimOutlines_starts {b : Batch F} (h : b.WF) (first : F × F) (second : Option (F × F))
    (gs : Nat) : ∀ o ∈ trimOutlines first second gs b.outlines, bezPathOk o.path = true := by
  intro o ho
  rw [trimOutlines, List.mem_append, List.mem_map] at ho
  rcases ho with ho | ⟨o', _, rfl⟩
  · have := List.mem_of_mem_take ho
    rw [Batch.outlines, List.mem_map] at this
    obtain ⟨g, hg, rfl⟩ := this
    exact h.slice_ok hg
  · exact trimmed_starts _ _ _

omit [Libm F] in
theorem trimmed_wf {b : Batch F} (h : b.WF) (t : FixedTrim F) (gs : Nat) :
    (b.trimmed t gs).WF := by
  have hl := trimmed_length b t gs
  have hf := trimmed_fields b t gs
  have hdr : (b.trimmed t gs).drawnGeometry ≤ (b.trimmed t gs).geometries.length := by
    rw [hl, hf.2]; exact h.drawn
  have hds : ∀ d ∈ (b.trimmed t gs).draws, d.gstart ≤ d.gstop ∧
      d.gstop ≤ (b.trimmed t gs).geometries.length := by
    rw [hl, hf.1]; exact h.draws
  revert hl hf hdr hds
  unfold Batch.trimmed
  cases t.normalized with
  | none =>
    dsimp only
    intro hl hf hdr hds
    refine ⟨?_, ?_, h.whole, h.repeatGeometries, h.repeatDraws, h.trimElements, hdr, ?_, hds⟩
    · intro g hg
      simp only [List.mem_append, List.mem_map] at hg
      rcases hg with hg | ⟨g', _, rfl⟩
      · exact h.ranges g (List.mem_of_mem_take hg)
      · simp
    · intro g hg
      simp only [List.mem_append, List.mem_map] at hg
      rcases hg with hg | ⟨g', _, rfl⟩
      · exact h.starts g (List.mem_of_mem_take hg)
      · simpa using h.whole
    · intro hlt g hg
      dsimp only at hlt hg
      rw [hl] at hlt
      cases hd : b.geometries.drop gs with
      | nil =>
        rw [hd, List.map_nil, List.append_nil] at hg
        have : b.geometries.take gs = b.geometries :=
          List.take_of_length_le (List.drop_eq_nil_iff.mp hd)
        rw [this] at hg
        exact h.last hlt g hg
      | cons g0 gs' =>
        rw [hd, List.getLast?_append, List.getLast?_eq_some_getLast (by simp), Option.some_or,
          Option.some.injEq] at hg
        have := List.getLast_mem (l := List.map (fun g : GeometryData F =>
          { g with start := 0, stop := 0 }) (g0 :: gs')) (by simp)
        rw [hg, List.mem_map] at this
        obtain ⟨g', _, rfl⟩ := this
        exact .inr ⟨rfl, rfl⟩
  | some p =>
    obtain ⟨first, second⟩ := p
    dsimp only
    split
    · exact fun _ _ _ _ => h
    · intro hl hf hdr hds
      have hlw := layout_wf (trimOutlines first second gs b.outlines) []
        (trimOutlines_starts h _ _ _)
      refine ⟨fun g hg => ?_, fun g hg => ?_, ?_, h.repeatGeometries, h.repeatDraws, rfl, hdr, ?_,
        hds⟩
      · exact ⟨(hlw g hg).1, (hlw g hg).2.1⟩
      · exact (hlw g hg).2.2
      · exact bezPathOk_flatMap _ (trimOutlines_starts h _ _ _)
      · intro _ g hg
        have := layout_last _ _ _ hg
        rw [Nat.zero_add] at this
        exact .inl this

omit [Libm F] in
theorem trimmed_inv {b : Batch F} {s st} (h : b.Inv (s :: st)) (t : FixedTrim F) :
    (b.trimmed t s.1).Inv (s :: st) := by
  have hs := h.scopes s (by simp)
  refine h.update (trimmed_wf h.wf t s.1)
    (by rw [trimmed_length]; exact hs.geometries) (b.draws.drop s.2) ?_ hs.after
  rw [(trimmed_fields b t s.1).1, List.take_append_drop]

/-! ## The states of the renderer -/

theorem MidRender.inv {b : Batch F} {st} (h : MidRender b st) : b.Inv st := by
  induction h with
  | start => exact Batch.Inv.empty
  | enter _ ih => exact ih.enter
  | leave _ ih => exact ih.leave
  | geometry _ hg hb ih =>
    rw [pushGeometry_eq] at hb
    rename_i b b' s st g T fr _
    cases he : g.evaluate fr with
    | error e => rw [he] at hb; cases hb
    | ok els =>
      rw [he] at hb
      cases hb
      exact pushEls_inv ih (hg els he) T
  | draw d a fr _ ih => exact pushDraw_inv ih d a fr
  | repeater _ hb ih =>
    rw [repeat_ok ih] at hb
    cases hb
    exact repeated_inv ih _
  | trim _ hb ih =>
    rw [applyTrim_ok ih.wf (ih.scopes _ (by simp)).geometries] at hb
    cases hb
    exact trimmed_inv ih _

end
end Velato
