import Verif.Proofs.Outlines
import Verif.Spec.Examples
import Verif.Num.Real
import Mathlib.Tactic.Ring

/-!
# C22, C23, C25, C26 — trims and repeaters
-/

namespace Velato
open FloatOps (lit)

section
variable {F : Type} [FloatOps F] [Libm F] [Kurbo F]

/-- The states `MidRender` are those of the renderer: rendering any list of shapes into an empty
batch, and into the innermost group of any such state, only leads to such states. -/
theorem C22_states (shs : List (Shape F)) {s : Nat × Nat} {st} {T : Affine F} {a fr : F}
    {b b' : Batch F} (h : MidRender b (s :: st)) (hg : ∀ g ∈ geometriesOf shs, g.StartsOk fr)
    (hb : renderShapesFrom shs s.1 s.2 T a fr b = .ok b') : MidRender b' (s :: st) :=
  MidRender.shapes shs h hg hb

/-- **C22**: in every state of the renderer, applying a trim in a group that was entered with `gs`
geometries succeeds; it leaves the outline of every geometry outside the group unchanged, changes no
transform, no draw and not the number of geometries, and all later lookups are in bounds. -/
theorem C22_trim_scope {b : Batch F} {gs ds : Nat} {st} (h : MidRender b ((gs, ds) :: st))
    (t : FixedTrim F) : ∃ b', b.applyTrim t gs = .ok b' ∧
      b'.outlines.take gs = b.outlines.take gs ∧
      b'.outlines.map (·.transform) = b.outlines.map (·.transform) ∧
      b'.outlines.length = b.outlines.length ∧ b'.draws = b.draws ∧ b'.InBounds := by
  have hi := h.inv
  have hs : gs ≤ b.geometries.length := (hi.scopes (gs, ds) (by simp)).geometries
  have hl : (b.outlines.take gs).length = gs := by
    rw [List.length_take, outlines_length]; exact Nat.min_eq_left hs
  have ht : b.outlines.map (·.transform) = (b.outlines.take gs).map (·.transform)
      ++ (b.outlines.drop gs).map (·.transform) := by
    rw [← List.map_append, List.take_append_drop]
  have htake : ∀ l : List (Outline F), (b.outlines.take gs ++ l).take gs = b.outlines.take gs :=
    fun l => List.take_left' hl
  refine ⟨b.trimmed t gs, applyTrim_ok hi.wf hs t, ?_, ?_, ?_, (trimmed_fields b t gs).1,
    (trimmed_wf hi.wf t gs).inBounds⟩
  · cases hn : t.normalized with
    | none => rw [outlines_trimmed_none gs hn, htake]
    | some p =>
      cases hf : (p.1.1 <=. tiny) && ((lit 1 -. tiny) <=. p.1.2) && p.2.isNone with
      | true => rw [trimmed_full gs hn hf]
      | false => rw [outlines_trimmed_some gs hn hf, trimOutlines, htake]
  · cases hn : t.normalized with
    | none => rw [outlines_trimmed_none gs hn, ht, List.map_append, List.map_map]; rfl
    | some p =>
      cases hf : (p.1.1 <=. tiny) && ((lit 1 -. tiny) <=. p.1.2) && p.2.isNone with
      | true => rw [trimmed_full gs hn hf]
      | false =>
        rw [outlines_trimmed_some gs hn hf, trimOutlines, ht, List.map_append, List.map_map]; rfl
  · rw [outlines_length, outlines_length, trimmed_length]

/-! ## C23 -/

/-- The trim covers everything: `end - start` is at least 100%, in either order. -/
def FixedTrim.Full (t : FixedTrim F) : Prop :=
  ((t.start <=. t.stop) = true ∧ (lit 100 <=. (t.stop -. t.start)) = true) ∨
  ((t.start <=. t.stop) = false ∧ (lit 100 <=. (t.start -. t.stop)) = true)

/-- The trim has length zero. -/
def FixedTrim.Empty (t : FixedTrim F) : Prop :=
  (t.start <=. t.stop) = true ∧ (lit 0 ==. (t.stop -. t.start)) = true

/-- The second list is the first without some trims which cover everything at the frame, at any
depth. -/
inductive WithoutFullTrims (fr : F) : List (Shape F) → List (Shape F) → Prop where
  | nil : WithoutFullTrims fr [] []
  | keep (s : Shape F) {l l'} (h : WithoutFullTrims fr l l') :
      WithoutFullTrims fr (s :: l) (s :: l')
  | group {shs shs'} (gt : Option (GroupTransform F)) {l l'} (hs : WithoutFullTrims fr shs shs')
      (h : WithoutFullTrims fr l l') :
      WithoutFullTrims fr (.group shs gt :: l) (.group shs' gt :: l')
  | drop {t : Trim F} {l l'} (ht : (t.evaluate fr).Full) (h : WithoutFullTrims fr l l') :
      WithoutFullTrims fr (.trim t :: l) l'

end

section
variable [Libm F64] [Kurbo F64]

omit [Libm F64] in
theorem applyTrim_full {t : FixedTrim F64} (h : t.Full) (b : Batch F64) (gs : Nat) :
    b.applyTrim t gs = .ok b := by
  have key : ∀ r : F64, (lit 100 <=. r) = true → (r <. tiny) = false ∧
      ((lit 100 -. tiny) <=. r) = true := by
    intro r hr
    constructor
    · cases hlt : (r <. (tiny : F64)) with
      | false => rfl
      | true =>
        have := lt_of_le_of_lt' hr hlt
        exact absurd this (by decide +kernel)
    · exact le_trans' (by decide +kernel) hr
  have hn : t.normalized = some ((lit 0, lit 1), none) := by
    unfold FixedTrim.normalized
    rcases h with ⟨h1, h2⟩ | ⟨h1, h2⟩
    · obtain ⟨k1, k2⟩ := key _ h2
      simp only [h1, if_true, k1, k2, Bool.false_eq_true, if_false]
    · obtain ⟨k1, k2⟩ := key _ h2
      simp only [h1, if_true, k1, k2, Bool.false_eq_true, if_false]
  unfold Batch.applyTrim
  rw [hn]
  dsimp only
  rw [if_pos (by decide +kernel)]

/-- **C23**, full trims: removing trims that cover everything, at any depth, leaves the state of the
renderer — hence the picture — unchanged (IEEE doubles). -/
theorem C23_full {fr : F64} {l l' : List (Shape F64)} (h : WithoutFullTrims fr l l') :
    ∀ (gs ds : Nat) (T : Affine F64) (a : F64) (b : Batch F64),
      renderShapesFrom l gs ds T a fr b = renderShapesFrom l' gs ds T a fr b := by
  induction h with
  | nil => intros; rfl
  | keep s _ ih =>
    intro gs ds T a b
    rw [renderShapesFrom, renderShapesFrom]
    congr 1
    funext b'
    exact ih _ _ _ _ _
  | group gt _ _ ih1 ih2 =>
    intro gs ds T a b
    rw [renderShapesFrom, renderShapesFrom, renderShape, renderShape, ih1]
    congr 1
    funext b'
    exact ih2 _ _ _ _ _
  | drop ht _ ih =>
    intro gs ds T a b
    rw [renderShapesFrom, renderShape, applyTrim_full ht]
    exact ih _ _ _ _ _

/-- Such a trim (the default one) in a nested group. -/
example : WithoutFullTrims (lit 3 : F64)
    [.group [.geometry (.fixed exTriangle), .trim (.fixed ⟨lit 0, lit 100, lit 30⟩)] none,
      .draw exFill]
    [.group [.geometry (.fixed exTriangle)] none, .draw exFill] :=
  .group _ (.keep _ (.drop (.inl (by kernel_decide)) .nil)) (.keep _ .nil)

omit [Libm F64] [Kurbo F64] in
/-- A trim which covers nothing: normalisation says so. -/
theorem normalized_empty {t : FixedTrim F64} (h : t.Empty) : t.normalized = none := by
  have key : ((t.stop -. t.start) <. (tiny : F64)) = true := by
    refine lt_of_le_of_lt' (y := lit 0) ?_ (by decide +kernel)
    have := h.2
    rw [LawfulCmp.eq_iff] at this
    rw [LawfulCmp.le_iff]
    obtain ⟨x, y, h1, h2, h3⟩ := this
    exact ⟨y, x, h2, h1, le_of_eq h3.symm⟩
  unfold FixedTrim.normalized
  simp only [h.1, if_true, key]

/-- **C23**, empty trims: after a trim of zero length in a group, the fills and strokes of that group
(before and after the trim, nested ones included) paint only empty paths — *provided no geometry
follows the trim*.  What follows may contain groups, fills, repeaters and further trims.
*Missing: geometry after the trim*, for which it is false (`C23_counterexample`). -/
theorem C23_empty_partial {b b1 b2 : Batch F64} {gs ds : Nat} {st}
    (h : MidRender b ((gs, ds) :: st)) {t : FixedTrim F64} (ht : t.Empty)
    (h1 : b.applyTrim t gs = .ok b1) {post : List (Shape F64)} (hp : geometriesOf post = [])
    {T : Affine F64} {a fr : F64} (h2 : renderShapesFrom post gs ds T a fr b1 = .ok b2) :
    ∀ d ∈ b2.draws.drop ds, ∀ o ∈ b2.painted d, o.path = [] := by
  have hi := h.inv
  have hs : gs ≤ b.geometries.length := (hi.scopes (gs, ds) (by simp)).geometries
  have hl : (b.outlines.take gs).length = gs := by
    rw [List.length_take, outlines_length]; exact Nat.min_eq_left hs
  rw [applyTrim_ok hi.wf hs] at h1
  cases h1
  have he : Blank (b.trimmed t gs) gs := by
    unfold Blank
    rw [outlines_trimmed_none gs (normalized_empty ht), List.drop_left' hl]
    intro o ho
    rw [List.mem_map] at ho
    obtain ⟨o', _, rfl⟩ := ho
    rfl
  have hi1 := trimmed_inv hi t
  have hi2 := (renderShapesFrom_safe (A := fun _ => True) post T a fr hi1
    (by rw [hp]; simp)).2 b2 h2
  have hb := blank_shapes post (s := (gs, ds)) hi1 (Nat.le_refl _) he hp h2
  intro d hd o ho
  have hda := (hi2.scopes (gs, ds) (by simp)).after d hd
  refine hb o ?_
  unfold Batch.painted at ho
  rw [List.drop_take] at ho
  have := List.mem_of_mem_take ho
  rw [show d.gstart = gs + (d.gstart - gs) by omega, ← List.drop_drop] at this
  exact List.mem_of_mem_drop this

/-- A triangle, a trim of zero length, a second path, a fill. -/
def exResurrect : List (Shape F64) :=
  [.geometry (.fixed exTriangle), .trim (.fixed ⟨lit 20, lit 20, lit 0⟩),
    .geometry (.fixed [.moveTo ⟨lit 7, lit 7⟩, .lineTo ⟨lit 8, lit 8⟩]), .draw exFill]

/-- **C23** fails when geometry follows the empty trim in the same group: the trimmed triangle is
painted in full. -/
theorem C23_counterexample :
    (⟨lit 20, lit 20, lit 0⟩ : FixedTrim F64).Empty ∧
    ∃ b, renderShapes exResurrect Affine.identity (lit 1) (lit 0) Batch.empty = .ok b ∧
      b.outlines.map (·.path)
        = [exTriangle ++ [.moveTo ⟨lit 7, lit 7⟩, .lineTo ⟨lit 8, lit 8⟩]] ∧
      b.draws.map (fun d => (d.gstart, d.gstop)) = [(0, 1)] := by
  refine ⟨⟨by decide +kernel, by decide +kernel⟩, ?_⟩
  have h : ((renderShapes exResurrect Affine.identity (lit 1) (lit 0) Batch.empty).map fun b =>
      (b.outlines.map (·.path), b.draws.map (fun d => (d.gstart, d.gstop)))).toOption
      = some ([exTriangle ++ [.moveTo ⟨lit 7, lit 7⟩, .lineTo ⟨lit 8, lit 8⟩]], [(0, 1)]) := by
    kernel_decide
  cases hx : renderShapes exResurrect Affine.identity (lit 1) (lit 0) Batch.empty with
  | error e => rw [hx] at h; cases h
  | ok b =>
    rw [hx] at h
    have := Option.some.inj h
    exact ⟨b, rfl, congrArg Prod.fst this, congrArg Prod.snd this⟩

end

/-! ## C25, C26 -/

section
variable {F : Type} [FloatOps F] [Libm F] [Kurbo F]

omit [Kurbo F] in
/-- The `r.copies` copies of an outline, the `i`-th with the `i`-th transform of the repeater. -/
def copiesOf (r : FixedRepeater F) (o : Outline F) : List (Outline F) :=
  (List.range r.copies).map fun i => ⟨o.transform.mul (r.transform i), o.path⟩

/-- **C25**: in every state of the renderer, applying a repeater in a group that was entered with
`gs` geometries and `ds` draws succeeds and
* replaces each outline of the group by its copies, in order, and leaves the outlines outside alone;
* leaves the draws outside the group alone, and what they paint;
* replaces the draws of the group by, for each copy index with positive opacity, one draw for each
  original draw with the same stroke and brush, the opacity scaled, which paints the copies of what
  the original painted;
* keeps all ranges in bounds. -/
theorem C25_repeater {b : Batch F} {gs ds : Nat} {st} (h : MidRender b ((gs, ds) :: st))
    (r : FixedRepeater F) : ∃ b', b.repeat r gs ds = .ok b' ∧
      b'.outlines = b.outlines.take gs ++ (b.outlines.drop gs).flatMap (copiesOf r) ∧
      b'.draws.take ds = b.draws.take ds ∧
      (∀ d ∈ b.draws.take ds, b'.painted d = b.painted d) ∧
      List.Forall₂ (fun (p : Nat × DrawData F) d' =>
          d'.stroke = p.2.stroke ∧ d'.brush = p.2.brush ∧
          d'.alpha = p.2.alpha *. repeatAlpha r p.1 ∧
          b'.painted d' = (b.painted p.2).flatMap (copiesOf r))
        (((List.range r.copies).filter fun i => !(repeatAlpha r i <=. lit 0)).flatMap fun i =>
          (b.draws.drop ds).map fun d => (i, d))
        (b'.draws.drop ds) ∧
      b'.InBounds := by
  have hi := h.inv
  have hs := hi.scopes (gs, ds) (by simp)
  have hl : (b.draws.take ds).length = ds := by
    rw [List.length_take]; exact Nat.min_eq_left hs.draws
  refine ⟨b.repeated r gs ds, repeat_ok hi r, outlines_repeated b r gs ds, ?_, ?_, ?_,
    (repeated_inv hi r).wf.inBounds⟩
  · exact List.take_left' hl
  · intro d hd
    exact painted_repeated_before r ds hs.geometries (hs.before d hd)
  · show List.Forall₂ _ _ ((b.draws.take ds ++ repDraws r gs (b.draws.drop ds)).drop ds)
    rw [List.drop_left' hl, repDraws]
    induction List.range r.copies with
    | nil => exact .nil
    | cons i is ih =>
      rw [List.flatMap_cons, List.filter_cons]
      cases hp : (repeatAlpha r i <=. lit 0) with
      | true =>
        simpa using ih
      | false =>
        simp only [Bool.not_false, if_true, Bool.false_eq_true, if_false, List.flatMap_cons]
        refine List.rel_append ?_ ih
        rw [List.forall₂_map_left_iff, List.forall₂_map_right_iff, List.forall₂_same]
        intro d hd
        exact ⟨rfl, rfl, rfl, painted_repDraw r ds i hs.geometries (hs.after d hd)
          (hi.wf.draws d (List.mem_of_mem_drop hd)).1⟩

end

/-- **C25**, the `i`-th transform of a repeater in exact arithmetic: with `t = offset + i`, scale by
the `t`-th power of the scale and rotate by `t` times the rotation about the anchor point, then move
by `t` times the position. -/
theorem C25_transform (r : FixedRepeater ℝ) (i : Nat) (p : P2 ℝ) :
    (r.transform i).apply p =
      let t := r.offset + i
      let θ := t * r.rotation * (Real.pi / 180)
      let x := (r.scale.x / 100) ^ t * (p.x - r.anchorPoint.x)
      let y := (r.scale.y / 100) ^ t * (p.y - r.anchorPoint.y)
      ⟨r.anchorPoint.x + t * r.position.x + (Real.cos θ * x - Real.sin θ * y),
       r.anchorPoint.y + t * r.position.y + (Real.sin θ * x + Real.cos θ * y)⟩ := by
  simp only [FixedRepeater.transform, Affine.apply, Affine.mul, Affine.translate, Affine.rotate,
    Affine.scaleNonUniform, toRadians, real_lit, real_add, real_mul, real_div, real_neg,
    real_ofUsize, real_sin, real_cos, real_powf, real_pi]
  push_cast
  congr 1 <;> ring

/-- **C26**, the opacity of a copy in exact arithmetic: the draws made for copy `i` of `n` have their
opacity multiplied by `start + (end - start) * i / n` percent (draws for copies whose opacity is not
positive are left out), see `C25_repeater`.  *Missing: "exactly once"*: each of them paints all
copies (`C26_counterexample`). -/
theorem C26_opacity_partial (r : FixedRepeater ℝ) (i : Nat) (hi : i < r.copies) :
    repeatAlpha r i
      = (r.startOpacity + (r.endOpacity - r.startOpacity) * i / r.copies) / 100 := by
  unfold repeatAlpha
  have hc : (r.copies : ℝ) ≠ 0 := by
    have : 0 < r.copies := by omega
    exact_mod_cast this.ne'
  by_cases h1 : 1 < r.copies
  · simp only [h1, if_true, real_lit, real_add, real_sub, real_mul, real_div, real_ofUsize]
    push_cast
    field_simp
  · have : i = 0 := by omega
    subst this
    simp [h1]

section
variable {F : Type} [FloatOps F] [Libm F] [Kurbo F]

/-- **C26** counted, for all numbers of copies: if `m` copies have a positive opacity, then the draws of the group together
paint `m * n` outlines for every one they painted before, where the claim has `m`: each of the copies is painted by the
draws of all of them.  For one copy see `C26_once_partial`. -/
theorem C26_count {b : Batch F} {gs ds : Nat} {st} (h : MidRender b ((gs, ds) :: st)) (r : FixedRepeater F) :
    ∃ b', b.repeat r gs ds = .ok b' ∧
      ((b'.draws.drop ds).map fun d => (b'.painted d).length).sum =
        ((List.range r.copies).filter fun i => !(repeatAlpha r i <=. lit 0)).length * r.copies *
          ((b.draws.drop ds).map fun d => (b.painted d).length).sum := by
  obtain ⟨b', h1, -, -, -, h2, -⟩ := C25_repeater h r
  refine ⟨b', h1, ?_⟩
  have hlen : ∀ l : List (Outline F), (l.flatMap (copiesOf r)).length = r.copies * l.length := by
    intro l
    induction l with
    | nil => rfl
    | cons a l ih =>
      rw [List.flatMap_cons, List.length_append, ih, List.length_cons]
      simp only [copiesOf, List.length_map, List.length_range]
      ring
  have hsum : ∀ {ps : List (Nat × DrawData F)} {qs : List (DrawData F)},
      List.Forall₂ (fun (p : Nat × DrawData F) d' => d'.stroke = p.2.stroke ∧ d'.brush = p.2.brush ∧
        d'.alpha = p.2.alpha *. repeatAlpha r p.1 ∧ b'.painted d' = (b.painted p.2).flatMap (copiesOf r)) ps qs →
      (qs.map fun d => (b'.painted d).length).sum = r.copies * (ps.map fun p => (b.painted p.2).length).sum := by
    intro ps qs hf
    induction hf with
    | nil => rfl
    | cons hd _ ih =>
      rw [List.map_cons, List.sum_cons, ih, hd.2.2.2, hlen, List.map_cons, List.sum_cons]
      ring
  rw [hsum h2]
  induction (List.range r.copies).filter fun i => !(repeatAlpha r i <=. lit 0) with
  | nil => simp
  | cons i l ih =>
    rw [List.flatMap_cons, List.map_append, List.sum_append, Nat.mul_add, ih, List.map_map, List.length_cons]
    show r.copies * ((b.draws.drop ds).map fun d => (b.painted d).length).sum + _ = _
    ring

/-- **C26** for a repeater with one copy of positive opacity: every draw of the group is replaced by
one draw, which paints the copy of each outline it painted once.  *Missing: more copies*, for which
it is false (`C26_counterexample`). -/
theorem C26_once_partial {b : Batch F} {gs ds : Nat} {st} (h : MidRender b ((gs, ds) :: st))
    (r : FixedRepeater F) (hr : r.copies = 1) (ha : (repeatAlpha r 0 <=. lit 0) = false) :
    ∃ b', b.repeat r gs ds = .ok b' ∧
      List.Forall₂ (fun (d : DrawData F) d' =>
          d'.stroke = d.stroke ∧ d'.brush = d.brush ∧ d'.alpha = d.alpha *. repeatAlpha r 0 ∧
          b'.painted d' = (b.painted d).map fun o => ⟨o.transform.mul (r.transform 0), o.path⟩)
        (b.draws.drop ds) (b'.draws.drop ds) := by
  obtain ⟨b', h1, -, -, -, h2, -⟩ := C25_repeater h r
  refine ⟨b', h1, ?_⟩
  have hc : copiesOf r = fun o => [⟨o.transform.mul (r.transform 0), o.path⟩] := by
    funext o
    simp [copiesOf, hr, List.range_succ]
  rw [hr, hc] at h2
  have hf : (List.range 1).filter (fun i => !(repeatAlpha r i <=. lit 0)) = [0] := by
    simp [List.range_succ, ha]
  rw [hf, List.flatMap_singleton, List.forall₂_map_left_iff] at h2
  refine h2.imp fun d d' hd => ?_
  rw [List.map_eq_flatMap]
  exact hd

end

section
variable [Libm F64] [Kurbo F64]

/-- A triangle, a fill and a repeater with two copies. -/
def exRepeat : List (Shape F64) :=
  [.geometry (.fixed exTriangle), .draw exFill,
    .repeater (.fixed ⟨2, lit 0, ⟨lit 0, lit 0⟩, ⟨lit 5, lit 0⟩, lit 0, ⟨lit 100, lit 100⟩, lit 100,
      lit 50⟩)]

/-- **C26** fails for two copies of one geometry with one fill: the sink receives four draw calls,
because each of the two repeated fills paints both copies. -/
theorem C26_counterexample :
    ∃ b ops, renderShapes exRepeat Affine.identity (lit 1) (lit 0) Batch.empty = .ok b ∧
      b.outlines.length = 2 ∧ b.render = .ok ops ∧ ops.length = 4 := by
  have h : ((renderShapes exRepeat Affine.identity (lit 1) (lit 0) Batch.empty).bind fun b =>
      b.render.map fun ops => (b.outlines.length, ops.length)).toOption = some (2, 4) := by
    kernel_decide
  cases hx : renderShapes exRepeat Affine.identity (lit 1) (lit 0) Batch.empty with
  | error e => rw [hx] at h; cases h
  | ok b =>
    rw [hx] at h
    replace h : (b.render.map fun ops => (b.outlines.length, ops.length)).toOption = some (2, 4) := h
    cases hy : b.render with
    | error e => rw [hy] at h; cases h
    | ok ops =>
      rw [hy] at h
      have := Option.some.inj h
      exact ⟨b, ops, rfl, congrArg Prod.fst this, hy, congrArg Prod.snd this⟩

/-- A state of the renderer inside a nested group, with outlines and draws outside and inside the
group: the hypothesis of the theorems above is met. -/
example : ∃ b : Batch F64, MidRender b [(1, 1), (0, 0)] ∧ b.outlines.length = 2 ∧
    b.draws.length = 2 := by
  have hok : ∀ fr, (Geometry.fixed (F := F64) exTriangle).StartsOk fr := by
    intro fr els he
    cases he
    rfl
  have h1 : MidRender ((Batch.empty : Batch F64).pushEls exTriangle Affine.identity) [(0, 0)] :=
    .geometry (fr := lit 0) .start (hok _) rfl
  have h2 := (MidRender.draw exFill (lit 1) (lit 0) h1).enter
  have h3 := MidRender.geometry (T := Affine.translate ⟨lit 1, lit 1⟩) (fr := lit 0) h2 (hok _)
    (pushGeometry_eq _ _ _ _)
  exact ⟨_, MidRender.draw exFill (lit 1) (lit 0) h3, by kernel_decide, by kernel_decide⟩

end
end Velato
