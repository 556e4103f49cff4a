import Verif.Proofs.NoPanic

/-!
# The outlines after each operation of the batch
-/

namespace Velato
open FloatOps (lit)

section
variable {F : Type} [FloatOps F] [Libm F] [Kurbo F]

omit [FloatOps F] [Libm F] [Kurbo F] in
theorem outlines_length (b : Batch F) : b.outlines.length = b.geometries.length := by
  rw [Batch.outlines, List.length_map]

omit [FloatOps F] [Libm F] [Kurbo F] in
theorem outlines_eq (b : Batch F) : b.outlines = b.geometries.map (outlineOf b.elements) := rfl

omit [Libm F] in
theorem outlines_trimmed_none {b : Batch F} {t : FixedTrim F} (gs : Nat)
    (ht : t.normalized = none) :
    (b.trimmed t gs).outlines
      = b.outlines.take gs ++ (b.outlines.drop gs).map fun o => { o with path := [] } := by
  unfold Batch.trimmed
  rw [ht]
  simp only [Batch.outlines, List.map_append, List.map_map, List.map_take, List.map_drop]
  congr 2

omit [Libm F] in
theorem outlines_trimmed_some {b : Batch F} {t : FixedTrim F} (gs : Nat) {first second}
    (ht : t.normalized = some (first, second))
    (hf : ((first.1 <=. tiny) && ((lit 1 -. tiny) <=. first.2) && second.isNone) = false) :
    (b.trimmed t gs).outlines = trimOutlines first second gs b.outlines := by
  unfold Batch.trimmed
  rw [ht]
  dsimp only
  rw [if_neg (by simp [hf])]
  exact layout_outlines (trimOutlines first second gs b.outlines) []

omit [Libm F] in
theorem trimmed_full {b : Batch F} {t : FixedTrim F} (gs : Nat) {first second}
    (ht : t.normalized = some (first, second))
    (hf : ((first.1 <=. tiny) && ((lit 1 -. tiny) <=. first.2) && second.isNone) = true) :
    b.trimmed t gs = b := by
  unfold Batch.trimmed
  rw [ht]
  dsimp only
  rw [if_pos hf]

omit [Kurbo F] in
theorem outlines_repeated (b : Batch F) (r : FixedRepeater F) (gs ds : Nat) :
    (b.repeated r gs ds).outlines = b.outlines.take gs
      ++ (b.outlines.drop gs).flatMap fun o =>
        (List.range r.copies).map fun i => ⟨o.transform.mul (r.transform i), o.path⟩ := by
  simp only [Batch.outlines, Batch.repeated, repeatGeomList, List.map_append, List.map_take]
  congr 1
  rw [← List.map_drop, List.map_flatMap, List.flatMap_map]
  congr 1
  funext g
  simp [List.map_map, Function.comp_def]

/-- A slice of a list in which each element is replaced by `n`. -/
theorem flatMap_slice {α β : Type} {f : α → List β} {n : Nat} (hf : ∀ x, (f x).length = n) :
    ∀ (l : List α) (s e : Nat), ((l.flatMap f).take (e * n)).drop (s * n)
      = ((l.take e).drop s).flatMap f
  | [], s, e => by simp
  | x :: l, s, 0 => by simp
  | x :: l, 0, e + 1 => by
    have ih := flatMap_slice hf l 0 e
    simp only [Nat.zero_mul, List.drop_zero] at ih ⊢
    rw [List.flatMap_cons, List.take_succ_cons, List.flatMap_cons, Nat.succ_mul, Nat.add_comm,
      ← hf x, List.take_length_add_append, hf x, ih]
  | x :: l, s + 1, e + 1 => by
    have ih := flatMap_slice hf l s e
    rw [List.flatMap_cons, List.take_succ_cons, List.drop_succ_cons, ← ih, Nat.succ_mul,
      Nat.succ_mul, Nat.add_comm (e * n), Nat.add_comm (s * n), ← hf x, List.take_length_add_append,
      List.drop_length_add_append]

omit [Kurbo F] in
/-- What a repeated draw paints. -/
theorem painted_repDraw {b : Batch F} (r : FixedRepeater F) {gs : Nat} (ds i : Nat)
    {d : DrawData F} (hgs : gs ≤ b.geometries.length) (h1 : gs ≤ d.gstart)
    (h2 : d.gstart ≤ d.gstop) :
    (b.repeated r gs ds).painted (repDraw r gs i d)
      = (b.painted d).flatMap fun o =>
        (List.range r.copies).map fun i => ⟨o.transform.mul (r.transform i), o.path⟩ := by
  unfold Batch.painted
  rw [outlines_repeated]
  have hl : (b.outlines.take gs).length = gs := by
    rw [List.length_take, outlines_length]; exact Nat.min_eq_left hgs
  have e1 : (repDraw r gs i d).gstop = (b.outlines.take gs).length + (d.gstop - gs) * r.copies := by
    rw [hl]
    show gs + (d.gstart - gs) * r.copies + (d.gstop - d.gstart) * r.copies = _
    rw [Nat.add_assoc, ← Nat.add_mul]
    congr 2
    omega
  have e2 : (repDraw r gs i d).gstart = (b.outlines.take gs).length + (d.gstart - gs) * r.copies := by
    rw [hl]; rfl
  rw [e1, e2, List.take_length_add_append, List.drop_length_add_append,
    flatMap_slice (n := r.copies) (by simp)]
  congr 1
  rw [← List.drop_take]
  · rw [List.drop_drop]
    congr 1
    omega

omit [Kurbo F] in
theorem painted_repeated_before {b : Batch F} (r : FixedRepeater F) {gs : Nat} (ds : Nat)
    {d : DrawData F} (hgs : gs ≤ b.geometries.length) (h2 : d.gstop ≤ gs) :
    (b.repeated r gs ds).painted d = b.painted d := by
  unfold Batch.painted
  rw [outlines_repeated, List.take_append_of_le_length, List.take_take, Nat.min_eq_left h2]
  rw [List.length_take, outlines_length]
  omega

/-! ## After an empty trim -/

/-- All outlines from `gs` on are empty. -/
def Blank (b : Batch F) (gs : Nat) : Prop := ∀ o ∈ b.outlines.drop gs, o.path = []

omit [Libm F] in
theorem trimmed_nil (first : F × F) (second : Option (F × F)) : trimmed first second [] = [] := by
  unfold trimmed
  simp [segments]

omit [Libm F] in
theorem blank_trim {b : Batch F} {g0 gs : Nat} (hg : g0 ≤ gs) (hs : gs ≤ b.geometries.length)
    (hb : Blank b g0) (t : FixedTrim F) : Blank (b.trimmed t gs) g0 := by
  have hl : g0 ≤ (b.outlines.take gs).length := by
    rw [List.length_take, outlines_length]; omega
  have hmem : ∀ o ∈ b.outlines.drop gs, o ∈ b.outlines.drop g0 := by
    intro o ho
    rw [show gs = g0 + (gs - g0) by omega, ← List.drop_drop] at ho
    exact List.mem_of_mem_drop ho
  have hmem' : ∀ o ∈ (b.outlines.take gs).drop g0, o ∈ b.outlines.drop g0 := by
    intro o ho
    rw [List.drop_take] at ho
    exact List.mem_of_mem_take ho
  unfold Blank
  cases hn : t.normalized with
  | none =>
    rw [outlines_trimmed_none gs hn, List.drop_append_of_le_length hl]
    intro o ho
    rw [List.mem_append, List.mem_map] at ho
    rcases ho with ho | ⟨o', _, rfl⟩
    · exact hb o (hmem' o ho)
    · rfl
  | some p =>
    cases hf : (p.1.1 <=. tiny) && ((lit 1 -. tiny) <=. p.1.2) && p.2.isNone with
    | true => rw [trimmed_full gs hn hf]; exact hb
    | false =>
      rw [outlines_trimmed_some gs hn hf, trimOutlines, List.drop_append_of_le_length hl]
      intro o ho
      rw [List.mem_append, List.mem_map] at ho
      rcases ho with ho | ⟨o', ho', rfl⟩
      · exact hb o (hmem' o ho)
      · show trimmed _ _ o'.path = []
        rw [hb o' (hmem o' ho'), trimmed_nil]

omit [Kurbo F] in
theorem blank_repeat {b : Batch F} {g0 gs : Nat} (hg : g0 ≤ gs) (hs : gs ≤ b.geometries.length)
    (hb : Blank b g0) (r : FixedRepeater F) (ds : Nat) : Blank (b.repeated r gs ds) g0 := by
  have hl : g0 ≤ (b.outlines.take gs).length := by
    rw [List.length_take, outlines_length]; omega
  unfold Blank
  rw [outlines_repeated, List.drop_append_of_le_length hl]
  intro o ho
  rw [List.mem_append, List.mem_flatMap] at ho
  rcases ho with ho | ⟨o', ho', ho⟩
  · rw [List.drop_take] at ho
    exact hb o (List.mem_of_mem_take ho)
  · rw [List.mem_map] at ho
    obtain ⟨i, _, rfl⟩ := ho
    rw [show gs = g0 + (gs - g0) by omega, ← List.drop_drop] at ho'
    exact hb o' (List.mem_of_mem_drop ho')

mutual
theorem blank_shape (sh : Shape F) {s : Nat × Nat} {st} {T : Affine F} {a fr : F} {b b' : Batch F}
    (h : b.Inv (s :: st)) {g0 : Nat} (hg : g0 ≤ s.1) (hb : Blank b g0) (hp : sh.geometries = [])
    (hr : renderShape sh s.1 s.2 T a fr b = .ok b') : Blank b' g0 := by
  have hs := (h.scopes s (by simp)).geometries
  cases sh with
  | group shapes gt =>
    rw [renderShape] at hr
    rw [Shape.geometries] at hp
    exact blank_shapes shapes (s := (b.geometries.length, b.draws.length)) h.enter
      (Nat.le_trans hg hs) hb hp hr
  | geometry g => rw [Shape.geometries] at hp; cases hp
  | draw d => rw [renderShape] at hr; cases hr; exact hb
  | repeater r =>
    rw [renderShape, repeat_ok h] at hr
    cases hr
    exact blank_repeat hg hs hb _ _
  | trim t =>
    rw [renderShape, applyTrim_ok h.wf hs] at hr
    cases hr
    exact blank_trim hg hs hb _

theorem blank_shapes (shs : List (Shape F)) {s : Nat × Nat} {st} {T : Affine F} {a fr : F}
    {b b' : Batch F} (h : b.Inv (s :: st)) {g0 : Nat} (hg : g0 ≤ s.1) (hb : Blank b g0)
    (hp : geometriesOf shs = []) (hr : renderShapesFrom shs s.1 s.2 T a fr b = .ok b') :
    Blank b' g0 := by
  cases shs with
  | nil => rw [renderShapesFrom] at hr; cases hr; exact hb
  | cons sh shs =>
    rw [geometriesOf, List.append_eq_nil_iff] at hp
    rw [renderShapesFrom] at hr
    obtain ⟨b1, hb1, hr⟩ := bind_ok hr
    have h1 := (renderShape_safe (A := fun _ => True) sh T a fr h (by rw [hp.1]; simp)).2 b1 hb1
    exact blank_shapes shs h1 hg (blank_shape sh h hg hb hp.1 hb1) hp.2 hr
end

end
end Velato
