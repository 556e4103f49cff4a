import Verif.Proofs.Cut
import Verif.Props.NormalMatte

/-!
# C123: cutting a layer in two
-/

namespace Velato
open FloatOps (lit)

section
variable {F : Type} [FloatOps F] [Kurbo F] [Libm F]

/-- **C123.** Only whether a layer is present at the frame counts, not since when and until when: a
document whose layers have other in and out points, but such that the same layers are present at the
frame, is imported too, and appending it at that frame does the same: same calls, same panics. -/
theorem C123_window {a : Schema.Animation F} {ls' : List (Schema.AnyLayer F)} {fr : F}
    (h : Schema.SameLayersAt fr a.layers ls') {c : Composition F} (hc : Import.convAnimation a = .ok c) :
    ∃ c', Import.convAnimation { a with layers := ls' } = .ok c' ∧
      ∀ {r : Renderer F}, Reachable r → ∀ (n : Nat) (T : Affine F) (al : F),
        Renderer.append n r c' fr T al = Renderer.append n r c fr T al :=
  window_calls h hc

/-- **C123.** Put two copies of a layer with other in and out points in its place, such that at most
one of them is present at the frame, and one is if the layer was. The layer is neither a matte nor
matted and nobody refers to it, and parents form no cycle. Then the document is imported, and every
append of it at the frame makes the same calls, except that positions in groups may differ. -/
theorem C123_copies {a : Schema.Animation F} {pre post : List (Schema.AnyLayer F)}
    {s : Schema.AnyLayer F} (ha : a.layers = pre ++ s :: post) (hu : s.Unreferenced a.layers)
    (hs : ¬ s.Matte ∧ ¬ s.Matted) (hacy : ParentsAcyclic a.layers) {c : Composition F}
    (hc : Import.convAnimation a = .ok c) (i o i' o' : F) :
    ∃ c', Import.convAnimation
        { a with layers := pre ++ s.withFrames i o :: s.withFrames i' o' :: post } = .ok c' ∧
      ∀ {fr : F}, ¬ ((s.withFrames i o).PresentAt fr ∧ (s.withFrames i' o').PresentAt fr) →
        (s.PresentAt fr ↔ (s.withFrames i o).PresentAt fr ∨ (s.withFrames i' o').PresentAt fr) →
        ∀ {r r' : Renderer F}, Reachable r → ∀ (T : Affine F) (al : F),
        (∀ ops, AppendCalls r c fr T al r' ops →
          ∃ ops', AppendCalls r c' fr T al r' ops' ∧ SameButPositions ops ops') ∧
        (∀ ops', AppendCalls r c' fr T al r' ops' →
          ∃ ops, AppendCalls r c fr T al r' ops ∧ SameButPositions ops ops') := by
  obtain ⟨c', hc'⟩ := copies_import ha hc i o i' o'
  refine ⟨c', hc', fun {fr} hnot hiff {r r'} hr T al => ?_⟩
  have hus : s.Unreferenced (pre ++ s :: post) := by rw [← ha]; exact hu
  have hself : ∀ t : Schema.AnyLayer F, t ∈ pre ++ s :: post →
      ∃ i' o' t', t = Schema.AnyLayer.withFrames i' o' t' ∧
        t'.visual.layer.parentIndex ≠ some s.ident ∧
        ∀ x, t'.visual.matteLayerIndex = some x → FloatOps.toUsize x ≠ s.ident := fun t ht =>
    ⟨t.visual.layer.inPoint, t.visual.layer.outPoint, t, by cases t <;> rfl, hus t ht⟩
  have hcopy : ∀ x y : F, ∃ i' o' t', s.withFrames x y = Schema.AnyLayer.withFrames i' o' t' ∧
        t'.visual.layer.parentIndex ≠ some s.ident ∧
        ∀ x, t'.visual.matteLayerIndex = some x → FloatOps.toUsize x ≠ s.ident := fun x y =>
    ⟨x, y, s, rfl, hus s (by simp)⟩
  have hun : ∀ x y u v : F, (s.withFrames x y).Unreferenced (pre ++ s.withFrames u v :: post) := by
    intro x y u v
    refine unreferenced_withFrames fun t ht => ?_
    simp only [List.mem_append, List.mem_cons] at ht
    rcases ht with ht | rfl | ht
    · exact hself t (by simp [ht])
    · exact hcopy u v
    · exact hself t (by simp [ht])
  have hms : ∀ x y : F, ¬ (s.withFrames x y).Matte ∧ ¬ (s.withFrames x y).Matted := fun x y =>
    ⟨fun h => hs.1 ((matte_withFrames x y s).mp h), fun h => hs.2 ((matted_withFrames x y s).mp h)⟩
  have hac : ParentsAcyclic (pre ++ s.withFrames i o :: s.withFrames i' o' :: post) := by
    obtain ⟨rank, hrank⟩ := hacy
    refine ⟨rank, fun t ht id hid => ?_⟩
    simp only [List.mem_append, List.mem_cons] at ht
    rcases ht with ht | rfl | rfl | ht
    · exact hrank t (by rw [ha]; simp [ht]) id hid
    · rw [Import.visual_withFrames] at hid
      rw [Import.ident_withFrames]
      exact hrank s (by rw [ha]; simp) id hid
    · rw [Import.visual_withFrames] at hid
      rw [Import.ident_withFrames]
      exact hrank s (by rw [ha]; simp) id hid
    · exact hrank t (by rw [ha]; simp [ht]) id hid
  -- one of the copies is absent; without it, the other takes the place of the layer
  have key : ∀ (x y : F) (c1 : Composition F),
      Import.convAnimation { a with layers := pre ++ s.withFrames x y :: post } = .ok c1 →
      ((s.withFrames x y).PresentAt fr ↔ s.PresentAt fr) →
      ((∀ ops, AppendCalls r c' fr T al r' ops → ∃ ops', AppendCalls r c1 fr T al r' ops' ∧
          SameButPositions ops' ops) ∧
        (∀ ops', AppendCalls r c1 fr T al r' ops' → ∃ ops, AppendCalls r c' fr T al r' ops ∧
          SameButPositions ops' ops)) →
      (∀ ops, AppendCalls r c fr T al r' ops →
          ∃ ops', AppendCalls r c' fr T al r' ops' ∧ SameButPositions ops ops') ∧
        (∀ ops', AppendCalls r c' fr T al r' ops' →
          ∃ ops, AppendCalls r c fr T al r' ops ∧ SameButPositions ops ops') := by
    intro x y c1 hc1 hp hrel
    obtain ⟨c2, hc2, hw⟩ := C123_window (a := a) (ls' := pre ++ s.withFrames x y :: post) (fr := fr)
      (by rw [ha]; exact sameLayersAt_mid ⟨x, y, rfl⟩ hp pre post) hc
    rw [hc1] at hc2
    cases hc2
    have heq : ∀ ops, AppendCalls r c1 fr T al r' ops ↔ AppendCalls r c fr T al r' ops := fun ops =>
      exists_congr fun n => by rw [hw hr]
    refine ⟨fun ops hops => hrel.2 ops ((heq ops).mpr hops), fun ops' hops' => ?_⟩
    obtain ⟨ops, h1, h2⟩ := hrel.1 ops' hops'
    exact ⟨ops, (heq ops).mp h1, h2⟩
  by_cases hp : (s.withFrames i o).PresentAt fr
  · have hn : ¬ (s.withFrames i' o').PresentAt fr := fun h => hnot ⟨hp, h⟩
    obtain ⟨c1, hc1, h1⟩ := absent_calls
      (a := { a with layers := pre ++ s.withFrames i o :: s.withFrames i' o' :: post })
      (pre := pre ++ [s.withFrames i o]) (post := post) (s := s.withFrames i' o')
      (by simp) (by rw [List.append_assoc]; exact hun _ _ _ _) (hms _ _) hac hc'
    rw [List.append_assoc] at hc1
    exact key i o c1 hc1 ⟨fun _ => hiff.mpr (.inl hp), fun _ => hp⟩ (h1 hr fr hn T al)
  · obtain ⟨c1, hc1, h1⟩ := absent_calls
      (a := { a with layers := pre ++ s.withFrames i o :: s.withFrames i' o' :: post })
      (pre := pre) (post := s.withFrames i' o' :: post) (s := s.withFrames i o)
      rfl (hun _ _ _ _) (hms _ _) hac hc'
    exact key i' o' c1 hc1 ⟨fun h => hiff.mpr (.inr h), fun h => (hiff.mp h).resolve_left hp⟩
      (h1 hr fr hp T al)

/-- **C123.** Cutting a layer in two at the time `m` between its in point and its out point changes
nothing, at any frame. -/
theorem C123_cut [LawfulCmp F] {a : Schema.Animation F} {pre post : List (Schema.AnyLayer F)}
    {s : Schema.AnyLayer F} (ha : a.layers = pre ++ s :: post) (hu : s.Unreferenced a.layers)
    (hs : ¬ s.Matte ∧ ¬ s.Matted) (hacy : ParentsAcyclic a.layers) {c : Composition F}
    (hc : Import.convAnimation a = .ok c) {m : F}
    (h1 : FloatOps.le s.visual.layer.inPoint m = true)
    (h2 : FloatOps.le m s.visual.layer.outPoint = true) :
    ∃ c', Import.convAnimation
        { a with
          layers := pre ++ s.withFrames s.visual.layer.inPoint m ::
            s.withFrames m s.visual.layer.outPoint :: post } = .ok c' ∧
      ∀ (fr : F) {r r' : Renderer F}, Reachable r → ∀ (T : Affine F) (al : F),
        (∀ ops, AppendCalls r c fr T al r' ops →
          ∃ ops', AppendCalls r c' fr T al r' ops' ∧ SameButPositions ops ops') ∧
        (∀ ops', AppendCalls r c' fr T al r' ops' →
          ∃ ops, AppendCalls r c fr T al r' ops ∧ SameButPositions ops ops') := by
  obtain ⟨c', hc', h⟩ := C123_copies ha hu hs hacy hc s.visual.layer.inPoint m m s.visual.layer.outPoint
  refine ⟨c', hc', fun fr {r r'} hr T al => h ?_ ?_ hr T al⟩
  · unfold Schema.AnyLayer.PresentAt
    rw [Import.visual_withFrames, Import.visual_withFrames]
    rintro ⟨⟨-, h3⟩, ⟨h4, -⟩⟩
    have h5 : FloatOps.lt fr m = false := not_lt_of_le' h4
    exact absurd (h5.symm.trans h3) (by decide)
  · unfold Schema.AnyLayer.PresentAt
    rw [Import.visual_withFrames, Import.visual_withFrames]
    show _ ↔ (FloatOps.le s.visual.layer.inPoint fr = true ∧ FloatOps.lt fr m = true) ∨
      (FloatOps.le m fr = true ∧ FloatOps.lt fr s.visual.layer.outPoint = true)
    constructor
    · rintro ⟨h3, h4⟩
      cases hx : FloatOps.lt fr m with
      | true => exact .inl ⟨h3, rfl⟩
      | false => exact .inr ⟨le_of_not_lt' (not_nan_of_le_right h3) (not_nan_of_le_right h1) hx, h4⟩
    · rintro (⟨h3, h4⟩ | ⟨h3, h4⟩)
      · exact ⟨h3, lt_of_lt_of_le' h4 h2⟩
      · exact ⟨le_trans' h1 h3, h4⟩

end

/-! ## Examples -/

section
variable [Libm F64] [Kurbo F64]

/-- The last layer of the example document can be cut in two at time 3. -/
example {c : Composition F64} (hc : Import.convAnimation exDoc = .ok c) :
    let s : Schema.AnyLayer F64 :=
      .precomposition ⟨exVisual "instance" (some 5), "b", lit 20, lit 30, lit 4, none⟩
    ∃ c', Import.convAnimation 
      { exDoc (F := F64) with
        layers := exDocLayers.take 5 ++ [s.withFrames (lit 0) (lit 3), s.withFrames (lit 3) (lit 10)] } = .ok c' := by
  obtain ⟨c', h, -⟩ := C123_cut (a := exDoc (F := F64)) (pre := exDocLayers.take 5) (post := [])
    (s := .precomposition ⟨exVisual "instance" (some 5), "b", lit 20, lit 30, lit 4, none⟩)
    rfl (fun t ht => by
      simp only [exDoc, exDocLayers, List.mem_cons, List.not_mem_nil, or_false] at ht
      rcases ht with rfl | rfl | rfl | rfl | rfl | rfl <;> exact ⟨by decide, fun x hx => by cases hx⟩)
    ⟨fun h => (by cases h.2), fun h => by cases h⟩ exDoc_acyclic hc (m := lit 3)
    (by decide +kernel) (by decide +kernel)
  exact ⟨c', h⟩

/-- A document with a matte and the layer after it, from time 0 to 10. -/
def exMattedDoc (ls : List (Schema.AnyLayer F64)) : Schema.Animation F64 :=
  { exDoc with
    assets := none
    layers := exPathDoc { exVisual "matte" (some 1) with matteTarget := some .true } :: ls }

/-- Why the layer must not be matted: the matte is that of the first part only. At frame 7, where the
second part is present, nothing is composited. -/
example :
    let s : Schema.AnyLayer F64 := exPathDoc { exVisual "matted" (some 2) with matteMode := some .alpha }
    ((docCalls (exMattedDoc [s]) (lit 7)).map countCalls).toOption = some (2, 2) ∧
    ((docCalls (exMattedDoc [s.withFrames (lit 0) (lit 3), s.withFrames (lit 3) (lit 10)])
      (lit 7)).map countCalls).toOption = some (1, 0) := by
  constructor <;> kernel_decide

end
end Velato
