import Verif.Spec.Paint
import Verif.Proofs.ImportedGeometry
import Verif.Props.Folding

/-!
# The fills and strokes of imported compositions
-/

namespace Velato
open FloatOps (lit)
open Import

mutual
/-- The fills and strokes in a shape, including those in nested groups. -/
def Shape.drawsIn {F : Type} : Shape F → List (Draw F)
  | .group shapes _ => drawsInAll shapes
  | .draw d => [d]
  | _ => []

/-- The fills and strokes in a list of shapes, including those in nested groups. -/
def drawsInAll {F : Type} : List (Shape F) → List (Draw F)
  | [] => []
  | s :: ss => s.drawsIn ++ drawsInAll ss
end

section
variable {F : Type} [FloatOps F] [Kurbo F] [Libm F]

mutual
/-- Where there are no repeaters, every paint is that of a fill or stroke. -/
theorem paint_of_draw (s : Shape F) (hs : s.NoRepeaters) (a fr : F) (before : List (Paint F))
    {p : Paint F} (hp : p ∈ s.paints a fr before) :
    p ∈ before ∨ ∃ d ∈ s.drawsIn, ∃ a', p = d.paint a' fr := by
  cases s with
  | group shapes gt =>
    rw [Shape.paints, List.mem_append] at hp
    rcases hp with hp | hp
    · exact .inl hp
    · rw [Shape.NoRepeaters] at hs
      rcases paints_of_draws shapes hs _ fr [] hp with h | h
      · cases h
      · rw [Shape.drawsIn]; exact .inr h
  | draw d =>
    rw [Shape.paints, List.mem_append, List.mem_singleton] at hp
    rcases hp with hp | hp
    · exact .inl hp
    · exact .inr ⟨d, by rw [Shape.drawsIn]; exact List.mem_singleton_self d, a, hp⟩
  | repeater r => rw [Shape.NoRepeaters] at hs; exact hs.elim
  | geometry g => rw [Shape.paints] at hp <;> first | exact .inl hp | simp
  | trim t => rw [Shape.paints] at hp <;> first | exact .inl hp | simp

theorem paints_of_draws (ss : List (Shape F)) (hs : NoRepeatersIn ss) (a fr : F)
    (before : List (Paint F)) {p : Paint F} (hp : p ∈ paintsOf a fr ss before) :
    p ∈ before ∨ ∃ d ∈ drawsInAll ss, ∃ a', p = d.paint a' fr := by
  cases ss with
  | nil => rw [paintsOf] at hp; exact .inl hp
  | cons s ss =>
    rw [paintsOf] at hp
    rw [NoRepeatersIn] at hs
    rcases paints_of_draws ss hs.2 a fr _ hp with h | ⟨d, hd, h⟩
    · rcases paint_of_draw s hs.1 a fr before h with h | ⟨d, hd, h⟩
      · exact .inl h
      · exact .inr ⟨d, by rw [drawsInAll]; exact List.mem_append_left _ hd, h⟩
    · exact .inr ⟨d, by rw [drawsInAll]; exact List.mem_append_right _ hd, h⟩
end

mutual
/-- Imported shapes have no repeaters. -/
theorem keeps_noRepeaters (s : Schema.AnyShape F) {x : Shape F} (h : KeepsShape s (some x)) :
    x.NoRepeaters := by
  cases s with
  | group e n items i =>
    cases h with
    | group hi hne ht hgt => rw [Shape.NoRepeaters]; exact keepsItems_noRepeaters items hi
  | ellipse s => cases h; simp [Shape.NoRepeaters]
  | rectangle s => cases h; simp [Shape.NoRepeaters]
  | path s => cases h; simp [Shape.NoRepeaters]
  | polyStar s => cases h; simp [Shape.NoRepeaters]
  | fill s => cases h; simp [Shape.NoRepeaters]
  | stroke s => cases h; simp [Shape.NoRepeaters]
  | gradientFill s => cases h; simp [Shape.NoRepeaters]
  | gradientStroke s => cases h; simp [Shape.NoRepeaters]
  | trim s => cases h; simp [Shape.NoRepeaters]
  | transform s => cases h
  | puckerBloat s => cases h
  | merge s => cases h
  | repeater s => cases h
  | offsetPath s => cases h
  | twist s => cases h
  | roundedCorners s => cases h
termination_by sizeOf s

theorem keepsItems_noRepeaters (ss : List (Schema.AnyShape F)) {out : List (Shape F)}
    (h : KeepsItems ss out) : NoRepeatersIn out := by
  match ss with
  | [] => cases h; exact trivial
  | s :: ss =>
    cases h with
    | keep hk hs => exact ⟨keeps_noRepeaters s hk, keepsItems_noRepeaters ss hs⟩
    | drop hk hs => exact keepsItems_noRepeaters ss hs
termination_by sizeOf ss
end

mutual
/-- The fills and strokes of an imported shape are those of the document's shape. -/
theorem convShape_draws (s : Schema.AnyShape F) {x : Shape F} (h : convShape s = .ok (some x))
    {d : Draw F} (hd : d ∈ x.drawsIn) : ∃ t, Within t s ∧ convDraw t = .ok (some d) := by
  unfold convShape at h
  obtain ⟨o, ho, h⟩ := bind_ok h
  cases o with
  | some d' =>
    cases Except.ok.inj h
    rw [Shape.drawsIn, List.mem_singleton] at hd
    subst hd
    exact ⟨s, .self, ho⟩
  | none =>
    obtain ⟨g, hg, h⟩ := bind_ok h
    cases g with
    | some g => cases Except.ok.inj h; simp [Shape.drawsIn] at hd
    | none =>
      cases s with
      | group e n items i =>
        replace h : (do
          let (shapes, t) ← convGroupItems items none
          if !shapes.isEmpty then .ok (some (.group shapes t)) else .ok none :
            Except Fault (Option (Shape F))) = .ok (some x) := h
        obtain ⟨⟨shapes, t⟩, hi, h⟩ := bind_ok h
        dsimp only at h
        cases hsh : shapes.isEmpty with
        | true => rw [hsh] at h; cases Except.ok.inj h
        | false =>
          rw [hsh] at h
          cases Except.ok.inj h
          rw [Shape.drawsIn] at hd
          obtain ⟨s, hs, t, ht, hc⟩ := convGroupItems_draws items none hi hd
          exact ⟨t, .item hs ht, hc⟩
      | trim s =>
        replace h : ((do
          let start ← convScalar s.start
          let stop ← convScalar s.stop
          let offset ← convScalar s.offset
          .ok (some (.trim (AnimTrim.intoModel ⟨start, stop, offset⟩)))) :
            Except Fault (Option (Shape F))) = .ok (some x) := h
        obtain ⟨a, -, h⟩ := bind_ok h
        obtain ⟨b, -, h⟩ := bind_ok h
        obtain ⟨c, -, h⟩ := bind_ok h
        cases Except.ok.inj h
        simp [Shape.drawsIn] at hd
      | _ => cases Except.ok.inj h

theorem convGroupItems_draws (items : List (Schema.AnyShape F)) (t : Option (GroupTransform F))
    {out : List (Shape F)} {t' : Option (GroupTransform F)}
    (h : convGroupItems items t = .ok (out, t')) {d : Draw F} (hd : d ∈ drawsInAll out) :
    ∃ s ∈ items, ∃ u, Within u s ∧ convDraw u = .ok (some d) := by
  cases items with
  | nil =>
    rw [convGroupItems] at h
    cases Except.ok.inj h
    cases hd
  | cons s rest =>
    by_cases hs : ∃ tr, s = .transform tr
    · obtain ⟨tr, rfl⟩ := hs
      rw [convGroupItems] at h
      obtain ⟨gt, hg, h⟩ := bind_ok h
      obtain ⟨s, hs, r⟩ := convGroupItems_draws rest (some gt) h hd
      exact ⟨s, List.mem_cons_of_mem _ hs, r⟩
    · rw [convGroupItems] at h
      · obtain ⟨o, ho, h⟩ := bind_ok h
        obtain ⟨⟨shapes, t''⟩, hr, h⟩ := bind_ok h
        cases Except.ok.inj h
        cases o with
        | none =>
          obtain ⟨s', hs', r⟩ := convGroupItems_draws rest t hr hd
          exact ⟨s', List.mem_cons_of_mem _ hs', r⟩
        | some x =>
          replace hd : d ∈ x.drawsIn ++ drawsInAll shapes := hd
          rcases List.mem_append.mp hd with hd | hd
          · exact ⟨s, List.mem_cons_self, convShape_draws s ho hd⟩
          · obtain ⟨s', hs', r⟩ := convGroupItems_draws rest t hr hd
            exact ⟨s', List.mem_cons_of_mem _ hs', r⟩
      · exact fun tr e => hs ⟨tr, e⟩
end

theorem convShapes_draws {ss : List (Schema.AnyShape F)} {out : List (Shape F)}
    (h : convShapes ss = .ok out) {d : Draw F} (hd : d ∈ drawsInAll out) :
    ∃ s ∈ ss, ∃ u, Within u s ∧ convDraw u = .ok (some d) := by
  obtain ⟨os, hos, h'⟩ := bind_ok h
  have hf := mapM_ok_iff.mp hos
  rw [← Except.ok.inj h'] at hd
  clear h h' hos
  induction hf with
  | nil => cases hd
  | @cons s o ss os hs _ ih =>
    rw [List.flatMap_cons] at hd
    cases o with
    | none =>
      obtain ⟨s', hs', r⟩ := ih hd
      exact ⟨s', List.mem_cons_of_mem _ hs', r⟩
    | some x =>
      replace hd : d ∈ x.drawsIn ++ drawsInAll (os.flatMap Option.toList) := hd
      rcases List.mem_append.mp hd with hd | hd
      · exact ⟨s, List.mem_cons_self, convShape_draws s hs hd⟩
      · obtain ⟨s', hs', r⟩ := ih hd
        exact ⟨s', List.mem_cons_of_mem _ hs', r⟩

/-- The shapes of an imported layer are those of a shape layer of the document. -/
theorem imported_shapes {a : Schema.Animation F} {c : Composition F} (h : convAnimation a = .ok c)
    {l : Layer F} (hl : l ∈ c.allLayers) {shapes : List (Shape F)} (hc : l.content = .shape shapes) :
    ∃ s ∈ a.allLayers, ∃ q, s = .shape q ∧ convShapes q.shapes = .ok shapes := by
  obtain ⟨s, hs, l', p, hcv, hcont, -⟩ := imported_layer h hl
  rw [hc] at hcont
  by_cases hh : s.Hidden
  · rw [hcv.hidden hh] at hcont; cases hcont
  · have hct := hcv.content hh
    cases s with
    | shape q =>
      obtain ⟨ss, hss, hct⟩ := hct
      rw [hct] at hcont
      cases hcont
      exact ⟨_, hs, q, rfl, hss⟩
    | precomposition q =>
      obtain ⟨tr, -, hct⟩ := hct
      rw [hct] at hcont; cases hcont
    | solid q => rw [show l'.content = .none from hct] at hcont; cases hcont
    | null q => rw [show l'.content = .none from hct] at hcont; cases hcont
    | image q => rw [show l'.content = .none from hct] at hcont; cases hcont

end
end Velato
