import Verif.Proofs.ImportShapes
import Verif.Spec.ExampleDoc

/-!
# Import of shapes (C53, C54)
-/

namespace Velato
open FloatOps (lit)
open Import (convShape convGroupItems convShapes convDraw convGeometry convScalar)

section
variable {F : Type} [FloatOps F] [Kurbo F] [Libm F]

/-! ## C53 — shapes are kept in order -/

mutual
theorem convShape_keeps (s : Schema.AnyShape F) {o : Option (Shape F)}
    (h : convShape s = .ok o) : KeepsShape s o := by
  cases s with
  | group e n items i =>
    unfold convShape at h
    replace h : (do
        let (shapes, t) ← convGroupItems items none
        if !shapes.isEmpty then .ok (some (.group shapes t)) else .ok none :
          Except Fault (Option (Shape F))) = .ok o := h
    obtain ⟨⟨shapes, t⟩, hi, h⟩ := bind_ok h
    obtain ⟨hk, ht⟩ := convGroupItems_keeps items none hi
    cases shapes with
    | nil => cases Except.ok.inj h; exact .emptyGroup hk
    | cons x xs =>
      cases Except.ok.inj h
      rcases ht with ⟨hl, rfl⟩ | ⟨tr, gt, hl, rfl, hg⟩
      · exact .group hk (by simp) hl trivial
      · exact .group hk (by simp) hl hg
  | rectangle s =>
    unfold convShape at h
    replace h : ((do
        let g ← convGeometry (.rectangle s)
        match g with
        | some g => .ok (some (.geometry g))
        | none => .ok none) : Except Fault (Option (Shape F))) = .ok o := h
    obtain ⟨g, hg, h⟩ := bind_ok h
    obtain ⟨r, hr, hg⟩ := bind_ok hg
    cases Except.ok.inj hg
    cases Except.ok.inj h
    exact .rectangle (C51_positions _) (C51_vectors _) (C51_scalars hr)
  | ellipse s =>
    unfold convShape at h
    cases Except.ok.inj h
    exact .ellipse (C51_positions _) (C51_vectors _)
  | transform s => unfold convShape at h; cases Except.ok.inj h; exact .ignored trivial
  | puckerBloat s => unfold convShape at h; cases Except.ok.inj h; exact .ignored trivial
  | merge s => unfold convShape at h; cases Except.ok.inj h; exact .ignored trivial
  | repeater s => unfold convShape at h; cases Except.ok.inj h; exact .ignored trivial
  | offsetPath s => unfold convShape at h; cases Except.ok.inj h; exact .ignored trivial
  | twist s => unfold convShape at h; cases Except.ok.inj h; exact .ignored trivial
  | roundedCorners s => unfold convShape at h; cases Except.ok.inj h; exact .ignored trivial
  | stroke s =>
    unfold convShape at h
    obtain ⟨d, hd, h⟩ := bind_ok h
    obtain ⟨k, hk, hd⟩ := bind_ok hd
    obtain ⟨op, ho, hd⟩ := bind_ok hd
    cases Except.ok.inj hd
    cases Except.ok.inj h
    exact .stroke (stroke_ok hk) (C51_colors _) (C51_scalars ho)
  | fill s =>
    unfold convShape at h
    obtain ⟨d, hd, h⟩ := bind_ok h
    obtain ⟨op, ho, hd⟩ := bind_ok hd
    cases Except.ok.inj hd
    cases Except.ok.inj h
    exact .fill (C51_colors _) (C51_scalars ho)
  | gradientFill s =>
    unfold convShape at h
    obtain ⟨d, hd, h⟩ := bind_ok h
    obtain ⟨g, hg, hd⟩ := bind_ok hd
    cases Except.ok.inj hd
    cases Except.ok.inj h
    exact .gradientFill (gradient_ok hg)
  | gradientStroke s =>
    unfold convShape at h
    obtain ⟨d, hd, h⟩ := bind_ok h
    obtain ⟨k, hk, hd⟩ := bind_ok hd
    obtain ⟨g, hg, hd⟩ := bind_ok hd
    cases Except.ok.inj hd
    cases Except.ok.inj h
    exact .gradientStroke (stroke_ok hk) (gradient_ok hg)
  | trim s =>
    unfold convShape at h
    replace h : ((do
        let start ← convScalar s.start
        let stop ← convScalar s.stop
        let offset ← convScalar s.offset
        .ok (some (.trim (AnimTrim.intoModel ⟨start, stop, offset⟩)))) :
          Except Fault (Option (Shape F))) = .ok o := h
    obtain ⟨a, ha, h⟩ := bind_ok h
    obtain ⟨b, hb, h⟩ := bind_ok h
    obtain ⟨c, hc, h⟩ := bind_ok h
    cases Except.ok.inj h
    exact .trim (C51_scalars ha) (C51_scalars hb) (C51_scalars hc)
  | path s =>
    unfold convShape at h
    replace h : ((do
        let g ← Import.convShapeGeometry s.shapeProperty
        match g with
        | some g => .ok (some (.geometry g))
        | none => .ok none) : Except Fault (Option (Shape F))) = .ok o := h
    obtain ⟨g, hg, h⟩ := bind_ok h
    rcases shapeGeometry_ok hg with ⟨g', rfl, hp⟩ | ⟨rfl, hp⟩
    · cases Except.ok.inj h; exact .path hp
    · cases Except.ok.inj h; exact .noPath hp
  | polyStar s =>
    unfold convShape at h
    replace h : ((do
        let g ← (Import.convPolystar s).map some
        match g with
        | some g => .ok (some (.geometry g))
        | none => .ok none) : Except Fault (Option (Shape F))) = .ok o := h
    obtain ⟨g, hg, h⟩ := bind_ok h
    obtain ⟨g', hg', rfl⟩ := map_ok hg
    cases Except.ok.inj h
    obtain ⟨a, ha, hm⟩ := polystar_ok hg'
    exact .polyStar ha hm

theorem convGroupItems_keeps (items : List (Schema.AnyShape F)) (t : Option (GroupTransform F))
    {out : List (Shape F)} {t' : Option (GroupTransform F)}
    (h : convGroupItems items t = .ok (out, t')) :
    KeepsItems items out ∧ ItemsTransform items t t' := by
  cases items with
  | nil =>
    rw [convGroupItems] at h
    cases Except.ok.inj h
    exact ⟨.nil, .inl ⟨(fun _ h => nomatch h), rfl⟩⟩
  | cons s rest =>
    by_cases hs : ∃ tr, s = .transform tr
    · obtain ⟨tr, rfl⟩ := hs
      rw [convGroupItems] at h
      obtain ⟨gt, hg, h⟩ := bind_ok h
      obtain ⟨hk, ht⟩ := convGroupItems_keeps rest (some gt) h
      exact ⟨.drop (.ignored trivial) hk, ht.cons_transform (groupTransform_ok hg)⟩
    · rw [convGroupItems] at h
      · obtain ⟨o, ho, h⟩ := bind_ok h
        obtain ⟨⟨shapes, t''⟩, hr, h⟩ := bind_ok h
        obtain ⟨hk, ht⟩ := convGroupItems_keeps rest t hr
        have hs' := convShape_keeps s ho
        cases Except.ok.inj h
        exact ⟨KeepsItems.cons hs' hk, ht.cons fun tr e => hs ⟨tr, e⟩⟩
      · exact fun tr e => hs ⟨tr, e⟩
end

/-- **C53.** Import of the shapes of a layer: geometry, fills, strokes, trims and groups that are not
empty are kept, in the order of the document and at every depth, with the values of the document;
the rest is dropped; the transform of a group is its last transform element. -/
theorem C53_shapes (ss : List (Schema.AnyShape F)) {out : List (Shape F)}
    (h : convShapes ss = .ok out) : KeepsItems ss out := by
  obtain ⟨os, hos, h'⟩ := bind_ok h
  have hf := mapM_ok_iff.mp hos
  rw [← Except.ok.inj h']
  clear h h' hos
  induction hf with
  | nil => exact .nil
  | cons hs _ ih => exact KeepsItems.cons (convShape_keeps _ hs) ih

/-- **C53.** The imported shape list is the document's list with the dropped shapes left out. -/
theorem C53_order (ss : List (Schema.AnyShape F)) {out : List (Shape F)}
    (h : convShapes ss = .ok out) :
    ∃ kept, List.Sublist kept ss ∧
      List.Forall₂ (fun s x => KeepsShape s (some x)) kept out := by
  have hk := C53_shapes ss h
  clear h
  induction ss generalizing out with
  | nil => cases hk; exact ⟨[], .slnil, .nil⟩
  | cons s ss ih =>
    cases hk with
    | keep h hs =>
      obtain ⟨kept, h1, h2⟩ := ih hs
      exact ⟨s :: kept, h1.cons_cons s, .cons h h2⟩
    | drop h hs =>
      obtain ⟨kept, h1, h2⟩ := ih hs
      exact ⟨kept, h1.cons s, h2⟩

/-! ## C54 — declared opacity -/

/-- The opacity declared by a fill or stroke. -/
def DeclaredOpacity : Schema.AnyShape F → Option (Schema.FloatValue F)
  | .fill s => some s.shapeStyle.opacity
  | .stroke s => some s.shapeStyle.opacity
  | .gradientFill s => some s.shapeStyle.opacity
  | .gradientStroke s => some s.shapeStyle.opacity
  | _ => none

/-- The shape paints with a gradient. -/
def IsGradient : Schema.AnyShape F → Prop
  | .gradientFill _ | .gradientStroke _ => True
  | _ => False

/-- The shape with its declared opacity replaced. -/
def setOpacity (o : Schema.FloatValue F) : Schema.AnyShape F → Schema.AnyShape F
  | .fill s => .fill { s with shapeStyle := { s.shapeStyle with opacity := o } }
  | .stroke s => .stroke { s with shapeStyle := { s.shapeStyle with opacity := o } }
  | .gradientFill s => .gradientFill { s with shapeStyle := { s.shapeStyle with opacity := o } }
  | .gradientStroke s => .gradientStroke { s with shapeStyle := { s.shapeStyle with opacity := o } }
  | s => s

/-- **C54.** Proved part: a solid fill or stroke is imported with the opacity it declares.  Missing,
and false: gradients (`C54_gradients`). -/
theorem C54_solid_partial (s : Schema.AnyShape F) (d : Draw F) (o : Schema.FloatValue F)
    (h : convShape s = .ok (some (.draw d))) (ho : DeclaredOpacity s = some o)
    (hg : ¬ IsGradient s) : ScalarOf o d.opacity := by
  have hk := convShape_keeps s h
  cases hk with
  | fill hc hop => cases ho; exact hop
  | stroke hk hc hop => cases ho; exact hop
  | gradientFill => exact absurd trivial hg
  | gradientStroke => exact absurd trivial hg

/-- **C54.** The opacity a gradient fill or stroke declares has no effect at all: it is imported as
100% whatever it is. -/
theorem C54_gradients (s : Schema.AnyShape F) (hg : IsGradient s) :
    (∀ o, convShape (setOpacity o s) = convShape s) ∧
    ∀ d, convShape s = .ok (some (.draw d)) → d.opacity = .fixed (lit 100) := by
  cases s with
  | gradientFill s =>
    refine ⟨fun o => by unfold convShape; rfl, fun d h => ?_⟩
    unfold convShape at h
    obtain ⟨d', hd, h⟩ := bind_ok h
    obtain ⟨g, hg, hd⟩ := bind_ok hd
    cases Except.ok.inj hd
    cases Except.ok.inj h
    rfl
  | gradientStroke s =>
    refine ⟨fun o => by unfold convShape; rfl, fun d h => ?_⟩
    unfold convShape at h
    obtain ⟨d', hd, h⟩ := bind_ok h
    obtain ⟨k, hk, hd⟩ := bind_ok hd
    obtain ⟨g, hg, hd⟩ := bind_ok hd
    cases Except.ok.inj hd
    cases Except.ok.inj h
    rfl
  | _ => exact absurd hg id

end

/-! ### Concrete cases -/

section
open Schema

/-- A gradient fill of opacity 50%. -/
def exGradientFill {F : Type} [FloatOps F] : AnyShape F :=
  .gradientFill ⟨⟨exElement, exStatic (lit 50)⟩,
    ⟨⟨⟨exStatic [lit 0, lit 1, lit 0, lit 0, lit 1, lit 0, lit 1, lit 0], none⟩, 2⟩,
      ⟨exStatic [lit 0, lit 0], none⟩, ⟨exStatic [lit 9, lit 0], none⟩, none, none, none⟩, none⟩

/-- **C54.** The claim is false: a gradient fill that declares 50% is imported with 100%. -/
theorem C54_counterexample [Kurbo F64] [Libm F64] :
    (DeclaredOpacity (exGradientFill : AnyShape F64)).map (·.value) = some (.static (lit 50)) ∧
    ((convShape (exGradientFill : AnyShape F64)).map fun s =>
      match s with
      | some (.draw ⟨_, _, .fixed o⟩) => o
      | _ => lit 0).toOption = some (lit 100) := by
  refine ⟨by decide +kernel, ?_⟩
  kernel_decide

/-- A summary of imported shapes. -/
def shapeKind {F : Type} : Shape F → String
  | .group ss _ => "group " ++ toString ss.length
  | .geometry _ => "geometry"
  | .draw _ => "draw"
  | .trim _ => "trim"
  | .repeater _ => "repeater"

/-- A list with a group in which two of four elements are kept, an empty group, an ignored
modifier and a gradient: kept are the group and the gradient. -/
example [Kurbo F64] [Libm F64] :
    ((convShapes [
        .group exElement none [.transform ⟨exElement, exDocTransform (lit 1) (lit 2)⟩, exEllipse,
          exFillShape, .roundedCorners ⟨exElement, exStatic (lit 1)⟩] none,
        .group exElement none [.merge ⟨exElement, none⟩] none,
        .merge ⟨exElement, none⟩,
        (exGradientFill : AnyShape F64)]).map fun out => out.map shapeKind).toOption
      = some ["group 2", "draw"] := by
  kernel_decide

end
end Velato
