import Verif.Proofs.Covered
import Verif.Props.Sources

/-!
# C143: fills and strokes paint all geometry before them
-/

namespace Velato
open FloatOps (lit)
open Import

section
variable {F : Type} [FloatOps F] [LawfulCmp F] [Libm F] [Kurbo F] [KurboPaths F]

/-- **C143.** Take any shape layer of a document that is shown at a frame (through precompositions, too) and has no
trims.  Take one of its fills or strokes, `s`, in the shapes `xs` of the layer or of a group, such that all geometry that is
before one of these groups has its own fill or stroke before the group begins.  When the document is drawn, in any
arithmetic, then `s` is drawn: one call after the other paints the outlines of all geometry before `s` in `xs`,
in groups included, all of it, once, in order, and nothing else, each with the matrix of its place (outlines that follow
each other with equal matrices may be painted as one), with the stroke style and the brush of `s`. -/
theorem C143_all {doc : Schema.Animation F} {c : Composition F} (h : convAnimation doc = .ok c)
    {r r' : Renderer F} (hr : Reachable r) {frame : F} {T : Affine F} {al : F} {ops : List (Op F)}
    (hops : AppendCalls r c frame T al r' ops) {q : Schema.ShapeLayer F} {frame' : F}
    (hq : ShownLayer doc doc.layers frame q frame') (ht : ¬ TrimIn q.shapes) {xs : List (Schema.AnyShape F)}
    (hx : ClearTo q.shapes xs) {pre : List (Schema.AnyShape F)} {s : Schema.AnyShape F}
    {post : List (Schema.AnyShape F)} (hs : xs = pre ++ s :: post) (hp : s.IsPaint) :
    ∃ T₁ al₁ T₂ al₂ p gs os, Reaches doc doc.layers frame T al q frame' T₁ al₁ ∧
      GroupsTo frame' q.shapes T₁ al₁ xs T₂ al₂ ∧ PaintOf al₂ frame' p s ∧ GeometryOf frame' T₂ pre gs ∧
      GroupedInto gs os ∧ (os.map fun o => Op.draw p.stroke o.transform p.finalBrush o.path) <:+: ops := by
  obtain ⟨-, per, hper, rfl⟩ := (C117_calls h hr).mp hops
  obtain ⟨T₁, al₁, S, h1, h2, h3⟩ := shown_drawn hq hper
  obtain ⟨T₂, al₂, h4, h5⟩ := clear_paints hx h2 ht rfl rfl
  obtain ⟨p, os, gs, k1, k2, k3, k4⟩ := h5 pre s post hs hp
  refine ⟨T₁, al₁, T₂, al₂, p, gs, os, h1, h4, k1, k2, k3, ?_⟩
  have h6 : Painting.calls ⟨p, os⟩ <:+: S.calls := by
    obtain ⟨u, v, e⟩ := List.append_of_mem (List.mem_reverse.mpr k4)
    exact ⟨u.flatMap Painting.calls, v.flatMap Painting.calls, by unfold Sheet.calls; rw [e]; simp⟩
  exact (h6.trans h3).trans ⟨[.pushClip T doc.area], [.pop], rfl⟩

end

/-! ## The hypotheses can be met -/

/-- The shapes of the layer of `exFadedDoc`: a group with an ellipse and a fill. -/
example [Libm F64] [Kurbo F64] [KurboPaths F64] : ∃ c, convAnimation exFadedDoc = .ok c ∧
    ∀ r' T al ops, AppendCalls Renderer.new c (lit 1) T al r' ops → ∃ st T' b path, Op.draw st T' b path ∈ ops := by
  obtain ⟨c, hc⟩ : ∃ c, convAnimation exFadedDoc = .ok c := ⟨_, rfl⟩
  refine ⟨c, hc, fun r' T al ops h => ?_⟩
  obtain ⟨q, hq⟩ : ∃ q, exFadedDoc.layers = [.shape q] := ⟨_, rfl⟩
  have hq' := hq
  cases hq'
  have noTrim : ¬ TrimIn [.group exElement none [exEllipse, exFillShape (F := F64)] none] := by
    intro h
    cases h with
    | here h => cases List.mem_singleton.mp h
    | inner h ht =>
      cases List.mem_singleton.mp h
      cases ht with
      | here h =>
        simp only [List.mem_cons, List.not_mem_nil, or_false] at h
        rcases h with h | h <;> cases h
      | inner h =>
        simp only [List.mem_cons, List.not_mem_nil, or_false] at h
        rcases h with h | h <;> cases h
  obtain ⟨T₁, al₁, T₂, al₂, p, gs, os, -, -, -, h1, h2, h3⟩ := C143_all hc .new h (q := _) (frame' := lit 1)
    (xs := [exEllipse, exFillShape]) (pre := [exEllipse]) (s := exFillShape) (post := [])
    (.here (List.mem_of_mem_head? (by rw [hq]; rfl)) (by rintro ⟨-, h⟩; cases h) (by constructor <;> decide +kernel)
      (by unfold Schema.AnyLayer.Hidden; decide)) noTrim (.group (pre := []) .nil .here) rfl trivial
  obtain ⟨g, gs', rfl⟩ : ∃ g gs', gs = g :: gs' := by
    cases h1 with
    | geometry _ _ => exact ⟨_, _, rfl⟩
    | paint h => exact h.elim
    | ignored h => exact h.elim
  obtain ⟨parts, e, h2⟩ := h2
  cases h2 with
  | nil => cases e
  | @cons _ o _ os _ _ => exact ⟨_, _, _, _, h3.subset (List.mem_cons_self (a := _))⟩

end Velato
