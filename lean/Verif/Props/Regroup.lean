import Verif.Proofs.Regroup
import Verif.Props.DocDraws
import Verif.Props.NormalMatte

/-!
# C124: groups that change nothing
-/

namespace Velato
open FloatOps (lit)

section
variable [Kurbo ℝ]

/-- **C124.** In exact arithmetic, putting the first elements of a list of shapes (of a layer, or of a
group at any depth) in a group of their own changes nothing, and neither does taking them out of it: such
documents are imported together, and appends of them do the same, calls and panics alike. -/
theorem C124_regroup {a a' : Schema.Animation ℝ} (h : a.Regrouped a') {c : Composition ℝ}
    (hc : Import.convAnimation a = .ok c) :
    ∃ c', Import.convAnimation a' = .ok c' ∧
      ∀ {r : Renderer ℝ}, Reachable r → ∀ (n : Nat) (fr : ℝ) (T : Affine ℝ) (al : ℝ),
        Renderer.append n r c' fr T al = Renderer.append n r c fr T al := by
  obtain ⟨h1, h2, h3⟩ := h
  refine append_same (h1.imp fun _ _ h => sameConv_regroup h) ?_ h3 hc
  generalize a.assets = o, a'.assets = o' at h2
  cases h2 with
  | none => exact .none
  | some h =>
    refine .some (h.imp fun p p' hp => ?_)
    rcases hp with rfl | ⟨q, ls', rfl, rfl, hq⟩
    · exact .inl rfl
    · exact .inr ⟨q, ls', rfl, rfl, hq.imp fun _ _ h => sameConv_regroup h⟩

/-! ## Examples -/

/-- A transform as written by exporters for groups that are not moved. -/
noncomputable def exNeutral : Schema.TransformShape ℝ where
  graphicElement := exElement
  transform :=
    { exDocTransform 0 0 with opacity := some (exStatic 100) }

theorem exNeutral_neutral : NeutralTransform exNeutral := by
  intro fr
  refine ⟨_, rfl, ?_, ?_⟩
  · show (Affine.identity : Affine ℝ) = AnimTransform.evaluate
      ⟨.fixed ⟨lit 0, lit 0⟩, .value (.fixed ⟨0, 0⟩), .fixed (lit 0),
        .fixed ⟨lit 100, lit 100⟩, .fixed (lit 0), .fixed (lit 0)⟩ (lit 0)
    simp [AnimTransform.evaluate, Value.evaluate, Position.evaluate, Affine.mul, Affine.translate,
      Affine.rotate, skewMatrix, Affine.scaleNonUniform, toRadians, Affine.identity]
  · show (1 : ℝ) = 100 / 100
    norm_num

/-- The shapes of the layer of the small document can be taken out of their group, and put in two. -/
example : exSmallDoc.Regrouped { exSmallDoc with
      layers := [.shape ⟨exVisual "a" none,
        [.group exElement none [.group exElement none [exEllipse] none, exFillShape,
          .transform exNeutral] none]⟩] } := by
  refine ⟨.cons (.inr ⟨exVisual "a" none, _, _, rfl, rfl, ?_⟩) .nil, .none, rfl⟩
  have h1 : Wraps [exEllipse, exFillShape] [.group exElement none [exEllipse, exFillShape] none] :=
    .wrap (xs := [exEllipse, exFillShape]) (trs := []) (ys := [])
      (fun t h => by simp [exEllipse, exFillShape] at h) (fun s h => by cases h)
  have h2 : Wraps [exEllipse, exFillShape]
      [.group exElement none [exEllipse, exFillShape, .transform exNeutral] none] :=
    .wrap (xs := [exEllipse, exFillShape]) (trs := [.transform exNeutral]) (ys := [])
      (fun t h => by simp [exEllipse, exFillShape] at h) (fun s h => by
        simp only [List.mem_cons, List.not_mem_nil, or_false] at h
        exact ⟨_, h, exNeutral_neutral⟩)
  have h3 : Wraps [exEllipse, exFillShape, .transform exNeutral]
      [.group exElement none [exEllipse] none, exFillShape, .transform exNeutral] :=
    .wrap (xs := [exEllipse]) (trs := []) (ys := [exFillShape, .transform exNeutral])
      (fun t h => by simp [exEllipse] at h) (fun s h => by cases h)
  exact .trans _ _ _ (.symm _ _ (.rel _ _ h1)) (.trans _ _ _ (.rel _ _ h2)
    (.rel _ _ (.inside (pre := []) (post := []) h3)))

end

/-- Why only the first elements: a fill in a group of its own paints nothing that is before the group. -/
example [Kurbo F64] [Libm F64] :
    let doc (xs : List (Schema.AnyShape F64)) : Schema.Animation F64 :=
      { exDoc with assets := none, layers := [.shape ⟨exVisual "a" none, xs⟩] }
    let path : Schema.AnyShape F64 := .path ⟨⟨exElement, none⟩, ⟨none, none, none, .static
      ⟨some true, [(lit 1, lit 0), (lit 4, lit 0), (lit 0, lit 4)], [], []⟩⟩⟩
    ((docCalls (doc [path, exFillShape]) (lit 3)).map countCalls).toOption = some (1, 0) ∧
    ((docCalls (doc [path, .group exElement none [exFillShape] none]) (lit 3)).map countCalls).toOption
      = some (0, 0) := by
  constructor <;> kernel_decide

end Velato
