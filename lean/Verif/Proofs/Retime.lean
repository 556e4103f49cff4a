import Verif.Spec.Retime
import Verif.Proofs.SameAt
import Verif.Num.Real

/-!
# Moving everything in time: helper lemmas
-/

namespace Velato
open FloatOps (lit)

theorem bsearchLoop_map {α β : Type} (l : List α) (g : α → β) (f : β → Ordering) (base size : Nat) :
    bsearchLoop (l.map g) f base size = bsearchLoop l (f ∘ g) base size := by
  induction size using Nat.strong_induction_on generalizing base with
  | _ size ih =>
    conv_lhs => rw [bsearchLoop]
    conv_rhs => rw [bsearchLoop]
    split
    · dsimp only
      rw [ih _ (by omega), List.getElem?_map]
      cases l[base + size / 2]? <;> rfl
    · rfl

theorem binarySearchBy_map {α β : Type} (l : List α) (g : α → β) (f : β → Ordering) :
    binarySearchBy (l.map g) f = binarySearchBy l (f ∘ g) := by
  unfold binarySearchBy
  rw [List.length_map, bsearchLoop_map]
  split
  · rfl
  · dsimp only
    rw [List.getElem?_map]
    cases l[bsearchLoop l (f ∘ g) 0 l.length]? <;> rfl

section
variable {α β : ℝ}

/-- The map of times. -/
noncomputable abbrev affineTime (α β : ℝ) : ℝ → ℝ := fun t => α * t + β

theorem framesAndWeight_retime (hα : 0 < α) (ts : List (Time ℝ)) (fr : ℝ) :
    Time.framesAndWeight (ts.map (Time.retime (affineTime α β))) (α * fr + β)
      = Time.framesAndWeight ts fr := by
  have hs : Time.search (ts.map (Time.retime (affineTime α β))) (α * fr + β)
      = Time.search ts fr := by
    unfold Time.search
    rw [binarySearchBy_map]
    have : (Time.cmpFrame (α * fr + β)) ∘ (Time.retime (affineTime α β)) = Time.cmpFrame fr := by
      funext t
      unfold Time.cmpFrame Time.retime
      simp only [Function.comp_apply, real_lt]
      have h1 : (α * t.frame + β < α * fr + β) ↔ t.frame < fr := by
        rw [add_lt_add_iff_right, mul_lt_mul_iff_right₀ hα]
      have h2 : (α * fr + β < α * t.frame + β) ↔ fr < t.frame := by
        rw [add_lt_add_iff_right, mul_lt_mul_iff_right₀ hα]
      simp only [h1, h2]
    rw [this]
  unfold Time.framesAndWeight
  simp only [List.length_map, hs]
  split
  · rfl
  · simp only [List.getElem_map, Option.some.injEq, FrameWeight.mk.injEq, true_and]
    refine ⟨?_, rfl, rfl⟩
    simp only [Time.retime, real_div, real_sub]
    congr 1
    rw [show α * fr + β - (α * (ts[min (Time.search ts fr) (ts.length - 1)]'(by omega)).frame + β)
      = α * (fr - (ts[min (Time.search ts fr) (ts.length - 1)]'(by omega)).frame) by ring]
    rw [show ∀ x y : ℝ, α * x + β - (α * y + β) = α * (x - y) from fun x y => by ring]
    rw [mul_div_mul_left _ _ hα.ne']

variable [Kurbo ℝ]

omit [Kurbo ℝ] in
theorem evaluateOr_retime {T : Type} [Tween ℝ T] (hα : 0 < α) (v : Value ℝ T) (fr : ℝ) (d : T) :
    (v.retime (affineTime α β)).evaluateOr (α * fr + β) d = v.evaluateOr fr d := by
  cases v with
  | fixed v => rfl
  | animated a =>
    show Animated.evaluateOr _ _ _ = Animated.evaluateOr _ _ _
    unfold Animated.evaluateOr Animated.evaluateInner
    dsimp only
    rw [framesAndWeight_retime hα]

omit [Kurbo ℝ] in
theorem evaluate_retime {T : Type} [Tween ℝ T] [RDefault T] (hα : 0 < α) (v : Value ℝ T) (fr : ℝ) :
    (v.retime (affineTime α β)).evaluate (α * fr + β) = v.evaluate fr := by
  cases v with
  | fixed v => rfl
  | animated a => exact evaluateOr_retime hα (.animated a) fr RDefault.dflt

theorem transform_retime (hα : 0 < α) (t : Transform ℝ) (fr : ℝ) :
    (t.retime (affineTime α β)).evaluate (α * fr + β) = t.evaluate fr := by
  cases t with
  | fixed a => rfl
  | animated t =>
    have hp : (t.position.retime (affineTime α β)).evaluate (α * fr + β) = t.position.evaluate fr := by
      cases t.position with
      | value v => exact evaluate_retime hα v fr
      | splitValues x y =>
        show P2.mk _ _ = P2.mk _ _
        rw [evaluate_retime hα, evaluate_retime hα]
    show AnimTransform.evaluate _ _ = AnimTransform.evaluate _ _
    unfold AnimTransform.evaluate
    simp only [evaluate_retime hα, hp]

theorem geometry_retime (hα : 0 < α) (g : Geometry ℝ) (fr : ℝ) :
    (g.retime (affineTime α β)).evaluate (α * fr + β) = g.evaluate fr := by
  cases g with
  | fixed p => rfl
  | rect r =>
    unfold Geometry.retime Geometry.evaluate AnimRect.evaluate
    simp only [evaluate_retime hα]
  | ellipse e =>
    unfold Geometry.retime Geometry.evaluate AnimEllipse.evaluate
    simp only [evaluate_retime hα]
  | spline s =>
    unfold Geometry.retime Geometry.evaluate AnimSpline.evaluate
    simp only [framesAndWeight_retime hα]
  | star s =>
    unfold Geometry.retime Geometry.evaluate AnimStar.evaluate
    simp only [evaluate_retime hα]

theorem stroke_retime (hα : 0 < α) (s : Stroke ℝ) (fr : ℝ) :
    (s.retime (affineTime α β)).evaluate (α * fr + β) = s.evaluate fr := by
  cases s with
  | fixed s => rfl
  | animated s =>
    unfold Stroke.retime Stroke.evaluate AnimStroke.evaluate
    simp only [evaluate_retime hα]

theorem stops_retime (hα : 0 < α) (s : ColorStops ℝ) (fr : ℝ) :
    (s.retime (affineTime α β)).evaluate (α * fr + β) = s.evaluate fr := by
  cases s with
  | fixed s => rfl
  | animated s =>
    unfold ColorStops.retime ColorStops.evaluate AnimColorStops.evaluateInner
    simp only [framesAndWeight_retime hα]

theorem brush_retime (hα : 0 < α) (b : MBrush ℝ) (a fr : ℝ) :
    (b.retime (affineTime α β)).evaluate a (α * fr + β) = b.evaluate a fr := by
  cases b with
  | fixed b => rfl
  | animated b =>
    cases b with
    | solid c =>
      unfold MBrush.retime MBrush.evaluate AnimBrush.evaluate
      simp only [evaluateOr_retime hα]
    | gradient g =>
      unfold MBrush.retime MBrush.evaluate AnimBrush.evaluate AnimGradient.evaluate
      simp only [evaluate_retime hα, stops_retime hα]

theorem repeater_retime (hα : 0 < α) (r : Repeater ℝ) (fr : ℝ) :
    (r.retime (affineTime α β)).evaluate (α * fr + β) = r.evaluate fr := by
  cases r with
  | fixed s => rfl
  | animated s =>
    unfold Repeater.retime Repeater.evaluate AnimRepeater.evaluate
    simp only [evaluate_retime hα]

theorem trim_retime (hα : 0 < α) (t : Trim ℝ) (fr : ℝ) :
    (t.retime (affineTime α β)).evaluate (α * fr + β) = t.evaluate fr := by
  cases t with
  | fixed s => rfl
  | animated s =>
    unfold Trim.retime Trim.evaluate AnimTrim.evaluate
    simp only [evaluate_retime hα]

theorem groupParams_retime (hα : 0 < α) (t : Option (GroupTransform ℝ)) (fr : ℝ) :
    groupParams (t.map (GroupTransform.retime (affineTime α β))) (α * fr + β) = groupParams t fr := by
  cases t with
  | none => rfl
  | some t =>
    unfold groupParams GroupTransform.retime
    simp only [Option.map_some, evaluate_retime hα, transform_retime hα]

mutual
theorem shape_retime (hα : 0 < α) (fr : ℝ) :
    ∀ s : Shape ℝ, Shape.SameAt (α * fr + β) fr (s.retime (affineTime α β)) s
  | .group ss t => by
    unfold Shape.retime
    exact .group (shapes_retime hα fr ss) (groupParams_retime hα t fr)
  | .geometry g => by unfold Shape.retime; exact .geometry (geometry_retime hα g fr)
  | .draw d => by
    unfold Shape.retime
    refine .draw ?_ (brush_retime hα d.brush _ fr) (evaluate_retime hα d.opacity fr)
    show (d.stroke.map _).map _ = _
    rw [Option.map_map]
    congr 1
    funext s
    exact stroke_retime hα s fr
  | .repeater r => by unfold Shape.retime; exact .repeater (repeater_retime hα r fr)
  | .trim t => by unfold Shape.retime; exact .trim (trim_retime hα t fr)

theorem shapes_retime (hα : 0 < α) (fr : ℝ) :
    ∀ ss : List (Shape ℝ), Shape.SameAtAll (α * fr + β) fr (Shape.retimeAll (affineTime α β) ss) ss
  | [] => by unfold Shape.retimeAll; exact .nil
  | s :: ss => by
    unfold Shape.retimeAll
    exact .cons (shape_retime hα fr s) (shapes_retime hα fr ss)
end

theorem layer_retime (hα : 0 < α) (fr : ℝ) (l : Layer ℝ) :
    Layer.SameAt (fun _ => Eq) (α * fr + β) fr (l.retime (affineTime α β) (α * ·)) l where
  name := rfl
  parent := rfl
  visible := by
    unfold Layer.retime FRange.contains
    simp only [real_le, real_lt, add_le_add_iff_right, add_lt_add_iff_right,
      mul_le_mul_iff_right₀ hα, mul_lt_mul_iff_right₀ hα]
  transform := transform_retime hα _ fr
  opacity := evaluate_retime hα _ fr
  masks := by
    show List.Forall₂ _ (l.masks.map _) _
    generalize l.masks = ms
    induction ms with
    | nil => exact .nil
    | cons m ms ih => exact .cons (geometry_retime hα _ fr) ih
  isMask := rfl
  maskLayer := rfl
  content := by
    cases h : l.content with
    | none => exact .none (by simp [Layer.retime, h, Content.retime]) h
    | «instance» name tr =>
      refine .inst (by simp only [Layer.retime, h, Content.retime]; rfl) h ?_
      simp only [Layer.retime, real_div, real_add, real_neg]
      rw [← add_div, ← add_div, show α * fr + β + -(α * l.startFrame + β)
        = α * (fr + -l.startFrame) by ring, mul_div_mul_left _ _ hα.ne']
    | shape ss =>
      exact .shape (by simp only [Layer.retime, h, Content.retime]) h (shapes_retime hα fr ss)

end

section
variable {F : Type} [FloatOps F] [Libm F] [Kurbo F]

mutual
theorem shape_sameAt_refl (fr : F) : ∀ s : Shape F, Shape.SameAt fr fr s s
  | .group ss _ => .group (shapes_sameAt_refl fr ss) rfl
  | .geometry _ => .geometry rfl
  | .draw _ => .draw rfl rfl rfl
  | .repeater _ => .repeater rfl
  | .trim _ => .trim rfl

theorem shapes_sameAt_refl (fr : F) : ∀ ss : List (Shape F), Shape.SameAtAll fr fr ss ss
  | [] => .nil
  | s :: ss => .cons (shape_sameAt_refl fr s) (shapes_sameAt_refl fr ss)
end

theorem layer_sameAt_refl (fr : F) (l : Layer F) : Layer.SameAt (fun _ => Eq) fr fr l l where
  name := rfl
  parent := rfl
  visible := rfl
  transform := rfl
  opacity := rfl
  masks := by
    generalize l.masks = ms
    induction ms with
    | nil => exact .nil
    | cons m ms ih => exact .cons rfl ih
  isMask := rfl
  maskLayer := rfl
  content := by
    cases h : l.content with
    | none => exact .none h h
    | «instance» name tr => exact .inst h h rfl
    | shape ss => exact .shape h h (shapes_sameAt_refl fr ss)

theorem layers_sameAt_refl (fr : F) (ls : List (Layer F)) :
    List.Forall₂ (Layer.SameAt (fun _ => Eq) fr fr) ls ls := by
  induction ls with
  | nil => exact .nil
  | cons l ls ih => exact .cons (layer_sameAt_refl fr l) ih

end
end Velato
