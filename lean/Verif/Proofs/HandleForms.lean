import Verif.Spec.HandleForms
import Verif.Proofs.ElsewhereDoc
import Verif.Proofs.Retime

/-!
# The ways to write the handles of a keyframe: helper lemmas
-/

namespace Velato
open FloatOps (lit)
open Import

section
variable {F : Type} [FloatOps F]

/-- The same frame, easing and hold. -/
def Time.Alike (t t' : Time F) : Prop := t'.frame = t.frame ∧ t'.hold = t.hold ∧ t'.easing = t.easing

theorem search_frames (ts : List (Time F)) (fr : F) : Time.search ts fr =
    Time.search ((ts.map (·.frame)).map fun x => (⟨x, none, none, false⟩ : Time F)) fr := by
  unfold Time.search
  rw [binarySearchBy_map, binarySearchBy_map]
  rfl

theorem framesAndWeight_alike {ts ts' : List (Time F)} (h : List.Forall₂ Time.Alike ts ts') (fr : F) :
    Time.framesAndWeight ts' fr = Time.framesAndWeight ts fr := by
  have hm : ts'.map (·.frame) = ts.map (·.frame) := by
    induction h with
    | nil => rfl
    | cons h _ ih => rw [List.map_cons, List.map_cons, h.1, ih]
  have hl := h.length_eq
  have hs : Time.search ts' fr = Time.search ts fr := by rw [search_frames, search_frames ts, hm]
  by_cases he : ts.length = 0
  · unfold Time.framesAndWeight
    rw [dif_pos he, dif_pos (by omega)]
  have get : ∀ i (hi : i < ts.length) (hi' : i < ts'.length), Time.Alike ts[i] ts'[i] := fun i hi hi' =>
    (List.forall₂_iff_get.mp h).2 i hi hi'
  unfold Time.framesAndWeight
  rw [dif_neg he, dif_neg (by omega)]
  simp only [hs, ← hl]
  obtain ⟨a1, a2, a3⟩ := get (min (Time.search ts fr) (ts.length - 1)) (by omega) (by omega)
  obtain ⟨b1, -, -⟩ := get (min (min (Time.search ts fr) (ts.length - 1) + 1) (ts.length - 1)) (by omega) (by omega)
  rw [a1, a2, a3, b1]

theorem animated_alike {T : Type} [Tween F T] {ts ts' : List (Time F)} (h : List.Forall₂ Time.Alike ts ts') (vs : List T) (fr : F) :
    SameValue fr fr (.animated ⟨ts, vs⟩) (.animated ⟨ts', vs⟩) := by
  refine .inr ⟨_, _, rfl, rfl, fun d => ?_⟩
  unfold Animated.evaluateOr Animated.evaluateInner
  dsimp only
  rw [framesAndWeight_alike h]

omit [FloatOps F] in
theorem isHold_same {b b' : Schema.KeyframeBase F} (h : b'.hold = some .true ↔ b.hold = some .true) : isHold b' = isHold b := by
  unfold isHold
  revert h
  generalize b'.hold = x, b.hold = y
  intro h
  rcases x with _ | x <;> rcases y with _ | y <;> try cases x
  all_goals try cases y
  all_goals simp_all

omit [FloatOps F] in
theorem convComponent_is {c : Schema.KeyframeComponent F} {x : F} (h : c.Is x) : convComponent c = .ok x := by
  rcases h with rfl | rfl <;> rfl

omit [FloatOps F] in
theorem convHandle_at {h : Schema.KeyframeBezierHandle F} {x y : F} (hp : h.At x y) :
    convHandle? (some h) = .ok (some ⟨x, y⟩) := by
  unfold convHandle? convKeyframeHandle
  dsimp only
  rw [convComponent_is hp.1, convComponent_is hp.2]
  rfl

omit [FloatOps F] in
theorem convHandle_same {h h' : Option (Schema.KeyframeBezierHandle F)} (hs : Option.Rel Schema.KeyframeBezierHandle.Same h h') :
    convHandle? h' = convHandle? h := by
  cases hs with
  | none => rfl
  | some hs =>
    obtain ⟨x, y, p, p'⟩ := hs
    rw [convHandle_at p, convHandle_at p']

theorem convTime_same {b b' : Schema.KeyframeBase F} (h : b.Same b') : Both Time.Alike (convTime b) (convTime b') := by
  obtain ⟨ht, hh, hs⟩ := h
  replace hh := isHold_same hh
  unfold convTime
  rw [ht, hh]
  have base : ∀ {x x' y y' : Except Fault (Option (EasingHandle F))}, x' = x → y' = y → Both Time.Alike
      (x >>= fun i => y >>= fun o => .ok ⟨b.time, i, o, isHold b⟩) (x' >>= fun i => y' >>= fun o => .ok ⟨b.time, i, o, isHold b⟩) := by
    rintro x _ y _ rfl rfl t t' e e'
    cases e.symm.trans e'
    exact ⟨rfl, rfl, rfl⟩
  cases hs with
  | equal hi ho => exact base (by rw [hi]) (by rw [ho])
  | written hi ho => exact base (convHandle_same hi) (convHandle_same ho)
  | added hi ho hi' ho' pi po =>
    rw [hi, ho, hi', ho', convHandle_at pi, convHandle_at po]
    exact Both.ok ⟨rfl, rfl, rfl⟩
  | removed hi ho hi' ho' pi po =>
    rw [hi, ho, hi', ho', convHandle_at pi, convHandle_at po]
    exact Both.ok ⟨rfl, rfl, rfl⟩

omit [FloatOps F] in
theorem collectTangents_at {h : Schema.KeyframeBezierHandle F} {x y : F} (hp : h.At x y) :
    collectTangents (some h) = [⟨x, y⟩] := by
  obtain ⟨hx, hy⟩ := hp
  unfold collectTangents
  dsimp only
  rcases hx with hx | hx <;> rcases hy with hy | hy <;> rw [hx, hy] <;> rfl

omit [FloatOps F] in
theorem collectTangents_same {h h' : Option (Schema.KeyframeBezierHandle F)} (hs : Option.Rel Schema.KeyframeBezierHandle.Same h h') :
    collectTangents h' = collectTangents h := by
  cases hs with
  | none => rfl
  | some hs =>
    obtain ⟨x, y, p, p'⟩ := hs
    rw [collectTangents_at p, collectTangents_at p']

theorem alike_refl (ts : List (Time F)) : List.Forall₂ Time.Alike ts ts :=
  List.forall₂_same.mpr fun _ _ => ⟨rfl, rfl, rfl⟩

theorem keyframeTimes_same {b b' : Schema.KeyframeBase F} (h : b.Same b') :
    List.Forall₂ Time.Alike (keyframeTimes b) (keyframeTimes b') := by
  obtain ⟨ht, hh, hs⟩ := h
  replace hh := isHold_same hh
  unfold keyframeTimes
  rw [ht, hh]
  cases hs with
  | equal hi ho => rw [hi, ho]; exact alike_refl _
  | written hi ho => rw [collectTangents_same hi, collectTangents_same ho]; exact alike_refl _
  | added hi ho hi' ho' pi po =>
    rw [hi, ho, hi', ho', collectTangents_at pi, collectTangents_at po]
    exact .cons ⟨rfl, rfl, rfl⟩ .nil
  | removed hi ho hi' ho' pi po =>
    rw [hi, ho, hi', ho', collectTangents_at pi, collectTangents_at po]
    exact .cons ⟨rfl, rfl, rfl⟩ .nil

omit [FloatOps F] in
theorem flatMap_forall₂ {α β : Type} {R : α → α → Prop} {S : β → β → Prop} {f : α → List β} {l l' : List α}
    (h : List.Forall₂ R l l') (hf : ∀ x x', R x x' → List.Forall₂ S (f x) (f x')) :
    List.Forall₂ S (l.flatMap f) (l'.flatMap f) := by
  induction h with
  | nil => exact .nil
  | cons h _ ih => exact List.rel_append (hf _ _ h) ih

theorem convKeyframes_same {T : Type} [Tween F T] {ks ks' : List (Schema.Keyframe F)} (f : List F → T)
    (h : List.Forall₂ Schema.Keyframe.Same ks ks') (fr : F) : SameValue fr fr (convKeyframes ks f) (convKeyframes ks' f) := by
  unfold convKeyframes
  have hv : (ks'.flatMap fun k => (keyframeTimes k.base).map fun _ => f k.value) =
      ks.flatMap fun k => (keyframeTimes k.base).map fun _ => f k.value := by
    induction h with
    | nil => rfl
    | @cons k k' _ _ h _ ih =>
      have hk : k'.value = k.value := by rw [h.rest]
      rw [List.flatMap_cons, List.flatMap_cons, ih, hk, List.map_const', List.map_const',
        (keyframeTimes_same h.base).length_eq]
  rw [hv]
  exact animated_alike (flatMap_forall₂ h fun _ _ h => keyframeTimes_same h.base) _ fr

theorem splineLoop_same {ks ks' : List (Schema.ShapeKeyframe F)} (h : List.Forall₂ Schema.ShapeKeyframe.Same ks ks') :
    ∀ prev prev' : Option (Schema.ShapeKeyframe F), Option.Rel Schema.ShapeKeyframe.Same prev prev' →
      Both (OptRel fun x x' => List.Forall₂ Time.Alike x.1 x'.1 ∧ x'.2 = x.2) (splineLoop prev ks) (splineLoop prev' ks') := by
  induction h with
  | nil =>
    intro prev prev' _
    unfold splineLoop
    exact Both.ok (.some ⟨.nil, rfl⟩)
  | @cons k k' ks ks' hk _ ih =>
    intro prev prev' hp
    have h1 : k'.start = k.start := by rw [hk.rest]
    have h2 : k'.stop = k.stop := by rw [hk.rest]
    have hs : startBezier prev' k' = startBezier prev k := by
      unfold startBezier
      rw [h1]
      cases hp with
      | none => rfl
      | @some p p' hp =>
        have h3 : p'.start = p.start := by rw [hp.rest]
        have h4 : p'.stop = p.stop := by rw [hp.rest]
        dsimp only
        rw [h3, h4]
    unfold splineLoop
    refine (convTime_same hk.base).bind fun t t' ht => ?_
    rw [hs]
    refine Both.bind (R := Eq) Both.same fun sb _ e => ?_
    subst e
    cases sb with
    | none => exact Both.ok .none
    | some sb =>
      dsimp only
      rw [h2]
      refine (ih (some k) (some k') (.some hk)).bind fun x x' hx => ?_
      cases hx with
      | none => exact Both.ok .none
      | @some x x' hx =>
        obtain ⟨ts, vs, c⟩ := x
        obtain ⟨ts', vs', c'⟩ := x'
        obtain ⟨hx, e⟩ := hx
        cases e
        exact Both.ok (.some ⟨.cons ht hx, rfl⟩)

variable [Kurbo F] [Libm F]

theorem sameKeyframes_sound (fr : F) : (Schema.sameKeyframes : Schema.KeyframeRelations F).Sound fr where
  numbers p p' h := by
    unfold convScalar
    cases h with
    | static h h' =>
      rw [h, h']
      exact Both.ok (.refl _)
    | animated h h' hr =>
      rw [h, h']
      dsimp only
      have : Both (List.Forall₂ fun e e' : Time F × F => Time.Alike e.1 e'.1 ∧ e'.2 = e.2) (_) (_) :=
        Both.mapM (k := convScalarKeyframe) (k' := convScalarKeyframe) (List.Forall₂.imp (fun k k' hk => by
          have hv : k'.value = k.value := by rw [hk.rest]
          unfold convScalarKeyframe
          rw [hv]
          cases k.value with
          | nil => exact Both.error
          | cons x xs => exact (convTime_same hk.base).bind fun t t' ht => Both.ok ⟨ht, rfl⟩) hr)
      refine this.bind fun es es' he => Both.ok ?_
      have e2 : es'.map (·.2) = es.map (·.2) := by
        clear this
        induction he with
        | nil => rfl
        | cons h _ ih => rw [List.map_cons, List.map_cons, h.2, ih]
      rw [e2]
      refine (animated_alike ?_ _ fr).alike
      rw [List.forall₂_map_left_iff, List.forall₂_map_right_iff]
      exact he.imp fun _ _ h => h.1
  vectors p p' h := by
    unfold convMulti
    cases h with
    | static h h' =>
      rw [h, h']
      exact .refl _
    | animated h h' hr =>
      rw [h, h']
      exact (convKeyframes_same _ hr fr).alike
  colors p p' h := by
    refine SameValue.alike ?_
    unfold convColor convMulti
    cases h with
    | static h h' =>
      rw [h, h']
      exact .inl ⟨_, rfl, rfl⟩
    | animated h h' hr =>
      rw [h, h']
      exact convKeyframes_same _ hr fr
  gradients g g' h := by
    obtain ⟨hc, hn⟩ := h
    unfold convGradientColors
    rw [hn]
    cases hc with
    | static h h' =>
      rw [h, h']
      exact Both.ok rfl
    | @animated ks ks' h h' hr =>
      rw [h, h']
      dsimp only
      have hv : (ks'.map fun k => (convStops k.value g.count).flatMap RawStop.toList) =
          ks.map fun k => (convStops k.value g.count).flatMap RawStop.toList := by
        clear h h'
        induction hr with
        | nil => rfl
        | @cons k k' _ _ h _ ih =>
          have hk : k'.value = k.value := by rw [h.rest]
          rw [List.map_cons, List.map_cons, ih, hk]
      rw [hv]
      refine (Both.mapM (List.Forall₂.imp (fun k k' hk => convTime_same hk.base) hr)).bind fun ts ts' ht =>
        Both.ok ?_
      unfold ColorStops.evaluate AnimColorStops.evaluateInner
      dsimp only
      rw [framesAndWeight_alike ht]
  positions p p' h := by
    unfold convPosPoint
    cases h with
    | static h h' =>
      rw [h, h']
      exact .refl _
    | animated h h' hr =>
      rw [h, h']
      refine (convKeyframes_same _ ?_ fr).alike
      rw [List.forall₂_map_left_iff, List.forall₂_map_right_iff]
      exact List.Forall₂.imp (fun _ _ h => h.keyframe) hr
  paths p p' h := by
    unfold convShapeGeometry
    cases h with
    | same h =>
      rw [h]
      intro o o' e e'
      cases e.symm.trans e'
      cases o with
      | none => exact .none
      | some g => exact .some rfl
    | animated h h' hr =>
      rw [h, h']
      refine (splineLoop_same hr none none .none).bind fun x x' hx => ?_
      cases hx with
      | none => exact Both.ok .none
      | @some x x' hx =>
        obtain ⟨ts, vs, c⟩ := x
        obtain ⟨ts', vs', c'⟩ := x'
        obtain ⟨hx, e⟩ := hx
        cases e
        refine Both.ok (.some ?_)
        show Except.ok _ = Except.ok _
        unfold AnimSpline.evaluate
        dsimp only
        rw [framesAndWeight_alike hx]

end
end Velato
