import Verif.Spec.UnusedHandles
import Verif.Proofs.AgreeSymm

/-!
# Handles that are not used: helper lemmas
-/

namespace Velato
open FloatOps (lit)
open Import

section
variable {F : Type} [FloatOps F]

/-- The same frame and hold, and the same easing if it is used. -/
def Time.HeldAlike (t t' : Time F) : Prop := t'.frame = t.frame ∧ t'.hold = t.hold ∧ (t.hold = false → t'.easing = t.easing)

/-- The same frame and hold. -/
def Time.SamePlace (t t' : Time F) : Prop := t'.frame = t.frame ∧ t'.hold = t.hold

/-- Where `framesAndWeight` looks depends on the frames only. -/
theorem framesAndWeight_place {ts ts' : List (Time F)} (h : List.Forall₂ Time.SamePlace ts ts') (fr : F) :
    (Time.framesAndWeight ts fr = none ∧ Time.framesAndWeight ts' fr = none) ∨
    ∃ (w w' : FrameWeight F) (i : Nat) (hi : i < ts.length) (hi' : i < ts'.length), Time.framesAndWeight ts fr = some w ∧
      Time.framesAndWeight ts' fr = some w' ∧
      w'.ix0 = w.ix0 ∧ w'.ix1 = w.ix1 ∧ w'.t = w.t ∧ w'.hold = w.hold ∧ w.easing = ts[i].easing ∧ w'.easing = ts'[i].easing ∧
      w.hold = ts[i].hold := by
  have hm : ts'.map (·.frame) = ts.map (·.frame) := by
    induction h with
    | nil => rfl
    | cons h _ ih => rw [List.map_cons, List.map_cons, h.1, ih]
  have hl := h.length_eq
  have hs : Time.search ts' fr = Time.search ts fr := by rw [search_frames, search_frames ts, hm]
  by_cases he : ts.length = 0
  · unfold Time.framesAndWeight
    rw [dif_pos he, dif_pos (by omega)]
    exact .inl ⟨rfl, rfl⟩
  have get : ∀ i (hi : i < ts.length) (hi' : i < ts'.length), Time.SamePlace ts[i] ts'[i] := fun i hi hi' =>
    (List.forall₂_iff_get.mp h).2 i hi hi'
  refine .inr ⟨⟨min (Time.search ts fr) (ts.length - 1), min (min (Time.search ts fr) (ts.length - 1) + 1) (ts.length - 1),
    clamp ((fr -. (ts[min (Time.search ts fr) (ts.length - 1)]'(by omega)).frame) /.
      ((ts[min (min (Time.search ts fr) (ts.length - 1) + 1) (ts.length - 1)]'(by omega)).frame -.
        (ts[min (Time.search ts fr) (ts.length - 1)]'(by omega)).frame)) (lit 0) (lit 1),
    (ts[min (Time.search ts fr) (ts.length - 1)]'(by omega)).easing, (ts[min (Time.search ts fr) (ts.length - 1)]'(by omega)).hold⟩,
    ⟨min (Time.search ts fr) (ts.length - 1), min (min (Time.search ts fr) (ts.length - 1) + 1) (ts.length - 1),
    clamp ((fr -. (ts'[min (Time.search ts fr) (ts.length - 1)]'(by omega)).frame) /.
      ((ts'[min (min (Time.search ts fr) (ts.length - 1) + 1) (ts.length - 1)]'(by omega)).frame -.
        (ts'[min (Time.search ts fr) (ts.length - 1)]'(by omega)).frame)) (lit 0) (lit 1),
    (ts'[min (Time.search ts fr) (ts.length - 1)]'(by omega)).easing, (ts'[min (Time.search ts fr) (ts.length - 1)]'(by omega)).hold⟩,
    min (Time.search ts fr) (ts.length - 1), by omega, by omega, by
    unfold Time.framesAndWeight
    rw [dif_neg he], by
    unfold Time.framesAndWeight
    rw [dif_neg (by omega)]
    simp only [hs, ← hl], rfl, rfl, ?_, ?_, rfl, rfl, rfl⟩
  · obtain ⟨a1, -⟩ := get (min (Time.search ts fr) (ts.length - 1)) (by omega) (by omega)
    obtain ⟨b1, -⟩ := get (min (min (Time.search ts fr) (ts.length - 1) + 1) (ts.length - 1)) (by omega) (by omega)
    dsimp only
    rw [a1, b1]
  · exact (get (min (Time.search ts fr) (ts.length - 1)) (by omega) (by omega)).2

/-- At weight 0 the easing does not matter. -/
class HoldTween (F T : Type) [FloatOps F] [Tween F T] : Prop where
  eq : ∀ (v w : T) (e e' : Easing F), Tween.tween v w (lit 0 : F) e = Tween.tween v w (lit 0 : F) e'

instance [LawfulCmp F] [Kurbo F] : HoldTween F F where
  eq v w e e' := by
    show tweenScalar v w _ e = tweenScalar v w _ e'
    rw [tweenScalar_zero, tweenScalar_zero]

instance [LawfulCmp F] [Kurbo F] : HoldTween F (P2 F) where
  eq v w e e' := by
    show P2.mk _ _ = P2.mk _ _
    rw [tweenScalar_zero, tweenScalar_zero, tweenScalar_zero, tweenScalar_zero]

instance [LawfulCmp F] [Kurbo F] : HoldTween F (Color F) where
  eq v w e e' := by
    show Color.mk _ _ _ _ = Color.mk _ _ _ _
    simp only [tweenScalar_zero]

theorem animated_held {T : Type} [Tween F T] [HoldTween F T] {ts ts' : List (Time F)} (h : List.Forall₂ Time.HeldAlike ts ts')
    (vs : List T) (fr : F) : EvalsAlike fr (.animated ⟨ts, vs⟩) (.animated ⟨ts', vs⟩) := by
  intro d
  show Option.getD _ _ = Option.getD _ _
  unfold Animated.evaluateInner
  dsimp only
  rcases framesAndWeight_place (h.imp fun _ _ h => ⟨h.1, h.2.1⟩) fr with ⟨e, e'⟩ | ⟨w, w', i, hi, hi', e, e', h0, h1, ht, hh, he, he', hw⟩
  · rw [e, e']
  · rw [e, e']
    simp only [Option.bind_eq_bind, Option.bind_some, h0, h1, ht, hh]
    cases hd : w.hold with
    | true => 
      simp only [if_true]
      cases vs[w.ix0]? with
      | none => rfl
      | some x =>
        cases vs[w.ix1]? with
        | none => rfl
        | some y => exact HoldTween.eq x y _ _
    | false =>
      have : ts'[i].easing = ts[i].easing := ((List.forall₂_iff_get.mp h).2 i hi hi').2.2 (hw.symm.trans hd)
      rw [he, he', this]

omit [FloatOps F] in
theorem convHandle_plain {h : Option (Schema.KeyframeBezierHandle F)} (hp : Schema.Plain h) :
    (h = none ∧ convHandle? h = .ok none) ∨ ∃ e, convHandle? h = .ok (some e) ∧ collectTangents h = [e] := by
  cases h with
  | none => exact .inl ⟨rfl, rfl⟩
  | some x =>
    obtain ⟨u, v, hp⟩ := hp x rfl
    exact .inr ⟨_, convHandle_at hp, collectTangents_at hp⟩

omit [FloatOps F] in
theorem convTime_place {b b' : Schema.KeyframeBase F} (h : b.AnyHandles b') :
    Both Time.SamePlace (convTime b) (convTime b') := by
  unfold convTime
  have hh : isHold b' = isHold b := by unfold isHold; rw [h.hold]
  refine Both.bind (R := fun _ _ => True) (fun _ _ _ _ => trivial) fun _ _ _ =>
    Both.bind (R := fun _ _ => True) (fun _ _ _ _ => trivial) fun _ _ _ => Both.ok ⟨h.time, hh⟩

theorem convTime_held {b b' : Schema.KeyframeBase F} (h : b.HeldAlike b') : Both Time.HeldAlike (convTime b) (convTime b') := by
  rcases h with rfl | ⟨hh, h⟩
  · intro t t' e e'
    cases e.symm.trans e'
    exact ⟨rfl, rfl, fun _ => rfl⟩
  · intro t t' e e'
    obtain ⟨h1, h2⟩ := convTime_place h t t' e e'
    refine ⟨h1, h2, fun hf => ?_⟩
    exfalso
    unfold convTime at e
    cases hi : convHandle? b.inTangent with
    | error => rw [hi] at e; cases e
    | ok x =>
      cases ho : convHandle? b.outTangent with
      | error => rw [hi, ho] at e; cases e
      | ok y =>
        rw [hi, ho] at e
        cases e
        simp [isHold, hh] at hf

theorem keyframeTimes_held {b b' : Schema.KeyframeBase F} (h : b.HeldAlike b') :
    List.Forall₂ Time.HeldAlike (keyframeTimes b) (keyframeTimes b') := by
  rcases h with rfl | ⟨hh, h⟩
  · exact List.forall₂_same.mpr fun _ _ => ⟨rfl, rfl, fun _ => rfl⟩
  · have one : ∀ {b : Schema.KeyframeBase F}, Schema.Plain b.inTangent → Schema.Plain b.outTangent →
        ∃ i o, keyframeTimes b = [⟨b.time, i, o, isHold b⟩] := by
      intro b hi ho
      unfold keyframeTimes
      rcases convHandle_plain hi with ⟨e, -⟩ | ⟨x, -, e⟩
      · exact ⟨none, none, by rw [e]; rfl⟩
      · rcases convHandle_plain ho with ⟨e', -⟩ | ⟨y, -, e'⟩
        · refine ⟨none, none, ?_⟩
          rw [e, e']
          rfl
        · refine ⟨some x, some y, ?_⟩
          rw [e, e']
          rfl
    obtain ⟨i, o, e⟩ := one h.plain.1 h.plain.2.1
    obtain ⟨i', o', e'⟩ := one h.plain.2.2.1 h.plain.2.2.2
    have hb : isHold b = true := by simp [isHold, hh]
    have hb' : isHold b' = true := by simp [isHold, h.hold, hh]
    rw [e, e']
    exact .cons ⟨h.time, hb'.trans hb.symm, fun hf => by cases hb.symm.trans hf⟩ .nil

theorem convKeyframes_held {T : Type} [Tween F T] [HoldTween F T] {ks ks' : List (Schema.Keyframe F)} (f : List F → T)
    (h : List.Forall₂ Schema.Keyframe.HeldAlike ks ks') (fr : F) : EvalsAlike fr (convKeyframes ks f) (convKeyframes ks' f) := by
  unfold convKeyframes
  have hv : (ks'.flatMap fun k => (keyframeTimes k.base).map fun _ => f k.value) =
      ks.flatMap fun k => (keyframeTimes k.base).map fun _ => f k.value := by
    induction h with
    | nil => rfl
    | @cons k k' _ _ h _ ih =>
      have hk : k'.value = k.value := by rw [h.rest]
      rw [List.flatMap_cons, List.flatMap_cons, ih, hk, List.map_const', List.map_const',
        (keyframeTimes_held h.base).length_eq]
  rw [hv]
  exact animated_held (flatMap_forall₂ h fun _ _ h => keyframeTimes_held h.base) _ fr

theorem splineLoop_place {ks ks' : List (Schema.ShapeKeyframe F)} (h : List.Forall₂ Schema.ShapeKeyframe.AnyHandles ks ks') :
    ∀ prev prev' : Option (Schema.ShapeKeyframe F), Option.Rel Schema.ShapeKeyframe.AnyHandles prev prev' →
      Both (OptRel fun x x' => List.Forall₂ Time.SamePlace x.1 x'.1 ∧ x'.2 = x.2) (splineLoop prev ks) (splineLoop prev' ks') := by
  induction h with
  | nil =>
    intro prev prev' _
    unfold splineLoop
    exact Both.ok (.some ⟨.nil, rfl⟩)
  | @cons k k' ks ks' hk _ ih =>
    intro prev prev' hp
    have h1 : k'.start = k.start := by rw [hk.rest]
    have h2 : k'.stop = k.stop := by rw [hk.rest]
    have hs : startBezier prev' k' = startBezier prev k := by
      unfold startBezier
      rw [h1]
      cases hp with
      | none => rfl
      | @some p p' hp =>
        have h3 : p'.start = p.start := by rw [hp.rest]
        have h4 : p'.stop = p.stop := by rw [hp.rest]
        dsimp only
        rw [h3, h4]
    have ht : Both Time.SamePlace (convTime k.base) (convTime k'.base) := by
      rcases hk.base with e | h
      · rw [e]
        intro t t' e e'
        cases e.symm.trans e'
        exact ⟨rfl, rfl⟩
      · exact convTime_place h
    unfold splineLoop
    refine ht.bind fun t t' ht => ?_
    rw [hs]
    refine Both.bind (R := Eq) Both.same fun sb _ e => ?_
    subst e
    cases sb with
    | none => exact Both.ok .none
    | some sb =>
      dsimp only
      rw [h2]
      refine (ih (some k) (some k') (.some hk)).bind fun x x' hx => ?_
      cases hx with
      | none => exact Both.ok .none
      | @some x x' hx =>
        obtain ⟨ts, vs, c⟩ := x
        obtain ⟨ts', vs', c'⟩ := x'
        obtain ⟨hx, e⟩ := hx
        cases e
        exact Both.ok (.some ⟨.cons ht hx, rfl⟩)

variable [LawfulCmp F] [Kurbo F] [Libm F]

theorem unusedHandles_sound (fr : F) : (Schema.unusedHandles : Schema.KeyframeRelations F).Sound fr where
  numbers p p' h := by
    unfold convScalar
    cases h with
    | static h h' =>
      rw [h, h']
      exact Both.ok (.refl _)
    | animated h h' hr =>
      rw [h, h']
      dsimp only
      have : Both (List.Forall₂ fun e e' : Time F × F => Time.HeldAlike e.1 e'.1 ∧ e'.2 = e.2) (_) (_) :=
        Both.mapM (k := convScalarKeyframe) (k' := convScalarKeyframe) (List.Forall₂.imp (fun k k' hk => by
          have hv : k'.value = k.value := by rw [hk.rest]
          unfold convScalarKeyframe
          rw [hv]
          cases k.value with
          | nil => exact Both.error
          | cons x xs => exact (convTime_held hk.base).bind fun t t' ht => Both.ok ⟨ht, rfl⟩) hr)
      refine this.bind fun es es' he => Both.ok ?_
      have e2 : es'.map (·.2) = es.map (·.2) := by
        clear this
        induction he with
        | nil => rfl
        | cons h _ ih => rw [List.map_cons, List.map_cons, h.2, ih]
      rw [e2]
      refine animated_held ?_ _ fr
      rw [List.forall₂_map_left_iff, List.forall₂_map_right_iff]
      exact he.imp fun _ _ h => h.1
  vectors p p' h := by
    unfold convMulti
    cases h with
    | static h h' =>
      rw [h, h']
      exact .refl _
    | animated h h' hr =>
      rw [h, h']
      exact convKeyframes_held _ hr fr
  colors p p' h := by
    unfold convColor convMulti
    cases h with
    | static h h' =>
      rw [h, h']
      exact .refl _
    | animated h h' hr =>
      rw [h, h']
      exact convKeyframes_held _ hr fr
  gradients g g' h := by
    obtain ⟨hc, hn⟩ := h
    unfold convGradientColors
    rw [hn, show g'.colors.animatedProperty.value = g.colors.animatedProperty.value from hc]
    intro x x' e e'
    cases e.symm.trans e'
    rfl
  positions p p' h := by
    unfold convPosPoint
    cases h with
    | static h h' =>
      rw [h, h']
      exact .refl _
    | animated h h' hr =>
      rw [h, h']
      refine convKeyframes_held _ ?_ fr
      rw [List.forall₂_map_left_iff, List.forall₂_map_right_iff]
      exact List.Forall₂.imp (fun _ _ h => h.keyframe) hr
  paths p p' h := by
    unfold convShapeGeometry
    cases h with
    | same h =>
      rw [h]
      intro o o' e e'
      cases e.symm.trans e'
      cases o with
      | none => exact .none
      | some g => exact .some rfl
    | animated h h' hr =>
      rw [h, h']
      refine (splineLoop_place hr none none .none).bind fun x x' hx => ?_
      cases hx with
      | none => exact Both.ok .none
      | @some x x' hx =>
        obtain ⟨ts, vs, c⟩ := x
        obtain ⟨ts', vs', c'⟩ := x'
        obtain ⟨hx, e⟩ := hx
        cases e
        refine Both.ok (.some ?_)
        show Except.ok _ = Except.ok _
        unfold AnimSpline.evaluate
        dsimp only
        rcases framesAndWeight_place hx fr with ⟨e, e'⟩ | ⟨w, w', i, hi, hi', e, e', h0, h1, ht, hh, -⟩
        · rw [e, e']
        · rw [e, e']
          dsimp only
          rw [h0, h1, ht, hh]

end

/-! ### Import -/

section
variable {F : Type} [FloatOps F]

omit [FloatOps F] in
theorem not_bad_plain {b : Schema.KeyframeBase F} (h : Schema.Plain b.inTangent ∧ Schema.Plain b.outTangent) : ¬ BadHandles b := by
  rintro ⟨x, hx, hb⟩
  have : ∃ u v, x.At u v := hx.elim (h.1 x) (h.2 x)
  obtain ⟨u, v, hp⟩ := this
  exact not_bad_at hp hb

omit [FloatOps F] in
theorem badHandles_held {b b' : Schema.KeyframeBase F} (h : b.HeldAlike b') (hb : BadHandles b') : BadHandles b := by
  rcases h with rfl | ⟨-, h⟩
  · exact hb
  · exact absurd hb (not_bad_plain ⟨h.plain.2.2.1, h.plain.2.2.2⟩)

omit [FloatOps F] in
theorem startOf_any {ks ks' : List (Schema.ShapeKeyframe F)} (h : List.Forall₂ Schema.ShapeKeyframe.AnyHandles ks ks') (i : Nat)
    {k k' : Schema.ShapeKeyframe F} (hk : k.AnyHandles k') (b : Schema.Bezier F) :
    StartOf (prevKeyframe ks' i) k' b ↔ StartOf (prevKeyframe ks i) k b := by
  have e : k'.start = k.start := by rw [hk.rest]
  have hp : Option.Rel Schema.ShapeKeyframe.AnyHandles (prevKeyframe ks i) (prevKeyframe ks' i) := by
    cases i with
    | zero => exact .none
    | succ i => exact forall₂_rel_getElem? h i
  unfold StartOf
  rw [e]
  cases k.start with
  | some bs => exact Iff.rfl
  | none =>
    generalize prevKeyframe ks i = o, prevKeyframe ks' i = o' at hp
    cases hp with
    | none => simp
    | @some p p' hs =>
      have e1 : p'.start = p.start := by rw [hs.rest]
      have e2 : p'.stop = p.stop := by rw [hs.rest]
      simp [e1, e2]

theorem unusedHandles_keeps : (Schema.unusedHandles : Schema.KeyframeRelations F).Keeps where
  numbers p p' h := by
    rintro ⟨ks', e, k', hk, hb⟩
    cases h with
    | static _ h' => cases h'.symm.trans e
    | animated h h' hr =>
      cases h'.symm.trans e
      obtain ⟨k, hk, hs⟩ := forall₂_mem hr hk
      have e : k'.value = k.value := by rw [hs.rest]
      exact ⟨_, h, k, hk, hb.imp (fun hb => e ▸ hb) (badHandles_held hs.base)⟩
  static p p' x h e := by
    cases h with
    | static h h' => cases h'.symm.trans e; exact h
    | animated h h' => cases h'.symm.trans e
  positions p p' xs h e := by
    cases h with
    | static h h' => exact ⟨_, h⟩
    | animated h h' => cases h'.symm.trans e
  gradients g g' h := by
    rintro ⟨ks', e, hb⟩
    exact ⟨ks', (show _ = _ from h.colors) ▸ e, hb⟩
  paths p p' h := by
    cases h with
    | same h => exact ⟨fun ⟨ks, e, hb⟩ => ⟨ks, h ▸ e, hb⟩, fun ⟨ks, e, hb⟩ => ⟨ks, h ▸ e, hb⟩⟩
    | @animated ks ks' h h' hr =>
      constructor
      · rintro ⟨ks'', e, i, k', hk, hj, hb⟩
        cases h'.symm.trans e
        have := forall₂_rel_getElem? hr i
        rw [hk] at this
        generalize ho : ks[i]? = o at this
        cases this with
        | @some k _ hs =>
          have e1 : k'.start = k.start := by rw [hs.rest]
          refine ⟨ks, h, i, k, ho, fun j hji k₁ hk₁ => ?_, hb.imp (fun hb => ?_) fun hb => ⟨hb.1, e1 ▸ hb.2⟩⟩
          · have := forall₂_rel_getElem? hr j
            rw [hk₁] at this
            generalize ho' : ks'[j]? = o' at this
            cases this with
            | some hs₁ =>
              obtain ⟨b, hb⟩ := hj j hji _ ho'
              exact ⟨b, (startOf_any hr j hs₁ b).mp hb⟩
          · rcases hs.base with e | hs
            · exact e ▸ hb
            · exact absurd hb (not_bad_plain ⟨hs.plain.2.2.1, hs.plain.2.2.2⟩)
      · rintro ⟨ks'', e, i, k, hk, hb⟩
        cases h.symm.trans e
        have := forall₂_rel_getElem? hr i
        rw [hk] at this
        generalize ho : ks'[i]? = o at this
        cases this with
        | some hs => exact ⟨ks', h', i, _, ho, fun ⟨b, hx⟩ => hb ⟨b, (startOf_any hr i hs b).mp hx⟩⟩

omit [FloatOps F] in
theorem anyHandles_symm {b b' : Schema.KeyframeBase F} (h : b.AnyHandles b') : b'.AnyHandles b :=
  ⟨h.time.symm, h.hold.symm, h.plain.2.2.1, h.plain.2.2.2, h.plain.1, h.plain.2.1⟩

omit [FloatOps F] in
theorem heldAlike_symm {k k' : Schema.Keyframe F} (h : k.HeldAlike k') : k'.HeldAlike k := by
  refine ⟨?_, by rw [h.rest]⟩
  rcases h.base with e | ⟨hh, h⟩
  · exact .inl e.symm
  · exact .inr ⟨h.hold.trans hh, anyHandles_symm h⟩

omit [FloatOps F] in
theorem unusedHandles_symm : (Schema.unusedHandles : Schema.KeyframeRelations F).Symm where
  numbers h := h.symm (Schema.forall₂_symm heldAlike_symm)
  vectors h := h.symm (Schema.forall₂_symm heldAlike_symm)
  colors h := h.symm (Schema.forall₂_symm heldAlike_symm)
  gradients h := Eq.symm h
  positions h := by
    cases h with
    | static h h' => exact .static h' h
    | animated h h' hk => exact .animated h' h (Schema.forall₂_symm (fun h => ⟨heldAlike_symm h.keyframe, by rw [h.rest]⟩) hk)
  paths h := h.symm (Schema.forall₂_symm fun h => ⟨h.base.imp Eq.symm anyHandles_symm, by rw [h.rest]⟩)

end
end Velato
