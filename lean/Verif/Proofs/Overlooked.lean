import Verif.Spec.Overlooked
import Verif.Proofs.AgreeSymm

/-!
# Numbers that are not looked at: helper lemmas
-/

namespace Velato
open FloatOps (lit)
open Import

section
variable {F : Type}

theorem convScalarKeyframe_begins {k k' : Schema.Keyframe F} (h : k.Begins 1 k') : convScalarKeyframe k' = convScalarKeyframe k := by
  obtain ⟨hb, hv⟩ := h
  unfold convScalarKeyframe
  rw [hb]
  generalize k.value = x, k'.value = y at hv
  cases x with
  | nil => cases y with
    | nil => rfl
    | cons => cases hv
  | cons => cases y with
    | nil => cases hv
    | cons => cases hv; rfl

theorem mapM_same {α β : Type} {f : α → Except Fault β} {l l' : List α} (h : List.Forall₂ (fun x x' => f x' = f x) l l') :
    l'.mapM f = l.mapM f := by
  induction h with
  | nil => rfl
  | cons h _ ih => rw [List.mapM_cons, List.mapM_cons, h, ih]

theorem convKeyframes_begins {T : Type} {n : Nat} {f : List F → T} (hf : ∀ xs xs' : List F, xs'.take n = xs.take n → f xs' = f xs)
    {ks ks' : List (Schema.Keyframe F)} (h : List.Forall₂ (Schema.Keyframe.Begins n) ks ks') : convKeyframes ks' f = convKeyframes ks f := by
  have : ks'.flatMap (fun k => keyframeTimes k.base) = ks.flatMap (fun k => keyframeTimes k.base) ∧
      (ks'.flatMap fun k => (keyframeTimes k.base).map fun _ => f k.value) =
        ks.flatMap fun k => (keyframeTimes k.base).map fun _ => f k.value := by
    induction h with
    | nil => exact ⟨rfl, rfl⟩
    | cons h _ ih =>
      simp only [List.flatMap_cons, h.base, hf _ _ h.value, ih.1, ih.2, and_self]
  unfold convKeyframes
  rw [this.1, this.2]

variable [FloatOps F]

theorem toP2_begins (xs xs' : List F) (h : xs'.take 2 = xs.take 2) : toP2 xs' = toP2 xs := by
  match xs, xs', h with
  | [], [], _ => rfl
  | [_], [_], _ => rfl
  | _ :: _ :: _, _ :: _ :: _, h => cases h; rfl
  | [], _ :: _, h => cases h
  | _ :: _, [], h => cases h
  | [_], _ :: _ :: _, h => cases h
  | _ :: _ :: _, [_], h => cases h

theorem toColor_begins (xs xs' : List F) (h : xs'.take 3 = xs.take 3) : toColor xs' = toColor xs := by
  match xs, xs', h with
  | [], [], _ => rfl
  | [_], [_], _ => rfl
  | [_, _], [_, _], _ => rfl
  | _ :: _ :: _ :: _, _ :: _ :: _ :: _, h => cases h; rfl
  | [], _ :: _, h => cases h
  | _ :: _, [], h => cases h
  | [_], _ :: _ :: _, h => cases h
  | _ :: _ :: _, [_], h => cases h
  | [_, _], _ :: _ :: _ :: _, h => cases h
  | _ :: _ :: _ :: _, [_, _], h => cases h

omit [FloatOps F] in
theorem startBezier_begins {k k' : Schema.ShapeKeyframe F} (h : k.Begins k') {p p' : Option (Schema.ShapeKeyframe F)}
    (hp : Option.Rel Schema.ShapeKeyframe.Begins p p') : startBezier p' k' = startBezier p k := by
  have hs := h.start
  unfold startBezier
  generalize k.start = x, k'.start = x' at hs
  cases x with
  | some x => cases x' with
    | some x' => exact congrArg Except.ok (Option.some.inj hs)
    | none => cases hs
  | none => cases x' with
    | some x' => cases hs
    | none =>
      cases hp with
      | none => rfl
      | @some p p' hp =>
        have h1 := hp.stop
        have h2 := hp.start
        dsimp only
        generalize p.stop = y, p'.stop = y', p.start = z, p'.start = z' at h1 h2
        match y, y', h1 with
        | none, none, _ =>
          match z, z', h2 with
          | none, none, _ => rfl
          | some _, some _, h2 => exact congrArg Except.ok (Option.some.inj h2)
          | none, some _, h2 => cases h2
          | some _, none, h2 => cases h2
        | some [], some [], _ =>
          match z, z', h2 with
          | none, none, _ => rfl
          | some _, some _, h2 => exact congrArg Except.ok (Option.some.inj h2)
          | none, some _, h2 => cases h2
          | some _, none, h2 => cases h2
        | some (_ :: _), some (_ :: _), h1 => exact congrArg Except.ok (Option.some.inj h1)
        | some [], some (_ :: _), h1 => cases h1
        | some (_ :: _), some [], h1 => cases h1
        | none, some _, h1 => cases h1
        | some _, none, h1 => cases h1

theorem splineLoop_begins {ks ks' : List (Schema.ShapeKeyframe F)} (h : List.Forall₂ Schema.ShapeKeyframe.Begins ks ks') :
    ∀ {p p' : Option (Schema.ShapeKeyframe F)}, Option.Rel Schema.ShapeKeyframe.Begins p p' → splineLoop p' ks' = splineLoop p ks := by
  induction h with
  | nil => exact fun _ => rfl
  | @cons k k' ks ks' h _ ih =>
    intro p p' hp
    unfold splineLoop
    rw [h.base, startBezier_begins h hp, ih (.some h)]
    have h1 := h.stop
    generalize k.stop = y, k'.stop = y' at h1
    match y, y', h1 with
    | none, none, _ => rfl
    | some [], some [], _ => rfl
    | some (_ :: _), some (_ :: _), h1 => cases Option.some.inj (Option.some.inj h1); rfl
    | some [], some (_ :: _), h1 => cases h1
    | some (_ :: _), some [], h1 => cases h1
    | none, some _, h1 => cases h1
    | some _, none, h1 => cases h1

omit [FloatOps F] in
theorem scalar_begins {p p' : Schema.FloatValue F} (h : p.Agrees Schema.overlooked.numbers p') : convScalar p' = convScalar p := by
  unfold convScalar
  cases h with
  | static h h' => rw [h, h']
  | animated h h' hr =>
    rw [h, h']
    dsimp only
    rw [mapM_same (hr.imp fun _ _ h => convScalarKeyframe_begins h)]

omit [FloatOps F] in
theorem multi_begins {T : Type} {n : Nat} {f : List F → T} (hf : ∀ xs xs' : List F, xs'.take n = xs.take n → f xs' = f xs)
    {p p' : Schema.AnimatedProperty F (List F)} (h : p.value.Begins n p'.value) : convMulti p' f = convMulti p f := by
  unfold convMulti
  generalize p.value = v, p'.value = v' at h
  cases h with
  | static h => exact congrArg Value.fixed (hf _ _ h)
  | animated h => exact convKeyframes_begins hf h

theorem position_begins {p p' : Schema.Position F} (h : p.Agrees Schema.overlooked p') : convPosPoint p' = convPosPoint p := by
  have h : p.value.Begins p'.value := h
  unfold convPosPoint
  generalize p.value = v, p'.value = v' at h
  cases h with
  | static h => exact congrArg Value.fixed (toP2_begins _ _ h)
  | animated h => exact convKeyframes_begins toP2_begins (by
      induction h with
      | nil => exact .nil
      | cons h _ ih => exact .cons h ih)

theorem path_begins {p p' : Schema.ShapeProperty F} (h : p.Agrees Schema.overlooked p') :
    convShapeGeometry p' = convShapeGeometry p := by
  unfold convShapeGeometry
  cases h with
  | same h => rw [h]
  | animated h h' hr => rw [h, h']; dsimp only; rw [splineLoop_begins hr .none]

theorem gradient_begins [Kurbo F] {g g' : Schema.GradientColors F} (h : g.Agrees Schema.overlooked g') :
    convGradientColors g' = convGradientColors g := by
  obtain ⟨hc, hn⟩ := h
  unfold convGradientColors
  rw [hn]
  cases hc with
  | static h h' => rw [h, h']
  | animated h h' hr =>
    rw [h, h']
    dsimp only
    rw [mapM_same (hr.imp fun _ _ h => by rw [h.1])]
    congr 1
    funext ts
    congr 3
    clear h h'
    induction hr with
    | nil => rfl
    | cons h _ ih => rw [List.map_cons, List.map_cons, h.2, ih]

theorem overlooked_sound [Kurbo F] [Libm F] (fr : F) : (Schema.overlooked : Schema.KeyframeRelations F).Sound fr where
  numbers p p' h := by
    rw [scalar_begins h]
    intro v v' e e'
    cases e.symm.trans e'
    exact .refl _
  vectors p p' h := by
    rw [multi_begins toP2_begins h]
    exact .refl _
  colors p p' h := by
    unfold convColor
    rw [multi_begins toColor_begins h]
    exact .refl _
  gradients g g' h := by
    rw [gradient_begins h]
    intro v v' e e'
    cases e.symm.trans e'
    rfl
  positions p p' h := by
    rw [position_begins h]
    exact .refl _
  paths p p' h := by
    rw [path_begins h]
    intro o o' e e'
    cases e.symm.trans e'
    cases o with
    | none => exact .none
    | some g => exact .some rfl

omit [FloatOps F] in
theorem startOf_begins {ks ks' : List (Schema.ShapeKeyframe F)} (h : List.Forall₂ Schema.ShapeKeyframe.Begins ks ks') (i : Nat)
    {k k' : Schema.ShapeKeyframe F} (hk : k.Begins k') (b : Schema.Bezier F) :
    StartOf (prevKeyframe ks' i) k' b ↔ StartOf (prevKeyframe ks i) k b := by
  have hp : Option.Rel Schema.ShapeKeyframe.Begins (prevKeyframe ks i) (prevKeyframe ks' i) := by
    cases i with
    | zero => exact .none
    | succ i => exact forall₂_rel_getElem? h i
  have e := hk.start
  unfold StartOf
  generalize k.start = x, k'.start = x' at e
  match x, x', e with
  | some bs, some bs', e =>
    have : bs'.head? = bs.head? := Option.some.inj e
    simp [this]
  | none, some _, e => cases e
  | some _, none, e => cases e
  | none, none, _ =>
    generalize prevKeyframe ks i = o, prevKeyframe ks' i = o' at hp
    cases hp with
    | none => simp
    | @some p p' hs =>
      have bind : ∀ {y y' : Option (List (Schema.Bezier F))}, y'.map List.head? = y.map List.head? → y'.bind List.head? = y.bind List.head? := by
        intro y y' h
        match y, y', h with
        | some _, some _, h => exact Option.some.inj h
        | none, some _, h => cases h
        | some _, none, h => cases h
        | none, none, _ => rfl
      simp only [bind hs.start, bind hs.stop, Option.some.injEq, exists_eq_left']

omit [FloatOps F] in
theorem empty_begins {k k' : Schema.Keyframe F} (h : k.Begins 1 k') (hb : k'.value = []) : k.value = [] := by
  have := h.value
  rw [hb] at this
  cases hv : k.value with
  | nil => rfl
  | cons => rw [hv] at this; cases this

theorem overlooked_keeps : (Schema.overlooked : Schema.KeyframeRelations F).Keeps where
  numbers p p' h := by
    rintro ⟨ks', e, k', hk, hb⟩
    cases h with
    | static _ h' => cases h'.symm.trans e
    | animated h h' hr =>
      cases h'.symm.trans e
      obtain ⟨k, hk, hs⟩ := forall₂_mem hr hk
      exact ⟨_, h, k, hk, hb.imp (empty_begins hs) fun hb => hs.base ▸ hb⟩
  static p p' x h e := by
    cases h with
    | static h h' => cases h'.symm.trans e; exact h
    | animated h h' => cases h'.symm.trans e
  positions p p' xs h e := by
    have h : p.value.Begins p'.value := h
    generalize p.value = v, p'.value = v' at h e
    cases h with
    | static h => exact ⟨_, rfl⟩
    | animated h => cases e
  gradients g g' h := by
    rintro ⟨ks', e, k', hk, hb⟩
    cases h.colors with
    | static _ h' => cases h'.symm.trans e
    | animated h h' hr =>
      cases h'.symm.trans e
      obtain ⟨k, hk, hs⟩ := forall₂_mem hr hk
      exact ⟨_, h, k, hk, hs.1 ▸ hb⟩
  paths p p' h := by
    cases h with
    | same h => exact ⟨fun ⟨ks, e, hb⟩ => ⟨ks, h ▸ e, hb⟩, fun ⟨ks, e, hb⟩ => ⟨ks, h ▸ e, hb⟩⟩
    | @animated ks ks' h h' hr =>
      constructor
      · rintro ⟨ks'', e, i, k', hk, hj, hb⟩
        cases h'.symm.trans e
        have := forall₂_rel_getElem? hr i
        rw [hk] at this
        generalize ho : ks[i]? = o at this
        cases this with
        | @some k _ hs =>
          refine ⟨ks, h, i, k, ho, fun j hji k₁ hk₁ => ?_, hb.imp (fun hb => hs.base ▸ hb) fun hb => ⟨hb.1, ?_⟩⟩
          · have := forall₂_rel_getElem? hr j
            rw [hk₁] at this
            generalize ho' : ks'[j]? = o' at this
            cases this with
            | some hs₁ =>
              obtain ⟨b, hb⟩ := hj j hji _ ho'
              exact ⟨b, (startOf_begins hr j hs₁ b).mp hb⟩
          · have := hs.start
            rw [hb.2] at this
            cases hv : k.start with
            | none => rfl
            | some => rw [hv] at this; cases this
      · rintro ⟨ks'', e, i, k, hk, hb⟩
        cases h.symm.trans e
        have := forall₂_rel_getElem? hr i
        rw [hk] at this
        generalize ho : ks'[i]? = o at this
        cases this with
        | some hs => exact ⟨ks', h', i, _, ho, fun ⟨b, hx⟩ => hb ⟨b, (startOf_begins hr i hs b).mp hx⟩⟩

omit [FloatOps F] in
theorem overlooked_symm : (Schema.overlooked : Schema.KeyframeRelations F).Symm where
  numbers h := h.symm (Schema.forall₂_symm fun h => ⟨h.base.symm, h.value.symm⟩)
  vectors h := by
    cases h with
    | static h => exact .static h.symm
    | animated h => exact .animated (Schema.forall₂_symm (fun h => ⟨h.base.symm, h.value.symm⟩) h)
  colors h := by
    cases h with
    | static h => exact .static h.symm
    | animated h => exact .animated (Schema.forall₂_symm (fun h => ⟨h.base.symm, h.value.symm⟩) h)
  gradients h := h.symm (Schema.forall₂_symm fun h => ⟨h.1.symm, h.2.symm⟩)
  positions h := by
    cases h with
    | static h => exact .static h.symm
    | animated h => exact .animated (Schema.forall₂_symm (fun h => ⟨h.base.symm, h.value.symm⟩) h)
  paths h := h.symm (Schema.forall₂_symm fun h => ⟨h.base.symm, h.start.symm, h.stop.symm⟩)

end
end Velato
