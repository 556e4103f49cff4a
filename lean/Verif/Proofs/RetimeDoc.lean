import Verif.Spec.RetimeDoc
import Verif.Spec.Ended
import Verif.Spec.Retime
import Verif.Proofs.SameDoc
import Verif.Proofs.ImportValues

/-!
# Two documents that differ in the times of their keyframes, each at its own frame: helper lemmas
-/

namespace Velato
open FloatOps (lit)

section
variable {F : Type} [FloatOps F]

/-- If the first import works, so does the second, and the results are related by `R`. -/
def Imports {α β : Type} (R : α → β → Prop) (x : Except Fault α) (x' : Except Fault β) : Prop :=
  ∀ v, x = .ok v → ∃ v', x' = .ok v' ∧ R v v'

omit [FloatOps F] in
theorem Imports.ok {α β : Type} {R : α → β → Prop} {v : α} {v' : β} (h : R v v') : Imports R (.ok v) (.ok v') :=
  fun _ e => ⟨v', rfl, Except.ok.inj e ▸ h⟩

omit [FloatOps F] in
theorem Imports.error {α β : Type} {R : α → β → Prop} {x : Fault} {y : Except Fault β} : Imports R (.error x : Except Fault α) y :=
  fun _ e => nomatch e

omit [FloatOps F] in
theorem Imports.bind {α β α' β' : Type} {R : α → β → Prop} {S : α' → β' → Prop} {x : Except Fault α} {x' : Except Fault β}
    {k : α → Except Fault α'} {k' : β → Except Fault β'} (h : Imports R x x')
    (hk : ∀ v v', R v v' → Imports S (k v) (k' v')) : Imports S (x >>= k) (x' >>= k') := by
  intro w e
  obtain ⟨v, hv, e⟩ := bind_ok e
  obtain ⟨v', hv', hr⟩ := h v hv
  obtain ⟨w', hw, hs⟩ := hk v v' hr w e
  exact ⟨w', by rw [hv']; exact hw, hs⟩

omit [FloatOps F] in
theorem Imports.map {α β α' β' : Type} {R : α → β → Prop} {S : α' → β' → Prop} {x : Except Fault α} {x' : Except Fault β}
    {k : α → α'} {k' : β → β'} (h : Imports R x x') (hk : ∀ v v', R v v' → S (k v) (k' v')) :
    Imports S (x.map k) (x'.map k') := by
  intro w e
  obtain ⟨v, hv, rfl⟩ := map_ok e
  obtain ⟨v', hv', hr⟩ := h v hv
  exact ⟨k' v', by rw [hv']; rfl, hk v v' hr⟩

omit [FloatOps F] in
theorem Imports.mapM {α β α' β' : Type} {S : α' → β' → Prop} {k : α → Except Fault α'} {k' : β → Except Fault β'}
    {l : List α} {l' : List β} (h : List.Forall₂ (fun x x' => Imports S (k x) (k' x')) l l') :
    Imports (List.Forall₂ S) (l.mapM k) (l'.mapM k') := by
  induction h with
  | nil => exact Imports.ok .nil
  | cons h _ ih =>
    rw [List.mapM_cons, List.mapM_cons]
    exact h.bind fun v v' hv => ih.bind fun w w' hw => Imports.ok (.cons hv hw)

omit [FloatOps F] in
theorem forall₂_map_right {α β : Type} {R : α → β → Prop} {f : α → β} {l : List α} (h : ∀ x ∈ l, R x (f x)) :
    List.Forall₂ R l (l.map f) := by
  induction l with
  | nil => exact .nil
  | cons x l ih => exact .cons (h x (by simp)) (ih fun y hy => h y (by simp [hy]))

variable {f : F → F} {fr fr' : F}

/-- The entries imported from the keyframes: one or more for each. -/
def EntriesFor (ks : List (Schema.KeyframeBase F)) (ts : List (Time F)) : Prop :=
  ∃ tss : List (List (Time F)), List.Forall₂ (fun k l => l ≠ [] ∧ ∀ t ∈ l, t.frame = k.time ∧ t.hold = Import.isHold k)
    ks tss ∧ ts = tss.flatten

/-- Two moments at which the value is the same: during a hold the weight does not matter. -/
structure SameWeight (w w' : FrameWeight F) : Prop where
  ix0 : w'.ix0 = w.ix0
  ix1 : w'.ix1 = w.ix1
  easing : w'.easing = w.easing
  hold : w'.hold = w.hold
  t : w.hold = false → w'.t = w.t

omit [FloatOps F] in
theorem SameWeight.refl (w : FrameWeight F) : SameWeight w w := ⟨rfl, rfl, rfl, rfl, fun _ => rfl⟩

/-- Whatever is imported from this property is weighed at `fr` as it is at `fr'` when moved by `f`. -/
def TrackAlike (f : F → F) (fr fr' : F) (tr : Schema.Track F) : Prop :=
  ∀ ts : List (Time F), EntriesFor tr.keyframes ts →
    if tr.gradient then Time.framesAndWeight (ts.map (Time.retime f)) fr' = Time.framesAndWeight ts fr
    else Option.Rel SameWeight (Time.framesAndWeight ts fr) (Time.framesAndWeight (ts.map (Time.retime f)) fr')

/-- The same for all properties in the list. -/
def WeighedAlike (f : F → F) (fr fr' : F) (trs : List (Schema.Track F)) : Prop := ∀ tr ∈ trs, TrackAlike f fr fr' tr

theorem WeighedAlike.mono {ks ks' : List (Schema.Track F)} (h : WeighedAlike f fr fr' ks') (hs : ∀ k ∈ ks, k ∈ ks') :
    WeighedAlike f fr fr' ks := fun t ht => h t (hs t ht)

/-- The values are fixed and the same, or animated, and the same at the two frames. -/
def SameValue {T : Type} [Tween F T] (fr fr' : F) (v v' : Value F T) : Prop :=
  (∃ x, v = .fixed x ∧ v' = .fixed x) ∨
  ∃ a a' : Animated F T, v = .animated a ∧ v' = .animated a' ∧ ∀ d, a'.evaluateOr fr' d = a.evaluateOr fr d

theorem SameValue.isFixed {T : Type} [Tween F T] {v v' : Value F T} (h : SameValue fr fr' v v') :
    v'.isFixed = v.isFixed := by
  rcases h with ⟨x, rfl, rfl⟩ | ⟨a, a', rfl, rfl, -⟩ <;> rfl

theorem SameValue.evaluateOr {T : Type} [Tween F T] {v v' : Value F T} (h : SameValue fr fr' v v') (d : T) :
    v'.evaluateOr fr' d = v.evaluateOr fr d := by
  rcases h with ⟨x, rfl, rfl⟩ | ⟨a, a', rfl, rfl, h⟩
  · rfl
  · exact h d

theorem SameValue.evaluate {T : Type} [Tween F T] [RDefault T] {v v' : Value F T} (h : SameValue fr fr' v v') :
    v'.evaluate fr' = v.evaluate fr := by
  rcases h with ⟨x, rfl, rfl⟩ | ⟨a, a', rfl, rfl, h⟩
  · rfl
  · exact h RDefault.dflt

theorem SameValue.eq_of_fixed {T : Type} [Tween F T] {v v' : Value F T} (h : SameValue fr fr' v v') (hf : v.isFixed = true) :
    v' = v := by
  rcases h with ⟨x, rfl, rfl⟩ | ⟨a, a', rfl, rfl, -⟩
  · rfl
  · cases hf

theorem sameValue_animated {T : Type} [Tween F T] {ts : List (Time F)} {vs : List T}
    (h : Option.Rel SameWeight (Time.framesAndWeight ts fr) (Time.framesAndWeight (ts.map (Time.retime f)) fr')) :
    SameValue fr fr' (.animated ⟨ts, vs⟩) (.animated ⟨ts.map (Time.retime f), vs⟩) := by
  refine .inr ⟨_, _, rfl, rfl, fun d => ?_⟩
  unfold Animated.evaluateOr Animated.evaluateInner
  dsimp only
  generalize Time.framesAndWeight ts fr = o, Time.framesAndWeight (ts.map (Time.retime f)) fr' = o' at h
  cases h with
  | none => rfl
  | @some w w' h =>
    simp only [Option.bind_eq_bind, Option.bind_some]
    rw [h.ix0, h.ix1, h.easing, h.hold]
    cases hh : w.hold with
    | true => rfl
    | false => rw [h.t hh]

open Import

omit [FloatOps F] in
theorem convTime_retimed (b : Schema.KeyframeBase F) :
    Imports (fun t t' : Time F => t' = t.retime f ∧ t.frame = b.time ∧ t.hold = isHold b) (convTime b) (convTime (b.retime f)) := by
  unfold convTime
  refine Imports.bind (R := Eq) (fun v e => ⟨v, e, rfl⟩) fun i _ e => ?_
  subst e
  refine Imports.bind (R := Eq) (fun v e => ⟨v, e, rfl⟩) fun o _ e => ?_
  subst e
  exact Imports.ok ⟨rfl, rfl, rfl⟩

omit [FloatOps F] in
theorem mapM_retimed {K E : Type} {k : K → Except Fault E} {r : K → K} {m : E → E} {Q : K → E → Prop}
    (h : ∀ x, Imports (fun y y' => y' = m y ∧ Q x y) (k x) (k (r x))) (l : List K) :
    Imports (fun ys ys' => ys' = ys.map m ∧ List.Forall₂ Q l ys) (l.mapM k) ((l.map r).mapM k) := by
  induction l with
  | nil => exact Imports.ok ⟨rfl, .nil⟩
  | cons x l ih =>
    rw [List.map_cons, List.mapM_cons, List.mapM_cons]
    exact (h x).bind fun v v' hv => ih.bind fun w w' hw => Imports.ok ⟨by rw [hv.1, hw.1]; rfl, .cons hv.2 hw.2⟩

omit [FloatOps F] in
theorem entriesFor_of_each {ks : List (Schema.KeyframeBase F)} {ts : List (Time F)}
    (h : List.Forall₂ (fun k t => t.frame = k.time ∧ t.hold = isHold k) ks ts) : EntriesFor ks ts := by
  refine ⟨ts.map fun t => [t], ?_, ?_⟩
  · rw [List.forall₂_map_right_iff]
    exact h.imp fun k t h => ⟨by simp, fun t' ht => by rw [List.mem_singleton.mp ht]; exact h⟩
  · clear h
    induction ts with
    | nil => rfl
    | cons t ts ih => rw [List.map_cons, List.flatten_cons, ← ih]; rfl

omit [FloatOps F] in
theorem convTimes_retimed {K : Type} {base : K → Schema.KeyframeBase F} {r : K → K}
    (hb : ∀ k, base (r k) = (base k).retime f) (ks : List K) :
    Imports (fun ts ts' : List (Time F) => ts' = ts.map (Time.retime f) ∧ EntriesFor (ks.map base) ts)
      (ks.mapM fun k => convTime (base k)) ((ks.map r).mapM fun k => convTime (base k)) := by
  intro ts e
  obtain ⟨ts', e', h1, h2⟩ := mapM_retimed (k := fun k => convTime (base k)) (r := r) (m := Time.retime f)
    (Q := fun k t => t.frame = (base k).time ∧ t.hold = isHold (base k))
    (fun k => by rw [hb]; exact convTime_retimed (base k)) ks ts e
  exact ⟨ts', e', h1, entriesFor_of_each (List.forall₂_map_left_iff.mpr h2)⟩

theorem scalar_retimed [Kurbo F] (p : Schema.FloatValue F) (hp : WeighedAlike f fr fr' [p.track]) :
    Imports (SameValue fr fr') (convScalar p) (convScalar (p.retime f)) := by
  have hp := hp _ (List.mem_singleton.mpr rfl)
  unfold convScalar Schema.AnimatedProperty.retime
  unfold Schema.AnimatedProperty.track Schema.AnimatedProperty.keyframes at hp
  cases hv : p.value with
  | static x => exact Imports.ok (.inl ⟨x, rfl, rfl⟩)
  | animatedValue ks =>
    rw [hv] at hp
    dsimp only at hp ⊢
    refine (mapM_retimed (k := convScalarKeyframe) (r := Schema.Keyframe.retime f) (m := fun e => (e.1.retime f, e.2))
      (Q := fun k e => e.1.frame = k.base.time ∧ e.1.hold = isHold k.base) (fun k => ?_) ks).bind fun es es' he => ?_
    · unfold convScalarKeyframe
      dsimp only [Schema.Keyframe.retime]
      cases k.value with
      | nil => exact Imports.error
      | cons x _ =>
        exact (convTime_retimed k.base).bind fun t t' ht => Imports.ok ⟨by rw [ht.1], ht.2⟩
    · obtain ⟨rfl, he⟩ := he
      refine Imports.ok ?_
      have e1 : (es.map fun e => (e.1.retime f, e.2)).map (·.1) = (es.map (·.1)).map (Time.retime f) := by
        rw [List.map_map, List.map_map]
        rfl
      have e2 : (es.map fun e => (e.1.retime f, e.2)).map (·.2) = es.map (·.2) := by
        rw [List.map_map]
        rfl
      rw [e1, e2]
      exact sameValue_animated (hp _ (entriesFor_of_each
        (List.forall₂_map_left_iff.mpr (List.forall₂_map_right_iff.mpr he))))

omit [FloatOps F] in
theorem keyframeTimes_retimed (b : Schema.KeyframeBase F) :
    keyframeTimes (b.retime f) = (keyframeTimes b).map (Time.retime f) ∧ keyframeTimes b ≠ [] ∧
      ∀ t ∈ keyframeTimes b, t.frame = b.time ∧ t.hold = isHold b := by
  unfold keyframeTimes
  dsimp only [Schema.KeyframeBase.retime]
  split
  · exact ⟨rfl, by simp, fun t ht => by rw [List.mem_singleton.mp ht]; exact ⟨rfl, rfl⟩⟩
  · rename_i h
    rw [List.map_map]
    refine ⟨rfl, fun e => h ?_, fun t ht => ?_⟩
    · rw [List.map_eq_nil_iff.mp e]
      rfl
    · obtain ⟨_, _, rfl⟩ := List.mem_map.mp ht
      exact ⟨rfl, rfl⟩

theorem keyframes_retimed {T : Type} [Tween F T] (ks : List (Schema.Keyframe F)) (h : List F → T)
    (hp : TrackAlike f fr fr' ⟨ks.map (·.base), false⟩) :
    SameValue fr fr' (convKeyframes ks h) (convKeyframes (ks.map (Schema.Keyframe.retime f)) h) := by
  unfold convKeyframes
  have e1 : ((ks.map (Schema.Keyframe.retime f)).flatMap fun k => keyframeTimes k.base)
      = (ks.flatMap fun k => keyframeTimes k.base).map (Time.retime f) := by
    rw [List.flatMap_map, List.map_flatMap]
    congr 1
    funext k
    exact (keyframeTimes_retimed k.base).1
  have e2 : ((ks.map (Schema.Keyframe.retime f)).flatMap fun k => (keyframeTimes k.base).map fun _ => h k.value)
      = ks.flatMap fun k => (keyframeTimes k.base).map fun _ => h k.value := by
    rw [List.flatMap_map]
    congr 1
    funext k
    show (keyframeTimes (k.base.retime f)).map _ = _
    rw [(keyframeTimes_retimed k.base).1, List.map_map]
    rfl
  rw [e1, e2]
  refine sameValue_animated (hp _ ⟨ks.map fun k => keyframeTimes k.base, ?_, rfl⟩)
  rw [List.forall₂_map_left_iff, List.forall₂_map_right_iff]
  exact List.forall₂_same.mpr fun k _ => (keyframeTimes_retimed (f := f) k.base).2

theorem multi_retimed {T : Type} [Tween F T] (p : Schema.AnimatedProperty F (List F)) (h : List F → T)
    (hp : WeighedAlike f fr fr' [p.track]) : SameValue fr fr' (convMulti p h) (convMulti (p.retime f) h) := by
  have hp := hp _ (List.mem_singleton.mpr rfl)
  unfold convMulti Schema.AnimatedProperty.retime
  unfold Schema.AnimatedProperty.track Schema.AnimatedProperty.keyframes at hp
  cases hv : p.value with
  | static x => exact .inl ⟨_, rfl, rfl⟩
  | animatedValue ks =>
    rw [hv] at hp
    exact keyframes_retimed ks h hp

theorem position_retimed [Kurbo F] (p : Schema.Position F) (hp : WeighedAlike f fr fr' [p.track]) :
    SameValue fr fr' (convPosPoint p) (convPosPoint (p.retime f)) := by
  have hp := hp _ (List.mem_singleton.mpr rfl)
  unfold convPosPoint Schema.Position.retime
  unfold Schema.Position.track Schema.Position.keyframes at hp
  cases hv : p.value with
  | static x => exact .inl ⟨_, rfl, rfl⟩
  | animated ks =>
    rw [hv] at hp
    dsimp only at hp ⊢
    have : (ks.map (Schema.PositionKeyframe.retime f)).map (·.keyframe)
        = (ks.map (·.keyframe)).map (Schema.Keyframe.retime f) := by
      rw [List.map_map, List.map_map]
      rfl
    rw [this]
    refine keyframes_retimed _ _ ?_
    rw [List.map_map]
    exact hp

theorem gradientColors_retimed [Kurbo F] (g : Schema.GradientColors F) (hp : WeighedAlike f fr fr' [g.track]) :
    Imports (fun s s' => s'.isFixed = s.isFixed ∧ (s.isFixed = true → s' = s) ∧ s'.evaluate fr' = s.evaluate fr)
      (convGradientColors g) (convGradientColors (g.retime f)) := by
  have hp := hp _ (List.mem_singleton.mpr rfl)
  unfold convGradientColors Schema.GradientColors.retime Schema.MultiDimensional.retime Schema.AnimatedProperty.retime
  unfold Schema.GradientColors.track Schema.AnimatedProperty.keyframes at hp
  cases hv : g.colors.animatedProperty.value with
  | static x => exact Imports.ok ⟨rfl, fun _ => rfl, rfl⟩
  | animatedValue ks =>
    rw [hv] at hp
    dsimp only at hp ⊢
    refine (convTimes_retimed (base := (·.base)) (r := Schema.Keyframe.retime f) (fun _ => rfl) ks).bind
      fun ts ts' ht => ?_
    obtain ⟨rfl, ht⟩ := ht
    have e2 : ((ks.map (Schema.Keyframe.retime f)).map fun k => (convStops k.value g.count).flatMap RawStop.toList)
        = ks.map fun k => (convStops k.value g.count).flatMap RawStop.toList := by
      rw [List.map_map]
      rfl
    rw [e2]
    refine Imports.ok ⟨rfl, fun h => (by cases h), ?_⟩
    have hp := hp _ ht
    rw [if_pos rfl] at hp
    unfold ColorStops.evaluate AnimColorStops.evaluateInner
    dsimp only
    rw [hp]

/-! ### Outlines -/

omit [FloatOps F] in
theorem startBezier_retimed (prev : Option (Schema.ShapeKeyframe F)) (k : Schema.ShapeKeyframe F) :
    startBezier (prev.map (Schema.ShapeKeyframe.retime f)) (k.retime f) = startBezier prev k := by
  cases prev <;> rfl

theorem splineLoop_retimed (ks : List (Schema.ShapeKeyframe F)) : ∀ prev : Option (Schema.ShapeKeyframe F),
    Imports (fun o o' => o' = o.map (fun x => (x.1.map (Time.retime f), x.2)) ∧
        ∀ x, o = some x → List.Forall₂ (fun k t => t.frame = k.base.time ∧ t.hold = isHold k.base) ks x.1)
      (splineLoop prev ks)
      (splineLoop (prev.map (Schema.ShapeKeyframe.retime f)) (ks.map (Schema.ShapeKeyframe.retime f))) := by
  induction ks with
  | nil =>
    intro prev
    exact Imports.ok ⟨rfl, fun x h => by cases h; exact .nil⟩
  | cons k ks ih =>
    intro prev
    rw [List.map_cons]
    unfold splineLoop
    refine (convTime_retimed k.base).bind fun t t' ht => ?_
    rw [startBezier_retimed]
    refine Imports.bind (R := Eq) (fun v e => ⟨v, e, rfl⟩) fun b _ e => ?_
    subst e
    cases b with
    | none => exact Imports.ok ⟨rfl, fun x h => by cases h⟩
    | some sb =>
      refine (ih (some k)).bind fun o o' ho => ?_
      obtain ⟨rfl, ho⟩ := ho
      cases o with
      | none => exact Imports.ok ⟨rfl, fun x h => by cases h⟩
      | some x =>
        obtain ⟨ts, vs, c⟩ := x
        refine Imports.ok ⟨by rw [ht.1]; rfl, fun x h => ?_⟩
        cases h
        exact .cons ht.2 (ho _ rfl)

/-- Both are missing, or they are related. -/
abbrev OptRel {α β : Type} (R : α → β → Prop) : Option α → Option β → Prop := Option.Rel R

section
variable [Kurbo F] [Libm F]

/-- The outlines are the same at the two frames. -/
def SameGeometry (fr fr' : F) (g g' : Geometry F) : Prop := g'.evaluate fr' = g.evaluate fr

theorem path_retimed (p : Schema.ShapeProperty F) (hp : WeighedAlike f fr fr' [p.track]) :
    Imports (OptRel (SameGeometry fr fr')) (convShapeGeometry p) (convShapeGeometry (p.retime f)) := by
  have hp := hp _ (List.mem_singleton.mpr rfl)
  unfold convShapeGeometry Schema.ShapeProperty.retime
  unfold Schema.ShapeProperty.track Schema.ShapeProperty.keyframes at hp
  cases hv : p.value with
  | static b => exact Imports.ok (.some rfl)
  | animated ks =>
    rw [hv] at hp
    dsimp only at hp ⊢
    refine (splineLoop_retimed (f := f) ks none).bind fun o o' ho => ?_
    obtain ⟨rfl, ho⟩ := ho
    cases o with
    | none => exact Imports.ok .none
    | some x =>
      obtain ⟨ts, vs, c⟩ := x
      refine Imports.ok (.some ?_)
      show Except.ok _ = Except.ok _
      have hp := hp ts (entriesFor_of_each (List.forall₂_map_left_iff.mpr (ho _ rfl)))
      rw [if_neg (by simp)] at hp
      unfold AnimSpline.evaluate
      dsimp only
      generalize Time.framesAndWeight ts fr = o, Time.framesAndWeight (ts.map (Time.retime f)) fr' = o' at hp
      cases hp with
      | none => rfl
      | @some w w' h =>
        dsimp only
        rw [h.ix0, h.ix1, h.hold]
        cases hh : w.hold with
        | true => rfl
        | false => rw [h.t hh]

omit [Libm F] in
theorem scalarOr_retimed (p : Option (Schema.FloatValue F)) (d : F) (hp : WeighedAlike f fr fr' (Schema.tracksOpt p)) :
    Imports (SameValue fr fr') (convScalarOr p d) (convScalarOr (p.map (Schema.AnimatedProperty.retime f)) d) := by
  cases p with
  | none => exact Imports.ok (.inl ⟨_, rfl, rfl⟩)
  | some p => exact scalar_retimed p (hp.mono fun k hk => by simpa [Schema.tracksOpt] using hk)

theorem star_into {s s' : AnimStar F} (hf : s'.isFixed = s.isFixed) (he : s.isFixed = true → s' = s)
    (hv : s'.evaluate fr' = s.evaluate fr) : Imports (SameGeometry fr fr') s.intoModel s'.intoModel := by
  unfold AnimStar.intoModel
  rw [hf]
  cases h : s.isFixed with
  | true =>
    rw [he h]
    refine Imports.map (R := Eq) (fun v e => ⟨v, e, rfl⟩) fun v v' e => ?_
    subst e
    rfl
  | false => exact Imports.ok hv

theorem star_retimed (s : Schema.PolyStarShape F) (hp : WeighedAlike f fr fr' (Schema.AnyShape.polyStar s).tracks) :
    Imports (SameGeometry fr fr') (convPolystar s) (convPolystar (s.retime f)) := by
  unfold convPolystar
  unfold Schema.AnyShape.tracks at hp
  dsimp only [Schema.PolyStarShape.retime]
  have hpos := position_retimed s.position (hp.mono fun k hk => by rw [List.mem_singleton.mp hk]; simp)
  refine (scalar_retimed s.outerRadius (hp.mono fun k hk => by rw [List.mem_singleton.mp hk]; simp)).bind fun o1 o1' h1 => ?_
  refine (scalar_retimed s.outerRoundness (hp.mono fun k hk => by rw [List.mem_singleton.mp hk]; simp)).bind fun o2 o2' h2 => ?_
  refine (scalar_retimed s.rotation (hp.mono fun k hk => by rw [List.mem_singleton.mp hk]; simp)).bind fun o3 o3' h3 => ?_
  refine (scalar_retimed s.points (hp.mono fun k hk => by rw [List.mem_singleton.mp hk]; simp)).bind fun o4 o4' h4 => ?_
  have hi : ∀ p : Option (Schema.FloatValue F), WeighedAlike f fr fr' (Schema.tracksOpt p) → Imports (SameValue fr fr')
      (if s.starType == .polygon then .ok (.fixed (lit 0)) else convScalarOr p (lit 0))
      (if s.starType == .polygon then .ok (.fixed (lit 0)) else
        convScalarOr (p.map (Schema.AnimatedProperty.retime f)) (lit 0)) := by
    intro p hp
    split
    · exact Imports.ok (.inl ⟨_, rfl, rfl⟩)
    · exact scalarOr_retimed p _ hp
  suffices h : ∀ o5 o5' o6 o6', SameValue fr fr' o5 o5' → SameValue fr fr' o6 o6' →
      Imports (SameGeometry fr fr')
        (AnimStar.intoModel ⟨s.starType == .polygon, lit 1, convPosPoint s.position, o5, o6, o1, o2, o3, o4⟩)
        (AnimStar.intoModel ⟨s.starType == .polygon, lit 1, convPosPoint (s.position.retime f), o5', o6', o1', o2', o3',
          o4'⟩) by
    have a5 := hi s.innerRadius (hp.mono fun k hk => by simp [hk])
    have a6 := hi s.innerRoundness (hp.mono fun k hk => by simp [hk])
    split
    · rename_i e
      rw [if_pos e, if_pos e] at a5 a6
      exact a5.bind fun o5 o5' h5 => a6.bind fun o6 o6' h6 => h _ _ _ _ h5 h6
    · rename_i e
      rw [if_neg e, if_neg e] at a5 a6
      exact a5.bind fun o5 o5' h5 => a6.bind fun o6 o6' h6 => h _ _ _ _ h5 h6
  intro o5 o5' o6 o6' h5 h6
  refine star_into ?_ ?_ ?_
  · unfold AnimStar.isFixed
    dsimp only
    rw [hpos.isFixed, h1.isFixed, h2.isFixed, h3.isFixed, h4.isFixed, h5.isFixed, h6.isFixed]
  · intro h
    unfold AnimStar.isFixed at h
    dsimp only at h
    simp only [Bool.and_eq_true] at h
    obtain ⟨⟨⟨⟨⟨⟨g0, g5⟩, g6⟩, g1⟩, g2⟩, g3⟩, g4⟩ := h
    rw [hpos.eq_of_fixed g0, h1.eq_of_fixed g1, h2.eq_of_fixed g2, h3.eq_of_fixed g3, h4.eq_of_fixed g4,
      h5.eq_of_fixed g5, h6.eq_of_fixed g6]
  · unfold AnimStar.evaluate
    dsimp only
    rw [hpos.evaluate, h1.evaluate, h2.evaluate, h3.evaluate, h4.evaluate, h5.evaluate, h6.evaluate]

theorem geometry_retimed (s : Schema.AnyShape F) (hp : WeighedAlike f fr fr' s.tracks) :
    Imports (OptRel (SameGeometry fr fr')) (convGeometry s) (convGeometry (s.retime f)) := by
  cases s with
  | ellipse s =>
    unfold Schema.AnyShape.tracks at hp
    unfold Schema.AnyShape.retime
    refine Imports.ok (.some ?_)
    show Except.ok _ = Except.ok _
    unfold AnimEllipse.evaluate
    dsimp only
    rw [(position_retimed s.position (hp.mono fun k hk => by rw [List.mem_singleton.mp hk]; simp)).evaluate]
    rw [show (convMultiP2 (s.size.retime f)).evaluate fr' = (convMultiP2 s.size).evaluate fr from
      (multi_retimed s.size.animatedProperty toP2 (hp.mono fun k hk => by rw [List.mem_singleton.mp hk]; simp)).evaluate]
  | rectangle s =>
    unfold Schema.AnyShape.tracks at hp
    unfold Schema.AnyShape.retime
    refine (scalar_retimed s.roundedCornerRadius (hp.mono fun k hk => by rw [List.mem_singleton.mp hk]; simp)).bind fun r r' hr =>
      Imports.ok (.some ?_)
    show Except.ok _ = Except.ok _
    unfold AnimRect.evaluate
    dsimp only
    rw [(position_retimed s.position (hp.mono fun k hk => by rw [List.mem_singleton.mp hk]; simp)).evaluate, hr.evaluate]
    rw [show (convMultiP2 (s.size.retime f)).evaluate fr' = (convMultiP2 s.size).evaluate fr from
      (multi_retimed s.size.animatedProperty toP2 (hp.mono fun k hk => by rw [List.mem_singleton.mp hk]; simp)).evaluate]
  | path s =>
    unfold Schema.AnyShape.tracks at hp
    unfold Schema.AnyShape.retime
    exact path_retimed s.shapeProperty hp
  | polyStar s =>
    have := star_retimed s hp
    unfold Schema.AnyShape.retime
    exact this.map fun v v' h => .some h
  | _ =>
    unfold Schema.AnyShape.retime
    exact Imports.ok .none

/-! ### Draws -/

theorem brush_into {b b' : AnimBrush F} (hf : b'.isFixed = b.isFixed) (he : b.isFixed = true → b' = b)
    (hv : ∀ a, b'.evaluate a fr' = b.evaluate a fr) (a : F) :
    b'.intoModel.evaluate a fr' = b.intoModel.evaluate a fr := by
  unfold AnimBrush.intoModel
  rw [hf]
  cases h : b.isFixed with
  | true => rw [he h]; rfl
  | false => exact hv a

theorem solid_retimed (c : Schema.ColorValue F) (hp : WeighedAlike f fr fr' [c.track]) (a : F) :
    (AnimBrush.solid (convColor (c.retime f))).intoModel.evaluate a fr' =
      (AnimBrush.solid (convColor c)).intoModel.evaluate a fr := by
  have h : SameValue fr fr' (convColor c) (convColor (c.retime f)) := multi_retimed c toColor hp
  refine brush_into (b := .solid _) (b' := .solid _) h.isFixed (fun e => congrArg AnimBrush.solid (h.eq_of_fixed e)) (fun a => ?_) a
  unfold AnimBrush.evaluate
  dsimp only
  rw [h.evaluateOr]

theorem gradient_retimed (g : Schema.BaseGradient F) (hp : WeighedAlike f fr fr' g.tracks) :
    Imports (fun x x' => ∀ a, (AnimBrush.gradient x').intoModel.evaluate a fr' =
      (AnimBrush.gradient x).intoModel.evaluate a fr) (convGradient g) (convGradient (g.retime f)) := by
  unfold convGradient
  unfold Schema.BaseGradient.tracks at hp
  refine (gradientColors_retimed g.colors (hp.mono fun k hk => by rw [List.mem_singleton.mp hk]; simp)).bind fun s s' hs => Imports.ok ?_
  have h1 : SameValue fr fr' (convMultiP2 g.startPoint) (convMultiP2 (g.startPoint.retime f)) :=
    multi_retimed g.startPoint.animatedProperty toP2 (hp.mono fun k hk => by rw [List.mem_singleton.mp hk]; simp)
  have h2 : SameValue fr fr' (convMultiP2 g.endPoint) (convMultiP2 (g.endPoint.retime f)) :=
    multi_retimed g.endPoint.animatedProperty toP2 (hp.mono fun k hk => by rw [List.mem_singleton.mp hk]; simp)
  obtain ⟨hs1, hs2, hs3⟩ := hs
  refine brush_into ?_ ?_ ?_
  · unfold AnimBrush.isFixed AnimGradient.isFixed
    dsimp only [Schema.BaseGradient.retime]
    rw [h1.isFixed, h2.isFixed, hs1]
  · intro h
    unfold AnimBrush.isFixed AnimGradient.isFixed at h
    dsimp only at h
    simp only [Bool.and_eq_true] at h
    dsimp only [Schema.BaseGradient.retime]
    rw [h1.eq_of_fixed h.1.1, h2.eq_of_fixed h.1.2, hs2 h.2]
  · intro a
    unfold AnimBrush.evaluate AnimGradient.evaluate
    dsimp only [Schema.BaseGradient.retime]
    rw [h1.evaluate, h2.evaluate, hs3]

omit [Libm F] in
theorem stroke_retimed (s : Schema.BaseStroke F) (dj : Schema.LineJoin) (dc : Schema.LineCap)
    (hp : WeighedAlike f fr fr' [s.width.track]) :
    Imports (fun x x' : AnimStroke F => x'.intoModel.evaluate fr' = x.intoModel.evaluate fr)
      (convStroke s dj dc) (convStroke (s.retime f) dj dc) := by
  unfold convStroke
  refine (scalar_retimed s.width hp).bind fun w w' hw => Imports.ok ?_
  dsimp only [Schema.BaseStroke.retime]
  unfold AnimStroke.intoModel AnimStroke.isFixed
  dsimp only
  rw [hw.isFixed]
  cases h : w.isFixed with
  | true => rw [hw.eq_of_fixed h]; rfl
  | false =>
    show AnimStroke.evaluate _ _ = AnimStroke.evaluate _ _
    unfold AnimStroke.evaluate
    dsimp only
    rw [hw.evaluate]

theorem draw_retimed (s : Schema.AnyShape F) (hp : WeighedAlike f fr fr' s.tracks) :
    Imports (OptRel (fun d d' => Shape.SameAt fr fr' (.draw d) (.draw d'))) (convDraw s) (convDraw (s.retime f)) := by
  cases s with
  | fill s =>
    unfold Schema.AnyShape.tracks at hp
    unfold Schema.AnyShape.retime
    exact (scalar_retimed s.shapeStyle.opacity (hp.mono fun k hk => by rw [List.mem_singleton.mp hk]; simp)).bind fun o o' ho =>
      Imports.ok (.some (.draw rfl (solid_retimed s.color (hp.mono fun k hk => by rw [List.mem_singleton.mp hk]; simp) _).symm ho.evaluate.symm))
  | stroke s =>
    unfold Schema.AnyShape.tracks at hp
    unfold Schema.AnyShape.retime
    refine (stroke_retimed s.baseStroke _ _ (hp.mono fun k hk => by rw [List.mem_singleton.mp hk]; simp)).bind fun x x' hx => ?_
    exact (scalar_retimed s.shapeStyle.opacity (hp.mono fun k hk => by rw [List.mem_singleton.mp hk]; simp)).bind fun o o' ho =>
      Imports.ok (.some (.draw (congrArg some hx.symm)
        (solid_retimed s.strokeColor (hp.mono fun k hk => by rw [List.mem_singleton.mp hk]; simp) _).symm ho.evaluate.symm))
  | gradientFill s =>
    unfold Schema.AnyShape.tracks at hp
    unfold Schema.AnyShape.retime
    exact (gradient_retimed s.gradient hp).bind fun g g' hg =>
      Imports.ok (.some (.draw rfl (hg _).symm rfl))
  | gradientStroke s =>
    unfold Schema.AnyShape.tracks at hp
    unfold Schema.AnyShape.retime
    refine (stroke_retimed s.baseStroke _ _ (hp.mono fun k hk => by rw [List.mem_singleton.mp hk]; simp)).bind fun x x' hx => ?_
    exact (gradient_retimed s.gradient (hp.mono fun k hk => by simp [hk])).bind fun g g' hg =>
      Imports.ok (.some (.draw (congrArg some hx.symm) (hg _).symm rfl))
  | _ =>
    unfold Schema.AnyShape.retime
    exact Imports.ok .none

/-! ### Transforms -/

/-- The positions are the same at the two frames. -/
structure SamePosition (fr fr' : F) (p p' : Position F) : Prop where
  isFixed : (match p' with | .value v => v.isFixed | .splitValues x y => x.isFixed && y.isFixed) =
    (match p with | .value v => v.isFixed | .splitValues x y => x.isFixed && y.isFixed)
  eq : (match p with | .value v => v.isFixed | .splitValues x y => x.isFixed && y.isFixed) = true → p' = p
  evaluate : p'.evaluate fr' = p.evaluate fr

omit [Libm F] in
theorem samePosition_value {v v' : Value F (P2 F)} (h : SameValue fr fr' v v') :
    SamePosition fr fr' (.value v) (.value v') :=
  ⟨h.isFixed, fun e => by rw [h.eq_of_fixed e], h.evaluate⟩

omit [Libm F] in
theorem layerPosition_retimed (p : Schema.AnyTransformP F) (hp : WeighedAlike f fr fr' p.tracks) :
    Imports (SamePosition fr fr') (layerPosition p) (layerPosition (p.retime f)) := by
  cases p with
  | position p => exact Imports.ok (samePosition_value (position_retimed p hp))
  | splitPosition s =>
    unfold Schema.AnyTransformP.tracks at hp
    refine (scalar_retimed s.x (hp.mono fun k hk => by rw [List.mem_singleton.mp hk]; simp)).bind fun x x' hx => ?_
    refine (scalar_retimed s.y (hp.mono fun k hk => by rw [List.mem_singleton.mp hk]; simp)).bind fun y y' hy => Imports.ok ?_
    refine ⟨?_, ?_, ?_⟩
    · dsimp only
      rw [hx.isFixed, hy.isFixed]
    · dsimp only
      intro h
      rw [Bool.and_eq_true] at h
      rw [hx.eq_of_fixed h.1, hy.eq_of_fixed h.2]
    · unfold Position.evaluate
      dsimp only
      rw [hx.evaluate, hy.evaluate]

omit [Libm F] in
theorem groupPosition_retimed (p : Schema.AnyTransformP F) (hp : WeighedAlike f fr fr' p.tracks) :
    Imports (SamePosition fr fr') (groupPosition p) (groupPosition (p.retime f)) := by
  cases p with
  | position p => exact Imports.ok (samePosition_value (position_retimed p hp))
  | splitPosition s => exact Imports.error

/-- The rotations are the same at the two frames. -/
def SameRotation (fr fr' : F) (r r' : Schema.FloatValue F) : Prop :=
  Imports (SameValue fr fr') (convScalar r) (convScalar r')

omit [Libm F] in
theorem getD_retimed (p : Option (Schema.FloatValue F)) (d : F) (hp : WeighedAlike f fr fr' (Schema.tracksOpt p)) :
    Imports (SameValue fr fr') (convScalar (p.getD (staticValue d)))
      (convScalar ((p.map (Schema.AnimatedProperty.retime f)).getD (staticValue d))) := by
  cases p with
  | none => exact Imports.ok (.inl ⟨_, rfl, rfl⟩)
  | some p => exact scalar_retimed p (hp.mono fun k hk => by simpa [Schema.tracksOpt] using hk)

omit [Libm F] in
theorem layerRotation_retimed (r : Option (Schema.AnyTransformR F))
    (hp : WeighedAlike f fr fr' (r.toList.flatMap Schema.AnyTransformR.tracks)) :
    Imports (SameRotation fr fr') (layerRotation r) (layerRotation (r.map (Schema.AnyTransformR.retime f))) := by
  rcases r with - | r | -
  · exact Imports.error
  · exact Imports.ok (scalar_retimed r (hp.mono fun k hk => by simpa [Schema.AnyTransformR.tracks] using hk))
  · exact Imports.error

omit [Libm F] in
theorem groupRotation_retimed (r : Option (Schema.AnyTransformR F))
    (hp : WeighedAlike f fr fr' (r.toList.flatMap Schema.AnyTransformR.tracks)) :
    Imports (SameRotation fr fr') (groupRotation r) (groupRotation (r.map (Schema.AnyTransformR.retime f))) := by
  rcases r with - | r | -
  · exact Imports.ok (Imports.ok (.inl ⟨_, rfl, rfl⟩))
  · exact Imports.ok (scalar_retimed r (hp.mono fun k hk => by simpa [Schema.AnyTransformR.tracks] using hk))
  · exact Imports.error

theorem transformWith_retimed (t : Schema.Transform F) (hp : WeighedAlike f fr fr' t.tracks) {r r' : Schema.FloatValue F}
    (hr : SameRotation fr fr' r r') {p p' : Position F} (hpos : SamePosition fr fr' p p') :
    Imports (fun x x' : Transform F × Value F F => x'.1.evaluate fr' = x.1.evaluate fr ∧ SameValue fr fr' x.2 x'.2)
      (convTransformWith t r p) (convTransformWith (t.retime f) r' p') := by
  unfold Schema.Transform.tracks at hp
  unfold convTransformWith
  refine Imports.bind hr fun x1 x1' h1 => ?_
  refine (getD_retimed t.skew _ (hp.mono fun k hk => by simp [hk])).bind fun x2 x2' h2 => ?_
  refine (getD_retimed t.skewAxis _ (hp.mono fun k hk => by simp [hk])).bind fun x3 x3' h3 => ?_
  refine (getD_retimed t.opacity _ (hp.mono fun k hk => by simp [hk])).bind fun x4 x4' h4 => ?_
  refine Imports.ok ⟨?_, h4⟩
  have h5 : SameValue fr fr' (convPosPoint (t.anchorPoint.getD positionZero))
      (convPosPoint ((t.anchorPoint.map (Schema.Position.retime f)).getD positionZero)) := by
    cases ha : t.anchorPoint with
    | none => exact .inl ⟨_, rfl, rfl⟩
    | some a => exact position_retimed a (hp.mono fun k hk => by rw [List.mem_singleton.mp hk]; simp [ha])
  have h6 : SameValue fr fr' (convMultiP2 (t.scale.getD multidimOne))
      (convMultiP2 ((t.scale.map (Schema.MultiDimensional.retime f)).getD multidimOne)) := by
    cases ha : t.scale with
    | none => exact .inl ⟨_, rfl, rfl⟩
    | some a => exact multi_retimed a.animatedProperty toP2 (hp.mono fun k hk => by rw [List.mem_singleton.mp hk]; simp [ha])
  dsimp only [Schema.Transform.retime]
  unfold AnimTransform.intoModel
  have hf : AnimTransform.isFixed ⟨convPosPoint ((t.anchorPoint.map (Schema.Position.retime f)).getD positionZero), p',
        x1', convMultiP2 ((t.scale.map (Schema.MultiDimensional.retime f)).getD multidimOne), x2', x3'⟩ =
      AnimTransform.isFixed ⟨convPosPoint (t.anchorPoint.getD positionZero), p, x1, convMultiP2 (t.scale.getD multidimOne),
        x2, x3⟩ := by
    unfold AnimTransform.isFixed
    dsimp only
    rw [h1.isFixed, h2.isFixed, h3.isFixed, h5.isFixed, h6.isFixed]
    have := hpos.isFixed
    cases p <;> cases p' <;> dsimp only at this ⊢ <;> rw [this]
  rw [hf]
  cases h : AnimTransform.isFixed ⟨convPosPoint (t.anchorPoint.getD positionZero), p, x1,
      convMultiP2 (t.scale.getD multidimOne), x2, x3⟩ with
  | true =>
    unfold AnimTransform.isFixed at h
    dsimp only at h
    simp only [Bool.and_eq_true] at h
    obtain ⟨⟨⟨⟨⟨g5, gp⟩, g1⟩, g6⟩, g2⟩, g3⟩ := h
    rw [h1.eq_of_fixed g1, h2.eq_of_fixed g2, h3.eq_of_fixed g3, h5.eq_of_fixed g5, h6.eq_of_fixed g6,
      hpos.eq (by cases p <;> simpa using gp)]
    rfl
  | false =>
    show AnimTransform.evaluate _ _ = AnimTransform.evaluate _ _
    unfold AnimTransform.evaluate
    dsimp only
    rw [h1.evaluate, h2.evaluate, h3.evaluate, h5.evaluate, h6.evaluate, hpos.evaluate]

theorem transform_retimed (t : Schema.Transform F) (hp : WeighedAlike f fr fr' t.tracks) :
    Imports (fun x x' : Transform F × Value F F => x'.1.evaluate fr' = x.1.evaluate fr ∧ SameValue fr fr' x.2 x'.2)
      (convTransform t) (convTransform (t.retime f)) := by
  unfold convTransform
  refine (layerRotation_retimed t.rotation (hp.mono fun k hk => ?_)).bind fun r r' hr => ?_
  · unfold Schema.Transform.tracks
    simp only [List.mem_append]
    tauto
  · exact (layerPosition_retimed t.position (hp.mono fun k hk => by simp [Schema.Transform.tracks, hk])).bind
      fun p p' h => transformWith_retimed t hp hr h

theorem groupTransform_retimed (t : Schema.TransformShape F) (hp : WeighedAlike f fr fr' t.transform.tracks) :
    Imports (fun x x' => groupParams (some x) fr = groupParams (some x') fr') (convShapeTransform t)
      (convShapeTransform { t with transform := t.transform.retime f }) := by
  unfold convShapeTransform
  refine (groupRotation_retimed t.transform.rotation (hp.mono fun k hk => ?_)).bind fun r r' hr => ?_
  · unfold Schema.Transform.tracks
    simp only [List.mem_append]
    tauto
  · refine (groupPosition_retimed t.transform.position
      (hp.mono fun k hk => by simp [Schema.Transform.tracks, hk])).bind fun p p' h => ?_
    refine (transformWith_retimed t.transform hp hr h).bind fun x x' hx => Imports.ok ?_
    unfold groupParams
    dsimp only
    rw [hx.1, hx.2.evaluate]

/-! ### Shapes -/

omit [Kurbo F] [Libm F] in
theorem trim_into [Kurbo F] {t t' : AnimTrim F} (h1 : SameValue fr fr' t.start t'.start)
    (h2 : SameValue fr fr' t.stop t'.stop) (h3 : SameValue fr fr' t.offset t'.offset) :
    t.intoModel.evaluate fr = t'.intoModel.evaluate fr' := by
  obtain ⟨a, b, c⟩ := t
  obtain ⟨a', b', c'⟩ := t'
  dsimp only at h1 h2 h3
  unfold AnimTrim.intoModel AnimTrim.isFixed
  dsimp only
  rw [h1.isFixed, h2.isFixed, h3.isFixed]
  split
  · rename_i h
    simp only [Bool.and_eq_true] at h
    rw [h1.eq_of_fixed h.1.1, h2.eq_of_fixed h.1.2, h3.eq_of_fixed h.2]
    rfl
  · show AnimTrim.evaluate _ _ = AnimTrim.evaluate _ _
    unfold AnimTrim.evaluate
    dsimp only
    rw [h1.evaluate, h2.evaluate, h3.evaluate]

theorem sameAtAll_isEmpty {ss ss' : List (Shape F)} (h : Shape.SameAtAll fr fr' ss ss') :
    ss'.isEmpty = ss.isEmpty := by
  cases h <;> rfl

theorem sameAtAll_append {ss ss' ts ts' : List (Shape F)} (h : Shape.SameAtAll fr fr' ss ss')
    (h' : Shape.SameAtAll fr fr' ts ts') : Shape.SameAtAll fr fr' (ss ++ ts) (ss' ++ ts') := by
  induction ss generalizing ss' with
  | nil => cases h; exact h'
  | cons s ss ih =>
    cases h with
    | cons h hs => exact .cons h (ih hs)

theorem sameAtAll_toList {o o' : Option (Shape F)} (h : OptRel (Shape.SameAt fr fr') o o') :
    Shape.SameAtAll fr fr' o.toList o'.toList := by
  cases h with
  | none => exact .nil
  | some h => exact .cons h .nil

mutual
theorem shape_retimed : ∀ (s : Schema.AnyShape F), WeighedAlike f fr fr' s.tracks →
    Imports (OptRel (Shape.SameAt fr fr')) (convShape s) (convShape (s.retime f))
  | s, hp => by
    have hd := draw_retimed s hp
    have hg := geometry_retimed s hp
    unfold convShape
    refine hd.bind fun d d' hd => ?_
    cases hd with
    | some h => exact Imports.ok (.some h)
    | none =>
      refine hg.bind fun g g' hg => ?_
      cases hg with
      | some h => exact Imports.ok (.some (.geometry (Eq.symm h)))
      | none =>
        match s, hp with
        | .group _ _ ss _, hp =>
          unfold Schema.AnyShape.tracks at hp
          unfold Schema.AnyShape.retime
          refine (groupItems_retimed ss hp none none rfl).bind fun x x' hx => ?_
          dsimp only
          rw [sameAtAll_isEmpty hx.1]
          split
          · exact Imports.ok (.some (.group hx.1 hx.2))
          · exact Imports.ok .none
        | .trim s, hp =>
          unfold Schema.AnyShape.tracks at hp
          unfold Schema.AnyShape.retime
          refine (scalar_retimed s.start (hp.mono fun k hk => by rw [List.mem_singleton.mp hk]; simp)).bind fun x1 x1' h1 => ?_
          refine (scalar_retimed s.stop (hp.mono fun k hk => by rw [List.mem_singleton.mp hk]; simp)).bind fun x2 x2' h2 => ?_
          refine (scalar_retimed s.offset (hp.mono fun k hk => by rw [List.mem_singleton.mp hk]; simp)).bind fun x3 x3' h3 => ?_
          exact Imports.ok (.some (.trim (trim_into h1 h2 h3)))
        | .rectangle _, _ | .ellipse _, _ | .transform _, _ | .stroke _, _ | .puckerBloat _, _ | .merge _, _
        | .repeater _, _ | .offsetPath _, _ | .fill _, _ | .path _, _ | .gradientFill _, _ | .gradientStroke _, _
        | .twist _, _ | .roundedCorners _, _ | .polyStar _, _ =>
          unfold Schema.AnyShape.retime
          exact Imports.ok .none

theorem groupItems_retimed : ∀ (ss : List (Schema.AnyShape F)), WeighedAlike f fr fr' (Schema.AnyShape.tracksAll ss) →
    ∀ t t' : Option (GroupTransform F), groupParams t fr = groupParams t' fr' →
    Imports (fun x x' => Shape.SameAtAll fr fr' x.1 x'.1 ∧ groupParams x.2 fr = groupParams x'.2 fr')
      (convGroupItems ss t) (convGroupItems (Schema.AnyShape.retimeAll f ss) t')
  | [], _, t, t', ht => by
    unfold Schema.AnyShape.retimeAll convGroupItems
    exact Imports.ok ⟨.nil, ht⟩
  | s :: ss, hp, t, t', ht => by
    unfold Schema.AnyShape.tracksAll at hp
    have h1 : WeighedAlike f fr fr' s.tracks := hp.mono fun k hk => by simp [hk]
    have h2 : WeighedAlike f fr fr' (Schema.AnyShape.tracksAll ss) := hp.mono fun k hk => by simp [hk]
    unfold Schema.AnyShape.retimeAll
    by_cases hs : ∃ tr, s = .transform tr
    · obtain ⟨tr, rfl⟩ := hs
      unfold Schema.AnyShape.tracks at h1
      unfold Schema.AnyShape.retime convGroupItems
      exact (groupTransform_retimed tr h1).bind fun g g' hg => groupItems_retimed ss h2 (some g) (some g') hg
    · have key : ∀ (s : Schema.AnyShape F) (ss : List (Schema.AnyShape F)) (t : Option (GroupTransform F)),
          (∀ tr, s ≠ .transform tr) → convGroupItems (s :: ss) t =
            (convShape s >>= fun s => convGroupItems ss t >>= fun x => .ok (s.toList ++ x.1, x.2)) := by
        intro s ss t h
        cases s <;> first | (rw [convGroupItems]; intro tr; nofun) | exact absurd rfl (h _)
      rw [key _ _ _ (fun tr h => hs ⟨tr, h⟩), key _ _ _ (fun tr h => by
        cases s <;> unfold Schema.AnyShape.retime at h <;> first | exact hs ⟨_, rfl⟩ | cases h)]
      refine (shape_retimed s h1).bind fun x x' hx => ?_
      refine (groupItems_retimed ss h2 t t' ht).bind fun y y' hy => ?_
      exact Imports.ok ⟨sameAtAll_append (sameAtAll_toList hx) hy.1, hy.2⟩
end

theorem shapes_retimed (ss : List (Schema.AnyShape F)) (hp : WeighedAlike f fr fr' (Schema.AnyShape.tracksAll ss)) :
    Imports (Shape.SameAtAll fr fr') (convShapes ss) (convShapes (Schema.AnyShape.retimeAll f ss)) := by
  unfold convShapes
  have : Imports (List.Forall₂ (OptRel (Shape.SameAt fr fr'))) (ss.mapM convShape)
      ((Schema.AnyShape.retimeAll f ss).mapM convShape) := by
    refine Imports.mapM ?_
    induction ss with
    | nil => unfold Schema.AnyShape.retimeAll; exact .nil
    | cons s ss ih =>
      unfold Schema.AnyShape.tracksAll at hp
      unfold Schema.AnyShape.retimeAll
      exact .cons (shape_retimed s (hp.mono fun k hk => by simp [hk])) (ih (hp.mono fun k hk => by simp [hk]))
  refine this.bind fun os os' h => Imports.ok ?_
  induction h with
  | nil => exact .nil
  | cons h _ ih => exact sameAtAll_append (sameAtAll_toList h) ih

/-! ### Layers -/

theorem mask_retimed (m : Schema.Mask F) (hp : WeighedAlike f fr fr' m.tracks) :
    Imports (OptRel fun x x' : Mask F => x.geometry.evaluate fr = x'.geometry.evaluate fr') (convMask m)
      (convMask (m.retime f)) := by
  unfold Schema.Mask.tracks at hp
  unfold convMask
  dsimp only [Schema.Mask.retime]
  cases hs : m.shape with
  | none => exact Imports.ok .none
  | some s =>
    refine (path_retimed s (hp.mono fun k hk => by rw [List.mem_singleton.mp hk]; simp [hs])).bind fun g g' hg => ?_
    cases hg with
    | none => exact Imports.ok .none
    | some hg =>
      exact (getD_retimed m.opacity _ (hp.mono fun k hk => by simp [hk])).bind fun o o' ho =>
        Imports.ok (.some (Eq.symm hg))

theorem masks_retimed (ms : List (Schema.Mask F)) (hp : WeighedAlike f fr fr' (ms.flatMap Schema.Mask.tracks)) :
    Imports (List.Forall₂ fun x x' : Mask F => x.geometry.evaluate fr = x'.geometry.evaluate fr') (convMasks ms)
      (convMasks (ms.map (Schema.Mask.retime f))) := by
  unfold convMasks
  refine (Imports.mapM (forall₂_map_right fun m hm => mask_retimed m (hp.mono fun k hk =>
    List.mem_flatMap.mpr ⟨m, hm, hk⟩))).bind fun os os' h => Imports.ok ?_
  induction h with
  | nil => exact .nil
  | cons h _ ih =>
    cases h with
    | none => exact ih
    | some h => exact .cons h ih

/-- What the setup of a layer keeps when it is moved in time. -/
structure SameSetup (fr fr' : F) (e e' : Layer F × LayerSetupParams) : Prop where
  name : e.1.name = e'.1.name
  parent : e.1.parent = e'.1.parent
  transform : e.1.transform.evaluate fr = e'.1.transform.evaluate fr'
  opacity : e.1.opacity.evaluate fr = e'.1.opacity.evaluate fr'
  masks : List.Forall₂ (fun m m' => m.geometry.evaluate fr = m'.geometry.evaluate fr') e.1.masks e'.1.masks
  isMask : e.1.isMask = e'.1.isMask
  maskLayer : e.1.maskLayer = e'.1.maskLayer
  content : e.1.content = .none ∧ e'.1.content = .none
  params : e.2 = e'.2

/-- The visual layer of a layer moved in time, with whatever times of its own. -/
structure SameVisual (f : F → F) (v v' : Schema.VisualLayer F) : Prop where
  transform : v'.transform = v.transform.retime f
  masks : v'.masksProperties.getD [] = (v.masksProperties.getD []).map (Schema.Mask.retime f)
  blendMode : v'.blendMode = v.blendMode
  matteTarget : v'.matteTarget = v.matteTarget
  matteMode : v'.matteMode = v.matteMode
  matteLayerIndex : v'.matteLayerIndex = v.matteLayerIndex
  name : v'.layer.visualObject.name = v.layer.visualObject.name
  parent : v'.layer.parentIndex = v.layer.parentIndex
  index : v'.layer.index = v.layer.index

theorem setup_retimed {v v' : Schema.VisualLayer F} (hv : SameVisual f v v') (hp : WeighedAlike f fr fr' v.tracks)
    (w h st st' : F) :
    Imports (fun e e' => SameSetup fr fr' e e' ∧
        e.1.frames = ⟨v.layer.inPoint, v.layer.outPoint⟩ ∧ e'.1.frames = ⟨v'.layer.inPoint, v'.layer.outPoint⟩ ∧
        e.1.stretch = v.layer.timeStretch.getD (lit 1) ∧ e'.1.stretch = v'.layer.timeStretch.getD (lit 1) ∧
        e.1.startFrame = st ∧ e'.1.startFrame = st') (setupLayer v w h st) (setupLayer v' w h st') := by
  unfold Schema.VisualLayer.tracks at hp
  unfold setupLayer
  rw [hv.transform, hv.masks, hv.blendMode]
  refine (transform_retimed v.transform (hp.mono fun k hk => by simp [hk])).bind fun x x' hx => ?_
  refine Imports.bind (R := Eq) (fun v e => ⟨v, e, rfl⟩) fun b _ e => ?_
  subst e
  refine (masks_retimed (v.masksProperties.getD []) (hp.mono fun k hk => List.mem_append_right _ hk)).bind
    fun ms ms' hm => Imports.ok ?_
  exact ⟨⟨by dsimp only; rw [hv.name], hv.parent.symm, hx.1.symm, hx.2.evaluate.symm, hm,
    by dsimp only; rw [hv.matteTarget], rfl, ⟨rfl, rfl⟩, by dsimp only; rw [hv.index, hv.matteMode, hv.matteLayerIndex]⟩,
    rfl, rfl, rfl, rfl, rfl, rfl⟩

/-- The layer moved in time, with whatever times of its own. -/
inductive SameLayer (f : F → F) : Schema.AnyLayer F → Schema.AnyLayer F → Prop where
  | precomposition {l l' : Schema.PrecompositionLayer F} (hv : SameVisual f l.visualLayer l'.visualLayer)
      (hh : l'.visualLayer.layer.hidden = l.visualLayer.layer.hidden)
      (hn : l'.refId = l.refId) (hw : l'.width = l.width) (hh : l'.height = l.height)
      (hr : l'.timeRemap = l.timeRemap.map (Schema.AnimatedProperty.retime f)) :
      SameLayer f (.precomposition l) (.precomposition l')
  | solid {l l' : Schema.SolidLayer F} (hv : SameVisual f l.visualLayer l'.visualLayer)
      (hh : l'.visualLayer.layer.hidden = l.visualLayer.layer.hidden) : SameLayer f (.solid l) (.solid l')
  | shape {l l' : Schema.ShapeLayer F} (hv : SameVisual f l.visualLayer l'.visualLayer)
      (hh : l'.visualLayer.layer.hidden = l.visualLayer.layer.hidden)
      (hs : l'.shapes = Schema.AnyShape.retimeAll f l.shapes) : SameLayer f (.shape l) (.shape l')
  | null {v v' : Schema.VisualLayer F} (hv : SameVisual f v v') (hh : v'.layer.hidden = v.layer.hidden) :
      SameLayer f (.null v) (.null v')
  | image {l l' : Schema.ImageLayer F} (hv : SameVisual f l.visualLayer l'.visualLayer)
      (hh : l'.visualLayer.layer.hidden = l.visualLayer.layer.hidden) : SameLayer f (.image l) (.image l')

/-- When a layer is shown. -/
def shownAt (s : Schema.AnyLayer F) (fr : F) : Bool :=
  FRange.contains ⟨(visualLayer s).layer.inPoint, (visualLayer s).layer.outPoint⟩ fr

/-- The frame at which the asset of a precomposition is entered. -/
def entered (l : Schema.PrecompositionLayer F) (fr : F) : F :=
  fr /. l.visualLayer.layer.timeStretch.getD (lit 1) +.
    FloatOps.neg l.startTime /. l.visualLayer.layer.timeStretch.getD (lit 1)

theorem layer_retimed {s s' : Schema.AnyLayer F} (h : SameLayer f s s') (hp : WeighedAlike f fr fr' s.tracks)
    (hs : shownAt s fr = shownAt s' fr') {R : String → F → F → Prop}
    (hR : ∀ l l', s = .precomposition l → s' = .precomposition l' → R l.refId (entered l fr) (entered l' fr')) :
    Imports (SameEntryAt R fr fr') (convLayer s) (convLayer s') := by
  have mk : ∀ (e e' : Layer F × LayerSetupParams) (co co' : Content F) (b : Bool), SameSetup fr fr' e e' →
      e.1.frames.contains fr = e'.1.frames.contains fr' →
      (Content.SameAt R fr fr' { e.1 with content := co } { e'.1 with content := co' }) →
      SameEntryAt R fr fr' ({ e.1 with content := co }, e.2) ({ e'.1 with content := co' }, e'.2) ∧
      SameEntryAt R fr fr' ({ e.1 with isMask := b }, e.2) ({ e'.1 with isMask := b }, e'.2) := by
    intro e e' co co' b h hc hco
    exact ⟨⟨⟨h.name, h.parent, hc, h.transform, h.opacity, h.masks, h.isMask, h.maskLayer, hco⟩, h.params⟩,
      ⟨⟨h.name, h.parent, hc, h.transform, h.opacity, h.masks, rfl, h.maskLayer, .none h.content.1 h.content.2⟩,
        h.params⟩⟩
  unfold Schema.AnyLayer.tracks at hp
  unfold convLayer
  cases h with
  | @precomposition l l' hv hh hn hw hh' hr =>
    rw [show isLayerHidden (.precomposition l') = isLayerHidden (.precomposition l) by
      unfold isLayerHidden visualLayer; dsimp only; rw [hh]]
    unfold layerSetup
    dsimp only at hp ⊢
    rw [hw, hh']
    refine (setup_retimed hv (hp.mono fun k hk => List.mem_append_left _ hk) _ _ _ _).bind fun e e' he => ?_
    obtain ⟨h1, h2, h3, h4, h5, h6, h7⟩ := he
    have hc : e.1.frames.contains fr = e'.1.frames.contains fr' := by rw [h2, h3]; exact hs
    split
    · exact Imports.ok (mk e e' .none .none false h1 hc (.none rfl rfl)).2
    · have : Imports (fun co co' => ∃ tr tr', co = .instance l.refId tr ∧ co' = .instance l.refId tr')
          (layerContent (.precomposition l)) (layerContent (.precomposition l')) := by
        unfold layerContent
        dsimp only
        rw [hn, hr]
        refine Imports.map (R := fun _ _ => True) ?_ fun tr tr' _ => ⟨tr, tr', rfl, rfl⟩
        cases htr : l.timeRemap with
        | none => exact Imports.ok trivial
        | some p =>
          exact Imports.map (scalar_retimed p (hp.mono fun k hk =>
            List.mem_append_right _ (by simpa [Schema.tracksOpt, htr] using hk))) fun _ _ _ => trivial
      refine this.bind fun co co' hco => Imports.ok ?_
      obtain ⟨tr, tr', rfl, rfl⟩ := hco
      refine (mk e e' _ _ false h1 hc (.inst rfl rfl ?_)).1
      dsimp only
      rw [h4, h5, h6, h7]
      exact hR l l' rfl rfl
  | @shape l l' hv hh hss =>
    rw [show isLayerHidden (.shape l') = isLayerHidden (.shape l) by
      unfold isLayerHidden visualLayer; dsimp only; rw [hh]]
    unfold layerSetup
    dsimp only at hp ⊢
    refine (setup_retimed hv (hp.mono fun k hk => List.mem_append_left _ hk) _ _ _ _).bind fun e e' he => ?_
    obtain ⟨h1, h2, h3, h4, h5, h6, h7⟩ := he
    have hc : e.1.frames.contains fr = e'.1.frames.contains fr' := by rw [h2, h3]; exact hs
    split
    · exact Imports.ok (mk e e' .none .none false h1 hc (.none rfl rfl)).2
    · unfold layerContent
      dsimp only
      rw [hss]
      refine (Imports.map (shapes_retimed l.shapes (hp.mono fun k hk => List.mem_append_right _ hk))
        (S := fun co co' : Content F => ∃ ss ss', co = .shape ss ∧ co' = .shape ss' ∧ Shape.SameAtAll fr fr' ss ss')
        fun ss ss' h => ⟨ss, ss', rfl, rfl, h⟩).bind fun co co' hco => Imports.ok ?_
      obtain ⟨ss, ss', rfl, rfl, h⟩ := hco
      exact (mk e e' _ _ false h1 hc (.shape rfl rfl h)).1
  | @solid l l' hv hh =>
    rw [show isLayerHidden (.solid l') = isLayerHidden (.solid l) by
      unfold isLayerHidden visualLayer; dsimp only; rw [hh]]
    unfold layerSetup
    dsimp only at hp ⊢
    refine (setup_retimed hv hp _ _ _ _).bind fun e e' he => ?_
    obtain ⟨h1, h2, h3, h4, h5, h6, h7⟩ := he
    have hc : e.1.frames.contains fr = e'.1.frames.contains fr' := by rw [h2, h3]; exact hs
    split
    · exact Imports.ok (mk e e' .none .none false h1 hc (.none rfl rfl)).2
    · exact Imports.ok (mk e e' .none .none false h1 hc (.none rfl rfl)).1
  | @null l l' hv hh =>
    rw [show isLayerHidden (.null l') = isLayerHidden (.null l) by
      unfold isLayerHidden visualLayer; dsimp only; rw [hh]]
    unfold layerSetup
    dsimp only at hp ⊢
    refine (setup_retimed hv hp _ _ _ _).bind fun e e' he => ?_
    obtain ⟨h1, h2, h3, h4, h5, h6, h7⟩ := he
    have hc : e.1.frames.contains fr = e'.1.frames.contains fr' := by rw [h2, h3]; exact hs
    split
    · exact Imports.ok (mk e e' .none .none false h1 hc (.none rfl rfl)).2
    · exact Imports.ok (mk e e' .none .none false h1 hc (.none rfl rfl)).1
  | @image l l' hv hh =>
    rw [show isLayerHidden (.image l') = isLayerHidden (.image l) by
      unfold isLayerHidden visualLayer; dsimp only; rw [hh]]
    unfold layerSetup
    dsimp only at hp ⊢
    refine (setup_retimed hv hp _ _ _ _).bind fun e e' he => ?_
    obtain ⟨h1, h2, h3, h4, h5, h6, h7⟩ := he
    have hc : e.1.frames.contains fr = e'.1.frames.contains fr' := by rw [h2, h3]; exact hs
    split
    · exact Imports.ok (mk e e' .none .none false h1 hc (.none rfl rfl)).2
    · exact Imports.ok (mk e e' .none .none false h1 hc (.none rfl rfl)).1

theorem processLayers_retimed {ss ss' : List (Schema.AnyLayer F)} {R : String → F → F → Prop}
    (h : List.Forall₂ (fun s s' => Imports (SameEntryAt R fr fr') (convLayer s) (convLayer s')) ss ss') :
    Imports (List.Forall₂ (Layer.SameAt R fr fr')) (processLayers ss) (processLayers ss') := by
  unfold processLayers
  refine (Imports.mapM h).bind fun es es' he => Imports.ok ?_
  rw [idMap_sameAt he]
  exact linkLayers_sameAt _ he 0 none

end

end
end Velato
