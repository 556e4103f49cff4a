import Verif.Proofs.ImportShapes
import Verif.Spec.Unsupported
import Verif.Props.Folding

/-!
# When import fails: helper lemmas
-/

namespace Velato
open FloatOps (lit)
open Import

/-- The execution panics. -/
def Fails {α : Type} (x : Except Fault α) : Prop := ∃ e, x = .error e

theorem fails_error {α : Type} (e : Fault) : Fails (.error e : Except Fault α) ↔ True :=
  ⟨fun _ => trivial, fun _ => ⟨e, rfl⟩⟩

theorem fails_ok {α : Type} (a : α) : Fails (.ok a : Except Fault α) ↔ False :=
  ⟨(fun ⟨_, h⟩ => nomatch h), False.elim⟩

theorem fails_map {α β : Type} (x : Except Fault α) (f : α → β) : Fails (x.map f) ↔ Fails x := by
  cases x with
  | error e => exact ⟨fun _ => ⟨e, rfl⟩, fun _ => ⟨e, rfl⟩⟩
  | ok a => exact ⟨(fun ⟨_, h⟩ => nomatch h), fun ⟨_, h⟩ => nomatch h⟩

theorem fails_bind {α β : Type} {x : Except Fault α} {f : α → Except Fault β} {Q : Prop}
    (h : ∀ a, x = .ok a → (Fails (f a) ↔ Q)) : Fails (x >>= f) ↔ Fails x ∨ Q := by
  cases x with
  | error e => exact ⟨fun _ => .inl ⟨e, rfl⟩, fun _ => ⟨e, rfl⟩⟩
  | ok a =>
    refine Iff.trans (h a rfl) ⟨.inr, ?_⟩
    rintro (⟨_, h⟩ | h)
    · cases h
    · exact h

theorem fails_bind_ok {α β : Type} {x : Except Fault α} {f : α → Except Fault β}
    (h : ∀ a, ¬ Fails (f a)) : Fails (x >>= f) ↔ Fails x := by
  rw [fails_bind (Q := False) fun a _ => ⟨h a, False.elim⟩, or_false]

theorem fails_mapM {α β : Type} (f : α → Except Fault β) (l : List α) :
    Fails (l.mapM f) ↔ ∃ x ∈ l, Fails (f x) := by
  induction l with
  | nil => exact ⟨(fun ⟨_, h⟩ => nomatch h), fun ⟨_, h, _⟩ => nomatch h⟩
  | cons a l ih =>
    rw [mapM_cons', fails_bind (Q := Fails (l.mapM f)) fun b _ => by
      rw [fails_bind_ok fun _ => by rw [fails_ok]; exact id], ih]
    simp

section
variable {F : Type}

theorem fails_component (c : Schema.KeyframeComponent F) :
    Fails (convComponent c) ↔ BadComponent c := by
  unfold convComponent BadComponent
  split
  · rw [fails_ok]
    constructor
    · exact False.elim
    · rintro ⟨xs, h, hl⟩; cases h; exact hl rfl
  · rename_i xs hne
    rw [fails_error]
    simp only [true_iff]
    refine ⟨xs, rfl, fun h => ?_⟩
    match xs, h with
    | [x], _ => exact hne x rfl
  · rw [fails_ok]
    constructor
    · exact False.elim
    · rintro ⟨xs, h, hl⟩; cases h

theorem fails_handle? (h : Option (Schema.KeyframeBezierHandle F)) :
    Fails (convHandle? h) ↔ ∃ e, h = some e ∧ (BadComponent e.x ∨ BadComponent e.y) := by
  cases h with
  | none => exact ⟨(fun ⟨_, h⟩ => nomatch h), fun ⟨_, h, _⟩ => nomatch h⟩
  | some h =>
    show Fails ((convKeyframeHandle h).map some) ↔ _
    rw [fails_map]
    unfold convKeyframeHandle
    rw [fails_bind (Q := BadComponent h.y) fun x _ => by
      rw [fails_bind_ok fun _ => by rw [fails_ok]; exact id, fails_component], fails_component]
    simp

theorem fails_time (b : Schema.KeyframeBase F) : Fails (convTime b) ↔ BadHandles b := by
  unfold convTime BadHandles
  rw [fails_bind (Q := ∃ e, b.outTangent = some e ∧ (BadComponent e.x ∨ BadComponent e.y))
    fun x _ => by
      rw [fails_bind_ok fun _ => by rw [fails_ok]; exact id, fails_handle?], fails_handle?]
  constructor
  · rintro (⟨e, h, hb⟩ | ⟨e, h, hb⟩)
    · exact ⟨e, .inl h, hb⟩
    · exact ⟨e, .inr h, hb⟩
  · rintro ⟨e, h | h, hb⟩
    · exact .inl ⟨e, h, hb⟩
    · exact .inr ⟨e, h, hb⟩

theorem fails_scalar (p : Schema.FloatValue F) : Fails (convScalar p) ↔ BadScalar p := by
  unfold convScalar BadScalar
  cases p.value with
  | static x => exact ⟨(fun ⟨_, h⟩ => nomatch h), fun ⟨_, h, _⟩ => nomatch h⟩
  | animatedValue ks =>
    show Fails (ks.mapM convScalarKeyframe >>= fun es => _) ↔ _
    rw [fails_bind_ok fun _ => by rw [fails_ok]; exact id, fails_mapM]
    have : ∀ k : Schema.Keyframe F, Fails (convScalarKeyframe k) ↔
        (k.value = [] ∨ BadHandles k.base) := by
      intro k
      unfold convScalarKeyframe
      cases k.value with
      | nil => exact ⟨fun _ => .inl rfl, fun _ => ⟨_, rfl⟩⟩
      | cons x xs =>
        show Fails (convTime k.base >>= fun t => _) ↔ _
        rw [fails_bind_ok fun _ => by rw [fails_ok]; exact id, fails_time]
        simp
    constructor
    · rintro ⟨k, hk, h⟩; exact ⟨ks, rfl, k, hk, (this k).mp h⟩
    · rintro ⟨ks', e, k, hk, h⟩; cases e; exact ⟨k, hk, (this k).mpr h⟩

theorem fails_scalarOr (p : Option (Schema.FloatValue F)) (d : F) :
    Fails (convScalarOr p d) ↔ BadScalar? p := by
  cases p with
  | none => exact ⟨(fun ⟨_, h⟩ => nomatch h), fun ⟨_, h, _⟩ => nomatch h⟩
  | some p =>
    show Fails (convScalar p) ↔ _
    rw [fails_scalar]
    exact ⟨fun h => ⟨p, rfl, h⟩, fun ⟨q, e, h⟩ => by cases e; exact h⟩

theorem fails_getD (p : Option (Schema.FloatValue F)) (q : Schema.FloatValue F) {d : F}
    (hq : q.value = .static d) : Fails (convScalar (p.getD q)) ↔ BadScalar? p := by
  cases p with
  | none =>
    show Fails (convScalar q) ↔ _
    rw [fails_scalar]
    constructor
    · rintro ⟨ks, h, -⟩; rw [hq] at h; cases h
    · rintro ⟨_, h, _⟩; cases h
  | some p =>
    show Fails (convScalar p) ↔ _
    rw [fails_scalar]
    exact ⟨fun h => ⟨p, rfl, h⟩, fun ⟨q, e, h⟩ => by cases e; exact h⟩

theorem startOf_of_start {prev : Option (Schema.ShapeKeyframe F)} {k : Schema.ShapeKeyframe F} :
    (∃ b, startBezier prev k = .ok (some b)) ↔ ∃ b, StartOf prev k b := by
  constructor
  · rintro ⟨b, h⟩; exact ⟨b, startBezier_ok h⟩
  · rintro ⟨b, hb⟩
    cases h : startBezier prev k with
    | error e =>
      exfalso
      unfold startBezier at h
      unfold StartOf at hb
      cases hk : k.start with
      | some bs => rw [hk] at h; cases h
      | none =>
        rw [hk] at h hb
        obtain ⟨p, rfl, -⟩ := hb
        dsimp only at h
        split at h
        · cases h
        · split at h <;> cases h
    | ok o =>
      cases o with
      | none => exact absurd ⟨b, hb⟩ (startBezier_none h)
      | some b' => exact ⟨b', rfl⟩

theorem fails_start {prev : Option (Schema.ShapeKeyframe F)} {k : Schema.ShapeKeyframe F} :
    Fails (startBezier prev k) ↔ prev = none ∧ k.start = none := by
  unfold startBezier
  cases k.start with
  | some bs => exact ⟨(fun ⟨_, h⟩ => nomatch h), fun ⟨_, h⟩ => nomatch h⟩
  | none =>
    cases prev with
    | none => exact ⟨fun _ => ⟨rfl, rfl⟩, fun _ => ⟨_, rfl⟩⟩
    | some p =>
      constructor
      · rintro ⟨e, h⟩
        dsimp only at h
        split at h
        · cases h
        · split at h <;> cases h
      · rintro ⟨h, -⟩; cases h

variable [FloatOps F]

theorem fails_splineLoop (prev : Option (Schema.ShapeKeyframe F))
    (ks : List (Schema.ShapeKeyframe F)) :
    Fails (splineLoop prev ks) ↔ ∃ (i : Nat) (k : Schema.ShapeKeyframe F), ks[i]? = some k ∧
      (∀ j < i, ∀ k', ks[j]? = some k' → ∃ b, StartOf (prevOf prev ks j) k' b) ∧
      (BadHandles k.base ∨ (prevOf prev ks i = none ∧ k.start = none)) := by
  induction ks generalizing prev with
  | nil =>
    unfold splineLoop
    exact ⟨(fun ⟨_, h⟩ => nomatch h), fun ⟨_, _, h, _⟩ => nomatch h⟩
  | cons k ks ih =>
    unfold splineLoop
    refine (fails_bind (Q := Fails (startBezier prev k) ∨
        ((∃ b, StartOf prev k b) ∧ Fails (splineLoop (some k) ks))) fun t _ =>
      fails_bind fun o ho => ?_).trans ?_
    · cases o with
      | none =>
        dsimp only
        rw [fails_ok]
        exact ⟨False.elim, fun ⟨h, _⟩ => startBezier_none ho h⟩
      | some b =>
        have hb : ∃ b, StartOf prev k b := ⟨b, startBezier_ok ho⟩
        dsimp only
        rw [fails_bind_ok]
        · exact ⟨fun h => ⟨hb, h⟩, fun h => h.2⟩
        · intro r
          cases r with
          | none => dsimp only; rw [fails_ok]; exact id
          | some r => dsimp only; rw [fails_ok]; exact id
    rw [fails_time, fails_start, ih]
    constructor
    · rintro (h | h | ⟨hb, i, k', hk', hj, h⟩)
      · exact ⟨0, k, rfl, fun j hj => absurd hj (by omega), .inl h⟩
      · exact ⟨0, k, rfl, fun j hj => absurd hj (by omega), .inr h⟩
      · refine ⟨i + 1, k', hk', fun j hj' k'' hk'' => ?_, by rw [prevOf_succ]; exact h⟩
        cases j with
        | zero => cases hk''; exact hb
        | succ j => rw [prevOf_succ]; exact hj j (by omega) k'' hk''
    · rintro ⟨i, k', hk', hj, h⟩
      cases i with
      | zero =>
        cases hk'
        rcases h with h | h
        · exact .inl h
        · exact .inr (.inl h)
      | succ i =>
        refine .inr (.inr ⟨hj 0 (by omega) k rfl, i, k', hk', fun j hj' k'' hk'' => ?_, ?_⟩)
        · have := hj (j + 1) (by omega) k'' hk''
          rwa [prevOf_succ] at this
        · rwa [prevOf_succ] at h

omit [FloatOps F] in
theorem prevKeyframe_none {ks : List (Schema.ShapeKeyframe F)} {i : Nat} (h : i < ks.length) :
    prevKeyframe ks i = none ↔ i = 0 := by
  cases i with
  | zero => exact ⟨fun _ => rfl, fun _ => rfl⟩
  | succ i =>
    show ks[i]? = none ↔ _
    rw [List.getElem?_eq_none_iff]; omega

theorem fails_shapeGeometry (p : Schema.ShapeProperty F) :
    Fails (convShapeGeometry p) ↔ BadPath p := by
  unfold convShapeGeometry BadPath
  cases p.value with
  | static b => exact ⟨(fun ⟨_, h⟩ => nomatch h), fun ⟨_, h, _⟩ => nomatch h⟩
  | animated ks =>
    show Fails (splineLoop none ks >>= fun r => _) ↔ _
    rw [fails_bind_ok, fails_splineLoop]
    · simp only [prevOf_none]
      constructor
      · rintro ⟨i, k, hk, hj, h⟩
        rw [prevKeyframe_none (List.getElem?_eq_some_iff.mp hk).1] at h
        exact ⟨ks, rfl, i, k, hk, hj, h⟩
      · rintro ⟨ks', e, i, k, hk, hj, h⟩
        cases e
        rw [← prevKeyframe_none (List.getElem?_eq_some_iff.mp hk).1] at h
        exact ⟨i, k, hk, hj, h⟩
    · intro r
      cases r with
      | none => rw [fails_ok]; exact id
      | some r => rw [fails_ok]; exact id

omit [FloatOps F] in
theorem fails_stroke (s : Schema.BaseStroke F) (dj : Schema.LineJoin) (dc : Schema.LineCap) :
    Fails (convStroke s dj dc) ↔ BadScalar s.width := by
  unfold convStroke
  rw [fails_bind_ok fun _ => by rw [fails_ok]; exact id, fails_scalar]

variable [Kurbo F]

theorem fails_gradientColors (g : Schema.GradientColors F) :
    Fails (convGradientColors g) ↔ BadGradient g := by
  unfold convGradientColors BadGradient
  cases g.colors.animatedProperty.value with
  | static xs => exact ⟨(fun ⟨_, h⟩ => nomatch h), fun ⟨_, h, _⟩ => nomatch h⟩
  | animatedValue ks =>
    show Fails (ks.mapM (fun k => convTime k.base) >>= fun r => _) ↔ _
    rw [fails_bind_ok fun _ => by rw [fails_ok]; exact id, fails_mapM]
    simp only [fails_time]
    exact ⟨fun ⟨k, hk, h⟩ => ⟨ks, rfl, k, hk, h⟩, fun ⟨_, e, k, hk, h⟩ => by cases e; exact ⟨k, hk, h⟩⟩

theorem fails_gradient (g : Schema.BaseGradient F) :
    Fails (convGradient g) ↔ BadGradient g.colors := by
  unfold convGradient
  rw [fails_bind_ok fun _ => by rw [fails_ok]; exact id, fails_gradientColors]

omit [FloatOps F] [Kurbo F] in
theorem scalar_fixed {p : Schema.FloatValue F} {v : Value F F} (h : convScalar p = .ok v) :
    (v.isFixed = true ↔ StaticScalar p) ∧ ∀ x, p.value = .static x → v = .fixed x := by
  have := C51_scalars h
  cases hp : p.value with
  | static x =>
    rw [hp] at this
    dsimp only at this
    subst this
    exact ⟨⟨fun _ => ⟨x, hp⟩, fun _ => rfl⟩, fun y hy => by cases hy; rfl⟩
  | animatedValue ks =>
    rw [hp] at this
    obtain ⟨ts, vs, rfl, -⟩ := this
    refine ⟨⟨(fun h => nomatch h), fun ⟨x, hx⟩ => ?_⟩, fun x hx => nomatch hx⟩
    rw [hp] at hx; cases hx

omit [FloatOps F] [Kurbo F] in
theorem scalarOr_fixed {p : Option (Schema.FloatValue F)} {d : F} {v : Value F F}
    (h : convScalarOr p d = .ok v) :
    v.isFixed = true ↔ ∀ q, p = some q → StaticScalar q := by
  cases p with
  | none => cases Except.ok.inj h; exact ⟨(fun _ _ h => nomatch h), fun _ => rfl⟩
  | some p =>
    rw [(scalar_fixed (show convScalar p = .ok v from h)).1]
    exact ⟨fun h q e => by cases e; exact h, fun h => h p rfl⟩

omit [Kurbo F] in
theorem position_fixed (p : Schema.Position F) :
    (convPosPoint p).isFixed = true ↔ ∃ xs, p.value = .static xs := by
  unfold convPosPoint
  cases p.value with
  | static xs => exact ⟨fun _ => ⟨xs, rfl⟩, fun _ => rfl⟩
  | animated ks => exact ⟨(fun h => nomatch h), fun ⟨_, h⟩ => nomatch h⟩

variable [Libm F]

theorem fails_starEvaluate (s : AnimStar F) (frame : F) :
    Fails (s.evaluate frame) ↔
      2 ^ 63 - 1 < 48 * ((if s.isPolygon then 1 else 2) *
        FloatOps.toUsize (FloatOps.round (s.points.evaluate frame))) := by
  unfold AnimStar.evaluate
  dsimp only
  by_cases h0 : FloatOps.toUsize (FloatOps.round (s.points.evaluate frame)) = 0
  · rw [if_pos h0, fails_ok, h0]
    simp
  · rw [if_neg h0]
    generalize FloatOps.toUsize (FloatOps.round (s.points.evaluate frame)) = n at *
    have hv : (if (!s.isPolygon) = true then n * 2 else n) = (if s.isPolygon then 1 else 2) * n := by
      cases s.isPolygon <;> simp; omega
    rw [hv]
    generalize (if s.isPolygon then 1 else 2) * n = m
    by_cases hm : usizeMax < m ∨ isizeMax < m * 48
    · rw [if_pos hm, fails_error]
      simp only [true_iff]
      unfold usizeMax isizeMax at hm
      omega
    · rw [if_neg hm]
      unfold usizeMax isizeMax at hm
      constructor
      · rintro ⟨e, h⟩
        split at h <;> cases h
      · intro h; omega

theorem fails_star (s : AnimStar F) : Fails s.intoModel ↔
    s.isFixed = true ∧ Fails (s.evaluate (lit 0)) := by
  unfold AnimStar.intoModel
  split
  · rename_i h; rw [fails_map]; simp [h]
  · rename_i h; rw [fails_ok]; simp [h]

theorem fails_polystar (s : Schema.PolyStarShape F) : Fails (convPolystar s) ↔ BadStar s := by
  unfold BadStar
  unfold convPolystar
  dsimp only
  have hlarge : ∀ (r1 r2 r3 r4 r5 r6 : Value F F), convScalar s.outerRadius = .ok r1 →
      convScalar s.outerRoundness = .ok r2 → convScalar s.rotation = .ok r3 →
      convScalar s.points = .ok r4 →
      (r5.isFixed = true ∧ r6.isFixed = true ↔
        (s.starType = .star → (∀ p, s.innerRadius = some p → StaticScalar p) ∧
          (∀ p, s.innerRoundness = some p → StaticScalar p))) →
      (Fails (AnimStar.intoModel
        { isPolygon := s.starType == .polygon, direction := lit 1, position := convPosPoint s.position,
          innerRadius := r5, innerRoundness := r6, outerRadius := r1, outerRoundness := r2,
          rotation := r3, points := r4 }) ↔ StarTooLarge s) := by
    intro r1 r2 r3 r4 r5 r6 h1 h2 h3 h4 h56
    rw [fails_star, fails_starEvaluate]
    unfold StarTooLarge AnimStar.isFixed
    dsimp only
    simp only [Bool.and_eq_true]
    rw [position_fixed, (scalar_fixed h1).1, (scalar_fixed h2).1, (scalar_fixed h3).1,
      (scalar_fixed h4).1, ← h56]
    have hc : (if (s.starType == .polygon) = true then 1 else 2) =
        (match s.starType with | .star => 2 | .polygon => 1) := by
      cases s.starType <;> rfl
    rw [hc]
    constructor
    · rintro ⟨⟨⟨⟨⟨⟨⟨a, b⟩, c⟩, d⟩, e⟩, f⟩, ⟨x, hx⟩⟩, hn⟩
      refine ⟨a, d, e, f, ⟨b, c⟩, x, hx, ?_⟩
      rw [(scalar_fixed h4).2 x hx] at hn
      exact hn
    · rintro ⟨a, d, e, f, ⟨b, c⟩, x, hx, hn⟩
      refine ⟨⟨⟨⟨⟨⟨⟨a, b⟩, c⟩, d⟩, e⟩, f⟩, ⟨x, hx⟩⟩, ?_⟩
      rw [(scalar_fixed h4).2 x hx]
      exact hn
  rw [fails_bind fun r1 h1 => fails_bind fun r2 h2 => fails_bind fun r3 h3 => fails_bind
    (Q := (s.starType = .star ∧ (BadScalar? s.innerRadius ∨ BadScalar? s.innerRoundness)) ∨
      StarTooLarge s) fun r4 h4 => ?_]
  · simp only [fails_scalar]
  · cases hp : s.starType with
    | polygon =>
      simp only [hp] at hlarge
      simp only [reduceCtorEq, false_and, false_or]
      exact hlarge r1 r2 r3 r4 (.fixed (lit 0)) (.fixed (lit 0)) h1 h2 h3 h4
        ⟨(fun _ h => nomatch h), fun _ => ⟨rfl, rfl⟩⟩
    | star =>
      simp only [hp] at hlarge
      simp only [true_and]
      rw [or_assoc]
      show Fails (convScalarOr s.innerRadius (lit 0) >>= fun r5 =>
        convScalarOr s.innerRoundness (lit 0) >>= fun r6 => _) ↔ _
      rw [fails_bind fun r5 h5 => fails_bind fun r6 h6 =>
        hlarge r1 r2 r3 r4 r5 r6 h1 h2 h3 h4 ?_, fails_scalarOr, fails_scalarOr]
      rw [scalarOr_fixed h5, scalarOr_fixed h6]
      exact ⟨fun h _ => h, fun h => h trivial⟩

theorem fails_transformWith (v : Schema.Transform F) (r : Schema.FloatValue F) (p : Position F) :
    Fails (convTransformWith v r p) ↔
      BadScalar r ∨ BadScalar? v.skew ∨ BadScalar? v.skewAxis ∨ BadScalar? v.opacity := by
  unfold convTransformWith
  dsimp only
  rw [fails_bind fun _ _ => fails_bind fun _ _ => fails_bind fun _ _ => fails_bind_ok fun _ => by
    rw [fails_ok]; exact id, fails_scalar, fails_getD _ _ rfl, fails_getD _ _ rfl,
    fails_getD _ _ rfl]

theorem fails_transform (v : Schema.Transform F) :
    Fails (convTransform v) ↔ BadLayerTransform v := by
  unfold convTransform BadLayerTransform BadRest
  cases hr : v.rotation with
  | none => exact ⟨fun _ => .inl rfl, fun _ => ⟨_, rfl⟩⟩
  | some r =>
    cases r with
    | splitRotation x y z o =>
      exact ⟨fun _ => .inr (.inl ⟨x, y, z, o, rfl⟩), fun _ => ⟨_, rfl⟩⟩
    | rotation r =>
      show Fails (layerPosition v.position >>= fun position => convTransformWith v r position) ↔ _
      rw [fails_bind fun p _ => fails_transformWith v r p]
      have : Fails (layerPosition v.position) ↔
          ∃ w, v.position = .splitPosition w ∧ (BadScalar w.x ∨ BadScalar w.y) := by
        unfold layerPosition
        cases v.position with
        | position p => exact ⟨(fun ⟨_, h⟩ => nomatch h), fun ⟨_, h, _⟩ => nomatch h⟩
        | splitPosition w =>
          show Fails (convScalar w.x >>= fun x => _) ↔ _
          rw [fails_bind fun _ _ => fails_bind_ok fun _ => by rw [fails_ok]; exact id, fails_scalar,
            fails_scalar]
          exact ⟨fun h => ⟨w, rfl, h⟩, fun ⟨_, e, h⟩ => by cases e; exact h⟩
      rw [this]
      simp

theorem fails_shapeTransform (t : Schema.TransformShape F) :
    Fails (convShapeTransform t) ↔ BadGroupTransform t.transform := by
  unfold convShapeTransform BadGroupTransform BadRest
  have hp : Fails (groupPosition t.transform.position) ↔
      ∃ w, t.transform.position = .splitPosition w := by
    unfold groupPosition
    cases t.transform.position with
    | position p => exact ⟨(fun ⟨_, h⟩ => nomatch h), fun ⟨_, h⟩ => nomatch h⟩
    | splitPosition w => exact ⟨fun _ => ⟨w, rfl⟩, fun _ => ⟨_, rfl⟩⟩
  have hw : ∀ r, Fails (groupPosition t.transform.position >>= fun position =>
      convTransformWith t.transform r position >>= fun x => .ok (⟨x.1, x.2⟩ : GroupTransform F)) ↔
      (∃ w, t.transform.position = .splitPosition w) ∨
      BadScalar r ∨ BadScalar? t.transform.skew ∨ BadScalar? t.transform.skewAxis ∨
        BadScalar? t.transform.opacity := by
    intro r
    rw [fails_bind (Q := BadScalar r ∨ BadScalar? t.transform.skew ∨ BadScalar? t.transform.skewAxis ∨
        BadScalar? t.transform.opacity), hp]
    intro p _
    rw [fails_bind_ok fun _ => by rw [fails_ok]; exact id, fails_transformWith]
  cases hr : t.transform.rotation with
  | none =>
    refine (hw floatValueZero).trans ?_
    have : ¬ BadScalar (floatValueZero : Schema.FloatValue F) := by
      rintro ⟨ks, h, -⟩; cases h
    simp [this]
  | some r =>
    cases r with
    | splitRotation x y z o =>
      exact ⟨fun _ => .inl ⟨x, y, z, o, rfl⟩, fun _ => ⟨_, rfl⟩⟩
    | rotation r =>
      refine (hw r).trans ?_
      simp

/-! ### Shapes -/

omit [Kurbo F] [Libm F] in
theorem badShape_group {e n items i} : BadShape (.group e n items i : Schema.AnyShape F) ↔
    (∃ s ∈ items, BadShape s) ∨
      ∃ t, Schema.AnyShape.transform t ∈ items ∧ BadGroupTransform t.transform := by
  constructor
  · intro h
    cases h with
    | item hs h => exact .inl ⟨_, hs, h⟩
    | transform ht h => exact .inr ⟨_, ht, h⟩
  · rintro (⟨s, hs, h⟩ | ⟨t, ht, h⟩)
    · exact .item hs h
    · exact .transform ht h

omit [Kurbo F] [Libm F] in
theorem not_badShape_transform (t : Schema.TransformShape F) : ¬ BadShape (.transform t) :=
  fun h => nomatch h

mutual
theorem fails_shape (s : Schema.AnyShape F) : Fails (convShape s) ↔ BadShape s := by
  cases s with
  | ellipse s => unfold convShape; exact ⟨(fun ⟨_, h⟩ => nomatch h), fun h => nomatch h⟩
  | rectangle s =>
    unfold convShape
    show Fails ((convScalar s.roundedCornerRadius >>= fun r => _) >>= fun r => _) ↔ _
    rw [fails_bind_ok, fails_bind_ok fun _ => by rw [fails_ok]; exact id, fails_scalar]
    · exact ⟨.rectangle, fun h => by cases h; assumption⟩
    · intro g; cases g <;> exact fun ⟨_, h⟩ => nomatch h
  | path s =>
    unfold convShape
    show Fails (convShapeGeometry s.shapeProperty >>= fun r => _) ↔ _
    rw [fails_bind_ok, fails_shapeGeometry]
    · exact ⟨.path, fun h => by cases h; assumption⟩
    · intro g; cases g <;> exact fun ⟨_, h⟩ => nomatch h
  | polyStar s =>
    unfold convShape
    show Fails ((convPolystar s).map some >>= fun r => _) ↔ _
    rw [fails_bind_ok, fails_map, fails_polystar]
    · exact ⟨.polyStar, fun h => by cases h; assumption⟩
    · intro g; cases g <;> exact fun ⟨_, h⟩ => nomatch h
  | fill s =>
    unfold convShape
    rw [fails_bind_ok]
    · unfold convDraw
      dsimp only
      rw [fails_bind_ok fun _ => by rw [fails_ok]; exact id, fails_scalar]
      exact ⟨.fill, fun h => by cases h; assumption⟩
    · intro g; cases g <;> exact fun ⟨_, h⟩ => nomatch h
  | stroke s =>
    unfold convShape
    rw [fails_bind_ok]
    · unfold convDraw
      dsimp only
      rw [fails_bind fun _ _ => fails_bind_ok fun _ => by rw [fails_ok]; exact id, fails_scalar,
        fails_stroke]
      exact ⟨.stroke, fun h => by cases h; assumption⟩
    · intro g; cases g <;> exact fun ⟨_, h⟩ => nomatch h
  | gradientFill s =>
    unfold convShape
    rw [fails_bind_ok]
    · unfold convDraw
      dsimp only
      rw [fails_bind_ok fun _ => by rw [fails_ok]; exact id, fails_gradient]
      exact ⟨.gradientFill, fun h => by cases h; assumption⟩
    · intro g; cases g <;> exact fun ⟨_, h⟩ => nomatch h
  | gradientStroke s =>
    unfold convShape
    rw [fails_bind_ok]
    · unfold convDraw
      dsimp only
      rw [fails_bind fun _ _ => fails_bind_ok fun _ => by rw [fails_ok]; exact id, fails_gradient,
        fails_stroke]
      exact ⟨.gradientStroke, fun h => by cases h; assumption⟩
    · intro g; cases g <;> exact fun ⟨_, h⟩ => nomatch h
  | group e n items i =>
    unfold convShape
    show Fails (convGroupItems items none >>= fun r => _) ↔ _
    rw [fails_bind_ok, fails_groupItems, badShape_group]
    intro r
    obtain ⟨shapes, t⟩ := r
    cases shapes <;> exact fun ⟨_, h⟩ => nomatch h
  | trim s =>
    unfold convShape
    show Fails (convScalar s.start >>= fun r => _) ↔ _
    rw [fails_bind fun _ _ => fails_bind fun _ _ => fails_bind_ok fun _ => by
      rw [fails_ok]; exact id, fails_scalar, fails_scalar, fails_scalar]
    exact ⟨.trim, fun h => by cases h; assumption⟩
  | transform t => unfold convShape; exact ⟨(fun ⟨_, h⟩ => nomatch h), fun h => nomatch h⟩
  | repeater s => unfold convShape; exact ⟨(fun ⟨_, h⟩ => nomatch h), fun h => nomatch h⟩
  | puckerBloat s => unfold convShape; exact ⟨(fun ⟨_, h⟩ => nomatch h), fun h => nomatch h⟩
  | merge s => unfold convShape; exact ⟨(fun ⟨_, h⟩ => nomatch h), fun h => nomatch h⟩
  | offsetPath s => unfold convShape; exact ⟨(fun ⟨_, h⟩ => nomatch h), fun h => nomatch h⟩
  | twist s => unfold convShape; exact ⟨(fun ⟨_, h⟩ => nomatch h), fun h => nomatch h⟩
  | roundedCorners s => unfold convShape; exact ⟨(fun ⟨_, h⟩ => nomatch h), fun h => nomatch h⟩
termination_by sizeOf s

theorem fails_groupItems (items : List (Schema.AnyShape F)) (t : Option (GroupTransform F)) :
    Fails (convGroupItems items t) ↔ (∃ s ∈ items, BadShape s) ∨
      ∃ t, Schema.AnyShape.transform t ∈ items ∧ BadGroupTransform t.transform := by
  match items with
  | [] =>
    rw [convGroupItems, fails_ok]
    simp
  | s :: rest =>
    by_cases hs : ∃ tr, s = .transform tr
    · obtain ⟨tr, rfl⟩ := hs
      rw [convGroupItems, fails_bind fun _ _ => fails_groupItems rest _, fails_shapeTransform]
      constructor
      · rintro (h | ⟨s, hs, h⟩ | ⟨t, ht, h⟩)
        · exact .inr ⟨tr, List.mem_cons_self, h⟩
        · exact .inl ⟨s, List.mem_cons_of_mem _ hs, h⟩
        · exact .inr ⟨t, List.mem_cons_of_mem _ ht, h⟩
      · rintro (⟨s, hs, h⟩ | ⟨t, ht, h⟩)
        · rcases List.mem_cons.mp hs with rfl | hs
          · exact absurd h (not_badShape_transform tr)
          · exact .inr (.inl ⟨s, hs, h⟩)
        · rcases List.mem_cons.mp ht with e | ht
          · cases e; exact .inl h
          · exact .inr (.inr ⟨t, ht, h⟩)
    · rw [convGroupItems]
      · rw [fails_bind fun _ _ => fails_bind_ok fun _ => by rw [fails_ok]; exact id,
          fails_groupItems rest t, fails_shape s]
        simp only [List.mem_cons, exists_eq_or_imp, or_assoc]
        constructor
        · rintro (h | h | ⟨t, ht, h⟩)
          · exact .inl h
          · exact .inr (.inl h)
          · exact .inr (.inr ⟨t, .inr ht, h⟩)
        · rintro (h | h | ⟨t, e | ht, h⟩)
          · exact .inl h
          · exact .inr (.inl h)
          · exact absurd ⟨t, e.symm⟩ hs
          · exact .inr (.inr ⟨t, ht, h⟩)
      · exact fun tr e => hs ⟨tr, e⟩
termination_by sizeOf items
end

theorem fails_shapes (ss : List (Schema.AnyShape F)) :
    Fails (convShapes ss) ↔ ∃ s ∈ ss, BadShape s := by
  unfold convShapes
  rw [fails_bind_ok fun _ => by rw [fails_ok]; exact id, fails_mapM]
  simp only [fails_shape]

/-! ### Layers -/

omit [Kurbo F] [Libm F] in
theorem not_noPath {p : Schema.ShapeProperty F} {g : Geometry F} (h : PathOf p g) : ¬ NoPath p := by
  rintro ⟨ks, hv, i, k, hk, hn⟩
  unfold PathOf at h
  rw [hv] at h
  obtain ⟨s, -, -, -, he, -⟩ := h
  obtain ⟨t, v, -, -, hpe⟩ := he i k hk
  obtain ⟨b, hb, -⟩ := hpe.start
  exact hn ⟨b, hb⟩

omit [Kurbo F] [Libm F] in
theorem fails_mask (m : Schema.Mask F) : Fails (convMask m) ↔ BadMask m := by
  unfold convMask BadMask
  cases m.shape with
  | none => exact ⟨(fun ⟨_, h⟩ => nomatch h), fun ⟨_, h, _⟩ => nomatch h⟩
  | some p =>
    show Fails (convShapeGeometry p >>= fun r => _) ↔ _
    rw [fails_bind (Q := ¬ NoPath p ∧ BadScalar? m.opacity), fails_shapeGeometry]
    · exact ⟨fun h => ⟨p, rfl, h⟩, fun ⟨_, e, h⟩ => by cases e; exact h⟩
    · intro o ho
      rcases shapeGeometry_ok ho with ⟨g, rfl, hg⟩ | ⟨rfl, hn⟩
      · dsimp only
        rw [fails_bind_ok fun _ => by rw [fails_ok]; exact id, fails_getD _ _ rfl]
        exact ⟨fun h => ⟨not_noPath hg, h⟩, fun h => h.2⟩
      · exact ⟨(fun ⟨_, h⟩ => nomatch h), fun h => absurd hn h.1⟩

omit [FloatOps F] [Kurbo F] [Libm F] in
theorem fails_blend (b : Schema.BlendMode) :
    Fails (convBlendMode b) ↔ b = .add ∨ b = .hardMix := by
  cases b <;> simp [convBlendMode, fails_ok, fails_error]

theorem fails_setup (v : Schema.VisualLayer F) (w h st : F) :
    Fails (setupLayer v w h st) ↔ BadLayerTransform v.transform ∨
      (v.blendMode = some .add ∨ v.blendMode = some .hardMix) ∨
      ∃ m ∈ v.masksProperties.getD [], BadMask m := by
  unfold setupLayer
  rw [fails_bind fun _ _ => fails_bind fun _ _ => fails_bind_ok fun _ => by rw [fails_ok]; exact id,
    fails_transform, fails_blend]
  unfold convMasks
  rw [fails_bind_ok fun _ => by rw [fails_ok]; exact id, fails_mapM]
  simp only [fails_mask]
  cases v.blendMode with
  | none => simp
  | some b => simp

theorem fails_content (s : Schema.AnyLayer F) : Fails (layerContent s) ↔ BadContent s := by
  unfold layerContent BadContent
  cases s with
  | precomposition l =>
    dsimp only
    rw [fails_map]
    unfold convRemap BadScalar?
    cases l.timeRemap with
    | none => exact ⟨(fun ⟨_, h⟩ => nomatch h), fun ⟨_, h, _⟩ => nomatch h⟩
    | some p =>
      dsimp only
      rw [fails_map, fails_scalar]
      exact ⟨fun h => ⟨p, rfl, h⟩, fun ⟨_, e, h⟩ => by cases e; exact h⟩
  | shape l => dsimp only; rw [fails_map, fails_shapes]
  | solid l => exact fails_ok _
  | null l => exact fails_ok _
  | image l => exact fails_ok _

theorem fails_layer (s : Schema.AnyLayer F) : Fails (convLayer s) ↔ BadLayer s := by
  unfold convLayer BadLayer
  have hsetup : Fails (layerSetup s) ↔ BadLayerTransform s.visual.transform ∨
      (s.visual.blendMode = some .add ∨ s.visual.blendMode = some .hardMix) ∨
      ∃ m ∈ s.visual.masksProperties.getD [], BadMask m := by
    unfold layerSetup
    cases s <;> exact fails_setup _ _ _ _
  rw [fails_bind (Q := ¬ s.Hidden ∧ BadContent s), hsetup]
  · simp only [or_assoc]
  · rintro ⟨l, p⟩ -
    dsimp only
    by_cases hh : isLayerHidden s = true
    · rw [if_pos hh, fails_ok]
      exact ⟨False.elim, fun h => h.1 ((hidden_iff s).mp hh)⟩
    · rw [if_neg hh, fails_bind_ok fun _ => by rw [fails_ok]; exact id, fails_content]
      exact ⟨fun h => ⟨fun h' => hh ((hidden_iff s).mpr h'), h⟩, fun h => h.2⟩

theorem fails_process (ls : List (Schema.AnyLayer F)) :
    Fails (processLayers ls) ↔ ∃ l ∈ ls, BadLayer l := by
  unfold processLayers
  rw [fails_bind_ok fun _ => by rw [fails_ok]; exact id, fails_mapM]
  simp only [fails_layer]

theorem fails_asset (a : Schema.AnyAsset F) : Fails (convAsset a) ↔ BadAsset a := by
  cases a with
  | precomposition p =>
    show Fails (processLayers p.layers >>= fun r => _) ↔ _
    rw [fails_bind_ok fun _ => by rw [fails_ok]; exact id, fails_process]
    rfl
  | image i => exact fails_error _

theorem fails_animation (a : Schema.Animation F) : Fails (convAnimation a) ↔ Unsupported a := by
  unfold convAnimation Unsupported
  rw [fails_bind fun _ _ => fails_bind_ok fun _ => by rw [fails_ok]; exact id, fails_mapM,
    fails_process]
  simp only [fails_asset]

end
end Velato
