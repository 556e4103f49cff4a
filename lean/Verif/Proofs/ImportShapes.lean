import Verif.Proofs.ImportValues
import Verif.Props.ImportValues
import Verif.Spec.ImportShapes

/-!
# Import of shapes: helper lemmas
-/

namespace Velato
open FloatOps (lit)
open Import

section
variable {F : Type}

theorem scalarOf_of_ok {p : Schema.FloatValue F} {v : Value F F} (h : convScalar p = .ok v) :
    ScalarOf p v := C51_scalars h

theorem scalarOr_of_ok {p : Option (Schema.FloatValue F)} {d : F} {v : Value F F}
    (h : convScalarOr p d = .ok v) : ScalarOr p d v := by
  cases p with
  | none => exact (Except.ok.inj h).symm
  | some p => exact C51_scalars h

theorem startBezier_none {prev : Option (Schema.ShapeKeyframe F)} {k : Schema.ShapeKeyframe F}
    (h : startBezier prev k = .ok none) : ¬ ∃ b, StartOf prev k b := by
  rintro ⟨b, hb⟩
  unfold StartOf at hb
  unfold startBezier at h
  cases hk : k.start with
  | some bs =>
    rw [hk] at h hb
    dsimp only at hb
    rw [show bs.head? = none from Except.ok.inj h] at hb
    cases hb
  | none =>
    rw [hk] at h hb
    obtain ⟨p, rfl, hb⟩ := hb
    dsimp only at h
    split at h
    · cases h
    · rename_i hne
      rcases hb with hb | ⟨-, hb⟩
      · cases hs : p.stop with
        | none => rw [hs] at hb; cases hb
        | some l =>
          cases l with
          | nil => rw [hs] at hb; cases hb
          | cons e es => exact hne e es hs
      · split at h
        · rename_i hn; rw [hn] at hb; cases hb
        · rename_i bs hbs
          rw [hbs] at hb
          dsimp only [Option.bind_some] at hb
          rw [show bs.head? = none from Except.ok.inj h] at hb
          cases hb

variable [FloatOps F]

theorem splineLoop_none {prev : Option (Schema.ShapeKeyframe F)} {ks : List (Schema.ShapeKeyframe F)}
    (h : splineLoop prev ks = .ok none) :
    ∃ (i : Nat) (k : Schema.ShapeKeyframe F), ks[i]? = some k ∧
      ¬ ∃ b, StartOf (prevOf prev ks i) k b := by
  induction ks generalizing prev with
  | nil => unfold splineLoop at h; cases Except.ok.inj h
  | cons k ks ih =>
    unfold splineLoop at h
    obtain ⟨t, ht, h⟩ := bind_ok h
    obtain ⟨sb, hsb, h⟩ := bind_ok h
    cases sb with
    | none => exact ⟨0, k, rfl, startBezier_none hsb⟩
    | some b =>
      dsimp only at h
      obtain ⟨r, hr, h⟩ := bind_ok h
      cases r with
      | none =>
        obtain ⟨i, k', hk', hs⟩ := ih hr
        exact ⟨i + 1, k', hk', by rw [prevOf_succ]; exact hs⟩
      | some r => cases Except.ok.inj h

theorem shapeGeometry_ok {p : Schema.ShapeProperty F} {o : Option (Geometry F)}
    (h : convShapeGeometry p = .ok o) :
    (∃ g, o = some g ∧ PathOf p g) ∨ (o = none ∧ NoPath p) := by
  cases hv : p.value with
  | static b =>
    unfold convShapeGeometry at h
    rw [hv] at h
    refine .inl ⟨_, (Except.ok.inj h).symm, ?_⟩
    unfold PathOf
    rw [hv]
    exact ⟨_, (convSpline_spec b).1, by rw [(convSpline_spec b).2]⟩
  | animated ks =>
    cases o with
    | some g =>
      refine .inl ⟨g, rfl, ?_⟩
      unfold PathOf
      rw [hv]
      exact C51_paths hv h
    | none =>
      refine .inr ⟨rfl, ks, hv, ?_⟩
      unfold convShapeGeometry at h
      rw [hv] at h
      obtain ⟨r, hr, h⟩ := bind_ok h
      cases r with
      | some r => cases Except.ok.inj h
      | none =>
        obtain ⟨i, k, hk, hs⟩ := splineLoop_none hr
        rw [prevOf_none] at hs
        exact ⟨i, k, hk, hs⟩

omit [FloatOps F] in
theorem stroke_ok {s : Schema.BaseStroke F} {dj : Schema.LineJoin} {dc : Schema.LineCap}
    {k : AnimStroke F} (h : convStroke s dj dc = .ok k) : StrokeOf s dj dc k := by
  obtain ⟨w, hw, h⟩ := bind_ok h
  cases Except.ok.inj h
  refine ⟨C51_scalars hw, rfl, ?_, ?_⟩
  · cases s.lineJoin.getD dj <;> rfl
  · cases s.lineCap.getD dc <;> rfl

variable [Kurbo F]

theorem stops_ok {g : Schema.GradientColors F} {s : ColorStops F}
    (h : convGradientColors g = .ok s) : StopsOf g s := by
  unfold StopsOf
  cases hv : g.colors.animatedProperty.value with
  | static xs =>
    unfold convGradientColors at h
    rw [hv] at h
    exact (Except.ok.inj h).symm
  | animatedValue ks => exact C51_gradients h hv

theorem gradient_ok {g : Schema.BaseGradient F} {a : AnimGradient F}
    (h : convGradient g = .ok a) : GradientOf g a := by
  obtain ⟨s, hs, h⟩ := bind_ok h
  cases Except.ok.inj h
  exact ⟨by simp, C51_vectors _, C51_vectors _, stops_ok hs⟩

variable [Libm F]

theorem polystar_ok {s : Schema.PolyStarShape F} {g : Geometry F} (h : convPolystar s = .ok g) :
    ∃ a, StarOf s a ∧ a.intoModel = .ok g := by
  obtain ⟨r1, h1, h⟩ := bind_ok h
  obtain ⟨r2, h2, h⟩ := bind_ok h
  obtain ⟨r3, h3, h⟩ := bind_ok h
  obtain ⟨r4, h4, h⟩ := bind_ok h
  cases hp : s.starType with
  | polygon =>
    simp only [hp, beq_self_eq_true, if_true] at h
    exact ⟨_, ⟨by simp [hp], rfl, C51_positions _, C51_scalars h1, C51_scalars h2, C51_scalars h3,
      C51_scalars h4, by rw [hp]; exact ⟨rfl, rfl⟩⟩, h⟩
  | star =>
    rw [hp] at h
    obtain ⟨r5, h5, h⟩ := bind_ok h
    obtain ⟨r6, h6, h⟩ := bind_ok h
    exact ⟨_, ⟨by rw [hp]; exact ⟨(fun h => nomatch h), (fun h => nomatch h)⟩, rfl, C51_positions _,
      C51_scalars h1, C51_scalars h2, C51_scalars h3, C51_scalars h4,
      by rw [hp]; exact ⟨scalarOr_of_ok h5, scalarOr_of_ok h6⟩⟩, h⟩

omit [FloatOps F] [Libm F] [Kurbo F] in
theorem scalarOr_getD {p : Option (Schema.FloatValue F)} {d : F} {v : Value F F}
    {q : Schema.FloatValue F} (hq : q.value = .static d) (h : convScalar (p.getD q) = .ok v) :
    ScalarOr p d v := by
  cases p with
  | some p => exact C51_scalars h
  | none =>
    have := C51_scalars h
    simp only [Option.getD_none, hq] at this
    exact this

theorem groupTransform_ok {s : Schema.TransformShape F} {t : GroupTransform F}
    (h : convShapeTransform s = .ok t) : GroupTransformOf s t := by
  obtain ⟨r, hr, h⟩ := bind_ok h
  obtain ⟨p, hp, h⟩ := bind_ok h
  obtain ⟨tro, hto, h⟩ := bind_ok h
  cases Except.ok.inj h
  obtain ⟨rot, h1, hto⟩ := bind_ok hto
  obtain ⟨sk, h2, hto⟩ := bind_ok hto
  obtain ⟨sa, h3, hto⟩ := bind_ok hto
  obtain ⟨op, h4, hto⟩ := bind_ok hto
  cases Except.ok.inj hto
  refine ⟨scalarOr_getD rfl h4, ?_⟩
  cases hpos : s.transform.position with
  | splitPosition q => rw [hpos] at hp; cases hp
  | position q =>
    rw [hpos] at hp
    refine ⟨_, q, rfl, rfl, ⟨_, (Except.ok.inj hp).symm, C51_positions q⟩, ?_, ?_, ?_,
      scalarOr_getD rfl h2, scalarOr_getD rfl h3⟩
    · cases s.transform.anchorPoint with
      | none => rfl
      | some q => exact C51_positions q
    · cases hrot : s.transform.rotation with
      | none =>
        rw [hrot] at hr
        cases Except.ok.inj hr
        exact (Except.ok.inj h1).symm
      | some x =>
        rw [hrot] at hr
        cases x with
        | rotation x =>
          cases Except.ok.inj hr
          exact C51_scalars h1
        | splitRotation => cases hr
    · cases s.transform.scale with
      | none => rfl
      | some q => exact C51_vectors q

/-- The transform of a group is that of its last transform element, or the given one. -/
def ItemsTransform (items : List (Schema.AnyShape F)) (t t' : Option (GroupTransform F)) : Prop :=
  (LastTransform items none ∧ t' = t) ∨
  ∃ tr gt, LastTransform items (some tr) ∧ t' = some gt ∧ GroupTransformOf tr gt

omit [FloatOps F] [Kurbo F] [Libm F] in
theorem LastTransform.cons_some {s : Schema.AnyShape F} {items : List (Schema.AnyShape F)}
    {t : Schema.TransformShape F} (h : LastTransform items (some t)) :
    LastTransform (s :: items) (some t) := by
  obtain ⟨l, r, rfl, hr⟩ := h
  exact ⟨s :: l, r, rfl, hr⟩

theorem ItemsTransform.cons {s : Schema.AnyShape F} {items : List (Schema.AnyShape F)}
    {t t' : Option (GroupTransform F)} (h : ItemsTransform items t t')
    (hs : ∀ tr, s ≠ .transform tr) : ItemsTransform (s :: items) t t' := by
  rcases h with ⟨h, e⟩ | ⟨tr, gt, h, e, hg⟩
  · left
    refine ⟨fun tr hm => ?_, e⟩
    rcases List.mem_cons.mp hm with hm | hm
    · exact hs tr hm.symm
    · exact h tr hm
  · exact .inr ⟨tr, gt, h.cons_some, e, hg⟩

theorem ItemsTransform.cons_transform {tr : Schema.TransformShape F}
    {items : List (Schema.AnyShape F)} {gt : GroupTransform F} {t t' : Option (GroupTransform F)}
    (h : ItemsTransform items (some gt) t') (hg : GroupTransformOf tr gt) :
    ItemsTransform (.transform tr :: items) t t' := by
  rcases h with ⟨h, e⟩ | ⟨tr', gt', h, e, hg'⟩
  · exact .inr ⟨tr, gt, ⟨[], items, rfl, h⟩, e, hg⟩
  · exact .inr ⟨tr', gt', h.cons_some, e, hg'⟩

theorem KeepsItems.cons {s : Schema.AnyShape F} {ss : List (Schema.AnyShape F)}
    {o : Option (Shape F)} {out : List (Shape F)} (h : KeepsShape s o) (hs : KeepsItems ss out) :
    KeepsItems (s :: ss) (o.toList ++ out) := by
  cases o with
  | none => exact .drop h hs
  | some x => exact .keep h hs

end
end Velato
