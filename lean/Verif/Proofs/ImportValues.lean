import Verif.Proofs.Import
import Verif.Spec.Keyframes

/-!
# Import of values: helper lemmas
-/

namespace Velato
open FloatOps (lit)

section
variable {F : Type} [FloatOps F]

theorem toP2_spec (xs : List F) : PointOf xs (Import.toP2 xs) := by
  unfold Import.toP2
  split
  · exact .inl ⟨_, _, _, rfl, rfl⟩
  · rename_i h
    refine .inr ⟨?_, rfl⟩
    match xs, h with
    | [], _ => simp
    | [x], _ => simp
    | x :: y :: r, h => exact absurd rfl (h x y r)

theorem toColor_spec (xs : List F) : ColorOf xs (Import.toColor xs) := by
  unfold Import.toColor
  split
  · exact .inl ⟨_, _, _, _, rfl, rfl⟩
  · rename_i h
    refine .inr ⟨?_, rfl⟩
    match xs, h with
    | [], _ => simp
    | [x], _ => simp
    | [x, y], _ => simp
    | x :: y :: z :: r, h => exact absurd rfl (h x y z r)

omit [FloatOps F] in
theorem isHold_iff (k : Schema.KeyframeBase F) : Import.isHold k = true ↔ k.hold = some .true := by
  unfold Import.isHold
  split
  · rename_i h; rw [h]; simp
  · rename_i h; exact ⟨(fun h => nomatch h), fun h' => absurd h' h⟩

omit [FloatOps F] in
/-- The handles of a keyframe are those for coordinates 0 and 1. -/
theorem collectTangents_axis (h : Option (Schema.KeyframeBezierHandle F)) :
    (Import.collectTangents h = [] ∧ ¬ ∃ e, HandleAxis 0 h e) ∨
    (∃ e, Import.collectTangents h = [e] ∧ HandleAxis 0 h e ∧ ¬ TwoAxes h) ∨
    (∃ e e', Import.collectTangents h = [e, e'] ∧ HandleAxis 0 h e ∧ HandleAxis 1 h e' ∧
      TwoAxes h) := by
  match h with
  | none => exact .inl ⟨rfl, fun ⟨e, h', he, _⟩ => nomatch he⟩
  | some ⟨.singleValue x, .singleValue y⟩ =>
    exact .inr (.inl ⟨_, rfl, ⟨_, rfl, rfl, rfl⟩, fun h => h.2 x y rfl⟩)
  | some ⟨.singleValue x, .arrayOfValues []⟩ =>
    refine .inl ⟨rfl, fun ⟨e, h', he, _, h2⟩ => ?_⟩
    cases he; cases h2
  | some ⟨.singleValue x, .arrayOfValues [y]⟩ =>
    refine .inr (.inl ⟨_, rfl, ⟨_, rfl, rfl, rfl⟩, fun ⟨⟨e, h', he, _, h2⟩, _⟩ => ?_⟩)
    cases he; cases h2
  | some ⟨.singleValue x, .arrayOfValues (y :: y' :: ys)⟩ =>
    exact .inr (.inr ⟨⟨x, y⟩, ⟨x, y'⟩, rfl, ⟨_, rfl, rfl, rfl⟩, ⟨_, rfl, rfl, rfl⟩,
      ⟨⟨x, y'⟩, _, rfl, rfl, rfl⟩, fun _ _ h => nomatch h⟩)
  | some ⟨.arrayOfValues [], y⟩ =>
    refine .inl ⟨?_, fun ⟨e, h', he, h1, _⟩ => ?_⟩
    · cases y <;> rfl
    · cases he; cases h1
  | some ⟨.arrayOfValues [x], .singleValue y⟩ =>
    refine .inr (.inl ⟨_, rfl, ⟨_, rfl, rfl, rfl⟩, fun ⟨⟨e, h', he, h1, _⟩, _⟩ => ?_⟩)
    cases he; cases h1
  | some ⟨.arrayOfValues (x :: x' :: xs), .singleValue y⟩ =>
    exact .inr (.inr ⟨⟨x, y⟩, ⟨x', y⟩, rfl, ⟨_, rfl, rfl, rfl⟩, ⟨_, rfl, rfl, rfl⟩,
      ⟨⟨x', y⟩, _, rfl, rfl, rfl⟩, fun _ _ h => nomatch h⟩)
  | some ⟨.arrayOfValues (x :: xs), .arrayOfValues []⟩ =>
    refine .inl ⟨by cases xs <;> rfl, fun ⟨e, h', he, _, h2⟩ => ?_⟩
    cases he; cases h2
  | some ⟨.arrayOfValues [x], .arrayOfValues (y :: ys)⟩ =>
    refine .inr (.inl ⟨⟨x, y⟩, by cases ys <;> rfl, ⟨_, rfl, rfl, rfl⟩,
      fun ⟨⟨e, h', he, h1, _⟩, _⟩ => ?_⟩)
    cases he; cases h1
  | some ⟨.arrayOfValues (x :: x' :: xs), .arrayOfValues [y]⟩ =>
    refine .inr (.inl ⟨⟨x, y⟩, rfl, ⟨_, rfl, rfl, rfl⟩, fun ⟨⟨e, h', he, _, h2⟩, _⟩ => ?_⟩)
    cases he; cases h2
  | some ⟨.arrayOfValues (x :: x' :: xs), .arrayOfValues (y :: y' :: ys)⟩ =>
    exact .inr (.inr ⟨⟨x, y⟩, ⟨x', y'⟩, rfl, ⟨_, rfl, rfl, rfl⟩, ⟨_, rfl, rfl, rfl⟩,
      ⟨⟨x', y'⟩, _, rfl, rfl, rfl⟩, fun _ _ h => nomatch h⟩)

omit [FloatOps F] in
/-- The entries of a keyframe. -/
theorem keyframeTimes_cases (k : Schema.KeyframeBase F) :
    (∃ t, Import.keyframeTimes k = [t] ∧ PlainTimeOf k t) ∨
    (∃ t, Import.keyframeTimes k = [t] ∧ AxisTimeOf 0 k t ∧
      ¬ (TwoAxes k.inTangent ∧ TwoAxes k.outTangent)) ∨
    (∃ t t', Import.keyframeTimes k = [t, t'] ∧ AxisTimeOf 0 k t ∧ AxisTimeOf 1 k t' ∧
      (TwoAxes k.inTangent ∧ TwoAxes k.outTangent)) := by
  have hh := isHold_iff k
  unfold Import.keyframeTimes
  dsimp only
  rcases collectTangents_axis k.inTangent with ⟨hi, ni⟩ | ⟨i, hi, ai, ni⟩ | ⟨i, i', hi, ai, ai', ni⟩
  · rw [hi]
    exact .inl ⟨_, rfl, ⟨rfl, hh⟩, rfl, rfl, fun h => ni h.1⟩
  all_goals
    rcases collectTangents_axis k.outTangent with
      ⟨ho, no⟩ | ⟨o, ho, ao, no⟩ | ⟨o, o', ho, ao, ao', no⟩
    · rw [hi, ho]
      exact .inl ⟨_, rfl, ⟨rfl, hh⟩, rfl, rfl, fun h => no h.2⟩
    all_goals
      rw [hi, ho]
      first
      | exact .inr (.inr ⟨_, _, rfl, ⟨⟨rfl, hh⟩, _, _, ai, ao, rfl, rfl⟩,
          ⟨⟨rfl, hh⟩, _, _, ai', ao', rfl, rfl⟩, ni, no⟩)
      | exact .inr (.inl ⟨_, rfl, ⟨⟨rfl, hh⟩, _, _, ai, ao, rfl, rfl⟩, fun h => ni h.1⟩)
      | exact .inr (.inl ⟨_, rfl, ⟨⟨rfl, hh⟩, _, _, ai, ao, rfl, rfl⟩, fun h => no h.2⟩)

omit [FloatOps F] in
theorem convKeyframes_spec {T : Type} (ks : List (Schema.Keyframe F)) (f : List F → T) :
    ∃ ts vs, Import.convKeyframes ks f = .animated ⟨ts, vs⟩ ∧
      FromKeyframes (·.base) (fun k v => v = f k.value) ks ts vs := by
  refine ⟨_, _, rfl, ?_⟩
  induction ks with
  | nil => exact .nil
  | cons k ks ih =>
    rw [List.flatMap_cons, List.flatMap_cons]
    rcases keyframeTimes_cases k.base with ⟨t, h, ht⟩ | ⟨t, h, ht, hn⟩ | ⟨t, t', h, ht, ht', hn⟩
    · rw [h]; exact .plain ht rfl ih
    · rw [h]; exact .once ht hn rfl ih
    · rw [h]; exact .twice ht ht' hn rfl rfl ih

omit [FloatOps F] in
theorem FromKeyframes.imp {K V : Type} {base : K → Schema.KeyframeBase F} {R S : K → V → Prop}
    (h : ∀ k v, R k v → S k v) {ks : List K} {ts : List (Time F)} {vs : List V}
    (hr : FromKeyframes base R ks ts vs) : FromKeyframes base S ks ts vs := by
  induction hr with
  | nil => exact .nil
  | plain h1 hv _ ih => exact .plain h1 (h _ _ hv) ih
  | once h1 h2 hv _ ih => exact .once h1 h2 (h _ _ hv) ih
  | twice h1 h2 h3 hv hv' _ ih => exact .twice h1 h2 h3 (h _ _ hv) (h _ _ hv') ih

omit [FloatOps F] in
theorem FromKeyframes.of_map {K L V : Type} {base : K → Schema.KeyframeBase F} {R : K → V → Prop}
    {g : L → K} {ls : List L} {ts : List (Time F)} {vs : List V}
    (hr : FromKeyframes base R (ls.map g) ts vs) :
    FromKeyframes (fun l => base (g l)) (fun l v => R (g l) v) ls ts vs := by
  generalize hm : ls.map g = ms at hr
  induction hr generalizing ls with
  | nil =>
    cases ls with
    | nil => exact .nil
    | cons k ls => cases hm
  | plain h1 hv _ ih =>
    cases ls with
    | nil => cases hm
    | cons k ls => cases hm; exact .plain h1 hv (ih rfl)
  | once h1 h2 hv _ ih =>
    cases ls with
    | nil => cases hm
    | cons k ls => cases hm; exact .once h1 h2 hv (ih rfl)
  | twice h1 h2 h3 hv hv' _ ih =>
    cases ls with
    | nil => cases hm
    | cons k ls => cases hm; exact .twice h1 h2 h3 hv hv' (ih rfl)

omit [FloatOps F] in
theorem FromKeyframes.mem {K V : Type} {base : K → Schema.KeyframeBase F} {R : K → V → Prop}
    {ks : List K} {ts : List (Time F)} {vs : List V} (h : FromKeyframes base R ks ts vs) :
    ∀ t ∈ ts, ∃ k ∈ ks, t.frame = (base k).time := by
  induction h with
  | nil => intro t ht; cases ht
  | plain h1 hv _ ih | once h1 _ hv _ ih =>
    intro t ht
    rcases List.mem_cons.mp ht with rfl | ht
    · exact ⟨_, by simp, h1.1.1⟩
    · obtain ⟨k, hk, e⟩ := ih t ht; exact ⟨k, by simp [hk], e⟩
  | twice h1 h2 _ _ _ _ ih =>
    intro t ht
    rcases List.mem_cons.mp ht with rfl | ht
    · exact ⟨_, by simp, h1.1.1⟩
    rcases List.mem_cons.mp ht with rfl | ht
    · exact ⟨_, by simp, h2.1.1⟩
    · obtain ⟨k, hk, e⟩ := ih t ht; exact ⟨k, by simp [hk], e⟩

omit [FloatOps F] in
theorem convComponent_ok {c : Schema.KeyframeComponent F} {x : F}
    (h : Import.convComponent c = .ok x) : ComponentOf c x := by
  unfold Import.convComponent at h
  split at h
  · cases Except.ok.inj h; exact .inr rfl
  · cases h
  · cases Except.ok.inj h; exact .inl rfl

omit [FloatOps F] in
theorem convHandle?_ok {h : Option (Schema.KeyframeBezierHandle F)} {e : Option (EasingHandle F)}
    (hh : Import.convHandle? h = .ok e) : HandleOf h e := by
  cases h with
  | none => cases Except.ok.inj hh; trivial
  | some h =>
    obtain ⟨e', he', rfl⟩ := map_ok hh
    obtain ⟨x, hx, he'⟩ := bind_ok he'
    obtain ⟨y, hy, he'⟩ := bind_ok he'
    cases Except.ok.inj he'
    exact ⟨convComponent_ok hx, convComponent_ok hy⟩

omit [FloatOps F] in
theorem convTime_ok {b : Schema.KeyframeBase F} {t : Time F} (h : Import.convTime b = .ok t) :
    EasedTimeOf b t := by
  obtain ⟨i, hi, h⟩ := bind_ok h
  obtain ⟨o, ho, h⟩ := bind_ok h
  cases Except.ok.inj h
  exact ⟨⟨rfl, isHold_iff b⟩, convHandle?_ok hi, convHandle?_ok ho⟩

theorem getElem?_splinePoints (vs is os : List (F × F)) :
    (Import.splinePoints vs is os).length = 3 * vs.length ∧ ∀ (i : Nat) v, vs[i]? = some v →
      (Import.splinePoints vs is os)[3 * i]? = some ⟨v.1, v.2⟩ ∧
      (∀ t, t = is[i]?.getD (lit 0, lit 0) →
        (Import.splinePoints vs is os)[3 * i + 1]? = some ⟨t.1, t.2⟩) ∧
      (∀ t, t = os[i]?.getD (lit 0, lit 0) →
        (Import.splinePoints vs is os)[3 * i + 2]? = some ⟨t.1, t.2⟩) := by
  induction vs generalizing is os with
  | nil => exact ⟨rfl, fun i v h => nomatch h⟩
  | cons w vs ih =>
    obtain ⟨hlen, hget⟩ := ih is.tail os.tail
    refine ⟨by simp [Import.splinePoints, hlen]; omega, fun i v hv => ?_⟩
    cases i with
    | zero =>
      cases hv
      refine ⟨rfl, ?_, ?_⟩
      · rintro t rfl; cases is <;> rfl
      · rintro t rfl; cases os <;> rfl
    | succ i =>
      obtain ⟨h1, h2, h3⟩ := hget i v hv
      refine ⟨h1, fun t ht => h2 t ?_, fun t ht => h3 t ?_⟩
      · rw [ht]; cases is <;> rfl
      · rw [ht]; cases os <;> rfl

theorem convSpline_spec (b : Schema.Bezier F) :
    PathPointsOf b (Import.convSpline b).1 ∧ (Import.convSpline b).2 = (b.closed == some true) := by
  refine ⟨getElem?_splinePoints _ _ _, ?_⟩
  unfold Import.convSpline
  cases b.closed with
  | none => rfl
  | some c => cases c <;> rfl

omit [FloatOps F] in
theorem startBezier_ok {prev : Option (Schema.ShapeKeyframe F)} {k : Schema.ShapeKeyframe F}
    {b : Schema.Bezier F} (h : Import.startBezier prev k = .ok (some b)) : StartOf prev k b := by
  unfold Import.startBezier at h
  unfold StartOf
  cases hk : k.start with
  | some bs => rw [hk] at h; exact Except.ok.inj h
  | none =>
    rw [hk] at h
    cases prev with
    | none => cases h
    | some p =>
      refine ⟨p, rfl, ?_⟩
      dsimp only at h
      split at h
      · rename_i e es he
        cases Except.ok.inj h
        left; rw [he]; rfl
      · rename_i hne
        right
        constructor
        · cases hs : p.stop with
          | none => rfl
          | some l =>
            cases l with
            | nil => rfl
            | cons e es => exact absurd hs (hne e es)
        · split at h
          · cases h
          · rename_i bs hb
            rw [hb]; exact Except.ok.inj h

/-- The keyframe before position `i`, if `prev` comes before the first. -/
def prevOf (prev : Option (Schema.ShapeKeyframe F)) (ks : List (Schema.ShapeKeyframe F)) :
    Nat → Option (Schema.ShapeKeyframe F)
  | 0 => prev
  | i + 1 => ks[i]?

omit [FloatOps F] in
theorem prevOf_succ (prev : Option (Schema.ShapeKeyframe F)) (k : Schema.ShapeKeyframe F)
    (ks : List (Schema.ShapeKeyframe F)) (i : Nat) :
    prevOf prev (k :: ks) (i + 1) = prevOf (some k) ks i := by
  cases i <;> rfl

omit [FloatOps F] in
theorem prevOf_none (ks : List (Schema.ShapeKeyframe F)) (i : Nat) :
    prevOf none ks i = prevKeyframe ks i := by
  cases i <;> rfl

omit [FloatOps F] in
theorem StartOf.unique {prev : Option (Schema.ShapeKeyframe F)} {k : Schema.ShapeKeyframe F}
    {b b' : Schema.Bezier F} (h : StartOf prev k b) (h' : StartOf prev k b') : b = b' := by
  unfold StartOf at h h'
  cases hs : k.start with
  | some bs => rw [hs] at h h'; dsimp only at h h'; rw [h] at h'; exact Option.some.inj h'
  | none =>
    rw [hs] at h h'
    dsimp only at h h'
    obtain ⟨p, hp, h⟩ := h
    obtain ⟨p', hp', h'⟩ := h'
    rw [hp] at hp'
    cases hp'
    rcases h with h | ⟨h1, h2⟩ <;> rcases h' with h' | ⟨h1', h2'⟩
    · rw [h] at h'; exact Option.some.inj h'
    · rw [h] at h1'; cases h1'
    · rw [h'] at h1; cases h1
    · rw [h2] at h2'; exact Option.some.inj h2'

theorem splineLoop_ok {prev : Option (Schema.ShapeKeyframe F)} {ks : List (Schema.ShapeKeyframe F)}
    {ts : List (Time F)} {vs : List (SplineValues F)} {c : Bool}
    (h : Import.splineLoop prev ks = .ok (some (ts, vs, c))) :
    ts.length = ks.length ∧ vs.length = ks.length ∧
    (∀ (i : Nat) k, ks[i]? = some k → ∃ t v, ts[i]? = some t ∧ vs[i]? = some v ∧
      PathEntry (prevOf prev ks i) k t v) ∧
    (c = true ↔ ∃ (i : Nat) (k : Schema.ShapeKeyframe F) (b : Schema.Bezier F), ks[i]? = some k ∧
      (StartOf (prevOf prev ks i) k b ∨ k.stop.bind List.head? = some b) ∧
      b.closed = some true) := by
  induction ks generalizing prev ts vs c with
  | nil =>
    unfold Import.splineLoop at h
    have h := Option.some.inj (Except.ok.inj h)
    rw [Prod.mk.injEq, Prod.mk.injEq] at h
    obtain ⟨rfl, rfl, rfl⟩ := h
    refine ⟨rfl, rfl, (fun i k hk => nomatch hk), (fun h => nomatch h), ?_⟩
    rintro ⟨i, k, b, hk, -⟩
    cases hk
  | cons k ks ih =>
    unfold Import.splineLoop at h
    obtain ⟨t, ht, h⟩ := bind_ok h
    obtain ⟨sb, hsb, h⟩ := bind_ok h
    cases sb with
    | none => cases h
    | some b =>
      dsimp only at h
      obtain ⟨r, hr, h⟩ := bind_ok h
      cases r with
      | none => cases h
      | some r =>
        obtain ⟨ts', vs', c'⟩ := r
        dsimp only at h
        replace h := Option.some.inj (Except.ok.inj h)
        rw [Prod.mk.injEq, Prod.mk.injEq] at h
        obtain ⟨rfl, rfl, rfl⟩ := h
        obtain ⟨h1, h2, h3, h4⟩ := ih hr
        have hb := startBezier_ok hsb
        have hc : ∀ b : Schema.Bezier F, (Import.convSpline b).2 = true ↔ b.closed = some true := by
          intro b; rw [(convSpline_spec b).2]; simp
        refine ⟨by simp [h1], by simp [h2], fun i k' hk' => ?_, ?_⟩
        · cases i with
          | zero =>
            cases hk'
            refine ⟨_, _, rfl, rfl, convTime_ok ht, ⟨b, hb, (convSpline_spec b).1⟩, ?_⟩
            cases hks : k.stop with
            | none => trivial
            | some l =>
              cases l with
              | nil => trivial
              | cons e es => exact (convSpline_spec e).1
          | succ i =>
            rw [prevOf_succ]
            exact h3 i k' hk'
        · rw [Bool.or_eq_true, Bool.or_eq_true, hc b, h4]
          constructor
          · rintro ((h | h) | ⟨i, k', b', hk', hs, h⟩)
            · exact ⟨0, k, b, rfl, .inl hb, h⟩
            · cases hks : k.stop with
              | none => rw [hks] at h; cases h
              | some l =>
                cases l with
                | nil => rw [hks] at h; cases h
                | cons e es =>
                  rw [hks] at h
                  exact ⟨0, k, e, rfl, .inr (by rw [hks]; rfl), (hc e).mp h⟩
            · exact ⟨i + 1, k', b', hk', by rw [prevOf_succ]; exact hs, h⟩
          · rintro ⟨i, k', b', hk', hs, h⟩
            cases i with
            | zero =>
              cases hk'
              rcases hs with hs | hs
              · rw [StartOf.unique hb hs]; exact .inl (.inl h)
              · left; right
                cases hks : k.stop with
                | none => rw [hks] at hs; cases hs
                | some l =>
                  cases l with
                  | nil => rw [hks] at hs; cases hs
                  | cons e es =>
                    rw [hks] at hs
                    cases hs
                    exact (hc _).mpr h
            | succ i =>
              rw [prevOf_succ] at hs
              exact .inr ⟨i, k', b', hk', hs, h⟩

omit [FloatOps F] in
theorem scalarKeyframes_ok {ks : List (Schema.Keyframe F)} {es : List (Time F × F)}
    (h : List.Forall₂ (fun k e => Import.convScalarKeyframe k = .ok e) ks es) :
    List.Forall₂ (fun (k : Schema.Keyframe F) t => EasedTimeOf k.base t) ks (es.map (·.1)) ∧
    List.Forall₂ (fun (k : Schema.Keyframe F) x => k.value.head? = some x) ks (es.map (·.2)) := by
  induction h with
  | nil => exact ⟨.nil, .nil⟩
  | @cons k e _ _ hk _ ih =>
    unfold Import.convScalarKeyframe at hk
    cases hv : k.value with
    | nil => rw [hv] at hk; cases hk
    | cons x xs =>
      rw [hv] at hk
      obtain ⟨t, ht, hk⟩ := bind_ok hk
      cases Except.ok.inj hk
      exact ⟨.cons (convTime_ok ht) ih.1, .cons (by rw [hv]; rfl) ih.2⟩

end
end Velato
