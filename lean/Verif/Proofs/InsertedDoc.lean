import Verif.Proofs.Inserted
import Verif.Spec.Inserted
import Verif.Spec.Paint
import Verif.Proofs.ValuesOnly

/-!
# Added keyframes in documents: helper lemmas
-/

namespace Velato
open FloatOps (lit)
open Import

theorem forall₂_split {α β : Type} {R : α → β → Prop} : ∀ {xs ys : List α} {zs : List β},
    List.Forall₂ R (xs ++ ys) zs → ∃ us vs, zs = us ++ vs ∧ List.Forall₂ R xs us ∧ List.Forall₂ R ys vs
  | [], _, zs, h => ⟨[], zs, rfl, .nil, h⟩
  | x :: xs, ys, _, h => by
    cases h with
    | cons h hs =>
      obtain ⟨us, vs, rfl, h1, h2⟩ := forall₂_split hs
      exact ⟨_ :: us, vs, rfl, .cons h h1, h2⟩

theorem forall₂_join {α β : Type} {R : α → β → Prop} {ys : List α} {vs : List β} (h2 : List.Forall₂ R ys vs) :
    ∀ {xs : List α} {us : List β}, List.Forall₂ R xs us → List.Forall₂ R (xs ++ ys) (us ++ vs)
  | _, _, .nil => h2
  | _, _, .cons h hs => .cons h (forall₂_join h2 hs)

theorem straight_times {F : Type} {b : Schema.KeyframeBase F} (h : b.OnLine) : convTime b = .ok ⟨b.time, none, none, false⟩ ∧
    keyframeTimes b = [⟨b.time, none, none, false⟩] := by
  obtain ⟨h1, h2, h3⟩ := h
  have hh : isHold b = false := by
    unfold isHold
    split
    · exact absurd ‹_› h3
    · rfl
  constructor
  · unfold convTime
    rw [h1, h2, hh]
    rfl
  · unfold keyframeTimes
    rw [h1, h2, hh]
    rfl

theorem entries_ordered {ks : List (Schema.Keyframe ℝ)} {es : List (Time ℝ × ℝ)}
    (h : List.Forall₂ (fun k e => convScalarKeyframe k = .ok e) ks es) (ho : InOrder (·.base) ks) :
    es.Pairwise fun a b => a.1.frame ≤ b.1.frame := by
  have hf : es.map (fun e => e.1.frame) = ks.map fun k => k.base.time := by
    clear ho
    induction h with
    | nil => rfl
    | cons h _ ih => rw [List.map_cons, List.map_cons, ih, convScalarKeyframe_frame h]
  have : (es.map fun e => e.1.frame).Pairwise (· ≤ ·) := by
    rw [hf, List.pairwise_map]
    exact ho.imp le_of_lt
  rwa [List.pairwise_map] at this

theorem straight_entry {k : Schema.Keyframe ℝ} (h : k.base.OnLine) {x : ℝ} (hx : k.value[0]? = some x) :
    convScalarKeyframe k = .ok (⟨k.base.time, none, none, false⟩, x) := by
  unfold convScalarKeyframe
  cases hv : k.value with
  | nil => rw [hv] at hx; cases hx
  | cons y l =>
    rw [hv] at hx
    cases hx
    rw [(straight_times h).1]
    rfl

variable [Kurbo ℝ]

omit [Kurbo ℝ] in
theorem convScalarKeyframe_value {k : Schema.Keyframe ℝ} {e : Time ℝ × ℝ} (h : convScalarKeyframe k = .ok e) :
    k.value[0]? = some e.2 := by
  unfold convScalarKeyframe at h
  split at h
  · cases h
  · rename_i hv
    obtain ⟨t, _, h⟩ := bind_ok h
    cases h
    rw [hv]
    rfl

/-- A number with a keyframe more can be imported if and only if the number without it can, and has the same values. -/
theorem scalar_added (hk : ExactSolver) {p p' : Schema.FloatValue ℝ} {ks ks' : List (Schema.Keyframe ℝ)}
    (hp : p.value = .animatedValue ks) (hp' : p'.value = .animatedValue ks') (ho : InOrder (·.base) ks)
    (h : KeyframeAdded 1 ks ks') : (∀ v, convScalar p = .ok v → ∃ v', convScalar p' = .ok v') ∧
      (∀ v', convScalar p' = .ok v' → ∃ v, convScalar p = .ok v) ∧
      ∀ v v', convScalar p = .ok v → convScalar p' = .ok v' → ∀ fr d, v'.evaluateOr fr d = v.evaluateOr fr d := by
  obtain @⟨pre, post, k₀, m, k₁, h₀, hm, lo, hi, hv⟩ := h
  obtain ⟨x₀, x₁, e₀, e₁, em⟩ := hv 0 zero_lt_one
  have toList : ∀ {q : Schema.FloatValue ℝ} {l : List (Schema.Keyframe ℝ)}, q.value = .animatedValue l → ∀ v,
      convScalar q = .ok v ↔ ∃ es, List.Forall₂ (fun k e => convScalarKeyframe k = .ok e) l es ∧
        v = .animated ⟨es.map (·.1), es.map (·.2)⟩ := by
    intro q l hq v
    unfold convScalar
    rw [hq]
    dsimp only
    constructor
    · intro h
      obtain ⟨es, hes, h⟩ := bind_ok h
      cases h
      exact ⟨es, mapM_ok_iff.mp hes, rfl⟩
    · rintro ⟨es, hes, rfl⟩
      rw [mapM_ok_iff.mpr hes]
      rfl
  have fwd : ∀ es, List.Forall₂ (fun k e => convScalarKeyframe k = .ok e) (pre ++ k₀ :: k₁ :: post) es →
      ∃ us e vs, es = us ++ (⟨k₀.base.time, none, none, false⟩, x₀) :: e :: vs ∧
        List.Forall₂ (fun k e => convScalarKeyframe k = .ok e) pre us ∧ convScalarKeyframe k₁ = .ok e ∧
        List.Forall₂ (fun k e => convScalarKeyframe k = .ok e) post vs := by
    intro es hes
    obtain ⟨us, vs, rfl, h1, h2⟩ := forall₂_split hes
    cases h2 with
    | cons g h2 =>
      cases h2 with
      | cons g' h2 =>
        rw [straight_entry h₀ e₀] at g
        cases g
        exact ⟨us, _, _, rfl, h1, g', h2⟩
  refine ⟨?_, ?_, ?_⟩
  · intro v h
    obtain ⟨es, hes, rfl⟩ := (toList hp _).mp h
    obtain ⟨us, e, vs, rfl, h1, g, h2⟩ := fwd es hes
    exact ⟨_, (toList hp' _).mpr ⟨_, forall₂_join (R := fun k e => convScalarKeyframe k = .ok e) (.cons (straight_entry h₀ e₀) (.cons (straight_entry hm em)
      (.cons g h2))) h1, rfl⟩⟩
  · intro v h
    obtain ⟨es, hes, rfl⟩ := (toList hp' _).mp h
    obtain ⟨us, vs, rfl, h1, h2⟩ := forall₂_split hes
    cases h2 with
    | cons g h2 =>
      cases h2 with
      | cons g' h2 => exact ⟨_, (toList hp _).mpr ⟨_, forall₂_join (R := fun k e => convScalarKeyframe k = .ok e) (.cons g h2) h1, rfl⟩⟩
  · intro v v' h h' fr d
    obtain ⟨es, hes, rfl⟩ := (toList hp _).mp h
    have hs := entries_ordered hes ho
    obtain ⟨us, e, vs, rfl, h1, g, h2⟩ := fwd es hes
    have he := convScalarKeyframe_value g
    have hf := convScalarKeyframe_frame g
    rw [e₁] at he
    obtain ⟨es', hes', rfl⟩ := (toList hp' _).mp h'
    have : es' = us ++ (⟨k₀.base.time, none, none, false⟩, x₀) :: (⟨m.base.time, none, none, false⟩,
        x₀ + (x₁ - x₀) * ((m.base.time - k₀.base.time) / (k₁.base.time - k₀.base.time))) :: e :: vs := by
      have := mapM_ok_iff.mpr hes'
      rw [mapM_ok_iff.mpr (forall₂_join (R := fun k e => convScalarKeyframe k = .ok e) (.cons (straight_entry h₀ e₀) (.cons (straight_entry hm em) (.cons g h2))) h1)] at this
      exact (Except.ok.inj this).symm
    subst this
    refine inserted_value (T := ℝ) hs lo (by rw [hf]; exact hi) rfl rfl (fun fr => ?_) fr d
    exact straight_value hk lo (by rw [hf]; exact hi) rfl rfl (by rw [hf, Option.some.inj he]) fr

/-- What is asked of values that are read from lists of numbers: on a straight piece it does not matter whether there is a
value in the middle. -/
def OnStraight {T : Type} [Tween ℝ T] (n : Nat) (h : List ℝ → T) : Prop :=
  ∀ (l₀ lm l₁ : List ℝ) (t0 tm t1 : Time ℝ), t0.frame < tm.frame → tm.frame < t1.frame → t0.easing = Easing.lerp →
    tm.easing = Easing.lerp →
    (∀ c < n, ∃ x₀ x₁, l₀[c]? = some x₀ ∧ l₁[c]? = some x₁ ∧
      lm[c]? = some (x₀ + (x₁ - x₀) * ((tm.frame - t0.frame) / (t1.frame - t0.frame)))) →
    ∀ fr, (fr < tm.frame → Tween.tween (h l₀) (h lm) (pairWeight t0 tm fr) t0.easing =
        Tween.tween (h l₀) (h l₁) (pairWeight t0 t1 fr) t0.easing) ∧
      (tm.frame ≤ fr → fr < t1.frame → Tween.tween (h lm) (h l₁) (pairWeight tm t1 fr) tm.easing =
        Tween.tween (h l₀) (h l₁) (pairWeight t0 t1 fr) t0.easing)

omit [Kurbo ℝ] in
/-- The same for vectors and colours. -/
theorem keyframes_added {T : Type} [Tween ℝ T] {n : Nat} {h : List ℝ → T} (hT : OnStraight n h)
    {ks ks' : List (Schema.Keyframe ℝ)} (ho : InOrder (·.base) ks) (ha : KeyframeAdded n ks ks') (fr : ℝ) (d : T) :
    (convKeyframes ks' h).evaluateOr fr d = (convKeyframes ks h).evaluateOr fr d := by
  obtain @⟨pre, post, k₀, m, k₁, h₀, hm, lo, hi, hv⟩ := ha
  let g := fun k : Schema.Keyframe ℝ => (keyframeTimes k.base).map fun t => (t, h k.value)
  have key : ∀ ks : List (Schema.Keyframe ℝ), convKeyframes ks h = .animated ⟨(ks.flatMap g).map (·.1), (ks.flatMap g).map (·.2)⟩ := by
    intro ks
    unfold convKeyframes
    rw [List.map_flatMap, List.map_flatMap]
    simp only [g, List.map_map, Function.comp_def, List.map_id']
  have frames : ∀ k e, e ∈ g k → e.1.frame = k.base.time := by
    intro k e he
    obtain ⟨t, ht, rfl⟩ := List.mem_map.mp he
    exact ((keyframeTimes_retimed (f := id) k.base).2.2 t ht).1
  have hs : ((pre ++ k₀ :: k₁ :: post).flatMap g).Pairwise fun a b => a.1.frame ≤ b.1.frame := by
    rw [List.pairwise_flatMap]
    refine ⟨fun k _ => List.pairwise_of_forall_mem_list fun a ha b hb => by rw [frames k a ha, frames k b hb],
      ho.imp fun {j k} hjk a ha b hb => ?_⟩
    rw [frames j a ha, frames k b hb]
    exact hjk.le
  have g0 : g k₀ = [(⟨k₀.base.time, none, none, false⟩, h k₀.value)] := by
    show (keyframeTimes k₀.base).map _ = _
    rw [(straight_times h₀).2]; rfl
  have gm : g m = [(⟨m.base.time, none, none, false⟩, h m.value)] := by
    show (keyframeTimes m.base).map _ = _
    rw [(straight_times hm).2]; rfl
  obtain ⟨e, es, ge⟩ : ∃ e es, g k₁ = e :: es := by
    have := (keyframeTimes_retimed (f := id) k₁.base).2.1
    cases hc : g k₁ with
    | nil => exact absurd (List.map_eq_nil_iff.mp hc) (by simpa using this)
    | cons e es => exact ⟨e, es, rfl⟩
  have hf : e.1.frame = k₁.base.time := frames k₁ e (by rw [ge]; simp)
  have hev : e.2 = h k₁.value := by
    have : e ∈ g k₁ := by rw [ge]; simp
    obtain ⟨t, _, rfl⟩ := List.mem_map.mp this
    rfl
  rw [key, key]
  show Animated.evaluateOr _ _ _ = Animated.evaluateOr _ _ _
  rw [List.flatMap_append, List.flatMap_cons, List.flatMap_cons, g0, ge] at hs
  simp only [List.flatMap_append, List.flatMap_cons]
  rw [g0, gm, ge]
  refine inserted_value (T := T) hs lo (by rw [hf]; exact hi) rfl rfl (fun fr => ?_) fr d
  rw [hev]
  exact hT k₀.value m.value k₁.value ⟨k₀.base.time, none, none, false⟩ ⟨m.base.time, none, none, false⟩ e.1 lo
    (by rw [hf]; exact hi) rfl rfl (by rw [hf]; exact hv) fr

theorem points_onStraight (hk : ExactSolver) : OnStraight 2 (toP2 : List ℝ → P2 ℝ) := by
  intro l₀ lm l₁ t0 tm t1 lo hi e0 em hv fr
  obtain ⟨x₀, x₁, ex₀, ex₁, exm⟩ := hv 0 (by norm_num)
  obtain ⟨y₀, y₁, ey₀, ey₁, eym⟩ := hv 1 (by norm_num)
  have pt : ∀ (l : List ℝ) x y, l[0]? = some x → l[1]? = some y → toP2 l = ⟨x, y⟩ := by
    intro l x y hx hy
    match l with
    | [] => cases hx
    | [_] => cases hy
    | a :: b :: l => cases hx; cases hy; rfl
  rw [pt _ _ _ ex₀ ey₀, pt _ _ _ exm eym, pt _ _ _ ex₁ ey₁]
  have hx := straight_value hk lo hi e0 em (x₀ := x₀) (x₁ := x₁) rfl fr
  have hy := straight_value hk lo hi e0 em (x₀ := y₀) (x₁ := y₁) rfl fr
  exact ⟨fun h => congrArg₂ P2.mk (hx.1 h) (hy.1 h), fun h h' => congrArg₂ P2.mk (hx.2 h h') (hy.2 h h')⟩

theorem colors_onStraight (hk : ExactSolver) : OnStraight 3 (toColor : List ℝ → Color ℝ) := by
  intro l₀ lm l₁ t0 tm t1 lo hi e0 em hv fr
  obtain ⟨x₀, x₁, ex₀, ex₁, exm⟩ := hv 0 (by norm_num)
  obtain ⟨y₀, y₁, ey₀, ey₁, eym⟩ := hv 1 (by norm_num)
  obtain ⟨z₀, z₁, ez₀, ez₁, ezm⟩ := hv 2 (by norm_num)
  have pt : ∀ (l : List ℝ) x y z, l[0]? = some x → l[1]? = some y → l[2]? = some z → toColor l = ⟨x, y, z, lit 1⟩ := by
    intro l x y z hx hy hz
    match l with
    | [] => cases hx
    | [_] => cases hy
    | [_, _] => cases hz
    | a :: b :: c :: l => cases hx; cases hy; cases hz; rfl
  rw [pt _ _ _ _ ex₀ ey₀ ez₀, pt _ _ _ _ exm eym ezm, pt _ _ _ _ ex₁ ey₁ ez₁]
  have hx := straight_value hk lo hi e0 em (x₀ := x₀) (x₁ := x₁) rfl fr
  have hy := straight_value hk lo hi e0 em (x₀ := y₀) (x₁ := y₁) rfl fr
  have hz := straight_value hk lo hi e0 em (x₀ := z₀) (x₁ := z₁) rfl fr
  have ha := straight_value hk lo hi e0 em (x₀ := (lit 1 : ℝ)) (x₁ := lit 1) (y := lit 1) (by simp) fr
  refine ⟨fun h => ?_, fun h h' => ?_⟩
  · show Color.mk _ _ _ _ = Color.mk _ _ _ _
    rw [hx.1 h, hy.1 h, hz.1 h, ha.1 h]
  · show Color.mk _ _ _ _ = Color.mk _ _ _ _
    rw [hx.2 h h', hy.2 h h', hz.2 h h', ha.2 h h']

/-- The same for vectors. -/
theorem vector_added (hk : ExactSolver) {ks ks' : List (Schema.Keyframe ℝ)} (ho : InOrder (·.base) ks)
    (h : KeyframeAdded 2 ks ks') (fr : ℝ) (d : P2 ℝ) :
    (convKeyframes ks' toP2).evaluateOr fr d = (convKeyframes ks toP2).evaluateOr fr d :=
  keyframes_added (points_onStraight hk) ho h fr d

end Velato

namespace Velato
open Import

section
variable {F : Type} [FloatOps F] [Libm F] [Kurbo F]

/-- The opacity is imported by itself. -/
theorem convTransform_opacity {v : Schema.Transform F} {q : Schema.FloatValue F} {t : Transform F} {w : Value F F}
    (hq : v.opacity = some q) : convTransform v = .ok (t, w) ↔
      convScalar q = .ok w ∧ ∃ w', convTransform { v with opacity := none } = .ok (t, w') := by
  have key : ∀ o : Option (Schema.FloatValue F), convTransform { v with opacity := o } =
      (layerRotation v.rotation).bind fun x₁ => (layerPosition v.position).bind fun x₂ => (convScalar x₁).bind fun x₃ =>
        (convScalar (v.skew.getD floatValueZero)).bind fun x₄ => (convScalar (v.skewAxis.getD floatValueZero)).bind fun x₅ =>
          (convScalar (o.getD floatValueOneHundred)).bind fun x₆ => .ok ((AnimTransform.intoModel
            ⟨convPosPoint (v.anchorPoint.getD positionZero), x₂, x₃, convMultiP2 (v.scale.getD multidimOne), x₄, x₅⟩), x₆) :=
    fun o => rfl
  have h0 : convTransform v = convTransform { v with opacity := some q } := by rw [← hq]
  rw [h0, key, key]
  cases layerRotation v.rotation with
  | error e => simp [Except.bind]
  | ok x₁ =>
  cases layerPosition v.position with
  | error e => simp [Except.bind]
  | ok x₂ =>
  cases hx₃ : convScalar x₁ with
  | error e => simp [Except.bind, hx₃]
  | ok x₃ =>
  cases hx₄ : convScalar (v.skew.getD floatValueZero) with
  | error e => simp [Except.bind, hx₃]
  | ok x₄ =>
  cases hx₅ : convScalar (v.skewAxis.getD floatValueZero) with
  | error e => simp [Except.bind, hx₃]
  | ok x₅ =>
  have : convScalar (floatValueOneHundred : Schema.FloatValue F) = .ok (.fixed (FloatOps.lit 100)) := rfl
  cases hx₆ : convScalar q with
  | error e => simp [Except.bind, hx₃, hx₆]
  | ok x₆ =>
    simp only [Except.bind, hx₃, Option.getD_some, Option.getD_none, hx₆, this, Except.ok.injEq, Prod.mk.injEq]
    constructor
    · rintro ⟨h, rfl⟩
      exact ⟨rfl, _, h, rfl⟩
    · rintro ⟨rfl, _, h, _⟩
      exact ⟨h, rfl⟩

mutual
theorem shapeSame_refl (fr : F) : ∀ s : Schema.AnyShape F, s.IsIgnored ∨ ShapeSame fr s s
  | .rectangle _ | .ellipse _ | .polyStar _ => .inr (.geometry trivial trivial fun _ => Iff.rfl)
  | .path s => by
    by_cases h : NoPath s.shapeProperty
    · exact .inl h
    · exact .inr (.geometry h h fun _ => Iff.rfl)
  | .fill _ | .stroke _ | .gradientFill _ | .gradientStroke _ => .inr (.paint trivial trivial fun _ _ => Iff.rfl)
  | .trim _ => .inr (.trim fun _ => Iff.rfl)
  | .group _ _ items _ => .inr (.group (fun _ _ => Iff.rfl) (shapesSame_refl fr items))
  | .puckerBloat _ | .merge _ | .repeater _ | .offsetPath _ | .twist _ | .roundedCorners _ | .transform _ => .inl trivial

theorem shapesSame_refl (fr : F) : ∀ ss : List (Schema.AnyShape F), ShapesSame fr ss ss
  | [] => .nil
  | s :: ss => by
    rcases shapeSame_refl fr s with h | h
    · exact .left h (.right h (shapesSame_refl fr ss))
    · exact .cons h (shapesSame_refl fr ss)
end

theorem exists_last_index {α : Type} {P : α → Prop} : ∀ {l : List α}, (∃ x ∈ l, P x) →
    ∃ (i : Nat) (x : α), l[i]? = some x ∧ P x ∧ ∀ (j : Nat) (y : α), i < j → l[j]? = some y → ¬ P y
  | [], ⟨_, h, _⟩ => by cases h
  | a :: l, ⟨x, hx, hp⟩ => by
    by_cases h : ∃ y ∈ l, P y
    · obtain ⟨i, y, h1, h2, h3⟩ := exists_last_index h
      refine ⟨i + 1, y, h1, h2, fun j z hj hz => ?_⟩
      cases j with
      | zero => omega
      | succ j => exact h3 j z (by omega) hz
    · refine ⟨0, a, rfl, ?_, fun j z hj hz hpz => h ⟨z, ?_, hpz⟩⟩
      · rcases List.mem_cons.mp hx with rfl | hx
        · exact hp
        · exact absurd ⟨x, hx, hp⟩ h
      · cases j with
        | zero => omega
        | succ j => exact List.mem_of_getElem? hz

omit [FloatOps F] [Libm F] [Kurbo F] in
theorem withTransform_visual (t : Schema.Transform F) (l : Schema.AnyLayer F) :
    (l.withTransform t).visual = l.visual.withTransform t := by
  cases l <;> rfl

/-- A layer with another transform that gives the same matrix and opacity at the frame. -/
theorem withTransform_same {fr : F} {t : Schema.Transform F} {l : Schema.AnyLayer F}
    (h : ∀ M o, LayerAt fr l M o ↔ LayerAt fr (l.withTransform t) M o) : LayerSame fr l (l.withTransform t) := by
  refine ⟨?_, ?_, ?_, ?_, ?_, ?_, ?_, h, fun T ops => ?_⟩
  all_goals
    simp only [Schema.AnyLayer.ident, Schema.AnyLayer.Matte, Schema.AnyLayer.Hidden, Schema.AnyLayer.During,
      withTransform_visual, Schema.VisualLayer.withTransform]

theorem withTransform_content {a a' : Schema.Animation F} (ha : a.assetList = a'.assetList) {fr : F} {t : Schema.Transform F}
    (l : Schema.AnyLayer F) : ContentSame a a' fr l (l.withTransform t) := by
  have hid : ∀ q : Schema.AnyLayer F, (q.withTransform t).Hidden ↔ q.Hidden := fun q => by
    unfold Schema.AnyLayer.Hidden
    rw [withTransform_visual]
    exact Iff.rfl
  by_cases hh : l.Hidden
  · exact .blank (.inl hh) (.inl ((hid l).mpr hh))
  cases l with
  | shape q => exact .shapes hh (fun h => hh ((hid (.shape q)).mp h)) (shapesSame_refl fr _)
  | precomposition q =>
    by_cases hn : ∃ p, a.Shows q p
    · obtain ⟨p, hp⟩ := hn
      refine .instance hh (fun h => hh ((hid (.precomposition q)).mp h)) hp ?_ rfl (layersSame_refl ha p.layers _)
      unfold Schema.Animation.Shows at *
      rw [← ha]
      exact hp
    · have none : ∀ p, .precomposition p ∈ a.assetList → p.asset.id ≠ q.refId := fun p hp hid => hn (by
        obtain ⟨i, x, h1, ⟨p', rfl, h2⟩, h3⟩ := exists_last_index (l := a.assetList)
          (P := fun x => ∃ p, x = .precomposition p ∧ p.asset.id = q.refId) ⟨_, hp, p, rfl, hid⟩
        exact ⟨p', i, h1, h2, fun j p'' hj hp'' he => h3 j _ hj hp'' ⟨p'', rfl, he⟩⟩)
      exact .blank (.inr (.inr ⟨q, rfl, none⟩)) (.inr (.inr ⟨_, rfl, by rw [← ha]; exact none⟩))
  | solid q | null q | image q =>
    exact .blank (.inr (.inl ⟨fun _ h => (nomatch h), fun _ h => (nomatch h)⟩))
      (.inr (.inl ⟨fun _ h => (nomatch h), fun _ h => (nomatch h)⟩))

end
end Velato
