import Verif.Spec.Steady
import Verif.Proofs.ElsewhereDoc
import Verif.Proofs.ImportValues
import Verif.Proofs.GradientPlayback

/-!
# Properties that do not change: helper lemmas
-/

namespace Velato
open FloatOps (lit)
open Import

section
variable {F : Type} [FloatOps F]

theorem foundPair_mem {T : Type} {es : List (Time F × T)} (h : es ≠ []) (fr : F) :
    ∃ p, foundPair es fr = some p ∧ p.1 ∈ es ∧ p.2 ∈ es := by
  have hl : 0 < es.length := List.length_pos_iff.mpr h
  unfold foundPair
  dsimp only
  generalize hi : min (Time.search (es.map (·.1)) fr) (es.length - 1) = i
  generalize hj : min (i + 1) (es.length - 1) = j
  have h0 : i < es.length := by omega
  have h1 : j < es.length := by omega
  refine ⟨(es[i], es[j]), ?_, List.getElem_mem h0, List.getElem_mem h1⟩
  rw [List.getElem?_eq_getElem h0, List.getElem?_eq_getElem h1]
  rfl

/-- Keyframes for which `Q` holds do not change the value `x` when they are mixed. -/
def StillAt {T : Type} [Tween F T] (Q : Bool → Prop) (x : T) : Prop :=
  ∀ hold, Q hold → ∀ (t : F) (e : Easing F), Tween.tween x x (if hold then lit 0 else t) e = x

theorem animated_still {T : Type} [Tween F T] {Q : Bool → Prop} {x : T} (hx : StillAt (F := F) Q x) {es : List (Time F × T)}
    (hn : es ≠ []) (h : ∀ e ∈ es, Q e.1.hold ∧ e.2 = x) (fr : F) (d : T) :
    (Value.animated ⟨es.map (·.1), es.map (·.2)⟩ : Value F T).evaluateOr fr d = x := by
  have key : Animated.evaluateInner ⟨es.map (·.1), es.map (·.2)⟩ fr =
      (foundPair es fr).bind fun p => some (Tween.tween p.1.2 p.2.2
        (if p.1.1.hold then lit 0 else pairWeight p.1.1 p.2.1 fr) p.1.1.easing) :=
    found_weight es fr fun v0 v1 t e hold => some (Tween.tween v0 v1 (if hold then lit 0 else t) e)
  obtain ⟨p, hp, h1, h2⟩ := foundPair_mem hn fr
  show (Animated.evaluateInner ⟨es.map (·.1), es.map (·.2)⟩ fr).getD d = x
  rw [key, hp, Option.bind_some, Option.getD_some, (h _ h1).2, (h _ h2).2]
  exact hx _ (h _ h1).1 _ _

theorem keyframes_still {T : Type} [Tween F T] {Q : Bool → Prop} {f : List F → T} {xs : List F} (hx : StillAt (F := F) Q (f xs))
    {ks : List (Schema.Keyframe F)} (h : Schema.SteadyList (fun b => Q (isHold b)) ks xs) (fr : F) (d : T) :
    (convKeyframes ks f).evaluateOr fr d = f xs := by
  have key : convKeyframes ks f =
      .animated ⟨(ks.flatMap fun k => (keyframeTimes k.base).map fun t => (t, f k.value)).map (·.1),
        (ks.flatMap fun k => (keyframeTimes k.base).map fun t => (t, f k.value)).map (·.2)⟩ := by
    unfold convKeyframes
    rw [List.map_flatMap, List.map_flatMap]
    simp only [List.map_map, Function.comp_def, List.map_id']
  rw [key]
  refine animated_still hx ?_ (fun e he => ?_) fr d
  · obtain ⟨hn, -⟩ := h
    cases ks with
    | nil => exact absurd rfl hn
    | cons k ks =>
      obtain ⟨-, h1, -⟩ := keyframeTimes_retimed (f := id) k.base
      rw [List.flatMap_cons]
      simp [h1]
  · obtain ⟨k, hk, he⟩ := List.mem_flatMap.mp he
    obtain ⟨t, ht, rfl⟩ := List.mem_map.mp he
    obtain ⟨-, -, h2⟩ := keyframeTimes_retimed (f := id) k.base
    have := h.2 k hk
    exact ⟨(h2 t ht).2 ▸ this.1, congrArg f this.2⟩

theorem scalar_still [Kurbo F] {Q : Bool → Prop} {x : F} (hx : StillAt (F := F) Q x) {ks : List (Schema.Keyframe F)}
    (h : Schema.SteadyNumber (fun b => Q (isHold b)) ks x) {es : List (Time F × F)} (he : ks.mapM convScalarKeyframe = .ok es)
    (fr d : F) : (Value.animated ⟨es.map (·.1), es.map (·.2)⟩ : Value F F).evaluateOr fr d = x := by
  rw [mapM_ok_iff] at he
  refine animated_still hx ?_ ?_ fr d
  · rintro rfl
    cases he
    exact h.1 rfl
  · replace h := h.2
    intro e hm
    induction he with
    | nil => cases hm
    | @cons k e' ks es hk _ ih =>
      rcases List.mem_cons.mp hm with rfl | hm
      · obtain ⟨hq, hv⟩ := h k (by simp)
        unfold convScalarKeyframe at hk
        split at hk
        · cases hk
        · rename_i y ys hy
          obtain ⟨t, ht, hk⟩ := bind_ok hk
          cases hk
          obtain ⟨_, _, -, -, hh⟩ := convTime_retimed (f := id) k.base t ht
          rw [hy] at hv
          exact ⟨hh ▸ hq, Option.some.inj hv⟩
      · exact ih (fun j hj => h j (List.mem_cons_of_mem _ hj)) hm

variable [Kurbo F] [Libm F]

omit [Libm F] in
theorem restated_numbers {Q : Bool → Prop} (hQ : ∀ x : F, StillAt (F := F) Q x) (fr : F) {p p' : Schema.FloatValue F}
    (h : p.Agrees (Schema.AnimatedPropertyK.Restated (Schema.SteadyNumber fun b => Q (isHold b))) p') :
    Both (EvalsAlike fr) (convScalar p) (convScalar p') := by
  unfold Schema.AnimatedProperty.Agrees at h
  unfold convScalar
  generalize p.value = v, p'.value = v' at h
  cases h with
  | same =>
    intro a a' e e'
    cases e.symm.trans e'
    exact .refl _
  | toStatic h =>
    intro a a' e e'
    cases e'
    obtain ⟨es, he, e⟩ := bind_ok e
    cases e
    exact fun d => (scalar_still (hQ _) h he fr d).symm
  | toKeyframes h =>
    intro a a' e e'
    cases e
    obtain ⟨es, he, e⟩ := bind_ok e'
    cases e
    exact fun d => scalar_still (hQ _) h he fr d

omit [Kurbo F] [Libm F] in
theorem restated_lists {T : Type} [Tween F T] {Q : Bool → Prop} {f : List F → T} (hQ : ∀ xs, StillAt (F := F) Q (f xs)) (fr : F)
    {p p' : Schema.AnimatedProperty F (List F)}
    (h : p.Agrees (Schema.AnimatedPropertyK.Restated (Schema.SteadyList fun b => Q (isHold b))) p') :
    EvalsAlike fr (convMulti p f) (convMulti p' f) := by
  unfold Schema.AnimatedProperty.Agrees at h
  unfold convMulti
  generalize p.value = v, p'.value = v' at h
  cases h with
  | same => exact .refl _
  | toStatic h => exact fun d => (keyframes_still (hQ _) h fr d).symm
  | toKeyframes h => exact fun d => keyframes_still (hQ _) h fr d

theorem steady_sound {Q : Bool → Prop} (h1 : ∀ x : F, StillAt (F := F) Q x) (fr : F) :
    (Schema.steady fun b => Q (isHold b) : Schema.KeyframeRelations F).Sound fr := by
  have h2 : ∀ x : P2 F, StillAt (F := F) Q x := by
    intro x hold hh t e
    show P2.mk (tweenScalar x.x x.x _ e) (tweenScalar x.y x.y _ e) = x
    rw [show tweenScalar x.x x.x (if hold then lit 0 else t) e = x.x from h1 x.x hold hh t e,
      show tweenScalar x.y x.y (if hold then lit 0 else t) e = x.y from h1 x.y hold hh t e]
  constructor
  · exact fun p p' h => restated_numbers h1 fr h
  · exact fun p p' h => restated_lists (fun xs => h2 _) fr h
  · intro p p' (h : p'.value = p.value)
    unfold convColor convMulti
    rw [h]
    exact .refl _
  · rintro g g' ⟨(hc : g'.colors.animatedProperty.value = g.colors.animatedProperty.value), hn⟩
    unfold convGradientColors
    rw [hn, hc]
    intro s s' e e'
    cases e.symm.trans e'
    rfl
  · intro p p' h
    unfold Schema.Position.Agrees at h
    unfold convPosPoint
    generalize p.value = v, p'.value = v' at h
    cases h with
    | same => exact .refl _
    | toStatic h => exact fun d => (keyframes_still (f := toP2) (h2 _) h fr d).symm
    | toKeyframes h => exact fun d => keyframes_still (f := toP2) (h2 _) h fr d
  · intro p p' h
    have : p'.value = p.value := h
    unfold convShapeGeometry
    rw [this]
    intro o o' e e'
    cases e.symm.trans e'
    cases o with
    | none => exact .none
    | some g => exact .some rfl
  · exact fun _ _ _ h => False.elim h

omit [Libm F] in
theorem held_still [LawfulCmp F] (x : F) : StillAt (F := F) (· = true) x := by
  rintro _ rfl t e
  show tweenScalar x x (lit 0) e = x
  unfold tweenScalar
  rw [if_pos zero_le_zero]

theorem steadyHeld_sound [LawfulCmp F] (fr : F) : (Schema.steadyHeld : Schema.KeyframeRelations F).Sound fr := by
  have := steady_sound (F := F) (Q := (· = true)) held_still fr
  have e : (fun b : Schema.KeyframeBase F => isHold b = true) = fun b => b.hold = some .true := by
    funext b
    exact propext (isHold_iff b)
  rw [e] at this
  exact this

end

section
variable [Kurbo ℝ] [Libm ℝ]

omit [Libm ℝ] in
theorem real_still (x : ℝ) : StillAt (F := ℝ) (fun _ => True) x := by
  intro hold _ t e
  show tweenScalar x x _ e = x
  generalize (if hold then lit 0 else t) = u
  unfold tweenScalar
  split
  · rfl
  split
  · rfl
  · show x + (x - x) * _ = x
    ring

omit [Libm ℝ] in
theorem real_still_color (x : Color ℝ) : StillAt (F := ℝ) (fun _ => True) x := by
  intro hold hh t e
  show Color.mk (tweenScalar x.r x.r _ e) (tweenScalar x.g x.g _ e) (tweenScalar x.b x.b _ e) (tweenScalar x.a x.a _ e) = x
  rw [show tweenScalar x.r x.r (if hold then lit 0 else t) e = x.r from real_still _ hold hh t e,
    show tweenScalar x.g x.g (if hold then lit 0 else t) e = x.g from real_still _ hold hh t e,
    show tweenScalar x.b x.b (if hold then lit 0 else t) e = x.b from real_still _ hold hh t e,
    show tweenScalar x.a x.a (if hold then lit 0 else t) e = x.a from real_still _ hold hh t e]

omit [Kurbo ℝ] [Libm ℝ] in
theorem toPath_points {n m : Nat} (e : n = m) {g : Fin n → P2 ℝ} {g' : Fin m → P2 ℝ} (h : ∀ i hi hi', g ⟨i, hi⟩ = g' ⟨i, hi'⟩) (c : Bool) :
    toPath n g c = toPath m g' c := by
  subst e
  congr 1
  funext i
  exact h i.1 i.2 i.2

omit [Kurbo ℝ] [Libm ℝ] in
theorem lerp_same (ps : List (P2 ℝ)) (t : ℝ) (c : Bool) : splineLerpToPath ps ps t c = splineToPath ps c := by
  unfold splineLerpToPath splineToPath
  refine toPath_points (Nat.min_self _) (fun i hi hi' => ?_) c
  show P2.mk _ _ = _
  have : ∀ x : ℝ, x + t * (x - x) = x := fun x => by ring
  exact congrArg₂ P2.mk (this _) (this _)

omit [Kurbo ℝ] [Libm ℝ] in
theorem path_still {ks : List (Schema.ShapeKeyframe ℝ)} {b : Schema.Bezier ℝ} (h : Schema.SteadyShape ks b)
    {o : Option (List (Time ℝ) × List (SplineValues ℝ) × Bool)} (ho : splineLoop none ks = .ok o) (fr : ℝ) :
    ∃ ts vs c, o = some (ts, vs, c) ∧ AnimSpline.evaluate ⟨c, ts, vs⟩ fr = splineToPath (convSpline b).1 (convSpline b).2 := by
  obtain ⟨hn, h⟩ := h
  obtain ⟨ts, ht, rfl⟩ := splineLoop_entries ks (fun k hk => ⟨b, (h k hk).1⟩) _ _ ho
  have hv : ∀ k ∈ ks, splineValuesOf k = ⟨(convSpline b).1, none⟩ ∨ splineValuesOf k = ⟨(convSpline b).1, some (convSpline b).1⟩ := by
    intro k hk
    obtain ⟨⟨bs, hs⟩, he⟩ := h k hk
    unfold splineValuesOf
    rw [hs]
    cases e : k.stop with
    | none => exact .inl rfl
    | some es =>
      cases es with
      | nil => exact .inl rfl
      | cons x xs =>
        rw [he x xs e]
        exact .inr rfl
  have hc : ks.any Schema.ShapeKeyframe.closes = (convSpline b).2 := by
    have one : ∀ k ∈ ks, k.closes = (convSpline b).2 := by
      intro k hk
      obtain ⟨⟨bs, hs⟩, he⟩ := h k hk
      unfold Schema.ShapeKeyframe.closes
      rw [hs]
      cases e : k.stop with
      | none => simp [Schema.closedShape, convSpline]
      | some es =>
        cases es with
        | nil => simp [Schema.closedShape, convSpline]
        | cons x xs =>
          rw [he x xs e]
          simp [Schema.closedShape, convSpline]
    cases ks with
    | nil => exact absurd rfl hn
    | cons k ks =>
      cases hb : (convSpline b).2 with
      | true => rw [List.any_cons, one k (by simp), hb, Bool.true_or]
      | false => exact List.any_eq_false.mpr fun j hj => by rw [one j hj, hb]; simp
  refine ⟨_, _, _, rfl, ?_⟩
  rw [hc]
  have hl : ts.length = ks.length := (mapM_ok_iff.mp ht).length_eq.symm
  have hp : 0 < ks.length := List.length_pos_iff.mpr hn
  unfold AnimSpline.evaluate Time.framesAndWeight
  dsimp only
  rw [dif_neg (by omega)]
  dsimp only
  have get : ∀ i, i < ks.length → ∃ k ∈ ks, (ks.map splineValuesOf)[i]? = some (splineValuesOf k) := fun i hi =>
    ⟨ks[i], List.getElem_mem hi, by rw [List.getElem?_map, List.getElem?_eq_getElem hi]; rfl⟩
  obtain ⟨k, hk, e⟩ := get (min (Time.search ts fr) (ts.length - 1)) (by omega)
  obtain ⟨k', hk', e'⟩ := get (min (min (Time.search ts fr) (ts.length - 1) + 1) (ts.length - 1)) (by omega)
  rw [e, e']
  dsimp only
  rcases hv k hk with e | e <;> rcases hv k' hk' with e' | e' <;> rw [e, e'] <;> exact lerp_same _ _ _

theorem restated_paths (fr : ℝ) {p p' : Schema.ShapeProperty ℝ} (h : Schema.ShapePropertyK.Restated Schema.SteadyShape p.value p'.value) :
    Both (OptRel (SameGeometry fr fr)) (convShapeGeometry p) (convShapeGeometry p') := by
  unfold convShapeGeometry
  generalize p.value = v, p'.value = v' at h
  cases h with
  | same =>
    intro o o' e e'
    cases e.symm.trans e'
    cases o with
    | none => exact .none
    | some g => exact .some rfl
  | toStatic h =>
    intro o o' e e'
    cases e'
    obtain ⟨x, hx, e⟩ := bind_ok e
    obtain ⟨ts, vs, c, rfl, hv⟩ := path_still h hx fr
    cases e
    exact .some (congrArg Except.ok hv.symm)
  | toKeyframes h =>
    intro o o' e e'
    cases e
    obtain ⟨x, hx, e⟩ := bind_ok e'
    obtain ⟨ts, vs, c, rfl, hv⟩ := path_still h hx fr
    cases e
    exact .some (congrArg Except.ok hv)

omit [Libm ℝ] in
theorem stop_still (st : RawStop ℝ) : ∀ (l : List (RawStop ℝ)) (i : Nat), l[i]? = some st → ∀ (tOff t : ℝ) (e : Easing ℝ),
    AnimColorStops.stop (l.flatMap RawStop.toList) (l.flatMap RawStop.toList) tOff t e i = some st.toColorStop
  | [], _, h => by cases h
  | a :: l, 0, h => by
    cases h
    intro tOff t e
    have still : ∀ x t : ℝ, tweenScalar x x t e = x := fun x t => real_still x false trivial t e
    show some (ColorStop.mk (FloatOps.toF32 (tweenScalar st.offset st.offset tOff e)) (Color.mk
      (FloatOps.toF32 (tweenScalar st.r st.r t e)) (FloatOps.toF32 (tweenScalar st.g st.g t e))
      (FloatOps.toF32 (tweenScalar st.b st.b t e)) (FloatOps.toF32 (tweenScalar st.a st.a t e)))) = _
    rw [still, still, still, still, still]
    rfl
  | a :: l, i + 1, h => by
    intro tOff t e
    rw [← stop_still st l i h tOff t e]
    unfold AnimColorStops.stop
    dsimp only
    rw [Nat.succ_mul]
    rfl

omit [Libm ℝ] in
theorem gradient_still {n : Nat} {xs : List ℝ} {ks : List (Schema.Keyframe ℝ)}
    (h : 0 < n ∧ 4 * n ≤ xs.length ∧ Schema.SteadyList (fun _ => True) ks xs) {ts : List (Time ℝ)} (hl : ts.length = ks.length) (fr : ℝ) :
    AnimColorStops.evaluateInner ⟨ts, ks.map fun k => (convStops k.value n).flatMap RawStop.toList, n⟩ fr =
      some ((convStops xs n).map RawStop.toColorStop) := by
  obtain ⟨h0, h4, hn, hk⟩ := h
  have hp : 0 < ks.length := List.length_pos_iff.mpr hn
  have e : (ks.map fun k => (convStops k.value n).flatMap RawStop.toList) =
      List.replicate ks.length ((convStops xs n).flatMap RawStop.toList) := by
    rw [List.eq_replicate_iff]
    refine ⟨by simp, fun b hb => ?_⟩
    obtain ⟨k, hm, rfl⟩ := List.mem_map.mp hb
    rw [(hk k hm).2]
  have hlen : (convStops xs n).length = n := by rw [convStops_length _ _ h0]; omega
  unfold AnimColorStops.evaluateInner Time.framesAndWeight
  dsimp only
  rw [dif_neg (by omega), e]
  dsimp only [Option.bind_eq_bind, Option.bind_some]
  rw [List.getElem?_replicate, List.getElem?_replicate, if_pos (by omega), if_pos (by omega)]
  dsimp only [Option.bind_some]
  rw [mapM_range_some (g := fun i => ((convStops xs n).map RawStop.toColorStop)[i]?.getD default) n]
  · congr 1
    apply List.ext_getElem?
    intro i
    rcases lt_or_ge i n with hi | hi
    · rw [List.getElem?_map, List.getElem?_range hi, List.getElem?_map, List.getElem?_eq_getElem (by omega)]
      simp [List.getElem?_eq_getElem (show i < (convStops xs n).length by omega)]
    · rw [List.getElem?_eq_none (by simpa using hi), List.getElem?_eq_none (by simpa [hlen] using hi)]
  · intro i hi
    rw [stop_still _ _ i (List.getElem?_eq_getElem (by omega)), List.getElem?_map, List.getElem?_eq_getElem (by omega)]
    rfl

omit [Libm ℝ] in
theorem restated_gradients (fr : ℝ) {g g' : Schema.GradientColors ℝ} (hc : g'.count = g.count)
    (h : Schema.AnimatedPropertyK.Restated (fun ks xs => 0 < g.count ∧ 4 * g.count ≤ xs.length ∧ Schema.SteadyList (fun _ => True) ks xs)
      g.colors.animatedProperty.value g'.colors.animatedProperty.value) :
    Both (fun s s' => s'.evaluate fr = s.evaluate fr) (convGradientColors g) (convGradientColors g') := by
  unfold convGradientColors
  rw [hc]
  generalize g.colors.animatedProperty.value = v, g'.colors.animatedProperty.value = v' at h
  cases h with
  | same =>
    intro o o' e e'
    cases e.symm.trans e'
    rfl
  | toStatic h =>
    intro o o' e e'
    cases e'
    obtain ⟨ts, hts, e⟩ := bind_ok e
    cases e
    show _ = Option.getD _ _
    rw [gradient_still h (mapM_ok_iff.mp hts).length_eq.symm fr]
    rfl
  | toKeyframes h =>
    intro o o' e e'
    cases e
    obtain ⟨ts, hts, e⟩ := bind_ok e'
    cases e
    show Option.getD _ _ = _
    rw [gradient_still h (mapM_ok_iff.mp hts).length_eq.symm fr]
    rfl

theorem steadyAll_sound (fr : ℝ) : (Schema.steadyAll : Schema.KeyframeRelations ℝ).Sound fr := by
  have h := steady_sound (F := ℝ) (Q := fun _ => True) real_still fr
  exact { h with
    colors := fun p p' hp => restated_lists (Q := fun _ => True) (f := toColor) (fun xs => real_still_color _) fr hp
    gradients := fun g g' hg => restated_gradients fr hg.count hg.colors
    positions := fun p p' hp => h.positions p p' hp
    paths := fun p p' hp => restated_paths fr hp }

end

theorem mapM_none {α β : Type} {f : α → Option β} {l : List α} {x : α} (hx : x ∈ l) (h : f x = none) : l.mapM f = none := by
  induction l with
  | nil => cases hx
  | cons a l ih =>
    rw [List.mapM_cons]
    rcases List.mem_cons.mp hx with rfl | hx
    · rw [h]
      rfl
    · rw [ih hx]
      cases f a <;> rfl

/-- Keyframes of a gradient with fewer stops than declared. -/
theorem gradient_missing {F : Type} [FloatOps F] [Kurbo F] {n : Nat} {xs : List F} {ks : List (Schema.Keyframe F)} (h0 : 1 ≤ n)
    (hl : xs.length < 4 * n) (hk : ∀ k ∈ ks, k.value = xs) {ts : List (Time F)} {fr : F} :
    AnimColorStops.evaluateInner ⟨ts, ks.map fun k => (convStops k.value n).flatMap RawStop.toList, n⟩ fr = none := by
  have len := convStops_length xs n h0
  have stored := stored_length (convStops xs n)
  unfold AnimColorStops.evaluateInner
  dsimp only
  cases Time.framesAndWeight ts fr with
  | none => rfl
  | some w =>
    dsimp only [Option.bind_eq_bind, Option.bind_some]
    rw [List.getElem?_map, List.getElem?_map]
    cases h : ks[w.ix0]? with
    | none => rfl
    | some k =>
      cases h' : ks[w.ix1]? with
      | none => rfl
      | some k' =>
        dsimp only [Option.map_some, Option.bind_some]
        refine mapM_none (x := xs.length / 4) (List.mem_range.mpr (by omega)) ?_
        unfold AnimColorStops.stop
        dsimp only
        rw [hk k (List.mem_of_getElem? h), List.getElem?_eq_none (by
          show (List.flatMap RawStop.toList _).length ≤ _
          have : (List.flatMap RawStop.toList (convStops xs n)).length = 5 * (convStops xs n).length := stored
          omega)]
        rfl

end Velato
