import Verif.Proofs.Tame
import Verif.Spec.Paint
import Verif.Props.ImportValues

/-!
# Gradients with moderate numbers: helper lemmas
-/

set_option exponentiation.threshold 2000

namespace Velato
open FloatOps (lit)
open F64
open Import

section
variable [Kurbo F64]

omit [Kurbo F64] in
theorem lerp_unit : (Easing.lerp : Easing F64).InUnitSquare64 := by
  have b0 : (lit 0 : F64).Between 0 1 :=
    ⟨near_lit0.fin, by have := abs_le.mp near_lit0.err; constructor <;> linarith⟩
  have b1 : (lit 1 : F64).Between 0 1 :=
    ⟨near_lit1.fin, by have := abs_le.mp near_lit1.err; constructor <;> linarith⟩
  exact ⟨b0, b0, b1, b1⟩

/-- What a number of a gradient is after import. -/
def StopNumber (x : F64) : Prop := x.Between (-(1 / 10 ^ 10)) 1

omit [Kurbo F64] in
theorem stopNumber {x : F64} (h : x.Between 0 1) : StopNumber x := h.mono (by norm_num) (le_refl _)

theorem alphaBetween_unit (x : F64) {pa pb : F64 × F64} (ha : pa.2.Between 0 1) (hb : pb.2.Between 0 1) :
    (alphaBetween x pa pb).Between (-(1 / 10 ^ 10)) (1 + 1 / 10 ^ 10) := by
  have h := tweenScalar_overshoot (normalizeToRange pa.1 pb.1 x) lerp_unit ha hb (M := 1) (by simp) (by simp)
    (by norm_num)
  have h' := overshoot_unit (le_refl 0)
  have w : ∀ {y : F64}, y.Between 0 1 → y.Between (-(1 / 10 ^ 10)) (1 + 1 / 10 ^ 10) := fun h =>
    h.mono (by norm_num) (by norm_num)
  unfold alphaBetween
  dsimp only
  split_ifs
  · exact w hb
  · exact w ha
  · exact ⟨h.1, by linarith [h.2.1], by linarith [h.2.2]⟩

omit [Kurbo F64] in
theorem fmin_stop {a b : F64} (ha : StopNumber a) (hb : b.Between (-(1 / 10 ^ 10)) (1 + 1 / 10 ^ 10)) :
    StopNumber (fmin a b) := by
  unfold fmin
  split_ifs with h
  · exact ha
  · rw [Bool.or_eq_true, not_or] at h
    refine ⟨hb.1, hb.2.1, ?_⟩
    by_contra hc
    refine h.1 ?_
    obtain ⟨s, x, hx, rfl⟩ := isFin_iff.mp ha.1
    obtain ⟨s', y, hy, rfl⟩ := isFin_iff.mp hb.1
    have : (F64.fin s x hx).toR < (F64.fin s' y hy).toR := lt_of_le_of_lt ha.2.2 (not_le.mp hc)
    unfold F64.toR at this
    have : (F64.fin s x hx).toQ < (F64.fin s' y hy).toQ := by exact_mod_cast this
    show F64.lt _ _ = true
    unfold F64.lt
    exact decide_eq_true this

theorem alphaLoop_stop (x : F64) (al : List (F64 × F64)) : ∀ (last : Option (F64 × F64)) (acc : F64),
    (∀ p ∈ al, p.2.Between 0 1) → (∀ p, last = some p → p.2.Between 0 1) → StopNumber acc →
    StopNumber (alphaLoop x al last acc) := by
  induction al with
  | nil => exact fun _ _ _ _ h => h
  | cons pb rest ih =>
    intro last acc h hl ha
    have hb := h pb List.mem_cons_self
    refine ih _ _ (fun p hp => h p (List.mem_cons_of_mem _ hp)) (fun p hp => by cases hp; exact hb) ?_
    cases last with
    | none => exact ha
    | some pa => exact fmin_stop ha (alphaBetween_unit x (hl pa rfl) hb)

/-- All numbers of a stop. -/
def RawStop.Unit (s : RawStop F64) : Prop := ∀ x ∈ s.toList, StopNumber x

theorem stopsLoop_unit (count : Nat) {al : List (F64 × F64)} (hal : ∀ p ∈ al, p.2.Between 0 1) :
    ∀ (cs : List (F64 × F64 × F64 × F64)) (acc : List (RawStop F64)),
    (∀ c ∈ cs, c.1.Between 0 1 ∧ c.2.1.Between 0 1 ∧ c.2.2.1.Between 0 1 ∧ c.2.2.2.Between 0 1) →
    (∀ s ∈ acc, RawStop.Unit s) → ∀ s ∈ stopsLoop count al cs acc, RawStop.Unit s := by
  intro cs
  induction cs with
  | nil => exact fun acc _ h => h
  | cons c rest ih =>
    obtain ⟨o, r, g, b⟩ := c
    intro acc hc ha
    obtain ⟨h1, h2, h3, h4⟩ := hc _ List.mem_cons_self
    have one : StopNumber (lit 1) := stopNumber (lit_one_between.mono (by norm_num) (le_refl _))
    have hacc : ∀ s ∈ acc ++ [⟨o, r, g, b, lit 1⟩], RawStop.Unit s := by
      intro s hs
      rcases List.mem_append.mp hs with hs | hs
      · exact ha s hs
      · cases List.mem_singleton.mp hs
        intro x hx
        simp only [RawStop.toList, List.mem_cons, List.not_mem_nil, or_false] at hx
        rcases hx with rfl | rfl | rfl | rfl | rfl
        · exact stopNumber h1
        · exact stopNumber h2
        · exact stopNumber h3
        · exact stopNumber h4
        · exact one
    rw [stopsLoop]
    split_ifs with hn
    · intro s hs
      obtain ⟨s', hs', rfl⟩ := List.mem_map.mp hs
      have hu := hacc s' hs'
      intro x hx
      simp only [RawStop.toList, List.mem_cons, List.not_mem_nil, or_false] at hx
      rcases hx with rfl | rfl | rfl | rfl | rfl
      · exact hu _ (by simp [RawStop.toList])
      · exact hu _ (by simp [RawStop.toList])
      · exact hu _ (by simp [RawStop.toList])
      · exact hu _ (by simp [RawStop.toList])
      · exact alphaLoop_stop _ _ _ _ hal (fun p hp => by cases hp) (hu _ (by simp [RawStop.toList]))
    · exact ih _ (fun c hc' => hc c (List.mem_cons_of_mem _ hc')) hacc

omit [Kurbo F64] in
theorem chunks4_unit : ∀ {v : List F64}, (∀ x ∈ v, x.Between 0 1) → ∀ c ∈ chunks4 v,
    c.1.Between 0 1 ∧ c.2.1.Between 0 1 ∧ c.2.2.1.Between 0 1 ∧ c.2.2.2.Between 0 1
  | a :: b :: c :: d :: rest, h => by
    intro q hq
    rw [chunks4] at hq
    rcases List.mem_cons.mp hq with rfl | hq
    · exact ⟨h a (by simp), h b (by simp), h c (by simp), h d (by simp)⟩
    · exact chunks4_unit (fun x hx => h x (by simp [hx])) q hq
  | [], _ => by simp [chunks4]
  | [_], _ => by simp [chunks4]
  | [_, _], _ => by simp [chunks4]
  | [_, _, _], _ => by simp [chunks4]

omit [Kurbo F64] in
theorem chunks2_unit : ∀ {v : List F64}, (∀ x ∈ v, x.Between 0 1) → ∀ c ∈ chunks2 v, c.2.Between 0 1
  | a :: b :: rest, h => by
    intro q hq
    rw [chunks2] at hq
    rcases List.mem_cons.mp hq with rfl | hq
    · exact h b (by simp)
    · exact chunks2_unit (fun x hx => h x (by simp [hx])) q hq
  | [], _ => by simp [chunks2]
  | [_], _ => by simp [chunks2]

theorem convStops_unit {v : List F64} (h : ∀ x ∈ v, x.Between 0 1) (count : Nat) :
    ∀ s ∈ convStops v count, RawStop.Unit s :=
  stopsLoop_unit count (fun p hp => chunks2_unit h p (List.mem_of_mem_drop hp)) _ _ (chunks4_unit h)
    (fun _ hs => absurd hs List.not_mem_nil)

omit [Kurbo F64] in
/-- Rounding a number of a gradient to single precision. -/
theorem toF32_stop {x : F64} (h : x.Between (-(2 / 10 ^ 10)) (1 + 1 / 10 ^ 10)) :
    (FloatOps.toF32 x).Between (-(3 / 10 ^ 10)) 1 := by
  have w : x.Between (-((2 / 10 ^ 10 : ℚ) : ℝ)) ((1 + 1 / 10 ^ 10 : ℚ) : ℝ) := by
    refine h.mono ?_ ?_ <;> push_cast <;> exact le_refl _
  have q1 : roundMag fmt32 (2 / 10 ^ 10) ≤ 1 := by decide +kernel
  have q2 : roundMag fmt32 (1 + 1 / 10 ^ 10) ≤ 1 := by decide +kernel
  have k := toF32_mono w q1 q2
  have k1 : rnd (roundMag fmt32 (2 / 10 ^ 10)) ≤ 3 / 10 ^ 10 := by decide +kernel
  have k2 : rnd (roundMag fmt32 (1 + 1 / 10 ^ 10)) ≤ 1 := by decide +kernel
  have k1' : ((rnd (roundMag fmt32 (2 / 10 ^ 10)) : ℚ) : ℝ) ≤ ((3 / 10 ^ 10 : ℚ) : ℝ) := by exact_mod_cast k1
  have k2' : ((rnd (roundMag fmt32 (1 + 1 / 10 ^ 10)) : ℚ) : ℝ) ≤ 1 := by exact_mod_cast k2
  push_cast at k1'
  exact k.mono (by linarith) k2'

theorem tween_stop {x y : F64} (hx : StopNumber x) (hy : StopNumber y) (t : F64) {e : Easing F64}
    (he : e.InUnitSquare64) : (FloatOps.toF32 (tweenScalar x y t e)).Between (-(3 / 10 ^ 10)) 1 := by
  have h := tweenScalar_overshoot t he hx hy (M := 1) (by rw [abs_le]; norm_num) (by simp) (by norm_num)
  have o : overshoot (-(1 / 10 ^ 10)) 1 1 ≤ 1 / 10 ^ 10 := by
    unfold overshoot
    have : (1 : ℝ) / 2 ^ 1072 ≤ 1 / 2 ^ 60 := by norm_num
    have : (1 - -(1 / 10 ^ 10) : ℝ) * (5 / 10 ^ 11) + 1 / 2 ^ 53 + 1 / 2 ^ 60 ≤ 1 / 10 ^ 10 := by norm_num
    linarith
  exact toF32_stop ⟨h.1, by linarith [h.2.1], by linarith [h.2.2]⟩

/-- What is known about a stop when it is drawn. -/
def ColorStop.Unit (s : ColorStop F64) : Prop := s.offset.Between (-(3 / 10 ^ 10)) 1 ∧
  s.color.r.Between (-(3 / 10 ^ 10)) 1 ∧ s.color.g.Between (-(3 / 10 ^ 10)) 1 ∧
  s.color.b.Between (-(3 / 10 ^ 10)) 1 ∧ s.color.a.Between (-(3 / 10 ^ 10)) 1

omit [Kurbo F64] in
theorem mapM_option_mem {α β : Type} {f : α → Option β} : ∀ {l : List α} {r : List β}, l.mapM f = some r →
    ∀ y ∈ r, ∃ x ∈ l, f x = some y
  | [], r, h => by
    cases h
    exact fun y hy => absurd hy List.not_mem_nil
  | x :: l, r, h => by
    rw [List.mapM_cons] at h
    cases hx : f x with
    | none => rw [hx] at h; cases h
    | some a =>
      rw [hx] at h
      cases hl : l.mapM f with
      | none => rw [hl] at h; cases h
      | some as =>
        rw [hl] at h
        cases h
        intro y hy
        rcases List.mem_cons.mp hy with rfl | hy
        · exact ⟨x, by simp, hx⟩
        · obtain ⟨z, hz, e⟩ := mapM_option_mem hl y hy
          exact ⟨z, by simp [hz], e⟩

theorem stop_unit {v0 v1 : List F64} (h0 : ∀ x ∈ v0, StopNumber x) (h1 : ∀ x ∈ v1, StopNumber x) {t0 t : F64}
    {e : Easing F64} (he : e.InUnitSquare64) {i : Nat} {s : ColorStop F64}
    (h : AnimColorStops.stop v0 v1 t0 t e i = some s) : s.Unit := by
  have key : ∀ {j : Nat} {x y : F64} (t : F64), v0[j]? = some x → v1[j]? = some y →
      (FloatOps.toF32 (tweenScalar x y t e)).Between (-(3 / 10 ^ 10)) 1 := fun t hx hy =>
    tween_stop (h0 _ (List.mem_of_getElem? hx)) (h1 _ (List.mem_of_getElem? hy)) t he
  unfold AnimColorStops.stop at h
  simp only [Option.bind_eq_bind, Option.bind_eq_some_iff, Option.some.injEq] at h
  obtain ⟨a0, ha0, a1, ha1, b0, hb0, b1, hb1, c0, hc0, c1, hc1, d0, hd0, d1, hd1, e0, he0, e1, he1, rfl⟩ := h
  exact ⟨key _ ha0 ha1, key _ hb0 hb1, key _ hc0 hc1, key _ hd0 hd1, key _ he0 he1⟩

theorem stops_unit {g : Schema.GradientColors F64} (hg : ColorWithin g.colors.animatedProperty)
    {st : ColorStops F64} (h : convGradientColors g = .ok st) (frame : F64) :
    ∀ s ∈ st.evaluate frame, s.Unit := by
  unfold ColorWithin at hg
  cases hv : g.colors.animatedProperty.value with
  | static xs =>
    rw [hv] at hg
    unfold convGradientColors at h
    rw [hv] at h
    cases h
    intro s hs
    obtain ⟨r, hr, rfl⟩ := List.mem_map.mp (show s ∈ List.map _ _ from hs)
    have hu := convStops_unit hg _ r hr
    have key : ∀ x ∈ r.toList, (FloatOps.toF32 x).Between (-(3 / 10 ^ 10)) 1 := fun x hx =>
      toF32_stop ((hu x hx).mono (by norm_num) (by norm_num))
    exact ⟨key _ (by simp [RawStop.toList]), key _ (by simp [RawStop.toList]), key _ (by simp [RawStop.toList]),
      key _ (by simp [RawStop.toList]), key _ (by simp [RawStop.toList])⟩
  | animatedValue ks =>
    rw [hv] at hg
    obtain ⟨ts, vs, rfl, hts, hvs⟩ := C51_gradients h hv
    have ht : ∀ t ∈ ts, t.HandlesInUnitSquare := by
      intro t ht
      obtain ⟨i, hi⟩ := List.mem_iff_getElem?.mp ht
      have hl : i < ks.length := hts.length_eq ▸ (List.getElem?_eq_some_iff.mp hi).1
      have := (List.forall₂_iff_get.mp hts).2 i hl (List.getElem?_eq_some_iff.mp hi).1
      have e := (List.getElem?_eq_some_iff.mp hi).2
      simp only [List.get_eq_getElem] at this
      rw [e] at this
      exact this.unit (hg.2 _ (List.getElem_mem hl)).1
    have hn : ∀ v ∈ vs, ∀ x ∈ v, StopNumber x := by
      intro v hv x hx
      obtain ⟨i, hi⟩ := List.mem_iff_getElem?.mp hv
      have hl : i < ks.length := hvs.length_eq ▸ (List.getElem?_eq_some_iff.mp hi).1
      have := (List.forall₂_iff_get.mp hvs).2 i hl (List.getElem?_eq_some_iff.mp hi).1
      have e := (List.getElem?_eq_some_iff.mp hi).2
      simp only [List.get_eq_getElem] at this
      rw [e] at this
      rw [this] at hx
      obtain ⟨s, hs, hx⟩ := List.mem_flatMap.mp hx
      exact convStops_unit (hg.2 _ (List.getElem_mem hl)).2 _ s hs x hx
    intro s hs
    change s ∈ (AnimColorStops.evaluateInner _ frame).getD [] at hs
    cases hi : AnimColorStops.evaluateInner ⟨ts, vs, g.count⟩ frame with
    | none => rw [hi] at hs; exact absurd hs List.not_mem_nil
    | some r =>
      rw [hi] at hs
      unfold AnimColorStops.evaluateInner at hi
      simp only [Option.bind_eq_bind, Option.bind_eq_some_iff] at hi
      obtain ⟨w, hw, v0, hv0, v1, hv1, hm⟩ := hi
      obtain ⟨i, -, hs'⟩ := mapM_option_mem hm s hs
      refine stop_unit (hn _ (List.mem_of_getElem? hv0)) (hn _ (List.mem_of_getElem? hv1)) ?_ hs'
      unfold Time.framesAndWeight at hw
      split_ifs at hw
      cases hw
      exact (ht _ (List.getElem_mem _)).easing

end

end Velato
