import Verif.Proofs.EasingAccuracy
import Verif.Props.KeyframesIEEE
import Verif.Props.DoublePrecision

/-!
# C116 — eased values are accurate in double precision
-/

set_option exponentiation.threshold 2000

namespace Velato
open FloatOps (lit)
open F64
open Import (convScalar)

section
variable [Kurbo F64] {δ M : ℝ}

/-- **C116.** A number animated with handles in the unit square, at a frame from one keyframe to
the next: in double precision, with a cubic solver that is accurate up to `δ`, it is, up to a
relative error of `1e-10`, the value between those of the two keyframes that the easing curve
prescribes, at a moment earlier or later by at most `δ + 1e-10` of the time between the keyframes. -/
theorem C116_numbers (hδ : 0 ≤ δ) (hs : SolverWithin δ) (a : Animated F64 F64)
    (hst : SortedTimes a.times) (hlen : a.values.length = a.times.length)
    (hM : M ≤ 2 ^ 1000) {k : Nat} {t0 t1 : Time F64} {v0 v1 : F64}
    (h0 : a.times[k]? = some t0) (h1 : a.times[k + 1]? = some t1)
    (hv0 : a.values[k]? = some v0) (hv1 : a.values[k + 1]? = some v1)
    (hu : t0.HandlesInUnitSquare) (hh : t0.hold = false)
    (b0 : t0.frame.Between (-2 ^ 1000) (2 ^ 1000)) (b1 : t1.frame.Between (-2 ^ 1000) (2 ^ 1000))
    (hg : 1 / 2 ^ 1000 ≤ t1.frame.toR - t0.frame.toR)
    (m0 : v0.Between (-M) M) (m1 : v1.Between (-M) M) (frame d : F64)
    (hf0 : (t0.frame <=. frame) = true) (hf1 : (frame <. t1.frame) = true) :
    (a.evaluateOr frame d).isFin = true ∧
    EasedNear (δ + 1 / 10 ^ 10) (|v1.toR - v0.toR| / 10 ^ 10 + M / 2 ^ 53 + 1 / 2 ^ 1072)
      t0.easing.o t0.easing.i v0.toR v1.toR
      ((frame.toR - t0.frame.toR) / (t1.frame.toR - t0.frame.toR)) (a.evaluateOr frame d).toR := by
  obtain ⟨e, hf⟩ := evaluateOr_between hst hlen h0 h1 hv0 hv1 b0.1 b1.1 hf0 hf1 d
  rw [e]
  have hw := weight_near hf b0 b1 ((toR_le_iff b0.1 hf).mp hf0) ((toR_lt hf b1.1).mp hf1).le hg
  unfold mixWeight
  rw [hh]
  exact tweenScalar_accurate hδ hs hu.easing m0 m1 hM hw.2 hw.1

/-- **C116.** A point animated in the same way, coordinate by coordinate. -/
theorem C116_points (hδ : 0 ≤ δ) (hs : SolverWithin δ) (a : Animated F64 (P2 F64))
    (hst : SortedTimes a.times) (hlen : a.values.length = a.times.length)
    (hM : M ≤ 2 ^ 1000) {k : Nat} {t0 t1 : Time F64} {v0 v1 : P2 F64}
    (h0 : a.times[k]? = some t0) (h1 : a.times[k + 1]? = some t1)
    (hv0 : a.values[k]? = some v0) (hv1 : a.values[k + 1]? = some v1)
    (hu : t0.HandlesInUnitSquare) (hh : t0.hold = false)
    (b0 : t0.frame.Between (-2 ^ 1000) (2 ^ 1000)) (b1 : t1.frame.Between (-2 ^ 1000) (2 ^ 1000))
    (hg : 1 / 2 ^ 1000 ≤ t1.frame.toR - t0.frame.toR)
    (m0 : v0.x.Between (-M) M ∧ v0.y.Between (-M) M)
    (m1 : v1.x.Between (-M) M ∧ v1.y.Between (-M) M) (frame : F64) (d : P2 F64)
    (hf0 : (t0.frame <=. frame) = true) (hf1 : (frame <. t1.frame) = true) :
    EasedNear (δ + 1 / 10 ^ 10) (|v1.x.toR - v0.x.toR| / 10 ^ 10 + M / 2 ^ 53 + 1 / 2 ^ 1072)
      t0.easing.o t0.easing.i v0.x.toR v1.x.toR
      ((frame.toR - t0.frame.toR) / (t1.frame.toR - t0.frame.toR)) (a.evaluateOr frame d).x.toR ∧
    EasedNear (δ + 1 / 10 ^ 10) (|v1.y.toR - v0.y.toR| / 10 ^ 10 + M / 2 ^ 53 + 1 / 2 ^ 1072)
      t0.easing.o t0.easing.i v0.y.toR v1.y.toR
      ((frame.toR - t0.frame.toR) / (t1.frame.toR - t0.frame.toR)) (a.evaluateOr frame d).y.toR := by
  obtain ⟨e, hf⟩ := evaluateOr_between hst hlen h0 h1 hv0 hv1 b0.1 b1.1 hf0 hf1 d
  rw [e]
  have hw := weight_near hf b0 b1 ((toR_le_iff b0.1 hf).mp hf0) ((toR_lt hf b1.1).mp hf1).le hg
  unfold mixWeight
  rw [hh]
  exact ⟨(tweenScalar_accurate hδ hs hu.easing m0.1 m1.1 hM hw.2 hw.1).2,
    (tweenScalar_accurate hδ hs hu.easing m0.2 m1.2 hM hw.2 hw.1).2⟩

/-- **C116.** An imported scalar property, in terms of the document. -/
theorem C116_scalars (hδ : 0 ≤ δ) (hs : SolverWithin δ) {p : Schema.FloatValue F64}
    {v : Value F64 F64} (h : convScalar p = .ok v) {ks : List (Schema.Keyframe F64)}
    (hp : p.value = .animatedValue ks) (hM : M ≤ 2 ^ 1000) (hk : OrdinaryKeyframes M ks)
    {j : Nat} {k0 k1 : Schema.Keyframe F64} (h0 : ks[j]? = some k0) (h1 : ks[j + 1]? = some k1)
    (hh : k0.base.hold ≠ some .true) (frame d : F64)
    (hf0 : (k0.base.time <=. frame) = true) (hf1 : (frame <. k1.base.time) = true) :
    ∃ (o i : Option (EasingHandle F64)) (v0 v1 : F64), HandleOf k0.base.outTangent o ∧
      HandleOf k0.base.inTangent i ∧ k0.value.head? = some v0 ∧ k1.value.head? = some v1 ∧
      (v.evaluateOr frame d).isFin = true ∧
      EasedNear (δ + 1 / 10 ^ 10) (|v1.toR - v0.toR| / 10 ^ 10 + M / 2 ^ 53 + 1 / 2 ^ 1072)
        (o.getD ⟨lit 0, lit 0⟩) (i.getD ⟨lit 1, lit 1⟩) v0.toR v1.toR
        ((frame.toR - k0.base.time.toR) / (k1.base.time.toR - k0.base.time.toR))
        (v.evaluateOr frame d).toR := by
  have h51 := C51_scalars h
  rw [hp] at h51
  obtain ⟨ts, vs, rfl, ht, hv⟩ := h51
  obtain ⟨t0, a0, r0⟩ := forall₂_getElem?_right ht h0
  obtain ⟨t1, a1, r1⟩ := forall₂_getElem?_right ht h1
  obtain ⟨v0, c0, s0⟩ := forall₂_getElem?_right hv h0
  obtain ⟨v1, c1, s1⟩ := forall₂_getElem?_right hv h1
  have m0 := List.mem_of_getElem? h0
  have m1 := List.mem_of_getElem? h1
  have hst : SortedTimes ts := by
    unfold SortedTimes
    refine (forall₂_pairwise ht (hk.order)).imp ?_
    rintro x y ⟨kx, ky, ⟨⟨ex, -⟩, -⟩, ⟨⟨ey, -⟩, -⟩, hx, hy, hxy⟩
    rw [ex, ey, toR_le_iff (hk.times kx hx).1 (hk.times ky hy).1]
    have : (0 : ℝ) ≤ 1 / 2 ^ 1000 := by positivity
    linarith
  have hhold : t0.hold = false := by
    cases hb : t0.hold with
    | false => rfl
    | true => exact absurd (r0.1.2.mp hb) hh
  have hgap := (List.pairwise_iff_getElem.mp hk.order) j (j + 1)
    (List.getElem?_eq_some_iff.mp h0).1 (List.getElem?_eq_some_iff.mp h1).1 (by omega)
  rw [(List.getElem?_eq_some_iff.mp h0).2, (List.getElem?_eq_some_iff.mp h1).2] at hgap
  refine ⟨t0.outTangent, t0.inTangent, v0, v1, r0.2.2, r0.2.1, s0, s1, ?_⟩
  have := C116_numbers hδ hs ⟨ts, vs⟩ hst (by simp only; rw [← ht.length_eq, ← hv.length_eq]) hM
    a0 a1 c0 c1 (r0.unit (hk.handles k0 m0)) hhold (by rw [r0.1.1]; exact hk.times k0 m0)
    (by rw [r1.1.1]; exact hk.times k1 m1) (by rw [r0.1.1, r1.1.1]; linarith)
    (hk.values k0 m0 v0 s0) (hk.values k1 m1 v1 s1) frame d (by rw [r0.1.1]; exact hf0)
    (by rw [r1.1.1]; exact hf1)
  rw [r0.1.1, r1.1.1] at this
  refine ⟨this.1, ?_⟩
  have eo : t0.outTangent.getD ⟨lit 0, lit 0⟩ = t0.easing.o := by
    unfold Time.easing; cases t0.outTangent <;> rfl
  have ei : t0.inTangent.getD ⟨lit 1, lit 1⟩ = t0.easing.i := by
    unfold Time.easing; cases t0.inTangent <;> rfl
  rw [eo, ei]
  exact this.2

/-- **C116.** Without easing handles: linear interpolation, up to the accuracy of the solver. -/
theorem C116_straight (hδ : 0 ≤ δ) (hs : SolverWithin δ) {p : Schema.FloatValue F64}
    {v : Value F64 F64} (h : convScalar p = .ok v) {ks : List (Schema.Keyframe F64)}
    (hp : p.value = .animatedValue ks) (hM : M ≤ 2 ^ 1000) (hk : OrdinaryKeyframes M ks)
    {j : Nat} {k0 k1 : Schema.Keyframe F64} (h0 : ks[j]? = some k0) (h1 : ks[j + 1]? = some k1)
    (hh : k0.base.hold ≠ some .true) (ho : k0.base.outTangent = none)
    (hi : k0.base.inTangent = none) (frame d : F64)
    (hf0 : (k0.base.time <=. frame) = true) (hf1 : (frame <. k1.base.time) = true) :
    ∃ v0 v1 : F64, k0.value.head? = some v0 ∧ k1.value.head? = some v1 ∧
      |(v.evaluateOr frame d).toR - (v0.toR + (v1.toR - v0.toR) *
        ((frame.toR - k0.base.time.toR) / (k1.base.time.toR - k0.base.time.toR)))| ≤
      |v1.toR - v0.toR| * (δ + 2 / 10 ^ 10) + M / 2 ^ 53 + 1 / 2 ^ 1072 := by
  obtain ⟨o, i, v0, v1, e1, e2, e3, e4, -, u, u0, u1, hx, hy⟩ :=
    C116_scalars hδ hs h hp hM hk h0 h1 hh frame d hf0 hf1
  refine ⟨v0, v1, e3, e4, ?_⟩
  rw [ho] at e1
  rw [hi] at e2
  have : o = none := by cases o with | none => rfl | some _ => exact e1.elim
  subst this
  have : i = none := by cases i with | none => rfl | some _ => exact e2.elim
  subst this
  simp only [Option.getD_none] at hx hy
  generalize (frame.toR - k0.base.time.toR) / (k1.base.time.toR - k0.base.time.toR) = s at *
  generalize bez (lit 0 : F64).toR (lit 1 : F64).toR u = y at *
  have h1 : |(v1.toR - v0.toR) * (y - s)| ≤ |v1.toR - v0.toR| * (δ + 1 / 10 ^ 10) := by
    rw [abs_mul]; gcongr
  have h2 := abs_add_le ((v.evaluateOr frame d).toR - (v0.toR + (v1.toR - v0.toR) * y))
    ((v1.toR - v0.toR) * (y - s))
  refine le_trans (le_of_eq ?_) (h2.trans ?_)
  · congr 1; ring
  · have : |v1.toR - v0.toR| * (δ + 2 / 10 ^ 10) =
      |v1.toR - v0.toR| * (δ + 1 / 10 ^ 10) + |v1.toR - v0.toR| / 10 ^ 10 := by ring
    linarith

end

/-! ## The hypotheses can be met -/

/-- There is an accurate solver. -/
example : ∃ k : Kurbo F64, @SolverWithin k (1 / 2 ^ 40) := ⟨accurateKurbo, accurateKurbo_accurate⟩

/-- An opacity that goes from 0 to 100 in 30 frames without easing, and back with easing. -/
def exFade : List (Schema.Keyframe F64) :=
  [⟨⟨lit 0, none, none, none⟩, [lit 0], none⟩, exEased64 (lit 30) (lit 100),
    exEased64 (lit 60) (lit 0)]

theorem exFade_ordinary : OrdinaryKeyframes 100 exFade := by
  have e : ∀ {n : ℕ} {q : ℚ}, n < 2 ^ 53 → q = n → (lit q : F64).toR = n := by
    intro n q hn hq
    have := abs_le.mp (near_lit hn hq).err
    linarith
  have e30 : (lit 30 : F64).toR = 30 := by simpa using e (n := 30) (q := 30) (by norm_num) (by norm_num)
  have e60 : (lit 60 : F64).toR = 60 := by simpa using e (n := 60) (q := 60) (by norm_num) (by norm_num)
  have e100 : (lit 100 : F64).toR = 100 := by
    simpa using e (n := 100) (q := 100) (by norm_num) (by norm_num)
  have f : ∀ {n : ℕ} {q : ℚ}, n < 2 ^ 53 → q = n → (lit q : F64).isFin = true :=
    fun hn hq => (near_lit hn hq).fin
  have f0 := near_lit0.fin
  have f30 := f (n := 30) (q := 30) (by norm_num) (by norm_num)
  have f60 := f (n := 60) (q := 60) (by norm_num) (by norm_num)
  have f100 := f (n := 100) (q := 100) (by norm_num) (by norm_num)
  constructor
  · simp only [exFade, exEased64, List.pairwise_cons, List.mem_cons, List.not_mem_nil, or_false,
      forall_eq_or_imp, forall_eq, List.Pairwise.nil, and_true, e30, e60, lit_toR0,
      false_imp_iff, implies_true]
    norm_num
  · intro k hk
    simp only [exFade, List.mem_cons, List.not_mem_nil, or_false] at hk
    rcases hk with rfl | rfl | rfl <;> simp only [exEased64, F64.Between, e30, e60, lit_toR0]
    · exact ⟨f0, by norm_num, by norm_num⟩
    · exact ⟨f30, by norm_num, by norm_num⟩
    · exact ⟨f60, by norm_num, by norm_num⟩
  · intro k hk
    simp only [exFade, List.mem_cons, List.not_mem_nil, or_false] at hk
    rcases hk with rfl | rfl | rfl
    · rintro h (hh | hh) <;> cases hh
    · exact exEased64_unit _ _
    · exact exEased64_unit _ _
  · intro k hk x hx
    simp only [exFade, List.mem_cons, List.not_mem_nil, or_false] at hk
    rcases hk with rfl | rfl | rfl <;> cases hx <;> simp only [F64.Between, e100, lit_toR0]
    · exact ⟨f0, by norm_num, by norm_num⟩
    · exact ⟨f100, by norm_num, by norm_num⟩
    · exact ⟨f0, by norm_num, by norm_num⟩

/-- It is imported, and with an accurate solver it is at every frame until 30 within a
ten-millionth of a per cent of the linear value. -/
example [Kurbo F64] (hs : SolverWithin (1 / 2 ^ 40)) (frame : F64)
    (h0 : (lit 0 <=. frame) = true) (h1 : (frame <. lit 30) = true) :
    ∃ v, convScalar ⟨none, none, none, none, .animatedValue exFade⟩ = .ok v ∧
      |(v.evaluateOr frame (lit 0)).toR - frame.toR * (10 / 3)| ≤ 1 / 10 ^ 7 := by
  obtain ⟨v, hv⟩ : ∃ v, convScalar ⟨none, none, none, none, .animatedValue exFade⟩ = .ok v :=
    ⟨_, rfl⟩
  refine ⟨v, hv, ?_⟩
  obtain ⟨v0, v1, e0, e1, h⟩ := C116_straight (by norm_num) hs hv rfl (by norm_num) exFade_ordinary
    (j := 0) rfl rfl (by decide) rfl rfl frame (lit 0) h0 h1
  cases e0
  cases e1
  have e : ∀ {n : ℕ} {q : ℚ}, n < 2 ^ 53 → q = n → (lit q : F64).toR = n := by
    intro n q hn hq
    have := abs_le.mp (near_lit hn hq).err
    linarith
  have e30 : (lit 30 : F64).toR = 30 := by simpa using e (n := 30) (q := 30) (by norm_num) (by norm_num)
  have e100 : (lit 100 : F64).toR = 100 := by
    simpa using e (n := 100) (q := 100) (by norm_num) (by norm_num)
  simp only [exEased64, e30, e100, lit_toR0] at h
  refine le_trans (le_of_eq ?_) (h.trans ?_)
  · congr 1; ring
  · norm_num

end Velato
