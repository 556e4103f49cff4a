import Verif.Proofs.Trim

/-!
# C19, C20, C21: the segments of a trim
-/

namespace Velato
open FloatOps (lit)

/-! ## C19, in IEEE double arithmetic -/

/-- **C19**: the segments of a trim lie in [0, 1], start before they end, and a second segment starts
at 0 and is present only if the first one ends at 1.  (IEEE arithmetic, including the case that the
remainder of the start rounds up to 100; the bound 2^1022 only excludes overflow.) -/
theorem C19_normalized {t : FixedTrim F64} (h1 : F64.Bdd t.start 1022) (h2 : F64.Bdd t.stop 1022)
    (h3 : F64.Bdd t.offset 1022) {first : F64 × F64} {second : Option (F64 × F64)}
    (h : t.normalized = some (first, second)) :
    (lit 0 <=. first.1) = true ∧ (first.1 <=. first.2) = true ∧ (first.2 <=. lit 1) = true ∧
    ∀ s, second = some s → first.2 = lit 1 ∧ s.1 = lit 0 ∧ (lit 0 <=. s.2) = true ∧
      (s.2 <=. lit 1) = true := by
  unfold FixedTrim.normalized at h
  obtain ⟨lo, hi, hlo, hhi, he, hle⟩ : ∃ lo hi : F64, F64.Bdd lo 1022 ∧ F64.Bdd hi 1022 ∧
      (if (t.start <=. t.stop) = true then (t.start, t.stop) else (t.stop, t.start)) = (lo, hi) ∧
      lo.toQ ≤ hi.toQ := by
    split
    · rename_i hc
      exact ⟨_, _, h1, h2, rfl, (F64.le_fin h1.1 h2.1).mp hc⟩
    · rename_i hc
      rw [F64.le_fin h1.1 h2.1, not_le] at hc
      exact ⟨_, _, h2, h1, rfl, hc.le⟩
  simp only [he] at h
  have hr : F64.Bdd (hi -. lo) 1023 := F64.Bdd.sub hhi hlo (by norm_num)
  split at h
  · cases h
  rename_i hsmall
  split at h
  · rw [Option.some.injEq, Prod.mk.injEq] at h
    obtain ⟨rfl, rfl⟩ := h
    exact ⟨by decide +kernel, by decide +kernel, by decide +kernel,
      fun s hs => (Option.some_ne_none _ hs.symm).elim⟩
  rename_i hlarge
  -- the range is between 0 and 100
  have htiny : (tiny : F64).isFin = true ∧ 0 < (tiny : F64).toQ := by decide +kernel
  have h100 : (lit 100 -. tiny : F64).isFin = true ∧ (lit 100 -. tiny : F64).toQ ≤ 100 := by
    decide +kernel
  rw [F64.lt_fin hr.1 htiny.1, not_lt] at hsmall
  rw [F64.le_fin h100.1 hr.1, not_le] at hlarge
  generalize hrg : hi -. lo = range at *
  have hr0 : 0 ≤ range.toQ := by linarith
  have hr1 : range.toQ ≤ 100 := by linarith
  -- the start
  have hoff : F64.Bdd (t.offset *. (lit 100 /. lit 360)) 1022 :=
    F64.Bdd.mul (k := 1022) (l := 0) h3 (by unfold F64.Bdd; decide +kernel) (by norm_num)
  have hx : F64.Bdd (lo +. t.offset *. (lit 100 /. lit 360)) 1023 :=
    F64.Bdd.add hlo hoff (by norm_num)
  obtain ⟨hs1, hs2, hs3⟩ := F64.remEuclid100 hx.1
  generalize remEuclid (lo +. t.offset *. (lit 100 /. lit 360)) (lit 100) = start at *
  -- the end
  have he200 := F64.rnd_between (q := start.toQ + range.toQ) (b := 200) (by linarith) (by linarith)
    F64.exact_200
  have hend := F64.add_fin hs1 hr.1 (F64.small_lt_maxMag he200.1 (he200.2.trans (by norm_num)))
  change (start +. range).isFin = true ∧ (start +. range).toQ = _ at hend
  have hmono : start.toQ ≤ (start +. range).toQ := by
    rw [hend.2]
    have := F64.rnd_mono (show start.toQ ≤ start.toQ + range.toQ by linarith)
    rwa [F64.rnd_of_exact (F64.exact_toQ start)] at this
  rw [← hend.2] at he200
  generalize start +. range = stop at *
  have d1 := F64.div100 hs1 hs2 hs3
  change (start /. lit 100).isFin = true ∧ (start /. lit 100).toQ = _ ∧ _ at d1
  split at h
  · rename_i hc
    rw [F64.le_fin hend.1 F64.isFin_lit100, F64.toQ_lit100] at hc
    have d2 := F64.div100 hend.1 he200.1 hc
    change (stop /. lit 100).isFin = true ∧ (stop /. lit 100).toQ = _ ∧ _ at d2
    rw [Option.some.injEq, Prod.mk.injEq] at h
    obtain ⟨rfl, rfl⟩ := h
    refine ⟨?_, ?_, ?_, fun s hs => (Option.some_ne_none _ hs.symm).elim⟩
    · rw [F64.le_fin F64.isFin_lit0 d1.1, F64.toQ_lit0, d1.2.1]; exact d1.2.2.1
    · rw [F64.le_fin d1.1 d2.1, d1.2.1, d2.2.1]
      exact F64.rnd_mono (by linarith)
    · rw [F64.le_fin d2.1 F64.isFin_lit1, F64.toQ_lit1, d2.2.1]; exact d2.2.2.2
  · rename_i hc
    rw [F64.le_fin hend.1 F64.isFin_lit100, F64.toQ_lit100, not_le] at hc
    have hb := F64.rnd_between (q := stop.toQ - 100) (b := 100) (by linarith) (by linarith)
      F64.exact_100
    have hsub := F64.sub_fin hend.1 F64.isFin_lit100
      (by rw [F64.toQ_lit100]; exact F64.small_lt_maxMag hb.1 (hb.2.trans (by norm_num)))
    change (stop -. lit 100).isFin = true ∧ (stop -. lit 100).toQ = _ at hsub
    rw [F64.toQ_lit100] at hsub
    rw [← hsub.2] at hb
    have d2 := F64.div100 hsub.1 hb.1 hb.2
    change ((stop -. lit 100) /. lit 100).isFin = true ∧ ((stop -. lit 100) /. lit 100).toQ = _ ∧ _
      at d2
    rw [Option.some.injEq, Prod.mk.injEq] at h
    obtain ⟨rfl, rfl⟩ := h
    have h11 : ((lit 1 : F64) <=. lit 1) = true := by decide +kernel
    refine ⟨?_, ?_, h11, ?_⟩
    · rw [F64.le_fin F64.isFin_lit0 d1.1, F64.toQ_lit0, d1.2.1]; exact d1.2.2.1
    · rw [F64.le_fin d1.1 F64.isFin_lit1, F64.toQ_lit1, d1.2.1]; exact d1.2.2.2
    · rintro s hs
      rw [Option.some.injEq] at hs
      subst hs
      refine ⟨rfl, rfl, ?_, ?_⟩
      · rw [F64.le_fin F64.isFin_lit0 d2.1, F64.toQ_lit0, d2.2.1]; exact d2.2.2.1
      · rw [F64.le_fin d2.1 F64.isFin_lit1, F64.toQ_lit1, d2.2.1]; exact d2.2.2.2

/-- The corner case: a tiny negative start has remainder exactly 100 and gives the segments
(1, 1) and (0, 1/2). -/
example : (⟨lit (-1 / 10 ^ 30), lit 50, lit 0⟩ : FixedTrim F64).normalized
    = some ((lit 1, lit 1), some (lit 0, lit (1 / 2))) := by decide +kernel

/-- A trim that wraps around. -/
example : (⟨lit 25, lit 75, lit 180⟩ : FixedTrim F64).normalized
    = some ((lit (3 / 4), lit 1), some (lit 0, lit (1 / 4))) := by decide +kernel

/-! ## C20, C21, in exact arithmetic -/

/-- The total length of the segments of a trim. -/
noncomputable def trimLength (x : Option ((ℝ × ℝ) × Option (ℝ × ℝ))) : ℝ :=
  match x with
  | none => 0
  | some (first, second) =>
    (first.2 - first.1) + (match second with | some s => s.2 - s.1 | none => 0)

theorem remEuclid_real (x : ℝ) : remEuclid x (lit 100) = x - 100 * ⌊x / 100⌋ := by
  unfold remEuclid
  show (if decide ((if 0 ≤ x then x - |((100 : ℚ) : ℝ)| * ⌊x / |((100 : ℚ) : ℝ)|⌋
    else -(-x - |((100 : ℚ) : ℝ)| * ⌊-x / |((100 : ℚ) : ℝ)|⌋)) < ((0 : ℚ) : ℝ)) = true then
    (if 0 ≤ x then x - |((100 : ℚ) : ℝ)| * ⌊x / |((100 : ℚ) : ℝ)|⌋
    else -(-x - |((100 : ℚ) : ℝ)| * ⌊-x / |((100 : ℚ) : ℝ)|⌋)) + |((100 : ℚ) : ℝ)| else
    (if 0 ≤ x then x - |((100 : ℚ) : ℝ)| * ⌊x / |((100 : ℚ) : ℝ)|⌋
    else -(-x - |((100 : ℚ) : ℝ)| * ⌊-x / |((100 : ℚ) : ℝ)|⌋))) = _
  have h100 : |((100 : ℚ) : ℝ)| = 100 := by norm_num
  rw [h100]
  push_cast
  simp only [decide_eq_true_eq]
  by_cases hx : 0 ≤ x
  · have h1 := Int.floor_le (x / 100)
    rw [if_pos hx, if_neg]
    linarith
  · rw [if_neg hx]
    have h1 := Int.floor_le (-x / 100)
    have h2 := Int.lt_floor_add_one (-x / 100)
    by_cases he : -x = 100 * ⌊-x / 100⌋
    · rw [if_neg (by linarith)]
      have : ⌊x / 100⌋ = -⌊-x / 100⌋ := by
        rw [Int.floor_eq_iff]
        push_cast
        constructor <;> linarith
      rw [this]; push_cast; ring
    · have hlt : (⌊-x / 100⌋ : ℝ) < -x / 100 := lt_of_le_of_ne h1 fun h => he (by rw [h]; ring)
      rw [if_pos (by linarith)]
      have : ⌊x / 100⌋ = -⌊-x / 100⌋ - 1 := by
        rw [Int.floor_eq_iff]
        push_cast
        constructor <;> linarith
      rw [this]; push_cast; ring

theorem real_normalized (t : FixedTrim ℝ) :
    t.normalized =
      let range := |t.stop - t.start|
      if range < 1 / 10 ^ 9 then none
      else if 100 - 1 / 10 ^ 9 ≤ range then some ((0, 1), none)
      else
        let x := min t.start t.stop + t.offset * (100 / 360)
        let start := x - 100 * ⌊x / 100⌋
        if start + range ≤ 100 then some ((start / 100, (start + range) / 100), none)
        else some ((start / 100, 1), some (0, (start + range - 100) / 100)) := by
  unfold FixedTrim.normalized
  have htiny : (tiny : ℝ) = 1 / 10 ^ 9 := by
    show ((1 / 1000000000 : ℚ) : ℝ) = _
    norm_num
  have hp : (if (t.start <=. t.stop) = true then (t.start, t.stop) else (t.stop, t.start))
      = (min t.start t.stop, max t.start t.stop) := by
    simp only [real_le, decide_eq_true_eq]
    split
    · rename_i h; rw [min_eq_left h, max_eq_right h]
    · rename_i h; rw [min_eq_right (not_le.mp h).le, max_eq_left (not_le.mp h).le]
  simp only [hp, htiny, remEuclid_real]
  simp only [real_sub, real_add, real_mul, real_div, real_lit, real_lt, real_le, decide_eq_true_eq]
  have hm : max t.start t.stop - min t.start t.stop = |t.stop - t.start| := by
    rw [abs_sub_comm]; exact max_sub_min_eq_abs' _ _
  rw [hm]
  push_cast
  rfl

/-- **C20**: the total length of the segments is |end - start| / 100, capped at 1, up to 1e-11 (the
code treats ranges below 1e-9 percent as empty and ranges above 100 - 1e-9 percent as full). -/
theorem C20_length (t : FixedTrim ℝ) :
    |trimLength t.normalized - min (|t.stop - t.start| / 100) 1| ≤ 1 / 10 ^ 11 := by
  rw [real_normalized]
  dsimp only
  have h0 := abs_nonneg (t.stop - t.start)
  generalize |t.stop - t.start| = range at *
  split
  · rename_i h
    rw [min_eq_left (show range / 100 ≤ 1 by norm_num at h ⊢; linarith)]
    simp only [trimLength]
    rw [abs_le]
    constructor <;> linarith
  split
  · rename_i h
    simp only [trimLength]
    rw [abs_le]
    rcases le_total (range / 100) 1 with h' | h'
    · rw [min_eq_left h']; constructor <;> linarith
    · rw [min_eq_right h']; constructor <;> norm_num
  rename_i h1 h2
  rw [min_eq_left (show range / 100 ≤ 1 by norm_num at h2 ⊢; linarith)]
  split
  · simp only [trimLength]
    rw [show ∀ a : ℝ, (a + range) / 100 - a / 100 + 0 - range / 100 = 0 by intro a; ring]
    norm_num
  · simp only [trimLength]
    rw [show ∀ a : ℝ, 1 - a / 100 + ((a + range - 100) / 100 - 0) - range / 100 = 0 by
      intro a; ring]
    norm_num

/-- **C20**, exactly: between the thresholds the length is exact. -/
theorem C20_exact (t : FixedTrim ℝ) (h1 : 1 / 10 ^ 9 ≤ |t.stop - t.start|)
    (h2 : |t.stop - t.start| < 100 - 1 / 10 ^ 9) :
    trimLength t.normalized = |t.stop - t.start| / 100 := by
  rw [real_normalized]
  dsimp only
  rw [if_neg (not_lt.mpr h1), if_neg (not_le.mpr h2)]
  split <;> simp only [trimLength] <;> ring

example : 1 / 10 ^ 9 ≤ |(75 : ℝ) - 25| ∧ |(75 : ℝ) - 25| < 100 - 1 / 10 ^ 9 := by norm_num

/-- **C21**: swapping start and end does not change a trim (in IEEE arithmetic, for finite start and
end). -/
theorem C21_swap (s e o : F64) (hs : s.isFin = true) (he : e.isFin = true) :
    (⟨e, s, o⟩ : FixedTrim F64).normalized = (⟨s, e, o⟩ : FixedTrim F64).normalized := by
  rcases lt_trichotomy s.toQ e.toQ with h | h | h
  · have h1 : (s <=. e) = true := (F64.le_fin hs he).mpr h.le
    have h2 : (e <=. s) = false := by
      rw [← Bool.not_eq_true, F64.le_fin he hs, not_le]; exact h
    unfold FixedTrim.normalized
    simp only [h1, h2, if_true, Bool.false_eq_true, if_false]
  · have h1 : (s <=. e) = true := (F64.le_fin hs he).mpr h.le
    have h2 : (e <=. s) = true := (F64.le_fin he hs).mpr h.ge
    have key : ∀ x y : F64, x.isFin = true → y.isFin = true → x.toQ = y.toQ →
        ((x -. y) <. (tiny : F64)) = true := by
      intro x y hx hy hxy
      have htiny : (tiny : F64).isFin = true ∧ 0 < (tiny : F64).toQ := by decide +kernel
      have := F64.sub_fin hx hy (by rw [hxy, sub_self, F64.rnd_zero, abs_zero]; decide +kernel)
      change (x -. y).isFin = true ∧ (x -. y).toQ = _ at this
      rw [F64.lt_fin this.1 htiny.1, this.2, hxy, sub_self, F64.rnd_zero]
      exact htiny.2
    unfold FixedTrim.normalized
    simp only [h1, h2, if_true, key e s he hs h.symm, key s e hs he h]
  · have h1 : (s <=. e) = false := by
      rw [← Bool.not_eq_true, F64.le_fin hs he, not_le]; exact h
    have h2 : (e <=. s) = true := (F64.le_fin he hs).mpr h.le
    unfold FixedTrim.normalized
    simp only [h1, h2, if_true, Bool.false_eq_true, if_false]

/-- **C21**, exact arithmetic: swapping start and end does not change a trim. -/
theorem C21_swap_real (s e o : ℝ) :
    (⟨e, s, o⟩ : FixedTrim ℝ).normalized = (⟨s, e, o⟩ : FixedTrim ℝ).normalized := by
  rw [real_normalized, real_normalized]
  simp only [abs_sub_comm s e, min_comm s e]

/-- **C21**, exact arithmetic: rotating the offset by `n` whole turns does not change a trim. -/
theorem C21_turns (t : FixedTrim ℝ) (n : ℤ) :
    ({ t with offset := t.offset + 360 * n } : FixedTrim ℝ).normalized = t.normalized := by
  rw [real_normalized, real_normalized]
  dsimp only
  have e : min t.start t.stop + (t.offset + 360 * n) * (100 / 360)
      = min t.start t.stop + t.offset * (100 / 360) + 100 * n := by ring
  rw [e]
  generalize min t.start t.stop + t.offset * (100 / 360) = x
  have hf : ⌊(x + 100 * n) / 100⌋ = ⌊x / 100⌋ + n := by
    rw [show (x + 100 * (n : ℝ)) / 100 = x / 100 + n by ring, Int.floor_add_intCast]
  rw [hf]
  push_cast
  rw [show x + 100 * (n : ℝ) - 100 * ((⌊x / 100⌋ : ℝ) + n) = x - 100 * ⌊x / 100⌋ by ring]

end Velato
