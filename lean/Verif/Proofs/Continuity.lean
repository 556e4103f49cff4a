import Verif.Spec.Continuity
import Verif.Proofs.Playback
import Mathlib.Topology.Homeomorph.Lemmas
import Mathlib.Topology.Order.ProjIcc

/-!
# Jumps of animated values: helper lemmas
-/

namespace Velato
open FloatOps (lit)

/-! ## The inverse of the first coordinate of an easing curve -/

theorem bez_strict {p1 p2 : ℝ} (h1 : 0 ≤ p1 ∧ p1 ≤ 1) (h2 : 0 ≤ p2 ∧ p2 ≤ 1) :
    StrictMonoOn (bez p1 p2) (Set.Icc 0 1) := by
  rintro u ⟨hu0, hu1⟩ v ⟨hv0, hv1⟩ h
  have hd : 0 < v - u := by linarith
  have q : 0 < u ^ 2 + u * v + v ^ 2 := by nlinarith [mul_nonneg hu0 hv0]
  have d1 : u ^ 3 < v ^ 3 := by nlinarith [mul_pos hd q]
  have d4 : 1 - (1 - u) ^ 3 < 1 - (1 - v) ^ 3 := by
    have q' : 0 < (1 - u) ^ 2 + (1 - u) * (1 - v) + (1 - v) ^ 2 := by
      nlinarith [mul_nonneg (sub_nonneg.mpr hu1) (sub_nonneg.mpr hv1)]
    nlinarith [mul_pos hd q']
  have d3 : 3 * u ^ 2 - 2 * u ^ 3 < 3 * v ^ 2 - 2 * v ^ 3 := by
    have q' : 0 < 3 * (u + v) - 2 * (u ^ 2 + u * v + v ^ 2) := by
      nlinarith [mul_nonneg hu0 (sub_nonneg.mpr hu1), mul_nonneg hv0 (sub_nonneg.mpr hv1),
        mul_nonneg hu0 (sub_nonneg.mpr hv1), mul_nonneg hv0 (sub_nonneg.mpr hu1)]
    nlinarith [mul_pos hd q']
  have d2 : 3 * u - 6 * u ^ 2 + 4 * u ^ 3 < 3 * v - 6 * v ^ 2 + 4 * v ^ 3 := by
    have q' : 0 < 3 - 6 * (u + v) + 4 * (u ^ 2 + u * v + v ^ 2) := by
      nlinarith [sq_nonneg (u + v - 1), mul_pos hd hd]
    nlinarith [mul_pos hd q']
  have e : ∀ x : ℝ, bez p1 p2 x = (1 - p1) * (1 - p2) * x ^ 3 +
      p1 * (1 - p2) * (3 * x - 6 * x ^ 2 + 4 * x ^ 3) + (1 - p1) * p2 * (3 * x ^ 2 - 2 * x ^ 3) +
      p1 * p2 * (1 - (1 - x) ^ 3) := by intro x; unfold bez; ring
  rw [e, e]
  have a : 0 ≤ 1 - p1 := by linarith [h1.2]
  have b : 0 ≤ 1 - p2 := by linarith [h2.2]
  have w1 := mul_nonneg a b
  have w2 := mul_nonneg h1.1 b
  have w3 := mul_nonneg a h2.1
  have w4 := mul_nonneg h1.1 h2.1
  have m1 := mul_nonneg w1 (sub_pos.mpr d1).le
  have m2 := mul_nonneg w2 (sub_pos.mpr d2).le
  have m3 := mul_nonneg w3 (sub_pos.mpr d3).le
  have m4 := mul_nonneg w4 (sub_pos.mpr d4).le
  have hsum : (1 - p1) * (1 - p2) + p1 * (1 - p2) + (1 - p1) * p2 + p1 * p2 = 1 := by ring
  by_contra hc
  have z1 : (1 - p1) * (1 - p2) * (v ^ 3 - u ^ 3) = 0 := by linarith
  have z2 : p1 * (1 - p2) * (3 * v - 6 * v ^ 2 + 4 * v ^ 3 - (3 * u - 6 * u ^ 2 + 4 * u ^ 3)) = 0 := by
    linarith
  have z3 : (1 - p1) * p2 * (3 * v ^ 2 - 2 * v ^ 3 - (3 * u ^ 2 - 2 * u ^ 3)) = 0 := by linarith
  have z4 : p1 * p2 * (1 - (1 - v) ^ 3 - (1 - (1 - u) ^ 3)) = 0 := by linarith
  have y1 := (mul_eq_zero.mp z1).resolve_right (sub_pos.mpr d1).ne'
  have y2 := (mul_eq_zero.mp z2).resolve_right (sub_pos.mpr d2).ne'
  have y3 := (mul_eq_zero.mp z3).resolve_right (sub_pos.mpr d3).ne'
  have y4 := (mul_eq_zero.mp z4).resolve_right (sub_pos.mpr d4).ne'
  rw [y1, y2, y3, y4] at hsum
  norm_num at hsum

/-- There is a continuous function that is the inverse of the curve on the unit interval and
constant outside. -/
theorem exists_inverse {p1 p2 : ℝ} (h1 : 0 ≤ p1 ∧ p1 ≤ 1) (h2 : 0 ≤ p2 ∧ p2 ≤ 1) :
    ∃ inv : ℝ → ℝ, Continuous inv ∧ (∀ t, inv t ∈ Set.Icc (0 : ℝ) 1) ∧
      (∀ t ∈ Set.Icc (0 : ℝ) 1, bez p1 p2 (inv t) = t) ∧
      (∀ u ∈ Set.Icc (0 : ℝ) 1, inv (bez p1 p2 u) = u) ∧ (∀ t ≤ 0, inv t = 0) ∧ ∀ t, 1 ≤ t → inv t = 1 := by
  let f : Set.Icc (0 : ℝ) 1 → Set.Icc (0 : ℝ) 1 := fun u => ⟨bez p1 p2 u, bez_unit h1 h2 u.2⟩
  have hf : Continuous f :=
    ((bez_continuous p1 p2).comp continuous_subtype_val).subtype_mk _
  have hinj : Function.Injective f := by
    intro a b hab
    exact Subtype.ext ((bez_strict h1 h2).injOn a.2 b.2 (congrArg Subtype.val hab))
  have hsurj : Function.Surjective f := by
    rintro ⟨t, ht⟩
    have := intermediate_value_Icc (zero_le_one (α := ℝ)) (bez_continuous p1 p2).continuousOn
    rw [bez_zero, bez_one] at this
    obtain ⟨u, hu, e⟩ := this ht
    exact ⟨⟨u, hu⟩, Subtype.ext e⟩
  let H := Continuous.homeoOfEquivCompactToT2 (f := Equiv.ofBijective f ⟨hinj, hsurj⟩) hf
  have hl : ∀ u, H.symm (f u) = u := fun u => H.symm_apply_apply u
  have hr : ∀ t, f (H.symm t) = t := fun t => H.apply_symm_apply t
  refine ⟨fun t => (H.symm (Set.projIcc 0 1 zero_le_one t) : ℝ), ?_, fun t => Subtype.property _,
    ?_, ?_, ?_, ?_⟩
  · exact continuous_subtype_val.comp (H.symm.continuous.comp continuous_projIcc)
  · intro t ht
    have := congrArg Subtype.val (hr (Set.projIcc 0 1 zero_le_one t))
    rw [Set.projIcc_of_mem _ ht] at this
    show bez p1 p2 (H.symm (Set.projIcc 0 1 zero_le_one t)) = t
    rw [Set.projIcc_of_mem _ ht]
    exact this
  · intro u hu
    show (H.symm (Set.projIcc 0 1 zero_le_one (bez p1 p2 u)) : ℝ) = u
    rw [Set.projIcc_of_mem _ (bez_unit h1 h2 hu)]
    exact congrArg Subtype.val (hl ⟨u, hu⟩)
  · intro t ht
    show (H.symm (Set.projIcc 0 1 zero_le_one t) : ℝ) = 0
    rw [Set.projIcc_of_le_left _ ht]
    have := hl ⟨0, by norm_num⟩
    have e : f ⟨0, by norm_num⟩ = ⟨0, Set.left_mem_Icc.mpr zero_le_one⟩ := Subtype.ext (bez_zero p1 p2)
    rw [e] at this
    exact congrArg Subtype.val this
  · intro t ht
    show (H.symm (Set.projIcc 0 1 zero_le_one t) : ℝ) = 1
    rw [Set.projIcc_of_right_le _ ht]
    have := hl ⟨1, by norm_num⟩
    have e : f ⟨1, by norm_num⟩ = ⟨1, Set.right_mem_Icc.mpr zero_le_one⟩ := Subtype.ext (bez_one p1 p2)
    rw [e] at this
    exact congrArg Subtype.val this

/-! ## The progress is close to a continuous function -/

/-- A continuous progress from 0 to 1. -/
structure Glide (c : ℝ → ℝ) : Prop where
  cont : Continuous c
  lo : ∀ t ≤ 0, c t = 0
  hi : ∀ t, 1 ≤ t → c t = 1

theorem bez_small {p1 p2 u : ℝ} (h1 : 0 ≤ p1 ∧ p1 ≤ 1) (h2 : 0 ≤ p2 ∧ p2 ≤ 1)
    (hu : 0 ≤ u) (hu' : u ≤ 1 / 10 ^ 7) : 0 ≤ bez p1 p2 u ∧ bez p1 p2 u ≤ 3 / 10 ^ 7 := by
  have hu1 : u ≤ 1 := hu'.trans (by norm_num)
  refine ⟨(bez_unit h1 h2 ⟨hu, hu1⟩).1, ?_⟩
  have a : 0 ≤ (1 - p1) * (u * (1 - u) ^ 2) :=
    mul_nonneg (by linarith [h1.2]) (mul_nonneg hu (sq_nonneg _))
  have b : 0 ≤ (1 - p2) * (u ^ 2 * (1 - u)) :=
    mul_nonneg (by linarith [h2.2]) (mul_nonneg (sq_nonneg _) (by linarith))
  have : bez p1 p2 u ≤ 3 * u := by
    unfold bez
    nlinarith [mul_nonneg hu hu, mul_nonneg (mul_nonneg hu hu) (sub_nonneg.mpr hu1)]
  linarith

theorem bez_ge_cube {p1 p2 u : ℝ} (h1 : 0 ≤ p1) (h2 : 0 ≤ p2) (hu : 0 ≤ u) (hu' : u ≤ 1) :
    u ^ 3 ≤ bez p1 p2 u := by
  unfold bez
  have a : 0 ≤ p1 * (u * (1 - u) ^ 2) := mul_nonneg h1 (mul_nonneg hu (sq_nonneg _))
  have b : 0 ≤ p2 * (u ^ 2 * (1 - u)) := mul_nonneg h2 (mul_nonneg (sq_nonneg _) (by linarith))
  nlinarith

/-- Where the curve is hardly above 0, its parameter is. -/
theorem param_small {p1 p2 u : ℝ} (h1 : 0 ≤ p1) (h2 : 0 ≤ p2) (hu : u ∈ Set.Icc (0 : ℝ) 1)
    (h : bez p1 p2 u ≤ 1 / 10 ^ 21) : u ≤ 1 / 10 ^ 7 := by
  by_contra hc
  have := bez_ge_cube h1 h2 hu.1 hu.2
  have : (1 / 10 ^ 7 : ℝ) ^ 3 < u ^ 3 := pow_lt_pow_left₀ (not_le.mp hc) (by norm_num) (by norm_num)
  have e : (1 / 10 ^ 7 : ℝ) ^ 3 = 1 / 10 ^ 21 := by norm_num
  linarith

/-- For every easing in the unit square there is a continuous progress that all points of its curve,
prolonged by `1e-11`, are within `4e-7` of. -/
theorem exists_glide {e : Easing ℝ} (he : e.InUnitSquare) :
    ∃ c : ℝ → ℝ, Glide c ∧ ∀ w p, 0 ≤ w → w ≤ 1 → OnEasingCurve e.o e.i w p →
      |p - c w| ≤ 4 / 10 ^ 7 := by
  obtain ⟨inv, hc, hm, hr, hl, hlo, hhi⟩ := exists_inverse he.ox he.ix
  refine ⟨fun t => bez e.o.y e.i.y (inv t), ⟨(bez_continuous _ _).comp hc, ?_, ?_⟩, ?_⟩
  · intro t ht; simp only [hlo t ht, bez_zero]
  · intro t ht; simp only [hhi t ht, bez_one]
  rintro w p h0 h1 ⟨u, hu, rfl, hu0, hu1, -⟩
  show |bez e.o.y e.i.y u - bez e.o.y e.i.y (inv w)| ≤ _
  have hw : bez e.o.x e.i.x (inv w) = w := hr w ⟨h0, h1⟩
  rcases lt_or_ge u 0 with hneg | hpos
  · obtain ⟨-, hle⟩ := bez_left he.ox he.ix (d := 1 / 10 ^ 11) (by norm_num) hu0 hneg
    obtain ⟨hy, hy'⟩ := bez_left he.oy he.iy (d := 1 / 10 ^ 11) (by norm_num) hu0 hneg
    have hi := param_small he.ox.1 he.ix.1 (hm w) (by rw [hw, ← hu]; exact hle.trans (by norm_num))
    obtain ⟨hz, hz'⟩ := bez_small he.oy he.iy (hm w).1 hi
    have n1 : (4 : ℝ) * (1 / 10 ^ 11) ≤ 1 / 10 ^ 7 := by norm_num
    have n2 : (4 : ℝ) * (1 / 10 ^ 11) ^ 2 ≤ 1 / 10 ^ 7 := by norm_num
    rw [abs_le]; constructor <;> linarith
  rcases le_or_gt u 1 with hle | hgt
  · rw [← hu, hl u ⟨hpos, hle⟩, sub_self, abs_zero]; norm_num
  · -- the other end, by symmetry
    have sx : bez (1 - e.i.x) (1 - e.o.x) (1 - u) = 1 - w := by
      have := bez_symm (1 - e.i.x) (1 - e.o.x) u; rw [this, sub_sub_cancel, sub_sub_cancel, hu]
    have sw : bez (1 - e.i.x) (1 - e.o.x) (1 - inv w) = 1 - w := by
      have := bez_symm (1 - e.i.x) (1 - e.o.x) (inv w)
      rw [this, sub_sub_cancel, sub_sub_cancel, hw]
    have sy : ∀ v, bez e.o.y e.i.y v = 1 - bez (1 - e.i.y) (1 - e.o.y) (1 - v) := by
      intro v
      have := bez_symm (1 - e.i.y) (1 - e.o.y) v
      rw [this]; simp only [sub_sub_cancel]
    have ox : 0 ≤ 1 - e.o.x ∧ 1 - e.o.x ≤ 1 := ⟨by linarith [he.ox.2], by linarith [he.ox.1]⟩
    have ix : 0 ≤ 1 - e.i.x ∧ 1 - e.i.x ≤ 1 := ⟨by linarith [he.ix.2], by linarith [he.ix.1]⟩
    have oy : 0 ≤ 1 - e.o.y ∧ 1 - e.o.y ≤ 1 := ⟨by linarith [he.oy.2], by linarith [he.oy.1]⟩
    have iy : 0 ≤ 1 - e.i.y ∧ 1 - e.i.y ≤ 1 := ⟨by linarith [he.iy.2], by linarith [he.iy.1]⟩
    obtain ⟨-, hle⟩ := bez_left ix ox (d := 1 / 10 ^ 11) (u := 1 - u) (by norm_num) (by linarith)
      (by linarith)
    obtain ⟨hy, hy'⟩ := bez_left iy oy (d := 1 / 10 ^ 11) (u := 1 - u) (by norm_num) (by linarith)
      (by linarith)
    have hi := param_small ix.1 ox.1 (u := 1 - inv w)
      ⟨by linarith [(hm w).2], by linarith [(hm w).1]⟩
      (by rw [sw, ← sx]; exact hle.trans (by norm_num))
    obtain ⟨hz, hz'⟩ := bez_small iy oy (u := 1 - inv w) (by linarith [(hm w).2]) hi
    have n1 : (4 : ℝ) * (1 / 10 ^ 11) ≤ 1 / 10 ^ 7 := by norm_num
    have n2 : (4 : ℝ) * (1 / 10 ^ 11) ^ 2 ≤ 1 / 10 ^ 7 := by norm_num
    rw [sy u, sy (inv w), abs_le]; constructor <;> linarith

/-- The straight progress. -/
theorem glide_straight : Glide fun t => max 0 (min t 1) where
  cont := by fun_prop
  lo := by intro t ht; rw [min_eq_left (by linarith)]; exact max_eq_left ht
  hi := by intro t ht; rw [min_eq_right ht]; norm_num

/-! ## From keyframe to keyframe -/

/-- Keyframes with the progress to the next one. -/
structure Stop where
  time : ℝ
  c : ℝ → ℝ
  value : ℝ

/-- The continuous curve through the keyframes. -/
noncomputable def through : List Stop → ℝ → ℝ
  | [], _ => 0
  | [k], _ => k.value
  | k :: k' :: ks, f => through (k' :: ks) f -
      (k'.value - k.value) * (1 - k.c ((f - k.time) / (k'.time - k.time)))

theorem through_cont : ∀ (ks : List Stop), (∀ k ∈ ks, Glide k.c) → Continuous (through ks)
  | [], _ => continuous_const
  | [_], _ => continuous_const
  | k :: k' :: ks, h => by
    have ih := through_cont (k' :: ks) fun x hx => h x (by simp [hx])
    have hc := (h k (by simp)).cont
    show Continuous fun f => _
    simp only [through]
    exact ih.sub (continuous_const.mul (continuous_const.sub (hc.comp (by fun_prop))))

theorem through_before : ∀ (ks : List Stop), (∀ k ∈ ks, Glide k.c) →
    ks.Pairwise (fun a b => a.time < b.time) → ∀ k, ks.head? = some k → ∀ f ≤ k.time,
      through ks f = k.value
  | [], _, _, _, h, _, _ => by cases h
  | [_], _, _, _, h, _, _ => by cases h; rfl
  | k :: k' :: ks, h, hs, _, hk, f, hf => by
    cases hk
    have hlt : k.time < k'.time := (List.pairwise_cons.mp hs).1 k' (by simp)
    have ih := through_before (k' :: ks) (fun x hx => h x (by simp [hx])) (List.pairwise_cons.mp hs).2
      k' rfl f (by linarith)
    rw [through, ih, (h k (by simp)).lo _ (div_nonpos_of_nonpos_of_nonneg (by linarith) (by linarith))]
    ring

theorem through_tail {k k' : Stop} {ks : List Stop} (h : Glide k.c) (hlt : k.time < k'.time) {f : ℝ}
    (hf : k'.time ≤ f) : through (k :: k' :: ks) f = through (k' :: ks) f := by
  rw [through, h.hi _ ((one_le_div (by linarith)).mpr (by linarith))]
  ring

/-- Where a value is between the keyframes, with progress within `tol` of the one given. -/
def Along (tol : ℝ) (ks : List Stop) (f x : ℝ) : Prop :=
  (∃ k, ks.head? = some k ∧ f < k.time ∧ x = k.value) ∨
  (∃ k, ks.getLast? = some k ∧ k.time ≤ f ∧ x = k.value) ∨
  ∃ (i : Nat) (k k' : Stop), ks[i]? = some k ∧ ks[i + 1]? = some k' ∧ k.time ≤ f ∧ f < k'.time ∧
    ∃ p, x = k.value + (k'.value - k.value) * p ∧
      |p - k.c ((f - k.time) / (k'.time - k.time))| ≤ tol

theorem along_near {tol S : ℝ} (ht : 0 ≤ tol) : ∀ (ks : List Stop), (∀ k ∈ ks, Glide k.c) →
    ks.Pairwise (fun a b => a.time < b.time) → StepsAtMost S (ks.map (·.value)) →
    (0 ≤ S) → ∀ f x, Along tol ks f x → |x - through ks f| ≤ tol * S := by
  intro ks
  induction ks with
  | nil => rintro - - - - f x (⟨k, h, -⟩ | ⟨k, h, -⟩ | ⟨i, k, k', h, -⟩) <;> simp at h
  | cons k ks ih =>
    intro h hs hS hS0 f x hx
    have hz : 0 ≤ tol * S := mul_nonneg ht hS0
    have hh : ∀ x ∈ ks, Glide x.c := fun x hx => h x (by simp [hx])
    have hs' := (List.pairwise_cons.mp hs).2
    have hSt : StepsAtMost S (ks.map (·.value)) := fun i a b h1 h2 => hS (i + 1) a b h1 h2
    rcases hx with ⟨k0, e, hf, rfl⟩ | ⟨k0, e, hf, rfl⟩ | ⟨i, k0, k1, e0, e1, hf, hf', p, rfl, hp⟩
    · cases e
      rw [through_before _ h hs k rfl f hf.le, sub_self, abs_zero]; exact hz
    · cases ks with
      | nil =>
        rw [List.getLast?_singleton] at e
        cases e
        rw [through, sub_self, abs_zero]; exact hz
      | cons k' ks =>
        have hlt : k.time < k'.time := (List.pairwise_cons.mp hs).1 k' (by simp)
        rw [List.getLast?_cons_cons] at e
        have hle : k'.time ≤ k0.time := by
          rcases List.mem_cons.mp (List.mem_of_getLast? e) with rfl | hm
          · exact le_refl _
          · exact ((List.pairwise_cons.mp hs').1 k0 hm).le
        rw [through_tail (h k (by simp)) hlt (hle.trans hf)]
        exact ih hh hs' hSt hS0 f _ (.inr (.inl ⟨k0, e, hf, rfl⟩))
    · cases ks with
      | nil => simp at e1
      | cons k' ks =>
        have hlt : k.time < k'.time := (List.pairwise_cons.mp hs).1 k' (by simp)
        cases i with
        | zero =>
          obtain rfl : k = k0 := Option.some.inj e0
          obtain rfl : k' = k1 := Option.some.inj e1
          have hb := through_before (k' :: ks) hh hs' k' rfl f hf'.le
          rw [through, hb]
          have : k.value + (k'.value - k.value) * p - (k'.value - (k'.value - k.value) *
              (1 - k.c ((f - k.time) / (k'.time - k.time)))) =
              (k'.value - k.value) * (p - k.c ((f - k.time) / (k'.time - k.time))) := by ring
          rw [this, abs_mul, mul_comm tol S]
          exact mul_le_mul (hS 0 _ _ rfl rfl) hp (abs_nonneg _) hS0
        | succ i =>
          have hle : k'.time ≤ k0.time := by
            rcases List.mem_cons.mp (List.mem_of_getElem? (l := k' :: ks) (i := i) e0) with rfl | hm
            · exact le_refl _
            · exact ((List.pairwise_cons.mp hs').1 k0 hm).le
          rw [through_tail (h k (by simp)) hlt (hle.trans hf)]
          exact ih hh hs' hSt hS0 f _ (.inr (.inr ⟨i, k0, k1, e0, e1, hf, hf', p, rfl, hp⟩))

/-- Close to a continuous function there are only small jumps. -/
theorem jumps_of_near {tol : ℝ} {x y : ℝ → ℝ} (hy : Continuous y) (h : ∀ f, |x f - y f| ≤ tol) :
    JumpsAtMost (2 * tol) x := by
  intro f ε hε
  obtain ⟨δ, hδ, hd⟩ := Metric.continuous_iff.mp hy f ε hε
  refine ⟨δ, hδ, fun g hg => ?_⟩
  have a := abs_le.mp (h f)
  have b := abs_le.mp (h g)
  have c := abs_lt.mp (Real.dist_eq _ _ ▸ hd g (by rwa [Real.dist_eq]))
  rw [abs_lt]; constructor <;> linarith [a.1, a.2, b.1, b.2, c.1, c.2]

/-! ## Speed -/

theorem straight_lip (x y : ℝ) : |max 0 (min x 1) - max 0 (min y 1)| ≤ |x - y| := by
  have h1 := abs_max_sub_max_le_max 0 (min x 1) 0 (min y 1)
  have h2 := abs_min_sub_min_le_max x 1 y 1
  simp only [sub_self, abs_zero] at h1 h2
  rw [max_eq_right (abs_nonneg (min x 1 - min y 1))] at h1
  rw [max_eq_left (abs_nonneg (x - y))] at h2
  exact h1.trans h2

theorem through_speed {L : ℝ} (hL : 0 ≤ L) : ∀ (ks : List Stop),
    (∀ k ∈ ks, k.c = fun t => max 0 (min t 1)) →
    ks.Pairwise (fun a b => a.time < b.time) →
    SpeedsAtMost L (ks.map (·.time)) (ks.map (·.value)) → ∀ f g, f ≤ g →
    |through ks g - through ks f| ≤ L * (g - f)
  | [], _, _, _, f, g, hfg => by
    simp only [through, sub_self, abs_zero]; exact mul_nonneg hL (by linarith)
  | [_], _, _, _, f, g, hfg => by
    simp only [through, sub_self, abs_zero]; exact mul_nonneg hL (by linarith)
  | k :: k' :: ks, h, hs, hv, f, g, hfg => by
    have hG : ∀ x ∈ k :: k' :: ks, Glide x.c := fun x hx => by rw [h x hx]; exact glide_straight
    have hlt : k.time < k'.time := (List.pairwise_cons.mp hs).1 k' (by simp)
    have hs' := (List.pairwise_cons.mp hs).2
    have ih := through_speed hL (k' :: ks) (fun x hx => h x (by simp [hx])) hs'
      (fun i s t a b h1 h2 h3 h4 => hv (i + 1) s t a b h1 h2 h3 h4)
    have hd : 0 < k'.time - k.time := by linarith
    have early : ∀ f g, f ≤ g → g ≤ k'.time →
        |through (k :: k' :: ks) g - through (k :: k' :: ks) f| ≤ L * (g - f) := by
      intro f g hfg hg
      have hb := fun f hf => through_before (k' :: ks) (fun x hx => hG x (by simp [hx])) hs' k' rfl f hf
      rw [through, through, hb g hg, hb f (hfg.trans hg), h k (by simp)]
      have hv0 := hv 0 _ _ _ _ rfl rfl rfl rfl
      have e : ∀ a b : ℝ, k'.value - (k'.value - k.value) * (1 - a) -
          (k'.value - (k'.value - k.value) * (1 - b)) = (k'.value - k.value) * (a - b) := by
        intro a b; ring
      rw [e, abs_mul]
      have hl := straight_lip ((g - k.time) / (k'.time - k.time)) ((f - k.time) / (k'.time - k.time))
      rw [← sub_div, sub_sub_sub_cancel_right, abs_of_nonneg (div_nonneg (by linarith) hd.le)] at hl
      calc _ ≤ L * (k'.time - k.time) * ((g - f) / (k'.time - k.time)) :=
            mul_le_mul hv0 hl (abs_nonneg _) (mul_nonneg hL hd.le)
        _ = L * (g - f) := by field_simp
    rcases le_total g k'.time with hg | hg
    · exact early f g hfg hg
    rcases le_total f k'.time with hf | hf
    · have a := early f k'.time hf le_rfl
      have b := ih k'.time g hg
      rw [← through_tail (ks := ks) (hG k (by simp)) hlt hg,
        ← through_tail (ks := ks) (hG k (by simp)) hlt le_rfl] at b
      have := abs_add_le (through (k :: k' :: ks) g - through (k :: k' :: ks) k'.time)
        (through (k :: k' :: ks) k'.time - through (k :: k' :: ks) f)
      rw [sub_add_sub_cancel] at this
      linarith
    · rw [through_tail (hG k (by simp)) hlt hg, through_tail (hG k (by simp)) hlt hf]
      exact ih f g hfg

/-! ## Keyframes of a document -/

/-- The points of the easing curve of a keyframe are within `tol` of a progress. -/
def Follows (tol : ℝ) (c : Nat) (b : Schema.KeyframeBase ℝ) (g : ℝ → ℝ) : Prop :=
  ∀ o i, EasingHandleOf c 0 b.outTangent o → EasingHandleOf c 1 b.inTangent i →
    (0 ≤ o.x ∧ o.x ≤ 1) ∧ (0 ≤ i.x ∧ i.x ≤ 1) ∧
      ∀ w p, 0 ≤ w → w ≤ 1 → OnEasingCurve o i w p → |p - g w| ≤ tol

theorem follows_straight {c : Nat} {b : Schema.KeyframeBase ℝ} (h : NotEased b) :
    Follows 0 c b fun t => max 0 (min t 1) := by
  rintro o i ho hi
  rw [h.1] at ho; rw [h.2] at hi
  cases ho; cases hi
  refine ⟨by norm_num, by norm_num, ?_⟩
  rintro w p h0 h1 ⟨u, hu, rfl, -⟩
  show |bez 0 1 u - _| ≤ 0
  have hu : bez 0 1 u = w := hu
  dsimp only
  rw [hu, min_eq_left h1, max_eq_right h0, sub_self, abs_zero]

theorem coord_unique {c : Nat} {k : Schema.KeyframeComponent ℝ} {x y : ℝ} (hx : CoordOf c k x)
    (hy : CoordOf c k y) : x = y := by
  cases k with
  | singleValue v => exact Eq.trans hx (Eq.symm hy)
  | arrayOfValues xs =>
    rcases hx with hx | ⟨hl, hx⟩ <;> rcases hy with hy | ⟨hl', hy⟩
    · exact Option.some.inj (hx.symm.trans hy)
    · have := (List.getElem?_eq_some_iff.mp hx).1; omega
    · have := (List.getElem?_eq_some_iff.mp hy).1; omega
    · exact Option.some.inj (hx.symm.trans hy)

theorem handle_unique {c : Nat} {d : ℝ} {h : Option (Schema.KeyframeBezierHandle ℝ)}
    {x y : EasingHandle ℝ} (hx : EasingHandleOf c d h x) (hy : EasingHandleOf c d h y) : x = y := by
  cases h with
  | none => exact Eq.trans hx (Eq.symm hy)
  | some h =>
    cases x; cases y
    exact congrArg₂ EasingHandle.mk (coord_unique hx.1 hy.1) (coord_unique hx.2 hy.2)

theorem exists_steps : ∀ vs : List ℝ, ∃ S, 0 ≤ S ∧ StepsAtMost S vs
  | [] => ⟨0, le_rfl, fun k a b h => by simp at h⟩
  | [_] => ⟨0, le_rfl, fun k a b _ h => by simp at h⟩
  | a :: b :: vs => by
    obtain ⟨S, h0, h⟩ := exists_steps (b :: vs)
    refine ⟨max S |b - a|, le_max_of_le_left h0, fun k x y hx hy => ?_⟩
    cases k with
    | zero => cases hx; cases hy; exact le_max_right _ _
    | succ k => exact (h k x y hx hy).trans (le_max_left _ _)

theorem follows_eased {c : Nat} {b : Schema.KeyframeBase ℝ} (h : EasedInUnitSquare c b) :
    ∃ g, Glide g ∧ Follows (4 / 10 ^ 7) c b g := by
  by_cases he : ∃ o i, EasingHandleOf c 0 b.outTangent o ∧ EasingHandleOf c 1 b.inTangent i
  · obtain ⟨o, i, ho, hi⟩ := he
    obtain ⟨g, hg, hn⟩ := exists_glide (h o i ho hi)
    refine ⟨g, hg, fun o' i' ho' hi' => ?_⟩
    obtain rfl := handle_unique ho ho'
    obtain rfl := handle_unique hi hi'
    exact ⟨(h _ _ ho hi).ox, (h _ _ ho hi).ix, hn⟩
  · exact ⟨_, glide_straight, fun o i ho hi => absurd ⟨o, i, ho, hi⟩ he⟩

/-- The keyframes with given progresses. -/
def stops (G : Schema.KeyframeBase ℝ → ℝ → ℝ) (ks : List (Schema.KeyframeBase ℝ × ℝ)) : List Stop :=
  ks.map fun k => ⟨k.1.time, G k.1, k.2⟩

theorem shown_along {tol : ℝ} {c : Nat} {ks : List (Schema.KeyframeBase ℝ × ℝ)}
    {G : Schema.KeyframeBase ℝ → ℝ → ℝ} (hn : ∀ k ∈ ks, NotHeld k.1)
    (hG : ∀ k ∈ ks, Follows tol c k.1 (G k.1)) {f x : ℝ} (h : Shown c ks f x) : Along tol (stops G ks) f x := by
  rcases h with ⟨b, v, h1, h2, rfl⟩ | ⟨b, v, h1, h2, rfl⟩ | ⟨k, b0, v0, b1, v1, h1, h2, h3, h4, -, h5⟩
  · exact .inl ⟨⟨b.time, G b, x⟩, by simp [stops, h1], h2, rfl⟩
  · exact .inr (.inl ⟨⟨b.time, G b, x⟩, by simp [stops, h1], h2, rfl⟩)
  · have hm := List.mem_of_getElem? h1
    obtain ⟨o, i, e, ho, hi, rfl, hc⟩ := h5 (hn _ hm)
    obtain ⟨a, b, hw⟩ := hG _ hm o i ho hi
    have hlt : b0.time < b1.time := by linarith
    refine .inr (.inr ⟨k, ⟨b0.time, G b0, v0⟩, ⟨b1.time, G b1, v1⟩, by simp [stops, h1],
      by simp [stops, h2], h3, h4, e, rfl, ?_⟩)
    exact hw _ _ (div_nonneg (by linarith) (by linarith))
      ((div_le_one (by linarith)).mpr (by linarith)) (hc a b)

/-- What is shown of eased keyframes hardly jumps. -/
theorem shown_jumps {c : Nat} {ks : List (Schema.KeyframeBase ℝ × ℝ)} (hn : ∀ k ∈ ks, NotHeld k.1)
    (he : ∀ k ∈ ks, EasedInUnitSquare c k.1) (hs : ks.Pairwise fun a b => a.1.time < b.1.time)
    {S : ℝ} (hS0 : 0 ≤ S) (hS : StepsAtMost S (ks.map (·.2))) {x : ℝ → ℝ}
    (h : ∀ f, Shown c ks f (x f)) : JumpsAtMost (S / 10 ^ 6) x := by
  classical
  let G : Schema.KeyframeBase ℝ → ℝ → ℝ := fun b =>
    if h : ∃ g, Glide g ∧ Follows (4 / 10 ^ 7) c b g then h.choose else fun t => max 0 (min t 1)
  have hG : ∀ k ∈ ks, Glide (G k.1) ∧ Follows (4 / 10 ^ 7) c k.1 (G k.1) := by
    intro k hk
    have h := follows_eased (he k hk)
    simp only [G, dif_pos h]
    exact h.choose_spec
  have hgl : ∀ k ∈ stops G ks, Glide k.c := by
    intro k hk
    obtain ⟨k', hk', rfl⟩ := List.mem_map.mp hk
    exact (hG k' hk').1
  have hst : (stops G ks).Pairwise fun a b => a.time < b.time := by
    unfold stops; rw [List.pairwise_map]; exact hs
  have hSS : StepsAtMost S ((stops G ks).map (·.value)) := by
    have : (stops G ks).map (·.value) = ks.map (·.2) := by unfold stops; rw [List.map_map]; rfl
    rw [this]; exact hS
  have := jumps_of_near (through_cont _ hgl) fun f =>
    along_near (by norm_num) _ hgl hst hSS hS0 f (x f)
      (shown_along hn (fun k hk => (hG k hk).2) (h f))
  intro f ε hε
  obtain ⟨δ, hδ, hd⟩ := this f ε hε
  refine ⟨δ, hδ, fun g hg => (hd g hg).trans_le ?_⟩
  have : 2 * (4 / 10 ^ 7 * S) ≤ S / 10 ^ 6 := by
    rw [div_eq_mul_inv S]; nlinarith
  linarith

/-- What is shown of keyframes without easing is continuous. -/
theorem shown_straight {c : Nat} {ks : List (Schema.KeyframeBase ℝ × ℝ)} (hn : ∀ k ∈ ks, NotHeld k.1)
    (he : ∀ k ∈ ks, NotEased k.1) (hs : ks.Pairwise fun a b => a.1.time < b.1.time)
    {L : ℝ} (hL0 : 0 ≤ L) (hL : SpeedsAtMost L (ks.map (·.1.time)) (ks.map (·.2))) {x : ℝ → ℝ}
    (h : ∀ f, Shown c ks f (x f)) : ∀ f g, |x g - x f| ≤ L * |g - f| := by
  let G : Schema.KeyframeBase ℝ → ℝ → ℝ := fun _ t => max 0 (min t 1)
  have hgc : ∀ k ∈ stops G ks, k.c = fun t => max 0 (min t 1) := by
    intro k hk
    obtain ⟨k', hk', rfl⟩ := List.mem_map.mp hk
    rfl
  have hgl : ∀ k ∈ stops G ks, Glide k.c := fun k hk => by rw [hgc k hk]; exact glide_straight
  have hst : (stops G ks).Pairwise fun a b => a.time < b.time := by
    unfold stops; rw [List.pairwise_map]; exact hs
  have hv : (stops G ks).map (·.value) = ks.map (·.2) := by unfold stops; rw [List.map_map]; rfl
  have ht : (stops G ks).map (·.time) = ks.map (·.1.time) := by unfold stops; rw [List.map_map]; rfl
  obtain ⟨S, hS0, hS⟩ : ∃ S, 0 ≤ S ∧ StepsAtMost S (ks.map (·.2)) := exists_steps _
  have hx : ∀ f, x f = through (stops G ks) f := by
    intro f
    have := along_near le_rfl _ hgl hst (by rw [hv]; exact hS) hS0 f (x f)
      (shown_along hn (fun k hk => follows_straight (he k hk)) (h f))
    rw [zero_mul] at this
    exact sub_eq_zero.mp (abs_eq_zero.mp (le_antisymm this (abs_nonneg _)))
  have key := through_speed hL0 (stops G ks) hgc hst (by rw [hv, ht]; exact hL)
  intro f g
  rw [hx, hx]
  rcases le_total f g with hfg | hfg
  · rw [abs_of_nonneg (sub_nonneg.mpr hfg)]; exact key f g hfg
  · rw [abs_sub_comm, abs_sub_comm g f, abs_of_nonneg (sub_nonneg.mpr hfg)]; exact key g f hfg

end Velato
