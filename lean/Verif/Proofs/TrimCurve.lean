import Verif.Proofs.ArcLength
import Mathlib.Analysis.Complex.Norm

/-!
# Trimming one path of curves, exact arc length
-/

namespace Velato
open FloatOps (lit)

/-! ## Speed and the control polygon -/

theorem sqrt_norm (x y : ℝ) : Real.sqrt (x ^ 2 + y ^ 2) = ‖(⟨x, y⟩ : ℂ)‖ := by
  rw [Complex.norm_eq_sqrt_sq_add_sq]

theorem norm_comb {w u v m : ℂ} {a b c : ℝ} (ha : 0 ≤ a) (hb : 0 ≤ b) (hc : 0 ≤ c)
    (h : m = a * u + b * v + c * w) : ‖m‖ ≤ a * ‖u‖ + b * ‖v‖ + c * ‖w‖ := by
  rw [h]
  refine (norm_add_le _ _).trans (add_le_add ((norm_add_le _ _).trans (add_le_add ?_ ?_)) ?_)
  all_goals rw [norm_mul, Complex.norm_real, Real.norm_of_nonneg (by assumption)]

theorem PathSeg.control_nonneg (s : PathSeg ℝ) : 0 ≤ s.control := by
  cases s <;> simp only [PathSeg.control]
  · exact dist2_nonneg _ _
  · exact add_nonneg (dist2_nonneg _ _) (dist2_nonneg _ _)
  · exact add_nonneg (add_nonneg (dist2_nonneg _ _) (dist2_nonneg _ _)) (dist2_nonneg _ _)

theorem PathSeg.speed_le (s : PathSeg ℝ) {t : ℝ} (h0 : 0 ≤ t) (h1 : t ≤ 1) :
    s.speed t ≤ 3 * s.control := by
  have ht : 0 ≤ 1 - t := by linarith
  rw [s.speed_eq, sqrt_norm]
  cases s with
  | line p q =>
    simp only [PathSeg.control, PathSeg.vel, ← sqrt_norm]
    have := dist2_nonneg p q
    unfold dist2 at *
    linarith
  | quad p q r =>
    have hpq := dist2_nonneg p q
    have hqr := dist2_nonneg q r
    have := norm_comb (u := ⟨q.x - p.x, q.y - p.y⟩) (v := ⟨r.x - q.x, r.y - q.y⟩) (w := 0)
      (m := ⟨2 * ((1 - t) * (q.x - p.x) + t * (r.x - q.x)),
        2 * ((1 - t) * (q.y - p.y) + t * (r.y - q.y))⟩)
      (a := 2 * (1 - t)) (b := 2 * t) (c := 0) (by linarith) (by linarith) (le_refl _)
      (by apply Complex.ext <;> simp <;> ring)
    refine this.trans ?_
    rw [← sqrt_norm, ← sqrt_norm, norm_zero]
    simp only [PathSeg.control]
    change 2 * (1 - t) * dist2 p q + 2 * t * dist2 q r + 0 * 0 ≤ _
    nlinarith
  | cubic p q r s =>
    have hpq := dist2_nonneg p q
    have hqr := dist2_nonneg q r
    have hrs := dist2_nonneg r s
    have := norm_comb (u := ⟨q.x - p.x, q.y - p.y⟩) (v := ⟨r.x - q.x, r.y - q.y⟩)
      (w := ⟨s.x - r.x, s.y - r.y⟩)
      (m := ⟨3 * ((1 - t) ^ 2 * (q.x - p.x) + 2 * (1 - t) * t * (r.x - q.x) + t ^ 2 * (s.x - r.x)),
        3 * ((1 - t) ^ 2 * (q.y - p.y) + 2 * (1 - t) * t * (r.y - q.y) + t ^ 2 * (s.y - r.y))⟩)
      (a := 3 * (1 - t) ^ 2) (b := 6 * ((1 - t) * t)) (c := 3 * t ^ 2) (by positivity)
      (by positivity) (by positivity)
      (by apply Complex.ext <;> simp [-Complex.ofReal_pow] <;> ring)
    refine this.trans ?_
    rw [← sqrt_norm, ← sqrt_norm, ← sqrt_norm]
    simp only [PathSeg.control]
    change 3 * (1 - t) ^ 2 * dist2 p q + 6 * ((1 - t) * t) * dist2 q r + 3 * t ^ 2 * dist2 r s ≤ _
    have a1 : (1 - t) ^ 2 ≤ 1 := by nlinarith
    have a2 : 2 * ((1 - t) * t) ≤ 1 := by nlinarith [sq_nonneg (1 - 2 * t)]
    have a3 : t ^ 2 ≤ 1 := by nlinarith
    nlinarith [mul_le_mul_of_nonneg_right a1 hpq, mul_le_mul_of_nonneg_right a2 hqr,
      mul_le_mul_of_nonneg_right a3 hrs]

theorem PathSeg.lengthTo_lipschitz (s : PathSeg ℝ) {a b : ℝ} (h0 : 0 ≤ a) (h : a ≤ b) (h1 : b ≤ 1) :
    s.lengthTo b - s.lengthTo a ≤ 3 * s.control * (b - a) := by
  rw [s.lengthTo_sub]
  have := intervalIntegral.integral_mono_on (μ := MeasureTheory.volume) h
    (s.continuous_speed.intervalIntegrable a b)
    (continuous_const.intervalIntegrable (μ := MeasureTheory.volume) a b)
    (fun u hu => s.speed_le (h0.trans hu.1) (hu.2.trans h1))
  refine this.trans ?_
  rw [intervalIntegral.integral_const, smul_eq_mul, mul_comm]

theorem PathSeg.length_le (s : PathSeg ℝ) : s.length ≤ 3 * s.control := by
  have := s.lengthTo_lipschitz (le_refl 0) (zero_le_one' ℝ) (le_refl 1)
  rw [s.lengthTo_zero] at this
  simpa [PathSeg.length] using this

/-! ## The loop -/

/-- Each segment starts where the one before ended. -/
def ChainedC : P2 ℝ → List (PathSeg ℝ) → Prop
  | _, [] => True
  | P, s :: ss => s.start = P ∧ ChainedC s.stop ss

/-- The sum of the lengths of the segments. -/
noncomputable def arcLength (segs : List (PathSeg ℝ)) : ℝ := (segs.map PathSeg.length).sum

/-- The sum of the lengths of the control polygons. -/
noncomputable def ctrlLength (segs : List (PathSeg ℝ)) : ℝ := (segs.map PathSeg.control).sum

theorem arcLength_nonneg (segs : List (PathSeg ℝ)) : 0 ≤ arcLength segs := by
  refine List.sum_nonneg ?_
  intro x hx
  obtain ⟨s, -, rfl⟩ := List.mem_map.mp hx
  exact s.length_nonneg

theorem ctrlLength_nonneg (segs : List (PathSeg ℝ)) : 0 ≤ ctrlLength segs := by
  refine List.sum_nonneg ?_
  intro x hx
  obtain ⟨s, -, rfl⟩ := List.mem_map.mp hx
  exact s.control_nonneg

theorem arcLength_le (segs : List (PathSeg ℝ)) : arcLength segs ≤ 3 * ctrlLength segs := by
  unfold arcLength ctrlLength
  induction segs with
  | nil => simp
  | cons s ss ih =>
    simp only [List.map_cons, List.sum_cons]
    have := s.length_le
    linarith

theorem arcLength_cons (s : PathSeg ℝ) (segs : List (PathSeg ℝ)) :
    arcLength (s :: segs) = s.length + arcLength segs := by simp [arcLength]

theorem ctrlLength_cons (s : PathSeg ℝ) (segs : List (PathSeg ℝ)) :
    ctrlLength (s :: segs) = s.control + ctrlLength segs := by simp [ctrlLength]

/-- The lengths of the pieces. -/
noncomputable def cutLength (run : List (Piece ℝ)) : ℝ :=
  (run.map fun p => p.seg.lengthTo p.t1 - p.seg.lengthTo p.t0).sum

/-- The pieces have the length of the range, up to what is left out. -/
theorem Cut.length {a b c : ℝ} {segs : List (PathSeg ℝ)} {run : List (Piece ℝ)} (hab : a ≤ b)
    (h : Cut a b c segs run) :
    cutLength run ≤ proj a b (c + arcLength segs) - proj a b c ∧
    proj a b (c + arcLength segs) - proj a b c ≤ cutLength run + 3 / 10 ^ 9 * ctrlLength segs := by
  induction h with
  | nil c => simp [cutLength, arcLength, ctrlLength]
  | @keep c t0 t1 s segs run h0 h1 _ _ _ _ ih =>
    have hd := proj_diff (c := c) hab s.length_nonneg
    rw [← h0, ← h1] at hd
    have hc : 0 ≤ 3 / 10 ^ 9 * s.control := mul_nonneg (by norm_num) s.control_nonneg
    have e : cutLength (⟨s, t0, t1⟩ :: run) = s.lengthTo t1 - s.lengthTo t0 + cutLength run := by
      simp [cutLength]
    rw [e, arcLength_cons, ctrlLength_cons, ← add_assoc, mul_add]
    constructor <;> linarith [ih.1, ih.2]
  | @skip c t0 t1 s segs run h0 h1 g0 g1 g2 g3 g4 _ ih =>
    have hd := proj_diff (c := c) hab s.length_nonneg
    rw [← h0, ← h1] at hd
    have hm := proj_mono (s := a) (e := b) (show c ≤ c + s.length by linarith [s.length_nonneg])
    have hk : s.lengthTo t1 - s.lengthTo t0 ≤ 3 / 10 ^ 9 * s.control := by
      rcases le_total t0 t1 with h | h
      · have := s.lengthTo_lipschitz g0 h g4
        have h2 : 3 * s.control * (t1 - t0) ≤ 3 * s.control * (1 / 10 ^ 9) :=
          mul_le_mul_of_nonneg_left (by linarith) (by linarith [s.control_nonneg])
        linarith
      · have := s.lengthTo_mono h
        have : 0 ≤ 3 / 10 ^ 9 * s.control := mul_nonneg (by norm_num) s.control_nonneg
        linarith
    rw [arcLength_cons, ctrlLength_cons, ← add_assoc, mul_add]
    constructor <;> linarith [ih.1, ih.2]

theorem Cut.pieces [Kurbo ℝ] {a b c : ℝ} {segs : List (PathSeg ℝ)} {run : List (Piece ℝ)}
    (h : Cut a b c segs run) : PiecesOf segs run := by
  induction h with
  | nil c => exact ⟨List.Sublist.refl _, by simp⟩
  | keep _ _ g0 g1 g2 _ ih =>
    refine ⟨ih.1.cons_cons _, ?_⟩
    intro p hp
    rcases List.mem_cons.mp hp with rfl | hp
    · refine ⟨?_, ?_, ?_⟩ <;> simp only [real_le, real_lt, real_lit, decide_eq_true_eq]
      · push_cast; exact g0
      · have : (0 : ℝ) < 1 / 10 ^ 9 := by norm_num
        linarith
      · push_cast; exact g2
    · exact ih.2 p hp
  | skip _ _ _ _ _ _ _ _ ih => exact ⟨ih.1.cons _, ih.2⟩

section
variable [Kurbo ℝ]

theorem trimT0_curve (hk : ExactCurves) (a : ℝ) (s : PathSeg ℝ) (c : ℝ) :
    s.lengthTo (trimT0 a s c) = min s.length (max 0 (a - c)) ∧
    0 ≤ trimT0 a s c ∧ trimT0 a s c ≤ 1 ∧
    (a ≤ c → trimT0 a s c = 0) ∧ (c + s.length < a → trimT0 a s c = 1) := by
  have hl := s.length_nonneg
  unfold trimT0
  simp only [real_lt, real_sub, decide_eq_true_eq, real_clamp]
  split
  · rename_i h
    rw [max_eq_right (show 0 ≤ a - c by linarith)]
    by_cases hx : s.length < a - c
    · have h1 := hk.inv_pos s _ hx
      rw [min_eq_left h1, max_eq_right (zero_le_one' ℝ), min_eq_left hx.le]
      exact ⟨rfl, by norm_num, le_refl _, fun h' => by linarith, fun _ => rfl⟩
    · push Not at hx
      have hne : s.length ≠ 0 := by intro h0; linarith
      obtain ⟨i0, i1, i2⟩ := hk.inv s (a - c) (by linarith) hx hne
      rw [min_eq_right i1, max_eq_right i0, i2, min_eq_right hx]
      exact ⟨rfl, i0, i1, fun h' => by linarith, fun h' => by linarith⟩
  · rename_i h
    simp only [real_lit]
    push_cast
    refine ⟨?_, le_refl _, by norm_num, fun _ => rfl, fun h2 => by linarith⟩
    rw [s.lengthTo_zero, max_eq_left (by linarith), min_eq_right hl]

theorem trimT1_curve (hk : ExactCurves) (b : ℝ) (s : PathSeg ℝ) (c : ℝ) :
    s.lengthTo (trimT1 b s c) = max 0 (min s.length (b - c)) ∧
    0 ≤ trimT1 b s c ∧ trimT1 b s c ≤ 1 ∧
    (b < c → trimT1 b s c = 0) ∧ (c + s.length ≤ b → trimT1 b s c = 1) := by
  have hl := s.length_nonneg
  unfold trimT1
  simp only [real_lt, real_sub, real_add, decide_eq_true_eq, real_clamp, hk.arclen]
  split
  · rename_i h
    by_cases hx : b - c < 0
    · have h1 := hk.inv_neg s _ hx
      rw [max_eq_left ((min_le_right _ _).trans h1), max_eq_left ((min_le_right _ _).trans hx.le)]
      exact ⟨s.lengthTo_zero, le_refl _, by norm_num, fun _ => rfl, fun h' => by linarith⟩
    · push Not at hx
      have hne : s.length ≠ 0 := by intro h0; linarith
      obtain ⟨i0, i1, i2⟩ := hk.inv s (b - c) hx (by linarith) hne
      rw [min_eq_right i1, max_eq_right i0, i2, min_eq_right (by linarith), max_eq_right hx]
      exact ⟨rfl, i0, i1, fun h' => by linarith, fun h' => by linarith⟩
  · rename_i h
    simp only [real_lit]
    push_cast
    refine ⟨?_, by norm_num, le_refl _, fun h2 => by linarith, fun _ => rfl⟩
    rw [min_eq_left (by linarith), max_eq_right hl]
    rfl

omit [Kurbo ℝ] in
/-- Past the range nothing is left. -/
theorem Cut.past {a b : ℝ} (hab : a ≤ b) (segs : List (PathSeg ℝ)) :
    ∀ c, b < c → Cut a b c segs [] := by
  induction segs with
  | nil => intro c _; exact .nil c
  | cons s ss ih =>
    intro c h
    have hl := s.length_nonneg
    refine .skip (t0 := 0) (t1 := 0) ?_ ?_ (le_refl _) (by norm_num) (le_refl _) (by norm_num)
      (by norm_num) (ih _ (by linarith))
    · rw [s.lengthTo_zero, max_eq_left (by linarith), min_eq_right hl]
    · rw [s.lengthTo_zero, max_eq_left ((min_le_right _ _).trans (by linarith))]

/-- One range of a trim, on a chain of segments. -/
theorem trimSegs_curves (hk : ExactCurves) {a b : ℝ} (hab : a ≤ b) (segs : List (PathSeg ℝ)) :
    ∀ (c : ℝ) (nm : Bool),
      ∃ run : List (Piece ℝ), trimSegs a b segs c nm = runFrom nm run ∧ Cut a b c segs run ∧
        ∀ P Q : P2 ℝ, ChainedC P segs → (nm = false → (Q = P ∧ a ≤ c) ∨ b < c) →
          (nm = false → Linked Q run) ∧ (∀ p ps, run = p :: ps → Linked p.sub.stop ps) := by
  induction segs with
  | nil =>
    intro c nm
    exact ⟨[], by cases nm <;> rfl, .nil c, fun _ _ _ _ => ⟨fun _ => trivial, fun _ _ h => nomatch h⟩⟩
  | cons s segs ih =>
    intro c nm
    have hl := s.length_nonneg
    obtain ⟨a1, a2, a3, a4, a5⟩ := trimT0_curve hk a s c
    obtain ⟨b1, b2, b3, b4, b5⟩ := trimT1_curve hk b s c
    have htiny : (0 : ℝ) < tiny := by rw [real_tiny]; norm_num
    have htiny1 : (tiny : ℝ) < 1 := by rw [real_tiny]; norm_num
    rw [trimSegs_cons]
    simp only [real_add, real_sub, real_lt, decide_eq_true_eq, hk.arclen]
    by_cases h1 : c + s.length < a - tiny
    · rw [if_pos h1]
      obtain ⟨run, r1, r2, r3⟩ := ih (c + s.length) nm
      refine ⟨run, r1, .skip a1 b1 a2 a3 b2 ?_ b3 r2, ?_⟩
      · rw [a5 (by linarith)]; linarith [show (0 : ℝ) < 1 / 10 ^ 9 by norm_num]
      · intro P Q hch hpen
        refine r3 s.stop Q hch.2 fun hn => ?_
        rcases hpen hn with ⟨-, h⟩ | h <;> linarith
    rw [if_neg h1]
    by_cases h2 : b + tiny < c
    · rw [if_pos h2]
      exact ⟨[], by cases nm <;> rfl, Cut.past hab _ _ (by linarith),
        fun _ _ _ _ => ⟨fun _ => trivial, fun _ _ h => nomatch h⟩⟩
    rw [if_neg h2]
    by_cases h3 : trimT0 a s c + tiny < trimT1 b s c
    · rw [if_pos h3]
      obtain ⟨run, r1, r2, r3⟩ := ih (c + s.length) false
      refine ⟨⟨s, trimT0 a s c, trimT1 b s c⟩ :: run, ?_,
        .keep a1 b1 a2 (by rw [← real_tiny]; exact h3) b3 r2, ?_⟩
      · rw [runFrom_cons, r1]; rfl
      · intro P Q hch hpen
        have r3 := r3 s.stop (Kurbo.subsegment s (trimT0 a s c) (trimT1 b s c)).stop hch.2 (by
          intro _
          by_cases he : b < c + s.length
          · exact .inr he
          · refine .inl ⟨?_, ?_⟩
            · rw [b5 (not_lt.mp he), PathSeg.stop_at, hk.sub, PathSeg.stop_at]
              congr 1
              ring
            · by_contra hc
              have := a5 (not_le.mp hc)
              linarith)
        refine ⟨fun hn => ⟨?_, r3.1 rfl⟩, ?_⟩
        · rcases hpen hn with ⟨rfl, hc⟩ | hc
          · rw [Piece.sub, a4 hc, PathSeg.start_at, hk.sub, ← hch.1, PathSeg.start_at]
            congr 1
            ring
          · rw [b4 hc] at h3; linarith
        · intro x xs hx
          cases hx
          exact r3.1 rfl
    · rw [if_neg h3]
      obtain ⟨run, r1, r2, r3⟩ := ih (c + s.length) nm
      refine ⟨run, r1, .skip a1 b1 a2 a3 b2 (by rw [← real_tiny]; linarith) b3 r2, ?_⟩
      intro P Q hch hpen
      refine r3 s.stop Q hch.2 fun hn => ?_
      by_cases he : b < c + s.length
      · exact .inr he
      · rcases hpen hn with ⟨-, h⟩ | h
        · exfalso
          rw [a4 h, b5 (not_lt.mp he)] at h3
          linarith
        · exact .inr (by linarith)

/-- The segments of a path made of linked pieces are the pieces. -/
theorem segmentsAux_linkedC (run : List (Piece ℝ)) (tl : List (PathEl ℝ)) (st : P2 ℝ)
    (htl : ∀ a b, segmentsAux tl a b = segmentsAux tl st st) :
    ∀ Q : P2 ℝ, Linked Q run → ∀ a,
      segmentsAux (run.map (fun q => q.sub.toEl) ++ tl) a Q
        = run.map Piece.sub ++ segmentsAux tl st st := by
  induction run with
  | nil => intro Q _ a; exact htl _ _
  | cons p ps ih =>
    intro Q h a
    obtain ⟨h1, h2⟩ := h
    have ih := ih _ h2
    simp only [List.map_cons, List.cons_append]
    cases hs : p.sub <;>
    · rw [hs] at h1 ih
      simp only [PathSeg.start] at h1
      subst h1
      simp only [PathSeg.toEl, segmentsAux]
      rw [← ih a]
      rfl

theorem segments_runsC (r1 r2 : List (Piece ℝ)) (h1 : ∀ p ps, r1 = p :: ps → Linked p.sub.stop ps)
    (h2 : ∀ p ps, r2 = p :: ps → Linked p.sub.stop ps) :
    segments (runPath r1 ++ runPath r2) = (r1 ++ r2).map Piece.sub := by
  have key : ∀ (r : List (Piece ℝ)) (tl : List (PathEl ℝ)) (st : P2 ℝ),
      (∀ p ps, r = p :: ps → Linked p.sub.stop ps) →
      (∀ a b, segmentsAux tl a b = segmentsAux tl st st) → ∀ a b,
      segmentsAux (runPath r ++ tl) a b = r.map Piece.sub ++ segmentsAux tl st st := by
    intro r tl st h htl a b
    cases r with
    | nil => exact htl a b
    | cons p ps =>
      simp only [runPath, List.cons_append, segmentsAux]
      exact segmentsAux_linkedC (p :: ps) tl st htl _ ⟨rfl, h p ps rfl⟩ _
  have hseg : ∀ els : List (PathEl ℝ), bezPathOk els = true → ∀ a, segments els = segmentsAux els a a := by
    intro els h a
    cases els with
    | nil => rfl
    | cons e es => cases e <;> first | rfl | cases h
  have hok : bezPathOk (runPath r1 ++ runPath r2) = true := by
    cases r1 <;> cases r2 <;> rfl
  have hst : ∀ a b, segmentsAux (runPath r2) a b = segmentsAux (runPath r2) ⟨0, 0⟩ ⟨0, 0⟩ := by
    intro a b; cases r2 <;> rfl
  rw [hseg _ hok ⟨0, 0⟩, key r1 (runPath r2) ⟨0, 0⟩ h1 hst, List.map_append]
  have := key r2 [] ⟨0, 0⟩ h2 (fun _ _ => rfl) ⟨0, 0⟩ ⟨0, 0⟩
  rw [List.append_nil] at this
  rw [this]
  simp [segmentsAux]

omit [Kurbo ℝ] in
theorem chainedC_continues (els : List (PathEl ℝ)) (h : ∀ el ∈ els, el.Continues) :
    ∀ a b, ChainedC b (segmentsAux els a b) := by
  induction els with
  | nil => intro _ _; trivial
  | cons el els ih =>
    intro a b
    have h1 := h el (by simp)
    have ih := ih fun x hx => h x (by simp [hx])
    cases el with
    | moveTo _ => exact h1.elim
    | quadTo _ _ => exact ⟨rfl, ih _ _⟩
    | curveTo _ _ _ => exact ⟨rfl, ih _ _⟩
    | lineTo q => exact ⟨rfl, ih _ _⟩
    | closePath =>
      rw [segmentsAux]
      split
      · exact ih _ _
      · exact ⟨rfl, ih _ _⟩

theorem totalLength_curves (hk : ExactCurves) (segs : List (PathSeg ℝ)) :
    totalLength segs = arcLength segs := by
  have key : ∀ (segs : List (PathSeg ℝ)) (x : ℝ),
      (segs.map Kurbo.arclen).foldl (· +. ·) x = x + arcLength segs := by
    intro segs
    induction segs with
    | nil => intro x; simp [arcLength]
    | cons seg segs ih =>
      intro x
      rw [List.map_cons, List.foldl_cons, ih, hk.arclen, arcLength_cons, real_add]
      ring
  rw [totalLength, key segs _, real_lit]
  push_cast
  ring

/-- The lengths of the sub-segments. -/
theorem sub_lengths (hk : ExactCurves) {segs : List (PathSeg ℝ)} {run : List (Piece ℝ)}
    (h : PiecesOf segs run) : (run.map fun p => p.sub.length).sum = cutLength run := by
  unfold cutLength
  congr 1
  refine List.map_congr_left fun p hp => ?_
  have := (h.2 p hp).2.1
  simp only [real_lt, decide_eq_true_eq] at this
  exact PathSeg.length_sub this.le fun u => hk.sub _ _ _ u

end

/-- Without length there are no pieces. -/
theorem Cut.none_of_zero (segs : List (PathSeg ℝ)) (h : arcLength segs = 0) : Cut 0 0 0 segs [] := by
  induction segs with
  | nil => exact .nil 0
  | cons s ss ih =>
    rw [arcLength_cons] at h
    have h1 := s.length_nonneg
    have h2 := arcLength_nonneg ss
    have e : s.length = 0 := by linarith
    refine .skip (t0 := 0) (t1 := 0) ?_ ?_ (le_refl _) (by norm_num) (le_refl _) (by norm_num)
      (by norm_num) ?_
    · rw [s.lengthTo_zero, e]; simp
    · rw [s.lengthTo_zero, e]; simp
    · rw [e, add_zero]; exact ih (by linarith)

section
variable [Kurbo ℝ]

theorem trimPath_cut (hk : ExactCurves) {els : List (PathEl ℝ)} {first : ℝ × ℝ}
    {second : Option (ℝ × ℝ)} (hr : ∀ r ∈ first :: second.toList, r.1 ≤ r.2)
    {out : List (PathEl ℝ)} (h : trimPath first second els = .ok out) :
    ∃ r1 r2 : List (Piece ℝ), out = runPath r1 ++ runPath r2 ∧
      Cut (first.1 * pathLength els) (first.2 * pathLength els) 0 (segments els) r1 ∧
      (second = none → r2 = []) ∧
      (∀ r, second = some r → Cut (r.1 * pathLength els) (r.2 * pathLength els) 0 (segments els) r2) ∧
      ∀ P, ChainedC P (segments els) → (∀ p ps, r1 = p :: ps → Linked p.sub.stop ps) ∧
        (∀ p ps, r2 = p :: ps → Linked p.sub.stop ps) := by
  have hb : bezPathOk els = true := by
    cases hb : bezPathOk els with
    | true => rfl
    | false => rw [trimPath, hb] at h; cases h
  rw [trimPath_ok hb, trimmed, totalLength_curves hk] at h
  change Except.ok (if (arcLength (segments els) <=. lit 0 || (segments els).isEmpty) = true then _
    else _) = Except.ok out at h
  have hL : pathLength els = arcLength (segments els) := rfl
  rw [hL]
  have hL0 := arcLength_nonneg (segments els)
  rw [Except.ok.injEq] at h
  split at h
  · rename_i h0
    have hz : arcLength (segments els) = 0 := by
      simp only [real_le, real_lit, Bool.or_eq_true, decide_eq_true_eq, List.isEmpty_iff] at h0
      push_cast at h0
      rcases h0 with h0 | h0
      · exact le_antisymm h0 hL0
      · rw [h0]; rfl
    have hc := Cut.none_of_zero _ hz
    refine ⟨[], [], h.symm, ?_, fun _ => rfl, fun r _ => ?_,
      fun _ _ => ⟨(fun _ _ h => nomatch h), (fun _ _ h => nomatch h)⟩⟩ <;>
    · rw [hz, mul_zero, mul_zero]; exact hc
  · have key : ∀ r ∈ first :: second.toList, ∃ run : List (Piece ℝ),
        trimSegs (r.1 *. arcLength (segments els)) (r.2 *. arcLength (segments els)) (segments els)
          (lit 0) true = runPath run ∧
        Cut (r.1 * arcLength (segments els)) (r.2 * arcLength (segments els)) 0 (segments els) run ∧
        ∀ P, ChainedC P (segments els) → ∀ p ps, run = p :: ps → Linked p.sub.stop ps := by
      intro r hrr
      obtain ⟨run, k1, k2, k3⟩ := trimSegs_curves hk
        (mul_le_mul_of_nonneg_right (hr r hrr) hL0) (segments els) (lit 0) true
      rw [real_lit] at k2
      push_cast at k2
      exact ⟨run, k1, k2, fun P hP => (k3 P P hP nofun).2⟩
    obtain ⟨r1, a1, a2, a3⟩ := key first (by simp)
    cases second with
    | none =>
      refine ⟨r1, [], ?_, a2, fun _ => rfl, nofun,
        fun P hP => ⟨a3 P hP, fun _ _ h => nomatch h⟩⟩
      rw [← h]
      simp only [Option.toList_none, List.flatMap_cons, List.flatMap_nil, a1]
      rfl
    | some r =>
      obtain ⟨r2, b1, b2, b3⟩ := key r (by simp)
      refine ⟨r1, r2, ?_, a2, nofun, fun r' e => (by cases e; exact b2),
        fun P hP => ⟨a3 P hP, b3 P hP⟩⟩
      rw [← h]
      simp only [Option.toList_some, List.flatMap_cons, List.flatMap_nil, a1, b1, List.append_nil]

end
end Velato
