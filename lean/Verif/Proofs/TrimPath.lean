import Verif.Spec.TrimPath
import Verif.Proofs.Batch
import Verif.Proofs.Trim

/-!
# Trimming one path
-/

namespace Velato
open FloatOps (lit)

section
variable {F : Type} [FloatOps F] [Kurbo F]

/-- The output of the segment loop for the kept pieces. -/
def runFrom (nm : Bool) (run : List (Piece F)) : List (PathEl F) :=
  if nm then runPath run else run.map fun q => q.sub.toEl

omit [FloatOps F] in
theorem runFrom_cons (nm : Bool) (p : Piece F) (run : List (Piece F)) :
    runFrom nm (p :: run) = (if nm then [.moveTo p.sub.start] else []) ++ [p.sub.toEl]
      ++ runFrom false run := by
  cases nm <;> simp [runFrom, runPath]

/-- What the loop knows about the parameters of a kept piece. -/
def Kept (p : Piece F) : Prop :=
  (p.t0 = lit 0 ∨ ∃ x, p.t0 = clamp x (lit 0) (lit 1)) ∧
  (p.t1 = lit 1 ∨ ∃ x, p.t1 = clamp x (lit 0) (lit 1)) ∧ ((p.t0 +. tiny) <. p.t1) = true

/-- `t_start` of a segment. -/
def trimT0 (s : F) (seg : PathSeg F) (cur : F) : F :=
  if cur <. s then clamp (Kurbo.invArclen seg (s -. cur)) (lit 0) (lit 1) else lit 0

/-- `t_end` of a segment. -/
def trimT1 (e : F) (seg : PathSeg F) (cur : F) : F :=
  if e <. (cur +. Kurbo.arclen seg) then
    clamp (Kurbo.invArclen seg (e -. cur)) (lit 0) (lit 1) else lit 1

theorem trimSegs_cons (s e : F) (seg : PathSeg F) (segs : List (PathSeg F)) (cur : F) (nm : Bool) :
    trimSegs s e (seg :: segs) cur nm =
      if (cur +. Kurbo.arclen seg) <. (s -. tiny) then
        trimSegs s e segs (cur +. Kurbo.arclen seg) nm
      else if (e +. tiny) <. cur then []
      else if (trimT0 s seg cur +. tiny) <. trimT1 e seg cur then
        (if nm then [.moveTo (Kurbo.subsegment seg (trimT0 s seg cur) (trimT1 e seg cur)).start]
          else []) ++ [(Kurbo.subsegment seg (trimT0 s seg cur) (trimT1 e seg cur)).toEl]
          ++ trimSegs s e segs (cur +. Kurbo.arclen seg) false
      else trimSegs s e segs (cur +. Kurbo.arclen seg) nm := by
  rw [trimSegs]; rfl

theorem trimSegs_pieces (s e : F) (segs : List (PathSeg F)) :
    ∀ (cur : F) (nm : Bool), ∃ run : List (Piece F), trimSegs s e segs cur nm = runFrom nm run ∧
      (run.map (·.seg)).Sublist segs ∧ ∀ p ∈ run, Kept p := by
  induction segs with
  | nil =>
    intro cur nm
    refine ⟨[], ?_, List.Sublist.refl _, by simp⟩
    cases nm <;> rfl
  | cons seg segs ih =>
    intro cur nm
    rw [trimSegs_cons]
    split
    · obtain ⟨run, h1, h2, h3⟩ := ih (cur +. Kurbo.arclen seg) nm
      exact ⟨run, h1, h2.cons _, h3⟩
    split
    · refine ⟨[], ?_, List.nil_sublist _, by simp⟩
      cases nm <;> rfl
    split
    · rename_i hk
      obtain ⟨run, h1, h2, h3⟩ := ih (cur +. Kurbo.arclen seg) false
      refine ⟨⟨seg, trimT0 s seg cur, trimT1 e seg cur⟩ :: run, ?_, h2.cons_cons _, ?_⟩
      · rw [runFrom_cons, h1]; rfl
      · intro p hp
        rcases List.mem_cons.mp hp with rfl | hp
        · refine ⟨?_, ?_, hk⟩ <;> dsimp only
          · unfold trimT0
            split
            · exact .inr ⟨_, rfl⟩
            · exact .inl rfl
          · unfold trimT1
            split
            · exact .inr ⟨_, rfl⟩
            · exact .inl rfl
        · exact h3 p hp
    · obtain ⟨run, h1, h2, h3⟩ := ih (cur +. Kurbo.arclen seg) nm
      exact ⟨run, h1, h2.cons _, h3⟩

omit [Kurbo F] in
theorem clamp_le_one [LawfulCmp F] {x : F} (h : isNaN (clamp x (lit 0) (lit 1)) = false) :
    (lit 0 <=. clamp x (lit 0) (lit 1)) = true ∧ (clamp x (lit 0) (lit 1) <=. lit 1) = true := by
  have h01 : ((lit 0 : F) <=. lit 1) = true := by
    rw [LawfulCmp.le_iff]; exact ⟨0, 1, LawfulCmp.val_zero, LawfulCmp.val_one, zero_le_one⟩
  have h10 : ((lit 1 : F) <. lit 0) = false := not_lt_of_le' h01
  have n0 : isNaN (lit 0 : F) = false := not_nan_of_le_left h01
  have n1 : isNaN (lit 1 : F) = false := not_nan_of_le_right h01
  unfold clamp at *
  dsimp only at *
  cases h1 : (x <. (lit 0 : F)) with
  | true =>
    rw [if_pos rfl, h10]
    exact ⟨zero_le_zero, h01⟩
  | false =>
    rw [h1] at h
    simp only [Bool.false_eq_true, if_false] at *
    cases h2 : ((lit 1 : F) <. x) with
    | true => exact ⟨h01, one_le_one⟩
    | false =>
      rw [h2] at h
      simp only [Bool.false_eq_true, if_false] at *
      exact ⟨le_of_not_lt' h n0 h1, le_of_not_lt' n1 h h2⟩

end

theorem real_tiny : (tiny : ℝ) = 1 / 10 ^ 9 := by
  show ((1 / 1000000000 : ℚ) : ℝ) = _
  norm_num

/-- Parameters of kept pieces are valid in IEEE arithmetic. -/
theorem Kept.valid64 [Kurbo F64] {p : Piece F64} (h : Kept p) : p.Valid := by
  obtain ⟨h0, h1, h2⟩ := h
  have hn1 : isNaN p.t1 = false := by
    cases hh : isNaN p.t1 with
    | false => rfl
    | true =>
      rw [isNaN_iff] at hh
      rw [LawfulCmp.lt_iff] at h2
      obtain ⟨_, b, -, hb, -⟩ := h2
      rw [hh] at hb; cases hb
  have hn0 : isNaN p.t0 = false := by
    cases hh : isNaN p.t0 with
    | false => rfl
    | true =>
      have hp : p.t0 = F64.nan := by
        cases hp : p.t0 with
        | nan => rfl
        | inf n => rw [hp] at hh; cases n <;> cases hh
        | fin n a ha =>
          rw [hp, isNaN_iff] at hh
          exact (Option.some_ne_none _ hh).elim
      rw [hp] at h2
      have hn : isNaN (F64.nan +. (tiny : F64)) = true := by decide +kernel
      rw [isNaN_iff] at hn
      rw [LawfulCmp.lt_iff] at h2
      obtain ⟨a, _, ha, -⟩ := h2
      rw [hn] at ha; cases ha
  have b0 : (lit 0 <=. p.t0) = true ∧ (p.t0 <=. lit 1) = true := by
    rcases h0 with h0 | ⟨x, hx⟩
    · rw [h0]; exact ⟨by decide +kernel, by decide +kernel⟩
    · rw [hx] at hn0 ⊢; exact clamp_le_one hn0
  have b1 : (lit 0 <=. p.t1) = true ∧ (p.t1 <=. lit 1) = true := by
    rcases h1 with h1 | ⟨x, hx⟩
    · rw [h1]; exact ⟨by decide +kernel, by decide +kernel⟩
    · rw [hx] at hn1 ⊢; exact clamp_le_one hn1
  refine ⟨b0.1, lt_of_le_of_lt' ?_ h2, b1.2⟩
  have hf : p.t0.isFin = true := by
    cases hp : p.t0 with
    | nan => rw [hp] at b0; exact absurd b0.1 (by decide +kernel)
    | inf n =>
      rw [hp] at b0
      cases n
      · exact absurd b0.2 (by decide +kernel)
      · exact absurd b0.1 (by decide +kernel)
    | fin n a ha => rfl
  have ht : (tiny : F64).isFin = true := by decide +kernel
  have ht0 : 0 ≤ (tiny : F64).toQ := by decide +kernel
  have ht1 : (tiny : F64).toQ ≤ 1 := by decide +kernel
  have q0 := (F64.le_fin F64.isFin_lit0 hf).mp b0.1
  have q1 := (F64.le_fin hf F64.isFin_lit1).mp b0.2
  rw [F64.toQ_lit0] at q0
  rw [F64.toQ_lit1] at q1
  have hs := F64.add_fin hf ht (by
    refine (F64.abs_rnd_le (k := 2) ?_).trans_lt (F64.pow_lt_maxMag (by norm_num))
    rw [abs_of_nonneg (by linarith)]
    linarith)
  refine (F64.le_fin hf hs.1).mpr ?_
  rw [hs.2]
  have := F64.rnd_mono (show p.t0.toQ ≤ p.t0.toQ + (tiny : F64).toQ by linarith)
  rwa [F64.rnd_of_exact (F64.exact_toQ _)] at this

theorem Kept.validR [Kurbo ℝ] {p : Piece ℝ} (h : Kept p) : p.Valid := by
  obtain ⟨h0, h1, h2⟩ := h
  have hn : ∀ x : ℝ, isNaN x = false := fun x => by simp [isNaN]
  refine ⟨?_, ?_, ?_⟩
  · rcases h0 with h0 | ⟨x, hx⟩
    · rw [h0]; exact zero_le_zero
    · rw [hx]; exact (clamp_le_one (hn _)).1
  · rw [real_tiny] at h2
    simp only [real_add, real_lt, decide_eq_true_eq] at *
    have : (0 : ℝ) < 1 / 10 ^ 9 := by norm_num
    linarith
  · rcases h1 with h1 | ⟨x, hx⟩
    · rw [h1]; exact one_le_one
    · rw [hx]; exact (clamp_le_one (hn _)).2

/-! ## Exact arithmetic on straight lines -/

/-- The segments are straight lines, each starting where the one before ended. -/
def Chained : P2 ℝ → List (PathSeg ℝ) → Prop
  | _, [] => True
  | P, .line p q :: ss => p = P ∧ Chained q ss
  | _, _ :: _ => False

theorem dist2_nonneg (p q : P2 ℝ) : 0 ≤ dist2 p q := Real.sqrt_nonneg _

theorem dist2_lerp (p q : P2 ℝ) {t0 t1 : ℝ} (h : t0 ≤ t1) :
    dist2 ⟨p.x + t0 * (q.x - p.x), p.y + t0 * (q.y - p.y)⟩
      ⟨p.x + t1 * (q.x - p.x), p.y + t1 * (q.y - p.y)⟩ = (t1 - t0) * dist2 p q := by
  unfold dist2
  dsimp only
  rw [show (p.x + t1 * (q.x - p.x) - (p.x + t0 * (q.x - p.x))) ^ 2
      + (p.y + t1 * (q.y - p.y) - (p.y + t0 * (q.y - p.y))) ^ 2
      = (t1 - t0) ^ 2 * ((q.x - p.x) ^ 2 + (q.y - p.y) ^ 2) by ring,
    Real.sqrt_mul (sq_nonneg _), Real.sqrt_sq (by linarith)]

theorem real_clamp (x : ℝ) : clamp x (lit 0) (lit 1) = max 0 (min 1 x) := by
  unfold clamp
  simp only [real_lt, real_lit, decide_eq_true_eq]
  push_cast
  split <;> split
  · linarith
  · rename_i h _; rw [min_eq_right (by linarith), max_eq_left h.le]
  · rename_i h h'; rw [min_eq_left h'.le, max_eq_right (by norm_num)]
  · rename_i h h'; rw [min_eq_right (not_lt.mp h'), max_eq_right (not_lt.mp h)]

section
variable [Kurbo ℝ]

theorem trimT0_line (hk : ExactLines) (s : ℝ) (p q : P2 ℝ) (c : ℝ) :
    trimT0 s (.line p q) c * dist2 p q = min (dist2 p q) (max 0 (s - c)) ∧
    0 ≤ trimT0 s (.line p q) c ∧ trimT0 s (.line p q) c ≤ 1 ∧
    (s ≤ c → trimT0 s (.line p q) c = 0) ∧ (c + dist2 p q < s → trimT0 s (.line p q) c = 1) := by
  have hl := dist2_nonneg p q
  unfold trimT0
  simp only [real_lt, real_sub, decide_eq_true_eq, real_clamp]
  split
  · rename_i h
    refine ⟨?_, le_max_left _ _, max_le (by norm_num) (min_le_left _ _), fun h' => by linarith, ?_⟩
    · rcases hl.eq_or_lt with h0 | h0
      · rw [← h0, mul_zero, min_eq_left (le_max_left _ _)]
      · rw [hk.inv _ _ _ h0.ne', max_eq_right (le_min (by norm_num) (div_nonneg (by linarith) hl)),
          max_eq_right (by linarith)]
        rcases le_total 1 ((s - c) / dist2 p q) with h1 | h1
        · rw [min_eq_left h1, one_mul, min_eq_left ((one_le_div h0).mp h1)]
        · rw [min_eq_right h1, div_mul_cancel₀ _ h0.ne', min_eq_right ((div_le_one h0).mp h1)]
    · intro h2
      have : 1 ≤ Kurbo.invArclen (.line p q) (s - c) := by
        rcases hl.eq_or_lt with h0 | h0
        · exact hk.inv_pos _ _ _ h0.symm (by linarith)
        · rw [hk.inv _ _ _ h0.ne', one_le_div h0]; linarith
      rw [min_eq_left this, max_eq_right (by norm_num)]
  · rename_i h
    simp only [real_lit]
    push_cast
    refine ⟨?_, le_refl _, by norm_num, fun _ => rfl, fun h2 => by linarith⟩
    rw [zero_mul, max_eq_left (by linarith), min_eq_right hl]

theorem trimT1_line (hk : ExactLines) (e : ℝ) (p q : P2 ℝ) (c : ℝ) :
    trimT1 e (.line p q) c * dist2 p q = max 0 (min (dist2 p q) (e - c)) ∧
    0 ≤ trimT1 e (.line p q) c ∧ trimT1 e (.line p q) c ≤ 1 ∧
    (e < c → trimT1 e (.line p q) c = 0) ∧ (c + dist2 p q ≤ e → trimT1 e (.line p q) c = 1) := by
  have hl := dist2_nonneg p q
  unfold trimT1
  simp only [real_lt, real_sub, real_add, decide_eq_true_eq, real_clamp, hk.arclen]
  split
  · rename_i h
    refine ⟨?_, le_max_left _ _, max_le (by norm_num) (min_le_left _ _), ?_, fun h' => by linarith⟩
    · rcases hl.eq_or_lt with h0 | h0
      · rw [← h0, mul_zero, max_eq_left (min_le_left _ _)]
      · rw [hk.inv _ _ _ h0.ne', max_mul_of_nonneg _ _ hl, zero_mul, min_mul_of_nonneg _ _ hl, one_mul,
          div_mul_cancel₀ _ h0.ne']
    · intro h2
      have : Kurbo.invArclen (.line p q) (e - c) ≤ 0 := by
        rcases hl.eq_or_lt with h0 | h0
        · exact hk.inv_neg _ _ _ h0.symm (by linarith)
        · rw [hk.inv _ _ _ h0.ne']; exact div_nonpos_of_nonpos_of_nonneg (by linarith) hl
      rw [max_eq_left ((min_le_right _ _).trans this)]
  · rename_i h
    simp only [real_lit]
    push_cast
    refine ⟨?_, by norm_num, le_refl _, fun h2 => by linarith, fun _ => rfl⟩
    rw [one_mul, min_eq_left (by linarith), max_eq_right hl]

/-- Pieces each starting where the one before ended. -/
def Linked : P2 ℝ → List (Piece ℝ) → Prop
  | _, [] => True
  | Q, p :: ps => p.sub.start = Q ∧ Linked p.sub.stop ps

/-- The sum of the lengths of the sub-segments. -/
noncomputable def runLength (run : List (Piece ℝ)) : ℝ :=
  (run.map fun p => dist2 p.sub.start p.sub.stop).sum

/-- The projection to the range. -/
noncomputable def proj (s e x : ℝ) : ℝ := max s (min e x)

omit [Kurbo ℝ] in
theorem proj_diff {s e c l : ℝ} (hse : s ≤ e) (hl : 0 ≤ l) :
    max 0 (min l (e - c)) - min l (max 0 (s - c)) = proj s e (c + l) - proj s e c := by
  unfold proj
  simp only [max_def, min_def]
  split_ifs <;> linarith

omit [Kurbo ℝ] in
theorem proj_mono {s e a b : ℝ} (h : a ≤ b) : proj s e a ≤ proj s e b :=
  max_le_max (le_refl _) (min_le_min (le_refl _) h)

/-- The sum of the lengths of the segments. -/
noncomputable def segsLength (segs : List (PathSeg ℝ)) : ℝ :=
  (segs.map fun s => dist2 s.start s.stop).sum

omit [Kurbo ℝ] in
theorem segsLength_nonneg (segs : List (PathSeg ℝ)) : 0 ≤ segsLength segs := by
  unfold segsLength
  refine List.sum_nonneg ?_
  intro x hx
  obtain ⟨s, -, rfl⟩ := List.mem_map.mp hx
  exact dist2_nonneg _ _

omit [Kurbo ℝ] in
theorem segsLength_cons (p q : P2 ℝ) (segs : List (PathSeg ℝ)) :
    segsLength (.line p q :: segs) = dist2 p q + segsLength segs := by
  simp [segsLength, PathSeg.start, PathSeg.stop]

/-- One range of a trim, on a chain of lines.  `nm` is `need_move`; `Q` is the position of the pen,
which is at the end of the chain so far, or past the range. -/
theorem trimSegs_lines (hk : ExactLines) {s e : ℝ} (hse : s ≤ e) (segs : List (PathSeg ℝ)) :
    ∀ (P Q : P2 ℝ) (c : ℝ) (nm : Bool), Chained P segs →
      (nm = false → (Q = P ∧ s ≤ c) ∨ e < c) →
      ∃ run : List (Piece ℝ), trimSegs s e segs c nm = runFrom nm run ∧
        (run.map (·.seg)).Sublist segs ∧ (∀ p ∈ run, Kept p) ∧ (∀ p ∈ run, p.sub.IsLine) ∧
        (nm = false → Linked Q run) ∧ (∀ p ps, run = p :: ps → Linked p.sub.stop ps) ∧
        runLength run ≤ proj s e (c + segsLength segs) - proj s e c ∧
        proj s e (c + segsLength segs) - proj s e c ≤ runLength run + tiny * segsLength segs := by
  induction segs with
  | nil =>
    intro P Q c nm _ _
    refine ⟨[], by cases nm <;> rfl, List.Sublist.refl _, by simp, by simp, fun _ => trivial,
      (fun _ _ h => nomatch h), ?_, ?_⟩ <;> simp [runLength, segsLength]
  | cons seg segs ih =>
    intro P Q c nm hch hpen
    cases seg with
    | quad _ _ _ => exact hch.elim
    | cubic _ _ _ _ => exact hch.elim
    | line p q =>
      obtain ⟨rfl, hch⟩ := hch
      have hl := dist2_nonneg p q
      have hL := segsLength_nonneg segs
      obtain ⟨a1, a2, a3, a4, a5⟩ := trimT0_line hk s p q c
      obtain ⟨b1, b2, b3, b4, b5⟩ := trimT1_line hk e p q c
      have hd := proj_diff (c := c) hse hl
      rw [← a1, ← b1] at hd
      have htiny : (0 : ℝ) < tiny := by rw [real_tiny]; norm_num
      have htiny1 : (tiny : ℝ) < 1 := by rw [real_tiny]; norm_num
      have htl : 0 ≤ (tiny : ℝ) * dist2 p q := mul_nonneg htiny.le hl
      have htL : 0 ≤ (tiny : ℝ) * segsLength segs := mul_nonneg htiny.le hL
      have hm := proj_mono (s := s) (e := e) (show c ≤ c + dist2 p q by linarith)
      rw [trimSegs_cons, segsLength_cons, ← add_assoc]
      simp only [real_add, real_sub, real_lt, decide_eq_true_eq, hk.arclen]
      rw [mul_add]
      by_cases h1 : c + dist2 p q < s - tiny
      · rw [if_pos h1]
        obtain ⟨run, r1, r2, r3, r4, r5, r6, r7, r8⟩ := ih q Q (c + dist2 p q) nm hch (by
          intro hn
          rcases hpen hn with ⟨-, h⟩ | h <;> linarith)
        refine ⟨run, r1, r2.cons _, r3, r4, r5, r6, ?_, ?_⟩ <;>
        · have e1 : proj s e (c + dist2 p q) = s := by
            unfold proj; rw [max_eq_left]; exact (min_le_right _ _).trans (by linarith)
          have e2 : proj s e c = s := by
            unfold proj; rw [max_eq_left]; exact (min_le_right _ _).trans (by linarith)
          linarith
      rw [if_neg h1]
      by_cases h2 : e + tiny < c
      · rw [if_pos h2]
        have e1 : ∀ x, c ≤ x → proj s e x = e := by
          intro x hx
          unfold proj
          rw [min_eq_left (by linarith), max_eq_right hse]
        refine ⟨[], by cases nm <;> rfl, List.nil_sublist _, by simp, by simp, fun _ => trivial,
          (fun _ _ h => nomatch h), ?_, ?_⟩ <;>
        · rw [e1 _ (by linarith), e1 _ (le_refl _)]
          simp only [runLength, List.map_nil, List.sum_nil]
          linarith
      rw [if_neg h2]
      by_cases h3 : trimT0 s (.line p q) c + tiny < trimT1 e (.line p q) c
      · rw [if_pos h3]
        have hle : trimT0 s (.line p q) c ≤ trimT1 e (.line p q) c := by linarith
        obtain ⟨run, r1, r2, r3, r4, r5, r6, r7, r8⟩ := ih q
          (Kurbo.subsegment (.line p q) (trimT0 s (.line p q) c) (trimT1 e (.line p q) c)).stop
          (c + dist2 p q) false hch (by
            intro _
            by_cases he : e < c + dist2 p q
            · exact .inr he
            · refine .inl ⟨?_, ?_⟩
              · rw [b5 (not_lt.mp he), hk.sub]
                cases p; cases q
                simp only [PathSeg.stop, P2.mk.injEq]
                constructor <;> ring
              · by_contra hc
                have := a5 (not_le.mp hc)
                linarith)
        refine ⟨⟨.line p q, trimT0 s (.line p q) c, trimT1 e (.line p q) c⟩ :: run, ?_,
          r2.cons_cons _, ?_, ?_, ?_, ?_, ?_⟩
        · rw [runFrom_cons, r1]; rfl
        · intro x hx
          rcases List.mem_cons.mp hx with rfl | hx
          · refine ⟨?_, ?_, by simpa using h3⟩ <;> dsimp only
            · unfold trimT0
              split
              · exact .inr ⟨_, rfl⟩
              · exact .inl rfl
            · unfold trimT1
              split
              · exact .inr ⟨_, rfl⟩
              · exact .inl rfl
          · exact r3 x hx
        · intro x hx
          rcases List.mem_cons.mp hx with rfl | hx
          · rw [Piece.sub, hk.sub]; trivial
          · exact r4 x hx
        · intro hn
          refine ⟨?_, r5 rfl⟩
          rcases hpen hn with ⟨rfl, hc⟩ | hc
          · rw [Piece.sub, a4 hc, hk.sub]
            cases Q
            simp [PathSeg.start]
          · rw [b4 hc] at h3; linarith
        · intro x xs hx
          cases hx
          exact r5 rfl
        · have hr : runLength (⟨.line p q, trimT0 s (.line p q) c, trimT1 e (.line p q) c⟩ :: run)
              = (trimT1 e (.line p q) c - trimT0 s (.line p q) c) * dist2 p q + runLength run := by
            rw [← dist2_lerp p q hle]
            simp only [runLength, List.map_cons, List.sum_cons, Piece.sub, hk.sub, PathSeg.start,
              PathSeg.stop]
          rw [hr, sub_mul]
          constructor <;> linarith
      · rw [if_neg h3]
        obtain ⟨run, r1, r2, r3, r4, r5, r6, r7, r8⟩ := ih q Q (c + dist2 p q) nm hch (by
          intro hn
          by_cases he : e < c + dist2 p q
          · exact .inr he
          · rcases hpen hn with ⟨-, h⟩ | h
            · exfalso
              rw [a4 h, b5 (not_lt.mp he)] at h3
              linarith
            · exact .inr (by linarith))
        have h4 : (trimT1 e (.line p q) c - trimT0 s (.line p q) c) * dist2 p q
            ≤ tiny * dist2 p q := mul_le_mul_of_nonneg_right (by linarith) hl
        rw [sub_mul] at h4
        refine ⟨run, r1, r2.cons _, r3, r4, r5, r6, ?_, ?_⟩ <;> linarith

/-- The segments of a path made of linked pieces are the pieces. -/
theorem segmentsAux_linked (run : List (Piece ℝ)) (tl : List (PathEl ℝ)) (st : P2 ℝ)
    (htl : ∀ a b, segmentsAux tl a b = segmentsAux tl st st) :
    ∀ Q : P2 ℝ, Linked Q run → (∀ p ∈ run, p.sub.IsLine) → ∀ a,
      segmentsAux (run.map (fun q => q.sub.toEl) ++ tl) a Q
        = run.map Piece.sub ++ segmentsAux tl st st := by
  induction run with
  | nil => intro Q _ _ a; exact htl _ _
  | cons p ps ih =>
    intro Q h hl a
    obtain ⟨h1, h2⟩ := h
    have hp := hl p (by simp)
    have ih := ih _ h2 fun x hx => hl x (by simp [hx])
    simp only [List.map_cons, List.cons_append]
    cases hs : p.sub with
    | quad _ _ _ => rw [hs] at hp; exact hp.elim
    | cubic _ _ _ _ => rw [hs] at hp; exact hp.elim
    | line u v =>
      rw [hs] at h1 ih
      have : u = Q := h1
      subst this
      simp only [PathSeg.toEl, segmentsAux]
      rw [← ih a]
      rfl

theorem segments_runs (r1 r2 : List (Piece ℝ)) (h1 : ∀ p ps, r1 = p :: ps → Linked p.sub.stop ps)
    (h2 : ∀ p ps, r2 = p :: ps → Linked p.sub.stop ps) (l1 : ∀ p ∈ r1, p.sub.IsLine)
    (l2 : ∀ p ∈ r2, p.sub.IsLine) :
    segments (runPath r1 ++ runPath r2) = (r1 ++ r2).map Piece.sub := by
  have key : ∀ (r : List (Piece ℝ)) (tl : List (PathEl ℝ)) (st : P2 ℝ),
      (∀ p ps, r = p :: ps → Linked p.sub.stop ps) → (∀ p ∈ r, p.sub.IsLine) →
      (∀ a b, segmentsAux tl a b = segmentsAux tl st st) → ∀ a b, 
      segmentsAux (runPath r ++ tl) a b = r.map Piece.sub ++ segmentsAux tl st st := by
    intro r tl st h l htl a b
    cases r with
    | nil => exact htl a b
    | cons p ps =>
      simp only [runPath, List.cons_append, segmentsAux]
      exact segmentsAux_linked (p :: ps) tl st htl _ ⟨rfl, h p ps rfl⟩ l _
  have hseg : ∀ els : List (PathEl ℝ), bezPathOk els = true → ∀ a, segments els = segmentsAux els a a := by
    intro els h a
    cases els with
    | nil => rfl
    | cons e es => cases e <;> first | rfl | cases h
  have hok : bezPathOk (runPath r1 ++ runPath r2) = true := by
    cases r1 <;> cases r2 <;> rfl
  have hst : ∀ a b, segmentsAux (runPath r2) a b = segmentsAux (runPath r2) ⟨0, 0⟩ ⟨0, 0⟩ := by
    intro a b; cases r2 <;> rfl
  rw [hseg _ hok ⟨0, 0⟩, key r1 (runPath r2) ⟨0, 0⟩ h1 l1 hst, List.map_append]
  have := key r2 [] ⟨0, 0⟩ h2 l2 (fun _ _ => rfl) ⟨0, 0⟩ ⟨0, 0⟩
  rw [List.append_nil] at this
  rw [this]
  simp [segmentsAux]

omit [Kurbo ℝ] in
theorem chained_straight (els : List (PathEl ℝ)) (h : ∀ el ∈ els, el.Straight) :
    ∀ a b, Chained b (segmentsAux els a b) := by
  induction els with
  | nil => intro _ _; trivial
  | cons el els ih =>
    intro a b
    have h1 := h el (by simp)
    have ih := ih fun x hx => h x (by simp [hx])
    cases el with
    | moveTo _ => exact h1.elim
    | quadTo _ _ => exact h1.elim
    | curveTo _ _ _ => exact h1.elim
    | lineTo q => exact ⟨rfl, ih _ _⟩
    | closePath =>
      rw [segmentsAux]
      split
      · exact ih _ _
      · exact ⟨rfl, ih _ _⟩

theorem totalLength_lines (hk : ExactLines) (segs : List (PathSeg ℝ)) (P : P2 ℝ)
    (h : Chained P segs) : totalLength segs = segsLength segs := by
  have key : ∀ (segs : List (PathSeg ℝ)) (P : P2 ℝ) (x : ℝ), Chained P segs →
      (segs.map Kurbo.arclen).foldl (· +. ·) x = x + segsLength segs := by
    intro segs
    induction segs with
    | nil => intro P x _; simp [segsLength]
    | cons seg segs ih =>
      intro P x h
      cases seg with
      | quad _ _ _ => exact h.elim
      | cubic _ _ _ _ => exact h.elim
      | line p q =>
        rw [List.map_cons, List.foldl_cons, ih q _ h.2, hk.arclen, segsLength_cons, real_add]
        ring
  rw [totalLength, key segs P _ h, real_lit]
  push_cast
  ring

end

end Velato
