import Verif.Proofs.TrimCurve
import Verif.Props.TrimPath
import Mathlib.Topology.Order.IntermediateValue

/-!
# C24 — trimmed paths of curves, exact arc length
-/

namespace Velato
open FloatOps (lit)

theorem normalized_bounds {t : FixedTrim ℝ} {first : ℝ × ℝ} {second : Option (ℝ × ℝ)}
    (hn : t.normalized = some (first, second)) :
    ∀ r ∈ first :: second.toList, 0 ≤ r.1 ∧ r.1 ≤ r.2 ∧ r.2 ≤ 1 := by
  rw [real_normalized] at hn
  dsimp only at hn
  have habs := abs_nonneg (t.stop - t.start)
  generalize |t.stop - t.start| = range at hn habs
  split at hn
  · exact (Option.some_ne_none _ hn.symm).elim
  split at hn
  · simp only [Option.some.injEq, Prod.mk.injEq] at hn
    obtain ⟨rfl, rfl⟩ := hn
    intro r hr
    simp only [Option.toList_none, List.mem_singleton] at hr
    subst hr
    norm_num
  rename_i hlt
  have f1 := Int.floor_le ((min t.start t.stop + t.offset * (100 / 360)) / 100)
  have f2 := Int.lt_floor_add_one ((min t.start t.stop + t.offset * (100 / 360)) / 100)
  generalize hx : min t.start t.stop + t.offset * (100 / 360) = x at *
  have g1 : 0 ≤ x - 100 * ⌊x / 100⌋ := by linarith
  have g2 : x - 100 * ⌊x / 100⌋ < 100 := by linarith
  generalize x - 100 * ⌊x / 100⌋ = st at *
  split at hn
  · simp only [Option.some.injEq, Prod.mk.injEq] at hn
    obtain ⟨rfl, rfl⟩ := hn
    intro r hr
    simp only [Option.toList_none, List.mem_singleton] at hr
    subst hr
    dsimp only
    refine ⟨?_, ?_, ?_⟩ <;> linarith
  · simp only [Option.some.injEq, Prod.mk.injEq] at hn
    obtain ⟨rfl, rfl⟩ := hn
    intro r hr
    simp only [Option.toList_some, List.mem_cons, List.not_mem_nil, or_false] at hr
    have : (0 : ℝ) < 1 / 10 ^ 9 := by norm_num
    rcases hr with rfl | rfl <;> dsimp only <;> refine ⟨?_, ?_, ?_⟩ <;> linarith

section
variable [Kurbo ℝ]

/-- **C24**, exact arithmetic: for each range of a trim the trimmed path moves to the start of the
first of the pieces that lie between the two arc lengths and continues along the others. -/
theorem C24_cut (hk : ExactCurves) {els : List (PathEl ℝ)} {first : ℝ × ℝ}
    {second : Option (ℝ × ℝ)} (hr : ∀ r ∈ first :: second.toList, r.1 ≤ r.2)
    {out : List (PathEl ℝ)} (h : trimPath first second els = .ok out) :
    ∃ r1 r2 : List (Piece ℝ), out = runPath r1 ++ runPath r2 ∧
      Cut (first.1 * pathLength els) (first.2 * pathLength els) 0 (segments els) r1 ∧
      (second = none → r2 = []) ∧
      ∀ r, second = some r → Cut (r.1 * pathLength els) (r.2 * pathLength els) 0 (segments els) r2 := by
  obtain ⟨r1, r2, h1, h2, h3, h4, -⟩ := trimPath_cut hk hr h
  exact ⟨r1, r2, h1, h2, h3, h4⟩

/-- **C24**, exact arithmetic, one subpath of lines and curves: the segments of the trimmed path are
exactly the pieces between the arc lengths (nothing else is drawn), and its length is the requested
part of the length of the path, up to the tolerance `1e-9` in the parameters of each piece.  (Partial:
several subpaths, see `C24_counterexample`.) -/
theorem C24_curves_partial (hk : ExactCurves) {p : P2 ℝ} {rest : List (PathEl ℝ)}
    (hrest : ∀ el ∈ rest, el.Continues) {first : ℝ × ℝ} {second : Option (ℝ × ℝ)}
    (hr : ∀ r ∈ first :: second.toList, 0 ≤ r.1 ∧ r.1 ≤ r.2 ∧ r.2 ≤ 1)
    {out : List (PathEl ℝ)} (h : trimPath first second (.moveTo p :: rest) = .ok out) :
    (∃ r1 r2 : List (Piece ℝ), out = runPath r1 ++ runPath r2 ∧
      segments out = (r1 ++ r2).map Piece.sub ∧
      Cut (first.1 * pathLength (.moveTo p :: rest)) (first.2 * pathLength (.moveTo p :: rest)) 0
        (segments (.moveTo p :: rest)) r1 ∧
      (second = none → r2 = []) ∧
      ∀ r, second = some r → Cut (r.1 * pathLength (.moveTo p :: rest))
        (r.2 * pathLength (.moveTo p :: rest)) 0 (segments (.moveTo p :: rest)) r2) ∧
    |pathLength out - trimLength (some (first, second)) * pathLength (.moveTo p :: rest)|
      ≤ 6 / 10 ^ 9 * controlLength (.moveTo p :: rest) := by
  generalize hels : PathEl.moveTo p :: rest = els at *
  have hch : ChainedC p (segments els) := by
    rw [← hels]; exact chainedC_continues rest hrest p p
  obtain ⟨r1, r2, h1, h2, h3, h4, h5⟩ := trimPath_cut hk (fun r hrr => (hr r hrr).2.1) h
  obtain ⟨l1, l2⟩ := h5 p hch
  have hseg : segments out = (r1 ++ r2).map Piece.sub := by
    rw [h1]; exact segments_runsC r1 r2 l1 l2
  refine ⟨⟨r1, r2, h1, hseg, h2, h3, h4⟩, ?_⟩
  have hL : pathLength els = arcLength (segments els) := rfl
  have hC : controlLength els = ctrlLength (segments els) := rfl
  rw [hL] at h2 h4 ⊢
  rw [hC]
  have hL0 := arcLength_nonneg (segments els)
  have hC0 := ctrlLength_nonneg (segments els)
  have key : ∀ r ∈ first :: second.toList, ∀ run,
      Cut (r.1 * arcLength (segments els)) (r.2 * arcLength (segments els)) 0 (segments els) run →
      (run.map fun p => p.sub.length).sum ≤ (r.2 - r.1) * arcLength (segments els) ∧
      (r.2 - r.1) * arcLength (segments els)
        ≤ (run.map fun p => p.sub.length).sum + 3 / 10 ^ 9 * ctrlLength (segments els) := by
    intro r hrr run hc
    obtain ⟨q0, q1, q2⟩ := hr r hrr
    have g1 := mul_le_mul_of_nonneg_right q1 hL0
    have := hc.length g1
    rw [sub_lengths hk hc.pieces]
    generalize arcLength (segments els) = L at *
    have g0 : 0 ≤ r.1 * L := mul_nonneg q0 hL0
    have g2 : r.2 * L ≤ L := by simpa using mul_le_mul_of_nonneg_right q2 hL0
    have e1 : proj (r.1 * L) (r.2 * L) (0 + L) = r.2 * L := by
      rw [proj, zero_add, min_eq_left g2, max_eq_right g1]
    have e2 : proj (r.1 * L) (r.2 * L) 0 = r.1 * L := by
      rw [proj, min_eq_right (by linarith), max_eq_left g0]
    rw [e1, e2] at this
    constructor <;> linarith [this.1, this.2]
  have hlen : pathLength out = (r1.map fun p => p.sub.length).sum
      + (r2.map fun p => p.sub.length).sum := by
    rw [pathLength, hseg, List.map_append, List.map_append, List.sum_append, List.map_map,
      List.map_map]; rfl
  have k1 := key first (by simp) r1 h2
  rw [hlen, abs_le]
  cases second with
  | none =>
    rw [h3 rfl]
    simp only [List.map_nil, List.sum_nil, trimLength]
    constructor <;> linarith [k1.1, k1.2]
  | some r =>
    have k2 := key r (by simp) r2 (h4 r rfl)
    simp only [trimLength]
    rw [add_mul]
    constructor <;> linarith [k1.1, k1.2, k2.1, k2.2]

/-- **C24**, in terms of the trim: the length of the trimmed path is the fraction
`|end - start| / 100` (at most 1) of the length of the path, up to an error of `1e-8` times the length
of the control polygon. -/
theorem C24_curves_fraction_partial (hk : ExactCurves) {p : P2 ℝ} {rest : List (PathEl ℝ)}
    (hrest : ∀ el ∈ rest, el.Continues) {t : FixedTrim ℝ} {o o' : Outline ℝ}
    (ho : o.path = .moveTo p :: rest) (h : TrimmedOutline t o o') :
    |pathLength o'.path - min (|t.stop - t.start| / 100) 1 * pathLength o.path|
      ≤ 1 / 10 ^ 8 * controlLength o.path := by
  have hL0 : 0 ≤ pathLength o.path := arcLength_nonneg _
  have hC0 : 0 ≤ controlLength o.path := ctrlLength_nonneg _
  have hLC : pathLength o.path ≤ 3 * controlLength o.path := arcLength_le _
  have h20 := C20_length t
  have hm := mul_le_mul_of_nonneg_right h20 hL0
  rw [← abs_of_nonneg hL0, ← abs_mul, abs_of_nonneg hL0, sub_mul] at hm
  rw [abs_le] at hm
  obtain ⟨-, h⟩ := h
  cases hn : t.normalized with
  | none =>
    rw [hn] at h hm
    have : pathLength o'.path = 0 := by rw [h]; rfl
    rw [this, abs_le]
    simp only [trimLength, zero_mul] at hm
    constructor <;> linarith
  | some pr =>
    obtain ⟨first, second⟩ := pr
    rw [hn] at h hm
    dsimp only at h
    have hr := normalized_bounds hn
    split at h
    · rename_i hc
      rw [h]
      simp only [Bool.and_eq_true, real_le, real_sub, real_tiny, decide_eq_true_eq, real_lit,
        Option.isNone_iff_eq_none] at hc
      push_cast at hc
      obtain ⟨⟨c1, c2⟩, rfl⟩ := hc
      obtain ⟨q0, q1, q2⟩ := hr first (by simp)
      have k1 : (1 - 2 / 10 ^ 9) * pathLength o.path
          ≤ trimLength (some (first, none)) * pathLength o.path :=
        mul_le_mul_of_nonneg_right (by simp only [trimLength]; linarith) hL0
      have k2 : trimLength (some (first, none)) * pathLength o.path
          ≤ 1 * pathLength o.path :=
        mul_le_mul_of_nonneg_right (by simp only [trimLength]; linarith) hL0
      rw [abs_le]
      constructor <;> linarith
    · rw [ho] at h
      have := (C24_curves_partial hk hrest hr h).2
      rw [← ho, abs_le] at this
      rw [abs_le]
      constructor <;> linarith

end

/-! ## Examples -/

theorem exists_lengthTo (s : PathSeg ℝ) {x : ℝ} (h0 : 0 ≤ x) (h1 : x ≤ s.length) :
    ∃ t, 0 ≤ t ∧ t ≤ 1 ∧ s.lengthTo t = x := by
  have := intermediate_value_Icc (zero_le_one' ℝ) s.continuous_lengthTo.continuousOn
  rw [s.lengthTo_zero] at this
  obtain ⟨t, ht, e⟩ := this ⟨h0, h1⟩
  exact ⟨t, ht.1, ht.2, e⟩

/-- The part of a segment between two parameters, by blossoming. -/
noncomputable def blossomSub : PathSeg ℝ → ℝ → ℝ → PathSeg ℝ
  | .line p q, a, b =>
    .line ((PathSeg.line p q).at a) ((PathSeg.line p q).at b)
  | .quad p q r, a, b =>
    let f (u v p q r : ℝ) := (1 - u) * (1 - v) * p + ((1 - u) * v + u * (1 - v)) * q + u * v * r
    .quad ⟨f a a p.x q.x r.x, f a a p.y q.y r.y⟩ ⟨f a b p.x q.x r.x, f a b p.y q.y r.y⟩
      ⟨f b b p.x q.x r.x, f b b p.y q.y r.y⟩
  | .cubic p q r s, a, b =>
    let f (u v w p q r s : ℝ) := (1 - u) * (1 - v) * (1 - w) * p
      + ((1 - u) * (1 - v) * w + (1 - u) * v * (1 - w) + u * (1 - v) * (1 - w)) * q
      + ((1 - u) * v * w + u * (1 - v) * w + u * v * (1 - w)) * r + u * v * w * s
    .cubic ⟨f a a a p.x q.x r.x s.x, f a a a p.y q.y r.y s.y⟩
      ⟨f a a b p.x q.x r.x s.x, f a a b p.y q.y r.y s.y⟩
      ⟨f a b b p.x q.x r.x s.x, f a b b p.y q.y r.y s.y⟩
      ⟨f b b b p.x q.x r.x s.x, f b b b p.y q.y r.y s.y⟩

open Classical in
/-- kurbo, exact on lines and curves. -/
@[instance_reducible] noncomputable def curveKurbo : Kurbo ℝ where
  solveCubic _ _ _ _ := []
  ellipsePath _ _ := []
  roundedRectPath _ _ _ _ _ := []
  arclen s := s.length
  invArclen s x :=
    if h : 0 ≤ x ∧ x ≤ s.length then (exists_lengthTo s h.1 h.2).choose
    else if x < 0 then 0 else 1
  subsegment := blossomSub

/-- The hypothesis of the exact theorems can be met. -/
theorem curveKurbo_exact : @ExactCurves curveKurbo := by
  let _ := curveKurbo
  refine ⟨fun _ => rfl, fun s x h0 h1 _ => ?_, fun s x h => ?_, fun s x h => ?_, fun s a b u => ?_⟩
  · have e : Kurbo.invArclen s x = (exists_lengthTo s h0 h1).choose := dif_pos ⟨h0, h1⟩
    rw [e]
    exact (exists_lengthTo s h0 h1).choose_spec
  · have e : Kurbo.invArclen s x = if x < 0 then 0 else 1 := dif_neg fun h' => by linarith [h'.1]
    rw [e, if_pos h]
  · have e : Kurbo.invArclen s x = if x < 0 then 0 else 1 := dif_neg fun h' => by linarith [h'.2]
    rw [e, if_neg (by linarith [s.length_nonneg])]
  · show (blossomSub s a b).at u = _
    cases s <;> simp only [blossomSub, PathSeg.at, P2.mk.injEq] <;> constructor <;> ring

/-- A path of a line and a curve, trimmed from 80% to 30% of the next turn (two ranges), meets the
hypotheses. -/
example : ∃ out, @trimPath ℝ _ curveKurbo (8 / 10, 1) (some (0, 3 / 10))
      [.moveTo ⟨0, 0⟩, .lineTo ⟨10, 0⟩, .curveTo ⟨10, 5⟩ ⟨5, 10⟩ ⟨0, 10⟩, .closePath] = .ok out ∧
    (∀ el ∈ [PathEl.lineTo (⟨10, 0⟩ : P2 ℝ), .curveTo ⟨10, 5⟩ ⟨5, 10⟩ ⟨0, 10⟩, .closePath],
      el.Continues) ∧
    ∀ r ∈ ((8 / 10, 1) : ℝ × ℝ) :: (some ((0, 3 / 10) : ℝ × ℝ)).toList,
      0 ≤ r.1 ∧ r.1 ≤ r.2 ∧ r.2 ≤ 1 := by
  let _ := curveKurbo
  refine ⟨_, trimPath_ok rfl, ?_, ?_⟩
  · intro el h
    simp only [List.mem_cons, List.not_mem_nil, or_false] at h
    rcases h with rfl | rfl | rfl <;> trivial
  · intro r h
    simp only [Option.toList_some, List.mem_cons, List.not_mem_nil, or_false] at h
    rcases h with rfl | rfl <;> norm_num

end Velato
