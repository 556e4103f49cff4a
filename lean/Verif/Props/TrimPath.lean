import Verif.Proofs.TrimPath
import Verif.Proofs.Outlines
import Verif.Props.Trim

/-!
# C24 — trimmed paths
-/

namespace Velato
open FloatOps (lit)

section
variable {F : Type} [FloatOps F] [Libm F] [Kurbo F]

/-- What a trim does to the outline of a geometry in its scope: an empty trim erases it, a full trim
keeps it, any other trim replaces it by the trimmed path `trimPath`, to which the theorems below
apply. -/
def TrimmedOutline (t : FixedTrim F) (o o' : Outline F) : Prop :=
  o'.transform = o.transform ∧
  match t.normalized with
  | none => o'.path = []
  | some (first, second) =>
    if (first.1 <=. tiny) && ((lit 1 -. tiny) <=. first.2) && second.isNone then o'.path = o.path
    else trimPath first second o.path = .ok o'.path

/-- **C24**, every trimmed path of the renderer is one of `trimPath`: in every state of the renderer
a trim changes the outlines in its scope by `TrimmedOutline`. -/
theorem C24_outlines {b : Batch F} {gs ds : Nat} {st} (h : MidRender b ((gs, ds) :: st))
    (t : FixedTrim F) : ∃ b', b.applyTrim t gs = .ok b' ∧
      List.Forall₂ (TrimmedOutline t) (b.outlines.drop gs) (b'.outlines.drop gs) := by
  have hi := h.inv
  have hs : gs ≤ b.geometries.length := (hi.scopes (gs, ds) (by simp)).geometries
  have hl : (b.outlines.take gs).length = gs := by
    rw [List.length_take, outlines_length]; exact Nat.min_eq_left hs
  refine ⟨b.trimmed t gs, applyTrim_ok hi.wf hs t, ?_⟩
  cases hn : t.normalized with
  | none =>
    rw [outlines_trimmed_none gs hn, List.drop_left' hl, List.forall₂_map_right_iff,
      List.forall₂_same]
    intro o _
    refine ⟨rfl, ?_⟩
    rw [hn]
  | some p =>
    cases hf : (p.1.1 <=. tiny) && ((lit 1 -. tiny) <=. p.1.2) && p.2.isNone with
    | true =>
      rw [trimmed_full gs hn hf, List.forall₂_same]
      intro o _
      refine ⟨rfl, ?_⟩
      rw [hn]
      dsimp only
      rw [if_pos hf]
    | false =>
      rw [outlines_trimmed_some gs hn hf, trimOutlines, List.drop_left' hl,
        List.forall₂_map_right_iff, List.forall₂_same]
      intro o ho
      refine ⟨rfl, ?_⟩
      rw [hn]
      dsimp only
      rw [if_neg (by rw [hf]; exact Bool.false_ne_true)]
      refine trimPath_ok ?_
      have := List.mem_of_mem_drop ho
      rw [Batch.outlines, List.mem_map] at this
      obtain ⟨g, hg, rfl⟩ := this
      exact hi.wf.slice_ok hg

end

/-- **C24**, in IEEE arithmetic and for every behaviour of kurbo: the trimmed path consists of one
run of pieces for each range of the trim.  Each run moves to the start of its first piece and
continues along the others; the pieces are parts of different segments of the path, in order, with
parameters `0 ≤ t0 < t1 ≤ 1`.  (Partial: consecutive pieces of a run may belong to different
subpaths, and are then connected although the path is not; see `C24_counterexample`.  On a single
subpath of straight lines they connect, see `C24_lines_partial`.) -/
theorem C24_pieces_partial [Kurbo F64] {first : F64 × F64} {second : Option (F64 × F64)}
    {els out : List (PathEl F64)} (h : trimPath first second els = .ok out) :
    ∃ r1 r2 : List (Piece F64), out = runPath r1 ++ runPath r2 ∧ PiecesOf (segments els) r1 ∧
      PiecesOf (segments els) r2 ∧ (second = none → r2 = []) := by
  have hb : bezPathOk els = true := by
    cases hb : bezPathOk els with
    | true => rfl
    | false => rw [trimPath, hb] at h; cases h
  rw [trimPath_ok hb, trimmed] at h
  have nil : PiecesOf (segments els) [] := ⟨List.nil_sublist _, by simp⟩
  split at h
  · cases h
    exact ⟨[], [], rfl, nil, nil, fun _ => rfl⟩
  · rw [Except.ok.injEq] at h
    obtain ⟨r1, h1, h2, h3⟩ := trimSegs_pieces (first.1 *. totalLength (segments els))
      (first.2 *. totalLength (segments els)) (segments els) (lit 0) true
    have hv1 : PiecesOf (segments els) r1 := ⟨h2, fun p hp => (h3 p hp).valid64⟩
    cases second with
    | none =>
      refine ⟨r1, [], ?_, hv1, nil, fun _ => rfl⟩
      rw [← h]
      simp only [Option.toList_none, List.flatMap_cons, List.flatMap_nil, h1]
      rfl
    | some range =>
      obtain ⟨r2, k1, k2, k3⟩ := trimSegs_pieces (range.1 *. totalLength (segments els))
        (range.2 *. totalLength (segments els)) (segments els) (lit 0) true
      refine ⟨r1, r2, ?_, hv1, ⟨k2, fun p hp => (k3 p hp).valid64⟩, nofun⟩
      rw [← h]
      simp only [Option.toList_some, List.flatMap_cons, List.flatMap_nil, h1, k1, List.append_nil]
      rfl

section
variable [Kurbo ℝ]

/-- **C24**, exact arithmetic, one subpath of straight lines: the segments of the trimmed path are
exactly the pieces (nothing else is drawn), and its length is the requested part of the length of
the path, up to the tolerance `1e-9` for each range. -/
theorem C24_lines_partial (hk : ExactLines) {p : P2 ℝ} {rest : List (PathEl ℝ)}
    (hrest : ∀ el ∈ rest, el.Straight) {first : ℝ × ℝ} {second : Option (ℝ × ℝ)}
    (hr : ∀ r ∈ first :: second.toList, 0 ≤ r.1 ∧ r.1 ≤ r.2 ∧ r.2 ≤ 1)
    {out : List (PathEl ℝ)} (h : trimPath first second (.moveTo p :: rest) = .ok out) :
    (∃ r1 r2 : List (Piece ℝ), out = runPath r1 ++ runPath r2 ∧
      segments out = (r1 ++ r2).map Piece.sub ∧ PiecesOf (segments (.moveTo p :: rest)) r1 ∧
      PiecesOf (segments (.moveTo p :: rest)) r2 ∧ (second = none → r2 = [])) ∧
    |polylineLength out - trimLength (some (first, second)) * polylineLength (.moveTo p :: rest)|
      ≤ 2 / 10 ^ 9 * polylineLength (.moveTo p :: rest) := by
  generalize hels : PathEl.moveTo p :: rest = els at *
  have hb : bezPathOk els = true := by rw [← hels]; rfl
  have hch : Chained p (segments els) := by
    rw [← hels]; exact chained_straight rest hrest p p
  rw [trimPath_ok hb, trimmed, totalLength_lines hk _ p hch] at h
  have hL : polylineLength els = segsLength (segments els) := rfl
  have hL0 := segsLength_nonneg (segments els)
  have nil : PiecesOf (segments els) [] := ⟨List.nil_sublist _, by simp⟩
  rw [hL]
  generalize hLL : segsLength (segments els) = L at *
  split at h
  · rename_i h0
    have hz : L = 0 := by
      simp only [real_le, real_lit, Bool.or_eq_true, decide_eq_true_eq, List.isEmpty_iff] at h0
      push_cast at h0
      rcases h0 with h0 | h0
      · exact le_antisymm h0 hL0
      · rw [← hLL, h0]; rfl
    cases h
    refine ⟨⟨[], [], rfl, rfl, nil, nil, fun _ => rfl⟩, ?_⟩
    have : polylineLength [] = 0 := rfl
    rw [this, hz]
    simp
  · rw [Except.ok.injEq] at h
    have htiny : (tiny : ℝ) = 1 / 10 ^ 9 := real_tiny
    have key : ∀ r ∈ first :: second.toList, ∃ run : List (Piece ℝ),
        trimSegs (r.1 *. L) (r.2 *. L) (segments els) (lit 0) true = runPath run ∧
        PiecesOf (segments els) run ∧ (∀ p ∈ run, p.sub.IsLine) ∧
        (∀ p ps, run = p :: ps → Linked p.sub.stop ps) ∧
        runLength run ≤ (r.2 - r.1) * L ∧ (r.2 - r.1) * L ≤ runLength run + 1 / 10 ^ 9 * L := by
      intro r hrr
      obtain ⟨q0, q1, q2⟩ := hr r hrr
      have g0 : 0 ≤ r.1 * L := mul_nonneg q0 hL0
      have g1 : r.1 * L ≤ r.2 * L := mul_le_mul_of_nonneg_right q1 hL0
      have g2 : r.2 * L ≤ L := by simpa using mul_le_mul_of_nonneg_right q2 hL0
      obtain ⟨run, k1, k2, k3, k4, -, k6, k7, k8⟩ :=
        trimSegs_lines hk g1 (segments els) p p (lit 0) true hch (by simp)
      have e1 : proj (r.1 * L) (r.2 * L) (lit 0 + segsLength (segments els)) = r.2 * L := by
        rw [hLL, real_lit, proj]; push_cast
        rw [zero_add, min_eq_left g2, max_eq_right g1]
      have e2 : proj (r.1 * L) (r.2 * L) (lit 0) = r.1 * L := by
        rw [real_lit, proj]; push_cast
        rw [min_eq_right (by linarith), max_eq_left g0]
      rw [e1, e2] at k7 k8
      rw [htiny, hLL] at k8
      refine ⟨run, k1, ⟨k2, fun p hp => (k3 p hp).validR⟩, k4, k6, ?_, ?_⟩ <;> linarith
    obtain ⟨r1, a1, a2, a3, a4, a5, a6⟩ := key first (by simp)
    cases second with
    | none =>
      have hout : out = runPath r1 ++ runPath [] := by
        rw [← h]
        simp only [Option.toList_none, List.flatMap_cons, List.flatMap_nil, a1]
        rfl
      have hseg := segments_runs r1 [] a4 (fun _ _ h => nomatch h) a3 (by simp)
      rw [← hout] at hseg
      refine ⟨⟨r1, [], hout, hseg, a2, nil, fun _ => rfl⟩, ?_⟩
      have hlen : polylineLength out = runLength r1 := by
        rw [polylineLength, hseg, List.append_nil, List.map_map]; rfl
      rw [hlen, trimLength, abs_le]
      constructor <;> linarith
    | some r =>
      obtain ⟨r2, b1, b2, b3, b4, b5, b6⟩ := key r (by simp)
      have hout : out = runPath r1 ++ runPath r2 := by
        rw [← h]
        simp only [Option.toList_some, List.flatMap_cons, List.flatMap_nil, a1, b1, List.append_nil]
      have hseg := segments_runs r1 r2 a4 b4 a3 b3
      rw [← hout] at hseg
      refine ⟨⟨r1, r2, hout, hseg, a2, b2, nofun⟩, ?_⟩
      have hlen : polylineLength out = runLength r1 + runLength r2 := by
        rw [polylineLength, hseg, List.map_append, List.map_append, List.sum_append, List.map_map,
          List.map_map]; rfl
      rw [hlen, trimLength, abs_le]
      rw [add_mul]
      constructor <;> linarith

/-- **C24**, in terms of the trim: the length of the trimmed path is the fraction
`|end - start| / 100` (at most 1) of the length of the path, up to the relative error `3e-9`. -/
theorem C24_fraction_partial (hk : ExactLines) {p : P2 ℝ} {rest : List (PathEl ℝ)}
    (hrest : ∀ el ∈ rest, el.Straight) {t : FixedTrim ℝ} {o o' : Outline ℝ}
    (ho : o.path = .moveTo p :: rest) (h : TrimmedOutline t o o') :
    |polylineLength o'.path - min (|t.stop - t.start| / 100) 1 * polylineLength o.path|
      ≤ 3 / 10 ^ 9 * polylineLength o.path := by
  have hL0 : 0 ≤ polylineLength o.path := segsLength_nonneg _
  have h20 := C20_length t
  have hm := mul_le_mul_of_nonneg_right h20 hL0
  rw [← abs_of_nonneg hL0, ← abs_mul, abs_of_nonneg hL0, sub_mul] at hm
  have hsmall : 1 / 10 ^ 11 * polylineLength o.path ≤ 1 / 10 ^ 9 * polylineLength o.path :=
    mul_le_mul_of_nonneg_right (by norm_num) hL0
  rw [abs_le] at hm
  obtain ⟨-, h⟩ := h
  cases hn : t.normalized with
  | none =>
    rw [hn] at h hm
    have : polylineLength o'.path = 0 := by rw [h]; rfl
    rw [this, abs_le]
    simp only [trimLength, zero_mul] at hm
    constructor <;> linarith
  | some pr =>
    obtain ⟨first, second⟩ := pr
    rw [hn] at h hm
    dsimp only at h
    have hr : ∀ r ∈ first :: second.toList, 0 ≤ r.1 ∧ r.1 ≤ r.2 ∧ r.2 ≤ 1 := by
      rw [real_normalized] at hn
      dsimp only at hn
      have habs := abs_nonneg (t.stop - t.start)
      generalize |t.stop - t.start| = range at hn habs
      split at hn
      · exact (Option.some_ne_none _ hn.symm).elim
      split at hn
      · simp only [Option.some.injEq, Prod.mk.injEq] at hn
        obtain ⟨rfl, rfl⟩ := hn
        intro r hr
        simp only [Option.toList_none, List.mem_singleton] at hr
        subst hr
        norm_num
      rename_i hlt
      have f1 := Int.floor_le ((min t.start t.stop + t.offset * (100 / 360)) / 100)
      have f2 := Int.lt_floor_add_one ((min t.start t.stop + t.offset * (100 / 360)) / 100)
      generalize hx : min t.start t.stop + t.offset * (100 / 360) = x at *
      have g1 : 0 ≤ x - 100 * ⌊x / 100⌋ := by linarith
      have g2 : x - 100 * ⌊x / 100⌋ < 100 := by linarith
      generalize x - 100 * ⌊x / 100⌋ = st at *
      split at hn
      · simp only [Option.some.injEq, Prod.mk.injEq] at hn
        obtain ⟨rfl, rfl⟩ := hn
        intro r hr
        simp only [Option.toList_none, List.mem_singleton] at hr
        subst hr
        dsimp only
        refine ⟨?_, ?_, ?_⟩ <;> linarith
      · simp only [Option.some.injEq, Prod.mk.injEq] at hn
        obtain ⟨rfl, rfl⟩ := hn
        intro r hr
        simp only [Option.toList_some, List.mem_cons, List.not_mem_nil, or_false] at hr
        have : (0 : ℝ) < 1 / 10 ^ 9 := by norm_num
        rcases hr with rfl | rfl <;> dsimp only <;> refine ⟨?_, ?_, ?_⟩ <;> linarith
    split at h
    · rename_i hc
      rw [h]
      simp only [Bool.and_eq_true, real_le, real_sub, real_tiny, decide_eq_true_eq, real_lit,
        Option.isNone_iff_eq_none] at hc
      push_cast at hc
      obtain ⟨⟨c1, c2⟩, rfl⟩ := hc
      obtain ⟨q0, q1, q2⟩ := hr first (by simp)
      have k1 : (1 - 2 / 10 ^ 9) * polylineLength o.path
          ≤ trimLength (some (first, none)) * polylineLength o.path :=
        mul_le_mul_of_nonneg_right (by simp only [trimLength]; linarith) hL0
      have k2 : trimLength (some (first, none)) * polylineLength o.path
          ≤ 1 * polylineLength o.path :=
        mul_le_mul_of_nonneg_right (by simp only [trimLength]; linarith) hL0
      rw [abs_le]
      constructor <;> linarith
    · rw [ho] at h
      have := (C24_lines_partial hk hrest hr h).2
      rw [← ho, abs_le] at this
      rw [abs_le]
      constructor <;> linarith

/-- The path of two separate lines, trimmed to its middle half. -/
def exTwoLines : List (PathEl ℝ) :=
  [.moveTo ⟨0, 0⟩, .lineTo ⟨10, 0⟩, .moveTo ⟨0, 10⟩, .lineTo ⟨10, 10⟩]

/-- **C24** is false for paths of several subpaths: the middle half of two separate lines of length
10 is drawn with a line that connects them, and is longer than 15 instead of 10. -/
theorem C24_counterexample (hk : ExactLines) :
    ∃ out, trimPath (1 / 4, 3 / 4) none exTwoLines = .ok out ∧
      segments out = [.line ⟨5, 0⟩ ⟨10, 0⟩, .line ⟨10, 0⟩ ⟨5, 10⟩] ∧
      polylineLength exTwoLines = 20 ∧ 15 < polylineLength out := by
  have d1 : dist2 ⟨0, 0⟩ ⟨10, 0⟩ = 10 := by
    rw [dist2, Real.sqrt_eq_iff_mul_self_eq_of_pos] <;> norm_num
  have d2 : dist2 ⟨0, 10⟩ ⟨10, 10⟩ = 10 := by
    rw [dist2, Real.sqrt_eq_iff_mul_self_eq_of_pos] <;> norm_num
  have hsegs : segments exTwoLines = [.line ⟨0, 0⟩ ⟨10, 0⟩, .line ⟨0, 10⟩ ⟨10, 10⟩] := rfl
  have ht : totalLength (segments exTwoLines) = 20 := by
    rw [hsegs]
    simp only [totalLength, List.map_cons, List.map_nil, List.foldl_cons, List.foldl_nil, hk.arclen,
      d1, d2, real_add, real_lit]
    norm_num
  have i1 : Kurbo.invArclen (.line (⟨0, 0⟩ : P2 ℝ) ⟨10, 0⟩) 5 = 1 / 2 := by
    rw [hk.inv _ _ _ (by rw [d1]; norm_num), d1]; norm_num
  have i2 : Kurbo.invArclen (.line (⟨0, 10⟩ : P2 ℝ) ⟨10, 10⟩) 5 = 1 / 2 := by
    rw [hk.inv _ _ _ (by rw [d2]; norm_num), d2]; norm_num
  have hc : clamp (1 / 2 : ℝ) 0 1 = 1 / 2 := by
    norm_num [clamp, real_lt]
  have hout : trimPath (1 / 4, 3 / 4) none exTwoLines
      = .ok [.moveTo ⟨5, 0⟩, .lineTo ⟨10, 0⟩, .lineTo ⟨5, 10⟩] := by
    rw [trimPath_ok rfl, trimmed, ht, hsegs]
    simp only [Option.toList_none, List.flatMap_cons, List.flatMap_nil, List.append_nil,
      real_mul, real_add, real_sub, real_lt, real_le,
      real_lit, real_tiny, hk.arclen, d1, d2, decide_eq_true_eq, trimSegs]
    norm_num [i1, i2, hc, hk.sub, PathSeg.start, PathSeg.toEl]
  refine ⟨_, hout, rfl, ?_, ?_⟩
  · simp only [polylineLength, hsegs, List.map_cons, List.map_nil, PathSeg.start, PathSeg.stop, d1,
      d2, List.sum_cons, List.sum_nil]
    norm_num
  · have e1 : dist2 ⟨5, 0⟩ ⟨10, 0⟩ = 5 := by
      rw [dist2, Real.sqrt_eq_iff_mul_self_eq_of_pos] <;> norm_num
    have e2 : 11 < dist2 ⟨10, 0⟩ ⟨5, 10⟩ := by
      rw [dist2, Real.lt_sqrt (by norm_num)]; norm_num
    show 15 < (List.map (fun s : PathSeg ℝ => dist2 s.start s.stop)
      [.line ⟨5, 0⟩ ⟨10, 0⟩, .line ⟨10, 0⟩ ⟨5, 10⟩]).sum
    simp only [List.map_cons, List.map_nil, PathSeg.start, PathSeg.stop, e1, List.sum_cons,
      List.sum_nil]
    linarith

end

/-! ## Examples -/

/-- kurbo, exact on straight lines. -/
@[instance_reducible] noncomputable def lineKurbo : Kurbo ℝ where
  solveCubic _ _ _ _ := []
  ellipsePath _ _ := []
  roundedRectPath _ _ _ _ _ := []
  arclen s := dist2 s.start s.stop
  invArclen s x :=
    if dist2 s.start s.stop = 0 then (if x < 0 then 0 else 1) else x / dist2 s.start s.stop
  subsegment s t0 t1 :=
    .line ⟨s.start.x + t0 * (s.stop.x - s.start.x), s.start.y + t0 * (s.stop.y - s.start.y)⟩
      ⟨s.start.x + t1 * (s.stop.x - s.start.x), s.start.y + t1 * (s.stop.y - s.start.y)⟩

/-- The hypothesis of the exact theorems can be met. -/
theorem lineKurbo_exact : @ExactLines lineKurbo := by
  let _ := lineKurbo
  refine ⟨fun _ _ => rfl, fun p q x h => if_neg h, fun p q x h hx => ?_, fun p q x h hx => ?_,
    fun _ _ _ _ => rfl⟩
  · show (if dist2 p q = 0 then (if x < 0 then (0 : ℝ) else 1) else x / dist2 p q) ≤ 0
    rw [if_pos h, if_pos hx]
  · show 1 ≤ (if dist2 p q = 0 then (if x < 0 then (0 : ℝ) else 1) else x / dist2 p q)
    rw [if_pos h, if_neg (by linarith)]

/-- A triangle, trimmed from 80% to 30% of the next turn (two ranges), meets the hypotheses. -/
example : ∃ out, @trimPath ℝ _ lineKurbo (8 / 10, 1) (some (0, 3 / 10))
      [.moveTo ⟨0, 0⟩, .lineTo ⟨10, 0⟩, .lineTo ⟨10, 10⟩, .closePath] = .ok out ∧
    (∀ el ∈ [PathEl.lineTo (⟨10, 0⟩ : P2 ℝ), .lineTo ⟨10, 10⟩, .closePath], el.Straight) ∧
    ∀ r ∈ ((8 / 10, 1) : ℝ × ℝ) :: (some ((0, 3 / 10) : ℝ × ℝ)).toList,
      0 ≤ r.1 ∧ r.1 ≤ r.2 ∧ r.2 ≤ 1 := by
  let _ := lineKurbo
  refine ⟨_, trimPath_ok rfl, ?_, ?_⟩
  · intro el h
    simp only [List.mem_cons, List.not_mem_nil, or_false] at h
    rcases h with rfl | rfl | rfl <;> trivial
  · intro r h
    simp only [Option.toList_some, List.mem_cons, List.not_mem_nil, or_false] at h
    rcases h with rfl | rfl <;> norm_num

end Velato
