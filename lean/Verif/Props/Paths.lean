import Verif.Proofs.Same
import Verif.Props.KeyframesIEEE
import Verif.Model.Import
import Verif.Num.Real

/-!
# Paths: import of beziers (C15), animated paths (C16, C05)
-/

namespace Velato
open FloatOps (lit)
open Import (convSpline splinePoints convShapeGeometry)

section
variable {F : Type} [FloatOps F]

/-! ## C15 -/

/-- **C15.** Building a path from a list of spline points never reads out of bounds, for any list
(whose length need not be a multiple of 3). -/
theorem C15_no_panic (pts : List (P2 F)) (isClosed : Bool) :
    splineToPathRaw pts isClosed = .ok (splineToPath pts isClosed) :=
  splineToPathRaw_ok pts isClosed

/-- **C15.** The same for the interpolated path of an animated spline, for any two point lists. -/
theorem C15_no_panic_animated (from_ to_ : List (P2 F)) (t : F) (isClosed : Bool) :
    splineLerpToPathRaw from_ to_ t isClosed = .ok (splineLerpToPath from_ to_ t isClosed) :=
  splineLerpToPathRaw_ok from_ to_ t isClosed

theorem splinePoints_length (vs is os : List (F × F)) :
    (splinePoints vs is os).length = 3 * vs.length := by
  induction vs generalizing is os with
  | nil => rfl
  | cons v vs ih => simp only [splinePoints, List.length_cons, ih]; omega

theorem headD_pointAt (l : List (F × F)) :
    (⟨(l.headD (lit 0, lit 0)).1, (l.headD (lit 0, lit 0)).2⟩ : P2 F) = pointAt l 0 := by
  cases l <;> rfl

theorem pointAt_tail (l : List (F × F)) (i : Nat) : pointAt l.tail i = pointAt l (i + 1) := by
  cases l <;> rfl

theorem splinePoints_get (vs is os : List (F × F)) (i : Nat) (hi : i < vs.length) :
    (splinePoints vs is os)[3 * i]? = some (pointAt vs i) ∧
    (splinePoints vs is os)[3 * i + 1]? = some (pointAt is i) ∧
    (splinePoints vs is os)[3 * i + 2]? = some (pointAt os i) := by
  induction vs generalizing is os i with
  | nil => simp at hi
  | cons v vs ih =>
    cases i with
    | zero =>
      simp only [splinePoints]
      refine ⟨rfl, ?_, ?_⟩
      · rw [← headD_pointAt]; rfl
      · rw [← headD_pointAt]; rfl
    | succ i =>
      have := ih is.tail os.tail i (by simpa using hi)
      rw [pointAt_tail, pointAt_tail] at this
      exact this

/-- **C15.** The path of an imported bezier with at least one vertex: a move to vertex 0, one
segment per following vertex, and iff closed a segment from the last vertex to vertex 0 and a
close.  Missing tangents are zero, surplus ones are ignored. -/
theorem C15_path (b : Schema.Bezier F) (hne : b.vertices ≠ []) :
    splineToPath (convSpline b).1 (convSpline b).2 =
      .moveTo (pointAt b.vertices 0) ::
      ((List.range (b.vertices.length - 1)).map fun i =>
        bezierSegment (pointAt b.vertices i) (pointAt b.outTangents i)
          (pointAt b.vertices (i + 1)) (pointAt b.inTangents (i + 1)))
      ++ (if b.closed = some true then
        [bezierSegment (pointAt b.vertices (b.vertices.length - 1))
            (pointAt b.outTangents (b.vertices.length - 1))
            (pointAt b.vertices 0) (pointAt b.inTangents 0), .closePath]
        else []) := by
  have hpos : 0 < b.vertices.length := List.length_pos_iff.mpr hne
  have hlen := splinePoints_length b.vertices b.inTangents b.outTangents
  set pts := splinePoints b.vertices b.inTangents b.outTangents with hpts
  have hg := fun i hi => splinePoints_get b.vertices b.inTangents b.outTangents i hi
  rw [← hpts] at hg
  unfold splineToPath
  have e1 : (convSpline b).1 = pts := rfl
  have e2 : (convSpline b).2 = b.closed.getD false := rfl
  rw [e1, e2]
  rw [toPath_eq pts.length _ (fun i => (pts[i]?).getD ⟨lit 0, lit 0⟩) (by
    intro i; simp) _ (by omega)]
  have hn : pts.length / 3 = b.vertices.length := by omega
  rw [hn]
  have seg : ∀ i j, i < b.vertices.length → j < b.vertices.length →
      splineElement ((pts[3 * i]?).getD ⟨lit 0, lit 0⟩) ((pts[3 * i + 2]?).getD ⟨lit 0, lit 0⟩)
        ((pts[3 * j + 1]?).getD ⟨lit 0, lit 0⟩) ((pts[3 * j]?).getD ⟨lit 0, lit 0⟩) =
      bezierSegment (pointAt b.vertices i) (pointAt b.outTangents i)
          (pointAt b.vertices j) (pointAt b.inTangents j) := by
    intro i j hi hj
    rw [(hg i hi).1, (hg i hi).2.2, (hg j hj).1, (hg j hj).2.1]
    rfl
  have e0 : (pts[0]?).getD ⟨lit 0, lit 0⟩ = pointAt b.vertices 0 := by
    have := (hg 0 hpos).1
    rw [show 3 * 0 = 0 from rfl] at this
    rw [this]; rfl
  congr 1
  · simp only [e0]
    congr 1
    apply List.map_congr_left
    intro i hi
    rw [List.mem_range] at hi
    exact seg i (i + 1) (by omega) (by omega)
  · have := seg (b.vertices.length - 1) 0 (by omega) hpos
    simp only [show 3 * 0 = 0 from rfl, show 0 + 1 = 1 from rfl] at this
    cases hc : b.closed with
    | none => simp
    | some c =>
      cases c with
      | false => simp
      | true =>
        simp only [Option.getD_some, true_and, if_true]
        rw [if_pos (by omega), this]

/-- **C15.** A bezier without vertices gives the empty path. -/
theorem C15_empty (b : Schema.Bezier F) (h : b.vertices = []) :
    splineToPath (convSpline b).1 (convSpline b).2 = [] := by
  have : (convSpline b).1 = [] := by
    show splinePoints b.vertices _ _ = []
    rw [h]; rfl
  rw [this]; rfl

/-- **C15.** Importing a static shape gives exactly this path, as a fixed geometry. -/
theorem C15_import (p : Schema.ShapeProperty F) (b : Schema.Bezier F) (h : p.value = .static b) :
    convShapeGeometry p = .ok (some (.fixed (splineToPath (convSpline b).1 (convSpline b).2))) := by
  unfold convShapeGeometry; rw [h]

end

/-- **C15.** In exact arithmetic a segment is a line iff both tangents are zero, else a cubic with
control points vertex + tangent. -/
theorem C15_segment_exact (p0 o p1 i : P2 ℝ) :
    bezierSegment p0 o p1 i =
      if o = ⟨0, 0⟩ ∧ i = ⟨0, 0⟩ then .lineTo p1
      else .curveTo ⟨p0.x + o.x, p0.y + o.y⟩ ⟨p1.x + i.x, p1.y + i.y⟩ p1 := by
  unfold bezierSegment
  obtain ⟨ox, oy⟩ := o
  obtain ⟨ix, iy⟩ := i
  simp only [real_add, real_eq, P2.mk.injEq, Bool.and_eq_true, decide_eq_true_eq,
    add_eq_right]
  congr 1
  rw [add_comm ox, add_comm oy, add_comm ix, add_comm iy]

/-- **C15.** In IEEE arithmetic, between finite vertices, zero tangents give a line, and the segment
ends exactly at its vertex in any case. -/
theorem C15_segment_ieee (p0 o p1 i : P2 F64) (hp0 : p0.x.isFin = true ∧ p0.y.isFin = true)
    (hp1 : p1.x.isFin = true ∧ p1.y.isFin = true)
    (ho : (o.x ==. lit 0) = true ∧ (o.y ==. lit 0) = true)
    (hi : (i.x ==. lit 0) = true ∧ (i.y ==. lit 0) = true) :
    bezierSegment p0 o p1 i = .lineTo p1 := by
  have key : ∀ z v : F64, (z ==. lit 0) = true → v.isFin = true →
      ((z +. v) ==. v) = true := by
    intro z v hz hv
    have hs : F64.Same z (lit 0) := Or.inr hz
    have h1 := (hs.add (F64.Same.refl v)).beq_congr (F64.Same.refl v)
    rw [h1]
    have h2 : F64.rnd ((lit 0 : F64).toQ + v.toQ) = v.toQ := by
      rw [F64.toQ_lit0, zero_add, F64.rnd_of_exact (F64.exact_toQ v)]
    have h3 := F64.add_fin F64.isFin_lit0 hv (by rw [h2]; exact F64.abs_toQ_lt v)
    show (F64.add _ _ ==. _) = true
    rw [F64.beq_fin h3.1 hv, h3.2, h2]
  unfold bezierSegment
  rw [key _ _ ho.1 hp0.1, key _ _ ho.2 hp0.2, key _ _ hi.1 hp1.1, key _ _ hi.2 hp1.2]
  rfl

/-- Concrete case of C15: a closed triangle with one tangent and short tangent lists. -/
example : splineToPath (F := F64)
    (convSpline ⟨some true, [(lit 0, lit 0), (lit 4, lit 0), (lit 0, lit 3)], [], [(lit 1, lit 0)]⟩).1
    true =
    [.moveTo ⟨lit 0, lit 0⟩, .curveTo ⟨lit 1, lit 0⟩ ⟨lit 4, lit 0⟩ ⟨lit 4, lit 0⟩,
      .lineTo ⟨lit 0, lit 3⟩, .lineTo ⟨lit 0, lit 0⟩, .closePath] := by decide +kernel

/-! ## C16 and C05 for paths -/

/-- The shape towards which keyframe `v` is interpolated: its explicit end, or the start of the
next keyframe. -/
def SplineValues.target (v next : SplineValues F64) : List (P2 F64) := v.stop.getD next.start

/-- The points of `from_` are finite, `to_` has at least as many, and differences do not overflow
(true e.g. if all coordinates are at most `2^1022`). -/
structure LerpOk (from_ to_ : List (P2 F64)) : Prop where
  len : from_.length ≤ to_.length
  fin : ∀ p ∈ from_, p.x.isFin = true ∧ p.y.isFin = true
  diff : ∀ (i : Nat) (p q : P2 F64), from_[i]? = some p → to_[i]? = some q →
    (q.x -. p.x).isFin = true ∧ (q.y -. p.y).isFin = true

theorem zero_of_le_le {t : F64} (h1 : (lit 0 <=. t) = true) (h2 : (t <=. lit 0) = true) :
    t.isFin = true ∧ t.toQ = 0 := by
  have := (F64.Bdd.of_between F64.bdd_lit0 F64.bdd_lit0 h1 h2).1
  rw [F64.le_fin F64.isFin_lit0 this, F64.toQ_lit0] at h1
  rw [F64.le_fin this F64.isFin_lit0, F64.toQ_lit0] at h2
  exact ⟨this, le_antisymm h2 h1⟩

theorem spline_eval (s : AnimSpline F64) (frame : F64) (k k' : Nat) (t0 t1 : Time F64)
    (v v' : SplineValues F64)
    (hk : k = min (Time.search s.times frame) (s.times.length - 1))
    (hk' : k' = min (k + 1) (s.times.length - 1))
    (h0 : s.times[k]? = some t0) (h1 : s.times[k']? = some t1)
    (hv : s.values[k]? = some v) (hv' : s.values[k']? = some v') :
    s.evaluate frame =
      splineLerpToPath v.start (v.target v') (mixWeight t0 t1 frame) s.isClosed := by
  subst hk; subst hk'
  unfold AnimSpline.evaluate
  rw [framesAndWeight_eq s.times frame t0 t1 h0 h1]
  simp only [hv, hv']
  unfold SplineValues.target mixWeight
  cases v.stop <;> rfl

/-- **C16** (every keyframe but the last, target shape with at least as many points).  At the time
of a keyframe an animated path is the path of that keyframe's start shape, up to the sign of zeros.
Missing from the full claim: the last keyframe (see `C16_last_is_nan`: false there unless it is a
hold keyframe) and targets with fewer points (see `C16_truncation_counterexample`). -/
theorem C16_hit_partial (s : AnimSpline F64) (frame : F64) (k : Nat) (t : Time F64)
    (v v' : SplineValues F64) (hs : StrictTimes s.times) (hf : FiniteTimes s.times)
    (hk : s.times[k]? = some t) (hnl : k + 1 < s.times.length)
    (hv : s.values[k]? = some v) (hv' : s.values[k + 1]? = some v')
    (hl : LerpOk v.start (v.target v')) (h : (frame ==. t.frame) = true) :
    SamePath (s.evaluate frame) (splineToPath v.start s.isClosed) := by
  have hse := search_at hs frame k t hk h
  have h1 : s.times[k + 1]? = some s.times[k + 1] := List.getElem?_eq_getElem hnl
  rw [spline_eval s frame k (k + 1) t s.times[k + 1] v v' (by omega) (by omega) hk h1 hv hv']
  obtain ⟨hkl, rfl⟩ := List.getElem?_eq_some_iff.mp hk
  have hle := mixWeight_at_keyframe s.times hs hf k hnl frame h
  have hge : (lit 0 <=. mixWeight s.times[k] s.times[k + 1] frame) = true := by
    unfold mixWeight at hle ⊢
    split_ifs at hle ⊢
    · exact zero_le_zero
    · apply (F64.clamp_unit _).1
      intro e
      rw [e, F64.clamp_nan] at hle
      exact absurd rfl (F64.ne_nan_of_le_left hle)
  obtain ⟨z1, z2⟩ := zero_of_le_le hge hle
  exact splineLerp_zero _ _ _ _ hl.len hl.fin hl.diff z1 z2

/-- **C16** at the last keyframe if it is a hold keyframe. -/
theorem C16_hit_last_hold_partial (s : AnimSpline F64) (frame : F64) (k : Nat) (t : Time F64)
    (v : SplineValues F64) (hs : StrictTimes s.times)
    (hk : s.times[k]? = some t) (hl : k + 1 = s.times.length)
    (hv : s.values[k]? = some v) (hold : t.hold = true)
    (hok : LerpOk v.start (v.target v)) (h : (frame ==. t.frame) = true) :
    SamePath (s.evaluate frame) (splineToPath v.start s.isClosed) := by
  have hse := search_at hs frame k t hk h
  rw [spline_eval s frame k k t t v v (by omega) (by omega) hk hk hv hv]
  unfold mixWeight; rw [if_pos hold]
  exact splineLerp_zero _ _ _ _ hok.len hok.fin hok.diff F64.isFin_lit0 F64.toQ_lit0

/-- **C16** is false at the last keyframe: whatever the shapes, if the last keyframe is not a hold
keyframe and there is at least one point, the path evaluated exactly at the last keyframe's time
starts at (NaN, NaN). -/
theorem C16_last_is_nan (s : AnimSpline F64) (frame : F64) (k : Nat) (t : Time F64)
    (v : SplineValues F64) (hs : StrictTimes s.times) (hf : FiniteTimes s.times)
    (hk : s.times[k]? = some t) (hl : k + 1 = s.times.length)
    (hv : s.values[k]? = some v) (hold : t.hold = false)
    (h1 : v.start ≠ []) (h2 : v.target v ≠ []) (h : (frame ==. t.frame) = true) :
    ∃ rest, s.evaluate frame = .moveTo ⟨.nan, .nan⟩ :: rest := by
  have hse := search_at hs frame k t hk h
  rw [spline_eval s frame k k t t v v (by omega) (by omega) hk hk hv hv]
  unfold mixWeight
  rw [if_neg (by simp [hold]), F64.weight_at_self (hf _ (List.mem_of_getElem? hk)) h]
  have l1 : 0 < v.start.length := List.length_pos_iff.mpr h1
  have l2 : 0 < (v.target v).length := List.length_pos_iff.mpr h2
  unfold splineLerpToPath toPath
  rw [dif_neg (by omega)]
  have hnan : ∀ x y : F64, x +. F64.nan *. y = F64.nan := by
    intro x y
    show F64.add x (F64.mul .nan y) = .nan
    rw [show F64.mul .nan y = .nan by cases y <;> rfl]
    cases x <;> rfl
  simp only [P2.lerp, hnan]
  exact ⟨_, rfl⟩

/-- Two path keyframes with one vertex each, at frames 1 and 5. -/
def exSpline : AnimSpline F64 :=
  ⟨false, exTimes, [⟨[⟨lit 3, lit 4⟩, ⟨lit 0, lit 0⟩, ⟨lit 0, lit 0⟩], none⟩,
    ⟨[⟨lit 7, lit 8⟩, ⟨lit 0, lit 0⟩, ⟨lit 0, lit 0⟩], none⟩]⟩

/-- **C16** negated: a strictly sorted animated path, evaluated at its last keyframe, is not the
path of that keyframe. -/
theorem C16_counterexample :
    StrictTimes exSpline.times ∧ FiniteTimes exSpline.times ∧
    exSpline.evaluate (lit 5) = [.moveTo ⟨.nan, .nan⟩] ∧
    splineToPath [⟨lit 7, lit 8⟩, ⟨lit 0, lit 0⟩, ⟨lit 0, lit 0⟩] false
      = [PathEl.moveTo (⟨lit 7, lit 8⟩ : P2 F64)] :=
  ⟨exTimes_strict, exTimes_finite, by decide +kernel, by decide +kernel⟩

/-- **C16** needs targets with as many points: a keyframe with two vertices followed by one with a
single vertex loses its second vertex exactly at its own time. -/
theorem C16_truncation_counterexample :
    (⟨false, exTimes,
        [⟨[⟨lit 3, lit 4⟩, ⟨lit 0, lit 0⟩, ⟨lit 0, lit 0⟩, ⟨lit 1, lit 2⟩, ⟨lit 0, lit 0⟩,
           ⟨lit 0, lit 0⟩], none⟩,
         ⟨[⟨lit 7, lit 8⟩, ⟨lit 0, lit 0⟩, ⟨lit 0, lit 0⟩], none⟩]⟩ : AnimSpline F64).evaluate (lit 1)
      = [.moveTo ⟨lit 3, lit 4⟩] := by
  decide +kernel

/-- Points up to `2^1022` can always be interpolated. -/
theorem lerpOk_of_bdd {from_ to_ : List (P2 F64)} (hlen : from_.length ≤ to_.length)
    (h1 : ∀ p ∈ from_, F64.Bdd p.x 1022 ∧ F64.Bdd p.y 1022)
    (h2 : ∀ p ∈ to_, F64.Bdd p.x 1022 ∧ F64.Bdd p.y 1022) : LerpOk from_ to_ := by
  refine ⟨hlen, fun p hp => ⟨(h1 p hp).1.1, (h1 p hp).2.1⟩, fun i p q hp hq => ?_⟩
  have a := h1 p (List.mem_of_getElem? hp)
  have b := h2 q (List.mem_of_getElem? hq)
  exact ⟨(b.1.sub' a.1 (by omega)).1, (b.2.sub' a.2 (by omega)).1⟩

theorem exSpline_lerpOk : LerpOk [⟨lit 3, lit 4⟩, ⟨lit 0, lit 0⟩, ⟨lit 0, lit 0⟩]
    [⟨lit 7, lit 8⟩, ⟨lit 0, lit 0⟩, ⟨lit 0, lit 0⟩] := by
  apply lerpOk_of_bdd (by decide)
  · simp only [List.mem_cons, List.not_mem_nil, or_false, forall_eq_or_imp, forall_eq]
    unfold F64.Bdd; decide +kernel
  · simp only [List.mem_cons, List.not_mem_nil, or_false, forall_eq_or_imp, forall_eq]
    unfold F64.Bdd; decide +kernel

/-- The hypotheses of `C16_hit_partial` are met by the example at frame 1. -/
example : SamePath (exSpline.evaluate (lit 1))
    (splineToPath [⟨lit 3, lit 4⟩, ⟨lit 0, lit 0⟩, ⟨lit 0, lit 0⟩] false) :=
  C16_hit_partial exSpline (lit 1) 0 exTime0 _ _ exTimes_strict exTimes_finite rfl (by decide)
    rfl rfl exSpline_lerpOk (by decide +kernel)

/-- **C05** for paths: in a hold interval an animated path is the path of the hold keyframe's start
shape, up to the sign of zeros.  Missing from the full claim: next shapes with fewer points (see
`C05_counterexample`: false there). -/
theorem C05_hold_path_partial (s : AnimSpline F64) (frame : F64) (hs : SortedTimes s.times) (k : Nat)
    (t0 t1 : Time F64) (v v' : SplineValues F64)
    (h0 : s.times[k]? = some t0) (h1 : s.times[k + 1]? = some t1)
    (hv : s.values[k]? = some v) (hv' : s.values[k + 1]? = some v')
    (hle : (t0.frame <=. frame) = true) (hlt : (frame <. t1.frame) = true)
    (hold : t0.hold = true) (hok : LerpOk v.start (v.target v')) :
    SamePath (s.evaluate frame) (splineToPath v.start s.isClosed) := by
  have hse := search_in hs frame k t0 t1 h0 h1 hle hlt
  have hk1 := (List.getElem?_eq_some_iff.mp h1).1
  rw [spline_eval s frame k (k + 1) t0 t1 v v' (by omega) (by omega) h0 h1 hv hv']
  unfold mixWeight; rw [if_pos hold]
  exact splineLerp_zero _ _ _ _ hok.len hok.fin hok.diff F64.isFin_lit0 F64.toQ_lit0

/-- Two keyframes of a path at 1 (held) and 5, the first a line, the second a point. -/
def exHeldPath : AnimSpline F64 :=
  ⟨false, [⟨lit 1, none, none, true⟩, ⟨lit 5, none, none, false⟩],
    [⟨[⟨lit 3, lit 4⟩, ⟨lit 0, lit 0⟩, ⟨lit 0, lit 0⟩, ⟨lit 1, lit 2⟩, ⟨lit 0, lit 0⟩, ⟨lit 0, lit 0⟩], none⟩,
      ⟨[⟨lit 7, lit 8⟩, ⟨lit 0, lit 0⟩, ⟨lit 0, lit 0⟩], none⟩]⟩

/-- **C05** negated for paths: a held path is cut short if the next shape has fewer points. -/
theorem C05_counterexample :
    exHeldPath.evaluate (lit 2) = [.moveTo ⟨lit 3, lit 4⟩] ∧
    splineToPath (F := F64) [⟨lit 3, lit 4⟩, ⟨lit 0, lit 0⟩, ⟨lit 0, lit 0⟩, ⟨lit 1, lit 2⟩, ⟨lit 0, lit 0⟩,
      ⟨lit 0, lit 0⟩] false = [.moveTo ⟨lit 3, lit 4⟩, .lineTo ⟨lit 1, lit 2⟩] := by
  decide +kernel

/-- The hypotheses of `C05_hold_path_partial` are met by a held point. -/
example : SamePath ((⟨false, [⟨lit 1, none, none, true⟩, ⟨lit 5, none, none, false⟩], exSpline.values⟩ :
      AnimSpline F64).evaluate (lit 2))
    (splineToPath [⟨lit 3, lit 4⟩, ⟨lit 0, lit 0⟩, ⟨lit 0, lit 0⟩] false) :=
  C05_hold_path_partial ⟨false, [⟨lit 1, none, none, true⟩, ⟨lit 5, none, none, false⟩], exSpline.values⟩ (lit 2)
    (by unfold SortedTimes; decide +kernel) 0 ⟨lit 1, none, none, true⟩
    ⟨lit 5, none, none, false⟩ _ _ rfl rfl rfl rfl (by decide +kernel) (by decide +kernel) rfl exSpline_lerpOk

end Velato
