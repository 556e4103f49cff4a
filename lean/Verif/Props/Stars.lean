import Verif.Spec.Stars
import Verif.Props.Figures
import Verif.Props.Folding
import Verif.Proofs.Import

/-!
# C75 — the outline of stars and polygons with rounded corners
-/

namespace Velato
open FloatOps (lit)

section
variable {F : Type} [FloatOps F] [Libm F]

omit [Libm F] in
theorem starEdges_range (first : StarVertex F) (f : Nat → StarVertex F) (m : Nat) :
    starEdges first (f 0) ((List.range m).map fun j => f (j + 1))
      = ((List.range m).map fun i => starEdge (f i) (f (i + 1)))
        ++ (if starStraight (f m) first then [.closePath]
          else [.curveTo (f m).outPt first.inPt first.pt, .closePath]) := by
  induction m generalizing f with
  | zero => rfl
  | succ m ih =>
    rw [List.range_succ_eq_map, List.map_cons, List.map_cons, List.map_map, List.map_map, starEdges]
    have := ih fun j => f (j + 1)
    simp only [Function.comp_def]
    rw [this]
    rfl

end

theorem starVertices_range (c : P2 ℝ) (isStar : Bool) (o i : ℝ × ℝ) (step : ℝ) (n k : Nat)
    (angle : ℝ) :
    starVertices c isStar o i step n k angle = (List.range n).map fun j =>
      starVertex c (if !isStar || (k + j) % 2 == 0 then o else i).1
        (if !isStar || (k + j) % 2 == 0 then o else i).2 (angle + j * step) step := by
  induction n generalizing k angle with
  | zero => rfl
  | succ n ih =>
    rw [starVertices, ih, List.range_succ_eq_map, List.map_cons, List.map_map]
    simp only [Function.comp_def, real_add]
    congr 1
    · simp
    · refine List.map_congr_left fun j _ => ?_
      rw [show k + 1 + j = k + (j + 1) by omega]
      push_cast
      rw [show angle + step + j * step = angle + (j + 1) * step by ring]

namespace StarFigure
variable (s : StarFigure)

/-- The vertex with its two handles. -/
noncomputable def vertex (i : Nat) : StarVertex ℝ :=
  ⟨s.corner i, ⟨(s.corner i).x - (s.handle i).x, (s.corner i).y - (s.handle i).y⟩,
    ⟨(s.corner i).x + (s.handle i).x, (s.corner i).y + (s.handle i).y⟩⟩

theorem vertex_eq (i : Nat) :
    starVertex s.center (s.radius i) (s.roundness i / 100) (s.angle i) s.step = s.vertex i := by
  unfold starVertex vertex handle reach corner
  simp only [real_lt, real_abs, real_lit, real_add, real_sub, real_mul, real_div, real_neg, real_cos,
    real_sin, real_tan]
  push_cast
  by_cases h : |s.roundness i / 100| ≤ 1 / 1000000
  · rw [if_neg (by simpa using h), if_pos h]
    simp
  · rw [if_pos (by simpa using h), if_neg h]
    congr 2 <;> ring

theorem straight_iff (i j : Nat) :
    starStraight (s.vertex i) (s.vertex j) = true ↔ s.Straight i j := by
  unfold starStraight Straight vertex
  simp only [real_lt, real_abs, real_lit, real_sub, Bool.and_eq_true, decide_eq_true_eq]
  push_cast
  rw [add_sub_cancel_left, add_sub_cancel_left, sub_sub_cancel_left, sub_sub_cancel_left, abs_neg,
    abs_neg, and_assoc, and_assoc]

theorem edge_eq (i j : Nat) : starEdge (s.vertex i) (s.vertex j) = s.edge i j := by
  unfold starEdge edge
  by_cases h : s.Straight i j
  · rw [if_pos h, if_pos ((s.straight_iff i j).mpr h)]; rfl
  · rw [if_neg h, if_neg (fun h' => h ((s.straight_iff i j).mp h'))]; rfl

end StarFigure

section
variable [Kurbo ℝ]

/-- What a star or polygon is at a frame, if it has `n` points then. -/
noncomputable def AnimStar.figure (s : AnimStar ℝ) (frame : ℝ) (n : Nat) : StarFigure where
  polygon := s.isPolygon
  points := n
  center := s.position.evaluate frame
  outerRadius := s.outerRadius.evaluate frame
  innerRadius := s.innerRadius.evaluate frame
  outerRoundness := s.outerRoundness.evaluate frame
  innerRoundness := s.innerRoundness.evaluate frame
  rotation := s.rotation.evaluate frame

theorem star_vertices_figure (s : AnimStar ℝ) (frame : ℝ) (n : Nat)
    (hn : FloatOps.toUsize (FloatOps.round (s.points.evaluate frame)) = n) :
    s.vertices frame = (List.range (s.figure frame n).corners).map (s.figure frame n).vertex := by
  unfold AnimStar.vertices
  dsimp only
  rw [hn, starVertices_range]
  have hc : (if !s.isPolygon then n * 2 else n) = (s.figure frame n).corners := by
    show _ = if s.isPolygon then n else 2 * n
    cases s.isPolygon
    · exact Nat.mul_comm n 2
    · rfl
  rw [hc]
  refine List.map_congr_left fun i _ => ?_
  rw [← StarFigure.vertex_eq]
  have hstep : (if !s.isPolygon then Libm.tau /. FloatOps.ofUsize n /. lit 2
      else Libm.tau /. FloatOps.ofUsize n : ℝ) = (s.figure frame n).step := by
    show _ = if s.isPolygon then 2 * Real.pi / n else Real.pi / n
    cases s.isPolygon
    · simp
      ring
    · simp
  have hangle : toRadians (s.rotation.evaluate frame) -. Libm.fracPi2 + i * (s.figure frame n).step
      = (s.figure frame n).angle i := by
    unfold StarFigure.angle
    simp [toRadians, AnimStar.figure]
  rw [hstep, hangle]
  have ho : (!!s.isPolygon || (0 + i) % 2 == 0) = decide ((s.figure frame n).Outer i) := by
    rw [Bool.eq_iff_iff]
    rw [decide_eq_true_iff]
    simp [StarFigure.Outer, AnimStar.figure]
  rw [ho]
  unfold StarFigure.radius StarFigure.roundness
  by_cases h : (s.figure frame n).Outer i
  · simp only [h, decide_true, if_true]
    simp [AnimStar.figure]
  · have hp : s.isPolygon = false := by
      cases hp : s.isPolygon
      · rfl
      · exact absurd (.inl hp) h
    simp only [h, decide_false, if_false, Bool.false_eq_true, hp]
    simp [AnimStar.figure]

/-- **C75.** At every frame at which it has `x ≥ 1/2` points, that is `n` points where `n` is `x`
rounded half up, a star or polygon is the outline given by the closed formulas of `StarFigure`,
from the values that its properties have at that frame. -/
theorem C75_outline (s : AnimStar ℝ) (frame : ℝ) {n : Nat} (hx : 1 / 2 ≤ s.points.evaluate frame)
    (hn : (n : ℤ) = ⌊s.points.evaluate frame + 1 / 2⌋) (hmax : n ≤ 2 ^ 56) :
    s.evaluate frame = .ok (s.figure frame n).outline := by
  have h1 : 1 ≤ n := by
    have : (1 : ℤ) ≤ ⌊s.points.evaluate frame + 1 / 2⌋ := Int.le_floor.mpr (by push_cast; linarith)
    omega
  have hr : FloatOps.toUsize (FloatOps.round (s.points.evaluate frame)) = n := by
    rw [round_real hx (by omega), ← hn]; rfl
  rw [star_evaluate]
  dsimp only
  rw [hr, if_neg (by omega), if_neg, star_vertices_figure s frame n hr]
  · obtain ⟨m, hm⟩ : ∃ m, (s.figure frame n).corners = m + 1 := by
      refine ⟨(s.figure frame n).corners - 1, ?_⟩
      have : 1 ≤ (s.figure frame n).corners := by
        show 1 ≤ if s.isPolygon then n else 2 * n
        split <;> omega
      omega
    unfold StarFigure.outline
    rw [hm, List.range_succ_eq_map, List.map_cons, List.map_map]
    show Except.ok (PathEl.moveTo _ :: starEdges _ ((s.figure frame n).vertex 0)
      ((List.range m).map fun j => (s.figure frame n).vertex (j + 1))) = _
    rw [starEdges_range _ (s.figure frame n).vertex]
    simp only [StarFigure.edge_eq, Nat.add_sub_cancel]
    rw [List.cons_append, List.cons_append, List.append_assoc]
    congr 3
    by_cases h : (s.figure frame n).Straight m 0
    · rw [if_pos (show (s.figure frame n).Straight (m + 1 - 1) 0 from h),
        if_pos (((s.figure frame n).straight_iff m 0).mpr h)]; rfl
    · rw [if_neg (show ¬ (s.figure frame n).Straight (m + 1 - 1) 0 from h), if_neg (fun h' => h (((s.figure frame n).straight_iff m 0).mp h'))]; rfl
  · have hle : (if !s.isPolygon then n * 2 else n) ≤ n * 2 := by split <;> omega
    rw [not_or, usizeMax, isizeMax]
    constructor <;> omega

/-- **C75.** The same for a star or polygon of a document, from the values of the document's
properties: an omitted inner radius or roundness is 0. -/
theorem C75_document {s : Schema.PolyStarShape ℝ} {g : Geometry ℝ}
    (h : Import.convPolystar s = .ok g) :
    ∃ R r Q q A N : Value ℝ ℝ, Import.convScalar s.outerRadius = .ok R ∧
      Import.convScalar s.outerRoundness = .ok Q ∧ Import.convScalar s.rotation = .ok A ∧
      Import.convScalar s.points = .ok N ∧
      (s.starType = .star → (∀ x, s.innerRadius = some x → Import.convScalar x = .ok r) ∧
        (s.innerRadius = none → r = .fixed 0) ∧
        (∀ x, s.innerRoundness = some x → Import.convScalar x = .ok q) ∧
        (s.innerRoundness = none → q = .fixed 0)) ∧
      ∀ (frame : ℝ) (n : Nat), 1 / 2 ≤ N.evaluate frame → (n : ℤ) = ⌊N.evaluate frame + 1 / 2⌋ →
        n ≤ 2 ^ 56 → g.evaluate frame = .ok (StarFigure.outline
          ⟨s.starType == .polygon, n, (Import.convPosPoint s.position).evaluate frame,
            R.evaluate frame, r.evaluate frame, Q.evaluate frame, q.evaluate frame,
            A.evaluate frame⟩) := by
  obtain ⟨R, hR, h⟩ := bind_ok h
  obtain ⟨Q, hQ, h⟩ := bind_ok h
  obtain ⟨A, hA, h⟩ := bind_ok h
  obtain ⟨N, hN, h⟩ := bind_ok h
  cases hp : s.starType with
  | polygon =>
    simp only [hp, beq_self_eq_true, if_true] at h
    refine ⟨R, .fixed 0, Q, .fixed 0, A, N, hR, hQ, hA, hN, (fun hs => nomatch hs),
      fun frame n h1 h2 h3 => ?_⟩
    rw [(C11_star _ frame).1 g h]
    refine (C75_outline _ frame h1 h2 h3).trans ?_
    simp [AnimStar.figure, Value.evaluate]
  | star =>
    rw [hp] at h
    obtain ⟨r, hr, h⟩ := bind_ok h
    obtain ⟨q, hq, h⟩ := bind_ok h
    refine ⟨R, r, Q, q, A, N, hR, hQ, hA, hN, fun _ => ⟨?_, ?_, ?_, ?_⟩, fun frame n h1 h2 h3 => ?_⟩
    · intro x hx; rw [hx] at hr; exact hr
    · intro hx; rw [hx] at hr; cases hr; simp
    · intro x hx; rw [hx] at hq; exact hq
    · intro hx; rw [hx] at hq; cases hq; simp
    · rw [(C11_star _ frame).1 g h]
      exact C75_outline _ frame h1 h2 h3

end

/-- The hypothesis of `C75_document` is met. -/
example [Kurbo ℝ] [Libm ℝ] (g : Schema.ShapeBase ℝ) :
    ∃ x, Import.convPolystar (⟨g, ⟨none, none, none, none, .static [5, 5]⟩, ⟨none, none, none, none, .static 4⟩,
      ⟨none, none, none, none, .static 0⟩, ⟨none, none, none, none, .animatedValue
        [⟨⟨0, none, none, none⟩, [30], none⟩, ⟨⟨9, none, none, none⟩, [60], none⟩]⟩,
      ⟨none, none, none, none, .static 5⟩, .star, none, none⟩ : Schema.PolyStarShape ℝ) = .ok x :=
  ⟨_, rfl⟩

/-- A square with fully rounded corners: four curves, none of them straight; the first leaves the
top corner to the right and arrives at the right corner from above. -/
example [Kurbo ℝ] :
    (⟨true, 1, .fixed ⟨0, 0⟩, .fixed 0, .fixed 0, .fixed 3, .fixed 100, .fixed 0, .fixed 4⟩ :
        AnimStar ℝ).evaluate 0
      = .ok [.moveTo ⟨0, -3⟩, .curveTo ⟨4, -3⟩ ⟨3, -4⟩ ⟨3, 0⟩, .curveTo ⟨3, 4⟩ ⟨4, 3⟩ ⟨0, 3⟩,
          .curveTo ⟨-4, 3⟩ ⟨-3, 4⟩ ⟨-3, 0⟩, .curveTo ⟨-3, -4⟩ ⟨-4, -3⟩ ⟨0, -3⟩, .closePath] := by
  rw [C75_outline _ _ (n := 4) (by show (1 : ℝ) / 2 ≤ 4; norm_num)
    (by
      show ((4 : ℕ) : ℤ) = ⌊(4 : ℝ) + 1 / 2⌋
      rw [eq_comm, Int.floor_eq_iff]
      norm_num) (by norm_num)]
  generalize hs : AnimStar.figure _ _ _ = s
  have hstep : s.step = Real.pi / 2 := by
    subst hs
    show 2 * Real.pi / ((4 : ℕ) : ℝ) = _
    push_cast; ring
  have ha : ∀ i : Nat, s.angle i = i * (Real.pi / 2) - Real.pi / 2 := fun i => by
    unfold StarFigure.angle
    rw [hstep, show s.rotation = 0 by subst hs; rfl]
    ring
  have hcor : s.corners = 4 := by subst hs; rfl
  have hrad : ∀ i, s.radius i = 3 := fun i => by subst hs; exact if_pos (.inl rfl)
  have hrnd : ∀ i, s.roundness i = 100 := fun i => by subst hs; exact if_pos (.inl rfl)
  have hcen : s.center = ⟨0, 0⟩ := by subst hs; rfl
  clear hs
  have hreach : ∀ i, s.reach i = 4 := fun i => by
    unfold StarFigure.reach
    rw [hrnd, hrad, hstep, show Real.pi / 2 / 2 = Real.pi / 4 by ring, Real.tan_pi_div_four]
    norm_num
  have hco : ∀ i, s.corner i = ⟨3 * Real.cos (s.angle i), 3 * Real.sin (s.angle i)⟩ := fun i => by
    unfold StarFigure.corner
    rw [hrad, hcen]
    simp
  have c0 : Real.cos (s.angle 0) = 0 ∧ Real.sin (s.angle 0) = -1 := by
    rw [ha]; simp
  have c1 : Real.cos (s.angle 1) = 1 ∧ Real.sin (s.angle 1) = 0 := by
    rw [ha]; simp
  have c2 : Real.cos (s.angle 2) = 0 ∧ Real.sin (s.angle 2) = 1 := by
    rw [ha, show ((2 : ℕ) : ℝ) * (Real.pi / 2) - Real.pi / 2 = Real.pi / 2 by push_cast; ring]
    simp
  have c3 : Real.cos (s.angle 3) = -1 ∧ Real.sin (s.angle 3) = 0 := by
    rw [ha, show ((3 : ℕ) : ℝ) * (Real.pi / 2) - Real.pi / 2 = Real.pi by push_cast; ring]
    simp
  unfold StarFigure.outline
  rw [hcor]
  simp only [List.range_succ, List.range_zero, List.nil_append,
    List.map_cons, List.map_nil, List.cons_append, StarFigure.edge, StarFigure.curve,
    StarFigure.Straight, StarFigure.handle, hreach, hco, c0, c1, c2, c3, Nat.zero_add,
    Nat.one_add, show (4 : ℕ) - 1 = 3 from rfl]
  norm_num

end Velato
