import Verif.Spec.StarAccuracy
import Verif.Proofs.Coordinates
import Verif.Props.Stars

/-!
# Stars and polygons in double precision: helper lemmas
-/

set_option exponentiation.threshold 2000

namespace Velato
open FloatOps (lit)
open F64
open Import

section
variable {F : Type} [FloatOps F] [Libm F]

/-- The angle after `n` steps. -/
def angleFrom (a step : F) : Nat → F
  | 0 => a
  | n + 1 => angleFrom a step n +. step

omit [Libm F] in
theorem angleFrom_succ (a step : F) (j : Nat) : angleFrom (a +. step) step j = angleFrom a step (j + 1) := by
  induction j with
  | zero => rfl
  | succ j ih => rw [angleFrom, ih]; rfl

theorem starVertices_angleFrom (c : P2 F) (isStar : Bool) (o i : F × F) (step : F) (n k : Nat) (angle : F) :
    starVertices c isStar o i step n k angle = (List.range n).map fun j =>
      starVertex c (if !isStar || (k + j) % 2 == 0 then o else i).1
        (if !isStar || (k + j) % 2 == 0 then o else i).2 (angleFrom angle step j) step := by
  induction n generalizing k angle with
  | zero => rfl
  | succ n ih =>
    rw [starVertices, ih, List.range_succ_eq_map, List.map_cons, List.map_map]
    simp only [Function.comp_def]
    congr 1
    refine List.map_congr_left fun j _ => ?_
    rw [show k + 1 + j = k + (j + 1) by omega, angleFrom_succ]

end

theorem P2.Close.mono {e d : ℝ} {p : P2 F64} {q : P2 ℝ} (h : p.Close e q) (hd : e ≤ d) : p.Close d q :=
  ⟨h.1.mono hd, h.2.mono hd⟩

theorem PathEl.Follows.mono {e d : ℝ} (h : e ≤ d) {p : P2 F64} {el : PathEl F64} {a b c : P2 ℝ}
    (hf : el.Follows e p a b c) : el.Follows d p a b c := by
  cases el with
  | lineTo q => exact ⟨hf.1.mono h, hf.2.1.mono h, hf.2.2.mono h⟩
  | curveTo u v q => exact ⟨hf.1.mono h, hf.2.1.mono h, hf.2.2.mono h⟩
  | _ => exact hf

theorem StarFigure.DrawnBy.mono {s : StarFigure} {e d : ℝ} {els : List (PathEl F64)} (hd : s.DrawnBy e els)
    (h : e ≤ d) : s.DrawnBy d els := by
  obtain ⟨p, edge, last, h1, h2, h3, h4⟩ := hd
  refine ⟨p, edge, last, h1, h2.mono h, fun i hi => ⟨(h3 i hi).1.mono h, (h3 i hi).2⟩, ?_⟩
  rcases h4 with ⟨h4, h5⟩ | ⟨el, h4, h5, h6⟩
  · exact .inl ⟨h4, PathEl.Follows.mono h h5⟩
  · exact .inr ⟨el, h4, PathEl.Follows.mono h h5, h6⟩

/-- Accumulated angles. -/
theorem near_angle {a step : F64} {α σ : ℝ} (ha : Near a α (1 / 2 ^ 43)) (hs : Near step σ (1 / 2 ^ 44)) (hσ : 0 ≤ σ)
    {n : Nat} (hb : |α| + n * σ ≤ 100) (hn : n ≤ 200002) :
    ∀ i ≤ n, Near (angleFrom a step i) (α + i * σ) ((i + 1) / 2 ^ 43) := by
  intro i
  induction i with
  | zero =>
    intro _
    simpa [angleFrom] using ha
  | succ i ih =>
    intro hi
    have hin : ((i : ℝ) + 1) ≤ n := by exact_mod_cast hi
    have hnn : (n : ℝ) ≤ 200002 := by exact_mod_cast hn
    have hB : |α + i * σ + σ| ≤ 100 := by
      have h1 : |α + i * σ + σ| ≤ |α| + (i + 1) * σ := by
        rw [show α + i * σ + σ = α + (i + 1) * σ by ring]
        refine (abs_add_le _ _).trans ?_
        rw [abs_of_nonneg (by positivity : 0 ≤ ((i : ℝ) + 1) * σ)]
      have h2 : ((i : ℝ) + 1) * σ ≤ n * σ := by gcongr
      linarith
    have h := (ih (by omega)).add hs (B := 100) (E := ((i + 1 : ℝ) + 1) / 2 ^ 43) hB (by
      have h1 : ((i : ℝ) + 1) / 2 ^ 43 ≤ 1 := by
        rw [div_le_one (by positivity)]
        linarith [show (200002 : ℝ) ≤ 2 ^ 43 by norm_num]
      have h2 : ((i + 1 : ℝ) + 1) / 2 ^ 43 = (i + 1) / 2 ^ 43 + 1 / 2 ^ 43 := by ring
      rw [h2]
      have h3 : (100 + ((i + 1) / 2 ^ 43 + 1 / 2 ^ 44)) / 2 ^ 53 ≤ (102 : ℝ) / 2 ^ 53 := by
        gcongr
        linarith [show (1 : ℝ) / 2 ^ 44 ≤ 1 by norm_num]
      have h4 : (1 : ℝ) / 2 ^ 44 + 102 / 2 ^ 53 + 1 / 2 ^ 1075 ≤ 1 / 2 ^ 43 := by norm_num
      linarith) (by
      have h1 : ((i + 1 : ℝ) + 1) / 2 ^ 43 ≤ 1 := by
        rw [div_le_one (by positivity)]
        linarith [show (200004 : ℝ) ≤ 2 ^ 43 by norm_num]
      linarith [show (101 : ℝ) < 2 ^ 1024 by norm_num])
    rw [angleFrom]
    push_cast
    rw [show α + ((i : ℝ) + 1) * σ = α + i * σ + σ by ring]
    exact h

/-- The test for roundness decides as the exact one. -/
theorem rounded_iff {q : F64} (hq : q.isFin = true) :
    ((lit (1 / 1000000) : F64) <. FloatOps.abs q) = true ↔ ¬ |q.toR| ≤ 1 / 1000000 := by
  have hl : (lit (1 / 1000000) : F64).isFin = true := by decide +kernel
  have hlq : (lit (1 / 1000000) : F64).toQ = rnd (1 / 1000000) := by decide +kernel
  have hlt : rnd (1 / 1000000) < 1 / 1000000 := by rw [← hlq]; decide +kernel
  obtain ⟨ha, hb⟩ : (FloatOps.abs q).isFin = true ∧ (FloatOps.abs q).toQ = |q.toQ| := by
    obtain ⟨h1, h2⟩ := abs_toR hq
    refine ⟨h1, ?_⟩
    unfold toR at h2
    exact_mod_cast h2
  rw [lt_fin hl ha, hlq, hb, not_le]
  have e : (1 / 1000000 : ℝ) < |q.toR| ↔ (1 / 1000000 : ℚ) < |q.toQ| := by
    unfold toR
    have e1 : |((q.toQ : ℚ) : ℝ)| = ((|q.toQ| : ℚ) : ℝ) := by push_cast; rfl
    have e2 : (1 / 1000000 : ℝ) = ((1 / 1000000 : ℚ) : ℝ) := by norm_num
    rw [e1, e2]
    exact_mod_cast Iff.rfl
  rw [e]
  refine ⟨fun h => ?_, fun h => hlt.trans h⟩
  by_contra hc
  have h1 := rnd_mono (not_lt.mp hc)
  have hx : Exact |q.toQ| := by rw [← hb]; exact exact_toQ _
  rw [rnd_of_exact hx] at h1
  linarith

section
variable [Libm F64]

theorem near_cos (hl : AccurateLibm) {y : F64} {θ ε : ℝ} (hy : Near y θ ε) (hb : |θ| + ε ≤ 2 ^ 10) :
    Near (Libm.cos y) (Real.cos θ) (1 / 2 ^ 52 + ε) := by
  have hb := hy.between hb
  refine ⟨(hl.cos y hb).fin, ?_⟩
  exact (abs_sub_le _ (Real.cos y.toR) _).trans
    (add_le_add (hl.cos y hb).err ((Real.abs_cos_sub_cos_le y.toR θ).trans hy.err))

theorem near_sin (hl : AccurateLibm) {y : F64} {θ ε : ℝ} (hy : Near y θ ε) (hb : |θ| + ε ≤ 2 ^ 10) :
    Near (Libm.sin y) (Real.sin θ) (1 / 2 ^ 52 + ε) := by
  have hb := hy.between hb
  refine ⟨(hl.sin y hb).fin, ?_⟩
  exact (abs_sub_le _ (Real.sin y.toR) _).trans
    (add_le_add (hl.sin y hb).err ((Real.abs_sin_sub_sin_le y.toR θ).trans hy.err))

omit [Libm F64] in
/-- A coordinate of a corner. -/
theorem near_corner {c r u : F64} {v ε : ℝ} (hc : c.Between (-8192) 8192) (hr : r.Between (-8192) 8192)
    (hu : Near u v (1 / 2 ^ 52 + ε)) (hv : |v| ≤ 1) (he : ε ≤ 1 / 2 ^ 20) :
    Near (c +. r *. u) (c.toR + r.toR * v) (8192 * ε + 1 / 2 ^ 37) := by
  have hd : (0 : ℝ) ≤ 1 / 2 ^ 52 + ε := (abs_nonneg _).trans hu.err
  have h1 : Near (r *. u) (r.toR * v) (8192 * ε + 1 / 2 ^ 38) := by
    refine (Near.self hr.1).mul hu (R := 8192) (S := 1) (abs_le.mpr hr.2) hv ?_ ?_
    · have : (8192 * 1 + (8192 * (1 / 2 ^ 52 + ε) + 1 * 0 + 0 * (1 / 2 ^ 52 + ε))) / 2 ^ 53 ≤ (8193 : ℝ) / 2 ^ 53 := by
        gcongr
        linarith [show (8192 : ℝ) / 2 ^ 52 + 8192 / 2 ^ 20 ≤ 1 by norm_num]
      linarith [show (8192 : ℝ) / 2 ^ 52 + 8193 / 2 ^ 53 + 1 / 2 ^ 1075 ≤ 1 / 2 ^ 38 by norm_num]
    · linarith [show (16385 : ℝ) < 2 ^ 1024 by norm_num]
  refine (Near.self hc.1).add h1 (B := 16384) ?_ ?_ ?_
  · refine (abs_add_le _ _).trans ?_
    rw [abs_mul]
    have h2 := abs_le.mpr hc.2
    have h3 := abs_le.mpr hr.2
    nlinarith [abs_nonneg v, abs_nonneg r.toR]
  · have : (16384 + (0 + (8192 * ε + 1 / 2 ^ 38))) / 2 ^ 53 ≤ (24577 : ℝ) / 2 ^ 53 := by
      gcongr
      linarith [show (1 : ℝ) / 2 ^ 38 ≤ 1 by norm_num]
    linarith [show (24577 : ℝ) / 2 ^ 53 + 1 / 2 ^ 1075 ≤ 1 / 2 ^ 38 by norm_num,
      show (1 : ℝ) / 2 ^ 37 = 1 / 2 ^ 38 + 1 / 2 ^ 38 by norm_num]
  · linarith [show (24578 : ℝ) < 2 ^ 1024 by norm_num]

/-- The length of handles. -/
theorem near_reach (hl : AccurateLibm) {r h q : F64} {η : ℝ} (hr : r.Between (-8192) 8192) (hh : Near h η (1 / 2 ^ 43))
    (hη : |η| ≤ 11 / 10) (hq : q.Between (-16) 16) :
    Near (r *. Libm.tan h *. q *. lit 4 /. lit 3) (4 / 3 * Real.tan η * r.toR * q.toR) (22 / 2 ^ 25) := by
  have hb : h.Between (-(6 / 5)) (6 / 5) := hh.between (by linarith [show (1 : ℝ) / 2 ^ 43 ≤ 1 / 10 by norm_num])
  have ht : Near (Libm.tan h) (Real.tan η) (1 / 2 ^ 38) := by
    refine ⟨(hl.tan h hb).fin, ?_⟩
    have h1 := abs_tan_sub_tan_le (x := h.toR) (y := η) (abs_le.mpr hb.2) (by linarith)
    have h2 := (abs_sub_le _ (Real.tan h.toR) _).trans (add_le_add (hl.tan h hb).err h1)
    have := hh.err
    refine h2.trans ?_
    linarith [show (1 : ℝ) / 2 ^ 50 + 16 * (1 / 2 ^ 43) ≤ 1 / 2 ^ 38 by norm_num]
  have tb : |Real.tan η| ≤ 18 := by
    have := abs_tan_sub_tan_le (x := η) (y := 0) (by linarith) (by norm_num)
    rw [Real.tan_zero, sub_zero, sub_zero] at this
    linarith
  have h1 := (Near.self hr.1).mul ht (R := 8192) (S := 18) (E := 101 / 100 / 2 ^ 25) (abs_le.mpr hr.2) tb
    (by norm_num) (by norm_num)
  have b1 : |r.toR * Real.tan η| ≤ 8192 * 18 := by
    rw [abs_mul]
    exact mul_le_mul (abs_le.mpr hr.2) tb (abs_nonneg _) (by norm_num)
  have h2 := h1.mul (Near.self hq.1) (R := 8192 * 18) (S := 16) (E := 163 / 10 / 2 ^ 25) b1 (abs_le.mpr hq.2)
    (by norm_num) (by norm_num)
  have b2 : |r.toR * Real.tan η * q.toR| ≤ 8192 * 18 * 16 := by
    rw [abs_mul]
    exact mul_le_mul b1 (abs_le.mpr hq.2) (abs_nonneg _) (by norm_num)
  have near4 : Near (lit 4 : F64) 4 0 := by simpa using near_lit (q := 4) (n := 4) (by norm_num) (by norm_num)
  have h3 := h2.mul near4 (R := 8192 * 18 * 16) (S := 4) (E := 654 / 10 / 2 ^ 25) b2 (by norm_num)
    (by norm_num) (by norm_num)
  have b3 : |r.toR * Real.tan η * q.toR * 4 / 3| ≤ 8192 * 18 * 16 * 4 := by
    rw [abs_div, abs_mul]
    have : |(4 : ℝ)| = 4 := by norm_num
    have h3 : |(3 : ℝ)| = 3 := by norm_num
    rw [this, h3]
    linarith [abs_nonneg (r.toR * Real.tan η * q.toR)]
  have h4 := h3.div near_lit3 (by norm_num) (B := 8192 * 18 * 16 * 4) (E := 22 / 2 ^ 25) b3 (by
    have h3 : |(3 : ℝ)| = 3 := by norm_num
    rw [h3]
    norm_num) (by norm_num)
  rw [show 4 / 3 * Real.tan η * r.toR * q.toR = r.toR * Real.tan η * q.toR * 4 / 3 by ring]
  exact h4

omit [Libm F64] in
/-- A coordinate of the end of a handle. -/
theorem near_handle {x t u : F64} {X T v ε L : ℝ} (hx : Near x X (8192 * ε + 1 / 2 ^ 37)) (hX : |X| ≤ 16384)
    (ht : Near t T (22 / 2 ^ 25)) (hT : |T| ≤ L) (hL : L ≤ 2 ^ 22) (hu : Near u v (1 / 2 ^ 52 + ε)) (hv : |v| ≤ 1)
    (he : ε ≤ 1 / 2 ^ 20) (hd : L * (1 / 2 ^ 52 + ε) ≤ 57 / 2 ^ 25) :
    Near (x +. t *. u) (X + T * v) (8192 * ε + 82 / 2 ^ 25) ∧ Near (x -. t *. u) (X - T * v) (8192 * ε + 82 / 2 ^ 25) := by
  have d0 : (0 : ℝ) ≤ 1 / 2 ^ 52 + ε := (abs_nonneg _).trans hu.err
  have h1 : Near (t *. u) (T * v) (81 / 2 ^ 25) := by
    refine ht.mul hu (R := L) (S := 1) hT hv ?_ ?_
    · have e1 : (22 : ℝ) / 2 ^ 25 * (1 / 2 ^ 52 + ε) ≤ 22 / 2 ^ 25 * (1 / 2 ^ 52 + 1 / 2 ^ 20) := by gcongr
      have e2 : (L * 1 + (L * (1 / 2 ^ 52 + ε) + 1 * (22 / 2 ^ 25) + 22 / 2 ^ 25 * (1 / 2 ^ 52 + ε))) / 2 ^ 53 ≤
          (2 ^ 22 + 1) / 2 ^ 53 := by
        refine div_le_div_of_nonneg_right ?_ (by norm_num)
        linarith [show (57 : ℝ) / 2 ^ 25 + 22 / 2 ^ 25 + 22 / 2 ^ 25 * (1 / 2 ^ 52 + 1 / 2 ^ 20) ≤ 1 by norm_num]
      linarith [show (57 : ℝ) / 2 ^ 25 + 22 / 2 ^ 25 + 22 / 2 ^ 25 * (1 / 2 ^ 52 + 1 / 2 ^ 20) + (2 ^ 22 + 1) / 2 ^ 53 +
        1 / 2 ^ 1075 ≤ 81 / 2 ^ 25 by norm_num]
    · linarith [show (2 : ℝ) ^ 22 + 81 / 2 ^ 25 < 2 ^ 1024 by norm_num]
  have b1 : |T * v| ≤ 2 ^ 22 := by
    rw [abs_mul]
    nlinarith [abs_nonneg T, abs_nonneg v]
  have hE : (8192 * ε + 1 / 2 ^ 37 + 81 / 2 ^ 25) + (2 ^ 23 + (8192 * ε + 1 / 2 ^ 37 + 81 / 2 ^ 25)) / 2 ^ 53 +
      1 / 2 ^ 1075 ≤ 8192 * ε + 82 / 2 ^ 25 := by
    have : (2 ^ 23 + (8192 * ε + 1 / 2 ^ 37 + 81 / 2 ^ 25)) / 2 ^ 53 ≤ ((2 : ℝ) ^ 23 + 1) / 2 ^ 53 := by
      gcongr
      linarith [show (8192 : ℝ) * (1 / 2 ^ 20) + 1 / 2 ^ 37 + 81 / 2 ^ 25 ≤ 1 by norm_num]
    linarith [show (1 : ℝ) / 2 ^ 37 + 81 / 2 ^ 25 + (2 ^ 23 + 1) / 2 ^ 53 + 1 / 2 ^ 1075 ≤ 82 / 2 ^ 25 by norm_num]
  have hM : (2 : ℝ) ^ 23 + (8192 * ε + 82 / 2 ^ 25) < 2 ^ 1024 := by
    linarith [show (2 : ℝ) ^ 23 + (8192 * (1 / 2 ^ 20) + 82 / 2 ^ 25) < 2 ^ 1024 by norm_num]
  have b : (16384 : ℝ) + 2 ^ 22 ≤ 2 ^ 23 := by norm_num
  exact ⟨hx.add h1 ((abs_add_le _ _).trans (by linarith)) hE hM, hx.sub h1 ((abs_sub _ _).trans (by linarith)) hE hM⟩

/-- The vertex is corner `i` of the figure with its handles, up to `e`. -/
structure StarVertex.At (e : ℝ) (v : StarVertex F64) (s : StarFigure) (i : Nat) : Prop where
  pt : v.pt.Close e (s.corner i)
  arrives : v.inPt.Close e (s.arrives i)
  leaves : v.outPt.Close e (s.leaves i)
  x : |(s.handle i).x| ≤ 2 ^ 22
  y : |(s.handle i).y| ≤ 2 ^ 22

theorem starVertex_at (hl : AccurateLibm) {c : P2 F64} {r q y step : F64} {s : StarFigure} {i : Nat} {ε : ℝ}
    (hc : c.AtMost 8192) (hr : r.Between (-8192) 8192) (hq : q.Between (-16) 16) (ec : s.center = c.toR)
    (er : s.radius i = r.toR) (eq : s.roundness i / 100 = q.toR) (hy : Near y (s.angle i) ε)
    (ha : |s.angle i| ≤ 1000) (he : ε ≤ 1 / 2 ^ 20) (hs : Near (step /. lit 2) (s.step / 2) (1 / 2 ^ 43))
    (h0 : 0 ≤ s.step) (h1 : s.step / 2 ≤ 11 / 10)
    (hd : 2 ^ 17 * (4 / 3) * (16 * (s.step / 2)) * (1 / 2 ^ 52 + ε) ≤ 57 / 2 ^ 25) :
    (starVertex c r q y step).At (8192 * ε + 82 / 2 ^ 25) s i := by
  have hb : |s.angle i| + ε ≤ 2 ^ 10 := by linarith [show (1000 : ℝ) + 1 / 2 ^ 20 ≤ 2 ^ 10 by norm_num]
  have co := near_cos hl hy hb
  have si := near_sin hl hy hb
  have x := near_corner hc.1 hr co (Real.abs_cos_le_one _) he
  have y' := near_corner hc.2 hr si (Real.abs_sin_le_one _) he
  have ecx : s.corner i = ⟨c.x.toR + r.toR * Real.cos (s.angle i), c.y.toR + r.toR * Real.sin (s.angle i)⟩ := by
    unfold StarFigure.corner
    rw [ec, er]
    rfl
  have bx : ∀ {c : F64} {v : ℝ}, c.Between (-8192) 8192 → |v| ≤ 1 → |c.toR + r.toR * v| ≤ 16384 := by
    intro c v hc hv
    refine (abs_add_le _ _).trans ?_
    rw [abs_mul]
    have h2 := abs_le.mpr hc.2
    have h3 := abs_le.mpr hr.2
    nlinarith [abs_nonneg v, abs_nonneg r.toR]
  have le1 : 8192 * ε + 1 / 2 ^ 37 ≤ 8192 * ε + 82 / 2 ^ 25 := by
    linarith [show (1 : ℝ) / 2 ^ 37 ≤ 82 / 2 ^ 25 by norm_num]
  have hpt : P2.Close (8192 * ε + 82 / 2 ^ 25) ⟨c.x +. r *. Libm.cos y, c.y +. r *. Libm.sin y⟩ (s.corner i) := by
    rw [ecx]
    exact ⟨x.mono le1, y'.mono le1⟩
  by_cases hcase : |q.toR| ≤ 1 / 1000000
  · have hno : ((lit (1 / 1000000) : F64) <. FloatOps.abs q) = false := by
      rw [Bool.eq_false_iff]
      exact fun h => (rounded_iff hq.1).mp h hcase
    have ev : starVertex c r q y step = ⟨⟨c.x +. r *. Libm.cos y, c.y +. r *. Libm.sin y⟩,
        ⟨c.x +. r *. Libm.cos y, c.y +. r *. Libm.sin y⟩, ⟨c.x +. r *. Libm.cos y, c.y +. r *. Libm.sin y⟩⟩ := by
      unfold starVertex
      dsimp only
      rw [hno]
      rfl
    have er0 : s.reach i = 0 := by unfold StarFigure.reach; rw [eq, if_pos hcase]
    have e1 : s.arrives i = s.corner i := by unfold StarFigure.arrives StarFigure.handle; rw [er0]; simp
    have e2 : s.leaves i = s.corner i := by unfold StarFigure.leaves StarFigure.handle; rw [er0]; simp
    rw [ev]
    refine ⟨hpt, e1 ▸ hpt, e2 ▸ hpt, ?_, ?_⟩ <;>
    · unfold StarFigure.handle
      rw [er0]
      norm_num
  · have hyes : ((lit (1 / 1000000) : F64) <. FloatOps.abs q) = true := (rounded_iff hq.1).mpr hcase
    have er0 : s.reach i = 4 / 3 * Real.tan (s.step / 2) * r.toR * q.toR := by
      unfold StarFigure.reach
      rw [if_neg (by rw [eq]; exact hcase), er, eq]
    have hη : |s.step / 2| ≤ 11 / 10 := by rw [abs_of_nonneg (by linarith)]; exact h1
    have hreach := near_reach hl hr hs hη hq
    have ht : |Real.tan (s.step / 2)| ≤ 16 * (s.step / 2) := by
      have := abs_tan_sub_tan_le (x := s.step / 2) (y := 0) (by linarith) (by norm_num)
      rwa [Real.tan_zero, sub_zero, sub_zero, abs_of_nonneg (show 0 ≤ s.step / 2 by linarith)] at this
    have hT : |4 / 3 * Real.tan (s.step / 2) * r.toR * q.toR| ≤ 2 ^ 17 * (4 / 3) * (16 * (s.step / 2)) := by
      rw [abs_mul, abs_mul, abs_mul, abs_of_pos (show (0 : ℝ) < 4 / 3 by norm_num)]
      have h2 := abs_le.mpr hr.2
      have h3 := abs_le.mpr hq.2
      have e : (2 : ℝ) ^ 17 * (4 / 3) * (16 * (s.step / 2)) = 4 / 3 * (16 * (s.step / 2)) * 8192 * 16 := by ring
      rw [e]
      gcongr
    have hL : (2 : ℝ) ^ 17 * (4 / 3) * (16 * (s.step / 2)) ≤ 2 ^ 22 := by
      refine le_trans (mul_le_mul_of_nonneg_left (mul_le_mul_of_nonneg_left h1 (by norm_num)) (by norm_num)) ?_
      norm_num
    have n1 := si.neg
    have kx := near_handle x (bx hc.1 (Real.abs_cos_le_one _)) hreach hT hL n1
      (by rw [abs_neg]; exact Real.abs_sin_le_one _) he hd
    have ky := near_handle y' (bx hc.2 (Real.abs_sin_le_one _)) hreach hT hL co (Real.abs_cos_le_one _) he hd
    have ev : starVertex c r q y step = ⟨⟨c.x +. r *. Libm.cos y, c.y +. r *. Libm.sin y⟩,
        ⟨c.x +. r *. Libm.cos y -. r *. Libm.tan (step /. lit 2) *. q *. lit 4 /. lit 3 *. FloatOps.neg (Libm.sin y),
          c.y +. r *. Libm.sin y -. r *. Libm.tan (step /. lit 2) *. q *. lit 4 /. lit 3 *. Libm.cos y⟩,
        ⟨c.x +. r *. Libm.cos y +. r *. Libm.tan (step /. lit 2) *. q *. lit 4 /. lit 3 *. FloatOps.neg (Libm.sin y),
          c.y +. r *. Libm.sin y +. r *. Libm.tan (step /. lit 2) *. q *. lit 4 /. lit 3 *. Libm.cos y⟩⟩ := by
      unfold starVertex
      dsimp only
      rw [hyes]
      rfl
    have hh : ∀ {v : ℝ}, |v| ≤ 1 → |s.reach i * v| ≤ 2 ^ 22 := by
      intro v hv
      rw [abs_mul, er0]
      exact (mul_le_mul (hT.trans hL) hv (abs_nonneg _) (by norm_num)).trans (by norm_num)
    rw [ev]
    refine ⟨hpt, ?_, ?_, hh (by rw [abs_neg]; exact Real.abs_sin_le_one _), hh (Real.abs_cos_le_one _)⟩
    · unfold StarFigure.arrives StarFigure.handle
      rw [er0, ecx]
      exact ⟨kx.2, ky.2⟩
    · unfold StarFigure.leaves StarFigure.handle
      rw [er0, ecx]
      exact ⟨kx.1, ky.1⟩

omit [Libm F64] in
/-- Numbers whose computed difference is less than a millionth. -/
theorem near_of_straight {a b : F64} {A B e : ℝ} (ha : Near a A e) (hb : Near b B e) (he : e ≤ 1)
    (hd : |A - B| ≤ 2 ^ 22) (h : (FloatOps.abs (a -. b) <. lit (1 / 1000000)) = true) :
    Near b A (e + 107 / 10 ^ 8) := by
  have hab : |a.toR - b.toR| ≤ 2 ^ 23 := by
    have h1 := abs_le.mp ha.err
    have h2 := abs_le.mp hb.err
    have h3 := abs_le.mp hd
    exact abs_le.mpr ⟨by linarith, by linarith⟩
  have hs := (Near.self ha.fin).sub (Near.self hb.fin) (B := 2 ^ 23) (E := 1 / 2 ^ 29) hab (by norm_num) (by norm_num)
  obtain ⟨f1, f2⟩ := abs_toR hs.fin
  have hl : (lit (1 / 1000000) : F64).isFin = true := by decide +kernel
  have hlt : (lit (1 / 1000000) : F64).toQ < 1 / 1000000 := by decide +kernel
  rw [lt_fin f1 hl] at h
  have h' : (FloatOps.abs (a -. b)).toR < 1 / 1000000 := by
    have h2 := h.trans hlt
    unfold toR
    have e2 : (1 / 1000000 : ℝ) = ((1 / 1000000 : ℚ) : ℝ) := by norm_num
    rw [e2]
    exact_mod_cast h2
  rw [f2] at h'
  have h1 := abs_lt.mp h'
  have h2 := abs_le.mp hs.err
  have h3 := abs_le.mp ha.err
  refine ⟨hb.fin, abs_le.mpr ⟨?_, ?_⟩⟩
  · linarith [show (1 : ℝ) / 1000000 + 1 / 2 ^ 29 ≤ 107 / 10 ^ 8 by norm_num]
  · linarith [show (1 : ℝ) / 1000000 + 1 / 2 ^ 29 ≤ 107 / 10 ^ 8 by norm_num]

omit [Libm F64] in
theorem straight_edge {s : StarFigure} {v w : StarVertex F64} {i j : Nat} {e : ℝ} (he : e ≤ 1) (hv : v.At e s i)
    (hw : w.At e s j) (h : starStraight v w = true) : s.Edge (e + 107 / 10 ^ 8) v.pt (.lineTo w.pt) i j := by
  unfold starStraight at h
  simp only [Bool.and_eq_true] at h
  obtain ⟨⟨⟨h1, h2⟩, h3⟩, h4⟩ := h
  refine ⟨⟨near_of_straight hv.leaves.1 hv.pt.1 he ?_ h1, near_of_straight hv.leaves.2 hv.pt.2 he ?_ h2⟩,
    ⟨near_of_straight hw.arrives.1 hw.pt.1 he ?_ h3, near_of_straight hw.arrives.2 hw.pt.2 he ?_ h4⟩,
    hw.pt.mono (by linarith)⟩
  · simpa [StarFigure.leaves] using hv.x
  · simpa [StarFigure.leaves] using hv.y
  · simpa [StarFigure.arrives] using hw.x
  · simpa [StarFigure.arrives] using hw.y

omit [Libm F64] in
theorem curved_edge {s : StarFigure} {v w : StarVertex F64} {i j : Nat} {e : ℝ} (hv : v.At e s i) (hw : w.At e s j) :
    s.Edge (e + 107 / 10 ^ 8) v.pt (.curveTo v.outPt w.inPt w.pt) i j :=
  ⟨hv.leaves.mono (by linarith), hw.arrives.mono (by linarith), hw.pt.mono (by linarith)⟩

omit [Libm F64] in
theorem drawn_of_vertices {s : StarFigure} {f : Nat → StarVertex F64} {m : Nat} {e : ℝ} (hN : s.corners = m + 1)
    (he : e ≤ 1) (hv : ∀ i ≤ m, (f i).At e s i) :
    s.DrawnBy (e + 107 / 10 ^ 8)
      (.moveTo (f 0).pt :: starEdges (f 0) (f 0) ((List.range m).map fun j => f (j + 1))) := by
  refine ⟨fun i => (f i).pt, fun i => starEdge (f i) (f (i + 1)),
    if starStraight (f m) (f 0) then [] else [.curveTo (f m).outPt (f 0).inPt (f 0).pt], ?_,
    (hv 0 (Nat.zero_le _)).pt.mono (by linarith), ?_, ?_⟩
  · rw [starEdges_range, hN, Nat.add_sub_cancel]
    split_ifs <;> simp
  · intro i hi
    rw [hN] at hi
    have h1 := hv i (by omega)
    have h2 := hv (i + 1) (by omega)
    dsimp only
    unfold starEdge
    split_ifs with h
    · exact ⟨straight_edge he h1 h2 h, rfl⟩
    · exact ⟨curved_edge h1 h2, rfl⟩
  · rw [hN, Nat.add_sub_cancel]
    split_ifs with h
    · exact .inl ⟨rfl, straight_edge he (hv m (le_refl _)) (hv 0 (Nat.zero_le _)) h⟩
    · exact .inr ⟨_, rfl, curved_edge (hv m (le_refl _)) (hv 0 (Nat.zero_le _)), rfl⟩

variable [Kurbo F64]

/-- The figure that is drawn. -/
noncomputable def AnimStar.shown (s : AnimStar F64) (frame : F64) (n : Nat) : StarFigure where
  polygon := s.isPolygon
  points := n
  center := (s.position.evaluate frame).toR
  outerRadius := (s.outerRadius.evaluate frame).toR
  innerRadius := (s.innerRadius.evaluate frame).toR
  outerRoundness := 100 * (s.outerRoundness.evaluate frame /. lit 100).toR
  innerRoundness := 100 * (s.innerRoundness.evaluate frame /. lit 100).toR
  rotation := (s.rotation.evaluate frame).toR

theorem star_drawn (hl : AccurateLibm) (hA : AccurateAngles) {s : AnimStar F64} {frame : F64} {n : Nat}
    (en : FloatOps.toUsize (FloatOps.round (s.points.evaluate frame)) = n) (n3 : 3 ≤ n) (nu : n ≤ 100001)
    (hc : (s.position.evaluate frame).AtMost 8192)
    (hr : (s.rotation.evaluate frame).Between (-4001) 4001)
    (ho : (s.outerRadius.evaluate frame).Between (-8192) 8192)
    (hoq : (s.outerRoundness.evaluate frame /. lit 100).Between (-16) 16)
    (hi : s.isPolygon = false → (s.innerRadius.evaluate frame).Between (-8192) 8192 ∧
      (s.innerRoundness.evaluate frame /. lit 100).Between (-16) 16) {els : List (PathEl F64)}
    (he : s.evaluate frame = .ok els) :
    (s.shown frame n).DrawnBy (4 / 10 ^ 6 + (s.shown frame n).corners / 10 ^ 9) els := by
  have p0 := Real.pi_pos
  have p1 := Real.pi_lt_d2
  have hn : (3 : ℝ) ≤ n := by exact_mod_cast n3
  have hnu : (n : ℝ) ≤ 100001 := by exact_mod_cast nu
  obtain ⟨s1, s2, s3⟩ := star_step hA n3 nu
  generalize hfig : s.shown frame n = fig
  have eN : (if !s.isPolygon then n * 2 else n) = fig.corners := by
    subst hfig
    cases h : s.isPolygon <;> simp [StarFigure.corners, AnimStar.shown, h, mul_comm]
  have Nl : n ≤ fig.corners := by rw [← eN]; split <;> omega
  have Nu : fig.corners ≤ 200002 := by rw [← eN]; split <;> omega
  have Nr : (fig.corners : ℝ) ≤ 200002 := by exact_mod_cast Nu
  obtain ⟨step, estep, hstep, hhalf, hσ0, hσ1, hNσ⟩ : ∃ step : F64,
      (if !s.isPolygon then Libm.tau /. FloatOps.ofUsize n /. lit 2 else Libm.tau /. FloatOps.ofUsize n) = step ∧
      Near step fig.step (1 / 2 ^ 44) ∧ Near (step /. lit 2) (fig.step / 2) (1 / 2 ^ 43) ∧ 0 ≤ fig.step ∧
      fig.step / 2 ≤ 11 / 10 ∧ fig.corners * fig.step = 2 * Real.pi := by
    refine ⟨_, rfl, ?_⟩
    subst hfig
    cases h : s.isPolygon with
    | true =>
      have e1 : (s.shown frame n).step = 2 * Real.pi / n := by simp [StarFigure.step, AnimStar.shown, h]
      have e2 : (s.shown frame n).corners = n := by simp [StarFigure.corners, AnimStar.shown, h]
      rw [e1, e2]
      refine ⟨s1.mono (by norm_num), s2.mono (by norm_num), by positivity, ?_, by field_simp⟩
      rw [div_div, div_le_iff₀ (by linarith)]; linarith
    | false =>
      have e1 : (s.shown frame n).step = 2 * Real.pi / n / 2 := by
        simp only [StarFigure.step, AnimStar.shown, h, Bool.false_eq_true, if_false]; field_simp
      have e2 : (s.shown frame n).corners = 2 * n := by simp [StarFigure.corners, AnimStar.shown, h]
      rw [e1, e2]
      refine ⟨s2, s3, by positivity, ?_, by push_cast; field_simp⟩
      rw [div_div, div_div, div_le_iff₀ (by linarith)]; linarith
  have hα : |(s.rotation.evaluate frame).toR * (Real.pi / 180) - Real.pi / 2| ≤ 80 := by
    have h1 : |(s.rotation.evaluate frame).toR * (Real.pi / 180)| ≤ 4001 * (Real.pi / 180) := by
      rw [abs_mul, abs_of_pos (show (0 : ℝ) < Real.pi / 180 by positivity)]
      exact mul_le_mul_of_nonneg_right (abs_le.mpr hr.2) (by positivity)
    refine (abs_sub _ _).trans ?_
    rw [abs_of_pos (show (0 : ℝ) < Real.pi / 2 by positivity)]
    linarith
  have hrad := near_radians hl (B := 4001) (E := 1 / 2 ^ 45) hr (by norm_num) (by norm_num) (by norm_num)
  have hang : Near (toRadians (s.rotation.evaluate frame) -. Libm.fracPi2)
      ((s.rotation.evaluate frame).toR * (Real.pi / 180) - Real.pi / 2) (1 / 2 ^ 43) :=
    hrad.sub hA.quarter (B := 80) hα (by norm_num) (by norm_num)
  have hangle := near_angle hang hstep hσ0 (n := fig.corners) (by rw [hNσ]; linarith) Nu
  have hv : s.vertices frame = (List.range fig.corners).map fun j =>
      starVertex (s.position.evaluate frame)
        (if !(!s.isPolygon) || (0 + j) % 2 == 0 then
          (s.outerRadius.evaluate frame, s.outerRoundness.evaluate frame /. lit 100)
        else (if !s.isPolygon then
          (s.innerRadius.evaluate frame, s.innerRoundness.evaluate frame /. lit 100)
          else (s.outerRadius.evaluate frame, lit 0))).1
        (if !(!s.isPolygon) || (0 + j) % 2 == 0 then
          (s.outerRadius.evaluate frame, s.outerRoundness.evaluate frame /. lit 100)
        else (if !s.isPolygon then
          (s.innerRadius.evaluate frame, s.innerRoundness.evaluate frame /. lit 100)
          else (s.outerRadius.evaluate frame, lit 0))).2
        (angleFrom (toRadians (s.rotation.evaluate frame) -. Libm.fracPi2) step j) step := by
    unfold AnimStar.vertices
    dsimp only
    rw [en, eN, estep, starVertices_angleFrom]
  obtain ⟨m, hm⟩ : ∃ m, fig.corners = m + 1 := ⟨fig.corners - 1, by omega⟩
  generalize hf : (fun j => starVertex (s.position.evaluate frame)
        (if !(!s.isPolygon) || (0 + j) % 2 == 0 then
          (s.outerRadius.evaluate frame, s.outerRoundness.evaluate frame /. lit 100)
        else (if !s.isPolygon then
          (s.innerRadius.evaluate frame, s.innerRoundness.evaluate frame /. lit 100)
          else (s.outerRadius.evaluate frame, lit 0))).1
        (if !(!s.isPolygon) || (0 + j) % 2 == 0 then
          (s.outerRadius.evaluate frame, s.outerRoundness.evaluate frame /. lit 100)
        else (if !s.isPolygon then
          (s.innerRadius.evaluate frame, s.innerRoundness.evaluate frame /. lit 100)
          else (s.outerRadius.evaluate frame, lit 0))).2
        (angleFrom (toRadians (s.rotation.evaluate frame) -. Libm.fracPi2) step j) step) = f at hv
  have hat : ∀ i ≤ m, (f i).At (8192 * ((fig.corners : ℝ) / 2 ^ 43) + 82 / 2 ^ 25) fig i := by
    intro i hi'
    have hiN : (i : ℝ) + 1 ≤ fig.corners := by
      rw [hm]; push_cast
      have : (i : ℝ) ≤ m := by exact_mod_cast hi'
      linarith
    have hy : Near (angleFrom (toRadians (s.rotation.evaluate frame) -. Libm.fracPi2) step i) (fig.angle i)
        (fig.corners / 2 ^ 43) := by
      have := hangle i (by omega)
      have e : fig.angle i = (s.rotation.evaluate frame).toR * (Real.pi / 180) - Real.pi / 2 + i * fig.step := by
        subst hfig; rfl
      rw [e]
      exact this.mono (by gcongr)
    have ha : |fig.angle i| ≤ 1000 := by
      have e : fig.angle i = (s.rotation.evaluate frame).toR * (Real.pi / 180) - Real.pi / 2 + i * fig.step := by
        subst hfig; rfl
      rw [e]
      have h1 : (i : ℝ) * fig.step ≤ fig.corners * fig.step := by
        apply mul_le_mul_of_nonneg_right _ hσ0
        linarith
      have h2 : |(i : ℝ) * fig.step| ≤ 2 * Real.pi := by
        rw [abs_of_nonneg (mul_nonneg (Nat.cast_nonneg _) hσ0), ← hNσ]; exact h1
      refine (abs_add_le _ _).trans ?_
      linarith
    have hd : 2 ^ 17 * (4 / 3) * (16 * (fig.step / 2)) * (1 / 2 ^ 52 + (fig.corners : ℝ) / 2 ^ 43) ≤ 57 / 2 ^ 25 := by
      have e : (2 : ℝ) ^ 17 * (4 / 3) * (16 * (fig.step / 2)) * (1 / 2 ^ 52 + (fig.corners : ℝ) / 2 ^ 43) =
          2 ^ 17 * (64 / 3) / 2 ^ 52 * (fig.step / 2) + 2 ^ 17 * (32 / 3) / 2 ^ 43 * (fig.corners * fig.step) := by ring
      rw [e, hNσ]
      have h1 : (2 : ℝ) ^ 17 * (64 / 3) / 2 ^ 52 * (fig.step / 2) ≤ 2 ^ 17 * (64 / 3) / 2 ^ 52 * (11 / 10) := by gcongr
      have h2 : (2 : ℝ) ^ 17 * (32 / 3) / 2 ^ 43 * (2 * Real.pi) ≤ 2 ^ 17 * (32 / 3) / 2 ^ 43 * (2 * 3.15) := by gcongr
      refine (add_le_add h1 h2).trans ?_
      norm_num
    have hε : (fig.corners : ℝ) / 2 ^ 43 ≤ 1 / 2 ^ 20 := by
      rw [div_le_iff₀ (by positivity)]
      refine Nr.trans ?_
      norm_num
    rw [← hf]
    by_cases hout : fig.Outer i
    · have hb : (!(!s.isPolygon) || (0 + i) % 2 == 0) = true := by
        subst hfig
        simpa [StarFigure.Outer, AnimStar.shown] using hout
      simp only [hb, if_true]
      refine starVertex_at hl hc ho hoq (by subst hfig; rfl) ?_ ?_ hy ha hε hhalf hσ0 hσ1 hd
      · unfold StarFigure.radius; rw [if_pos hout]; subst hfig; rfl
      · unfold StarFigure.roundness; rw [if_pos hout]; subst hfig
        show 100 * _ / 100 = _
        field_simp
    · have hb : (!(!s.isPolygon) || (0 + i) % 2 == 0) = false := by
        rw [Bool.eq_false_iff]
        intro h
        apply hout
        subst hfig
        simpa [StarFigure.Outer, AnimStar.shown] using h
      have hp : s.isPolygon = false := by
        cases h : s.isPolygon with
        | false => rfl
        | true => rw [h] at hb; simp at hb
      simp only [hb, Bool.false_eq_true, if_false]
      simp only [hp, Bool.not_false, if_true]
      refine starVertex_at hl hc (hi hp).1 (hi hp).2 (by subst hfig; rfl) ?_ ?_ hy ha hε hhalf hσ0 hσ1 hd
      · unfold StarFigure.radius; rw [if_neg hout]; subst hfig; rfl
      · unfold StarFigure.roundness; rw [if_neg hout]; subst hfig
        show 100 * _ / 100 = _
        field_simp
  have hE : 8192 * ((fig.corners : ℝ) / 2 ^ 43) + 82 / 2 ^ 25 + 107 / 10 ^ 8 ≤ 4 / 10 ^ 6 + fig.corners / 10 ^ 9 := by
    have h1 : 8192 * ((fig.corners : ℝ) / 2 ^ 43) ≤ fig.corners / 10 ^ 9 := by
      rw [show 8192 * ((fig.corners : ℝ) / 2 ^ 43) = fig.corners * (8192 / 2 ^ 43) by ring, div_eq_mul_inv]
      refine mul_le_mul_of_nonneg_left (by norm_num) (by positivity)
    linarith [show (82 : ℝ) / 2 ^ 25 + 107 / 10 ^ 8 ≤ 4 / 10 ^ 6 by norm_num]
  have hels : els = .moveTo (f 0).pt :: starEdges (f 0) (f 0) ((List.range m).map fun j => f (j + 1)) := by
    rw [star_evaluate] at he
    dsimp only at he
    rw [en, if_neg (by omega), hv, hm, List.range_succ_eq_map, List.map_cons, List.map_map] at he
    split_ifs at he
    all_goals exact (Except.ok.inj he).symm
  rw [hels]
  have hd := drawn_of_vertices hm (by
    have : 8192 * ((fig.corners : ℝ) / 2 ^ 43) ≤ 8192 * (200002 / 2 ^ 43) := by gcongr
    linarith [show (8192 : ℝ) * (200002 / 2 ^ 43) + 82 / 2 ^ 25 ≤ 1 by norm_num]) hat
  exact hd.mono hE

omit [Libm F64] [Kurbo F64] in
theorem roundness_near {x : F64} (hb : x.Between (-1501) 1501) :
    (x /. lit 100).Between (-16) 16 ∧ |100 * (x /. lit 100).toR - x.toR| ≤ 1 / 10 ^ 12 := by
  have h100 : Near (lit 100 : F64) 100 0 := by simpa using near_lit (q := 100) (n := 100) (by norm_num) (by norm_num)
  have hB : |x.toR / 100| ≤ 1501 / 100 := by
    rw [abs_div, abs_of_pos (show (0 : ℝ) < 100 by norm_num)]
    have := abs_le.mpr hb.2
    linarith
  have h1 := (Near.self hb.1).div h100 (by norm_num) (B := 1501 / 100) (E := 1 / 2 ^ 49) hB (by
    rw [abs_of_pos (show (0 : ℝ) < 100 by norm_num)]; norm_num) (by norm_num)
  refine ⟨h1.between (by linarith [show (1501 : ℝ) / 100 + 1 / 2 ^ 49 ≤ 16 by norm_num]), ?_⟩
  have e := h1.err
  rw [show 100 * (x /. lit 100).toR - x.toR = 100 * ((x /. lit 100).toR - x.toR / 100) by ring, abs_mul,
    abs_of_pos (show (0 : ℝ) < 100 by norm_num)]
  linarith [show (100 : ℝ) * (1 / 2 ^ 49) ≤ 1 / 10 ^ 12 by norm_num]

omit [Libm F64] in
theorem scalarOr_at {p : Option (Schema.FloatValue F64)} {v : Value F64 F64} (h : convScalarOr p (lit 0) = .ok v)
    (frame : F64) : ScalarOrZeroAt p frame (v.evaluate frame).toR := by
  unfold convScalarOr at h
  cases p with
  | none =>
    cases Except.ok.inj h
    show (lit 0 : F64).toR = 0
    unfold toR
    rw [show (lit 0 : F64).toQ = 0 by decide +kernel]
    norm_num
  | some p => exact ⟨_, ⟨v, h, rfl⟩, rfl⟩

omit [Libm F64] in
theorem scalarOr_within {p : Option (Schema.FloatValue F64)} {v : Value F64 F64} (h : convScalarOr p (lit 0) = .ok v)
    {lo M B : ℝ} (hp : ∀ r, p = some r → ScalarWithin (-lo) lo r) (h0 : |lo| ≤ M) (hM : M ≤ 2 ^ 1000)
    (hB : lo + overshoot (-lo) lo M ≤ B) (hB0 : 0 ≤ B) (frame : F64) : (v.evaluate frame).Between (-B) B := by
  unfold convScalarOr at h
  cases p with
  | none =>
    cases Except.ok.inj h
    show (lit 0 : F64).Between (-B) B
    have e : (lit 0 : F64).toR = 0 := by
      unfold toR
      rw [show (lit 0 : F64).toQ = 0 by decide +kernel]
      norm_num
    exact ⟨by decide +kernel, by rw [e]; linarith, by rw [e]; exact hB0⟩
  | some p => exact scalar_within h (hp p rfl) h0 hM hB frame

omit [Libm F64] in
theorem vector_atMost {p : Schema.MultiDimensional F64} (hp : VectorWithin (-8000) 8000 (-8000) 8000 p)
    (frame : F64) : ((convMultiP2 p).evaluate frame).AtMost 8192 := by
  have h := C114_vectors hp (M := 8000) (by norm_num) (by norm_num) (by norm_num) (by norm_num)
    (by norm_num) frame RDefault.dflt
  rw [← Value.evaluate_eq] at h
  have e : overshoot (-8000) 8000 8000 ≤ 192 := by unfold overshoot; norm_num
  exact ⟨⟨h.1.1, by linarith [h.1.2.1], by linarith [h.1.2.2]⟩,
    ⟨h.2.1, by linarith [h.2.2.1], by linarith [h.2.2.2]⟩⟩

omit [Libm F64] [Kurbo F64] in
theorem near_halved {z : F64} (hz : z.Between (-8192) 8192) : Near (z *. lit (1 / 2)) (z.toR / 2) (1 / 2 ^ 40) := by
  have half : Near (lit (1 / 2) : F64) (1 / 2) 0 := by
    refine ⟨by decide +kernel, ?_⟩
    unfold toR
    rw [show (lit (1 / 2) : F64).toQ = 1 / 2 by decide +kernel]
    norm_num
  rw [show z.toR / 2 = z.toR * (1 / 2) by ring]
  refine (Near.self hz.1).mul half (R := 8192) (S := 1 / 2) (abs_le.mpr hz.2) ?_ (by norm_num) (by norm_num)
  rw [abs_of_pos (by norm_num)]

omit [Libm F64] [Kurbo F64] in
theorem near_sides {p z : F64} (hp : p.Between (-8192) 8192) (hz : z.Between (-8192) 8192) :
    Near (p -. z *. lit (1 / 2)) (p.toR - z.toR / 2) (1 / 10 ^ 11) ∧
      Near (p -. z *. lit (1 / 2) +. z) (p.toR + z.toR / 2) (1 / 10 ^ 11) := by
  have p2 := abs_le.mpr hp.2
  have z2 := abs_le.mpr hz.2
  have hz' : |z.toR / 2| ≤ 4096 := by rw [abs_div, abs_two]; linarith
  have h1 := (Near.self hp.1).sub (near_halved hz) (B := 12288) (E := 1 / 2 ^ 38) ((abs_sub _ _).trans (by linarith))
    (by norm_num) (by norm_num)
  have h2 := h1.add (Near.self hz.1) (B := 12288) (E := 1 / 2 ^ 37) (by
    rw [show p.toR - z.toR / 2 + z.toR = p.toR + z.toR / 2 by ring]
    exact (abs_add_le _ _).trans (by linarith)) (by norm_num) (by norm_num)
  rw [show p.toR - z.toR / 2 + z.toR = p.toR + z.toR / 2 by ring] at h2
  exact ⟨h1.mono (by norm_num), h2.mono (by norm_num)⟩

end

end Velato
