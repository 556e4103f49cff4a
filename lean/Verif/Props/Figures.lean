import Verif.Spec.Figures
import Verif.Spec.TrimPath
import Verif.Model.Import
import Verif.Num.F64Lemmas
import Mathlib.Tactic.Ring
import Mathlib.Tactic.Linarith

/-!
# C17, C18 — stars, polygons, rectangles, ellipses
-/

namespace Velato
open FloatOps (lit)

section
variable {F : Type} [FloatOps F] [Libm F] [Kurbo F]

omit [Kurbo F] in
theorem starVertices_length (c : P2 F) (isStar : Bool) (o i : F × F) (step : F) (n k : Nat)
    (angle : F) : (starVertices c isStar o i step n k angle).length = n := by
  induction n generalizing k angle with
  | zero => rfl
  | succ n ih => rw [starVertices, List.length_cons, ih]

omit [Libm F] [Kurbo F] in
theorem anchors_starEdges (first prev : StarVertex F) (rest : List (StarVertex F)) :
    (anchors (starEdges first prev rest) = rest.map (·.pt) ∨
      anchors (starEdges first prev rest) = rest.map (·.pt) ++ [first.pt]) ∧
    (starEdges first prev rest).getLast? = some .closePath := by
  induction rest generalizing prev with
  | nil =>
    rw [starEdges]
    split
    · exact ⟨.inl rfl, rfl⟩
    · exact ⟨.inr rfl, rfl⟩
  | cons cur rest ih =>
    obtain ⟨h1, h2⟩ := ih cur
    rw [starEdges]
    have he : anchors (starEdge prev cur :: starEdges first cur rest)
        = cur.pt :: anchors (starEdges first cur rest) := by
      unfold starEdge
      split <;> rfl
    rw [he]
    refine ⟨?_, ?_⟩
    · rcases h1 with h1 | h1
      · exact .inl (by rw [h1]; rfl)
      · exact .inr (by rw [h1]; rfl)
    · rw [List.getLast?_cons, h2]; rfl

/-- The path is closed and its corners are `vs`: it moves to the first, continues to the others in
order, possibly back to the first, and closes. -/
def ClosedThrough (els : List (PathEl F)) (vs : List (P2 F)) : Prop :=
  (anchors els = vs ∨ anchors els = vs ++ vs.head?.toList) ∧ els.getLast? = some .closePath ∧
    (∃ p rest, els = .moveTo p :: rest) ∧ ∀ p, PathEl.moveTo p ∉ els.tail

omit [Libm F] [Kurbo F] in
theorem starEdges_no_move (first prev : StarVertex F) (rest : List (StarVertex F)) (p : P2 F) :
    PathEl.moveTo p ∉ starEdges first prev rest := by
  induction rest generalizing prev with
  | nil => rw [starEdges]; split <;> simp
  | cons cur rest ih =>
    rw [starEdges]
    intro h
    rcases List.mem_cons.mp h with h | h
    · unfold starEdge at h
      split at h <;> cases h
    · exact ih _ h

/-- The vertices computed for a star at a frame. -/
def AnimStar.vertices (s : AnimStar F) (frame : F) : List (StarVertex F) :=
  let n := FloatOps.toUsize (FloatOps.round (s.points.evaluate frame))
  let outer := (s.outerRadius.evaluate frame, s.outerRoundness.evaluate frame /. lit 100)
  let inner := if !s.isPolygon then
      (s.innerRadius.evaluate frame, s.innerRoundness.evaluate frame /. lit 100)
    else (s.outerRadius.evaluate frame, lit 0)
  starVertices (s.position.evaluate frame) (!s.isPolygon) outer inner
    (if !s.isPolygon then Libm.tau /. FloatOps.ofUsize n /. lit 2
      else Libm.tau /. FloatOps.ofUsize n)
    (if !s.isPolygon then n * 2 else n) 0
    (toRadians (s.rotation.evaluate frame) -. Libm.fracPi2)

theorem star_evaluate (s : AnimStar F) (frame : F) :
    s.evaluate frame =
      let n := FloatOps.toUsize (FloatOps.round (s.points.evaluate frame))
      if n = 0 then .ok [] else
      if usizeMax < (if !s.isPolygon then n * 2 else n)
          ∨ isizeMax < (if !s.isPolygon then n * 2 else n) * 48 then .error (.panic .starCapacity)
      else match s.vertices frame with
        | [] => .ok []
        | first :: rest => .ok (.moveTo first.pt :: starEdges first first rest) := rfl

theorem star_closed {s : AnimStar F} {frame : F} {els : List (PathEl F)}
    (h : s.evaluate frame = .ok els)
    (h0 : FloatOps.toUsize (FloatOps.round (s.points.evaluate frame)) ≠ 0) :
    ClosedThrough els ((s.vertices frame).map (·.pt)) := by
  have hlen : (s.vertices frame).length ≠ 0 := by
    unfold AnimStar.vertices
    rw [starVertices_length]
    split <;> omega
  rw [star_evaluate] at h
  dsimp only at h
  rw [if_neg h0] at h
  by_cases hc : usizeMax < (if !s.isPolygon then
        FloatOps.toUsize (FloatOps.round (s.points.evaluate frame)) * 2 else
        FloatOps.toUsize (FloatOps.round (s.points.evaluate frame)))
      ∨ isizeMax < (if !s.isPolygon then
        FloatOps.toUsize (FloatOps.round (s.points.evaluate frame)) * 2 else
        FloatOps.toUsize (FloatOps.round (s.points.evaluate frame))) * 48
  · rw [if_pos hc] at h; cases h
  · rw [if_neg hc] at h
    cases hv : s.vertices frame with
    | nil => rw [hv] at hlen; exact absurd rfl hlen
    | cons first rest =>
      rw [hv] at h
      cases h
      obtain ⟨h1, h2⟩ := anchors_starEdges first first rest
      have he : anchors (.moveTo first.pt :: starEdges first first rest)
          = first.pt :: anchors (starEdges first first rest) := rfl
      refine ⟨?_, ?_, ⟨_, _, rfl⟩, fun p => starEdges_no_move first first rest p⟩
      · rw [he]
        rcases h1 with h1 | h1
        · exact .inl (by rw [h1]; rfl)
        · exact .inr (by rw [h1]; rfl)
      · rw [List.getLast?_cons, h2]; rfl

/-- **C17**, every number type: the path of a star of `n` points has `2n` corners and that of a
polygon `n`, and both are closed; with no points there is no path. -/
theorem C17_corners {s : AnimStar F} {frame : F} {els : List (PathEl F)}
    (h : s.evaluate frame = .ok els) (n : Nat)
    (hn : n = FloatOps.toUsize (FloatOps.round (s.points.evaluate frame))) :
    (n = 0 → els = []) ∧ (n ≠ 0 → ∃ vs : List (P2 F),
      vs.length = (if s.isPolygon then n else 2 * n) ∧ ClosedThrough els vs) := by
  refine ⟨?_, ?_⟩
  · intro h0
    rw [star_evaluate] at h
    dsimp only at h
    rw [← hn, if_pos h0] at h
    cases h; rfl
  · intro h0
    have hlen : (s.vertices frame).length = (if s.isPolygon then n else 2 * n) := by
      unfold AnimStar.vertices
      rw [starVertices_length, ← hn]
      cases s.isPolygon
      · show n * 2 = 2 * n; omega
      · rfl
    exact ⟨(s.vertices frame).map (·.pt), by rw [List.length_map, hlen],
      star_closed h (by rw [← hn]; exact h0)⟩

end

/-- **C17**, IEEE arithmetic: with less than half a point (in particular a negative number of
points, or NaN) nothing is drawn. -/
theorem C17_no_points [Libm F64] [Kurbo F64] (s : AnimStar F64) (frame : F64)
    (h : (s.points.evaluate frame <. lit (1 / 2)) = true ∨ isNaN (s.points.evaluate frame) = true) :
    s.evaluate frame = .ok [] := by
  rw [star_evaluate]
  dsimp only
  rw [if_pos]
  generalize s.points.evaluate frame = x at h
  have hh : (lit (1 / 2) : F64).isFin = true := by decide +kernel
  have hq : (lit (1 / 2) : F64).toQ = 1 / 2 := by decide +kernel
  have pos : ∀ s q, q ≤ 0 → (q = 0 → s = true) → F64.toUsize (F64.ofRat s q) = 0 := by
    intro s q hq hs
    unfold F64.ofRat
    split
    · have : (if q = 0 then s else decide (q < 0)) = true := by
        split
        · rename_i h0; exact hs h0
        · rename_i h0; exact decide_eq_true (lt_of_le_of_ne hq h0)
      rw [this]; rfl
    · by_cases h0 : q < 0
      · rw [decide_eq_true h0]; rfl
      · rename_i hc
        have : q = 0 := le_antisymm hq (not_lt.mp h0)
        subst this
        exact absurd (by rw [abs_zero, roundMag_zero]; decide +kernel) hc
  cases x with
  | nan => rfl
  | inf n =>
    cases n with
    | true => rfl
    | false =>
      rcases h with h | h
      · exact absurd h (by decide +kernel)
      · exact absurd h (by decide +kernel)
  | fin n a ha =>
    have ha0 : 0 ≤ a := F64.isRepr_nonneg ha.1
    have hlt : (F64.fin n a ha).toQ < 1 / 2 := by
      rcases h with h | h
      · have := (F64.lt_fin rfl hh).mp h
        rwa [hq] at this
      · rw [isNaN_iff] at h
        exact (Option.some_ne_none _ h).elim
    show F64.toUsize (F64.ofRat n (if n then -(⌊a + 1 / 2⌋ : ℚ) else (⌊a + 1 / 2⌋ : ℚ))) = 0
    cases n with
    | true =>
      refine pos _ _ ?_ fun _ => rfl
      have : (0 : ℤ) ≤ ⌊a + 1 / 2⌋ := Int.floor_nonneg.mpr (by linarith)
      have : (0 : ℚ) ≤ (⌊a + 1 / 2⌋ : ℚ) := by exact_mod_cast this
      simp only [if_true]; linarith
    | false =>
      have hlt : a < 1 / 2 := hlt
      have : ⌊a + 1 / 2⌋ = 0 := by
        rw [Int.floor_eq_iff]; push_cast; constructor <;> linarith
      rw [this]
      decide +kernel

section
variable [Kurbo ℝ]

omit [Kurbo ℝ] in
theorem starVertices_get (c : P2 ℝ) (isStar : Bool) (o i : ℝ × ℝ) (step : ℝ) (n k : Nat) (angle : ℝ)
    (j : Nat) (hj : j < n) :
    ((starVertices c isStar o i step n k angle).map (·.pt))[j]? =
      some ⟨c.x + (if !isStar || (k + j) % 2 == 0 then o else i).1 * Real.cos (angle + j * step),
        c.y + (if !isStar || (k + j) % 2 == 0 then o else i).1 * Real.sin (angle + j * step)⟩ := by
  induction n generalizing k angle j with
  | zero => omega
  | succ n ih =>
    rw [starVertices, List.map_cons]
    cases j with
    | zero =>
      rw [List.getElem?_cons_zero]
      have : ∀ (r e : ℝ), (starVertex c r e angle step).pt
          = ⟨c.x + r * Real.cos angle, c.y + r * Real.sin angle⟩ := by
        intro r e
        unfold starVertex
        dsimp only
        split <;> rfl
      rw [this]
      simp
    | succ j =>
      rw [List.getElem?_cons_succ, ih (k + 1) _ j (by omega)]
      rw [show k + 1 + j = k + (j + 1) by omega, real_add]
      push_cast
      rw [show angle + step + j * step = angle + (j + 1) * step by ring]

omit [Kurbo ℝ] in
theorem round_real {x : ℝ} (hx : 1 / 2 ≤ x) (hb : ⌊x + 1 / 2⌋ ≤ 2 ^ 64 - 1) :
    FloatOps.toUsize (FloatOps.round x) = ⌊x + 1 / 2⌋.toNat := by
  show min ⌊(if 0 ≤ x then ((⌊x + 1 / 2⌋ : ℤ) : ℝ) else -((⌊-x + 1 / 2⌋ : ℤ) : ℝ))⌋.toNat (2 ^ 64 - 1) = _
  rw [if_pos (by linarith), Int.floor_intCast]
  refine min_eq_left ?_
  omega

/-- **C17**, exact arithmetic: a star or polygon with `x ≥ 1/2` points, that is `n` points where `n`
is `x` rounded half up, is the closed path through `2n` resp. `n` corners; corner `i` is at angle
`rotation - 90° + i · 180°/n` (polygon: `i · 360°/n`) from the centre, at the outer radius if `i` is
even or the shape is a polygon, and at the inner radius otherwise. -/
theorem C17_star {s : AnimStar ℝ} {frame : ℝ} {n : Nat} (hx : 1 / 2 ≤ s.points.evaluate frame)
    (hn : (n : ℤ) = ⌊s.points.evaluate frame + 1 / 2⌋) (hmax : n ≤ 2 ^ 56) :
    ∃ els vs, s.evaluate frame = .ok els ∧ ClosedThrough els vs ∧
      vs.length = (if s.isPolygon then n else 2 * n) ∧
      ∀ (i : Nat) (p : P2 ℝ), vs[i]? = some p →
        let θ := s.rotation.evaluate frame * (Real.pi / 180) - Real.pi / 2
          + i * (if s.isPolygon then 2 * Real.pi / n else Real.pi / n)
        let radius := if s.isPolygon ∨ i % 2 = 0 then s.outerRadius.evaluate frame
          else s.innerRadius.evaluate frame
        let c := s.position.evaluate frame
        p = ⟨c.x + radius * Real.cos θ, c.y + radius * Real.sin θ⟩ ∧ dist2 c p = |radius| := by
  have h1 : 1 ≤ n := by
    have : (1 : ℤ) ≤ ⌊s.points.evaluate frame + 1 / 2⌋ := Int.le_floor.mpr (by push_cast; linarith)
    omega
  have hr : FloatOps.toUsize (FloatOps.round (s.points.evaluate frame)) = n := by
    rw [round_real hx (by omega), ← hn]; rfl
  have hev : ∃ els, s.evaluate frame = .ok els := by
    rw [star_evaluate]
    dsimp only
    rw [hr, if_neg (by omega), if_neg]
    · cases s.vertices frame with
      | nil => exact ⟨_, rfl⟩
      | cons => exact ⟨_, rfl⟩
    · have hle : (if !s.isPolygon then n * 2 else n) ≤ n * 2 := by split <;> omega
      rw [not_or, usizeMax, isizeMax]
      constructor <;> omega
  obtain ⟨els, hels⟩ := hev
  have hvl : (s.vertices frame).length = (if s.isPolygon then n else 2 * n) := by
    unfold AnimStar.vertices
    rw [starVertices_length, hr]
    cases s.isPolygon
    · show n * 2 = 2 * n; omega
    · rfl
  refine ⟨els, (s.vertices frame).map (·.pt), hels, ?_, by rw [List.length_map, hvl], ?_⟩
  · exact star_closed hels (by rw [hr]; omega)
  · intro i p hp
    have hi : i < (if !s.isPolygon then n * 2 else n) := by
      have := (List.getElem?_eq_some_iff.mp hp).1
      rw [List.length_map, hvl] at this
      cases hp : s.isPolygon <;> rw [hp] at this <;> simp at this ⊢ <;> omega
    dsimp only
    have hdist : ∀ (c : P2 ℝ) (r θ : ℝ),
        dist2 c ⟨c.x + r * Real.cos θ, c.y + r * Real.sin θ⟩ = |r| := by
      intro c r θ
      unfold dist2
      dsimp only
      rw [show (c.x + r * Real.cos θ - c.x) ^ 2 + (c.y + r * Real.sin θ - c.y) ^ 2
        = r ^ 2 * (Real.sin θ ^ 2 + Real.cos θ ^ 2) by ring, Real.sin_sq_add_cos_sq, mul_one,
        Real.sqrt_sq_eq_abs]
    suffices hpp : p = ⟨(s.position.evaluate frame).x
          + (if s.isPolygon ∨ i % 2 = 0 then s.outerRadius.evaluate frame
              else s.innerRadius.evaluate frame)
            * Real.cos (s.rotation.evaluate frame * (Real.pi / 180) - Real.pi / 2
              + i * (if s.isPolygon then 2 * Real.pi / n else Real.pi / n)),
        (s.position.evaluate frame).y
          + (if s.isPolygon ∨ i % 2 = 0 then s.outerRadius.evaluate frame
              else s.innerRadius.evaluate frame)
            * Real.sin (s.rotation.evaluate frame * (Real.pi / 180) - Real.pi / 2
              + i * (if s.isPolygon then 2 * Real.pi / n else Real.pi / n))⟩ by
      refine ⟨hpp, ?_⟩
      rw [hpp]
      exact hdist _ _ _
    unfold AnimStar.vertices at hp
    dsimp only at hp
    rw [hr] at hp
    rw [starVertices_get _ _ _ _ _ _ _ _ i hi] at hp
    rw [← Option.some.inj hp]
    have hstep : 2 * Real.pi / n / 2 = Real.pi / n := by ring
    cases hp : s.isPolygon with
    | true =>
      simp [toRadians]
    | false =>
      simp [toRadians, hstep]
      by_cases h2 : i % 2 = 0
      · simp [h2]
      · simp [h2]

/-- A five-pointed star: ten corners. -/
example : ∃ els vs, (⟨false, 1, .fixed ⟨0, 0⟩, .fixed 2, .fixed 0, .fixed 5, .fixed 0, .fixed 30,
      .fixed 5⟩ : AnimStar ℝ).evaluate 0 = .ok els ∧ ClosedThrough els vs ∧ vs.length = 10 := by
  have hx : (5 : ℝ) + 1 / 2 = 11 / 2 := by norm_num
  obtain ⟨els, vs, h1, h2, h3, -⟩ := C17_star (s := ⟨false, 1, .fixed ⟨0, 0⟩, .fixed 2, .fixed 0,
    .fixed 5, .fixed 0, .fixed 30, .fixed 5⟩) (frame := 0) (n := 5)
    (by show (1 : ℝ) / 2 ≤ 5; norm_num)
    (by
      show ((5 : ℕ) : ℤ) = ⌊(5 : ℝ) + 1 / 2⌋
      rw [hx, eq_comm, Int.floor_eq_iff]
      norm_num) (by norm_num)
  exact ⟨els, vs, h1, h2, h3⟩

end

/-! ## C18 -/

section
variable [Kurbo ℝ]

/-- **C18**: at every frame a rectangle spans its position plus and minus half of the absolute
value of its size, both evaluated at that frame (exact arithmetic). -/
theorem C18_rect (hk : SpanningFigures) (r : AnimRect ℝ) (frame : ℝ) :
    let p := r.position.evaluate frame
    let s := r.size.evaluate frame
    Spans (r.evaluate frame) (p.x - |s.x| / 2) (p.y - |s.y| / 2) (p.x + |s.x| / 2)
      (p.y + |s.y| / 2) := by
  dsimp only
  unfold AnimRect.evaluate
  dsimp only
  have h := hk.rect
    ((r.position.evaluate frame).x -. (r.size.evaluate frame).x *. lit (1 / 2))
    ((r.position.evaluate frame).y -. (r.size.evaluate frame).y *. lit (1 / 2))
    ((r.position.evaluate frame).x -. (r.size.evaluate frame).x *. lit (1 / 2)
      +. (r.size.evaluate frame).x)
    ((r.position.evaluate frame).y -. (r.size.evaluate frame).y *. lit (1 / 2)
      +. (r.size.evaluate frame).y) (r.cornerRadius.evaluate frame)
  have e1 : ∀ p s : ℝ, min (p -. s *. lit (1 / 2)) (p -. s *. lit (1 / 2) +. s) = p - |s| / 2 := by
    intro p s
    simp only [real_sub, real_mul, real_add, real_lit]
    push_cast
    rcases le_total 0 s with h | h
    · rw [abs_of_nonneg h, min_eq_left (by linarith)]; ring
    · rw [abs_of_nonpos h, min_eq_right (by linarith)]; ring
  have e2 : ∀ p s : ℝ, max (p -. s *. lit (1 / 2)) (p -. s *. lit (1 / 2) +. s) = p + |s| / 2 := by
    intro p s
    simp only [real_sub, real_mul, real_add, real_lit]
    push_cast
    rcases le_total 0 s with h | h
    · rw [abs_of_nonneg h, max_eq_right (by linarith)]; ring
    · rw [abs_of_nonpos h, max_eq_left (by linarith)]; ring
  rwa [e1, e1, e2, e2] at h

/-- **C18**: at every frame an ellipse spans its position plus and minus half of the absolute value
of its size (exact arithmetic). -/
theorem C18_ellipse (hk : SpanningFigures) (e : AnimEllipse ℝ) (frame : ℝ) :
    let p := e.position.evaluate frame
    let s := e.size.evaluate frame
    Spans (e.evaluate frame) (p.x - |s.x| / 2) (p.y - |s.y| / 2) (p.x + |s.x| / 2)
      (p.y + |s.y| / 2) := by
  dsimp only
  unfold AnimEllipse.evaluate
  dsimp only
  have h := hk.ellipse (e.position.evaluate frame)
    ⟨(e.size.evaluate frame).x *. lit (1 / 2), (e.size.evaluate frame).y *. lit (1 / 2)⟩
  have e1 : ∀ s : ℝ, |s *. lit (1 / 2)| = |s| / 2 := by
    intro s
    simp only [real_mul, real_lit]
    push_cast
    rw [abs_mul, abs_of_pos (show (0 : ℝ) < 1 / 2 by norm_num)]
    ring
  simp only [e1] at h
  exact h

end

/-- **C18**, documents: a rectangle of a document with position `[x, y, ..]` and size `[w, h, ..]`
(not animated) spans `[x ± w/2] × [y ± h/2]` at every frame, and so does an ellipse. -/
theorem C18_document [Kurbo ℝ] (hk : SpanningFigures) {s : Schema.AnyShape ℝ} {g : Geometry ℝ}
    (hg : Import.convGeometry s = .ok (some g)) {x y w h : ℝ} {xs ws : List ℝ}
    (hs : (∃ r, s = .rectangle r ∧ r.position.value = .static (x :: y :: xs) ∧
        r.size.animatedProperty.value = .static (w :: h :: ws)) ∨
      (∃ e, s = .ellipse e ∧ e.position.value = .static (x :: y :: xs) ∧
        e.size.animatedProperty.value = .static (w :: h :: ws))) (frame : ℝ) :
    ∃ els, g.evaluate frame = .ok els ∧
      Spans els (x - |w| / 2) (y - |h| / 2) (x + |w| / 2) (y + |h| / 2) := by
  rcases hs with ⟨r, rfl, hp, hz⟩ | ⟨e, rfl, hp, hz⟩
  · rw [Import.convGeometry] at hg
    cases hr : Import.convScalar r.roundedCornerRadius with
    | error e => rw [hr] at hg; cases hg
    | ok v =>
      rw [hr] at hg
      cases hg
      refine ⟨_, rfl, ?_⟩
      have := C18_rect hk ⟨false, Import.convPosPoint r.position, Import.convMultiP2 r.size, v⟩ frame
      simpa only [Import.convPosPoint, hp, Import.convMultiP2, Import.convMulti, hz, Import.toP2,
        Value.evaluate] using this
  · rw [Import.convGeometry] at hg
    cases hg
    refine ⟨_, rfl, ?_⟩
    have := C18_ellipse hk ⟨false, Import.convPosPoint e.position, Import.convMultiP2 e.size⟩ frame
    simpa only [Import.convPosPoint, hp, Import.convMultiP2, Import.convMulti, hz, Import.toP2,
      Value.evaluate] using this

/-- **C18**, what is drawn: a rectangle or ellipse of a document is, at every frame, kurbo's rounded
rectangle with the corners position ± size/2 and the declared corner radius, or kurbo's ellipse with
the centre position and the radii size/2, with the values the properties have at that frame.  Without
any assumption about kurbo. -/
theorem C18_figures [Kurbo ℝ] {s : Schema.AnyShape ℝ} {g : Geometry ℝ}
    (hg : Import.convGeometry s = .ok (some g)) (frame : ℝ) :
    (∀ r, s = .rectangle r → ∃ v, Import.convScalar r.roundedCornerRadius = .ok v ∧
      let p := (Import.convPosPoint r.position).evaluate frame
      let z := (Import.convMultiP2 r.size).evaluate frame
      g.evaluate frame = .ok (Kurbo.roundedRectPath (p.x - z.x / 2) (p.y - z.y / 2)
        (p.x + z.x / 2) (p.y + z.y / 2) (v.evaluate frame))) ∧
    (∀ e, s = .ellipse e →
      let p := (Import.convPosPoint e.position).evaluate frame
      let z := (Import.convMultiP2 e.size).evaluate frame
      g.evaluate frame = .ok (Kurbo.ellipsePath p ⟨z.x / 2, z.y / 2⟩)) := by
  constructor
  · rintro r rfl
    rw [Import.convGeometry] at hg
    cases hv : Import.convScalar r.roundedCornerRadius with
    | error e => rw [hv] at hg; cases hg
    | ok v =>
    rw [hv] at hg
    cases hg
    refine ⟨v, rfl, ?_⟩
    show Except.ok _ = Except.ok _
    unfold AnimRect.evaluate
    simp only [real_sub, real_mul, real_add, real_lit]
    congr 2 <;> push_cast <;> ring
  · rintro e rfl
    cases hg
    show Except.ok _ = Except.ok _
    unfold AnimEllipse.evaluate
    simp only [real_mul, real_lit]
    congr 3 <;> push_cast <;> ring

/-- The hypothesis is met by rectangles and ellipses. -/
example [Kurbo ℝ] (b : Schema.ShapeBase ℝ) (p : Schema.Position ℝ) (z : Schema.MultiDimensional ℝ) :
    (∃ g, Import.convGeometry (.rectangle ⟨b, p, z, ⟨none, none, none, none, .static 3⟩⟩)
      = .ok (some g)) ∧ ∃ g, Import.convGeometry (.ellipse ⟨b, p, z⟩) = .ok (some g) :=
  ⟨⟨_, rfl⟩, ⟨_, rfl⟩⟩

/-- A kurbo that meets the contract (sharp rectangles and their inscribed diamonds). -/
@[instance_reducible] noncomputable def boxKurbo : Kurbo ℝ where
  solveCubic _ _ _ _ := []
  ellipsePath c r := [.moveTo ⟨c.x + |r.x|, c.y⟩, .lineTo ⟨c.x, c.y + |r.y|⟩,
    .lineTo ⟨c.x - |r.x|, c.y⟩, .lineTo ⟨c.x, c.y - |r.y|⟩, .closePath]
  roundedRectPath x0 y0 x1 y1 _ := [.moveTo ⟨x0, y0⟩, .lineTo ⟨x1, y0⟩, .lineTo ⟨x1, y1⟩,
    .lineTo ⟨x0, y1⟩, .closePath]
  arclen _ := 0
  invArclen _ _ := 0
  subsegment s _ _ := s

/-- The contract can be met. -/
example : @SpanningFigures boxKurbo := by
  let _ := boxKurbo
  constructor
  · intro x0 y0 x1 y1 r
    have hl : (Kurbo.roundedRectPath x0 y0 x1 y1 r).flatMap PathEl.points
        = [⟨x0, y0⟩, ⟨x1, y0⟩, ⟨x1, y1⟩, ⟨x0, y1⟩] := rfl
    constructor <;> rw [hl]
    · intro p hp
      simp only [List.mem_cons, List.not_mem_nil, or_false] at hp
      rcases hp with rfl | rfl | rfl | rfl <;> simp
    · rcases min_choice x0 x1 with h | h <;> rw [h]
      · exact ⟨⟨x0, y0⟩, by simp, rfl⟩
      · exact ⟨⟨x1, y0⟩, by simp, rfl⟩
    · rcases max_choice x0 x1 with h | h <;> rw [h]
      · exact ⟨⟨x0, y0⟩, by simp, rfl⟩
      · exact ⟨⟨x1, y0⟩, by simp, rfl⟩
    · rcases min_choice y0 y1 with h | h <;> rw [h]
      · exact ⟨⟨x0, y0⟩, by simp, rfl⟩
      · exact ⟨⟨x1, y1⟩, by simp, rfl⟩
    · rcases max_choice y0 y1 with h | h <;> rw [h]
      · exact ⟨⟨x0, y0⟩, by simp, rfl⟩
      · exact ⟨⟨x1, y1⟩, by simp, rfl⟩
  · intro c r
    have hx := abs_nonneg r.x
    have hy := abs_nonneg r.y
    have hl : (Kurbo.ellipsePath c r).flatMap PathEl.points = [⟨c.x + |r.x|, c.y⟩,
        ⟨c.x, c.y + |r.y|⟩, ⟨c.x - |r.x|, c.y⟩, ⟨c.x, c.y - |r.y|⟩] := rfl
    constructor <;> rw [hl]
    · intro p hp
      simp only [List.mem_cons, List.not_mem_nil, or_false] at hp
      rcases hp with rfl | rfl | rfl | rfl <;> dsimp only <;> refine ⟨?_, ?_, ?_, ?_⟩ <;> linarith
    · exact ⟨⟨c.x - |r.x|, c.y⟩, by simp, rfl⟩
    · exact ⟨⟨c.x + |r.x|, c.y⟩, by simp, rfl⟩
    · exact ⟨⟨c.x, c.y - |r.y|⟩, by simp, rfl⟩
    · exact ⟨⟨c.x, c.y + |r.y|⟩, by simp, rfl⟩

end Velato
