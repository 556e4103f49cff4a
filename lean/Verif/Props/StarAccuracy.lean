import Verif.Proofs.StarAccuracy
import Verif.Props.Folding
import Verif.Props.Coordinates

/-!
# C133: stars, polygons, rectangles and ellipses are accurate in double precision

C75 and C18 state what is drawn in exact arithmetic.  These are the counterparts for the numbers that are computed.
-/

set_option exponentiation.threshold 2000

namespace Velato
open FloatOps (lit)
open F64
open Import

section
variable [Libm F64] [Kurbo F64]

/-- **C133.** A star or polygon of a document is drawn, at every frame, as the outline of the figure that its
properties have at this frame: with all its corners and all ends of its handles within 4 millionths plus a billionth
per corner.  The angle is accumulated from corner to corner. -/
theorem C133_star (hl : AccurateLibm) (hA : AccurateAngles) {s : Schema.PolyStarShape F64}
    (hs : Schema.AnyShape.Modest (.polyStar s)) {frame : F64} {els : List (PathEl F64)}
    (h : OutlineAt frame (.polyStar s) els) :
    ∃ fig, Declared (1 / 10 ^ 12) s frame fig ∧ 3 ≤ fig.points ∧
      fig.DrawnBy (4 / 10 ^ 6 + fig.corners / 10 ^ 9) els := by
  obtain ⟨g, hg, he⟩ := h
  obtain ⟨m1, m2, m3, m4, m5, m6, m7⟩ := hs
  unfold convGeometry at hg
  obtain ⟨g', hg', hgg⟩ := map_ok hg
  cases hgg
  unfold convPolystar at hg'
  obtain ⟨r1, h1, hg'⟩ := bind_ok hg'
  obtain ⟨r2, h2, hg'⟩ := bind_ok hg'
  obtain ⟨r3, h3, hg'⟩ := bind_ok hg'
  obtain ⟨r4, h4, hg'⟩ := bind_ok hg'
  have b1 : (r1.evaluate frame).Between (-8192) 8192 :=
    scalar_within h1 m2 (M := 8000) (by norm_num) (by norm_num) (by unfold overshoot; norm_num) frame
  have b2 : (r2.evaluate frame).Between (-1501) 1501 :=
    scalar_within h2 m3 (M := 1500) (by norm_num) (by norm_num) (by unfold overshoot; norm_num) frame
  have b3 : (r3.evaluate frame).Between (-4001) 4001 :=
    scalar_within h3 m4 (M := 4000) (by norm_num) (by norm_num) (by unfold overshoot; norm_num) frame
  have b4 : (r4.evaluate frame).Between (5 / 2) 100001 := by
    have := C114_scalars h4 m5 (M := 100000) (by norm_num) (by norm_num) (by norm_num) frame RDefault.dflt
    rw [← Value.evaluate_eq] at this
    have e : overshoot 3 100000 100000 ≤ 1 / 2 := by unfold overshoot; norm_num
    exact ⟨this.1, by linarith [this.2.1], by linarith [this.2.2]⟩
  have hc : ((convPosPoint s.position).evaluate frame).AtMost 8192 := by
    have := position_within m1 frame
    norm_num at this
    exact this
  obtain ⟨n3, nu, nx⟩ := points_round b4
  obtain ⟨q1, q2⟩ := roundness_near b2
  have go : ∀ (a : AnimStar F64), a.position = convPosPoint s.position → a.outerRadius = r1 →
      a.outerRoundness = r2 → a.rotation = r3 → a.points = r4 → (a.isPolygon = true ↔ s.starType = .polygon) →
      (s.starType = .star → convScalarOr s.innerRadius (lit 0) = .ok a.innerRadius ∧
        convScalarOr s.innerRoundness (lit 0) = .ok a.innerRoundness) →
      a.intoModel = .ok g → ∃ fig, Declared (1 / 10 ^ 12) s frame fig ∧ 3 ≤ fig.points ∧
        fig.DrawnBy (4 / 10 ^ 6 + fig.corners / 10 ^ 9) els := by
    intro a e1 e2 e3 e4 e5 e6 hi hm
    rw [(C11_star a frame).1 g hm] at he
    have hin : s.starType = .star → (a.innerRadius.evaluate frame).Between (-8192) 8192 ∧
        (a.innerRoundness.evaluate frame).Between (-1501) 1501 := by
      intro hst
      obtain ⟨i1, i2⟩ := hi hst
      exact ⟨scalarOr_within i1 m6 (M := 8000) (by norm_num) (by norm_num) (by unfold overshoot; norm_num)
          (by norm_num) frame,
        scalarOr_within i2 m7 (M := 1500) (by norm_num) (by norm_num) (by unfold overshoot; norm_num)
          (by norm_num) frame⟩
    refine ⟨a.shown frame (FloatOps.toUsize (FloatOps.round (r4.evaluate frame))), ?_, n3, ?_⟩
    · refine ⟨e6, ⟨_, ⟨r4, h4, rfl⟩, nx⟩, by rw [← e1]; rfl, ⟨_, ⟨r3, h3, rfl⟩, by rw [← e4]; rfl⟩,
        ⟨_, ⟨r1, h1, rfl⟩, by rw [← e2]; rfl⟩, ⟨_, ⟨r2, h2, rfl⟩, by rw [← e3] at q2 ⊢; exact q2⟩, ?_, ?_⟩
      · exact fun hst => scalarOr_at (hi hst).1 frame
      · exact fun hst => ⟨_, scalarOr_at (hi hst).2 frame, (roundness_near (hin hst).2).2⟩
    · refine star_drawn hl hA (by rw [e5]) n3 nu (by rw [e1]; exact hc) (by rw [e4]; exact b3)
        (by rw [e2]; exact b1) (by rw [e3]; exact q1) ?_ he
      intro hp
      have hst : s.starType = .star := by
        cases h : s.starType with
        | star => rfl
        | polygon => rw [e6.mpr h] at hp; cases hp
      exact ⟨(hin hst).1, (roundness_near (hin hst).2).1⟩
  cases hp : s.starType with
  | polygon =>
    simp only [hp, beq_self_eq_true, if_true] at hg'
    exact go _ rfl rfl rfl rfl rfl ⟨fun _ => hp, fun _ => rfl⟩ (fun h => by rw [hp] at h; cases h) hg'
  | star =>
    rw [hp] at hg'
    obtain ⟨r5, h5, hg'⟩ := bind_ok hg'
    obtain ⟨r6, h6, hg'⟩ := bind_ok hg'
    exact go _ rfl rfl rfl rfl rfl ⟨fun h => (by cases h), fun h => by rw [hp] at h; cases h⟩
      (fun _ => ⟨h5, h6⟩) hg'

/-- **C133.** A rectangle is drawn with its sides within 10⁻¹¹ of where its position and size put them, and with
exactly its corner radius. -/
theorem C133_rectangle {s : Schema.RectangleShape F64} (hs : Schema.AnyShape.Modest (.rectangle s)) {frame : F64}
    {els : List (PathEl F64)} (h : OutlineAt frame (.rectangle s) els) :
    let p := (convPosPoint s.position).evaluate frame
    let z := (convMultiP2 s.size).evaluate frame
    ∃ x0 y0 x1 y1 r, els = Kurbo.roundedRectPath x0 y0 x1 y1 r ∧ ScalarAt s.roundedCornerRadius frame r ∧
      P2.Close (1 / 10 ^ 11) ⟨x0, y0⟩ ⟨p.x.toR - z.x.toR / 2, p.y.toR - z.y.toR / 2⟩ ∧
      P2.Close (1 / 10 ^ 11) ⟨x1, y1⟩ ⟨p.x.toR + z.x.toR / 2, p.y.toR + z.y.toR / 2⟩ := by
  obtain ⟨g, hg, he⟩ := h
  obtain ⟨r, hr, hg⟩ := bind_ok hg
  cases Except.ok.inj hg
  cases Except.ok.inj he
  obtain ⟨h1, h2, -⟩ := hs
  have hc : ((convPosPoint s.position).evaluate frame).AtMost 8192 := by
    have := position_within h1 frame
    norm_num at this
    exact this
  have hz := vector_atMost h2 frame
  have x := near_sides hc.1 hz.1
  have y := near_sides hc.2 hz.2
  exact ⟨_, _, _, _, _, rfl, ⟨r, hr, rfl⟩, ⟨x.1, y.1⟩, x.2, y.2⟩

/-- **C133.** An ellipse is drawn around exactly its position, with radii within 10⁻¹² of half its size. -/
theorem C133_ellipse {s : Schema.EllipseShape F64} (hs : Schema.AnyShape.Modest (.ellipse s)) {frame : F64}
    {els : List (PathEl F64)} (h : OutlineAt frame (.ellipse s) els) :
    let z := (convMultiP2 s.size).evaluate frame
    ∃ r, els = Kurbo.ellipsePath ((convPosPoint s.position).evaluate frame) r ∧
      r.Close (1 / 10 ^ 12) ⟨z.x.toR / 2, z.y.toR / 2⟩ := by
  obtain ⟨g, hg, he⟩ := h
  cases Except.ok.inj hg
  cases Except.ok.inj he
  have hz := vector_atMost hs.2 frame
  exact ⟨_, rfl, (near_halved hz.1).mono (by norm_num), (near_halved hz.2).mono (by norm_num)⟩

end

/-! ## A star -/

/-- A star with five points, round outer corners, and an animated outer radius. -/
def exStar : Schema.PolyStarShape F64 :=
  ⟨⟨exElement, none⟩, ⟨none, none, none, none, .static [lit 10, lit 20]⟩,
    ⟨none, none, none, none, .animatedValue [⟨⟨lit 0, none, none, none⟩, [lit 30], none⟩,
      ⟨⟨lit 9, none, none, none⟩, [lit 60], none⟩]⟩,
    exStatic (lit 50), exStatic (lit 15), exStatic (lit 5), .star, some (exStatic (lit 7)), none⟩

theorem exStar_modest : Schema.AnyShape.Modest (.polyStar exStar) := by
  have sm : ∀ {q : ℚ}, 0 ≤ q ∧ q ≤ (100 : Nat) → ∀ {B : ℝ}, 1000 ≤ B → (lit q : F64).Between (-B) B :=
    fun h _ hB => lit_modest h (by norm_num) hB
  have r5 : (lit 5 : F64).toR = 5 := by
    have := lit_nat (n := 5) (by norm_num)
    unfold toR; rw [show (5 : ℚ) = ((5 : Nat) : ℚ) from rfl, this.2]; norm_num
  refine ⟨?_, ?_, sm (by norm_num) (by norm_num), sm (by norm_num) (by norm_num),
    ⟨by decide +kernel, by rw [r5]; norm_num, by rw [r5]; norm_num⟩, ?_, ?_⟩
  · exact ⟨_, _, _, rfl, sm (by norm_num) (by norm_num), sm (by norm_num) (by norm_num)⟩
  · refine ⟨by simp, ?_⟩
    intro k hk
    simp only [List.mem_cons, List.not_mem_nil, or_false] at hk
    rcases hk with rfl | rfl
    · refine ⟨fun h hh => ?_, fun x hx => ?_⟩
      · rcases hh with hh | hh <;> cases hh
      · cases hx
        exact sm (by norm_num) (by norm_num)
    · refine ⟨fun h hh => ?_, fun x hx => ?_⟩
      · rcases hh with hh | hh <;> cases hh
      · cases hx
        exact sm (by norm_num) (by norm_num)
  · intro r hr; cases hr; exact sm (by norm_num) (by norm_num)
  · intro r hr; cases hr

/-- At every frame its ten corners are drawn within a hundred-thousandth. -/
example [Libm F64] [Kurbo F64] (hl : AccurateLibm) (hA : AccurateAngles) (frame : F64) :
    ∃ (els : List (PathEl F64)) (fig : StarFigure), OutlineAt frame (.polyStar exStar) els ∧ fig.corners = 10 ∧
      fig.center = ⟨10, 20⟩ ∧ fig.rotation = 15 ∧ fig.DrawnBy (1 / 10 ^ 5) els := by
  have nat : ∀ {n : Nat}, n < 2 ^ 53 → (lit (n : ℚ) : F64).toR = n := by
    intro n hn
    unfold toR
    rw [(lit_nat hn).2]
    norm_num
  obtain ⟨els, h⟩ : ∃ els, OutlineAt frame (.polyStar exStar) els := by
    have h5 : ∀ v : Value F64 F64, v = .fixed (lit 5) → FloatOps.toUsize (FloatOps.round (v.evaluate frame)) = 5 := by
      intro v hv
      subst hv
      show FloatOps.toUsize (FloatOps.round (lit 5 : F64)) = 5
      decide +kernel
    have key : ∀ a : AnimStar F64, a.points = .fixed (lit 5) → ∃ els, a.evaluate frame = .ok els := by
      intro a ha
      rw [star_evaluate]
      dsimp only
      rw [h5 _ ha, if_neg (by decide), if_neg (by unfold usizeMax isizeMax; cases a.isPolygon <;> decide)]
      cases a.vertices frame with
      | nil => exact ⟨_, rfl⟩
      | cons _ _ => exact ⟨_, rfl⟩
    obtain ⟨els, h⟩ := key ⟨false, lit 1, .fixed ⟨lit 10, lit 20⟩, _, _, _, _, _, .fixed (lit 5)⟩ rfl
    exact ⟨els, _, rfl, h⟩
  obtain ⟨fig, hd, -, hb⟩ := C133_star hl hA exStar_modest h
  have hp : fig.polygon = false := by
    cases hp : fig.polygon with
    | false => rfl
    | true => cases hd.polygon.mp hp
  have hn : fig.points = 5 := by
    obtain ⟨x, ⟨v, hv, rfl⟩, hx⟩ := hd.points
    cases hv
    have e : ((Value.fixed (lit 5 : F64)).evaluate frame).toR = 5 := nat (n := 5) (by norm_num)
    have hx' : |(fig.points : ℝ) - 5| ≤ 1 / 2 := by rw [← e]; exact hx
    have h1 := abs_le.mp hx'
    have h2 : (fig.points : ℝ) < 6 := by linarith
    have h3 : (4 : ℝ) < fig.points := by linarith
    have h2' : fig.points < 6 := by exact_mod_cast h2
    have h3' : 4 < fig.points := by exact_mod_cast h3
    omega
  have hc : fig.corners = 10 := by unfold StarFigure.corners; rw [hp, hn]; rfl
  refine ⟨els, fig, h, hc, ?_, ?_, hb.mono (by rw [hc]; norm_num)⟩
  · rw [hd.center]
    show P2.mk (lit 10 : F64).toR (lit 20 : F64).toR = _
    rw [show (lit 10 : F64).toR = 10 from nat (n := 10) (by norm_num),
      show (lit 20 : F64).toR = 20 from nat (n := 20) (by norm_num)]
  · obtain ⟨x, ⟨v, hv, rfl⟩, hx⟩ := hd.rotation
    cases hv
    rw [hx]
    exact nat (n := 15) (by norm_num)

/-- A rectangle around (10, 20) of the size 7 × 100. -/
def exBox : Schema.RectangleShape F64 :=
  ⟨⟨exElement, none⟩, ⟨none, none, none, none, .static [lit 10, lit 20]⟩, ⟨exStatic [lit 7, lit 100], none⟩,
    exStatic (lit 3)⟩

/-- Its corners. -/
example [Libm F64] [Kurbo F64] (frame : F64) :
    ∃ els x0 y0 x1 y1 r, OutlineAt frame (.rectangle exBox) els ∧
      els = Kurbo.roundedRectPath x0 y0 x1 y1 r ∧ P2.Close (1 / 10 ^ 11) ⟨x0, y0⟩ ⟨10 - 7 / 2, -30⟩ ∧
      P2.Close (1 / 10 ^ 11) ⟨x1, y1⟩ ⟨10 + 7 / 2, 70⟩ := by
  have sm : ∀ {q : ℚ}, 0 ≤ q ∧ q ≤ (100 : Nat) → ∀ {B : ℝ}, 1000 ≤ B → (lit q : F64).Between (-B) B :=
    fun h _ hB => lit_modest h (by norm_num) hB
  have nat : ∀ {n : Nat}, n < 2 ^ 53 → (lit (n : ℚ) : F64).toR = n := by
    intro n hn
    unfold toR
    rw [(lit_nat hn).2]
    norm_num
  have ho : OutlineAt frame (.rectangle exBox) _ := ⟨_, rfl, rfl⟩
  obtain ⟨x0, y0, x1, y1, r, h1, -, h2, h3⟩ := C133_rectangle (s := exBox)
    ⟨⟨_, _, _, rfl, sm (by norm_num) (by norm_num), sm (by norm_num) (by norm_num)⟩,
      ⟨_, _, _, rfl, sm (by norm_num) (by norm_num), sm (by norm_num) (by norm_num)⟩, sm (by norm_num) (by norm_num)⟩ ho
  refine ⟨_, x0, y0, x1, y1, r, ho, h1, ?_, ?_⟩
  · have e : (⟨10 - 7 / 2, -30⟩ : P2 ℝ) = ⟨(lit 10 : F64).toR - (lit 7 : F64).toR / 2,
        (lit 20 : F64).toR - (lit 100 : F64).toR / 2⟩ := by
      rw [show (lit 10 : F64).toR = 10 from nat (n := 10) (by norm_num),
        show (lit 7 : F64).toR = 7 from nat (n := 7) (by norm_num),
        show (lit 20 : F64).toR = 20 from nat (n := 20) (by norm_num),
        show (lit 100 : F64).toR = 100 from nat (n := 100) (by norm_num)]
      norm_num
    rw [e]
    exact h2
  · have e : (⟨10 + 7 / 2, 70⟩ : P2 ℝ) = ⟨(lit 10 : F64).toR + (lit 7 : F64).toR / 2,
        (lit 20 : F64).toR + (lit 100 : F64).toR / 2⟩ := by
      rw [show (lit 10 : F64).toR = 10 from nat (n := 10) (by norm_num),
        show (lit 7 : F64).toR = 7 from nat (n := 7) (by norm_num),
        show (lit 20 : F64).toR = 20 from nat (n := 20) (by norm_num),
        show (lit 100 : F64).toR = 100 from nat (n := 100) (by norm_num)]
      norm_num
    rw [e]
    exact h3

/-- An ellipse can be drawn at every frame. -/
example [Libm F64] [Kurbo F64] (frame : F64) :
    ∃ els, OutlineAt frame (.ellipse ⟨⟨exElement, none⟩, ⟨none, none, none, none, .static [lit 10, lit 20]⟩,
      ⟨exStatic [lit 7, lit 100], none⟩⟩) els :=
  ⟨_, _, rfl, rfl⟩

end Velato
