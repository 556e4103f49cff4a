import Verif.Proofs.PathMorph

/-!
# C134 — animated paths go from shape to shape
-/

set_option exponentiation.threshold 2000

namespace Velato
open F64
open FloatOps (lit)
open Import (convShapeGeometry)

section
variable [Libm F64] [Kurbo F64]

/-- **C134.** What the code does: at every frame, except at the time of the last keyframe, an animated path with
coordinates up to 8000 is the mixture of two shapes that its keyframes declare, with an error of at most `2^-32`; on the way
from one keyframe to the next the progress is steady, *whatever the easing handles*. -/
theorem C134_steady {p : Schema.ShapeProperty F64} {ks : List (Schema.ShapeKeyframe F64)} (hv : p.value = .animated ks)
    (hp : p.Modest) (hs : ks.Pairwise fun k k' => k.base.time.toR + 1 / 2 ^ 1000 ≤ k'.base.time.toR) (hn : NoFewer ks)
    {frame : F64} (hf : frame.isFin = true) {g : Geometry F64} (hg : convShapeGeometry p = .ok (some g))
    {a b : Schema.Bezier F64} {e : ℝ} (h : MorphAt Steady ks frame a b e) :
    ∃ els closed, g.evaluate frame = .ok els ∧ (closed = true ↔ SomeClosed ks) ∧
      (a.mixed closed e b).DrawnBy (1 / 2 ^ 32) els :=
  morph_drawn hv hp hs hn hf hg h

/-- **C134 (partial).** If the easing of all keyframes is straight, or if there are no handles, the progress is the one
that the keyframes declare.  Missing: other handles (they are ignored, `C134_ignored`, `C134_counterexample`), the time of the
last keyframe (`C16_last_is_nan`) and shapes that lose corners (`C16_truncation_counterexample`). -/
theorem C134_straight_partial {p : Schema.ShapeProperty F64} {ks : List (Schema.ShapeKeyframe F64)}
    (hv : p.value = .animated ks) (hp : p.Modest)
    (hs : ks.Pairwise fun k k' => k.base.time.toR + 1 / 2 ^ 1000 ≤ k'.base.time.toR) (hn : NoFewer ks)
    (hk : ∀ k ∈ ks, k.base.Straight) {frame : F64} (hf : frame.isFin = true) {g : Geometry F64}
    (hg : convShapeGeometry p = .ok (some g)) {a b : Schema.Bezier F64} {e : ℝ} (h : MorphAt Eased ks frame a b e) :
    ∃ els closed, g.evaluate frame = .ok els ∧ (closed = true ↔ SomeClosed ks) ∧
      (a.mixed closed e b).DrawnBy (1 / 2 ^ 32) els := by
  refine morph_drawn hv hp hs hn hf hg ?_
  rcases h with h | h | ⟨j, k, k', h1, h2, h3, h4, h5, h6, h7, h8⟩
  · exact .inl h
  · exact .inr (.inl h)
  · exact .inr (.inr ⟨j, k, k', h1, h2, h3, h4, h5, h6, h7,
      fun hh => eased_straight (hk k (List.mem_of_getElem? h1)) (h8 hh)⟩)

end

/-- **C134.** A path that does not move, with coordinates up to 8000, is drawn with an error of at most `2^-32`. -/
theorem C134_static {p : Schema.ShapeProperty F64} {b : Schema.Bezier F64} (hv : p.value = .static b) (hb : b.Modest) :
    ∃ els, convShapeGeometry p = .ok (some (.fixed els)) ∧
      (b.mixed (b.closed == some true) 0 b).DrawnBy (1 / 2 ^ 32) els :=
  static_drawn hv hb

/-- **C134.** The handles of the keyframes of a path have no effect at all: without them the same is drawn at every
frame. -/
theorem C134_ignored {F : Type} [FloatOps F] [Libm F] [Kurbo F] {p : Schema.ShapeProperty F} {g : Geometry F}
    (hg : convShapeGeometry p = .ok (some g)) :
    ∃ g', convShapeGeometry p.withoutEasing = .ok (some g') ∧ ∀ frame, g'.evaluate frame = g.evaluate frame := by
  unfold Schema.ShapeProperty.withoutEasing
  cases hv : p.value with
  | static b => exact ⟨g, hg, fun _ => rfl⟩
  | animated ks =>
    unfold convShapeGeometry at hg
    rw [hv] at hg
    obtain ⟨r, hr, h⟩ := bind_ok hg
    cases r with
    | none => cases h
    | some r =>
      obtain ⟨ts, vs, c⟩ := r
      cases h
      refine ⟨.spline ⟨c, ts.map Time.plain, vs⟩, ?_, fun frame => ?_⟩
      · have := splineLoop_plain hr
        show (do
          match ← Import.splineLoop none (ks.map Schema.ShapeKeyframe.plain) with
          | none => .ok none
          | some (ts, vs, c) => .ok (some (Geometry.spline ⟨c, ts, vs⟩))) = _
        rw [show (none : Option (Schema.ShapeKeyframe F)) = (none : Option (Schema.ShapeKeyframe F)).map
          Schema.ShapeKeyframe.plain from rfl, this]
        rfl
      · show Except.ok _ = Except.ok _
        rw [spline_plain]

/-! ## The claim is false of the code -/

/-- A line from (0, 0) to (0, 8). -/
def exLineA : Schema.Bezier F64 := ⟨none, [(lit 0, lit 0), (lit 0, lit 8)], [], []⟩

/-- A line from (8, 0) to (8, 8). -/
def exLineB : Schema.Bezier F64 := ⟨none, [(lit 8, lit 0), (lit 8, lit 8)], [], []⟩

/-- The first line becomes the second in eight frames, with these handles. -/
def exSlide (i o : Option (Schema.KeyframeBezierHandle F64)) : List (Schema.ShapeKeyframe F64) :=
  [⟨⟨lit 0, none, i, o⟩, some [exLineA], none⟩, ⟨⟨lit 8, none, none, none⟩, some [exLineB], none⟩]

/-- A handle at (1, 0): with two of them, 1/8 of the way is done after 7/8 of the time. -/
def exLate : Option (Schema.KeyframeBezierHandle F64) := some ⟨.singleValue (lit 1), .singleValue (lit 0)⟩

theorem toR_lit {n : ℕ} {q : ℚ} (hn : n < 2 ^ 53) (hq : q = n) : (lit q : F64).toR = n := by
  have := abs_le.mp (near_lit hn hq).err
  linarith

theorem toR_lit7 : (lit 7 : F64).toR = 7 := by simpa using toR_lit (n := 7) (q := 7) (by norm_num) (by norm_num)
theorem toR_lit8 : (lit 8 : F64).toR = 8 := by simpa using toR_lit (n := 8) (q := 8) (by norm_num) (by norm_num)

theorem exSlide_modest (i o : Option (Schema.KeyframeBezierHandle F64)) :
    Schema.ShapeProperty.Modest ⟨none, none, none, .animated (exSlide i o)⟩ := by
  have h0 : (lit 0 : F64).Between (-8000) 8000 := near_lit0.between (by norm_num)
  have n8 := near_lit (q := 8) (n := 8) (by norm_num) (by norm_num)
  have h8 : (lit 8 : F64).Between (-8000) 8000 := ⟨n8.fin, by rw [toR_lit8]; norm_num, by rw [toR_lit8]; norm_num⟩
  have t0 : (lit 0 : F64).Between (-2 ^ 1000) (2 ^ 1000) := ⟨h0.1, by rw [lit_toR0]; norm_num, by rw [lit_toR0]; norm_num⟩
  have t8 : (lit 8 : F64).Between (-2 ^ 1000) (2 ^ 1000) := ⟨h8.1, by rw [toR_lit8]; norm_num, by rw [toR_lit8]; norm_num⟩
  intro k hk
  simp only [exSlide, List.mem_cons, List.not_mem_nil, or_false] at hk
  rcases hk with rfl | rfl
  · refine ⟨t0, fun b hb => ?_⟩
    simp only [Option.getD_some, Option.getD_none, List.append_nil, List.mem_singleton] at hb
    subst hb
    intro p hp
    simp only [exLineA, List.append_nil, List.mem_cons, List.not_mem_nil, or_false] at hp
    rcases hp with rfl | rfl
    · exact ⟨h0, h0⟩
    · exact ⟨h0, h8⟩
  · refine ⟨t8, fun b hb => ?_⟩
    simp only [Option.getD_some, Option.getD_none, List.append_nil, List.mem_singleton] at hb
    subst hb
    intro p hp
    simp only [exLineB, List.append_nil, List.mem_cons, List.not_mem_nil, or_false] at hp
    rcases hp with rfl | rfl
    · exact ⟨h8, h0⟩
    · exact ⟨h8, h8⟩

theorem exSlide_order (i o : Option (Schema.KeyframeBezierHandle F64)) :
    (exSlide i o).Pairwise fun k k' => k.base.time.toR + 1 / 2 ^ 1000 ≤ k'.base.time.toR := by
  simp only [exSlide, List.pairwise_cons, List.mem_cons, List.not_mem_nil, or_false, forall_eq, false_imp_iff,
    implies_true, List.Pairwise.nil, and_true, lit_toR0, toR_lit8]
  norm_num

theorem exSlide_start {i o : Option (Schema.KeyframeBezierHandle F64)} {j : Nat} {k : Schema.ShapeKeyframe F64}
    {a : Schema.Bezier F64} (hk : (exSlide i o)[j]? = some k) (h : StartOf (prevKeyframe (exSlide i o) j) k a) :
    a = exLineA ∨ a = exLineB := by
  have hm := List.mem_of_getElem? hk
  simp only [exSlide, List.mem_cons, List.not_mem_nil, or_false] at hm
  rcases hm with rfl | rfl
  · exact .inl (Option.some.inj h).symm
  · exact .inr (Option.some.inj h).symm

theorem exSlide_noFewer (i o : Option (Schema.KeyframeBezierHandle F64)) : NoFewer (exSlide i o) := by
  intro j k a hk ha
  have h2 : a.vertices.length = 2 := by rcases exSlide_start hk ha with rfl | rfl <;> rfl
  have hst : k.stop = none := by
    have hm := List.mem_of_getElem? hk
    simp only [exSlide, List.mem_cons, List.not_mem_nil, or_false] at hm
    rcases hm with rfl | rfl <;> rfl
  constructor
  · intro b hb
    rw [hst] at hb
    cases hb
  · intro k' b hk' hb
    rcases hb with hb | ⟨-, hb⟩
    · rw [hst] at hb
      cases hb
    · have : prevKeyframe (exSlide i o) (j + 1) = some k := hk
      rw [← this] at hb
      have : b.vertices.length = 2 := by rcases exSlide_start hk' hb with rfl | rfl <;> rfl
      omega

theorem exLate_eased {w e : ℝ} : Eased ⟨lit 0, none, exLate, exLate⟩ w e ↔
    ∃ u, 0 ≤ u ∧ u ≤ 1 ∧ 1 - (1 - u) ^ 3 = w ∧ u ^ 3 = e := by
  have hx : ∀ u, bez 1 1 u = 1 - (1 - u) ^ 3 := fun u => by unfold bez; ring
  have hy : ∀ u, bez 0 0 u = u ^ 3 := fun u => by unfold bez; ring
  have one : (lit 1 : F64).toR = 1 := by simpa using toR_lit (n := 1) (q := 1) (by norm_num) (by norm_num)
  constructor
  · rintro ⟨o, i, ho, hi, u, u0, u1, h1, h2⟩
    have key : ∀ {o : Option (EasingHandle F64)}, HandleOf exLate o → o = some ⟨lit 1, lit 0⟩ := by
      intro o ho
      cases o with
      | none => exact ho.elim
      | some o =>
        obtain ⟨x, y⟩ := o
        obtain ⟨h1 | h1, h2 | h2⟩ := ho
        · have e1 : lit 1 = x := Schema.KeyframeComponent.singleValue.inj h1
          have e2 : lit 0 = y := Schema.KeyframeComponent.singleValue.inj h2
          rw [e1, e2]
        · exact absurd h2 nofun
        · exact absurd h1 nofun
        · exact absurd h1 nofun
    cases key ho
    cases key hi
    simp only [Option.getD_some, one, lit_toR0, hx, hy] at h1 h2
    exact ⟨u, u0, u1, h1, h2⟩
  · rintro ⟨u, u0, u1, h1, h2⟩
    refine ⟨some ⟨lit 1, lit 0⟩, some ⟨lit 1, lit 0⟩, ⟨.inl rfl, .inl rfl⟩, ⟨.inl rfl, .inl rfl⟩, u, u0, u1, ?_, ?_⟩
    · simp only [Option.getD_some, one, hx, h1]
    · simp only [Option.getD_some, lit_toR0, hy, h2]

theorem exLate_at : Eased ⟨lit 0, none, exLate, exLate⟩ (7 / 8) (1 / 8) ∧
    ∀ e, Eased ⟨lit 0, none, exLate, exLate⟩ (7 / 8) e → e = 1 / 8 := by
  constructor
  · exact exLate_eased.mpr ⟨1 / 2, by norm_num, by norm_num, by norm_num, by norm_num⟩
  · intro e h
    obtain ⟨u, u0, u1, h1, rfl⟩ := exLate_eased.mp h
    have h3 : (1 - u) ^ 3 = (1 / 2 : ℝ) ^ 3 := by linarith
    have : 1 - u = 1 / 2 := (pow_left_inj₀ (by linarith) (by norm_num) (by norm_num)).mp h3
    have : u = 1 / 2 := by linarith
    rw [this]
    norm_num

/-- **C134 is false of the code:** the keyframes say that the line is at `x = 1` at frame 7, and it is drawn at `x = 7`. -/
theorem C134_counterexample [Libm F64] [Kurbo F64] :
    MorphAt Eased (exSlide exLate exLate) (lit 7) exLineA exLineB (1 / 8) ∧
    (∀ a b e, MorphAt Eased (exSlide exLate exLate) (lit 7) a b e → a = exLineA ∧ b = exLineB ∧ e = 1 / 8) ∧
    ∃ g, convShapeGeometry ⟨none, none, none, .animated (exSlide exLate exLate)⟩ = .ok (some g) ∧
      g.evaluate (lit 7) = .ok [.moveTo ⟨lit 7, lit 0⟩, .lineTo ⟨lit 7, lit 8⟩] ∧
      ∀ closed, ¬ (exLineA.mixed closed (1 / 8) exLineB).DrawnBy (1 / 2 ^ 32)
        [.moveTo ⟨lit 7, lit 0⟩, .lineTo ⟨lit 7, lit 8⟩] := by
  have hw : ((lit 7 : F64).toR - (lit 0 : F64).toR) / ((lit 8 : F64).toR - (lit 0 : F64).toR) = 7 / 8 := by
    rw [toR_lit7, toR_lit8, lit_toR0]; norm_num
  refine ⟨.inr (.inr ⟨0, _, _, rfl, rfl, by decide +kernel, by decide +kernel, rfl, .inr ⟨rfl, rfl⟩, nofun, fun _ => ?_⟩),
    ?_, ?_⟩
  · show Eased _ (((lit 7 : F64).toR - (lit 0 : F64).toR) / ((lit 8 : F64).toR - (lit 0 : F64).toR)) _
    rw [hw]
    exact exLate_at.1
  · intro a b e h
    rcases h with ⟨k, hk, hlt, -⟩ | ⟨j, k, hk, hj, hlt, -⟩ | ⟨j, k, k', hk, hk', hle, hlt, ha, hb, -, h2⟩
    · cases hk
      exact absurd hlt (by decide +kernel)
    · have : j = 1 := by simpa [exSlide] using hj
      subst this
      cases hk
      exact absurd hlt (by decide +kernel)
    · have hj : j = 0 := by
        have := (List.getElem?_eq_some_iff.mp hk').1
        simp only [exSlide, List.length_cons, List.length_nil] at this
        omega
      subst hj
      cases hk
      cases hk'
      have h2 := h2 nofun
      change Eased _ (((lit 7 : F64).toR - (lit 0 : F64).toR) / ((lit 8 : F64).toR - (lit 0 : F64).toR)) _ at h2
      rw [hw] at h2
      refine ⟨(Option.some.inj ha).symm, ?_, exLate_at.2 e h2⟩
      rcases hb with hb | ⟨-, hb⟩
      · cases hb
      · exact (Option.some.inj hb).symm
  · refine ⟨_, rfl, ?_, fun closed h => ?_⟩
    · show Except.ok (AnimSpline.evaluate _ _) = _
      congr 1
      kernel_decide
    rcases h with ⟨h, -⟩ | ⟨-, p, edge, back, h1, h2, -⟩
    · cases h
    · have : p 0 = ⟨lit 7, lit 0⟩ := by
        rw [List.cons_append, List.cons.injEq] at h1
        exact (PathEl.moveTo.inj h1.1).symm
      rw [this] at h2
      have := abs_le.mp h2.1.err
      have hx : ((exLineA.mixed closed (1 / 8) exLineB).corner 0).x = 1 := by
        show (lit 0 : F64).toR + 1 / 8 * ((lit 8 : F64).toR - (lit 0 : F64).toR) = 1
        rw [lit_toR0, toR_lit8]; norm_num
      rw [hx, toR_lit7] at this
      norm_num at this

/-! ## The hypotheses can be met -/

theorem bez_surj {w : ℝ} (h0 : 0 ≤ w) (h1 : w ≤ 1) : ∃ u, (0 ≤ u ∧ u ≤ 1) ∧ bez 0 1 u = w := by
  have hc : ContinuousOn (bez 0 1) (Set.Icc 0 1) := by
    unfold bez
    fun_prop
  have := intermediate_value_Icc (zero_le_one' ℝ) hc
  rw [bez_zero, bez_one] at this
  obtain ⟨u, hu, e⟩ := this ⟨h0, h1⟩
  exact ⟨u, hu, e⟩

/-- Without handles the same line is drawn where it should be, at all times up to the second keyframe. -/
example [Libm F64] [Kurbo F64] (frame : F64) (h0 : (lit 0 <=. frame) = true) (h1 : (frame <. lit 8) = true)
    (hf : frame.isFin = true) : ∃ g, convShapeGeometry ⟨none, none, none, .animated (exSlide none none)⟩ = .ok (some g) ∧
    ∃ els closed, g.evaluate frame = .ok els ∧
      (exLineA.mixed closed (frame.toR / 8) exLineB).DrawnBy (1 / 2 ^ 32) els := by
  refine ⟨_, rfl, ?_⟩
  have hm : MorphAt Eased (exSlide none none) frame exLineA exLineB (frame.toR / 8) := by
    refine .inr (.inr ⟨0, _, _, rfl, rfl, h0, h1, rfl, .inr ⟨rfl, rfl⟩, nofun, fun _ => ?_⟩)
    have h0' : 0 ≤ frame.toR := by
      have := (le_fin near_lit0.fin hf).mp h0
      have h2 : (lit 0 : F64).toR ≤ frame.toR := by unfold toR; exact_mod_cast this
      rwa [lit_toR0] at h2
    have h1' : frame.toR ≤ 8 := by
      have := (lt_fin hf (near_lit (q := 8) (n := 8) (by norm_num) (by norm_num)).fin).mp h1
      have h2 : frame.toR < (lit 8 : F64).toR := by unfold toR; exact_mod_cast this
      rw [toR_lit8] at h2
      exact h2.le
    show Eased _ ((frame.toR - (lit 0 : F64).toR) / ((lit 8 : F64).toR - (lit 0 : F64).toR)) _
    rw [lit_toR0, toR_lit8, sub_zero, sub_zero]
    obtain ⟨u, ⟨u0, u1⟩, hu⟩ := bez_surj (show 0 ≤ frame.toR / 8 by positivity) (show frame.toR / 8 ≤ 1 by linarith)
    have one : (lit 1 : F64).toR = 1 := by simpa using toR_lit (n := 1) (q := 1) (by norm_num) (by norm_num)
    exact ⟨none, none, trivial, trivial, u, u0, u1, by simpa [one, lit_toR0] using hu, by simpa [one, lit_toR0] using hu⟩
  obtain ⟨els, closed, h1, -, h2⟩ := C134_straight_partial rfl (exSlide_modest none none) (exSlide_order none none)
    (exSlide_noFewer none none) (fun k hk => by
      simp only [exSlide, List.mem_cons, List.not_mem_nil, or_false] at hk
      rcases hk with rfl | rfl <;> exact ⟨fun o h => h.elim, fun o h => h.elim⟩) hf rfl hm
  exact ⟨els, closed, h1, h2⟩

/-- After the second keyframe the line stays there. -/
example [Libm F64] [Kurbo F64] : MorphAt Eased (exSlide exLate exLate) (lit 9) exLineB exLineB 0 :=
  .inr (.inl ⟨1, _, rfl, rfl, by decide +kernel, rfl, .inl ⟨rfl, rfl, .inr rfl⟩⟩)

/-- The line itself, at rest. -/
example : ∃ els, convShapeGeometry ⟨none, none, none, .static exLineA⟩ = .ok (some (.fixed els)) ∧
    (exLineA.mixed false 0 exLineA).DrawnBy (1 / 2 ^ 32) els :=
  C134_static rfl ((exSlide_modest none none _ (List.mem_cons_self ..)).2 _ (List.mem_cons_self ..))

end Velato
