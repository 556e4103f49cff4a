import Verif.Proofs.TameGradients

/-!
# The calls of documents with moderate numbers: helper lemmas
-/

set_option exponentiation.threshold 2000

namespace Velato
open FloatOps (lit)
open F64
open Import

theorem eq_one_of_between {x : F64} (h : x.Between 1 1) : x = lit 1 := by
  have key : ∀ {x : F64}, x.Between 1 1 → ∃ hr, x = .fin false 1 hr := by
    intro x h
    obtain ⟨s, a, ha, rfl⟩ := isFin_iff.mp h.1
    have h0 : (0 : ℝ) ≤ (a : ℝ) := by exact_mod_cast isRepr_nonneg ha.1
    have e := le_antisymm h.2.2 h.2.1
    cases s with
    | true =>
      simp [F64.toR, F64.toQ] at e
      linarith
    | false =>
      have : (a : ℝ) = 1 := by simpa [F64.toR, F64.toQ] using e
      have : a = 1 := by exact_mod_cast this
      subst this
      exact ⟨_, rfl⟩
  obtain ⟨_, h1⟩ := key h
  obtain ⟨_, h2⟩ := key lit_one_between
  rw [h1, h2]

section
variable [Libm F64] [Kurbo F64]

/-! ## Fills and strokes -/

/-- What is known about a fill or stroke. -/
def PaintTame (p : Paint F64) : Prop := (∀ k, p.stroke = some k → k.width.isFin = true) ∧ p.finalBrush.Tame

omit [Libm F64] in
theorem color_once {p : Schema.ColorValue F64} (hp : ColorWithin p) (frame : F64) (d : Color F64) :
    ((convColor p).evaluateOr frame d).once.a = lit 1 := by
  show mulF32 _ _ = _
  rw [eq_one_of_between (C114_colors hp frame d).2.2.2]
  decide +kernel

omit [Libm F64] [Kurbo F64] in
theorem single_alpha {x a : F64} (h : Faded 42 x) (ha : a.Between (-(3 / 10 ^ 10)) 1) :
    (mulF32 a (FloatOps.toF32 x)).Between (-(1 / 10 ^ 9)) 1 := by
  have h8 := fade_bound (n := 42) (le_refl _)
  have w : x.Between (-((1 / 10 ^ 10 : ℚ) : ℝ)) ((1 + 1 / 10 ^ 8 : ℚ) : ℝ) := by
    refine F64.Between.mono h ?_ ?_
    · push_cast
      have : (6 : ℝ) / 10 ^ 11 * (1 + 6 / 10 ^ 11) ^ 42 ≤ 6 / 10 ^ 11 * (1 + 1 / 10 ^ 8) := by gcongr
      refine neg_le_neg (this.trans ?_)
      norm_num
    · push_cast
      linarith
  have q1 : roundMag fmt32 (1 / 10 ^ 10) ≤ 1 := by decide +kernel
  have q2 : roundMag fmt32 (1 + 1 / 10 ^ 8) ≤ 1 := by decide +kernel
  have k := toF32_mono w q1 q2
  have k1 : rnd (roundMag fmt32 (1 / 10 ^ 10)) ≤ 2 / 10 ^ 10 := by decide +kernel
  have k2 : rnd (roundMag fmt32 (1 + 1 / 10 ^ 8)) ≤ 1 := by decide +kernel
  have k1' : ((rnd (roundMag fmt32 (1 / 10 ^ 10)) : ℚ) : ℝ) ≤ ((2 / 10 ^ 10 : ℚ) : ℝ) := by exact_mod_cast k1
  have k2' : ((rnd (roundMag fmt32 (1 + 1 / 10 ^ 8)) : ℚ) : ℝ) ≤ 1 := by exact_mod_cast k2
  push_cast at k1'
  generalize FloatOps.toF32 x = y at k
  have hy : y.Between (-(2 / 10 ^ 10)) 1 := k.mono (by linarith) k2'
  have m := mul_near (x := a) (y := y) (ha.mono (by norm_num) (by norm_num))
    (hy.mono (by norm_num) (by norm_num))
  obtain ⟨-, a1, a2⟩ := ha
  obtain ⟨-, y1, y2⟩ := hy
  have p1 : a.toR * y.toR ≤ 1 := by nlinarith
  have p2 : -(4 / 10 ^ 10) ≤ a.toR * y.toR := by nlinarith
  have hb : |a.toR * y.toR| ≤ 1 := abs_le.mpr ⟨by linarith, p1⟩
  obtain ⟨e2, e3⟩ := abs_le.mp m.err
  have hs : (1 : ℝ) / 2 ^ 1075 ≤ 1 / 10 ^ 30 := by norm_num
  have w2 : (a *. y).Between (-((5 / 10 ^ 10 : ℚ) : ℝ)) ((1 + 1 / 10 ^ 8 : ℚ) : ℝ) := by
    refine ⟨m.fin, ?_, ?_⟩
    · push_cast
      linarith
    · push_cast
      linarith
  have q3 : roundMag fmt32 (5 / 10 ^ 10) ≤ 1 := by decide +kernel
  have k' := toF32_mono w2 q3 q2
  have k3 : rnd (roundMag fmt32 (5 / 10 ^ 10)) ≤ 1 / 10 ^ 9 := by decide +kernel
  have k3' : ((rnd (roundMag fmt32 (5 / 10 ^ 10)) : ℚ) : ℝ) ≤ ((1 / 10 ^ 9 : ℚ) : ℝ) := by exact_mod_cast k3
  push_cast at k3'
  exact k'.mono (by linarith) k2'

omit [Libm F64] in
theorem solid_final {p : Schema.ColorValue F64} (hp : ColorWithin p) {frame : F64} {P : Paint F64}
    (hb : P.brush = .solid ((convColor p).evaluateOr frame invisible).once) (ha : Faded 42 P.alpha) :
    P.finalBrush.Tame := by
  obtain ⟨h1, h2, h3, -⟩ := C114_colors hp frame invisible
  have w : ∀ {x : F64}, x.Between (-(2 / 10 ^ 10)) 1 → x.Between (-(1 / 10 ^ 9)) 1 := fun h =>
    h.mono (by norm_num) (le_refl _)
  have h4 := color_once hp frame invisible
  unfold Paint.finalBrush
  rw [hb]
  dsimp only
  split_ifs
  · exact ⟨by rw [h4]; exact lit_one_between.mono (by norm_num) (le_refl _), w h1, w h2, w h3⟩
  · exact ⟨by rw [h4]; exact single_alpha ha (lit_one_between.mono (by norm_num) (le_refl _)), w h1, w h2, w h3⟩

omit [Libm F64] in
theorem point_within {p : Schema.MultiDimensional F64} (hp : VectorWithin (-8000) 8000 (-8000) 8000 p)
    (frame : F64) : P2.AtMost 8001 ((convMultiP2 p).evaluate frame) := by
  have h := C114_vectors hp (M := 8000) (by norm_num) (by norm_num) (by norm_num) (by norm_num) (by norm_num) frame
    RDefault.dflt
  rw [← Value.evaluate_eq] at h
  have o : overshoot (-8000) 8000 8000 ≤ 1 := by
    unfold overshoot
    norm_num
  exact ⟨h.1.mono (by linarith) (by linarith), h.2.mono (by linarith) (by linarith)⟩

omit [Kurbo F64] in
theorem radius_within (hl : AccurateLibm) {p q : P2 F64} (hp : p.AtMost 8001) (hq : q.AtMost 8001) :
    (FloatOps.toF32 (Libm.hypot (q.x -. p.x) (q.y -. p.y))).Between (-(1 / 10 ^ 9)) 32768 := by
  have diff : ∀ {x y : F64}, x.Between (-8001) 8001 → y.Between (-8001) 8001 →
      (x -. y).Between (-16003) 16003 := by
    intro x y hx hy
    have n := hx.near.sub hy.near (B := 16002) (E := 1) (by
      rw [abs_le]; constructor <;> linarith [hx.2.1, hx.2.2, hy.2.1, hy.2.2]) (by norm_num) (by norm_num)
    obtain ⟨e1, e2⟩ := abs_le.mp n.err
    exact ⟨n.fin, by linarith [hx.2.1, hy.2.2], by linarith [hx.2.2, hy.2.1]⟩
  have hx := diff hq.1 hp.1
  have hy := diff hq.2 hp.2
  generalize q.x -. p.x = x at hx
  generalize q.y -. p.y = y at hy
  have n := hl.hypot x y (hx.mono (by norm_num) (by norm_num)) (hy.mono (by norm_num) (by norm_num))
  obtain ⟨e1, e2⟩ := abs_le.mp n.err
  have h0 := Real.sqrt_nonneg (x.toR ^ 2 + y.toR ^ 2)
  have h1 : Real.sqrt (x.toR ^ 2 + y.toR ^ 2) ≤ 32000 := by
    refine Real.sqrt_le_iff.mpr ⟨by norm_num, ?_⟩
    have h1 : x.toR ^ 2 ≤ 16003 ^ 2 := sq_le_sq' hx.2.1 hx.2.2
    have h2 : y.toR ^ 2 ≤ 16003 ^ 2 := sq_le_sq' hy.2.1 hy.2.2
    exact (add_le_add h1 h2).trans (by norm_num)
  have w : (Libm.hypot x y).Between (-((1 / 2 ^ 32 : ℚ) : ℝ)) ((32768 : ℚ) : ℝ) := by
    refine ⟨n.fin, ?_, ?_⟩
    · push_cast
      linarith
    · push_cast
      linarith [show (1 : ℝ) / 2 ^ 32 ≤ 1 by norm_num]
  have q1 : roundMag fmt32 (1 / 2 ^ 32) ≤ 2 ^ 20 := by decide +kernel
  have q2 : roundMag fmt32 32768 ≤ 2 ^ 20 := by decide +kernel
  have k := toF32_mono_large w q1 q2
  have k1 : rnd (roundMag fmt32 (1 / 2 ^ 32)) ≤ 1 / 10 ^ 9 := by decide +kernel
  have k2 : rnd (roundMag fmt32 32768) ≤ 32768 := by decide +kernel
  have k1' : ((rnd (roundMag fmt32 (1 / 2 ^ 32)) : ℚ) : ℝ) ≤ ((1 / 10 ^ 9 : ℚ) : ℝ) := by exact_mod_cast k1
  have k2' : ((rnd (roundMag fmt32 32768) : ℚ) : ℝ) ≤ 32768 := by exact_mod_cast k2
  push_cast at k1'
  exact k.mono (by linarith) k2'

theorem gradient_final (hl : AccurateLibm) {g : Schema.BaseGradient F64} (hg : GradientWithin g) {frame : F64}
    {P : Paint F64} (hb : GradientAt g frame P.brush) (ha : Faded 42 P.alpha) : P.finalBrush.Tame := by
  obtain ⟨st, hst, e⟩ := hb
  obtain ⟨h1, h2, h3⟩ := hg
  have p1 := point_within h1 frame
  have p2 := point_within h2 frame
  have hs := stops_unit h3 hst frame
  have hk : (if g.gradientType = some .radial then
        GradientKind.radial ((convMultiP2 g.startPoint).evaluate frame) (FloatOps.toF32 (Libm.hypot
          (((convMultiP2 g.endPoint).evaluate frame).x -. ((convMultiP2 g.startPoint).evaluate frame).x)
          (((convMultiP2 g.endPoint).evaluate frame).y -. ((convMultiP2 g.startPoint).evaluate frame).y)))
      else .linear ((convMultiP2 g.startPoint).evaluate frame) ((convMultiP2 g.endPoint).evaluate frame)).Tame := by
    split_ifs
    · exact ⟨p1, radius_within hl p1 p2⟩
    · exact ⟨p1, p2⟩
  have w : ∀ {x : F64}, x.Between (-(3 / 10 ^ 10)) 1 → x.Between (-(1 / 10 ^ 9)) 1 := fun h =>
    h.mono (by norm_num) (le_refl _)
  unfold Paint.finalBrush
  rw [e]
  dsimp only
  generalize (if g.gradientType = some .radial then
        GradientKind.radial ((convMultiP2 g.startPoint).evaluate frame) (FloatOps.toF32 (Libm.hypot
          (((convMultiP2 g.endPoint).evaluate frame).x -. ((convMultiP2 g.startPoint).evaluate frame).x)
          (((convMultiP2 g.endPoint).evaluate frame).y -. ((convMultiP2 g.startPoint).evaluate frame).y)))
      else .linear ((convMultiP2 g.startPoint).evaluate frame) ((convMultiP2 g.endPoint).evaluate frame)) = kind at hk ⊢
  cases hc : (P.alpha ==. lit 1) || (FloatOps.toF32 P.alpha ==. lit 1) with
  | true =>
    refine ⟨hk, fun s h => ?_⟩
    obtain ⟨s1, s2, s3, s4, s5⟩ := hs s h
    exact ⟨w s1, w s5, w s2, w s3, w s4⟩
  | false =>
    refine ⟨hk, fun s h => ?_⟩
    obtain ⟨s', h', rfl⟩ := List.mem_map.mp h
    obtain ⟨s1, s2, s3, s4, s5⟩ := hs s' h'
    exact ⟨w s1, single_alpha ha s5, w s2, w s3, w s4⟩

omit [Libm F64] in
theorem width_fin {p : Schema.FloatValue F64} (hp : ScalarWithin 0 8000 p) {frame x : F64}
    (h : ScalarAt p frame x) : x.isFin = true := by
  obtain ⟨v, hv, rfl⟩ := h
  have := C114_scalars hv hp (M := 8000) (by norm_num) (by norm_num) (by norm_num) frame RDefault.dflt
  rw [← Value.evaluate_eq] at this
  exact this.1

omit [Libm F64] in
theorem ScalarAt.percent {p : Schema.FloatValue F64} (hp : ScalarWithin 0 100 p) {frame x : F64}
    (h : ScalarAt p frame x) : x.Between (-(51 / 10 ^ 10)) (100 + 51 / 10 ^ 10) := by
  obtain ⟨v, hv, rfl⟩ := h
  exact (opacity_within hv hp frame).mono (by norm_num) (by norm_num)

theorem paint_tame (hl : AccurateLibm) {alpha frame : F64} {p : Paint F64} {s : Schema.AnyShape F64} {n : Nat}
    (h : PaintOf alpha frame p s) (hs : s.TamePaint) (ha : Faded n alpha) (hn : n ≤ 41) : PaintTame p := by
  have hundred : (lit 100 : F64).Between (-(51 / 10 ^ 10)) (100 + 51 / 10 ^ 10) :=
    (lit_between (q := 100) (n := 100) (by norm_num) (by norm_num)).mono (by norm_num) (by norm_num)
  cases s with
  | fill s =>
    obtain ⟨h1, h2, o, ho, e⟩ := h
    refine ⟨fun k hk => ?_, solid_final hs.1 h2 ?_⟩
    · rw [h1] at hk; cases hk
    · rw [e]
      exact (ha.percent hn (ho.percent hs.2)).mono (by omega)
  | stroke s =>
    obtain ⟨⟨k, hk, h1⟩, h2, o, ho, e⟩ := h
    refine ⟨fun k' hk' => ?_, solid_final hs.1 h2 ?_⟩
    · rw [hk] at hk'; cases hk'
      exact width_fin hs.2.2 h1.width
    · rw [e]
      exact (ha.percent hn (ho.percent hs.2.1)).mono (by omega)
  | gradientFill s =>
    obtain ⟨h1, h2, e⟩ := h
    refine ⟨fun k hk => ?_, gradient_final hl hs h2 ?_⟩
    · rw [h1] at hk; cases hk
    · rw [e]
      exact (ha.percent hn hundred).mono (by omega)
  | gradientStroke s =>
    obtain ⟨⟨k, hk, h1⟩, h2, e⟩ := h
    refine ⟨fun k' hk' => ?_, gradient_final hl hs.1 h2 ?_⟩
    · rw [hk] at hk'; cases hk'
      exact width_fin hs.2 h1.width
    · rw [e]
      exact (ha.percent hn hundred).mono (by omega)
  | _ => exact h.elim

/-! ## Shapes -/

/-- All outlines are placed by finite matrices, and all paints are tame. -/
structure Sheet.Tame (S : Sheet F64) : Prop where
  outer : ∀ o ∈ S.outer, o.transform.Finite
  outlines : ∀ o ∈ S.outlines, o.transform.Finite
  paintings : ∀ p ∈ S.paintings, PaintTame p.paint ∧ ∀ o ∈ p.outlines, o.transform.Finite

omit [Libm F64] [Kurbo F64] in
theorem Sheet.Tame.add {S : Sheet F64} (h : S.Tame) {T : Affine F64} (hT : T.Finite) (els : List (PathEl F64)) :
    (S.add T els).Tame := by
  have new : ∀ o ∈ S.outlines ++ [⟨T, els⟩], o.transform.Finite := by
    intro o ho
    rcases List.mem_append.mp ho with ho | ho
    · exact h.outlines o ho
    · cases List.mem_singleton.mp ho
      exact hT
  unfold Sheet.add
  dsimp only
  split
  · rename_i o ho
    have ho' : o.transform.Finite := by
      rcases List.mem_append.mp (List.mem_of_getLast? ho) with h' | h'
      · exact h.outer _ h'
      · exact h.outlines _ h'
    have all : ∀ p, ∀ x ∈ (S.outer ++ S.outlines).dropLast ++ [⟨o.transform, p⟩], x.transform.Finite := by
      intro p x hx
      rcases List.mem_append.mp hx with hx | hx
      · rcases List.mem_append.mp (List.mem_of_mem_dropLast hx) with h' | h'
        · exact h.outer _ h'
        · exact h.outlines _ h'
      · cases List.mem_singleton.mp hx
        exact ho'
    split_ifs
    · exact ⟨fun x hx => all _ x (List.mem_of_mem_take hx), fun x hx => all _ x (List.mem_of_mem_drop hx),
        h.paintings⟩
    · exact ⟨fun x hx => all _ x (List.mem_of_mem_take hx), fun x hx => all _ x (List.mem_of_mem_drop hx),
        h.paintings⟩
    · exact ⟨h.outer, new, h.paintings⟩
  · exact ⟨h.outer, new, h.paintings⟩

omit [Libm F64] in
theorem cut_transform (t : FixedTrim F64) (o : Outline F64) : (t.cut o).transform = o.transform := by
  unfold FixedTrim.cut
  split
  · rfl
  · split_ifs <;> rfl

omit [Libm F64] in
theorem Sheet.Tame.trim {S : Sheet F64} (h : S.Tame) (t : FixedTrim F64) : (S.trim t).Tame := by
  have cut : ∀ {os : List (Outline F64)}, (∀ o ∈ os, o.transform.Finite) →
      ∀ o ∈ os.map t.cut, o.transform.Finite := by
    intro os hos o ho
    obtain ⟨o', ho', rfl⟩ := List.mem_map.mp ho
    rw [cut_transform]
    exact hos _ ho'
  have h1 := cut h.outlines
  have h2 : ∀ p ∈ S.paintings.map fun p => (⟨p.paint, p.outlines.map t.cut⟩ : Painting F64),
      PaintTame p.paint ∧ ∀ o ∈ p.outlines, o.transform.Finite := by
    intro p hp
    obtain ⟨p', hp', rfl⟩ := List.mem_map.mp hp
    exact ⟨(h.paintings _ hp').1, cut (h.paintings _ hp').2⟩
  unfold Sheet.trim
  dsimp only
  split_ifs <;> exact ⟨h.outer, h1, h2⟩

theorem items_tame (hl : AccurateLibm) {frame : F64} {T : Affine F64} {alpha : F64}
    {items : List (Schema.AnyShape F64)} {S S' : Sheet F64} (h : ItemsDrawn frame T alpha items S S') :
    ∀ {d n : Nat}, ShapesTame d items → Placement n T → Faded n alpha → n + d ≤ 41 → S.Tame → S'.Tame := by
  have tail : ∀ {d : Nat} {s : Schema.AnyShape F64} {rest}, ShapesTame d (s :: rest) → ShapesTame d rest := by
    intro d s rest hd
    cases d <;> exact fun s' hs' => hd s' (List.mem_cons_of_mem _ hs')
  induction h with
  | nil => exact fun _ _ _ _ hS => hS
  | geometry h hr ih =>
    intro d n hd hT ha hn hS
    exact ih (tail hd) hT ha hn (hS.add hT.finite _)
  | @group T alpha e nm i items rest M k S E S' ht hi hr ihi ihr =>
    intro d n hd hT ha hn hS
    obtain ⟨d, rfl⟩ : ∃ d', d = d' + 1 := by
      cases d with
      | zero => exact absurd rfl ((hd _ List.mem_cons_self).2 e nm items i)
      | succ d => exact ⟨d, rfl⟩
    obtain ⟨htr, hit⟩ := (hd _ List.mem_cons_self).2 e nm items i rfl
    have hMk : Placement 0 M ∧ k.Between (-(51 / 10 ^ 12)) (1 + 51 / 10 ^ 12) := by
      cases hg : groupTransform items with
      | none =>
        rw [hg] at ht
        obtain ⟨rfl, rfl⟩ := ht
        exact ⟨placement_identity, lit_one_between.mono (by norm_num) (by norm_num)⟩
      | some t =>
        rw [hg] at ht
        obtain ⟨g, hg', rfl, rfl⟩ := ht
        have hv := htr t hg
        refine ⟨placement_group hl hg' hv.1 frame, percent_factor ?_⟩
        obtain ⟨rot, hrot, h⟩ := bind_ok hg'
        obtain ⟨P, hP, h⟩ := bind_ok h
        obtain ⟨⟨t', o⟩, h', e⟩ := bind_ok h
        cases e
        obtain ⟨R, hR, h⟩ := bind_ok h'
        obtain ⟨K, hK, h⟩ := bind_ok h
        obtain ⟨X, hX, h⟩ := bind_ok h
        obtain ⟨O, hO, h⟩ := bind_ok h
        cases h
        exact transform_opacity hv hO frame
    have hE := ihi hit (n := n + 1) ((hT.mul hMk.1 (by omega)).mono (by omega)) (ha.factor (by omega) hMk.2) (by omega)
      ⟨fun o ho => (List.mem_append.mp ho).elim (hS.outer o) (hS.outlines o), fun _ h => absurd h List.not_mem_nil,
        fun _ h => absurd h List.not_mem_nil⟩
    refine ihr (tail hd) hT ha hn ⟨fun o ho => hE.outer o (List.mem_of_mem_take ho), fun o ho => ?_,
      fun p hp => (List.mem_append.mp hp).elim (hS.paintings p) (hE.paintings p)⟩
    exact (List.mem_append.mp ho).elim (fun h => hE.outer o (List.mem_of_mem_drop h)) (hE.outlines o)
  | @paint T alpha s p rest S S' hp hr ih =>
    intro d n hd hT ha hn hS
    have hs : s.TamePaint := by
      cases d <;> exact (hd _ List.mem_cons_self).1
    refine ih (tail hd) hT ha hn ⟨hS.outer, hS.outlines, fun p hp' => ?_⟩
    rcases List.mem_append.mp hp' with h | h
    · exact hS.paintings p h
    · cases List.mem_singleton.mp h
      exact ⟨paint_tame hl hp hs ha (by omega), hS.outlines⟩
  | trim ht hr ih =>
    intro d n hd hT ha hn hS
    exact ih (tail hd) hT ha hn (hS.trim _)
  | ignored h hr ih =>
    intro d n hd hT ha hn hS
    exact ih (tail hd) hT ha hn hS

omit [Libm F64] [Kurbo F64] in
theorem calls_tame {S : Sheet F64} (h : S.Tame) : ∀ op ∈ S.calls, op.Tame := by
  intro op hop
  obtain ⟨p, hp, hop⟩ := List.mem_flatMap.mp hop
  obtain ⟨o, ho, rfl⟩ := List.mem_map.mp hop
  obtain ⟨h1, h2⟩ := h.paintings p (List.mem_reverse.mp hp)
  exact ⟨h2 o ho, h1.1, h1.2⟩

/-! ## Layers -/

theorem placed_tame (hl : AccurateLibm) {ls : List (Schema.AnyLayer F64)} {frame : F64}
    (hls : ∀ l ∈ ls, l.visual.transform.Tame) {f : Nat} {l : Schema.AnyLayer F64} {M P : Affine F64}
    (h : PlacedWithin ls frame f l M P) :
    ∀ {k n : Nat}, ParentsAtMost ls k l → Placement n M → n + k ≤ 41 → Placement (n + k) P := by
  induction h with
  | root h => exact fun _ hM _ => hM.mono (by omega)
  | stray h hn => exact fun _ hM _ => hM.mono (by omega)
  | limit => exact fun _ hM _ => hM.mono (by omega)
  | @child f l id j p M N o P h hj hp hN hr ih =>
    intro k n hk hM hn
    cases k with
    | zero => exact absurd hj (hk id j h)
    | succ k =>
      obtain ⟨t, v, ht, rfl, -⟩ := hN
      have h0 := placement_layer hl ht (hls p (List.mem_of_getElem? hp)).1 frame
      have := ih (hk id j p h hj hp) (n := n + 1) ((h0.mul hM (by omega)).mono (by omega)) (by omega)
      exact this.mono (by omega)


theorem masks_tame {frame : F64} {T : Affine F64} (hT : T.Finite) {ms : List (Schema.Mask F64)}
    {ops : List (Op F64)} (h : MasksDrawn frame T ms ops) : ∀ op ∈ ops, op.Tame := by
  induction h with
  | nil => exact fun _ h => absurd h List.not_mem_nil
  | keep _ _ _ _ ih =>
    intro op hop
    rcases List.mem_cons.mp hop with rfl | hop
    · exact hT
    · exact ih op hop
  | drop _ _ ih => exact ih

omit [Libm F64] [Kurbo F64] in
theorem announced_tame {l : Schema.AnyLayer F64} {ix : Nat} {ops : List (Op F64)} (h : ∀ op ∈ ops, op.Tame) :
    ∀ op ∈ announced l ix ops, op.Tame := by
  intro op hop
  unfold announced at hop
  simp only [List.mem_append, List.mem_singleton] at hop
  rcases hop with (rfl | hop) | rfl
  · trivial
  · exact h op hop
  · trivial

omit [Libm F64] [Kurbo F64] in
theorem body_tame {ms co : List (Op F64)} (h1 : ∀ op ∈ ms, op.Tame) (h2 : ∀ op ∈ co, op.Tame) :
    ∀ op ∈ ms ++ co ++ List.replicate ms.length .pop, op.Tame := by
  intro op hop
  simp only [List.mem_append, List.mem_replicate] at hop
  rcases hop with (hop | hop) | ⟨-, rfl⟩
  · exact h1 op hop
  · exact h2 op hop
  · trivial

theorem layers_tame (hl : AccurateLibm) {a : Schema.Animation F64} {depth : String → Nat}
    (hassets : ∀ p, .precomposition p ∈ a.assetList → LayersTame depth (depth p.asset.id) p.layers)
    {src ls : List (Schema.AnyLayer F64)} {T : Affine F64} {al fr : F64} {number : Nat → Nat} {i : Nat}
    {per : List (List (Op F64))} (hd : LayerListDrawn a src T al fr number i ls per) :
    ∀ n b : Nat, Placement n T → Faded n al → LayersTame depth b src → n + b ≤ 41 → (∀ l ∈ ls, l ∈ src) →
      ∀ ops ∈ per, ∀ op ∈ ops, op.Tame := by
  have own : ∀ {ls : List (Schema.AnyLayer F64)} {T : Affine F64} {alpha frame : F64} {l : Schema.AnyLayer F64}
      {P M : Affine F64} {o : F64} {ms co : List (Op F64)}, PlacedAt ls frame l P → LayerAt frame l M o →
      MasksDrawn frame (T.mul P) (l.visual.masksProperties.getD []) ms →
      (∀ n, Placement n (T.mul P) → Faded n (alpha *. o /. lit 100) →
        (∀ q, l = .shape q → ∃ g, ShapesTame g q.shapes ∧ n + g ≤ 41) →
        (∀ q, l = .precomposition q → n + depth q.refId ≤ 41) → ∀ op ∈ co, op.Tame) →
      ∀ {n b : Nat}, Placement n T → Faded n alpha → LayersTame depth b ls → n + b ≤ 41 → l ∈ ls →
        ∀ op ∈ ms ++ co ++ List.replicate ms.length .pop, op.Tame := by
    intro ls T alpha frame l P M o ms co hP hk hms hco n b hT ha hb hn hm
    obtain ⟨hv, k, hk1, hk2, hsh, hpre⟩ := hb l hm
    obtain ⟨M', o', ⟨t', v', ht', rfl, -⟩, hPw⟩ := hP
    have hPk := placed_tame hl (fun l hl' => (hb l hl').1) hPw hk1 (n := 0) (placement_layer hl ht' hv.1 frame)
      (by omega)
    rw [zero_add] at hPk
    have hTP := hT.mul hPk (by omega)
    refine body_tame (masks_tame hTP.finite hms) (hco (n + k + 1) hTP ?_ ?_ ?_)
    · obtain ⟨t, v, ht, -, rfl⟩ := hk
      obtain ⟨rot, hrot, h⟩ := bind_ok ht
      obtain ⟨P', hP', h⟩ := bind_ok h
      obtain ⟨R, hR, h⟩ := bind_ok h
      obtain ⟨K, hK, h⟩ := bind_ok h
      obtain ⟨X, hX, h⟩ := bind_ok h
      obtain ⟨O, hO, h⟩ := bind_ok h
      cases h
      exact (ha.percent (by omega) ((transform_opacity hv hO frame).mono (by norm_num) (by norm_num))).mono
        (by omega)
    · intro q hq
      obtain ⟨g, hg, hgn⟩ := hsh q hq
      exact ⟨g, hg, by omega⟩
    · intro q hq
      have := hpre q hq
      omega
  refine LayerListDrawn.rec
    (motive_1 := fun src T al fr ix i l ops _ => ∀ n b : Nat, Placement n T → Faded n al →
      LayersTame depth b src → n + b ≤ 41 → l ∈ src → ∀ op ∈ ops, op.Tame)
    (motive_2 := fun T al fr l co _ => ∀ n, Placement n T → Faded n al →
      (∀ q, l = .shape q → ∃ g, ShapesTame g q.shapes ∧ n + g ≤ 41) →
      (∀ q, l = .precomposition q → n + depth q.refId ≤ 41) → ∀ op ∈ co, op.Tame)
    (motive_3 := fun src T al fr number i ls per _ => ∀ n b : Nat, Placement n T → Faded n al →
      LayersTame depth b src → n + b ≤ 41 → (∀ l ∈ ls, l ∈ src) → ∀ ops ∈ per, ∀ op ∈ ops, op.Tame)
    ?_ ?_ ?_ ?_ ?_ ?_ ?_ ?_ ?_ ?_ ?_ hd
  · intros
    rename_i h
    cases h
  · intro ls T alpha frame ix i l P M o ms co h hm hP hk hms _ ih n b hT ha hb hn hmem
    exact announced_tame (own hP hk hms ih hT ha hb hn hmem)
  · intro ls T alpha frame ix i l P M o ms co bl j m mo h hm hj _ hP hk hms _ ihm ih n b hT ha hb hn hmem
    refine announced_tame fun op hop => ?_
    unfold composed at hop
    simp only [List.mem_append, List.mem_cons, List.not_mem_nil, or_false] at hop
    rcases hop with (((rfl | hop) | rfl) | hop) | rfl | rfl
    · exact hT.finite
    · exact ihm n b hT ha hb hn (List.mem_of_getElem? hj) op hop
    · exact hT.finite
    · refine own hP hk hms ih hT ha hb hn hmem op ?_
      simpa only [List.mem_append] using hop
    · trivial
    · trivial
  · intros
    rename_i h
    cases h
  · intros
    rename_i h
    cases h
  · intro T alpha frame q S hv hss n hT ha hsh _
    obtain ⟨g, hg, hgn⟩ := hsh q rfl
    exact calls_tame (items_tame hl hss hg hT ha hgn
      ⟨fun _ h => absurd h List.not_mem_nil, fun _ h => absurd h List.not_mem_nil, fun _ h => absurd h List.not_mem_nil⟩)
  · intros
    rename_i h
    cases h
  · intro T alpha frame q p per i hv hp hid hlast _ ih n hT ha _ hpre op hop
    obtain ⟨ops, hops, hop⟩ := List.mem_flatten.mp hop
    have := hpre q rfl
    rw [← hid] at this
    exact ih _ _ hT ha (hassets p (List.mem_of_getElem? hp)) this (fun _ h => h) ops (List.mem_reverse.mp hops) op hop
  · intros
    rename_i h _ _
    cases h
  · intro ls T alpha frame number i l ls' per h _ ih n b hT ha hb hn hsub ops hops
    rcases List.mem_cons.mp hops with rfl | hops
    · exact fun _ h => absurd h List.not_mem_nil
    · exact ih n b hT ha hb hn (fun l hl' => hsub l (List.mem_cons_of_mem _ hl')) ops hops
  · intro ls T alpha frame number i l ops ls' per h _ _ ih1 ih2 n b hT ha hb hn hsub os hos
    rcases List.mem_cons.mp hos with rfl | hos
    · exact ih1 n b hT ha hb hn (hsub l List.mem_cons_self)
    · exact ih2 n b hT ha hb hn (fun l hl' => hsub l (List.mem_cons_of_mem _ hl')) os hos

end
end Velato
