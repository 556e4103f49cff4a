import Verif.Proofs.StarAccuracy
import Verif.Proofs.EasingAccuracy
import Verif.Proofs.Retime
import Verif.Props.Paths
import Verif.Props.ImportValues
import Verif.Spec.PathMorph

/-!
# Animated paths in double precision: lemmas
-/

set_option exponentiation.threshold 2000

namespace Velato
open F64
open FloatOps (lit)
open Import (convShapeGeometry splineLoop convTime startBezier)

/-! ## Points between two points -/

theorem abs_between {e p q B : ℝ} (he0 : 0 ≤ e) (he1 : e ≤ 1) (hp : |p| ≤ B) (hq : |q| ≤ B) :
    |p + e * (q - p)| ≤ B := by
  have h1 := abs_le.mp hp
  have h2 := abs_le.mp hq
  have : p + e * (q - p) = (1 - e) * p + e * q := by ring
  rw [this]
  exact abs_le.mpr ⟨by nlinarith, by nlinarith⟩

theorem near_between {p q t : F64} {e : ℝ} (hp : p.Between (-8000) 8000) (hq : q.Between (-8000) 8000)
    (ht : Near t e (1 / 2 ^ 49)) (he0 : 0 ≤ e) (he1 : e ≤ 1) :
    Near (p +. t *. (q -. p)) (p.toR + e * (q.toR - p.toR)) (1 / 2 ^ 34) := by
  have hp' := abs_le.mpr hp.2
  have hq' := abs_le.mpr hq.2
  have hd : |q.toR - p.toR| ≤ 16000 := by
    have h1 := abs_le.mp hp'
    have h2 := abs_le.mp hq'
    exact abs_le.mpr ⟨by linarith, by linarith⟩
  have h1 := (Near.self hq.1).sub (Near.self hp.1) (B := 16000) (E := 1 / 2 ^ 38) hd (by norm_num) (by norm_num)
  have h2 := ht.mul h1 (R := 1) (S := 16000) (E := 13 / 10 / 2 ^ 35) (abs_le.mpr ⟨by linarith, he1⟩) hd (by norm_num)
    (by norm_num)
  exact (Near.self hp.1).add h2 (B := 8000) (abs_between he0 he1 hp' hq') (by norm_num) (by norm_num)

theorem close_between {p q : P2 F64} {t : F64} {e : ℝ} (hp : p.AtMost 8000) (hq : q.AtMost 8000)
    (ht : Near t e (1 / 2 ^ 49)) (he0 : 0 ≤ e) (he1 : e ≤ 1) :
    (p.lerp q t).Close (1 / 2 ^ 34) (.between e p.toR q.toR) :=
  ⟨near_between hp.1 hq.1 ht he0 he1, near_between hp.2 hq.2 ht he0 he1⟩

theorem between_abs {p q : P2 F64} {e : ℝ} (hp : p.AtMost 8000) (hq : q.AtMost 8000) (he0 : 0 ≤ e) (he1 : e ≤ 1) :
    |(P2.between e p.toR q.toR).x| ≤ 8000 ∧ |(P2.between e p.toR q.toR).y| ≤ 8000 :=
  ⟨abs_between he0 he1 (abs_le.mpr hp.1.2) (abs_le.mpr hq.1.2),
    abs_between he0 he1 (abs_le.mpr hp.2.2) (abs_le.mpr hq.2.2)⟩

theorem between_zero (p q : P2 ℝ) : P2.between 0 p q = p := by
  unfold P2.between
  simp

theorem mixed_zero (c : Bool) (a b b' : Schema.Bezier F64) : a.mixed c 0 b = a.mixed c 0 b' := by
  unfold Schema.Bezier.mixed
  simp only [between_zero]

/-! ## Elements -/

theorem near_sum {p t : F64} {P T : ℝ} (hp : Near p P (1 / 2 ^ 34)) (ht : Near t T (1 / 2 ^ 34)) (hP : |P| ≤ 8000)
    (hT : |T| ≤ 8000) : Near (t +. p) (P + T) (1 / 2 ^ 32) := by
  rw [add_comm P T]
  refine ht.add hp (B := 16000) ?_ (by norm_num) (by norm_num)
  have h1 := abs_le.mp hP
  have h2 := abs_le.mp hT
  exact abs_le.mpr ⟨by linarith, by linarith⟩

theorem near_of_eq {x y : F64} {r e : ℝ} (h : Near x r e) (hy : y.isFin = true) (he : (x ==. y) = true) : Near y r e := by
  refine ⟨hy, ?_⟩
  have : x.toQ = y.toQ := (beq_fin h.fin hy).mp he
  have : y.toR = x.toR := by unfold toR; rw [this]
  rw [this]
  exact h.err

theorem element_follows {p0 c0 c1 p1 : P2 F64} {P0 C0 C1 P1 : P2 ℝ} (h0 : p0.Close (1 / 2 ^ 34) P0)
    (h1 : c0.Close (1 / 2 ^ 34) C0) (h2 : c1.Close (1 / 2 ^ 34) C1) (h3 : p1.Close (1 / 2 ^ 34) P1)
    (b0 : |P0.x| ≤ 8000 ∧ |P0.y| ≤ 8000) (b1 : |C0.x| ≤ 8000 ∧ |C0.y| ≤ 8000) (b2 : |C1.x| ≤ 8000 ∧ |C1.y| ≤ 8000)
    (b3 : |P1.x| ≤ 8000 ∧ |P1.y| ≤ 8000) :
    (splineElement p0 c0 c1 p1).Follows (1 / 2 ^ 32) p0 ⟨P0.x + C0.x, P0.y + C0.y⟩ ⟨P1.x + C1.x, P1.y + C1.y⟩ P1 ∧
    (splineElement p0 c0 c1 p1).anchor = some p1 := by
  have a0x := near_sum h0.1 h1.1 b0.1 b1.1
  have a0y := near_sum h0.2 h1.2 b0.2 b1.2
  have a1x := near_sum h3.1 h2.1 b3.1 b2.1
  have a1y := near_sum h3.2 h2.2 b3.2 b2.2
  have hp1 : p1.Close (1 / 2 ^ 32) P1 := h3.mono (by norm_num)
  unfold splineElement
  dsimp only
  split_ifs with h
  · unfold P2.beq at h
    simp only [Bool.and_eq_true] at h
    obtain ⟨⟨e1, e2⟩, e3, e4⟩ := h
    exact ⟨⟨⟨near_of_eq a0x h0.1.fin e1, near_of_eq a0y h0.2.fin e2⟩,
      ⟨near_of_eq a1x h3.1.fin e3, near_of_eq a1y h3.2.fin e4⟩, hp1⟩, rfl⟩
  · exact ⟨⟨⟨a0x, a0y⟩, ⟨a1x, a1y⟩, hp1⟩, rfl⟩

/-! ## Paths -/

theorem pointAt_atMost {l : List (F64 × F64)}
    (h : ∀ p ∈ l, p.1.Between (-8000) 8000 ∧ p.2.Between (-8000) 8000) (i : Nat) : (pointAt l i).AtMost 8000 := by
  unfold pointAt
  cases hi : l[i]? with
  | some p => exact h p (List.mem_of_getElem? hi)
  | none =>
    have : (lit 0 : F64).Between (-8000) 8000 := near_lit0.between (by norm_num)
    exact ⟨this, this⟩

theorem Schema.Bezier.Modest.atMost {b : Schema.Bezier F64} (h : b.Modest) (i : Nat) :
    (pointAt b.vertices i).AtMost 8000 ∧ (pointAt b.inTangents i).AtMost 8000 ∧
    (pointAt b.outTangents i).AtMost 8000 := by
  refine ⟨pointAt_atMost (fun p hp => h p ?_) i, pointAt_atMost (fun p hp => h p ?_) i,
    pointAt_atMost (fun p hp => h p ?_) i⟩
  · simp [hp]
  · simp [hp]
  · simp [hp]

theorem pathPoints_get {F : Type} [FloatOps F] {b : Schema.Bezier F} {ps : List (P2 F)} (h : PathPointsOf b ps) {i : Nat}
    (hi : i < b.vertices.length) : ps[3 * i]? = some (pointAt b.vertices i) ∧
      ps[3 * i + 1]? = some (pointAt b.inTangents i) ∧ ps[3 * i + 2]? = some (pointAt b.outTangents i) := by
  obtain ⟨h1, h2, h3⟩ := h.2 i _ (List.getElem?_eq_getElem hi)
  refine ⟨?_, ?_, ?_⟩
  · rw [h1]; unfold pointAt; rw [List.getElem?_eq_getElem hi]
  · rw [h2 _ rfl]; unfold pointAt; cases b.inTangents[i]? <;> rfl
  · rw [h3 _ rfl]; unfold pointAt; cases b.outTangents[i]? <;> rfl

theorem figure_drawn {s : PathFigure} {len : Nat} {get : Fin len → P2 F64} {g : Nat → P2 F64}
    (hg : ∀ i : Fin len, get i = g i.1) (hlen : len = 3 * s.corners)
    (hc : ∀ i, i < s.corners → (g (3 * i)).Close (1 / 2 ^ 34) (s.corner i) ∧
      (g (3 * i + 1)).Close (1 / 2 ^ 34) (s.arriving i) ∧ (g (3 * i + 2)).Close (1 / 2 ^ 34) (s.leaving i))
    (hm : ∀ i, (|(s.corner i).x| ≤ 8000 ∧ |(s.corner i).y| ≤ 8000) ∧
      (|(s.arriving i).x| ≤ 8000 ∧ |(s.arriving i).y| ≤ 8000) ∧ (|(s.leaving i).x| ≤ 8000 ∧ |(s.leaving i).y| ≤ 8000)) :
    s.DrawnBy (1 / 2 ^ 32) (toPath len get s.closed) := by
  by_cases h0 : s.corners = 0
  · refine .inl ⟨h0, ?_⟩
    unfold toPath
    rw [dif_pos (by omega)]
  · refine .inr ⟨h0, ?_⟩
    have hel : ∀ i j, i < s.corners → j < s.corners →
        s.Edge (1 / 2 ^ 32) (g (3 * i))
          (splineElement (g (3 * i)) (g (3 * i + 2)) (g (3 * j + 1)) (g (3 * j))) i j ∧
        (splineElement (g (3 * i)) (g (3 * i + 2)) (g (3 * j + 1)) (g (3 * j))).anchor = some (g (3 * j)) :=
      fun i j hi hj => element_follows (hc i hi).1 (hc i hi).2.2 (hc j hj).2.1 (hc j hj).1 (hm i).1 (hm i).2.2
        (hm j).2.1 (hm j).1
    refine ⟨fun i => g (3 * i), fun k => splineElement (g (3 * k)) (g (3 * k + 2)) (g (3 * (k + 1) + 1)) (g (3 * (k + 1))),
      splineElement (g (3 * (s.corners - 1))) (g (3 * (s.corners - 1) + 2)) (g 1) (g 0), ?_, ?_, ?_, ?_⟩
    · rw [toPath_eq len get g hg _ (by omega)]
      have hd : len / 3 = s.corners := by omega
      rw [hd]
      simp only [ne_eq, h0, not_false_eq_true, and_true, mul_zero]
    · exact (hc 0 (by omega)).1.mono (by norm_num)
    · exact fun i hi => hel i (i + 1) (by omega) hi
    · exact fun _ => hel (s.corners - 1) 0 (by omega) (by omega)

theorem lerp_drawn {a b : Schema.Bezier F64} (ha : a.Modest) (hb : b.Modest) {ps qs : List (P2 F64)}
    (hps : PathPointsOf a ps) (hqs : PathPointsOf b qs) (hn : a.vertices.length ≤ b.vertices.length) {t : F64} {e : ℝ}
    (ht : Near t e (1 / 2 ^ 49)) (he0 : 0 ≤ e) (he1 : e ≤ 1) (closed : Bool) :
    (a.mixed closed e b).DrawnBy (1 / 2 ^ 32) (splineLerpToPath ps qs t closed) := by
  have hlen : min ps.length qs.length = 3 * a.vertices.length := by
    have := hps.1
    have := hqs.1
    omega
  refine figure_drawn (s := a.mixed closed e b)
    (g := fun i => ((ps[i]?).getD ⟨lit 0, lit 0⟩).lerp ((qs[i]?).getD ⟨lit 0, lit 0⟩) t) ?_ hlen ?_ ?_
  · intro i
    have h1 : i.1 < ps.length := lt_of_lt_of_le i.2 (min_le_left _ _)
    have h2 : i.1 < qs.length := lt_of_lt_of_le i.2 (min_le_right _ _)
    simp only [List.getElem?_eq_getElem h1, List.getElem?_eq_getElem h2, Option.getD_some]
  · intro i hi
    obtain ⟨a1, a2, a3⟩ := ha.atMost i
    obtain ⟨b1, b2, b3⟩ := hb.atMost i
    obtain ⟨e1, e2, e3⟩ := pathPoints_get hps hi
    obtain ⟨f1, f2, f3⟩ := pathPoints_get hqs (lt_of_lt_of_le hi hn)
    simp only [e1, e2, e3, f1, f2, f3, Option.getD_some]
    exact ⟨close_between a1 b1 ht he0 he1, close_between a2 b2 ht he0 he1, close_between a3 b3 ht he0 he1⟩
  · intro i
    obtain ⟨a1, a2, a3⟩ := ha.atMost i
    obtain ⟨b1, b2, b3⟩ := hb.atMost i
    exact ⟨between_abs a1 b1 he0 he1, between_abs a2 b2 he0 he1, between_abs a3 b3 he0 he1⟩

theorem close_self {p q : P2 F64} (h : p.AtMost 8000) : p.Close (1 / 2 ^ 34) (.between 0 p.toR q.toR) := by
  rw [between_zero]
  exact ⟨(Near.self h.1.1).mono (by norm_num), (Near.self h.2.1).mono (by norm_num)⟩

theorem static_drawn {p : Schema.ShapeProperty F64} {b : Schema.Bezier F64} (hv : p.value = .static b) (hb : b.Modest) :
    ∃ els, convShapeGeometry p = .ok (some (.fixed els)) ∧
      (b.mixed (b.closed == some true) 0 b).DrawnBy (1 / 2 ^ 32) els := by
  refine ⟨splineToPath (Import.convSpline b).1 (b.closed == some true), ?_, ?_⟩
  · unfold convShapeGeometry
    rw [hv]
    dsimp only
    rw [(convSpline_spec b).2]
  have hps := (convSpline_spec b).1
  generalize (Import.convSpline b).1 = ps at hps
  refine figure_drawn (s := b.mixed (b.closed == some true) 0 b) (g := fun i => (ps[i]?).getD ⟨lit 0, lit 0⟩) ?_ hps.1 ?_ ?_
  · intro i
    simp
  · intro i hi
    obtain ⟨a1, a2, a3⟩ := hb.atMost i
    obtain ⟨e1, e2, e3⟩ := pathPoints_get hps hi
    simp only [e1, e2, e3, Option.getD_some]
    exact ⟨close_self a1, close_self a2, close_self a3⟩
  · intro i
    obtain ⟨a1, a2, a3⟩ := hb.atMost i
    exact ⟨between_abs a1 a1 (le_refl _) zero_le_one, between_abs a2 a2 (le_refl _) zero_le_one,
      between_abs a3 a3 (le_refl _) zero_le_one⟩

/-! ## Keyframes -/

theorem GoalOf.unique {k k' : Schema.ShapeKeyframe F64} {a b : Schema.Bezier F64} (ha : GoalOf k k' a)
    (hb : GoalOf k k' b) : a = b := by
  rcases ha with ha | ⟨ha, ha'⟩ <;> rcases hb with hb | ⟨hb, hb'⟩
  · exact Option.some.inj (ha.symm.trans hb)
  · rw [ha] at hb; cases hb
  · rw [ha] at hb; cases hb
  · exact ha'.unique hb'

section
variable {ks : List (Schema.ShapeKeyframe F64)}

theorem head_modest (hm : ∀ k ∈ ks, ∀ b ∈ k.start.getD [] ++ k.stop.getD [], b.Modest) {k : Schema.ShapeKeyframe F64}
    {b : Schema.Bezier F64} (hk : k ∈ ks) (h : k.start.bind List.head? = some b ∨ k.stop.bind List.head? = some b) :
    b.Modest := by
  refine hm k hk b ?_
  rcases h with h | h
  · obtain ⟨bs, e, hb⟩ := Option.bind_eq_some_iff.mp h
    rw [e]
    exact List.mem_append_left _ (List.mem_of_head? hb)
  · obtain ⟨bs, e, hb⟩ := Option.bind_eq_some_iff.mp h
    rw [e]
    exact List.mem_append_right _ (List.mem_of_head? hb)

theorem start_modest (hm : ∀ k ∈ ks, ∀ b ∈ k.start.getD [] ++ k.stop.getD [], b.Modest) {k : Schema.ShapeKeyframe F64}
    {prev : Option (Schema.ShapeKeyframe F64)} (hprev : ∀ q, prev = some q → q ∈ ks) {b : Schema.Bezier F64} (hk : k ∈ ks)
    (h : StartOf prev k b) : b.Modest := by
  unfold StartOf at h
  split at h
  · rename_i bs e
    exact head_modest hm hk (.inl (by rw [e]; exact h))
  · obtain ⟨q, hq, h⟩ := h
    rcases h with h | ⟨-, h⟩
    · exact head_modest hm (hprev q hq) (.inr h)
    · exact head_modest hm (hprev q hq) (.inl h)

theorem goal_modest (hm : ∀ k ∈ ks, ∀ b ∈ k.start.getD [] ++ k.stop.getD [], b.Modest) {k k' : Schema.ShapeKeyframe F64}
    {b : Schema.Bezier F64} (hk : k ∈ ks) (hk' : k' ∈ ks) (h : GoalOf k k' b) : b.Modest := by
  rcases h with h | ⟨-, h⟩
  · exact head_modest hm hk (.inr h)
  · exact start_modest hm (fun q e => by cases e; exact hk) hk' h

theorem prev_mem (j : Nat) : ∀ q, prevKeyframe ks j = some q → q ∈ ks := by
  intro q h
  cases j with
  | zero => cases h
  | succ j => exact List.mem_of_getElem? h

theorem entry_start {prev : Option (Schema.ShapeKeyframe F64)} {k : Schema.ShapeKeyframe F64} {t : Time F64}
    {v : SplineValues F64} (h : PathEntry prev k t v) {a : Schema.Bezier F64} (ha : StartOf prev k a) :
    PathPointsOf a v.start := by
  obtain ⟨b, hb, hp⟩ := h.start
  rwa [← hb.unique ha]

theorem entry_stop {prev : Option (Schema.ShapeKeyframe F64)} {k : Schema.ShapeKeyframe F64} {t : Time F64}
    {v : SplineValues F64} (h : PathEntry prev k t v) :
    (v.stop = none ∧ k.stop.bind List.head? = none) ∨
    ∃ ps b, v.stop = some ps ∧ k.stop.bind List.head? = some b ∧ PathPointsOf b ps := by
  have := h.stop
  split at this
  · rename_i e1 e2; exact .inl ⟨e1, e2⟩
  · rename_i e1 e2; exact .inr ⟨_, _, e1, e2, this⟩
  · exact this.elim

theorem entry_goal {prev : Option (Schema.ShapeKeyframe F64)} {k k' : Schema.ShapeKeyframe F64} {t t' : Time F64}
    {v v' : SplineValues F64} (h : PathEntry prev k t v) (h' : PathEntry (some k) k' t' v') :
    ∃ b, GoalOf k k' b ∧ PathPointsOf b (v.target v') := by
  unfold SplineValues.target
  rcases entry_stop h with ⟨e1, e2⟩ | ⟨ps, b, e1, e2, hp⟩
  · obtain ⟨b, hb, hp⟩ := h'.start
    rw [e1]
    exact ⟨b, .inr ⟨e2, hb⟩, hp⟩
  · rw [e1]
    exact ⟨b, .inl e2, hp⟩

theorem near_zero_of_le {w : F64} (h : (w <=. lit 0) = true) (h0 : (lit 0 <=. w) = true) : Near w 0 (1 / 2 ^ 49) := by
  obtain ⟨z1, z2⟩ := zero_of_le_le h0 h
  refine ⟨z1, ?_⟩
  unfold toR
  rw [z2]
  norm_num

theorem near_clamp_zero {x : F64} (h : (clamp x (lit 0) (lit 1) <=. lit 0) = true) :
    Near (clamp x (lit 0) (lit 1)) 0 (1 / 2 ^ 49) := by
  refine near_zero_of_le h ((F64.clamp_unit ?_).1)
  intro e
  rw [e, F64.clamp_nan] at h
  exact absurd rfl (F64.ne_nan_of_le_left h)

theorem morph_drawn [Libm F64] [Kurbo F64] {p : Schema.ShapeProperty F64} (hv : p.value = .animated ks) (hp : p.Modest)
    (hs : ks.Pairwise fun k k' => k.base.time.toR + 1 / 2 ^ 1000 ≤ k'.base.time.toR) (hn : NoFewer ks) {frame : F64}
    (hf : frame.isFin = true) {g : Geometry F64} (hg : convShapeGeometry p = .ok (some g)) {a b : Schema.Bezier F64} {e : ℝ}
    (h : MorphAt Steady ks frame a b e) :
    ∃ els closed, g.evaluate frame = .ok els ∧ (closed = true ↔ SomeClosed ks) ∧
      (a.mixed closed e b).DrawnBy (1 / 2 ^ 32) els := by
  obtain ⟨s, rfl, l1, l2, hent, hcl⟩ := C51_paths hv hg
  refine ⟨_, s.isClosed, rfl, hcl, ?_⟩
  unfold Schema.ShapeProperty.Modest at hp
  rw [hv] at hp
  have htm : ∀ k ∈ ks, k.base.time.Between (-2 ^ 1000) (2 ^ 1000) := fun k hk => (hp k hk).1
  have hm : ∀ k ∈ ks, ∀ b ∈ k.start.getD [] ++ k.stop.getD [], b.Modest := fun k hk => (hp k hk).2
  have hpw : ∀ i j (hi : i < ks.length) (hj : j < ks.length), i < j →
      ks[i].base.time.toR + 1 / 2 ^ 1000 ≤ ks[j].base.time.toR := List.pairwise_iff_getElem.mp hs
  have htimes : ∀ i (hi : i < s.times.length), ∃ hi' : i < ks.length, s.times[i].frame = ks[i].base.time := by
    intro i hi
    have hi' : i < ks.length := by omega
    obtain ⟨t, v, ht, -, he⟩ := hent i _ (List.getElem?_eq_getElem hi')
    rw [List.getElem?_eq_getElem hi] at ht
    cases ht
    exact ⟨hi', he.time.1.1⟩
  have hfin : FiniteTimes s.times := by
    intro t ht
    obtain ⟨i, hi, rfl⟩ := List.getElem_of_mem ht
    obtain ⟨hi', e⟩ := htimes i hi
    rw [e]
    exact (htm _ (List.getElem_mem hi')).1
  have hst : StrictTimes s.times := by
    unfold StrictTimes
    rw [List.pairwise_iff_getElem]
    intro i j hi hj hij
    obtain ⟨hi', ei⟩ := htimes i hi
    obtain ⟨hj', ej⟩ := htimes j hj
    rw [ei, ej, lt_fin (htm _ (List.getElem_mem hi')).1 (htm _ (List.getElem_mem hj')).1]
    have := hpw i j hi' hj' hij
    have h2 : ks[i].base.time.toR < ks[j].base.time.toR := by
      have : (0 : ℝ) < 1 / 2 ^ 1000 := by positivity
      linarith
    unfold toR at h2
    exact_mod_cast h2
  have hso := sorted_of_strict hst
  rcases h with ⟨k, hk, hlt, hsa, rfl, rfl⟩ | ⟨j, k, hk, hj, hlt, hsa, hb⟩ | ⟨j, k, k', hk, hk', hle, hlt, hsa, hgoal, h1, h2⟩
  · -- before the first keyframe
    have hlen : 0 < ks.length := (List.getElem?_eq_some_iff.mp hk).1
    obtain ⟨t, v, ht, hv0, he⟩ := hent 0 k hk
    have hkm := List.mem_of_getElem? hk
    have hse : Time.search s.times frame = 0 :=
      search_before hso frame t (by rw [List.head?_eq_getElem?]; exact ht) (by rw [he.time.1.1]; exact hlt)
    have htf : t.frame.isFin = true := hfin t (List.mem_of_getElem? ht)
    have hlt' : (frame <. t.frame) = true := by rw [he.time.1.1]; exact hlt
    by_cases h1 : 1 < ks.length
    · obtain ⟨t', v', ht', hv', he'⟩ := hent 1 _ (List.getElem?_eq_getElem h1)
      have hprev : prevKeyframe ks 1 = some k := hk
      rw [hprev] at he'
      obtain ⟨b', hb', hpb⟩ := entry_goal he he'
      rw [spline_eval s frame 0 1 t t' v v' (by omega) (by omega) ht ht' hv0 hv', mixed_zero _ _ _ b']
      refine lerp_drawn (start_modest hm (prev_mem (ks := ks) 0) hkm hsa) (goal_modest hm hkm (List.getElem_mem h1) hb')
        (entry_start he hsa) hpb ((hn 0 k _ hk hsa).2 _ b' (List.getElem?_eq_getElem h1) hb') ?_ (by norm_num) (by norm_num) _
      have ht'f : t'.frame.isFin = true := hfin t' (List.mem_of_getElem? ht')
      unfold mixWeight
      split_ifs
      · exact near_lit0.mono (by norm_num)
      · refine near_clamp_zero (weight_before htf ht'f ?_ ?_ (le_of_lt' hlt'))
        · obtain ⟨i0, e0⟩ := List.getElem?_eq_some_iff.mp ht
          obtain ⟨i1, e1⟩ := List.getElem?_eq_some_iff.mp ht'
          rw [← e0, ← e1]
          exact (List.pairwise_iff_getElem.mp hst) 0 1 i0 i1 (by omega)
        · rw [he.time.1.1, he'.time.1.1]
          exact ((bdd_of_between (k := 1000) (htm _ (List.getElem_mem h1)) (le_refl _)).sub'
            (bdd_of_between (k := 1000) (htm _ hkm) (le_refl _)) (by omega)).1
    · have hl1 : ks.length = 1 := by omega
      rw [spline_eval s frame 0 0 t t v v (by omega) (by omega) ht ht hv0 hv0]
      have hw : Near (mixWeight t t frame) 0 (1 / 2 ^ 49) := by
        unfold mixWeight
        split_ifs
        · exact near_lit0.mono (by norm_num)
        · exact near_clamp_zero (weight_before_self htf hlt')
      unfold SplineValues.target
      have hp0 := entry_start he hsa
      have ma := start_modest hm (prev_mem (ks := ks) 0) hkm hsa
      rcases entry_stop he with ⟨e1, e2⟩ | ⟨ps, b', e1, e2, hps⟩
      · rw [e1]
        exact lerp_drawn ma ma hp0 hp0 (le_refl _) hw (by norm_num) (by norm_num) _
      · rw [e1, mixed_zero _ _ _ b']
        exact lerp_drawn ma (head_modest hm hkm (.inr e2)) hp0 hps ((hn 0 k _ hk hsa).1 b' e2) hw (by norm_num)
          (by norm_num) _
  · -- after the last keyframe
    obtain ⟨t, v, ht, hv0, he⟩ := hent j k hk
    have hkm := List.mem_of_getElem? hk
    have hlt' : (t.frame <. frame) = true := by rw [he.time.1.1]; exact hlt
    have htf : t.frame.isFin = true := hfin t (List.mem_of_getElem? ht)
    have hse : Time.search s.times frame = s.times.length - 1 :=
      search_from_last hso frame t (by
        rw [List.getLast?_eq_getElem?]
        have : s.times.length - 1 = j := by omega
        rw [this]; exact ht) (le_of_lt' hlt')
    rw [spline_eval s frame j j t t v v (by omega) (by omega) ht ht hv0 hv0]
    have hw : Near (mixWeight t t frame) (if k.base.hold = some .true then 0 else 1) (1 / 2 ^ 49) := by
      unfold mixWeight
      by_cases hh : t.hold = true
      · rw [if_pos hh, if_pos (he.time.1.2.mp hh)]
        exact near_lit0.mono (by norm_num)
      · rw [if_neg hh, if_neg (fun e => hh (he.time.1.2.mpr e)), weight_after_self htf hlt']
        exact near_lit1.mono (by norm_num)
    unfold SplineValues.target
    have hp0 := entry_start he hsa
    have ma := start_modest hm (prev_mem j) hkm hsa
    rcases hb with ⟨rfl, rfl, hb⟩ | ⟨rfl, hb, hh⟩
    · rcases entry_stop he with ⟨e1, e2⟩ | ⟨ps, b', e1, e2, hps⟩
      · rw [e1]
        have hd := lerp_drawn ma ma hp0 hp0 (le_refl _) hw (by split_ifs <;> norm_num) (by split_ifs <;> norm_num)
          s.isClosed
        have hself : ∀ e : ℝ, b.mixed s.isClosed e b = b.mixed s.isClosed 0 b := by
          intro e
          unfold Schema.Bezier.mixed P2.between
          simp
        rw [hself] at hd
        exact hd
      · rw [e1, mixed_zero _ _ _ b']
        rcases hb with hb | hb
        · rw [if_pos hb] at hw
          exact lerp_drawn ma (head_modest hm hkm (.inr e2)) hp0 hps ((hn j k _ hk hsa).1 b' e2) hw (by norm_num)
            (by norm_num) _
        · rw [e2] at hb; cases hb
    · rw [if_neg hh] at hw
      rcases entry_stop he with ⟨e1, e2⟩ | ⟨ps, b', e1, e2, hps⟩
      · rw [e2] at hb; cases hb
      · rw [hb] at e2
        cases e2
        rw [e1]
        exact lerp_drawn ma (head_modest hm hkm (.inr hb)) hp0 hps ((hn j k _ hk hsa).1 b hb) hw (by norm_num)
          (by norm_num) _
  · -- between two keyframes
    obtain ⟨t, v, ht, hv0, he⟩ := hent j k hk
    obtain ⟨t', v', ht', hv', he'⟩ := hent (j + 1) k' hk'
    have hkm := List.mem_of_getElem? hk
    have hkm' := List.mem_of_getElem? hk'
    have hprev : prevKeyframe ks (j + 1) = some k := hk
    rw [hprev] at he'
    obtain ⟨b', hb', hpb⟩ := entry_goal he he'
    cases hb'.unique hgoal
    have hj1 : j + 1 < ks.length := (List.getElem?_eq_some_iff.mp hk').1
    have hse : Time.search s.times frame = j :=
      search_in hso frame j t t' ht ht' (by rw [he.time.1.1]; exact hle) (by rw [he'.time.1.1]; exact hlt)
    rw [spline_eval s frame j (j + 1) t t' v v' (by omega) (by omega) ht ht' hv0 hv']
    have bk := htm k hkm
    have bk' := htm k' hkm'
    have hle' : k.base.time.toR ≤ frame.toR := by
      have := (le_fin bk.1 hf).mp hle
      unfold toR
      exact_mod_cast this
    have hlt' : frame.toR < k'.base.time.toR := by
      have := (lt_fin hf bk'.1).mp hlt
      unfold toR
      exact_mod_cast this
    have hgap : 1 / 2 ^ 1000 ≤ k'.base.time.toR - k.base.time.toR := by
      have hj : j < ks.length := by omega
      have := hpw j (j + 1) hj hj1 (by omega)
      rw [List.getElem?_eq_getElem hj] at hk
      rw [List.getElem?_eq_getElem hj1] at hk'
      cases hk
      cases hk'
      linarith
    have hpos : 0 < k'.base.time.toR - k.base.time.toR := lt_of_lt_of_le (by positivity) hgap
    have key : Near (mixWeight t t' frame) e (1 / 2 ^ 49) ∧ 0 ≤ e ∧ e ≤ 1 := by
      unfold mixWeight
      by_cases hh : t.hold = true
      · rw [if_pos hh, h1 (he.time.1.2.mp hh)]
        exact ⟨near_lit0.mono (by norm_num), le_refl _, by norm_num⟩
      · have hst : e = _ := h2 (fun e => hh (he.time.1.2.mpr e))
        rw [if_neg hh, hst, he.time.1.1, he'.time.1.1]
        refine ⟨(weight_near hf bk bk' hle' hlt'.le hgap).1, ?_, ?_⟩
        · exact div_nonneg (by linarith) hpos.le
        · rw [div_le_one hpos]; linarith
    exact lerp_drawn (start_modest hm (prev_mem j) hkm hsa) (goal_modest hm hkm hkm' hgoal) (entry_start he hsa) hpb
      ((hn j k _ hk hsa).2 k' b hk' hgoal) key.1 key.2.1 key.2.2 _

end

/-! ## Straight easing -/

theorem eased_straight {k : Schema.KeyframeBase F64} (hk : k.Straight) {w e : ℝ} (h : Eased k w e) : e = w := by
  obtain ⟨o, i, ho, hi, u, -, -, hw, he⟩ := h
  have eo : (o.getD ⟨lit 0, lit 0⟩).x.toR = (o.getD ⟨lit 0, lit 0⟩).y.toR := by
    cases o with
    | none => rfl
    | some o => exact hk.1 o ho
  have ei : (i.getD ⟨lit 1, lit 1⟩).x.toR = (i.getD ⟨lit 1, lit 1⟩).y.toR := by
    cases i with
    | none => rfl
    | some i => exact hk.2 i hi
  rw [← hw, ← he, eo, ei]

/-! ## Handles are ignored -/

section
variable {F : Type} [FloatOps F]

/-- A time without its handles. -/
def Time.plain (t : Time F) : Time F := { t with inTangent := none, outTangent := none }

/-- A keyframe without its handles. -/
def Schema.ShapeKeyframe.plain (k : Schema.ShapeKeyframe F) : Schema.ShapeKeyframe F :=
  { k with base := { k.base with inTangent := none, outTangent := none } }

theorem search_plain (ts : List (Time F)) (frame : F) : Time.search (ts.map Time.plain) frame = Time.search ts frame := by
  unfold Time.search
  rw [binarySearchBy_map]
  rfl

theorem spline_plain (c : Bool) (ts : List (Time F)) (vs : List (SplineValues F)) (frame : F) :
    AnimSpline.evaluate ⟨c, ts.map Time.plain, vs⟩ frame = AnimSpline.evaluate ⟨c, ts, vs⟩ frame := by
  unfold AnimSpline.evaluate Time.framesAndWeight
  dsimp only
  by_cases h : ts.length = 0
  · rw [dif_pos h, dif_pos (by simpa using h)]
  · rw [dif_neg h, dif_neg (by simpa using h)]
    simp only [List.length_map, search_plain, List.getElem_map]
    rfl

omit [FloatOps F] in
theorem startBezier_plain (prev : Option (Schema.ShapeKeyframe F)) (k : Schema.ShapeKeyframe F) :
    startBezier (prev.map Schema.ShapeKeyframe.plain) k.plain = startBezier prev k := by
  unfold startBezier
  cases prev <;> rfl

theorem splineLoop_plain {ks : List (Schema.ShapeKeyframe F)} : ∀ {prev : Option (Schema.ShapeKeyframe F)}
    {ts : List (Time F)} {vs : List (SplineValues F)} {c : Bool}, splineLoop prev ks = .ok (some (ts, vs, c)) →
    splineLoop (prev.map Schema.ShapeKeyframe.plain) (ks.map Schema.ShapeKeyframe.plain) =
      .ok (some (ts.map Time.plain, vs, c)) := by
  induction ks with
  | nil =>
    intro prev ts vs c h
    cases h
    rfl
  | cons k ks ih =>
    intro prev ts vs c h
    obtain ⟨t, ht, h⟩ := bind_ok h
    obtain ⟨sb, hsb, h⟩ := bind_ok h
    cases sb with
    | none => cases h
    | some sb =>
      obtain ⟨r, hr, h⟩ := bind_ok h
      cases r with
      | none => cases h
      | some r =>
        obtain ⟨ts', vs', c'⟩ := r
        have ih' := ih hr
        have hpt : convTime k.plain.base = .ok t.plain := by
          obtain ⟨i, hi, ht⟩ := bind_ok ht
          obtain ⟨o, ho, ht⟩ := bind_ok ht
          cases ht
          rfl
        show (do
          let t ← convTime k.plain.base
          _) = _
        rw [hpt, startBezier_plain, hsb]
        simp only [Option.map_some] at ih'
        cases h
        show (do
          let r ← splineLoop (some k.plain) (ks.map Schema.ShapeKeyframe.plain)
          _) = _
        rw [ih']
        rfl

end

end Velato
