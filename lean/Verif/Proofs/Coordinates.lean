import Verif.Spec.Coordinates
import Verif.Proofs.Accuracy
import Verif.Proofs.ImportShapes
import Verif.Proofs.NanTween
import Verif.Proofs.ModerateValues
import Verif.Proofs.EasingAccuracy

/-!
# Outlines with finite coordinates in double precision: helper lemmas
-/

set_option exponentiation.threshold 2000

namespace Velato
open FloatOps (lit)
open F64
open Import

/-! ## Numbers -/

theorem bdd_of_between {x : F64} {B : ℝ} {k : Nat} (h : x.Between (-B) B) (hB : B ≤ 2 ^ k) : Bdd x k := by
  refine ⟨h.1, ?_⟩
  have : |x.toR| ≤ 2 ^ k := (abs_le.mpr h.2).trans hB
  unfold toR at this
  have e : |((x.toQ : ℚ) : ℝ)| = ((|x.toQ| : ℚ) : ℝ) := by push_cast; rfl
  rw [e] at this
  exact_mod_cast this

theorem bdd_between {x : F64} {k : Nat} (h : Bdd x k) : x.Between (-2 ^ k) (2 ^ k) := by
  refine ⟨h.1, ?_⟩
  rw [← abs_le]
  have := h.2
  unfold toR
  have e : |((x.toQ : ℚ) : ℝ)| = ((|x.toQ| : ℚ) : ℝ) := by push_cast; rfl
  rw [e]
  exact_mod_cast this

theorem Near.bdd {x : F64} {r e B : ℝ} {k : Nat} (h : Near x r e) (hr : |r| ≤ B) (hB : B + e ≤ 2 ^ k) : Bdd x k :=
  bdd_of_between ⟨h.fin, abs_le.mp (h.abs_le hr)⟩ hB

theorem unit_bdd {x : F64} (h : x.Between 0 1) : Bdd x 0 :=
  bdd_of_between (B := 1) ⟨h.1, by linarith [h.2.1], h.2.2⟩ (by norm_num)

theorem P2.UpTo.mono {k l : Nat} {p : P2 F64} (h : p.UpTo k) (hl : k ≤ l) : p.UpTo l := ⟨h.1.mono hl, h.2.mono hl⟩

theorem PathEl.UpTo.mono {k l : Nat} {el : PathEl F64} (h : el.UpTo k) (hl : k ≤ l) : el.UpTo l :=
  fun p hp => (h p hp).mono hl

theorem P2.UpTo.add {k : Nat} {p q : P2 F64} (hp : p.UpTo k) (hq : q.UpTo k) (h : k + 1 < 1024) :
    P2.UpTo (k + 1) ⟨p.x +. q.x, p.y +. q.y⟩ := ⟨hp.1.add' hq.1 h, hp.2.add' hq.2 h⟩

theorem P2.UpTo.lerp {k : Nat} {p q : P2 F64} {t : F64} (hp : p.UpTo k) (hq : q.UpTo k) (ht : Bdd t 0)
    (h : k + 2 < 1024) : (p.lerp q t).UpTo (k + 2) := by
  have go : ∀ {x y : F64}, Bdd x k → Bdd y k → Bdd (x +. t *. (y -. x)) (k + 2) := by
    intro x y hx hy
    have h1 : Bdd (t *. (y -. x)) (k + 1) := by
      have := ht.mul' (hy.sub' hx (by omega)) (by omega)
      rwa [Nat.zero_add] at this
    exact (hx.mono (by omega)).add' h1 (by omega)
  exact ⟨go hp.1 hq.1, go hp.2 hq.2⟩

theorem zero_upTo (k : Nat) : P2.UpTo k ⟨lit 0, lit 0⟩ := ⟨bdd_lit0.mono (by omega), bdd_lit0.mono (by omega)⟩

/-! ## Paths -/

theorem splineElement_upTo {k : Nat} {p0 c0 c1 p1 : P2 F64} (h0 : p0.UpTo k) (h1 : c0.UpTo k) (h2 : c1.UpTo k)
    (h3 : p1.UpTo k) (h : k + 1 < 1024) : (splineElement p0 c0 c1 p1).UpTo (k + 1) := by
  unfold splineElement
  dsimp only
  split_ifs
  · intro p hp
    cases List.mem_singleton.mp hp
    exact h3.mono (by omega)
  · intro p hp
    simp only [PathEl.points, List.mem_cons, List.not_mem_nil, or_false] at hp
    rcases hp with rfl | rfl | rfl
    · exact h1.add h0 h
    · exact h2.add h3 h
    · exact h3.mono (by omega)

theorem toPath_upTo {k len : Nat} {get : Fin len → P2 F64} (hg : ∀ i, (get i).UpTo k) (h : k + 1 < 1024)
    (c : Bool) : ∀ el ∈ toPath len get c, el.UpTo (k + 1) := by
  intro el hel
  unfold toPath at hel
  split_ifs at hel with h0
  · cases hel
  · dsimp only at hel
    simp only [List.mem_append, List.mem_singleton, List.mem_map] at hel
    rcases hel with (rfl | ⟨j, -, rfl⟩) | hel
    · intro p hp
      cases List.mem_singleton.mp hp
      exact (hg _).mono (by omega)
    · exact splineElement_upTo (hg _) (hg _) (hg _) (hg _) h
    · split_ifs at hel with hn
      · simp only [List.mem_cons, List.not_mem_nil, or_false] at hel
        rcases hel with rfl | rfl
        · exact splineElement_upTo (hg _) (hg _) (hg _) (hg _) h
        · exact fun p hp => absurd hp List.not_mem_nil
      · cases hel

theorem lerpToPath_upTo {k : Nat} {ps qs : List (P2 F64)} (hp : ∀ p ∈ ps, p.UpTo k) (hq : ∀ q ∈ qs, q.UpTo k)
    {t : F64} (ht : Bdd t 0) (h : k + 3 < 1024) (c : Bool) :
    ∀ el ∈ splineLerpToPath ps qs t c, el.UpTo (k + 3) := by
  unfold splineLerpToPath
  exact toPath_upTo (fun i => (hp _ (List.getElem_mem _)).lerp (hq _ (List.getElem_mem _)) ht (by omega)) (by omega) c

theorem pathPoints_upTo {b : Schema.Bezier F64} (hb : b.Modest) {ps : List (P2 F64)} (h : PathPointsOf b ps) :
    ∀ p ∈ ps, p.UpTo 13 := by
  intro p hp
  obtain ⟨j, hj, rfl⟩ := List.mem_iff_getElem.mp hp
  have pair : ∀ q : F64 × F64, q ∈ b.vertices ++ b.inTangents ++ b.outTangents → P2.UpTo 13 ⟨q.1, q.2⟩ := by
    intro q hq
    obtain ⟨h1, h2⟩ := hb q hq
    exact ⟨bdd_of_between h1 (by norm_num), bdd_of_between h2 (by norm_num)⟩
  have tangent : ∀ (l : List (F64 × F64)) (i : Nat), (∀ q ∈ l, q ∈ b.vertices ++ b.inTangents ++ b.outTangents) →
      P2.UpTo 13 ⟨(l[i]?.getD (lit 0, lit 0)).1, (l[i]?.getD (lit 0, lit 0)).2⟩ := by
    intro l i hl
    cases hi : l[i]? with
    | none => exact zero_upTo 13
    | some q => exact pair q (hl q (List.mem_of_getElem? hi))
  obtain ⟨hlen, hat⟩ := h
  have hi : j / 3 < b.vertices.length := by omega
  obtain ⟨h0, h1, h2⟩ := hat (j / 3) _ (List.getElem?_eq_getElem hi)
  have cases3 : j = 3 * (j / 3) ∨ j = 3 * (j / 3) + 1 ∨ j = 3 * (j / 3) + 2 := by omega
  have hj' := List.getElem?_eq_getElem hj
  rcases cases3 with e | e | e
  · rw [← e, hj'] at h0
    rw [Option.some.inj h0]
    exact pair _ (List.mem_append_left _ (List.mem_append_left _ (List.getElem_mem hi)))
  · have h1 := h1 _ rfl
    rw [← e, hj'] at h1
    rw [Option.some.inj h1]
    exact tangent _ _ fun q hq => List.mem_append_left _ (List.mem_append_right _ hq)
  · have h2 := h2 _ rfl
    rw [← e, hj'] at h2
    rw [Option.some.inj h2]
    exact tangent _ _ fun q hq => List.mem_append_right _ hq

theorem div_ne_nan {x y : F64} (hx : x ≠ .nan) (hy : y.isFin = true) (h : ¬ (x.isFin = true ∧ x.toQ = 0 ∧ y.toQ = 0)) :
    x /. y ≠ .nan := by
  obtain ⟨t, b, hb, rfl⟩ := isFin_iff.mp hy
  cases x with
  | nan => exact absurd rfl hx
  | inf s => exact nofun
  | fin s a ha =>
    show F64.div _ _ ≠ _
    unfold F64.div
    dsimp only
    split_ifs with h1 h2
    · exact absurd ⟨rfl, toQ_eq_zero_iff.mpr h2, toQ_eq_zero_iff.mpr h1⟩ h
    · exact nofun
    · exact ofRat_not_nan _ _

theorem clamp_unit {x : F64} (h : x ≠ .nan) : (clamp x (lit 0) (lit 1)).Between 0 1 := by
  have f0 := near_lit0.fin
  have f1 := near_lit1.fin
  have z : (lit 0 : F64).Between 0 1 := ⟨f0, by rw [lit_toR0], by rw [lit_toR0]; norm_num⟩
  have o : (lit 1 : F64).Between 0 1 := ⟨f1, by rw [lit_toR1]; norm_num, by rw [lit_toR1]⟩
  unfold clamp
  dsimp only
  by_cases c1 : (x <. lit 0) = true
  · rw [if_pos c1]
    split_ifs
    · exact o
    · exact z
  · rw [if_neg c1]
    by_cases c2 : (lit 1 <. x) = true
    · rw [if_pos c2]; exact o
    · rw [if_neg c2]
      cases x with
      | nan => exact absurd rfl h
      | inf s =>
        cases s
        · exact absurd (by decide +kernel) c2
        · exact absurd (by decide +kernel) c1
      | fin s a ha =>
        rw [toR_lt rfl f0, lit_toR0, not_lt] at c1
        rw [toR_lt f1 rfl, lit_toR1, not_lt] at c2
        exact ⟨rfl, c1, c2⟩

theorem sub_zero_iff {x y : F64} (hx : x ≠ .nan) (hy : y.isFin = true) : x -. y ≠ .nan ∧
    ((x -. y).isFin = true → (x -. y).toQ = 0 → (x ==. y) = true) := by
  cases x with
  | nan => exact absurd rfl hx
  | inf s =>
    obtain ⟨t, b, hb, rfl⟩ := isFin_iff.mp hy
    exact ⟨nofun, nofun⟩
  | fin s a ha =>
    obtain ⟨u, e⟩ := sub_eq (x := .fin s a ha) rfl hy
    have hx : (F64.fin s a ha).isFin = true := rfl
    generalize F64.fin s a ha = x at *
    have nn : x -. y ≠ .nan := by
      show F64.sub x y ≠ _
      rw [e]
      exact ofRat_not_nan _ _
    refine ⟨nn, fun hf h0 => ?_⟩
    rw [beq_fin hx hy]
    by_contra hne
    change (F64.sub x y).isFin = true at hf
    change (F64.sub x y).toQ = 0 at h0
    rw [e] at hf h0
    by_cases hr : |rnd (x.toQ - y.toQ)| < maxMag
    · rw [(ofRat_fin hr).2] at h0
      rcases lt_or_gt_of_ne hne with h | h
      · exact absurd h0 (rnd_sub_neg (exact_toQ x) (exact_toQ y) h).ne
      · exact absurd h0 (rnd_sub_pos (exact_toQ x) (exact_toQ y) h).ne'
    · rw [ofRat_inf hr] at hf
      cases hf

/-- The weight of a path at a frame where it is defined. -/
theorem weight_bdd {p : Schema.ShapeProperty F64} {ks : List (Schema.ShapeKeyframe F64)} (hv : p.value = .animated ks)
    {frame : F64} (hf : frame ≠ .nan) (hd : p.DefinedAt frame)
    (hk : ∀ k ∈ ks, k.base.time.Between (-2 ^ 1000) (2 ^ 1000)) {ts : List (Time F64)}
    (hts : ∀ (i : Nat) (t : Time F64), ts[i]? = some t → ∃ k, ks[i]? = some k ∧ TimeOf k.base t)
    (hlen : ts.length = ks.length) {w : FrameWeight F64} (hw : Time.framesAndWeight ts frame = some w) :
    Bdd (if w.hold then lit 0 else w.t) 0 := by
  unfold Time.framesAndWeight at hw
  split_ifs at hw with h0
  dsimp only at hw
  cases hw
  dsimp only
  split_ifs with hh
  · exact bdd_lit0
  · set i := min (Time.search ts frame) (ts.length - 1) with hi
    set j := min (i + 1) (ts.length - 1) with hj
    have hi' : i < ts.length := by omega
    have hj' : j < ts.length := by omega
    obtain ⟨k, hki, ⟨hkt, hkh⟩⟩ := hts i _ (List.getElem?_eq_getElem hi')
    obtain ⟨k', hkj, ⟨hkt', -⟩⟩ := hts j _ (List.getElem?_eq_getElem hj')
    have b := hk k (List.mem_of_getElem? hki)
    have b' := hk k' (List.mem_of_getElem? hkj)
    rw [← hkt] at b
    rw [← hkt'] at b'
    have hsub : Bdd (ts[j].frame -. ts[i].frame) 1001 :=
      (bdd_of_between (k := 1000) b' (le_refl _)).sub' (bdd_of_between (k := 1000) b (le_refl _)) (by omega)
    obtain ⟨n1, z1⟩ := sub_zero_iff hf b.1
    obtain ⟨-, z2⟩ := sub_zero_iff (x := ts[j].frame) (fun e => by rw [e] at b'; exact absurd b'.1 nofun) b.1
    refine unit_bdd (clamp_unit (div_ne_nan n1 hsub.1 ?_))
    rintro ⟨h1, h2, h3⟩
    have e1 := z1 h1 h2
    have e2 := z2 hsub.1 h3
    rw [hkt] at e1
    have nh : k.base.hold ≠ some .true := fun e => hh (by rw [hkh]; exact e)
    obtain ⟨k'', hk'', hne⟩ := hd ks hv i k hki nh e1
    have hlt : i + 1 < ks.length := (List.getElem?_eq_some_iff.mp hk'').1
    have ej : j = i + 1 := by omega
    rw [ej] at hkj
    rw [hk''] at hkj
    cases hkj
    rw [hkt, hkt'] at e2
    rw [hne] at e2
    cases e2

theorem path_upTo [Libm F64] [Kurbo F64] {p : Schema.ShapeProperty F64} (hp : p.Modest) {frame : F64} (hf : frame ≠ .nan)
    (hd : p.DefinedAt frame) {g : Geometry F64} (hg : PathOf p g) {els : List (PathEl F64)}
    (he : g.evaluate frame = .ok els) : ∀ el ∈ els, el.UpTo 26 := by
  unfold PathOf at hg
  unfold Schema.ShapeProperty.Modest at hp
  cases hv : p.value with
  | static b =>
    rw [hv] at hg hp
    obtain ⟨ps, hps, rfl⟩ := hg
    cases he
    intro el hel
    exact (toPath_upTo (fun i => pathPoints_upTo hp hps _ (List.getElem_mem i.2)) (by norm_num) _ el hel).mono
      (by norm_num)
  | animated ks =>
    rw [hv] at hg hp
    obtain ⟨s, rfl, h1, h2, h3, -⟩ := hg
    cases he
    have hts : ∀ (i : Nat) (t : Time F64), s.times[i]? = some t → ∃ k, ks[i]? = some k ∧ TimeOf k.base t := by
      intro i t ht
      have hi : i < ks.length := by rw [← h1]; exact (List.getElem?_eq_some_iff.mp ht).1
      obtain ⟨t', v, ht', -, h⟩ := h3 i _ (List.getElem?_eq_getElem hi)
      rw [ht] at ht'
      cases ht'
      exact ⟨_, List.getElem?_eq_getElem hi, h.time.1⟩
    have hb : ∀ {k : Schema.ShapeKeyframe F64} {b : Schema.Bezier F64}, k ∈ ks →
        (k.start.bind List.head? = some b ∨ k.stop.bind List.head? = some b) → b.Modest := by
      intro k b hk h
      refine (hp k hk).2 b ?_
      rcases h with h | h
      · obtain ⟨bs, e, hb⟩ := Option.bind_eq_some_iff.mp h
        rw [e]
        exact List.mem_append_left _ (List.mem_of_head? hb)
      · obtain ⟨bs, e, hb⟩ := Option.bind_eq_some_iff.mp h
        rw [e]
        exact List.mem_append_right _ (List.mem_of_head? hb)
    have hvals : ∀ (i : Nat) v, s.values[i]? = some v → (∀ q ∈ v.start, q.UpTo 13) ∧
        ∀ l, v.stop = some l → ∀ q ∈ l, q.UpTo 13 := by
      intro i v hv
      have hi : i < ks.length := by rw [← h2]; exact (List.getElem?_eq_some_iff.mp hv).1
      obtain ⟨t, v', -, hv', h⟩ := h3 i _ (List.getElem?_eq_getElem hi)
      rw [hv] at hv'
      cases hv'
      have hki := List.getElem_mem hi
      obtain ⟨b, hs, hps⟩ := h.start
      refine ⟨pathPoints_upTo ?_ hps, ?_⟩
      · unfold StartOf at hs
        split at hs
        · rename_i bs e
          exact hb hki (.inl (by rw [e]; exact hs))
        · obtain ⟨q, hq, hs⟩ := hs
          have hq : q ∈ ks := by
            cases i with
            | zero => cases hq
            | succ i => exact List.mem_of_getElem? hq
          rcases hs with hs | ⟨-, hs⟩
          · exact hb hq (.inr hs)
          · exact hb hq (.inl hs)
      · intro l hl
        have hst := h.stop
        rw [hl] at hst
        split at hst
        · rename_i e _; cases e
        · rename_i e e2
          cases e
          exact pathPoints_upTo (hb hki (.inr e2)) hst
        · exact hst.elim
    unfold AnimSpline.evaluate
    split
    · exact fun _ h => absurd h List.not_mem_nil
    · rename_i w hw
      have hwt := weight_bdd hv hf hd (fun k hk => (hp k hk).1) hts h1 hw
      dsimp only
      split
      · rename_i v0 v1 e0 e1
        intro el hel
        cases hst : v0.stop with
        | some e =>
          rw [hst] at hel
          exact (lerpToPath_upTo (hvals _ _ e0).1 ((hvals _ _ e0).2 e hst) hwt (by norm_num) _ el hel).mono
            (by norm_num)
        | none =>
          rw [hst] at hel
          exact (lerpToPath_upTo (hvals _ _ e0).1 (hvals _ _ e1).1 hwt (by norm_num) _ el hel).mono (by norm_num)
      · exact fun _ h => absurd h List.not_mem_nil

/-! ## Rectangles and ellipses -/

section
variable [Kurbo F64]

theorem position_upTo {p : Schema.Position F64} (hp : PositionWithin (-8000) 8000 (-8000) 8000 p) (frame : F64) :
    ((convPosPoint p).evaluate frame).UpTo 13 :=
  ⟨bdd_of_between (position_within hp frame).1 (le_refl _), bdd_of_between (position_within hp frame).2 (le_refl _)⟩

theorem vector_upTo {p : Schema.MultiDimensional F64} (hp : VectorWithin (-8000) 8000 (-8000) 8000 p)
    (frame : F64) : ((convMultiP2 p).evaluate frame).UpTo 13 := by
  have h := C114_vectors hp (M := 8000) (by norm_num) (by norm_num) (by norm_num) (by norm_num)
    (by norm_num) frame RDefault.dflt
  rw [← Value.evaluate_eq] at h
  have e : overshoot (-8000) 8000 8000 ≤ 192 := by unfold overshoot; norm_num
  exact ⟨bdd_of_between (B := 8192) ⟨h.1.1, by linarith [h.1.2.1], by linarith [h.1.2.2]⟩ (by norm_num),
    bdd_of_between (B := 8192) ⟨h.2.1, by linarith [h.2.2.1], by linarith [h.2.2.2]⟩ (by norm_num)⟩

theorem radius_bdd {p : Schema.FloatValue F64} {v : Value F64 F64} (h : convScalar p = .ok v)
    (hp : ScalarWithin (-8000) 8000 p) (frame : F64) : Bdd (v.evaluate frame) 13 :=
  bdd_of_between (scalar_within h hp (M := 8000) (B := 8192) (by norm_num) (by norm_num)
    (by unfold overshoot; norm_num) frame) (by norm_num)

omit [Kurbo F64] in
theorem bdd_half : Bdd (lit (1 / 2)) 0 := ⟨by decide +kernel, by decide +kernel⟩

omit [Kurbo F64] in
theorem half_bdd {x : F64} {k : Nat} (h : Bdd x k) (hk : k < 1024) : Bdd (x *. lit (1 / 2)) k :=
  h.mul' bdd_half (by omega)

theorem ellipse_upTo (hK : BoundedKurbo) {s : Schema.EllipseShape F64}
    (h : Schema.AnyShape.Modest (.ellipse s)) (frame : F64) :
    ∀ el ∈ AnimEllipse.evaluate ⟨false, convPosPoint s.position, convMultiP2 s.size⟩ frame, el.UpTo 26 := by
  obtain ⟨h1, h2⟩ := h
  have c := position_upTo h1 frame
  have r := vector_upTo h2 frame
  intro el hel
  exact (hK.ellipse _ _ (c.mono (by norm_num))
    ⟨(half_bdd r.1 (by norm_num)).mono (by norm_num), (half_bdd r.2 (by norm_num)).mono (by norm_num)⟩ el hel).mono
    (by norm_num)

theorem rect_upTo (hK : BoundedKurbo) {s : Schema.RectangleShape F64}
    (h : Schema.AnyShape.Modest (.rectangle s)) {r : Value F64 F64} (hr : convScalar s.roundedCornerRadius = .ok r)
    (frame : F64) :
    ∀ el ∈ AnimRect.evaluate ⟨false, convPosPoint s.position, convMultiP2 s.size, r⟩ frame, el.UpTo 26 := by
  obtain ⟨h1, h2, h3⟩ := h
  have c := position_upTo h1 frame
  have d := vector_upTo h2 frame
  have go : ∀ {x y : F64}, Bdd x 13 → Bdd y 13 → Bdd (x -. y *. lit (1 / 2)) 14 :=
    fun hx hy => hx.sub' (half_bdd hy (by norm_num)) (by norm_num)
  have x0 := go c.1 d.1
  have y0 := go c.2 d.2
  intro el hel
  exact (hK.rect _ _ _ _ _ ⟨x0.mono (by norm_num), y0.mono (by norm_num)⟩
    ⟨x0.add' (d.1.mono (by norm_num)) (by norm_num), y0.add' (d.2.mono (by norm_num)) (by norm_num)⟩
    ((radius_bdd hr h3 frame).mono (by norm_num)) el hel).mono (by norm_num)

end

/-! ## Stars -/

/-- All three points of a vertex. -/
def StarVertex.UpTo (k : Nat) (v : StarVertex F64) : Prop := v.pt.UpTo k ∧ v.inPt.UpTo k ∧ v.outPt.UpTo k

theorem div_bdd {x : F64} {k : Nat} {q : ℚ} {n : Nat} (h : Bdd x k) (hn : n < 2 ^ 53) (hq : q = n) (h1 : 1 ≤ n)
    (hk : k < 1000) : Bdd (x /. lit q) k := by
  have hl := lit_nat hn
  rw [← hq] at hl
  have hq1 : (1 : ℚ) ≤ q := by rw [hq]; exact_mod_cast h1
  have h0 : (lit q : F64).toQ ≠ 0 := by rw [hl.2]; linarith
  have hle : |x.toQ / (lit q : F64).toQ| ≤ 2 ^ k := by
    rw [hl.2, abs_div, abs_of_pos (by linarith : (0 : ℚ) < q)]
    exact (div_le_self (abs_nonneg _) hq1).trans h.2
  have hr := abs_rnd_le hle
  obtain ⟨f, e⟩ := div_fin h.1 hl.1 h0 (hr.trans_lt (pow_lt_maxMag (by omega)))
  exact ⟨f, by show |(F64.div x _).toQ| ≤ _; rw [e]; exact hr⟩

section
variable [Libm F64]

theorem sin_bdd (hl : AccurateLibm) {x : F64} (h : x.Between (-(2 ^ 10)) (2 ^ 10)) : Bdd (Libm.sin x) 1 :=
  Near.bdd (hl.sin x h) (Real.abs_sin_le_one _) (by norm_num)

theorem cos_bdd (hl : AccurateLibm) {x : F64} (h : x.Between (-(2 ^ 10)) (2 ^ 10)) : Bdd (Libm.cos x) 1 :=
  Near.bdd (hl.cos x h) (Real.abs_cos_le_one _) (by norm_num)

theorem tan_bdd (hl : AccurateLibm) {x : F64} (h : x.Between (-(6 / 5)) (6 / 5)) : Bdd (Libm.tan x) 5 := by
  refine Near.bdd (hl.tan x h) (B := 20) ?_ (by norm_num)
  have := abs_tan_sub_tan_le (x := x.toR) (y := 0) (abs_le.mpr h.2) (by norm_num)
  rw [Real.tan_zero, sub_zero, sub_zero] at this
  have h2 := abs_le.mpr h.2
  linarith

theorem starVertex_upTo (hl : AccurateLibm) {c : P2 F64} (hc : c.UpTo 13) {radius roundness angle step : F64}
    (hr : Bdd radius 13) (hq : Bdd roundness 4) (ha : angle.Between (-(2 ^ 10)) (2 ^ 10))
    (hs : (step /. lit 2).Between (-(6 / 5)) (6 / 5)) :
    (starVertex c radius roundness angle step).UpTo 26 := by
  have s := sin_bdd hl ha
  have co := cos_bdd hl ha
  have x : Bdd (c.x +. radius *. Libm.cos angle) 15 := (hc.1.mono (by norm_num)).add' (hr.mul' co (by norm_num)) (by norm_num)
  have y : Bdd (c.y +. radius *. Libm.sin angle) 15 := (hc.2.mono (by norm_num)).add' (hr.mul' s (by norm_num)) (by norm_num)
  have pt : P2.UpTo 26 ⟨c.x +. radius *. Libm.cos angle, c.y +. radius *. Libm.sin angle⟩ :=
    ⟨x.mono (by norm_num), y.mono (by norm_num)⟩
  unfold starVertex
  dsimp only
  split_ifs
  · have four : Bdd (lit 4) 2 := ⟨by decide +kernel, by decide +kernel⟩
    have l1 := ((hr.mul' (tan_bdd hl hs) (by norm_num)).mul' hq (by norm_num)).mul' four (by norm_num)
    have l := div_bdd (n := 3) (q := 3) l1 (by norm_num) (by norm_num) (by norm_num) (by norm_num)
    have lx := l.mul' s.neg' (by norm_num)
    have ly := l.mul' co (by norm_num)
    exact ⟨pt, ⟨(x.mono (by norm_num)).sub' lx (by norm_num), (y.mono (by norm_num)).sub' ly (by norm_num)⟩,
      ⟨(x.mono (by norm_num)).add' lx (by norm_num), (y.mono (by norm_num)).add' ly (by norm_num)⟩⟩
  · exact ⟨pt, pt, pt⟩

theorem starVertices_upTo (hl : AccurateLibm) {c : P2 F64} (hc : c.UpTo 13) {isStar : Bool} {outer inner : F64 × F64}
    (ho : Bdd outer.1 13 ∧ Bdd outer.2 4) (hi : Bdd inner.1 13 ∧ Bdd inner.2 4) {step : F64} (hf : step.isFin = true)
    (hs : (step /. lit 2).Between (-(6 / 5)) (6 / 5)) (n : Nat) : ∀ (i : Nat) {angle : F64}, angle.isFin = true →
    |angle.toR| + n * (|step.toR| + 1 / 2 ^ 40) ≤ 2 ^ 9 →
      ∀ v ∈ starVertices c isStar outer inner step n i angle, v.UpTo 26 := by
  induction n with
  | zero => exact fun _ _ _ _ _ h => absurd h List.not_mem_nil
  | succ n ih =>
    intro i angle hfa ha v hv
    unfold starVertices at hv
    dsimp only at hv
    have hn : (0 : ℝ) ≤ n * (|step.toR| + 1 / 2 ^ 40) := by positivity
    have hs0 := abs_nonneg step.toR
    push_cast at ha
    have e : ((n : ℝ) + 1) * (|step.toR| + 1 / 2 ^ 40) = n * (|step.toR| + 1 / 2 ^ 40) + |step.toR| + 1 / 2 ^ 40 := by
      ring
    rw [e] at ha
    have n40 : (0 : ℝ) ≤ 1 / 2 ^ 40 := by positivity
    rcases List.mem_cons.mp hv with rfl | hv
    · have hb : angle.Between (-(2 ^ 10)) (2 ^ 10) := by
        refine ⟨hfa, abs_le.mp ?_⟩
        linarith [show (2 : ℝ) ^ 9 ≤ 2 ^ 10 by norm_num]
      split_ifs
      · exact starVertex_upTo hl hc ho.1 ho.2 hb hs
      · exact starVertex_upTo hl hc hi.1 hi.2 hb hs
    · have hsum : |angle.toR + step.toR| ≤ 2 ^ 9 := (abs_add_le _ _).trans (by linarith)
      have h := (Near.self hfa).add (Near.self hf) (B := 2 ^ 9) (E := 1 / 2 ^ 40) hsum (by norm_num) (by norm_num)
      refine ih (i + 1) h.fin ?_ v hv
      have := h.abs_le (abs_add_le _ _)
      linarith

omit [Libm F64] in
theorem starEdges_upTo {k : Nat} {first : StarVertex F64} (hf : first.UpTo k) {rest : List (StarVertex F64)}
    (hr : ∀ v ∈ rest, v.UpTo k) : ∀ {prev : StarVertex F64}, prev.UpTo k →
      ∀ el ∈ starEdges first prev rest, el.UpTo k := by
  have curve : ∀ {u v : StarVertex F64}, u.UpTo k → v.UpTo k → PathEl.UpTo k (.curveTo u.outPt v.inPt v.pt) := by
    intro u v hu hv p hp
    simp only [PathEl.points, List.mem_cons, List.not_mem_nil, or_false] at hp
    rcases hp with rfl | rfl | rfl
    · exact hu.2.2
    · exact hv.2.1
    · exact hv.1
  have close : PathEl.UpTo k .closePath := fun p hp => absurd hp List.not_mem_nil
  induction rest with
  | nil =>
    intro prev hp el hel
    unfold starEdges at hel
    split_ifs at hel
    · cases List.mem_singleton.mp hel; exact close
    · simp only [List.mem_cons, List.not_mem_nil, or_false] at hel
      rcases hel with rfl | rfl
      · exact curve hp hf
      · exact close
  | cons v rest ih =>
    intro prev hp el hel
    unfold starEdges at hel
    have hv := hr v List.mem_cons_self
    rcases List.mem_cons.mp hel with rfl | hel
    · unfold starEdge
      split_ifs
      · intro p hp'
        cases List.mem_singleton.mp hp'
        exact hv.1
      · exact curve hp hv
    · exact ih (fun w hw => hr w (List.mem_cons_of_mem _ hw)) hv el hel

omit [Libm F64] in
theorem fin_of_toQ_pos {y : F64} (h1 : y.isFin = true) (h2 : 0 < y.toQ) : ∃ a h, y = .fin false a h ∧ y.toQ = a := by
  cases y with
  | nan => cases h1
  | inf s => cases h1
  | fin s a h =>
    cases s with
    | false => exact ⟨a, h, rfl, by simp [toQ]⟩
    | true =>
      exfalso
      have : 0 ≤ a := by
        obtain ⟨m, e, -, -, rfl⟩ := h.1
        positivity
      simp only [toQ, if_true] at h2
      linarith

omit [Libm F64] in
/-- Rounding a number from 5/2 to 100001. -/
theorem points_round {x : F64} (h : x.Between (5 / 2) 100001) :
    3 ≤ FloatOps.toUsize (FloatOps.round x) ∧ FloatOps.toUsize (FloatOps.round x) ≤ 100001 ∧
      |(FloatOps.toUsize (FloatOps.round x) : ℝ) - x.toR| ≤ 1 / 2 := by
  have h0 : (5 / 2 : ℚ) ≤ x.toQ := by
    have := h.2.1; unfold toR at this
    have e : ((5 / 2 : ℚ) : ℝ) = 5 / 2 := by norm_num
    rw [← e] at this; exact_mod_cast this
  have h1 : x.toQ ≤ 100001 := by
    have := h.2.2; unfold toR at this; exact_mod_cast this
  obtain ⟨a, ha, rfl, e⟩ := fin_of_toQ_pos h.1 (by linarith)
  rw [e] at h0 h1
  have l : 3 ≤ ⌊a + 1 / 2⌋ := Int.le_floor.mpr (by push_cast; linarith)
  have u : ⌊a + 1 / 2⌋ ≤ 100001 := by
    have : ⌊a + 1 / 2⌋ < 100002 := Int.floor_lt.mpr (by push_cast; linarith)
    omega
  obtain ⟨N, hN⟩ := Int.eq_ofNat_of_zero_le (show (0 : Int) ≤ ⌊a + 1 / 2⌋ by omega)
  have hx : FloatOps.round (F64.fin false a ha) = ofRat false (N : ℚ) := by
    show F64.round _ = _
    unfold F64.round
    simp only [Bool.false_eq_true, if_false]
    rw [hN]
    norm_cast
  rw [hx]
  have hNl : 3 ≤ N := by omega
  have hNu : N ≤ 100001 := by omega
  have hex := ofRat_exact (s := false) (q := (N : ℚ)) (exact_natCast (by omega)) (by
    rw [Nat.abs_cast]
    have : (N : ℚ) ≤ 100001 := by exact_mod_cast hNu
    unfold maxMag
    exact this.trans_lt (by norm_num))
  obtain ⟨b, hb, e2, e3⟩ := fin_of_toQ_pos hex.1 (by rw [hex.2]; exact_mod_cast (by omega : 0 < N))
  rw [hex.2] at e3
  rw [e2]
  subst e3
  have eN : FloatOps.toUsize (F64.fin false (N : ℚ) hb) = N := by
    show F64.toUsize _ = _
    unfold F64.toUsize
    simp only [Bool.false_eq_true, if_false, Int.floor_natCast, Int.toNat_natCast]
    omega
  rw [eN]
  refine ⟨by omega, by omega, ?_⟩
  have f1 : (N : ℚ) ≤ a + 1 / 2 := by
    have := Int.floor_le (a + 1 / 2)
    rw [hN] at this
    exact_mod_cast this
  have f2 : a + 1 / 2 < (N : ℚ) + 1 := by
    have := Int.lt_floor_add_one (a + 1 / 2)
    rw [hN] at this
    exact_mod_cast this
  have ex : (F64.fin false a ha).toR = a := by unfold toR; rw [e]
  rw [ex]
  have f1' : (N : ℝ) ≤ a + 1 / 2 := by
    have : ((N : ℚ) : ℝ) ≤ ((a + 1 / 2 : ℚ) : ℝ) := by exact_mod_cast f1
    push_cast at this
    exact this
  have f2' : (a : ℝ) + 1 / 2 < N + 1 := by
    have : ((a + 1 / 2 : ℚ) : ℝ) < (((N : ℚ) + 1 : ℚ) : ℝ) := by exact_mod_cast f2
    push_cast at this
    exact this
  exact abs_le.mpr ⟨by linarith, by linarith⟩

omit [Libm F64] in
theorem points_between {x : F64} (h : x.Between (5 / 2) 100001) :
    3 ≤ FloatOps.toUsize (FloatOps.round x) ∧ FloatOps.toUsize (FloatOps.round x) ≤ 100001 :=
  ⟨(points_round h).1, (points_round h).2.1⟩

omit [Libm F64] in
theorem near_natCast {n : Nat} (h : n ≤ 100001) : Near (FloatOps.ofUsize n : F64) n 0 := by
  have hex := ofRat_exact (s := false) (q := (n : ℚ)) (exact_natCast (by omega)) (by
    rw [Nat.abs_cast]
    have : (n : ℚ) ≤ 100001 := by exact_mod_cast h
    unfold maxMag
    exact this.trans_lt (by norm_num))
  refine ⟨hex.1, ?_⟩
  have : (FloatOps.ofUsize n : F64).toR = n := by
    unfold toR
    show (((ofRat false (n : ℚ)).toQ : ℚ) : ℝ) = n
    rw [hex.2]
    norm_cast
  rw [this, sub_self, abs_zero]

/-- The angle from vertex to vertex. -/
theorem star_step (ha : AccurateAngles) {n : Nat} (h3 : 3 ≤ n) (h : n ≤ 100001) :
    Near ((Libm.tau : F64) /. FloatOps.ofUsize n) (2 * Real.pi / n) (1 / 2 ^ 45) ∧
      Near ((Libm.tau : F64) /. FloatOps.ofUsize n /. lit 2) (2 * Real.pi / n / 2) (1 / 2 ^ 44) ∧
      Near ((Libm.tau : F64) /. FloatOps.ofUsize n /. lit 2 /. lit 2) (2 * Real.pi / n / 2 / 2) (1 / 2 ^ 43) := by
  have p0 := Real.pi_pos
  have p1 := Real.pi_lt_d2
  have hn : (3 : ℝ) ≤ n := by exact_mod_cast h3
  have two : Near (lit 2 : F64) 2 0 := by
    have := lit_nat (n := 2) (by norm_num)
    refine ⟨this.1, ?_⟩
    have e : (lit 2 : F64).toR = 2 := by unfold toR; rw [show (2 : ℚ) = ((2 : Nat) : ℚ) from rfl, this.2]; norm_num
    rw [e, sub_self, abs_zero]
  have b1 : |2 * Real.pi / n| ≤ 21 / 10 := by
    rw [abs_of_pos (by positivity), div_le_iff₀ (by linarith)]; linarith
  have h1 : Near ((Libm.tau : F64) /. FloatOps.ofUsize n) (2 * Real.pi / n) (1 / 2 ^ 45) := by
    refine ha.tau.div (near_natCast h) (by linarith) (B := 21 / 10) b1 ?_ (by norm_num)
    have : (1 : ℝ) / 2 ^ 51 / |(n : ℝ)| ≤ 1 / 2 ^ 51 := by
      rw [abs_of_pos (by linarith)]
      exact div_le_self (by positivity) (by linarith)
    have t : (1 : ℝ) / 2 ^ 51 + (21 / 10 + 1 / 2 ^ 51) / 2 ^ 53 + 1 / 2 ^ 1075 ≤ 1 / 2 ^ 45 := by norm_num
    have t2 : (21 / 10 + (1 : ℝ) / 2 ^ 51 / |(n : ℝ)|) / 2 ^ 53 ≤ (21 / 10 + 1 / 2 ^ 51) / 2 ^ 53 := by gcongr
    linarith
  have b2 : |2 * Real.pi / n / 2| ≤ 21 / 10 := by
    rw [abs_div, abs_two]
    exact (div_le_self (abs_nonneg _) (by norm_num)).trans b1
  have h2 := h1.div two (by norm_num) (B := 21 / 10) (E := 1 / 2 ^ 44) b2 (by rw [abs_two]; norm_num) (by norm_num)
  have b3 : |2 * Real.pi / n / 2 / 2| ≤ 21 / 10 := by
    rw [abs_div _ (2 : ℝ), abs_two]
    exact (div_le_self (abs_nonneg _) (by norm_num)).trans b2
  exact ⟨h1, h2, h2.div two (by norm_num) (B := 21 / 10) (E := 1 / 2 ^ 43) b3 (by rw [abs_two]; norm_num) (by norm_num)⟩

theorem star_upTo [Kurbo F64] (hl : AccurateLibm) (hA : AccurateAngles) {s : AnimStar F64} {frame : F64}
    (hc : (s.position.evaluate frame).UpTo 13) (hp : (s.points.evaluate frame).Between (5 / 2) 100001)
    (hr : (s.rotation.evaluate frame).Between (-4001) 4001)
    (ho : Bdd (s.outerRadius.evaluate frame) 13) (hoq : Bdd (s.outerRoundness.evaluate frame /. lit 100) 4)
    (hi : s.isPolygon = false → Bdd (s.innerRadius.evaluate frame) 13 ∧
      Bdd (s.innerRoundness.evaluate frame /. lit 100) 4) {els : List (PathEl F64)}
    (he : s.evaluate frame = .ok els) : ∀ el ∈ els, el.UpTo 26 := by
  obtain ⟨n3, nu⟩ := points_between hp
  unfold AnimStar.evaluate at he
  dsimp only at he
  generalize FloatOps.toUsize (FloatOps.round (s.points.evaluate frame)) = n at n3 nu he
  rw [if_neg (by omega)] at he
  obtain ⟨s1, s2, s3⟩ := star_step hA n3 nu
  have p0 := Real.pi_pos
  have p1 := Real.pi_lt_d2
  have hn : (3 : ℝ) ≤ n := by exact_mod_cast n3
  have hnu : (n : ℝ) ≤ 100001 := by exact_mod_cast nu
  have hrad := near_radians hl (B := 4001) (E := 1 / 2 ^ 20) hr (by norm_num) (by norm_num) (by norm_num)
  have hang : Near (toRadians (s.rotation.evaluate frame) -. Libm.fracPi2)
      ((s.rotation.evaluate frame).toR * (Real.pi / 180) - Real.pi / 2) (1 / 2 ^ 10) := by
    refine hrad.sub hA.quarter (B := 80) ?_ (by norm_num) (by norm_num)
    have h1 : |(s.rotation.evaluate frame).toR * (Real.pi / 180)| ≤ 4001 * (Real.pi / 180) := by
      rw [abs_mul, abs_of_pos (show (0 : ℝ) < Real.pi / 180 by positivity)]
      exact mul_le_mul_of_nonneg_right (abs_le.mpr hr.2) (by positivity)
    refine (abs_sub _ _).trans ?_
    rw [abs_of_pos (show (0 : ℝ) < Real.pi / 2 by positivity)]
    linarith
  have hang2 : |(toRadians (s.rotation.evaluate frame) -. Libm.fracPi2).toR| ≤ 81 := by
    have h1 : |(s.rotation.evaluate frame).toR * (Real.pi / 180)| ≤ 4001 * (Real.pi / 180) := by
      rw [abs_mul, abs_of_pos (show (0 : ℝ) < Real.pi / 180 by positivity)]
      exact mul_le_mul_of_nonneg_right (abs_le.mpr hr.2) (by positivity)
    have := hang.abs_le (B := 80) (by
      refine (abs_sub _ _).trans ?_
      rw [abs_of_pos (show (0 : ℝ) < Real.pi / 2 by positivity)]
      linarith)
    linarith
  have zero4 : Bdd (lit 0) 4 := bdd_lit0.mono (by norm_num)
  -- the vertices
  have hv : ∀ v ∈ starVertices (s.position.evaluate frame) (!s.isPolygon)
      (s.outerRadius.evaluate frame, s.outerRoundness.evaluate frame /. lit 100)
      (if (!s.isPolygon) = true then (s.innerRadius.evaluate frame, s.innerRoundness.evaluate frame /. lit 100)
        else (s.outerRadius.evaluate frame, lit 0))
      (if (!s.isPolygon) = true then Libm.tau /. FloatOps.ofUsize n /. lit 2 else Libm.tau /. FloatOps.ofUsize n)
      (if (!s.isPolygon) = true then n * 2 else n) 0 (toRadians (s.rotation.evaluate frame) -. Libm.fracPi2),
      v.UpTo 26 := by
    have b1 : |2 * Real.pi / n / 2| ≤ 11 / 10 := by
      rw [abs_of_pos (by positivity), div_div, div_le_iff₀ (by linarith)]; linarith
    have b2 : |2 * Real.pi / n / 2 / 2| ≤ 11 / 10 := by
      rw [abs_div _ (2 : ℝ), abs_two]
      exact (div_le_self (abs_nonneg _) (by norm_num)).trans b1
    cases hpoly : s.isPolygon with
    | true =>
      simp only [Bool.not_true, Bool.false_eq_true, if_false]
      refine starVertices_upTo hl hc ⟨ho, hoq⟩ ⟨ho, zero4⟩ s1.fin ?_ n 0 hang.fin ?_
      · exact s2.between (by linarith [show (1 : ℝ) / 2 ^ 44 ≤ 1 / 10 by norm_num])
      · have h1 := s1.abs_le (le_of_eq (abs_of_pos (show (0 : ℝ) < 2 * Real.pi / n by positivity)))
        have h2 : (n : ℝ) * (|(Libm.tau /. FloatOps.ofUsize n : F64).toR| + 1 / 2 ^ 40) ≤
            n * (2 * Real.pi / n + 1 / 2 ^ 45 + 1 / 2 ^ 40) := by gcongr
        have h3 : (n : ℝ) * (2 * Real.pi / n + 1 / 2 ^ 45 + 1 / 2 ^ 40) =
            2 * Real.pi + n * (1 / 2 ^ 45 + 1 / 2 ^ 40) := by
          have : (n : ℝ) * (2 * Real.pi / n) = 2 * Real.pi := by field_simp
          linear_combination this
        have h4 : (n : ℝ) * (1 / 2 ^ 45 + 1 / 2 ^ 40) ≤ 100001 * (1 / 2 ^ 45 + 1 / 2 ^ 40) := by gcongr
        have h5 : (100001 : ℝ) * (1 / 2 ^ 45 + 1 / 2 ^ 40) ≤ 1 := by norm_num
        linarith [show (100 : ℝ) ≤ 2 ^ 9 by norm_num]
    | false =>
      simp only [Bool.not_false, if_true]
      refine starVertices_upTo hl hc ⟨ho, hoq⟩ (hi hpoly) s2.fin ?_ (n * 2) 0 hang.fin ?_
      · exact s3.between (by linarith [show (1 : ℝ) / 2 ^ 43 ≤ 1 / 10 by norm_num])
      · have h1 := s2.abs_le (le_of_eq (abs_of_pos (show (0 : ℝ) < 2 * Real.pi / n / 2 by positivity)))
        push_cast
        have h2 : (n : ℝ) * 2 * (|(Libm.tau /. FloatOps.ofUsize n /. lit 2 : F64).toR| + 1 / 2 ^ 40) ≤
            n * 2 * (2 * Real.pi / n / 2 + 1 / 2 ^ 44 + 1 / 2 ^ 40) := by gcongr
        have h3 : (n : ℝ) * 2 * (2 * Real.pi / n / 2 + 1 / 2 ^ 44 + 1 / 2 ^ 40) =
            2 * Real.pi + n * 2 * (1 / 2 ^ 44 + 1 / 2 ^ 40) := by
          have : (n : ℝ) * 2 * (2 * Real.pi / n / 2) = 2 * Real.pi := by field_simp
          linear_combination this
        have h4 : (n : ℝ) * 2 * (1 / 2 ^ 44 + 1 / 2 ^ 40) ≤ 100001 * 2 * (1 / 2 ^ 44 + 1 / 2 ^ 40) := by gcongr
        have h5 : (100001 : ℝ) * 2 * (1 / 2 ^ 44 + 1 / 2 ^ 40) ≤ 1 := by norm_num
        linarith [show (100 : ℝ) ≤ 2 ^ 9 by norm_num]
  generalize starVertices (F := F64) _ _ _ _ _ _ _ _ = vs at hv he
  cases vs with
  | nil =>
    split_ifs at he
    all_goals
      cases he
      exact fun _ h => absurd h List.not_mem_nil
  | cons first rest =>
    have hf := hv first List.mem_cons_self
    have hels : els = .moveTo first.pt :: starEdges first first rest := by
      split_ifs at he
      all_goals exact (Except.ok.inj he).symm
    subst hels
    intro el hel
    rcases List.mem_cons.mp hel with rfl | hel
    · intro p hp
      cases List.mem_singleton.mp hp
      exact hf.1
    · exact starEdges_upTo hf (fun v h => hv v (List.mem_cons_of_mem _ h)) hf el hel

/-! ## All geometry -/

variable [Kurbo F64]

omit [Libm F64] in
theorem roundness_bdd {p : Schema.FloatValue F64} {v : Value F64 F64} (h : convScalar p = .ok v)
    (hp : ScalarWithin (-1500) 1500 p) (frame : F64) : Bdd (v.evaluate frame /. lit 100) 4 := by
  have hb := scalar_within h hp (M := 1500) (B := 1501) (by norm_num) (by norm_num) (by unfold overshoot; norm_num)
    frame
  have hl := lit_nat (n := 100) (by norm_num)
  have h100 : Near (lit 100 : F64) 100 0 := by
    refine ⟨hl.1, ?_⟩
    have e : (lit 100 : F64).toR = 100 := by
      unfold toR; rw [show (100 : ℚ) = ((100 : Nat) : ℚ) from rfl, hl.2]; norm_num
    rw [e, sub_self, abs_zero]
  have hB : |(v.evaluate frame).toR / 100| ≤ 1501 / 100 := by
    rw [abs_div, abs_of_pos (show (0 : ℝ) < 100 by norm_num)]
    have := abs_le.mpr hb.2
    linarith
  have h1 := (Near.self hb.1).div h100 (by norm_num) (B := 1501 / 100) (E := 1 / 2) hB (by
    rw [abs_of_pos (show (0 : ℝ) < 100 by norm_num)]; norm_num) (by norm_num)
  exact Near.bdd h1 hB (by norm_num)

theorem outline_upTo (hK : BoundedKurbo) (hl : AccurateLibm) (hA : AccurateAngles) {s : Schema.AnyShape F64}
    (hs : s.Modest) {frame : F64} (hf : frame ≠ .nan)
    (hd : ∀ q, s = .path q → q.shapeProperty.DefinedAt frame) {els : List (PathEl F64)} (h : OutlineAt frame s els) :
    ∀ el ∈ els, el.UpTo 26 := by
  obtain ⟨g, hg, he⟩ := h
  cases s with
  | ellipse s =>
    cases Except.ok.inj hg
    cases Except.ok.inj he
    exact ellipse_upTo hK hs frame
  | rectangle s =>
    obtain ⟨r, hr, hg⟩ := bind_ok hg
    cases Except.ok.inj hg
    cases Except.ok.inj he
    exact rect_upTo hK hs hr frame
  | path s =>
    rcases shapeGeometry_ok hg with ⟨g', e, h⟩ | ⟨e, -⟩
    · cases e
      exact path_upTo hs hf (hd s rfl) h he
    · cases e
  | polyStar s =>
    obtain ⟨m1, m2, m3, m4, m5, m6, m7⟩ := hs
    unfold convGeometry at hg
    obtain ⟨g', hg', hgg⟩ := map_ok hg
    cases hgg
    unfold convPolystar at hg'
    obtain ⟨r1, h1, hg'⟩ := bind_ok hg'
    obtain ⟨r2, h2, hg'⟩ := bind_ok hg'
    obtain ⟨r3, h3, hg'⟩ := bind_ok hg'
    obtain ⟨r4, h4, hg'⟩ := bind_ok hg'
    have key : ∀ (a : AnimStar F64) (fr : F64), a.position = convPosPoint s.position → a.outerRadius = r1 →
        a.outerRoundness = r2 → a.rotation = r3 → a.points = r4 →
        (a.isPolygon = false → Bdd (a.innerRadius.evaluate fr) 13 ∧ Bdd (a.innerRoundness.evaluate fr /. lit 100) 4) →
        ∀ {els : List (PathEl F64)}, a.evaluate fr = .ok els → ∀ el ∈ els, el.UpTo 26 := by
      intro a fr e1 e2 e3 e4 e5 hi els he
      refine star_upTo hl hA (frame := fr) (by rw [e1]; exact position_upTo m1 fr) ?_ ?_
        (by rw [e2]; exact radius_bdd h1 m2 fr) (by rw [e3]; exact roundness_bdd h2 m3 fr) hi he
      · rw [e5]
        have := C114_scalars h4 m5 (M := 100000) (by norm_num) (by norm_num) (by norm_num) fr RDefault.dflt
        rw [← Value.evaluate_eq] at this
        have e : overshoot 3 100000 100000 ≤ 1 / 2 := by unfold overshoot; norm_num
        exact ⟨this.1, by linarith [this.2.1], by linarith [this.2.2]⟩
      · rw [e4]
        exact scalar_within h3 m4 (M := 4000) (by norm_num) (by norm_num) (by unfold overshoot; norm_num) fr
    have fin : ∀ (a : AnimStar F64), a.position = convPosPoint s.position → a.outerRadius = r1 →
        a.outerRoundness = r2 → a.rotation = r3 → a.points = r4 →
        (∀ fr, a.isPolygon = false → Bdd (a.innerRadius.evaluate fr) 13 ∧ Bdd (a.innerRoundness.evaluate fr /. lit 100) 4) →
        a.intoModel = .ok g → ∀ el ∈ els, el.UpTo 26 := by
      intro a e1 e2 e3 e4 e5 hi hm
      unfold AnimStar.intoModel at hm
      split_ifs at hm
      · obtain ⟨els', h', rfl⟩ := map_ok hm
        cases Except.ok.inj he
        exact key a _ e1 e2 e3 e4 e5 (hi _) h'
      · cases Except.ok.inj hm
        exact key a _ e1 e2 e3 e4 e5 (hi _) he
    cases hp : s.starType with
    | polygon =>
      simp only [hp, beq_self_eq_true, if_true] at hg'
      exact fin _ rfl rfl rfl rfl rfl (fun _ h => by cases h) hg'
    | star =>
      rw [hp] at hg'
      obtain ⟨r5, h5, hg'⟩ := bind_ok hg'
      obtain ⟨r6, h6, hg'⟩ := bind_ok hg'
      have h5' : convScalarOr s.innerRadius (lit 0) = .ok r5 := h5
      have h6' : convScalarOr s.innerRoundness (lit 0) = .ok r6 := h6
      refine fin _ rfl rfl rfl rfl rfl (fun fr _ => ⟨?_, ?_⟩) hg'
      · show Bdd (r5.evaluate fr) 13
        unfold convScalarOr at h5'
        split at h5'
        · rename_i v e; exact radius_bdd h5' (m6 v e) fr
        · cases Except.ok.inj h5'
          exact bdd_lit0.mono (by norm_num)
      · show Bdd (r6.evaluate fr /. lit 100) 4
        unfold convScalarOr at h6'
        split at h6'
        · rename_i v e; exact roundness_bdd h6' (m7 v e) fr
        · cases Except.ok.inj h6'
          have : Bdd (lit 0 /. lit 100) 4 := ⟨by decide +kernel, by decide +kernel⟩
          exact this
  | _ => cases Except.ok.inj hg

end

/-! ## The expectations can be met -/

theorem accurateLibm_angles : @AccurateAngles accurateLibm := by
  let _ := accurateLibm
  have key : ∀ {q : ℚ} {r e : ℝ}, rnd q = q → |q| < maxMag → |(q : ℝ) - r| ≤ e → Near (lit q : F64) r e := by
    intro q r e h hq hr
    obtain ⟨h1, h2⟩ := ofRat_fin (s := false) (q := q) (by rwa [h])
    refine ⟨h1, ?_⟩
    show |(((ofRat false q).toQ : ℚ) : ℝ) - r| ≤ _
    rwa [h2, h]
  have p0 := Real.pi_gt_d20
  have p1 := Real.pi_lt_d20
  constructor
  · refine key (q := 884279719003555 / 140737488355328) (by decide +kernel) ?_ ?_
    · rw [abs_of_pos (by norm_num)]; unfold maxMag; norm_num
    · push_cast
      rw [abs_le]
      constructor <;> norm_num at * <;> linarith
  · refine key (q := 884279719003555 / 562949953421312) (by decide +kernel) ?_ ?_
    · rw [abs_of_pos (by norm_num)]; unfold maxMag; norm_num
    · push_cast
      rw [abs_le]
      constructor <;> norm_num at * <;> linarith

/-- A library that draws ellipses as diamonds and rectangles with their corners, and whose parts of segments are
straight. -/
@[instance_reducible] def diamondKurbo : Kurbo F64 where
  solveCubic _ _ _ _ := []
  ellipsePath c r := [.moveTo ⟨c.x +. r.x, c.y⟩, .lineTo ⟨c.x, c.y +. r.y⟩, .lineTo ⟨c.x -. r.x, c.y⟩,
    .lineTo ⟨c.x, c.y -. r.y⟩, .closePath]
  roundedRectPath x0 y0 x1 y1 _ := [.moveTo ⟨x0, y0⟩, .lineTo ⟨x1, y0⟩, .lineTo ⟨x1, y1⟩, .lineTo ⟨x0, y1⟩, .closePath]
  arclen _ := lit 1
  invArclen _ x := x
  subsegment s t0 t1 :=
    let q := match s with
      | .line _ q => q
      | .quad _ _ q => q
      | .cubic _ _ _ q => q
    .line (s.start.lerp q t0) (s.start.lerp q t1)

theorem diamondKurbo_bounded : @BoundedKurbo diamondKurbo := by
  let _ := diamondKurbo
  have one : ∀ {k : Nat} {p : P2 F64}, p.UpTo k → PathEl.UpTo k (.moveTo p) ∧ PathEl.UpTo k (.lineTo p) := by
    intro k p hp
    constructor <;>
    · intro q hq
      cases List.mem_singleton.mp hq
      exact hp
  have close : ∀ {k : Nat}, PathEl.UpTo k .closePath := fun p hp => absurd hp List.not_mem_nil
  refine ⟨?_, ?_, ?_⟩
  · intro c r hc hr el hel
    have hx := (hc.1.add' hr.1 (by norm_num)).mono (show 16 ≤ 22 by norm_num)
    have hx' := (hc.1.sub' hr.1 (by norm_num)).mono (show 16 ≤ 22 by norm_num)
    have hy := (hc.2.add' hr.2 (by norm_num)).mono (show 16 ≤ 22 by norm_num)
    have hy' := (hc.2.sub' hr.2 (by norm_num)).mono (show 16 ≤ 22 by norm_num)
    have h := hc.mono (show 15 ≤ 22 by norm_num)
    change el ∈ [_, _, _, _, _] at hel
    simp only [List.mem_cons, List.not_mem_nil, or_false] at hel
    rcases hel with rfl | rfl | rfl | rfl | rfl
    · exact (one (p := ⟨c.x +. r.x, c.y⟩) ⟨hx, h.2⟩).1
    · exact (one (p := ⟨c.x, c.y +. r.y⟩) ⟨h.1, hy⟩).2
    · exact (one (p := ⟨c.x -. r.x, c.y⟩) ⟨hx', h.2⟩).2
    · exact (one (p := ⟨c.x, c.y -. r.y⟩) ⟨h.1, hy'⟩).2
    · exact close
  · intro x0 y0 x1 y1 r h0 h1 hr el hel
    have h0 := h0.mono (show 15 ≤ 22 by norm_num)
    have h1 := h1.mono (show 15 ≤ 22 by norm_num)
    change el ∈ [_, _, _, _, _] at hel
    simp only [List.mem_cons, List.not_mem_nil, or_false] at hel
    rcases hel with rfl | rfl | rfl | rfl | rfl
    · exact (one h0).1
    · exact (one (p := ⟨x1, y0⟩) ⟨h1.1, h0.2⟩).2
    · exact (one h1).2
    · exact (one (p := ⟨x0, y1⟩) ⟨h0.1, h1.2⟩).2
    · exact close
  · intro k seg t0 t1 hk hseg h0 h1
    have go : ∀ {p q : P2 F64}, p.UpTo k → q.UpTo k → PathSeg.UpTo (k + 3) (.line (p.lerp q t0) (p.lerp q t1)) := by
      intro p q hp hq x hx
      simp only [PathSeg.points, List.mem_cons, List.not_mem_nil, or_false] at hx
      rcases hx with rfl | rfl
      · exact (hp.lerp hq (unit_bdd h0) (by omega)).mono (by omega)
      · exact (hp.lerp hq (unit_bdd h1) (by omega)).mono (by omega)
    cases seg with
    | line p q => exact go (hseg p (by simp [PathSeg.points])) (hseg q (by simp [PathSeg.points]))
    | quad p _ q => exact go (hseg p (by simp [PathSeg.points])) (hseg q (by simp [PathSeg.points]))
    | cubic p _ _ q => exact go (hseg p (by simp [PathSeg.points])) (hseg q (by simp [PathSeg.points]))

end Velato
