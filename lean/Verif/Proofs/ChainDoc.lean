import Verif.Proofs.Chain
import Verif.Proofs.TameDraws
import Verif.Proofs.Remove

/-!
# Chains of transforms in documents: helper lemmas
-/

set_option exponentiation.threshold 2000

namespace Velato
open FloatOps (lit)
open F64
open Import

/-! ## What is meant is determined -/

section
variable [Kurbo F64]

theorem PositionAt.unique {frame : F64} {q : Schema.AnyTransformP F64} {P P' : P2 F64} (h : PositionAt frame q P)
    (h' : PositionAt frame q P') : P = P' := by
  cases h with
  | plain => cases h'; rfl
  | split hx hy =>
    cases h' with
    | split hx' hy' =>
      rw [hx] at hx'; rw [hy] at hy'
      cases hx'; cases hy'; rfl

theorem Schema.Transform.Means.unique {v : Schema.Transform F64} {frame : F64} {q q' : P2 ℝ → P2 ℝ}
    (h : v.Means frame q) (h' : v.Means frame q') : q = q' := by
  obtain ⟨rot, R, K, X, P, h1, h2, h3, h4, h5, rfl⟩ := h
  obtain ⟨rot', R', K', X', P', h1', h2', h3', h4', h5', rfl⟩ := h'
  rw [h1] at h1'; cases h1'
  rw [h2] at h2'; cases h2'
  rw [h3] at h3'; cases h3'
  rw [h4] at h4'; cases h4'
  rw [h5.unique h5']

end

section
variable [Libm F64] [Kurbo F64]

/-- The matrix of one transform is that of some map which it is meant to be. -/
theorem means_transform {v : Schema.Transform F64} {rot : Schema.FloatValue F64} {P : Position F64}
    {t : Transform F64} {o : Value F64 F64} (h : convTransformWith v rot P = .ok (t, o))
    (hrot : v.rotation.getD (.rotation floatValueZero) = .rotation rot) {frame : F64}
    (hP : PositionAt frame v.position (P.evaluate frame)) : ∃ q, v.Means frame q := by
  obtain ⟨R, hR, h⟩ := bind_ok h
  obtain ⟨K, hK, h⟩ := bind_ok h
  obtain ⟨X, hX, h⟩ := bind_ok h
  exact ⟨_, rot, R, K, X, _, hrot, hR, hK, hX, hP, rfl⟩

/-- The parts of a layer transform. -/
theorem layer_parts {v : Schema.Transform F64} {t : Transform F64} {o : Value F64 F64}
    (h : convTransform v = .ok (t, o)) (frame : F64) : ∃ rot P, convTransformWith v rot P = .ok (t, o) ∧
      v.rotation.getD (.rotation floatValueZero) = .rotation rot ∧
      v.rotation = some (.rotation rot) ∧ PositionAt frame v.position (P.evaluate frame) := by
  obtain ⟨rot, hrot, h⟩ := bind_ok h
  obtain ⟨P, hP, h⟩ := bind_ok h
  have hrot' : v.rotation = some (.rotation rot) := by
    unfold layerRotation at hrot
    split at hrot
    · cases hrot; assumption
    · cases hrot
    · cases hrot
  refine ⟨rot, P, h, by rw [hrot']; rfl, hrot', ?_⟩
  cases hq : v.position with
  | position q =>
    rw [hq] at hP
    cases hP
    exact .plain
  | splitPosition q =>
    rw [hq] at hP
    obtain ⟨x, hx, hP⟩ := bind_ok hP
    obtain ⟨y, hy, hP⟩ := bind_ok hP
    cases hP
    exact .split hx hy

/-- The parts of a group transform. -/
theorem group_parts {s : Schema.TransformShape F64} {g : GroupTransform F64} (h : convShapeTransform s = .ok g)
    (frame : F64) : ∃ rot P, convTransformWith s.transform rot P = .ok (g.transform, g.opacity) ∧
      s.transform.rotation.getD (.rotation floatValueZero) = .rotation rot ∧
      (s.transform.rotation = some (.rotation rot) ∨ rot = floatValueZero) ∧
      PositionAt frame s.transform.position (P.evaluate frame) := by
  obtain ⟨rot, hrot, h⟩ := bind_ok h
  obtain ⟨P, hP, h⟩ := bind_ok h
  obtain ⟨⟨t, o⟩, h', e⟩ := bind_ok h
  cases e
  have hP' : PositionAt frame s.transform.position (P.evaluate frame) := by
    cases hq : s.transform.position with
    | position q =>
      rw [hq] at hP
      cases hP
      exact .plain
    | splitPosition q =>
      rw [hq] at hP
      cases hP
  unfold groupRotation at hrot
  split at hrot
  · rename_i e
    cases hrot
    exact ⟨_, P, h', by rw [e]; rfl, .inl e, hP'⟩
  · cases hrot
  · rename_i e
    cases hrot
    exact ⟨_, P, h', by rw [e]; rfl, .inr rfl, hP'⟩

theorem layerAt_means {frame : F64} {l : Schema.AnyLayer F64} {M : Affine F64} {o : F64} (h : LayerAt frame l M o) :
    ∃ q, l.visual.transform.Means frame q := by
  obtain ⟨t, w, h, -, -⟩ := h
  obtain ⟨rot, P, h, hr, -, hP⟩ := layer_parts h frame
  exact means_transform h hr hP

theorem groupAt_means {frame : F64} {g : Option (Schema.TransformShape F64)} {M : Affine F64} {o : F64}
    (h : GroupAt frame g M o) : ∃ q, GroupMeans frame g q := by
  cases g with
  | none => exact ⟨id, rfl⟩
  | some t =>
    obtain ⟨g, hg, -, -⟩ := h
    obtain ⟨rot, P, h, hr, -, hP⟩ := group_parts hg frame
    exact means_transform h hr hP

theorem placedWithin_meant {ls : List (Schema.AnyLayer F64)} {frame : F64} {f : Nat} {l : Schema.AnyLayer F64}
    {M P : Affine F64} (h : PlacedWithin ls frame f l M P) : ∀ q, ∃ Q k, MeantWithin ls frame f l q Q k := by
  induction h with
  | root h => exact fun q => ⟨q, 0, .root h⟩
  | stray h hn => exact fun q => ⟨q, 0, .stray h hn⟩
  | limit => exact fun q => ⟨q, 0, .limit⟩
  | child h hj hp hN hr ih =>
    intro q
    obtain ⟨r, hr⟩ := layerAt_means hN
    obtain ⟨Q, k, hQ⟩ := ih (r ∘ q)
    exact ⟨Q, k + 1, .child h hj hp hr hQ⟩

theorem placedAt_meant {ls : List (Schema.AnyLayer F64)} {frame : F64} {l : Schema.AnyLayer F64} {P : Affine F64}
    (h : PlacedAt ls frame l P) : ∃ Q k, MeantAt ls frame l Q k := by
  obtain ⟨M, o, hM, hP⟩ := h
  obtain ⟨q, hq⟩ := layerAt_means hM
  obtain ⟨Q, k, hQ⟩ := placedWithin_meant hP q
  exact ⟨Q, k, q, hq, hQ⟩

/-! ## Accuracy -/

omit [Libm F64] in
/-- The scales of a transform with moderate numbers. -/
theorem scale_within {v : Schema.Transform F64} {s : ℝ} (h1 : 1 ≤ s) (h2 : s ≤ 15) 
    (hv : ∀ p, v.scale = some p → VectorWithin (-(100 * s)) (100 * s) (-(100 * s)) (100 * s) p) (frame : F64) :
    ((convMultiP2 (v.scale.getD multidimOne)).evaluate frame).AtMost (100 * (s * (1 + 1 / 2 ^ 33))) := by
  have key : VectorWithin (-(100 * s)) (100 * s) (-(100 * s)) (100 * s) (v.scale.getD multidimOne) := by
    cases hs : v.scale with
    | none =>
      have : (lit 1 : F64).Between (-(100 * s)) (100 * s) := lit_one_between.mono (by linarith) (by linarith)
      exact ⟨_, _, _, rfl, this, this⟩
    | some p => exact hv p hs
  have hs : |100 * s| ≤ 1500 := by rw [abs_of_pos (by linarith)]; linarith
  have h := C114_vectors key (M := 100 * s) (by rw [abs_neg, abs_of_pos (by linarith)])
    (by rw [abs_of_pos (by linarith)]) (by rw [abs_neg, abs_of_pos (by linarith)])
    (by rw [abs_of_pos (by linarith)]) (by
      have : (1500 : ℝ) ≤ 2 ^ 1000 := by norm_num
      linarith [(le_abs_self _).trans hs]) frame RDefault.dflt
  rw [← Value.evaluate_eq] at h
  have e : overshoot (-(100 * s)) (100 * s) (100 * s) ≤ 100 * s * (1 / 2 ^ 33) := by
    unfold overshoot
    have : (1 : ℝ) / 2 ^ 1072 ≤ 1 / 2 ^ 60 := by norm_num
    have k : (100 : ℝ) * 2 * (5 / 10 ^ 11) + 100 / 2 ^ 53 + 1 / 2 ^ 60 ≤ 100 * (1 / 2 ^ 33) := by norm_num
    have := mul_le_mul_of_nonneg_right k (show 0 ≤ s by linarith)
    have : (1 : ℝ) / 2 ^ 60 ≤ 1 / 2 ^ 60 * s := le_mul_of_one_le_right (by positivity) h1
    linarith
  have e2 : 100 * (s * (1 + 1 / 2 ^ 33)) = 100 * s + 100 * s * (1 / 2 ^ 33) := by ring
  rw [e2]
  exact ⟨h.1.mono (by linarith) (by linarith), h.2.mono (by linarith) (by linarith)⟩

omit [Libm F64] in
theorem positionAt_within {v : Schema.Transform F64} (hv : v.Moderate) {frame : F64} {P : P2 F64}
    (h : PositionAt frame v.position P) : P.AtMost (2 ^ 13) := by
  generalize hq : v.position = q at h
  cases h with
  | plain => exact position_within (hv.position _ hq) frame
  | split hx hy =>
    obtain ⟨k1, k2⟩ := hv.split _ hq
    exact ⟨scalar_within hx k1 (B := 2 ^ 13) (M := 8000) (by norm_num) (by norm_num)
        (by unfold overshoot; norm_num) frame,
      scalar_within hy k2 (B := 2 ^ 13) (M := 8000) (by norm_num) (by norm_num)
        (by unfold overshoot; norm_num) frame⟩

/-- The matrix of one transform. -/
theorem multiplied_transform (hl : AccurateLibm) {v : Schema.Transform F64} {rot : Schema.FloatValue F64}
    {P : Position F64} {t : Transform F64} {o : Value F64 F64} (h : convTransformWith v rot P = .ok (t, o))
    (hrot : v.rotation.getD (.rotation floatValueZero) = .rotation rot) (hrot' : ScalarWithin (-4000) 4000 rot)
    {frame : F64} (hP : PositionAt frame v.position (P.evaluate frame)) {s : ℝ} (h1 : 1 ≤ s) (h2 : s ≤ 15)
    (hv : v.Stretches s) {q : P2 ℝ → P2 ℝ} (hq : v.Means frame q) :
    ∃ r, (∀ p, r.apply p = q p) ∧ Multiplied (s * (1 + 1 / 2 ^ 31)) 1 (t.evaluate frame) r := by
  obtain ⟨R, hR, h⟩ := bind_ok h
  obtain ⟨K, hK, h⟩ := bind_ok h
  obtain ⟨X, hX, h⟩ := bind_ok h
  obtain ⟨O, hO, h⟩ := bind_ok h
  cases h
  have ha : ((convPosPoint (v.anchorPoint.getD positionZero)).evaluate frame).AtMost (2 ^ 13) := by
    refine position_within (p := v.anchorPoint.getD positionZero) ?_ frame
    cases ha : v.anchorPoint with
    | none => exact ⟨_, _, _, rfl, lit_zero_between (by norm_num), lit_zero_between (by norm_num)⟩
    | some p => exact hv.moderate.anchor p ha
  have hr : (R.evaluate frame).Between (-(2 ^ 12)) (2 ^ 12) := scalar_within hR hrot'
    (M := 4000) (by norm_num) (by norm_num) (by unfold overshoot; norm_num) frame
  obtain ⟨u, d, u1, d0, hud, hscale, hskew⟩ := hv.bounds
  have us : u ≤ s := le_trans (le_mul_of_one_le_right (by linarith) (by linarith)) hud
  have d392 : d ≤ 392 := by nlinarith
  have hk : (K.evaluate frame).Between (-60) 60 := by
    refine scalar_within hK (lo := 59) (M := 59) ?_ (by norm_num) (by norm_num) (by unfold overshoot; norm_num) frame
    cases hs : v.skew with
    | none => exact lit_zero_between (by norm_num)
    | some p => exact hv.moderate.skew p hs
  have hk' : |(K.evaluate frame).toR| ≤ d * (1 + 1 / 2 ^ 33) + 1 / 2 ^ 60 := by
    have : (K.evaluate frame).Between (-(d * (1 + 1 / 2 ^ 33) + 1 / 2 ^ 60)) (d * (1 + 1 / 2 ^ 33) + 1 / 2 ^ 60) := by
      refine scalar_within hK (lo := d) (M := d) ?_ (by rw [abs_of_nonneg d0]) ?_ ?_ frame
      · cases hs : v.skew with
        | none => exact lit_zero_between d0
        | some p => exact hskew p hs
      · have : (392 : ℝ) ≤ 2 ^ 1000 := by norm_num
        linarith
      · unfold overshoot
        have : (1 : ℝ) / 2 ^ 1072 ≤ 1 / 2 ^ 60 := by norm_num
        have : (2 : ℝ) * (5 / 10 ^ 11) + 1 / 2 ^ 53 ≤ 1 / 2 ^ 33 := by norm_num
        have := mul_le_mul_of_nonneg_left this d0
        linarith
    exact abs_le.mpr this.2
  have hx : (X.evaluate frame).Between (-(2 ^ 12)) (2 ^ 12) := by
    refine scalar_within hX (lo := 4000) (M := 4000) ?_ (by norm_num) (by norm_num) (by unfold overshoot; norm_num) frame
    cases hs : v.skewAxis with
    | none => exact lit_zero_between (by norm_num)
    | some p => exact hv.moderate.axis p hs
  have σ1 : 1 ≤ u * (1 + 1 / 2 ^ 33) := by linarith
  have σ2 : u * (1 + 1 / 2 ^ 33) ≤ 16 := by linarith
  have σ3 : u * (1 + 1 / 2 ^ 33) * (1 + |(K.evaluate frame).toR| / 28) ≤ s * (1 + 1 / 2 ^ 31) := by
    have k1 : 1 + |(K.evaluate frame).toR| / 28 ≤ (1 + d / 28) * (1 + 1 / 2 ^ 32) := by
      have : (d / 28) / 2 ^ 33 ≤ (d / 28) / 2 ^ 32 := by
        have : 0 ≤ d / 28 := by positivity
        linarith
      linarith
    calc u * (1 + 1 / 2 ^ 33) * (1 + |(K.evaluate frame).toR| / 28)
        ≤ u * (1 + 1 / 2 ^ 33) * ((1 + d / 28) * (1 + 1 / 2 ^ 32)) := by gcongr
      _ = u * (1 + d / 28) * ((1 + 1 / 2 ^ 33) * (1 + 1 / 2 ^ 32)) := by ring
      _ ≤ s * ((1 + 1 / 2 ^ 33) * (1 + 1 / 2 ^ 32)) := by gcongr
      _ ≤ _ := by gcongr; norm_num
  have e := hq.unique ⟨rot, R, K, X, _, hrot, hR, hK, hX, hP, rfl⟩
  subst e
  refine ⟨_, fun p => transformMatrix_apply _ _ _ _ _ _ p, ?_⟩
  rw [C11_transform]
  refine (fits_transform hl σ1 σ2 σ3 ha (positionAt_within hv.moderate hP)
    (scale_within u1 (us.trans h2) hscale frame) hr hk hx).mono ?_ ?_ ?_ ?_
  · rw [pow_one]
  · rw [pow_one]; push_cast; linarith
  · rw [pow_one]; push_cast; linarith
  · rw [pow_one]; push_cast
    have : 0 ≤ s * (1 + 1 / 2 ^ 31) := by linarith
    generalize s * (1 + 1 / 2 ^ 31) = a at *
    linarith

theorem multiplied_layer (hl : AccurateLibm) {frame : F64} {l : Schema.AnyLayer F64} {M : Affine F64} {o : F64}
    (h : LayerAt frame l M o) {s : ℝ} (h1 : 1 ≤ s) (h2 : s ≤ 15) (hv : l.visual.transform.Stretches s)
    {q : P2 ℝ → P2 ℝ} (hq : l.visual.transform.Means frame q) :
    ∃ r, (∀ p, r.apply p = q p) ∧ Multiplied (s * (1 + 1 / 2 ^ 31)) 1 M r := by
  obtain ⟨t, w, h, rfl, -⟩ := h
  obtain ⟨rot, P, h, hr, hr', hP⟩ := layer_parts h frame
  exact multiplied_transform hl h hr (hv.moderate.rotation _ hr') hP h1 h2 hv hq

omit [Libm F64] [Kurbo F64] in
theorem multiplied_identity {s : ℝ} (h1 : 1 ≤ s) : Multiplied s 1 Affine.identity Affine.identity := by
  have h : Fits Affine.identity Affine.identity 1 0 0 0 := by
    refine fits_linear (K := 1) (u := 0) (w := 0)
      ⟨approx_one (le_refl _) (le_refl _), approx_zero (by norm_num) (le_refl _),
      approx_zero (by norm_num) (le_refl _), approx_one (le_refl _) (le_refl _),
      approx_zero (le_refl _) (le_refl _), approx_zero (le_refl _) (le_refl _)⟩ (by norm_num) ?_ (by norm_num)
      (by norm_num)
    intro z
    have : (Affine.identity : Affine ℝ).lin z = z := by
      apply Complex.ext <;> simp [Affine.lin, Affine.identity]
    rw [this, one_mul]
  have s0 : 0 < s := by linarith
  refine h.mono ?_ ?_ ?_ ?_ <;> rw [pow_one]
  · exact h1
  · positivity
  · push_cast; norm_num; positivity
  · positivity

omit [Libm F64] [Kurbo F64] in
theorem apply_identity (p : P2 ℝ) : (Affine.identity : Affine ℝ).apply p = p := by
  simp [Affine.apply, Affine.identity]

theorem multiplied_group (hl : AccurateLibm) {frame : F64} {g : Option (Schema.TransformShape F64)} {M : Affine F64}
    {o : F64} (h : GroupAt frame g M o) {s : ℝ} (h1 : 1 ≤ s) (h2 : s ≤ 15)
    (hv : ∀ t, g = some t → t.transform.Stretches s) {q : P2 ℝ → P2 ℝ} (hq : GroupMeans frame g q) :
    ∃ r, (∀ p, r.apply p = q p) ∧ Multiplied (s * (1 + 1 / 2 ^ 31)) 1 M r := by
  cases g with
  | none =>
    obtain ⟨rfl, -⟩ := h
    cases hq
    exact ⟨Affine.identity, apply_identity, multiplied_identity (by linarith)⟩
  | some t =>
    obtain ⟨g, hg, rfl, -⟩ := h
    obtain ⟨rot, P, h, hr, hr', hP⟩ := group_parts hg frame
    refine multiplied_transform hl h hr ?_ hP h1 h2 (hv t rfl) hq
    rcases hr' with hr' | rfl
    · exact (hv t rfl).moderate.rotation _ hr'
    · exact lit_zero_between (by norm_num)

omit [Libm F64] [Kurbo F64] in
theorem apply_mul (m n : Affine ℝ) (p : P2 ℝ) : (m.mul n).apply p = m.apply (n.apply p) := by
  simp only [Affine.apply, Affine.mul, real_add, real_mul]
  congr 1 <;> ring

theorem multiplied_within (hl : AccurateLibm) {ls : List (Schema.AnyLayer F64)} {frame : F64} {s : ℝ} (h1 : 1 ≤ s)
    (h2 : s ≤ 15) (hls : ∀ l ∈ ls, l.visual.transform.Stretches s) {f k : Nat} {l : Schema.AnyLayer F64}
    {q Q : P2 ℝ → P2 ℝ} (h : MeantWithin ls frame f l q Q k) :
    ∀ {i : Nat} {M P : Affine F64} {r : Affine ℝ}, PlacedWithin ls frame f l M P → 1 ≤ i → i + k ≤ 41 →
      Multiplied (s * (1 + 1 / 2 ^ 31)) i M r → (∀ p, r.apply p = q p) →
      ∃ t, (∀ p, t.apply p = Q p) ∧ Multiplied (s * (1 + 1 / 2 ^ 31)) (i + k) P t := by
  induction h with
  | root h =>
    intro i M P r hP _ _ hM hq
    cases hP with
    | child h' => rw [h] at h'; cases h'
    | _ => exact ⟨r, hq, hM⟩
  | stray h hn =>
    intro i M P r hP _ _ hM hq
    cases hP with
    | child h' hj =>
      rw [h] at h'; cases h'
      cases LastPosition.unique hn hj
    | _ => exact ⟨r, hq, hM⟩
  | limit =>
    intro i M P r hP _ _ hM hq
    cases hP <;> exact ⟨r, hq, hM⟩
  | @child n l id j p q r' Q k h hj hp hr hQ ih =>
    intro i M P r hP hi hik hM hq
    cases hP with
    | root h' => rw [h] at h'; cases h'
    | stray h' hn =>
      rw [h] at h'; cases h'
      cases LastPosition.unique hn hj
    | @child _ _ id' j' p' _ N o _ h' hj' hp' hN hr' =>
      rw [h] at h'; cases h'
      cases LastPosition.unique hj hj'
      rw [hp] at hp'; cases hp'
      obtain ⟨t, ht, hc⟩ := multiplied_layer hl hN h1 h2 (hls p (List.mem_of_getElem? hp)) hr
      obtain ⟨t', ht', hc'⟩ := ih hr' (i := 1 + i) (r := t.mul r) (by omega) (by omega)
        (hc.mul (by linarith) (by linarith) (by omega) hi (by omega) hM)
        (fun p => by rw [apply_mul, hq, ht, Function.comp])
      refine ⟨t', ht', ?_⟩
      rwa [show i + (k + 1) = 1 + i + k by omega]

theorem multiplied_placed (hl : AccurateLibm) {ls : List (Schema.AnyLayer F64)} {frame : F64} {s : ℝ} (h1 : 1 ≤ s)
    (h2 : s ≤ 15) (hls : ∀ l ∈ ls, l.visual.transform.Stretches s) {l : Schema.AnyLayer F64} (hm : l ∈ ls)
    {P : Affine F64} (hP : PlacedAt ls frame l P) {Q : P2 ℝ → P2 ℝ} {k : Nat} (hQ : MeantAt ls frame l Q k)
    (hk : k ≤ 40) : ∃ t, (∀ p, t.apply p = Q p) ∧ Multiplied (s * (1 + 1 / 2 ^ 31)) (k + 1) P t := by
  obtain ⟨M, o, hM, hP⟩ := hP
  obtain ⟨q, hq, hQ⟩ := hQ
  obtain ⟨r, hr, hc⟩ := multiplied_layer hl hM h1 h2 (hls l hm) hq
  obtain ⟨t, ht, hc⟩ := multiplied_within hl h1 h2 hls hQ hP (le_refl 1) (by omega) hc hr
  exact ⟨t, ht, by rwa [add_comm k 1]⟩

theorem multiplied_groups (hl : AccurateLibm) {frame : F64} {s : ℝ} (h1 : 1 ≤ s) (h2 : s ≤ 15)
    {ss : List (Schema.AnyShape F64)} {T T' : Affine F64} {Q : P2 ℝ → P2 ℝ} {k : Nat}
    (h : IntoGroups frame ss T T' Q k) : (∀ t, GroupIn ss t → t.transform.Stretches s) →
    ∀ {i : Nat} {r : Affine ℝ}, 1 ≤ i → i + k ≤ 41 → Multiplied (s * (1 + 1 / 2 ^ 31)) i T r →
      ∃ t, (∀ p, t.apply p = r.apply (Q p)) ∧ Multiplied (s * (1 + 1 / 2 ^ 31)) (i + k) T' t := by
  induction h with
  | here => exact fun _ i r _ _ hT => ⟨r, fun _ => rfl, hT⟩
  | @group ss T T' e n j items M o r' Q k h hM hr hQ ih =>
    intro hss i r hi hik hT
    obtain ⟨t, ht, hc⟩ := multiplied_group hl hM h1 h2 (fun t ht => hss t (.here h ht)) hr
    obtain ⟨t', ht', hc'⟩ := ih (fun t ht => hss t (.inner h ht)) (i := i + 1) (r := r.mul t) (by omega) (by omega)
      (hT.mul (by linarith) (by linarith) hi (by omega) (by omega) hc)
    refine ⟨t', fun p => by rw [ht', apply_mul, ht, Function.comp], ?_⟩
    rwa [show i + (k + 1) = i + 1 + k by omega]

theorem multiplied_into (hl : AccurateLibm) {a : Schema.Animation F64} {s : ℝ} (h1 : 1 ≤ s) (h2 : s ≤ 15)
    (ha : ∀ p, .precomposition p ∈ a.assetList → LayersStretch s p.layers) {ls : List (Schema.AnyLayer F64)}
    {frame : F64} {T T' : Affine F64} {Q : P2 ℝ → P2 ℝ} {n : Nat} (h : Into a ls frame T T' Q n) :
    LayersStretch s ls → ∀ {i : Nat} {r : Affine ℝ}, 1 ≤ i → i + n ≤ 41 → Multiplied (s * (1 + 1 / 2 ^ 31)) i T r →
      ∃ t, (∀ p, t.apply p = r.apply (Q p)) ∧ Multiplied (s * (1 + 1 / 2 ^ 31)) (i + n) T' t := by
  have step : ∀ {ls : List (Schema.AnyLayer F64)} {frame : F64} {l : Schema.AnyLayer F64} {T P : Affine F64}
      {Q : P2 ℝ → P2 ℝ} {k : Nat}, l ∈ ls → PlacedAt ls frame l P → MeantAt ls frame l Q k → LayersStretch s ls →
      ∀ {i : Nat} {r : Affine ℝ}, 1 ≤ i → i + (k + 1) ≤ 41 → Multiplied (s * (1 + 1 / 2 ^ 31)) i T r →
      ∃ t, (∀ p, t.apply p = r.apply (Q p)) ∧ Multiplied (s * (1 + 1 / 2 ^ 31)) (i + (k + 1)) (T.mul P) t := by
    intro ls frame l T P Q k hm hP hQ hls i r hi hik hT
    obtain ⟨t, ht, hc⟩ := multiplied_placed hl h1 h2 (fun l hl => (hls l hl).1) hm hP hQ (by omega)
    exact ⟨r.mul t, fun p => by rw [apply_mul, ht],
      hT.mul (by linarith) (by linarith) hi (by omega) (by omega) hc⟩
  induction h with
  | here => exact fun _ i r _ _ hT => ⟨r, fun _ => rfl, hT⟩
  | layer h hP hQ => exact fun hls i r hi hik hT => step h hP hQ hls hi hik hT
  | @shapes ls frame T T' q P Q R k n h hP hQ hR =>
    intro hls i r hi hik hT
    obtain ⟨t, ht, hc⟩ := step h hP hQ hls hi (by omega) hT
    obtain ⟨t', ht', hc'⟩ := multiplied_groups hl h1 h2 hR ((hls _ h).2 _ rfl) (by omega) (by omega) hc
    refine ⟨t', fun p => by rw [ht', ht, Function.comp], ?_⟩
    rwa [show i + (k + 1 + n) = i + (k + 1) + n by omega]
  | @«instance» ls frame T T' q P Q R k n p h hP hQ hp hid hR ih =>
    intro hls i r hi hik hT
    obtain ⟨t, ht, hc⟩ := step h hP hQ hls hi (by omega) hT
    obtain ⟨t', ht', hc'⟩ := ih (ha _ hp) (by omega) (by omega) hc
    refine ⟨t', fun p => by rw [ht', ht, Function.comp], ?_⟩
    rwa [show i + (k + 1 + n) = i + (k + 1) + n by omega]

omit [Libm F64] [Kurbo F64] in
theorem multiplied_outer {s : ℝ} (h1 : 1 ≤ s) {T : Affine F64} (h : T.Stretches s) :
    Multiplied (s * (1 + 1 / 2 ^ 31)) 1 T T.toR := by
  obtain ⟨hf, hs, he, hf'⟩ := h
  have s0 : 0 < s := by linarith
  have k : Fits T T.toR s (2 ^ 14) 0 0 := by
    refine ⟨hf, s0.le, le_refl _, ?_, ?_, ?_, ?_⟩
    · intro z
      refine abs_le_of_sq_le_sq' ?_ (by positivity) |>.2
      rw [norm_sq_eq, mul_pow, norm_sq_eq]
      exact hs z.re z.im
    · exact (norm_le_of_coords (B := 2 ^ 13) he hf').trans (by norm_num)
    · intro z; simp
    · simp
  refine k.mono ?_ ?_ ?_ ?_ <;> rw [pow_one]
  · linarith
  · push_cast; linarith
  · push_cast; norm_num; positivity
  · positivity

omit [Libm F64] [Kurbo F64] in
/-- The bound on errors. -/
theorem Multiplied.close {s : ℝ} (h1 : 1 ≤ s) {n : Nat} (hn : 1 ≤ n) (h41 : n ≤ 41) {m : Affine F64} {r : Affine ℝ}
    (h : Multiplied (s * (1 + 1 / 2 ^ 31)) n m r) {p : P2 ℝ} (hx : |p.x| ≤ 2 ^ 13) (hy : |p.y| ≤ 2 ^ 13) :
    CloseTo (n ^ 2 * s ^ n / 2 ^ 26) (m.toR.apply p) (r.apply p) := by
  have key : 3 / 4 * ((n : ℝ) ^ 2 * (s * (1 + 1 / 2 ^ 31)) ^ n / 2 ^ 26) ≤ n ^ 2 * s ^ n / 2 ^ 26 := by
    have hp : (s * (1 + 1 / 2 ^ 31)) ^ n ≤ s ^ n * (4 / 3) := by
      calc (s * (1 + 1 / 2 ^ 31)) ^ n = s ^ n * (1 + 1 / 2 ^ 31) ^ n := mul_pow _ _ _
        _ ≤ s ^ n * (1 + 1 / 2 ^ 31) ^ 41 := by
          gcongr
          norm_num
        _ ≤ s ^ n * (4 / 3) := by
          gcongr
          norm_num
    calc 3 / 4 * ((n : ℝ) ^ 2 * (s * (1 + 1 / 2 ^ 31)) ^ n / 2 ^ 26)
        ≤ 3 / 4 * ((n : ℝ) ^ 2 * (s ^ n * (4 / 3)) / 2 ^ 26) := by gcongr
      _ = _ := by ring
  obtain ⟨k1, k2⟩ := h.apply (by linarith) hn hx hy
  exact ⟨k1.trans key, k2.trans key⟩

end
end Velato
