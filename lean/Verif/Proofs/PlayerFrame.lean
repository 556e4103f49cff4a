import Verif.Proofs.Player
import Verif.Num.F64Lemmas
import Verif.Props.LayerOrder

/-!
# Lemmas about a frame of the player
-/

namespace Velato
open FloatOps (lit)

/-! ## Remainders -/

theorem F64.isRepr_rem {f : Fmt} {a b : ℚ} (ha : IsRepr f a) (hb : IsRepr f b) (h0 : 0 < b) :
    IsRepr f (a - b * (⌊a / b⌋ : ℚ)) := by
  have hr0 : 0 ≤ a - b * (⌊a / b⌋ : ℚ) := by
    have := Int.floor_le (a / b)
    rw [le_div_iff₀ h0] at this
    linarith [mul_comm b (⌊a / b⌋ : ℚ)]
  have hrb : a - b * (⌊a / b⌋ : ℚ) < b := by
    have := Int.lt_floor_add_one (a / b)
    rw [div_lt_iff₀ h0] at this
    linarith [mul_comm b (⌊a / b⌋ : ℚ)]
  have ha0 := F64.isRepr_nonneg ha
  have hra : a - b * (⌊a / b⌋ : ℚ) ≤ a := by
    have : (0 : ℚ) ≤ (⌊a / b⌋ : ℚ) := by exact_mod_cast Int.floor_nonneg.mpr (div_nonneg ha0 h0.le)
    nlinarith [mul_nonneg h0.le this]
  generalize ⌊a / b⌋ = k at *
  obtain ⟨m, e, hm, he, rfl⟩ := ha
  obtain ⟨n, g, hn, hg, rfl⟩ := hb
  rcases le_total e g with h | h
  · obtain ⟨d, rfl⟩ := Int.le.dest h
    have e1 : (m : ℚ) * 2 ^ e - n * 2 ^ (e + (d : ℤ)) * k = ((m - n * 2 ^ d * k : ℤ) : ℚ) * 2 ^ e := by
      rw [zpow_add₀ (by norm_num)]; push_cast; rw [zpow_natCast]; ring
    rw [e1] at hr0 hra ⊢
    have hp : (0 : ℚ) < 2 ^ e := by positivity
    have h1 : (0 : ℤ) ≤ m - n * 2 ^ d * k := by
      exact_mod_cast (mul_nonneg_iff_of_pos_right hp).mp hr0
    have h2 : (m - n * 2 ^ d * k : ℤ) ≤ m := by
      exact_mod_cast (mul_le_mul_iff_of_pos_right hp).mp hra
    obtain ⟨j, hj⟩ := Int.eq_ofNat_of_zero_le h1
    rw [hj] at h2 ⊢
    exact ⟨j, e, lt_of_le_of_lt (by exact_mod_cast h2) hm, he, by push_cast; rfl⟩
  · obtain ⟨d, rfl⟩ := Int.le.dest h
    have e1 : (m : ℚ) * 2 ^ (g + (d : ℤ)) - n * 2 ^ g * k = ((m * 2 ^ d - n * k : ℤ) : ℚ) * 2 ^ g := by
      rw [zpow_add₀ (by norm_num)]; push_cast; rw [zpow_natCast]; ring
    rw [e1] at hr0 hrb ⊢
    have hp : (0 : ℚ) < 2 ^ g := by positivity
    have h1 : (0 : ℤ) ≤ m * 2 ^ d - n * k := by
      exact_mod_cast (mul_nonneg_iff_of_pos_right hp).mp hr0
    have h2 : (m * 2 ^ d - n * k : ℤ) < n := by
      exact_mod_cast (mul_lt_mul_iff_of_pos_right hp).mp hrb
    obtain ⟨j, hj⟩ := Int.eq_ofNat_of_zero_le h1
    rw [hj] at h2 ⊢
    exact ⟨j, g, lt_trans (by exact_mod_cast h2) hn, hg, by push_cast; rfl⟩

/-- The remainder of finite numbers is exact. -/
theorem F64.rem_fin {x y : F64} (hx : x.isFin = true) (hy : y.isFin = true) (h0 : 0 ≤ x.toQ)
    (hy0 : 0 < y.toQ) :
    (F64.rem x y).isFin = true ∧ ∃ n : ℕ, (F64.rem x y).toQ = x.toQ - n * y.toQ ∧
      0 ≤ (F64.rem x y).toQ ∧ (F64.rem x y).toQ < y.toQ := by
  obtain ⟨s, a, ha, rfl⟩ := F64.isFin_iff.mp hx
  obtain ⟨t, b, hb, rfl⟩ := F64.isFin_iff.mp hy
  have ha0 := F64.isRepr_nonneg ha.1
  have hb0 := F64.isRepr_nonneg hb.1
  have hxa : (F64.fin s a ha).toQ = a := by
    cases s
    · rfl
    · have : -a = (F64.fin true a ha).toQ := rfl
      have : a = 0 := by linarith
      subst this; simp [F64.toQ]
  have hyb : (F64.fin t b hb).toQ = b := by
    cases t
    · rfl
    · have : -b = (F64.fin true b hb).toQ := rfl
      linarith
  rw [hxa, hyb]
  rw [hyb] at hy0
  rw [hxa] at h0
  have hr := F64.isRepr_rem ha.1 hb.1 hy0
  have hr0 := F64.isRepr_nonneg hr
  have hrb : a - b * (⌊a / b⌋ : ℚ) < b := by
    have := Int.lt_floor_add_one (a / b)
    rw [div_lt_iff₀ hy0] at this
    linarith [mul_comm b (⌊a / b⌋ : ℚ)]
  have hfl : 0 ≤ ⌊a / b⌋ := Int.floor_nonneg.mpr (div_nonneg ha0 hb0)
  obtain ⟨k, hk⟩ := Int.eq_ofNat_of_zero_le hfl
  have key : ∀ q : ℚ, |q| = a - b * (⌊a / b⌋ : ℚ) →
      (F64.ofRat s q).isFin = true ∧ (F64.ofRat s q).toQ = q := fun q hq =>
    F64.ofRat_exact (by unfold F64.Exact; rw [hq]; exact hr) (by rw [hq]; exact hrb.trans hb.2)
  have e : F64.rem (.fin s a ha) (.fin t b hb)
      = F64.ofRat s (if s then -(a - b * (⌊a / b⌋ : ℚ)) else a - b * (⌊a / b⌋ : ℚ)) := by
    show (if b = 0 then _ else _) = _
    rw [if_neg hy0.ne']
  have hq : (if s then -(a - b * (⌊a / b⌋ : ℚ)) else a - b * (⌊a / b⌋ : ℚ))
      = a - b * (⌊a / b⌋ : ℚ) := by
    cases s
    · rfl
    · have : -a = (F64.fin true a ha).toQ := rfl
      have : a = 0 := by linarith
      subst this
      simp
  rw [e, hq]
  obtain ⟨h1, h2⟩ := key _ (abs_of_nonneg hr0)
  refine ⟨h1, k, ?_, by rw [h2]; exact hr0, by rw [h2]; exact hrb⟩
  rw [h2, hk]; push_cast; ring

theorem real_rem {x y : ℝ} (hx : 0 ≤ x) (hy : 0 < y) :
    0 ≤ FloatOps.rem x y ∧ FloatOps.rem x y < y ∧
      ∃ n : ℕ, FloatOps.rem x y + n * y = x := by
  have e : FloatOps.rem x y = x - |y| * ⌊x / |y|⌋ := by
    show (if 0 ≤ x then _ else _) = _
    rw [if_pos hx]
  rw [abs_of_pos hy] at e
  have h1 := Int.floor_le (x / y)
  have h2 := Int.lt_floor_add_one (x / y)
  rw [le_div_iff₀ hy] at h1
  rw [div_lt_iff₀ hy] at h2
  obtain ⟨k, hk⟩ := Int.eq_ofNat_of_zero_le (Int.floor_nonneg.mpr (div_nonneg hx hy.le))
  refine ⟨by rw [e]; linarith [mul_comm y (⌊x / y⌋ : ℝ)],
    by rw [e]; linarith [mul_comm y (⌊x / y⌋ : ℝ)], k, ?_⟩
  rw [e, hk]; push_cast; ring

/-- The remainder is determined by its range and the multiple. -/
theorem rem_unique {y p q : ℝ} {m n : ℤ} (h0 : 0 ≤ p) (h1 : p < y) (k0 : 0 ≤ q)
    (k1 : q < y) (h : p + m * y = q + n * y) : p = q := by
  have hy : 0 < y := h0.trans_lt h1
  have h2 : ((n - m : ℤ) : ℝ) * y = p - q := by push_cast; linarith
  have h3 : ((n - m : ℤ) : ℝ) < 1 := by
    by_contra hh
    have := mul_le_mul_of_nonneg_right (not_lt.mp hh) hy.le
    linarith
  have h4 : (-1 : ℝ) < ((n - m : ℤ) : ℝ) := by
    by_contra hh
    have := mul_le_mul_of_nonneg_right (not_lt.mp hh) hy.le
    linarith
  have h5 : n - m = 0 := by
    have a : n - m < 1 := by exact_mod_cast h3
    have b : -1 < n - m := by exact_mod_cast h4
    omega
  rw [h5] at h2
  simp at h2
  linarith

/-! ## The frame -/

section
variable {F : Type} [FloatOps F] [Libm F] [Kurbo F] [KurboBox F]

/-- What the tracker collects while a composition is appended. -/
theorem Tracker.append_collected {c : Composition F} {fr : F} {r r' : Renderer F} (hr : Reachable r)
    {ops : List (Op F)} (h : AppendCalls r c fr Affine.identity (lit 1) r' ops) :
    ∃ per, LayersDrawn c fr per ∧
      (((Tracker.new (c.layers.map (·.name))).sinkAll ops).1.collected.map fun h => (h.name, h.rect))
        = (c.layers.zip per).reverse.filterMap
          (fun p => (drawnBox p.2).map fun b => (p.1.name, b)) ∧
      ((Tracker.new (c.layers.map (·.name))).sinkAll ops).1.collected.Pairwise
        fun a b => a.paintOrder < b.paintOrder := by
  obtain ⟨-, per, hper, rfl⟩ := (C33_painters_order hr).mp h
  refine ⟨per, hper, ?_⟩
  have hper' : List.Forall₂ (fun (l : Layer F) os => os = [] ∨ ∃ i mid,
      os = Op.beginGroup l.name i :: (mid ++ [Op.endGroup]) ∧ nest [] mid = some []) c.layers per := by
    have e : c.layers = c.layers.zipIdx.map (·.1) := (List.zipIdx_map_fst 0 _).symm
    rw [e, List.forall₂_map_left_iff]
    refine hper.imp fun p os h => ?_
    split at h
    · exact .inl h
    · rcases h.group with h | ⟨mid, h, hn⟩
      · exact .inl h
      · exact .inr ⟨p.2, mid, h, hn⟩
  have hrev : List.Forall₂ _ c.layers.reverse per.reverse := List.forall₂_reverse_iff.mpr hper'
  obtain ⟨s', new, h1, -, -, -, h2, h3, h4, -⟩ := Tracker.groups (Tracker.new (c.layers.map (·.name)))
    rfl (fun l : Layer F => l.name) hrev fun l hl => by
      exact List.mem_map.mpr ⟨l, List.mem_reverse.mp hl, rfl⟩
  have hc : ((Tracker.new (c.layers.map (·.name))).sinkAll
      ([Op.pushClip Affine.identity (fullRect c)] ++ per.reverse.flatten ++ [Op.pop])).1.collected
      = new := by
    rw [Tracker.sinkAll_append, Tracker.sinkAll_append]
    show (((Tracker.new (c.layers.map (·.name))).sinkAll per.reverse.flatten).1).collected = new
    rw [h1, h2]; rfl
  rw [hc, h3]
  refine ⟨?_, h4⟩
  congr 1
  have hl : c.layers.length = per.length := hper'.length_eq
  rw [List.zip, ← List.reverse_zipWith hl]

end

end Velato
