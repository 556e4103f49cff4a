import Verif.Proofs.Paths

/-!
# Equality up to the sign of zeros is respected by path construction
-/

namespace Velato
open FloatOps (lit)

namespace F64

theorem Same.refl (x : F64) : Same x x := Or.inl rfl

theorem same_ofRat (s s' : Bool) (q : ℚ) : Same (ofRat s q) (ofRat s' q) := by
  by_cases h : |rnd q| < maxMag
  · right
    rw [beq_fin (ofRat_fin h).1 (ofRat_fin h).1, (ofRat_fin h).2, (ofRat_fin h).2]
  · left; rw [ofRat_inf h, ofRat_inf h]

/-- `Same` of finite numbers. -/
theorem same_fin {x y : F64} (hx : x.isFin = true) (hy : y.isFin = true) :
    Same x y ↔ x.toQ = y.toQ := by
  constructor
  · rintro (rfl | h)
    · rfl
    · exact (beq_fin hx hy).mp h
  · intro h; exact Or.inr ((beq_fin hx hy).mpr h)

theorem Same.cases {x y : F64} (h : Same x y) :
    x = y ∨ (x.isFin = true ∧ y.isFin = true ∧ x.toQ = y.toQ) := by
  rcases h with h | h
  · exact Or.inl h
  · change beq x y = true at h
    cases x with
    | nan => simp [beq] at h
    | inf s => cases y <;> simp [beq] at h; subst h; exact Or.inl rfl
    | fin s a ha =>
      cases y with
      | nan => simp [beq] at h
      | inf t => simp [beq] at h
      | fin t b hb => exact Or.inr ⟨rfl, rfl, by simpa [beq] using h⟩

theorem Same.add {x x' y y' : F64} (hx : Same x x') (hy : Same y y') :
    Same (x +. y) (x' +. y') := by
  rcases hx.cases with rfl | ⟨f1, f2, e⟩
  · rcases hy.cases with rfl | ⟨g1, g2, e'⟩
    · exact Same.refl _
    · show Same (F64.add x y) (F64.add x y')
      cases x with
      | nan => exact Same.refl _
      | inf s =>
        obtain ⟨_, _, _, rfl⟩ := isFin_iff.mp g1
        obtain ⟨_, _, _, rfl⟩ := isFin_iff.mp g2
        exact Same.refl _
      | fin s a ha =>
        obtain ⟨s1, e1⟩ := add_eq (x := .fin s a ha) rfl g1
        obtain ⟨s2, e2⟩ := add_eq (x := .fin s a ha) rfl g2
        rw [e1, e2, e']; exact same_ofRat _ _ _
  · rcases hy.cases with rfl | ⟨g1, g2, e'⟩
    · show Same (F64.add x y) (F64.add x' y)
      cases y with
      | nan =>
        obtain ⟨_, _, _, rfl⟩ := isFin_iff.mp f1
        obtain ⟨_, _, _, rfl⟩ := isFin_iff.mp f2
        exact Same.refl _
      | inf s =>
        obtain ⟨_, _, _, rfl⟩ := isFin_iff.mp f1
        obtain ⟨_, _, _, rfl⟩ := isFin_iff.mp f2
        exact Same.refl _
      | fin s a ha =>
        obtain ⟨s1, e1⟩ := add_eq f1 (y := .fin s a ha) rfl
        obtain ⟨s2, e2⟩ := add_eq f2 (y := .fin s a ha) rfl
        rw [e1, e2, e]; exact same_ofRat _ _ _
    · obtain ⟨s1, e1⟩ := add_eq f1 g1
      obtain ⟨s2, e2⟩ := add_eq f2 g2
      show Same (F64.add x y) (F64.add x' y')
      rw [e1, e2, e, e']; exact same_ofRat _ _ _

theorem Same.beq_congr {x x' y y' : F64} (hx : Same x x') (hy : Same y y') :
    (x ==. y) = (x' ==. y') := by
  have key : ∀ z z' : F64, Same z z' → val z = val z' := by
    intro z z' h
    rcases h.cases with rfl | ⟨f1, f2, e⟩
    · rfl
    · rw [val_of_isFin f1, val_of_isFin f2, e]
  rw [Bool.eq_iff_iff, LawfulCmp.eq_iff, LawfulCmp.eq_iff]
  show (∃ a b, val x = _ ∧ val y = _ ∧ _) ↔ (∃ a b, val x' = _ ∧ val y' = _ ∧ _)
  rw [key _ _ hx, key _ _ hy]

/-- `p + t (q - p)` is `p` for a zero `t` if the difference does not overflow. -/
theorem lerp_zero {p q t : F64} (hp : p.isFin = true) (hd : (q -. p).isFin = true)
    (ht : t.isFin = true) (h0 : t.toQ = 0) : Same (p +. t *. (q -. p)) p := by
  obtain ⟨s, em⟩ := mul_eq ht hd
  have hz : (mul t (q -. p)).isFin = true ∧ (mul t (q -. p)).toQ = 0 := by
    rw [em, h0, zero_mul, ofRat_zero]; exact ⟨rfl, by simp [toQ]⟩
  have h1 : rnd (p.toQ + (mul t (q -. p)).toQ) = p.toQ := by
    rw [hz.2, add_zero, rnd_of_exact (exact_toQ p)]
  have h2 := add_fin hp hz.1 (by rw [h1]; exact abs_toQ_lt p)
  show Same (add p (mul t (q -. p))) p
  rw [same_fin h2.1 hp, h2.2, h1]

end F64

theorem P2.Same.refl (p : P2 F64) : p.Same p := ⟨.refl _, .refl _⟩

theorem splineElement_same {p0 c0 c1 p1 q0 d0 d1 q1 : P2 F64} (h1 : p0.Same q0) (h2 : c0.Same d0)
    (h3 : c1.Same d1) (h4 : p1.Same q1) :
    PathEl.Same (splineElement p0 c0 c1 p1) (splineElement q0 d0 d1 q1) := by
  have e0x := h2.1.add h1.1
  have e0y := h2.2.add h1.2
  have e1x := h3.1.add h4.1
  have e1y := h3.2.add h4.2
  unfold splineElement P2.beq
  simp only
  rw [e0x.beq_congr h1.1, e0y.beq_congr h1.2, e1x.beq_congr h4.1, e1y.beq_congr h4.2]
  split_ifs
  · exact .lineTo h4
  · exact .curveTo ⟨e0x, e0y⟩ ⟨e1x, e1y⟩ h4

theorem toPath_same (len : Nat) (get get' : Fin len → P2 F64) (isClosed : Bool)
    (h : ∀ i, (get i).Same (get' i)) :
    SamePath (toPath len get isClosed) (toPath len get' isClosed) := by
  unfold toPath
  by_cases h0 : len = 0
  · rw [dif_pos h0, dif_pos h0]; exact .nil
  rw [dif_neg h0, dif_neg h0]
  apply List.rel_append
  · apply List.rel_append
    · exact .cons (.moveTo (h _)) .nil
    · rw [List.forall₂_map_left_iff, List.forall₂_map_right_iff]
      exact List.forall₂_same.mpr fun k _ => splineElement_same (h _) (h _) (h _) (h _)
  · split_ifs
    · exact .cons (splineElement_same (h _) (h _) (h _) (h _)) (.cons .closePath .nil)
    · exact .nil

/-- Lerping at a zero weight towards a list that is long enough gives the first list's path. -/
theorem splineLerp_zero (from_ to_ : List (P2 F64)) (t : F64) (isClosed : Bool)
    (hlen : from_.length ≤ to_.length)
    (hfin : ∀ p ∈ from_, p.x.isFin = true ∧ p.y.isFin = true)
    (hdiff : ∀ (i : Nat) (p q : P2 F64), from_[i]? = some p → to_[i]? = some q →
      (q.x -. p.x).isFin = true ∧ (q.y -. p.y).isFin = true)
    (ht : t.isFin = true) (h0 : t.toQ = 0) :
    SamePath (splineLerpToPath from_ to_ t isClosed) (splineToPath from_ isClosed) := by
  unfold splineLerpToPath splineToPath
  have hm : min from_.length to_.length = from_.length := by omega
  have key : ∀ n (hn : n = from_.length) (g : Fin n → P2 F64),
      (∀ i : Fin n, (g i).Same (from_[i.1]'(by have := i.2; omega))) →
      SamePath (toPath n g isClosed) (toPath from_.length (fun i => from_[i]) isClosed) := by
    intro n hn g hg
    subst hn
    exact toPath_same _ _ _ _ hg
  apply key _ hm
  intro i
  have hi : i.1 < from_.length := by have := i.2; omega
  have hi' : i.1 < to_.length := by have := i.2; omega
  have hp := hfin from_[i.1] (List.getElem_mem _)
  have hd := hdiff i.1 _ _ (List.getElem?_eq_getElem hi) (List.getElem?_eq_getElem hi')
  exact ⟨F64.lerp_zero hp.1 hd.1 ht h0, F64.lerp_zero hp.2 hd.2 ht h0⟩

end Velato
