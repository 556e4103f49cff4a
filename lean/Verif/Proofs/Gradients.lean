import Verif.Spec.Gradients
import Verif.Model.Import
import Verif.Proofs.Easing

/-!
# Gradient stops: helper lemmas
-/

namespace Velato.Import
open Velato.FloatOps (lit)

section
variable {F : Type}

theorem chunks4_length (v : List F) : (chunks4 v).length = v.length / 4 := by
  induction v using chunks4.induct with
  | case1 a b c d rest ih => simp only [chunks4, List.length_cons, ih]; omega
  | case2 v h =>
    match v, h with
    | [], _ => simp [chunks4]
    | [a], _ => simp [chunks4]
    | [a, b], _ => simp [chunks4]
    | [a, b, c], _ => simp [chunks4]
    | a :: b :: c :: d :: r, h => exact absurd rfl (h a b c d r)

theorem chunks4_get (v : List F) (i : Nat) (o r g b : F) (h : (chunks4 v)[i]? = some (o, r, g, b)) :
    v[4 * i]? = some o ∧ v[4 * i + 1]? = some r ∧ v[4 * i + 2]? = some g ∧
      v[4 * i + 3]? = some b := by
  induction v using chunks4.induct generalizing i with
  | case1 a b c d rest ih =>
    cases i with
    | zero => cases h; exact ⟨rfl, rfl, rfl, rfl⟩
    | succ i => exact ih i h
  | case2 v hv =>
    rw [chunks4.eq_2 v hv] at h
    cases h

theorem chunks2_length (v : List F) : (chunks2 v).length = v.length / 2 := by
  induction v using chunks2.induct with
  | case1 a b rest ih => simp only [chunks2, List.length_cons, ih]; omega
  | case2 v h =>
    match v, h with
    | [], _ => simp [chunks2]
    | [a], _ => simp [chunks2]
    | a :: b :: r, h => exact absurd rfl (h a b r)

theorem chunks2_get (v : List F) (i : Nat) (o a : F) (h : (chunks2 v)[i]? = some (o, a)) :
    v[2 * i]? = some o ∧ v[2 * i + 1]? = some a := by
  induction v using chunks2.induct generalizing i with
  | case1 a b rest ih =>
    cases i with
    | zero => cases h; exact ⟨rfl, rfl⟩
    | succ i => exact ih i h
  | case2 v hv =>
    rw [chunks2.eq_2 v hv] at h
    cases h

variable [FloatOps F] [Kurbo F]

/-- A stop before its opacity is known. -/
def opaqueStop (c : F × F × F × F) : RawStop F := ⟨c.1, c.2.1, c.2.2.1, c.2.2.2, lit 1⟩

theorem stopsLoop_eq (count : Nat) (al : List (F × F)) (cs : List (F × F × F × F))
    (acc : List (RawStop F)) (h : acc.length < count) :
    stopsLoop count al cs acc =
      if count ≤ acc.length + cs.length then
        ((acc ++ cs.map opaqueStop).take count).map fun s =>
          { s with a := alphaLoop s.offset al none s.a }
      else acc ++ cs.map opaqueStop := by
  induction cs generalizing acc with
  | nil =>
    unfold stopsLoop
    rw [if_neg (by simp; omega)]; simp
  | cons c cs ih =>
    obtain ⟨o, r, g, b⟩ := c
    unfold stopsLoop
    dsimp only
    have hl : (acc ++ [(⟨o, r, g, b, lit 1⟩ : RawStop F)]).length = acc.length + 1 := by simp
    have ha : acc ++ ((o, r, g, b) :: cs).map opaqueStop
        = (acc ++ [(⟨o, r, g, b, lit 1⟩ : RawStop F)]) ++ cs.map opaqueStop := by
      rw [List.append_assoc]; rfl
    rw [hl, ha]
    by_cases hc : count ≤ acc.length + 1
    · rw [if_pos hc, if_pos (by rw [List.length_cons]; omega), List.take_left' (by omega)]
    · rw [if_neg hc, ih _ (by rw [hl]; omega), hl, List.length_cons,
        show acc.length + 1 + cs.length = acc.length + (cs.length + 1) by omega]

/-- A stop of the imported gradient. -/
theorem convStops_mem {value : List F} {count : Nat} (hc : 1 ≤ count) {i : Nat} {s : RawStop F}
    (h : (convStops value count)[i]? = some s) :
    ∃ c, (chunks4 value)[i]? = some c ∧ i < count ∧
      s = { opaqueStop c with
        a := if count ≤ (chunks4 value).length then
          alphaLoop c.1 ((chunks2 value).drop (count * 2)) none (lit 1) else lit 1 } := by
  unfold convStops at h
  rw [stopsLoop_eq _ _ _ _ (by simpa using (show 0 < count from hc))] at h
  simp only [List.length_nil, Nat.zero_add, List.nil_append] at h
  by_cases hle : count ≤ (chunks4 value).length
  · rw [if_pos hle, List.getElem?_map, List.getElem?_take] at h
    split at h
    · rename_i hi
      rw [List.getElem?_map] at h
      cases hg : (chunks4 value)[i]? with
      | none => rw [hg] at h; cases h
      | some c =>
        rw [hg] at h
        exact ⟨c, rfl, hi, by rw [if_pos hle]; exact (Option.some.inj h).symm⟩
    · cases h
  · rw [if_neg hle, List.getElem?_map] at h
    cases hg : (chunks4 value)[i]? with
    | none => rw [hg] at h; cases h
    | some c =>
      rw [hg] at h
      have := (List.getElem?_eq_some_iff.mp hg).1
      exact ⟨c, rfl, by omega, by rw [if_neg hle]; exact (Option.some.inj h).symm⟩

theorem convStops_length (value : List F) (count : Nat) (hc : 1 ≤ count) :
    (convStops value count).length = min count (value.length / 4) := by
  unfold convStops
  rw [stopsLoop_eq _ _ _ _ (by simpa using (show 0 < count from hc)), ← chunks4_length]
  split
  · simp at *
  · simp at *; omega

omit [Kurbo F] in
theorem fmin_le_left [LawfulCmp F] {a b c : F} (h : (a <=. c) = true) :
    (fmin a b <=. c) = true := by
  unfold fmin
  split
  · exact h
  · rename_i hn
    rw [Bool.or_eq_true, not_or] at hn
    have h1 : (a <. b) = false := by simpa using hn.1
    have h2 : isNaN b = false := by simpa using hn.2
    exact le_trans' (le_of_not_lt' (not_nan_of_le_left h) h2 h1) h

theorem alphaLoop_le [LawfulCmp F] (x : F) (al : List (F × F)) (last : Option (F × F)) (acc c : F)
    (h : (acc <=. c) = true) : (alphaLoop x al last acc <=. c) = true := by
  induction al generalizing last acc with
  | nil => exact h
  | cons pb rest ih =>
    unfold alphaLoop
    cases last with
    | none => exact ih _ _ h
    | some pa => exact ih _ _ (fmin_le_left h)

theorem alphaLoop_short (x : F) (al : List (F × F)) (acc : F) (h : al.length ≤ 1) :
    alphaLoop x al none acc = acc := by
  match al, h with
  | [], _ => rfl
  | [p], _ => rfl

end

section
variable [Kurbo ℝ]

omit [Kurbo ℝ] in
theorem fmin_real (a b : ℝ) : fmin a b = min a b := by
  unfold fmin isNaN
  simp only [real_lt, real_eq, decide_true, Bool.not_true, Bool.or_false, decide_eq_true_eq]
  split
  · rename_i h; exact (min_eq_left h.le).symm
  · rename_i h; exact (min_eq_right (not_lt.mp h)).symm

theorem progress_lerp_mem (hk : ExactSolver) (t : ℝ) :
    0 ≤ progress t (Easing.lerp : Easing ℝ) ∧ progress t (Easing.lerp : Easing ℝ) ≤ 1 := by
  by_cases h0 : t ≤ 0
  · unfold progress; rw [if_pos h0]; exact ⟨le_refl _, zero_le_one⟩
  by_cases h1 : 1 ≤ t
  · unfold progress; rw [if_neg h0, if_pos h1]; exact ⟨zero_le_one, le_refl _⟩
  rw [progress_lerp hk t (by linarith) (by linarith)]
  exact ⟨by linarith, by linarith⟩

theorem alphaBetween_mem (hk : ExactSolver) (x : ℝ) (pa pb : ℝ × ℝ)
    (ha : 0 ≤ pa.2 ∧ pa.2 ≤ 1) (hb : 0 ≤ pb.2 ∧ pb.2 ≤ 1) :
    0 ≤ alphaBetween x pa pb ∧ alphaBetween x pa pb ≤ 1 := by
  unfold alphaBetween
  dsimp only
  split
  · exact hb
  split
  · exact ha
  rw [tween_progress]
  obtain ⟨h0, h1⟩ := progress_lerp_mem hk (normalizeToRange pa.1 pb.1 x)
  obtain ⟨a0, a1⟩ := ha
  obtain ⟨b0, b1⟩ := hb
  constructor <;> nlinarith

theorem alphaLoop_nonneg (hk : ExactSolver) (x : ℝ) (al : List (ℝ × ℝ)) (last : Option (ℝ × ℝ))
    (acc : ℝ) (hacc : 0 ≤ acc) (hal : ∀ p ∈ al, 0 ≤ p.2 ∧ p.2 ≤ 1)
    (hlast : ∀ p ∈ last, 0 ≤ p.2 ∧ p.2 ≤ 1) : 0 ≤ alphaLoop x al last acc := by
  induction al generalizing last acc with
  | nil => exact hacc
  | cons pb rest ih =>
    unfold alphaLoop
    have hb := hal pb (by simp)
    refine ih _ _ ?_ (fun p hp => hal p (by simp [hp])) (fun p hp => by cases hp; exact hb)
    cases last with
    | none => exact hacc
    | some pa =>
      show 0 ≤ fmin _ _
      rw [fmin_real]
      exact le_min hacc (alphaBetween_mem hk x pa pb (hlast pa rfl) hb).1

/-- Past the second opacity stop of a pair the opacity of the pair is that of the second. -/
theorem alphaBetween_after (x : ℝ) (pa pb : ℝ × ℝ) (h : pa.1 < pb.1) (hx : pb.1 ≤ x) :
    alphaBetween x pa pb = pb.2 := by
  have ht : 1 ≤ normalizeToRange pa.1 pb.1 x := by
    unfold normalizeToRange
    simp only [real_eq, decide_eq_true_eq, real_sub, real_div]
    rw [if_neg h.ne, one_le_div (by linarith)]; linarith
  unfold alphaBetween
  dsimp only
  split
  · rfl
  · split
    · rename_i h'
      simp only [real_le, Bool.and_eq_true, decide_eq_true_eq, real_lit] at h'
      have := h'.1.2
      push_cast at this
      linarith
    · rw [tween_progress]
      unfold progress
      rw [if_neg (by linarith), if_pos ht]; ring

/-- Before the first opacity stop of a pair the opacity of the pair is that of the first. -/
theorem alphaBetween_before (x : ℝ) (pa pb : ℝ × ℝ) (h : pa.1 < pb.1) (hx : x ≤ pa.1) :
    alphaBetween x pa pb = pa.2 := by
  have ht : normalizeToRange pa.1 pb.1 x ≤ 0 := by
    unfold normalizeToRange
    simp only [real_eq, decide_eq_true_eq, real_sub, real_div]
    rw [if_neg h.ne]
    exact div_nonpos_of_nonpos_of_nonneg (by linarith) (by linarith)
  unfold alphaBetween
  dsimp only
  split
  · rename_i h'
    simp only [real_le, Bool.and_eq_true, decide_eq_true_eq, real_lit] at h'
    have := h'.1.2
    push_cast at this
    linarith
  · split
    · rfl
    · rw [tween_progress]
      unfold progress
      rw [if_pos ht]; ring

/-- The opacity of a pair is the ramp of the specification. -/
theorem alphaBetween_ramp (hk : ExactSolver) (x : ℝ) (pa pb : ℝ × ℝ) (h : pa.1 ≤ pb.1) :
    alphaBetween x pa pb = rampOpacity pa.1 pa.2 pb.1 pb.2 x := by
  obtain ⟨o₀, a₀⟩ := pa
  obtain ⟨o₁, a₁⟩ := pb
  dsimp only at h ⊢
  unfold rampOpacity
  by_cases he : o₀ = o₁
  · subst he
    rw [if_pos (Or.inr rfl)]
    unfold alphaBetween normalizeToRange
    simp only [real_eq, decide_true, if_true, real_le, real_lit]
    rw [if_neg (by norm_num), tween_progress]
    split
    · rfl
    · unfold progress; rw [if_pos (by norm_num)]; ring
  have hlt : o₀ < o₁ := lt_of_le_of_ne h he
  by_cases h0 : x ≤ o₀
  · rw [if_pos (Or.inl h0)]; exact alphaBetween_before x _ _ hlt h0
  rw [if_neg (by tauto)]
  by_cases h1 : o₁ ≤ x
  · rw [if_pos h1]; exact alphaBetween_after x _ _ hlt h1
  rw [if_neg h1]
  have hd : 0 < o₁ - o₀ := by linarith
  push Not at h0 h1
  have hn : normalizeToRange o₀ o₁ x = (x - o₀) / (o₁ - o₀) := by
    unfold normalizeToRange
    simp only [real_eq, decide_eq_true_eq, real_sub, real_div]
    rw [if_neg he]
  have hq : (x - o₀) / (o₁ - o₀) ≤ 1 / 4 ↔ x ≤ o₀ + (o₁ - o₀) / 4 := by
    rw [div_le_iff₀ hd]; constructor <;> intro h <;> linarith
  have hr : 3 / 4 ≤ (x - o₀) / (o₁ - o₀) ↔ o₁ - (o₁ - o₀) / 4 ≤ x := by
    rw [le_div_iff₀ hd]; constructor <;> intro h <;> linarith
  have hm0 : 0 ≤ (x - o₀) / (o₁ - o₀) := div_nonneg (by linarith) hd.le
  have hm1 : (x - o₀) / (o₁ - o₀) ≤ 1 := by rw [div_le_one hd]; linarith
  unfold alphaBetween
  dsimp only
  rw [hn, tween_progress, progress_lerp hk _ hm0 hm1]
  simp only [real_le, real_lit, Bool.and_eq_true, decide_eq_true_eq]
  push_cast
  simp only [hq, hr]
  have hin : o₀ ≤ x ∧ x ≤ o₁ := ⟨h0.le, h1.le⟩
  by_cases c1 : x ≤ 1 / 10 ∧ x ≤ o₀ + (o₁ - o₀) / 4
  · rw [if_pos c1, if_neg (by rintro ⟨-, h⟩; linarith [c1.1]), if_pos ⟨⟨hin, c1.2⟩, c1.1⟩]
  rw [if_neg c1]
  by_cases c2 : 9 / 10 ≤ x ∧ o₁ - (o₁ - o₀) / 4 ≤ x
  · rw [if_pos c2, if_pos ⟨⟨hin, c2.2⟩, c2.1⟩]
  · rw [if_neg c2, if_neg (by rintro ⟨⟨-, h⟩, h'⟩; exact c2 ⟨h', h⟩),
      if_neg (by rintro ⟨⟨-, h⟩, h'⟩; exact c1 ⟨h', h⟩)]

/-- The loop ends with its start value or the opacity of one of the pairs. -/
theorem alphaLoop_attained (x : ℝ) (al : List (ℝ × ℝ)) (last : Option (ℝ × ℝ)) (acc : ℝ) :
    alphaLoop x al last acc = acc ∨
    (∃ pa pb, last = some pa ∧ al[0]? = some pb ∧ alphaLoop x al last acc = alphaBetween x pa pb) ∨
    ∃ (i : Nat) (pa pb : ℝ × ℝ), al[i]? = some pa ∧ al[i + 1]? = some pb ∧
      alphaLoop x al last acc = alphaBetween x pa pb := by
  induction al generalizing last acc with
  | nil => exact Or.inl rfl
  | cons pb rest ih =>
    cases last with
    | none =>
      show alphaLoop x rest (some pb) acc = _ ∨ (∃ pa pc, _ ∧ _ ∧
        alphaLoop x rest (some pb) acc = _) ∨ ∃ i pa pc, _ ∧ _ ∧ alphaLoop x rest (some pb) acc = _
      rcases ih (some pb) acc with h | ⟨pa, pc, h1, h2, h3⟩ | ⟨i, pa, pc, h1, h2, h3⟩
      · exact Or.inl h
      · cases h1
        exact Or.inr (Or.inr ⟨0, pb, pc, rfl, by simpa using h2, h3⟩)
      · exact Or.inr (Or.inr ⟨i + 1, pa, pc, by simpa using h1, by simpa using h2, h3⟩)
    | some q =>
      show alphaLoop x rest (some pb) (fmin acc (alphaBetween x q pb)) = _ ∨ (∃ pa pc, _ ∧ _ ∧
        alphaLoop x rest (some pb) (fmin acc (alphaBetween x q pb)) = _) ∨ ∃ i pa pc, _ ∧ _ ∧
        alphaLoop x rest (some pb) (fmin acc (alphaBetween x q pb)) = _
      rcases ih (some pb) (fmin acc (alphaBetween x q pb)) with
        h | ⟨pa, pc, h1, h2, h3⟩ | ⟨i, pa, pc, h1, h2, h3⟩
      · rw [h, fmin_real]
        rcases min_choice acc (alphaBetween x q pb) with hm | hm
        · exact Or.inl hm
        · exact Or.inr (Or.inl ⟨q, pb, rfl, rfl, hm⟩)
      · cases h1
        exact Or.inr (Or.inr ⟨0, pb, pc, rfl, by simpa using h2, h3⟩)
      · exact Or.inr (Or.inr ⟨i + 1, pa, pc, by simpa using h1, by simpa using h2, h3⟩)

theorem alphaLoop_le_acc (x : ℝ) (al : List (ℝ × ℝ)) (last : Option (ℝ × ℝ)) (acc : ℝ) :
    alphaLoop x al last acc ≤ acc := by
  have := alphaLoop_le x al last acc acc (by simp)
  simpa using this

theorem alphaLoop_le_pair (x : ℝ) (al : List (ℝ × ℝ)) (last : Option (ℝ × ℝ)) (acc : ℝ) (i : Nat)
    (pa pb : ℝ × ℝ) (ha : al[i]? = some pa) (hb : al[i + 1]? = some pb) :
    alphaLoop x al last acc ≤ alphaBetween x pa pb := by
  induction al generalizing last acc i with
  | nil => cases ha
  | cons p rest ih =>
    unfold alphaLoop
    cases i with
    | zero =>
      cases ha
      cases rest with
      | nil => cases hb
      | cons q rest =>
        cases hb
        unfold alphaLoop
        refine (alphaLoop_le_acc _ _ _ _).trans ?_
        dsimp only
        rw [fmin_real]; exact min_le_right _ _
    | succ i => exact ih _ _ i ha hb

end
end Velato.Import
