import Verif.Spec.Keyframes

/-!
# The binary search of keyframes
-/

namespace Velato

section
variable {α : Type} (l : List α) (f : α → Ordering)

/-- Element `i` exists and does not compare `Greater`. -/
def NotGt (i : Nat) : Prop := ∃ h : i < l.length, f l[i] ≠ .gt

/-- The list is ordered with respect to the comparison: nothing `≤` follows a `Greater`. -/
def Ordered : Prop := ∀ i j, i ≤ j → NotGt l f j → NotGt l f i

theorem bsearchLoop_bounds (base size : Nat) (hs : 1 ≤ size) :
    base ≤ bsearchLoop l f base size ∧ bsearchLoop l f base size < base + size := by
  induction size using Nat.strong_induction_on generalizing base with
  | _ size ih =>
    unfold bsearchLoop
    split
    · rename_i h
      simp only
      have h1 := fun b => ih (size - size / 2) (by omega) b (by omega)
      cases l[base + size / 2]? with
      | none => have := h1 base; simp only; omega
      | some x =>
        simp only
        split
        · have := h1 base; omega
        · have := h1 (base + size / 2); omega
    · omega

theorem bsearchLoop_spec (ho : Ordered l f) (base size : Nat) (hs : 1 ≤ size)
    (hle : base + size ≤ l.length)
    (h0 : base = 0 ∨ NotGt l f base) (h1 : ∀ j, base + size ≤ j → ¬ NotGt l f j) :
    (bsearchLoop l f base size = 0 ∨ NotGt l f (bsearchLoop l f base size)) ∧
      ∀ j, bsearchLoop l f base size < j → ¬ NotGt l f j := by
  induction size using Nat.strong_induction_on generalizing base with
  | _ size ih =>
    unfold bsearchLoop
    split
    · rename_i h
      have hm : base + size / 2 < l.length := by omega
      simp only [List.getElem?_eq_getElem hm]
      by_cases hg : f l[base + size / 2] = .gt
      · simp only [hg, beq_self_eq_true, if_true]
        refine ih _ (by omega) base (by omega) (by omega) h0 ?_
        intro j hj hn
        have := ho (base + size / 2) j (by omega) hn
        obtain ⟨_, h'⟩ := this
        exact h' hg
      · have : (f l[base + size / 2] == .gt) = false := by simpa using hg
        simp only [this, Bool.false_eq_true, if_false]
        refine ih (size - size / 2) (by omega) (base + size / 2) (by omega) (by omega)
          (Or.inr ⟨hm, hg⟩) ?_
        intro j hj
        exact h1 j (by omega)
    · have : size = 1 := by omega
      subst this
      exact ⟨h0, fun j hj => h1 j (by omega)⟩

end

section
variable {F : Type} [FloatOps F] [LawfulCmp F]

theorem cmpFrame_gt_iff (frame : F) (x : Time F) :
    Time.cmpFrame frame x = .gt ↔ (frame <. x.frame) = true := by
  unfold Time.cmpFrame
  by_cases h : (x.frame <. frame) = true
  · simp [h, lt_asymm' h]
  · by_cases h2 : (frame <. x.frame) = true <;> simp [h, h2]

omit [LawfulCmp F] in
theorem cmpFrame_lt_iff (frame : F) (x : Time F) :
    Time.cmpFrame frame x = .lt ↔ (x.frame <. frame) = true := by
  unfold Time.cmpFrame
  by_cases h : (x.frame <. frame) = true
  · simp [h]
  · by_cases h2 : (frame <. x.frame) = true <;> simp [h, h2]

theorem ordered_of_sorted {times : List (Time F)} (hs : SortedTimes times) (frame : F) :
    Ordered times (Time.cmpFrame frame) := by
  rintro i j hij ⟨hj, h⟩
  refine ⟨by omega, ?_⟩
  rcases hij.eq_or_lt with rfl | hlt
  · exact h
  rw [ne_eq, cmpFrame_gt_iff] at h ⊢
  have := (List.pairwise_iff_getElem.mp hs) i j (by omega) hj hlt
  exact fun hc => h (lt_of_lt_of_le' hc this)

/-- On sorted times the search returns the last keyframe that is not after `frame`
(the first keyframe if all are after it). -/
theorem search_spec {times : List (Time F)} (hs : SortedTimes times) (hne : times ≠ [])
    (frame : F) :
    Time.search times frame < times.length ∧
    (Time.search times frame = 0 ∨ ∀ h : Time.search times frame < times.length,
      (frame <. times[Time.search times frame].frame) = false) ∧
    ∀ j (h : j < times.length), Time.search times frame < j →
      (frame <. times[j].frame) = true := by
  have hlen : 0 < times.length := List.length_pos_iff.mpr hne
  have hb := bsearchLoop_bounds times (Time.cmpFrame frame) 0 times.length hlen
  have hsp := bsearchLoop_spec times (Time.cmpFrame frame) (ordered_of_sorted hs frame) 0
    times.length hlen (by omega) (Or.inl rfl) (by rintro j hj ⟨h, _⟩; omega)
  generalize hr : bsearchLoop times (Time.cmpFrame frame) 0 times.length = r at hb hsp
  have hrl : r < times.length := by omega
  have hsearch : Time.search times frame = r := by
    unfold Time.search binarySearchBy
    rw [if_neg (by omega)]
    simp only [hr, List.getElem?_eq_getElem hrl]
    cases hc : Time.cmpFrame frame times[r] with
    | lt => simp
    | eq => rfl
    | gt =>
      rcases hsp.1 with h | ⟨_, h⟩
      · simp [h]
      · exact absurd hc h
  rw [hsearch]
  refine ⟨hrl, ?_, ?_⟩
  · rcases hsp.1 with h | ⟨_, h⟩
    · exact Or.inl h
    · right; intro h'
      rw [ne_eq, cmpFrame_gt_iff] at h
      simpa using h
  · intro j hj hlt
    have := hsp.2 j hlt
    by_contra hc
    exact this ⟨hj, by rw [ne_eq, cmpFrame_gt_iff]; exact hc⟩

/-- On sorted times the search finds the keyframe whose interval contains the frame. -/
theorem search_in {times : List (Time F)} (hs : SortedTimes times) (frame : F) (k : Nat)
    (t0 t1 : Time F) (h0 : times[k]? = some t0) (h1 : times[k + 1]? = some t1)
    (hle : (t0.frame <=. frame) = true) (hlt : (frame <. t1.frame) = true) :
    Time.search times frame = k := by
  have hne : times ≠ [] := by intro h; simp [h] at h0
  obtain ⟨hl, hle', hgt⟩ := search_spec hs hne frame
  obtain ⟨hk, rfl⟩ := List.getElem?_eq_some_iff.mp h0
  obtain ⟨hk1, rfl⟩ := List.getElem?_eq_some_iff.mp h1
  rcases lt_trichotomy (Time.search times frame) k with h | h | h
  · have := hgt k hk h
    rw [not_lt_of_le' hle] at this; exact absurd this (by simp)
  · exact h
  · exfalso
    rcases hle' with hz | hz
    · omega
    · have hz := hz hl
      have : (frame <. times[Time.search times frame].frame) = true := by
        rcases (show k + 1 = Time.search times frame ∨ k + 1 < Time.search times frame by
          omega) with e | e
        · simp only [← e]; exact hlt
        · exact lt_of_lt_of_le' hlt ((List.pairwise_iff_getElem.mp hs) _ _ hk1 hl e)
      rw [hz] at this; exact absurd this (by simp)

end

section
variable {F : Type} [FloatOps F]

/-- `frames_and_weight` in terms of the index found. -/
theorem framesAndWeight_eq (times : List (Time F)) (frame : F) (t0 t1 : Time F)
    (h0 : times[min (Time.search times frame) (times.length - 1)]? = some t0)
    (h1 : times[min (min (Time.search times frame) (times.length - 1) + 1)
      (times.length - 1)]? = some t1) :
    Time.framesAndWeight times frame = some
      { ix0 := min (Time.search times frame) (times.length - 1)
        ix1 := min (min (Time.search times frame) (times.length - 1) + 1) (times.length - 1)
        t := clamp ((frame -. t0.frame) /. (t1.frame -. t0.frame)) (FloatOps.lit 0)
          (FloatOps.lit 1)
        easing := t0.easing
        hold := t0.hold } := by
  have hlen : times.length ≠ 0 := by
    intro h
    have : times = [] := List.length_eq_zero_iff.mp h
    subst this; simp at h0
  unfold Time.framesAndWeight
  rw [dif_neg hlen]
  rw [List.getElem?_eq_some_iff] at h0 h1
  obtain ⟨_, rfl⟩ := h0
  obtain ⟨_, rfl⟩ := h1
  rfl

/-- Evaluation in terms of the index found. -/
theorem evaluateInner_eq {T : Type} [Tween F T] (a : Animated F T) (frame : F) (k k' : Nat)
    (t0 t1 : Time F)
    (hk : k = min (Time.search a.times frame) (a.times.length - 1))
    (hk' : k' = min (k + 1) (a.times.length - 1))
    (h0 : a.times[k]? = some t0) (h1 : a.times[k']? = some t1) :
    a.evaluateInner frame = (do
      let v0 ← a.values[k]?
      let v1 ← a.values[k']?
      some (Tween.tween v0 v1 (mixWeight t0 t1 frame) t0.easing)) := by
  subst hk; subst hk'
  unfold Animated.evaluateInner
  rw [framesAndWeight_eq a.times frame t0 t1 h0 h1]
  rfl

end
end Velato
