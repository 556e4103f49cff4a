import Verif.Spec.Stats
import Verif.Proofs.Player

/-!
# Lemmas about the statistics of frame times
-/

namespace Velato
open FloatOps (lit)

theorem frameTimes_append (a b : List StatsEvent) :
    frameTimes (a ++ b) = frameTimes a ++ frameTimes b := List.filterMap_append

theorem timesSinceClear_frame (evs : List StatsEvent) (n : Nat) :
    timesSinceClear (evs ++ [.frame n]) = timesSinceClear evs ++ [n] := by
  unfold timesSinceClear
  rw [List.reverse_append]
  simp [frameTimes_append]
  rfl

theorem timesSinceClear_clear (evs : List StatsEvent) : timesSinceClear (evs ++ [.clear]) = [] := by
  unfold timesSinceClear
  rw [List.reverse_append]
  simp
  rfl

theorem lastN_length {α : Type} (n : Nat) (l : List α) : (lastN n l).length = min l.length n := by
  unfold lastN; rw [List.length_drop]; omega

theorem lastN_append {α : Type} (n : Nat) (l : List α) (x : α) (h : l.length < n) :
    lastN n (l ++ [x]) = lastN n l ++ [x] := by
  unfold lastN
  rw [List.length_append, List.length_singleton,
    show l.length + 1 - n = 0 by omega, show l.length - n = 0 by omega]
  simp

theorem lastN_append' {α : Type} (n : Nat) (l : List α) (x : α) (h : n ≤ l.length) (h0 : 0 < n) :
    lastN n (l ++ [x]) = (lastN n l).tail ++ [x] := by
  unfold lastN
  rw [List.length_append, List.length_singleton, List.tail_drop,
    show l.length - n + 1 = l.length + 1 - n by omega, List.drop_append_of_le_length (by omega)]

theorem le_sum_of_le (l : List Nat) (b : Nat) (h : ∀ x ∈ l, b ≤ x) : l.length * b ≤ l.sum := by
  induction l with
  | nil => simp
  | cons x l ih =>
    have := ih fun y hy => h y (by simp [hy])
    have := h x (by simp)
    rw [List.sum_cons, List.length_cons, Nat.add_mul]; omega

theorem sum_le_of_le (l : List Nat) (b : Nat) (h : ∀ x ∈ l, x ≤ b) : l.sum ≤ l.length * b := by
  induction l with
  | nil => simp
  | cons x l ih =>
    have := ih fun y hy => h y (by simp [hy])
    have := h x (by simp)
    rw [List.sum_cons, List.length_cons, Nat.add_mul]; omega

theorem filterMap_map_none {α β γ : Type} {f : α → β} {g : β → Option γ} (l : List α)
    (h : ∀ x, g (f x) = none) : (l.map f).filterMap g = [] := by
  rw [List.filterMap_map, List.filterMap_eq_nil_iff]
  exact fun x _ => h x

theorem real_clamp_le {x lo hi : ℝ} (h : lo ≤ hi) : clamp x lo hi = max lo (min x hi) := by
  unfold clamp
  simp only [real_lt, decide_eq_true_eq]
  by_cases h1 : x < lo
  · rw [if_pos h1, if_neg (not_lt.mpr h), min_eq_left (h1.le.trans h), max_eq_left h1.le]
  · rw [if_neg h1]
    by_cases h2 : hi < x
    · rw [if_pos h2, min_eq_right h2.le, max_eq_right h]
    · rw [if_neg h2, min_eq_left (not_lt.mp h2), max_eq_right (not_lt.mp h1)]

theorem roundUp_ok {n f m : Nat} (hf : 0 < f) (h : roundUp n f = .ok m) :
    n ≤ m ∧ m < n + f ∧ f ∣ m ∧ 0 < n := by
  unfold roundUp at h
  split_ifs at h with h1 h2
  cases h
  have h3 := Nat.mod_lt (n - 1) hf
  have h4 := Nat.mod_le (n - 1) f
  refine ⟨by omega, by omega, ?_, by omega⟩
  refine Nat.dvd_add ?_ (Nat.dvd_refl f)
  exact Nat.dvd_sub_mod (n - 1)

/-- Drawing panics only if the scale of the graph cannot be computed. -/
theorem drawLayer_ok {F : Type} [FloatOps F] {s : Snapshot F} {d : F} (h : s.displayMax = .ok d)
    (vw vh : F) (samples : List Nat) (labels : Nat) :
    ∃ ops, s.drawLayer vw vh samples labels = .ok ops := by
  unfold Snapshot.drawLayer
  rw [h]
  exact ⟨_, rfl⟩

theorem drawLayer_displayMax {F : Type} [FloatOps F] {s : Snapshot F} {vw vh : F} {samples : List Nat}
    {labels : Nat} {ops : List (PanelOp F)} (h : s.drawLayer vw vh samples labels = .ok ops) :
    ∃ d, s.displayMax = .ok d := by
  unfold Snapshot.drawLayer at h
  cases hd : s.displayMax with
  | error e => rw [hd] at h; cases h
  | ok d => exact ⟨d, rfl⟩

/-- The scale of the graph is positive if the maximum is. -/
theorem displayMax_pos {s : Snapshot ℝ} {d : ℝ} (h : s.displayMax = .ok d) (h0 : 0 < s.frameTimeMaxMs) :
    0 < d := by
  unfold Snapshot.displayMax at h
  split_ifs at h with h1
  · rcases hm : roundUp (FloatOps.toUsize (lit (133334 / 100000) *. s.frameTimeMs)) 5 with e | m
    · rw [hm] at h; cases h
    rw [hm] at h
    cases h
    obtain ⟨h2, -, -, h3⟩ := roundUp_ok (by omega) hm
    rw [real_ofUsize]
    exact_mod_cast (by omega : 0 < m)
  · cases h; exact h0

theorem barHeight_range {n : Nat} {d : ℝ} (h : 0 < d) :
    0 ≤ barHeight n d ∧ barHeight n d ≤ 1 := by
  unfold barHeight
  rw [real_fmin]
  simp only [real_mul, real_div, real_lit, real_ofUsize]
  push_cast
  exact ⟨div_nonneg (le_min (by positivity) h.le) h.le, (div_le_one h).mpr (min_le_right _ _)⟩

theorem panelWidth_eq (vw : ℝ) : clamp (vw *. lit (4 / 10)) (lit 200) (lit 600) = panelWidth vw := by
  rw [real_clamp_le (by simp only [real_lit]; norm_num)]
  simp only [real_mul, real_lit]
  unfold panelWidth
  push_cast
  norm_num

theorem panelWidth_pos (vw : ℝ) : 0 < panelWidth vw := lt_of_lt_of_le (by norm_num) (le_max_left _ _)

end Velato
