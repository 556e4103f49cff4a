import Verif.Proofs.Elsewhere
import Verif.Proofs.Easing
import Verif.Props.Easing
import Verif.Spec.Playback
import Mathlib.Tactic.FieldSimp

/-!
# A keyframe in the middle of a straight piece: helper lemmas
-/

namespace Velato
open FloatOps (lit)
open Import

/-- A list in order, cut at the frame. -/
theorem cut_at {T : Type} (fr : ℝ) : ∀ l : List (Time ℝ × T), l.Pairwise (fun a b => a.1.frame ≤ b.1.frame) →
    ∃ xs ys, l = xs ++ ys ∧ (∀ e ∈ xs, e.1.frame ≤ fr) ∧ ∀ e ∈ ys, fr < e.1.frame
  | [], _ => ⟨[], [], rfl, by simp, by simp⟩
  | e :: l, h => by
    rw [List.pairwise_cons] at h
    rcases le_or_gt e.1.frame fr with he | he
    · obtain ⟨xs, ys, rfl, h1, h2⟩ := cut_at fr l h.2
      exact ⟨e :: xs, ys, rfl, fun x hx => by
        rcases List.mem_cons.mp hx with rfl | hx
        · exact he
        · exact h1 x hx, h2⟩
    · exact ⟨[], e :: l, rfl, by simp, fun x hx => by
        rcases List.mem_cons.mp hx with rfl | hx
        · exact he
        · exact he.trans_le (h.1 x hx)⟩

theorem foundPair_cut {T : Type} {xs ys : List (Time ℝ × T)} (hx : xs ≠ []) {fr : ℝ}
    (h1 : ∀ e ∈ xs, e.1.frame ≤ fr) (h2 : ∀ e ∈ ys, fr < e.1.frame) :
    foundPair (xs ++ ys) fr = xs.getLast?.map fun x => (x, ys.head?.getD x) :=
  foundPair_split hx (fun e he => by simpa using h1 e he) fun e he => by simpa using h2 e he

theorem foundPair_none {T : Type} {es : List (Time ℝ × T)} {fr : ℝ} (h : ∀ e ∈ es, fr < e.1.frame) :
    foundPair es fr = es.head?.map fun x => (x, es[1]?.getD x) :=
  foundPair_first fun e he => by simpa using h e he

/-- The entries that are mixed are the same with and without the one in the middle, except on the piece that it divides, and
before it if there is nothing else. -/
theorem foundPair_inserted {T : Type} {pre post : List (Time ℝ × T)} {e₀ m e₁ : Time ℝ × T}
    (hs : (pre ++ e₀ :: e₁ :: post).Pairwise fun a b => a.1.frame ≤ b.1.frame) (h0 : e₀.1.frame < m.1.frame)
    (h1 : m.1.frame < e₁.1.frame) (fr : ℝ) :
    foundPair (pre ++ e₀ :: m :: e₁ :: post) fr = foundPair (pre ++ e₀ :: e₁ :: post) fr ∨
    (foundPair (pre ++ e₀ :: e₁ :: post) fr = some (e₀, e₁) ∧
      ((foundPair (pre ++ e₀ :: m :: e₁ :: post) fr = some (e₀, m) ∧ fr < m.1.frame) ∨
       (foundPair (pre ++ e₀ :: m :: e₁ :: post) fr = some (m, e₁) ∧ m.1.frame ≤ fr ∧ fr < e₁.1.frame))) := by
  rw [List.pairwise_append, List.pairwise_cons, List.pairwise_cons] at hs
  obtain ⟨hpre, ⟨he0, he1, hpost⟩, hcross⟩ := hs
  rcases lt_or_ge fr e₀.1.frame with c0 | c0
  · obtain ⟨xs, ys, rfl, hx, hy⟩ := cut_at fr pre hpre
    have rest : ∀ e ∈ post, fr < e.1.frame := fun e he =>
      (c0.trans h0).trans (h1.trans_le (he1 e he))
    by_cases hne : xs = []
    · subst hne
      rw [List.nil_append] at *
      have g1 : ∀ e ∈ ys ++ e₀ :: m :: e₁ :: post, fr < e.1.frame := fun e he => by
        simp only [List.mem_append, List.mem_cons] at he
        rcases he with he | rfl | rfl | rfl | he
        · exact hy e he
        · exact c0
        · exact c0.trans h0
        · exact (c0.trans h0).trans h1
        · exact rest e he
      have g2 : ∀ e ∈ ys ++ e₀ :: e₁ :: post, fr < e.1.frame := fun e he => g1 e (by
        simp only [List.mem_append, List.mem_cons] at he ⊢
        tauto)
      rw [foundPair_none g1, foundPair_none g2]
      match ys with
      | [] => exact .inr ⟨rfl, .inl ⟨rfl, c0.trans h0⟩⟩
      | [x] => exact .inl rfl
      | x :: y :: ys => exact .inl rfl
    · left
      have g1 : ∀ e ∈ ys ++ e₀ :: m :: e₁ :: post, fr < e.1.frame := fun e he => by
        simp only [List.mem_append, List.mem_cons] at he
        rcases he with he | rfl | rfl | rfl | he
        · exact hy e he
        · exact c0
        · exact c0.trans h0
        · exact (c0.trans h0).trans h1
        · exact rest e he
      have g2 : ∀ e ∈ ys ++ e₀ :: e₁ :: post, fr < e.1.frame := fun e he => g1 e (by
        simp only [List.mem_append, List.mem_cons] at he ⊢
        tauto)
      rw [List.append_assoc, List.append_assoc, foundPair_cut hne hx g1, foundPair_cut hne hx g2]
      cases ys <;> rfl
  have before : ∀ e ∈ pre, e.1.frame ≤ fr := fun e he => (hcross e he e₀ (by simp)).trans c0
  rcases lt_or_ge fr e₁.1.frame with c1 | c1
  · right
    have rest : ∀ e ∈ post, fr < e.1.frame := fun e he => c1.trans_le (he1 e he)
    have g : ∀ e ∈ e₁ :: post, fr < e.1.frame := fun e he => by
      rcases List.mem_cons.mp he with rfl | he
      · exact c1
      · exact rest e he
    have l : ∀ e ∈ pre ++ [e₀], e.1.frame ≤ fr := fun e he => by
      rcases List.mem_append.mp he with he | he
      · exact before e he
      · rw [List.mem_singleton.mp he]
        exact c0
    refine ⟨?_, ?_⟩
    · rw [show pre ++ e₀ :: e₁ :: post = (pre ++ [e₀]) ++ e₁ :: post by simp, foundPair_cut (by simp) l g]
      simp
    · rcases lt_or_ge fr m.1.frame with cm | cm
      · left
        refine ⟨?_, cm⟩
        rw [show pre ++ e₀ :: m :: e₁ :: post = (pre ++ [e₀]) ++ m :: e₁ :: post by simp, foundPair_cut (by simp) l fun e he => by
          rcases List.mem_cons.mp he with rfl | he
          · exact cm
          · exact g e he]
        simp
      · right
        refine ⟨?_, cm, c1⟩
        rw [show pre ++ e₀ :: m :: e₁ :: post = (pre ++ [e₀] ++ [m]) ++ e₁ :: post by simp, foundPair_cut (by simp) (fun e he => by
          rcases List.mem_append.mp he with he | he
          · exact l e he
          · rw [List.mem_singleton.mp he]
            exact cm) g]
        simp
  · left
    obtain ⟨xs, ys, rfl, hx, hy⟩ := cut_at fr post hpost
    have l : ∀ e ∈ pre ++ e₀ :: m :: e₁ :: xs, e.1.frame ≤ fr := fun e he => by
      simp only [List.mem_append, List.mem_cons] at he
      rcases he with he | rfl | rfl | rfl | he
      · exact before e he
      · exact c0
      · exact h1.le.trans c1
      · exact c1
      · exact hx e he
    have l' : ∀ e ∈ pre ++ e₀ :: e₁ :: xs, e.1.frame ≤ fr := fun e he => l e (by
      simp only [List.mem_append, List.mem_cons] at he ⊢
      tauto)
    rw [show pre ++ e₀ :: m :: e₁ :: (xs ++ ys) = (pre ++ e₀ :: m :: e₁ :: xs) ++ ys by simp,
      show pre ++ e₀ :: e₁ :: (xs ++ ys) = (pre ++ e₀ :: e₁ :: xs) ++ ys by simp, foundPair_cut (by simp) l hy,
      foundPair_cut (by simp) l' hy]
    congr 1
    rw [show pre ++ e₀ :: m :: e₁ :: xs = (pre ++ [e₀, m]) ++ e₁ :: xs by simp,
      show pre ++ e₀ :: e₁ :: xs = (pre ++ [e₀]) ++ e₁ :: xs by simp, getLast?_append_ne (by simp), getLast?_append_ne (by simp)]

variable [Kurbo ℝ]

omit [Kurbo ℝ] in
theorem pairWeight_mid {t0 t1 : Time ℝ} {fr : ℝ} (h0 : t0.frame ≤ fr) (h1 : fr < t1.frame) :
    pairWeight t0 t1 fr = (fr - t0.frame) / (t1.frame - t0.frame) ∧ 0 ≤ pairWeight t0 t1 fr ∧ pairWeight t0 t1 fr ≤ 1 := by
  have hpos : 0 < t1.frame - t0.frame := by linarith
  have w0 : 0 ≤ (fr - t0.frame) / (t1.frame - t0.frame) := div_nonneg (by linarith) hpos.le
  have w1 : (fr - t0.frame) / (t1.frame - t0.frame) ≤ 1 := by rw [div_le_one hpos]; linarith
  have : pairWeight t0 t1 fr = (fr - t0.frame) / (t1.frame - t0.frame) := by
    unfold pairWeight clamp
    simp [not_lt.mpr w0, not_lt.mpr w1]
  rw [this]
  exact ⟨rfl, w0, w1⟩

omit [Kurbo ℝ] in
theorem pairWeight_early {t0 t1 : Time ℝ} {fr : ℝ} (h : t0.frame < t1.frame) (h0 : fr ≤ t0.frame) :
    pairWeight t0 t1 fr = 0 := by
  have hpos : 0 < t1.frame - t0.frame := by linarith
  have w0 : (fr - t0.frame) / (t1.frame - t0.frame) ≤ 0 := div_nonpos_of_nonpos_of_nonneg (by linarith) hpos.le
  unfold pairWeight clamp
  rcases w0.lt_or_eq with w | w
  · simp [w]
  · simp [w]

/-- The value on the straight piece, with and without a value in the middle. -/
theorem straight_value (hk : ExactSolver) {t0 tm t1 : Time ℝ} (h0 : t0.frame < tm.frame) (h1 : tm.frame < t1.frame)
    (e0 : t0.easing = Easing.lerp) (em : tm.easing = Easing.lerp) {x₀ x₁ : ℝ} {y : ℝ}
    (hy : y = x₀ + (x₁ - x₀) * ((tm.frame - t0.frame) / (t1.frame - t0.frame))) (fr : ℝ) :
    (fr < tm.frame → tweenScalar x₀ y (pairWeight t0 tm fr) t0.easing = tweenScalar x₀ x₁ (pairWeight t0 t1 fr) t0.easing) ∧
    (tm.frame ≤ fr → fr < t1.frame →
      tweenScalar y x₁ (pairWeight tm t1 fr) tm.easing = tweenScalar x₀ x₁ (pairWeight t0 t1 fr) t0.easing) := by
  rw [e0, em]
  have a : t1.frame - t0.frame ≠ 0 := by linarith
  have b : tm.frame - t0.frame ≠ 0 := by linarith
  have c : t1.frame - tm.frame ≠ 0 := by linarith
  constructor
  · intro h
    rcases lt_or_ge fr t0.frame with g | g
    · rw [pairWeight_early h0 g.le, pairWeight_early (h0.trans h1) g.le, C07_linear hk _ _ _ le_rfl zero_le_one,
        C07_linear hk _ _ _ le_rfl zero_le_one]
      ring
    · obtain ⟨p, p0, p1⟩ := pairWeight_mid g h
      obtain ⟨q, q0, q1⟩ := pairWeight_mid g (h.trans h1)
      rw [C07_linear hk _ _ _ p0 p1, C07_linear hk _ _ _ q0 q1, p, q, hy]
      field_simp
      ring
  · intro g h
    obtain ⟨p, p0, p1⟩ := pairWeight_mid g h
    obtain ⟨q, q0, q1⟩ := pairWeight_mid (h0.le.trans g) h
    rw [C07_linear hk _ _ _ p0 p1, C07_linear hk _ _ _ q0 q1, p, q, hy]
    field_simp
    ring

omit [Kurbo ℝ] in
/-- The values of the two animations are the same at every frame. -/
theorem inserted_value {T : Type} [Tween ℝ T] {pre post : List (Time ℝ × T)} {e₀ m e₁ : Time ℝ × T}
    (hs : (pre ++ e₀ :: e₁ :: post).Pairwise fun a b => a.1.frame ≤ b.1.frame) (h0 : e₀.1.frame < m.1.frame)
    (h1 : m.1.frame < e₁.1.frame) (k0 : e₀.1.hold = false) (km : m.1.hold = false)
    (hv : ∀ fr, (fr < m.1.frame → Tween.tween e₀.2 m.2 (pairWeight e₀.1 m.1 fr) e₀.1.easing =
        Tween.tween e₀.2 e₁.2 (pairWeight e₀.1 e₁.1 fr) e₀.1.easing) ∧
      (m.1.frame ≤ fr → fr < e₁.1.frame → Tween.tween m.2 e₁.2 (pairWeight m.1 e₁.1 fr) m.1.easing =
        Tween.tween e₀.2 e₁.2 (pairWeight e₀.1 e₁.1 fr) e₀.1.easing)) (fr : ℝ) (d : T) :
    Animated.evaluateOr ⟨(pre ++ e₀ :: m :: e₁ :: post).map (·.1), (pre ++ e₀ :: m :: e₁ :: post).map (·.2)⟩ fr d =
      Animated.evaluateOr ⟨(pre ++ e₀ :: e₁ :: post).map (·.1), (pre ++ e₀ :: e₁ :: post).map (·.2)⟩ fr d := by
  have key : ∀ es : List (Time ℝ × T), Animated.evaluateInner ⟨es.map (·.1), es.map (·.2)⟩ fr =
      (foundPair es fr).bind fun p => some (Tween.tween p.1.2 p.2.2
        (if p.1.1.hold then lit 0 else pairWeight p.1.1 p.2.1 fr) p.1.1.easing) := fun es =>
    found_weight es fr fun v0 v1 t e hold => some (Tween.tween v0 v1 (if hold then lit 0 else t) e)
  unfold Animated.evaluateOr
  rw [key, key]
  rcases foundPair_inserted hs h0 h1 fr with h | ⟨h, ⟨h', g⟩ | ⟨h', g, g'⟩⟩
  · rw [h]
  · rw [h, h']
    simp only [Option.bind_some, k0, Bool.false_eq_true, if_false, (hv fr).1 g]
  · rw [h, h']
    simp only [Option.bind_some, k0, km, Bool.false_eq_true, if_false, (hv fr).2 g g']

end Velato
