import Verif.Spec.Inserted
import Verif.Proofs.InsertedDoc
import Verif.Proofs.GradientPlayback

/-!
# Keyframes added on straight pieces of gradients: helper lemmas
-/

namespace Velato
open FloatOps (lit)
open Import

section
variable [Kurbo ℝ]

/-- The numbers stored for a keyframe of a gradient. -/
noncomputable def storedStops (n : Nat) (v : List ℝ) : List ℝ := (convStops v n).flatMap RawStop.toList

/-- A stop between two keyframes without opacity data. -/
theorem stop_value {n i : Nat} {x y : List ℝ} (hx : 4 * n ≤ x.length) (hx' : x.length < 4 * n + 4) (hy : 4 * n ≤ y.length)
    (hy' : y.length < 4 * n + 4) (hi : i < n) (t : ℝ) (e : Easing ℝ) :
    AnimColorStops.stop (storedStops n x) (storedStops n y) t t e i = some
      ⟨FloatOps.toF32 (tweenScalar (x.getD (4 * i) 0) (y.getD (4 * i) 0) t e),
        ⟨FloatOps.toF32 (tweenScalar (x.getD (4 * i + 1) 0) (y.getD (4 * i + 1) 0) t e),
         FloatOps.toF32 (tweenScalar (x.getD (4 * i + 2) 0) (y.getD (4 * i + 2) 0) t e),
         FloatOps.toF32 (tweenScalar (x.getD (4 * i + 3) 0) (y.getD (4 * i + 3) 0) t e),
         FloatOps.toF32 (tweenScalar (lit 1) (lit 1) t e)⟩⟩ := by
  have get : ∀ {v : List ℝ}, 4 * n ≤ v.length → v.length < 4 * n + 4 →
      (storedStops n v)[i * 5]? = some (v.getD (4 * i) 0) ∧ (storedStops n v)[i * 5 + 1]? = some (v.getD (4 * i + 1) 0) ∧
      (storedStops n v)[i * 5 + 2]? = some (v.getD (4 * i + 2) 0) ∧ (storedStops n v)[i * 5 + 3]? = some (v.getD (4 * i + 3) 0) ∧
      (storedStops n v)[i * 5 + 4]? = some (lit 1) := by
    intro v h h'
    obtain ⟨st, g, e0, e1, e2, e3⟩ := keyframe_stop_get (0 : ℝ) h hi
    obtain ⟨f0, f1, f2, f3, f4⟩ := stored_get g (storedStops n v) rfl
    have e4 := C49_opaque v n (by omega) h' st (List.mem_of_getElem? g)
    have hl : (storedStops n v).length = 5 * n := by
      have : (storedStops n v).length = 5 * (convStops v n).length := stored_length _
      rw [this, convStops_length _ _ (by omega)]
      omega
    have some_getD : ∀ j, j < 5 * n → (storedStops n v)[j]? = some ((storedStops n v).getD j (lit 0)) := by
      intro j hj
      rw [List.getD_eq_getElem?_getD, List.getElem?_eq_getElem (by omega), Option.getD_some]
    rw [Nat.mul_comm i 5]
    refine ⟨?_, ?_, ?_, ?_, ?_⟩
    · rw [some_getD _ (by omega), f0, e0]
    · rw [some_getD _ (by omega), f1, e1]
    · rw [some_getD _ (by omega), f2, e2]
    · rw [some_getD _ (by omega), f3, e3]
    · rw [some_getD _ (by omega), f4, e4]
  obtain ⟨a0, a1, a2, a3, a4⟩ := get hx hx'
  obtain ⟨b0, b1, b2, b3, b4⟩ := get hy hy'
  unfold AnimColorStops.stop
  dsimp only
  rw [a0, a1, a2, a3, a4, b0, b1, b2, b3, b4]
  rfl

/-- The entry of a keyframe of a gradient. -/
noncomputable def gradientEntry (n : Nat) (k : Schema.Keyframe ℝ) : Time ℝ × List ℝ :=
  (match convTime k.base with
    | .ok t => t
    | .error _ => ⟨k.base.time, none, none, false⟩, storedStops n k.value)

theorem gradientEntry_frame (n : Nat) (k : Schema.Keyframe ℝ) : (gradientEntry n k).1.frame = k.base.time := by
  unfold gradientEntry
  dsimp only
  cases h : convTime k.base with
  | error => rfl
  | ok t =>
    unfold convTime at h
    obtain ⟨p, -, h⟩ := bind_ok h
    obtain ⟨q, -, h⟩ := bind_ok h
    cases h
    rfl

/-- The stops that the keyframes of a gradient show. -/
noncomputable def stopsShown (n : Nat) (ks : List (Schema.Keyframe ℝ)) (fr : ℝ) : Option (List (ColorStop ℝ)) :=
  AnimColorStops.evaluateInner ⟨(ks.map (gradientEntry n)).map (·.1), (ks.map (gradientEntry n)).map (·.2), n⟩ fr

theorem gradient_pairs {n : Nat} {ks : List (Schema.Keyframe ℝ)} {ts : List (Time ℝ)} (h : ks.mapM (fun k => convTime k.base) = .ok ts) :
    ts = (ks.map (gradientEntry n)).map (·.1) ∧
    (ks.map fun k => (convStops k.value n).flatMap RawStop.toList) = (ks.map (gradientEntry n)).map (·.2) := by
  rw [mapM_ok_iff] at h
  constructor
  · induction h with
    | nil => rfl
    | @cons k t ks ts h _ ih =>
      rw [List.map_cons, List.map_cons, ih]
      unfold gradientEntry
      dsimp only
      rw [h]
  · rw [List.map_map]
    rfl

omit [Kurbo ℝ] in
/-- What the keyframes of a gradient show, by the entries that are mixed. -/
theorem stops_found {F : Type} [FloatOps F] [Kurbo F] (n : Nat) (es : List (Time F × List F)) (fr : F) :
    AnimColorStops.evaluateInner ⟨es.map (·.1), es.map (·.2), n⟩ fr =
      (foundPair es fr).bind fun p => (List.range n).mapM fun i => AnimColorStops.stop p.1.2 p.2.2
        (pairWeight p.1.1 p.2.1 fr) (if p.1.1.hold then lit 0 else pairWeight p.1.1 p.2.1 fr) p.1.1.easing i :=
  found_weight es fr fun v0 v1 t e hold => (List.range n).mapM fun i =>
    AnimColorStops.stop v0 v1 t (if hold then lit 0 else t) e i

omit [Kurbo ℝ] in
theorem mapM_range_congr {α : Type} {f g : Nat → Option α} (n : Nat) (h : ∀ i < n, f i = g i) :
    (List.range n).mapM f = (List.range n).mapM g := by
  induction n with
  | zero => rfl
  | succ n ih =>
    rw [List.range_succ, List.mapM_append, List.mapM_append, ih fun i hi => h i (by omega)]
    congr 1
    funext l
    rw [List.mapM_cons, List.mapM_cons, h n (by omega), List.mapM_nil, List.mapM_nil]

theorem gradient_added (hk : ExactSolver) {n : Nat} (hn : 0 < n) {ks ks' : List (Schema.Keyframe ℝ)} (h : KeyframeAdded (4 * n) ks ks')
    (ho : InOrder (·.base) ks) (hl : ∀ k ∈ ks', k.value.length < 4 * n + 4) (fr : ℝ) :
    stopsShown n ks' fr = stopsShown n ks fr := by
  obtain @⟨pre, post, k₀, m, k₁, h₀, hm, lo, hi, hv⟩ := h
  unfold stopsShown
  rw [stops_found, stops_found]
  have p₀ : (gradientEntry n k₀) = (⟨k₀.base.time, none, none, false⟩, storedStops n k₀.value) := by
    unfold gradientEntry
    rw [(straight_times h₀).1]
  have pm : (gradientEntry n m) = (⟨m.base.time, none, none, false⟩, storedStops n m.value) := by
    unfold gradientEntry
    rw [(straight_times hm).1]
  have f₁ : (gradientEntry n k₁).1.frame = k₁.base.time := gradientEntry_frame n k₁
  have v₁ : (gradientEntry n k₁).2 = storedStops n k₁.value := rfl
  have sorted : ((pre ++ k₀ :: k₁ :: post).map (gradientEntry n)).Pairwise fun a b => a.1.frame ≤ b.1.frame := by
    rw [List.pairwise_map]
    exact ho.imp fun h => by
      rw [gradientEntry_frame, gradientEntry_frame]
      exact le_of_lt h
  have l₀ := hl k₀ (by simp)
  have lm := hl m (by simp)
  have l₁ := hl k₁ (by simp)
  have long : 4 * n ≤ k₀.value.length ∧ 4 * n ≤ m.value.length ∧ 4 * n ≤ k₁.value.length := by
    obtain ⟨x₀, x₁, a, b, c⟩ := hv (4 * n - 1) (by omega)
    have := (List.getElem?_eq_some_iff.mp a).1
    have := (List.getElem?_eq_some_iff.mp b).1
    have := (List.getElem?_eq_some_iff.mp c).1
    omega
  obtain ⟨g₀, gm, g₁⟩ := long
  have number : ∀ c < 4 * n, m.value.getD c 0 = k₀.value.getD c 0 + (k₁.value.getD c 0 - k₀.value.getD c 0) *
      ((m.base.time - k₀.base.time) / (k₁.base.time - k₀.base.time)) := by
    intro c hc
    obtain ⟨x₀, x₁, a, b, c⟩ := hv c hc
    simp only [List.getD_eq_getElem?_getD, a, b, c, Option.getD_some]
  have line : ∀ {x₀ y x₁ : ℝ}, y = x₀ + (x₁ - x₀) * ((m.base.time - k₀.base.time) / (k₁.base.time - k₀.base.time)) → _ :=
    fun {x₀ y x₁} h => straight_value hk (t0 := (gradientEntry n k₀).1) (tm := (gradientEntry n m).1) (t1 := (gradientEntry n k₁).1)
      (by rw [p₀, pm]; exact lo) (by rw [pm, f₁]; exact hi) (by rw [p₀]; rfl) (by rw [pm]; rfl) (x₀ := x₀) (x₁ := x₁) (y := y)
      (by rw [f₁, p₀, pm]; exact h) fr
  simp only [List.map_append, List.map_cons] at sorted ⊢
  rcases foundPair_inserted sorted (m := gradientEntry n m) (by rw [p₀, pm]; exact lo) (by rw [pm, f₁]; exact hi) fr with
    h | ⟨h, ⟨h', g⟩ | ⟨h', g, g'⟩⟩
  · rw [h]
  · rw [h, h']
    simp only [Option.bind_some]
    refine mapM_range_congr n fun i hi => ?_
    have eh : (gradientEntry n k₀).1.hold = false := by rw [p₀]
    have e₀ : (gradientEntry n k₀).2 = storedStops n k₀.value := rfl
    have em : (gradientEntry n m).2 = storedStops n m.value := rfl
    rw [eh, if_neg (by simp), if_neg (by simp), e₀, em, v₁, stop_value g₀ l₀ gm lm hi, stop_value g₀ l₀ g₁ l₁ hi,
      (line (number (4 * i) (by omega))).1 g, (line (number (4 * i + 1) (by omega))).1 g, (line (number (4 * i + 2) (by omega))).1 g,
      (line (number (4 * i + 3) (by omega))).1 g,
      (line (x₀ := lit 1) (y := lit 1) (x₁ := lit 1) (by rw [sub_self, zero_mul, add_zero])).1 g]
  · rw [h, h']
    simp only [Option.bind_some]
    refine mapM_range_congr n fun i hi => ?_
    have eh : (gradientEntry n k₀).1.hold = false := by rw [p₀]
    have eh' : (gradientEntry n m).1.hold = false := by rw [pm]
    have e₀ : (gradientEntry n k₀).2 = storedStops n k₀.value := rfl
    have em : (gradientEntry n m).2 = storedStops n m.value := rfl
    rw [eh, eh', if_neg (by simp), if_neg (by simp), e₀, em, v₁, stop_value gm lm g₁ l₁ hi, stop_value g₀ l₀ g₁ l₁ hi,
      (line (number (4 * i) (by omega))).2 g g', (line (number (4 * i + 1) (by omega))).2 g g',
      (line (number (4 * i + 2) (by omega))).2 g g', (line (number (4 * i + 3) (by omega))).2 g g',
      (line (x₀ := lit 1) (y := lit 1) (x₁ := lit 1) (by rw [sub_self, zero_mul, add_zero])).2 g g']

end

theorem KeyframesAdded.subset {n : Nat} {ks ks' : List (Schema.Keyframe ℝ)} (h : KeyframesAdded n ks ks') : ∀ k ∈ ks, k ∈ ks' := by
  induction h with
  | none => exact fun _ h => h
  | more h _ ih =>
    intro k hk
    obtain @⟨pre, post, k₀, m, k₁, -⟩ := h
    refine ih k ?_
    simp only [List.mem_append, List.mem_cons] at hk ⊢
    tauto

end Velato
