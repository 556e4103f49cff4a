import Verif.Spec.Inserted
import Verif.Proofs.InsertedDoc
import Verif.Proofs.Steady

/-!
# Keyframes added on straight pieces of paths: helper lemmas
-/

namespace Velato
open FloatOps (lit)
open Import

/-- The point between two others, in the proportion `s`. -/
noncomputable def pointBetween (s : ℝ) (p q : P2 ℝ) : P2 ℝ := ⟨p.x + (q.x - p.x) * s, p.y + (q.y - p.y) * s⟩

theorem splinePoints_between (s : ℝ) (v₀ : List (ℝ × ℝ)) : ∀ (v₁ v i₀ i₁ i o₀ o₁ o : List (ℝ × ℝ)), PointsBetween s v₀ v₁ v →
    PointsBetween s i₀ i₁ i → PointsBetween s o₀ o₁ o →
    (splinePoints v₁ i₁ o₁).length = (splinePoints v₀ i₀ o₀).length ∧
    splinePoints v i o = List.zipWith (pointBetween s) (splinePoints v₀ i₀ o₀) (splinePoints v₁ i₁ o₁) := by
  induction v₀ with
  | nil =>
    rintro v₁ v i₀ i₁ i o₀ o₁ o ⟨hl, rfl⟩ - -
    rw [List.length_eq_zero_iff.mp hl]
    exact ⟨rfl, rfl⟩
  | cons x₀ v₀ ih =>
    rintro v₁ v i₀ i₁ i o₀ o₁ o ⟨hl, rfl⟩ ⟨hli, rfl⟩ ⟨hlo, rfl⟩
    cases v₁ with
    | nil => cases hl
    | cons x₁ v₁ =>
      have tail : ∀ {p q : List (ℝ × ℝ)}, q.length = p.length →
          PointsBetween s p.tail q.tail (List.zipWith (fun x y => (x.1 + (y.1 - x.1) * s, x.2 + (y.2 - x.2) * s)) p q).tail := by
        intro p q hl
        cases p with
        | nil => cases q with
          | nil => exact ⟨rfl, rfl⟩
          | cons => cases hl
        | cons => cases q with
          | nil => cases hl
          | cons => exact ⟨Nat.succ.inj hl, rfl⟩
      have head : ∀ {p q : List (ℝ × ℝ)}, q.length = p.length →
          (List.zipWith (fun x y : ℝ × ℝ => (x.1 + (y.1 - x.1) * s, x.2 + (y.2 - x.2) * s)) p q).headD (lit 0, lit 0) =
            ((p.headD (lit 0, lit 0)).1 + ((q.headD (lit 0, lit 0)).1 - (p.headD (lit 0, lit 0)).1) * s,
             (p.headD (lit 0, lit 0)).2 + ((q.headD (lit 0, lit 0)).2 - (p.headD (lit 0, lit 0)).2) * s) := by
        intro p q hl
        cases p with
        | nil => cases q with
          | nil => simp
          | cons => cases hl
        | cons => cases q with
          | nil => cases hl
          | cons => rfl
      obtain ⟨h1, h2⟩ := ih v₁ _ _ _ _ _ _ _ ⟨Nat.succ.inj hl, rfl⟩ (tail hli) (tail hlo)
      constructor
      · simp only [splinePoints, List.length_cons, h1]
      · rw [List.zipWith_cons_cons, splinePoints, splinePoints, splinePoints]
        dsimp only
        rw [h2, head hli, head hlo]
        rfl

/-- Outlines between two shapes with as many points. -/
theorem lerp_between {P Q M : List (P2 ℝ)} {s : ℝ} (hl : Q.length = P.length) (hM : M = List.zipWith (pointBetween s) P Q) (c : Bool)
    {w u : ℝ} : (w * s = u → splineLerpToPath P M w c = splineLerpToPath P Q u c) ∧
      (s + w * (1 - s) = u → splineLerpToPath M Q w c = splineLerpToPath P Q u c) := by
  have hml : M.length = P.length := by rw [hM, List.length_zipWith]; omega
  have get : ∀ i (h : i < M.length), M[i] = pointBetween s (P[i]'(by omega)) (Q[i]'(by omega)) := by
    subst hM
    intro i h
    rw [List.getElem_zipWith]
  constructor
  · rintro rfl
    unfold splineLerpToPath
    refine toPath_points (by omega) (fun i hi hi' => ?_) c
    dsimp only
    rw [get i (by omega)]
    have : ∀ x y : ℝ, x + w * (x + (y - x) * s - x) = x + w * s * (y - x) := fun x y => by ring
    exact congrArg₂ P2.mk (this _ _) (this _ _)
  · rintro rfl
    unfold splineLerpToPath
    refine toPath_points (by omega) (fun i hi hi' => ?_) c
    dsimp only
    rw [get i (by omega)]
    have : ∀ x y : ℝ, x + (y - x) * s + w * (y - (x + (y - x) * s)) = x + (s + w * (1 - s)) * (y - x) := fun x y => by ring
    exact congrArg₂ P2.mk (this _ _) (this _ _)

theorem PathKeyframeAdded.inOrder {ks ks' : List (Schema.ShapeKeyframe ℝ)} (h : PathKeyframeAdded ks ks')
    (ho : InOrder (·.base) ks) : InOrder (·.base) ks' := by
  obtain @⟨pre, post, k₀, m, k₁, b₀, b, b₁, bs₀, bs, bs₁, -, -, lo, hi, -⟩ := h
  unfold InOrder at *
  rw [List.pairwise_append, List.pairwise_cons, List.pairwise_cons] at *
  obtain ⟨h1, ⟨h2, h3, h4⟩, h5⟩ := ho
  refine ⟨h1, ⟨?_, ?_⟩, ?_⟩
  · intro x hx
    rcases List.mem_cons.mp hx with rfl | hx
    · exact lo
    · exact h2 x hx
  · rw [List.pairwise_cons]
    refine ⟨fun x hx => ?_, h3, h4⟩
    rcases List.mem_cons.mp hx with rfl | hx
    · exact hi
    · exact hi.trans (h3 x hx)
  · intro x hx y hy
    rcases List.mem_cons.mp hy with rfl | hy
    · exact h5 x hx _ (by simp)
    rcases List.mem_cons.mp hy with rfl | hy
    · exact (h5 x hx k₀ (by simp)).trans lo
    · exact h5 x hx y (by simp only [List.mem_cons] at hy ⊢; exact .inr hy)

theorem PathKeyframeAdded.own {ks ks' : List (Schema.ShapeKeyframe ℝ)} (h : PathKeyframeAdded ks ks')
    (ho : ∀ k ∈ ks, ∃ b bs, k.start = some (b :: bs)) : ∀ k ∈ ks', ∃ b bs, k.start = some (b :: bs) := by
  obtain @⟨pre, post, k₀, m, k₁, b₀, b, b₁, bs₀, bs, bs₁, -, -, -, -, -, hm, -⟩ := h
  intro k hk
  by_cases e : k = m
  · rw [e]
    exact ⟨_, _, hm⟩
  · exact ho k (by
      simp only [List.mem_append, List.mem_cons] at hk ⊢
      tauto)

/-- What an animated path shows, by the entries that are mixed. -/
theorem spline_found {F : Type} [FloatOps F] (es : List (Time F × SplineValues F)) (c : Bool) (fr : F) :
    AnimSpline.evaluate ⟨c, es.map (·.1), es.map (·.2)⟩ fr =
      ((foundPair es fr).bind fun p => some (splineLerpToPath p.1.2.start (match p.1.2.stop with
        | some e => e
        | none => p.2.2.start) (if p.1.1.hold then lit 0 else pairWeight p.1.1 p.2.1 fr) c)).getD [] := by
  rw [← found_weight es fr fun v0 v1 t e hold => some (splineLerpToPath v0.start (match v0.stop with
      | some e => e
      | none => v1.start) (if hold then lit 0 else t) c)]
  unfold AnimSpline.evaluate
  dsimp only
  cases Time.framesAndWeight (es.map (·.1)) fr with
  | none => rfl
  | some w =>
    dsimp only [Option.bind_some]
    cases (es.map (·.2))[w.ix0]? with
    | none => rfl
    | some v0 =>
      cases (es.map (·.2))[w.ix1]? with
      | none => rfl
      | some v1 => rfl

/-- The entry of a keyframe of a path. -/
noncomputable def pathEntry (k : Schema.ShapeKeyframe ℝ) : Time ℝ × SplineValues ℝ :=
  (match convTime k.base with
    | .ok t => t
    | .error _ => ⟨k.base.time, none, none, false⟩, splineValuesOf k)

theorem pathEntry_frame (k : Schema.ShapeKeyframe ℝ) : (pathEntry k).1.frame = k.base.time := by
  unfold pathEntry
  dsimp only
  cases h : convTime k.base with
  | error => rfl
  | ok t =>
    unfold convTime at h
    obtain ⟨p, -, h⟩ := bind_ok h
    obtain ⟨q, -, h⟩ := bind_ok h
    cases h
    rfl

theorem splineLoop_pairs {ks : List (Schema.ShapeKeyframe ℝ)} (own : ∀ k ∈ ks, ∃ b bs, k.start = some (b :: bs))
    {o : Option (List (Time ℝ) × List (SplineValues ℝ) × Bool)} (h : splineLoop none ks = .ok o) :
    o = some ((ks.map pathEntry).map (·.1), (ks.map pathEntry).map (·.2), ks.any Schema.ShapeKeyframe.closes) := by
  obtain ⟨ts, ht, rfl⟩ := splineLoop_entries ks own _ _ h
  rw [mapM_ok_iff] at ht
  have : (ks.map pathEntry).map (·.1) = ts := by
    clear h own
    induction ht with
    | nil => rfl
    | @cons k t ks ts h _ ih =>
      rw [List.map_cons, List.map_cons, ih]
      unfold pathEntry
      dsimp only
      rw [h]
  rw [this, List.map_map]
  rfl

/-- What the keyframes of a path show. -/
noncomputable def pathShown (ks : List (Schema.ShapeKeyframe ℝ)) (fr : ℝ) : List (PathEl ℝ) :=
  AnimSpline.evaluate ⟨ks.any Schema.ShapeKeyframe.closes, (ks.map pathEntry).map (·.1), (ks.map pathEntry).map (·.2)⟩ fr

theorem path_added {ks ks' : List (Schema.ShapeKeyframe ℝ)} (h : PathKeyframeAdded ks ks') (ho : InOrder (·.base) ks) (fr : ℝ) :
    pathShown ks' fr = pathShown ks fr := by
  obtain @⟨pre, post, k₀, m, k₁, b₀, b, b₁, bs₀, bs, bs₁, h₀, hm, lo, hi, s₀, s, s₁, e₀, e, hb⟩ := h
  have closed : (pre ++ k₀ :: m :: k₁ :: post).any Schema.ShapeKeyframe.closes =
      (pre ++ k₀ :: k₁ :: post).any Schema.ShapeKeyframe.closes := by
    have : m.closes = k₀.closes := by
      unfold Schema.ShapeKeyframe.closes
      rw [s, s₀, e, e₀]
      simp [Schema.closedShape, hb.closed]
    simp only [List.any_append, List.any_cons, this]
    cases k₀.closes <;> simp
  unfold pathShown
  rw [closed, spline_found, spline_found]
  have p₀ : pathEntry k₀ = (⟨k₀.base.time, none, none, false⟩, ⟨(convSpline b₀).1, none⟩) := by
    unfold pathEntry splineValuesOf
    rw [(straight_times h₀).1, s₀, e₀]
  have pm : pathEntry m = (⟨m.base.time, none, none, false⟩, ⟨(convSpline b).1, none⟩) := by
    unfold pathEntry splineValuesOf
    rw [(straight_times hm).1, s, e]
  have f₁ : (pathEntry k₁).1.frame = k₁.base.time := pathEntry_frame k₁
  have v₁ : (pathEntry k₁).2.start = (convSpline b₁).1 := by
    unfold pathEntry splineValuesOf
    rw [s₁]
  obtain ⟨hl, hz⟩ := splinePoints_between _ _ _ _ _ _ _ _ _ _ hb.vertices hb.inTangents hb.outTangents
  have sorted : ((pre ++ k₀ :: k₁ :: post).map pathEntry).Pairwise fun a b => a.1.frame ≤ b.1.frame := by
    rw [List.pairwise_map]
    exact ho.imp fun h => by
      rw [pathEntry_frame, pathEntry_frame]
      exact le_of_lt h
  simp only [List.map_append, List.map_cons] at sorted ⊢
  have a : k₁.base.time - k₀.base.time ≠ 0 := by linarith
  have b' : m.base.time - k₀.base.time ≠ 0 := by linarith
  have c : k₁.base.time - m.base.time ≠ 0 := by linarith
  rcases foundPair_inserted sorted (m := pathEntry m) (by rw [p₀, pm]; exact lo) (by rw [pm, f₁]; exact hi) fr with
    h | ⟨h, ⟨h', g⟩ | ⟨h', g, g'⟩⟩
  · rw [h]
  · rw [h, h', p₀, pm]
    rw [pm] at g
    dsimp only [Option.bind_some, Option.getD_some]
    rw [v₁]
    refine (lerp_between hl hz _).1 ?_
    simp only [Bool.false_eq_true, if_false]
    rcases lt_or_ge fr k₀.base.time with q | q
    · rw [pairWeight_early lo q.le, pairWeight_early (by rw [f₁]; exact lo.trans hi) q.le]
      ring
    · rw [(pairWeight_mid q g).1, (pairWeight_mid q (by rw [f₁]; exact g.trans hi)).1, f₁]
      dsimp only
      field_simp
  · rw [h, h', p₀, pm]
    rw [pm] at g
    rw [f₁] at g'
    dsimp only [Option.bind_some, Option.getD_some] at g ⊢
    rw [v₁]
    refine (lerp_between hl hz _).2 ?_
    simp only [Bool.false_eq_true, if_false]
    rw [(pairWeight_mid g (by rw [f₁]; exact g')).1, (pairWeight_mid (lo.le.trans g) (by rw [f₁]; exact g')).1, f₁]
    dsimp only
    field_simp
    ring

theorem path_addedAll {ks ks' : List (Schema.ShapeKeyframe ℝ)} (h : PathKeyframesAdded ks ks') (ho : InOrder (·.base) ks)
    (own : ∀ k ∈ ks, ∃ b bs, k.start = some (b :: bs)) (fr : ℝ) :
    pathShown ks' fr = pathShown ks fr ∧ ∀ k ∈ ks', ∃ b bs, k.start = some (b :: bs) := by
  induction h with
  | none => exact ⟨rfl, own⟩
  | more h _ ih =>
    obtain ⟨h1, h2⟩ := ih (h.inOrder ho) (h.own own)
    exact ⟨h1.trans (path_added h ho fr), h2⟩

theorem paths_added [Kurbo ℝ] [Libm ℝ] (fr : ℝ) {p p' : Schema.ShapeProperty ℝ} (h : p.Agrees straightAdded p') :
    Both (OptRel (SameGeometry fr fr)) (convShapeGeometry p) (convShapeGeometry p') := by
  unfold convShapeGeometry
  cases h with
  | same h =>
    rw [h]
    intro o o' e e'
    cases e.symm.trans e'
    cases o with
    | none => exact .none
    | some g => exact .some rfl
  | @animated ks ks' h h' hr =>
    obtain ⟨ho, own, hr⟩ := hr
    obtain ⟨hv, own'⟩ := path_addedAll hr ho own fr
    rw [h, h']
    intro o o' e e'
    obtain ⟨x, hx, e⟩ := bind_ok e
    obtain ⟨x', hx', e'⟩ := bind_ok e'
    rw [splineLoop_pairs own hx] at e
    rw [splineLoop_pairs own' hx'] at e'
    cases e
    cases e'
    exact .some (congrArg Except.ok hv)

end Velato
