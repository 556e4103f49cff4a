import Verif.Spec.Player
import Verif.Proofs.Nest
import Verif.Proofs.Easing

/-!
# The tracker of layers, bounding boxes
-/

namespace Velato
open FloatOps (lit)

section
variable {F : Type} [FloatOps F] [Libm F] [Kurbo F]

/-- The calls of a layer that is rendered are one group. -/
theorem LayerCalls.group {c : Composition F} {ls l ix T a fr ops}
    (h : LayerCalls c ls l ix T a fr ops) :
    ops = [] ∨ ∃ mid, ops = Op.beginGroup l.name ix :: (mid ++ [Op.endGroup]) ∧
      Velato.nest [] mid = some [] := by
  rcases layerCalls_cases.mp h with ⟨-, rfl⟩ | ⟨-, mo, ms, co, hmo, hms, hco, rfl⟩
  · exact .inl rfl
  · refine .inr ⟨mo ++ ms ++ co
      ++ List.replicate (l.masks.length + (if l.maskLayer.isSome then 2 else 0)) Op.pop,
      by simp [layerOut, List.append_assoc], ?_⟩
    clear h
    rw [nest_append, nest_append, nest_append]
    have h1 : Velato.nest [] mo
        = some (List.replicate (if l.maskLayer.isSome then 2 else 0) .layer) := by
      cases hmo with
      | none h => rw [h]; rfl
      | dangling mode j h hj => rw [h]; rfl
      | matte mode j m ops h hj hops =>
        rw [h, nest_append, nest_append]
        show ((some [.layer]).bind fun st' => Velato.nest st' ops).bind _ = _
        rw [Option.bind_some, hops.nest]
        rfl
    have h3 : ∀ st, Velato.nest st co = some st := by
      intro st
      cases hco with
      | none h => rfl
      | missing name tr h hn => rfl
      | asset name tr als per h hn hper =>
        apply nest_flatten
        intro ops hops
        obtain ⟨l', hl', h'⟩ := forall₂_right hper hops
        exact h'.nest
      | shape shapes b ops h hb hops => exact nest_draws (render_draws hops) st
    rw [h1, Option.bind_some, nest_masks hms, Option.bind_some, h3, Option.bind_some,
      ← List.replicate_add]
    simpa using nest_pops (F := F) (l.masks.length + if l.maskLayer.isSome then 2 else 0) []

end

section
variable {F : Type} [FloatOps F] [KurboBox F]

theorem Tracker.sinkAll_append (s : Tracker F) (a b : List (Op F)) :
    s.sinkAll (a ++ b) = (((s.sinkAll a).1.sinkAll b).1, (s.sinkAll a).2 ++ ((s.sinkAll a).1.sinkAll b).2) := by
  induction a generalizing s with
  | nil => rfl
  | cons op a ih =>
    show ((((s.sink op).1.sinkAll (a ++ b)).1), (s.sink op).2 ++ ((s.sink op).1.sinkAll (a ++ b)).2) = _
    rw [ih, ← List.append_assoc]
    rfl

theorem Tracker.sinkAll_scene (s : Tracker F) (ops : List (Op F)) :
    (s.sinkAll ops).2 = ops.flatMap Op.toScene := by
  induction ops generalizing s with
  | nil => rfl
  | cons op ops ih =>
    show (s.sink op).2 ++ ((s.sink op).1.sinkAll ops).2 = _
    rw [ih, List.flatMap_cons]
    congr 1
    cases op with
    | draw stroke => cases stroke <;> rfl
    | _ => rfl

/-- `currentBounds` after more boxes. -/
def joinBoxes (b : Option (KRect F)) (rs : List (KRect F)) : Option (KRect F) :=
  rs.foldl (fun b r => some (match b with
    | some e => e.union r
    | none => r)) b

omit [KurboBox F] in
theorem joinBoxes_some (b : KRect F) (rs : List (KRect F)) :
    joinBoxes (some b) rs = some (rs.foldl KRect.union b) := by
  induction rs generalizing b with
  | nil => rfl
  | cons r rs ih => exact ih _

theorem joinBoxes_none (ops : List (Op F)) : joinBoxes none (drawnBoxes ops) = drawnBox ops := by
  unfold drawnBox
  cases drawnBoxes ops with
  | nil => rfl
  | cons r rs => exact joinBoxes_some r rs

/-- The number of open groups. -/
def groupCount (st : List Open) : Nat := st.count .group

/-- Inside of a tracked layer. -/
theorem Tracker.inside {name : String} (ops : List (Op F)) (s : Tracker F) {st st' : List Open}
    (hs : s.currentLayer = some name) (hn : s.nesting = groupCount st)
    (h : nest st ops = some st') :
    ∃ k, s.counter ≤ k ∧ (s.sinkAll ops).1 =
      { s with
        nesting := groupCount st'
        counter := k
        currentBounds := joinBoxes s.currentBounds (drawnBoxes ops) } := by
  induction ops generalizing s st with
  | nil =>
    cases Option.some.inj h
    exact ⟨s.counter, le_refl _, by rw [← hn]; rfl⟩
  | cons op ops ih =>
    cases op with
    | pushLayer => exact ih s hs (st := .layer :: st) (by simpa [groupCount] using hn) h
    | pushClip => exact ih s hs (st := .layer :: st) (by simpa [groupCount] using hn) h
    | pop =>
      cases st with
      | nil => cases h
      | cons o st =>
        cases o with
        | group => cases h
        | layer => exact ih s hs (st := st) (by simpa [groupCount] using hn) h
    | draw stroke T brush path =>
      have e : (s.sink (.draw stroke T brush path)).1 = { s with
          currentBounds := joinBoxes s.currentBounds [T.transformRectBbox (boundingBox path)] } := by
        cases stroke <;> simp [Tracker.sink, Tracker.accumulateBounds, hs, joinBoxes] <;>
          cases s.currentBounds <;> rfl
      obtain ⟨k, hk, hr⟩ := ih (s.sink (.draw stroke T brush path)).1 (st := st)
        (by rw [e]; exact hs) (by rw [e]; exact hn) h
      refine ⟨k, by rw [e] at hk; exact hk, ?_⟩
      show ((s.sink (.draw stroke T brush path)).1.sinkAll ops).1 = _
      rw [hr, e]
      rfl
    | beginGroup n i =>
      have e : (s.sink (.beginGroup n i)).1
          = { s with counter := s.counter + 1000, nesting := s.nesting + 1 } := by
        simp [Tracker.sink, Tracker.beginLayerGroup, hs]
      obtain ⟨k, hk, hr⟩ := ih (s.sink (.beginGroup n i)).1 (st := .group :: st)
        (by rw [e]; exact hs) (by rw [e]; simp [groupCount, hn]) h
      rw [e] at hk
      refine ⟨k, le_trans (Nat.le_add_right _ _) hk, ?_⟩
      show ((s.sink (.beginGroup n i)).1.sinkAll ops).1 = _
      rw [hr, e]
      rfl
    | endGroup =>
      cases st with
      | nil => cases h
      | cons o st =>
        cases o with
        | layer => cases h
        | group =>
          have hn' : s.nesting = groupCount st + 1 := by simpa [groupCount] using hn
          have e : (s.sink (F := F) .endGroup).1 = { s with nesting := s.nesting - 1 } := by
            simp [Tracker.sink, Tracker.endLayerGroup, hs, hn']
          obtain ⟨k, hk, hr⟩ := ih (s.sink (F := F) .endGroup).1 (st := st)
            (by rw [e]; exact hs) (by rw [e, hn']; rfl) h
          rw [e] at hk
          refine ⟨k, hk, ?_⟩
          show ((s.sink (F := F) .endGroup).1.sinkAll ops).1 = _
          rw [hr, e]
          rfl

/-- One group of an interactive layer. -/
theorem Tracker.group {name : String} {i : Nat} {mid : List (Op F)} (hm : nest [] mid = some [])
    (s : Tracker F) (hs : s.currentLayer = none) (hi : name ∈ s.interactive) :
    ∃ s', (s.sinkAll (Op.beginGroup name i :: (mid ++ [Op.endGroup]))).1 = s' ∧
      s'.currentLayer = none ∧ s'.interactive = s.interactive ∧ s.counter + 1000 ≤ s'.counter ∧
      s'.collected = s.collected ++
        ((drawnBox mid).map fun b => ⟨name, b, s.counter + 1000⟩).toList := by
  have e : (s.sink (.beginGroup name i)).1 = { s with
      counter := s.counter + 1000, currentLayer := some name,
      currentPaintOrder := s.counter + 1000, currentBounds := none, nesting := 0 } := by
    simp [Tracker.sink, Tracker.beginLayerGroup, hs, hi]
  obtain ⟨k, hk, hr⟩ := Tracker.inside (name := name) mid (s.sink (.beginGroup name i)).1 (st := [])
    (by rw [e]) (by rw [e]; rfl) hm
  rw [e] at hk
  refine ⟨_, rfl, ?_⟩
  have e2 : (s.sinkAll (Op.beginGroup name i :: (mid ++ [Op.endGroup]))).1
      = (((s.sink (.beginGroup name i)).1.sinkAll mid).1.sink (F := F) .endGroup).1 := by
    show ((s.sink (.beginGroup name i)).1.sinkAll (mid ++ [Op.endGroup])).1 = _
    rw [Tracker.sinkAll_append]
    rfl
  rw [e2, hr, e]
  simp only [joinBoxes_none]
  cases drawnBox mid with
  | none => simp [Tracker.sink, Tracker.endLayerGroup, groupCount]; exact hk
  | some b => simp [Tracker.sink, Tracker.endLayerGroup, groupCount]; exact hk

/-- The groups of several interactive layers. -/
theorem Tracker.groups (s : Tracker F) (hs : s.currentLayer = none) {α : Type} (f : α → String)
    {xs : List α} {per : List (List (Op F))}
    (h : List.Forall₂ (fun x os => os = [] ∨ ∃ i mid,
      os = Op.beginGroup (f x) i :: (mid ++ [Op.endGroup]) ∧ nest [] mid = some []) xs per)
    (hx : ∀ x ∈ xs, f x ∈ s.interactive) :
    ∃ s' new, (s.sinkAll per.flatten).1 = s' ∧ s'.currentLayer = none ∧
      s'.interactive = s.interactive ∧ s.counter ≤ s'.counter ∧ s'.collected = s.collected ++ new ∧
      new.map (fun h => (h.name, h.rect))
        = (xs.zip per).filterMap (fun p => (drawnBox p.2).map fun b => (f p.1, b)) ∧
      new.Pairwise (fun a b => a.paintOrder < b.paintOrder) ∧ ∀ h ∈ new, s.counter < h.paintOrder := by
  induction h generalizing s with
  | nil => exact ⟨s, [], rfl, hs, rfl, le_refl _, by simp, rfl, .nil, by simp⟩
  | @cons x os xs per h _ ih =>
    rw [List.flatten_cons]
    rcases h with rfl | ⟨i, mid, rfl, hm⟩
    · obtain ⟨s', new, h1, h2, h3, h4, h5, h6, h7, h8⟩ := ih s hs fun y hy => hx y (by simp [hy])
      exact ⟨s', new, h1, h2, h3, h4, h5, h6, h7, h8⟩
    · obtain ⟨s1, e1, a1, a2, a3, a4⟩ := Tracker.group (i := i) hm s hs (hx x (by simp))
      obtain ⟨s', new, h1, h2, h3, h4, h5, h6, h7, h8⟩ := ih s1 a1 fun y hy => by
        rw [a2]; exact hx y (by simp [hy])
      have hb : drawnBox (Op.beginGroup (f x) i :: (mid ++ [Op.endGroup])) = drawnBox mid := by
        have : drawnBoxes (Op.beginGroup (f x) i :: (mid ++ [Op.endGroup])) = drawnBoxes mid := by
          simp [drawnBoxes]
        unfold drawnBox
        rw [this]
      refine ⟨s', ((drawnBox mid).map fun b => ⟨f x, b, s.counter + 1000⟩).toList ++ new, ?_, h2,
        h3.trans a2, by omega, ?_, ?_, ?_, ?_⟩
      · rw [Tracker.sinkAll_append, e1]
        exact h1
      · rw [h5, a4, List.append_assoc]
      · rw [List.map_append, h6, List.zip_cons_cons, List.filterMap_cons]
        simp only [hb]
        cases drawnBox mid <;> rfl
      · cases drawnBox mid with
        | none => exact h7
        | some b =>
          refine List.pairwise_cons.mpr ⟨fun y hy => ?_, h7⟩
          have := h8 y hy
          show s.counter + 1000 < _
          omega
      · intro y hy
        rcases List.mem_append.mp hy with hy | hy
        · cases hd : drawnBox mid with
          | none => rw [hd] at hy; cases hy
          | some b =>
            rw [hd] at hy
            cases List.mem_singleton.mp hy
            show s.counter < s.counter + 1000
            omega
        · have := h8 y hy
          omega

end
end Velato

namespace Velato
section
variable {F : Type} [FloatOps F]

theorem foldl_last {α : Type} (key : α → Nat) {f : Option α → α → Option α}
    (hf : ∀ b p, key b ≤ key p → f (some b) p = some p) (l : List α) (b : α)
    (h : (b :: l).Pairwise fun x y => key x < key y) :
    l.foldl f (some b) = (b :: l).getLast? := by
  induction l generalizing b with
  | nil => rfl
  | cons x l ih =>
    have hx : key b ≤ key x := le_of_lt ((List.pairwise_cons.mp h).1 x (by simp))
    rw [List.foldl_cons, hf b x hx, ih x (List.pairwise_cons.mp h).2]
    rfl

theorem pickLayer_eq (hits : List (LayerHit F)) (p : P2 F)
    (h : hits.Pairwise fun a b => a.paintOrder < b.paintOrder) :
    pickLayer hits p = (hits.zipIdx.reverse.find? fun q => q.1.rect.contains p).map (·.2) := by
  unfold pickLayer
  rw [← List.head?_filter, List.filter_reverse, List.head?_reverse]
  have hp : (hits.zipIdx.filter fun q => q.1.rect.contains p).Pairwise
      fun x y => x.1.paintOrder < y.1.paintOrder := by
    refine List.Pairwise.filter _ ?_
    have := h
    rw [← List.zipIdx_map_fst 0 hits, List.pairwise_map] at this
    exact this
  show (List.foldl _ none (hits.zipIdx.filter _)).map _ = _
  congr 1
  generalize hits.zipIdx.filter (fun q => q.1.rect.contains p) = l at hp
  cases l with
  | nil => rfl
  | cons b l =>
    rw [List.foldl_cons]
    exact foldl_last (fun x : LayerHit F × Nat => x.1.paintOrder) (fun b p h => by simp [h]) l b hp

theorem pickLayer_bind (hits : List (LayerHit F)) (p : P2 F)
    (h : hits.Pairwise fun a b => a.paintOrder < b.paintOrder) :
    (pickLayer hits p).bind (fun i => hits[i]?) = hits.reverse.find? fun q => q.rect.contains p := by
  rw [pickLayer_eq hits p h]
  have e : hits.reverse = hits.zipIdx.reverse.map (·.1) := by
    rw [List.map_reverse, List.zipIdx_map_fst]
  rw [e, List.find?_map]
  cases hf : hits.zipIdx.reverse.find? (fun q => q.1.rect.contains p) with
  | none =>
    have : List.find? ((fun q => q.rect.contains p) ∘ fun x => x.1) hits.zipIdx.reverse = none := hf
    rw [this]
    rfl
  | some q =>
    have : List.find? ((fun q => q.rect.contains p) ∘ fun x => x.1) hits.zipIdx.reverse = some q := hf
    rw [this]
    have hm := List.mem_of_find?_eq_some hf
    rw [List.mem_reverse] at hm
    have := List.mem_zipIdx_iff_getElem?.mp hm
    simpa using this

end

/-! ## Bounding boxes in exact arithmetic -/

theorem real_fmin (a b : ℝ) : fmin a b = min a b := by
  unfold fmin isNaN
  simp only [real_lt, real_eq]
  by_cases h : a < b
  · simp [h, min_eq_left h.le]
  · simp [h, min_eq_right (not_lt.mp h)]

theorem KRect.IsHull.union {r s : KRect ℝ} {S T : Set (P2 ℝ)} (hr : r.IsHull S) (hs : s.IsHull T) :
    (r.union s).IsHull (S ∪ T) := by
  constructor
  · rintro p (hp | hp)
    · obtain ⟨h1, h2, h3, h4⟩ := hr.1 p hp
      simp only [KRect.Has, KRect.union, real_fmin, real_fmax]
      exact ⟨min_le_of_left_le h1, le_max_of_le_left h2, min_le_of_left_le h3, le_max_of_le_left h4⟩
    · obtain ⟨h1, h2, h3, h4⟩ := hs.1 p hp
      simp only [KRect.Has, KRect.union, real_fmin, real_fmax]
      exact ⟨min_le_of_right_le h1, le_max_of_le_right h2, min_le_of_right_le h3,
        le_max_of_le_right h4⟩
  · intro r' h'
    obtain ⟨a1, a2, a3, a4⟩ := hr.2 r' fun p hp => h' p (.inl hp)
    obtain ⟨b1, b2, b3, b4⟩ := hs.2 r' fun p hp => h' p (.inr hp)
    simp only [KRect.union, real_fmin, real_fmax]
    exact ⟨le_min a1 b1, max_le a2 b2, le_min a3 b3, max_le a4 b4⟩

theorem KRect.foldl_hull {α : Type} (f : α → KRect ℝ) (S : α → Set (P2 ℝ)) (xs : List α)
    (h : ∀ x ∈ xs, (f x).IsHull (S x)) {b : KRect ℝ} {B : Set (P2 ℝ)} (hb : b.IsHull B) :
    ((xs.map f).foldl KRect.union b).IsHull (B ∪ {p | ∃ x ∈ xs, p ∈ S x}) := by
  induction xs generalizing b B with
  | nil => simpa using hb
  | cons x xs ih =>
    have := ih (fun y hy => h y (by simp [hy])) (hb.union (h x (by simp)))
    have e : B ∪ S x ∪ {p | ∃ y ∈ xs, p ∈ S y} = B ∪ {p | ∃ y ∈ x :: xs, p ∈ S y} := by
      ext p
      simp [or_assoc]
    rw [← e]
    exact this

/-- A linear function on an interval is between its values at the ends. -/
theorem mul_between {a x x0 x1 : ℝ} (h0 : x0 ≤ x) (h1 : x ≤ x1) :
    min (a * x0) (a * x1) ≤ a * x ∧ a * x ≤ max (a * x0) (a * x1) := by
  rcases le_total 0 a with ha | ha
  · exact ⟨min_le_of_left_le (mul_le_mul_of_nonneg_left h0 ha),
      le_max_of_le_right (mul_le_mul_of_nonneg_left h1 ha)⟩
  · exact ⟨min_le_of_right_le (mul_le_mul_of_nonpos_left h1 ha),
      le_max_of_le_left (mul_le_mul_of_nonpos_left h0 ha)⟩

theorem corner_between {a c e x y x0 x1 y0 y1 : ℝ} (h0 : x0 ≤ x) (h1 : x ≤ x1) (k0 : y0 ≤ y)
    (k1 : y ≤ y1) :
    min (min (a * x0 + c * y0 + e) (a * x0 + c * y1 + e))
        (min (a * x1 + c * y0 + e) (a * x1 + c * y1 + e)) ≤ a * x + c * y + e ∧
    a * x + c * y + e ≤ max (max (a * x0 + c * y0 + e) (a * x0 + c * y1 + e))
        (max (a * x1 + c * y0 + e) (a * x1 + c * y1 + e)) := by
  obtain ⟨p1, p2⟩ := mul_between (a := a) h0 h1
  obtain ⟨q1, q2⟩ := mul_between (a := c) k0 k1
  constructor
  · rcases min_le_iff.mp p1 with p | p <;> rcases min_le_iff.mp q1 with q | q
    · exact min_le_of_left_le (min_le_of_left_le (by linarith))
    · exact min_le_of_left_le (min_le_of_right_le (by linarith))
    · exact min_le_of_right_le (min_le_of_left_le (by linarith))
    · exact min_le_of_right_le (min_le_of_right_le (by linarith))
  · rcases le_max_iff.mp p2 with p | p <;> rcases le_max_iff.mp q2 with q | q
    · exact le_max_of_le_left (le_max_of_le_left (by linarith))
    · exact le_max_of_le_left (le_max_of_le_right (by linarith))
    · exact le_max_of_le_right (le_max_of_le_left (by linarith))
    · exact le_max_of_le_right (le_max_of_le_right (by linarith))

theorem transformRectBbox_hull (m : Affine ℝ) {r : KRect ℝ} (hx : r.x0 ≤ r.x1) (hy : r.y0 ≤ r.y1) :
    (m.transformRectBbox r).IsHull {q | ∃ p, r.Has p ∧ q = m.apply p} := by
  constructor
  · rintro q ⟨p, ⟨h1, h2, h3, h4⟩, rfl⟩
    have a := corner_between (a := m.a) (c := m.c) (e := m.e) h1 h2 h3 h4
    have b := corner_between (a := m.b) (c := m.d) (e := m.f) h1 h2 h3 h4
    simp only [KRect.Has, Affine.transformRectBbox, KRect.fromPoints, KRect.union, Affine.apply,
      real_fmin, real_fmax, real_add, real_mul]
    exact ⟨a.1, a.2, b.1, b.2⟩
  · intro r' h'
    obtain ⟨a1, a2, a3, a4⟩ := h' _ ⟨⟨r.x0, r.y0⟩, ⟨le_refl _, hx, le_refl _, hy⟩, rfl⟩
    obtain ⟨b1, b2, b3, b4⟩ := h' _ ⟨⟨r.x0, r.y1⟩, ⟨le_refl _, hx, hy, le_refl _⟩, rfl⟩
    obtain ⟨c1, c2, c3, c4⟩ := h' _ ⟨⟨r.x1, r.y0⟩, ⟨hx, le_refl _, le_refl _, hy⟩, rfl⟩
    obtain ⟨d1, d2, d3, d4⟩ := h' _ ⟨⟨r.x1, r.y1⟩, ⟨hx, le_refl _, hy, le_refl _⟩, rfl⟩
    simp only [Affine.transformRectBbox, KRect.fromPoints, KRect.union, real_fmin, real_fmax]
    exact ⟨le_min (le_min a1 b1) (le_min c1 d1), max_le (max_le a2 b2) (max_le c2 d2),
      le_min (le_min a3 b3) (le_min c3 d3), max_le (max_le a4 b4) (max_le c4 d4)⟩

theorem KRect.IsHull.order {r : KRect ℝ} {S : Set (P2 ℝ)} (h : r.IsHull S) {p : P2 ℝ} (hp : p ∈ S) :
    r.x0 ≤ r.x1 ∧ r.y0 ≤ r.y1 :=
  ⟨(h.1 p hp).1.trans (h.1 p hp).2.1, (h.1 p hp).2.2.1.trans (h.1 p hp).2.2.2⟩

theorem boundingBox_hull [KurboBox ℝ] (hk : ExactBoxes) {path : List (PathEl ℝ)}
    (hp : segments path ≠ []) : (boundingBox path).IsHull {p | OnPath path p} := by
  unfold boundingBox
  cases hs : segments path with
  | nil => exact absurd hs hp
  | cons s ss =>
    have := KRect.foldl_hull KurboBox.segBox
      (fun s : PathSeg ℝ => {p | ∃ t : ℝ, 0 ≤ t ∧ t ≤ 1 ∧ p = s.at t}) ss (fun x _ => hk x) (hk s)
    have e : {p | OnPath path p} = {p | ∃ t : ℝ, 0 ≤ t ∧ t ≤ 1 ∧ p = s.at t} ∪
        {p | ∃ x ∈ ss, p ∈ {p | ∃ t : ℝ, 0 ≤ t ∧ t ≤ 1 ∧ p = x.at t}} := by
      ext p
      simp [OnPath, hs]
    rw [e]
    exact this

theorem boundingBox_order [KurboBox ℝ] (hk : ExactBoxes) (path : List (PathEl ℝ)) :
    (boundingBox path).x0 ≤ (boundingBox path).x1 ∧ (boundingBox path).y0 ≤ (boundingBox path).y1 := by
  cases hs : segments path with
  | nil => simp [boundingBox, hs]
  | cons s ss =>
    exact (boundingBox_hull hk (by rw [hs]; simp)).order (p := s.at 0)
      ⟨s, by rw [hs]; simp, 0, le_refl _, zero_le_one, rfl⟩

/-- What a list of calls covers. -/
theorem drawnBox_hull [KurboBox ℝ] (hk : ExactBoxes) {ops : List (Op ℝ)} {R : KRect ℝ}
    (h : drawnBox ops = some R) :
    R.IsHull {q | ∃ st T br path p, Op.draw st T br path ∈ ops ∧ (boundingBox path).Has p ∧
      q = T.apply p} := by
  obtain ⟨ds, hds, hmem⟩ : ∃ ds : List (Affine ℝ × List (PathEl ℝ)),
      drawnBoxes ops = ds.map (fun d => d.1.transformRectBbox (boundingBox d.2)) ∧
      ∀ d, d ∈ ds ↔ ∃ st br, Op.draw st d.1 br d.2 ∈ ops := by
    clear h
    induction ops with
    | nil => exact ⟨[], rfl, by simp⟩
    | cons op ops ih =>
      obtain ⟨ds, h1, h2⟩ := ih
      cases op with
      | draw st T br path =>
        refine ⟨(T, path) :: ds, by simpa [drawnBoxes] using h1, ?_⟩
        intro d
        rw [List.mem_cons, h2]
        constructor
        · rintro (rfl | ⟨a, b, h⟩)
          · exact ⟨st, br, by simp⟩
          · exact ⟨a, b, by simp [h]⟩
        · rintro ⟨a, b, h⟩
          rcases List.mem_cons.mp h with h | h
          · cases h; exact .inl rfl
          · exact .inr ⟨a, b, h⟩
      | _ => exact ⟨ds, by simpa [drawnBoxes] using h1, by simpa using h2⟩
  unfold drawnBox at h
  rw [hds] at h
  cases ds with
  | nil => cases h
  | cons d ds =>
    cases Option.some.inj h
    have hh : ∀ d : Affine ℝ × List (PathEl ℝ), (d.1.transformRectBbox (boundingBox d.2)).IsHull
        {q | ∃ p, (boundingBox d.2).Has p ∧ q = d.1.apply p} := fun d =>
      transformRectBbox_hull d.1 (boundingBox_order hk d.2).1 (boundingBox_order hk d.2).2
    have := KRect.foldl_hull (fun d : Affine ℝ × List (PathEl ℝ) =>
      d.1.transformRectBbox (boundingBox d.2)) _ ds (fun x _ => hh x) (hh d)
    have e : {q | ∃ st T br path p, Op.draw st T br path ∈ ops ∧ (boundingBox path).Has p ∧
        q = T.apply p} = {q | ∃ p, (boundingBox d.2).Has p ∧ q = d.1.apply p} ∪
        {q | ∃ x ∈ ds, q ∈ {q | ∃ p, (boundingBox x.2).Has p ∧ q = x.1.apply p}} := by
      ext q
      constructor
      · rintro ⟨st, T, br, path, p, hd, hp, rfl⟩
        rcases List.mem_cons.mp ((hmem (T, path)).mpr ⟨st, br, hd⟩) with rfl | h
        · exact .inl ⟨p, hp, rfl⟩
        · exact .inr ⟨_, h, p, hp, rfl⟩
      · rintro (⟨p, hp, rfl⟩ | ⟨x, hx, p, hp, rfl⟩)
        · obtain ⟨st, br, h⟩ := (hmem d).mp (by simp)
          exact ⟨st, _, br, _, p, h, hp, rfl⟩
        · obtain ⟨st, br, h⟩ := (hmem x).mp (by simp [hx])
          exact ⟨st, _, br, _, p, h, hp, rfl⟩
    rw [e]
    exact this

end Velato
