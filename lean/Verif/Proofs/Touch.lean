import Verif.Spec.Touch
import Verif.Model.Viewer
import Verif.Proofs.Easing

/-!
# Lemmas about gestures
-/

namespace Velato
open FloatOps (lit)

/-! ## Fingers -/

section
variable {F : Type}

theorem mapInsert_mem {α : Type} (k : Nat) (v : α) (l : List (Nat × α)) (h : l.Pairwise fun a b => a.1 < b.1)
    (i : Nat) (p : α) :
    (i, p) ∈ mapInsert k v l ↔ (i = k ∧ p = v) ∨ (i ≠ k ∧ (i, p) ∈ l) := by
  induction l with
  | nil => simp [mapInsert]
  | cons e l ih =>
    obtain ⟨k', v'⟩ := e
    rw [List.pairwise_cons] at h
    unfold mapInsert
    split_ifs with h1 h2
    · simp only [List.mem_cons, Prod.mk.injEq]
      constructor
      · rintro (h' | ⟨rfl, rfl⟩ | h')
        · exact .inl h'
        · exact .inr ⟨by omega, .inl ⟨rfl, rfl⟩⟩
        · exact .inr ⟨by have := h.1 _ h'; dsimp only at this; omega, .inr h'⟩
      · rintro (h' | ⟨-, h'⟩)
        · exact .inl h'
        · exact .inr h'
    · subst h2
      simp only [List.mem_cons, Prod.mk.injEq]
      constructor
      · rintro (h' | h')
        · exact .inl h'
        · exact .inr ⟨by have := h.1 _ h'; dsimp only at this; omega, .inr h'⟩
      · rintro (h' | ⟨h0, ⟨rfl, -⟩ | h'⟩)
        · exact .inl h'
        · exact absurd rfl h0
        · exact .inr h'
    · simp only [List.mem_cons, Prod.mk.injEq, ih h.2]
      constructor
      · rintro (⟨rfl, rfl⟩ | h' | ⟨h0, h'⟩)
        · exact .inr ⟨by omega, .inl ⟨rfl, rfl⟩⟩
        · exact .inl h'
        · exact .inr ⟨h0, .inr h'⟩
      · rintro (h' | ⟨h0, h' | h'⟩)
        · exact .inr (.inl h')
        · exact .inl h'
        · exact .inr (.inr ⟨h0, h'⟩)

theorem mapInsert_sorted {α : Type} (k : Nat) (v : α) (l : List (Nat × α))
    (h : l.Pairwise fun a b => a.1 < b.1) : (mapInsert k v l).Pairwise fun a b => a.1 < b.1 := by
  induction l with
  | nil => simp [mapInsert]
  | cons e l ih =>
    obtain ⟨k', v'⟩ := e
    have h' := h
    rw [List.pairwise_cons] at h
    unfold mapInsert
    split_ifs with h1 h2
    · rw [List.pairwise_cons]
      refine ⟨fun a ha => ?_, h'⟩
      rcases List.mem_cons.mp ha with rfl | ha
      · exact h1
      · exact h1.trans (h.1 a ha)
    · subst h2
      rw [List.pairwise_cons]
      exact ⟨h.1, h.2⟩
    · rw [List.pairwise_cons]
      refine ⟨fun a ha => ?_, ih h.2⟩
      obtain ⟨i, p⟩ := a
      rw [mapInsert_mem _ _ _ h.2] at ha
      rcases ha with ⟨rfl, -⟩ | ⟨-, ha⟩
      · show k' < i; omega
      · exact h.1 _ ha

theorem listsFingers_step [FloatOps F] {s : TouchState F} {f : Nat → Option (P2 F)}
    (h : ListsFingers s.activeTouches f) (e : TouchEvent F) :
    ListsFingers (s.addEvent e).activeTouches fun id => fingerFrom id (f id) [e] := by
  obtain ⟨h1, h2⟩ := h
  obtain ⟨k, ph, loc⟩ := e
  unfold TouchState.addEvent
  cases ph with
  | started =>
    refine ⟨mapInsert_sorted _ _ _ h1, fun id p => ?_⟩
    rw [mapInsert_mem _ _ _ h1, h2]
    simp only [fingerFrom, List.foldl_cons, List.foldl_nil]
    by_cases hk : k = id
    · subst hk; simp [eq_comm]
    · have hk' : ¬ id = k := fun h => hk h.symm
      simp [hk, hk']
  | moved =>
    refine ⟨?_, fun id p => ?_⟩
    · show (mapUpdate _ _ _).Pairwise _
      unfold mapUpdate
      rw [List.pairwise_map]
      refine h1.imp fun {a b} hab => ?_
      split_ifs <;> simp_all
    · show (id, p) ∈ mapUpdate _ _ _ ↔ _
      unfold mapUpdate
      simp only [fingerFrom, List.foldl_cons, List.foldl_nil, List.mem_map]
      by_cases hk : k = id
      · subst hk
        rw [if_pos rfl]
        constructor
        · rintro ⟨⟨i, q⟩, hm, he⟩
          split_ifs at he with hi
          · cases he
            dsimp only at hi
            subst hi
            rw [h2] at hm
            rw [hm]
          · cases he; exact absurd rfl hi
        · intro he
          cases hf : f k with
          | none => rw [hf] at he; cases he
          | some q =>
            rw [hf] at he
            cases he
            exact ⟨(k, q), (h2 k q).mpr hf, by simp⟩
      · rw [if_neg hk, ← h2]
        constructor
        · rintro ⟨⟨i, q⟩, hm, he⟩
          split_ifs at he with hi
          · cases he; exact absurd rfl hk
          · cases he; exact hm
        · exact fun hm => ⟨(id, p), hm, by rw [if_neg fun h => hk h.symm]⟩
  | ended | cancelled =>
    refine ⟨h1.filter _, fun id p => ?_⟩
    show (id, p) ∈ mapRemove _ _ ↔ _
    unfold mapRemove
    simp only [fingerFrom, List.foldl_cons, List.foldl_nil, List.mem_filter, decide_not,
      Bool.not_eq_eq_eq_not, Bool.not_true, decide_eq_false_iff_not]
    rw [h2]
    by_cases hk : k = id
    · subst hk; simp
    · have hk' : ¬ id = k := fun h => hk h.symm
      simp [hk, hk']

theorem fingerFrom_cons (id : Nat) (o : Option (P2 F)) (e : TouchEvent F) (evs : List (TouchEvent F)) :
    fingerFrom id o (e :: evs) = fingerFrom id (fingerFrom id o [e]) evs := rfl

theorem fingerFrom_append (id : Nat) (o : Option (P2 F)) (a b : List (TouchEvent F)) :
    fingerFrom id o (a ++ b) = fingerFrom id (fingerFrom id o a) b := by
  unfold fingerFrom; rw [List.foldl_append]

theorem listsFingers_events [FloatOps F] {s : TouchState F} {f : Nat → Option (P2 F)}
    (h : ListsFingers s.activeTouches f) (evs : List (TouchEvent F)) :
    ListsFingers (evs.foldl TouchState.addEvent s).activeTouches fun id => fingerFrom id (f id) evs := by
  induction evs generalizing s f with
  | nil => exact h
  | cons e evs ih => exact ih (listsFingers_step h e)

/-! ## The state of the gesture -/

theorem addEvent_gesture [FloatOps F] (s : TouchState F) (e : TouchEvent F) :
    (s.addEvent e).gestureState = s.gestureState ∧
      (s.addEvent e).addedOrRemovedTouches = (s.addedOrRemovedTouches || decide (e.phase ≠ .moved)) := by
  obtain ⟨k, ph, loc⟩ := e
  unfold TouchState.addEvent
  cases ph <;> simp

theorem addEvents_gesture [FloatOps F] (s : TouchState F) (evs : List (TouchEvent F)) :
    (evs.foldl TouchState.addEvent s).gestureState = s.gestureState ∧
      (evs.foldl TouchState.addEvent s).addedOrRemovedTouches
        = (s.addedOrRemovedTouches || fingersChanged evs) := by
  induction evs generalizing s with
  | nil => simp [fingersChanged]
  | cons e evs ih =>
    obtain ⟨h1, h2⟩ := ih (s.addEvent e)
    obtain ⟨h3, h4⟩ := addEvent_gesture s e
    refine ⟨h1.trans h3, ?_⟩
    rw [List.foldl_cons, h2, h4]
    simp [fingersChanged, Bool.or_assoc]

end

/-- What the code computes from the fingers. -/
theorem real_dynamic (s : TouchState ℝ) : s.calcDynamicState =
    if s.activeTouches = [] then none else
      some ⟨spread s.activeTouches, ⟨spreadX s.activeTouches, spreadY s.activeTouches⟩,
        centroid s.activeTouches, heading s.activeTouches⟩ := by
  obtain ⟨l, g, b⟩ := s
  cases l with
  | nil => rfl
  | cons t l =>
    rw [if_neg (by simp)]
    unfold TouchState.calcDynamicState
    dsimp only
    generalize hL : (t :: l) = L
    have hlen : L.length ≠ 0 := by rw [← hL]; simp
    have e1 : ∀ (M : List (Nat × P2 ℝ)) (a : P2 ℝ),
        M.foldl (fun a t => (⟨a.x +. t.2.x, a.y +. t.2.y⟩ : P2 ℝ)) a
          = ⟨a.x + (M.map fun t => t.2.x).sum, a.y + (M.map fun t => t.2.y).sum⟩ := by
      intro M
      induction M with
      | nil => intro a; simp
      | cons m M ih => intro a; rw [List.foldl_cons, ih]; simp [add_assoc]
    have e2 : ∀ (f : Nat × P2 ℝ → ℝ) (M : List (Nat × P2 ℝ)) (a : ℝ),
        M.foldl (fun a t => a +. f t) a = a + (M.map f).sum := by
      intro f M
      induction M with
      | nil => intro a; simp
      | cons m M ih => intro a; rw [List.foldl_cons, ih]; simp [add_assoc]
    have e3 : ∀ (f g : Nat × P2 ℝ → ℝ) (M : List (Nat × P2 ℝ)) (a : P2 ℝ),
        M.foldl (fun a t => (⟨a.x +. f t, a.y +. g t⟩ : P2 ℝ)) a
          = ⟨a.x + (M.map f).sum, a.y + (M.map g).sum⟩ := by
      intro f g M
      induction M with
      | nil => intro a; simp
      | cons m M ih => intro a; rw [List.foldl_cons, ih]; simp [add_assoc]
    rw [e1, e2, e3]
    simp only [real_lit, real_mul, real_div, real_ofUsize]
    have hc : (⟨(((0 : ℚ) : ℝ) + (L.map fun t => t.2.x).sum) * (((1 : ℚ) : ℝ) / L.length),
        (((0 : ℚ) : ℝ) + (L.map fun t => t.2.y).sum) * (((1 : ℚ) : ℝ) / L.length)⟩ : P2 ℝ) = centroid L := by
      unfold centroid
      push_cast
      rw [P2.mk.injEq]
      constructor <;> ring
    have hx := congrArg P2.x hc
    have hy := congrArg P2.y hc
    dsimp only at hx hy
    rw [hx, hy]
    have hh : heading L = Complex.arg ((centroid L).toC - t.2.toC) := by rw [← hL]; rfl
    rw [hh]
    simp only [Option.some.injEq, DynGestureState.mk.injEq, P2.mk.injEq]
    refine ⟨?_, ⟨?_, ?_⟩, trivial, ?_⟩
    · unfold spread
      push_cast
      rw [zero_add, mul_one_div]
      rfl
    · unfold spreadX
      push_cast
      rw [zero_add, mul_one_div]
      rfl
    · unfold spreadY
      push_cast
      rw [zero_add, mul_one_div]
      rfl
    · rfl

/-- What is known of the fingers. -/
noncomputable def dynOf (l : List (Nat × P2 ℝ)) : DynGestureState ℝ :=
  ⟨spread l, ⟨spreadX l, spreadY l⟩, centroid l, heading l⟩

/-- What holds after a frame: the gesture is that of the fingers. -/
structure TouchState.Settled (s : TouchState ℝ) (start : List (Nat × P2 ℝ)) : Prop where
  clean : s.addedOrRemovedTouches = false
  none : s.activeTouches = [] → s.gestureState = none
  some : s.activeTouches ≠ [] → ∃ prev,
    s.gestureState = some ⟨PinchType.classify start, prev, dynOf s.activeTouches⟩

theorem endFrame_active {F : Type} [FloatOps F] [Libm F] [Atan2 F] (s : TouchState F) :
    s.endFrame.activeTouches = s.activeTouches := by
  unfold TouchState.endFrame TouchState.updateGesture
  cases s.calcDynamicState with
  | none => rfl
  | some d => cases s.gestureState <;> rfl

/-- The gesture after a frame. -/
theorem settled_step {s : TouchState ℝ} {start : List (Nat × P2 ℝ)} (h : s.Settled start)
    (evs : List (TouchEvent ℝ)) :
    let now := (evs.foldl TouchState.addEvent s).activeTouches
    let s' := (evs.foldl TouchState.addEvent s).endFrame
    s'.activeTouches = now ∧ s'.addedOrRemovedTouches = false ∧
    s'.gestureState = if now = [] then none else some
      ⟨PinchType.classify (if s.activeTouches = [] then now else start),
        if fingersChanged evs ∨ s.activeTouches = [] then none else some (dynOf s.activeTouches),
        dynOf now⟩ := by
  obtain ⟨h1, h2⟩ := addEvents_gesture s evs
  rw [h.clean, Bool.false_or] at h2
  generalize evs.foldl TouchState.addEvent s = t at *
  refine ⟨endFrame_active t, rfl, ?_⟩
  unfold TouchState.endFrame TouchState.updateGesture
  rw [real_dynamic, h1]
  by_cases hn : t.activeTouches = []
  · rw [if_pos hn, if_pos hn]
    dsimp only
    split_ifs <;> rfl
  · rw [if_neg hn, if_neg hn]
    by_cases hs : s.activeTouches = []
    · rw [h.none hs]
      simp only [hs, or_true, if_true]
      split_ifs <;> rfl
    · obtain ⟨prev, hg⟩ := h.some hs
      rw [hg]
      simp only [hs, or_false, if_false, h2]
      cases fingersChanged evs <;> rfl

theorem settled_next {s : TouchState ℝ} {start : List (Nat × P2 ℝ)} (h : s.Settled start)
    (evs : List (TouchEvent ℝ)) :
    ((evs.foldl TouchState.addEvent s).endFrame).Settled
      (if s.activeTouches = [] then (evs.foldl TouchState.addEvent s).activeTouches else start) := by
  obtain ⟨h1, h2, h3⟩ := settled_step h evs
  refine ⟨h2, fun hn => ?_, fun hn => ?_⟩
  · rw [h1] at hn; rw [h3, if_pos hn]
  · rw [h1] at hn ⊢; rw [h3, if_neg hn]; exact ⟨_, rfl⟩

theorem afterFrames_append {F : Type} [FloatOps F] [Libm F] [Atan2 F] (fs : List (List (TouchEvent F)))
    (evs : List (TouchEvent F)) :
    TouchState.afterFrames (fs ++ [evs])
      = (evs.foldl TouchState.addEvent (TouchState.afterFrames fs)).endFrame := by
  unfold TouchState.afterFrames; rw [List.foldl_append]; rfl

theorem touchHistory_append {F : Type} [FloatOps F] [Libm F] [Atan2 F] (fs : List (List (TouchEvent F)))
    (evs : List (TouchEvent F)) :
    touchHistory (fs ++ [evs]) = touchHistory fs ++ [(TouchState.afterFrames (fs ++ [evs])).activeTouches] := by
  unfold touchHistory
  rw [List.length_append, List.length_singleton, List.range_succ, List.map_append, List.map_singleton]
  congr 1
  · refine List.map_congr_left fun k hk => ?_
    rw [List.mem_range] at hk
    rw [List.take_append_of_le_length (by omega)]
  · rw [List.take_of_length_le (by simp)]

theorem touchHistory_last {F : Type} [FloatOps F] [Libm F] [Atan2 F] (fs : List (List (TouchEvent F))) :
    (touchHistory fs).reverse.headD [] = (TouchState.afterFrames fs).activeTouches := by
  induction fs using List.reverseRecOn with
  | nil => rfl
  | append_singleton fs evs _ => rw [touchHistory_append, List.reverse_append]; rfl

theorem gestureStart_append {F : Type} (hist : List (List (Nat × P2 F))) (now : List (Nat × P2 F))
    (h : now ≠ []) :
    gestureStart (hist ++ [now]) = if hist.reverse.headD [] = [] then now else gestureStart hist := by
  unfold gestureStart
  rw [List.reverse_append]
  show ((List.takeWhile _ (now :: hist.reverse)).getLast?).getD [] = _
  have hn : (!now.isEmpty) = true := by cases now with
    | nil => exact absurd rfl h
    | cons => rfl
  rw [List.takeWhile_cons, if_pos hn]
  cases hist.reverse with
  | nil => rfl
  | cons l ls =>
    cases l with
    | nil => rfl
    | cons t l =>
      rw [List.headD_cons, if_neg (by simp), List.takeWhile_cons, if_pos (by rfl), List.getLast?_cons_cons]

theorem settled_after (fs : List (List (TouchEvent ℝ))) :
    (TouchState.afterFrames fs).Settled (gestureStart (touchHistory fs)) := by
  induction fs using List.reverseRecOn with
  | nil => exact ⟨rfl, fun _ => rfl, fun h => absurd rfl h⟩
  | append_singleton fs evs ih =>
    have h := settled_next ih evs
    rw [← afterFrames_append] at h
    refine ⟨h.clean, h.none, fun hn => ?_⟩
    rw [touchHistory_append, gestureStart_append _ _ hn, touchHistory_last]
    obtain ⟨prev, hp⟩ := h.some hn
    refine ⟨prev, ?_⟩
    rw [hp]
    congr 3
    rw [afterFrames_append, endFrame_active]

/-- The information after a frame. -/
theorem info_step {s : TouchState ℝ} {start : List (Nat × P2 ℝ)} (h : s.Settled start)
    (evs : List (TouchEvent ℝ)) :
    let now := (evs.foldl TouchState.addEvent s).activeTouches
    let old := if fingersChanged evs ∨ s.activeTouches = [] then now else s.activeTouches
    let zoom := if 1 < now.length then spread now / spread old else 1
    (evs.foldl TouchState.addEvent s).endFrame.info = if now = [] then none else some
      { numTouches := now.length
        zoomDelta := zoom
        zoomDelta2d :=
          if 1 < now.length then
            match PinchType.classify (if s.activeTouches = [] then now else start) with
            | .horizontal => ⟨spreadX now / spreadX old, 1⟩
            | .vertical => ⟨1, spreadY now / spreadY old⟩
            | .proportional => ⟨zoom, zoom⟩
          else ⟨1, 1⟩
        rotationDelta := heading now - heading old
        translationDelta := ⟨(centroid now).x - (centroid old).x, (centroid now).y - (centroid old).y⟩
        zoomCentre := centroid now } := by
  obtain ⟨h1, -, h3⟩ := settled_step h evs
  unfold TouchState.info
  rw [h1, h3]
  generalize (evs.foldl TouchState.addEvent s).activeTouches = now
  dsimp only
  by_cases hn : now = []
  · rw [if_pos hn, if_pos hn]; rfl
  · rw [if_neg hn, if_neg hn]
    have hone : (lit 1 : ℝ) = 1 := by rw [real_lit]; norm_num
    simp only [Option.map_some, hone]
    by_cases hc : fingersChanged evs = true ∨ s.activeTouches = []
    · rw [if_pos hc, if_pos hc]; rfl
    · rw [if_neg hc, if_neg hc]; rfl

/-! ## The plane as the complex numbers -/

@[simp] theorem toC_re (p : P2 ℝ) : p.toC.re = p.x := rfl
@[simp] theorem toC_im (p : P2 ℝ) : p.toC.im = p.y := rfl
@[simp] theorem ofC_toC (z : ℂ) : (P2.ofC z).toC = z := rfl
@[simp] theorem toC_ofC (p : P2 ℝ) : P2.ofC p.toC = p := rfl

theorem toC_inj {p q : P2 ℝ} : p.toC = q.toC ↔ p = q :=
  ⟨fun h => by rw [← toC_ofC p, h, toC_ofC], fun h => by rw [h]⟩

theorem sum_toC (l : List (Nat × P2 ℝ)) :
    (l.map fun t => t.2.toC).sum = ⟨(l.map fun t => t.2.x).sum, (l.map fun t => t.2.y).sum⟩ := by
  induction l with
  | nil => rfl
  | cons t l ih =>
    rw [List.map_cons, List.sum_cons, ih]
    apply Complex.ext <;> simp

theorem centroid_toC (l : List (Nat × P2 ℝ)) :
    (centroid l).toC = (l.map fun t => t.2.toC).sum / l.length := by
  rw [sum_toC]
  apply Complex.ext
  · rw [show ((l.length : ℕ) : ℂ) = ((l.length : ℝ) : ℂ) by push_cast; rfl, Complex.div_ofReal_re]; rfl
  · rw [show ((l.length : ℕ) : ℂ) = ((l.length : ℝ) : ℂ) by push_cast; rfl, Complex.div_ofReal_im]; rfl

theorem dist_toC (p q : P2 ℝ) : Real.sqrt ((p.x - q.x) ^ 2 + (p.y - q.y) ^ 2) = ‖p.toC - q.toC‖ := by
  rw [Complex.norm_def, Complex.normSq_apply]
  congr 1
  simp only [Complex.sub_re, Complex.sub_im, toC_re, toC_im]
  ring

theorem spread_toC (l : List (Nat × P2 ℝ)) :
    spread l = (l.map fun t => ‖(centroid l).toC - t.2.toC‖).sum / l.length := by
  unfold spread
  congr 2
  exact List.map_congr_left fun t _ => dist_toC _ _

theorem centroid_move {u v : ℂ} {l : List (Nat × P2 ℝ)} (hl : l ≠ []) :
    (centroid (moveFingers u v l)).toC = u * (centroid l).toC + v := by
  rw [centroid_toC, centroid_toC]
  have hlen : (l.length : ℂ) ≠ 0 := by
    have := List.length_pos_iff.mpr hl
    exact_mod_cast this.ne'
  unfold moveFingers
  rw [List.length_map, List.map_map]
  have e : ∀ m : List (Nat × P2 ℝ),
      (m.map ((fun t : Nat × P2 ℝ => t.2.toC) ∘ fun t => (t.1, P2.ofC (u * t.2.toC + v)))).sum
        = u * (m.map fun t => t.2.toC).sum + m.length * v := by
    intro m
    induction m with
    | nil => simp
    | cons t m ih =>
      rw [List.map_cons, List.sum_cons, ih, List.map_cons, List.sum_cons, List.length_cons]
      simp only [Function.comp, ofC_toC]
      push_cast
      ring
  rw [e]
  field_simp

theorem spread_move {u v : ℂ} {l : List (Nat × P2 ℝ)} (hl : l ≠ []) :
    spread (moveFingers u v l) = ‖u‖ * spread l := by
  rw [spread_toC, spread_toC, centroid_move hl]
  unfold moveFingers
  rw [List.length_map, List.map_map, ← mul_div_assoc]
  congr 1
  rw [← List.sum_map_mul_left]
  congr 1
  refine List.map_congr_left fun t _ => ?_
  simp only [Function.comp, ofC_toC]
  rw [← norm_mul]
  congr 1
  ring

theorem spread_pos {l : List (Nat × P2 ℝ)} {t : Nat × P2 ℝ} (ht : t ∈ l) (h : t.2 ≠ centroid l) :
    0 < spread l := by
  rw [spread_toC]
  have hl : (0 : ℝ) < l.length := by exact_mod_cast List.length_pos_of_mem ht
  refine div_pos ?_ hl
  refine lt_of_lt_of_le ?_ (List.single_le_sum ?_ _ (List.mem_map_of_mem ht))
  · rw [norm_pos_iff, sub_ne_zero]
    exact fun e => h (toC_inj.mp e.symm)
  · intro x hx
    obtain ⟨s, -, rfl⟩ := List.mem_map.mp hx
    exact norm_nonneg _

/-- The camera after a gesture. -/
theorem gesture_toC (i : MultiTouchInfo ℝ) (m : Affine ℝ) (p : P2 ℝ) :
    ((gestureTransform i m).apply p).toC = i.translationDelta.toC + i.zoomCentre.toC +
      (i.zoomDelta * ⟨Real.cos i.rotationDelta, Real.sin i.rotationDelta⟩ : ℂ) *
        ((m.apply p).toC - i.zoomCentre.toC) := by
  have hs : ∀ x : ℝ, Libm.sin x = Real.sin x := fun _ => rfl
  have hc : ∀ x : ℝ, Libm.cos x = Real.cos x := fun _ => rfl
  unfold gestureTransform
  apply Complex.ext <;>
  · simp only [toC_re, toC_im, Affine.apply, Affine.mul, Affine.translate, Affine.scale,
      Affine.scaleNonUniform, Affine.rotate, real_add, real_mul, real_neg, real_lit, Complex.add_re,
      Complex.add_im, Complex.mul_re, Complex.mul_im, Complex.ofReal_re, Complex.ofReal_im,
      Complex.sub_re, Complex.sub_im, hs, hc]
    push_cast
    ring

/-- A complex number from the lengths and the arguments of two others. -/
theorem polar_ratio {u w : ℂ} (hw : w ≠ 0) :
    (‖u‖ * ⟨Real.cos ((u * w).arg - w.arg), Real.sin ((u * w).arg - w.arg)⟩ : ℂ) = u := by
  by_cases hu : u = 0
  · subst hu; simp
  have e : (⟨Real.cos ((u * w).arg - w.arg), Real.sin ((u * w).arg - w.arg)⟩ : ℂ)
      = Complex.exp (((u * w).arg - w.arg : ℝ) * Complex.I) := by
    generalize (u * w).arg - w.arg = θ
    exact Complex.ext (Complex.exp_ofReal_mul_I_re θ).symm (Complex.exp_ofReal_mul_I_im θ).symm
  rw [e]
  push_cast
  rw [sub_mul, Complex.exp_sub]
  have h1 := Complex.norm_mul_exp_arg_mul_I (u * w)
  have h2 := Complex.norm_mul_exp_arg_mul_I w
  rw [norm_mul] at h1
  push_cast at h1
  have hw' : (‖w‖ : ℂ) ≠ 0 := by simpa using hw
  have hE : Complex.exp (w.arg * Complex.I) ≠ 0 := Complex.exp_ne_zero _
  rw [mul_div_assoc', div_eq_iff hE]
  apply mul_right_cancel₀ hw'
  calc _ = ‖u‖ * ‖w‖ * Complex.exp ((u * w).arg * Complex.I) := by ring
    _ = u * (‖w‖ * Complex.exp (w.arg * Complex.I)) := by rw [h1, h2]
    _ = _ := by ring

theorem classify_eq (l : List (Nat × P2 ℝ)) : PinchType.classify l = pinchOf l := by
  unfold pinchOf
  have hno : ∀ (R : P2 ℝ → P2 ℝ → Prop), (∀ a b : Nat × P2 ℝ, l ≠ [a, b]) →
      ¬ ∃ i j p q, l = [(i, p), (j, q)] ∧ R p q := by
    rintro R h ⟨i, j, p, q, rfl, -⟩; exact h _ _ rfl
  match l with
  | [] => rw [if_neg (hno _ (by simp)), if_neg (hno _ (by simp))]; rfl
  | [_] => rw [if_neg (hno _ (by simp)), if_neg (hno _ (by simp))]; rfl
  | _ :: _ :: _ :: _ => rw [if_neg (hno _ (by simp)), if_neg (hno _ (by simp))]; rfl
  | [(i, p), (j, q)] =>
    have hyes : ∀ (R : P2 ℝ → P2 ℝ → Prop),
        (∃ i' j' p' q', [(i, p), (j, q)] = [(i', p'), (j', q')] ∧ R p' q') ↔ R p q := by
      intro R
      constructor
      · rintro ⟨_, _, _, _, h, hr⟩; cases h; exact hr
      · exact fun h => ⟨_, _, _, _, rfl, h⟩
    simp only [hyes fun p q => 3 * |p.y - q.y| < |p.x - q.x|, hyes fun p q => 3 * |p.x - q.x| < |p.y - q.y|]
    unfold PinchType.classify
    simp only [real_lt, real_mul, real_lit, real_abs, real_sub, decide_eq_true_eq]
    push_cast
    split_ifs <;> rfl

end Velato
