import Verif.Spec.Playback
import Verif.Proofs.ImportValues
import Verif.Proofs.Search
import Verif.Proofs.Easing

/-!
# Evaluation of imported properties: helper lemmas
-/

namespace Velato
open FloatOps (lit)

/-- Every keyframe contributes one or more entries, in order. -/
inductive Entries {K E V : Type} (R : K → E → V → Prop) : List K → List E → List V → Prop where
  | nil : Entries R [] [] []
  | new {k ks t ts v vs} (h : R k t v) (hs : Entries R ks ts vs) :
      Entries R (k :: ks) (t :: ts) (v :: vs)
  | dup {k ks t ts v vs} (h : R k t v) (hs : Entries R (k :: ks) ts vs) :
      Entries R (k :: ks) (t :: ts) (v :: vs)

section
variable {K E V : Type} {R : K → E → V → Prop}

theorem Entries.of_forall₂ {P : K → E → Prop} {Q : K → V → Prop} {ks : List K} {ts : List E}
    {vs : List V} (h : List.Forall₂ P ks ts) (h' : List.Forall₂ Q ks vs) :
    Entries (fun k t v => P k t ∧ Q k v) ks ts vs := by
  induction h generalizing vs with
  | nil => cases h'; exact .nil
  | cons h1 _ ih =>
    cases h' with
    | cons h2 h2' => exact .new ⟨h1, h2⟩ (ih h2')

theorem Entries.head {ks : List K} {ts : List E} {vs : List V} (h : Entries R ks ts vs) :
    (ks = [] ∧ ts = [] ∧ vs = []) ∨ ∃ k t v, ks.head? = some k ∧ ts.head? = some t ∧
      vs.head? = some v ∧ R k t v := by
  cases h with
  | nil => exact .inl ⟨rfl, rfl, rfl⟩
  | new h _ => exact .inr ⟨_, _, _, rfl, rfl, rfl, h⟩
  | dup h _ => exact .inr ⟨_, _, _, rfl, rfl, rfl, h⟩

/-- Where an entry comes from, and the next one. -/
theorem Entries.at {ks : List K} {ts : List E} {vs : List V} (h : Entries R ks ts vs) {i : Nat}
    {t : E} (ht : ts[i]? = some t) :
    ∃ j k v, ks[j]? = some k ∧ vs[i]? = some v ∧ R k t v ∧
      ((ts[i + 1]? = none ∧ ks[j + 1]? = none) ∨
       ∃ t' v', ts[i + 1]? = some t' ∧ vs[i + 1]? = some v' ∧
        (R k t' v' ∨ ∃ k', ks[j + 1]? = some k' ∧ R k' t' v')) := by
  induction h generalizing i with
  | nil => simp at ht
  | @new k ks t0 ts v vs h1 hs ih =>
    cases i with
    | zero =>
      cases Option.some.inj ht
      refine ⟨0, k, v, rfl, rfl, h1, ?_⟩
      rcases hs.head with ⟨rfl, rfl, rfl⟩ | ⟨k', t', v', a, b, c, d⟩
      · exact .inl ⟨rfl, rfl⟩
      · rw [List.head?_eq_getElem?] at a b c
        exact .inr ⟨t', v', b, c, .inr ⟨k', a, d⟩⟩
    | succ i =>
      obtain ⟨j, k', v', a, b, c, d⟩ := ih (i := i) ht
      exact ⟨j + 1, k', v', a, b, c, d⟩
  | @dup k ks t0 ts v vs h1 hs ih =>
    cases i with
    | zero =>
      cases Option.some.inj ht
      refine ⟨0, k, v, rfl, rfl, h1, ?_⟩
      rcases hs.head with ⟨h, -, -⟩ | ⟨k', t', v', a, b, c, d⟩
      · cases h
      · cases Option.some.inj a
        rw [List.head?_eq_getElem?] at b c
        exact .inr ⟨t', v', b, c, .inl d⟩
    | succ i => exact ih (i := i) ht

theorem Entries.mem {ks : List K} {ts : List E} {vs : List V} (h : Entries R ks ts vs) :
    ∀ t ∈ ts, ∃ k ∈ ks, ∃ v, R k t v := by
  intro t ht
  obtain ⟨i, hi⟩ := List.mem_iff_getElem?.mp ht
  obtain ⟨j, k, v, a, -, c, -⟩ := h.at hi
  exact ⟨k, List.mem_of_getElem? a, v, c⟩

end

section
variable {K V : Type} {base : K → Schema.KeyframeBase ℝ} {R : K → Time ℝ → V → Prop}

theorem Entries.sorted (hR : ∀ k t v, R k t v → t.frame = (base k).time)
    {ks : List K} {ts : List (Time ℝ)} {vs : List V} (h : Entries R ks ts vs)
    (hs : InOrder base ks) : SortedTimes ts := by
  unfold SortedTimes
  induction h with
  | nil => exact .nil
  | new h1 hf ih =>
    unfold InOrder at hs
    rw [List.pairwise_cons] at hs
    refine List.pairwise_cons.mpr ⟨fun t ht => ?_, ih hs.2⟩
    obtain ⟨k', hk', v', hr⟩ := hf.mem t ht
    rw [hR _ _ _ h1, hR _ _ _ hr, real_le, decide_eq_true_eq]
    exact (hs.1 k' hk').le
  | dup h1 hf ih =>
    refine List.pairwise_cons.mpr ⟨fun t ht => ?_, ih hs⟩
    obtain ⟨k', hk', v', hr⟩ := hf.mem t ht
    rw [hR _ _ _ h1, hR _ _ _ hr, real_le, decide_eq_true_eq]
    unfold InOrder at hs
    rw [List.pairwise_cons] at hs
    rcases List.mem_cons.mp hk' with rfl | hk'
    · exact le_refl _
    · exact (hs.1 k' hk').le

theorem real_clamp01 (x : ℝ) : clamp x (lit 0) (lit 1) = max 0 (min x 1) := by
  unfold clamp
  simp only [real_lt, real_lit]
  push_cast
  rcases lt_trichotomy x 0 with h | h | h
  · simp [h, max_eq_left (min_le_of_left_le h.le)]
  · simp [h]
  · rcases lt_or_ge 1 x with h' | h'
    · simp [h', not_lt.mpr h.le, min_eq_right h'.le]
    · simp [not_lt.mpr h', not_lt.mpr h.le, min_eq_left h', h.le]

/-- What an imported property evaluates to. -/
theorem Entries.evaluate [Tween ℝ V] (hR : ∀ k t v, R k t v → t.frame = (base k).time)
    {ks : List K} {ts : List (Time ℝ)} {vs : List V} (h : Entries R ks ts vs)
    (hs : InOrder base ks) (hne : ks ≠ []) (frame : ℝ) (d : V) :
    (∃ k t v v' w, ks.head? = some k ∧ R k t v ∧ frame < (base k).time ∧ w ≤ 0 ∧
      (⟨ts, vs⟩ : Animated ℝ V).evaluateOr frame d = Tween.tween v v' w t.easing) ∨
    (∃ k t v w, ks.getLast? = some k ∧ R k t v ∧ (base k).time ≤ frame ∧
      (⟨ts, vs⟩ : Animated ℝ V).evaluateOr frame d = Tween.tween v v w t.easing) ∨
    ∃ (j : Nat) (k k' : K) (t t' : Time ℝ) (v v' : V), ks[j]? = some k ∧ ks[j + 1]? = some k' ∧
      R k t v ∧ R k' t' v' ∧ (base k).time ≤ frame ∧ frame < (base k').time ∧
      (⟨ts, vs⟩ : Animated ℝ V).evaluateOr frame d =
        Tween.tween v v' (mixWeight t t' frame) t.easing := by
  have hst := h.sorted hR hs
  have htne : ts ≠ [] := by
    rcases h.head with ⟨h, -, -⟩ | ⟨k, t, v, -, b, -, -⟩
    · exact absurd h hne
    · rintro rfl; cases b
  obtain ⟨hl, hle, hgt⟩ := search_spec hst htne frame
  generalize hi : Time.search ts frame = i at hl hle hgt
  have hti : ts[i]? = some ts[i] := List.getElem?_eq_getElem hl
  obtain ⟨j, k, v, hj, hv, hr, hn⟩ := h.at hti
  have hev : ∀ i' t' v', i' = min (i + 1) (ts.length - 1) → ts[i']? = some t' →
      vs[i']? = some v' → (⟨ts, vs⟩ : Animated ℝ V).evaluateOr frame d =
        Tween.tween v v' (mixWeight ts[i] t' frame) ts[i].easing := by
    intro i' t' v' hi' ht' hv'
    unfold Animated.evaluateOr
    rw [evaluateInner_eq (⟨ts, vs⟩ : Animated ℝ V) frame i i' ts[i] t' (by simp only [hi]; omega)
      hi' hti ht']
    simp only [hv, hv']
    rfl
  rcases lt_or_ge frame ts[i].frame with hlt | hge
  · -- before the first keyframe
    have hi0 : i = 0 := by
      rcases hle with h0 | h0
      · exact h0
      · have := h0 hl
        simp only [real_lt, decide_eq_false_iff_not] at this
        exact absurd hlt this
    subst hi0
    left
    have hex : ∃ i' t' v', i' = min (0 + 1) (ts.length - 1) ∧ ts[i']? = some t' ∧
        vs[i']? = some v' ∧ ts[0].frame ≤ t'.frame := by
      rcases hn with ⟨hn, -⟩ | ⟨t', v', ht', hv', -⟩
      · have : ts.length ≤ 1 := by simpa using hn
        exact ⟨0, _, v, by omega, hti, hv, le_refl _⟩
      · have hlen := (List.getElem?_eq_some_iff.mp ht').1
        refine ⟨1, t', v', by omega, ht', hv', ?_⟩
        obtain ⟨h1, rfl⟩ := List.getElem?_eq_some_iff.mp ht'
        have := (List.pairwise_iff_getElem.mp hst) 0 1 hl h1 (by omega)
        simpa using this
    obtain ⟨i', t', v', hi', ht', hv', hle'⟩ := hex
    rcases h.head with ⟨h, -, -⟩ | ⟨k0, t0, v0, a, b, c, hr0⟩
    · exact absurd h hne
    rw [List.head?_eq_getElem?] at b c
    rw [hti] at b; rw [hv] at c
    cases Option.some.inj b; cases Option.some.inj c
    refine ⟨k0, ts[0], v, v', _, a, hr0, by rw [← hR _ _ _ hr0]; exact hlt, ?_,
      hev i' t' v' hi' ht' hv'⟩
    unfold mixWeight
    split
    · simp
    · rw [real_clamp01]
      have : (frame -. ts[0].frame) /. (t'.frame -. ts[0].frame) ≤ 0 := by
        simp only [real_sub, real_div]
        exact div_nonpos_of_nonpos_of_nonneg (by linarith) (by linarith)
      exact max_le (le_refl _) (le_trans (min_le_left _ _) this)
  · rcases hn with ⟨hn, hjn⟩ | ⟨t', v', ht', hv', hor⟩
    · -- the last keyframe
      right; left
      have hlen : ts.length ≤ i + 1 := by simpa using hn
      refine ⟨k, ts[i], v, _, ?_, hr, by rw [← hR _ _ _ hr]; exact hge,
        hev i ts[i] v (by omega) hti hv⟩
      have hj1 := (List.getElem?_eq_some_iff.mp hj).1
      have : ks.length ≤ j + 1 := by simpa using hjn
      rw [List.getLast?_eq_getElem?, show ks.length - 1 = j by omega]
      exact hj
    · have hlen := (List.getElem?_eq_some_iff.mp ht').1
      obtain ⟨h1, ht''⟩ := List.getElem?_eq_some_iff.mp ht'
      have hft : frame < t'.frame := by
        have := hgt (i + 1) h1 (by omega)
        rw [ht''] at this
        simpa using this
      rcases hor with hrk | ⟨k', hk', hrk⟩
      · exfalso
        rw [hR _ _ _ hrk, ← hR _ _ _ hr] at hft
        linarith
      · right; right
        exact ⟨j, k, k', ts[i], t', v, v', hj, hk', hr, hrk, by rw [← hR _ _ _ hr]; exact hge,
          by rw [← hR _ _ _ hrk]; exact hft, hev (i + 1) t' v' (by omega) ht' hv'⟩

end

/-- The progress of a tween is on the easing curve. -/
theorem progress_curve [Kurbo ℝ] (hk : ExactSolver) (e : Easing ℝ) {w : ℝ} (h0 : 0 ≤ w) (h1 : w < 1)
    (ho : 0 ≤ e.o.x ∧ e.o.x ≤ 1) (hi : 0 ≤ e.i.x ∧ e.i.x ≤ 1) :
    OnEasingCurve e.o e.i w (progress w e) := by
  unfold progress
  rcases eq_or_lt_of_le h0 with rfl | hpos
  · rw [if_pos (le_refl _)]
    exact ⟨0, bez_zero _ _, (bez_zero _ _).symm, by norm_num, by norm_num, by norm_num⟩
  rw [if_neg (not_le.mpr hpos), if_neg (not_le.mpr h1)]
  have hu : (⟨⟨e.o.x, 0⟩, ⟨e.i.x, 0⟩⟩ : Easing ℝ).InUnitSquare :=
    ⟨ho, by norm_num, hi, by norm_num⟩
  have he : easeParam w e = easeParam w (⟨⟨e.o.x, 0⟩, ⟨e.i.x, 0⟩⟩ : Easing ℝ) := rfl
  obtain ⟨a, b, c⟩ := easeParam_ext hk hu hpos h1
  rw [← he] at a b c
  refine ⟨easeParam w e, a, rfl, b, c, fun l r => ?_⟩
  have := (easeParam_unit hk hu l r).2
  rw [← he] at this
  exact this

/-- The mix of two scalars between two keyframes. -/
theorem tween_shown [Kurbo ℝ] (hk : ExactSolver) {b0 b1 : Schema.KeyframeBase ℝ} {t t' : Time ℝ}
    {frame : ℝ} (ht : t.frame = b0.time) (ht' : t'.frame = b1.time)
    (hh : t.hold = true ↔ b0.hold = some .true) (hle : b0.time ≤ frame) (hlt : frame < b1.time)
    {c : Nat} (he : EasingHandleOf c 0 b0.outTangent t.easing.o ∧
      EasingHandleOf c 1 b0.inTangent t.easing.i) (v0 v1 : ℝ) :
    (b0.hold = some .true → tweenScalar v0 v1 (mixWeight t t' frame) t.easing = v0) ∧
    (b0.hold ≠ some .true → ∃ o i e, EasingHandleOf c 0 b0.outTangent o ∧
      EasingHandleOf c 1 b0.inTangent i ∧
      tweenScalar v0 v1 (mixWeight t t' frame) t.easing = v0 + (v1 - v0) * e ∧
      (0 ≤ o.x ∧ o.x ≤ 1 → 0 ≤ i.x ∧ i.x ≤ 1 →
        OnEasingCurve o i ((frame - b0.time) / (b1.time - b0.time)) e)) := by
  constructor
  · intro h
    rw [tween_progress]
    have : mixWeight t t' frame = 0 := by unfold mixWeight; simp [hh.mpr h]
    rw [this]
    unfold progress; simp
  · intro h
    have hn : t.hold = false := by
      cases hc : t.hold
      · rfl
      · exact absurd (hh.mp hc) h
    have hpos : 0 < b1.time - b0.time := by linarith
    have w0 : 0 ≤ (frame - b0.time) / (b1.time - b0.time) := div_nonneg (by linarith) hpos.le
    have w1 : (frame - b0.time) / (b1.time - b0.time) < 1 := by
      rw [div_lt_one hpos]; linarith
    have hw : mixWeight t t' frame = (frame - b0.time) / (b1.time - b0.time) := by
      unfold mixWeight clamp
      simp only [hn, ht, ht', real_sub, real_div, real_lit, real_lt]
      push_cast
      simp [not_lt.mpr w0, not_lt.mpr w1.le]
    refine ⟨t.easing.o, t.easing.i, progress (mixWeight t t' frame) t.easing, he.1, he.2,
      tween_progress _ _ _ _, fun ho hi => ?_⟩
    rw [hw]
    exact progress_curve hk _ w0 w1 ho hi

theorem tween_self [Kurbo ℝ] (v w : ℝ) (e : Easing ℝ) : tweenScalar v v w e = v := by
  rw [tween_progress]; ring

end Velato

namespace Velato
open FloatOps (lit)

/-- The entry `t` has the time, hold flag and, for coordinate `c`, the handles of a keyframe. -/
def EntryFor (c : Nat) (b : Schema.KeyframeBase ℝ) (t : Time ℝ) : Prop :=
  TimeOf b t ∧ EasingHandleOf c 0 b.outTangent t.easing.o ∧ EasingHandleOf c 1 b.inTangent t.easing.i

/-- A coordinate of an imported property shows what the document says. -/
theorem Entries.shown [Kurbo ℝ] (hk : ExactSolver) {K V : Type} [Tween ℝ V]
    {base : K → Schema.KeyframeBase ℝ} {R : K → Time ℝ → V → Prop} {π : V → ℝ} {x : K → ℝ} {c : Nat}
    (hπ : ∀ v v' w e, π (Tween.tween v v' w e) = tweenScalar (π v) (π v') w e)
    (hR : ∀ k t v, R k t v → EntryFor c (base k) t ∧ π v = x k)
    {ks : List K} {ts : List (Time ℝ)} {vs : List V} (h : Entries R ks ts vs)
    (hs : InOrder base ks) (hne : ks ≠ []) (frame : ℝ) (d : V) :
    Shown c (ks.map fun k => (base k, x k)) frame
      (π ((⟨ts, vs⟩ : Animated ℝ V).evaluateOr frame d)) := by
  rcases h.evaluate (fun k t v hr => (hR k t v hr).1.1.1) hs hne frame d with
    ⟨k, t, v, v', w, h1, hr, hlt, hw, he⟩ | ⟨k, t, v, w, h1, hr, hle, he⟩ |
    ⟨j, k, k', t, t', v, v', h1, h2, hr, hr', hle, hlt, he⟩
  · left
    refine ⟨base k, x k, by rw [List.head?_map, h1]; rfl, hlt, ?_⟩
    rw [he, hπ, tweenScalar_real_lo _ _ _ _ hw, (hR k t v hr).2]
  · right; left
    refine ⟨base k, x k, by rw [List.getLast?_map, h1]; rfl, hle, ?_⟩
    rw [he, hπ, tween_self, (hR k t v hr).2]
  · right; right
    obtain ⟨⟨⟨ht, hh⟩, hc⟩, hx⟩ := hR k t v hr
    obtain ⟨⟨⟨ht', -⟩, -⟩, hx'⟩ := hR k' t' v' hr'
    have := tween_shown hk ht ht' hh hle hlt hc (x k) (x k')
    refine ⟨j, base k, x k, base k', x k', by rw [List.getElem?_map, h1]; rfl,
      by rw [List.getElem?_map, h2]; rfl, hle, hlt, ?_⟩
    rw [he, hπ, hx, hx']
    exact this

/-- A scalar keyframe: handles of one number. -/
theorem entryFor_of_eased {b : Schema.KeyframeBase ℝ} {t : Time ℝ} (h : EasedTimeOf b t) :
    EntryFor 0 b t := by
  obtain ⟨ht, hi, ho⟩ := h
  have hc : ∀ {cmp : Schema.KeyframeComponent ℝ} {x : ℝ}, ComponentOf cmp x → CoordOf 0 cmp x := by
    intro cmp x hc
    rcases hc with rfl | rfl
    · rfl
    · exact .inl rfl
  refine ⟨ht, ?_, ?_⟩
  · unfold Time.easing
    cases hb : b.outTangent <;> cases he : t.outTangent <;> rw [hb, he] at ho
    · simp [EasingHandleOf]
    · exact ho.elim
    · exact ho.elim
    · exact ⟨hc ho.1, hc ho.2⟩
  · unfold Time.easing
    cases hb : b.inTangent <;> cases he : t.inTangent <;> rw [hb, he] at hi
    · simp [EasingHandleOf]
    · exact hi.elim
    · exact hi.elim
    · exact ⟨hc hi.1, hc hi.2⟩

/-- A handle that is the same for all coordinates. -/
theorem SameForAll.coord {F : Type} {h : Schema.KeyframeBezierHandle F} (hs : SameForAll h) :
    (∃ e, HandleAxis 0 (some h) e) ∧ ∀ c e, HandleAxis c (some h) e → ∀ c' d,
      EasingHandleOf c' d (some h) e := by
  obtain ⟨e0, hx, hy⟩ := hs
  have key : ∀ {cmp : Schema.KeyframeComponent F} {y : F},
      (match cmp with
        | .singleValue x => x = y
        | .arrayOfValues xs => xs ≠ [] ∧ ∀ x ∈ xs, x = y) →
      cmp.axis 0 = some y ∧ ∀ c x, cmp.axis c = some x → ∀ c', CoordOf c' cmp x := by
    intro cmp y hc
    cases cmp with
    | singleValue x =>
      subst hc
      exact ⟨rfl, fun c x' h c' => (Option.some.inj h).symm⟩
    | arrayOfValues xs =>
      obtain ⟨hne, hall⟩ := hc
      refine ⟨?_, fun c x h c' => ?_⟩
      · cases xs with
        | nil => exact absurd rfl hne
        | cons a l => show some a = some y; rw [hall a (by simp)]
      · have hxy : x = y := hall x (List.mem_of_getElem? h)
        subst hxy
        rcases lt_or_ge c' xs.length with hl | hl
        · left
          rw [List.getElem?_eq_getElem hl, hall _ (List.getElem_mem hl)]
        · right
          refine ⟨hl, ?_⟩
          rw [List.getLast?_eq_some_getLast hne, hall _ (List.getLast_mem hne)]
  refine ⟨⟨e0, h, rfl, (key hx).1, (key hy).1⟩, ?_⟩
  rintro c e ⟨h', he, h1, h2⟩ c' d
  cases Option.some.inj he
  exact ⟨(key hx).2 c _ h1 c', (key hy).2 c _ h2 c'⟩

theorem OneEasing.entry {b : Schema.KeyframeBase ℝ} (hb : OneEasing b) {c : Nat} {t : Time ℝ} :
    (PlainTimeOf b t → EntryFor c b t) ∧ (∀ a, AxisTimeOf a b t → EntryFor c b t) := by
  rcases hb with ⟨hi, ho⟩ | ⟨i, o, hi, ho, si, so⟩
  · constructor
    · rintro ⟨ht, ti, to_, -⟩
      refine ⟨ht, ?_, ?_⟩
      · unfold Time.easing; rw [ho, to_]; simp [EasingHandleOf]
      · unfold Time.easing; rw [hi, ti]; simp [EasingHandleOf]
    · rintro a ⟨ht, i, o, ⟨h, hh, -⟩, -⟩
      rw [hi] at hh; cases hh
  · constructor
    · rintro ⟨-, -, -, hn⟩
      rw [hi, ho] at hn
      exact absurd ⟨si.coord.1, so.coord.1⟩ hn
    · rintro a ⟨ht, ei, eo, ai, ao, ti, to_⟩
      rw [hi] at ai; rw [ho] at ao
      refine ⟨ht, ?_, ?_⟩
      · unfold Time.easing; rw [ho, to_]; exact so.coord.2 a eo ao c 0
      · unfold Time.easing; rw [hi, ti]; exact si.coord.2 a ei ai c 1

theorem Entries.of_keyframes {K V : Type} {base : K → Schema.KeyframeBase ℝ} {R : K → V → Prop}
    {P : K → Prop} {ks : List K} {ts : List (Time ℝ)} {vs : List V}
    (h : FromKeyframes base R ks ts vs) (hb : ∀ k ∈ ks, OneEasing (base k)) (hp : ∀ k ∈ ks, P k) :
    Entries (fun k t v => (∀ c, EntryFor c (base k) t) ∧ P k ∧ R k v) ks ts vs := by
  induction h with
  | nil => exact .nil
  | plain h1 hv _ ih =>
    exact .new ⟨fun c => (hb _ (by simp)).entry.1 h1, hp _ (by simp), hv⟩
      (ih (fun k hk => hb k (by simp [hk])) fun k hk => hp k (by simp [hk]))
  | once h1 _ hv _ ih =>
    exact .new ⟨fun c => (hb _ (by simp)).entry.2 0 h1, hp _ (by simp), hv⟩
      (ih (fun k hk => hb k (by simp [hk])) fun k hk => hp k (by simp [hk]))
  | twice h1 h2 _ hv hv' _ ih =>
    exact .dup ⟨fun c => (hb _ (by simp)).entry.2 0 h1, hp _ (by simp), hv⟩
      (.new ⟨fun c => (hb _ (by simp)).entry.2 1 h2, hp _ (by simp), hv'⟩
        (ih (fun k hk => hb k (by simp [hk])) fun k hk => hp k (by simp [hk])))

theorem pointOf_getD {xs : List ℝ} {v : P2 ℝ} (hl : 2 ≤ xs.length) (h : PointOf xs v) :
    v.x = xs.getD 0 0 ∧ v.y = xs.getD 1 0 := by
  rcases h with ⟨x, y, rest, rfl, rfl⟩ | ⟨h, -⟩
  · exact ⟨rfl, rfl⟩
  · omega

theorem colorOf_getD {xs : List ℝ} {v : Color ℝ} (hl : 3 ≤ xs.length) (h : ColorOf xs v) :
    v.r = xs.getD 0 0 ∧ v.g = xs.getD 1 0 ∧ v.b = xs.getD 2 0 ∧ v.a = 1 := by
  rcases h with ⟨r, g, b, rest, rfl, rfl⟩ | ⟨h, -⟩
  · exact ⟨rfl, rfl, rfl, by simp⟩
  · omega

end Velato
