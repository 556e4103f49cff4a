import Verif.Spec.PlayedAs
import Verif.Proofs.Playback

/-!
# Evaluation of imported properties with any handles: helper lemmas
-/

namespace Velato
open FloatOps (lit)

theorem HandleAxis.unique {F : Type} {c : Nat} {h : Option (Schema.KeyframeBezierHandle F)} {e e' : EasingHandle F}
    (h1 : HandleAxis c h e) (h2 : HandleAxis c h e') : e = e' := by
  obtain ⟨a, ha, x1, y1⟩ := h1
  obtain ⟨b, hb, x2, y2⟩ := h2
  cases Option.some.inj (ha.symm.trans hb)
  rcases e with ⟨p, q⟩
  rcases e' with ⟨p', q'⟩
  cases Option.some.inj (x1.symm.trans x2)
  cases Option.some.inj (y1.symm.trans y2)
  rfl

/-- A handle for two coordinates has the first one. -/
theorem HandleAxis.first {F : Type} {h : Option (Schema.KeyframeBezierHandle F)} {e : EasingHandle F}
    (he : HandleAxis 1 h e) : ∃ e, HandleAxis 0 h e := by
  obtain ⟨a, ha, x1, y1⟩ := he
  have key : ∀ {cmp : Schema.KeyframeComponent F} {x : F}, cmp.axis 1 = some x → ∃ y, cmp.axis 0 = some y := by
    intro cmp x hx
    match cmp, hx with
    | .singleValue y, _ => exact ⟨y, rfl⟩
    | .arrayOfValues (y :: _), _ => exact ⟨y, rfl⟩
  obtain ⟨x, hx⟩ := key x1
  obtain ⟨y, hy⟩ := key y1
  exact ⟨⟨x, y⟩, a, ha, hx, hy⟩

/-- Every keyframe contributes one or more entries, in order: the last one has `S`, those before it have `W`. -/
inductive Entries₂ {K E V : Type} (W S : K → E → V → Prop) : List K → List E → List V → Prop where
  | nil : Entries₂ W S [] [] []
  | new {k ks t ts v vs} (h : S k t v) (hs : Entries₂ W S ks ts vs) : Entries₂ W S (k :: ks) (t :: ts) (v :: vs)
  | dup {k ks t ts v vs} (h : W k t v) (hs : Entries₂ W S (k :: ks) ts vs) : Entries₂ W S (k :: ks) (t :: ts) (v :: vs)

section
variable {K E V : Type} {W S : K → E → V → Prop}

theorem Entries₂.weak (hS : ∀ k t v, S k t v → W k t v) {ks : List K} {ts : List E} {vs : List V}
    (h : Entries₂ W S ks ts vs) : Entries W ks ts vs := by
  induction h with
  | nil => exact .nil
  | new h _ ih => exact .new (hS _ _ _ h) ih
  | dup h _ ih => exact .dup h ih

/-- Entries all of which have `R`. -/
theorem Entries₂.of_entries {R : K → E → V → Prop} {ks : List K} {ts : List E} {vs : List V} (h : Entries R ks ts vs) :
    Entries₂ R R ks ts vs := by
  induction h with
  | nil => exact .nil
  | new h _ ih => exact .new h ih
  | dup h _ ih => exact .dup h ih

/-- Where an entry comes from, and the next one. -/
theorem Entries₂.at (hS : ∀ k t v, S k t v → W k t v) {ks : List K} {ts : List E} {vs : List V}
    (h : Entries₂ W S ks ts vs) {i : Nat} {t : E} (ht : ts[i]? = some t) :
    ∃ j k v, ks[j]? = some k ∧ vs[i]? = some v ∧ W k t v ∧
      ((ts[i + 1]? = none ∧ ks[j + 1]? = none ∧ S k t v) ∨
       ∃ t' v', ts[i + 1]? = some t' ∧ vs[i + 1]? = some v' ∧
        (W k t' v' ∨ ∃ k', ks[j + 1]? = some k' ∧ S k t v ∧ W k' t' v')) := by
  induction h generalizing i with
  | nil => simp at ht
  | @new k ks t0 ts v vs h1 hs ih =>
    cases i with
    | zero =>
      cases Option.some.inj ht
      refine ⟨0, k, v, rfl, rfl, hS _ _ _ h1, ?_⟩
      rcases (hs.weak hS).head with ⟨rfl, rfl, rfl⟩ | ⟨k', t', v', a, b, c, d⟩
      · exact .inl ⟨rfl, rfl, h1⟩
      · rw [List.head?_eq_getElem?] at a b c
        exact .inr ⟨t', v', b, c, .inr ⟨k', a, h1, d⟩⟩
    | succ i =>
      obtain ⟨j, k', v', a, b, c, d⟩ := ih (i := i) ht
      exact ⟨j + 1, k', v', a, b, c, d⟩
  | @dup k ks t0 ts v vs h1 hs ih =>
    cases i with
    | zero =>
      cases Option.some.inj ht
      refine ⟨0, k, v, rfl, rfl, h1, ?_⟩
      rcases (hs.weak hS).head with ⟨h, -, -⟩ | ⟨k', t', v', a, b, c, d⟩
      · cases h
      · cases Option.some.inj a
        rw [List.head?_eq_getElem?] at b c
        exact .inr ⟨t', v', b, c, .inl d⟩
    | succ i => exact ih (i := i) ht

end

section
variable {K V : Type} {base : K → Schema.KeyframeBase ℝ} {W S : K → Time ℝ → V → Prop}

/-- What an imported property evaluates to. -/
theorem Entries₂.evaluate [Tween ℝ V] (hS : ∀ k t v, S k t v → W k t v)
    (hW : ∀ k t v, W k t v → t.frame = (base k).time)
    {ks : List K} {ts : List (Time ℝ)} {vs : List V} (h : Entries₂ W S ks ts vs)
    (hs : InOrder base ks) (hne : ks ≠ []) (frame : ℝ) (d : V) :
    (∃ k t v v' w, ks.head? = some k ∧ W k t v ∧ frame < (base k).time ∧ w ≤ 0 ∧
      (⟨ts, vs⟩ : Animated ℝ V).evaluateOr frame d = Tween.tween v v' w t.easing) ∨
    (∃ k t v w, ks.getLast? = some k ∧ W k t v ∧ (base k).time ≤ frame ∧
      (⟨ts, vs⟩ : Animated ℝ V).evaluateOr frame d = Tween.tween v v w t.easing) ∨
    ∃ (j : Nat) (k k' : K) (t t' : Time ℝ) (v v' : V), ks[j]? = some k ∧ ks[j + 1]? = some k' ∧
      S k t v ∧ W k' t' v' ∧ (base k).time ≤ frame ∧ frame < (base k').time ∧
      (⟨ts, vs⟩ : Animated ℝ V).evaluateOr frame d =
        Tween.tween v v' (mixWeight t t' frame) t.easing := by
  have hw := h.weak hS
  have hst := hw.sorted hW hs
  have htne : ts ≠ [] := by
    rcases hw.head with ⟨h, -, -⟩ | ⟨k, t, v, -, b, -, -⟩
    · exact absurd h hne
    · rintro rfl; cases b
  obtain ⟨hl, hle, hgt⟩ := search_spec hst htne frame
  generalize hi : Time.search ts frame = i at hl hle hgt
  have hti : ts[i]? = some ts[i] := List.getElem?_eq_getElem hl
  obtain ⟨j, k, v, hj, hv, hr, hn⟩ := h.at hS hti
  rcases hw.evaluate hW hs hne frame d with h1 | h1 | ⟨j', k₁, k₂, t₁, t₂, v₁, v₂, e1, e2, r1, r2, l1, l2, -⟩
  · exact .inl h1
  · exact .inr (.inl h1)
  · right; right
    have hge : ts[i].frame ≤ frame := by
      by_contra hlt
      push Not at hlt
      have hi0 : i = 0 := by
        rcases hle with h0 | h0
        · exact h0
        · have := h0 hl
          simp only [real_lt, decide_eq_false_iff_not] at this
          exact absurd hlt this
      subst hi0
      rcases hw.head with ⟨h, -, -⟩ | ⟨k0, t0, v0, a, b, -, hr0⟩
      · exact absurd h hne
      rw [List.head?_eq_getElem?, hti] at b
      cases Option.some.inj b
      have h01 := hW _ _ _ hr0
      have : (base k0).time ≤ (base k₁).time := by
        rw [List.head?_eq_getElem?] at a
        obtain ⟨p0, q0⟩ := List.getElem?_eq_some_iff.mp a
        obtain ⟨p1, q1⟩ := List.getElem?_eq_some_iff.mp e1
        rcases Nat.eq_zero_or_pos j' with rfl | hpos
        · rw [← q0, ← q1]
        · rw [← q0, ← q1]
          exact ((List.pairwise_iff_getElem.mp hs) 0 j' p0 p1 hpos).le
      linarith
    rcases hn with ⟨hn, hjn, -⟩ | ⟨t', v', ht', hv', hor⟩
    · exfalso
      have hj1 := (List.getElem?_eq_some_iff.mp hj).1
      have hlast : ks.length ≤ j + 1 := by simpa using hjn
      have hkf := hW _ _ _ hr
      obtain ⟨p0, q0⟩ := List.getElem?_eq_some_iff.mp hj
      obtain ⟨p2, q2⟩ := List.getElem?_eq_some_iff.mp e2
      have : (base k₂).time ≤ (base k).time := by
        rw [← q0, ← q2]
        rcases Nat.lt_or_ge (j' + 1) j with hlt | hge'
        · exact ((List.pairwise_iff_getElem.mp hs) (j' + 1) j p2 p0 hlt).le
        · have : j' + 1 = j := by omega
          simp only [this, le_refl]
      linarith
    · obtain ⟨h1, ht''⟩ := List.getElem?_eq_some_iff.mp ht'
      have hft : frame < t'.frame := by
        have := hgt (i + 1) h1 (by omega)
        rw [ht''] at this
        simpa using this
      rcases hor with hrk | ⟨k', hk', hsk, hrk⟩
      · exfalso
        rw [hW _ _ _ hrk, ← hW _ _ _ hr] at hft
        linarith
      · refine ⟨j, k, k', ts[i], t', v, v', hj, hk', hsk, hrk, by rw [← hW _ _ _ hr]; exact hge,
          by rw [← hW _ _ _ hrk]; exact hft, ?_⟩
        have hi' : i + 1 = min (i + 1) (ts.length - 1) := by omega
        unfold Animated.evaluateOr
        rw [evaluateInner_eq (⟨ts, vs⟩ : Animated ℝ V) frame i (i + 1) ts[i] t' (by simp only [hi]; omega) hi' hti ht']
        simp only [hv, hv']
        rfl

/-- A coordinate of an imported property shows what keyframes with the bases `p` say. -/
theorem Entries₂.shown [Kurbo ℝ] (hk : ExactSolver) [Tween ℝ V] {p : K → Schema.KeyframeBase ℝ} {π : V → ℝ} {x : K → ℝ}
    (hπ : ∀ v v' w e, π (Tween.tween v v' w e) = tweenScalar (π v) (π v') w e)
    (hS : ∀ k t v, S k t v → W k t v) (hW : ∀ k t v, W k t v → t.frame = (base k).time ∧ π v = x k)
    (hp : ∀ k, (p k).time = (base k).time) (hE : ∀ k t v, S k t v → EntryFor 0 (p k) t)
    {ks : List K} {ts : List (Time ℝ)} {vs : List V} (h : Entries₂ W S ks ts vs)
    (hs : InOrder base ks) (hne : ks ≠ []) (frame : ℝ) (d : V) :
    Shown 0 (ks.map fun k => (p k, x k)) frame (π ((⟨ts, vs⟩ : Animated ℝ V).evaluateOr frame d)) := by
  rcases h.evaluate hS (fun k t v hr => (hW k t v hr).1) hs hne frame d with
    ⟨k, t, v, v', w, h1, hr, hlt, hw, he⟩ | ⟨k, t, v, w, h1, hr, hle, he⟩ |
    ⟨j, k, k', t, t', v, v', h1, h2, hr, hr', hle, hlt, he⟩
  · left
    refine ⟨p k, x k, by rw [List.head?_map, h1]; rfl, by rw [hp]; exact hlt, ?_⟩
    rw [he, hπ, tweenScalar_real_lo _ _ _ _ hw, (hW k t v hr).2]
  · right; left
    refine ⟨p k, x k, by rw [List.getLast?_map, h1]; rfl, by rw [hp]; exact hle, ?_⟩
    rw [he, hπ, tween_self, (hW k t v hr).2]
  · right; right
    obtain ⟨⟨ht, hh⟩, hc⟩ := hE k t v hr
    have hx := (hW k t v (hS _ _ _ hr)).2
    obtain ⟨ht', hx'⟩ := hW k' t' v' hr'
    rw [← hp] at ht' hle hlt
    have := tween_shown hk ht ht' hh hle hlt hc (x k) (x k')
    refine ⟨j, p k, x k, p k', x k', by rw [List.getElem?_map, h1]; rfl,
      by rw [List.getElem?_map, h2]; rfl, hle, hlt, ?_⟩
    rw [he, hπ, hx, hx']
    exact this

end

theorem PlayedAs.entry {b b' : Schema.KeyframeBase ℝ} (h : PlayedAs b b') {t : Time ℝ} :
    (PlainTimeOf b t → EntryFor 0 b' t) ∧
    (AxisTimeOf 0 b t → ¬ (TwoAxes b.inTangent ∧ TwoAxes b.outTangent) → EntryFor 0 b' t) ∧
    (AxisTimeOf 1 b t → TwoAxes b.inTangent ∧ TwoAxes b.outTangent → EntryFor 0 b' t) := by
  obtain ⟨e1, e2, h⟩ := h
  have axis : ∀ c, AxisTimeOf c b t → (c = 0 ∧ ¬ (TwoAxes b.inTangent ∧ TwoAxes b.outTangent) ∨
      c = 1 ∧ TwoAxes b.inTangent ∧ TwoAxes b.outTangent) → EntryFor 0 b' t := by
    rintro c ⟨⟨a1, a2⟩, i, o, hi, ho, ti, to_⟩ hc
    rcases h with ⟨hn, -⟩ | ⟨c', i', o', hc', hi', ho', bi, bo⟩
    · exfalso
      apply hn
      rcases hc with ⟨rfl, -⟩ | ⟨rfl, -⟩
      · exact ⟨⟨i, hi⟩, ⟨o, ho⟩⟩
      · exact ⟨hi.first, ho.first⟩
    · have hcc : c' = c := by
        rcases hc with ⟨rfl, hn⟩ | ⟨rfl, hy⟩ <;> rcases hc' with ⟨rfl, hn'⟩ | ⟨rfl, hy'⟩
        · rfl
        · exact absurd hy' hn
        · exact absurd hy hn'
        · rfl
      subst hcc
      cases hi.unique hi'
      cases ho.unique ho'
      refine ⟨⟨a1.trans e1.symm, by rw [e2]; exact a2⟩, ?_, ?_⟩
      · unfold Time.easing; rw [bo, to_]; exact ⟨rfl, rfl⟩
      · unfold Time.easing; rw [bi, ti]; exact ⟨rfl, rfl⟩
  refine ⟨?_, fun ht hn => axis 0 ht (.inl ⟨rfl, hn⟩), fun ht hn => axis 1 ht (.inr ⟨rfl, hn⟩)⟩
  rintro ⟨⟨a1, a2⟩, ti, to_, hn⟩
  rcases h with ⟨-, bi, bo⟩ | ⟨c, i, o, hc, hi, ho, -⟩
  · refine ⟨⟨a1.trans e1.symm, by rw [e2]; exact a2⟩, ?_, ?_⟩
    · unfold Time.easing; rw [bo, to_]; simp [EasingHandleOf]
    · unfold Time.easing; rw [bi, ti]; simp [EasingHandleOf]
  · exfalso
    apply hn
    rcases hc with ⟨rfl, -⟩ | ⟨rfl, -⟩
    · exact ⟨⟨i, hi⟩, ⟨o, ho⟩⟩
    · exact ⟨hi.first, ho.first⟩

theorem Entries₂.of_keyframes {K V : Type} {base : K → Schema.KeyframeBase ℝ} {R : K → V → Prop} {P : K → Prop}
    {p : K → Schema.KeyframeBase ℝ} (hb : ∀ k, PlayedAs (base k) (p k)) {ks : List K} {ts : List (Time ℝ)} {vs : List V}
    (h : FromKeyframes base R ks ts vs) (hp : ∀ k ∈ ks, P k) :
    Entries₂ (fun k t v => t.frame = (base k).time ∧ P k ∧ R k v)
      (fun k t v => (t.frame = (base k).time ∧ P k ∧ R k v) ∧ EntryFor 0 (p k) t) ks ts vs := by
  induction h with
  | nil => exact .nil
  | plain h1 hv _ ih =>
    exact .new ⟨⟨h1.1.1, hp _ (by simp), hv⟩, (hb _).entry.1 h1⟩ (ih fun k hk => hp k (by simp [hk]))
  | once h1 hn hv _ ih =>
    exact .new ⟨⟨h1.1.1, hp _ (by simp), hv⟩, (hb _).entry.2.1 h1 hn⟩ (ih fun k hk => hp k (by simp [hk]))
  | twice h1 h2 hn hv hv' _ ih =>
    exact .dup ⟨h1.1.1, hp _ (by simp), hv⟩
      (.new ⟨⟨h2.1.1, hp _ (by simp), hv'⟩, (hb _).entry.2.2 h2 hn⟩ (ih fun k hk => hp k (by simp [hk])))

end Velato
