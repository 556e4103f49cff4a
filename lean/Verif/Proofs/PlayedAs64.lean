import Verif.Proofs.Timeline

/-!
# With which handles vectors, positions and colours are played, in double precision: lemmas
-/

namespace Velato
open FloatOps (lit)
open F64

set_option exponentiation.threshold 2000

theorem PlayedAs.entry64 {b b' : Schema.KeyframeBase F64} (h : PlayedAs b b') {t : Time F64} :
    (PlainTimeOf b t → EntryFor64 0 b' t) ∧
    (AxisTimeOf 0 b t → ¬ (TwoAxes b.inTangent ∧ TwoAxes b.outTangent) → EntryFor64 0 b' t) ∧
    (AxisTimeOf 1 b t → TwoAxes b.inTangent ∧ TwoAxes b.outTangent → EntryFor64 0 b' t) := by
  obtain ⟨e1, e2, h⟩ := h
  have axis : ∀ c, AxisTimeOf c b t → (c = 0 ∧ ¬ (TwoAxes b.inTangent ∧ TwoAxes b.outTangent) ∨
      c = 1 ∧ TwoAxes b.inTangent ∧ TwoAxes b.outTangent) → EntryFor64 0 b' t := by
    rintro c ⟨⟨a1, a2⟩, i, o, hi, ho, ti, to_⟩ hc
    rcases h with ⟨hn, -⟩ | ⟨c', i', o', hc', hi', ho', bi, bo⟩
    · exfalso
      apply hn
      rcases hc with ⟨rfl, -⟩ | ⟨rfl, -⟩
      · exact ⟨⟨i, hi⟩, ⟨o, ho⟩⟩
      · exact ⟨hi.first, ho.first⟩
    · have hcc : c' = c := by
        rcases hc with ⟨rfl, hn⟩ | ⟨rfl, hy⟩ <;> rcases hc' with ⟨rfl, hn'⟩ | ⟨rfl, hy'⟩
        · rfl
        · exact absurd hy' hn
        · exact absurd hy hn'
        · rfl
      subst hcc
      cases hi.unique hi'
      cases ho.unique ho'
      refine ⟨⟨a1.trans e1.symm, by rw [e2]; exact a2⟩, ?_, ?_⟩
      · unfold Time.easing; rw [bo, to_]; exact ⟨rfl, rfl⟩
      · unfold Time.easing; rw [bi, ti]; exact ⟨rfl, rfl⟩
  refine ⟨?_, fun ht hn => axis 0 ht (.inl ⟨rfl, hn⟩), fun ht hn => axis 1 ht (.inr ⟨rfl, hn⟩)⟩
  rintro ⟨⟨a1, a2⟩, ti, to_, hn⟩
  rcases h with ⟨-, bi, bo⟩ | ⟨c, i, o, hc, hi, ho, -⟩
  · refine ⟨⟨a1.trans e1.symm, by rw [e2]; exact a2⟩, ?_, ?_⟩
    · unfold Time.easing; rw [bo, to_]; rfl
    · unfold Time.easing; rw [bi, ti]; rfl
  · exfalso
    apply hn
    rcases hc with ⟨rfl, -⟩ | ⟨rfl, -⟩
    · exact ⟨⟨i, hi⟩, ⟨o, ho⟩⟩
    · exact ⟨hi.first, ho.first⟩

theorem Entries₂.of_keyframes64 {K V : Type} {base : K → Schema.KeyframeBase F64} {R : K → V → Prop} {P : K → Prop}
    {p : K → Schema.KeyframeBase F64} (hb : ∀ k, PlayedAs (base k) (p k)) {ks : List K} {ts : List (Time F64)} {vs : List V}
    (h : FromKeyframes base R ks ts vs) (hp : ∀ k ∈ ks, P k) :
    Entries₂ (fun k t v => t.frame = (p k).time ∧ P k ∧ R k v)
      (fun k t v => (t.frame = (p k).time ∧ P k ∧ R k v) ∧ EntryFor64 0 (p k) t) ks ts vs := by
  have ht : ∀ k, (base k).time = (p k).time := fun k => (hb k).1.symm
  induction h with
  | nil => exact .nil
  | plain h1 hv _ ih =>
    exact .new ⟨⟨h1.1.1.trans (ht _), hp _ (by simp), hv⟩, (hb _).entry64.1 h1⟩ (ih fun k hk => hp k (by simp [hk]))
  | once h1 hn hv _ ih =>
    exact .new ⟨⟨h1.1.1.trans (ht _), hp _ (by simp), hv⟩, (hb _).entry64.2.1 h1 hn⟩ (ih fun k hk => hp k (by simp [hk]))
  | twice h1 h2 hn hv hv' _ ih =>
    exact .dup ⟨h1.1.1.trans (ht _), hp _ (by simp), hv⟩
      (.new ⟨⟨h2.1.1.trans (ht _), hp _ (by simp), hv'⟩, (hb _).entry64.2.2 h2 hn⟩ (ih fun k hk => hp k (by simp [hk])))

/-- The handles that are used are among the given ones. -/
theorem HandleAxis.unit {c : Nat} {b : Schema.KeyframeBase F64} {h : Option (Schema.KeyframeBezierHandle F64)}
    {e : EasingHandle F64} (he : HandleAxis c h e) (hm : h = b.outTangent ∨ h = b.inTangent) (hb : b.HandlesInUnitSquare) :
    e.x.Between 0 1 ∧ e.y.Between 0 1 := by
  obtain ⟨h', rfl, hx, hy⟩ := he
  have key : ∀ {cmp : Schema.KeyframeComponent F64} {x : F64}, cmp.axis c = some x → x ∈ cmp.numbers := by
    intro cmp x hx
    cases cmp with
    | singleValue y => rw [← Option.some.inj hx]; exact List.mem_singleton.mpr rfl
    | arrayOfValues ys => exact List.mem_of_getElem? hx
  have := hb h' (hm.imp Eq.symm Eq.symm)
  exact ⟨this.1 _ (key hx), this.2 _ (key hy)⟩

/-- Ordinary keyframes are played as ordinary keyframes. -/
theorem OrdinaryTimes.played {K : Type} {base p : K → Schema.KeyframeBase F64} (hb : ∀ k, PlayedAs (base k) (p k))
    {ks : List K} (h : OrdinaryTimes base ks) : OrdinaryTimes p ks := by
  have ht : ∀ k, (p k).time = (base k).time := fun k => (hb k).1
  refine ⟨by simpa only [ht] using h.order, by simpa only [ht] using h.times, fun k hk => ?_⟩
  have hu := h.handles k hk
  rcases (hb k).2.2 with ⟨-, bi, bo⟩ | ⟨c, i, o, -, hi, ho, bi, bo⟩
  · rintro h' (e | e)
    · rw [bo] at e; cases e
    · rw [bi] at e; cases e
  · have h1 := hi.unit (.inr rfl) hu
    have h2 := ho.unit (.inl rfl) hu
    rintro h' (e | e)
    · rw [bo] at e
      cases e
      simpa [Schema.KeyframeComponent.numbers] using h2
    · rw [bi] at e
      cases e
      simpa [Schema.KeyframeComponent.numbers] using h1

end Velato
