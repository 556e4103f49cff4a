import Verif.Proofs.PlayedAs
import Verif.Spec.Timeline
import Verif.Proofs.Coordinates
import Verif.Proofs.Dimming
import Verif.Proofs.Playback
import Verif.Props.EasingAccuracy
import Verif.Props.KeyframesIEEE

/-!
# What an animated number is at every frame, in double precision: lemmas
-/

namespace Velato
open FloatOps (lit)
open F64

set_option exponentiation.threshold 2000

/-- What equals a finite number is finite. -/
theorem fin_of_beq {x y : F64} (h : (x ==. y) = true) (hy : y.isFin = true) : x.isFin = true := by
  obtain ⟨s, a, ha, rfl⟩ := isFin_iff.mp hy
  cases x <;> first | rfl | cases h

/-- A frame between finite ones is finite. -/
theorem fin_of_between {a b x : F64} (ha : a.isFin = true) (hb : b.isFin = true) (h0 : (a <=. x) = true)
    (h1 : (x <. b) = true) : x.isFin = true := by
  obtain ⟨s1, x1, e1, rfl⟩ := isFin_iff.mp ha
  obtain ⟨s2, x2, e2, rfl⟩ := isFin_iff.mp hb
  cases x with
  | fin s a h => rfl
  | nan => simp [FloatOps.lt, F64.lt] at h1
  | inf s => cases s <;> simp [FloatOps.le, FloatOps.lt, F64.le, F64.lt, F64.beq] at h0 h1

/-- The entry `t` has the time, hold flag and, for coordinate `c`, the handles of a keyframe. -/
def EntryFor64 (c : Nat) (b : Schema.KeyframeBase F64) (t : Time F64) : Prop :=
  TimeOf b t ∧ EasingHandleOf c (lit 0) b.outTangent t.easing.o ∧ EasingHandleOf c (lit 1) b.inTangent t.easing.i

/-- A keyframe of a number: handles of one number. -/
theorem entryFor64_of_eased {b : Schema.KeyframeBase F64} {t : Time F64} (h : EasedTimeOf b t) : EntryFor64 0 b t := by
  obtain ⟨ht, hi, ho⟩ := h
  have hc : ∀ {cmp : Schema.KeyframeComponent F64} {x : F64}, ComponentOf cmp x → CoordOf 0 cmp x := by
    intro cmp x hc
    rcases hc with rfl | rfl
    · rfl
    · exact .inl rfl
  refine ⟨ht, ?_, ?_⟩
  · unfold Time.easing
    cases hb : b.outTangent <;> cases he : t.outTangent <;> rw [hb, he] at ho
    · rfl
    · exact ho.elim
    · exact ho.elim
    · exact ⟨hc ho.1, hc ho.2⟩
  · unfold Time.easing
    cases hb : b.inTangent <;> cases he : t.inTangent <;> rw [hb, he] at hi
    · rfl
    · exact hi.elim
    · exact hi.elim
    · exact ⟨hc hi.1, hc hi.2⟩

theorem OneEasing.entry64 {b : Schema.KeyframeBase F64} (hb : OneEasing b) {c : Nat} {t : Time F64} :
    (PlainTimeOf b t → EntryFor64 c b t) ∧ (∀ a, AxisTimeOf a b t → EntryFor64 c b t) := by
  rcases hb with ⟨hi, ho⟩ | ⟨i, o, hi, ho, si, so⟩
  · constructor
    · rintro ⟨ht, ti, to_, -⟩
      refine ⟨ht, ?_, ?_⟩
      · unfold Time.easing; rw [ho, to_]; rfl
      · unfold Time.easing; rw [hi, ti]; rfl
    · rintro a ⟨ht, i, o, ⟨h, hh, -⟩, -⟩
      rw [hi] at hh; cases hh
  · constructor
    · rintro ⟨-, -, -, hn⟩
      rw [hi, ho] at hn
      exact absurd ⟨si.coord.1, so.coord.1⟩ hn
    · rintro a ⟨ht, ei, eo, ai, ao, ti, to_⟩
      rw [hi] at ai; rw [ho] at ao
      refine ⟨ht, ?_, ?_⟩
      · unfold Time.easing; rw [ho, to_]; exact so.coord.2 a eo ao c _
      · unfold Time.easing; rw [hi, ti]; exact si.coord.2 a ei ai c _

theorem Entries.of_keyframes64 {K V : Type} {base : K → Schema.KeyframeBase F64} {R : K → V → Prop}
    {P : K → Prop} {ks : List K} {ts : List (Time F64)} {vs : List V}
    (h : FromKeyframes base R ks ts vs) (hb : ∀ k ∈ ks, OneEasing (base k)) (hp : ∀ k ∈ ks, P k) :
    Entries (fun k t v => (∀ c, EntryFor64 c (base k) t) ∧ P k ∧ R k v) ks ts vs := by
  induction h with
  | nil => exact .nil
  | plain h1 hv _ ih =>
    exact .new ⟨fun c => (hb _ (by simp)).entry64.1 h1, hp _ (by simp), hv⟩
      (ih (fun k hk => hb k (by simp [hk])) fun k hk => hp k (by simp [hk]))
  | once h1 _ hv _ ih =>
    exact .new ⟨fun c => (hb _ (by simp)).entry64.2 0 h1, hp _ (by simp), hv⟩
      (ih (fun k hk => hb k (by simp [hk])) fun k hk => hp k (by simp [hk]))
  | twice h1 h2 _ hv hv' _ ih =>
    exact .dup ⟨fun c => (hb _ (by simp)).entry64.2 0 h1, hp _ (by simp), hv⟩
      (.new ⟨fun c => (hb _ (by simp)).entry64.2 1 h2, hp _ (by simp), hv'⟩
        (ih (fun k hk => hb k (by simp [hk])) fun k hk => hp k (by simp [hk])))

/-- A coordinate of a handle in the unit square. -/
theorem coordOf_unit {c : Nat} {cmp : Schema.KeyframeComponent F64} {x : F64} (h : CoordOf c cmp x)
    (hu : ∀ y ∈ cmp.numbers, y.Between 0 1) : x.Between 0 1 := by
  cases cmp with
  | singleValue y =>
    rw [show x = y from h]
    exact hu y (List.mem_singleton.mpr rfl)
  | arrayOfValues xs =>
    rcases h with h | ⟨-, h⟩
    · exact hu x (List.mem_of_getElem? h)
    · exact hu x (List.mem_of_getLast? h)

theorem easingHandleOf_unit {c : Nat} {d : F64} {h : Option (Schema.KeyframeBezierHandle F64)} {e : EasingHandle F64}
    (he : EasingHandleOf c d h e) (hd : d.Between 0 1)
    (hu : ∀ h', h = some h' → (∀ x ∈ h'.x.numbers, x.Between 0 1) ∧ ∀ y ∈ h'.y.numbers, y.Between 0 1) :
    e.x.Between 0 1 ∧ e.y.Between 0 1 := by
  cases h with
  | none =>
    rw [show e = ⟨d, d⟩ from he]
    exact ⟨hd, hd⟩
  | some h' => exact ⟨coordOf_unit he.1 (hu h' rfl).1, coordOf_unit he.2 (hu h' rfl).2⟩

theorem between_lit0 : (lit 0 : F64).Between 0 1 :=
  ⟨near_lit0.fin, by have := abs_le.mp near_lit0.err; constructor <;> linarith⟩

theorem between_lit1 : (lit 1 : F64).Between 0 1 :=
  ⟨near_lit1.fin, by have := abs_le.mp near_lit1.err; constructor <;> linarith⟩

theorem EntryFor64.unit {c : Nat} {b : Schema.KeyframeBase F64} {t : Time F64} (h : EntryFor64 c b t)
    (hb : b.HandlesInUnitSquare) : t.easing.InUnitSquare64 := by
  have ho := easingHandleOf_unit h.2.1 between_lit0 fun h' e => hb h' (.inl e)
  have hi := easingHandleOf_unit h.2.2 between_lit1 fun h' e => hb h' (.inr e)
  exact ⟨ho.1, ho.2, hi.1, hi.2⟩

section
variable [Kurbo F64] {δ M : ℝ}

/-- A coordinate of an animated value with the times of ordinary keyframes, of which the last entries have the handles, shows what they
say, at every frame. -/
theorem Entries₂.shownNear (hδ : 0 ≤ δ) (hs : SolverWithin δ) {K V : Type} [Tween F64 V]
    {base : K → Schema.KeyframeBase F64} {W S : K → Time F64 → V → Prop} {π : V → F64} {post : F64 → F64} {x : K → F64} {c : Nat}
    (hπ : ∀ v v' w e, π (Tween.tween v v' w e) = post (tweenScalar (π v) (π v') w e))
    (hS : ∀ k t v, S k t v → W k t v) (hW : ∀ k t v, W k t v → t.frame = (base k).time ∧ π v = x k)
    (hE : ∀ k t v, S k t v → EntryFor64 c (base k) t)
    {ks : List K} {ts : List (Time F64)} {vs : List V} (h : Entries₂ W S ks ts vs)
    (hk : OrdinaryTimes base ks) (hne : ks ≠ []) (hM : M ≤ 2 ^ 1000) (hx : ∀ k ∈ ks, (x k).Between (-M) M)
    {frame : F64} (hf : isNaN frame = false) (d : V) :
    ∃ y, π ((⟨ts, vs⟩ : Animated F64 V).evaluateOr frame d) = post y ∧
      ShownNear c (δ + 1 / 10 ^ 10) (M / 10 ^ 9 + 1 / 2 ^ 1072) (ks.map fun k => (base k, x k)) frame y := by
  have hk0 : 0 < ks.length := List.length_pos_iff.mpr hne
  have hM0 : 0 ≤ M := by
    have := hx _ (List.getElem_mem hk0)
    linarith [this.2.1, this.2.2]
  have he0 : 0 ≤ M / 10 ^ 9 + 1 / 2 ^ 1072 := by positivity
  have hRt : ∀ {k t v}, W k t v → t.frame = (base k).time := fun hr => (hW _ _ _ hr).1
  have hweak := h.weak hS
  have htb : ∀ {k t v}, k ∈ ks → W k t v → t.frame.Between (-2 ^ 1000) (2 ^ 1000) := by
    intro k t v hm hr
    rw [hRt hr]
    exact hk.times k hm
  have hlt : ∀ {i j : Nat} (h1 : i < ks.length) (h2 : j < ks.length), i < j →
      ((base ks[i]).time <. (base ks[j]).time) = true := by
    intro i j h1 h2 hij
    rw [toR_lt (hk.times _ (List.getElem_mem _)).1 (hk.times _ (List.getElem_mem _)).1]
    have h1 := (List.pairwise_iff_getElem.mp hk.order) i j h1 h2 hij
    have : (0 : ℝ) < 1 / 2 ^ 1000 := by positivity
    linarith
  have hst : SortedTimes ts := by
    unfold SortedTimes
    clear hne hk0 hf hM0 he0
    have hks : ks.Pairwise fun a b => ((base a).time <=. (base b).time) = true := by
      rw [List.pairwise_iff_getElem]
      exact fun i j h1 h2 hij => le_of_lt' (hlt h1 h2 hij)
    have hself : ∀ k ∈ ks, ((base k).time <=. (base k).time) = true := fun k hm =>
      (le_fin (hk.times k hm).1 (hk.times k hm).1).mpr le_rfl
    clear hlt htb hk hx h
    induction hweak with
    | nil => exact .nil
    | new h1 hf ih =>
      rw [List.pairwise_cons] at hks
      refine List.pairwise_cons.mpr ⟨fun t ht => ?_, ih hks.2 fun k hm => hself k (List.mem_cons_of_mem _ hm)⟩
      obtain ⟨k', hk', v', hr⟩ := hf.mem t ht
      rw [hRt h1, hRt hr]
      exact hks.1 k' hk'
    | dup h1 hf ih =>
      refine List.pairwise_cons.mpr ⟨fun t ht => ?_, ih hks hself⟩
      obtain ⟨k', hk', v', hr⟩ := hf.mem t ht
      rw [hRt h1, hRt hr]
      rw [List.pairwise_cons] at hks
      rcases List.mem_cons.mp hk' with rfl | hk'
      · exact hself _ List.mem_cons_self
      · exact hks.1 k' hk'
  have htne : ts ≠ [] := by
    rcases hweak.head with ⟨h, -, -⟩ | ⟨k, t, v, -, b, -, -⟩
    · exact absurd h hne
    · rintro rfl; cases b
  obtain ⟨hl, hle, hgt⟩ := search_spec hst htne frame
  generalize hi : Time.search ts frame = i at hl hle hgt
  have hti : ts[i]? = some ts[i] := List.getElem?_eq_getElem hl
  obtain ⟨j, k, v, hj, hv, hr, hn⟩ := h.at hS hti
  have hev : ∀ i' t' v', i' = min (i + 1) (ts.length - 1) → ts[i']? = some t' →
      vs[i']? = some v' → (⟨ts, vs⟩ : Animated F64 V).evaluateOr frame d =
        Tween.tween v v' (mixWeight ts[i] t' frame) ts[i].easing := by
    intro i' t' v' hi' ht' hv'
    unfold Animated.evaluateOr
    rw [evaluateInner_eq (⟨ts, vs⟩ : Animated F64 V) frame i i' ts[i] t' (by simp only [hi]; omega)
      hi' hti ht']
    simp only [hv, hv']
    rfl
  have hkm := List.mem_of_getElem? hj
  have hfin := (htb hkm hr).1
  have hnan : isNaN ts[i].frame = false := not_nan_of_le_left ((le_fin hfin hfin).mpr le_rfl)
  have hmap : ∀ {j : Nat} {k : K}, ks[j]? = some k → (ks.map fun k => (base k, x k))[j]? = some (base k, x k) := by
    intro j k hj
    rw [List.getElem?_map, hj]
    rfl
  cases hb : (frame <. ts[i].frame) with
  | true =>
    have hi0 : i = 0 := by
      rcases hle with h0 | h0
      · exact h0
      · rw [h0 hl] at hb; cases hb
    subst hi0
    rcases hweak.head with ⟨h, -, -⟩ | ⟨k0, t0, v0, a, b, c', hr0⟩
    · exact absurd h hne
    rw [List.head?_eq_getElem?] at a b c'
    rw [hti] at b; rw [hv] at c'
    cases Option.some.inj b; cases Option.some.inj c'
    have hkm0 := List.mem_of_getElem? a
    have hres : ∀ t' v', π ((⟨ts, vs⟩ : Animated F64 V).evaluateOr frame d) =
        post (tweenScalar (π v) (π v') (mixWeight ts[0] t' frame) ts[0].easing) →
        (mixWeight ts[0] t' frame <=. lit 0) = true → ∃ y, π ((⟨ts, vs⟩ : Animated F64 V).evaluateOr frame d) = post y ∧
          ShownNear c (δ + 1 / 10 ^ 10) (M / 10 ^ 9 + 1 / 2 ^ 1072) (ks.map fun k => (base k, x k)) frame y := by
      intro t' v' e hw
      rw [tween_le_zero _ _ _ hw] at e
      refine ⟨_, e, ?_⟩
      rw [(hW _ _ _ hr0).2]
      refine ⟨(hx _ hkm0).1, .inl ⟨base k0, x k0, ?_, ?_, by simpa using he0⟩⟩
      · rw [List.head?_eq_getElem?, hmap a]
      · rw [← hRt hr0]; exact hb
    have hself : ∀ t', t'.frame = ts[0].frame → (mixWeight ts[0] t' frame <=. lit 0) = true := by
      intro t' e
      unfold mixWeight
      split_ifs
      · exact zero_le_zero
      · rw [e]; exact weight_before_self hfin hb
    rcases hn with ⟨hn, -⟩ | ⟨t', v', ht', hv', hor⟩
    · have : ts.length ≤ 1 := by simpa using hn
      exact hres ts[0] v (by rw [hev 0 ts[0] v (by omega) hti hv, hπ]) (hself _ rfl)
    · have hlen := (List.getElem?_eq_some_iff.mp ht').1
      refine hres t' v' (by rw [hev 1 t' v' (by omega) ht' hv', hπ]) ?_
      rcases hor with hrk | ⟨k', hk', -, hrk⟩
      · exact hself _ (by rw [hRt hrk, hRt hr])
      · have hkm' := List.mem_of_getElem? hk'
        have hlt' : (ts[0].frame <. t'.frame) = true := by
          rw [hRt hr, hRt hrk]
          obtain ⟨l1, rfl⟩ := List.getElem?_eq_some_iff.mp hj
          obtain ⟨l2, rfl⟩ := List.getElem?_eq_some_iff.mp hk'
          exact hlt l1 l2 (by omega)
        unfold mixWeight
        split_ifs
        · exact zero_le_zero
        · refine weight_before hfin (htb hkm' hrk).1 hlt' ?_ (le_of_lt' hb)
          exact (((bdd_of_between (k := 1000) (htb hkm' hrk) le_rfl).mono (by norm_num)).sub'
            ((bdd_of_between (k := 1000) (htb hkm hr) le_rfl).mono (by norm_num)) (k := 1022) (by norm_num)).1
  | false =>
    have hge : (ts[i].frame <=. frame) = true := le_of_not_lt' hf hnan hb
    rcases hn with ⟨hn, hjn, hsk⟩ | ⟨t', v', ht', hv', hor⟩
    · have hu := (hE _ _ _ hsk).unit (hk.handles k hkm)
      have hlen : ts.length ≤ i + 1 := by simpa using hn
      have e := hev i ts[i] v (by omega) hti hv
      refine ⟨_, by rw [e, hπ], ?_⟩
      rw [(hW _ _ _ hr).2]
      have hxk := hx k hkm
      have hval : (tweenScalar (x k) (x k) (mixWeight ts[i] ts[i] frame) ts[i].easing).isFin = true ∧
          (tweenScalar (x k) (x k) (mixWeight ts[i] ts[i] frame) ts[i].easing).toR = (x k).toR := by
        unfold mixWeight
        split_ifs
        · rw [tween_le_zero _ _ _ zero_le_zero]
          exact ⟨hxk.1, rfl⟩
        · cases hlt : (ts[i].frame <. frame) with
          | true =>
            rw [weight_after_self hfin hlt, tween_one]
            exact ⟨hxk.1, rfl⟩
          | false =>
            have hfe : (frame <=. ts[i].frame) = true := le_of_not_lt' hnan hf hlt
            have heq : (frame ==. ts[i].frame) = true := by
              rw [LawfulCmp.le_iff] at hge hfe
              obtain ⟨a, b, ha, hb, hab⟩ := hge
              obtain ⟨b', a', hb', ha', hba⟩ := hfe
              rw [ha] at ha'
              rw [hb] at hb'
              cases ha'
              cases hb'
              exact (LawfulCmp.eq_iff _ _).mpr ⟨b, a, hb, ha, le_antisymm hba hab⟩
            rw [weight_at_self hfin heq]
            have := tween_nan_bdd hxk.1 (e := ts[i].easing)
              ⟨(unit_bdd hu.ox).mono (by norm_num), (unit_bdd hu.oy).mono (by norm_num),
                (unit_bdd hu.ix).mono (by norm_num), (unit_bdd hu.iy).mono (by norm_num)⟩
            have hf' := fin_of_beq this hxk.1
            refine ⟨hf', ?_⟩
            unfold F64.toR
            exact_mod_cast (beq_fin hf' hxk.1).mp this
      refine ⟨hval.1, .inr (.inl ⟨base k, x k, ?_, ?_, by rw [hval.2]; simpa using he0⟩)⟩
      · have hj1 := (List.getElem?_eq_some_iff.mp hj).1
        have : ks.length ≤ j + 1 := by simpa using hjn
        rw [List.getLast?_eq_getElem?, List.length_map, show ks.length - 1 = j by omega, hmap hj]
      · rw [← hRt hr]; exact hge
    · have hlen := (List.getElem?_eq_some_iff.mp ht').1
      obtain ⟨h1, ht''⟩ := List.getElem?_eq_some_iff.mp ht'
      have hft : (frame <. t'.frame) = true := by
        have := hgt (i + 1) h1 (by omega)
        rwa [ht''] at this
      rcases hor with hrk | ⟨k', hk', hsk, hrk⟩
      · exfalso
        rw [hRt hrk, ← hRt hr] at hft
        rw [hft] at hb
        cases hb
      · have hu := (hE _ _ _ hsk).unit (hk.handles k hkm)
        have hkm' := List.mem_of_getElem? hk'
        have e := hev (i + 1) t' v' (by omega) ht' hv'
        refine ⟨_, by rw [e, hπ], ?_⟩
        rw [(hW _ _ _ hr).2, (hW _ _ _ hrk).2]
        have m0 := hx k hkm
        have m1 := hx k' hkm'
        cases hh : ts[i].hold with
        | true =>
          have hw : mixWeight ts[i] t' frame = lit 0 := by unfold mixWeight; rw [hh]; rfl
          rw [hw, tween_le_zero _ _ _ zero_le_zero]
          exact ⟨m0.1, .inr (.inr ⟨j, _, _, _, _, hmap hj, hmap hk', by rw [← hRt hr]; exact hge,
            by rw [← hRt hrk]; exact hft, fun _ => by simpa using he0,
            fun hn => absurd ((hE _ _ _ hsk).1.2.mp hh) hn⟩)⟩
        | false =>
          have b0 := htb hkm hr
          have b1 := htb hkm' hrk
          have hfr := fin_of_between b0.1 b1.1 hge hft
          have hgap : 1 / 2 ^ 1000 ≤ t'.frame.toR - ts[i].frame.toR := by
            rw [hRt hr, hRt hrk]
            obtain ⟨l1, rfl⟩ := List.getElem?_eq_some_iff.mp hj
            obtain ⟨l2, rfl⟩ := List.getElem?_eq_some_iff.mp hk'
            have := (List.pairwise_iff_getElem.mp hk.order) j (j + 1) l1 l2 (by omega)
            linarith
          have hw := weight_near hfr b0 b1 ((toR_le_iff b0.1 hfr).mp hge) ((toR_lt hfr b1.1).mp hft).le hgap
          have hmw : mixWeight ts[i] t' frame = clamp ((frame -. ts[i].frame) /. (t'.frame -. ts[i].frame)) (lit 0) (lit 1) := by
            unfold mixWeight; rw [hh]; rfl
          rw [hmw]
          have := tweenScalar_accurate hδ hs hu m0 m1 hM hw.2 hw.1
          refine ⟨this.1, .inr (.inr ⟨j, _, _, _, _, hmap hj, hmap hk', by rw [← hRt hr]; exact hge,
            by rw [← hRt hrk]; exact hft, fun hn => ?_, fun _ => ⟨ts[i].easing.o, ts[i].easing.i,
              (hE _ _ _ hsk).2.1, (hE _ _ _ hsk).2.2, ?_⟩⟩)⟩
          · rw [(hE _ _ _ hsk).1.2.mpr hn] at hh; cases hh
          · rw [← hRt hr, ← hRt hrk]
            obtain ⟨u, u0, u1, hu', hv⟩ := this.2
            refine ⟨u, u0, u1, hu', hv.trans ?_⟩
            have h1 : |(x k').toR - (x k).toR| ≤ 2 * M := by
              rw [abs_le]
              constructor <;> linarith [m0.2.1, m0.2.2, m1.2.1, m1.2.2]
            have h2 : |(x k').toR - (x k).toR| / 10 ^ 10 ≤ 2 * M / 10 ^ 10 :=
              div_le_div_of_nonneg_right h1 (by positivity)
            have h3 : 2 * M / 10 ^ 10 + M / 2 ^ 53 ≤ M / 10 ^ 9 := by
              have : M * (2 / 10 ^ 10 + 1 / 2 ^ 53) ≤ M * (1 / 10 ^ 9) :=
                mul_le_mul_of_nonneg_left (by norm_num) hM0
              calc _ = M * (2 / 10 ^ 10 + 1 / 2 ^ 53) := by ring
                _ ≤ _ := this
                _ = _ := by ring
            linarith

/-- A coordinate of an animated value with the times of ordinary keyframes shows what they say, at every frame. -/
theorem Entries.shownNear (hδ : 0 ≤ δ) (hs : SolverWithin δ) {K V : Type} [Tween F64 V]
    {base : K → Schema.KeyframeBase F64} {R : K → Time F64 → V → Prop} {π : V → F64} {post : F64 → F64} {x : K → F64} {c : Nat}
    (hπ : ∀ v v' w e, π (Tween.tween v v' w e) = post (tweenScalar (π v) (π v') w e))
    (hR : ∀ k t v, R k t v → EntryFor64 c (base k) t ∧ π v = x k)
    {ks : List K} {ts : List (Time F64)} {vs : List V} (h : Entries R ks ts vs)
    (hk : OrdinaryTimes base ks) (hne : ks ≠ []) (hM : M ≤ 2 ^ 1000) (hx : ∀ k ∈ ks, (x k).Between (-M) M)
    {frame : F64} (hf : isNaN frame = false) (d : V) :
    ∃ y, π ((⟨ts, vs⟩ : Animated F64 V).evaluateOr frame d) = post y ∧
      ShownNear c (δ + 1 / 10 ^ 10) (M / 10 ^ 9 + 1 / 2 ^ 1072) (ks.map fun k => (base k, x k)) frame y :=
  (Entries₂.of_entries h).shownNear hδ hs hπ (fun _ _ _ h => h) (fun k t v hr => ⟨(hR k t v hr).1.1.1, (hR k t v hr).2⟩)
    (fun k t v hr => (hR k t v hr).1) hk hne hM hx hf d

/-- The same for numbers, with one entry per keyframe. -/
theorem shownNear_evaluate (hδ : 0 ≤ δ) (hs : SolverWithin δ) {K : Type} {base : K → Schema.KeyframeBase F64}
    {x : K → F64} {ks : List K} {ts : List (Time F64)}
    (ht : List.Forall₂ (fun k t => EasedTimeOf (base k) t) ks ts) (hk : OrdinaryTimes base ks) (hne : ks ≠ [])
    (hM : M ≤ 2 ^ 1000) (hx : ∀ k ∈ ks, (x k).Between (-M) M) {frame : F64} (hf : isNaN frame = false) (d : F64) :
    ShownNear 0 (δ + 1 / 10 ^ 10) (M / 10 ^ 9 + 1 / 2 ^ 1072) (ks.map fun k => (base k, x k)) frame
      ((⟨ts, ks.map x⟩ : Animated F64 F64).evaluateOr frame d) := by
  have hen : List.Forall₂ (fun k y => y = x k) ks (ks.map x) := by
    rw [List.forall₂_map_right_iff, List.forall₂_same]
    exact fun _ _ => rfl
  obtain ⟨y, e, h⟩ := Entries.shownNear (π := id) (post := id) (x := x) hδ hs (fun _ _ _ _ => rfl)
    (fun k t v hr => ⟨entryFor64_of_eased hr.1, hr.2⟩) (Entries.of_forall₂ ht hen) hk hne hM hx hf d
  rw [show (⟨ts, ks.map x⟩ : Animated F64 F64).evaluateOr frame d = y from e]
  exact h

omit [Kurbo F64] in
/-- Rounding to single precision. -/
theorem ShownNear.single {ks : List (Schema.KeyframeBase F64 × F64)} {frame x : F64}
    {c : Nat} (h : ShownNear c δ (1 / 10 ^ 9 + 1 / 2 ^ 1072) ks frame x) (hx : x.Between (-(9 / 8)) (9 / 8)) :
    ShownNear c δ (1 / 2 ^ 23) ks frame (FloatOps.toF32 x) := by
  have hn := near_toF32 (hx.mono (by norm_num) (by norm_num))
  have ha : |x.toR| ≤ 9 / 8 := abs_le.mpr ⟨by linarith [hx.2.1], hx.2.2⟩
  have h1 : |(FloatOps.toF32 x).toR - x.toR| ≤ 9 / 8 / 2 ^ 24 + 1 / 2 ^ 50 := by
    have := hn.err
    have : |x.toR| / 2 ^ 24 ≤ 9 / 8 / 2 ^ 24 := div_le_div_of_nonneg_right ha (by positivity)
    linarith
  have h2 : (9 / 8 / 2 ^ 24 + 1 / 2 ^ 50 + (1 / 10 ^ 9 + 1 / 2 ^ 1072) : ℝ) ≤ 1 / 2 ^ 23 := by norm_num
  have hto : ∀ r : ℝ, |x.toR - r| ≤ 1 / 10 ^ 9 + 1 / 2 ^ 1072 → |(FloatOps.toF32 x).toR - r| ≤ 1 / 2 ^ 23 := by
    intro r hr
    have := abs_sub_le (FloatOps.toF32 x).toR x.toR r
    linarith
  refine ⟨hn.fin, ?_⟩
  rcases h.2 with ⟨b, v, a1, a2, a3⟩ | ⟨b, v, a1, a2, a3⟩ | ⟨k, b0, v0, b1, v1, a1, a2, a3, a4, a5, a6⟩
  · exact .inl ⟨b, v, a1, a2, hto _ a3⟩
  · exact .inr (.inl ⟨b, v, a1, a2, hto _ a3⟩)
  · refine .inr (.inr ⟨k, b0, v0, b1, v1, a1, a2, a3, a4, fun hh => hto _ (a5 hh), fun hh => ?_⟩)
    obtain ⟨o, i, e1, e2, u, e3, e4, e5, e6⟩ := a6 hh
    exact ⟨o, i, e1, e2, u, e3, e4, e5, hto _ e6⟩

omit [Kurbo F64] in
/-- Values known only up to `η`. -/
theorem ShownNear.values {K : Type} {base : K → Schema.KeyframeBase F64} {x x' : K → F64} {ks : List K} {c : Nat}
    {e η : ℝ} {frame y : F64} (h : ShownNear c δ e (ks.map fun k => (base k, x k)) frame y)
    (hk : ∀ k ∈ ks, (base k).HandlesInUnitSquare) (hx : ∀ k ∈ ks, |(x k).toR - (x' k).toR| ≤ η) :
    ShownNear c δ (e + η) (ks.map fun k => (base k, x' k)) frame y := by
  have hone : ∀ {k}, k ∈ ks → |y.toR - (x k).toR| ≤ e → |y.toR - (x' k).toR| ≤ e + η := by
    intro k hm he
    have := abs_sub_le y.toR (x k).toR (x' k).toR
    linarith [hx k hm]
  have hget : ∀ {j : Nat} {b v}, (ks.map fun k => (base k, x k))[j]? = some (b, v) →
      ∃ k, ks[j]? = some k ∧ b = base k ∧ v = x k := by
    intro j b v hj
    rw [List.getElem?_map] at hj
    cases hkj : ks[j]? with
    | none => rw [hkj] at hj; cases hj
    | some k =>
      rw [hkj] at hj
      have := Option.some.inj hj
      exact ⟨k, rfl, (congrArg Prod.fst this).symm, (congrArg Prod.snd this).symm⟩
  have hmap : ∀ {j : Nat} {k : K}, ks[j]? = some k → (ks.map fun k => (base k, x' k))[j]? = some (base k, x' k) := by
    intro j k hj
    rw [List.getElem?_map, hj]
    rfl
  refine ⟨h.1, ?_⟩
  rcases h.2 with ⟨b, v, a1, a2, a3⟩ | ⟨b, v, a1, a2, a3⟩ | ⟨j, b0, v0, b1, v1, a1, a2, a3, a4, a5, a6⟩
  · rw [List.head?_eq_getElem?] at a1
    obtain ⟨k, hj, rfl, rfl⟩ := hget a1
    exact .inl ⟨base k, x' k, by rw [List.head?_eq_getElem?, hmap hj], a2, hone (List.mem_of_getElem? hj) a3⟩
  · rw [List.getLast?_eq_getElem?, List.length_map] at a1
    obtain ⟨k, hj, rfl, rfl⟩ := hget a1
    exact .inr (.inl ⟨base k, x' k, by rw [List.getLast?_eq_getElem?, List.length_map, hmap hj], a2,
      hone (List.mem_of_getElem? hj) a3⟩)
  · obtain ⟨k, hj, rfl, rfl⟩ := hget a1
    obtain ⟨k', hj', rfl, rfl⟩ := hget a2
    have hm := List.mem_of_getElem? hj
    have hm' := List.mem_of_getElem? hj'
    refine .inr (.inr ⟨j, _, _, _, _, hmap hj, hmap hj', a3, a4, fun hh => hone hm (a5 hh), fun hh => ?_⟩)
    obtain ⟨o, i, e1, e2, u, u0, u1, e3, e4⟩ := a6 hh
    refine ⟨o, i, e1, e2, u, u0, u1, e3, ?_⟩
    have ho := easingHandleOf_unit e1 between_lit0 fun h' e => hk k hm h' (.inl e)
    have hi := easingHandleOf_unit e2 between_lit1 fun h' e => hk k hm h' (.inr e)
    obtain ⟨s0, s1⟩ := bez_unit ho.2.2 hi.2.2 (u := u) ⟨u0, u1⟩
    generalize bez o.y.toR i.y.toR u = s at *
    have h0 := abs_le.mp (hx k hm)
    have h1 := abs_le.mp (hx k' hm')
    have he := abs_le.mp e4
    generalize (x k).toR = v0 at *
    generalize (x' k).toR = w0 at *
    generalize (x k').toR = v1 at *
    generalize (x' k').toR = w1 at *
    have p1 := mul_le_mul_of_nonneg_left h0.1 (by linarith : (0 : ℝ) ≤ 1 - s)
    have p2 := mul_le_mul_of_nonneg_left h0.2 (by linarith : (0 : ℝ) ≤ 1 - s)
    have p3 := mul_le_mul_of_nonneg_left h1.1 s0
    have p4 := mul_le_mul_of_nonneg_left h1.2 s0
    rw [abs_le]
    constructor <;> nlinarith

omit [Kurbo F64] in
/-- What is shown is as big as the values allow. -/
theorem ShownNear.bound {K : Type} {base : K → Schema.KeyframeBase F64} {x : K → F64} {ks : List K} {c : Nat}
    {e m : ℝ} {frame y : F64} (h : ShownNear c δ e (ks.map fun k => (base k, x k)) frame y)
    (hk : ∀ k ∈ ks, (base k).HandlesInUnitSquare) (hx : ∀ k ∈ ks, |(x k).toR| ≤ m) : |y.toR| ≤ m + e := by
  obtain ⟨z, hz⟩ : ∃ z : F64, z.toR = 0 := ⟨lit 0, by have := abs_le.mp near_lit0.err; simp only [sub_zero, neg_zero] at this; linarith [this.1, this.2]⟩
  have h0 := h.values (x' := fun _ => z) (η := m) hk fun k hm => by rw [hz, sub_zero]; exact hx k hm
  have hget : ∀ {j : Nat} {b v}, (ks.map fun k => (base k, z))[j]? = some (b, v) → v.toR = 0 ∧ b.HandlesInUnitSquare := by
    intro j b v hj
    rw [List.getElem?_map] at hj
    cases hkj : ks[j]? with
    | none => rw [hkj] at hj; cases hj
    | some k =>
      rw [hkj] at hj
      have := Option.some.inj hj
      obtain rfl : base k = b := congrArg Prod.fst this
      obtain rfl : z = v := congrArg Prod.snd this
      exact ⟨hz, hk k (List.mem_of_getElem? hkj)⟩
  rcases h0.2 with ⟨b, v, a1, a2, a3⟩ | ⟨b, v, a1, a2, a3⟩ | ⟨j, b0, v0, b1, v1, a1, a2, a3, a4, a5, a6⟩
  · rw [List.head?_eq_getElem?] at a1
    rw [(hget a1).1] at a3
    simpa [add_comm] using a3
  · rw [List.getLast?_eq_getElem?] at a1
    rw [(hget a1).1] at a3
    simpa [add_comm] using a3
  · rw [(hget a1).1] at a5
    by_cases hh : b0.hold = some .true
    · simpa [add_comm] using a5 hh
    · obtain ⟨o, i, e1, e2, u, u0, u1, e3, e4⟩ := a6 hh
      rw [(hget a1).1, (hget a2).1] at e4
      simpa [add_comm] using e4

omit [Kurbo F64] in
theorem ShownNear.mono {ks : List (Schema.KeyframeBase F64 × F64)} {c : Nat} {e e' : ℝ} {frame y : F64}
    (h : ShownNear c δ e ks frame y) (he : e ≤ e') : ShownNear c δ e' ks frame y := by
  refine ⟨h.1, ?_⟩
  rcases h.2 with ⟨b, v, a1, a2, a3⟩ | ⟨b, v, a1, a2, a3⟩ | ⟨k, b0, v0, b1, v1, a1, a2, a3, a4, a5, a6⟩
  · exact .inl ⟨b, v, a1, a2, a3.trans he⟩
  · exact .inr (.inl ⟨b, v, a1, a2, a3.trans he⟩)
  · refine .inr (.inr ⟨k, b0, v0, b1, v1, a1, a2, a3, a4, fun hh => (a5 hh).trans he, fun hh => ?_⟩)
    obtain ⟨o, i, e1, e2, u, e3, e4, e5, e6⟩ := a6 hh
    exact ⟨o, i, e1, e2, u, e3, e4, e5, e6.trans he⟩

omit [Kurbo F64] in
theorem pointOf_getD64 {xs : List F64} {v : P2 F64} (hl : 2 ≤ xs.length) (h : PointOf xs v) :
    v.x = xs.getD 0 (lit 0) ∧ v.y = xs.getD 1 (lit 0) := by
  rcases h with ⟨x, y, rest, rfl, rfl⟩ | ⟨h, -⟩
  · exact ⟨rfl, rfl⟩
  · omega

omit [Kurbo F64] in
theorem colorOf_getD64 {xs : List F64} {v : Color F64} (hl : 3 ≤ xs.length) (h : ColorOf xs v) :
    v.r = FloatOps.toF32 (xs.getD 0 (lit 0)) ∧ v.g = FloatOps.toF32 (xs.getD 1 (lit 0)) ∧
    v.b = FloatOps.toF32 (xs.getD 2 (lit 0)) := by
  rcases h with ⟨r, g, b, rest, rfl, rfl⟩ | ⟨h, -⟩
  · exact ⟨rfl, rfl, rfl⟩
  · omega

omit [Kurbo F64] in
theorem getD_between {xs : List F64} {j : Nat} {lo hi : ℝ} (hj : j < xs.length) (h : ∀ x ∈ xs, x.Between lo hi) (d : F64) :
    (xs.getD j d).Between lo hi := by
  rw [List.getD_eq_getElem?_getD, List.getElem?_eq_getElem hj, Option.getD_some]
  exact h _ (List.getElem_mem _)

end

end Velato
