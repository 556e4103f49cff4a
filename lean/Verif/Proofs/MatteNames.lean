import Verif.Spec.MatteNames
import Verif.Proofs.MoveLayers

/-!
# How layers refer to their mattes: lemmas
-/

namespace Velato
open FloatOps (lit)

section
variable {F : Type}

theorem visual_withMatte (x : Option F) (s : Schema.AnyLayer F) : (s.withMatte x).visual = s.visual.withMatte x := by
  cases s <;> rfl

theorem ident_withMatte (x : Option F) (s : Schema.AnyLayer F) : (s.withMatte x).ident = s.ident := by
  unfold Schema.AnyLayer.ident
  rw [visual_withMatte]
  rfl

theorem withMatte_withMatte (x y : Option F) (s : Schema.AnyLayer F) : (s.withMatte x).withMatte y = s.withMatte y := by
  cases s <;> rfl

theorem withMatte_self (s : Schema.AnyLayer F) : s.withMatte s.visual.matteLayerIndex = s := by
  cases s <;> rfl

theorem matte_withMatte (x : Option F) (s : Schema.AnyLayer F) : (s.withMatte x).Matte ↔ s.Matte := by
  cases s <;> exact Iff.rfl

theorem matted_withMatte (x : Option F) (s : Schema.AnyLayer F) : (s.withMatte x).Matted ↔ s.Matted := by
  cases s <;> exact Iff.rfl

variable {ls ls' : List (Schema.AnyLayer F)}

theorem idents_withMatte (h : List.Forall₂ (fun l l' => ∃ x : Option F, l' = l.withMatte x) ls ls') :
    ls'.map Schema.AnyLayer.ident = ls.map Schema.AnyLayer.ident := by
  induction h with
  | nil => rfl
  | cons h1 _ ih =>
    obtain ⟨x, rfl⟩ := h1
    rw [List.map_cons, List.map_cons, ih, ident_withMatte]

theorem withMatte_symm (h : List.Forall₂ (fun l l' => ∃ x : Option F, l' = l.withMatte x) ls ls') :
    List.Forall₂ (fun l l' => ∃ x : Option F, l' = l.withMatte x) ls' ls := by
  induction h with
  | nil => exact .nil
  | @cons l l' _ _ h1 _ ih =>
    obtain ⟨x, rfl⟩ := h1
    exact .cons ⟨l.visual.matteLayerIndex, by rw [withMatte_withMatte, withMatte_self]⟩ ih

theorem pending_withMatte (h : List.Forall₂ (fun l l' => ∃ x : Option F, l' = l.withMatte x) ls ls') {i j : Nat}
    (hp : PendingMatte ls i j) : PendingMatte ls' i j := by
  obtain ⟨h1, ⟨s, hs, hm⟩, h2⟩ := hp
  obtain ⟨s', hs', x, rfl⟩ := forall₂_getElem?_right h hs
  refine ⟨h1, ⟨_, hs', (matte_withMatte x s).mpr hm⟩, fun k t hk hk' ht => ?_⟩
  obtain ⟨t', ht', y, rfl⟩ := forall₂_getElem?_right (withMatte_symm h) ht
  have := h2 k _ hk hk' ht'
  rwa [matte_withMatte, matted_withMatte] at this

variable [FloatOps F]

theorem matteOf_list (h : List.Forall₂ (fun l l' => ∃ x : Option F, l' = l.withMatte x) ls ls') {i : Nat} {l : Schema.AnyLayer F}
    {m : Option (BlendMode × Nat)} (hm : MatteOf ls i l m) : MatteOf ls' i l m := by
  cases hm with
  | without h1 => exact .without h1
  | named h1 h2 h3 => exact .named h1 h2 (by rw [idents_withMatte h]; exact h3)
  | pending h1 h2 h3 => exact .pending h1 h2 (pending_withMatte h h3)
  | nothing h1 h2 h3 => exact .nothing h1 h2 fun j hj => h3 j (pending_withMatte (withMatte_symm h) hj)

/-- A layer that uses the matte before it may as well name it, if its number is that of no later layer. -/
theorem sameMattes_named {i j : Nat} {l m : Schema.AnyLayer F} (hl : ls[i]? = some l)
    (hn : l.visual.matteLayerIndex = none) (hj : PendingMatte ls i j) (hm : ls[j]? = some m)
    (hu : ∀ (k : Nat) s, j < k → ls[k]? = some s → s.ident ≠ m.ident) {x : F} (hx : FloatOps.toUsize x = m.ident) :
    SameMattes ls (ls.set i (l.withMatte (some x))) := by
  constructor
  · rw [List.forall₂_iff_get]
    refine ⟨by simp, fun k h1 h2 => ?_⟩
    simp only [List.get_eq_getElem, List.getElem_set]
    split
    · next hk =>
      subst hk
      rw [(List.getElem?_eq_some_iff.mp hl).2]
      exact ⟨_, rfl⟩
    · exact ⟨_, (withMatte_self _).symm⟩
  · intro k s s' hs hs' r
    rw [List.getElem?_set] at hs'
    by_cases hk : i = k
    · subst hk
      rw [if_pos rfl, if_pos (List.getElem?_eq_some_iff.mp hl).1] at hs'
      cases hs'
      cases hl.symm.trans hs
      have hpos : LastPosition (ls.map Schema.AnyLayer.ident) (FloatOps.toUsize x) (some j) := by
        refine ⟨by rw [List.getElem?_map, hm, hx]; rfl, fun k hk he => ?_⟩
        rw [List.getElem?_map] at he
        cases hs : ls[k]? with
        | none => rw [hs] at he; cases he
        | some s =>
          rw [hs, hx] at he
          exact hu k s hk hs (Option.some.inj he)
      have hv : (l.withMatte (some x)).visual.matteMode = l.visual.matteMode := by rw [visual_withMatte]; rfl
      have hi : (l.withMatte (some x)).visual.matteLayerIndex = some x := by rw [visual_withMatte]; rfl
      constructor
      · intro h
        cases h with
        | without h1 => exact .without (hv.trans h1)
        | named h1 h2 h3 => rw [hn] at h2; cases h2
        | @pending mode j' h1 h2 h3 =>
          have : j' = j := by
            obtain ⟨a1, ⟨s1, b1, c1⟩, d1⟩ := h3
            obtain ⟨a2, ⟨s2, b2, c2⟩, d2⟩ := hj
            rcases Nat.lt_trichotomy j' j with hlt | heq | hlt
            · exact absurd c2 (d1 j s2 hlt a2 b2).1
            · exact heq
            · exact absurd c1 (d2 j' s1 hlt a1 b1).1
          subst this
          exact .named (r := some j') (hv.trans h1) hi hpos
        | nothing h1 h2 h3 => exact absurd hj (h3 j)
      · intro h
        cases h with
        | without h1 => exact .without (hv.symm.trans h1)
        | @named mode x' r h1 h2 h3 =>
          cases hi.symm.trans h2
          have : r = some j := by
            cases r with
            | none => exact absurd (List.mem_of_getElem? hpos.1) h3
            | some r =>
              rcases Nat.lt_trichotomy r j with hlt | heq | hlt
              · exact absurd hpos.1 (h3.2 j hlt)
              · rw [heq]
              · exact absurd h3.1 (hpos.2 r hlt)
          subst this
          exact .pending (hv.symm.trans h1) hn hj
        | pending h1 h2 h3 => cases hi.symm.trans h2
        | nothing h1 h2 h3 => cases hi.symm.trans h2
    · rw [if_neg hk] at hs'
      cases hs.symm.trans hs'
      exact Iff.rfl

theorem SameMattes.symm (h : SameMattes ls ls') : SameMattes ls' ls :=
  ⟨withMatte_symm h.layers, fun i l l' hl hl' m =>
    ⟨fun hm => matteOf_list h.layers ((h.mattes i l' l hl' hl m).mpr (matteOf_list (withMatte_symm h.layers) hm)),
     fun hm => matteOf_list h.layers ((h.mattes i l' l hl' hl m).mp (matteOf_list (withMatte_symm h.layers) hm))⟩⟩

theorem AssetSameMattes.symm {s s' : Schema.AnyAsset F} (h : AssetSameMattes s s') : AssetSameMattes s' s := by
  cases h with
  | same => exact .same
  | @precomposition p ls h => exact AssetSameMattes.precomposition (p := { p with layers := ls }) h.symm

theorem Schema.Animation.SameMattes.symm {a a' : Schema.Animation F} (h : a.SameMattes a') : a'.SameMattes a := by
  refine ⟨?_, h.layers.symm, ?_⟩
  · obtain ⟨ls, as, rfl⟩ := h.result
    exact ⟨a.layers, a.assets, rfl⟩
  · exact List.Forall₂.flip (List.Forall₂.imp (fun _ _ h => h.symm) h.assets)

variable [Libm F] [Kurbo F]

theorem layerAt_withMatte {x : Option F} {fr : F} {l : Schema.AnyLayer F} {M : Affine F} {o : F} (h : LayerAt fr l M o) :
    LayerAt fr (l.withMatte x) M o := by
  unfold LayerAt
  rw [visual_withMatte]
  exact h

theorem placedWithin_withMatte (h : List.Forall₂ (fun l l' => ∃ x : Option F, l' = l.withMatte x) ls ls') {fr : F} {n : Nat}
    {l : Schema.AnyLayer F} {M P : Affine F} (hp : PlacedWithin ls fr n l M P) :
    ∀ x, PlacedWithin ls' fr n (l.withMatte x) M P := by
  induction hp with
  | root h1 => exact fun x => .root (by rw [visual_withMatte]; exact h1)
  | stray h1 h2 => exact fun x => .stray (by rw [visual_withMatte]; exact h1) (by rw [idents_withMatte h]; exact h2)
  | child h1 h2 h3 h4 _ ih =>
    intro x
    obtain ⟨p', hp', y, rfl⟩ := forall₂_getElem?_right h h3
    exact .child (by rw [visual_withMatte]; exact h1) (by rw [idents_withMatte h]; exact h2) hp' (layerAt_withMatte h4) (ih y)
  | limit => exact fun x => .limit

theorem sameMattes_drawn {a a' : Schema.Animation F} (har : a'.area = a.area)
    (has : List.Forall₂ AssetSameMattes a.assetList a'.assetList) {T : Affine F} {al fr : F} {number : Nat → Nat} {i : Nat}
    {seg : List (Schema.AnyLayer F)} {per : List (List (Op F))} (hd : LayerListDrawn a ls T al fr number i seg per)
    (hls : SameMattes ls ls') (hseg : seg = ls.drop i) : LayerListDrawn a' ls' T al fr number i (ls'.drop i) per := by
  have hasset : ∀ (j : Nat) p', a'.assetList[j]? = some (.precomposition p') →
      ∃ p, a.assetList[j]? = some (.precomposition p) ∧ p.asset.id = p'.asset.id ∧ SameMattes p'.layers p.layers := by
    intro j p' hp'
    obtain ⟨s, hs, hr⟩ := forall₂_getElem?_right (List.Forall₂.flip has) hp'
    cases hr with
    | same => exact ⟨_, hs, rfl, ⟨List.forall₂_same.mpr fun s _ => ⟨_, (withMatte_self s).symm⟩, fun i l l' hl hl' m => by
        cases hl.symm.trans hl'
        exact Iff.rfl⟩⟩
    | precomposition h => exact ⟨_, hs, rfl, h.symm⟩
  have hasset' : ∀ (j : Nat) p, a.assetList[j]? = some (.precomposition p) →
      ∃ p', a'.assetList[j]? = some (.precomposition p') ∧ p'.asset.id = p.asset.id ∧ SameMattes p.layers p'.layers := by
    intro j p hp
    obtain ⟨s, hs, hr⟩ := forall₂_getElem?_right has hp
    cases hr with
    | same => exact ⟨_, hs, rfl, ⟨List.forall₂_same.mpr fun s _ => ⟨_, (withMatte_self s).symm⟩, fun i l l' hl hl' m => by
        cases hl.symm.trans hl'
        exact Iff.rfl⟩⟩
    | precomposition h => exact ⟨_, hs, rfl, h⟩
  have hdur : ∀ (l : Schema.AnyLayer F) x fr, (l.withMatte x).During fr ↔ l.During fr := by
    intro l x fr
    unfold Schema.AnyLayer.During
    rw [visual_withMatte]
    exact Iff.rfl
  have hann : ∀ (l : Schema.AnyLayer F) x ix ops, announced (l.withMatte x) ix ops = announced l ix ops := by
    intro l x ix ops
    unfold announced
    rw [visual_withMatte]
    rfl
  have hmatte : ∀ {ls ls' : List (Schema.AnyLayer F)} {i : Nat} {l : Schema.AnyLayer F} {x m}, SameMattes ls ls' →
      ls[i]? = some l → ls'[i]? = some (l.withMatte x) → MatteOf ls i l m → MatteOf ls' i (l.withMatte x) m :=
    fun h hl hl' hm => matteOf_list h.layers ((h.mattes _ _ _ hl hl' _).mp hm)
  have hplaced : ∀ {ls ls' : List (Schema.AnyLayer F)} {fr : F} {l : Schema.AnyLayer F} {x} {P : Affine F}, SameMattes ls ls' →
      PlacedAt ls fr l P → PlacedAt ls' fr (l.withMatte x) P := by
    rintro ls ls' fr l x P h ⟨M, o, hM, hw⟩
    exact ⟨M, o, layerAt_withMatte hM, by rw [← h.layers.length_eq]; exact placedWithin_withMatte h.layers hw x⟩
  refine LayerListDrawn.rec
    (motive_1 := fun ls T al fr ix i l ops _ => ∀ ls' x, SameMattes ls ls' → ls[i]? = some l → ls'[i]? = some (l.withMatte x) →
      LayerDrawn a' ls' T al fr ix i (l.withMatte x) ops)
    (motive_2 := fun T al fr l co _ => ∀ x, ContentDrawn a' T al fr (l.withMatte x) co)
    (motive_3 := fun ls T al fr number i seg per _ => ∀ ls', SameMattes ls ls' → seg = ls.drop i →
      LayerListDrawn a' ls' T al fr number i (ls'.drop i) per)
    ?_ ?_ ?_ ?_ ?_ ?_ ?_ ?_ ?_ ?_ ?_ hd ls' hls hseg
  · intro ls T al fr ix i l h ls' x _ _ _
    exact .absent fun hd => h ((hdur l x fr).mp hd)
  · intro ls T al fr ix i l P M o ms co h hm hP hk hms _ ih ls' x hs hl hl'
    rw [← hann l x]
    exact .plain ((hdur l x fr).mpr h) (hmatte hs hl hl' hm) (hplaced hs hP) (layerAt_withMatte hk)
      (by rw [visual_withMatte]; exact hms) (ih x)
  · intro ls T al fr ix i l P M o ms co b j m mo h hm hj _ hP hk hms _ ih1 ih2 ls' x hs hl hl'
    obtain ⟨m', hm', y, rfl⟩ := forall₂_getElem?_right hs.layers hj
    have := LayerDrawn.matted (a := a') (ix := ix) ((hdur l x fr).mpr h) (hmatte hs hl hl' hm) hm' (ih1 ls' y hs hj hm')
      (hplaced hs hP) (layerAt_withMatte hk) (by rw [visual_withMatte]; exact hms) (ih2 x)
    rw [hann] at this
    unfold composed at this ⊢
    rw [har] at this
    exact this
  · intro T al fr l h x
    exact .hidden (by cases l <;> exact h)
  · intro T al fr l hs hp x
    refine .nothing ?_ ?_ <;> cases l <;> first
      | exact absurd rfl (hs _)
      | exact absurd rfl (hp _)
      | exact fun q hq => (by cases hq)
  · intro T al fr q S hv hss x
    exact .shape (q := { q with visualLayer := q.visualLayer.withMatte x }) hv hss
  · intro T al fr q hn x
    refine .missing (q := { q with visualLayer := q.visualLayer.withMatte x }) fun p' hp' => ?_
    obtain ⟨j, hj⟩ := List.mem_iff_getElem?.mp hp'
    obtain ⟨p, hp, hid, -⟩ := hasset j p' hj
    rw [← hid]
    exact hn p (List.mem_of_getElem? hp)
  · intro T al fr q p per i hv hp hid hlast _ ih x
    obtain ⟨p', hp', hid', hs⟩ := hasset' i p hp
    refine .precomposition (q := { q with visualLayer := q.visualLayer.withMatte x }) hv hp' (hid'.trans hid)
      (fun j p'' hj hp'' => ?_) ?_
    · obtain ⟨p0, hp0, hid0, -⟩ := hasset j p'' hp''
      rw [← hid0]
      exact hlast j p0 hj hp0
    · exact ih p'.layers hs rfl
  · intro ls T al fr number i ls' hs hseg
    have := congrArg List.length hseg
    rw [List.length_nil, List.length_drop, hs.layers.length_eq] at this
    rw [List.drop_eq_nil_of_le (by omega)]
    exact .nil
  · intro ls T al fr number i l seg per h _ ih ls' hs hseg
    have hl : ls[i]? = some l := by
      have h0 : (ls.drop i)[0]? = some l := by rw [← hseg]; rfl
      rwa [List.getElem?_drop, Nat.add_zero] at h0
    obtain ⟨l', hl', x, rfl⟩ := forall₂_getElem?_right hs.layers hl
    rw [List.drop_eq_getElem_cons (List.getElem?_eq_some_iff.mp hl').1, (List.getElem?_eq_some_iff.mp hl').2]
    refine .matte ((matte_withMatte x l).mpr h) (ih ls' hs ?_)
    rw [List.drop_eq_getElem_cons (List.getElem?_eq_some_iff.mp hl).1] at hseg
    exact (List.cons.inj hseg).2
  · intro ls T al fr number i l ops seg per h _ _ ih1 ih2 ls' hs hseg
    have hl : ls[i]? = some l := by
      have h0 : (ls.drop i)[0]? = some l := by rw [← hseg]; rfl
      rwa [List.getElem?_drop, Nat.add_zero] at h0
    obtain ⟨l', hl', x, rfl⟩ := forall₂_getElem?_right hs.layers hl
    rw [List.drop_eq_getElem_cons (List.getElem?_eq_some_iff.mp hl').1, (List.getElem?_eq_some_iff.mp hl').2]
    refine .layer (fun hn => h ((matte_withMatte x l).mp hn)) (ih1 ls' x hs hl hl') (ih2 ls' hs ?_)
    rw [List.drop_eq_getElem_cons (List.getElem?_eq_some_iff.mp hl).1] at hseg
    exact (List.cons.inj hseg).2

/-! ## Import -/

namespace Import

theorem setupLayer_withMatte (x : Option F) (v : Schema.VisualLayer F) (w h st : F) :
    (∃ e, setupLayer v w h st = .ok e) → ∃ e, setupLayer (v.withMatte x) w h st = .ok e := by
  unfold setupLayer
  show (∃ e, (convTransform v.transform >>= fun x => convBlendMode (v.blendMode.getD .normal) >>= fun b =>
    convMasks (v.masksProperties.getD []) >>= fun ms => _) = .ok e) → ∃ e, (convTransform v.transform >>= fun x =>
      convBlendMode (v.blendMode.getD .normal) >>= fun b => convMasks (v.masksProperties.getD []) >>= fun ms => _) = .ok e
  rintro ⟨e, he⟩
  cases hx : convTransform v.transform with
  | error e => rw [hx] at he; cases he
  | ok x =>
    rw [hx] at he
    cases hb : convBlendMode (v.blendMode.getD .normal) with
    | error e => rw [hb] at he; cases he
    | ok b =>
      rw [hb] at he
      cases hm : convMasks (v.masksProperties.getD []) with
      | error e => rw [hm] at he; cases he
      | ok m => exact ⟨_, rfl⟩

theorem convLayer_withMatte (x : Option F) (s : Schema.AnyLayer F) (h : ∃ e, convLayer s = .ok e) :
    ∃ e, convLayer (s.withMatte x) = .ok e := by
  obtain ⟨e, he⟩ := h
  have hh : isLayerHidden (s.withMatte x) = isLayerHidden s := by cases s <;> rfl
  have hc : layerContent (s.withMatte x) = layerContent s := by cases s <;> rfl
  unfold convLayer at he ⊢
  rw [hh, hc]
  have hset : (∃ e, layerSetup s = .ok e) → ∃ e, layerSetup (s.withMatte x) = .ok e := by
    cases s <;> exact setupLayer_withMatte _ _ _ _ _
  cases hs : layerSetup s with
  | error e => rw [hs] at he; cases he
  | ok x =>
    obtain ⟨y, hy⟩ := hset ⟨x, hs⟩
    rw [hs] at he
    rw [hy]
    cases hb : isLayerHidden s with
    | true => exact ⟨_, rfl⟩
    | false =>
      rw [hb] at he
      cases hl : layerContent s with
      | error e => rw [hl] at he; cases he
      | ok c => exact ⟨_, rfl⟩

theorem processLayers_withMatte (h : List.Forall₂ (fun l l' => ∃ x : Option F, l' = l.withMatte x) ls ls') {dst : List (Layer F)}
    (hp : processLayers ls = .ok dst) : ∃ dst', processLayers ls' = .ok dst' := by
  obtain ⟨es, hes, -⟩ := processLayers_ok hp
  have : ∃ es', List.Forall₂ (fun s e => convLayer s = .ok e) ls' es' := by
    clear hp
    induction h generalizing es with
    | nil => exact ⟨[], .nil⟩
    | cons h1 _ ih =>
      cases hes with
      | cons h2 h3 =>
        obtain ⟨x, rfl⟩ := h1
        obtain ⟨e, he⟩ := convLayer_withMatte x _ ⟨_, h2⟩
        obtain ⟨es', hes'⟩ := ih _ h3
        exact ⟨e :: es', .cons he hes'⟩
  obtain ⟨es', hes'⟩ := this
  unfold processLayers
  rw [mapM_ok_iff.mpr hes']
  exact ⟨_, rfl⟩

theorem convAnimation_sameMattes {a a' : Schema.Animation F} (h : a.SameMattes a') {c : Composition F}
    (hc : convAnimation a = .ok c) : ∃ c', convAnimation a' = .ok c' := by
  obtain ⟨has, hp, -⟩ := convAnimation_ok hc
  obtain ⟨ls, hls⟩ := processLayers_withMatte h.layers.layers hp
  have : ∀ {s s' : Schema.AnyAsset F} {e}, AssetSameMattes s s' → convAsset s = .ok e → ∃ e', convAsset s' = .ok e' := by
    intro s s' e h he
    cases h with
    | same => exact ⟨e, he⟩
    | precomposition h =>
      obtain ⟨x, hx, -⟩ := bind_ok he
      obtain ⟨y, hy⟩ := processLayers_withMatte h.layers hx
      unfold convAsset
      dsimp only
      rw [hy]
      exact ⟨_, rfl⟩
  have hall : ∃ es, List.Forall₂ (fun s e => convAsset s = .ok e) a'.assetList es := by
    have h1 := h.assets
    generalize a.assetList = as at has h1
    generalize a'.assetList = as' at h1
    generalize c.assets = cs at has
    induction h1 generalizing cs with
    | nil => exact ⟨[], .nil⟩
    | cons h1 _ ih =>
      cases has with
      | cons h2 h3 =>
        obtain ⟨e, he⟩ := this h1 h2
        obtain ⟨es', hes'⟩ := ih _ h3
        exact ⟨e :: es', .cons he hes'⟩
  obtain ⟨es, hes⟩ := hall
  unfold convAnimation
  rw [show (a'.assets.getD []).mapM convAsset = .ok es from mapM_ok_iff.mpr hes, hls]
  exact ⟨_, rfl⟩

end Import
end

end Velato
