import Verif.Spec.ValuesOnly
import Verif.Proofs.DocDraws

/-!
# Two documents that are the same at a frame: helper lemmas
-/

namespace Velato
open FloatOps (lit)
open Import

section
variable {F : Type} [FloatOps F] [Libm F] [Kurbo F]

/-! ## Shapes -/

theorem items_cons {fr : F} {T : Affine F} {al : F} {s : Schema.AnyShape F} {rest : List (Schema.AnyShape F)}
    {S S' : Sheet F} : ItemsDrawn fr T al (s :: rest) S S' ↔
      ∃ S₁, ItemsDrawn fr T al [s] S S₁ ∧ ItemsDrawn fr T al rest S₁ S' := by
  constructor
  · intro h
    cases h with
    | geometry h hr => exact ⟨_, .geometry h .nil, hr⟩
    | group ht hi hr => exact ⟨_, .group ht hi .nil, hr⟩
    | paint h hr => exact ⟨_, .paint h .nil, hr⟩
    | trim h hr => exact ⟨_, .trim h .nil, hr⟩
    | ignored h hr => exact ⟨_, .ignored h .nil, hr⟩
  · rintro ⟨S₁, h, hr⟩
    cases h with
    | geometry h hn => cases hn; exact .geometry h hr
    | group ht hi hn => cases hn; exact .group ht hi hr
    | paint h hn => cases hn; exact .paint h hr
    | trim h hn => cases hn; exact .trim h hr
    | ignored h hn => cases hn; exact .ignored h hr

theorem one_geometry {fr : F} {T : Affine F} {al : F} {s : Schema.AnyShape F} (hs : s.IsGeometry) {S S' : Sheet F} :
    ItemsDrawn fr T al [s] S S' ↔ ∃ els, OutlineAt fr s els ∧ S' = S.add T els := by
  constructor
  · intro h
    cases h with
    | geometry h hr => cases hr; exact ⟨_, h, rfl⟩
    | group => exact hs.elim
    | paint h hr => cases s <;> first | exact hs.elim | exact h.elim
    | trim => exact hs.elim
    | ignored h hr => cases s <;> first | exact hs.elim | exact h.elim | exact absurd h hs
  · rintro ⟨els, h, rfl⟩
    exact .geometry h .nil

theorem one_paint {fr : F} {T : Affine F} {al : F} {s : Schema.AnyShape F} (hs : s.IsPaint) {S S' : Sheet F} :
    ItemsDrawn fr T al [s] S S' ↔ ∃ p, PaintOf al fr p s ∧ S' = S.draw p := by
  constructor
  · intro h
    cases h with
    | geometry h hr =>
      obtain ⟨g, hg, -⟩ := h
      cases s <;> first | exact hs.elim | cases hg
    | group => exact hs.elim
    | paint h hr => cases hr; exact ⟨_, h, rfl⟩
    | trim => exact hs.elim
    | ignored h hr => cases s <;> first | exact hs.elim | exact h.elim
  · rintro ⟨p, h, rfl⟩
    exact .paint h .nil

theorem one_trim {fr : F} {T : Affine F} {al : F} {s : Schema.TrimPathShape F} {S S' : Sheet F} :
    ItemsDrawn fr T al [.trim s] S S' ↔ ∃ t, TrimAt fr s t ∧ S' = S.trim t := by
  constructor
  · intro h
    cases h with
    | geometry h hr => obtain ⟨g, hg, -⟩ := h; cases hg
    | paint h hr => exact h.elim
    | trim h hr => cases hr; exact ⟨_, h, rfl⟩
    | ignored h hr => exact h.elim
  · rintro ⟨p, h, rfl⟩
    exact .trim h .nil

theorem one_group {fr : F} {T : Affine F} {al : F} {e n items i} {S S' : Sheet F} :
    ItemsDrawn fr T al [.group e n items i] S S' ↔ ∃ M k E, GroupAt fr (groupTransform items) M k ∧
      ItemsDrawn fr (T.mul M) (al *. k) items S.enter E ∧ S' = S.leave E := by
  constructor
  · intro h
    cases h with
    | geometry h hr => obtain ⟨g, hg, -⟩ := h; cases hg
    | group ht hi hr => cases hr; exact ⟨_, _, _, ht, hi, rfl⟩
    | paint h hr => exact h.elim
    | ignored h hr => exact h.elim
  · rintro ⟨M, k, E, ht, hi, rfl⟩
    exact .group ht hi .nil

theorem one_ignored {fr : F} {T : Affine F} {al : F} {s : Schema.AnyShape F} (hs : s.IsIgnored) {S S' : Sheet F} :
    ItemsDrawn fr T al [s] S S' ↔ S' = S := by
  constructor
  · intro h
    cases h with
    | geometry h hr =>
      obtain ⟨g, hg, -⟩ := h
      cases s with
      | path s =>
        rcases shapeGeometry_ok (show convShapeGeometry s.shapeProperty = .ok (some g) from hg) with ⟨g', -, hp⟩ | ⟨e, -⟩
        · exact absurd hs (not_noPath hp)
        · cases e
      | _ => first | exact hs.elim | cases hg
    | group => exact hs.elim
    | paint h hr => cases s <;> first | exact hs.elim | exact h.elim
    | trim => exact hs.elim
    | ignored h hr => cases hr; rfl
  · rintro rfl
    exact .ignored hs .nil

theorem items_same {fr : F} {ss ss' : List (Schema.AnyShape F)} (h : ShapesSame fr ss ss') :
    ∀ (T : Affine F) (al : F) (S S' : Sheet F), ItemsDrawn fr T al ss S S' ↔ ItemsDrawn fr T al ss' S S' := by
  refine ShapesSame.rec
    (motive_1 := fun s s' _ => ∀ (T : Affine F) (al : F) (S S' : Sheet F),
      ItemsDrawn fr T al [s] S S' ↔ ItemsDrawn fr T al [s'] S S')
    (motive_2 := fun ss ss' _ => ∀ (T : Affine F) (al : F) (S S' : Sheet F),
      ItemsDrawn fr T al ss S S' ↔ ItemsDrawn fr T al ss' S S') ?_ ?_ ?_ ?_ ?_ ?_ ?_ ?_ h
  · intro s s' hs hs' h T al S S'
    simp only [one_geometry hs, one_geometry hs', h]
  · intro s s' hs hs' h T al S S'
    simp only [one_paint hs, one_paint hs', h]
  · intro s s' h T al S S'
    simp only [one_trim, h]
  · intro e n items i e' n' items' i' ht hi ih T al S S'
    simp only [one_group, ht, ih]
  · exact fun _ _ _ _ => Iff.rfl
  · intro s s' ss ss' h hs ih1 ih2 T al S S'
    rw [items_cons, items_cons (s := s')]
    simp only [ih1, ih2]
  · intro s ss ss' h hs ih T al S S'
    rw [items_cons]
    simp only [one_ignored h, exists_eq_left, ih]
  · intro s ss ss' h hs ih T al S S'
    rw [items_cons (s := s)]
    simp only [one_ignored h, exists_eq_left, ih]

/-! ## Layers -/

theorem idents_same {fr : F} {ls ls' : List (Schema.AnyLayer F)} (h : List.Forall₂ (LayerSame fr) ls ls') :
    ls.map Schema.AnyLayer.ident = ls'.map Schema.AnyLayer.ident := by
  induction h with
  | nil => rfl
  | cons h _ ih => rw [List.map_cons, List.map_cons, h.ident, ih]

theorem get_same {fr : F} {ls ls' : List (Schema.AnyLayer F)} (h : List.Forall₂ (LayerSame fr) ls ls') {j : Nat}
    {p : Schema.AnyLayer F} (hp : ls[j]? = some p) : ∃ p', ls'[j]? = some p' ∧ LayerSame fr p p' ∧ (p, p') ∈ ls.zip ls' := by
  obtain ⟨h1, rfl⟩ := List.getElem?_eq_some_iff.mp hp
  have h2 : j < ls'.length := h.length_eq ▸ h1
  refine ⟨ls'[j], List.getElem?_eq_getElem h2, (List.forall₂_iff_get.mp h).2 j h1 h2, ?_⟩
  have h3 : j < (ls.zip ls').length := by rw [List.length_zip]; omega
  have : (ls.zip ls')[j] = (ls[j], ls'[j]) := by rw [List.getElem_zip]
  exact this ▸ List.getElem_mem h3

theorem placedWithin_same {fr : F} {ls ls' : List (Schema.AnyLayer F)} (h : List.Forall₂ (LayerSame fr) ls ls')
    {n : Nat} {l : Schema.AnyLayer F} {M P : Affine F} (hp : PlacedWithin ls fr n l M P) :
    ∀ l', LayerSame fr l l' → PlacedWithin ls' fr n l' M P := by
  have hid := idents_same h
  induction hp with
  | root h => exact fun l' hl => .root (hl.parent ▸ h)
  | stray h hn => exact fun l' hl => .stray (hl.parent ▸ h) (hid ▸ hn)
  | limit => exact fun l' hl => .limit
  | @child n l id j p M N o P hi hj hp hl hr ih =>
    intro l' hs
    obtain ⟨p', hp', hpp, -⟩ := get_same h hp
    exact .child (hs.parent ▸ hi) (hid ▸ hj) hp' ((hpp.placed _ _).mp hl) (ih p' hpp)

theorem placedAt_same {fr : F} {ls ls' : List (Schema.AnyLayer F)} (h : List.Forall₂ (LayerSame fr) ls ls')
    {l l' : Schema.AnyLayer F} (hl : LayerSame fr l l') {P : Affine F} (hp : PlacedAt ls fr l P) : PlacedAt ls' fr l' P := by
  obtain ⟨M, o, hM, hP⟩ := hp
  exact ⟨M, o, (hl.placed _ _).mp hM, h.length_eq ▸ placedWithin_same h hP l' hl⟩

theorem LayerSame.symm {fr : F} {l l' : Schema.AnyLayer F} (h : LayerSame fr l l') : LayerSame fr l' l :=
  ⟨h.name.symm, h.ident.symm, h.parent.symm, h.matte.symm, h.matteMode.symm, h.matteLayer.symm, h.during.symm,
    fun M o => (h.placed M o).symm, fun T ops => (h.masks T ops).symm⟩

theorem layersSame_flip {fr : F} {ls ls' : List (Schema.AnyLayer F)} (h : List.Forall₂ (LayerSame fr) ls ls') :
    List.Forall₂ (LayerSame fr) ls' ls := by
  induction h with
  | nil => exact .nil
  | cons h _ ih => exact .cons h.symm ih

theorem LayerSame.matted {fr : F} {l l' : Schema.AnyLayer F} (h : LayerSame fr l l') : l.Matted ↔ l'.Matted := by
  unfold Schema.AnyLayer.Matted
  rw [h.matteMode]

theorem pending_same {fr : F} {ls ls' : List (Schema.AnyLayer F)} (h : List.Forall₂ (LayerSame fr) ls ls') {i j : Nat}
    (hp : PendingMatte ls i j) : PendingMatte ls' i j := by
  obtain ⟨h1, ⟨s, hs, hm⟩, h2⟩ := hp
  obtain ⟨s', hs', hss, -⟩ := get_same h hs
  refine ⟨h1, ⟨s', hs', hss.matte.mp hm⟩, fun k t hk1 hk2 ht => ?_⟩
  obtain ⟨t', ht', htt, -⟩ := get_same (layersSame_flip h) ht
  have := h2 k t' hk1 hk2 ht'
  exact ⟨fun hx => this.1 (htt.matte.mp hx), fun hx => this.2 (htt.matted.mp hx)⟩

theorem matteOf_same {fr : F} {ls ls' : List (Schema.AnyLayer F)} (h : List.Forall₂ (LayerSame fr) ls ls') {i : Nat}
    {l l' : Schema.AnyLayer F} (hl : LayerSame fr l l') {r : Option (BlendMode × Nat)} (hm : MatteOf ls i l r) :
    MatteOf ls' i l' r := by
  have hid := idents_same h
  cases hm with
  | without h => exact .without (hl.matteMode ▸ h)
  | named hm hx hr => exact .named (hl.matteMode ▸ hm) (hl.matteLayer ▸ hx) (hid ▸ hr)
  | pending hm hx hj => exact .pending (hl.matteMode ▸ hm) (hl.matteLayer ▸ hx) (pending_same h hj)
  | nothing hm hx hj =>
    exact .nothing (hl.matteMode ▸ hm) (hl.matteLayer ▸ hx) fun j hp => hj j (pending_same (layersSame_flip h) hp)

omit [FloatOps F] [Libm F] [Kurbo F] in
theorem shows_unique {a : Schema.Animation F} {q : Schema.PrecompositionLayer F} {p p' : Schema.PrecompAsset F}
    (h : a.Shows q p) (h' : a.Shows q p') : p = p' := by
  obtain ⟨i, hi, hid, hl⟩ := h
  obtain ⟨j, hj, hjd, hl'⟩ := h'
  rcases Nat.lt_trichotomy i j with hij | rfl | hij
  · exact absurd hjd (hl j p' hij hj)
  · rw [hi] at hj; cases hj; rfl
  · exact absurd hid (hl' i p hij hi)

theorem blank_calls {a : Schema.Animation F} {T : Affine F} {al fr : F} {l : Schema.AnyLayer F} (h : a.Blank l)
    {co : List (Op F)} (hc : ContentDrawn a T al fr l co) : co = [] := by
  cases hc with
  | hidden => rfl
  | nothing => rfl
  | missing => rfl
  | shape hv _ =>
    rcases h with h | ⟨h, -⟩ | ⟨q, h, -⟩
    · exact absurd h hv
    · exact absurd rfl (h _)
    · cases h
  | precomposition hv hp hid _ _ =>
    rcases h with h | ⟨-, h⟩ | ⟨q, h, hn⟩
    · exact absurd h hv
    · exact absurd rfl (h _)
    · cases h
      exact absurd hid (hn _ (List.mem_of_getElem? hp))

theorem blank_drawn {a : Schema.Animation F} {T : Affine F} {al fr : F} {l : Schema.AnyLayer F} (h : a.Blank l) :
    ContentDrawn a T al fr l [] := by
  rcases h with h | ⟨h1, h2⟩ | ⟨q, rfl, hn⟩
  · exact .hidden h
  · exact .nothing h1 h2
  · exact .missing hn

theorem LayerSame.refl (fr : F) (l : Schema.AnyLayer F) : LayerSame fr l l :=
  ⟨rfl, rfl, rfl, Iff.rfl, rfl, rfl, Iff.rfl, fun _ _ => Iff.rfl, fun _ _ => Iff.rfl⟩

theorem layerSame_refl (fr : F) : ∀ ls : List (Schema.AnyLayer F), List.Forall₂ (LayerSame fr) ls ls
  | [] => .nil
  | l :: ls => .cons (.refl fr l) (layerSame_refl fr ls)

theorem zip_self_mem {α : Type} {x y : α} : ∀ {l : List α}, (x, y) ∈ l.zip l → x = y
  | a :: l, h => by
    rw [List.zip_cons_cons, List.mem_cons] at h
    rcases h with h | h
    · cases h; rfl
    · exact zip_self_mem h

theorem layersSame_refl {a a' : Schema.Animation F} (h : a.assetList = a'.assetList) (ls : List (Schema.AnyLayer F)) (fr : F) :
    LayersSame a a' ls ls fr :=
  .mk (layerSame_refl fr ls) fun _ _ hl _ => zip_self_mem hl ▸ .equal h

theorem layers_same {a a' : Schema.Animation F} (ha : a.area = a'.area) {src ls : List (Schema.AnyLayer F)} {T : Affine F}
    {al fr : F} {number : Nat → Nat} {i : Nat} {per : List (List (Op F))}
    (hd : LayerListDrawn a src T al fr number i ls per) : ∀ src' ls', LayersSame a a' src src' fr →
      List.Forall₂ (LayerSame fr) ls ls' → (∀ x ∈ ls.zip ls', x ∈ src.zip src') →
      LayerListDrawn a' src' T al fr number i ls' per := by
  refine LayerListDrawn.rec
    (motive_1 := fun src T al fr ix i l ops _ => ∀ src' l', LayersSame a a' src src' fr → LayerSame fr l l' →
      (l, l') ∈ src.zip src' → LayerDrawn a' src' T al fr ix i l' ops)
    (motive_2 := fun T al fr l co _ => ∀ l', ContentSame a a' fr l l' → ContentDrawn a' T al fr l' co)
    (motive_3 := fun src T al fr number i ls per _ => ∀ src' ls', LayersSame a a' src src' fr →
      List.Forall₂ (LayerSame fr) ls ls' → (∀ x ∈ ls.zip ls', x ∈ src.zip src') →
      LayerListDrawn a' src' T al fr number i ls' per)
    ?_ ?_ ?_ ?_ ?_ ?_ ?_ ?_ ?_ ?_ ?_ hd
  · intro src T al fr ix i l h src' l' _ hl _
    exact .absent fun hx => h (hl.during.mpr hx)
  · intro ls T alpha frame ix i l P M o ms co h hm hP hk hms _ ih src' l' hs hl hmem
    obtain ⟨hls, hco⟩ := hs
    have : announced l ix (ms ++ co ++ List.replicate ms.length .pop) =
        announced l' ix (ms ++ co ++ List.replicate ms.length .pop) := by
      unfold announced; rw [hl.name]
    rw [this]
    exact .plain (hl.during.mp h) (matteOf_same hls hl hm) (placedAt_same hls hl hP) ((hl.placed _ _).mp hk)
      ((hl.masks _ _).mp hms) (ih l' (hco l l' hmem h))
  · intro ls T alpha frame ix i l P M o ms co bl j m mo h hm hj _ hP hk hms _ ihm ih src' l' hs hl hmem
    obtain ⟨hls, hco⟩ := hs
    obtain ⟨m', hj', hmm, hmm'⟩ := get_same hls hj
    have : announced l ix (composed a T bl mo (ms ++ co ++ List.replicate ms.length .pop)) =
        announced l' ix (composed a' T bl mo (ms ++ co ++ List.replicate ms.length .pop)) := by
      unfold announced composed; rw [hl.name, ha]
    rw [this]
    exact .matted (hl.during.mp h) (matteOf_same hls hl hm) hj' (ihm src' m' ⟨hls, hco⟩ hmm hmm')
      (placedAt_same hls hl hP) ((hl.placed _ _).mp hk) ((hl.masks _ _).mp hms) (ih l' (hco l l' hmem h))
  · intro T al fr l h l' hs
    cases hs with
    | equal => exact .hidden h
    | blank _ h' => exact blank_drawn h'
    | shapes hv => exact absurd h hv
    | «instance» hv => exact absurd h hv
  · intro T al fr l h1 h2 l' hs
    cases hs with
    | equal => exact .nothing h1 h2
    | blank _ h' => exact blank_drawn h'
    | shapes hv => exact absurd rfl (h1 _)
    | «instance» hv => exact absurd rfl (h2 _)
  · intro T al fr q S hv hss l' hs
    cases hs with
    | equal => exact .shape hv hss
    | blank h h' => rw [blank_calls h (.shape hv hss)]; exact blank_drawn h'
    | shapes hv hv' h => exact .shape hv' ((items_same h _ _ _ _).mp hss)
  · intro T al fr q hn l' hs
    cases hs with
    | equal h => exact .missing (by rw [← h]; exact hn)
    | blank _ h' => exact blank_drawn h'
    | «instance» hv hv' hp =>
      obtain ⟨i, hi, hid, -⟩ := hp
      exact absurd hid (hn _ (List.mem_of_getElem? hi))
  · intro T al fr q p per i hv hp hid hlast hls ih l' hs
    cases hs with
    | equal h =>
      refine .precomposition hv (by rw [← h]; exact hp) hid (by rw [← h]; exact hlast) ?_
      exact ih _ _ (layersSame_refl h _ _) (layerSame_refl _ _) fun _ hx => hx
    | blank h h' =>
      rw [blank_calls h (.precomposition hv hp hid hlast hls)]
      exact blank_drawn h'
    | @«instance» _ _ q' p₀ p' _ hv' hsh hsh' ht h =>
      obtain rfl := shows_unique hsh ⟨i, hp, hid, hlast⟩
      obtain ⟨i', hp', hid', hlast'⟩ := hsh'
      refine .precomposition hv' hp' hid' hlast' ?_
      rw [← ht]
      obtain ⟨h1, h2⟩ := h
      exact ih p'.layers p'.layers ⟨h1, h2⟩ h1 fun _ hx => hx
  · intro ls T al fr number i src' ls' _ hls _
    cases hls
    exact .nil
  · intro ls T al fr number i l rest per h _ ih src' ls' hs hls hsub
    cases hls with
    | cons hl hls =>
      exact .matte (hl.matte.mp h) (ih src' _ hs hls fun x hx => hsub x (by rw [List.zip_cons_cons]; exact .tail _ hx))
  · intro ls T al fr number i l ops rest per h _ _ ih1 ih2 src' ls' hs hls hsub
    cases hls with
    | cons hl hls =>
      exact .layer (fun hx => h (hl.matte.mpr hx)) (ih1 src' _ hs hl (hsub _ (by rw [List.zip_cons_cons]; exact .head _)))
        (ih2 src' _ hs hls fun x hx => hsub x (by rw [List.zip_cons_cons]; exact .tail _ hx))

theorem shapesSame_symm {fr : F} {ss ss' : List (Schema.AnyShape F)} (h : ShapesSame fr ss ss') : ShapesSame fr ss' ss := by
  refine ShapesSame.rec (motive_1 := fun s s' _ => ShapeSame fr s' s) (motive_2 := fun ss ss' _ => ShapesSame fr ss' ss)
    ?_ ?_ ?_ ?_ ?_ ?_ ?_ ?_ h
  · exact fun hs hs' h => .geometry hs' hs fun els => (h els).symm
  · exact fun hs hs' h => .paint hs' hs fun al p => (h al p).symm
  · exact fun h => .trim fun t => (h t).symm
  · exact fun ht _ ih => .group (fun M k => (ht M k).symm) ih
  · exact .nil
  · exact fun _ _ h hs => .cons h hs
  · exact fun h _ hs => .right h hs
  · exact fun h _ hs => .left h hs

theorem layersSame_symm {a a' : Schema.Animation F} {ls ls' : List (Schema.AnyLayer F)} {fr : F}
    (h : LayersSame a a' ls ls' fr) : LayersSame a' a ls' ls fr := by
  refine LayersSame.rec (motive_1 := fun ls ls' fr _ => LayersSame a' a ls' ls fr)
    (motive_2 := fun fr l l' _ => ContentSame a' a fr l' l) ?_ ?_ ?_ ?_ ?_ h
  · intro ls ls' fr hls _ ih
    refine .mk (layersSame_flip hls) fun l' l hl hd => ih l l' ?_ ?_
    · rw [← List.zip_swap]
      exact List.mem_map.mpr ⟨(l', l), hl, rfl⟩
    · obtain ⟨k, hk, e⟩ := List.mem_iff_getElem.mp hl
      rw [List.getElem_zip] at e
      cases e
      rw [List.length_zip] at hk
      exact ((List.forall₂_iff_get.mp hls).2 k (by omega) (by omega)).during.mpr hd
  · exact fun h => .equal h.symm
  · exact fun h h' => .blank h' h
  · exact fun hv hv' h => .shapes hv' hv (shapesSame_symm h)
  · intro fr q q' p p' hv hv' hp hp' ht _ ih
    exact .instance hv' hv hp' hp ht.symm (ht ▸ ih)

end
end Velato
