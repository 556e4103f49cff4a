import Verif.Spec.Reorder
import Verif.Props.Remove
import Verif.Proofs.EasingAccuracy

/-!
# Rearranging the layers of a document: lemmas
-/

namespace Velato
open FloatOps (lit)

section
variable {F : Type}

theorem getElem?_inj_of_nodup {α : Type} {l : List α} (h : l.Nodup) {i j : Nat} {x : α} (hi : l[i]? = some x)
    (hj : l[j]? = some x) : i = j := by
  obtain ⟨hi', rfl⟩ := List.getElem?_eq_some_iff.mp hi
  obtain ⟨hj', hx⟩ := List.getElem?_eq_some_iff.mp hj
  exact (h.getElem_inj_iff.mp hx).symm

/-- Where the layers go. -/
theorem exists_places {α : Type} {l l' : List α} (h : l'.Perm l) : ∃ f : Nat → Nat, ∀ i, l'[f i]? = l[i]? := by
  have : ∀ i : Nat, ∃ j : Nat, l'[j]? = l[i]? := by
    intro i
    cases hi : l[i]? with
    | none => exact ⟨i, by rw [List.getElem?_eq_none_iff] at hi ⊢; rw [h.length_eq]; exact hi⟩
    | some x => exact List.mem_iff_getElem?.mp (h.mem_iff.mpr (List.mem_of_getElem? hi))
  exact ⟨fun i => (this i).choose, fun i => (this i).choose_spec⟩

variable [FloatOps F] [Libm F] [Kurbo F]

/-- The layer `l'` is the layer `l`, the places it refers to are moved. -/
structure Moved (f : Nat → Nat) (l l' : Layer F) : Prop where
  same : l' = { l with parent := l'.parent, maskLayer := l'.maskLayer }
  parent : l'.parent = l.parent.map f
  matte : l'.maskLayer = l.maskLayer.map fun p => (p.1, f p.2)

omit [FloatOps F] in
theorem chaseParents_moved [FloatOps F] {f : Nat → Nat} {ls ls' : List (Layer F)} (h : ∀ i, Option.Rel (Moved f) ls[i]? ls'[f i]?)
    (fr : F) : ∀ (n : Nat) (p : Option Nat) (T : Affine F),
      chaseParents ls fr n p T = chaseParents ls' fr n (p.map f) T
  | _, none, _ => by rw [Option.map_none]; unfold chaseParents; rfl
  | 0, some _, _ => rfl
  | n + 1, some i, T => by
    have hi := h i
    rw [Option.map_some]
    unfold chaseParents
    generalize ls[i]? = o, ls'[f i]? = o' at hi
    cases hi with
    | none => rfl
    | some hm =>
      dsimp only
      rw [hm.parent, ← chaseParents_moved h fr n, hm.same]

theorem layerOps_moved {c : Composition F} {f : Nat → Nat} {ls ls' : List (Layer F)} (hlen : ls.length = ls'.length)
    (h : ∀ i, Option.Rel (Moved f) ls[i]? ls'[f i]?) : ∀ (n : Nat) {l l' : Layer F}, Moved f l l' →
      ∀ (ix : Nat) (T : Affine F) (a fr : F), layerOps c n ls l ix T a fr = layerOps c n ls' l' ix T a fr
  | 0, _, _, _, _, _, _, _ => rfl
  | n + 1, l, l', hl, ix, T, a, fr => by
    have ih := fun {l l'} => layerOps_moved (c := c) hlen h n (l := l) (l' := l')
    show layerBody c (layerOps c n) ls l ix T a fr = layerBody c (layerOps c n) ls' l' ix T a fr
    have ht : l'.transform = l.transform := by rw [hl.same]
    have hT : computeTransform ls l T fr = computeTransform ls' l' T fr := by
      unfold computeTransform
      rw [chaseParents_moved h, hl.parent, hlen, ht]
    have hmo : matteOps c (layerOps c n) ls l T a fr = matteOps c (layerOps c n) ls' l' T a fr := by
      unfold matteOps
      rw [hl.matte]
      cases hq : l.maskLayer with
      | none => rfl
      | some p =>
        obtain ⟨b, j⟩ := p
        have hr := h j
        dsimp only [Option.map_some]
        generalize ls[j]? = o, ls'[f j]? = o' at hr
        cases hr with
        | none => rfl
        | some hm =>
          dsimp only
          rw [ih hm]
    have hco : ∀ T' a', contentOps c (layerOps c n) l T' a' fr = contentOps c (layerOps c n) l' T' a' fr := by
      intro T' a'
      rw [hl.same]
      rfl
    have hms : l.maskLayer.isSome = l'.maskLayer.isSome := by rw [hl.matte]; cases l.maskLayer <;> rfl
    unfold layerBody layerOut
    rw [hmo, hT, hco, hms, hl.same]

/-! ## Import -/

theorem mapM_ok_of_mem {α β : Type} {g : α → Except Fault β} {l l' : List α} {es : List β} (h : l.mapM g = .ok es)
    (hm : ∀ x ∈ l', x ∈ l) : ∃ es', l'.mapM g = .ok es' := by
  have hf := mapM_ok_iff.mp h
  have hx : ∀ x ∈ l', ∃ y, g x = .ok y := by
    intro x hx
    obtain ⟨i, hi⟩ := List.mem_iff_getElem?.mp (hm x hx)
    obtain ⟨y, -, hy⟩ := forall₂_getElem?_right hf hi
    exact ⟨y, hy⟩
  clear hm
  induction l' with
  | nil => exact ⟨[], rfl⟩
  | cons x xs ih =>
    obtain ⟨y, hy⟩ := hx x (by simp)
    obtain ⟨ys, hys⟩ := ih fun z hz => hx z (List.mem_cons_of_mem _ hz)
    exact ⟨y :: ys, mapM_ok_iff.mpr (.cons hy (mapM_ok_iff.mp hys))⟩

theorem rearranged_import {a a' : Schema.Animation F} (h : a.Rearranged a') {c : Composition F}
    (hc : Import.convAnimation a = .ok c) :
    ∃ c', Import.convAnimation a' = .ok c' ∧ c' = { c with layers := c'.layers } := by
  obtain ⟨has, hp, h1, h2, h3, h4⟩ := Import.convAnimation_ok hc
  obtain ⟨es, hes, -⟩ := Import.processLayers_ok hp
  obtain ⟨es', hes'⟩ := mapM_ok_of_mem (l' := a'.layers) (mapM_ok_iff.mpr hes) fun x hx => h.perm.mem_iff.mp hx
  obtain ⟨ls, hls⟩ : ∃ ls, Import.processLayers a'.layers = .ok ls := by
    unfold Import.processLayers
    rw [hes']
    exact ⟨_, rfl⟩
  have has' : (a.assets.getD []).mapM Import.convAsset = .ok c.assets := mapM_ok_iff.mpr has
  refine ⟨{ c with layers := ls }, ?_, rfl⟩
  rw [h.same]
  unfold Import.convAnimation
  dsimp only
  rw [has', hls]
  show Except.ok _ = Except.ok _
  rw [← h1, ← h2, ← h3, ← h4]

omit [FloatOps F] [Libm F] [Kurbo F] in
theorem LastPosition.moved {α : Type} {ids ids' : List α} {f : Nat → Nat} (hf : ∀ i, ids'[f i]? = ids[i]?) (hp : ids'.Perm ids)
    {id : α} (hu : ∀ i j : Nat, ids'[i]? = some id → ids'[j]? = some id → i = j) {r : Option Nat} (h : LastPosition ids id r) :
    LastPosition ids' id (r.map f) := by
  cases r with
  | none => exact fun hm => h (hp.mem_iff.mp hm)
  | some j =>
    have hj : ids'[f j]? = some id := by rw [hf]; exact h.1
    exact ⟨hj, fun m hm he => absurd (hu _ _ hj he) (Nat.ne_of_lt hm)⟩

theorem moved_of_import {a a' : Schema.Animation F} (h : a.Rearranged a') {c c' : Composition F}
    (hc : Import.convAnimation a = .ok c) (hc' : Import.convAnimation a' = .ok c') {f : Nat → Nat}
    (hf : ∀ i, a'.layers[f i]? = a.layers[i]?) (i : Nat) : Option.Rel (Moved f) c.layers[i]? c'.layers[f i]? := by
  obtain ⟨-, hp, -⟩ := Import.convAnimation_ok hc
  obtain ⟨-, hp', -⟩ := Import.convAnimation_ok hc'
  have hlen := Import.processLayers_length hp
  have hlen' := Import.processLayers_length hp'
  have hnd : a'.layers.Nodup := h.perm.nodup_iff.mpr h.distinct
  cases hl : c.layers[i]? with
  | none =>
    have : a.layers[i]? = none := by rw [List.getElem?_eq_none_iff] at hl ⊢; omega
    rw [← hf, List.getElem?_eq_none_iff, hlen'] at this
    rw [List.getElem?_eq_none_iff.mpr this]
    exact .none
  | some l =>
    have hil : i < a.layers.length := by rw [hlen]; exact (List.getElem?_eq_some_iff.mp hl).1
    obtain ⟨t, ht⟩ : ∃ t, a.layers[i]? = some t := ⟨_, List.getElem?_eq_getElem hil⟩
    have ht' : a'.layers[f i]? = some t := by rw [hf]; exact ht
    obtain ⟨l', hl'⟩ : ∃ l', c'.layers[f i]? = some l' := by
      have := (List.getElem?_eq_some_iff.mp ht').1
      rw [hlen'] at this
      exact ⟨_, List.getElem?_eq_getElem this⟩
    rw [hl']
    refine .some ?_
    have hd : ImportedList a c a.layers c.layers := .root
    have hd' : ImportedList a' c' a'.layers c'.layers := .root
    have htm := List.mem_of_getElem? ht
    have hids : ∀ i, (a'.layers.map Schema.AnyLayer.ident)[f i]? = (a.layers.map Schema.AnyLayer.ident)[i]? := by
      intro i
      rw [List.getElem?_map, List.getElem?_map, hf]
    have hpids : (a'.layers.map Schema.AnyLayer.ident).Perm (a.layers.map Schema.AnyLayer.ident) := h.perm.map _
    have huniq : ∀ id, (∀ s : Schema.AnyLayer F, s.ident = id → ¬ s.Unreferenced a.layers) →
        ∀ i j : Nat, (a'.layers.map Schema.AnyLayer.ident)[i]? = some id → (a'.layers.map Schema.AnyLayer.ident)[j]? = some id →
          i = j := by
      intro id hr i j hi hj
      rw [List.getElem?_map] at hi hj
      obtain ⟨s, hs, hsi⟩ := Option.map_eq_some_iff.mp hi
      obtain ⟨s', hs', hsi'⟩ := Option.map_eq_some_iff.mp hj
      rcases h.numbers s (h.perm.mem_iff.mp (List.mem_of_getElem? hs)) s' (h.perm.mem_iff.mp (List.mem_of_getElem? hs'))
        (hsi.trans hsi'.symm) with he | he
      · exact getElem?_inj_of_nodup hnd hs (he ▸ hs')
      · exact absurd he (hr s hsi)
    refine ⟨?_, ?_, ?_⟩
    · obtain ⟨es, hes, he⟩ := Import.processLayers_ok hp
      obtain ⟨es', hes', he'⟩ := Import.processLayers_ok hp'
      rw [he, Import.linkLayers_get] at hl
      rw [he', Import.linkLayers_get] at hl'
      obtain ⟨e, h1, rfl⟩ := Option.map_eq_some_iff.mp hl
      obtain ⟨e', h2, rfl⟩ := Option.map_eq_some_iff.mp hl'
      obtain ⟨e₁, h3, c1⟩ := forall₂_getElem?_right hes ht
      obtain ⟨e₂, h4, c2⟩ := forall₂_getElem?_right hes' ht'
      rw [h1] at h3
      rw [h2] at h4
      cases h3
      cases h4
      rw [c1] at c2
      cases c2
      rfl
    · have h1 := (C45_parents hc hd ht hl).1
      have h2 := (C45_parents hc' hd' ht' hl').1
      cases hpi : t.visual.layer.parentIndex with
      | none => rw [hpi] at h1 h2; rw [h1, h2]; rfl
      | some id =>
        rw [hpi] at h1 h2
        dsimp only at h1 h2
        exact h2.unique (h1.moved hids hpids (huniq id fun s hs hu => (hu t htm).1 (by rw [hpi, hs])))
    · obtain ⟨a1, b1, c1, -⟩ := C46_mattes hc hd ht hl
      obtain ⟨a2, b2, c2, -⟩ := C46_mattes hc' hd' ht' hl'
      cases hmm : t.visual.matteMode with
      | none => rw [a1 hmm, a2 hmm]; rfl
      | some mode =>
        cases hmi : t.visual.matteLayerIndex with
        | some x =>
          obtain ⟨r1, h1, e1⟩ := b1 mode x hmm hmi
          obtain ⟨r2, h2, e2⟩ := b2 mode x hmm hmi
          rw [e1, e2, h2.unique (h1.moved hids hpids (huniq _ fun s hs hu => (hu t htm).2 x hmi hs.symm))]
          cases r1 <;> rfl
        | none =>
          have hmt := fun m => h.mattes t m (by rw [hmm]; simp) hmi
          have hat : ∀ {ls : List (Schema.AnyLayer F)}, ls.Nodup → ∀ {p : Nat}, ls[p]? = some t → ∀ {j : Nat}
              {m : Schema.AnyLayer F}, ls[j]? = some m → (PendingMatte ls p j ↔ MatteBefore ls t m) := by
            intro ls hn p hp j m hj
            refine ⟨fun hq => ⟨p, j, hp, hj, hq⟩, ?_⟩
            rintro ⟨p', j', hp', hj', hq⟩
            rw [getElem?_inj_of_nodup hn hp hp', getElem?_inj_of_nodup hn hj hj']
            exact hq
          have hiff : ∀ j m, a.layers[j]? = some m → (PendingMatte a.layers i j ↔ PendingMatte a'.layers (f i) (f j)) := by
            intro j m hj
            rw [hat h.distinct ht hj, hmt, ← hat hnd ht' (by rw [hf]; exact hj)]
          have hpend : ∀ {ls : List (Schema.AnyLayer F)} {p j : Nat}, PendingMatte ls p j → ∃ m, ls[j]? = some m := by
            rintro ls p j ⟨-, ⟨m, hm, -⟩, -⟩
            exact ⟨m, hm⟩
          rcases c1 mode hmm hmi with ⟨m, h1, e1⟩ | ⟨h1, e1⟩ <;>
            rcases c2 mode hmm hmi with ⟨m', h2, e2⟩ | ⟨h2, e2⟩
          · rw [e1, e2]
            obtain ⟨x, hx⟩ := hpend h1
            have h3 := (hiff m x hx).mp h1
            have : f m = m' := by
              by_contra hne
              rcases Nat.lt_or_gt_of_ne hne with hlt | hlt
              · obtain ⟨x, hx, hxm⟩ := h2.2.1
                exact (h3.2.2 m' x hlt h2.1 hx).1 hxm
              · obtain ⟨x, hx, hxm⟩ := h3.2.1
                exact (h2.2.2 (f m) x hlt h3.1 hx).1 hxm
            rw [← this]
            rfl
          · obtain ⟨x, hx⟩ := hpend h1
            exact absurd ((hiff m x hx).mp h1) (h2 _)
          · obtain ⟨x, hx⟩ := hpend h2
            obtain ⟨j, hj⟩ := List.mem_iff_getElem?.mp (h.perm.mem_iff.mp (List.mem_of_getElem? hx))
            have hjm : f j = m' := getElem?_inj_of_nodup hnd (by rw [hf]; exact hj) hx
            exact absurd ((hiff j x hj).mpr (by rw [hjm]; exact h2)) (h1 _)
          · rw [e1, e2]; rfl

end

theorem flatten_shown {α β : Type} {calls : α → List β} {shown : α → Bool} : ∀ {ls : List α},
    (∀ s ∈ ls, calls s ≠ [] → shown s = true) →
      (ls.map calls).reverse.flatten = ((ls.filter shown).map calls).reverse.flatten
  | [], _ => rfl
  | s :: ls, h => by
    have ih := flatten_shown (ls := ls) fun t ht => h t (List.mem_cons_of_mem _ ht)
    cases hs : shown s with
    | true => rw [List.filter_cons_of_pos hs]; simp only [List.map_cons, List.reverse_cons, List.flatten_append, ih]
    | false =>
      have : calls s = [] := by
        by_contra hne
        rw [h s (by simp) hne] at hs
        cases hs
      rw [List.filter_cons_of_neg (by rw [hs]; simp)]
      simp [this, ih]

/-- Rearranging back. -/
theorem Schema.Animation.Rearranged.symm {F : Type} [FloatOps F] {a a' : Schema.Animation F} (h : a.Rearranged a') : a'.Rearranged a where
  same := by rw [h.same]
  perm := h.perm.symm
  distinct := h.perm.nodup_iff.mpr h.distinct
  numbers := fun s hs t ht he => by
    rcases h.numbers s (h.perm.mem_iff.mp hs) t (h.perm.mem_iff.mp ht) he with h1 | h1
    · exact .inl h1
    · exact .inr fun u hu => h1 u (h.perm.mem_iff.mp hu)
  mattes := fun t m h1 h2 => (h.mattes t m h1 h2).symm

/-- The matte just before a layer is the one it uses. -/
theorem matteBefore_adjacent {F : Type} {ls : List (Schema.AnyLayer F)} (hn : ls.Nodup) {m t x : Schema.AnyLayer F}
    (hm : m.Matte) {i : Nat} (hi : ls[i]? = some m) (hi1 : ls[i + 1]? = some t) : MatteBefore ls t x ↔ x = m := by
  constructor
  · rintro ⟨i', j, h1, h2, hlt, -, hb⟩
    obtain rfl : i' = i + 1 := getElem?_inj_of_nodup hn h1 hi1
    by_cases hji : j = i
    · subst hji
      rw [hi] at h2
      exact (Option.some.inj h2).symm
    · exact absurd hm (hb i m (by omega) (by omega) hi).1
  · rintro rfl
    exact ⟨i + 1, i, hi1, hi, by omega, ⟨_, hi, hm⟩, fun k _ h1 h2 => by omega⟩

end Velato
