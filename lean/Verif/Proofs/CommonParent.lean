import Verif.Spec.CommonParent
import Verif.Proofs.MoveLayers
import Verif.Proofs.Equivariance

/-!
# A common parent: lemmas
-/

namespace Velato
open FloatOps (lit)

/-! ## The layers -/

section
variable {F : Type}

theorem visual_withParent (k : Nat) (s : Schema.AnyLayer F) : (s.withParent k).visual = s.visual.withParent k := by
  cases s <;> rfl

theorem ident_withParent (k : Nat) (s : Schema.AnyLayer F) : (s.withParent k).ident = s.ident := by
  unfold Schema.AnyLayer.ident
  rw [visual_withParent]
  rfl

theorem parentIndex_withParent (k : Nat) (s : Schema.AnyLayer F) :
    (s.withParent k).visual.layer.parentIndex = some (s.visual.layer.parentIndex.getD k) := by
  rw [visual_withParent]
  rfl

theorem matte_withParent (k : Nat) (s : Schema.AnyLayer F) : (s.withParent k).Matte ↔ s.Matte := by
  cases s <;> exact Iff.rfl

variable [FloatOps F] [Libm F] [Kurbo F]

namespace Import

theorem setupLayer_withParent (k : Nat) (v : Schema.VisualLayer F) (w h st : F) :
    (∃ e, setupLayer v w h st = .ok e) → ∃ e, setupLayer (v.withParent k) w h st = .ok e := by
  unfold setupLayer
  show (∃ e, (convTransform v.transform >>= fun x => convBlendMode (v.blendMode.getD .normal) >>= fun b =>
    convMasks (v.masksProperties.getD []) >>= fun ms => _) = .ok e) → ∃ e, (convTransform v.transform >>= fun x =>
      convBlendMode (v.blendMode.getD .normal) >>= fun b => convMasks (v.masksProperties.getD []) >>= fun ms => _) = .ok e
  rintro ⟨e, he⟩
  cases hx : convTransform v.transform with
  | error e => rw [hx] at he; cases he
  | ok x =>
    rw [hx] at he
    cases hb : convBlendMode (v.blendMode.getD .normal) with
    | error e => rw [hb] at he; cases he
    | ok b =>
      rw [hb] at he
      cases hm : convMasks (v.masksProperties.getD []) with
      | error e => rw [hm] at he; cases he
      | ok m => exact ⟨_, rfl⟩

theorem convLayer_withParent (k : Nat) (s : Schema.AnyLayer F) (h : ∃ e, convLayer s = .ok e) :
    ∃ e, convLayer (s.withParent k) = .ok e := by
  obtain ⟨e, he⟩ := h
  have hh : isLayerHidden (s.withParent k) = isLayerHidden s := by cases s <;> rfl
  have hc : layerContent (s.withParent k) = layerContent s := by cases s <;> rfl
  unfold convLayer at he ⊢
  rw [hh, hc]
  have hset : (∃ e, layerSetup s = .ok e) → ∃ e, layerSetup (s.withParent k) = .ok e := by
    cases s <;> exact setupLayer_withParent _ _ _ _ _
  cases hs : layerSetup s with
  | error e => rw [hs] at he; cases he
  | ok x =>
    obtain ⟨y, hy⟩ := hset ⟨x, hs⟩
    rw [hs] at he
    rw [hy]
    cases hb : isLayerHidden s with
    | true => exact ⟨_, rfl⟩
    | false =>
      rw [hb] at he
      cases hl : layerContent s with
      | error e => rw [hl] at he; cases he
      | ok c => exact ⟨_, rfl⟩

end Import

/-! ## What layers show -/

theorem contentDrawn_same {a a' : Schema.Animation F} (har : a'.area = a.area) (has : a'.assetList = a.assetList)
    {T : Affine F} {al fr : F} {l : Schema.AnyLayer F} {co : List (Op F)} (h : ContentDrawn a T al fr l co) :
    ContentDrawn a' T al fr l co := by
  refine ContentDrawn.rec
    (motive_1 := fun ls T al fr ix i l ops _ => LayerDrawn a' ls T al fr ix i l ops)
    (motive_2 := fun T al fr l co _ => ContentDrawn a' T al fr l co)
    (motive_3 := fun ls T al fr number i seg per _ => LayerListDrawn a' ls T al fr number i seg per)
    (fun h => .absent h) (fun h hm hP hk hms _ ih => .plain h hm hP hk hms ih) ?_ (fun h => .hidden h)
    (fun hs hp => .nothing hs hp) (fun hv hss => .shape hv hss) (fun hn => .missing (by rw [has]; exact hn)) ?_ .nil
    (fun h _ ih => .matte h ih) (fun h _ _ ih1 ih2 => .layer h ih1 ih2) h
  · intro ls T alpha frame ix i l P M o ms co b j m mo h hm hj _ hP hk hms _ ih1 ih2
    have := LayerDrawn.matted (a := a') (ix := ix) h hm hj ih1 hP hk hms ih2
    unfold composed at this ⊢
    rw [har] at this
    exact this
  · intro T alpha frame q p' per i hv hp hid hlast _ ih
    exact .precomposition hv (by rw [has]; exact hp) hid (by rw [has]; exact hlast) ih

theorem contentDrawn_withParent {a : Schema.Animation F} (k : Nat) {T : Affine F} {al fr : F} {l : Schema.AnyLayer F}
    {co : List (Op F)} (h : ContentDrawn a T al fr l co) : ContentDrawn a T al fr (l.withParent k) co := by
  cases h with
  | hidden h => exact .hidden (by cases l <;> exact h)
  | nothing hs hp =>
    refine .nothing ?_ ?_ <;> cases l <;> first
      | exact absurd rfl (hs _)
      | exact absurd rfl (hp _)
      | exact fun q hq => (by cases hq)
  | @shape _ _ _ q _ hv hss => exact .shape (q := { q with visualLayer := q.visualLayer.withParent k }) hv hss
  | @missing _ _ _ q hn => exact .missing (q := { q with visualLayer := q.visualLayer.withParent k }) hn
  | @precomposition _ _ _ q _ _ _ hv hp hid hlast hls =>
    exact .precomposition (q := { q with visualLayer := q.visualLayer.withParent k }) hv hp hid hlast hls

/-! ## Where layers are -/

theorem layerAt_withParent {k : Nat} {fr : F} {l : Schema.AnyLayer F} {M : Affine F} {o : F} (h : LayerAt fr l M o) :
    LayerAt fr (l.withParent k) M o := by
  unfold LayerAt
  rw [visual_withParent]
  exact h

theorem lastPosition_parented {ids : List Nat} {k id : Nat} {j : Nat} (hk : id ≠ k) (h : LastPosition ids id (some j)) :
    LastPosition (ids ++ [k]) id (some j) := by
  have hj := (List.getElem?_eq_some_iff.mp h.1).1
  refine ⟨by rw [List.getElem?_append_left hj]; exact h.1, fun i hi he => ?_⟩
  by_cases hl : i < ids.length
  · rw [List.getElem?_append_left hl] at he
    exact h.2 i hi he
  · have := List.mem_of_getElem? (by rw [List.getElem?_append_right (by omega)] at he; exact he)
    rw [List.mem_singleton] at this
    exact hk this

theorem placedFully_parented {ls : List (Schema.AnyLayer F)} {n : Schema.VisualLayer F}
    (hfresh : ∀ s ∈ ls, s.ident ≠ (Schema.AnyLayer.null n).ident) (htop : n.layer.parentIndex = none)
    (hpar : ∀ s ∈ ls, ∀ id, s.visual.layer.parentIndex = some id → ∃ t ∈ ls, t.ident = id) {fr : F} {N : Affine F} {o : F}
    (hN : LayerAt fr (.null n) N o) {l : Schema.AnyLayer F} {M P : Affine F} (h : PlacedFully ls fr l M P) (hl : l ∈ ls) :
    PlacedFully (ls.map (Schema.AnyLayer.withParent (Schema.AnyLayer.null n).ident) ++ [.null n]) fr
      (l.withParent (Schema.AnyLayer.null n).ident) M (N.mul P) := by
  have hids : (ls.map (Schema.AnyLayer.withParent (Schema.AnyLayer.null n).ident) ++ [Schema.AnyLayer.null n]).map Schema.AnyLayer.ident =
      ls.map Schema.AnyLayer.ident ++ [(Schema.AnyLayer.null n).ident] := by
    rw [List.map_append, List.map_map]
    congr 1
    exact List.map_congr_left fun s _ => ident_withParent _ s
  induction h with
  | @root l M h =>
    refine .child (j := ls.length) (p := .null n) (by rw [parentIndex_withParent, h, Option.getD]) ?_ ?_ hN (.root htop)
    · rw [hids]
      refine ⟨by rw [List.getElem?_append_right (by simp)]; simp, fun i hi he => ?_⟩
      rw [List.getElem?_eq_none_iff.mpr (by simp; omega)] at he
      cases he
    · rw [List.getElem?_append_right (by simp)]
      simp
  | stray h hn =>
    obtain ⟨t, ht, rfl⟩ := hpar _ hl _ h
    exact absurd (List.mem_map_of_mem ht) hn
  | @child l id j p M N' o' P h hj hp hl' _ ih =>
    have hm := List.mem_of_getElem? hp
    have hid := parent_ident hj hp
    refine .child (j := j) (by rw [parentIndex_withParent, h, Option.getD]) ?_ ?_ (layerAt_withParent hl') (ih hm)
    · rw [hids]
      exact lastPosition_parented (by rw [← hid]; exact hfresh p hm) hj
    · rw [List.getElem?_append_left (by simpa using (List.getElem?_eq_some_iff.mp hp).1), List.getElem?_map, hp]
      rfl

theorem null_import {n : Schema.VisualLayer F} (hm : n.masksProperties.getD [] = []) (hb : n.blendMode.getD .normal = .normal)
    {t : Transform F} {v : Value F F} (ht : Import.convTransform n.transform = .ok (t, v)) :
    ∃ e, Import.convLayer (.null n) = .ok e := by
  unfold Import.convLayer Import.layerSetup Import.setupLayer
  simp only [ht, hm, hb]
  cases Import.isLayerHidden (.null n) <;> exact ⟨_, rfl⟩

theorem parented_import {a a' : Schema.Animation F} {n : Schema.VisualLayer F} (h : a.Parented a' n) {t : Transform F}
    {v : Value F F} (ht : Import.convTransform n.transform = .ok (t, v)) {c : Composition F}
    (hc : Import.convAnimation a = .ok c) : ∃ c', Import.convAnimation a' = .ok c' := by
  obtain ⟨has, hp, -⟩ := Import.convAnimation_ok hc
  obtain ⟨es, hes, -⟩ := Import.processLayers_ok hp
  obtain ⟨e, he⟩ := null_import h.unmasked h.unblended ht
  have hmap : ∀ (ls : List (Schema.AnyLayer F)) es, List.Forall₂ (fun s e => Import.convLayer s = .ok e) ls es →
      ∃ es', List.Forall₂ (fun s e => Import.convLayer s = .ok e)
        (ls.map (Schema.AnyLayer.withParent (Schema.AnyLayer.null n).ident)) es' := by
    intro ls es hh
    induction hh with
    | nil => exact ⟨[], .nil⟩
    | cons h1 _ ih =>
      obtain ⟨es', h2⟩ := ih
      obtain ⟨e', h3⟩ := Import.convLayer_withParent (Schema.AnyLayer.null n).ident _ ⟨_, h1⟩
      exact ⟨e' :: es', .cons h3 h2⟩
  obtain ⟨es', hes'⟩ := hmap _ _ hes
  have hall := mapM_append_ok (mapM_ok_iff.mpr hes') (mapM_ok_iff.mpr (.cons he .nil))
  have hproc : ∃ ls', Import.processLayers
      (a.layers.map (Schema.AnyLayer.withParent (Schema.AnyLayer.null n).ident) ++ [.null n]) = .ok ls' := by
    unfold Import.processLayers
    rw [hall]
    exact ⟨_, rfl⟩
  obtain ⟨ls', hls'⟩ := hproc
  rw [h.result]
  unfold Import.convAnimation
  dsimp only
  rw [show (a.assets.getD []).mapM Import.convAsset = .ok c.assets from mapM_ok_iff.mpr has, hls']
  exact ⟨_, rfl⟩

end

end Velato
