import Verif.Spec.NormalMatte
import Verif.Proofs.Import

/-!
# Matte mode Normal: helper lemmas
-/

namespace Velato.Import
open Velato
open Velato.FloatOps (lit)

section
variable {F : Type}

/-- The parameters without the mode Normal. -/
def LayerSetupParams.dropNormal (p : LayerSetupParams) : LayerSetupParams :=
  { p with matteMode := if p.matteMode = some (.ofMix .normal) then none else p.matteMode }

theorem convMatteMode_normal (m : Schema.MatteMode) :
    convMatteMode m = .ofMix .normal ↔ m = .normal := by
  cases m <;> decide

theorem dropNormal_mode (o : Option Schema.MatteMode) :
    (if o = some .normal then none else o).map convMatteMode =
      (if o.map convMatteMode = some (.ofMix .normal) then none else o.map convMatteMode) := by
  cases o with
  | none => rfl
  | some m => cases m <;> decide

variable [FloatOps F] [Kurbo F] [Libm F]

theorem setupLayer_dropNormal (v : Schema.VisualLayer F) (w h st : F) :
    setupLayer v.dropNormal w h st =
      (setupLayer v w h st).map fun e => (e.1, e.2.dropNormal) := by
  unfold setupLayer
  show (convTransform v.transform >>= fun x => convBlendMode (v.blendMode.getD .normal) >>= fun b =>
    convMasks (v.masksProperties.getD []) >>= fun ms => _) = _
  cases convTransform v.transform with
  | error e => rfl
  | ok x =>
    cases convBlendMode (v.blendMode.getD .normal) with
    | error e => rfl
    | ok b =>
      cases convMasks (v.masksProperties.getD []) with
      | error e => rfl
      | ok ms =>
        show Except.ok (_, LayerSetupParams.mk _ (Option.map convMatteMode (if _ then _ else _)) _) =
          Except.ok (_, LayerSetupParams.mk _ (if _ then _ else _) _)
        rw [dropNormal_mode]
        rfl

theorem convLayer_dropNormal (s : Schema.AnyLayer F) :
    convLayer s.dropNormal = (convLayer s).map fun e => (e.1, e.2.dropNormal) := by
  have hset : layerSetup s.dropNormal = (layerSetup s).map fun e => (e.1, e.2.dropNormal) := by
    cases s <;> exact setupLayer_dropNormal _ _ _ _
  have hh : isLayerHidden s.dropNormal = isLayerHidden s := by cases s <;> rfl
  have hc : layerContent s.dropNormal = layerContent s := by cases s <;> rfl
  unfold convLayer
  rw [hset, hh, hc]
  cases layerSetup s with
  | error e => rfl
  | ok e =>
    show (if isLayerHidden s = true then _ else _) = Except.map _ (if isLayerHidden s = true then _ else _)
    cases isLayerHidden s with
    | true => rfl
    | false =>
      show (layerContent s >>= fun c => _) = Except.map _ (layerContent s >>= fun c => _)
      cases layerContent s <;> rfl

omit [FloatOps F] [Kurbo F] [Libm F] in
theorem mapM_map_eq {α β : Type} (f : α → Except Fault β) (g : α → α) (k : β → β) :
    ∀ l : List α, (∀ x ∈ l, f (g x) = (f x).map k) → (l.map g).mapM f = (l.mapM f).map (List.map k)
  | [], _ => rfl
  | x :: xs, h => by
    rw [List.map_cons, mapM_cons', mapM_cons', h x (by simp),
      mapM_map_eq f g k xs fun y hy => h y (by simp [hy])]
    cases f x with
    | error e => rfl
    | ok b =>
      show (Except.map (List.map k) (xs.mapM f) >>= fun r => _) = Except.map _ (xs.mapM f >>= fun r => _)
      cases xs.mapM f <;> rfl

theorem processLayers_dropNormal {ls : List (Schema.AnyLayer F)} (h : NormalUnmatted ls) :
    processLayers (ls.map Schema.AnyLayer.dropNormal) = processLayers ls := by
  unfold processLayers
  rw [mapM_map_eq convLayer _ (fun e => (e.1, e.2.dropNormal)) ls fun x _ => convLayer_dropNormal x]
  cases hes : ls.mapM convLayer with
  | error e => rfl
  | ok es =>
    have hcv : List.Forall₂ (fun s e => Converted s e.1 e.2) ls es :=
      (mapM_ok_iff.mp hes).imp fun s e h => convLayer_ok (l := e.1) (p := e.2) h
    show Except.ok (linkLayers _ 0 none (es.map _)) = Except.ok (linkLayers _ 0 none es)
    have hid : idMap (es.map fun e => (e.1, e.2.dropNormal)) = idMap es := by
      rw [idMap_eq, idMap_eq, List.map_map]; rfl
    rw [hid]
    congr 1
    have hidget : idMap es = (ls.map Schema.AnyLayer.ident).zipIdx := by rw [idMap_eq, ids_eq hcv]
    generalize hm : idMap es = m at *
    -- what is known about the entry at position i
    have hentry : ∀ (i : Nat) e, es[i]? = some e → e.2.matteMode = some (.ofMix .normal) →
        prevMatte m 0 none es i = none ∧
        ∀ x, e.2.matteLayerIndex = some x → idGet m x = none := by
      intro i e he hmode
      have hi := (List.getElem?_eq_some_iff.mp he).1
      have hil : i < ls.length := by rw [hcv.length_eq]; exact hi
      have hc : Converted ls[i] es[i].1 es[i].2 := (List.forall₂_iff_get.mp hcv).2 i hil hi
      have hee : es[i] = e := (List.getElem?_eq_some_iff.mp he).2
      rw [hee] at hc
      have hn : ls[i].visual.matteMode = some .normal := by
        have := hc.matteMode
        rw [hmode] at this
        obtain ⟨x, hx, hx'⟩ := Option.map_eq_some_iff.mp this.symm
        rw [hx, (convMatteMode_normal x).mp hx']
      obtain ⟨hp, hx⟩ := h i _ (List.getElem?_eq_getElem hil) hn
      constructor
      · have := prevMatte_spec m hcv i (by omega)
        cases hpm : prevMatte m 0 none es i with
        | none => rfl
        | some j => rw [hpm] at this; exact absurd this (hp j)
      · intro x hxx
        rw [hc.matteIndex] at hxx
        obtain ⟨y, hy, rfl⟩ := Option.map_eq_some_iff.mp hxx
        have := idGet_lastPosition (ls.map Schema.AnyLayer.ident) (FloatOps.toUsize y)
        rw [← hidget] at this
        cases hg : idGet m (FloatOps.toUsize y) with
        | none => rfl
        | some j =>
          rw [hg] at this
          exact absurd (List.mem_of_getElem? this.1) (hx y hy)
    have hlink : ∀ (i : Nat) e, es[i]? = some e →
        linkLayer m i (prevMatte m 0 none es i) (e.1, e.2.dropNormal) =
          linkLayer m i (prevMatte m 0 none es i) e := by
      intro i e he
      by_cases hmode : e.2.matteMode = some (.ofMix .normal)
      · obtain ⟨hp, hx⟩ := hentry i e he hmode
        rw [hp]
        obtain ⟨l, p⟩ := e
        dsimp only at hmode hx
        unfold linkLayer LayerSetupParams.dropNormal
        dsimp only
        rw [if_pos hmode, hmode]
        cases hxi : p.matteLayerIndex with
        | none => cases l.isMask <;> rfl
        | some x =>
          dsimp only
          rw [hx x hxi]
          cases l.isMask <;> rfl
      · unfold LayerSetupParams.dropNormal
        rw [if_neg hmode]
    have hprev : ∀ i ≤ es.length, prevMatte m 0 none (es.map fun e => (e.1, e.2.dropNormal)) i =
        prevMatte m 0 none es i := by
      intro i
      induction i with
      | zero => intro _; cases es <;> rfl
      | succ i ih =>
        intro hi
        have he : es[i]? = some es[i] := List.getElem?_eq_getElem (by omega)
        rw [prevMatte_succ m 0 none _ i (e := (es[i].1, es[i].2.dropNormal)) (by
            rw [List.getElem?_map, he]; rfl),
          prevMatte_succ m 0 none _ i he, ih (by omega), Nat.zero_add, hlink i _ he]
    refine List.ext_getElem? fun i => ?_
    rw [linkLayers_get, linkLayers_get, List.getElem?_map, Nat.zero_add]
    cases he : es[i]? with
    | none => rfl
    | some e =>
      have hi := (List.getElem?_eq_some_iff.mp he).1
      show some _ = some _
      rw [hprev i (by omega)]
      dsimp only
      rw [hlink i e he]

theorem convAnimation_dropNormal {a : Schema.Animation F} (h : NormalUnmatted a.layers)
    (has : ∀ p, .precomposition p ∈ a.assetList → NormalUnmatted p.layers) :
    convAnimation a.dropNormal = convAnimation a := by
  unfold convAnimation
  have hl : processLayers a.dropNormal.layers = processLayers a.layers :=
    processLayers_dropNormal h
  have ha : (a.dropNormal.assets.getD []).mapM convAsset = (a.assets.getD []).mapM convAsset := by
    have : a.dropNormal.assets.getD [] = (a.assets.getD []).map Schema.AnyAsset.dropNormal := by
      unfold Schema.Animation.dropNormal
      cases a.assets <;> rfl
    rw [this, mapM_map_eq convAsset _ id]
    · cases (a.assets.getD []).mapM convAsset with
      | error e => rfl
      | ok x => show Except.ok (x.map id) = _; rw [List.map_id]
    · intro x hx
      cases x with
      | image i => rfl
      | precomposition p =>
        show (processLayers (p.layers.map _) >>= fun r => _) = Except.map id (processLayers p.layers >>= fun r => _)
        rw [processLayers_dropNormal (has p hx)]
        cases processLayers p.layers <;> rfl
  rw [hl, ha]
  rfl

end
end Velato.Import
