import Verif.Proofs.DocDraws
import Verif.Proofs.Equivariance
import Verif.Proofs.Remove
import Verif.Props.LayerAttributes

/-!
# The calls of a document: layers
-/

namespace Velato
open FloatOps (lit)
open Import

section
variable {F : Type} [FloatOps F] [Libm F] [Kurbo F]

/-- What is known about an imported layer. -/
structure Facts (src : List (Schema.AnyLayer F)) (i : Nat) (s : Schema.AnyLayer F) (l : Layer F) :
    Prop where
  name : l.name = s.visual.layer.visualObject.name.getD ""
  during : ∀ fr, l.frames.contains fr = true ↔ s.During fr
  time : ∀ q, s = .precomposition q → ∀ fr : F,
    fr /. l.stretch +. FloatOps.neg l.startFrame /. l.stretch
      = q.time fr
  placed : ∀ fr, LayerAt fr s (l.transform.evaluate fr) (l.opacity.evaluate fr)
  masks : convMasks (s.visual.masksProperties.getD []) = .ok l.masks
  isMask : l.isMask = true ↔ s.Matte
  matte : MatteOf src i s l.maskLayer
  hidden : s.Hidden → l.content = .none
  content : ¬ s.Hidden →
    match s with
    | .precomposition q => ∃ tr, convRemap q.timeRemap = .ok tr ∧ l.content = .instance q.refId tr
    | .shape q => ∃ ss, convShapes q.shapes = .ok ss ∧ l.content = .shape ss
    | _ => l.content = .none

theorem facts_of {a : Schema.Animation F} {c : Composition F} (h : convAnimation a = .ok c)
    {src : List (Schema.AnyLayer F)} {dst : List (Layer F)} (hd : ImportedList a c src dst)
    {i : Nat} {s : Schema.AnyLayer F} {l : Layer F} (hs : src[i]? = some s) (hl : dst[i]? = some l) :
    Facts src i s l := by
  have hm := C46_mattes h hd hs hl
  obtain ⟨es, e, -, -, hc, rfl⟩ := Import.processLayers_get (Import.ImportedList.process h hd) hs hl
  refine ⟨hc.name, ?_, ?_, ?_, hc.masks, hc.isMask, ?_, hc.hidden, fun hv => by
    have := hc.content hv
    cases s <;> exact this⟩
  · intro fr
    show e.1.frames.contains fr = true ↔ _
    rw [hc.frames]
    simp [FRange.contains, Schema.AnyLayer.During]
  · rintro q rfl fr
    show fr /. e.1.stretch +. FloatOps.neg e.1.startFrame /. e.1.stretch = _
    rw [hc.stretch, hc.start]
    rfl
  · intro fr
    exact ⟨_, _, hc.transform, rfl, rfl⟩
  · cases hmode : s.visual.matteMode with
    | none => rw [hm.1 hmode]; exact .without hmode
    | some mode =>
      cases hx : s.visual.matteLayerIndex with
      | some x =>
        obtain ⟨r, hr, he⟩ := hm.2.1 mode x hmode hx
        rw [he]
        exact .named hmode hx hr
      | none =>
        rcases hm.2.2.1 mode hmode hx with ⟨j, hj, he⟩ | ⟨hj, he⟩
        · rw [he]; exact .pending hmode hx hj
        · rw [he]; exact .nothing hmode hx hj

omit [Libm F] [Kurbo F] in
theorem get_of_length {α β : Type} {l : List α} {m : List β} (h : l.length = m.length) {i : Nat}
    {x : α} (hx : l[i]? = some x) : ∃ y, m[i]? = some y := by
  have := (List.getElem?_eq_some_iff.mp hx).1
  exact ⟨_, List.getElem?_eq_getElem (by omega)⟩

theorem placed_of {a : Schema.Animation F} {c : Composition F} (h : convAnimation a = .ok c)
    {src : List (Schema.AnyLayer F)} {dst : List (Layer F)} (hd : ImportedList a c src dst) (fr : F) :
    ∀ (n : Nat) {s : Schema.AnyLayer F} {i : Nat} {l : Layer F}, src[i]? = some s → dst[i]? = some l →
      ∀ M, PlacedWithin src fr n s M (chaseParents dst fr n l.parent M) := by
  intro n
  induction n with
  | zero =>
    intro s i l hs hl M
    have : chaseParents dst fr 0 l.parent M = M := by cases l.parent <;> rfl
    rw [this]
    exact .limit
  | succ n ih =>
    intro s i l hs hl M
    have hpar := (C45_parents h hd hs hl).1
    have hlen := Import.processLayers_length (Import.ImportedList.process h hd)
    cases hp : s.visual.layer.parentIndex with
    | none =>
      rw [hp] at hpar
      rw [show l.parent = none from hpar, chaseParents]
      exact .root hp
    | some id =>
      rw [hp] at hpar
      cases hlp : l.parent with
      | none =>
        rw [chaseParents]
        exact .stray hp (hlp ▸ hpar)
      | some j =>
        have hj : LastPosition (src.map Schema.AnyLayer.ident) id (some j) := hlp ▸ hpar
        have hjs := hj.1
        rw [List.getElem?_map] at hjs
        obtain ⟨sp, hsp, -⟩ := Option.map_eq_some_iff.mp hjs
        obtain ⟨lp, hlp'⟩ := get_of_length hlen hsp
        rw [chaseParents, hlp']
        exact .child hp hj hsp ((facts_of h hd hsp hlp').placed fr) (ih hsp hlp' _)

theorem masksDrawn_of {ms : List (Schema.Mask F)} {out : List (Mask F)} (h : convMasks ms = .ok out)
    {fr : F} {T : Affine F} {ops : List (Op F)}
    (ho : List.Forall₂ (fun m op => maskOp T fr m = .ok op) out ops) :
    MasksDrawn fr T ms ops := by
  obtain ⟨os, hos, h'⟩ := bind_ok h
  have hf := mapM_ok_iff.mp hos
  cases Except.ok.inj h'
  clear h h' hos
  induction hf generalizing ops with
  | nil => cases ho; exact .nil
  | @cons m o ms os hm _ ih =>
    rw [List.flatMap_cons] at ho
    unfold convMask at hm
    cases hsh : m.shape with
    | none =>
      rw [hsh] at hm
      cases Except.ok.inj hm
      exact .drop (fun p hp => by rw [hsh] at hp; cases hp) (ih ho)
    | some p =>
      rw [hsh] at hm
      obtain ⟨g, hg, hm⟩ := bind_ok (show (convShapeGeometry p >>= fun g => _) = _ from hm)
      cases g with
      | some g =>
        obtain ⟨o', ho', hm⟩ := bind_ok hm
        cases Except.ok.inj hm
        cases ho with
        | cons hx ho =>
          obtain ⟨els, he, rfl⟩ := map_ok hx
          exact .keep hsh hg he (ih ho)
      | none =>
        cases Except.ok.inj hm
        refine .drop (fun q hq => ?_) (ih ho)
        rw [hsh] at hq
        cases hq
        rcases shapeGeometry_ok hg with ⟨g', hg', -⟩ | ⟨-, hp⟩
        · cases hg'
        · exact hp

theorem layersDrawn_of {a : Schema.Animation F} {src : List (Schema.AnyLayer F)} {T : Affine F}
    {al fr : F} {number : Nat → Nat} :
    ∀ {ls : List (Schema.AnyLayer F)} {per : List (List (Op F))} {i : Nat}, ls.length = per.length →
      (∀ k s ops, ls[k]? = some s → per[k]? = some ops → (s.Matte → ops = []) ∧
        (¬ s.Matte → LayerDrawn a src T al fr (number (i + k)) (i + k) s ops)) →
      LayerListDrawn a src T al fr number i ls per
  | [], [], _, _, _ => .nil
  | s :: ls, ops :: per, i, hl, h => by
    have hs : LayerListDrawn a src T al fr number (i + 1) ls per := by
      refine layersDrawn_of (by simpa using hl) fun k s ops h1 h2 => ?_
      have := h (k + 1) s ops h1 h2
      rwa [show i + (k + 1) = i + 1 + k by omega] at this
    obtain ⟨h1, h2⟩ := h 0 s ops rfl rfl
    by_cases hm : s.Matte
    · rw [h1 hm]; exact .matte hm hs
    · exact .layer hm (h2 hm) hs

theorem shapesDrawn_of [LawfulCmp F] [KurboPaths F] {q : List (Schema.AnyShape F)} {ss : List (Shape F)}
    (hss : convShapes q = .ok ss) {T : Affine F} {al fr : F} {b : Batch F} {ops : List (Op F)} (hb : renderShapes ss T al fr Batch.empty = .ok b) (hr : b.render = .ok ops) :
    ∃ D, ItemsDrawn fr T al q .empty D ∧ ops = D.calls := by
  obtain ⟨os, hos, h⟩ := bind_ok hss
  cases Except.ok.inj h
  obtain ⟨D, hD⟩ := items_exist q (mapM_ok_iff.mp hos) (evaluates_shapes _ hb) T al .empty
  obtain ⟨b', hb', hr'⟩ := shapes_rendered hD hss
  rw [hb] at hb'
  cases Except.ok.inj hb'
  rw [hr] at hr'
  exact ⟨D, hD, Except.ok.inj hr'⟩

omit [FloatOps F] [Libm F] [Kurbo F] in
/-- The last asset with a name, if there is one. -/
theorem last_asset (as : List (Schema.AnyAsset F)) (n : String) :
    (∀ p, .precomposition p ∈ as → p.asset.id ≠ n) ∨
    ∃ (i : Nat) (p : Schema.PrecompAsset F), as[i]? = some (.precomposition p) ∧ p.asset.id = n ∧
      ∀ (j : Nat) p', i < j → as[j]? = some (.precomposition p') → p'.asset.id ≠ n := by
  induction as with
  | nil => exact .inl fun p hp => by cases hp
  | cons x as ih =>
    rcases ih with h | ⟨i, p, h1, h2, h3⟩
    · have key : ∀ p, x = .precomposition p → p.asset.id = n →
          ∃ (i : Nat) (p : Schema.PrecompAsset F), (x :: as)[i]? = some (.precomposition p) ∧
            p.asset.id = n ∧ ∀ (j : Nat) p', i < j → (x :: as)[j]? = some (.precomposition p') →
              p'.asset.id ≠ n := by
        rintro p rfl hn
        refine ⟨0, p, rfl, hn, fun j p' hj hp' => ?_⟩
        obtain ⟨j, rfl⟩ := Nat.exists_eq_succ_of_ne_zero (by omega : j ≠ 0)
        exact h p' (List.mem_of_getElem? hp')
      by_cases hx : ∃ p, x = .precomposition p ∧ p.asset.id = n
      · obtain ⟨p, hp, hn⟩ := hx
        exact .inr (key p hp hn)
      · refine .inl fun p hp hn => ?_
        rcases List.mem_cons.mp hp with hp | hp
        · exact hx ⟨p, hp.symm, hn⟩
        · exact h p hp hn
    · refine .inr ⟨i + 1, p, h1, h2, fun j p' hj hp' => ?_⟩
      obtain ⟨j, rfl⟩ := Nat.exists_eq_succ_of_ne_zero (by omega : j ≠ 0)
      exact h3 j p' (by omega) hp'

theorem fullRect_of {a : Schema.Animation F} {c : Composition F} (h : convAnimation a = .ok c) :
    fullRect c = a.area := by
  obtain ⟨-, -, h1, h2, -⟩ := C44_layers h
  unfold fullRect
  rw [h1, h2]
  rfl

theorem announced_of {src i s} {l : Layer F} (hf : Facts src i s l) {ix : Nat} {mo ms co : List (Op F)}
    (hlen : l.masks.length = ms.length) :
    layerOut l ix mo ms co = announced s ix (mo ++ (ms ++ co ++ List.replicate ms.length .pop) ++
      List.replicate (if l.maskLayer.isSome then 2 else 0) .pop) := by
  unfold layerOut announced
  rw [hf.name, hlen, List.replicate_add]
  simp only [List.append_assoc]

theorem layerDrawn_of [LawfulCmp F] [KurboPaths F] {a : Schema.Animation F} {c : Composition F}
    (h : convAnimation a = .ok c) {dst : List (Layer F)} {l : Layer F} {ix : Nat} {T : Affine F}
    {al fr : F} {ops : List (Op F)} (hc : LayerCalls c dst l ix T al fr ops) :
    ∀ {src : List (Schema.AnyLayer F)}, ImportedList a c src dst → ∀ {i : Nat} {s : Schema.AnyLayer F},
      src[i]? = some s → dst[i]? = some l → LayerDrawn a src T al fr ix i s ops := by
  refine LayerCalls.induct (c := c) (P := fun dst l ix T al fr ops =>
    ∀ {src : List (Schema.AnyLayer F)}, ImportedList a c src dst → ∀ {i : Nat} {s : Schema.AnyLayer F},
      src[i]? = some s → dst[i]? = some l → LayerDrawn a src T al fr ix i s ops) ?_ ?_ hc
  · intro dst l ix T al fr hout src hd i s hs hl
    refine .absent fun hin => ?_
    rw [← (facts_of h hd hs hl).during, hout] at hin
    cases hin
  · intro dst l ix T al fr mo ms co hin hmo ihm hms hco ihc src hd i s hs hl
    have hf := facts_of h hd hs hl
    have hpl : PlacedAt src fr s _ := ⟨_, _, hf.placed fr, placed_of h hd fr src.length hs hl _⟩
    have hT : computeTransform dst l T fr
        = T.mul (chaseParents dst fr src.length l.parent (l.transform.evaluate fr)) := by
      rw [computeTransform, Import.processLayers_length (Import.ImportedList.process h hd)]
    have hmd := masksDrawn_of hf.masks hms
    have hcd : ContentDrawn a (computeTransform dst l T fr) (al *. l.opacity.evaluate fr /. lit 100) fr s
        co := by
      by_cases hh : s.Hidden
      · have hn := hf.hidden hh
        cases hco with
        | none => exact .hidden hh
        | missing => exact .hidden hh
        | asset _ _ _ _ hx => rw [hn] at hx; cases hx
        | shape _ _ _ hx => rw [hn] at hx; cases hx
      · have hcc := hf.content hh
        cases s with
        | precomposition q =>
          obtain ⟨tr, -, hcn⟩ := hcc
          have hl57 := C57_last h q.refId
          cases hco with
          | none hx => rw [hcn] at hx; cases hx
          | shape _ _ _ hx => rw [hcn] at hx; cases hx
          | missing n tr' hx hn =>
            rw [hcn] at hx
            cases hx
            rcases last_asset a.assetList q.refId with hno | ⟨k, p, h1, h2, h3⟩
            · exact .missing hno
            · obtain ⟨-, ls, -, -, he, -⟩ := hl57.1 k p h1 h2 h3
              rw [hn] at he
              cases he
          | asset n tr' als per hx hn hper =>
            rw [hcn] at hx
            cases hx
            rcases last_asset a.assetList q.refId with hno | ⟨k, p, h1, h2, h3⟩
            · rw [hl57.2 hno] at hn
              cases hn
            · obtain ⟨-, ls, -, -, he, hdi⟩ := hl57.1 k p h1 h2 h3
              rw [hn] at he
              cases he
              obtain ⟨per', hper', he⟩ := forall₂_filter_iff.mp ⟨per, hper, rfl⟩
              rw [he, ← List.reverse_reverse per']
              refine .precomposition hh h1 h2 h3 (layersDrawn_of ?_ ?_)
              · rw [List.length_reverse, ← hper'.length_eq, List.length_reverse]
                exact Import.processLayers_length (Import.ImportedList.process h hdi)
              · intro k' s' ops' hs' hops'
                obtain ⟨l', hl'⟩ := get_of_length
                  (Import.processLayers_length (Import.ImportedList.process h hdi)) hs'
                have hr := List.rel_reverse hper'
                rw [List.reverse_reverse] at hr
                obtain ⟨h1', e1⟩ := List.getElem?_eq_some_iff.mp hl'
                obtain ⟨h2', e2⟩ := List.getElem?_eq_some_iff.mp hops'
                have hk := (List.forall₂_iff_get.mp hr).2 k' h1' h2'
                simp only [List.get_eq_getElem] at hk
                rw [e1, e2] at hk
                have hf' := facts_of h hdi hs' hl'
                constructor
                · intro hm
                  rw [hf'.isMask.mpr hm] at hk
                  exact hk
                · intro hm
                  have hm' : l'.isMask = false := by
                    cases hx : l'.isMask with
                    | false => rfl
                    | true => exact (hm (hf'.isMask.mp hx)).elim
                  rw [hm'] at hk
                  rw [Nat.zero_add, ← hf.time q rfl]
                  exact ihc _ _ _ l' ops' hcn hn (List.mem_of_getElem? hl') hm' hk hdi hs' hl'
        | shape q =>
          obtain ⟨ss, hss, hcn⟩ := hcc
          cases hco with
          | none hx => rw [hcn] at hx; cases hx
          | missing _ _ hx => rw [hcn] at hx; cases hx
          | asset _ _ _ _ hx => rw [hcn] at hx; cases hx
          | shape ss' b _ hx hb hops =>
            rw [hcn] at hx
            cases hx
            obtain ⟨per, hper, rfl⟩ := shapesDrawn_of hss hb hops
            exact .shape hh hper
        | solid q =>
          replace hcc : l.content = .none := hcc
          cases hco with
          | none => exact .nothing (by simp) (by simp)
          | missing _ _ hx => rw [hcc] at hx; cases hx
          | asset _ _ _ _ hx => rw [hcc] at hx; cases hx
          | shape _ _ _ hx => rw [hcc] at hx; cases hx
        | null q =>
          replace hcc : l.content = .none := hcc
          cases hco with
          | none => exact .nothing (by simp) (by simp)
          | missing _ _ hx => rw [hcc] at hx; cases hx
          | asset _ _ _ _ hx => rw [hcc] at hx; cases hx
          | shape _ _ _ hx => rw [hcc] at hx; cases hx
        | image q =>
          replace hcc : l.content = .none := hcc
          cases hco with
          | none => exact .nothing (by simp) (by simp)
          | missing _ _ hx => rw [hcc] at hx; cases hx
          | asset _ _ _ _ hx => rw [hcc] at hx; cases hx
          | shape _ _ _ hx => rw [hcc] at hx; cases hx
    rw [hT] at hmd hcd
    rw [announced_of hf hms.length_eq]
    have hma := hf.matte
    cases hmo with
    | none hx =>
      rw [hx] at hma ⊢
      simp only [List.nil_append, Option.isSome_none, Bool.false_eq_true, if_false,
        List.replicate_zero, List.append_nil]
      exact .plain ((hf.during fr).mp hin) hma hpl (hf.placed fr) hmd hcd
    | dangling mode j hx hj =>
      have := (C46_mattes h hd hs hl).2.2.2 mode j hx
      rw [List.getElem?_eq_none_iff] at hj
      omega
    | matte mode j m mops hx hj hops =>
      obtain ⟨sm, hsm⟩ := get_of_length
        (Import.processLayers_length (Import.ImportedList.process h hd)).symm hj
      have hm := ihm mode j m mops hx hj hops hd hsm hj
      rw [hx] at hma ⊢
      rw [fullRect_of h]
      simp only [Option.isSome_some, if_true]
      have := LayerDrawn.matted (ix := ix) ((hf.during fr).mp hin) hma hsm hm hpl (hf.placed fr) hmd
        hcd
      unfold composed at this
      simpa [List.replicate_succ] using this

end
end Velato
