import Verif.Proofs.Import
import Verif.Proofs.Retime
import Verif.Proofs.LayerSets

/-!
# Documents whose layers look the same at every frame
-/

namespace Velato
open FloatOps (lit)

section
variable {F : Type} [FloatOps F] [Kurbo F] [Libm F]

/-- The converted layers look the same at every frame. -/
def SameEntry (e e' : Layer F × Import.LayerSetupParams) : Prop :=
  (∀ fr, Layer.SameAt (fun _ => Eq) fr fr e.1 e'.1) ∧ e.2 = e'.2

/-- The layer `s'` is imported if `s` is, and then looks the same at every frame. -/
def SameConv (s s' : Schema.AnyLayer F) : Prop :=
  ∀ e, Import.convLayer s = .ok e → ∃ e', Import.convLayer s' = .ok e' ∧ SameEntry e e'

theorem SameEntry.refl (e : Layer F × Import.LayerSetupParams) : SameEntry e e :=
  ⟨fun fr => layer_sameAt_refl fr e.1, rfl⟩

theorem SameConv.refl (s : Schema.AnyLayer F) : SameConv s s := fun e h => ⟨e, h, .refl e⟩

/-- The converted layers are the same at the two frames. -/
def SameEntryAt (R : String → F → F → Prop) (fr fr' : F) (e e' : Layer F × Import.LayerSetupParams) : Prop :=
  Layer.SameAt R fr fr' e.1 e'.1 ∧ e.2 = e'.2

theorem linkLayers_sameAt {R : String → F → F → Prop} {fr fr' : F} (m : List (Nat × Nat)) {es es' : List (Layer F × Import.LayerSetupParams)}
    (h : List.Forall₂ (SameEntryAt R fr fr') es es') : ∀ idx prev, List.Forall₂ (Layer.SameAt R fr fr')
      (Import.linkLayers m idx prev es) (Import.linkLayers m idx prev es') := by
  induction h with
  | nil => exact fun _ _ => .nil
  | @cons e e' es es' h _ ih =>
    intro idx prev
    obtain ⟨l, p⟩ := e
    obtain ⟨l', p'⟩ := e'
    obtain ⟨hs, h2⟩ := h
    cases h2
    have hm : l.isMask = l'.isMask := hs.isMask
    have hp : (Import.linkLayer m idx prev (l, p)).2 = (Import.linkLayer m idx prev (l', p)).2 := by
      show (if l.isMask then _ else _) = (if l'.isMask then _ else _)
      rw [hm]
    show List.Forall₂ _ ((Import.linkLayer m idx prev (l, p)).1 ::
        Import.linkLayers m (idx + 1) (Import.linkLayer m idx prev (l, p)).2 es)
      ((Import.linkLayer m idx prev (l', p)).1 ::
        Import.linkLayers m (idx + 1) (Import.linkLayer m idx prev (l', p)).2 es')
    rw [hp]
    refine .cons ?_ (ih _ _)
    exact
      { name := hs.name
        parent := by
          show l.parent.bind _ = l'.parent.bind _
          rw [hs.parent]
        visible := hs.visible
        transform := hs.transform
        opacity := hs.opacity
        masks := hs.masks
        isMask := hs.isMask
        maskLayer := by
          unfold Import.linkLayer
          dsimp only
          rw [hs.maskLayer]
        content := by
          cases hs.content with
          | none h h' => exact .none h h'
          | inst h h' hR => exact .inst h h' hR
          | shape h h' hs => exact .shape h h' hs
          | shapes h h' hs => exact .shapes h h' hs }

omit [Kurbo F] [Libm F] in
theorem idMap_sameAt [Kurbo F] [Libm F] {R : String → F → F → Prop} {fr fr' : F} {es es' : List (Layer F × Import.LayerSetupParams)}
    (h : List.Forall₂ (SameEntryAt R fr fr') es es') : Import.idMap es' = Import.idMap es := by
  unfold Import.idMap
  suffices ∀ k, (es'.zipIdx k).map (fun p => (p.1.2.layerIndex, p.2)) =
      (es.zipIdx k).map (fun p => (p.1.2.layerIndex, p.2)) from this 0
  induction h with
  | nil => exact fun _ => rfl
  | cons h _ ih =>
    intro k
    rw [List.zipIdx_cons, List.zipIdx_cons, List.map_cons, List.map_cons, ih, h.2]

theorem linkLayers_same (m : List (Nat × Nat)) {es es' : List (Layer F × Import.LayerSetupParams)}
    (h : List.Forall₂ SameEntry es es') (idx : Nat) (prev : Option Nat) (fr : F) :
    List.Forall₂ (Layer.SameAt (fun _ => Eq) fr fr)
      (Import.linkLayers m idx prev es) (Import.linkLayers m idx prev es') :=
  linkLayers_sameAt m (h.imp fun _ _ h => ⟨h.1 fr, h.2⟩) idx prev

theorem idMap_same {es es' : List (Layer F × Import.LayerSetupParams)}
    (h : List.Forall₂ SameEntry es es') : Import.idMap es' = Import.idMap es :=
  idMap_sameAt (R := fun _ => Eq) (fr := lit 0) (fr' := lit 0) (h.imp fun _ _ h => ⟨h.1 _, h.2⟩)

theorem processLayers_same {ss ss' : List (Schema.AnyLayer F)} (h : List.Forall₂ SameConv ss ss')
    {ls : List (Layer F)} (hls : Import.processLayers ss = .ok ls) :
    ∃ ls', Import.processLayers ss' = .ok ls' ∧
      ∀ fr, List.Forall₂ (Layer.SameAt (fun _ => Eq) fr fr) ls ls' := by
  obtain ⟨es, hes, rfl⟩ := Import.processLayers_ok hls
  obtain ⟨es', hes', hee⟩ : ∃ es', List.Forall₂ (fun s e => Import.convLayer s = .ok e) ss' es' ∧
      List.Forall₂ SameEntry es es' := by
    clear hls
    induction h generalizing es with
    | nil => cases hes; exact ⟨[], .nil, .nil⟩
    | cons h _ ih =>
      cases hes with
      | cons h1 h2 =>
        obtain ⟨es', h3, h4⟩ := ih _ h2
        obtain ⟨e', h5, h6⟩ := h _ h1
        exact ⟨e' :: es', .cons h5 h3, .cons h6 h4⟩
  refine ⟨Import.linkLayers (Import.idMap es) 0 none es', ?_, linkLayers_same _ hee 0 none⟩
  unfold Import.processLayers
  rw [mapM_ok_iff.mpr hes', ← idMap_same hee]
  rfl

/-- The assets look the same at every frame. -/
def SameAsset (p p' : Schema.AnyAsset F) : Prop :=
  p = p' ∨ ∃ q ls', p = .precomposition q ∧ p' = .precomposition { q with layers := ls' } ∧
    List.Forall₂ SameConv q.layers ls'

theorem convAsset_same {p p' : Schema.AnyAsset F} (h : SameAsset p p') {e : String × List (Layer F)}
    (he : Import.convAsset p = .ok e) : ∃ ls', Import.convAsset p' = .ok (e.1, ls') ∧
      ∀ fr, List.Forall₂ (Layer.SameAt (fun _ => Eq) fr fr) e.2 ls' := by
  rcases h with rfl | ⟨q, ls', rfl, rfl, hq⟩
  · exact ⟨e.2, he, fun fr => layers_sameAt_refl fr e.2⟩
  · obtain ⟨ls, hls, he⟩ := bind_ok (show (Import.processLayers q.layers >>= _) = _ from he)
    obtain ⟨ls'', h1, h2⟩ := processLayers_same hq hls
    cases he
    refine ⟨ls'', ?_, h2⟩
    show (Import.processLayers ls' >>= _) = _
    rw [h1]
    rfl

theorem find_same {es es' : List (String × List (Layer F))} {fr : F}
    (h : List.Forall₂ (fun e e' => e'.1 = e.1 ∧ List.Forall₂ (Layer.SameAt (fun _ => Eq) fr fr) e.2 e'.2) es es')
    (name : String) : Option.Rel (List.Forall₂ (Layer.SameAt (fun _ => Eq) fr fr))
      ((es.find? fun e => e.1 == name).map (·.2)) ((es'.find? fun e => e.1 == name).map (·.2)) := by
  induction h with
  | nil => exact .none
  | @cons e e' es es' h _ ih =>
    rw [List.find?_cons, List.find?_cons, h.1]
    cases e.1 == name with
    | true => exact .some h.2
    | false => exact ih

/-- Documents whose layers look the same at every frame are rendered in the same way. -/
theorem append_same {a a' : Schema.Animation F} (hl : List.Forall₂ SameConv a.layers a'.layers)
    (has : Option.Rel (List.Forall₂ SameAsset) a.assets a'.assets)
    (ha : a' = { a with layers := a'.layers, assets := a'.assets }) {c : Composition F}
    (hc : Import.convAnimation a = .ok c) :
    ∃ c', Import.convAnimation a' = .ok c' ∧
      ∀ {r : Renderer F}, Reachable r → ∀ (n : Nat) (fr : F) (T : Affine F) (al : F),
        Renderer.append n r c' fr T al = Renderer.append n r c fr T al := by
  obtain ⟨hca, hp, h1, h2, h3, h4⟩ := Import.convAnimation_ok hc
  obtain ⟨ls', hp', hls⟩ := processLayers_same hl hp
  have has' : List.Forall₂ SameAsset a.assetList a'.assetList := by
    unfold Schema.Animation.assetList
    generalize a.assets = o, a'.assets = o' at has
    cases has with
    | none => exact .nil
    | some h => exact h
  obtain ⟨as', hca', haa⟩ : ∃ as', List.Forall₂ (fun s e => Import.convAsset s = .ok e) a'.assetList as' ∧
      List.Forall₂ (fun e e' => e'.1 = e.1 ∧ ∀ fr, List.Forall₂ (Layer.SameAt (fun _ => Eq) fr fr) e.2 e'.2)
        c.assets as' := by
    clear h1 h2 h3 h4 hc hp
    generalize c.assets = as at hca
    generalize a.assetList = ps, a'.assetList = ps' at has' hca
    induction has' generalizing as with
    | nil => cases hca; exact ⟨[], .nil, .nil⟩
    | cons h _ ih =>
      cases hca with
      | cons h5 h6 =>
        obtain ⟨as', h7, h8⟩ := ih _ h6
        obtain ⟨ls', h9, h10⟩ := convAsset_same h h5
        exact ⟨_ :: as', .cons h9 h7, .cons ⟨rfl, h10⟩ h8⟩
  refine ⟨{ c with layers := ls', assets := as' }, ?_, ?_⟩
  · unfold Import.convAnimation
    rw [show (a'.assets.getD []).mapM Import.convAsset = .ok as' from mapM_ok_iff.mpr hca', hp']
    show Except.ok _ = Except.ok _
    rw [ha, h1, h2, h3, h4]
  · intro r hr n fr T al
    refine (appendCalls_sameAt (c := c) (c' := { c with layers := ls', assets := as' }) (R := fun _ => Eq)
      ⟨rfl, rfl, fun name f f' h => ?_⟩ (hls fr) hr.idle n T al).symm
    subst h
    exact find_same (List.rel_reverse (haa.imp fun _ _ h => ⟨h.1, h.2 f⟩)) name

end
end Velato
