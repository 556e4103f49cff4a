import Verif.Spec.Cut
import Verif.Props.Remove
import Verif.Proofs.Retime

/-!
# The frames of the layers of a document: helper lemmas
-/

namespace Velato.Import
open Velato
open Velato.FloatOps (lit)

section
variable {F : Type} [FloatOps F] [Kurbo F] [Libm F]

/-- The converted layer with other frames. -/
def setFrames (i o : F) (e : Layer F × LayerSetupParams) : Layer F × LayerSetupParams :=
  ({ e.1 with frames := ⟨i, o⟩ }, e.2)

theorem setupLayer_withFrames (i o : F) (v : Schema.VisualLayer F) (w h st : F) :
    setupLayer (v.withFrames i o) w h st = (setupLayer v w h st).map (setFrames i o) := by
  unfold setupLayer
  show (convTransform v.transform >>= fun x => convBlendMode (v.blendMode.getD .normal) >>= fun b =>
    convMasks (v.masksProperties.getD []) >>= fun ms => _) = _
  cases convTransform v.transform with
  | error e => rfl
  | ok x =>
    cases convBlendMode (v.blendMode.getD .normal) with
    | error e => rfl
    | ok b => cases convMasks (v.masksProperties.getD []) <;> rfl

theorem convLayer_withFrames (i o : F) (s : Schema.AnyLayer F) :
    convLayer (s.withFrames i o) = (convLayer s).map (setFrames i o) := by
  have hset : layerSetup (s.withFrames i o) = (layerSetup s).map (setFrames i o) := by
    cases s <;> exact setupLayer_withFrames _ _ _ _ _ _
  have hh : isLayerHidden (s.withFrames i o) = isLayerHidden s := by cases s <;> rfl
  have hc : layerContent (s.withFrames i o) = layerContent s := by cases s <;> rfl
  unfold convLayer
  rw [hset, hh, hc]
  cases layerSetup s with
  | error e => rfl
  | ok e =>
    show (if isLayerHidden s = true then _ else _) = Except.map _ (if isLayerHidden s = true then _ else _)
    cases isLayerHidden s with
    | true => rfl
    | false =>
      show (layerContent s >>= fun c => _) = Except.map _ (layerContent s >>= fun c => _)
      cases layerContent s <;> rfl

omit [FloatOps F] [Kurbo F] [Libm F] in
theorem linkLayers_frames {Q : FRange F → FRange F → Prop} (m : List (Nat × Nat))
    {es es' : List (Layer F × LayerSetupParams)}
    (h : List.Forall₂ (fun e e' => (∃ i o, e' = setFrames i o e) ∧ Q e.1.frames e'.1.frames) es es') :
    ∀ idx prev, List.Forall₂ (fun l l' : Layer F => l' = { l with frames := l'.frames } ∧
      Q l.frames l'.frames) (linkLayers m idx prev es) (linkLayers m idx prev es') := by
  induction h with
  | nil => exact fun _ _ => .nil
  | @cons e e' es es' h _ ih =>
    intro idx prev
    obtain ⟨⟨i, o, rfl⟩, hq⟩ := h
    exact .cons ⟨rfl, hq⟩ (ih _ _)

omit [FloatOps F] [Kurbo F] [Libm F] in
theorem idMap_frames {Q : Layer F × LayerSetupParams → Layer F × LayerSetupParams → Prop}
    {es es' : List (Layer F × LayerSetupParams)}
    (h : List.Forall₂ (fun e e' => (∃ i o, e' = setFrames i o e) ∧ Q e e') es es') :
    idMap es' = idMap es := by
  unfold idMap
  suffices ∀ k, (es'.zipIdx k).map (fun p => (p.1.2.layerIndex, p.2)) =
      (es.zipIdx k).map (fun p => (p.1.2.layerIndex, p.2)) from this 0
  induction h with
  | nil => exact fun _ => rfl
  | cons h _ ih =>
    intro k
    obtain ⟨⟨i, o, rfl⟩, -⟩ := h
    rw [List.zipIdx_cons, List.zipIdx_cons, List.map_cons, List.map_cons, ih]
    rfl

omit [FloatOps F] [Kurbo F] [Libm F] in
theorem visual_withFrames (i o : F) (s : Schema.AnyLayer F) :
    (s.withFrames i o).visual = s.visual.withFrames i o := by cases s <;> rfl

omit [FloatOps F] [Kurbo F] [Libm F] in
theorem ident_withFrames (i o : F) (s : Schema.AnyLayer F) : (s.withFrames i o).ident = s.ident := by
  unfold Schema.AnyLayer.ident
  rw [visual_withFrames]
  rfl

theorem mapM_frames {fr : F} {ss ss' : List (Schema.AnyLayer F)} (h : Schema.SameLayersAt fr ss ss')
    {es : List (Layer F × LayerSetupParams)} (hes : List.Forall₂ (fun s e => convLayer s = .ok e) ss es) :
    ∃ es', List.Forall₂ (fun s e => convLayer s = .ok e) ss' es' ∧
      List.Forall₂ (fun e e' => (∃ i o, e' = setFrames i o e) ∧
        e.1.frames.contains fr = e'.1.frames.contains fr) es es' := by
  induction h generalizing es with
  | nil => cases hes; exact ⟨[], .nil, .nil⟩
  | @cons s s' ss ss' h _ ih =>
    cases hes with
    | @cons _ e _ es h1 h2 =>
      obtain ⟨es', h3, h4⟩ := ih h2
      obtain ⟨⟨i, o, rfl⟩, hp⟩ := h
      have h5 : convLayer (s.withFrames i o) = .ok (setFrames i o e) := by
        rw [convLayer_withFrames, h1]; rfl
      refine ⟨_ :: es', .cons h5 h3, .cons ⟨⟨i, o, rfl⟩, ?_⟩ h4⟩
      have hf := (convLayer_ok (l := e.1) (p := e.2) h1).frames
      have hf' := (convLayer_ok (l := (setFrames i o e).1) (p := e.2) h5).frames
      rw [hf, hf', Bool.eq_iff_iff]
      unfold FRange.contains
      rw [Bool.and_eq_true, Bool.and_eq_true]
      exact hp.symm

end
end Velato.Import

namespace Velato
open FloatOps (lit)

section
variable {F : Type} [FloatOps F] [Kurbo F] [Libm F]

omit [Kurbo F] [Libm F] in
theorem sameLayersAt_refl (fr : F) : ∀ ss : List (Schema.AnyLayer F), Schema.SameLayersAt fr ss ss
  | [] => .nil
  | s :: ss => .cons ⟨⟨s.visual.layer.inPoint, s.visual.layer.outPoint, by cases s <;> rfl⟩, Iff.rfl⟩
      (sameLayersAt_refl fr ss)

omit [Kurbo F] [Libm F] in
theorem sameLayersAt_mid {fr : F} {s s' : Schema.AnyLayer F} (h : ∃ i o, s' = s.withFrames i o)
    (hp : s'.PresentAt fr ↔ s.PresentAt fr) (pre post : List (Schema.AnyLayer F)) :
    Schema.SameLayersAt fr (pre ++ s :: post) (pre ++ s' :: post) :=
  List.rel_append (R := fun s s' : Schema.AnyLayer F => (∃ i o, s' = s.withFrames i o) ∧
    (s'.PresentAt fr ↔ s.PresentAt fr)) (sameLayersAt_refl fr pre) (.cons ⟨h, hp⟩ (sameLayersAt_refl fr post))

theorem window_calls {a : Schema.Animation F} {ls' : List (Schema.AnyLayer F)} {fr : F}
    (h : Schema.SameLayersAt fr a.layers ls') {c : Composition F} (hc : Import.convAnimation a = .ok c) :
    ∃ c', Import.convAnimation { a with layers := ls' } = .ok c' ∧
      ∀ {r : Renderer F}, Reachable r → ∀ (n : Nat) (T : Affine F) (al : F),
        Renderer.append n r c' fr T al = Renderer.append n r c fr T al := by
  obtain ⟨has, hp, h1, h2, h3, h4⟩ := Import.convAnimation_ok hc
  obtain ⟨es, hes, hl⟩ := Import.processLayers_ok hp
  obtain ⟨es', hes', hee⟩ := Import.mapM_frames h hes
  have hpl : Import.processLayers ls' = .ok (Import.linkLayers (Import.idMap es) 0 none es') := by
    unfold Import.processLayers
    rw [mapM_ok_iff.mpr hes', ← Import.idMap_frames hee]
    rfl
  refine ⟨{ c with layers := Import.linkLayers (Import.idMap es) 0 none es' }, ?_, ?_⟩
  · unfold Import.convAnimation
    dsimp only
    rw [show (a.assets.getD []).mapM Import.convAsset = .ok c.assets from mapM_ok_iff.mpr has, hpl]
    show Except.ok _ = Except.ok _
    rw [← h1, ← h2, ← h3, ← h4]
  · intro r hr n T al
    refine (appendCalls_sameAt (c := c)
      (c' := { c with layers := Import.linkLayers (Import.idMap es) 0 none es' }) (R := fun _ => Eq)
      ⟨rfl, rfl, fun name f f' h => ?_⟩ ?_ hr.idle n T al).symm
    · subst h
      show Option.Rel _ (c.asset name) (c.asset name)
      cases c.asset name with
      | none => exact .none
      | some ls => exact .some (layers_sameAt_refl f ls)
    · rw [hl]
      refine (Import.linkLayers_frames (Q := fun p q => p.contains fr = q.contains fr) _ hee 0 none).imp
        fun l l' hll => ?_
      have hr := layer_sameAt_refl fr l
      obtain ⟨he, hq⟩ := hll
      rw [he]
      exact { hr with
        visible := hq
        content := by
          cases hr.content with
          | none h h' => exact .none h h'
          | inst h h' hR => exact .inst h h' hR
          | shape h h' hs => exact .shape h h' hs
          | shapes h h' hs => exact .shapes h h' hs }

theorem absent_calls {a : Schema.Animation F} {pre post : List (Schema.AnyLayer F)}
    {s : Schema.AnyLayer F} (ha : a.layers = pre ++ s :: post) (hu : s.Unreferenced (pre ++ post))
    (hs : ¬ s.Matte ∧ ¬ s.Matted) (hacy : ParentsAcyclic a.layers) {c : Composition F}
    (hc : Import.convAnimation a = .ok c) :
    ∃ c', Import.convAnimation { a with layers := pre ++ post } = .ok c' ∧
      ∀ {r r' : Renderer F}, Reachable r → ∀ (fr : F), ¬ s.PresentAt fr → ∀ (T : Affine F) (al : F),
        (∀ ops, AppendCalls r c fr T al r' ops → ∃ ops', AppendCalls r c' fr T al r' ops' ∧
          SameButPositions ops' ops) ∧
        (∀ ops', AppendCalls r c' fr T al r' ops' → ∃ ops, AppendCalls r c fr T al r' ops ∧
          SameButPositions ops' ops) := by
  obtain ⟨c', l, hc', hl, h⟩ := C112_calls ha hu hs hacy hc
  refine ⟨c', hc', fun {r r'} hr fr hfr T al => ⟨fun ops hops => ?_, fun ops' hops' => ?_⟩⟩
  · obtain ⟨c'', ops', hc'', h1, h2⟩ := C112_out_of_range ha hu hs hacy hc hr hfr hops
    rw [hc'] at hc''
    cases hc''
    exact ⟨ops', h1, h2⟩
  · have hf : l.frames.contains fr = false := by
      have hp := (Import.convAnimation_ok hc).2.1
      rw [ha] at hp
      obtain ⟨es, e, -, -, hcv, rfl⟩ := Import.processLayers_get hp (getElem?_mid pre post s) hl
      rw [show (Import.linkLayer _ _ _ e).1.frames = e.1.frames from rfl, hcv.frames, Bool.eq_false_iff]
      intro hx
      unfold FRange.contains at hx
      rw [Bool.and_eq_true] at hx
      exact hfr hx
    obtain ⟨before, after, h1, h2⟩ := (h hr fr T al).2 ops' []
      hops' (layerCalls_cases.mpr (.inl ⟨hf, rfl⟩))
    exact ⟨_, h1, by rw [List.append_nil]; exact h2⟩

theorem copies_import {a : Schema.Animation F} {pre post : List (Schema.AnyLayer F)}
    {s : Schema.AnyLayer F} (ha : a.layers = pre ++ s :: post) {c : Composition F}
    (hc : Import.convAnimation a = .ok c) (i o i' o' : F) :
    ∃ c', Import.convAnimation
      { a with layers := pre ++ s.withFrames i o :: s.withFrames i' o' :: post } = .ok c' := by
  obtain ⟨has, hp, -⟩ := Import.convAnimation_ok hc
  obtain ⟨es, hes, -⟩ := Import.processLayers_ok hp
  have hok : ∀ t ∈ pre ++ s.withFrames i o :: s.withFrames i' o' :: post, ∃ e, Import.convLayer t = .ok e := by
    intro t ht
    have hall : ∀ t ∈ a.layers, ∃ e, Import.convLayer t = .ok e := fun t ht => forall₂_left hes ht
    rw [ha] at hall
    obtain ⟨e, he⟩ := hall s (by simp)
    simp only [List.mem_append, List.mem_cons] at ht
    rcases ht with ht | rfl | rfl | ht
    · exact hall t (by simp [ht])
    · exact ⟨_, by rw [Import.convLayer_withFrames, he]; rfl⟩
    · exact ⟨_, by rw [Import.convLayer_withFrames, he]; rfl⟩
    · exact hall t (by simp [ht])
  obtain ⟨es', hes'⟩ : ∃ es', List.Forall₂ (fun t e => Import.convLayer t = .ok e)
      (pre ++ s.withFrames i o :: s.withFrames i' o' :: post) es' := by
    revert hok
    generalize pre ++ s.withFrames i o :: s.withFrames i' o' :: post = ts
    intro hok
    induction ts with
    | nil => exact ⟨[], .nil⟩
    | cons t ts ih =>
      obtain ⟨e, he⟩ := hok t (by simp)
      obtain ⟨es', h⟩ := ih fun t ht => hok t (by simp [ht])
      exact ⟨e :: es', .cons he h⟩
  unfold Import.convAnimation Import.processLayers
  dsimp only
  rw [show (a.assets.getD []).mapM Import.convAsset = .ok c.assets from mapM_ok_iff.mpr has,
    mapM_ok_iff.mpr hes']
  exact ⟨_, rfl⟩

omit [FloatOps F] [Kurbo F] [Libm F] in
theorem matte_withFrames (i o : F) (s : Schema.AnyLayer F) : (s.withFrames i o).Matte ↔ s.Matte := by
  unfold Schema.AnyLayer.Matte Schema.AnyLayer.Hidden
  rw [Import.visual_withFrames]
  rfl

omit [FloatOps F] [Kurbo F] [Libm F] in
theorem matted_withFrames (i o : F) (s : Schema.AnyLayer F) : (s.withFrames i o).Matted ↔ s.Matted := by
  unfold Schema.AnyLayer.Matted
  rw [Import.visual_withFrames]
  rfl

omit [Kurbo F] [Libm F] in
theorem unreferenced_withFrames {i o : F} {s : Schema.AnyLayer F} {ts : List (Schema.AnyLayer F)}
    (h : ∀ t ∈ ts, ∃ i' o' t', t = Schema.AnyLayer.withFrames i' o' t' ∧
      t'.visual.layer.parentIndex ≠ some s.ident ∧
      ∀ x, t'.visual.matteLayerIndex = some x → FloatOps.toUsize x ≠ s.ident) :
    (s.withFrames i o).Unreferenced ts := by
  intro t ht
  obtain ⟨i', o', t', rfl, h1, h2⟩ := h t ht
  rw [Import.visual_withFrames, Import.ident_withFrames]
  exact ⟨h1, h2⟩

end
end Velato
