import Verif.Proofs.CommonParent
import Verif.Spec.ExampleDoc

/-!
# C147: a common parent
-/

namespace Velato
open FloatOps (lit)

section
variable [Kurbo ℝ] [KurboPaths ℝ]

/-- **C147.** If a null layer is added at the end of a document as the parent of all layers that had none, then this is as if the
whole had been rendered with the matrix of the null layer after the transform: all calls are the same, except that the document is
clipped as before, and that the null layer announces itself.  The null layer need not be there at the frame. -/
theorem C147_calls {a a' : Schema.Animation ℝ} {n : Schema.VisualLayer ℝ} (h : a.Parented a' n) (hac : ParentsAcyclic a.layers)
    {c : Composition ℝ} (hc : Import.convAnimation a = .ok c) {frame : ℝ} {N : Affine ℝ} {o : ℝ}
    (hN : LayerAt frame (.null n) N o) :
    ∃ c', Import.convAnimation a' = .ok c' ∧
      ∀ {r r' : Renderer ℝ}, Reachable r → ∀ {T : Affine ℝ} {al : ℝ} {ops : List (Op ℝ)},
        AppendCalls r c frame (T.mul N) al r' ops →
        ∃ own body, NullCalls n a.layers.length frame own ∧
          ops = [.pushClip (T.mul N) (fullRect c)] ++ body ++ [.pop] ∧
          AppendCalls r c' frame T al r' ([.pushClip T (fullRect c)] ++ own ++ body ++ [.pop]) := by
  obtain ⟨t, v, htv, -, -⟩ := id hN
  obtain ⟨c', hc'⟩ := parented_import h htv hc
  obtain ⟨rank, hrank⟩ := hac
  refine ⟨c', hc', fun {r r'} hr {T al ops} hops => ?_⟩
  obtain ⟨rfl, per, hper, rfl⟩ := (C117_calls hc hr).mp hops
  have hl' : a'.layers = a.layers.map (Schema.AnyLayer.withParent (Schema.AnyLayer.null n).ident) ++ [.null n] := by rw [h.result]
  have has : a'.assetList = a.assetList := by rw [h.result]; rfl
  have har : a'.area = a.area := by rw [h.result]; rfl
  -- a ranking of the new layers
  obtain ⟨rank', hrank'⟩ : ∃ rank' : Nat → Nat, ∀ s ∈ a'.layers, ∀ id, s.visual.layer.parentIndex = some id →
      rank' id < rank' s.ident := by
    refine ⟨fun id => if id = (Schema.AnyLayer.null n).ident then 0 else rank id + 1, fun s hs id hid => ?_⟩
    rw [hl'] at hs
    rcases List.mem_append.mp hs with hs | hs
    · obtain ⟨s, hs0, rfl⟩ := List.mem_map.mp hs
      rw [parentIndex_withParent] at hid
      rw [ident_withParent]
      simp only [if_neg (h.fresh s hs0)]
      cases hp : s.visual.layer.parentIndex with
      | none =>
        rw [hp] at hid
        cases hid
        simp
      | some id' =>
        rw [hp] at hid
        cases hid
        have := hrank s hs0 id' hp
        show (if id' = _ then 0 else rank id' + 1) < _
        split <;> omega
    · rw [List.mem_singleton] at hs
      subst hs
      rw [show (Schema.AnyLayer.null n).visual.layer.parentIndex = none from h.top] at hid
      cases hid
  have hcount : ∀ (rank : Nat → Nat) (ls : List (Schema.AnyLayer ℝ)) l, layersBelow rank ls l ≤ ls.length := fun rank ls l => by
    unfold layersBelow
    exact List.length_filter_le _ _
  -- one layer
  have hlayer : ∀ {ix i : Nat} {l : Schema.AnyLayer ℝ} {ops : List (Op ℝ)}, l ∈ a.layers →
      LayerDrawn a a.layers (T.mul N) al frame ix i l ops →
      LayerDrawn a' a'.layers T al frame ix i (l.withParent (Schema.AnyLayer.null n).ident) ops := by
    intro ix i l ops hl hd
    have hv := visual_withParent (Schema.AnyLayer.null n).ident l
    have hun : l.visual.matteMode = none := by
      have := h.unmatted l hl
      unfold Schema.AnyLayer.Matted at this
      simpa using this
    have hdur : (l.withParent (Schema.AnyLayer.null n).ident).During frame ↔ l.During frame := by
      unfold Schema.AnyLayer.During
      rw [hv]
      exact Iff.rfl
    cases hd with
    | absent hd => exact .absent (fun hd' => hd (hdur.mp hd'))
    | @plain _ _ _ _ _ _ _ P M o ms co hd hm hP hk hms hco =>
      obtain ⟨M', o', hM', hw⟩ := hP
      have hf := placedFully_parented h.fresh h.top h.parents hN (hw.fully hrank hl (hcount _ _ _)) hl
      rw [← hl'] at hf
      have hmem : l.withParent (Schema.AnyLayer.null n).ident ∈ a'.layers := by
        rw [hl']
        exact List.mem_append_left _ (List.mem_map_of_mem hl)
      have hP' : PlacedAt a'.layers frame (l.withParent (Schema.AnyLayer.null n).ident) (N.mul P) :=
        ⟨M', o', layerAt_withParent hM', hf.within hrank' hmem _ (hcount _ _ _)⟩
      rw [Affine.real_mul_assoc] at hms hco
      have hann : ∀ ops, announced (l.withParent (Schema.AnyLayer.null n).ident) ix ops = announced l ix ops := by
        intro ops
        unfold announced
        rw [hv]
        rfl
      rw [← hann]
      exact .plain (hdur.mpr hd) (.without (by rw [hv]; exact hun)) hP' (layerAt_withParent hk) (by rw [hv]; exact hms)
        (contentDrawn_same har has (contentDrawn_withParent _ hco))
    | matted hd hm =>
      have hno : ∀ x, MatteOf a.layers i l x → x = none := by
        intro x hx
        cases hx with
        | without => rfl
        | named h' => rw [hun] at h'; cases h'
        | pending h' => rw [hun] at h'; cases h'
        | nothing => rfl
      cases hno _ hm
  -- all of them
  have hall : ∀ (seg : List (Schema.AnyLayer ℝ)) (i : Nat) (per : List (List (Op ℝ))), (∀ s ∈ seg, s ∈ a.layers) →
      LayerListDrawn a a.layers (T.mul N) al frame id i seg per →
      LayerListDrawn a' a'.layers T al frame id i (seg.map (Schema.AnyLayer.withParent (Schema.AnyLayer.null n).ident)) per := by
    intro seg
    induction seg with
    | nil =>
      intro i per _ hd
      cases hd
      exact .nil
    | cons l seg ih =>
      intro i per hm hd
      have hm' : ∀ s ∈ seg, s ∈ a.layers := fun s hs => hm s (List.mem_cons_of_mem _ hs)
      cases hd with
      | matte h1 h2 => exact .matte ((matte_withParent _ _).mpr h1) (ih _ _ hm' h2)
      | layer h1 h2 h3 =>
        exact .layer (fun hn => h1 ((matte_withParent _ _).mp hn)) (hlayer (hm l List.mem_cons_self) h2) (ih _ _ hm' h3)
  have hold := hall _ _ _ (fun s hs => hs) hper
  have hnull : ∃ own, NullCalls n a.layers.length frame own ∧
      LayerDrawn a' a'.layers T al frame a.layers.length a.layers.length (.null n) own := by
    by_cases hd : (Schema.AnyLayer.null n).During frame
    · refine ⟨_, .inl ⟨hd.1, hd.2, rfl⟩, ?_⟩
      have := LayerDrawn.plain (a := a') (ls := a'.layers) (T := T) (alpha := al) (ix := a.layers.length) (i := a.layers.length)
        (ms := []) (co := []) hd (.without h.plain.1)
        (P := N) ⟨N, o, hN, .root h.top⟩ hN
        (by rw [show (Schema.AnyLayer.null n).visual.masksProperties.getD [] = [] from h.unmasked]; exact .nil)
        (.nothing (fun q hq => (by cases hq)) (fun q hq => (by cases hq)))
      exact this
    · exact ⟨_, .inr ⟨hd, rfl⟩, .absent hd⟩
  obtain ⟨own, hown, hdn⟩ := hnull
  have hnew : LayerListDrawn a' a'.layers T al frame id 0 a'.layers (per ++ [own]) := by
    rw [show LayerListDrawn a' a'.layers T al frame id 0 a'.layers (per ++ [own]) ↔ LayerListDrawn a' a'.layers T al frame id 0
      (a.layers.map (Schema.AnyLayer.withParent (Schema.AnyLayer.null n).ident) ++ [.null n]) (per ++ [own]) by rw [← hl']]
    refine layerListDrawn_append.mpr ⟨per, [own], rfl, hold, ?_⟩
    rw [List.length_map, Nat.zero_add]
    exact .layer (fun hm => h.plain.2 hm.2) hdn .nil
  refine ⟨own, per.reverse.flatten, hown, by rw [fullRect_of hc], ?_⟩
  rw [fullRect_of hc, ← har]
  refine (C117_calls hc' hr).mpr ⟨rfl, _, hnew, ?_⟩
  simp

end

/-! ## An example -/

section
variable {F : Type} [FloatOps F]

/-- The example document without the matte and the layer it mattes. -/
def exUnmatted : Schema.Animation F := { exDoc with layers := exDocLayers.take 3 ++ exDocLayers.drop 5 }

/-- A null layer with the number 8. -/
def exNull : Schema.VisualLayer F := { exVisual "all" (some 8) with transform := exDocTransform (lit 3) (lit 4) }

/-- The layer "child" keeps its parent, and all others get the new one. -/
def exParented : Schema.Animation F := { exUnmatted with
  layers := exUnmatted.layers.map (Schema.AnyLayer.withParent 8) ++ [.null exNull] }

theorem exParented_parented : (exUnmatted (F := F)).Parented exParented exNull where
  result := rfl
  fresh := by
    intro s hs
    simp only [exUnmatted, exDocLayers, List.drop, List.take, List.cons_append, List.nil_append, List.mem_cons, List.not_mem_nil,
      or_false] at hs
    rcases hs with rfl | rfl | rfl | rfl
    · exact (show 1 ≠ 8 by decide)
    · exact (show 1 ≠ 8 by decide)
    · exact (show 2 ≠ 8 by decide)
    · exact (show 5 ≠ 8 by decide)
  parents := by
    intro s hs id hid
    refine ⟨.null (exVisual "unused" (some 1)), List.mem_cons_self, ?_⟩
    simp only [exUnmatted, exDocLayers, List.drop, List.take, List.cons_append, List.nil_append, List.mem_cons, List.not_mem_nil,
      or_false] at hs
    rcases hs with rfl | rfl | rfl | rfl <;> cases hid
    rfl
  unmatted := by
    intro s hs hm
    simp only [exUnmatted, exDocLayers, List.drop, List.take, List.cons_append, List.nil_append, List.mem_cons, List.not_mem_nil,
      or_false] at hs
    rcases hs with rfl | rfl | rfl | rfl <;> cases hm
  top := rfl
  plain := ⟨rfl, fun h => (by cases h)⟩
  unmasked := rfl
  unblended := rfl

theorem exUnmatted_acyclic : ParentsAcyclic (exUnmatted (F := F)).layers := by
  refine ⟨id, fun s hs id hid => ?_⟩
  simp only [exUnmatted, exDocLayers, List.drop, List.take, List.cons_append, List.nil_append, List.mem_cons, List.not_mem_nil,
    or_false] at hs
  rcases hs with rfl | rfl | rfl | rfl <;> cases hid
  exact (show 1 < 2 by decide)

end

/-- The theorem applies to the example document: the new null layer has a matrix at each frame, and the document is imported. -/
example [Kurbo ℝ] [KurboPaths ℝ] (frame : ℝ) : ∃ (N : Affine ℝ) (o : ℝ) (c c' : Composition ℝ),
    LayerAt frame (.null exNull) N o ∧ Import.convAnimation exUnmatted = .ok c ∧ Import.convAnimation exParented = .ok c' ∧
      ∀ {r r' : Renderer ℝ}, Reachable r → ∀ {T : Affine ℝ} {al : ℝ} {ops : List (Op ℝ)},
        AppendCalls r c frame (T.mul N) al r' ops →
        ∃ own body, NullCalls exNull 4 frame own ∧
          ops = [.pushClip (T.mul N) (fullRect c)] ++ body ++ [.pop] ∧
          AppendCalls r c' frame T al r' ([.pushClip T (fullRect c)] ++ own ++ body ++ [.pop]) := by
  have hN : LayerAt frame (.null exNull) _ _ := ⟨_, _, rfl, rfl, rfl⟩
  have hc : Import.convAnimation (exUnmatted (F := ℝ)) = .ok _ := rfl
  obtain ⟨c', h1, h2⟩ := C147_calls exParented_parented exUnmatted_acyclic hc hN
  exact ⟨_, _, _, c', hN, hc, h1, h2⟩

end Velato
