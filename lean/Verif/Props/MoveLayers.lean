import Verif.Proofs.MoveLayers
import Verif.Props.DocShows
import Verif.Proofs.Equivariance
import Verif.Spec.ExampleDoc

/-!
# C146: moving layers to a precomposition
-/

namespace Velato
open FloatOps (lit)

section
variable {F : Type} [FloatOps F] [Libm F] [Kurbo F] [KurboPaths F] [LawfulCmp F]

/-- **C146.** Layers that follow each other are moved to a new asset, which a layer `w` shows in their place.  If at a frame this
layer is there, its matrix and opacity change nothing, and the asset is shown at the same frame, then rendering makes the same
calls, but for the group in which the moved layers are announced and the positions in groups. -/
theorem C146_calls {a a' : Schema.Animation F} {xs ys zs : List (Schema.AnyLayer F)} {w : Schema.PrecompositionLayer F}
    {p : Schema.PrecompAsset F} (h : a.Precomposed a' xs ys zs w p) (hw : w.Plain) (hac : ParentsAcyclic a.layers)
    {c : Composition F} (hc : Import.convAnimation a = .ok c) {frame : F} {T M : Affine F} {al o : F}
    (hM : LayerAt frame (.precomposition w) M o) (hT : T.mul M = T) (hal : al *. o /. lit 100 = al)
    (ht : w.time frame = frame) (hd : (Schema.AnyLayer.precomposition w).During frame) :
    ∃ c', Import.convAnimation a' = .ok c' ∧
      ∀ {r r' : Renderer F}, Reachable r → ∀ {ops : List (Op F)}, AppendCalls r c frame T al r' ops →
        ∃ below moved above ops', ops = [.pushClip T (fullRect c)] ++ below ++ moved ++ above ++ [.pop] ∧
          (∃ per, LayerListDrawn a a.layers T al frame id xs.length ys per ∧ moved = per.reverse.flatten) ∧
          AppendCalls r c' frame T al r' ops' ∧
          SameButPositions ops' ([.pushClip T (fullRect c)] ++ below ++
            [.beginGroup (w.visualLayer.layer.visualObject.name.getD "") 0] ++ moved ++ [.endGroup] ++ above ++ [.pop]) := by
  obtain ⟨t, v, htv, hMt, hot⟩ := id hM
  obtain ⟨c', hc'⟩ := precomposed_import h hw htv hc
  obtain ⟨rank, hrank⟩ := hac
  refine ⟨c', hc', fun {r r'} hr {ops} hops => ?_⟩
  obtain ⟨rfl, per, hper, rfl⟩ := (C117_calls hc hr).mp hops
  have hl' : a'.layers = xs ++ .precomposition w :: zs := by rw [h.result]
  have hal' : a'.assetList = a.assetList ++ [.precomposition p] := by rw [h.result]; rfl
  have har : a'.area = a.area := by rw [h.result]; rfl
  have hrank' : ∀ s ∈ a'.layers, ∀ id, s.visual.layer.parentIndex = some id → rank id < rank s.ident := by
    intro s hs id hid
    rw [hl'] at hs
    rcases List.mem_append.mp hs with hs | hs
    · exact hrank s (by rw [h.layers]; simp [hs]) id hid
    · rcases List.mem_cons.mp hs with rfl | hs
      · rw [show (Schema.AnyLayer.precomposition w).visual.layer.parentIndex = none from hw.parentless] at hid
        cases hid
      · exact hrank s (by rw [h.layers]; simp [hs]) id hid
  have hranky : ∀ s ∈ ys, ∀ id, s.visual.layer.parentIndex = some id → rank id < rank s.ident := fun s hs =>
    hrank s (by rw [h.layers]; simp [hs])
  -- the three parts
  have hper1 := hper
  rw [show LayerListDrawn a a.layers T al frame id 0 a.layers per ↔
    LayerListDrawn a a.layers T al frame id 0 (xs ++ ys ++ zs) per by rw [← h.layers], layerListDrawn_append] at hper1
  obtain ⟨p12, p3, rfl, h12, h3⟩ := hper1
  obtain ⟨p1, p2, rfl, h1, h2⟩ := layerListDrawn_append.mp h12
  rw [Nat.zero_add] at h2 h3
  have hno : ∀ {seg : List (Schema.AnyLayer F)} {i : Nat} {per : List (List (Op F))}, (∀ s ∈ seg, s ∈ a.layers) →
      LayerListDrawn a a.layers T al frame id i seg per → LayerListDrawn a' a.layers T al frame id i seg per := by
    intro seg i per hseg hd
    refine layersDrawn_asset har hal' (fun q hq => ?_) ?_ ?_ hd
    · rw [h.shown]; exact h.freshAssets q hq
    · rw [h.shown]; exact h.fresh
    · rw [h.shown]; exact fun q hq => h.fresh q (hseg _ hq)
  have hin := carried_inside h
  have hout := carried_outside h
  have hget : ∀ i : Nat, a.layers[i]? = (xs ++ ys ++ zs)[i]? := fun i => by rw [h.layers]
  obtain ⟨q1, hq1, hs1⟩ := hout.layersDrawn (number' := id)
    (fun i l P hi hl hP => hout.placedAt hrank hrank' hi hl hP) xs 0 0 p1
    (fun k hk => .inl (by omega)) (fun k hk => by rw [if_pos (by omega)])
    (fun k hk => by rw [hget, Nat.zero_add, List.append_assoc, List.getElem?_append_left hk])
    (hno (fun s hs => by rw [h.layers]; simp [hs]) h1)
  obtain ⟨q2, hq2, hs2⟩ := hin.layersDrawn (number' := fun _ => 0)
    (fun i l P hi hl hP => hin.placedAt hrank hranky hi hl hP) ys xs.length 0 p2
    (fun k hk => ⟨by omega, by omega⟩) (fun k hk => by omega)
    (fun k hk => by rw [hget, getElem?_middle _ _ _ (by omega) (by omega), Nat.add_sub_cancel_left])
    (hno (fun s hs => by rw [h.layers]; simp [hs]) h2)
  obtain ⟨q3, hq3, hs3⟩ := hout.layersDrawn (number' := id)
    (fun i l P hi hl hP => hout.placedAt hrank hrank' hi hl hP) zs (xs.length + ys.length) (xs.length + 1) p3
    (fun k hk => .inr (by omega)) (fun k hk => by rw [if_neg (by omega)]; omega)
    (fun k hk => by rw [hget, List.getElem?_append_right (by rw [List.length_append]; omega), List.length_append,
      Nat.add_sub_cancel_left])
    (hno (fun s hs => by rw [h.layers]; simp [hs]) (by rw [List.length_append] at h3; exact h3))
  -- the layer in the middle
  have hmid : LayerDrawn a' a'.layers T al frame xs.length xs.length (.precomposition w)
      (announced (.precomposition w) xs.length q2.reverse.flatten) := by
    have hco : ContentDrawn a' (T.mul M) (al *. o /. lit 100) frame (.precomposition w) q2.reverse.flatten := by
      rw [hT, hal]
      refine .precomposition (p := p) (i := a.assetList.length) hw.visible ?_ h.shown (fun j p' hj hp' => ?_) ?_
      · rw [hal', List.getElem?_append_right (le_refl _), Nat.sub_self]; rfl
      · rw [hal', List.getElem?_eq_none_iff.mpr (by rw [List.length_append]; simpa using hj)] at hp'
        cases hp'
      · rw [ht, h.moved]
        exact hq2
    have := LayerDrawn.plain (a := a') (ls := a'.layers) (ix := xs.length) (i := xs.length) (ms := []) hd (.without hw.unmatted)
      (P := M) ⟨M, o, hM, .root hw.parentless⟩ hM
      (by rw [show (Schema.AnyLayer.precomposition w).visual.masksProperties.getD [] = [] from hw.unmasked]; exact .nil) hco
    simpa using this
  have hnm : ¬ (Schema.AnyLayer.precomposition w).Matte := fun hm => hw.noMatte hm.2
  have hall : LayerListDrawn a' a'.layers T al frame id 0 a'.layers
      (q1 ++ announced (.precomposition w) xs.length q2.reverse.flatten :: q3) := by
    rw [show LayerListDrawn a' a'.layers T al frame id 0 a'.layers
        (q1 ++ announced (.precomposition w) xs.length q2.reverse.flatten :: q3) ↔
      LayerListDrawn a' a'.layers T al frame id 0 (xs ++ .precomposition w :: zs)
        (q1 ++ announced (.precomposition w) xs.length q2.reverse.flatten :: q3) by rw [← hl']]
    refine layerListDrawn_append.mpr ⟨_, _, rfl, hq1, ?_⟩
    rw [Nat.zero_add]
    exact .layer hnm hmid hq3
  refine ⟨p3.reverse.flatten, p2.reverse.flatten, p1.reverse.flatten, _, ?_, ⟨p2, h2, rfl⟩,
    (C117_calls hc' hr).mpr ⟨rfl, _, hall, rfl⟩, ?_⟩
  · rw [fullRect_of hc]
    simp
  · rw [har, fullRect_of hc]
    unfold SameButPositions at *
    simp only [List.reverse_append, List.reverse_cons, List.flatten_append, List.map_append, hs1, hs3, announced,
      List.flatten_cons, List.flatten_nil, List.append_nil, hs2, List.append_assoc]
    rfl

end

section
variable [Kurbo ℝ] [KurboPaths ℝ]

/-- **C146** in exact arithmetic, where the layer that shows the asset has the identity as matrix, is opaque, starts at 0 and does not
stretch time: at each pixel the picture is the same. -/
theorem C146_picture {a a' : Schema.Animation ℝ} {xs ys zs : List (Schema.AnyLayer ℝ)} {w : Schema.PrecompositionLayer ℝ}
    {p : Schema.PrecompAsset ℝ} (h : a.Precomposed a' xs ys zs w p) (hw : w.Plain) (hac : ParentsAcyclic a.layers)
    {c : Composition ℝ} (hc : Import.convAnimation a = .ok c) {frame : ℝ}
    (hM : LayerAt frame (.precomposition w) Affine.identity 100) (hs : w.startTime = 0)
    (ht : w.visualLayer.layer.timeStretch.getD 1 = 1) (hd : (Schema.AnyLayer.precomposition w).During frame) :
    ∃ c', Import.convAnimation a' = .ok c' ∧
      ∀ {r r' : Renderer ℝ}, Reachable r → ∀ {T : Affine ℝ} {al : ℝ} {ops : List (Op ℝ)}, AppendCalls r c frame T al r' ops →
        ∃ ops', AppendCalls r c' frame T al r' ops' ∧
          ∀ (R : Rasteriser) (d : Pixel), R.picture ops' d = R.picture ops d := by
  obtain ⟨c', hc'⟩ := C146_calls h hw hac hc (T := Affine.identity) (al := 1) hM (Affine.real_mul_identity _)
    (by simp [real_lit]) (by rw [time_real, hs, ht, sub_zero, div_one]) hd
  refine ⟨c', hc'.1, fun {r r'} hr {T al ops} hops => ?_⟩
  obtain ⟨c'', hc'', hall⟩ := C146_calls h hw hac hc (T := T) (al := al) hM (Affine.real_mul_identity _)
    (by simp [real_lit]) (by rw [time_real, hs, ht, sub_zero, div_one]) hd
  cases hc'.1.symm.trans hc''
  obtain ⟨below, moved, above, ops', rfl, -, h1, h2⟩ := hall hr hops
  refine ⟨ops', h1, fun R d => ?_⟩
  unfold Rasteriser.picture
  rw [run_samePositions h2]
  simp only [Rasteriser.run, List.foldl_append, List.foldl_cons, List.foldl_nil, Rasteriser.step]

end

/-! ## An example -/

section
variable {F : Type} [FloatOps F]

/-- A layer that shows the asset "new" from frame 0 to 10. -/
def exWrapper : Schema.PrecompositionLayer F :=
  ⟨{ exVisual "moved" (some 9) with transform := { exDocTransform (lit 0) (lit 0) with opacity := none } }, "new",
    lit 100, lit 50, lit 0, none⟩

/-- The asset: a matte and the layer it mattes. -/
def exMoved : Schema.PrecompAsset F := ⟨⟨"new", ⟨none, none⟩⟩, (exDocLayers.drop 3).take 2, none, none⟩

/-- The example document with the matte and the layer it mattes in an asset of their own. -/
def exWrapped : Schema.Animation F := { exDoc with
  layers := exDocLayers.take 3 ++ .precomposition exWrapper :: exDocLayers.drop 5
  assets := some (exDoc.assetList ++ [.precomposition exMoved]) }

theorem exWrapped_precomposed : (exDoc (F := F)).Precomposed exWrapped (exDocLayers.take 3) ((exDocLayers.drop 3).take 2)
    (exDocLayers.drop 5) exWrapper exMoved where
  layers := rfl
  result := rfl
  moved := rfl
  shown := rfl
  fresh := by
    intro q hq
    simp only [exDoc, exDocLayers, exShapeDoc, List.mem_cons, List.not_mem_nil, or_false, reduceCtorEq, false_or] at hq
    cases hq
    exact (show "b" ≠ "new" by decide)
  freshAssets := by
    intro q hq q' hq'
    simp only [exDoc, Schema.Animation.assetList, Option.getD_some, List.mem_cons, List.not_mem_nil, or_false] at hq
    rcases hq with hq | hq | hq <;> cases hq <;> simp [exShapeDoc] at hq'
  apart := by
    intro s hs t ht
    simp only [exDocLayers, List.drop, List.take, List.cons_append, List.nil_append, List.mem_cons, List.not_mem_nil,
      or_false] at hs ht
    rcases hs with rfl | rfl <;> rcases ht with rfl | rfl | rfl | rfl <;>
      constructor <;> rintro (hp | ⟨x, hx, -⟩) <;> first | cases hp | cases hx
  unused := by
    intro t ht
    simp only [exDocLayers, List.drop, List.take, List.cons_append, List.nil_append, List.mem_cons, List.not_mem_nil,
      or_false] at ht
    rcases ht with rfl | rfl | rfl | rfl <;> rintro (hp | ⟨x, hx, -⟩) <;> first | cases hp | cases hx
  mattes := by
    intro i s hs hm _
    match i, hs with
    | 0, hs => cases hs; cases hm
    | 1, _ => exact ⟨0, by omega, ⟨_, rfl, fun h => (by cases h), rfl⟩, fun k _ h1 h2 => by omega⟩
  mattesAfter := by
    intro i s hs hm _
    match i, hs with
    | 0, hs => cases hs; cases hm

theorem exWrapper_plain : (exWrapper (F := F)).Plain :=
  ⟨fun h => (by cases h), rfl, rfl, fun h => (by cases h), rfl, rfl, rfl⟩

theorem exDocLayers_acyclic : ParentsAcyclic (exDocLayers (F := F)) := by
  refine ⟨id, fun s hs id hid => ?_⟩
  simp only [exDocLayers, List.mem_cons, List.not_mem_nil, or_false] at hs
  rcases hs with rfl | rfl | rfl | rfl | rfl | rfl <;> cases hid
  exact (show 1 < 2 by decide)

end

theorem exWrapper_at [Kurbo ℝ] (frame : ℝ) : LayerAt frame (.precomposition exWrapper) Affine.identity 100 := by
  refine ⟨_, _, rfl, ?_, ?_⟩
  · show (Affine.identity : Affine ℝ) = AnimTransform.evaluate
      ⟨.fixed ⟨lit 0, lit 0⟩, .value (.fixed ⟨lit 0, lit 0⟩), .fixed (lit 0),
        .fixed ⟨lit 100, lit 100⟩, .fixed (lit 0), .fixed (lit 0)⟩ (lit 0)
    simp [AnimTransform.evaluate, Value.evaluate, Position.evaluate, Affine.mul, Affine.translate,
      Affine.rotate, skewMatrix, Affine.scaleNonUniform, toRadians, Affine.identity]
  · show (100 : ℝ) = lit 100
    simp

/-- The theorem applies to the example document, at all frames from 0 to 10. -/
example [Kurbo ℝ] [KurboPaths ℝ] {c : Composition ℝ} (hc : Import.convAnimation exDoc = .ok c) {frame : ℝ} (h0 : 0 ≤ frame)
    (h1 : frame < 10) {r r' : Renderer ℝ} (hr : Reachable r) {T : Affine ℝ} {al : ℝ} {ops : List (Op ℝ)}
    (hops : AppendCalls r c frame T al r' ops) :
    ∃ c' ops', Import.convAnimation (exWrapped (F := ℝ)) = .ok c' ∧ AppendCalls r c' frame T al r' ops' ∧
      ∀ (R : Rasteriser) (d : Pixel), R.picture ops' d = R.picture ops d := by
  obtain ⟨c', hc', h⟩ := C146_picture exWrapped_precomposed exWrapper_plain exDocLayers_acyclic hc (frame := frame)
    (exWrapper_at frame) (by show lit 0 = (0 : ℝ); simp) rfl
    ⟨by show (lit 0 <=. frame) = true; simpa using h0, by show (frame <. lit 10) = true; simpa using h1⟩
  obtain ⟨ops', h1, h2⟩ := h hr hops
  exact ⟨c', ops', hc', h1, h2⟩

end Velato
