import Verif.Model.Import
import Verif.Spec.Import
import Verif.Proofs.Layers

/-!
# What `conv_layer` and `process_layers` compute
-/

namespace Velato.Import
open Velato
open Velato.FloatOps (lit)

section
variable {F : Type} [FloatOps F] [Kurbo F] [Libm F]

omit [FloatOps F] [Kurbo F] [Libm F] in
theorem visualLayer_eq (s : Schema.AnyLayer F) : visualLayer s = s.visual := by cases s <;> rfl

omit [FloatOps F] [Kurbo F] [Libm F] in
theorem hidden_iff (s : Schema.AnyLayer F) : isLayerHidden s = true ↔ s.Hidden := by
  unfold isLayerHidden Schema.AnyLayer.Hidden
  rw [visualLayer_eq, beq_iff_eq]

/-- What is known about a converted layer. -/
structure Converted (s : Schema.AnyLayer F) (l : Layer F) (p : LayerSetupParams) : Prop where
  name : l.name = s.visual.layer.visualObject.name.getD ""
  frames : l.frames = ⟨s.visual.layer.inPoint, s.visual.layer.outPoint⟩
  stretch : l.stretch = s.visual.layer.timeStretch.getD (lit 1)
  start : l.startFrame = s.start
  size : ∀ q, s = .precomposition q → l.width = q.width ∧ l.height = q.height
  parent : l.parent = s.visual.layer.parentIndex
  transform : convTransform s.visual.transform = .ok (l.transform, l.opacity)
  masks : convMasks (s.visual.masksProperties.getD []) = .ok l.masks
  isMask : l.isMask = true ↔ s.Matte
  maskLayer : l.maskLayer = none
  blend : ∃ b, convBlendMode (s.visual.blendMode.getD .normal) = .ok b ∧
    l.blendMode = if b = some (.ofMix .normal) then none else b
  index : p.layerIndex = s.ident
  matteMode : p.matteMode = s.visual.matteMode.map convMatteMode
  matteIndex : p.matteLayerIndex = s.visual.matteLayerIndex.map FloatOps.toUsize
  hidden : s.Hidden → l.content = .none
  content : ¬ s.Hidden →
    match s with
    | .precomposition q => ∃ tr, convRemap q.timeRemap = .ok tr ∧ l.content = .instance q.refId tr
    | .shape q => ∃ ss, convShapes q.shapes = .ok ss ∧ l.content = .shape ss
    | _ => l.content = .none

theorem setupLayer_ok {v : Schema.VisualLayer F} {w h st : F} {l : Layer F} {p : LayerSetupParams}
    (hs : setupLayer v w h st = .ok (l, p)) :
    l.name = v.layer.visualObject.name.getD "" ∧ l.frames = ⟨v.layer.inPoint, v.layer.outPoint⟩ ∧
    l.stretch = v.layer.timeStretch.getD (lit 1) ∧ l.startFrame = st ∧ l.width = w ∧ l.height = h ∧
    l.parent = v.layer.parentIndex ∧ convTransform v.transform = .ok (l.transform, l.opacity) ∧
    convMasks (v.masksProperties.getD []) = .ok l.masks ∧
    l.isMask = (v.matteTarget == some .true) ∧ l.maskLayer = none ∧ l.content = .none ∧
    p.layerIndex = v.layer.index.getD 0 ∧ p.matteMode = v.matteMode.map convMatteMode ∧
    p.matteLayerIndex = v.matteLayerIndex.map FloatOps.toUsize ∧
    ∃ b, convBlendMode (v.blendMode.getD .normal) = .ok b ∧
      l.blendMode = if b = some (.ofMix .normal) then none else b := by
  unfold setupLayer at hs
  obtain ⟨⟨tr, op⟩, htr, hs⟩ := bind_ok hs
  obtain ⟨bm, hbm, hs⟩ := bind_ok hs
  obtain ⟨ms, hms, hs⟩ := bind_ok hs
  have := Except.ok.inj hs
  rw [Prod.mk.injEq] at this
  obtain ⟨rfl, rfl⟩ := this
  exact ⟨rfl, rfl, rfl, rfl, rfl, rfl, rfl, htr, hms, rfl, rfl, rfl, rfl, rfl, rfl,
    bm, hbm, rfl⟩

theorem layerSetup_ok {s : Schema.AnyLayer F} {l : Layer F} {p : LayerSetupParams}
    (h : layerSetup s = .ok (l, p)) :
    ∃ w hh, setupLayer s.visual w hh s.start = .ok (l, p) ∧
      ∀ q, s = .precomposition q → w = q.width ∧ hh = q.height := by
  cases s with
  | precomposition q => exact ⟨_, _, h, fun q hq => by cases hq; exact ⟨rfl, rfl⟩⟩
  | solid q => exact ⟨_, _, h, fun q hq => nomatch hq⟩
  | shape q => exact ⟨_, _, h, fun q hq => nomatch hq⟩
  | null q => exact ⟨_, _, h, fun q hq => nomatch hq⟩
  | image q => exact ⟨_, _, h, fun q hq => nomatch hq⟩

theorem convLayer_ok {s : Schema.AnyLayer F} {l : Layer F} {p : LayerSetupParams}
    (h : convLayer s = .ok (l, p)) : Converted s l p := by
  unfold convLayer at h
  obtain ⟨⟨l0, p0⟩, hl0, h⟩ := bind_ok h
  obtain ⟨w, hh, hset, hsize⟩ := layerSetup_ok hl0
  obtain ⟨h1, h2, h3, h4, h5, h6, h7, h8, h9, h10, h11, h12, h13, h14, h15, h16⟩ :=
    setupLayer_ok hset
  have hsize' : ∀ q, s = .precomposition q → l0.width = q.width ∧ l0.height = q.height :=
    fun q hq => ⟨h5.trans (hsize q hq).1, h6.trans (hsize q hq).2⟩
  dsimp only at h
  by_cases hh : isLayerHidden s = true
  · rw [if_pos hh] at h
    have := Except.ok.inj h
    rw [Prod.mk.injEq] at this
    obtain ⟨rfl, rfl⟩ := this
    have hid := (hidden_iff s).mp hh
    exact ⟨h1, h2, h3, h4, hsize', h7, h8, h9,
      ⟨(fun h => nomatch h), fun h => absurd hid h.1⟩, h11, h16, h13, h14, h15, fun _ => h12,
      fun h => absurd hid h⟩
  · rw [if_neg hh] at h
    obtain ⟨ct, hct, h⟩ := bind_ok h
    have := Except.ok.inj h
    rw [Prod.mk.injEq] at this
    obtain ⟨rfl, rfl⟩ := this
    have hid : ¬ s.Hidden := fun h => hh ((hidden_iff s).mpr h)
    refine ⟨h1, h2, h3, h4, hsize', h7, h8, h9, ?_, h11, h16, h13, h14, h15, fun h => absurd h hid,
      fun _ => ?_⟩
    · show l0.isMask = true ↔ _
      rw [h10, beq_iff_eq]
      exact ⟨fun h => ⟨hid, h⟩, fun h => h.2⟩
    · unfold layerContent at hct
      cases s with
      | precomposition q =>
        obtain ⟨tr, htr, rfl⟩ := map_ok hct
        exact ⟨tr, htr, rfl⟩
      | shape q =>
        obtain ⟨ss, hss, rfl⟩ := map_ok hct
        exact ⟨ss, hss, rfl⟩
      | solid q => exact (Except.ok.inj hct).symm
      | null q => exact (Except.ok.inj hct).symm
      | image q => exact (Except.ok.inj hct).symm

/-! ### The index map -/

theorem idGet_lastPosition (ids : List Nat) (id : Nat) :
    LastPosition ids id (idGet ids.zipIdx id) := by
  unfold idGet
  cases hf : ids.zipIdx.reverse.find? (fun e => e.1 == id) with
  | none =>
    rw [List.find?_eq_none] at hf
    intro hmem
    obtain ⟨i, hi, hget⟩ := List.mem_iff_getElem.mp hmem
    refine hf (id, i) ?_ (by simp)
    rw [List.mem_reverse]
    rw [List.mk_mem_zipIdx_iff_getElem?, List.getElem?_eq_getElem hi, hget]
  | some e =>
    rw [List.find?_eq_some_iff_append] at hf
    obtain ⟨he, as, bs, hab, hnot⟩ := hf
    rw [beq_iff_eq] at he
    obtain ⟨x, i⟩ := e
    dsimp only at he
    subst he
    have hrev : ids.zipIdx = bs.reverse ++ (x, i) :: as.reverse := by
      have := congrArg List.reverse hab
      rw [List.reverse_reverse] at this
      simpa using this
    have hi : (x, i) ∈ ids.zipIdx := by rw [hrev]; simp
    have hi' := List.mk_mem_zipIdx_iff_getElem?.mp hi
    refine ⟨hi', fun j hj hget => ?_⟩
    replace hj : i < j := hj
    have hjm : (x, j) ∈ ids.zipIdx := List.mk_mem_zipIdx_iff_getElem?.mpr hget
    -- positions: (x, i) is at position i of the zipIdx, (x, j) at position j > i
    have hlen : bs.reverse.length = i := by
      have hz : ids.zipIdx[bs.reverse.length]? = some (x, i) := by rw [hrev]; simp
      rw [List.getElem?_zipIdx] at hz
      cases hb : ids[bs.reverse.length]? with
      | none => rw [hb] at hz; cases hz
      | some y => rw [hb] at hz; simpa using (Prod.mk.inj (Option.some.inj hz)).2
    have hz : ids.zipIdx[j]? = some (x, j) := by
      rw [List.getElem?_zipIdx, hget]; simp
    rw [hrev, List.getElem?_append_right (by omega)] at hz
    obtain ⟨k, hk⟩ : ∃ k, j - bs.reverse.length = k + 1 := ⟨j - i - 1, by omega⟩
    rw [hk, List.getElem?_cons_succ] at hz
    have := List.mem_of_getElem? hz
    rw [List.mem_reverse] at this
    simpa using hnot _ this

omit [FloatOps F] [Kurbo F] [Libm F] in
theorem idMap_eq (cv : List (Layer F × LayerSetupParams)) :
    idMap cv = (cv.map fun e => e.2.layerIndex).zipIdx := by
  unfold idMap
  rw [List.zipIdx_map]
  rfl

/-! ### The linking loop -/

/-- `prev_matte_layer` before the entry at position `i`. -/
def prevMatte (m : List (Nat × Nat)) : Nat → Option Nat → List (Layer F × LayerSetupParams) → Nat →
    Option Nat
  | _, prev, _, 0 => prev
  | _, prev, [], _ + 1 => prev
  | idx, prev, e :: es, i + 1 => prevMatte m (idx + 1) (linkLayer m idx prev e).2 es i

omit [FloatOps F] [Kurbo F] [Libm F] in
theorem linkLayers_get (m : List (Nat × Nat)) (idx : Nat) (prev : Option Nat)
    (es : List (Layer F × LayerSetupParams)) (i : Nat) :
    (linkLayers m idx prev es)[i]?
      = es[i]?.map fun e => (linkLayer m (idx + i) (prevMatte m idx prev es i) e).1 := by
  induction es generalizing idx prev i with
  | nil => cases i <;> rfl
  | cons e es ih =>
    cases i with
    | zero => rfl
    | succ i =>
      show (linkLayers m (idx + 1) (linkLayer m idx prev e).2 es)[i]? = _
      rw [ih, show idx + 1 + i = idx + (i + 1) by omega]
      rfl

omit [FloatOps F] [Kurbo F] [Libm F] in
theorem prevMatte_succ (m : List (Nat × Nat)) (idx : Nat) (prev : Option Nat)
    (es : List (Layer F × LayerSetupParams)) (i : Nat) {e : Layer F × LayerSetupParams}
    (he : es[i]? = some e) :
    prevMatte m idx prev es (i + 1) = (linkLayer m (idx + i) (prevMatte m idx prev es i) e).2 := by
  induction es generalizing idx prev i with
  | nil => cases he
  | cons x es ih =>
    cases i with
    | zero => cases he; cases es <;> rfl
    | succ i =>
      show prevMatte m (idx + 1) (linkLayer m idx prev x).2 es (i + 1) = _
      rw [ih (idx + 1) _ i he, show idx + 1 + i = idx + (i + 1) by omega]
      rfl

/-- What `prev_matte_layer` holds before position `i`. -/
theorem prevMatte_spec (m : List (Nat × Nat)) {src : List (Schema.AnyLayer F)}
    {es : List (Layer F × LayerSetupParams)}
    (h : List.Forall₂ (fun s e => Converted s e.1 e.2) src es) (i : Nat) (hi : i ≤ es.length) :
    match prevMatte m 0 none es i with
    | some j => PendingMatte src i j
    | none => ∀ j, ¬ PendingMatte src i j := by
  induction i with
  | zero =>
    have : prevMatte m 0 none es 0 = none := by cases es <;> rfl
    rw [this]
    intro j hj
    exact absurd hj.1 (by omega)
  | succ i ih =>
    specialize ih (by omega)
    have hil : i < es.length := by omega
    have hes : es[i]? = some es[i] := List.getElem?_eq_getElem hil
    have hsl : i < src.length := by rw [h.length_eq]; exact hil
    have hss : src[i]? = some src[i] := List.getElem?_eq_getElem hsl
    have hc : Converted src[i] es[i].1 es[i].2 := List.forall₂_iff_get.mp h |>.2 i hsl hil
    have hm : es[i].1.isMask = true ↔ src[i].Matte := hc.isMask
    have hd : es[i].2.matteMode.isSome = true ↔ src[i].Matted := by
      rw [hc.matteMode, Option.isSome_map]; rfl
    rw [prevMatte_succ m 0 none es i hes]
    generalize prevMatte m 0 none es i = pr at ih
    show match (if es[i].1.isMask then some (0 + i) else if es[i].2.matteMode.isSome then none else pr) with
      | some j => PendingMatte src (i + 1) j
      | none => ∀ j, ¬ PendingMatte src (i + 1) j
    by_cases h1 : es[i].1.isMask = true
    · rw [if_pos h1, Nat.zero_add]
      refine ⟨by omega, ⟨_, hss, hm.mp h1⟩, fun k s hk hk' => ?_⟩
      omega
    · rw [if_neg h1]
      have h1' : ¬ src[i].Matte := fun h => h1 (hm.mpr h)
      by_cases h2 : es[i].2.matteMode.isSome = true
      · rw [if_pos h2]
        intro j hj
        by_cases hji : j = i
        · subst hji
          obtain ⟨s, hs, hs'⟩ := hj.2.1
          rw [hss] at hs; cases hs
          exact h1' hs'
        · exact (hj.2.2 i _ (by have := hj.1; omega) (by omega) hss).2 (hd.mp h2)
      · rw [if_neg h2]
        have h2' : ¬ src[i].Matted := fun h => h2 (hd.mpr h)
        have step : ∀ j, PendingMatte src (i + 1) j ↔ PendingMatte src i j := by
          intro j
          constructor
          · rintro ⟨hj, ⟨s, hs, hs'⟩, hj3⟩
            have hji : j ≠ i := by
              rintro rfl
              rw [hss] at hs; cases hs
              exact h1' hs'
            exact ⟨by omega, ⟨s, hs, hs'⟩, fun k s hk hk' => hj3 k s hk (by omega)⟩
          · rintro ⟨hj, hj2, hj3⟩
            refine ⟨by omega, hj2, fun k s hk hk' hks => ?_⟩
            by_cases hki : k = i
            · subst hki
              rw [hss] at hks; cases hks
              exact ⟨h1', h2'⟩
            · exact hj3 k s hk (by omega) hks
        cases pr with
        | none => exact fun j hj => ih j ((step j).mp hj)
        | some j => exact (step j).mpr ih

/-! ### Whole documents -/

theorem processLayers_ok {src : List (Schema.AnyLayer F)} {dst : List (Layer F)}
    (h : processLayers src = .ok dst) :
    ∃ es, List.Forall₂ (fun s e => convLayer s = .ok e) src es ∧
      dst = linkLayers (idMap es) 0 none es := by
  unfold processLayers at h
  obtain ⟨es, hes, h⟩ := bind_ok h
  exact ⟨es, mapM_ok_iff.mp hes, (Except.ok.inj h).symm⟩

theorem convAnimation_ok {a : Schema.Animation F} {c : Composition F}
    (h : convAnimation a = .ok c) :
    List.Forall₂ (fun s e => convAsset s = .ok e) a.assetList c.assets ∧
      processLayers a.layers = .ok c.layers ∧
      c.frames = ⟨a.inPoint, a.outPoint⟩ ∧ c.frameRate = a.frameRate ∧ c.width = a.width ∧
      c.height = a.height := by
  unfold convAnimation at h
  obtain ⟨as, has, h⟩ := bind_ok h
  obtain ⟨ls, hls, h⟩ := bind_ok h
  cases Except.ok.inj h
  exact ⟨mapM_ok_iff.mp has, hls, rfl, rfl, rfl, rfl⟩

theorem convAsset_ok {s : Schema.AnyAsset F} {e : String × List (Layer F)}
    (h : convAsset s = .ok e) :
    ∃ p, s = .precomposition p ∧ e.1 = p.asset.id ∧ processLayers p.layers = .ok e.2 := by
  cases s with
  | image a => cases h
  | precomposition p =>
    obtain ⟨ls, hls, h⟩ := bind_ok (show (processLayers p.layers >>= fun layers => _) = _ from h)
    cases Except.ok.inj h
    exact ⟨p, rfl, rfl, hls⟩

theorem ImportedList.process {a : Schema.Animation F} {c : Composition F}
    (h : convAnimation a = .ok c) {src : List (Schema.AnyLayer F)} {dst : List (Layer F)}
    (hl : ImportedList a c src dst) : processLayers src = .ok dst := by
  obtain ⟨has, hls, -⟩ := convAnimation_ok h
  cases hl with
  | root => exact hls
  | asset i p dst hi hi' =>
    obtain ⟨his, hieq⟩ := List.getElem?_eq_some_iff.mp hi
    obtain ⟨hjs, hjeq⟩ := List.getElem?_eq_some_iff.mp hi'
    have hf : convAsset (a.assetList[i]'his) = .ok (c.assets[i]'hjs) :=
      (List.forall₂_iff_get.mp has).2 i his hjs
    rw [hieq, hjeq] at hf
    obtain ⟨p', hp', -, hpr⟩ := convAsset_ok hf
    cases hp'
    exact hpr

theorem ids_eq {src : List (Schema.AnyLayer F)} {es : List (Layer F × LayerSetupParams)}
    (h : List.Forall₂ (fun s e => Converted s e.1 e.2) src es) :
    (es.map fun e => e.2.layerIndex) = src.map Schema.AnyLayer.ident := by
  induction h with
  | nil => rfl
  | cons h _ ih => exact congrArg₂ _ h.index ih

/-- The layer at position `i`, in the document, as converted, and as linked. -/
theorem processLayers_get {src : List (Schema.AnyLayer F)} {dst : List (Layer F)}
    (h : processLayers src = .ok dst) {i : Nat} {s : Schema.AnyLayer F} {l : Layer F}
    (hs : src[i]? = some s) (hl : dst[i]? = some l) :
    ∃ es e, List.Forall₂ (fun s e => Converted s e.1 e.2) src es ∧ es[i]? = some e ∧
      Converted s e.1 e.2 ∧
      l = (linkLayer (src.map Schema.AnyLayer.ident).zipIdx i
        (prevMatte (src.map Schema.AnyLayer.ident).zipIdx 0 none es i) e).1 := by
  obtain ⟨es, hes, rfl⟩ := processLayers_ok h
  have hcv : List.Forall₂ (fun s e => Converted s e.1 e.2) src es :=
    hes.imp fun s e h => convLayer_ok (l := e.1) (p := e.2) h
  rw [linkLayers_get, idMap_eq, ids_eq hcv, Nat.zero_add] at hl
  obtain ⟨e, he, hl⟩ := Option.map_eq_some_iff.mp hl
  obtain ⟨h1, h2⟩ := List.getElem?_eq_some_iff.mp hs
  obtain ⟨h3, h4⟩ := List.getElem?_eq_some_iff.mp he
  have hc : Converted (src[i]'h1) (es[i]'h3).1 (es[i]'h3).2 :=
    (List.forall₂_iff_get.mp hcv).2 i h1 h3
  rw [h2, h4] at hc
  exact ⟨es, e, hcv, he, hc, hl.symm⟩

theorem processLayers_length {src : List (Schema.AnyLayer F)} {dst : List (Layer F)}
    (h : processLayers src = .ok dst) : src.length = dst.length := by
  obtain ⟨es, hes, rfl⟩ := processLayers_ok h
  rw [hes.length_eq]
  generalize idMap es = m
  have : ∀ (es : List (Layer F × LayerSetupParams)) (k : Nat) (pr : Option Nat),
      es.length = (linkLayers m k pr es).length := by
    intro es
    induction es with
    | nil => intro _ _; rfl
    | cons e es ih => intro k pr; exact congrArg (· + 1) (ih _ _)
  exact this es 0 none

/-- Pointwise facts about an imported list of layers. -/
theorem processLayers_forall {src : List (Schema.AnyLayer F)} {dst : List (Layer F)}
    (h : processLayers src = .ok dst) {R : Schema.AnyLayer F → Layer F → Prop}
    (hR : ∀ (i : Nat) s l, src[i]? = some s → dst[i]? = some l → R s l) : List.Forall₂ R src dst := by
  refine List.forall₂_iff_get.mpr ⟨processLayers_length h, fun i hi hj => hR i _ _ ?_ ?_⟩
  · exact List.getElem?_eq_getElem hi
  · exact List.getElem?_eq_getElem hj

end
end Velato.Import
