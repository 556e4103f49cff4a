import Verif.Proofs.Import
import Verif.Spec.ExampleDoc
import Verif.Props.LayerOrder
import Verif.Props.Compositing

/-!
# C44, C45, C46, C47, C57 — import of layers and assets
-/

namespace Velato
open FloatOps (lit)
open Import (convAnimation)

section
variable {F : Type} [FloatOps F] [Kurbo F] [Libm F]

/-! ## C44 -/

/-- **C44.** An imported composition has the frame range, frame rate and size of the document; and
every layer list, of the composition and of each asset, has one layer per layer of the document,
in order, with its name, frame range, stretch, start and size, drawing what it stands for. -/
theorem C44_layers {a : Schema.Animation F} {c : Composition F} (h : convAnimation a = .ok c) :
    c.frames = ⟨a.inPoint, a.outPoint⟩ ∧ c.frameRate = a.frameRate ∧ c.width = a.width ∧
    c.height = a.height ∧ List.Forall₂ KeepsLayer a.layers c.layers ∧
    List.Forall₂ (fun s e => ∃ p, s = .precomposition p ∧ e.1 = p.asset.id ∧
      List.Forall₂ KeepsLayer p.layers e.2) a.assetList c.assets := by
  obtain ⟨has, hls, h1, h2, h3, h4⟩ := Import.convAnimation_ok h
  have key : ∀ {src : List (Schema.AnyLayer F)} {dst : List (Layer F)},
      Import.processLayers src = .ok dst → List.Forall₂ KeepsLayer src dst := by
    intro src dst hp
    refine Import.processLayers_forall hp fun i s l hs hl => ?_
    obtain ⟨es, e, -, -, hc, rfl⟩ := Import.processLayers_get hp hs hl
    refine ⟨hc.name, congrArg FRange.start hc.frames, congrArg FRange.stop hc.frames, hc.stretch,
      hc.start, hc.size, ?_, ?_⟩
    · rintro p rfl hv
      obtain ⟨tr, -, ht⟩ := hc.content hv
      exact ⟨tr, ht⟩
    · rintro p rfl hv
      obtain ⟨ss, -, ht⟩ := hc.content hv
      exact ⟨ss, ht⟩
  refine ⟨h1, h2, h3, h4, key hls, has.imp fun s e hse => ?_⟩
  obtain ⟨p, hp, hid, hpr⟩ := Import.convAsset_ok hse
  exact ⟨p, hp, hid, key hpr⟩

/-! ## C45 -/

/-- **C45.** The parent of an imported layer is the last position in its list at which a layer has
the index referred to (0 standing for a missing index), none if there is none; it is a position of
the list. -/
theorem C45_parents {a : Schema.Animation F} {c : Composition F} (h : convAnimation a = .ok c)
    {src : List (Schema.AnyLayer F)} {dst : List (Layer F)} (hd : ImportedList a c src dst)
    {i : Nat} {s : Schema.AnyLayer F} {l : Layer F} (hs : src[i]? = some s) (hl : dst[i]? = some l) :
    (match s.visual.layer.parentIndex with
      | none => l.parent = none
      | some id => LastPosition (src.map Schema.AnyLayer.ident) id l.parent) ∧
    ∀ j, l.parent = some j → j < dst.length := by
  have hp := Import.ImportedList.process h hd
  obtain ⟨es, e, -, -, hc, rfl⟩ := Import.processLayers_get hp hs hl
  have hpar : ∀ pr, (Import.linkLayer (src.map Schema.AnyLayer.ident).zipIdx i pr e).1.parent
      = s.visual.layer.parentIndex.bind
        (Import.idGet (src.map Schema.AnyLayer.ident).zipIdx) := fun _ => by
    rw [← hc.parent]; rfl
  rw [hpar]
  cases hid : s.visual.layer.parentIndex with
  | none => exact ⟨rfl, fun j hj => nomatch hj⟩
  | some id =>
    have hlast := Import.idGet_lastPosition (src.map Schema.AnyLayer.ident) id
    refine ⟨hlast, fun j hj => ?_⟩
    rw [Option.bind_some] at hj
    rw [hj] at hlast
    have := (List.getElem?_eq_some_iff.mp hlast.1).1
    rw [List.length_map, Import.processLayers_length hp] at this
    exact this

/-! ## C46 -/

/-- **C46.** A layer without matte mode has no matte.  One with a matte mode and an explicit matte
index is matted by the layer at the last position with that index (none if there is none);
without an explicit index, by the nearest matte before it if no layer in between asked for a matte
(none otherwise).  The position is one of the list. -/
theorem C46_mattes {a : Schema.Animation F} {c : Composition F} (h : convAnimation a = .ok c)
    {src : List (Schema.AnyLayer F)} {dst : List (Layer F)} (hd : ImportedList a c src dst)
    {i : Nat} {s : Schema.AnyLayer F} {l : Layer F} (hs : src[i]? = some s) (hl : dst[i]? = some l) :
    (s.visual.matteMode = none → l.maskLayer = none) ∧
    (∀ mode x, s.visual.matteMode = some mode → s.visual.matteLayerIndex = some x →
      ∃ r, LastPosition (src.map Schema.AnyLayer.ident) (FloatOps.toUsize x) r ∧
        l.maskLayer = r.map fun j => (matteBlend mode, j)) ∧
    (∀ mode, s.visual.matteMode = some mode → s.visual.matteLayerIndex = none →
      (∃ j, PendingMatte src i j ∧ l.maskLayer = some (matteBlend mode, j)) ∨
      ((∀ j, ¬ PendingMatte src i j) ∧ l.maskLayer = none)) ∧
    (∀ b j, l.maskLayer = some (b, j) → j < dst.length) := by
  have hp := Import.ImportedList.process h hd
  have hlen := Import.processLayers_length hp
  have hil : i < dst.length := (List.getElem?_eq_some_iff.mp hl).1
  obtain ⟨es, e, hcv, he, hc, rfl⟩ := Import.processLayers_get hp hs hl
  have hmode : ∀ m, Import.convMatteMode m = matteBlend m := fun m => by cases m <;> rfl
  have hie : i ≤ es.length := Nat.le_of_lt (List.getElem?_eq_some_iff.mp he).1
  have hprev := Import.prevMatte_spec (src.map Schema.AnyLayer.ident).zipIdx hcv i hie
  generalize Import.prevMatte (src.map Schema.AnyLayer.ident).zipIdx 0 none es i = pr at hprev
  have hm : (Import.linkLayer (src.map Schema.AnyLayer.ident).zipIdx i pr e).1.maskLayer
      = match s.visual.matteMode with
        | none => none
        | some mode =>
          (match s.visual.matteLayerIndex with
            | some x => Import.idGet (src.map Schema.AnyLayer.ident).zipIdx (FloatOps.toUsize x)
            | none => pr).map fun j => (matteBlend mode, j) := by
    unfold Import.linkLayer
    dsimp only
    rw [hc.maskLayer, hc.matteMode, hc.matteIndex]
    cases s.visual.matteMode with
    | none => rfl
    | some mode =>
      cases s.visual.matteLayerIndex with
      | none => cases pr <;> simp [hmode]
      | some x =>
        dsimp only [Option.map_some]
        cases Import.idGet (src.map Schema.AnyLayer.ident).zipIdx (FloatOps.toUsize x) <;>
          simp [hmode]
  rw [hm]
  refine ⟨fun hn => by rw [hn], fun mode x h1 h2 => ?_, fun mode h1 h2 => ?_, fun b j hj => ?_⟩
  · exact ⟨_, Import.idGet_lastPosition _ (FloatOps.toUsize x), by rw [h1, h2]⟩
  · rw [h1, h2]
    cases pr with
    | none => exact .inr ⟨hprev, rfl⟩
    | some j => exact .inl ⟨j, hprev, rfl⟩
  · cases h1 : s.visual.matteMode with
    | none => rw [h1] at hj; cases hj
    | some mode =>
      rw [h1] at hj
      dsimp only at hj
      obtain ⟨k, hk, hkj⟩ := Option.map_eq_some_iff.mp hj
      cases hkj
      cases h2 : s.visual.matteLayerIndex with
      | none =>
        rw [h2] at hk
        dsimp only at hk
        rw [hk] at hprev
        exact Nat.lt_trans hprev.1 hil
      | some x =>
        rw [h2] at hk
        have hlast := Import.idGet_lastPosition (src.map Schema.AnyLayer.ident) (FloatOps.toUsize x)
        rw [show Import.idGet _ (FloatOps.toUsize x) = some j from hk] at hlast
        have := (List.getElem?_eq_some_iff.mp hlast.1).1
        rw [List.length_map, hlen] at this
        exact this

/-! ## C47 -/

/-- **C47.** A hidden layer has no content and is not marked as a matte. -/
theorem C47_hidden {a : Schema.Animation F} {c : Composition F} (h : convAnimation a = .ok c)
    {src : List (Schema.AnyLayer F)} {dst : List (Layer F)} (hd : ImportedList a c src dst)
    {i : Nat} {s : Schema.AnyLayer F} {l : Layer F} (hs : src[i]? = some s) (hl : dst[i]? = some l)
    (hh : s.Hidden) : l.content = .none ∧ l.isMask = false := by
  obtain ⟨es, e, -, -, hc, rfl⟩ :=
    Import.processLayers_get (Import.ImportedList.process h hd) hs hl
  refine ⟨hc.hidden hh, ?_⟩
  show e.1.isMask = false
  cases he : e.1.isMask with
  | false => rfl
  | true => exact absurd hh (hc.isMask.mp he).1

/-- **C47.** A hidden layer draws nothing: when it is rendered, every draw call comes from the
rendering of its matte, and there is none if it has no matte mode. -/
theorem C47_draws_nothing {a : Schema.Animation F} {c : Composition F} (h : convAnimation a = .ok c)
    {src : List (Schema.AnyLayer F)} {dst : List (Layer F)} (hd : ImportedList a c src dst)
    {i : Nat} {s : Schema.AnyLayer F} {l : Layer F} (hs : src[i]? = some s) (hl : dst[i]? = some l)
    (hh : s.Hidden) {ix : Nat} {T : Affine F} {al fr : F} {ops : List (Op F)}
    (ho : LayerCalls c dst l ix T al fr ops) {st : Option (KStroke F)} {Td : Affine F}
    {br : Brush F} {els : List (PathEl F)} (hop : Op.draw st Td br els ∈ ops) :
    s.visual.matteMode ≠ none ∧ ∃ mode j m mops, l.maskLayer = some (mode, j) ∧
      dst[j]? = some m ∧ LayerCalls c dst m 0 T al fr mops ∧ Op.draw st Td br els ∈ mops := by
  have hcn := (C47_hidden h hd hs hl hh).1
  have hmn := (C46_mattes h hd hs hl).1
  rcases layerCalls_cases.mp ho with ⟨-, rfl⟩ | ⟨-, mo, ms, co, hmo, hms, hco, rfl⟩
  · cases hop
  · have hco' : co = [] := by
      cases hco with
      | none => rfl
      | missing n tr h hn => rfl
      | asset n tr als per h => rw [hcn] at h; cases h
      | shape ss b _ h => rw [hcn] at h; cases h
    subst hco'
    have hmo' : Op.draw st Td br els ∈ mo := by
      simp only [layerOut, List.append_nil, List.mem_append, List.mem_singleton,
        List.mem_replicate, reduceCtorEq, and_false, or_false, false_or] at hop
      rcases hop with hop | hop
      · exact hop
      · exfalso
        obtain ⟨m, -, hm⟩ := forall₂_right hms hop
        obtain ⟨_, -, hx⟩ := map_ok hm
        cases hx
    cases hmo with
    | none => cases hmo'
    | dangling m j hm hj =>
      simp at hmo'
    | matte m j l' o hm hj ho' =>
      refine ⟨fun hn => ?_, m, j, l', o, hm, hj, ho', by simpa using hmo'⟩
      rw [hmn hn] at hm; cases hm

omit [FloatOps F] [Kurbo F] [Libm F] in
theorem setHidden_visual (x : Option Bool) (s : Schema.AnyLayer F) :
    (s.setHidden x).visual = s.visual.setHidden x := by cases s <;> rfl

/-- **C47.** Hiding or showing layers changes no layer's transform, opacity and parent; so every
layer, in particular every child of a hidden layer, is placed by the same transform as if no layer
were hidden. -/
theorem C47_transforms {a a' : Schema.Animation F} {c c' : Composition F}
    (h : convAnimation a = .ok c) (h' : convAnimation a' = .ok c')
    {src src' : List (Schema.AnyLayer F)} {dst dst' : List (Layer F)}
    (hd : ImportedList a c src dst) (hd' : ImportedList a' c' src' dst')
    (hsame : Schema.SameButHidden src src')
    {i : Nat} {l l' : Layer F} (hl : dst[i]? = some l) (hl' : dst'[i]? = some l') :
    (l'.transform = l.transform ∧ l'.opacity = l.opacity ∧ l'.parent = l.parent) ∧
    ∀ G fr, computeTransform dst' l' G fr = computeTransform dst l G fr := by
  have hp := Import.ImportedList.process h hd
  have hp' := Import.ImportedList.process h' hd'
  have hids : src'.map Schema.AnyLayer.ident = src.map Schema.AnyLayer.ident := by
    clear hd hd' hp hp'
    induction hsame with
    | nil => rfl
    | cons hx _ ih =>
      obtain ⟨x, rfl⟩ := hx
      rw [List.map_cons, List.map_cons, ih]
      congr 1
      unfold Schema.AnyLayer.ident
      rw [setHidden_visual]
      rfl
  have key : ∀ (i : Nat) (l l' : Layer F), dst[i]? = some l → dst'[i]? = some l' →
      l'.transform = l.transform ∧ l'.opacity = l.opacity ∧ l'.parent = l.parent := by
    intro i l l' hl hl'
    have hi := (List.getElem?_eq_some_iff.mp hl).1
    rw [← Import.processLayers_length hp] at hi
    have hi' := (List.getElem?_eq_some_iff.mp hl').1
    rw [← Import.processLayers_length hp'] at hi'
    obtain ⟨x, hx⟩ := (List.forall₂_iff_get.mp hsame).2 i hi hi'
    have hs := List.getElem?_eq_getElem hi
    have hs' := List.getElem?_eq_getElem hi'
    change src'[i] = src[i].setHidden x at hx
    rw [hx] at hs'
    obtain ⟨es, e, -, -, hc, rfl⟩ := Import.processLayers_get hp hs hl
    obtain ⟨es', e', -, -, hc', rfl⟩ := Import.processLayers_get hp' hs' hl'
    have ht := hc'.transform
    rw [setHidden_visual] at ht
    rw [show ((src[i]).visual.setHidden x).transform = (src[i]).visual.transform from rfl,
      hc.transform] at ht
    have ht := Prod.mk.inj (Except.ok.inj ht)
    refine ⟨ht.1.symm, ht.2.symm, ?_⟩
    show e'.1.parent.bind _ = e.1.parent.bind _
    rw [hc.parent, hc'.parent, setHidden_visual, hids]
    rfl
  refine ⟨key i l l' hl hl', fun G fr => ?_⟩
  obtain ⟨k1, k2, k3⟩ := key i l l' hl hl'
  unfold computeTransform
  have hlen : dst'.length = dst.length := by
    rw [← Import.processLayers_length hp, ← Import.processLayers_length hp', hsame.length_eq]
  rw [k1, k3, hlen, chaseParents_congr (ls := dst') (ls' := dst)]
  intro j
  cases hj : dst[j]? with
  | none =>
    have := List.getElem?_eq_none_iff.mp hj
    rw [List.getElem?_eq_none_iff.mpr (by omega)]
    exact .none
  | some m =>
    have hjl := (List.getElem?_eq_some_iff.mp hj).1
    have hj' : dst'[j]? = some (dst'[j]'(by omega)) := List.getElem?_eq_getElem (by omega)
    rw [hj']
    obtain ⟨m1, -, m3⟩ := key j m _ hj hj'
    exact .some ⟨m1, m3⟩

/-! ## C57 -/

omit [FloatOps F] [Kurbo F] [Libm F] in
theorem asset_last {as : List (String × List (Layer F))} {n : String} {i : Nat} {ls : List (Layer F)}
    (hi : as[i]? = some (n, ls)) (hlast : ∀ j, i < j → (as.map (·.1))[j]? ≠ some n) :
    (as.reverse.find? fun e => e.1 == n).map (·.2) = some ls := by
  obtain ⟨hlt, heq⟩ := List.getElem?_eq_some_iff.mp hi
  have hsplit : as = as.take i ++ (n, ls) :: as.drop (i + 1) := by
    conv_lhs => rw [← List.take_append_drop i as]
    rw [List.drop_eq_getElem_cons hlt, heq]
  rw [hsplit, List.reverse_append, List.reverse_cons, List.append_assoc, List.find?_append,
    List.find?_eq_none.mpr ?_]
  · simp
  · intro e he
    rw [List.mem_reverse] at he
    obtain ⟨k, hk, hke⟩ := List.mem_iff_getElem.mp he
    rw [List.getElem_drop] at hke
    rw [List.length_drop] at hk
    intro hc
    rw [beq_iff_eq] at hc
    refine hlast (i + 1 + k) (by omega) ?_
    rw [List.getElem?_map, List.getElem?_eq_getElem (by omega), hke, Option.map_some, hc]

/-- **C57.** The layers an instance of the asset `n` uses are those of the last asset of the
document with that id: what one gets when it is the document's only asset.  If no asset has the
id, there are none. -/
theorem C57_last {a : Schema.Animation F} {c : Composition F} (h : convAnimation a = .ok c)
    (n : String) :
    (∀ (i : Nat) p, a.assetList[i]? = some (.precomposition p) → p.asset.id = n →
      (∀ (j : Nat) q, i < j → a.assetList[j]? = some (.precomposition q) → q.asset.id ≠ n) →
      ∃ c' ls, convAnimation { a with assets := some [.precomposition p] } = .ok c' ∧
        c'.asset n = some ls ∧ c.asset n = some ls ∧ ImportedList a c p.layers ls) ∧
    ((∀ p, .precomposition p ∈ a.assetList → p.asset.id ≠ n) → c.asset n = none) := by
  obtain ⟨has, hls, h1, h2, h3, h4⟩ := Import.convAnimation_ok h
  constructor
  · intro i p hi hn hlast
    obtain ⟨his, hieq⟩ := List.getElem?_eq_some_iff.mp hi
    have hjs : i < c.assets.length := by rw [← has.length_eq]; exact his
    have hf : Import.convAsset (a.assetList[i]'his) = .ok (c.assets[i]'hjs) :=
      (List.forall₂_iff_get.mp has).2 i his hjs
    rw [hieq] at hf
    obtain ⟨p', hp', hid, hpr⟩ := Import.convAsset_ok hf
    cases hp'
    have hget : c.assets[i]? = some (n, (c.assets[i]'hjs).2) := by
      rw [List.getElem?_eq_getElem hjs, ← hn, ← hid]
    refine ⟨{ c with assets := [(p.asset.id, (c.assets[i]'hjs).2)] }, (c.assets[i]'hjs).2, ?_, ?_,
      asset_last hget ?_, .asset i p _ hi (by rw [hget, hn])⟩
    · unfold convAnimation
      show (List.mapM Import.convAsset [Schema.AnyAsset.precomposition p] >>= _) = _
      have : List.mapM Import.convAsset [Schema.AnyAsset.precomposition p]
          = .ok [(p.asset.id, (c.assets[i]'hjs).2)] := by
        rw [mapM_cons', hf]
        show Except.ok _ = _
        rw [← hid]
        rfl
      rw [this]
      show (Import.processLayers a.layers >>= _) = _
      rw [hls]
      show Except.ok _ = Except.ok _
      rw [h1, h2, h3, h4]
    · unfold Composition.asset
      rw [List.reverse_singleton]
      simp [hn]
    · intro j hj hjn
      rw [List.getElem?_map] at hjn
      obtain ⟨e, he, hen⟩ := Option.map_eq_some_iff.mp hjn
      obtain ⟨hjl, hje⟩ := List.getElem?_eq_some_iff.mp he
      have hjl' : j < a.assetList.length := by rw [has.length_eq]; exact hjl
      have hfj : Import.convAsset (a.assetList[j]'hjl') = .ok (c.assets[j]'hjl) :=
        (List.forall₂_iff_get.mp has).2 j hjl' hjl
      obtain ⟨q, hq, hqid, -⟩ := Import.convAsset_ok hfj
      refine hlast j q hj (by rw [List.getElem?_eq_getElem hjl', hq]) ?_
      rw [← hqid, hje, hen]
  · intro hno
    unfold Composition.asset
    rw [List.find?_eq_none.mpr, Option.map_none]
    intro e he hen
    rw [List.mem_reverse] at he
    rw [beq_iff_eq] at hen
    obtain ⟨s, hs, hse⟩ := forall₂_right has he
    obtain ⟨p, rfl, hid, -⟩ := Import.convAsset_ok hse
    exact hno p hs (by rw [← hid, hen])

/-- **C57.** An asset that is followed by another one with the same id has no effect: without it,
every frame is rendered with the same calls. -/
theorem C57_shadowed {a : Schema.Animation F} {c c' : Composition F}
    {xs ys : List (Schema.AnyAsset F)} {p q : Schema.PrecompAsset F}
    (h : convAnimation { a with assets := some (xs ++ .precomposition p :: ys) } = .ok c)
    (hq : .precomposition q ∈ ys) (hid : q.asset.id = p.asset.id)
    (h' : convAnimation { a with assets := some (xs ++ ys) } = .ok c')
    {r : Renderer F} (hr : Reachable r) (fuel : Nat) (fr : F) (T : Affine F) (al : F) :
    Renderer.append fuel r c fr T al = Renderer.append fuel r c' fr T al := by
  obtain ⟨has, hls, -, -, h3, h4⟩ := Import.convAnimation_ok h
  obtain ⟨has', hls', -, -, h3', h4'⟩ := Import.convAnimation_ok h'
  have hl : c.layers = c'.layers := Except.ok.inj (hls.symm.trans hls')
  change List.Forall₂ _ (xs ++ .precomposition p :: ys) _ at has
  change List.Forall₂ _ (xs ++ ys) _ at has'
  obtain ⟨ex, e, ey, hc, hx, he, hy⟩ : ∃ ex e ey, c.assets = ex ++ e :: ey ∧
      List.Forall₂ (fun s e => Import.convAsset s = .ok e) xs ex ∧
      Import.convAsset (.precomposition p) = .ok e ∧
      List.Forall₂ (fun s e => Import.convAsset s = .ok e) ys ey := by
    generalize c.assets = es at has
    clear h h' hls hls' has' hl h3 h4 h3' h4'
    induction xs generalizing es with
    | nil =>
      cases has with
      | cons h1 h2 => exact ⟨[], _, _, rfl, .nil, h1, h2⟩
    | cons x xs ih =>
      cases has with
      | cons h1 h2 =>
        obtain ⟨ex, e, ey, rfl, hx, he, hy⟩ := ih _ h2
        exact ⟨_ :: ex, e, ey, rfl, .cons h1 hx, he, hy⟩
  have hc' : c'.assets = ex ++ ey := by
    have h2 := List.rel_append (R := fun s e => Import.convAsset s = .ok e) hx hy
    have hu : ∀ {l : List (Schema.AnyAsset F)} {m m' : List (String × List (Layer F))},
        List.Forall₂ (fun s e => Import.convAsset s = .ok e) l m →
        List.Forall₂ (fun s e => Import.convAsset s = .ok e) l m' → m = m' := by
      intro l m m' h1 h2
      induction h1 generalizing m' with
      | nil => cases h2; rfl
      | cons ha _ ih =>
        cases h2 with
        | cons hb h2 => rw [ih h2, Except.ok.inj (ha.symm.trans hb)]
    exact hu has' h2
  refine C32_unused_mattes ⟨by rw [h3, h3'], by rw [h4, h4'], ?_, fun name => ?_⟩ hr fuel fr T al
  · rw [hl]; exact List.forall₂_same.mpr fun _ _ => .inl rfl
  · have hasset : c.asset name = c'.asset name := by
      unfold Composition.asset
      rw [hc, hc', List.reverse_append, List.reverse_append, List.reverse_cons, List.append_assoc,
        List.find?_append, List.find?_append, List.find?_append]
      cases hf : ey.reverse.find? fun e => e.1 == name with
      | some x => rfl
      | none =>
        rw [Option.none_or, Option.none_or, List.find?_cons_of_neg, List.find?_nil,
          Option.none_or]
        rw [List.find?_eq_none] at hf
        intro hen
        rw [beq_iff_eq] at hen
        obtain ⟨p', hp', hpid, -⟩ := Import.convAsset_ok he
        cases hp'
        obtain ⟨n, hn⟩ := List.mem_iff_getElem.mp hq
        obtain ⟨hnl, hn⟩ := hn
        have hnl' : n < ey.length := by rw [← hy.length_eq]; exact hnl
        have hfn : Import.convAsset (ys[n]'hnl) = .ok (ey[n]'hnl') :=
          (List.forall₂_iff_get.mp hy).2 n hnl hnl'
        rw [hn] at hfn
        obtain ⟨q', hq', hqid, -⟩ := Import.convAsset_ok hfn
        cases hq'
        refine hf (ey[n]'hnl') (List.mem_reverse.mpr (List.getElem_mem _)) ?_
        rw [beq_iff_eq, hqid, hid, ← hpid, hen]
    rw [hasset]
    cases c'.asset name with
    | none => exact .none
    | some als => exact .some (List.forall₂_same.mpr fun _ _ => .inl rfl)

end

section
variable [Libm F64] [Kurbo F64]

/-- A short description of a layer's content. -/
def contentName {F : Type} : Content F → String
  | .none => ""
  | .instance n _ => n
  | .shape _ => "shape"

/-- The example document is imported; parents, mattes and contents are as claimed. -/
example : ((convAnimation (exDoc (F := F64))).map fun c => c.layers.map fun l =>
      (l.name, l.parent, contentName l.content)).toOption
    = some [("unused", none, ""), ("parent", none, ""), ("child", some 1, "shape"),
        ("matte", none, "shape"), ("matted", none, "shape"), ("instance", none, "b")] := by
  kernel_decide

example : ((convAnimation (exDoc (F := F64))).map fun c => c.layers.map fun l =>
      (l.isMask, l.maskLayer.map (·.2))).toOption
    = some [(false, none), (false, none), (false, none), (true, none), (false, some 3),
        (false, none)] := by
  kernel_decide

/-- Its assets: the last definition of "b" is the one that counts. -/
example : ((convAnimation (exDoc (F := F64))).map fun c =>
      ((c.asset "b").map fun ls => ls.map (·.name), (c.asset "c").map fun ls => ls.map (·.name),
        (c.asset "d").isNone)).toOption
    = some (some ["z"], some ["y"], true) := by
  kernel_decide

/-- It contains a hidden layer with a child, and showing it leaves a document that is imported. -/
example : (exDoc (F := F64)).layers[1]?.isSome = true ∧
    (∃ s, (exDoc (F := F64)).layers[1]? = some s ∧ s.Hidden) ∧
    ((convAnimation { exDoc (F := F64) with
      layers := exDocLayers.map (Schema.AnyLayer.setHidden none) }).map fun c =>
        c.layers.map (·.parent)).toOption
      = some [none, none, some 1, none, none, none] := by
  refine ⟨rfl, ⟨_, rfl, rfl⟩, ?_⟩
  kernel_decide

/-- The matted layer's matte is the pending one at position 3. -/
example : PendingMatte (exDocLayers (F := F64)) 4 3 := by
  refine ⟨by decide, ⟨_, rfl, ?_, rfl⟩, fun k s h1 h2 => by omega⟩
  intro h
  cases h

end
end Velato
