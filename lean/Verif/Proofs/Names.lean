import Verif.Spec.Names
import Verif.Proofs.LayerSets
import Verif.Proofs.Import

/-!
# Rendering does not depend on names
-/

namespace Velato
open FloatOps (lit)
variable {F : Type}

/-- Contents that refer to related assets. -/
inductive Content.Similar (K : String → String → Prop) : Content F → Content F → Prop
  | none : Content.Similar K .none .none
  | shape (s : List (Shape F)) : Content.Similar K (.shape s) (.shape s)
  | «instance» {n n' : String} (tr tr' : Option (Value F F)) (h : K n n') :
    Content.Similar K (.instance n tr) (.instance n' tr')

/-- Layers that differ only in the names of assets. -/
structure Layer.Similar (K : String → String → Prop) (l l' : Layer F) : Prop where
  rest : l' = { l with content := l'.content }
  content : Content.Similar K l.content l'.content

theorem forall₂_getElem? {α β : Type} {R : α → β → Prop} {l : List α} {l' : List β}
    (h : List.Forall₂ R l l') (i : Nat) : Option.Rel R l[i]? l'[i]? := by
  induction h generalizing i with
  | nil => exact .none
  | cons h _ ih =>
    cases i with
    | zero => exact .some h
    | succ i => exact ih i

theorem forall₂_filter {α β : Type} {R : α → β → Prop} {p : α → Bool} {q : β → Bool} {l : List α}
    {l' : List β} (h : List.Forall₂ R l l') (hpq : ∀ x y, R x y → p x = q y) :
    List.Forall₂ R (l.filter p) (l'.filter q) := by
  induction h with
  | nil => exact .nil
  | cons h _ ih =>
    rw [List.filter_cons, List.filter_cons, hpq _ _ h]
    split
    · exact .cons h ih
    · exact ih

theorem forall₂_reverse {α β : Type} {R : α → β → Prop} {l : List α} {l' : List β}
    (h : List.Forall₂ R l l') : List.Forall₂ R l.reverse l'.reverse := List.rel_reverse h

theorem forall₂_zipIdx' {α β : Type} {R : α → β → Prop} {l : List α} {l' : List β}
    (h : List.Forall₂ R l l') (k : Nat) :
    List.Forall₂ (fun (p : α × Nat) (q : β × Nat) => R p.1 q.1 ∧ p.2 = q.2) (l.zipIdx k)
      (l'.zipIdx k) := by
  induction h generalizing k with
  | nil => exact .nil
  | cons h _ ih =>
    rw [List.zipIdx_cons, List.zipIdx_cons]
    exact .cons ⟨h, rfl⟩ (ih _)

theorem mapM_forall₂_rel {α β γ : Type} {R : α → β → Prop} {f : α → Except Fault γ}
    {g : β → Except Fault γ} {l : List α} {l' : List β} (h : List.Forall₂ R l l')
    (hfg : ∀ x y, R x y → f x = g y) : l.mapM f = l'.mapM g := by
  induction h with
  | nil => rfl
  | cons h _ ih => rw [mapM_cons', mapM_cons', hfg _ _ h, ih]

section
variable [FloatOps F] [Libm F] [Kurbo F]

theorem layerOps_similar {K : String → String → Prop} {c c' : Composition F}
    (hw : c.width = c'.width) (hh : c.height = c'.height)
    (ha : ∀ n n', K n n' → Option.Rel (List.Forall₂ (Layer.Similar K)) (c.asset n) (c'.asset n')) :
    ∀ (n : Nat) (ls ls' : List (Layer F)), List.Forall₂ (Layer.Similar K) ls ls' →
      ∀ l l', Layer.Similar K l l' → ∀ ix T a fr,
      layerOps c n ls l ix T a fr = layerOps c' n ls' l' ix T a fr
  | 0, _, _, _, _, _, _, _, _, _, _ => rfl
  | n + 1, ls, ls', hls, l, l', hl, ix, T, a, fr => by
    have ih := layerOps_similar hw hh ha n
    obtain ⟨hr, hc⟩ := hl
    have hp : l'.parent = l.parent := by rw [hr]
    have ht : l'.transform = l.transform := by rw [hr]
    have hml : l'.maskLayer = l.maskLayer := by rw [hr]
    have hms : l'.masks = l.masks := by rw [hr]
    have ho : l'.opacity = l.opacity := by rw [hr]
    have hn : l'.name = l.name := by rw [hr]
    have hfr : l'.frames = l.frames := by rw [hr]
    have hst : l'.stretch = l.stretch := by rw [hr]
    have hsf : l'.startFrame = l.startFrame := by rw [hr]
    have hT : computeTransform ls l T fr = computeTransform ls' l' T fr := by
      unfold computeTransform
      rw [hls.length_eq, hp, ht, chaseParents_congr]
      intro i
      refine (forall₂_getElem? hls i).rec ?_ ?_
      · intro x x' hx
        exact .some ⟨by rw [hx.rest], by rw [hx.rest]⟩
      · exact .none
    have hrect : fullRect c = fullRect c' := by unfold fullRect; rw [hw, hh]
    have hm : matteOps c (layerOps c n) ls l T a fr
        = matteOps c' (layerOps c' n) ls' l' T a fr := by
      unfold matteOps
      rw [hml]
      cases l.maskLayer with
      | none => rfl
      | some p =>
        dsimp only
        rw [hrect]
        have hj := forall₂_getElem? hls p.2
        cases h1 : ls[p.2]? with
        | none =>
          rw [h1] at hj
          cases h2 : ls'[p.2]? with
          | none => rfl
          | some _ => rw [h2] at hj; cases hj
        | some m =>
          cases h2 : ls'[p.2]? with
          | none => rw [h1, h2] at hj; cases hj
          | some m' =>
            rw [h1, h2] at hj
            cases hj with
            | some hj =>
              dsimp only
              rw [ih ls ls' hls m m' hj]
    have hcc : ∀ T a, contentOps c (layerOps c n) l T a fr
        = contentOps c' (layerOps c' n) l' T a fr := by
      intro T a
      unfold contentOps
      rw [hst, hsf]
      clear hr hT hm
      generalize l.content = k at hc
      generalize l'.content = k' at hc
      cases hc with
      | none => rfl
      | shape s => rfl
      | @«instance» n1 n2 tr tr' h =>
        dsimp only
        have ha := ha n1 n2 h
        cases h1 : c.asset n1 with
        | none =>
          rw [h1] at ha
          cases h2 : c'.asset n2 with
          | none => rfl
          | some _ => rw [h2] at ha; cases ha
        | some als =>
          cases h2 : c'.asset n2 with
          | none => rw [h1, h2] at ha; cases ha
          | some als' =>
            rw [h1, h2] at ha
            cases ha with
            | some ha =>
              dsimp only
              congr 1
              exact mapM_forall₂_rel (forall₂_filter (forall₂_reverse ha)
                fun x y h => by rw [h.rest]) fun x y h => ih als als' ha x y h _ _ _ _
    show layerBody c (layerOps c n) ls l ix T a fr = layerBody c' (layerOps c' n) ls' l' ix T a fr
    unfold layerBody layerOut
    rw [hT, hm, hfr, hms, ho, hn, hml]
    simp only [hcc]

theorem append_similar {K : String → String → Prop} {c c' : Composition F}
    (hw : c.width = c'.width) (hh : c.height = c'.height)
    (hl : List.Forall₂ (Layer.Similar K) c.layers c'.layers)
    (ha : ∀ n n', K n n' → Option.Rel (List.Forall₂ (Layer.Similar K)) (c.asset n) (c'.asset n'))
    {r : Renderer F} (hr : Reachable r) (n : Nat) (fr : F) (T : Affine F) (a : F) :
    Renderer.append n r c fr T a = Renderer.append n r c' fr T a := by
  rw [append_idle n r hr.idle, append_idle n r hr.idle]
  congr 1
  unfold appendOps
  have hrect : fullRect c = fullRect c' := by unfold fullRect; rw [hw, hh]
  rw [hrect]
  congr 1
  refine mapM_forall₂_rel (forall₂_filter (forall₂_reverse (forall₂_zipIdx' hl 0))
    fun x y h => by rw [h.1.rest]) fun x y h => ?_
  rw [h.2]
  exact layerOps_similar hw hh ha n _ _ hl _ _ h.1 _ _ _ _

end

namespace Import
variable [FloatOps F] [Libm F] [Kurbo F]

/-- The runtime content with other names of assets. -/
def _root_.Velato.Content.rename (σ : String → String) : Content F → Content F
  | .instance n tr => .instance (σ n) tr
  | c => c

/-- The effect of renaming on a converted layer. -/
def renamed (ρ : Nat → Nat) (σ : String → String) (e : Layer F × LayerSetupParams) :
    Layer F × LayerSetupParams :=
  ({ e.1 with parent := e.1.parent.map ρ, content := e.1.content.rename σ },
    { e.2 with layerIndex := ρ e.2.layerIndex, matteLayerIndex := e.2.matteLayerIndex.map ρ })

theorem setupLayer_renumber {ρ : Nat → Nat} {τ : F → F} (σ : String → String)
    (hτ : ∀ x, FloatOps.toUsize (τ x) = ρ (FloatOps.toUsize x)) (v : Schema.VisualLayer F)
    (w h s : F) : setupLayer (v.renumber ρ τ) w h s = (setupLayer v w h s).map (renamed ρ σ) := by
  unfold setupLayer Schema.VisualLayer.renumber
  dsimp only
  cases convTransform v.transform with
  | error e => rfl
  | ok t =>
    cases hb : convBlendMode (v.blendMode.getD .normal) with
    | error e => simp only [bind, Except.bind, Except.map]
    | ok b =>
      cases hm : convMasks (v.masksProperties.getD []) with
      | error e => simp only [bind, Except.bind, Except.map]
      | ok m =>
        simp only [bind, Except.bind, Except.map, renamed, Option.map_map, Option.getD_some,
          Content.rename]
        congr 4
        exact funext hτ

theorem layerSetup_rename {ρ : Nat → Nat} {τ : F → F} (σ : String → String)
    (hτ : ∀ x, FloatOps.toUsize (τ x) = ρ (FloatOps.toUsize x)) (s : Schema.AnyLayer F) :
    layerSetup (s.rename ρ τ σ) = (layerSetup s).map (renamed ρ σ) := by
  cases s <;> exact setupLayer_renumber σ hτ _ _ _ _

omit [Libm F] [Kurbo F] [FloatOps F] in
theorem isLayerHidden_rename (ρ : Nat → Nat) (τ : F → F) (σ : String → String)
    (s : Schema.AnyLayer F) : isLayerHidden (s.rename ρ τ σ) = isLayerHidden s := by
  cases s <;> rfl

theorem layerContent_rename (ρ : Nat → Nat) (τ : F → F) (σ : String → String)
    (s : Schema.AnyLayer F) :
    layerContent (s.rename ρ τ σ) = (layerContent s).map (Content.rename σ) := by
  cases s with
  | precomposition l =>
    show (convRemap l.timeRemap).map _ = ((convRemap l.timeRemap).map _).map _
    cases convRemap l.timeRemap <;> rfl
  | shape l =>
    show (convShapes l.shapes).map _ = ((convShapes l.shapes).map _).map _
    cases convShapes l.shapes <;> rfl
  | _ => rfl

theorem convLayer_rename {ρ : Nat → Nat} {τ : F → F} (σ : String → String)
    (hτ : ∀ x, FloatOps.toUsize (τ x) = ρ (FloatOps.toUsize x)) (s : Schema.AnyLayer F) :
    convLayer (s.rename ρ τ σ) = (convLayer s).map (renamed ρ σ) := by
  unfold convLayer
  rw [layerSetup_rename σ hτ, isLayerHidden_rename, layerContent_rename]
  cases layerSetup s with
  | error e => rfl
  | ok e =>
    cases isLayerHidden s with
    | true => rfl
    | false => cases layerContent s <;> rfl

omit [FloatOps F] [Libm F] [Kurbo F] in
theorem idMap_renamed (ρ : Nat → Nat) (σ : String → String)
    (es : List (Layer F × LayerSetupParams)) :
    idMap (es.map (renamed ρ σ)) = (idMap es).map fun e => (ρ e.1, e.2) := by
  unfold idMap
  rw [List.zipIdx_map, List.map_map, List.map_map]
  rfl

theorem idGet_renamed {ρ : Nat → Nat} (hρ : Function.Injective ρ) (m : List (Nat × Nat)) (i : Nat) :
    idGet (m.map fun e => (ρ e.1, e.2)) (ρ i) = idGet m i := by
  unfold idGet
  rw [← List.map_reverse, List.find?_map]
  have : ((fun e : Nat × Nat => e.1 == ρ i) ∘ fun e : Nat × Nat => (ρ e.1, e.2))
      = fun e => e.1 == i := by
    funext e
    by_cases h : e.1 = i
    · simp [h]
    · simp [h, hρ.ne h]
  rw [this]
  cases m.reverse.find? fun e => e.1 == i <;> rfl

omit [FloatOps F] [Libm F] [Kurbo F] in
theorem linkLayer_renamed {ρ : Nat → Nat} (hρ : Function.Injective ρ) (σ : String → String)
    (m : List (Nat × Nat)) (idx : Nat) (prev : Option Nat) (e : Layer F × LayerSetupParams) :
    linkLayer (m.map fun e => (ρ e.1, e.2)) idx prev (renamed ρ σ e)
      = ({ (linkLayer m idx prev e).1 with content := e.1.content.rename σ },
          (linkLayer m idx prev e).2) := by
  obtain ⟨l, p⟩ := e
  have hp : (l.parent.map ρ).bind (idGet (m.map fun e => (ρ e.1, e.2))) = l.parent.bind (idGet m) := by
    cases l.parent with
    | none => rfl
    | some i => exact idGet_renamed hρ m i
  unfold linkLayer renamed
  dsimp only
  rw [hp]
  cases p.matteMode with
  | none => rfl
  | some mode =>
    cases p.matteLayerIndex with
    | none => rfl
    | some i =>
      simp only [Option.map_some, idGet_renamed hρ]

omit [FloatOps F] [Libm F] [Kurbo F] in
theorem linkLayers_renamed {ρ : Nat → Nat} (hρ : Function.Injective ρ) (σ : String → String)
    (m : List (Nat × Nat)) (idx : Nat) (prev : Option Nat) (es : List (Layer F × LayerSetupParams)) :
    linkLayers (m.map fun e => (ρ e.1, e.2)) idx prev (es.map (renamed ρ σ))
      = (linkLayers m idx prev es).map fun l => { l with content := l.content.rename σ } := by
  induction es generalizing idx prev with
  | nil => rfl
  | cons e es ih =>
    rw [List.map_cons, linkLayers, linkLayers, linkLayer_renamed hρ]
    dsimp only
    rw [ih, List.map_cons]
    rfl

theorem mapM_map {α β γ δ : Type} {f : α → Except Fault γ} {g : β → Except Fault δ} {u : α → β}
    {v : γ → δ} (h : ∀ x, g (u x) = (f x).map v) (l : List α) :
    (l.map u).mapM g = (l.mapM f).map (List.map v) := by
  induction l with
  | nil => rfl
  | cons x l ih =>
    rw [List.map_cons, mapM_cons', mapM_cons', h, ih]
    cases f x with
    | error e => rfl
    | ok y => cases l.mapM f <;> rfl

theorem processLayers_renamed {σ : String → String} {ls ls' : List (Schema.AnyLayer F)}
    (h : Schema.LayersRenamed σ ls ls') :
    processLayers ls' = (processLayers ls).map
      (List.map fun l => { l with content := l.content.rename σ }) := by
  obtain ⟨ρ, τ, hρ, hτ, rfl⟩ := h
  unfold processLayers
  rw [mapM_map (convLayer_rename σ hτ)]
  cases ls.mapM convLayer with
  | error e => rfl
  | ok es =>
    show Except.ok _ = Except.ok _
    rw [idMap_renamed, linkLayers_renamed hρ]

theorem convAsset_renamed {σ : String → String} {s s' : Schema.AnyAsset F}
    (h : Schema.AssetRenamed σ s s') :
    convAsset s' = (convAsset s).map fun e =>
      (σ e.1, e.2.map fun l => { l with content := l.content.rename σ }) := by
  cases h with
  | image i j => rfl
  | @precomposition p ls h =>
    show (processLayers ls >>= _) = (processLayers p.layers >>= _).map _
    rw [processLayers_renamed h]
    cases processLayers p.layers <;> rfl

/-- A composition with other names of assets. -/
def _root_.Velato.Composition.rename (σ : String → String) (c : Composition F) : Composition F :=
  { c with
    layers := c.layers.map fun l => { l with content := l.content.rename σ }
    assets := c.assets.map fun e =>
      (σ e.1, e.2.map fun l => { l with content := l.content.rename σ }) }

theorem mapM_forall₂_map {α β γ δ : Type} {R : α → β → Prop} {f : α → Except Fault γ}
    {g : β → Except Fault δ} {v : γ → δ} {l : List α} {l' : List β} (h : List.Forall₂ R l l')
    (hfg : ∀ x y, R x y → g y = (f x).map v) : l'.mapM g = (l.mapM f).map (List.map v) := by
  induction h with
  | nil => rfl
  | @cons x y l l' h _ ih =>
    rw [mapM_cons', mapM_cons', hfg _ _ h, ih]
    cases f x with
    | error e => rfl
    | ok z => cases l.mapM f <;> rfl

theorem convAnimation_renamed {a b : Schema.Animation F} (h : a.Renamed b) :
    ∃ σ : String → String, Function.Injective σ ∧
      convAnimation b = (convAnimation a).map (Composition.rename σ) := by
  obtain ⟨hr, σ, hσ, hl, ha⟩ := h
  refine ⟨σ, hσ, ?_⟩
  have e1 : b.inPoint = a.inPoint := by rw [hr]
  have e2 : b.outPoint = a.outPoint := by rw [hr]
  have e3 : b.frameRate = a.frameRate := by rw [hr]
  have e4 : b.width = a.width := by rw [hr]
  have e5 : b.height = a.height := by rw [hr]
  unfold convAnimation
  rw [mapM_forall₂_map ha fun x y h => convAsset_renamed h, processLayers_renamed hl, e1, e2, e3, e4,
    e5]
  cases (a.assets.getD []).mapM convAsset with
  | error e => rfl
  | ok as => cases processLayers a.layers <;> rfl

omit [FloatOps F] [Libm F] [Kurbo F] in
theorem asset_rename {σ : String → String} (hσ : Function.Injective σ) (c : Composition F)
    (n : String) : (c.rename σ).asset (σ n)
      = (c.asset n).map (List.map fun l => { l with content := l.content.rename σ }) := by
  unfold Composition.asset Composition.rename
  dsimp only
  rw [← List.map_reverse, List.find?_map]
  have : ((fun e : String × List (Layer F) => e.1 == σ n) ∘ fun e : String × List (Layer F) =>
      (σ e.1, e.2.map fun l => { l with content := l.content.rename σ })) = fun e => e.1 == n := by
    funext e
    by_cases h : e.1 = n
    · simp [h]
    · simp [h, hσ.ne h]
  rw [this]
  cases c.assets.reverse.find? fun e => e.1 == n <;> rfl

omit [FloatOps F] [Libm F] [Kurbo F] in
theorem similar_rename (σ : String → String) (l : Layer F) :
    Layer.Similar (fun n n' => n' = σ n) l { l with content := l.content.rename σ } := by
  refine ⟨rfl, ?_⟩
  dsimp only
  cases l.content with
  | none => exact .none
  | shape s => exact .shape s
  | «instance» n tr => exact .instance tr tr rfl

omit [FloatOps F] [Libm F] [Kurbo F] in
theorem similar_renames (σ : String → String) (ls : List (Layer F)) :
    List.Forall₂ (Layer.Similar fun n n' => n' = σ n) ls
      (ls.map fun l => { l with content := l.content.rename σ }) := by
  rw [List.forall₂_map_right_iff]
  exact List.forall₂_same.mpr fun l _ => similar_rename σ l

theorem append_rename {σ : String → String} (hσ : Function.Injective σ) (c : Composition F)
    {r : Renderer F} (hr : Reachable r) (n : Nat) (fr : F) (T : Affine F) (a : F) :
    Renderer.append n r (c.rename σ) fr T a = Renderer.append n r c fr T a := by
  refine (append_similar (c := c) (c' := c.rename σ) (K := fun n n' => n' = σ n) rfl rfl
    (similar_renames σ _) ?_ hr n fr T a).symm
  rintro m _ rfl
  rw [asset_rename hσ]
  cases c.asset m with
  | none => exact .none
  | some ls => exact .some (similar_renames σ ls)

/-! ## Assets in use -/

theorem content_source {src : List (Schema.AnyLayer F)} {dst : List (Layer F)}
    (h : processLayers src = .ok dst) {l : Layer F} (hl : l ∈ dst) {n : String}
    {tr : Option (Value F F)} (hc : l.content = .instance n tr) :
    ∃ p, .precomposition p ∈ src ∧ ¬ (Schema.AnyLayer.precomposition p).Hidden ∧ p.refId = n := by
  have hf : List.Forall₂ (fun (s : Schema.AnyLayer F) (l : Layer F) => ∀ n tr,
      l.content = .instance n tr → ∃ p, s = .precomposition p ∧ ¬ s.Hidden ∧ p.refId = n) src dst := by
    refine processLayers_forall h fun i s l hs hl => ?_
    obtain ⟨es, e, -, -, hc, rfl⟩ := processLayers_get h hs hl
    intro n tr hn
    have hn : e.1.content = .instance n tr := hn
    by_cases hh : s.Hidden
    · rw [hc.hidden hh] at hn
      cases hn
    · have := hc.content hh
      cases s with
      | precomposition q =>
        obtain ⟨tr', -, h2⟩ := this
        rw [h2] at hn
        cases hn
        exact ⟨q, rfl, hh, rfl⟩
      | shape q =>
        obtain ⟨ss, -, h2⟩ := this
        rw [h2] at hn
        cases hn
      | _ => rw [this] at hn; cases hn
  obtain ⟨s, hs, hr⟩ := forall₂_right hf hl
  obtain ⟨p, rfl, h1, h2⟩ := hr n tr hc
  exact ⟨p, hs, h1, h2⟩

theorem assets_find {as : List (Schema.AnyAsset F)} {es : List (String × List (Layer F))}
    (h : List.Forall₂ (fun s e => convAsset s = .ok e) as es) (n : String) :
    Option.Rel (fun s (e : String × List (Layer F)) => convAsset s = .ok e)
      (as.find? fun x => x.name == n) (es.find? fun e => e.1 == n) := by
  induction h with
  | nil => exact .none
  | @cons s e as es h _ ih =>
    obtain ⟨p, rfl, h1, -⟩ := convAsset_ok h
    rw [List.find?_cons, List.find?_cons, h1]
    show Option.Rel _ (match p.asset.id == n with | true => _ | false => _) _
    cases p.asset.id == n with
    | true => exact .some h
    | false => exact ih

theorem similar_used {a : Schema.Animation F} {src : List (Schema.AnyLayer F)} {dst : List (Layer F)}
    (h : processLayers src = .ok dst)
    (hu : ∀ p, .precomposition p ∈ src → ¬ (Schema.AnyLayer.precomposition p).Hidden →
      a.Uses p.refId) :
    List.Forall₂ (Layer.Similar fun n n' => n = n' ∧ a.Uses n) dst dst := by
  refine List.forall₂_same.mpr fun l hl => ⟨rfl, ?_⟩
  cases hc : l.content with
  | none => exact .none
  | shape s => exact .shape s
  | «instance» n tr =>
    obtain ⟨p, h1, h2, rfl⟩ := content_source h hl hc
    exact .instance tr tr ⟨rfl, hu p h1 h2⟩

theorem append_used {a b : Schema.Animation F} (hb : b = { a with assets := b.assets })
    (h : ∀ n, a.Uses n → a.lastAsset n = b.lastAsset n) {c c' : Composition F}
    (hc : convAnimation a = .ok c) (hc' : convAnimation b = .ok c')
    {r : Renderer F} (hr : Reachable r) (n : Nat) (fr : F) (T : Affine F) (al : F) :
    Renderer.append n r c fr T al = Renderer.append n r c' fr T al := by
  obtain ⟨has, hls, -, -, h3, h4⟩ := Import.convAnimation_ok hc
  obtain ⟨has', hls', -, -, h3', h4'⟩ := Import.convAnimation_ok hc'
  have e1 : b.layers = a.layers := by rw [hb]
  have e2 : b.width = a.width := by rw [hb]
  have e3 : b.height = a.height := by rw [hb]
  rw [e1, hls] at hls'
  have hl : c.layers = c'.layers := Except.ok.inj hls'
  refine append_similar (K := fun n n' => n = n' ∧ a.Uses n) (by rw [h3, h3', e2])
    (by rw [h4, h4', e3]) ?_ ?_ hr n fr T al
  · rw [← hl]
    exact similar_used hls fun p h1 h2 => .layer h1 h2
  · rintro m _ ⟨rfl, hm⟩
    have q1 := assets_find (forall₂_reverse has) m
    have q2 := assets_find (forall₂_reverse has') m
    have hlast := h m hm
    unfold Schema.Animation.lastAsset at hlast
    rw [← hlast] at q2
    unfold Composition.asset
    cases hs : a.assetList.reverse.find? fun x => x.name == m with
    | none =>
      rw [hs] at q1 q2
      generalize c.assets.reverse.find? (fun e => e.1 == m) = x1 at q1
      generalize c'.assets.reverse.find? (fun e => e.1 == m) = x2 at q2
      cases q1
      cases q2
      exact .none
    | some s =>
      rw [hs] at q1 q2
      generalize c.assets.reverse.find? (fun e => e.1 == m) = x1 at q1
      generalize c'.assets.reverse.find? (fun e => e.1 == m) = x2 at q2
      cases q1 with
      | some q1 =>
        cases q2 with
        | some q2 =>
          cases Except.ok.inj (q1.symm.trans q2)
          obtain ⟨p, rfl, -, hp⟩ := convAsset_ok q1
          exact .some (similar_used hp fun p h1 h2 => .asset hm hs h1 h2)

end Import
end Velato
