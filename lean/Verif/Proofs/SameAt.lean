import Verif.Proofs.Layers

/-!
# Two compositions that look the same, each at its own frame
-/

namespace Velato
open FloatOps (lit)

section
variable {F : Type} [FloatOps F] [Libm F] [Kurbo F]

mutual
/-- The shape `s` at frame `fr` is the shape `s'` at frame `fr'`. -/
inductive Shape.SameAt (fr fr' : F) : Shape F → Shape F → Prop where
  | group {ss ss' t t'} (h : Shape.SameAtAll fr fr' ss ss')
      (ht : groupParams t fr = groupParams t' fr') : Shape.SameAt fr fr' (.group ss t) (.group ss' t')
  | geometry {g g'} (h : g.evaluate fr = g'.evaluate fr') :
      Shape.SameAt fr fr' (.geometry g) (.geometry g')
  | draw {d d'} (hs : d.stroke.map (fun s => s.evaluate fr) = d'.stroke.map (fun s => s.evaluate fr'))
      (hb : d.brush.evaluate (lit 1) fr = d'.brush.evaluate (lit 1) fr')
      (ho : d.opacity.evaluate fr = d'.opacity.evaluate fr') :
      Shape.SameAt fr fr' (.draw d) (.draw d')
  | repeater {r r'} (h : r.evaluate fr = r'.evaluate fr') :
      Shape.SameAt fr fr' (.repeater r) (.repeater r')
  | trim {t t'} (h : t.evaluate fr = t'.evaluate fr') : Shape.SameAt fr fr' (.trim t) (.trim t')

/-- The shapes `ss` at frame `fr` are the shapes `ss'` at frame `fr'`. -/
inductive Shape.SameAtAll (fr fr' : F) : List (Shape F) → List (Shape F) → Prop where
  | nil : Shape.SameAtAll fr fr' [] []
  | cons {s s' ss ss'} (h : Shape.SameAt fr fr' s s') (hs : Shape.SameAtAll fr fr' ss ss') :
      Shape.SameAtAll fr fr' (s :: ss) (s' :: ss')
end

mutual
theorem renderShape_sameAt {fr fr' : F} {s s' : Shape F} (h : Shape.SameAt fr fr' s s') (gs ds : Nat)
    (T : Affine F) (a : F) (b : Batch F) :
    renderShape s gs ds T a fr b = renderShape s' gs ds T a fr' b := by
  cases h with
  | group h ht =>
    unfold renderShape
    rw [ht]
    exact renderShapesFrom_sameAt h _ _ _ _ _
  | geometry h =>
    unfold renderShape Batch.pushGeometry
    rw [h]
  | draw hs hb ho =>
    unfold renderShape Batch.pushDraw DrawData.new
    rw [hs, hb, ho]
  | repeater h => unfold renderShape; rw [h]
  | trim h => unfold renderShape; rw [h]

theorem renderShapesFrom_sameAt {fr fr' : F} {ss ss' : List (Shape F)}
    (h : Shape.SameAtAll fr fr' ss ss') (gs ds : Nat) (T : Affine F) (a : F) (b : Batch F) :
    renderShapesFrom ss gs ds T a fr b = renderShapesFrom ss' gs ds T a fr' b := by
  cases h with
  | nil => unfold renderShapesFrom; rfl
  | cons h hs =>
    unfold renderShapesFrom
    rw [renderShape_sameAt h]
    congr 1
    funext b'
    exact renderShapesFrom_sameAt hs _ _ _ _ _
end

/-- The content `co` at frame `fr` is `co'` at `fr'`, where assets are entered at frames related by
`R`. -/
inductive Content.SameAt (R : String → F → F → Prop) (fr fr' : F) (l l' : Layer F) : Prop where
  | none (h : l.content = .none) (h' : l'.content = .none)
  | inst {name tr tr'} (h : l.content = .instance name tr) (h' : l'.content = .instance name tr')
      (hR : R name (fr /. l.stretch +. FloatOps.neg l.startFrame /. l.stretch)
        (fr' /. l'.stretch +. FloatOps.neg l'.startFrame /. l'.stretch))
  | shape {ss ss'} (h : l.content = .shape ss) (h' : l'.content = .shape ss')
      (hs : Shape.SameAtAll fr fr' ss ss')
  | shapes {ss ss'} (h : l.content = .shape ss) (h' : l'.content = .shape ss')
      (hs : ∀ T a, renderShapes ss T a fr Batch.empty = renderShapes ss' T a fr' Batch.empty)

/-- The layer `l` at frame `fr` is the layer `l'` at frame `fr'`. -/
structure Layer.SameAt (R : String → F → F → Prop) (fr fr' : F) (l l' : Layer F) : Prop where
  name : l.name = l'.name
  parent : l.parent = l'.parent
  visible : l.frames.contains fr = l'.frames.contains fr'
  transform : l.transform.evaluate fr = l'.transform.evaluate fr'
  opacity : l.opacity.evaluate fr = l'.opacity.evaluate fr'
  masks : List.Forall₂ (fun m m' => m.geometry.evaluate fr = m'.geometry.evaluate fr') l.masks
    l'.masks
  isMask : l.isMask = l'.isMask
  maskLayer : l.maskLayer = l'.maskLayer
  content : Content.SameAt R fr fr' l l'

/-- The layers of the composition `c` at frame `fr` are those of `c'` at `fr'`, and so are those of
the assets at frames related by `R`. -/
structure Composition.SameAssets (R : String → F → F → Prop) (c c' : Composition F) : Prop where
  width : c.width = c'.width
  height : c.height = c'.height
  assets : ∀ name fr fr', R name fr fr' →
    Option.Rel (List.Forall₂ (Layer.SameAt R fr fr')) (c.asset name) (c'.asset name)

variable {R : String → F → F → Prop}

omit [FloatOps F] [Libm F] [Kurbo F] in
theorem forall₂_getElem? {α β : Type} {Q : α → β → Prop} {l : List α} {l' : List β}
    (h : List.Forall₂ Q l l') (i : Nat) : Option.Rel Q l[i]? l'[i]? := by
  induction h generalizing i with
  | nil => exact .none
  | cons h _ ih =>
    cases i with
    | zero => exact .some h
    | succ i => exact ih i

theorem chaseParents_sameAt {fr fr' : F} {ls ls' : List (Layer F)}
    (h : List.Forall₂ (Layer.SameAt R fr fr') ls ls') (n : Nat) (p : Option Nat) (T : Affine F) :
    chaseParents ls fr n p T = chaseParents ls' fr' n p T := by
  induction n generalizing p T with
  | zero => cases p <;> rfl
  | succ n ih =>
    cases p with
    | none => rfl
    | some i =>
      unfold chaseParents
      have hi := forall₂_getElem? h i
      cases h1 : ls[i]? with
      | none =>
        rw [h1] at hi
        generalize ls'[i]? = o at hi
        cases hi
        rfl
      | some l =>
        rw [h1] at hi
        generalize ls'[i]? = o at hi
        cases hi with
        | some hl =>
          dsimp only
          rw [hl.parent, hl.transform]
          exact ih _ _

omit [FloatOps F] [Libm F] [Kurbo F] in
theorem forall₂_filter_reverse {α β : Type} {Q : α → β → Prop} {p : α → Bool} {q : β → Bool}
    (hpq : ∀ a b, Q a b → p a = q b) {l : List α} {l' : List β} (h : List.Forall₂ Q l l') :
    List.Forall₂ Q (l.reverse.filter p) (l'.reverse.filter q) := by
  have h := List.rel_reverse h
  generalize l.reverse = m, l'.reverse = m' at h
  induction h with
  | nil => exact .nil
  | cons h _ ih =>
    rw [List.filter_cons, List.filter_cons, hpq _ _ h]
    split
    · exact .cons h ih
    · exact ih

omit [FloatOps F] [Libm F] [Kurbo F] in
theorem mapM_forall₂ {α β γ : Type} {f : α → Except Fault γ} {g : β → Except Fault γ}
    {l : List α} {l' : List β} (h : List.Forall₂ (fun x y => f x = g y) l l') :
    l.mapM f = l'.mapM g := by
  induction h with
  | nil => rfl
  | cons h _ ih => rw [mapM_cons', mapM_cons', h, ih]

theorem layerOps_sameAt {c c' : Composition F} (hc : Composition.SameAssets R c c') :
    ∀ (n : Nat) {fr fr' : F} {ls ls' : List (Layer F)} {l l' : Layer F} (ix : Nat) (T : Affine F)
      (a : F), List.Forall₂ (Layer.SameAt R fr fr') ls ls' → Layer.SameAt R fr fr' l l' →
      layerOps c n ls l ix T a fr = layerOps c' n ls' l' ix T a fr'
  | 0, _, _, _, _, _, _, _, _, _, _, _ => rfl
  | n + 1, fr, fr', ls, ls', l, l', ix, T, a, hls, hl => by
    have ih := fun {fr fr' ls ls' l l'} => layerOps_sameAt hc n (fr := fr) (fr' := fr') (ls := ls)
      (ls' := ls') (l := l) (l' := l')
    show layerBody c (layerOps c n) ls l ix T a fr = layerBody c' (layerOps c' n) ls' l' ix T a fr'
    have hfull : fullRect c = fullRect c' := by unfold fullRect; rw [hc.width, hc.height]
    have hm : matteOps c (layerOps c n) ls l T a fr = matteOps c' (layerOps c' n) ls' l' T a fr' := by
      unfold matteOps
      rw [← hl.maskLayer, hfull]
      cases l.maskLayer with
      | none => rfl
      | some p =>
        dsimp only
        have hi := forall₂_getElem? hls p.2
        cases h1 : ls[p.2]? with
        | none =>
          rw [h1] at hi
          generalize ls'[p.2]? = o at hi
          cases hi
          rfl
        | some m =>
          rw [h1] at hi
          generalize ls'[p.2]? = o at hi
          cases hi with
          | some hm =>
            dsimp only
            rw [ih 0 T a hls hm]
    have hT : computeTransform ls l T fr = computeTransform ls' l' T fr' := by
      unfold computeTransform
      rw [chaseParents_sameAt hls, hl.parent, hl.transform, hls.length_eq]
    have hms : ∀ T', l.masks.mapM (maskOp T' fr) = l'.masks.mapM (maskOp T' fr') := by
      intro T'
      refine mapM_forall₂ (hl.masks.imp fun m m' h => ?_)
      unfold maskOp
      rw [h]
    have hco : ∀ T' a', contentOps c (layerOps c n) l T' a' fr
        = contentOps c' (layerOps c' n) l' T' a' fr' := by
      intro T' a'
      unfold contentOps
      cases hl.content with
      | none h h' => rw [h, h']
      | inst h h' hR =>
        rename_i name _ _
        rw [h, h']
        dsimp only
        have ha := hc.assets name _ _ hR
        cases h1 : c.asset name with
        | none =>
          rw [h1] at ha
          generalize c'.asset name = o at ha
          cases ha
          rfl
        | some als =>
          rw [h1] at ha
          generalize c'.asset name = o at ha
          cases ha with
          | some ha =>
            dsimp only
            congr 1
            refine mapM_forall₂ ((forall₂_filter_reverse (fun _ _ h => by rw [h.isMask]) ha).imp
              fun x y h => ih 0 T' a' ha h)
      | shape h h' hs =>
        rw [h, h']
        dsimp only
        unfold renderShapes
        rw [renderShapesFrom_sameAt hs]
      | shapes h h' hs =>
        rw [h, h']
        dsimp only
        rw [hs]
    unfold layerBody layerOut
    rw [hl.visible, hm, hT, hms, hco, hl.opacity, hl.name, hl.masks.length_eq, hl.maskLayer]

theorem appendOps_sameAt {c c' : Composition F} (hc : Composition.SameAssets R c c') {fr fr' : F}
    (h : List.Forall₂ (Layer.SameAt R fr fr') c.layers c'.layers) (n : Nat) (T : Affine F) (a : F) :
    appendOps n c fr T a = appendOps n c' fr' T a := by
  unfold appendOps
  have hfull : fullRect c = fullRect c' := by unfold fullRect; rw [hc.width, hc.height]
  rw [hfull]
  congr 1
  have hz : ∀ k, List.Forall₂ (fun p q : Layer F × Nat => Layer.SameAt R fr fr' p.1 q.1 ∧ p.2 = q.2)
      (c.layers.zipIdx k) (c'.layers.zipIdx k) := by
    generalize c.layers = ls, c'.layers = ls' at h
    induction h with
    | nil => exact fun _ => .nil
    | cons h _ ih => exact fun k => .cons ⟨h, rfl⟩ (ih (k + 1))
  refine mapM_forall₂ ((forall₂_filter_reverse (fun _ _ h => by rw [h.1.isMask]) (hz 0)).imp
    fun p q hpq => ?_)
  rw [hpq.2]
  exact layerOps_sameAt hc n q.2 T a h hpq.1

theorem appendCalls_sameAt {c c' : Composition F} (hc : Composition.SameAssets R c c') {fr fr' : F}
    (h : List.Forall₂ (Layer.SameAt R fr fr') c.layers c'.layers) {r : Renderer F}
    (hr : r.maskElements = []) (n : Nat) (T : Affine F) (a : F) :
    Renderer.append n r c fr T a = Renderer.append n r c' fr' T a := by
  rw [append_idle n r hr, append_idle n r hr, appendOps_sameAt hc h]

end
end Velato
