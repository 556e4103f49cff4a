import Verif.Spec.Precompose
import Verif.Proofs.Names
import Verif.Proofs.Equivariance
import Verif.Num.Real

/-!
# Moving layers into a precomposition
-/

namespace Velato
open FloatOps (lit)
variable {F : Type}

theorem mapM_map_comp {α β γ : Type} (g : α → β) (f : β → Except Fault γ) (l : List α) :
    (l.map g).mapM f = l.mapM fun x => f (g x) := by
  induction l with
  | nil => rfl
  | cons x l ih => rw [List.map_cons, mapM_cons', mapM_cons', ih]

section
variable [FloatOps F] [Libm F] [Kurbo F]

omit [Libm F] [Kurbo F] in
theorem Batch.render_anonymous (b : Batch F) :
    b.render.map (List.map Op.anonymous) = b.render := by
  have hd : ∀ d, b.renderDraw d = (b.renderDraw d).map (List.map Op.anonymous) := by
    intro d
    unfold Batch.renderDraw
    cases sliceRange b.geometries d.gstart d.gstop with
    | error e => rfl
    | ok gs =>
      show gs.mapM _ = Except.map _ (gs.mapM _)
      refine mapM_map_out _ _ _ _ fun g _ => ?_
      cases sliceRange b.elements g.start g.stop <;> rfl
  unfold Batch.render
  have := mapM_map_out b.renderDraw b.renderDraw (List.map Op.anonymous) b.draws.reverse
    fun d _ => hd d
  generalize b.draws.reverse.mapM b.renderDraw = x at this
  cases x with
  | error e => rfl
  | ok per =>
    have := Except.ok.inj this
    show Except.ok _ = Except.ok _
    rw [List.map_flatten, ← this]

theorem layerOps_anonymous (c : Composition F) :
    ∀ (n : Nat) (ls : List (Layer F)) (l : Layer F) (ix : Nat) (T : Affine F) (a fr : F),
      (layerOps c n ls l ix T a fr).map (List.map Op.anonymous) = layerOps c n ls l 0 T a fr
  | 0, _, _, _, _, _, _ => rfl
  | n + 1, ls, l, ix, T, a, fr => by
    have ih := fun ls l => layerOps_anonymous c n ls l 0
    show (layerBody c (layerOps c n) ls l ix T a fr).map _ = layerBody c (layerOps c n) ls l 0 T a fr
    unfold layerBody
    split
    · rfl
    generalize computeTransform ls l T fr = T'
    have hm : (matteOps c (layerOps c n) ls l T a fr).map (List.map Op.anonymous)
        = matteOps c (layerOps c n) ls l T a fr := by
      unfold matteOps
      cases l.maskLayer with
      | none => rfl
      | some p =>
        dsimp only
        cases ls[p.2]? with
        | none => rfl
        | some m =>
          dsimp only
          have := ih ls m T a fr
          generalize layerOps c n ls m 0 T a fr = x at this
          cases x with
          | error e => rfl
          | ok ops =>
            have := Except.ok.inj this
            show Except.ok _ = Except.ok _
            simp [Op.anonymous, this]
    have hms : (l.masks.mapM (maskOp T' fr)).map (List.map Op.anonymous)
        = l.masks.mapM (maskOp T' fr) := by
      refine (mapM_map_out _ _ _ _ fun m _ => ?_).symm
      unfold maskOp
      cases m.geometry.evaluate fr <;> rfl
    generalize a *. l.opacity.evaluate fr /. lit 100 = a'
    have hc : (contentOps c (layerOps c n) l T' a' fr).map (List.map Op.anonymous)
        = contentOps c (layerOps c n) l T' a' fr := by
      unfold contentOps
      cases l.content with
      | none => rfl
      | «instance» name tr =>
        dsimp only
        cases c.asset name with
        | none => rfl
        | some als =>
          dsimp only
          generalize fr /. l.stretch +. FloatOps.neg l.startFrame /. l.stretch = fr'
          have := mapM_map_out (fun l' => layerOps c n als l' 0 T' a' fr')
            (fun l' => layerOps c n als l' 0 T' a' fr') (List.map Op.anonymous)
            (als.reverse.filter fun l => !l.isMask) fun l' _ => (ih als l' T' a' fr').symm
          generalize List.mapM (m := Except Fault) _ _ = x at this
          cases x with
          | error e => rfl
          | ok per =>
            have := Except.ok.inj this
            show Except.ok _ = Except.ok _
            rw [List.map_flatten, ← this]
      | shape shapes =>
        dsimp only
        cases renderShapes shapes T' a' fr Batch.empty with
        | error e => rfl
        | ok b => exact Batch.render_anonymous b
    generalize matteOps c (layerOps c n) ls l T a fr = mo at hm
    generalize l.masks.mapM (maskOp T' fr) = ms at hms
    generalize contentOps c (layerOps c n) l T' a' fr = co at hc
    cases mo with
    | error e => rfl
    | ok mo =>
      cases ms with
      | error e => rfl
      | ok ms =>
        cases co with
        | error e => rfl
        | ok co =>
          have hm := Except.ok.inj hm
          have hms := Except.ok.inj hms
          have hc := Except.ok.inj hc
          show Except.ok _ = Except.ok _
          simp [layerOut, Op.anonymous, hm, hms, hc]

omit [FloatOps F] [Libm F] [Kurbo F] in
theorem Composition.Fresh.similar {c : Composition F} {name : String} {l : Layer F}
    (h : c.Fresh name) :
    (∀ ls, (ls = c.layers ∨ ∃ e ∈ c.assets, ls = e.2) →
      List.Forall₂ (Layer.Similar fun n n' => n = n' ∧ n ≠ name) ls ls) ∧
    ∀ n n', (n = n' ∧ n ≠ name) → Option.Rel
      (List.Forall₂ (Layer.Similar fun n n' => n = n' ∧ n ≠ name)) (c.asset n)
      ((c.precompose name l).asset n') := by
  have h1 : ∀ ls, (ls = c.layers ∨ ∃ e ∈ c.assets, ls = e.2) →
      List.Forall₂ (Layer.Similar fun n n' => n = n' ∧ n ≠ name) ls ls := by
    intro ls hls
    refine List.forall₂_same.mpr fun x hx => ⟨rfl, ?_⟩
    have hx := h x (by
      rcases hls with rfl | ⟨e, he, rfl⟩
      · exact .inl hx
      · exact .inr ⟨e, he, hx⟩)
    cases hc : x.content with
    | none => exact .none
    | shape s => exact .shape s
    | «instance» n tr =>
      refine .instance tr tr ⟨rfl, ?_⟩
      rintro rfl
      exact hx tr hc
  refine ⟨h1, ?_⟩
  rintro n _ ⟨rfl, hn⟩
  unfold Composition.asset Composition.precompose
  dsimp only
  rw [List.reverse_append, List.find?_append]
  rw [show [(name, c.layers)].reverse = [(name, c.layers)] from rfl, List.find?_cons_of_neg (by
    simpa using fun h => hn h.symm), List.find?_nil, Option.none_or]
  cases hf : c.assets.reverse.find? fun e => e.1 == n with
  | none => exact .none
  | some e => exact .some (h1 _ (.inr ⟨e, List.mem_reverse.mp (List.mem_of_find?_eq_some hf), rfl⟩))

omit [FloatOps F] [Libm F] [Kurbo F] in
theorem Composition.precompose_asset (c : Composition F) (name : String) (l : Layer F) :
    (c.precompose name l).asset name = some c.layers := by
  unfold Composition.asset Composition.precompose
  dsimp only
  rw [List.reverse_append, List.find?_append, show [(name, c.layers)].reverse = [(name, c.layers)] from rfl,
    List.find?_cons_of_pos (by simp)]
  rfl

theorem appendOps_precompose {c : Composition F} {name : String} {l : Layer F} {fr a : F}
    {T : Affine F} (hf : c.Fresh name) (hl : l.PlainInstance name fr) (hT : T.mul Affine.identity = T)
    (ha : a *. lit 100 /. lit 100 = a)
    (hfr : fr /. lit 1 +. FloatOps.neg (lit 0) /. lit 1 = fr) (n : Nat) :
    appendOps (n + 1) (c.precompose name l) fr T a
      = ((c.layers.zipIdx.reverse.filter (fun p => !p.1.isMask)).mapM fun p =>
          layerOps c n c.layers p.1 p.2 T a fr).map fun per =>
        [Op.pushClip T (fullRect c), Op.beginGroup l.name 0]
          ++ per.flatten.map Op.anonymous ++ [Op.endGroup, Op.pop] := by
  obtain ⟨⟨tr, h1⟩, h2, h3, h4, h5, h6, h7, h8, h9, h10⟩ := hl
  obtain ⟨s1, s2⟩ := hf.similar (l := l)
  have hbody : ∀ x : Layer F × Nat, x.1 ∈ c.layers →
      layerOps (c.precompose name l) n c.layers x.1 0 T a fr
      = (layerOps c n c.layers x.1 x.2 T a fr).map (List.map Op.anonymous) := by
    intro x hx
    rw [layerOps_anonymous]
    have hs : Layer.Similar (fun n n' => n = n' ∧ n ≠ name) x.1 x.1 :=
      (List.forall₂_same.mp (s1 c.layers (.inl rfl))) x.1 hx
    exact (layerOps_similar (c := c) (c' := c.precompose name l) rfl rfl s2 n _ _ (s1 _ (.inl rfl))
      _ _ hs _ _ _ _).symm
  have hz : (c.precompose name l).layers.zipIdx.reverse.filter (fun p => !p.1.isMask) = [(l, 0)] := by
    show (List.filter _ [(l, 0)]) = _
    simp [h9]
  unfold appendOps
  rw [hz, mapM_cons']
  show Except.map _ (layerBody (c.precompose name l) (layerOps (c.precompose name l) n) [l] l 0 T a fr
    >>= _) = _
  have hct : computeTransform [l] l T fr = T := by
    unfold computeTransform
    rw [h10, h3]
    unfold chaseParents
    exact hT
  have hco : contentOps (c.precompose name l) (layerOps (c.precompose name l) n) l T a fr
      = (((c.layers.zipIdx.reverse.filter (fun p => !p.1.isMask)).mapM fun p =>
          layerOps c n c.layers p.1 p.2 T a fr).map (List.map (List.map Op.anonymous))).map
          List.flatten := by
    unfold contentOps
    rw [h1]
    dsimp only
    rw [c.precompose_asset, h5, h6, hfr]
    dsimp only
    congr 1
    rw [← mapM_map_out _ _ _ _ fun p hp => hbody p ?_, List.filter_reverse, filter_fst c.layers 0,
      ← List.map_reverse, mapM_map_comp, List.filter_reverse]
    rw [List.mem_filter, List.mem_reverse] at hp
    have := List.mem_map_of_mem (f := Prod.fst) hp.1
    rwa [List.zipIdx_map_fst] at this
  unfold layerBody
  rw [h2, hct, h4, ha, hco, h7]
  unfold matteOps layerOut
  rw [h8]
  generalize List.mapM (m := Except Fault) (fun p : Layer F × Nat => layerOps c n c.layers p.1 p.2 T a fr)
    _ = x
  cases x with
  | error e => rfl
  | ok per =>
    show Except.ok _ = Except.ok _
    simp [h7, List.map_flatten, fullRect, Composition.precompose]

end

section
open Import
variable [Kurbo ℝ]

theorem fresh_import {a : Schema.Animation ℝ} {c : Composition ℝ} (hc : convAnimation a = .ok c)
    {id : String} (hf : a.Fresh id) : c.Fresh id := by
  obtain ⟨has, hls, -⟩ := convAnimation_ok hc
  rintro l (hl | ⟨e, he, hl⟩) tr h
  · obtain ⟨p, h1, -, h2⟩ := content_source hls hl h
    exact hf p (.inl h1) h2
  · obtain ⟨s, hs, hr⟩ := forall₂_right has he
    obtain ⟨q, rfl, -, hq⟩ := convAsset_ok hr
    obtain ⟨p, h1, -, h2⟩ := content_source hq hl h
    exact hf p (.inr ⟨q, hs, h1⟩) h2

/-- The import of `plainInstance`. -/
noncomputable def neutralLayer (name id : String) (start stop : ℝ) : Layer ℝ where
  name := name
  parent := none
  transform := .fixed (AnimTransform.evaluate
    ⟨.fixed ⟨lit 0, lit 0⟩, .value (.fixed ⟨lit 0, lit 0⟩), .fixed (lit 0),
      .fixed ⟨lit 100, lit 100⟩, .fixed (lit 0), .fixed (lit 0)⟩ (lit 0))
  opacity := .fixed (lit 100)
  width := lit 0
  height := lit 0
  blendMode := none
  frames := ⟨start, stop⟩
  stretch := lit 1
  startFrame := lit 0
  masks := []
  isMask := false
  maskLayer := none
  content := .instance id none

theorem neutral_identity : AnimTransform.evaluate (F := ℝ)
    ⟨.fixed ⟨lit 0, lit 0⟩, .value (.fixed ⟨lit 0, lit 0⟩), .fixed (lit 0),
      .fixed ⟨lit 100, lit 100⟩, .fixed (lit 0), .fixed (lit 0)⟩ (lit 0) = Affine.identity := by
  simp [AnimTransform.evaluate, Value.evaluate, Position.evaluate, Affine.mul, Affine.translate,
    Affine.rotate, Affine.scaleNonUniform, skewMatrix, Affine.identity, toRadians]

end
end Velato
