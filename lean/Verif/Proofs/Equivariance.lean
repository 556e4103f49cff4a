import Verif.Spec.Equivariance
import Verif.Spec.Transforms
import Verif.Proofs.Layers

/-!
# Rendering with a transform applied to everything: helper lemmas
-/

namespace Velato
open FloatOps (lit)

section
variable {F : Type} [FloatOps F]

/-- The change of transforms `τ` is compatible with products and keeps apart what is different. -/
structure LeftAction (τ : Affine F → Affine F) : Prop where
  mul : ∀ A B : Affine F, τ (A.mul B) = (τ A).mul B
  beq : ∀ A B : Affine F, (τ A).beq (τ B) = A.beq B

omit [FloatOps F] in
/-- The geometry with its transform changed. -/
def GeometryData.mapTransform (τ : Affine F → Affine F) (g : GeometryData F) : GeometryData F :=
  { g with transform := τ g.transform }

omit [FloatOps F] in
/-- The batch with all transforms changed. -/
def Batch.mapTransform (τ : Affine F → Affine F) (b : Batch F) : Batch F :=
  { b with
    geometries := b.geometries.map (GeometryData.mapTransform τ)
    repeatGeometries := b.repeatGeometries.map (GeometryData.mapTransform τ) }

variable {τ : Affine F → Affine F}

omit [FloatOps F] in
theorem sliceRange_map {α β : Type} (f : α → β) (l : List α) (s e : Nat) :
    sliceRange (l.map f) s e = (sliceRange l s e).map (List.map f) := by
  unfold sliceRange
  rw [List.length_map]
  split
  · simp [Except.map, List.map_take, List.map_drop]
  · rfl

theorem Batch.canMerge_map (h : LeftAction τ) (b : Batch F) (T : Affine F) :
    (b.mapTransform τ).canMerge (τ T) = b.canMerge T := by
  unfold Batch.canMerge Batch.mapTransform
  dsimp only
  rw [List.length_map, List.getLast?_map]
  cases b.geometries.getLast? with
  | none => rfl
  | some g => simp [GeometryData.mapTransform, h.beq]

variable [Libm F] [Kurbo F]

theorem Batch.pushGeometry_map (h : LeftAction τ) (b : Batch F) (g : Geometry F) (T : Affine F)
    (fr : F) : (b.mapTransform τ).pushGeometry g (τ T) fr
      = (b.pushGeometry g T fr).map (Batch.mapTransform τ) := by
  unfold Batch.pushGeometry
  cases g.evaluate fr with
  | error e => rfl
  | ok els =>
    show (if _ then _ else _) = Except.map _ (if _ then _ else _)
    rw [Batch.canMerge_map h]
    cases b.canMerge T with
    | false =>
      simp [Batch.mapTransform, Except.map, GeometryData.mapTransform]
    | true =>
      rw [if_pos rfl, if_pos rfl]
      rw [show (b.mapTransform τ).geometries.getLast?
        = b.geometries.getLast?.map (GeometryData.mapTransform τ) from List.getLast?_map]
      cases b.geometries.getLast? with
      | none => rfl
      | some g =>
        simp [Batch.mapTransform, Except.map, GeometryData.mapTransform, List.map_dropLast]

theorem Batch.pushDraw_map (b : Batch F) (d : Draw F) (a : F) (gs : Nat) (fr : F) :
    (b.mapTransform τ).pushDraw d a gs fr = (b.pushDraw d a gs fr).mapTransform τ := by
  simp [Batch.pushDraw, Batch.mapTransform]

omit [Kurbo F] in
theorem repeatGeomList_map (h : LeftAction τ) (r : FixedRepeater F) (gs : List (GeometryData F)) :
    repeatGeomList r (gs.map (GeometryData.mapTransform τ))
      = (repeatGeomList r gs).map (GeometryData.mapTransform τ) := by
  unfold repeatGeomList
  rw [List.flatMap_map, List.map_flatMap]
  congr 1
  funext g
  rw [List.map_map]
  refine List.map_congr_left fun i _ => ?_
  simp [GeometryData.mapTransform, h.mul]

omit [Kurbo F] in
theorem Batch.repeat_map (h : LeftAction τ) (b : Batch F) (r : FixedRepeater F) (gs ds : Nat) :
    (b.mapTransform τ).repeat r gs ds = (b.repeat r gs ds).map (Batch.mapTransform τ) := by
  unfold Batch.repeat
  rw [show (b.mapTransform τ).geometries = b.geometries.map (GeometryData.mapTransform τ) from rfl,
    sliceRange_map, List.length_map]
  cases sliceRange b.geometries gs b.geometries.length with
  | error e => rfl
  | ok dg =>
    show (sliceRange b.draws ds b.draws.length >>= _)
      = Except.map _ (sliceRange b.draws ds b.draws.length >>= _)
    cases sliceRange b.draws ds b.draws.length with
    | error e => rfl
    | ok dd =>
      show (repeatDrawList r gs (b.repeatDraws ++ dd) >>= _)
        = Except.map _ (repeatDrawList r gs (b.repeatDraws ++ dd) >>= _)
      cases repeatDrawList r gs (b.repeatDraws ++ dd) with
      | error e => rfl
      | ok nd =>
        show Except.ok _ = Except.ok _
        congr 1
        unfold Batch.mapTransform
        dsimp only
        rw [← List.map_append, repeatGeomList_map h, ← List.map_take, ← List.map_append,
          List.length_map]
        rfl

omit [Libm F] in
theorem trimGeoms_map (first : F × F) (second : Option (F × F)) (els : List (PathEl F))
    (gs : List (GeometryData F)) (acc : List (PathEl F)) :
    trimGeoms first second els (gs.map (GeometryData.mapTransform τ)) acc
      = (trimGeoms first second els gs acc).map fun p =>
        (p.1, p.2.map (GeometryData.mapTransform τ)) := by
  induction gs generalizing acc with
  | nil => rfl
  | cons g gs ih =>
    rw [List.map_cons]
    unfold trimGeoms
    show (sliceRange els g.start g.stop >>= _) = Except.map _ (sliceRange els g.start g.stop >>= _)
    cases sliceRange els g.start g.stop with
    | error e => rfl
    | ok x =>
      show (trimPath first second x >>= _) = Except.map _ (trimPath first second x >>= _)
      cases trimPath first second x with
      | error e => rfl
      | ok y =>
        show (trimGeoms first second els (gs.map _) (acc ++ y) >>= _)
          = Except.map _ (trimGeoms first second els gs (acc ++ y) >>= _)
        rw [ih]
        cases trimGeoms first second els gs (acc ++ y) <;> rfl

omit [FloatOps F] [Libm F] [Kurbo F] in
theorem copyElements_map (els : List (PathEl F)) (gs : List (GeometryData F))
    (acc : List (PathEl F)) : copyElements els (gs.map (GeometryData.mapTransform τ)) acc
      = copyElements els gs acc := by
  induction gs generalizing acc with
  | nil => rfl
  | cons g gs ih =>
    rw [List.map_cons]
    unfold copyElements
    simp only [ih]
    rfl

omit [FloatOps F] [Libm F] [Kurbo F] in
theorem renumber_map (gs : List (GeometryData F)) (n : Nat) :
    renumber (gs.map (GeometryData.mapTransform τ)) n
      = (renumber gs n).map (GeometryData.mapTransform τ) := by
  induction gs generalizing n with
  | nil => rfl
  | cons g gs ih =>
    rw [List.map_cons]
    unfold renumber
    rw [ih]
    rfl

omit [Libm F] in
theorem Batch.applyTrim_map (b : Batch F) (t : FixedTrim F) (gs : Nat) :
    (b.mapTransform τ).applyTrim t gs = (b.applyTrim t gs).map (Batch.mapTransform τ) := by
  unfold Batch.applyTrim
  rw [show (b.mapTransform τ).geometries = b.geometries.map (GeometryData.mapTransform τ) from rfl,
    sliceRange_map, sliceRange_map, List.length_map]
  cases t.normalized with
  | none =>
    dsimp only
    cases sliceRange b.geometries gs b.geometries.length with
    | error e => rfl
    | ok tail =>
      show Except.ok _ = Except.ok _
      congr 1
      unfold Batch.mapTransform
      dsimp only
      rw [List.map_append, List.map_map, List.map_map, List.map_take]
      rfl
  | some p =>
    dsimp only
    split
    · rfl
    · cases sliceRange b.geometries 0 gs with
      | error e => rfl
      | ok head =>
        show (Except.map _ (sliceRange b.geometries gs b.geometries.length) >>= _)
          = Except.map _ (sliceRange b.geometries gs b.geometries.length >>= _)
        cases sliceRange b.geometries gs b.geometries.length with
        | error e => rfl
        | ok tail =>
          show (copyElements b.elements (head.map _) b.trimElements >>= _)
            = Except.map _ (copyElements b.elements head b.trimElements >>= _)
          rw [copyElements_map]
          cases copyElements b.elements head b.trimElements with
          | error e => rfl
          | ok t0 =>
            show (trimGeoms p.1 p.2 b.elements (tail.map _) t0 >>= _)
              = Except.map _ (trimGeoms p.1 p.2 b.elements tail t0 >>= _)
            rw [trimGeoms_map]
            cases trimGeoms p.1 p.2 b.elements tail t0 with
            | error e => rfl
            | ok q =>
              show Except.ok _ = Except.ok _
              congr 1
              unfold Batch.mapTransform
              dsimp only
              rw [renumber_map, List.map_append]

mutual
theorem renderShape_map (h : LeftAction τ) (s : Shape F) (gs ds : Nat) (T : Affine F) (a fr : F)
    (b : Batch F) : renderShape s gs ds (τ T) a fr (b.mapTransform τ)
      = (renderShape s gs ds T a fr b).map (Batch.mapTransform τ) := by
  cases s with
  | group shapes gt =>
    unfold renderShape
    rw [← h.mul, renderShapesFrom_map h]
    simp [Batch.mapTransform]
  | geometry g => unfold renderShape; exact Batch.pushGeometry_map h b g T fr
  | draw d => unfold renderShape; exact congrArg Except.ok (Batch.pushDraw_map b d a gs fr)
  | repeater r => unfold renderShape; exact Batch.repeat_map h b _ gs ds
  | trim t => unfold renderShape; exact Batch.applyTrim_map b _ gs

theorem renderShapesFrom_map (h : LeftAction τ) (ss : List (Shape F)) (gs ds : Nat) (T : Affine F)
    (a fr : F) (b : Batch F) : renderShapesFrom ss gs ds (τ T) a fr (b.mapTransform τ)
      = (renderShapesFrom ss gs ds T a fr b).map (Batch.mapTransform τ) := by
  cases ss with
  | nil => unfold renderShapesFrom; rfl
  | cons s ss =>
    unfold renderShapesFrom
    rw [renderShape_map h s]
    cases renderShape s gs ds T a fr b with
    | error e => rfl
    | ok b' => exact renderShapesFrom_map h ss gs ds T a fr b'
end

omit [FloatOps F] [Libm F] [Kurbo F] in
theorem mapM_map_out {α β γ : Type} (f : α → Except Fault β) (g : α → Except Fault γ) (k : β → γ)
    (l : List α) (h : ∀ x ∈ l, g x = (f x).map k) : l.mapM g = (l.mapM f).map (List.map k) := by
  induction l with
  | nil => rfl
  | cons x xs ih =>
    rw [mapM_cons', mapM_cons', h x (by simp), ih fun y hy => h y (by simp [hy])]
    cases f x with
    | error e => rfl
    | ok b =>
      show (Except.map (List.map k) (xs.mapM f) >>= fun r => _) = Except.map _ (xs.mapM f >>= fun r => _)
      cases xs.mapM f <;> rfl

omit [Libm F] [Kurbo F] in
theorem Batch.render_map (b : Batch F) :
    (b.mapTransform τ).render = b.render.map (List.map (Op.mapTransform τ)) := by
  have hd : ∀ d, (b.mapTransform τ).renderDraw d
      = (b.renderDraw d).map (List.map (Op.mapTransform τ)) := by
    intro d
    unfold Batch.renderDraw
    rw [show (b.mapTransform τ).geometries = b.geometries.map (GeometryData.mapTransform τ) from rfl,
      sliceRange_map]
    cases sliceRange b.geometries d.gstart d.gstop with
    | error e => rfl
    | ok gs =>
      show (gs.map (GeometryData.mapTransform τ)).mapM _ = Except.map _ (gs.mapM _)
      induction gs with
      | nil => rfl
      | cons g gs ih =>
        rw [List.map_cons, mapM_cons', mapM_cons', ih]
        show (sliceRange b.elements g.start g.stop >>= _) >>= _
          = Except.map _ ((sliceRange b.elements g.start g.stop >>= _) >>= _)
        cases sliceRange b.elements g.start g.stop with
        | error e => rfl
        | ok path =>
          simp only [bind, Except.bind]
          generalize List.mapM (m := Except Fault) _ gs = x
          cases x <;> rfl
  unfold Batch.render
  show (List.mapM _ b.draws.reverse >>= _) = _
  rw [mapM_map_out _ _ _ _ fun d _ => hd d]
  cases b.draws.reverse.mapM b.renderDraw with
  | error e => rfl
  | ok per => show Except.ok _ = Except.ok _; rw [List.map_flatten]

theorem computeTransform_map (h : LeftAction τ) (ls : List (Layer F)) (l : Layer F) (T : Affine F)
    (fr : F) : computeTransform ls l (τ T) fr = τ (computeTransform ls l T fr) := by
  unfold computeTransform
  rw [h.mul]

theorem layerOps_map (h : LeftAction τ) (c : Composition F) :
    ∀ (n : Nat) (ls : List (Layer F)) (l : Layer F) (ix : Nat) (T : Affine F) (a fr : F),
      layerOps c n ls l ix (τ T) a fr
        = (layerOps c n ls l ix T a fr).map (List.map (Op.mapTransform τ))
  | 0, _, _, _, _, _, _ => rfl
  | n + 1, ls, l, ix, T, a, fr => by
    have ih := layerOps_map h c n
    show layerBody c (layerOps c n) ls l ix (τ T) a fr
      = (layerBody c (layerOps c n) ls l ix T a fr).map _
    unfold layerBody
    split
    · rfl
    have hm : matteOps c (layerOps c n) ls l (τ T) a fr
        = (matteOps c (layerOps c n) ls l T a fr).map (List.map (Op.mapTransform τ)) := by
      unfold matteOps
      cases l.maskLayer with
      | none => rfl
      | some p =>
        dsimp only
        cases ls[p.2]? with
        | none => rfl
        | some m =>
          dsimp only
          rw [ih]
          cases layerOps c n ls m 0 T a fr with
          | error e => rfl
          | ok o => show Except.ok _ = Except.ok _; simp [Op.mapTransform]
    rw [hm, computeTransform_map h]
    generalize computeTransform ls l T fr = T'
    have hms : l.masks.mapM (maskOp (τ T') fr)
        = (l.masks.mapM (maskOp T' fr)).map (List.map (Op.mapTransform τ)) := by
      refine mapM_map_out _ _ _ _ fun m _ => ?_
      unfold maskOp
      cases m.geometry.evaluate fr <;> rfl
    have hc : contentOps c (layerOps c n) l (τ T') (a *. l.opacity.evaluate fr /. lit 100) fr
        = (contentOps c (layerOps c n) l T' (a *. l.opacity.evaluate fr /. lit 100) fr).map
          (List.map (Op.mapTransform τ)) := by
      unfold contentOps
      cases l.content with
      | none => rfl
      | «instance» name tr =>
        dsimp only
        cases c.asset name with
        | none => rfl
        | some als =>
          dsimp only
          rw [mapM_map_out _ _ _ _ fun l' _ => ih _ _ _ _ _ _]
          cases (als.reverse.filter fun l => !l.isMask).mapM fun l' => layerOps c n als l' 0 T'
              (a *. l.opacity.evaluate fr /. lit 100)
              (fr /. l.stretch +. FloatOps.neg l.startFrame /. l.stretch) with
          | error e => rfl
          | ok per => show Except.ok _ = Except.ok _; rw [List.map_flatten]
      | shape shapes =>
        dsimp only
        unfold renderShapes
        rw [show (Batch.empty : Batch F) = Batch.empty.mapTransform τ from rfl,
          renderShapesFrom_map h]
        show _ = Except.map _ (renderShapesFrom shapes 0 0 T' _ fr Batch.empty >>= _)
        show (Except.map _ (renderShapesFrom shapes 0 0 T' _ fr Batch.empty) >>= _) = _
        cases renderShapesFrom shapes 0 0 T' (a *. l.opacity.evaluate fr /. lit 100) fr
            Batch.empty with
        | error e => rfl
        | ok b => exact Batch.render_map b
    rw [hms, hc]
    cases matteOps c (layerOps c n) ls l T a fr with
    | error e => rfl
    | ok mo =>
      show (Except.map _ (l.masks.mapM (maskOp T' fr)) >>= _)
        = Except.map _ (l.masks.mapM (maskOp T' fr) >>= _)
      cases l.masks.mapM (maskOp T' fr) with
      | error e => rfl
      | ok ms =>
        show (Except.map _ (contentOps c (layerOps c n) l T' _ fr) >>= _)
          = Except.map _ (contentOps c (layerOps c n) l T' _ fr >>= _)
        cases contentOps c (layerOps c n) l T' (a *. l.opacity.evaluate fr /. lit 100) fr with
        | error e => rfl
        | ok co =>
          show Except.ok _ = Except.ok _
          simp [layerOut, Op.mapTransform]

theorem appendOps_map (h : LeftAction τ) (n : Nat) (c : Composition F) (fr : F) (T : Affine F)
    (a : F) : appendOps n c fr (τ T) a
      = (appendOps n c fr T a).map (List.map (Op.mapTransform τ)) := by
  unfold appendOps
  rw [mapM_map_out _ _ _ _ fun p _ => layerOps_map h c n c.layers p.1 p.2 T a fr]
  cases (c.layers.zipIdx.reverse.filter (fun p => !p.1.isMask)).mapM fun p =>
      layerOps c n c.layers p.1 p.2 T a fr with
  | error e => rfl
  | ok per =>
    show Except.ok _ = Except.ok _
    simp [Op.mapTransform]

end

theorem Affine.real_mul_assoc (A B C : Affine ℝ) : (A.mul B).mul C = A.mul (B.mul C) := by
  simp only [Affine.mul, Affine.mk.injEq, Velato.real_mul, real_add]
  refine ⟨?_, ?_, ?_, ?_, ?_, ?_⟩ <;> ring

theorem Affine.real_mul_identity (A : Affine ℝ) : A.mul Affine.identity = A := by
  obtain ⟨a, b, c, d, e, f⟩ := A
  simp [Affine.mul, Affine.identity]

theorem Affine.real_beq (A B : Affine ℝ) : A.beq B = true ↔ A = B := by
  obtain ⟨a, b, c, d, e, f⟩ := A
  obtain ⟨a', b', c', d', e', f'⟩ := B
  simp [Affine.beq, and_assoc]

theorem Affine.real_mul_cancel {T : Affine ℝ} (hT : T.det ≠ 0) {A B : Affine ℝ}
    (h : T.mul A = T.mul B) : A = B := by
  obtain ⟨a, b, c, d, e, f⟩ := T
  obtain ⟨a1, b1, c1, d1, e1, f1⟩ := A
  obtain ⟨a2, b2, c2, d2, e2, f2⟩ := B
  simp only [Affine.mul, Affine.mk.injEq, Velato.real_mul, real_add, Affine.det] at h hT ⊢
  obtain ⟨h1, h2, h3, h4, h5, h6⟩ := h
  refine ⟨mul_left_cancel₀ hT ?_, mul_left_cancel₀ hT ?_, mul_left_cancel₀ hT ?_,
    mul_left_cancel₀ hT ?_, mul_left_cancel₀ hT ?_, mul_left_cancel₀ hT ?_⟩
  · linear_combination d * h1 - c * h2
  · linear_combination a * h2 - b * h1
  · linear_combination d * h3 - c * h4
  · linear_combination a * h4 - b * h3
  · linear_combination d * h5 - c * h6
  · linear_combination a * h6 - b * h5

theorem leftAction_mul {T : Affine ℝ} (hT : T.det ≠ 0) : LeftAction T.mul where
  mul A B := (Affine.real_mul_assoc T A B).symm
  beq A B := by
    rw [Bool.eq_iff_iff, Affine.real_beq, Affine.real_beq]
    exact ⟨Affine.real_mul_cancel hT, fun h => by rw [h]⟩

end Velato
