import Verif.Spec.Fade
import Verif.Proofs.Equivariance

/-!
# Rendering with everything faded: helper lemmas
-/

namespace Velato
open FloatOps (lit)

/-- The draw with its opacity multiplied. -/
noncomputable def DrawData.fade (α : ℝ) (d : DrawData ℝ) : DrawData ℝ :=
  { d with alpha := α * d.alpha }

/-- The batch with the opacity of its draws multiplied. -/
noncomputable def Batch.fade (α : ℝ) (b : Batch ℝ) : Batch ℝ :=
  { b with
    draws := b.draws.map (DrawData.fade α)
    repeatDraws := b.repeatDraws.map (DrawData.fade α) }

theorem Brush.multiplyAlpha_eq (b : Brush ℝ) (α : ℝ) : b.multiplyAlpha α = b.fade α := by
  have hc : ∀ c : Color ℝ, c.multiplyAlpha α = c.fade α := by
    intro c
    simp [Color.multiplyAlpha, Color.fade, mulF32, mul_comm]
  unfold Brush.multiplyAlpha
  by_cases h : α = 1
  · subst h
    have hc1 : ∀ c : Color ℝ, c.fade 1 = c := by intro c; simp [Color.fade]
    cases b <;> simp [Brush.fade, hc1]
  · rw [if_neg (by simpa using h)]
    cases b <;> simp [Brush.fade, hc]

theorem Brush.fade_one (b : Brush ℝ) : b.fade 1 = b := by
  have hc1 : ∀ c : Color ℝ, c.fade 1 = c := by intro c; simp [Color.fade]
  cases b <;> simp [Brush.fade, hc1]

theorem Brush.fade_fade (b : Brush ℝ) (α β : ℝ) : (b.fade β).fade α = b.fade (α * β) := by
  have hc : ∀ c : Color ℝ, (c.fade β).fade α = c.fade (α * β) := by
    intro c; simp [Color.fade, mul_assoc]
  cases b with
  | solid c => simp [Brush.fade, hc]
  | gradient k s =>
    unfold Brush.fade
    simp only [List.map_map]
    congr 1
    exact List.map_congr_left fun s _ => by simp [hc]

theorem DrawData.finalBrush_eq (d : DrawData ℝ) : d.finalBrush = d.brush.fade d.alpha := by
  unfold DrawData.finalBrush
  by_cases h : d.alpha = 1
  · rw [if_neg (by simp [h]), h, Brush.fade_one]
  · rw [if_pos (by simpa using h), real_toF32, Brush.multiplyAlpha_eq]

theorem DrawData.finalBrush_fade (α : ℝ) (d : DrawData ℝ) :
    (d.fade α).finalBrush = d.finalBrush.fade α := by
  rw [DrawData.finalBrush_eq, DrawData.finalBrush_eq, Brush.fade_fade]
  rfl

variable [Kurbo ℝ]

theorem Batch.pushGeometry_fade (α : ℝ) (b : Batch ℝ) (g : Geometry ℝ) (T : Affine ℝ) (fr : ℝ) :
    (b.fade α).pushGeometry g T fr = (b.pushGeometry g T fr).map (Batch.fade α) := by
  unfold Batch.pushGeometry
  cases g.evaluate fr with
  | error e => rfl
  | ok els =>
    show (if b.canMerge T then _ else _) = Except.map _ (if b.canMerge T then _ else _)
    cases b.canMerge T with
    | false => rfl
    | true =>
      rw [if_pos rfl, if_pos rfl]
      rw [show (b.fade α).geometries = b.geometries from rfl]
      cases b.geometries.getLast? <;> rfl

theorem Batch.pushDraw_fade (α : ℝ) (b : Batch ℝ) (d : Draw ℝ) (a : ℝ) (gs : Nat) (fr : ℝ) :
    (b.fade α).pushDraw d (α * a) gs fr = (b.pushDraw d a gs fr).fade α := by
  simp only [Batch.pushDraw, Batch.fade, List.map_append, List.map_cons, List.map_nil]
  congr 3
  simp only [DrawData.new, DrawData.fade, real_mul, real_div]
  congr 1
  ring

omit [Kurbo ℝ] in
theorem repeatDrawList_fade (α : ℝ) (r : FixedRepeater ℝ) (gs : Nat) (ds : List (DrawData ℝ)) :
    repeatDrawList r gs (ds.map (DrawData.fade α))
      = (repeatDrawList r gs ds).map (List.map (DrawData.fade α)) := by
  unfold repeatDrawList
  have h : ∀ (a : ℝ) (l : List (DrawData ℝ)), (l.map (DrawData.fade α)).mapM (repeatDraw r gs a)
      = (l.mapM (repeatDraw r gs a)).map (List.map (DrawData.fade α)) := by
    intro a l
    induction l with
    | nil => rfl
    | cons d l ih =>
      rw [List.map_cons, mapM_cons', mapM_cons', ih]
      have hd : repeatDraw r gs a (d.fade α) = (repeatDraw r gs a d).map (DrawData.fade α) := by
        unfold repeatDraw
        show (checkedSub d.gstop d.gstart >>= _) = Except.map _ (checkedSub d.gstop d.gstart >>= _)
        cases checkedSub d.gstop d.gstart with
        | error e => rfl
        | ok n =>
          show (checkedSub d.gstart gs >>= _) = Except.map _ (checkedSub d.gstart gs >>= _)
          cases checkedSub d.gstart gs with
          | error e => rfl
          | ok m =>
            show Except.ok _ = Except.ok _
            simp [DrawData.fade, mul_assoc]
      rw [hd]
      cases repeatDraw r gs a d with
      | error e => rfl
      | ok d' =>
        show (Except.map _ (l.mapM (repeatDraw r gs a)) >>= _)
          = Except.map _ (l.mapM (repeatDraw r gs a) >>= _)
        cases l.mapM (repeatDraw r gs a) <;> rfl
  have h2 := mapM_map_out
    (fun i => if (repeatAlpha r i <=. lit 0) = true then Except.ok [] else
      ds.mapM (repeatDraw r gs (repeatAlpha r i)))
    (fun i => if (repeatAlpha r i <=. lit 0) = true then Except.ok [] else
      (ds.map (DrawData.fade α)).mapM (repeatDraw r gs (repeatAlpha r i)))
    (List.map (DrawData.fade α)) (List.range r.copies) fun i _ => by
      split
      · rfl
      · exact h _ ds
  show (List.mapM _ (List.range r.copies) >>= _) = _
  rw [h2]
  show _ = Except.map _ (List.mapM _ (List.range r.copies) >>= _)
  generalize List.mapM (m := Except Fault) _ (List.range r.copies) = x
  cases x with
  | error e => rfl
  | ok per => show Except.ok _ = Except.ok _; rw [List.map_flatten]

omit [Kurbo ℝ] in
theorem Batch.repeat_fade (α : ℝ) (b : Batch ℝ) (r : FixedRepeater ℝ) (gs ds : Nat) :
    (b.fade α).repeat r gs ds = (b.repeat r gs ds).map (Batch.fade α) := by
  unfold Batch.repeat
  rw [show (b.fade α).geometries = b.geometries from rfl,
    show (b.fade α).draws = b.draws.map (DrawData.fade α) from rfl, sliceRange_map,
    List.length_map]
  cases sliceRange b.geometries gs b.geometries.length with
  | error e => rfl
  | ok dg =>
    show (Except.map _ (sliceRange b.draws ds b.draws.length) >>= _)
      = Except.map _ (sliceRange b.draws ds b.draws.length >>= _)
    cases sliceRange b.draws ds b.draws.length with
    | error e => rfl
    | ok dd =>
      show (repeatDrawList r gs (b.repeatDraws.map (DrawData.fade α) ++ dd.map (DrawData.fade α))
          >>= _)
        = Except.map _ (repeatDrawList r gs (b.repeatDraws ++ dd) >>= _)
      rw [← List.map_append, repeatDrawList_fade]
      cases repeatDrawList r gs (b.repeatDraws ++ dd) with
      | error e => rfl
      | ok nd =>
        show Except.ok _ = Except.ok _
        congr 1
        unfold Batch.fade
        dsimp only
        rw [List.map_append, List.map_take]
        rfl

theorem Batch.applyTrim_fade (α : ℝ) (b : Batch ℝ) (t : FixedTrim ℝ) (gs : Nat) :
    (b.fade α).applyTrim t gs = (b.applyTrim t gs).map (Batch.fade α) := by
  unfold Batch.applyTrim
  rw [show (b.fade α).geometries = b.geometries from rfl,
    show (b.fade α).elements = b.elements from rfl,
    show (b.fade α).trimElements = b.trimElements from rfl]
  cases t.normalized with
  | none =>
    dsimp only
    cases sliceRange b.geometries gs b.geometries.length <;> rfl
  | some p =>
    dsimp only
    split
    · rfl
    · cases sliceRange b.geometries 0 gs with
      | error e => rfl
      | ok head =>
        show (sliceRange b.geometries gs b.geometries.length >>= _)
          = Except.map _ (sliceRange b.geometries gs b.geometries.length >>= _)
        cases sliceRange b.geometries gs b.geometries.length with
        | error e => rfl
        | ok tail =>
          show (copyElements b.elements head b.trimElements >>= _)
            = Except.map _ (copyElements b.elements head b.trimElements >>= _)
          cases copyElements b.elements head b.trimElements with
          | error e => rfl
          | ok t0 =>
            show (trimGeoms p.1 p.2 b.elements tail t0 >>= _)
              = Except.map _ (trimGeoms p.1 p.2 b.elements tail t0 >>= _)
            cases trimGeoms p.1 p.2 b.elements tail t0 <;> rfl

mutual
theorem renderShape_fade (α : ℝ) (s : Shape ℝ) (gs ds : Nat) (T : Affine ℝ) (a fr : ℝ)
    (b : Batch ℝ) : renderShape s gs ds T (α * a) fr (b.fade α)
      = (renderShape s gs ds T a fr b).map (Batch.fade α) := by
  cases s with
  | group shapes gt =>
    unfold renderShape
    rw [show (α * a) *. (groupParams gt fr).2 = α * (a *. (groupParams gt fr).2) from mul_assoc _ _ _,
      renderShapesFrom_fade]
    simp [Batch.fade]
  | geometry g => unfold renderShape; exact Batch.pushGeometry_fade α b g T fr
  | draw d => unfold renderShape; exact congrArg Except.ok (Batch.pushDraw_fade α b d a gs fr)
  | repeater r => unfold renderShape; exact Batch.repeat_fade α b _ gs ds
  | trim t => unfold renderShape; exact Batch.applyTrim_fade α b _ gs

theorem renderShapesFrom_fade (α : ℝ) (ss : List (Shape ℝ)) (gs ds : Nat) (T : Affine ℝ)
    (a fr : ℝ) (b : Batch ℝ) : renderShapesFrom ss gs ds T (α * a) fr (b.fade α)
      = (renderShapesFrom ss gs ds T a fr b).map (Batch.fade α) := by
  cases ss with
  | nil => unfold renderShapesFrom; rfl
  | cons s ss =>
    unfold renderShapesFrom
    rw [renderShape_fade α s]
    cases renderShape s gs ds T a fr b with
    | error e => rfl
    | ok b' => exact renderShapesFrom_fade α ss gs ds T a fr b'
end

omit [Kurbo ℝ] in
theorem Batch.render_fade (α : ℝ) (b : Batch ℝ) :
    (b.fade α).render = b.render.map (List.map (Op.fade α)) := by
  have hd : ∀ d, (b.fade α).renderDraw (d.fade α)
      = (b.renderDraw d).map (List.map (Op.fade α)) := by
    intro d
    unfold Batch.renderDraw
    show (sliceRange b.geometries d.gstart d.gstop >>= _)
      = Except.map _ (sliceRange b.geometries d.gstart d.gstop >>= _)
    cases sliceRange b.geometries d.gstart d.gstop with
    | error e => rfl
    | ok gs =>
      refine mapM_map_out _ _ _ gs fun g _ => ?_
      show (sliceRange b.elements g.start g.stop >>= _)
        = Except.map _ (sliceRange b.elements g.start g.stop >>= _)
      cases sliceRange b.elements g.start g.stop with
      | error e => rfl
      | ok path =>
        show Except.ok _ = Except.ok _
        rw [DrawData.finalBrush_fade]
        rfl
  have hl : ∀ l : List (DrawData ℝ), (l.map (DrawData.fade α)).mapM (b.fade α).renderDraw
      = (l.mapM b.renderDraw).map (List.map (List.map (Op.fade α))) := by
    intro l
    induction l with
    | nil => rfl
    | cons d l ih =>
      rw [List.map_cons, mapM_cons', mapM_cons', ih, hd]
      cases b.renderDraw d with
      | error e => rfl
      | ok o =>
        show (Except.map _ (l.mapM b.renderDraw) >>= _) = Except.map _ (l.mapM b.renderDraw >>= _)
        cases l.mapM b.renderDraw <;> rfl
  unfold Batch.render
  show (List.mapM _ (b.draws.map (DrawData.fade α)).reverse >>= _) = _
  rw [← List.map_reverse, hl]
  cases b.draws.reverse.mapM b.renderDraw with
  | error e => rfl
  | ok per => show Except.ok _ = Except.ok _; rw [List.map_flatten]

theorem layerOps_fade (α : ℝ) (c : Composition ℝ) :
    ∀ (n : Nat) (ls : List (Layer ℝ)) (l : Layer ℝ) (ix : Nat) (T : Affine ℝ) (a fr : ℝ),
      layerOps c n ls l ix T (α * a) fr
        = (layerOps c n ls l ix T a fr).map (List.map (Op.fade α))
  | 0, _, _, _, _, _, _ => rfl
  | n + 1, ls, l, ix, T, a, fr => by
    have ih := layerOps_fade α c n
    show layerBody c (layerOps c n) ls l ix T (α * a) fr
      = (layerBody c (layerOps c n) ls l ix T a fr).map _
    unfold layerBody
    split
    · rfl
    have hm : matteOps c (layerOps c n) ls l T (α * a) fr
        = (matteOps c (layerOps c n) ls l T a fr).map (List.map (Op.fade α)) := by
      unfold matteOps
      cases l.maskLayer with
      | none => rfl
      | some p =>
        dsimp only
        cases ls[p.2]? with
        | none => rfl
        | some m =>
          dsimp only
          rw [ih]
          cases layerOps c n ls m 0 T a fr with
          | error e => rfl
          | ok o => show Except.ok _ = Except.ok _; simp [Op.fade]
    have ha : (α * a) *. l.opacity.evaluate fr /. lit 100
        = α * (a *. l.opacity.evaluate fr /. lit 100) := by
      simp only [real_mul, real_div]; ring
    rw [hm, ha]
    generalize computeTransform ls l T fr = T'
    generalize a *. l.opacity.evaluate fr /. lit 100 = a'
    have hms : l.masks.mapM (maskOp T' fr)
        = (l.masks.mapM (maskOp T' fr)).map (List.map (Op.fade α)) := by
      refine mapM_map_out _ _ _ _ fun m _ => ?_
      unfold maskOp
      cases m.geometry.evaluate fr <;> rfl
    have hc : contentOps c (layerOps c n) l T' (α * a') fr
        = (contentOps c (layerOps c n) l T' a' fr).map (List.map (Op.fade α)) := by
      unfold contentOps
      cases l.content with
      | none => rfl
      | «instance» name tr =>
        dsimp only
        cases c.asset name with
        | none => rfl
        | some als =>
          dsimp only
          rw [mapM_map_out _ _ _ _ fun l' _ => ih _ _ _ _ _ _]
          cases (als.reverse.filter fun l => !l.isMask).mapM fun l' => layerOps c n als l' 0 T'
              a' (fr /. l.stretch +. FloatOps.neg l.startFrame /. l.stretch) with
          | error e => rfl
          | ok per => show Except.ok _ = Except.ok _; rw [List.map_flatten]
      | shape shapes =>
        dsimp only
        unfold renderShapes
        rw [show (Batch.empty : Batch ℝ) = Batch.empty.fade α from rfl]
        show (renderShapesFrom shapes 0 0 T' (α * a') fr (Batch.empty.fade α) >>= _)
          = Except.map _ (renderShapesFrom shapes 0 0 T' a' fr Batch.empty >>= _)
        rw [renderShapesFrom_fade]
        cases renderShapesFrom shapes 0 0 T' a' fr Batch.empty with
        | error e => rfl
        | ok b => exact Batch.render_fade α b
    rw [hc]
    cases matteOps c (layerOps c n) ls l T a fr with
    | error e => rfl
    | ok mo =>
      show (l.masks.mapM (maskOp T' fr) >>= _)
        = Except.map _ (l.masks.mapM (maskOp T' fr) >>= _)
      cases hq : l.masks.mapM (maskOp T' fr) with
      | error e => rfl
      | ok ms =>
        rw [hq] at hms
        have hms' : ms.map (Op.fade α) = ms := (Except.ok.inj hms).symm
        show (Except.map _ (contentOps c (layerOps c n) l T' a' fr) >>= _)
          = Except.map _ (contentOps c (layerOps c n) l T' a' fr >>= _)
        cases contentOps c (layerOps c n) l T' a' fr with
        | error e => rfl
        | ok co =>
          show Except.ok _ = Except.ok _
          simp [layerOut, Op.fade, hms']

theorem appendOps_fade (α : ℝ) (n : Nat) (c : Composition ℝ) (fr : ℝ) (T : Affine ℝ)
    (a : ℝ) : appendOps n c fr T (α * a)
      = (appendOps n c fr T a).map (List.map (Op.fade α)) := by
  unfold appendOps
  rw [mapM_map_out _ _ _ _ fun p _ => layerOps_fade α c n c.layers p.1 p.2 T a fr]
  cases (c.layers.zipIdx.reverse.filter (fun p => !p.1.isMask)).mapM fun p =>
      layerOps c n c.layers p.1 p.2 T a fr with
  | error e => rfl
  | ok per =>
    show Except.ok _ = Except.ok _
    simp [Op.fade]

end Velato
