import Verif.Proofs.ImportFails
import Verif.Spec.DocPaths

/-!
# The places where import can panic
-/

namespace Velato
open FloatOps (lit)
open Import

/-- Every failure is a panic at one of the sites. -/
def PanicsIn {α : Type} (A : PanicSite → Prop) (x : Except Fault α) : Prop :=
  ∀ e, x = .error e → ∃ s, e = .panic s ∧ A s

namespace PanicsIn

theorem ok {α : Type} {A : PanicSite → Prop} (a : α) : PanicsIn A (.ok a : Except Fault α) :=
  fun _ h => nomatch h

theorem panic {α : Type} {A : PanicSite → Prop} {s : PanicSite} (h : A s) :
    PanicsIn A (.error (.panic s) : Except Fault α) :=
  fun _ he => ⟨s, (Except.error.inj he).symm, h⟩

theorem bind {α β : Type} {A : PanicSite → Prop} {x : Except Fault α} {f : α → Except Fault β}
    (h : PanicsIn A x) (hf : ∀ a, PanicsIn A (f a)) : PanicsIn A (x >>= f) := by
  cases x with
  | error e => exact fun e' he => h e' (by cases he; rfl)
  | ok a => exact hf a

theorem map {α β : Type} {A : PanicSite → Prop} {x : Except Fault α} {f : α → β}
    (h : PanicsIn A x) : PanicsIn A (x.map f) := by
  cases x with
  | error e => exact fun e' he => h e' (by cases he; rfl)
  | ok a => exact ok _

theorem mapM_mem {α β : Type} {A : PanicSite → Prop} {f : α → Except Fault β} :
    ∀ l : List α, (∀ x ∈ l, PanicsIn A (f x)) → PanicsIn A (l.mapM f)
  | [], _ => ok _
  | x :: xs, h => by
    rw [mapM_cons']
    exact bind (h x List.mem_cons_self) fun _ =>
      bind (mapM_mem xs fun y hy => h y (List.mem_cons_of_mem _ hy)) fun _ => ok _

theorem mapM {α β : Type} {A : PanicSite → Prop} {f : α → Except Fault β}
    (h : ∀ x, PanicsIn A (f x)) (l : List α) : PanicsIn A (l.mapM f) :=
  mapM_mem l fun x _ => h x

end PanicsIn

/-- The panics other than the underflow of the keyframe index. -/
def otherSites : List PanicSite :=
  [.unsupportedAsset, .unknownBlendMode, .missingRotation, .splitRotation, .splitPosition,
    .emptyKeyframe, .handleArray, .starCapacity]

/-- A path whose conversion may underflow only if that site is allowed. -/
def PathIn (A : PanicSite → Prop) {F : Type} (p : Schema.ShapeProperty F) : Prop :=
  ∀ k ks, p.value = .animated (k :: ks) → k.start = none → A .underflow

section
variable {F : Type} {A : PanicSite → Prop} (hA : ∀ s ∈ otherSites, A s)
include hA

theorem component_sites (c : Schema.KeyframeComponent F) : PanicsIn A (convComponent c) := by
  unfold convComponent
  split
  · exact .ok _
  · exact .panic (hA _ (by simp [otherSites]))
  · exact .ok _

theorem handle_sites (h : Option (Schema.KeyframeBezierHandle F)) :
    PanicsIn A (convHandle? h) := by
  unfold convHandle?
  cases h with
  | none => exact .ok _
  | some h =>
    unfold convKeyframeHandle
    exact .map (.bind (component_sites hA _) fun _ => .bind (component_sites hA _) fun _ => .ok _)

theorem time_sites (b : Schema.KeyframeBase F) : PanicsIn A (convTime b) := by
  unfold convTime
  exact .bind (handle_sites hA _) fun _ => .bind (handle_sites hA _) fun _ => .ok _

theorem scalar_sites (p : Schema.FloatValue F) : PanicsIn A (convScalar p) := by
  unfold convScalar
  cases p.value with
  | static x => exact .ok _
  | animatedValue ks =>
    refine .bind (.mapM (fun k => ?_) _) fun _ => .ok _
    unfold convScalarKeyframe
    cases k.value with
    | nil => exact .panic (hA _ (by simp [otherSites]))
    | cons x xs => exact .bind (time_sites hA _) fun _ => .ok _

theorem scalarOr_sites (p : Option (Schema.FloatValue F)) (d : F) :
    PanicsIn A (convScalarOr p d) := by
  cases p with
  | none => exact .ok _
  | some p => exact scalar_sites hA p

omit hA in
theorem startBezier_sites (prev : Option (Schema.ShapeKeyframe F)) (k : Schema.ShapeKeyframe F)
    (h : prev = none → k.start = none → A .underflow) :
    PanicsIn A (startBezier prev k) := by
  unfold startBezier
  split
  · exact .ok _
  · rename_i hk
    split
    · exact .panic (h rfl hk)
    · split
      · exact .ok _
      · split <;> exact .ok _

variable [FloatOps F]

theorem splineLoop_sites (prev : Option (Schema.ShapeKeyframe F))
    (ks : List (Schema.ShapeKeyframe F))
    (h : ∀ k ks', ks = k :: ks' → prev = none → k.start = none → A .underflow) :
    PanicsIn A (splineLoop prev ks) := by
  induction ks generalizing prev with
  | nil => unfold splineLoop; exact .ok _
  | cons k ks ih =>
    unfold splineLoop
    refine .bind (time_sites hA _) fun t =>
      .bind (startBezier_sites _ _ (h _ _ rfl)) fun o => ?_
    cases o with
    | none => exact .ok _
    | some b =>
      refine .bind (ih _ fun _ _ _ e => nomatch e) fun r => ?_
      cases r <;> exact .ok _

theorem shapeGeometry_sites (p : Schema.ShapeProperty F) (hp : PathIn A p) :
    PanicsIn A (convShapeGeometry p) := by
  unfold convShapeGeometry
  cases hv : p.value with
  | static b => exact .ok _
  | animated ks =>
    refine .bind (splineLoop_sites hA _ _ fun k ks' e _ => hp k ks' (e ▸ hv)) fun r => ?_
    cases r <;> exact .ok _

variable [Kurbo F]

theorem gradient_sites (g : Schema.BaseGradient F) : PanicsIn A (convGradient g) := by
  unfold convGradient
  refine .bind ?_ fun _ => .ok _
  unfold convGradientColors
  cases g.colors.colors.animatedProperty.value with
  | static xs => exact .ok _
  | animatedValue ks => exact .bind (.mapM (fun k => time_sites hA _) _) fun _ => .ok _

variable [Libm F]

theorem star_sites (s : AnimStar F) : PanicsIn A s.intoModel := by
  unfold AnimStar.intoModel
  split
  · refine .map ?_
    unfold AnimStar.evaluate
    dsimp only
    repeat' split
    all_goals first
      | exact .ok _
      | exact .panic (hA _ (by simp [otherSites]))
  · exact .ok _

theorem polystar_sites (s : Schema.PolyStarShape F) : PanicsIn A (convPolystar s) := by
  unfold convPolystar
  dsimp only
  refine .bind (scalar_sites hA _) fun _ => .bind (scalar_sites hA _) fun _ =>
    .bind (scalar_sites hA _) fun _ => .bind (scalar_sites hA _) fun _ => ?_
  cases s.starType with
  | polygon => exact star_sites hA _
  | star => exact .bind (scalarOr_sites hA _ _) fun _ => .bind (scalarOr_sites hA _ _) fun _ => star_sites hA _

theorem geometry_sites (s : Schema.AnyShape F) (hp : ∀ t, s = .path t → PathIn A t.shapeProperty) :
    PanicsIn A (convGeometry s) := by
  unfold convGeometry
  split
  · exact .ok _
  · exact .bind (scalar_sites hA _) fun _ => .ok _
  · exact shapeGeometry_sites hA _ (hp _ rfl)
  · exact .map (polystar_sites hA _)
  · exact .ok _

theorem draw_sites (s : Schema.AnyShape F) : PanicsIn A (convDraw s) := by
  unfold convDraw convStroke
  split
  · exact .bind (scalar_sites hA _) fun _ => .ok _
  · exact .bind (.bind (scalar_sites hA _) fun _ => .ok _) fun _ =>
      .bind (scalar_sites hA _) fun _ => .ok _
  · exact .bind (gradient_sites hA _) fun _ => .ok _
  · exact .bind (.bind (scalar_sites hA _) fun _ => .ok _) fun _ =>
      .bind (gradient_sites hA _) fun _ => .ok _
  · exact .ok _

theorem transformWith_sites (v : Schema.Transform F) (r : Schema.FloatValue F) (p : Position F) :
    PanicsIn A (convTransformWith v r p) := by
  unfold convTransformWith
  exact .bind (scalar_sites hA _) fun _ => .bind (scalar_sites hA _) fun _ =>
    .bind (scalar_sites hA _) fun _ => .bind (scalar_sites hA _) fun _ => .ok _

theorem transform_sites (v : Schema.Transform F) : PanicsIn A (convTransform v) := by
  unfold convTransform layerRotation layerPosition
  refine .bind ?_ fun _ => .bind ?_ fun _ => transformWith_sites hA _ _ _
  · split
    · exact .ok _
    · exact .panic (hA _ (by simp [otherSites]))
    · exact .panic (hA _ (by simp [otherSites]))
  · split
    · exact .ok _
    · exact .bind (scalar_sites hA _) fun _ => .bind (scalar_sites hA _) fun _ => .ok _

theorem shapeTransform_sites (t : Schema.TransformShape F) :
    PanicsIn A (convShapeTransform t) := by
  unfold convShapeTransform groupRotation groupPosition
  refine .bind ?_ fun _ => .bind ?_ fun _ => .bind (transformWith_sites hA _ _ _) fun _ => .ok _
  · split
    · exact .ok _
    · exact .panic (hA _ (by simp [otherSites]))
    · exact .ok _
  · split
    · exact .ok _
    · exact .panic (hA _ (by simp [otherSites]))

/-- The paths in a shape are allowed. -/
def ShapeIn (A : PanicSite → Prop) (s : Schema.AnyShape F) : Prop :=
  ∀ t, Within (.path t) s → PathIn A t.shapeProperty

mutual
theorem shape_sites (s : Schema.AnyShape F) (hp : ShapeIn A s) : PanicsIn A (convShape s) := by
  unfold convShape
  refine .bind (draw_sites hA s) fun d => ?_
  cases d with
  | some d => exact .ok _
  | none =>
    refine .bind (geometry_sites hA s fun t e => hp t (e ▸ .self)) fun g => ?_
    cases g with
    | some g => exact .ok _
    | none =>
      cases s with
      | group e n items i =>
        refine .bind (groupItems_sites items none fun x hx t ht => hp t (.item hx ht)) fun r => ?_
        obtain ⟨shapes, t⟩ := r
        cases shapes <;> exact .ok _
      | trim s =>
        exact .bind (scalar_sites hA _) fun _ => .bind (scalar_sites hA _) fun _ =>
          .bind (scalar_sites hA _) fun _ => .ok _
      | ellipse s => exact .ok _
      | rectangle s => exact .ok _
      | path s => exact .ok _
      | polyStar s => exact .ok _
      | fill s => exact .ok _
      | stroke s => exact .ok _
      | gradientFill s => exact .ok _
      | gradientStroke s => exact .ok _
      | transform t => exact .ok _
      | repeater s => exact .ok _
      | puckerBloat s => exact .ok _
      | merge s => exact .ok _
      | offsetPath s => exact .ok _
      | twist s => exact .ok _
      | roundedCorners s => exact .ok _
termination_by sizeOf s

theorem groupItems_sites (items : List (Schema.AnyShape F)) (t : Option (GroupTransform F))
    (hp : ∀ s ∈ items, ShapeIn A s) :
    PanicsIn A (convGroupItems items t) := by
  match items with
  | [] => rw [convGroupItems]; exact .ok _
  | s :: rest =>
    by_cases hs : ∃ tr, s = .transform tr
    · obtain ⟨tr, rfl⟩ := hs
      rw [convGroupItems]
      exact .bind (shapeTransform_sites hA _) fun _ => groupItems_sites rest _
        fun x hx => hp x (List.mem_cons_of_mem _ hx)
    · rw [convGroupItems]
      · exact .bind (shape_sites s (hp s List.mem_cons_self)) fun _ =>
          .bind (groupItems_sites rest t fun x hx => hp x (List.mem_cons_of_mem _ hx)) fun _ => .ok _
      · exact fun tr e => hs ⟨tr, e⟩
termination_by sizeOf items
end

/-- The paths of a layer are allowed. -/
def LayerIn (A : PanicSite → Prop) (l : Schema.AnyLayer F) : Prop := ∀ p, l.HasPath p → PathIn A p

theorem layer_sites (l : Schema.AnyLayer F) (hp : LayerIn A l) : PanicsIn A (convLayer l) := by
  have hset : ∀ w h st, PanicsIn A (setupLayer (F := F) l.visual w h st) := by
    intro w h st
    unfold setupLayer convMasks
    refine .bind (transform_sites hA _) fun _ => .bind ?_ fun _ =>
      .bind (.bind (.mapM_mem _ (fun m hm => ?_)) fun _ => .ok _) fun _ => .ok _
    · cases l.visual.blendMode.getD .normal <;>
        first | exact .ok _ | exact .panic (hA _ (by simp [otherSites]))
    · unfold convMask
      cases hs : m.shape with
      | none => exact .ok _
      | some p =>
        have hin : PathIn A p := by
          cases hms : l.visual.masksProperties with
          | none => rw [hms] at hm; cases hm
          | some ms => rw [hms] at hm; exact hp p (.inl ⟨ms, m, hms, hm, hs⟩)
        refine .bind (shapeGeometry_sites hA p hin) fun g => ?_
        cases g with
        | none => exact .ok _
        | some g => exact .bind (scalar_sites hA _) fun _ => .ok _
  unfold convLayer
  refine .bind ?_ fun r => ?_
  · unfold layerSetup
    cases l <;> exact hset _ _ _
  · dsimp only
    split
    · exact .ok _
    · refine .bind ?_ fun _ => .ok _
      unfold layerContent
      split
      · refine .map ?_
        unfold convRemap
        split
        · exact .ok _
        · exact .map (scalar_sites hA _)
      · unfold convShapes
        exact .map (.bind (.mapM_mem _ fun s hs => shape_sites hA s fun t ht =>
          hp _ (.inr ⟨_, rfl, s, hs, t, ht, rfl⟩)) fun _ => .ok _)
      · exact .ok _

theorem animation_sites (a : Schema.Animation F) (hp : ∀ p, a.HasPath p → PathIn A p) :
    PanicsIn A (convAnimation a) := by
  have hls : ∀ ls : List (Schema.AnyLayer F), (∀ l ∈ ls, LayerIn A l) →
      PanicsIn A (processLayers (F := F) ls) := fun ls h =>
    .bind (.mapM_mem _ fun l hl => layer_sites hA l (h l (by simpa using hl))) fun _ => .ok _
  unfold convAnimation
  refine .bind (.mapM_mem _ (fun x hx => ?_)) fun _ => .bind (hls _ fun l hl p h => hp p
    ⟨l, List.mem_append_left _ hl, h⟩) fun _ => .ok _
  cases x with
  | precomposition q =>
    exact .bind (hls _ fun l hl p h => hp p ⟨l, List.mem_append_right _
      (List.mem_flatMap.2 ⟨_, hx, hl⟩), h⟩) fun _ => .ok _
  | image i => exact .panic (hA _ (by simp [otherSites]))

omit hA in
theorem importSites (a : Schema.Animation F) :
    PanicsIn (· ∈ otherSites ++ [.underflow]) (convAnimation a) :=
  animation_sites (fun _ h => List.mem_append_left _ h) a fun _ _ _ _ _ _ => by simp

end
end Velato
