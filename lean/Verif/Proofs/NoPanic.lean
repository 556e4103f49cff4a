import Verif.Proofs.Batch
import Verif.Proofs.Termination

/-!
# Executions that do not panic
-/

namespace Velato
open FloatOps (lit)

/-- The only panics are in `A`. -/
def Safe {α : Type} (A : PanicSite → Prop) (x : Except Fault α) : Prop :=
  ∀ s, x = .error (.panic s) → A s

theorem Safe.ok {α : Type} {A : PanicSite → Prop} (a : α) : Safe A (.ok a : Except Fault α) :=
  fun _ h => by cases h

theorem Safe.fuel {α : Type} {A : PanicSite → Prop} : Safe A (.error .fuel : Except Fault α) :=
  fun _ h => by cases h

theorem Safe.bind {α β : Type} {A : PanicSite → Prop} {x : Except Fault α} {f : α → Except Fault β}
    (h : Safe A x) (hf : ∀ a, x = .ok a → Safe A (f a)) : Safe A (x >>= f) := by
  cases x with
  | error e =>
    intro s hs
    refine h s ?_
    cases hs
    rfl
  | ok a => exact hf a rfl

theorem Safe.map {α β : Type} {A : PanicSite → Prop} {x : Except Fault α} {f : α → β}
    (h : Safe A x) : Safe A (x.map f) := by
  cases x with
  | error e =>
    intro s hs
    refine h s ?_
    cases hs
    rfl
  | ok a => exact Safe.ok _

theorem Safe.mapM {α β : Type} {A : PanicSite → Prop} {f : α → Except Fault β} :
    ∀ {l : List α}, (∀ x ∈ l, Safe A (f x)) → Safe A (l.mapM f)
  | [], _ => Safe.ok _
  | x :: xs, h => by
    rw [mapM_cons']
    exact Safe.bind (h x (by simp)) fun _ _ =>
      Safe.bind (Safe.mapM fun y hy => h y (by simp [hy])) fun _ _ => Safe.ok _

section
variable {F : Type} [FloatOps F] [Libm F] [Kurbo F]

/-- What is needed of a geometry. -/
def Geometry.Good (A : PanicSite → Prop) (g : Geometry F) (fr : F) : Prop :=
  Safe A (g.evaluate fr) ∧ g.StartsOk fr

mutual
theorem renderShape_safe {A : PanicSite → Prop} (sh : Shape F) {s : Nat × Nat} {st} (T : Affine F)
    (a fr : F) {b : Batch F} (h : b.Inv (s :: st)) (hg : ∀ g ∈ sh.geometries, g.Good A fr) :
    Safe A (renderShape sh s.1 s.2 T a fr b) ∧
      ∀ b', renderShape sh s.1 s.2 T a fr b = .ok b' → b'.Inv (s :: st) := by
  cases sh with
  | group shapes gt =>
    rw [renderShape]
    rw [Shape.geometries] at hg
    have := renderShapesFrom_safe shapes (s := (b.geometries.length, b.draws.length))
      (T.mul (groupParams gt fr).1) (a *. (groupParams gt fr).2) fr h.enter hg
    exact ⟨this.1, fun b' hb' => (this.2 b' hb').leave⟩
  | geometry g =>
    rw [renderShape]
    rw [Shape.geometries] at hg
    obtain ⟨h1, h2⟩ := hg g (by simp)
    rw [pushGeometry_eq]
    refine ⟨h1.map, ?_⟩
    intro b' hb'
    cases he : g.evaluate fr with
    | error e => rw [he] at hb'; cases hb'
    | ok els =>
      rw [he] at hb'
      cases hb'
      exact pushEls_inv h (h2 els he) T
  | draw d =>
    rw [renderShape]
    refine ⟨Safe.ok _, ?_⟩
    intro b' hb'
    cases hb'
    exact pushDraw_inv h d a fr
  | repeater r =>
    rw [renderShape, repeat_ok h]
    refine ⟨Safe.ok _, ?_⟩
    intro b' hb'
    cases hb'
    exact repeated_inv h _
  | trim t =>
    rw [renderShape, applyTrim_ok h.wf (h.scopes s (by simp)).geometries]
    refine ⟨Safe.ok _, ?_⟩
    intro b' hb'
    cases hb'
    exact trimmed_inv h _

theorem renderShapesFrom_safe {A : PanicSite → Prop} (shs : List (Shape F)) {s : Nat × Nat} {st}
    (T : Affine F) (a fr : F) {b : Batch F} (h : b.Inv (s :: st))
    (hg : ∀ g ∈ geometriesOf shs, g.Good A fr) :
    Safe A (renderShapesFrom shs s.1 s.2 T a fr b) ∧
      ∀ b', renderShapesFrom shs s.1 s.2 T a fr b = .ok b' → b'.Inv (s :: st) := by
  cases shs with
  | nil =>
    rw [renderShapesFrom]
    refine ⟨Safe.ok _, ?_⟩
    intro b' hb'
    cases hb'
    exact h
  | cons sh shs =>
    rw [renderShapesFrom]
    rw [geometriesOf] at hg
    have h1 := renderShape_safe sh T a fr h fun g hg' => hg g (by simp [hg'])
    refine ⟨Safe.bind h1.1 fun b' hb' => ?_, ?_⟩
    · exact (renderShapesFrom_safe shs T a fr (h1.2 b' hb') fun g hg' => hg g (by simp [hg'])).1
    · intro b'' hb''
      obtain ⟨b', hb', hb''⟩ := bind_ok hb''
      exact (renderShapesFrom_safe shs T a fr (h1.2 b' hb')
        fun g hg' => hg g (by simp [hg'])).2 b'' hb''
end

mutual
/-- Rendering a shape moves between the states of `MidRender`. -/
theorem MidRender.shape (sh : Shape F) {s : Nat × Nat} {st} {T : Affine F} {a fr : F}
    {b b' : Batch F} (h : MidRender b (s :: st)) (hg : ∀ g ∈ sh.geometries, g.StartsOk fr)
    (hb : renderShape sh s.1 s.2 T a fr b = .ok b') : MidRender b' (s :: st) := by
  cases sh with
  | group shapes gt =>
    rw [renderShape] at hb
    rw [Shape.geometries] at hg
    exact .leave (MidRender.shapes shapes (s := (b.geometries.length, b.draws.length)) h.enter hg hb)
  | geometry g =>
    rw [renderShape] at hb
    exact .geometry h (hg g (by simp [Shape.geometries])) hb
  | draw d =>
    rw [renderShape] at hb
    cases hb
    exact .draw d a fr h
  | repeater r => rw [renderShape] at hb; exact .repeater h hb
  | trim t => rw [renderShape] at hb; exact .trim h hb

/-- Rendering shapes moves between the states of `MidRender`. -/
theorem MidRender.shapes (shs : List (Shape F)) {s : Nat × Nat} {st} {T : Affine F} {a fr : F}
    {b b' : Batch F} (h : MidRender b (s :: st)) (hg : ∀ g ∈ geometriesOf shs, g.StartsOk fr)
    (hb : renderShapesFrom shs s.1 s.2 T a fr b = .ok b') : MidRender b' (s :: st) := by
  cases shs with
  | nil =>
    rw [renderShapesFrom] at hb
    cases hb
    exact h
  | cons sh shs =>
    rw [renderShapesFrom] at hb
    rw [geometriesOf] at hg
    obtain ⟨b1, hb1, hb⟩ := bind_ok hb
    exact MidRender.shapes shs (MidRender.shape sh h (fun g hg' => hg g (by simp [hg'])) hb1)
      (fun g hg' => hg g (by simp [hg'])) hb
end

omit [FloatOps F] [Libm F] [Kurbo F] in
theorem render_ok [FloatOps F] {b : Batch F} (h : b.InBounds) :
    b.render = .ok (b.draws.reverse.flatMap fun d =>
      (b.painted d).map fun o => Op.draw d.stroke o.transform d.finalBrush o.path) := by
  unfold Batch.render
  rw [mapM_ok_map (g := fun d => (b.painted d).map fun o =>
    Op.draw d.stroke o.transform d.finalBrush o.path)]
  · show Except.ok _ = _
    rw [List.flatMap_def]
  · intro d hd
    rw [List.mem_reverse] at hd
    unfold Batch.renderDraw
    rw [sliceRange_ok (h.draws d hd).1 (h.draws d hd).2]
    show List.mapM _ _ = _
    rw [mapM_ok_map (g := fun g => Op.draw d.stroke g.transform d.finalBrush
      ((b.elements.take g.stop).drop g.start))]
    · rw [Batch.painted, Batch.outlines, ← List.map_take, ← List.map_drop, List.map_map]
      rfl
    · intro g hg
      have := h.geometries g (List.mem_of_mem_take (List.mem_of_mem_drop hg))
      rw [sliceRange_ok this.1 this.2]
      rfl

omit [FloatOps F] [Libm F] [Kurbo F] in
theorem Batch.WF.inBounds {b : Batch F} (h : b.WF) : b.InBounds := ⟨h.ranges, h.draws⟩

/-! ## Geometries -/

omit [Libm F] [Kurbo F] in
theorem toPath_starts (len : Nat) (get : Fin len → P2 F) (c : Bool) :
    bezPathOk (toPath len get c) = true := by
  unfold toPath
  split <;> rfl

omit [Libm F] [Kurbo F] in
theorem spline_starts (s : AnimSpline F) (fr : F) : bezPathOk (s.evaluate fr) = true := by
  unfold AnimSpline.evaluate
  split
  · rfl
  · simp only []
    split
    · exact toPath_starts _ _ _
    · rfl

theorem Geometry.startsOk [KurboPaths F] (g : Geometry F) (fr : F)
    (h : ∀ p, g = .fixed p → bezPathOk p = true) : g.StartsOk fr := by
  intro els he
  cases g with
  | fixed q => cases he; exact h _ rfl
  | rect r => cases he; exact KurboPaths.rect _ _ _ _ _
  | ellipse e => cases he; exact KurboPaths.ellipse _ _
  | spline s => cases he; exact spline_starts s fr
  | star s =>
    replace he : s.evaluate fr = .ok els := he
    unfold AnimStar.evaluate at he
    simp only [] at he
    repeat' split at he
    all_goals first
      | (cases he; rfl)
      | cases he

theorem Geometry.safe (g : Geometry F) (fr : F) : Safe (· = .starCapacity) (g.evaluate fr) := by
  cases g with
  | star s =>
    show Safe _ (s.evaluate fr)
    unfold AnimStar.evaluate
    simp only []
    repeat' first
      | exact Safe.ok _
      | (intro s h; cases h; rfl)
      | split
  | _ => exact Safe.ok _

theorem Geometry.safe_of_stars (g : Geometry F) (fr : F)
    (h : ∀ s, g = .star s → s.pointCount fr ≤ 2 ^ 56) : Safe (fun _ => False) (g.evaluate fr) := by
  intro site hs
  have := g.safe fr site hs
  subst this
  cases g with
  | star s =>
    have hp := h s rfl
    unfold AnimStar.pointCount at hp
    replace hs : s.evaluate fr = _ := hs
    unfold AnimStar.evaluate at hs
    simp only [] at hs
    rw [if_neg (c := _ ∨ _)] at hs
    · split at hs
      · cases hs
      · generalize starVertices (F := F) _ _ _ _ _ _ _ _ = vs at hs
        cases vs <;> cases hs
    · unfold usizeMax isizeMax
      split <;> omega
  | _ => cases hs

/-! ## Layers -/

/-- What is needed of the layers. -/
def Layer.Good (A : PanicSite → Prop) (l : Layer F) : Prop :=
  (∀ g ∈ l.geometries, ∀ fr, g.Good A fr) ∧ ∀ m ∈ l.masks, ∀ fr, Safe A (m.geometry.evaluate fr)

theorem layerOps_safe {A : PanicSite → Prop} {c : Composition F}
    (hc : ∀ name als, c.asset name = some als → ∀ l ∈ als, l.Good A) :
    ∀ (n : Nat) (ls : List (Layer F)), (∀ l ∈ ls, l.Good A) → ∀ l, l.Good A →
      ∀ ix T a fr, Safe A (layerOps c n ls l ix T a fr)
  | 0, _, _, _, _, _, _, _, _ => Safe.fuel
  | n + 1, ls, hls, l, hl, ix, T, a, fr => by
    have ih := layerOps_safe hc n
    show Safe A (layerBody c (layerOps c n) ls l ix T a fr)
    unfold layerBody
    split
    · exact Safe.ok _
    · refine Safe.bind ?_ fun _ _ => Safe.bind (Safe.mapM fun m hm => (hl.2 m hm fr).map)
        fun _ _ => Safe.bind ?_ fun _ _ => Safe.ok _
      · unfold matteOps
        cases l.maskLayer with
        | none => exact Safe.ok _
        | some p =>
          dsimp only
          cases hj : ls[p.2]? with
          | none => exact Safe.ok _
          | some m => exact (ih ls hls m (hls m (List.mem_of_getElem? hj)) _ _ _ _).map
      · unfold contentOps
        cases hco : l.content with
        | none => exact Safe.ok _
        | «instance» name tr =>
          dsimp only
          cases hn : c.asset name with
          | none => exact Safe.ok _
          | some als =>
            refine (Safe.mapM fun l' hl' => ?_).map
            rw [List.mem_filter, List.mem_reverse] at hl'
            exact ih als (hc name als hn) l' (hc name als hn l' hl'.1) _ _ _ _
        | shape shapes =>
          dsimp only
          have hg : ∀ g ∈ geometriesOf shapes, g.Good A fr := by
            intro g hg
            refine hl.1 g ?_ fr
            unfold Layer.geometries
            rw [hco]
            exact hg
          have := renderShapesFrom_safe (A := A) shapes (s := (0, 0)) (st := [])
            (computeTransform ls l T fr) (a *. l.opacity.evaluate fr /. lit 100) fr
            Batch.Inv.empty hg
          refine Safe.bind this.1 fun b hb => ?_
          rw [render_ok (this.2 b hb).wf.inBounds]
          exact Safe.ok _

omit [FloatOps F] [Libm F] [Kurbo F] in
theorem asset_mem {c : Composition F} {name : String} {als : List (Layer F)}
    (h : c.asset name = some als) : ∀ l ∈ als, l ∈ c.allLayers := by
  intro l hl
  unfold Composition.asset at h
  rw [Option.map_eq_some_iff] at h
  obtain ⟨e, he, rfl⟩ := h
  have := List.mem_of_find?_eq_some he
  rw [List.mem_reverse] at this
  exact List.mem_append_right _ (List.mem_flatMap.mpr ⟨e, this, hl⟩)

end
end Velato
