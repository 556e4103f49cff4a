import Verif.Proofs.LayerSets

/-!
# Executions that do not run out of fuel
-/

namespace Velato
open FloatOps (lit)

/-- Not out of fuel. -/
def NoFuel {α : Type} (x : Except Fault α) : Prop := x ≠ .error .fuel

theorem NoFuel.ok {α : Type} (a : α) : NoFuel (.ok a) := fun h => by cases h

theorem NoFuel.panic {α : Type} (s : PanicSite) : NoFuel (.error (.panic s) : Except Fault α) :=
  fun h => by cases h

theorem NoFuel.bind {α β : Type} {x : Except Fault α} {f : α → Except Fault β} (h : NoFuel x)
    (hf : ∀ a, x = .ok a → NoFuel (f a)) : NoFuel (x >>= f) := by
  cases x with
  | error e => intro h'; exact h (by cases h'; rfl)
  | ok a => exact hf a rfl

theorem NoFuel.map {α β : Type} {x : Except Fault α} {f : α → β} (h : NoFuel x) :
    NoFuel (x.map f) := by
  cases x with
  | error e => intro h'; exact h (by cases h'; rfl)
  | ok a => exact NoFuel.ok _

theorem NoFuel.mapM {α β : Type} {f : α → Except Fault β} :
    ∀ {l : List α}, (∀ x ∈ l, NoFuel (f x)) → NoFuel (l.mapM f)
  | [], _ => NoFuel.ok _
  | x :: xs, h => by
    rw [mapM_cons']
    exact NoFuel.bind (h x (by simp)) fun _ _ =>
      NoFuel.bind (NoFuel.mapM fun y hy => h y (by simp [hy])) fun _ _ => NoFuel.ok _

theorem FuelLe.noFuel {α : Type} {x y : Except Fault α} (h : FuelLe x y) (hx : NoFuel x) :
    NoFuel y := by
  rcases h with h | h
  · exact absurd h hx
  · rw [← h]; exact hx

theorem sliceRange_noFuel {α : Type} (l : List α) (s e : Nat) : NoFuel (sliceRange l s e) := by
  unfold sliceRange
  split
  · exact NoFuel.ok _
  · exact NoFuel.panic _

theorem checkedSub_noFuel (a b : Nat) : NoFuel (checkedSub a b) := by
  unfold checkedSub
  split
  · exact NoFuel.ok _
  · exact NoFuel.panic _

section
variable {F : Type} [FloatOps F] [Libm F] [Kurbo F]

theorem Geometry.evaluate_noFuel (g : Geometry F) (fr : F) : NoFuel (g.evaluate fr) := by
  cases g with
  | star s =>
    show NoFuel (s.evaluate fr)
    unfold AnimStar.evaluate
    simp only []
    repeat' first | exact NoFuel.ok _ | exact NoFuel.panic _ | split
  | _ => exact NoFuel.ok _

theorem pushGeometry_noFuel (b : Batch F) (g : Geometry F) (T : Affine F) (fr : F) :
    NoFuel (b.pushGeometry g T fr) := by
  unfold Batch.pushGeometry
  refine NoFuel.bind (g.evaluate_noFuel fr) fun els _ => ?_
  simp only []
  split
  · split <;> exact NoFuel.ok _
  · exact NoFuel.ok _

omit [Kurbo F] in
theorem repeat_noFuel (b : Batch F) (r : FixedRepeater F) (gs ds : Nat) :
    NoFuel (b.repeat r gs ds) := by
  unfold Batch.repeat
  refine NoFuel.bind (sliceRange_noFuel _ _ _) fun _ _ =>
    NoFuel.bind (sliceRange_noFuel _ _ _) fun _ _ => NoFuel.bind ?_ fun _ _ => NoFuel.ok _
  unfold repeatDrawList
  refine NoFuel.bind (NoFuel.mapM fun i _ => ?_) fun _ _ => NoFuel.ok _
  simp only []
  split
  · exact NoFuel.ok _
  · refine NoFuel.mapM fun d _ => ?_
    unfold repeatDraw
    exact NoFuel.bind (checkedSub_noFuel _ _) fun _ _ =>
      NoFuel.bind (checkedSub_noFuel _ _) fun _ _ => NoFuel.ok _

omit [Libm F] in
theorem trimGeoms_noFuel (f : F × F) (s : Option (F × F)) (els : List (PathEl F)) :
    ∀ gs acc, NoFuel (trimGeoms f s els gs acc)
  | [], _ => NoFuel.ok _
  | g :: gs, acc => by
    unfold trimGeoms
    refine NoFuel.bind (sliceRange_noFuel _ _ _) fun _ _ => NoFuel.bind ?_ fun _ _ =>
      NoFuel.bind (trimGeoms_noFuel f s els gs _) fun _ _ => NoFuel.ok _
    unfold trimPath
    split
    · exact NoFuel.panic _
    · simp only []
      split <;> exact NoFuel.ok _

omit [FloatOps F] [Libm F] [Kurbo F] in
theorem copyElements_noFuel (els : List (PathEl F)) :
    ∀ gs acc, NoFuel (copyElements els gs acc)
  | [], _ => NoFuel.ok _
  | g :: gs, acc => by
    unfold copyElements
    exact NoFuel.bind (sliceRange_noFuel _ _ _) fun _ _ => copyElements_noFuel els gs _

omit [Libm F] in
theorem applyTrim_noFuel (b : Batch F) (t : FixedTrim F) (gs : Nat) : NoFuel (b.applyTrim t gs) := by
  unfold Batch.applyTrim
  split
  · exact NoFuel.bind (sliceRange_noFuel _ _ _) fun _ _ => NoFuel.ok _
  · split
    · exact NoFuel.ok _
    · exact NoFuel.bind (sliceRange_noFuel _ _ _) fun _ _ =>
        NoFuel.bind (sliceRange_noFuel _ _ _) fun _ _ =>
        NoFuel.bind (copyElements_noFuel _ _ _) fun _ _ =>
        NoFuel.bind (trimGeoms_noFuel _ _ _ _ _) fun _ _ => NoFuel.ok _

mutual
theorem renderShape_noFuel (s : Shape F) (gs ds : Nat) (T : Affine F) (a fr : F) (b : Batch F) :
    NoFuel (renderShape s gs ds T a fr b) := by
  cases s with
  | group shapes gt => rw [renderShape]; exact renderShapesFrom_noFuel shapes _ _ _ _ _ _
  | geometry g => rw [renderShape]; exact pushGeometry_noFuel b g T fr
  | draw d => rw [renderShape]; exact NoFuel.ok _
  | repeater r => rw [renderShape]; exact repeat_noFuel b _ _ _
  | trim t => rw [renderShape]; exact applyTrim_noFuel b _ _

theorem renderShapesFrom_noFuel (shapes : List (Shape F)) (gs ds : Nat) (T : Affine F) (a fr : F)
    (b : Batch F) : NoFuel (renderShapesFrom shapes gs ds T a fr b) := by
  cases shapes with
  | nil => rw [renderShapesFrom]; exact NoFuel.ok _
  | cons s shapes =>
    rw [renderShapesFrom]
    exact NoFuel.bind (renderShape_noFuel s _ _ _ _ _ _) fun b' _ =>
      renderShapesFrom_noFuel shapes _ _ _ _ _ _
end

omit [Libm F] [Kurbo F] in
theorem render_noFuel (b : Batch F) : NoFuel b.render := by
  unfold Batch.render
  refine NoFuel.bind (NoFuel.mapM fun d _ => ?_) fun _ _ => NoFuel.ok _
  unfold Batch.renderDraw
  exact NoFuel.bind (sliceRange_noFuel _ _ _) fun _ _ => NoFuel.mapM fun g _ =>
    NoFuel.bind (sliceRange_noFuel _ _ _) fun _ _ => NoFuel.ok _

/-- A monotone family of loops terminates if each step does. -/
theorem exists_mapM_noFuel {α β : Type} {f : Nat → α → Except Fault β}
    (hf : ∀ n m, n ≤ m → ∀ x, FuelLe (f n x) (f m x)) :
    ∀ {l : List α}, (∀ x ∈ l, ∃ n, NoFuel (f n x)) → ∃ n, NoFuel (l.mapM (f n))
  | [], _ => ⟨0, NoFuel.ok _⟩
  | x :: xs, h => by
    obtain ⟨n, hn⟩ := h x (by simp)
    obtain ⟨m, hm⟩ := exists_mapM_noFuel hf fun y hy => h y (List.mem_cons_of_mem x hy)
    refine ⟨max n m, ?_⟩
    rw [mapM_cons']
    exact NoFuel.bind ((hf _ _ (Nat.le_max_left _ _) x).noFuel hn) fun _ _ =>
      NoFuel.bind ((FuelLe.mapM (fun y => hf _ _ (Nat.le_max_right n m) y) xs).noFuel hm)
        fun _ _ => NoFuel.ok _

/-- A layer terminates if its matte and the layers of its asset do. -/
theorem layerOps_noFuel_step {c : Composition F} {ls : List (Layer F)} {l : Layer F} {fr : F}
    (hm : l.frames.contains fr = true → ∀ mode j m, l.maskLayer = some (mode, j) →
      ls[j]? = some m → ∀ ix T a, ∃ n, NoFuel (layerOps c n ls m ix T a fr))
    (hc : l.frames.contains fr = true → ∀ name tr als l', l.content = .instance name tr →
      c.asset name = some als → l' ∈ als → l'.isMask = false → ∀ ix T a, ∃ n,
        NoFuel (layerOps c n als l' ix T a (fr /. l.stretch +. FloatOps.neg l.startFrame /. l.stretch)))
    (ix : Nat) (T : Affine F) (a : F) : ∃ n, NoFuel (layerOps c n ls l ix T a fr) := by
  cases hin : l.frames.contains fr with
  | false =>
    refine ⟨1, ?_⟩
    change NoFuel (layerBody c (layerOps c 0) ls l ix T a fr)
    unfold layerBody
    rw [if_pos (by rw [hin]; rfl)]
    exact NoFuel.ok _
  | true =>
  specialize hm hin
  specialize hc hin
  have h1 : ∃ n, NoFuel (matteOps c (layerOps c n) ls l T a fr) := by
    unfold matteOps
    cases hml : l.maskLayer with
    | none => exact ⟨0, NoFuel.ok _⟩
    | some p =>
      dsimp only
      cases hj : ls[p.2]? with
      | none => exact ⟨0, NoFuel.ok _⟩
      | some m =>
        obtain ⟨n, hn⟩ := hm p.1 p.2 m hml hj 0 T a
        exact ⟨n, NoFuel.map hn⟩
  have h2 : ∃ n, NoFuel (contentOps c (layerOps c n) l (computeTransform ls l T fr)
      (a *. l.opacity.evaluate fr /. lit 100) fr) := by
    unfold contentOps
    cases hl : l.content with
    | none => exact ⟨0, NoFuel.ok _⟩
    | shape s =>
      exact ⟨0, NoFuel.bind (renderShapesFrom_noFuel _ _ _ _ _ _ _) fun b _ => render_noFuel b⟩
    | «instance» name tr =>
      dsimp only
      cases hn : c.asset name with
      | none => exact ⟨0, NoFuel.ok _⟩
      | some als =>
        dsimp only
        obtain ⟨n, hn'⟩ := exists_mapM_noFuel
          (f := fun n l' => layerOps c n als l' 0 (computeTransform ls l T fr)
            (a *. l.opacity.evaluate fr /. lit 100)
            (fr /. l.stretch +. FloatOps.neg l.startFrame /. l.stretch))
          (fun n m h x => layerOps_mono c h _ _ _ _ _ _)
          (l := als.reverse.filter (fun l => !l.isMask)) fun x hx => by
            rw [List.mem_filter, List.mem_reverse] at hx
            exact hc name tr als x hl hn hx.1 (by simpa using hx.2) _ _ _
        exact ⟨n, NoFuel.map hn'⟩
  obtain ⟨n1, h1⟩ := h1
  obtain ⟨n2, h2⟩ := h2
  refine ⟨max n1 n2 + 1, ?_⟩
  change NoFuel (layerBody c (layerOps c (max n1 n2)) ls l ix T a fr)
  unfold layerBody
  split
  · exact NoFuel.ok _
  · refine NoFuel.bind ?_ fun _ _ => NoFuel.bind (NoFuel.mapM fun m _ =>
      NoFuel.map (m.geometry.evaluate_noFuel fr)) fun _ _ => NoFuel.bind ?_ fun _ _ => NoFuel.ok _
    · have : FuelLe (matteOps c (layerOps c n1) ls l T a fr)
          (matteOps c (layerOps c (max n1 n2)) ls l T a fr) := by
        unfold matteOps
        split
        · exact FuelLe.refl _
        · apply FuelLe.map
          split
          · exact layerOps_mono c (Nat.le_max_left _ _) _ _ _ _ _ _
          · exact FuelLe.refl _
      exact this.noFuel h1
    · have : FuelLe (contentOps c (layerOps c n2) l (computeTransform ls l T fr)
          (a *. l.opacity.evaluate fr /. lit 100) fr)
          (contentOps c (layerOps c (max n1 n2)) l (computeTransform ls l T fr)
            (a *. l.opacity.evaluate fr /. lit 100) fr) := by
        unfold contentOps
        split
        · exact FuelLe.refl _
        · split
          · exact FuelLe.refl _
          · exact FuelLe.map (FuelLe.mapM
              (fun l' => layerOps_mono c (Nat.le_max_right _ _) _ _ _ _ _ _) _) _
        · exact FuelLe.refl _
      exact this.noFuel h2

/-- Without reference cycles every layer terminates. -/
theorem layerOps_terminates {c : Composition F} (h : NoReferenceCycles c)
    (x : Option String × Nat) : ∀ l, (c.layersOf x.1)[x.2]? = some l →
      ∀ ix T a fr, ∃ n, NoFuel (layerOps c n (c.layersOf x.1) l ix T a fr) := by
  induction x using h.induction with
  | _ x ih =>
    intro l hl ix T a fr
    refine layerOps_noFuel_step ?_ ?_ ix T a
    · intro _ mode j m hm hj ix T a
      exact ih (x.1, j) ⟨l, hl, .inl ⟨mode, hm, rfl⟩⟩ m hj ix T a fr
    · intro _ name tr als l' hc ha hmem hmask ix T a
      obtain ⟨j, hj⟩ := List.mem_iff_getElem?.mp hmem
      have hals : c.layersOf (some name) = als := by
        show (c.asset name).getD [] = als
        rw [ha]
        rfl
      have := ih (some name, j) ⟨l, hl, .inr ⟨name, tr, l', hc, rfl, by rw [hals]; exact hj, hmask⟩⟩
        l' (by rw [hals]; exact hj)
      rw [hals] at this
      exact this ix T a _

theorem appendOps_terminates {c : Composition F} (h : NoReferenceCycles c) (fr : F) (T : Affine F)
    (a : F) : ∃ n, NoFuel (appendOps n c fr T a) := by
  unfold appendOps
  obtain ⟨n, hn⟩ := exists_mapM_noFuel
    (f := fun n (p : Layer F × Nat) => layerOps c n c.layers p.1 p.2 T a fr)
    (fun n m h x => layerOps_mono c h _ _ _ _ _ _)
    (l := c.layers.zipIdx.reverse.filter (fun p => !p.1.isMask)) fun p hp => by
      rw [List.mem_filter, List.mem_reverse] at hp
      have hmem := List.fst_mem_of_mem_zipIdx hp.1
      obtain ⟨i, hi⟩ := List.mem_iff_getElem?.mp hmem
      exact layerOps_terminates h (none, i) p.1 hi _ _ _ _
  exact ⟨n, NoFuel.map hn⟩

end
end Velato
