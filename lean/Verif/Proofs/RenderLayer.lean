import Verif.Spec.Render

/-!
# The layer recursion without renderer state and without a bound
-/

namespace Velato
open FloatOps (lit)

/-! ## `Except` and `mapM` helpers -/

/-- `x` ran out of fuel, or is `y`. -/
def FuelLe {α : Type} (x y : Except Fault α) : Prop := x = .error .fuel ∨ x = y

theorem FuelLe.refl {α : Type} (x : Except Fault α) : FuelLe x x := .inr rfl

theorem FuelLe.bind {α β : Type} {x y : Except Fault α} {f g : α → Except Fault β}
    (h : FuelLe x y) (hfg : ∀ a, FuelLe (f a) (g a)) : FuelLe (x >>= f) (y >>= g) := by
  rcases h with rfl | rfl
  · exact .inl rfl
  · cases x with
    | error e => exact .inr rfl
    | ok a => exact hfg a

theorem FuelLe.ok {α : Type} {x y : Except Fault α} {a : α} (h : FuelLe x y) (hx : x = .ok a) :
    y = .ok a := by
  rcases h with h | h
  · rw [h] at hx; cases hx
  · rw [← h]; exact hx

theorem FuelLe.panic {α : Type} {x y : Except Fault α} {s : PanicSite} (h : FuelLe x y)
    (hx : x = .error (.panic s)) : y = .error (.panic s) := by
  rcases h with h | h
  · rw [h] at hx; cases hx
  · rw [← h]; exact hx

theorem mapM_nil' {α β : Type} (f : α → Except Fault β) : List.mapM f [] = .ok [] := rfl

theorem mapM_cons' {α β : Type} (f : α → Except Fault β) (x : α) (xs : List α) :
    List.mapM f (x :: xs) = (do let y ← f x; let ys ← List.mapM f xs; .ok (y :: ys)) := by
  rw [List.mapM_cons]; rfl

theorem FuelLe.mapM {α β : Type} {f g : α → Except Fault β} (hfg : ∀ a, FuelLe (f a) (g a)) :
    ∀ l : List α, FuelLe (l.mapM f) (l.mapM g)
  | [] => FuelLe.refl _
  | x :: xs => by
    rw [mapM_cons', mapM_cons']
    exact FuelLe.bind (hfg x) fun y => FuelLe.bind (FuelLe.mapM hfg xs) fun _ => FuelLe.refl _

theorem FuelLe.mapM_mem {α β : Type} {f g : α → Except Fault β} :
    ∀ l : List α, (∀ a ∈ l, FuelLe (f a) (g a)) → FuelLe (l.mapM f) (l.mapM g)
  | [], _ => FuelLe.refl _
  | x :: xs, hfg => by
    rw [mapM_cons', mapM_cons']
    exact FuelLe.bind (hfg x (by simp)) fun y =>
      FuelLe.bind (FuelLe.mapM_mem xs fun a ha => hfg a (by simp [ha])) fun _ => FuelLe.refl _

theorem bind_ok {α β : Type} {x : Except Fault α} {f : α → Except Fault β} {b : β}
    (h : (x >>= f) = .ok b) : ∃ a, x = .ok a ∧ f a = .ok b := by
  cases x with
  | error e => cases h
  | ok a => exact ⟨a, rfl, h⟩

theorem bind_eq_ok {α β : Type} {x : Except Fault α} {f : α → Except Fault β} {b : β} :
    (x >>= f) = .ok b ↔ ∃ a, x = .ok a ∧ f a = .ok b :=
  ⟨bind_ok, fun ⟨a, h1, h2⟩ => by rw [h1]; exact h2⟩

theorem mapM_ok_iff {α β : Type} {f : α → Except Fault β} :
    ∀ {l : List α} {ys : List β}, l.mapM f = .ok ys ↔ List.Forall₂ (fun x y => f x = .ok y) l ys
  | [], ys => by
    rw [mapM_nil']
    constructor
    · intro h; cases h; exact .nil
    · intro h; cases h; rfl
  | x :: xs, ys => by
    rw [mapM_cons', bind_eq_ok]
    constructor
    · rintro ⟨y, hy, h⟩
      obtain ⟨ys', hys, h⟩ := bind_ok h
      cases h
      exact .cons hy (mapM_ok_iff.mp hys)
    · intro h
      cases h with
      | cons hy hys =>
        exact ⟨_, hy, by rw [mapM_ok_iff.mpr hys]; rfl⟩

section
variable {F : Type} [FloatOps F] [Libm F] [Kurbo F]

/-! ## The recursion without the renderer state -/

/-- The type of `render_layer` on an idle renderer. -/
abbrev OpsFn (F : Type) := List (Layer F) → Layer F → Nat → Affine F → F → F →
  Except Fault (List (Op F))

/-- The calls for the matte. -/
def matteOps (c : Composition F) (rec : OpsFn F) (ls : List (Layer F)) (l : Layer F) (T : Affine F)
    (a fr : F) : Except Fault (List (Op F)) :=
  match l.maskLayer with
  | none => .ok []
  | some (mode, j) =>
    (match ls[j]? with
      | some m => rec ls m 0 T a fr
      | none => .ok []).map fun (ops : List (Op F)) =>
      [Op.pushLayer (BlendMode.ofMix .normal) (lit 1) T (fullRect c)] ++ ops
        ++ [Op.pushLayer mode (lit 1) T (fullRect c)]

/-- The clip of one mask. -/
def maskOp (T : Affine F) (fr : F) (m : Mask F) : Except Fault (Op F) :=
  (m.geometry.evaluate fr).map fun els => Op.pushClip T (.path els)

/-- The calls for the content. -/
def contentOps (c : Composition F) (rec : OpsFn F) (l : Layer F) (T : Affine F) (a fr : F) :
    Except Fault (List (Op F)) :=
  match l.content with
  | .none => .ok []
  | .instance name _ =>
    match c.asset name with
    | none => .ok []
    | some als =>
      ((als.reverse.filter (fun l => !l.isMask)).mapM fun l' =>
        rec als l' 0 T a (fr /. l.stretch +. FloatOps.neg l.startFrame /. l.stretch)).map
          List.flatten
  | .shape shapes => renderShapes shapes T a fr Batch.empty >>= Batch.render

/-- All calls of a layer. -/
def layerOut (l : Layer F) (ix : Nat) (mo ms co : List (Op F)) : List (Op F) :=
  [Op.beginGroup l.name ix] ++ mo ++ ms ++ co
    ++ List.replicate (l.masks.length + (if l.maskLayer.isSome then 2 else 0)) Op.pop
    ++ [Op.endGroup]

/-- The body of `render_layer` on an idle renderer, recursive calls abstracted. -/
def layerBody (c : Composition F) (rec : OpsFn F) : OpsFn F :=
  fun ls l ix T a fr =>
    if !l.frames.contains fr then .ok [] else do
    let mo ← matteOps c rec ls l T a fr
    let ms ← l.masks.mapM (maskOp (computeTransform ls l T fr) fr)
    let co ← contentOps c rec l (computeTransform ls l T fr)
      (a *. l.opacity.evaluate fr /. lit 100) fr
    .ok (layerOut l ix mo ms co)

/-- `renderLayer` on an idle renderer. -/
def layerOps (c : Composition F) : Nat → OpsFn F
  | 0 => fun _ _ _ _ _ _ => .error .fuel
  | n + 1 => layerBody c (layerOps c n)

/-- Pairs with the idle renderer. -/
def idle (x : Except Fault (List (Op F))) : Except Fault (Renderer F × List (Op F)) :=
  x.map fun ops => (Renderer.new, ops)

omit [FloatOps F] [Libm F] [Kurbo F] in
theorem renderSeq_idle {α : Type}
    (step : α → Renderer F → Except Fault (Renderer F × List (Op F)))
    (f : α → Except Fault (List (Op F))) :
    ∀ l : List α, (∀ x ∈ l, step x Renderer.new = idle (f x)) →
      renderSeq step l Renderer.new = idle ((l.mapM f).map List.flatten)
  | [], _ => rfl
  | x :: xs, h => by
    have ih := renderSeq_idle step f xs fun y hy => h y (by simp [hy])
    rw [renderSeq, h x (by simp), mapM_cons']
    cases hx : f x with
    | error e => rfl
    | ok o =>
      show (renderSeq step xs Renderer.new >>= _) = _
      rw [ih]
      cases xs.mapM f with
      | error e => rfl
      | ok os => rfl

theorem renderMasks_idle (T : Affine F) (fr : F) :
    ∀ ms : List (Mask F), renderMasks T fr ms []
      = (ms.mapM (maskOp T fr)).map fun o => ([], o)
  | [] => rfl
  | m :: ms => by
    rw [renderMasks, mapM_cons', maskOp]
    cases m.geometry.evaluate fr with
    | error e => rfl
    | ok els =>
      show (renderMasks T fr ms [] >>= _) = _
      rw [renderMasks_idle T fr ms]
      cases ms.mapM (maskOp T fr) <;> rfl

/-- `renderLayer` on an idle renderer leaves it idle, and its calls are `layerOps`. -/
theorem renderLayer_idle (c : Composition F) :
    ∀ (n : Nat) (ls : List (Layer F)) (l : Layer F) (ix : Nat) (T : Affine F) (a fr : F),
      renderLayer c n ls l ix T a fr Renderer.new = idle (layerOps c n ls l ix T a fr)
  | 0, _, _, _, _, _, _ => rfl
  | n + 1, ls, l, ix, T, a, fr => by
    have ih := renderLayer_idle c n
    show renderLayerBody c (renderLayer c n) ls l ix T a fr Renderer.new
      = idle (layerBody c (layerOps c n) ls l ix T a fr)
    unfold renderLayerBody layerBody
    split
    · rfl
    have hm : renderMatte c (renderLayer c n) ls l T a fr Renderer.new
        = idle (matteOps c (layerOps c n) ls l T a fr) := by
      unfold renderMatte matteOps
      cases l.maskLayer with
      | none => rfl
      | some p =>
        dsimp only
        cases ls[p.2]? with
        | none => rfl
        | some m =>
          dsimp only
          rw [ih]
          cases layerOps c n ls m 0 T a fr <;> rfl
    have hc : renderContent c (renderLayer c n) l (computeTransform ls l T fr)
          (a *. l.opacity.evaluate fr /. lit 100) fr Renderer.new
        = idle (contentOps c (layerOps c n) l (computeTransform ls l T fr)
          (a *. l.opacity.evaluate fr /. lit 100) fr) := by
      unfold renderContent contentOps
      cases l.content with
      | none => rfl
      | «instance» name tr =>
        dsimp only
        cases c.asset name with
        | none => rfl
        | some als => exact renderSeq_idle _ _ _ fun x _ => ih _ _ _ _ _ _
      | shape shapes =>
        show (renderShapes _ _ _ fr Batch.empty >>= _) = idle (renderShapes _ _ _ fr Batch.empty >>= _)
        cases renderShapes shapes _ _ fr Batch.empty with
        | error e => rfl
        | ok b =>
          show (b.render >>= _) = idle b.render
          cases b.render <;> rfl
    dsimp only
    rw [hm]
    cases matteOps c (layerOps c n) ls l T a fr with
    | error e => rfl
    | ok mo =>
      show (renderMasks _ fr l.masks [] >>= _) = _
      rw [renderMasks_idle]
      show _ = idle (l.masks.mapM (maskOp (computeTransform ls l T fr) fr) >>= _)
      cases l.masks.mapM (maskOp (computeTransform ls l T fr) fr) with
      | error e => rfl
      | ok ms =>
        show (renderContent c (renderLayer c n) l (computeTransform ls l T fr)
          (a *. l.opacity.evaluate fr /. lit 100) fr Renderer.new >>= _) = _
        rw [hc]
        show _ = idle (contentOps c (layerOps c n) l (computeTransform ls l T fr)
          (a *. l.opacity.evaluate fr /. lit 100) fr >>= _)
        cases contentOps c (layerOps c n) l (computeTransform ls l T fr)
          (a *. l.opacity.evaluate fr /. lit 100) fr <;> rfl

/-! ## Monotonicity in the recursion budget -/

theorem FuelLe.map {α β : Type} {x y : Except Fault α} (h : FuelLe x y) (f : α → β) :
    FuelLe (x.map f) (y.map f) := by
  rcases h with rfl | rfl
  · exact .inl rfl
  · exact .inr rfl

theorem layerBody_mono (c : Composition F) {rec rec' : OpsFn F}
    (h : ∀ ls l ix T a fr, FuelLe (rec ls l ix T a fr) (rec' ls l ix T a fr))
    (ls : List (Layer F)) (l : Layer F) (ix : Nat) (T : Affine F) (a fr : F) :
    FuelLe (layerBody c rec ls l ix T a fr) (layerBody c rec' ls l ix T a fr) := by
  unfold layerBody
  split
  · exact FuelLe.refl _
  · refine FuelLe.bind ?_ fun mo => FuelLe.bind (FuelLe.refl _) fun ms => FuelLe.bind ?_ fun co =>
      FuelLe.refl _
    · unfold matteOps
      split
      · exact FuelLe.refl _
      · apply FuelLe.map
        split
        · exact h _ _ _ _ _ _
        · exact FuelLe.refl _
    · unfold contentOps
      split
      · exact FuelLe.refl _
      · split
        · exact FuelLe.refl _
        · exact FuelLe.map (FuelLe.mapM (fun l' => h _ _ _ _ _ _) _) _
      · exact FuelLe.refl _

theorem layerOps_succ (c : Composition F) :
    ∀ n ls l ix T a fr, FuelLe (layerOps c n ls l ix T a fr) (layerOps c (n + 1) ls l ix T a fr)
  | 0, _, _, _, _, _, _ => .inl rfl
  | n + 1, _, _, _, _, _, _ => layerBody_mono c (layerOps_succ c n) _ _ _ _ _ _

theorem FuelLe.trans {α : Type} {x y z : Except Fault α} (h1 : FuelLe x y) (h2 : FuelLe y z) :
    FuelLe x z := by
  rcases h1 with rfl | rfl
  · exact .inl rfl
  · exact h2

theorem layerOps_mono (c : Composition F) {n m : Nat} (h : n ≤ m) (ls l ix T a fr) :
    FuelLe (layerOps c n ls l ix T a fr) (layerOps c m ls l ix T a fr) := by
  induction h with
  | refl => exact FuelLe.refl _
  | step _ ih => exact ih.trans (layerOps_succ c _ _ _ _ _ _ _)

theorem layerCalls_iff {c : Composition F} {ls l ix T a fr ops} :
    LayerCalls c ls l ix T a fr ops ↔ ∃ n, layerOps c n ls l ix T a fr = .ok ops := by
  unfold LayerCalls
  constructor
  · rintro ⟨n, r', h⟩
    rw [renderLayer_idle] at h
    refine ⟨n, ?_⟩
    cases hx : layerOps c n ls l ix T a fr with
    | error e => rw [hx] at h; cases h
    | ok o => rw [hx] at h; cases h; rfl
  · rintro ⟨n, h⟩
    exact ⟨n, Renderer.new, by rw [renderLayer_idle, h]; rfl⟩

theorem LayerCalls.unique {c : Composition F} {ls l ix T a fr ops ops'}
    (h : LayerCalls c ls l ix T a fr ops) (h' : LayerCalls c ls l ix T a fr ops') :
    ops = ops' := by
  obtain ⟨n, h⟩ := layerCalls_iff.mp h
  obtain ⟨m, h'⟩ := layerCalls_iff.mp h'
  have h1 := (layerOps_mono c (Nat.le_max_left n m) ls l ix T a fr).ok h
  have h2 := (layerOps_mono c (Nat.le_max_right n m) ls l ix T a fr).ok h'
  rw [h1] at h2
  exact Except.ok.inj h2

/-! ## `append` -/

/-- The calls of `append` on a renderer without leftover mask elements. -/
def appendOps (n : Nat) (c : Composition F) (fr : F) (T : Affine F) (a : F) :
    Except Fault (List (Op F)) :=
  ((c.layers.zipIdx.reverse.filter (fun p => !p.1.isMask)).mapM fun p =>
    layerOps c n c.layers p.1 p.2 T a fr).map fun per =>
      [Op.pushClip T (fullRect c)] ++ per.flatten ++ [Op.pop]

theorem append_idle (n : Nat) (r : Renderer F) (hr : r.maskElements = []) (c : Composition F)
    (fr : F) (T : Affine F) (a : F) :
    Renderer.append n r c fr T a = idle (appendOps n c fr T a) := by
  unfold Renderer.append appendOps
  have : ({ r with batch := r.batch.clear } : Renderer F) = Renderer.new := by
    rw [show Renderer.new = (⟨Batch.empty, []⟩ : Renderer F) from rfl, ← hr]; rfl
  dsimp only
  rw [this, renderSeq_idle _ (fun p : Layer F × Nat => layerOps c n c.layers p.1 p.2 T a fr) _
    fun x _ => renderLayer_idle c n _ _ _ _ _ _]
  generalize (List.mapM _ _ : Except Fault (List (List (Op F)))) = x
  cases x <;> rfl

theorem appendOps_mono {n m : Nat} (h : n ≤ m) (c : Composition F) (fr T a) :
    FuelLe (appendOps n c fr T a) (appendOps m c fr T a) :=
  FuelLe.map (FuelLe.mapM (fun _ => layerOps_mono c h _ _ _ _ _ _) _) _

theorem append_unique {r r₁ r₂ : Renderer F} (hr : r.maskElements = []) {c : Composition F}
    {fr : F} {T : Affine F} {a : F} {ops₁ ops₂ : List (Op F)} {n m : Nat}
    (h₁ : Renderer.append n r c fr T a = .ok (r₁, ops₁))
    (h₂ : Renderer.append m r c fr T a = .ok (r₂, ops₂)) : r₁ = r₂ ∧ ops₁ = ops₂ := by
  rw [append_idle n r hr] at h₁
  rw [append_idle m r hr] at h₂
  have a1 := (FuelLe.map (appendOps_mono (Nat.le_max_left n m) c fr T a)
    fun ops => ((Renderer.new : Renderer F), ops)).ok h₁
  have a2 := (FuelLe.map (appendOps_mono (Nat.le_max_right n m) c fr T a)
    fun ops => ((Renderer.new : Renderer F), ops)).ok h₂
  rw [a1] at a2
  cases a2
  exact ⟨rfl, rfl⟩

end
end Velato
