import Verif.Proofs.LayerSets
import Verif.Spec.Examples

/-!
# C32, C33, C43 — which layers are rendered, and in which order
-/

namespace Velato
open FloatOps (lit)

section
variable {F : Type} [FloatOps F] [Libm F] [Kurbo F]

/-! ## C33 -/

/-- **C33.** The calls of an append are: the clip, the calls of the layers from the last to the
first (none for layers marked as mattes), the pop.  A layer's calls are those of rendering it with
its position in the list as index. -/
theorem C33_painters_order {c : Composition F} {fr : F} {T : Affine F} {a : F}
    {r r' : Renderer F} (hr : Reachable r) {ops : List (Op F)} :
    AppendCalls r c fr T a r' ops ↔ r' = Renderer.new ∧ ∃ per,
      List.Forall₂ (fun (p : Layer F × Nat) os =>
          if p.1.isMask then os = [] else LayerCalls c c.layers p.1 p.2 T a fr os)
        c.layers.zipIdx per ∧
      ops = [Op.pushClip T (fullRect c)] ++ per.reverse.flatten ++ [Op.pop] := by
  rw [appendCalls_iff hr.idle]
  refine and_congr_right fun _ => ?_
  have key := fun o => forall₂_filter_iff (ops := o)
    (R := fun (p : Layer F × Nat) os => LayerCalls c c.layers p.1 p.2 T a fr os)
    (p := fun p => !p.1.isMask) (l := c.layers.zipIdx.reverse)
  constructor
  · rintro ⟨per, h, rfl⟩
    obtain ⟨per', h', he⟩ := (key _).mp ⟨per, h, rfl⟩
    refine ⟨per'.reverse, ?_, by rw [he, List.reverse_reverse]⟩
    rw [← List.forall₂_reverse_iff, List.reverse_reverse]
    refine h'.imp fun p os h => ?_
    cases hp : p.1.isMask <;> simpa [hp] using h
  · rintro ⟨per, h, rfl⟩
    obtain ⟨per', h', he⟩ := (key per.reverse.flatten).mpr ⟨per.reverse, by
      rw [List.forall₂_reverse_iff]
      refine h.imp fun p os h => ?_
      cases hp : p.1.isMask <;> simpa [hp] using h, rfl⟩
    exact ⟨per', h', by rw [he]⟩

/-- The example is met by `C33_painters_order`, both sides being true (`exComp_renders`). -/
example [Libm F64] [Kurbo F64] : ∃ r' ops,
    AppendCalls (F := F64) Renderer.new exComp (lit 1) Affine.identity (lit 1) r' ops := by
  obtain ⟨r', ops, h, -⟩ := exComp_renders
  exact ⟨r', ops, h⟩

/-! ## C43 -/

/-- A rendered layer is announced first, with its name and the index it is rendered with. -/
theorem LayerCalls.announced {c : Composition F} {ls l ix T a fr ops}
    (h : LayerCalls c ls l ix T a fr ops) :
    ops = [] ∨ ∃ mid, ops = Op.beginGroup l.name ix :: mid ++ [Op.endGroup] := by
  rcases layerCalls_cases.mp h with ⟨-, rfl⟩ | ⟨-, mo, ms, co, -, -, -, rfl⟩
  · exact .inl rfl
  · exact .inr ⟨mo ++ ms ++ co
      ++ List.replicate (l.masks.length + (if l.maskLayer.isSome then 2 else 0)) Op.pop,
      by simp [layerOut, List.append_assoc]⟩

/-- **C43**, for the layers of the composition that are not mattes: each is announced with its name
and its position, its group ends with its last call, and the groups come in reverse order.
*Missing: mattes and the layers of assets*, which are all announced with index 0
(`C43_asset_zero`, `C43_counterexample`). -/
theorem C43_top_level_partial {c : Composition F} {fr : F} {T : Affine F} {a : F}
    {r r' : Renderer F} (hr : Reachable r) {ops : List (Op F)}
    (h : AppendCalls r c fr T a r' ops) : ∃ per : List (List (Op F)),
      List.Forall₂ (fun (p : Layer F × Nat) os =>
          os = [] ∨ ∃ mid, os = Op.beginGroup p.1.name p.2 :: mid ++ [Op.endGroup])
        c.layers.zipIdx per ∧
      ops = [Op.pushClip T (fullRect c)] ++ per.reverse.flatten ++ [Op.pop] := by
  obtain ⟨-, per, hper, rfl⟩ := (C33_painters_order hr).mp h
  refine ⟨per, hper.imp fun p os h => ?_, rfl⟩
  split at h
  · exact .inl h
  · exact h.announced

/-- **C43 is false for assets:** every layer of an asset is announced with index 0, wherever it is
in the asset. -/
theorem C43_asset_zero {c : Composition F} {ls l ix T a fr ops name tr als}
    (h : LayerCalls c ls l ix T a fr ops) (hl : l.content = .instance name tr)
    (hn : c.asset name = some als) (hin : l.frames.contains fr = true)
    (hm : l.maskLayer = none) (hmasks : l.masks = []) : ∃ per : List (List (Op F)),
      List.Forall₂ (fun (l' : Layer F) os =>
          os = [] ∨ ∃ mid, os = Op.beginGroup l'.name 0 :: mid ++ [Op.endGroup]) als per ∧
      ops = [Op.beginGroup l.name ix] ++ per.reverse.flatten ++ [Op.endGroup] := by
  rcases layerCalls_cases.mp h with ⟨hc, -⟩ | ⟨-, mo, ms, co, hmo, hms, hco, rfl⟩
  · rw [hin] at hc; cases hc
  · have h1 : mo = [] := by
      cases hmo with
      | none => rfl
      | dangling _ _ hm' => rw [hm] at hm'; cases hm'
      | matte _ _ _ _ hm' => rw [hm] at hm'; cases hm'
    have h2 : ms = [] := by
      rw [hmasks] at hms
      cases hms
      rfl
    subst h1 h2
    cases hco with
    | none hl' => rw [hl] at hl'; cases hl'
    | missing _ _ hl' hn' => rw [hl] at hl'; cases hl'; rw [hn] at hn'; cases hn'
    | shape _ _ _ hl' => rw [hl] at hl'; cases hl'
    | asset _ _ als' per hl' hn' hper =>
      rw [hl] at hl'
      cases hl'
      rw [hn] at hn'
      cases hn'
      obtain ⟨per', h', he⟩ := forall₂_filter_iff.mp ⟨per, hper, rfl⟩
      refine ⟨per'.reverse, ?_, ?_⟩
      · rw [← List.forall₂_reverse_iff, List.reverse_reverse]
        refine h'.imp fun l os h => ?_
        split at h
        · exact h.announced
        · exact .inl h
      · simp [layerOut, hm, hmasks, he]

/-- **C43 is false.** In the example the layer "x" is at position 0 of its asset and "y" at
position 1, but both are announced with 0; the matte "matte" is at position 3 and announced
with 0. -/
theorem C43_counterexample [Libm F64] [Kurbo F64] : ∃ r' ops,
    AppendCalls (F := F64) Renderer.new exComp (lit 1) Affine.identity (lit 1) r' ops ∧
    Op.beginGroup "y" 0 ∈ ops ∧ Op.beginGroup "matte" 0 ∈ ops ∧
    ((exComp (F := F64)).layers.map (·.name))[3]? = some "matte" ∧
    ((exComp (F := F64)).asset "b").map (fun ls => ls.map (·.name)) = some ["x", "y"] := by
  have h : ((Renderer.append (F := F64) 5 Renderer.new exComp (lit 1) Affine.identity
      (lit 1)).map fun p => decide (Op.beginGroup "y" 0 ∈ p.2)
        && decide (Op.beginGroup "matte" 0 ∈ p.2)).toOption = some true := by
    kernel_decide
  cases hx : Renderer.append (F := F64) 5 Renderer.new exComp (lit 1) Affine.identity (lit 1) with
  | error e => rw [hx] at h; cases h
  | ok p =>
    rw [hx] at h
    have h := Option.some.inj h
    rw [Bool.and_eq_true, decide_eq_true_iff, decide_eq_true_iff] at h
    exact ⟨p.1, p.2, ⟨5, hx⟩, h.1, h.2, rfl, by decide +kernel⟩

/-! ## C32 -/

/-- **C32.** A layer marked as a matte which no layer uses as its matte makes no sink calls, at the
top level or in an asset: changing its name, content, masks, opacity, frame range and matte, in any
number of such layers, changes nothing in any execution of `append`. -/
theorem C32_unused_mattes {c c' : Composition F} (h : SameButUnusedMattesIn c c')
    {r : Renderer F} (hr : Reachable r) (fuel : Nat) (fr : F) (T : Affine F) (a : F) :
    Renderer.append fuel r c fr T a = Renderer.append fuel r c' fr T a := by
  rw [append_idle fuel r hr.idle, append_idle fuel r hr.idle]
  congr 1
  unfold appendOps
  have hrect : fullRect c = fullRect c' := by unfold fullRect; rw [h.width, h.height]
  rw [hrect]
  congr 1
  have hf : c.layers.zipIdx.reverse.filter (fun p => !p.1.isMask)
      = c'.layers.zipIdx.reverse.filter (fun p => !p.1.isMask) := by
    rw [List.filter_reverse, List.filter_reverse,
      zipIdx_filter_eq 0 c.layers c'.layers h.layers.notMask]
  rw [← hf]
  have : ∀ xs : List (Layer F × Nat), (∀ x ∈ xs, x.1 ∈ c.layers) →
      xs.mapM (fun p => layerOps c fuel c.layers p.1 p.2 T a fr)
        = xs.mapM (fun p => layerOps c' fuel c'.layers p.1 p.2 T a fr) := by
    intro xs hxs
    induction xs with
    | nil => rfl
    | cons x xs ihx =>
      rw [mapM_cons', mapM_cons', layerOps_unused h fuel _ _ h.layers x.1 (hxs x (by simp)),
        ihx fun y hy => hxs y (by simp [hy])]
  exact this _ fun x hx => by
    rw [List.mem_filter, List.mem_reverse] at hx
    exact List.fst_mem_of_mem_zipIdx hx.1

/-- The example with a further matte that nobody uses, and the same with that matte changed. -/
example : SameButUnusedMattesIn (F := F64)
    { exComp with layers := exComp.layers ++ [{ exShapeLayer "u" with isMask := true }] }
    { exComp with layers := exComp.layers ++ [{ exLayer "v" .none with isMask := true }] } where
  width := rfl
  height := rfl
  layers := by
    refine .cons (.inl rfl) (.cons (.inl rfl) (.cons (.inl rfl) (.cons (.inl rfl)
      (.cons (.inr ⟨rfl, rfl, rfl, rfl, ?_⟩) .nil))))
    intro l hl mode
    simp only [exComp, List.cons_append, List.nil_append, List.mem_cons, List.not_mem_nil,
      or_false] at hl
    rcases hl with rfl | rfl | rfl | rfl | rfl | rfl | rfl | rfl | rfl | rfl <;>
      simp [exLayer, exShapeLayer]
  assets := by
    intro name
    show Option.Rel _ ((exComp (F := F64)).asset name) ((exComp (F := F64)).asset name)
    cases (exComp (F := F64)).asset name with
    | none => exact .none
    | some als =>
      exact .some (List.forall₂_same.mpr fun _ _ => .inl rfl)

end
end Velato
