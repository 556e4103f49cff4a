import Verif.Props.Picture

/-!
# C82 — the order of masks
-/

namespace Velato

section
variable [Kurbo ℝ]

/-- **C82.** The order of the masks of a layer does not matter: if the layer makes calls, so does the layer with the same masks in
another order, and both show the same at each pixel, whatever is behind them. -/
theorem C82_order {c : Composition ℝ} {ls : List (Layer ℝ)} {l : Layer ℝ} {ix : Nat} {T : Affine ℝ} {a fr : ℝ} {ops : List (Op ℝ)}
    (hm : l.maskLayer = none) (hin : l.frames.contains fr = true) (h : LayerCalls c ls l ix T a fr ops) {ms : List (Mask ℝ)}
    (hp : ms.Perm l.masks) :
    ∃ ops', LayerCalls c ls { l with masks := ms } ix T a fr ops' ∧
      ∀ (R : Rasteriser) (d : Pixel), R.picture ops' d = R.picture ops d := by
  obtain ⟨paths, inner, h1, h2, e⟩ := (C41_masks hm hin).mp h
  obtain ⟨paths', h1', hp'⟩ := List.perm_comp_forall₂ hp h1
  have h' := (C41_masks (c := c) (ls := ls) (l := { l with masks := ms }) (ix := ix) (T := T) (a := a) (fr := fr) hm hin).mpr
    ⟨paths', inner, h1', h2, rfl⟩
  refine ⟨_, h', fun R d => ?_⟩
  obtain ⟨q, own, hq, ho, hR⟩ := C82_masks hm hin h
  obtain ⟨q', own', hq', ho', hR'⟩ := C82_masks (l := { l with masks := ms }) hm hin h'
  have det : ∀ {ms : List (Mask ℝ)} {x y : List (List (PathEl ℝ))},
      List.Forall₂ (fun (m : Mask ℝ) path => m.geometry.evaluate fr = .ok path) ms x →
      List.Forall₂ (fun (m : Mask ℝ) path => m.geometry.evaluate fr = .ok path) ms y → x = y := by
    intro ms x y hx hy
    induction hx generalizing y with
    | nil => cases hy; rfl
    | cons hx _ ih =>
      cases hy with
      | cons hy hys => rw [ih hys, Except.ok.inj (hx.symm.trans hy)]
  cases det hq h1
  cases det hq' h1'
  have eo : own = own' := LayerCalls.unique ho ho'
  rw [C80_layer h, C80_layer h', hR, hR', eo]
  congr 2
  exact (hp'.map _).prod_eq

/-- Two masks that can be exchanged: their hypotheses can be met. -/
example : ∃ (l : Layer ℝ) (ops : List (Op ℝ)) (ms : List (Mask ℝ)), l.maskLayer = none ∧ l.frames.contains 1 = true ∧
    LayerCalls exStack [] l 0 Affine.identity 1 1 ops ∧ ms.Perm l.masks ∧ ms ≠ l.masks := by
  refine ⟨{ exShapeLayer "m" with
      masks := [⟨BlendMode.ofMix .normal, .fixed exTriangle, .fixed 100⟩, ⟨BlendMode.ofMix .normal, .fixed [], .fixed 100⟩] },
    _, [⟨BlendMode.ofMix .normal, .fixed [], .fixed 100⟩, ⟨BlendMode.ofMix .normal, .fixed exTriangle, .fixed 100⟩], rfl,
    by simp [exShapeLayer, exLayer, FRange.contains],
    (C41_masks rfl (by simp [exShapeLayer, exLayer, FRange.contains])).mpr
      ⟨[exTriangle, []], [.draw none Affine.identity (.solid ⟨1, 0, 0, 1 * 50 / 100⟩) exTriangle],
        .cons rfl (.cons rfl .nil), exShapeLayer_calls exStack [] "m" 0 false 1, rfl⟩, List.Perm.swap .., ?_⟩
  intro h
  have := congrArg (fun ms : List (Mask ℝ) => ms.map fun m => m.geometry) h
  simp [exTriangle] at this

end
end Velato
