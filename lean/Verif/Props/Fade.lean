import Verif.Proofs.FadePicture
import Verif.Proofs.LayerSets
import Verif.Spec.Examples

/-!
# C79 — the opacity given to `append`, and that of a layer, is applied to every brush
-/

namespace Velato
open FloatOps (lit)

variable [Kurbo ℝ]

/-- **C79.** In exact arithmetic, whatever `append` does with the opacity `a` (its calls, or a
panic, or not to return), it does with the opacity `α a`, except that the opacity of every brush is
multiplied by `α`. -/
theorem C79_composed (α : ℝ) {r : Renderer ℝ} (hr : Reachable r) (n : Nat) (c : Composition ℝ)
    (fr : ℝ) (T : Affine ℝ) (a : ℝ) :
    Renderer.append n r c fr T (α * a)
      = (Renderer.append n r c fr T a).map fun p => (p.1, p.2.map (Op.fade α)) := by
  rw [append_idle n r hr.idle, append_idle n r hr.idle, appendOps_fade]
  unfold idle
  cases appendOps n c fr T a <;> rfl

/-- **C79.** The calls with the opacity `α` are those with the opacity 1, with the opacity of every
brush multiplied by `α`. -/
theorem C79_calls (α : ℝ) {r r' : Renderer ℝ} (hr : Reachable r) {c : Composition ℝ} {fr : ℝ}
    {T : Affine ℝ} {ops : List (Op ℝ)} :
    AppendCalls r c fr T α r' ops ↔ ∃ ops₁, AppendCalls r c fr T 1 r' ops₁ ∧
      ops = ops₁.map (Op.fade α) := by
  have h : ∀ n, Renderer.append n r c fr T α = (Renderer.append n r c fr T 1).map
      fun p => (p.1, p.2.map (Op.fade α)) := by
    intro n
    rw [← C79_composed α hr, mul_one]
  unfold AppendCalls
  constructor
  · rintro ⟨n, hn⟩
    rw [h n] at hn
    obtain ⟨⟨q, ops₁⟩, h1, h2⟩ := map_ok hn
    cases h2
    exact ⟨ops₁, ⟨n, h1⟩, rfl⟩
  · rintro ⟨ops₁, ⟨n, hn⟩, rfl⟩
    exact ⟨n, by rw [h n, hn]; rfl⟩

/-- **C79.** The calls of a layer with an opacity of `o` percent and no matte are those it would
have with 100 percent, with the opacity of every brush multiplied by `o / 100`. -/
theorem C79_layer {c : Composition ℝ} {ls : List (Layer ℝ)} {l : Layer ℝ} {ix : Nat}
    {T : Affine ℝ} {a fr : ℝ} {ops : List (Op ℝ)} (hm : l.maskLayer = none) :
    LayerCalls c ls l ix T a fr ops ↔
      ∃ ops₁, LayerCalls c ls { l with opacity := .fixed 100 } ix T a fr ops₁ ∧
        ops = ops₁.map (Op.fade (l.opacity.evaluate fr / 100)) := by
  have h : ∀ n, layerOps c n ls l ix T a fr
      = (layerOps c n ls { l with opacity := .fixed 100 } ix T a fr).map
        (List.map (Op.fade (l.opacity.evaluate fr / 100))) := by
    intro n
    rw [← layerOps_fade]
    cases n with
    | zero => rfl
    | succ n =>
      show layerBody c (layerOps c n) ls l ix T a fr
        = layerBody c (layerOps c n) ls { l with opacity := .fixed 100 } ix T _ fr
      have hM : ∀ (l' : Layer ℝ) b, l'.maskLayer = none →
          matteOps c (layerOps c n) ls l' T b fr = .ok [] := by
        intro l' b h; unfold matteOps; rw [h]
      unfold layerBody
      dsimp only
      rw [hM _ _ hm, hM _ _ (by exact hm)]
      have ha : (l.opacity.evaluate fr / 100 * a) *. (Value.fixed (100 : ℝ)).evaluate fr /. lit 100
          = a *. l.opacity.evaluate fr /. lit 100 := by
        simp only [real_mul, real_div, real_lit, Value.evaluate]
        push_cast
        ring
      rw [ha]
      have hT : computeTransform ls { l with opacity := .fixed 100 } T fr
          = computeTransform ls l T fr := by unfold computeTransform; rfl
      have hC : ∀ A b, contentOps c (layerOps c n) { l with opacity := .fixed 100 } A b fr
          = contentOps c (layerOps c n) l A b fr := by intros; unfold contentOps; rfl
      rw [hT, hC]
      rfl
  rw [layerCalls_iff, show (∃ ops₁, LayerCalls c ls { l with opacity := .fixed 100 } ix T a fr ops₁ ∧
      ops = ops₁.map (Op.fade (l.opacity.evaluate fr / 100))) ↔ ∃ ops₁,
      (∃ n, layerOps c n ls { l with opacity := .fixed 100 } ix T a fr = .ok ops₁) ∧
      ops = ops₁.map (Op.fade (l.opacity.evaluate fr / 100)) from by simp only [layerCalls_iff]]
  constructor
  · rintro ⟨n, hn⟩
    rw [h n] at hn
    obtain ⟨ops₁, h1, h2⟩ := map_ok hn
    exact ⟨ops₁, ⟨n, h1⟩, h2.symm⟩
  · rintro ⟨ops₁, ⟨n, hn⟩, rfl⟩
    exact ⟨n, by rw [h n, hn]; rfl⟩

/-- The hypotheses can be met: a layer at 50 percent that fills something. -/
example : ∃ ops, (exTwice "x" 50).maskLayer = none ∧
    LayerCalls exStack exStack.layers (exTwice "x" 50) 0 Affine.identity 1 1 ops ∧ ops.length = 4 :=
  ⟨_, rfl, exTwice_calls exStack exStack.layers "x" 0 50 1, rfl⟩

/-- The hypotheses can be met: a composition that is appended with the opacity 1/2. -/
example : ∃ r' ops, Reachable (F := ℝ) Renderer.new ∧
    AppendCalls Renderer.new exStack 1 Affine.identity (1 / 2) r' ops :=
  ⟨_, _, .new, (appendCalls_iff rfl).mpr ⟨rfl, _,
    .cons (exShapeLayer_calls exStack exStack.layers "bottom" 1 false (1 / 2))
      (.cons (exTwice_calls exStack exStack.layers "top" 0 100 (1 / 2)) .nil), rfl⟩⟩

end Velato
