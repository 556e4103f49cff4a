import Verif.Proofs.Equivariance
import Verif.Proofs.LayerSets
import Verif.Spec.Examples

/-!
# C72 — the transform given to `append` is applied to everything
-/

namespace Velato
open FloatOps (lit)

section
variable [Kurbo ℝ]

/-- **C72.** In exact arithmetic, whatever `append` does with the transform `S` (its calls, or a
panic, or not to return), it does with the transform `T S`, except that every transform of a call is
multiplied by `T` from the left.  `T` has to be invertible, because adjacent paths are joined if
their transforms are equal. -/
theorem C72_composed {T : Affine ℝ} (hT : T.det ≠ 0) {r : Renderer ℝ} (hr : Reachable r) (n : Nat)
    (c : Composition ℝ) (fr : ℝ) (S : Affine ℝ) (a : ℝ) :
    Renderer.append n r c fr (T.mul S) a
      = (Renderer.append n r c fr S a).map fun p => (p.1, p.2.map (Op.mapTransform T.mul)) := by
  rw [append_idle n r hr.idle, append_idle n r hr.idle, appendOps_map (leftAction_mul hT)]
  unfold idle
  cases appendOps n c fr S a <;> rfl

/-- **C72.** The calls with the transform `T` are those with the identity, with `T` applied to every
transform. -/
theorem C72_calls {T : Affine ℝ} (hT : T.det ≠ 0) {r r' : Renderer ℝ} (hr : Reachable r)
    {c : Composition ℝ} {fr a : ℝ} {ops : List (Op ℝ)} :
    AppendCalls r c fr T a r' ops ↔ ∃ ops₁, AppendCalls r c fr Affine.identity a r' ops₁ ∧
      ops = ops₁.map (Op.mapTransform T.mul) := by
  have h : ∀ n, Renderer.append n r c fr T a = (Renderer.append n r c fr Affine.identity a).map
      fun p => (p.1, p.2.map (Op.mapTransform T.mul)) := by
    intro n
    rw [← C72_composed hT hr, Affine.real_mul_identity]
  unfold AppendCalls
  constructor
  · rintro ⟨n, hn⟩
    rw [h n] at hn
    obtain ⟨⟨q, ops₁⟩, h1, h2⟩ := map_ok hn
    cases h2
    exact ⟨ops₁, ⟨n, h1⟩, rfl⟩
  · rintro ⟨ops₁, ⟨n, hn⟩, rfl⟩
    exact ⟨n, by rw [h n, hn]; rfl⟩

/-- An invertible transform that is not the identity, and a new renderer: the hypotheses are met.
(`exComp_renders` has the calls of a composition.) -/
example : (Affine.mk 2 0 1 3 4 5 : Affine ℝ).det ≠ 0 ∧ Reachable (F := ℝ) Renderer.new := by
  refine ⟨?_, .new⟩
  norm_num [Affine.det]

end

section
variable [Libm F64] [Kurbo F64]

/-- Two triangles in groups with different transforms, and a fill of both. -/
def exTwoGroups {F : Type} [FloatOps F] : Composition F :=
  { exComp with
    assets := []
    layers := [exLayer "x" (.shape [
      .group [.geometry (.fixed exTriangle)] none,
      .group [.geometry (.fixed exTriangle)]
        (some ⟨.fixed (Affine.translate ⟨lit 1, lit 2⟩), .fixed (lit 100)⟩),
      .draw exFill])] }

/-- Why `C72_composed` asks for an invertible transform: two triangles at different places are drawn
by two calls with the identity, but by one call with a transform that maps everything to one
point. -/
example :
    ((Renderer.append (F := F64) 1 Renderer.new exTwoGroups (lit 1) Affine.identity (lit 1)).map
      fun p => p.2.map Op.tag).toOption = some ["clip", "x0", "draw", "draw", "end", "pop"] ∧
    ((Renderer.append (F := F64) 1 Renderer.new exTwoGroups (lit 1)
      ⟨lit 0, lit 0, lit 0, lit 0, lit 5, lit 5⟩ (lit 1)).map
      fun p => p.2.map Op.tag).toOption = some ["clip", "x0", "draw", "end", "pop"] := by
  constructor <;> kernel_decide

end
end Velato
