import Verif.Model.Render

/-!
# `/repo/src/runtime/vello.rs`: rendering to a vello scene

The methods of `vello::Scene` are external; a scene is modelled by the list of its method calls.
-/

namespace Velato

/-- `peniko::Fill`.  Used at `vello.rs:17,21,38`. -/
inductive Fill where | nonZero | evenOdd
  deriving DecidableEq, Repr, Inhabited

/-- A call of a method of `vello::Scene`.  The brush transform is always `None`.  Used at
`vello.rs:10-39`. -/
inductive SceneOp (F : Type) where
  | pushLayer (rule : Fill) (blend : BlendMode) (alpha : F) (transform : Affine F)
      (shape : ClipShape F)
  | pushClip (rule : Fill) (transform : Affine F) (shape : ClipShape F)
  | pop
  | stroke (style : KStroke F) (transform : Affine F) (brush : Brush F) (path : List (PathEl F))
  | fill (rule : Fill) (transform : Affine F) (brush : Brush F) (path : List (PathEl F))
  deriving DecidableEq, Repr, Inhabited

section
variable {F : Type}

/-- `impl RenderSink for vello::Scene` (`vello.rs:9-41`); the layer group methods are the default
ones of the trait, which do nothing (`render.rs:39-42`). -/
def Op.toScene : Op F → List (SceneOp F)
  | .pushLayer blend alpha transform shape => [.pushLayer .nonZero blend alpha transform shape]
  | .pushClip transform shape => [.pushClip .nonZero transform shape]
  | .pop => [.pop]
  | .draw (some stroke) transform brush path => [.stroke stroke transform brush path]
  | .draw none transform brush path => [.fill .nonZero transform brush path]
  | .beginGroup _ _ => []
  | .endGroup => []

/-- `Renderer::render_to_vello_scene` (`vello.rs:43-56`). -/
def Renderer.renderToScene [FloatOps F] [Libm F] [Kurbo F] (fuel : Nat) (r : Renderer F)
    (animation : Composition F) (frame : F) (transform : Affine F) (alpha : F) :
    Except Fault (Renderer F × List (SceneOp F)) := do
  let (r', ops) ← r.append fuel animation frame transform alpha
  .ok (r', ops.flatMap Op.toScene)

end
end Velato
