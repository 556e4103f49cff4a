import Verif.Spec.Render
import Verif.Num.F64
import Verif.Num.KernelDecide

/-!
# A small composition used to show that hypotheses can be met
-/

namespace Velato
open FloatOps (lit)

section
variable {F : Type} [FloatOps F]

/-- A triangle. -/
def exTriangle : List (PathEl F) :=
  [.moveTo ⟨lit 0, lit 0⟩, .lineTo ⟨lit 4, lit 0⟩, .lineTo ⟨lit 0, lit 3⟩, .closePath]

/-- A half transparent red fill. -/
def exFill : Draw F :=
  ⟨none, .fixed (.solid ⟨lit 1, lit 0, lit 0, lit 1⟩), .fixed (lit 50)⟩

/-- A layer at the identity, visible in the frames 0 to 10. -/
def exLayer (name : String) (content : Content F) : Layer F where
  name := name
  parent := none
  transform := .fixed Affine.identity
  opacity := .fixed (lit 100)
  width := lit 0
  height := lit 0
  blendMode := none
  frames := ⟨lit 0, lit 10⟩
  stretch := lit 1
  startFrame := lit 0
  masks := []
  isMask := false
  maskLayer := none
  content := content

/-- A layer that fills a triangle. -/
def exShapeLayer (name : String) : Layer F :=
  exLayer name (.shape [.geometry (.fixed exTriangle), .draw exFill])

/-- Four layers: an instance of the asset "b" (which fills two triangles), a masked shape whose
parent is the instance, a shape matted by the last layer, and the matte. -/
def exComp : Composition F where
  frames := ⟨lit 0, lit 10⟩
  frameRate := lit 25
  width := 100
  height := 50
  assets := [("b", [exShapeLayer "x", exShapeLayer "y"])]
  layers :=
    [exLayer "i" (.instance "b" none),
     { exShapeLayer "m" with
       parent := some 0, masks := [⟨BlendMode.ofMix .normal, .fixed exTriangle, .fixed (lit 100)⟩] },
     { exShapeLayer "t" with maskLayer := some (BlendMode.ofMix .normal, 3) },
     { exShapeLayer "matte" with isMask := true }]

omit [FloatOps F] in
/-- A short description of a call. -/
def Op.tag : Op F → String
  | .pushLayer .. => "push"
  | .pushClip .. => "clip"
  | .pop => "pop"
  | .draw .. => "draw"
  | .beginGroup name index => name ++ toString index
  | .endGroup => "end"

end

section
variable [Libm F64] [Kurbo F64]

/-- Rendering the example returns, with these calls. -/
theorem exComp_renders : ∃ r' ops,
    AppendCalls (F := F64) Renderer.new exComp (lit 1) Affine.identity (lit 1) r' ops ∧
    ops.map Op.tag = ["clip",
      "t2", "push", "matte0", "draw", "end", "push", "draw", "pop", "pop", "end",
      "m1", "clip", "draw", "pop", "end",
      "i0", "y0", "draw", "end", "x0", "draw", "end", "end", "pop"] := by
  have h : ((Renderer.append (F := F64) 5 Renderer.new exComp (lit 1) Affine.identity
      (lit 1)).map fun p => p.2.map Op.tag).toOption = some ["clip",
      "t2", "push", "matte0", "draw", "end", "push", "draw", "pop", "pop", "end",
      "m1", "clip", "draw", "pop", "end",
      "i0", "y0", "draw", "end", "x0", "draw", "end", "end", "pop"] := by
    kernel_decide
  cases hx : Renderer.append (F := F64) 5 Renderer.new exComp (lit 1) Affine.identity (lit 1) with
  | error e => rw [hx] at h; cases h
  | ok p => rw [hx] at h; exact ⟨p.1, p.2, ⟨5, hx⟩, Option.some.inj h⟩

end
end Velato
