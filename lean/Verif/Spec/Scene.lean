import Verif.Model.Vello

/-!
# What a vello scene contains
-/

namespace Velato

section
variable {F : Type}

/-- The number of open layers after a sequence of calls, `none` if a pop has nothing to close. -/
def sceneDepth : Nat → List (SceneOp F) → Option Nat
  | n, [] => some n
  | n, .pushLayer .. :: ops => sceneDepth (n + 1) ops
  | n, .pushClip .. :: ops => sceneDepth (n + 1) ops
  | n + 1, .pop :: ops => sceneDepth n ops
  | 0, .pop :: _ => none
  | n, .stroke .. :: ops => sceneDepth n ops
  | n, .fill .. :: ops => sceneDepth n ops

/-- Something painted: stroked with a style or filled (`none`), with a transform, brush and path. -/
structure Painted (F : Type) where
  stroke : Option (KStroke F)
  transform : Affine F
  brush : Brush F
  path : List (PathEl F)

/-- What the calls on a sink paint, in order. -/
def Op.painted : Op F → Option (Painted F)
  | .draw s t b p => some ⟨s, t, b, p⟩
  | _ => none

/-- What the calls on a scene paint, in order. -/
def SceneOp.painted : SceneOp F → Option (Painted F)
  | .stroke s t b p => some ⟨some s, t, b, p⟩
  | .fill _ t b p => some ⟨none, t, b, p⟩
  | _ => none

/-- The rule by which a call decides what is inside a path. -/
def SceneOp.rule : SceneOp F → Option Fill
  | .pushLayer r .. => some r
  | .pushClip r .. => some r
  | .fill r .. => some r
  | _ => none

/-- `r.render_to_vello_scene(animation, frame, transform, alpha)` returns the scene `ops`. -/
def SceneCalls [FloatOps F] [Libm F] [Kurbo F] (r : Renderer F) (c : Composition F) (frame : F)
    (transform : Affine F) (alpha : F) (ops : List (SceneOp F)) : Prop :=
  ∃ fuel r', r.renderToScene fuel c frame transform alpha = .ok (r', ops)

end
end Velato
