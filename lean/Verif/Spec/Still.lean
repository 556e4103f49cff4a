import Verif.Model.Scene

/-!
# Pictures that do not move
-/

namespace Velato
open FloatOps (lit)

section
variable {F : Type} [FloatOps F] [Libm F] [Kurbo F]

omit [FloatOps F] [Libm F] [Kurbo F] in
/-- The function of the frame is constant. -/
def Constant {α : Type} (f : F → α) : Prop := ∀ fr fr', f fr = f fr'

mutual
/-- No property of the shape depends on the frame. -/
def Shape.Still : Shape F → Prop
  | .group ss t => Shape.StillAll ss ∧
      ∀ gt, t = some gt → Constant gt.transform.evaluate ∧ Constant gt.opacity.evaluate
  | .geometry g => Constant g.evaluate
  | .draw d => (∀ s, d.stroke = some s → Constant s.evaluate) ∧
      Constant (d.brush.evaluate (lit 1)) ∧ Constant d.opacity.evaluate
  | .repeater r => Constant r.evaluate
  | .trim t => Constant t.evaluate

/-- No property of the shapes depends on the frame. -/
def Shape.StillAll : List (Shape F) → Prop
  | [] => True
  | s :: ss => s.Still ∧ Shape.StillAll ss
end

/-- No property of the layer depends on the frame. -/
structure Layer.Still (l : Layer F) : Prop where
  transform : Constant l.transform.evaluate
  opacity : Constant l.opacity.evaluate
  masks : ∀ m ∈ l.masks, Constant m.geometry.evaluate
  shapes : ∀ ss, l.content = .shape ss → Shape.StillAll ss

/-- The layer is visible at both frames or at none. -/
def Layer.SameVisible (l : Layer F) (fr fr' : F) : Prop :=
  ((l.frames.start <=. fr) = true ∧ (fr <. l.frames.stop) = true) ↔
    ((l.frames.start <=. fr') = true ∧ (fr' <. l.frames.stop) = true)

/-- The frame at which a layer shows its asset. -/
def Layer.assetFrame (l : Layer F) (fr : F) : F :=
  fr /. l.stretch +. FloatOps.neg l.startFrame /. l.stretch

/-- The layers are visible at both frames or at none, and what is related by `R` are the frames at
which assets are shown. -/
def SameVisibleAll (R : String → F → F → Prop) (ls : List (Layer F)) (fr fr' : F) : Prop :=
  ∀ l ∈ ls, l.SameVisible fr fr' ∧
    ∀ name tr, l.content = .instance name tr → R name (l.assetFrame fr) (l.assetFrame fr')

end
end Velato
