import Verif.Spec.ImportShapes

/-!
# What import should make of the attributes of a layer
-/

namespace Velato
open FloatOps (lit)

/-- The number of a blend mode in the Lottie format (`bm`). -/
def Schema.BlendMode.number : Schema.BlendMode → Nat
  | .normal => 0 | .multiply => 1 | .screen => 2 | .overlay => 3 | .darken => 4 | .lighten => 5
  | .colorDodge => 6 | .colorBurn => 7 | .hardLight => 8 | .softLight => 9 | .difference => 10
  | .exclusion => 11 | .hue => 12 | .saturation => 13 | .color => 14 | .luminosity => 15
  | .add => 16 | .hardMix => 17

/-- The number of a mix function of peniko (the discriminants of `peniko::Mix`). -/
def Mix.number : Mix → Nat
  | .normal => 0 | .multiply => 1 | .screen => 2 | .overlay => 3 | .darken => 4 | .lighten => 5
  | .colorDodge => 6 | .colorBurn => 7 | .hardLight => 8 | .softLight => 9 | .difference => 10
  | .exclusion => 11 | .hue => 12 | .saturation => 13 | .color => 14 | .luminosity => 15

/-- The blend mode of a layer: none for Normal, otherwise the mix function with the same number. -/
def BlendOf (b : Option Schema.BlendMode) (o : Option BlendMode) : Prop :=
  match b with
  | none | some .normal => o = none
  | some b => ∃ m : Mix, o = some ⟨m, .srcOver⟩ ∧ m.number = b.number

section
variable {F : Type} [FloatOps F] [Kurbo F] [Libm F]

/-- The masks of a layer, in order; those without a path are left out. -/
inductive MasksOf : List (Schema.Mask F) → List (Mask F) → Prop where
  | nil : MasksOf [] []
  | keep {m ms p g o out} (hp : m.shape = some p) (hg : PathOf p g)
      (ho : ScalarOr m.opacity (lit 100) o) (hs : MasksOf ms out) :
      MasksOf (m :: ms) (⟨⟨.normal, .srcOver⟩, g, o⟩ :: out)
  | drop {m ms out} (hp : ∀ p, m.shape = some p → NoPath p) (hs : MasksOf ms out) :
      MasksOf (m :: ms) out

/-- The transform of a layer: unlike the format, 1% scale if there is no scale (C14). -/
def LayerTransformOf (s : Schema.Transform F) (t : Transform F) : Prop :=
  ∃ a : AnimTransform F, t = a.intoModel ∧
    (match s.position with
      | .position p => ∃ v, a.position = .value v ∧ PositionOf p v
      | .splitPosition q => ∃ x y, a.position = .splitValues x y ∧ ScalarOf q.x x ∧ ScalarOf q.y y) ∧
    (match s.anchorPoint with
      | some q => PositionOf q a.anchor
      | none => a.anchor = .fixed ⟨lit 0, lit 0⟩) ∧
    (∃ r, s.rotation = some (.rotation r) ∧ ScalarOf r a.rotation) ∧
    (match s.scale with
      | some q => VectorOf q a.scale
      | none => a.scale = .fixed ⟨lit 1, lit 1⟩) ∧
    ScalarOr s.skew (lit 0) a.skew ∧
    ScalarOr s.skewAxis (lit 0) a.skewAngle

/-- What a layer shows: shapes and precompositions, unless it is hidden; nothing otherwise. -/
def ContentOf : Schema.AnyLayer F → Content F → Prop
  | .shape q, c => ∃ out, c = .shape out ∧ KeepsItems q.shapes out
  | .precomposition q, c => ∃ tr, c = .instance q.refId tr ∧
      match q.timeRemap with
      | none => tr = none
      | some p => ∃ v, tr = some v ∧ ScalarOf p v
  | _, c => c = .none

/-- The layer `l` has the attributes of the layer `s` of the document. -/
structure HasAttributes (s : Schema.AnyLayer F) (l : Layer F) : Prop where
  transform : LayerTransformOf s.visual.transform l.transform
  opacity : ScalarOr s.visual.transform.opacity (lit 100) l.opacity
  blend : BlendOf s.visual.blendMode l.blendMode
  masks : MasksOf (s.visual.masksProperties.getD []) l.masks
  matte : l.isMask = true ↔ s.Matte
  content : ¬ s.Hidden → ContentOf s l.content
  hidden : s.Hidden → l.content = .none

end
end Velato
