import Verif.Spec.Remove

/-!
# Vocabulary for statements about the frames of the layers of a document
-/

namespace Velato.Schema

variable {F : Type}

/-- The same attributes with the in point `i` and the out point `o`. -/
def VisualLayer.withFrames (i o : F) (v : VisualLayer F) : VisualLayer F :=
  { v with layer := { v.layer with inPoint := i, outPoint := o } }

/-- The same layer with the in point `i` and the out point `o`. -/
def AnyLayer.withFrames (i o : F) : AnyLayer F → AnyLayer F
  | .precomposition l => .precomposition { l with visualLayer := l.visualLayer.withFrames i o }
  | .solid l => .solid { l with visualLayer := l.visualLayer.withFrames i o }
  | .shape l => .shape { l with visualLayer := l.visualLayer.withFrames i o }
  | .null l => .null (l.withFrames i o)
  | .image l => .image { l with visualLayer := l.visualLayer.withFrames i o }

/-- The frame is between the in point (included) and the out point (excluded) of the layer. -/
def AnyLayer.PresentAt [FloatOps F] (s : AnyLayer F) (fr : F) : Prop :=
  FloatOps.le s.visual.layer.inPoint fr = true ∧ FloatOps.lt fr s.visual.layer.outPoint = true

/-- The two lists have the same layers except for in and out points, and the same layers are present
at the frame. -/
def SameLayersAt [FloatOps F] (fr : F) (ss ss' : List (AnyLayer F)) : Prop :=
  List.Forall₂ (fun s s' => (∃ i o, s' = s.withFrames i o) ∧ (s'.PresentAt fr ↔ s.PresentAt fr)) ss ss'

end Velato.Schema
