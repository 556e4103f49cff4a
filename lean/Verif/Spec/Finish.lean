import Verif.Spec.Render
import Verif.Spec.DocDraws
import Verif.Spec.Names

/-!
# Specification: which layers have to be rendered to render a layer
-/

namespace Velato

/-- A layer — its list (that of the composition or of an asset) and its position — at a frame. -/
structure Visit (F : Type) where
  list : Option String
  position : Nat
  frame : F

section
variable {F : Type} [FloatOps F]

/-- Rendering a layer that is there at its frame takes rendering its matte at the same frame, and the
layers (other than mattes) of the precomposition it shows at the mapped time. -/
inductive Needs (c : Composition F) : Visit F → Visit F → Prop where
  | matte {k i fr l mode j} (hl : (c.layersOf k)[i]? = some l) (hin : l.frames.contains fr = true)
      (hm : l.maskLayer = some (mode, j)) : Needs c ⟨k, i, fr⟩ ⟨k, j, fr⟩
  | asset {k i fr l name tr j l'} (hl : (c.layersOf k)[i]? = some l)
      (hin : l.frames.contains fr = true) (hc : l.content = .instance name tr)
      (hj : (c.layersOf (some name))[j]? = some l') (hn : l'.isMask = false) :
      Needs c ⟨k, i, fr⟩
        ⟨some name, j, fr /. l.stretch +. FloatOps.neg l.startFrame /. l.stretch⟩

/-- There is an endless chain of layers, each needed by the one before, which begins with a layer of the
composition that is not a matte. -/
def Endless (c : Composition F) (fr : F) : Prop :=
  ∃ s : Nat → Visit F, (s 0).list = none ∧ (s 0).frame = fr ∧
    (∃ l, c.layers[(s 0).position]? = some l ∧ l.isMask = false) ∧ ∀ n, Needs c (s n) (s (n + 1))

end

/-- The layers of the document (`none`) or of its last asset with an id. -/
def Schema.Animation.layersOf {F : Type} (a : Schema.Animation F) :
    Option String → List (Schema.AnyLayer F)
  | none => a.layers
  | some n => match a.lastAsset n with
    | some (.precomposition p) => p.layers
    | _ => []

/-- The same for the layers of a document. -/
inductive DocNeeds {F : Type} [FloatOps F] (a : Schema.Animation F) : Visit F → Visit F → Prop where
  | matte {k i fr l b j} (hl : (a.layersOf k)[i]? = some l) (hin : l.During fr)
      (hm : MatteOf (a.layersOf k) i l (some (b, j))) : DocNeeds a ⟨k, i, fr⟩ ⟨k, j, fr⟩
  | asset {k i fr q j l'} (hl : (a.layersOf k)[i]? = some (.precomposition q))
      (hin : (Schema.AnyLayer.precomposition q).During fr)
      (hv : ¬ (Schema.AnyLayer.precomposition q).Hidden)
      (hj : (a.layersOf (some q.refId))[j]? = some l') (hn : ¬ l'.Matte) :
      DocNeeds a ⟨k, i, fr⟩
        ⟨some q.refId, j, q.time fr⟩

/-- There is an endless chain of layers, each needed by the one before, which begins with a layer of the
document that is not a matte. -/
def EndlessDocument {F : Type} [FloatOps F] (a : Schema.Animation F) (fr : F) : Prop :=
  ∃ s : Nat → Visit F, (s 0).list = none ∧ (s 0).frame = fr ∧
    (∃ l, a.layers[(s 0).position]? = some l ∧ ¬ l.Matte) ∧ ∀ n, DocNeeds a (s n) (s (n + 1))

end Velato
