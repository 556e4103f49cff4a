import Verif.Proofs.NormalMatte
import Verif.Spec.ExampleDoc
import Verif.Num.KernelDecide
import Verif.Props.NoPanic

/-!
# C55 — matte mode Normal
-/

namespace Velato
open FloatOps (lit)
open Import

section
variable {F : Type} [FloatOps F] [Kurbo F] [Libm F]

/-- **C55.** Proved part: if the layers with matte mode Normal have no matte, the document is
imported (and so rendered) as if they had no matte mode.  Missing, and false: layers with a matte
(`C55_counterexample`). -/
theorem C55_unmatted_partial {a : Schema.Animation F} (h : NormalUnmatted a.layers)
    (has : ∀ p, .precomposition p ∈ a.assetList → NormalUnmatted p.layers) :
    convAnimation a.dropNormal = convAnimation a :=
  convAnimation_dropNormal h has

/-- A layer that fills a triangle. -/
def exPathDoc (v : Schema.VisualLayer F) : Schema.AnyLayer F :=
  .shape ⟨v, [.path ⟨⟨exElement, none⟩, ⟨none, none, none, .static
    ⟨some true, [(lit 1, lit 0), (lit 4, lit 0), (lit 0, lit 4)], [], []⟩⟩⟩, exFillShape]⟩

/-- A matte and the layer after it, with matte mode Normal. -/
def exNormalDoc (td : Option Schema.BoolInt) : Schema.Animation F :=
  { exDoc with
    assets := none
    layers := [exPathDoc { exVisual "matte" (some 1) with matteTarget := td },
      exPathDoc { exVisual "matted" (some 2) with matteMode := some .normal }] }

/-- The hypothesis is met by a document with a layer with matte mode Normal and no matte. -/
example : NormalUnmatted (exNormalDoc (F := F) none).layers ∧
    (exNormalDoc (F := F) none).dropNormal ≠ exNormalDoc none := by
  constructor
  · intro i s hs hm
    constructor
    · rintro j ⟨hj, ⟨t, ht, hmt⟩, -⟩
      match j, ht with
      | 0, ht => cases ht; exact absurd hmt.2 (fun h => nomatch h)
      | 1, ht => cases ht; exact absurd hmt.2 (fun h => nomatch h)
    · intro x hx
      match i, hs with
      | 0, hs => cases hs; cases hm
      | 1, hs => cases hs; cases hx
  · intro h
    have h := congrArg (fun a => a.layers.map fun l => l.visual.matteMode) h
    exact absurd (show [none, none] = [none, some Schema.MatteMode.normal] from h) (by decide)

/-- The draw calls of a document at a frame. -/
def docCalls (a : Schema.Animation F) (fr : F) : Except Fault (List (Op F)) := do
  let c ← convAnimation a
  (Renderer.append 3 Renderer.new c fr Affine.identity (lit 1)).map (·.2)

end

section
variable [Kurbo F64] [Libm F64]

/-- The number of draw calls and of layers pushed. -/
def countCalls {F : Type} (ops : List (Op F)) : Nat × Nat :=
  (ops.countP fun | .draw .. => true | _ => false, ops.countP fun | .pushLayer .. => true | _ => false)

/-- **C55** is false of the code: with a matte, a layer with matte mode Normal is composited with
the matte, which is drawn too; without the mode only the layer is drawn. -/
theorem C55_counterexample :
    ((docCalls (exNormalDoc (F := F64) (some .true)) (lit 3)).map countCalls).toOption =
      some (2, 2) ∧
    ((docCalls (exNormalDoc (F := F64) (some .true)).dropNormal (lit 3)).map countCalls).toOption =
      some (1, 0) := by
  constructor <;> kernel_decide

end
end Velato
