import Verif.Spec.Import

/-!
# Luma mattes
-/

namespace Velato.Schema

variable {F : Type}

/-- The matte mode that looks at the alpha of the matte where this one looks at its luminance. -/
def MatteMode.alphaForLuma : MatteMode → MatteMode
  | .luma => .alpha
  | .invertedLuma => .invertedAlpha
  | .normal => .normal
  | .alpha => .alpha
  | .invertedAlpha => .invertedAlpha

/-- The same attributes with an alpha matte instead of a luma matte. -/
def VisualLayer.alphaForLuma (v : VisualLayer F) : VisualLayer F :=
  { v with matteMode := v.matteMode.map MatteMode.alphaForLuma }

/-- The same layer with an alpha matte instead of a luma matte. -/
def AnyLayer.alphaForLuma : AnyLayer F → AnyLayer F
  | .precomposition l => .precomposition { l with visualLayer := l.visualLayer.alphaForLuma }
  | .solid l => .solid { l with visualLayer := l.visualLayer.alphaForLuma }
  | .shape l => .shape { l with visualLayer := l.visualLayer.alphaForLuma }
  | .null l => .null l.alphaForLuma
  | .image l => .image { l with visualLayer := l.visualLayer.alphaForLuma }

/-- The same asset with alpha mattes instead of luma mattes. -/
def AnyAsset.alphaForLuma : AnyAsset F → AnyAsset F
  | .precomposition p => .precomposition { p with layers := p.layers.map AnyLayer.alphaForLuma }
  | .image i => .image i

/-- The same document with alpha mattes instead of luma mattes. -/
def Animation.alphaForLuma (a : Animation F) : Animation F :=
  { a with
    layers := a.layers.map AnyLayer.alphaForLuma
    assets := a.assets.map fun as => as.map AnyAsset.alphaForLuma }

end Velato.Schema
