import Verif.Spec.Fade
import Verif.Spec.Examples

/-!
# What a sequence of calls shows at one pixel

The meaning of the calls on a `RenderSink` (`/repo/src/runtime/render.rs:14-43`) in the usual model
of compositing: layers are pictures of their own, which are put onto what is below them when they
are popped.  Which part of the pixel a shape covers and which colour a brush has there is left open
(`Rasteriser`), so a statement about all rasterisers is one about all pixels.
-/

namespace Velato

/-- The picture at one pixel: colour, premultiplied with the opacity, and opacity. -/
structure Pixel where
  r : ℝ
  g : ℝ
  b : ℝ
  a : ℝ

/-- Nothing. -/
def Pixel.clear : Pixel := ⟨0, 0, 0, 0⟩

/-- The colour `c`. -/
noncomputable def Pixel.ofColor (c : Color ℝ) : Pixel := ⟨c.r * c.a, c.g * c.a, c.b * c.a, c.a⟩

/-- The pixel with everything multiplied by `k`. -/
noncomputable def Pixel.scale (k : ℝ) (p : Pixel) : Pixel := ⟨k * p.r, k * p.g, k * p.b, k * p.a⟩

/-- `s` in front of `d`. -/
noncomputable def Pixel.over (s d : Pixel) : Pixel :=
  ⟨s.r + (1 - s.a) * d.r, s.g + (1 - s.a) * d.g, s.b + (1 - s.a) * d.b, s.a + (1 - s.a) * d.a⟩

/-- What shapes, strokes and brushes are at one pixel. -/
structure Rasteriser where
  /-- how much of the pixel lies inside the shape -/
  clip : Affine ℝ → ClipShape ℝ → ℝ
  /-- how much of the pixel lies inside the path, or on its stroke -/
  cover : Option (KStroke ℝ) → Affine ℝ → List (PathEl ℝ) → ℝ
  /-- the colour of the brush at the pixel -/
  colour : Brush ℝ → Affine ℝ → Color ℝ
  /-- the colour that replaces the colour of a layer with a mix mode other than `Normal` (second
  argument: the layer, third argument: what is below) -/
  mix : Mix → Pixel → Pixel → Color ℝ

/-- An open layer: the picture below it, and how to put the layer onto it. -/
structure OpenLayer where
  below : Pixel
  blend : BlendMode
  opacity : ℝ

/-- A layer `s` is put onto `d`.  Mixing changes the colour of the layer, not its opacity. -/
noncomputable def Rasteriser.compose (R : Rasteriser) (blend : BlendMode) (s d : Pixel) : Pixel :=
  let s := if blend.mix = .normal then s
    else Pixel.ofColor { R.mix blend.mix s d with a := s.a }
  match blend.compose with
  | .srcOver => s.over d
  | .srcIn => s.scale d.a
  | .srcOut => s.scale (1 - d.a)

/-- One call.  The state is the picture of the innermost open layer and the open layers, innermost
first.  As in vello, the part of the layer outside of its shape is transparent. -/
noncomputable def Rasteriser.step (R : Rasteriser) :
    Pixel × List OpenLayer → Op ℝ → Pixel × List OpenLayer
  | (p, st), .pushLayer blend alpha transform shape =>
    (.clear, ⟨p, blend, R.clip transform shape * alpha⟩ :: st)
  | (p, st), .pushClip transform shape =>
    (.clear, ⟨p, BlendMode.ofMix .normal, R.clip transform shape⟩ :: st)
  | (p, o :: st), .pop => (R.compose o.blend (p.scale o.opacity) o.below, st)
  | (p, []), .pop => (p, [])
  | (p, st), .draw stroke transform brush path =>
    (((Pixel.ofColor (R.colour brush transform)).scale (R.cover stroke transform path)).over p, st)
  | (p, st), .beginGroup _ _ => (p, st)
  | (p, st), .endGroup => (p, st)

/-- The state after a sequence of calls. -/
noncomputable def Rasteriser.run (R : Rasteriser) (ops : List (Op ℝ))
    (s : Pixel × List OpenLayer) : Pixel × List OpenLayer :=
  ops.foldl R.step s

/-- What is at the pixel after a sequence of calls, if `d` was there before. -/
noncomputable def Rasteriser.picture (R : Rasteriser) (ops : List (Op ℝ)) (d : Pixel) : Pixel :=
  (R.run ops (d, [])).1

/-- Brushes with a lower opacity show the same colours with that opacity. -/
def Rasteriser.Fades (R : Rasteriser) : Prop :=
  ∀ (α : ℝ) (b : Brush ℝ) (T : Affine ℝ), R.colour (b.fade α) T = (R.colour b T).fade α

/-- The call is a drawing that covers a part of the pixel. -/
def Op.Covers (R : Rasteriser) : Op ℝ → Prop
  | .draw stroke transform _ path => R.cover stroke transform path ≠ 0
  | _ => False

/-- Coverages lie between 0 and 1. -/
structure Rasteriser.Unit (R : Rasteriser) : Prop where
  clip : ∀ T s, 0 ≤ R.clip T s ∧ R.clip T s ≤ 1
  cover : ∀ s T p, 0 ≤ R.cover s T p ∧ R.cover s T p ≤ 1

/-- The call is not a drawing, or one with a brush whose opacity at the pixel lies between 0 and
1. -/
def Op.UnitBrush (R : Rasteriser) : Op ℝ → Prop
  | .draw _ transform brush _ => 0 ≤ (R.colour brush transform).a ∧ (R.colour brush transform).a ≤ 1
  | _ => True

/-! ## Examples -/

/-- A pixel inside of everything. -/
noncomputable def exInside : Rasteriser where
  clip := fun _ _ => 1
  cover := fun _ _ _ => 1
  colour := fun b _ => match b with
    | .solid c => c
    | .gradient _ _ => ⟨0, 0, 0, 0⟩
  mix := fun _ _ _ => ⟨0, 0, 0, 0⟩

/-- A layer with the opacity `o` that fills the triangle of `exTriangle` twice with opaque red. -/
noncomputable def exTwice (name : String) (o : ℝ) : Layer ℝ :=
  { exLayer name (.shape [.geometry (.fixed exTriangle),
      .draw ⟨none, .fixed (.solid ⟨1, 0, 0, 1⟩), .fixed 100⟩,
      .draw ⟨none, .fixed (.solid ⟨1, 0, 0, 1⟩), .fixed 100⟩]) with opacity := .fixed o }

/-- Two layers, the first one in front of the second one. -/
noncomputable def exStack : Composition ℝ where
  frames := ⟨0, 10⟩
  frameRate := 25
  width := 100
  height := 50
  assets := []
  layers := [exTwice "top" 100, exShapeLayer "bottom"]

/-- A layer and its alpha matte. -/
noncomputable def exMatted : Composition ℝ where
  frames := ⟨0, 10⟩
  frameRate := 25
  width := 100
  height := 50
  assets := []
  layers := [{ exShapeLayer "t" with maskLayer := some (BlendMode.ofCompose .srcIn, 1) },
    { exShapeLayer "matte" with isMask := true }]

end Velato
