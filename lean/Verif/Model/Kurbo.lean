import Verif.Num.Ops

/-!
# The parts of kurbo 0.13 / peniko 0.6 that velato calls

These crates are not in `/repo`; velato pins `kurbo 0.13`, `peniko 0.6` in `/repo/Cargo.toml`.
Simple arithmetic code is written out; iterative numerics are parameters of the class `Kurbo`.
-/

namespace Velato
open FloatOps (lit)

/-- `kurbo::Point`, `kurbo::Vec2`, `kurbo::Size` (x/width, y/height): one type for all three.  Used
at `runtime/model/mod.rs:4`. -/
structure P2 (F : Type) where
  x : F
  y : F
  deriving DecidableEq, Repr, Inhabited

/-- `kurbo::PathEl`.  Used at `runtime/model/spline.rs:4`, `runtime/render.rs:7`. -/
inductive PathEl (F : Type) where
  | moveTo (p : P2 F)
  | lineTo (p : P2 F)
  | quadTo (p1 p2 : P2 F)
  | curveTo (p1 p2 p3 : P2 F)
  | closePath
  deriving DecidableEq, Repr, Inhabited

/-- `kurbo::PathSeg`.  Used at `runtime/render.rs:7,398-442`. -/
inductive PathSeg (F : Type) where
  | line (p0 p1 : P2 F)
  | quad (p0 p1 p2 : P2 F)
  | cubic (p0 p1 p2 p3 : P2 F)
  deriving DecidableEq, Repr, Inhabited

/-- `kurbo::Affine([a, b, c, d, e, f])`: `(x, y) ↦ (a x + c y + e, b x + d y + f)`.  Used at
`runtime/model/fixed.rs:13`. -/
structure Affine (F : Type) where
  a : F
  b : F
  c : F
  d : F
  e : F
  f : F
  deriving DecidableEq, Repr, Inhabited

section
variable {F : Type} [FloatOps F]

/-- `PartialEq for Point` (derived: IEEE `==` on both coordinates).  Used at `spline.rs:29`. -/
def P2.beq (p q : P2 F) : Bool := (p.x ==. q.x) && (p.y ==. q.y)

/-- `PartialEq for Affine` (derived on `[f64; 6]`).  Used at `render.rs:303`. -/
def Affine.beq (p q : Affine F) : Bool :=
  (p.a ==. q.a) && (p.b ==. q.b) && (p.c ==. q.c) && (p.d ==. q.d) && (p.e ==. q.e) && (p.f ==. q.f)

/-- `Affine::IDENTITY`.  Used at `animated.rs:70`, `mod.rs:127`, `render.rs:194`. -/
def Affine.identity : Affine F := ⟨lit 1, lit 0, lit 0, lit 1, lit 0, lit 0⟩

/-- `Affine::translate`.  Used at `animated.rs:72,76`, `fixed.rs:52,60`. -/
def Affine.translate (p : P2 F) : Affine F := ⟨lit 1, lit 0, lit 0, lit 1, p.x, p.y⟩

/-- `Affine::scale_non_uniform`.  Used at `animated.rs:75`, `fixed.rs:56`. -/
def Affine.scaleNonUniform (sx sy : F) : Affine F := ⟨sx, lit 0, lit 0, sy, lit 0, lit 0⟩

/-- `Affine::skew(skew_x, skew_y)` is `Affine([1, skew_y, skew_x, 1, 0, 0])`.  Used at
`animated.rs:68`. -/
def Affine.skew (kx ky : F) : Affine F := ⟨lit 1, ky, kx, lit 1, lit 0, lit 0⟩

/-- `Affine::rotate(th)`: `Affine([cos, sin, -sin, cos, 0, 0])`.  Used at `animated.rs:68,73`,
`fixed.rs:55`. -/
def Affine.rotate [Libm F] (th : F) : Affine F :=
  ⟨Libm.cos th, Libm.sin th, FloatOps.neg (Libm.sin th), Libm.cos th, lit 0, lit 0⟩

/-- `Mul for Affine`.  Used at `animated.rs:68-76`, `fixed.rs:52-60`. -/
def Affine.mul (p q : Affine F) : Affine F where
  a := p.a *. q.a +. p.c *. q.b
  b := p.b *. q.a +. p.d *. q.b
  c := p.a *. q.c +. p.c *. q.d
  d := p.b *. q.c +. p.d *. q.d
  e := p.a *. q.e +. p.c *. q.f +. p.e
  f := p.b *. q.e +. p.d *. q.f +. p.f

/-- `Mul<Point> for Affine`.  Used at `picking.rs:129,189`. -/
def Affine.apply (m : Affine F) (p : P2 F) : P2 F where
  x := m.a *. p.x +. m.c *. p.y +. m.e
  y := m.b *. p.x +. m.d *. p.y +. m.f

/-- `Point::lerp(other, t)`: `self + t * (other - self)` on both coordinates.  Used at
`spline.rs:65`. -/
def P2.lerp (p q : P2 F) (t : F) : P2 F :=
  ⟨p.x +. t *. (q.x -. p.x), p.y +. t *. (q.y -. p.y)⟩

/-- The `y` coordinate of `CubicBez::eval(t)` for the curve `(0,0) (_,y1) (_,y2) (1,1)`:
`p0*(mt³) + (p1*(mt²*3) + (p2*(mt*3) + p3*t)*t)*t`.  Used at `value.rs:191-228`. -/
def cubicEvalY (y1 y2 t : F) : F :=
  let mt := lit 1 -. t
  lit 0 *. (mt *. mt *. mt)
    +. (y1 *. (mt *. mt *. lit 3) +. (y2 *. (mt *. lit 3) +. lit 1 *. t) *. t) *. t

/-- `BezPath::segments()` after construction: the iterator state is `(start, last)`, set by the
first element.  Yields a segment per line/quad/curve; `ClosePath` yields the closing line only
if `last != start`.  The construction `FromIterator for BezPath` debug-asserts that the first
element is `MoveTo` and `segments` panics when it starts with `ClosePath`; both are covered by
the guard in `bezPathOk`.  Used at `render.rs:398`. -/
def segmentsAux : List (PathEl F) → P2 F → P2 F → List (PathSeg F)
  | [], _, _ => []
  | .moveTo p :: es, _, _ => segmentsAux es p p
  | .lineTo p :: es, start, last => .line last p :: segmentsAux es start p
  | .quadTo p1 p2 :: es, start, last => .quad last p1 p2 :: segmentsAux es start p2
  | .curveTo p1 p2 p3 :: es, start, last => .cubic last p1 p2 p3 :: segmentsAux es start p3
  | .closePath :: es, start, last =>
    if last.beq start then segmentsAux es start last
    else .line last start :: segmentsAux es start start

/-- `BezPath::from_iter(..)` is accepted: empty, or the first element is a `MoveTo`
(kurbo: `debug_assert!(... "BezPath must begin with MoveTo")`).  Used at `render.rs:394-397`. -/
def bezPathOk : List (PathEl F) → Bool
  | [] => true
  | .moveTo _ :: _ => true
  | _ => false

/-- `path.segments().collect()` for an accepted path.  Used at `render.rs:398`. -/
def segments : List (PathEl F) → List (PathSeg F)
  | .moveTo p :: es => segmentsAux es p p
  | _ => []

/-- `PathSeg::start`.  Used at `render.rs:443`. -/
def PathSeg.start : PathSeg F → P2 F
  | .line p0 _ => p0
  | .quad p0 _ _ => p0
  | .cubic p0 _ _ _ => p0

/-- The path element that continues a path along a segment (`line_to`/`quad_to`/`curve_to`,
`/repo/src/runtime/render.rs:447-451`). -/
def PathSeg.toEl : PathSeg F → PathEl F
  | .line _ p1 => .lineTo p1
  | .quad _ p1 p2 => .quadTo p1 p2
  | .cubic _ p1 p2 p3 => .curveTo p1 p2 p3

end

/-- Iterative / table-driven numerics of kurbo: parameters.  Theorems quantify over every
instance, with explicit hypotheses where a specific behaviour is needed.  Used at `value.rs:211`,
`render.rs:398-442`, `mod.rs:140-160`. -/
class Kurbo (F : Type) where
  /-- `kurbo::common::solve_cubic(c0, c1, c2, c3)`: real roots of `c0 + c1 x + c2 x² + c3 x³` -/
  solveCubic : F → F → F → F → List F
  /-- `Ellipse::new(center, radii, 0.0).path_elements(0.1)` -/
  ellipsePath : P2 F → P2 F → List (PathEl F)
  /-- `RoundedRect::new(x0, y0, x1, y1, radius).path_elements(0.1)` -/
  roundedRectPath : F → F → F → F → F → List (PathEl F)
  /-- `PathSeg::arclen(0.1)` -/
  arclen : PathSeg F → F
  /-- `PathSeg::inv_arclen(len, 0.1)` -/
  invArclen : PathSeg F → F → F
  /-- `PathSeg::subsegment(t0..t1)` -/
  subsegment : PathSeg F → F → F → PathSeg F

/-- The paths kurbo produces for basic shapes start with a `MoveTo` (its `Shape` contract).  Used
at `mod.rs:140-160`. -/
class KurboPaths (F : Type) [Kurbo F] : Prop where
  ellipse : ∀ c r : P2 F, bezPathOk (Kurbo.ellipsePath c r) = true
  rect : ∀ a b c d r : F, bezPathOk (Kurbo.roundedRectPath a b c d r) = true

/-- `peniko::Color` (`AlphaColor<Srgb>`): four `f32` components.  Used at `fixed.rs:16`. -/
structure Color (F : Type) where
  r : F
  g : F
  b : F
  a : F
  deriving DecidableEq, Repr, Inhabited

/-- `peniko::Mix` as used by velato.  Used at `converters.rs:784-804`, `render.rs:113`. -/
inductive Mix where
  | normal | multiply | screen | overlay | darken | lighten | colorDodge | colorBurn
  | hardLight | softLight | difference | exclusion | hue | saturation | color | luminosity
  deriving DecidableEq, Repr, Inhabited

/-- `peniko::Compose` as used by velato (`SrcOver` is the default).  Used at `converters.rs:57-77`,
`mod.rs:243`. -/
inductive Compose where
  | srcOver | srcIn | srcOut
  deriving DecidableEq, Repr, Inhabited

/-- `peniko::BlendMode`.  Used at `mod.rs:210,243`. -/
structure BlendMode where
  mix : Mix
  compose : Compose
  deriving DecidableEq, Repr, Inhabited

/-- `From<Mix> for BlendMode`.  Used at `converters.rs:784-804`, `render.rs:113`. -/
def BlendMode.ofMix (m : Mix) : BlendMode := ⟨m, .srcOver⟩
/-- `From<Compose> for BlendMode`.  Used at `converters.rs:57-77`. -/
def BlendMode.ofCompose (c : Compose) : BlendMode := ⟨.normal, c⟩

/-- `peniko::ColorStop`.  Used at `animated.rs:497-500`. -/
structure ColorStop (F : Type) where
  offset : F
  color : Color F
  deriving DecidableEq, Repr, Inhabited

/-- `peniko::GradientKind` as built by velato.  Used at `animated.rs:459-463`. -/
inductive GradientKind (F : Type) where
  | linear (start stop : P2 F)
  | radial (center : P2 F) (radius : F)
  deriving DecidableEq, Repr, Inhabited

/-- `peniko::Brush` (velato builds no image brushes).  Used at `fixed.rs:22`. -/
inductive Brush (F : Type) where
  | solid (c : Color F)
  | gradient (kind : GradientKind F) (stops : List (ColorStop F))
  deriving DecidableEq, Repr, Inhabited

section
variable {F : Type} [FloatOps F]

/-- `Color::TRANSPARENT`.  Used at `animated.rs:529`. -/
def Color.transparent : Color F := ⟨lit 0, lit 0, lit 0, lit 0⟩

/-- `AlphaColor::multiply_alpha`.  Used at `animated.rs:530`. -/
def Color.multiplyAlpha (c : Color F) (alpha : F) : Color F := { c with a := mulF32 c.a alpha }

/-- `Brush::multiply_alpha`: identity for `1.0`, otherwise multiplies the alpha of the colour,
or of every gradient stop.  Used at `mod.rs:117`, `render.rs:479`. -/
def Brush.multiplyAlpha (b : Brush F) (alpha : F) : Brush F :=
  if alpha ==. lit 1 then b else
  match b with
  | .solid c => .solid (c.multiplyAlpha alpha)
  | .gradient k stops =>
    .gradient k (stops.map fun s => { s with color := s.color.multiplyAlpha alpha })

end

/-- `kurbo::Join`.  Used at `animated.rs:398`. -/
inductive Join where | bevel | miter | round
  deriving DecidableEq, Repr, Inhabited
/-- `kurbo::Cap`.  Used at `animated.rs:402`. -/
inductive Cap where | butt | square | round
  deriving DecidableEq, Repr, Inhabited

/-- `kurbo::Stroke` (velato never sets a dash pattern).  Used at `animated.rs:412-420`. -/
structure KStroke (F : Type) where
  width : F
  join : Join
  miterLimit : F
  cap : Cap
  deriving DecidableEq, Repr, Inhabited

end Velato
