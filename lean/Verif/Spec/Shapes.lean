import Verif.Spec.Render

/-!
# Vocabulary for statements about the shapes of a layer
-/

namespace Velato
open FloatOps (lit)

/-- What the renderer would paint for one geometry: a path and where to put it. -/
structure Outline (F : Type) where
  transform : Affine F
  path : List (PathEl F)
  deriving DecidableEq, Repr, Inhabited

/-- The outlines held by a batch, in order. -/
def Batch.outlines {F : Type} (b : Batch F) : List (Outline F) :=
  b.geometries.map fun g => ⟨g.transform, (b.elements.take g.stop).drop g.start⟩

/-- The outlines a draw of the batch paints. -/
def Batch.painted {F : Type} (b : Batch F) (d : DrawData F) : List (Outline F) :=
  (b.outlines.take d.gstop).drop d.gstart

/-- Every range the renderer will later slice with is in bounds: those of the draws into the
geometries, those of the geometries into the path elements. -/
structure Batch.InBounds {F : Type} (b : Batch F) : Prop where
  geometries : ∀ g ∈ b.geometries, g.start ≤ g.stop ∧ g.stop ≤ b.elements.length
  draws : ∀ d ∈ b.draws, d.gstart ≤ d.gstop ∧ d.gstop ≤ b.geometries.length

section
variable {F : Type} [FloatOps F] [Libm F] [Kurbo F]

/-- The geometry, evaluated at this frame, is an empty path or begins with a move. -/
def Geometry.StartsOk (g : Geometry F) (frame : F) : Prop :=
  ∀ els, g.evaluate frame = .ok els → bezPathOk els = true

/-- The states of the batch while the shapes of a layer are rendered.  The second component is the
stack of groups being rendered, innermost first: the number of geometries and draws the batch had
when the group was entered. -/
inductive MidRender : Batch F → List (Nat × Nat) → Prop where
  | start : MidRender Batch.empty [(0, 0)]
  | enter {b : Batch F} {st} (h : MidRender b st) :
      MidRender b ((b.geometries.length, b.draws.length) :: st)
  | leave {b : Batch F} {s s' st} (h : MidRender b (s :: s' :: st)) : MidRender b (s' :: st)
  | geometry {b b' : Batch F} {s st} {g : Geometry F} {T : Affine F} {fr : F}
      (h : MidRender b (s :: st)) (hg : g.StartsOk fr) (hb : b.pushGeometry g T fr = .ok b') :
      MidRender b' (s :: st)
  | draw {b : Batch F} {s st} (d : Draw F) (a fr : F) (h : MidRender b (s :: st)) :
      MidRender (b.pushDraw d a s.1 fr) (s :: st)
  | repeater {b b' : Batch F} {s st} {r : FixedRepeater F} (h : MidRender b (s :: st))
      (hb : b.repeat r s.1 s.2 = .ok b') : MidRender b' (s :: st)
  | trim {b b' : Batch F} {s st} {t : FixedTrim F} (h : MidRender b (s :: st))
      (hb : b.applyTrim t s.1 = .ok b') : MidRender b' (s :: st)

end

mutual
/-- The geometries in a shape, including those in nested groups. -/
def Shape.geometries {F : Type} : Shape F → List (Geometry F)
  | .group shapes _ => geometriesOf shapes
  | .geometry g => [g]
  | _ => []

/-- The geometries in a list of shapes, including those in nested groups. -/
def geometriesOf {F : Type} : List (Shape F) → List (Geometry F)
  | [] => []
  | s :: ss => s.geometries ++ geometriesOf ss
end

/-- The layers of a composition and of its assets. -/
def Composition.allLayers {F : Type} (c : Composition F) : List (Layer F) :=
  c.layers ++ c.assets.flatMap (·.2)

/-- The geometries of the shapes of a layer. -/
def Layer.geometries {F : Type} (l : Layer F) : List (Geometry F) :=
  match l.content with
  | .shape shapes => geometriesOf shapes
  | _ => []

/-- Explicit paths are empty or begin with a move. -/
def Composition.PathsStartWithMove {F : Type} (c : Composition F) : Prop :=
  ∀ l ∈ c.allLayers, ∀ p, Geometry.fixed p ∈ l.geometries → bezPathOk p = true

/-- The number of points of a star at a frame (`animated.rs:178`). -/
def AnimStar.pointCount {F : Type} [FloatOps F] [Libm F] [Kurbo F] (s : AnimStar F) (frame : F) :
    Nat :=
  FloatOps.toUsize (FloatOps.round (s.points.evaluate frame))

/-- No star (in the shapes or masks) ever has more than 2^56 points. -/
def Composition.StarsFit {F : Type} [FloatOps F] [Libm F] [Kurbo F] (c : Composition F) : Prop :=
  ∀ l ∈ c.allLayers, ∀ s, Geometry.star s ∈ l.geometries ++ l.masks.map (·.geometry) →
    ∀ frame, s.pointCount frame ≤ 2 ^ 56

/-! ## What a shape tree should paint -/

/-- How a fill or stroke paints: the stroke style if it is a stroke, the brush, and the opacity
factor. -/
structure Paint (F : Type) where
  stroke : Option (KStroke F)
  brush : Brush F
  alpha : F
  deriving DecidableEq, Repr, Inhabited

section
variable {F : Type} [FloatOps F] [Libm F] [Kurbo F]

omit [Libm F] [Kurbo F] in
/-- The brush given to the sink: the opacity of the colour, or of every stop of the gradient, is
multiplied by the opacity factor, unless that is 1. -/
def Paint.finalBrush (p : Paint F) : Brush F :=
  let k := FloatOps.toF32 p.alpha
  if (p.alpha ==. lit 1) || (k ==. lit 1) then p.brush
  else match p.brush with
    | .solid c => .solid { c with a := mulF32 c.a k }
    | .gradient kind stops =>
      .gradient kind (stops.map fun s => { s with color := { s.color with a := mulF32 s.color.a k } })

/-- The paint of a fill or stroke in a group where the opacity factor is `alpha`. -/
def Draw.paint (d : Draw F) (alpha frame : F) : Paint F :=
  ⟨d.stroke.map fun s => s.evaluate frame, d.brush.evaluate (lit 1) frame,
    alpha *. d.opacity.evaluate frame /. lit 100⟩

/-- The matrix of a group at a frame: the identity if it has no transform. -/
def groupMatrix (gt : Option (GroupTransform F)) (frame : F) : Affine F :=
  (gt.map fun g => g.transform.evaluate frame).getD Affine.identity

/-- The opacity of a group at a frame as a factor: 1 if it has no transform. -/
def groupFactor (gt : Option (GroupTransform F)) (frame : F) : F :=
  (gt.map fun g => g.opacity.evaluate frame /. lit 100).getD (lit 1)

mutual
/-- The paints of a shape in document order, appended to those of the preceding shapes of its group
(which a repeater replaces by its copies). -/
def Shape.paints (alpha frame : F) : Shape F → List (Paint F) → List (Paint F)
  | .group shapes gt, before => before ++ paintsOf (alpha *. groupFactor gt frame) frame shapes []
  | .draw d, before => before ++ [d.paint alpha frame]
  | .repeater r, before =>
    (List.range (r.evaluate frame).copies).flatMap fun i =>
      if repeatAlpha (r.evaluate frame) i <=. lit 0 then []
      else before.map fun p => { p with alpha := p.alpha *. repeatAlpha (r.evaluate frame) i }
  | _, before => before

/-- The paints of the shapes of a group in document order. -/
def paintsOf (alpha frame : F) : List (Shape F) → List (Paint F) → List (Paint F)
  | [], before => before
  | s :: ss, before => paintsOf alpha frame ss (s.paints alpha frame before)
end

mutual
/-- The fills and strokes of a shape in document order, each with the opacities it is subject to, as
factors: those of the groups around it (outermost first), its own, and those of the repeaters that
repeat it; appended to those of the preceding shapes of its group. -/
def Shape.fills (frame : F) : Shape F → List (List F × Draw F) → List (List F × Draw F)
  | .group shapes gt, before =>
    before ++ (fillsOf frame shapes []).map fun p => (groupFactor gt frame :: p.1, p.2)
  | .draw d, before => before ++ [([d.opacity.evaluate frame /. lit 100], d)]
  | .repeater r, before =>
    (List.range (r.evaluate frame).copies).flatMap fun i =>
      if repeatAlpha (r.evaluate frame) i <=. lit 0 then []
      else before.map fun p => (p.1 ++ [repeatAlpha (r.evaluate frame) i], p.2)
  | _, before => before

/-- The same for the shapes of a group. -/
def fillsOf (frame : F) : List (Shape F) → List (List F × Draw F) → List (List F × Draw F)
  | [], before => before
  | s :: ss, before => fillsOf frame ss (s.fills frame before)
end

/-- The paint belongs to a fill or stroke of one of the layers, or of a layer of a precomposition
they show at any depth; the opacity factor starts at `alpha` and is multiplied by the opacity of each
layer on the way. -/
inductive PaintIn (c : Composition F) : List (Layer F) → F → F → Paint F → Prop where
  | shape {ls : List (Layer F)} {alpha frame : F} {l : Layer F} {shapes : List (Shape F)}
      {p : Paint F} (hl : l ∈ ls) (hc : l.content = .shape shapes)
      (hf : l.frames.contains frame = true)
      (hp : p ∈ paintsOf (alpha *. l.opacity.evaluate frame /. lit 100) frame shapes []) :
      PaintIn c ls alpha frame p
  | precomp {ls als : List (Layer F)} {alpha frame : F} {l : Layer F} {name : String}
      {tr : Option (Value F F)} {p : Paint F} (hl : l ∈ ls) (hc : l.content = .instance name tr)
      (hf : l.frames.contains frame = true) (ha : c.asset name = some als)
      (hp : PaintIn c als (alpha *. l.opacity.evaluate frame /. lit 100)
        (frame /. l.stretch +. FloatOps.neg l.startFrame /. l.stretch) p) :
      PaintIn c ls alpha frame p

/-- The path of a geometry at a frame. -/
def Geometry.pathAt (g : Geometry F) (frame : F) : List (PathEl F) :=
  match g.evaluate frame with
  | .ok els => els
  | .error _ => []

mutual
/-- The outlines of the geometry in a shape, including nested groups, each with the transform of the
group it is in. -/
def Shape.leaves (T : Affine F) (frame : F) : Shape F → List (Outline F)
  | .geometry g => [⟨T, g.pathAt frame⟩]
  | .group shapes gt => leavesOf (T.mul (groupMatrix gt frame)) frame shapes
  | _ => []

/-- The outlines of the geometry in a list of shapes. -/
def leavesOf (T : Affine F) (frame : F) : List (Shape F) → List (Outline F)
  | [] => []
  | s :: ss => s.leaves T frame ++ leavesOf T frame ss
end

mutual
/-- What each fill and stroke in a shape should paint, in document order; `before` are the outlines
of the preceding shapes of its group. -/
def Shape.targets (T : Affine F) (frame : F) (before : List (Outline F)) :
    Shape F → List (List (Outline F))
  | .draw _ => [before]
  | .group shapes gt => targetsOf (T.mul (groupMatrix gt frame)) frame [] shapes
  | _ => []

/-- What each fill and stroke in the shapes of a group should paint, in document order: the outlines
that precede it in its own group. -/
def targetsOf (T : Affine F) (frame : F) (before : List (Outline F)) :
    List (Shape F) → List (List (Outline F))
  | [] => []
  | s :: ss => s.targets T frame before ++ targetsOf T frame (before ++ s.leaves T frame) ss
end

/-- All path elements of a list of outlines, each with its transform: what is painted, not how it is
divided into paths. -/
def elementsOf {F : Type} (os : List (Outline F)) : List (Affine F × PathEl F) :=
  os.flatMap fun o => o.path.map fun e => (o.transform, e)

omit [Libm F] [Kurbo F] in
/-- The two lists of outlines paint the same path elements in the same order with equal transforms
(up to the sign of zeros in the transforms). -/
def SameElements (os os' : List (Outline F)) : Prop :=
  List.Forall₂ (fun x y => (x.1 = y.1 ∨ x.1.beq y.1 = true) ∧ x.2 = y.2)
    (elementsOf os) (elementsOf os')

omit [Libm F] [Kurbo F] in
/-- The pending transform after a geometry with transform `T`: consecutive geometries with equal
transforms count as one. -/
def joinPending (pending : Option (Affine F)) (T : Affine F) : Option (Affine F) :=
  match pending with
  | some T0 => if T0.beq T then some T0 else some T
  | none => some T

mutual
/-- The transform of the last geometry, if no fill or stroke has followed it; `pending` is that of
the shapes before. -/
def Shape.pending (T : Affine F) (frame : F) (pending : Option (Affine F)) :
    Shape F → Option (Affine F)
  | .geometry _ => joinPending pending T
  | .draw _ => none
  | .group shapes gt => pendingOf (T.mul (groupMatrix gt frame)) frame pending shapes
  | _ => pending

/-- The same for a list of shapes. -/
def pendingOf (T : Affine F) (frame : F) (pending : Option (Affine F)) :
    List (Shape F) → Option (Affine F)
  | [] => pending
  | s :: ss => pendingOf T frame (s.pending T frame pending) ss
end

mutual
/-- The first geometry of a group never has the same transform as the last geometry before the group
unless a fill or stroke lies between them.  `own`: the group already has geometry; `pending`: see
`pendingOf`. -/
def Shape.Separated (T : Affine F) (frame : F) (own : Bool) (pending : Option (Affine F)) :
    Shape F → Prop
  | .geometry _ => own = true ∨ ∀ T0, pending = some T0 → T0.beq T = false
  | .group shapes gt => SeparatedIn (T.mul (groupMatrix gt frame)) frame false pending shapes
  | _ => True

/-- The same for a list of shapes. -/
def SeparatedIn (T : Affine F) (frame : F) (own : Bool) (pending : Option (Affine F)) :
    List (Shape F) → Prop
  | [] => True
  | s :: ss => s.Separated T frame own pending ∧
      SeparatedIn T frame (own || !(s.leaves T frame).isEmpty) (s.pending T frame pending) ss
end

end

mutual
/-- No trims and no repeaters, at any depth. -/
def Shape.Plain {F : Type} : Shape F → Prop
  | .group shapes _ => PlainShapes shapes
  | .geometry _ => True
  | .draw _ => True
  | .repeater _ => False
  | .trim _ => False

/-- No trims and no repeaters, at any depth. -/
def PlainShapes {F : Type} : List (Shape F) → Prop
  | [] => True
  | s :: ss => s.Plain ∧ PlainShapes ss
end

mutual
/-- No repeaters, at any depth. -/
def Shape.NoRepeaters {F : Type} : Shape F → Prop
  | .group shapes _ => NoRepeatersIn shapes
  | .repeater _ => False
  | _ => True

/-- No repeaters, at any depth. -/
def NoRepeatersIn {F : Type} : List (Shape F) → Prop
  | [] => True
  | s :: ss => s.NoRepeaters ∧ NoRepeatersIn ss
end

end Velato
