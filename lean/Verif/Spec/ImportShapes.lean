import Verif.Spec.Import
import Verif.Model.Import

/-!
# What import should make of shapes

Relations between the shapes of a document and the imported shapes.  `intoModel` is velato's
constant folding (the subject of property C11).
-/

namespace Velato
open FloatOps (lit)

section
variable {F : Type}

/-- A scalar property: a static value is fixed; otherwise one entry per keyframe. -/
def ScalarOf (p : Schema.FloatValue F) (v : Value F F) : Prop :=
  match p.value with
  | .static x => v = .fixed x
  | .animatedValue ks => ∃ ts vs, v = .animated ⟨ts, vs⟩ ∧
      List.Forall₂ (fun (k : Schema.Keyframe F) t => EasedTimeOf k.base t) ks ts ∧
      List.Forall₂ (fun (k : Schema.Keyframe F) x => k.value.head? = some x) ks vs

/-- An optional scalar property with a default. -/
def ScalarOr (p : Option (Schema.FloatValue F)) (d : F) (v : Value F F) : Prop :=
  match p with
  | some p => ScalarOf p v
  | none => v = .fixed d

variable [FloatOps F]

/-- A vector property: a static value is fixed; otherwise one or two entries per keyframe. -/
def VectorOf (p : Schema.MultiDimensional F) (v : Value F (P2 F)) : Prop :=
  match p.animatedProperty.value with
  | .static xs => ∃ x, v = .fixed x ∧ PointOf xs x
  | .animatedValue ks => ∃ ts vs, v = .animated ⟨ts, vs⟩ ∧
      FromKeyframes (·.base) (fun k v => PointOf k.value v) ks ts vs

/-- A position property. -/
def PositionOf (p : Schema.Position F) (v : Value F (P2 F)) : Prop :=
  match p.value with
  | .static xs => ∃ x, v = .fixed x ∧ PointOf xs x
  | .animated ks => ∃ ts vs, v = .animated ⟨ts, vs⟩ ∧
      FromKeyframes (·.keyframe.base) (fun k v => PointOf k.keyframe.value v) ks ts vs

/-- A colour property. -/
def ColorValueOf (p : Schema.ColorValue F) (v : Value F (Color F)) : Prop :=
  match p.value with
  | .static xs => ∃ x, v = .fixed x ∧ ColorOf xs x
  | .animatedValue ks => ∃ ts vs, v = .animated ⟨ts, vs⟩ ∧
      FromKeyframes (·.base) (fun k v => ColorOf k.value v) ks ts vs

/-- A path: the outline of its only shape, or one entry per keyframe. -/
def PathOf (p : Schema.ShapeProperty F) (g : Geometry F) : Prop :=
  match p.value with
  | .static b => ∃ ps, PathPointsOf b ps ∧ g = .fixed (splineToPath ps (b.closed == some true))
  | .animated ks => ∃ s, g = .spline s ∧ s.times.length = ks.length ∧ s.values.length = ks.length ∧
      (∀ (i : Nat) k, ks[i]? = some k → ∃ t v, s.times[i]? = some t ∧ s.values[i]? = some v ∧
        PathEntry (prevKeyframe ks i) k t v) ∧
      (s.isClosed = true ↔ SomeClosed ks)

/-- Some keyframe of a path has no shape to start from. -/
def NoPath (p : Schema.ShapeProperty F) : Prop :=
  ∃ ks, p.value = .animated ks ∧ ∃ (i : Nat) (k : Schema.ShapeKeyframe F), ks[i]? = some k ∧
    ¬ ∃ b, StartOf (prevKeyframe ks i) k b

/-- A stroke style with the default join and cap of the shape. -/
structure StrokeOf (s : Schema.BaseStroke F) (dj : Schema.LineJoin) (dc : Schema.LineCap)
    (k : AnimStroke F) : Prop where
  width : ScalarOf s.width k.width
  miter : k.miterLimit = s.miterLimit
  join : match s.lineJoin.getD dj with
    | .miter => k.join = .miter
    | .round => k.join = .round
    | .bevel => k.join = .bevel
  cap : match s.lineCap.getD dc with
    | .butt => k.cap = .butt
    | .round => k.cap = .round
    | .square => k.cap = .square

variable [Kurbo F]

/-- The stops of a gradient (`convStops` is the subject of C49). -/
def StopsOf (g : Schema.GradientColors F) (s : ColorStops F) : Prop :=
  match g.colors.animatedProperty.value with
  | .static xs => s = .fixed ((Import.convStops xs g.count).map fun st =>
      ⟨FloatOps.toF32 st.offset, ⟨FloatOps.toF32 st.r, FloatOps.toF32 st.g, FloatOps.toF32 st.b,
        FloatOps.toF32 st.a⟩⟩)
  | .animatedValue ks => ∃ ts vs, s = .animated ⟨ts, vs, g.count⟩ ∧
      List.Forall₂ (fun (k : Schema.Keyframe F) t => EasedTimeOf k.base t) ks ts ∧
      List.Forall₂ (fun (k : Schema.Keyframe F) v =>
        v = (Import.convStops k.value g.count).flatMap fun st =>
          [st.offset, st.r, st.g, st.b, st.a]) ks vs

/-- A gradient: radial if it says so, otherwise linear. -/
structure GradientOf (g : Schema.BaseGradient F) (a : AnimGradient F) : Prop where
  radial : a.isRadial = true ↔ g.gradientType = some .radial
  start : VectorOf g.startPoint a.startPoint
  stop : VectorOf g.endPoint a.endPoint
  stops : StopsOf g.colors a.stops

variable [Libm F]

/-- A star or polygon: polygons have no inner radius and roundness. -/
structure StarOf (s : Schema.PolyStarShape F) (a : AnimStar F) : Prop where
  polygon : a.isPolygon = true ↔ s.starType = .polygon
  direction : a.direction = lit 1
  position : PositionOf s.position a.position
  outerRadius : ScalarOf s.outerRadius a.outerRadius
  outerRoundness : ScalarOf s.outerRoundness a.outerRoundness
  rotation : ScalarOf s.rotation a.rotation
  points : ScalarOf s.points a.points
  inner : match s.starType with
    | .polygon => a.innerRadius = .fixed (lit 0) ∧ a.innerRoundness = .fixed (lit 0)
    | .star => ScalarOr s.innerRadius (lit 0) a.innerRadius ∧
        ScalarOr s.innerRoundness (lit 0) a.innerRoundness

/-- The transform of a group: unlike the format, 1% scale if there is no scale (C14). -/
structure GroupTransformOf (s : Schema.TransformShape F) (t : GroupTransform F) : Prop where
  opacity : ScalarOr s.transform.opacity (lit 100) t.opacity
  transform : ∃ (a : AnimTransform F) (p : Schema.Position F),
    t.transform = a.intoModel ∧
    s.transform.position = .position p ∧
    (∃ v, a.position = .value v ∧ PositionOf p v) ∧
    (match s.transform.anchorPoint with
      | some q => PositionOf q a.anchor
      | none => a.anchor = .fixed ⟨lit 0, lit 0⟩) ∧
    (match s.transform.rotation with
      | some (.rotation r) => ScalarOf r a.rotation
      | some (.splitRotation ..) => False
      | none => a.rotation = .fixed (lit 0)) ∧
    (match s.transform.scale with
      | some q => VectorOf q a.scale
      | none => a.scale = .fixed ⟨lit 1, lit 1⟩) ∧
    ScalarOr s.transform.skew (lit 0) a.skew ∧
    ScalarOr s.transform.skewAxis (lit 0) a.skewAngle

/-- The last transform element of a list of shapes. -/
def LastTransform (items : List (Schema.AnyShape F)) : Option (Schema.TransformShape F) → Prop
  | none => ∀ t, Schema.AnyShape.transform t ∉ items
  | some t => ∃ l r, items = l ++ .transform t :: r ∧ ∀ t', Schema.AnyShape.transform t' ∉ r

/-- Shapes that velato ignores. -/
def Ignored : Schema.AnyShape F → Prop
  | .transform _ | .puckerBloat _ | .merge _ | .repeater _ | .offsetPath _ | .twist _
  | .roundedCorners _ => True
  | _ => False

mutual
/-- What import makes of one shape; `none` if it is dropped. -/
inductive KeepsShape : Schema.AnyShape F → Option (Shape F) → Prop where
  | ellipse {s : Schema.EllipseShape F} {p z} (hp : PositionOf s.position p)
      (hz : VectorOf s.size z) : KeepsShape (.ellipse s) (some (.geometry (.ellipse ⟨false, p, z⟩)))
  | rectangle {s : Schema.RectangleShape F} {p z r} (hp : PositionOf s.position p)
      (hz : VectorOf s.size z) (hr : ScalarOf s.roundedCornerRadius r) :
      KeepsShape (.rectangle s) (some (.geometry (.rect ⟨false, p, z, r⟩)))
  | polyStar {s : Schema.PolyStarShape F} {a g} (ha : StarOf s a) (hg : a.intoModel = .ok g) :
      KeepsShape (.polyStar s) (some (.geometry g))
  | path {s : Schema.PathShape F} {g} (hg : PathOf s.shapeProperty g) :
      KeepsShape (.path s) (some (.geometry g))
  | noPath {s : Schema.PathShape F} (h : NoPath s.shapeProperty) : KeepsShape (.path s) none
  | fill {s : Schema.FillShape F} {c o} (hc : ColorValueOf s.color c)
      (ho : ScalarOf s.shapeStyle.opacity o) :
      KeepsShape (.fill s) (some (.draw ⟨none, (AnimBrush.solid c).intoModel, o⟩))
  | stroke {s : Schema.StrokeShape F} {k c o} (hk : StrokeOf s.baseStroke .bevel .butt k)
      (hc : ColorValueOf s.strokeColor c) (ho : ScalarOf s.shapeStyle.opacity o) :
      KeepsShape (.stroke s)
        (some (.draw ⟨some k.intoModel, (AnimBrush.solid c).intoModel, o⟩))
  | gradientFill {s : Schema.GradientFillShape F} {g o} (hg : GradientOf s.gradient g) :
      KeepsShape (.gradientFill s) (some (.draw ⟨none, (AnimBrush.gradient g).intoModel, o⟩))
  | gradientStroke {s : Schema.GradientStrokeShape F} {k g o}
      (hk : StrokeOf s.baseStroke .round .round k) (hg : GradientOf s.gradient g) :
      KeepsShape (.gradientStroke s)
        (some (.draw ⟨some k.intoModel, (AnimBrush.gradient g).intoModel, o⟩))
  | trim {s : Schema.TrimPathShape F} {a b c} (ha : ScalarOf s.start a) (hb : ScalarOf s.stop b)
      (hc : ScalarOf s.offset c) :
      KeepsShape (.trim s) (some (.trim (AnimTrim.intoModel ⟨a, b, c⟩)))
  | group {e n items i out t gt} (hi : KeepsItems items out) (hne : out ≠ [])
      (ht : LastTransform items t)
      (hgt : match t, gt with
        | none, none => True
        | some t, some gt => GroupTransformOf t gt
        | _, _ => False) :
      KeepsShape (.group e n items i) (some (.group out gt))
  | emptyGroup {e n items i} (hi : KeepsItems items []) : KeepsShape (.group e n items i) none
  | ignored {s} (h : Ignored s) : KeepsShape s none

/-- What import makes of a list of shapes: the shapes kept, in order. -/
inductive KeepsItems : List (Schema.AnyShape F) → List (Shape F) → Prop where
  | nil : KeepsItems [] []
  | keep {s ss x out} (h : KeepsShape s (some x)) (hs : KeepsItems ss out) :
      KeepsItems (s :: ss) (x :: out)
  | drop {s ss out} (h : KeepsShape s none) (hs : KeepsItems ss out) : KeepsItems (s :: ss) out
end

end
end Velato
