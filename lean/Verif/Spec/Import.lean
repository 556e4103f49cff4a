import Verif.Model.Scene
import Verif.Model.Schema

/-!
# Reading a document: the layers of a parsed animation and of the imported composition
-/

namespace Velato.Schema

variable {F : Type}

/-- The attributes that every kind of layer has. -/
def AnyLayer.visual : AnyLayer F → VisualLayer F
  | .precomposition l => l.visualLayer
  | .solid l => l.visualLayer
  | .shape l => l.visualLayer
  | .null l => l
  | .image l => l.visualLayer

/-- The index by which other layers refer to this one: `ind`, or 0. -/
def AnyLayer.ident (l : AnyLayer F) : Nat := l.visual.layer.index.getD 0

/-- The layer is marked hidden (`hd`). -/
def AnyLayer.Hidden (l : AnyLayer F) : Prop := l.visual.layer.hidden = some true

/-- The layer is a visible layer marked as the matte of others (`td`). -/
def AnyLayer.Matte (l : AnyLayer F) : Prop := ¬ l.Hidden ∧ l.visual.matteTarget = some .true

/-- The layer asks for a matte (`tt`). -/
def AnyLayer.Matted (l : AnyLayer F) : Prop := l.visual.matteMode.isSome = true

/-- The start time of the layer: `st`, 0 if absent. -/
def AnyLayer.start [FloatOps F] : AnyLayer F → F
  | .precomposition l => l.startTime
  | .solid l => l.visualLayer.layer.startTime.getD (FloatOps.lit 0)
  | .shape l => l.visualLayer.layer.startTime.getD (FloatOps.lit 0)
  | .null l => l.layer.startTime.getD (FloatOps.lit 0)
  | .image l => l.visualLayer.layer.startTime.getD (FloatOps.lit 0)

/-- The same visual attributes with another value of `hd`. -/
def VisualLayer.setHidden (h : Option Bool) (v : VisualLayer F) : VisualLayer F :=
  { v with layer := { v.layer with hidden := h } }

/-- The same layer with another value of `hd`. -/
def AnyLayer.setHidden (h : Option Bool) : AnyLayer F → AnyLayer F
  | .precomposition l => .precomposition { l with visualLayer := l.visualLayer.setHidden h }
  | .solid l => .solid { l with visualLayer := l.visualLayer.setHidden h }
  | .shape l => .shape { l with visualLayer := l.visualLayer.setHidden h }
  | .null l => .null (l.setHidden h)
  | .image l => .image { l with visualLayer := l.visualLayer.setHidden h }

/-- The two lists of layers differ only in what is marked hidden. -/
def SameButHidden (ls ls' : List (AnyLayer F)) : Prop :=
  List.Forall₂ (fun l l' => ∃ h, l' = l.setHidden h) ls ls'

/-- The assets of a document. -/
def Animation.assetList (a : Animation F) : List (AnyAsset F) := a.assets.getD []

end Velato.Schema

namespace Velato

variable {F : Type}

/-- `src` is a list of layers of the document `a` and `dst` the list imported from it: the layers
of the composition itself, or those of a precomposition asset. -/
inductive ImportedList (a : Schema.Animation F) (c : Composition F) :
    List (Schema.AnyLayer F) → List (Layer F) → Prop where
  | root : ImportedList a c a.layers c.layers
  | asset (i : Nat) (p : Schema.PrecompAsset F) (dst : List (Layer F))
      (h : a.assetList[i]? = some (.precomposition p)) (h' : c.assets[i]? = some (p.asset.id, dst)) :
      ImportedList a c p.layers dst

/-- The layer `l` has the name, times and size of the layer `s` of the document. -/
structure KeepsLayer [FloatOps F] (s : Schema.AnyLayer F) (l : Layer F) : Prop where
  name : l.name = s.visual.layer.visualObject.name.getD ""
  first : l.frames.start = s.visual.layer.inPoint
  last : l.frames.stop = s.visual.layer.outPoint
  stretch : l.stretch = s.visual.layer.timeStretch.getD (FloatOps.lit 1)
  start : l.startFrame = s.start
  size : ∀ p, s = .precomposition p → l.width = p.width ∧ l.height = p.height
  instance_ : ∀ p, s = .precomposition p → ¬ s.Hidden → ∃ tr, l.content = .instance p.refId tr
  shape : ∀ p, s = .shape p → ¬ s.Hidden → ∃ ss, l.content = .shape ss

/-- `r` is the last position in `ids` at which `id` stands, `none` if there is none. -/
def LastPosition {α : Type} (ids : List α) (id : α) : Option Nat → Prop
  | some i => ids[i]? = some id ∧ ∀ j, i < j → ids[j]? ≠ some id
  | none => id ∉ ids

/-- Position `j` holds the matte that a matted layer at position `i` consumes: the nearest matte
before `i`, if no layer in between is matted. -/
def PendingMatte (src : List (Schema.AnyLayer F)) (i j : Nat) : Prop :=
  j < i ∧ (∃ s, src[j]? = some s ∧ s.Matte) ∧
    ∀ k s, j < k → k < i → src[k]? = some s → ¬ s.Matte ∧ ¬ s.Matted

/-- The layer compositing a matte mode stands for: the source is kept inside (or outside, when
inverted) the matte; mode Normal is plain blending. -/
def matteBlend : Schema.MatteMode → BlendMode
  | .normal => BlendMode.ofMix .normal
  | .alpha | .luma => BlendMode.ofCompose .srcIn
  | .invertedAlpha | .invertedLuma => BlendMode.ofCompose .srcOut

/-- The time and hold flag of a keyframe of the document. -/
def TimeOf (k : Schema.KeyframeBase F) (t : Time F) : Prop :=
  t.frame = k.time ∧ (t.hold = true ↔ k.hold = some .true)

/-- A coordinate of an easing handle: a number or an array of a single number. -/
def ComponentOf (c : Schema.KeyframeComponent F) (x : F) : Prop :=
  c = .singleValue x ∨ c = .arrayOfValues [x]

/-- An optional easing handle. -/
def HandleOf : Option (Schema.KeyframeBezierHandle F) → Option (EasingHandle F) → Prop
  | none, none => True
  | some h, some e => ComponentOf h.x e.x ∧ ComponentOf h.y e.y
  | _, _ => False

/-- The time, hold flag and handles of a keyframe of the document. -/
def EasedTimeOf (k : Schema.KeyframeBase F) (t : Time F) : Prop :=
  TimeOf k t ∧ HandleOf k.inTangent t.inTangent ∧ HandleOf k.outTangent t.outTangent

/-- Coordinate `c` of an easing handle: of an array its entry, otherwise the number. -/
def Schema.KeyframeComponent.axis (c : Nat) : Schema.KeyframeComponent F → Option F
  | .singleValue x => some x
  | .arrayOfValues xs => xs[c]?

/-- `e` is the handle `h` of a keyframe for coordinate `c`. -/
def HandleAxis (c : Nat) (h : Option (Schema.KeyframeBezierHandle F)) (e : EasingHandle F) : Prop :=
  ∃ h', h = some h' ∧ h'.x.axis c = some e.x ∧ h'.y.axis c = some e.y

/-- The handle is given for two coordinates separately. -/
def TwoAxes (h : Option (Schema.KeyframeBezierHandle F)) : Prop :=
  (∃ e, HandleAxis 1 h e) ∧ ∀ x y, h ≠ some ⟨.singleValue x, .singleValue y⟩

/-- The time, hold flag and, for coordinate `c`, the two handles of a keyframe. -/
def AxisTimeOf (c : Nat) (k : Schema.KeyframeBase F) (t : Time F) : Prop :=
  TimeOf k t ∧ ∃ i o, HandleAxis c k.inTangent i ∧ HandleAxis c k.outTangent o ∧
    t.inTangent = some i ∧ t.outTangent = some o

/-- The time and hold flag of a keyframe that has not both handles. -/
def PlainTimeOf (k : Schema.KeyframeBase F) (t : Time F) : Prop :=
  TimeOf k t ∧ t.inTangent = none ∧ t.outTangent = none ∧
    ¬ ((∃ i, HandleAxis 0 k.inTangent i) ∧ ∃ o, HandleAxis 0 k.outTangent o)

/-- `ts` and `vs` have the same length and consist of one or two entries per keyframe, in the order
of the keyframes, with values related to the keyframe by `R`.  There are two entries if both
handles are given for two coordinates; each has the handles for its coordinate. -/
inductive FromKeyframes {K V : Type} (base : K → Schema.KeyframeBase F) (R : K → V → Prop) :
    List K → List (Time F) → List V → Prop where
  | nil : FromKeyframes base R [] [] []
  | plain {k ks t ts v vs} (h : PlainTimeOf (base k) t) (hv : R k v)
      (hs : FromKeyframes base R ks ts vs) : FromKeyframes base R (k :: ks) (t :: ts) (v :: vs)
  | once {k ks t ts v vs} (h : AxisTimeOf 0 (base k) t)
      (h1 : ¬ (TwoAxes (base k).inTangent ∧ TwoAxes (base k).outTangent)) (hv : R k v)
      (hs : FromKeyframes base R ks ts vs) : FromKeyframes base R (k :: ks) (t :: ts) (v :: vs)
  | twice {k ks t t' ts v v' vs} (h : AxisTimeOf 0 (base k) t) (h' : AxisTimeOf 1 (base k) t')
      (h2 : TwoAxes (base k).inTangent ∧ TwoAxes (base k).outTangent) (hv : R k v) (hv' : R k v')
      (hs : FromKeyframes base R ks ts vs) :
      FromKeyframes base R (k :: ks) (t :: t' :: ts) (v :: v' :: vs)

/-- A point: the first two numbers, the origin if there are fewer. -/
def PointOf [FloatOps F] (xs : List F) (p : P2 F) : Prop :=
  (∃ x y rest, xs = x :: y :: rest ∧ p = ⟨x, y⟩) ∨
  (xs.length < 2 ∧ p = ⟨FloatOps.lit 0, FloatOps.lit 0⟩)

/-- A colour: the first three numbers in single precision, black if there are fewer; opaque. -/
def ColorOf [FloatOps F] (xs : List F) (c : Color F) : Prop :=
  (∃ r g b rest, xs = r :: g :: b :: rest ∧
    c = ⟨FloatOps.toF32 r, FloatOps.toF32 g, FloatOps.toF32 b, FloatOps.lit 1⟩) ∨
  (xs.length < 3 ∧ c = ⟨FloatOps.toF32 (FloatOps.lit 0), FloatOps.toF32 (FloatOps.lit 0),
    FloatOps.toF32 (FloatOps.lit 0), FloatOps.lit 1⟩)

/-- The vertices of a path with the handles relative to them (0 where there are none). -/
def PathPointsOf [FloatOps F] (b : Schema.Bezier F) (ps : List (P2 F)) : Prop :=
  ps.length = 3 * b.vertices.length ∧ ∀ (i : Nat) v, b.vertices[i]? = some v →
    ps[3 * i]? = some ⟨v.1, v.2⟩ ∧
    (∀ t, t = b.inTangents[i]?.getD (FloatOps.lit 0, FloatOps.lit 0) →
      ps[3 * i + 1]? = some ⟨t.1, t.2⟩) ∧
    (∀ t, t = b.outTangents[i]?.getD (FloatOps.lit 0, FloatOps.lit 0) →
      ps[3 * i + 2]? = some ⟨t.1, t.2⟩)

/-- The path of keyframe `k` at its own time: its start shape; if it has none, the end shape of the
previous keyframe, or else its start shape. -/
def StartOf (prev : Option (Schema.ShapeKeyframe F)) (k : Schema.ShapeKeyframe F)
    (b : Schema.Bezier F) : Prop :=
  match k.start with
  | some bs => bs.head? = some b
  | none => ∃ p, prev = some p ∧
      ((p.stop.bind List.head? = some b) ∨
       (p.stop.bind List.head? = none ∧ p.start.bind List.head? = some b))

/-- One entry of an imported animated path. -/
structure PathEntry [FloatOps F] (prev : Option (Schema.ShapeKeyframe F)) (k : Schema.ShapeKeyframe F)
    (t : Time F) (v : SplineValues F) : Prop where
  time : EasedTimeOf k.base t
  start : ∃ b, StartOf prev k b ∧ PathPointsOf b v.start
  stop : match v.stop, k.stop.bind List.head? with
    | none, none => True
    | some ps, some b => PathPointsOf b ps
    | _, _ => False

/-- The keyframe before position `i`. -/
def prevKeyframe (ks : List (Schema.ShapeKeyframe F)) : Nat → Option (Schema.ShapeKeyframe F)
  | 0 => none
  | i + 1 => ks[i]?

/-- Some shape of the path is closed. -/
def SomeClosed (ks : List (Schema.ShapeKeyframe F)) : Prop :=
  ∃ (i : Nat) (k : Schema.ShapeKeyframe F) (b : Schema.Bezier F), ks[i]? = some k ∧
    (StartOf (prevKeyframe ks i) k b ∨ k.stop.bind List.head? = some b) ∧ b.closed = some true

end Velato
