import Verif.Spec.Json

/-!
# The format

What it means for a JSON value to describe an animation: for every structure of the schema, which
keys hold which of its attributes and which of them may be missing.  The relations say nothing
about how a document is read.
-/

namespace Velato.Format
open Schema

section
variable {F : Type}

/-! ### Keys -/

/-- The entries of an object. -/
abbrev Entries (F : Type) := List (String × Json F)

/-- The key is there, with a value that is read as `x`. -/
def Req {α : Type} (R : Json F → α → Prop) (es : Entries F) (k : String) (x : α) : Prop :=
  ∃ v, (Json.obj es).At k v ∧ R v x

/-- The key may be missing or hold `null`. -/
def Opt {α : Type} (R : Json F → α → Prop) (es : Entries F) (k : String) : Option α → Prop
  | none => ¬ (Json.obj es).HasKey k ∨ (Json.obj es).At k .null
  | some x => ∃ v, (Json.obj es).At k v ∧ v ≠ .null ∧ R v x

/-- An object that is read as `x`. -/
def Object {α : Type} (R : Entries F → α → Prop) (j : Json F) (x : α) : Prop :=
  ∃ es, j = .obj es ∧ R es x

/-- An object, or the array of the values of all its keys in order. -/
def Record {α : Type} (keys : List String) (R : Entries F → α → Prop) (j : Json F) (x : α) : Prop :=
  ∃ es, (j = .obj es ∨ ∃ vs, j = .arr vs ∧ vs.length = keys.length ∧ es = keys.zip vs) ∧ R es x

/-- An array whose elements are read as those of `xs`. -/
def Array {α : Type} (R : Json F → α → Prop) (j : Json F) (xs : List α) : Prop :=
  ∃ vs, j = .arr vs ∧ List.Forall₂ R vs xs

/-! ### Values -/

/-- Any value. -/
def Anything (j x : Json F) : Prop := j = x

/-- A truth value. -/
def Truth (j : Json F) (b : Bool) : Prop := j = .bool b

/-- A string. -/
def Text (j : Json F) (s : String) : Prop := j = .str s

/-- A natural number up to `max`. -/
def Natural (max : Nat) (j : Json F) (n : Nat) : Prop := j = .num (.posInt n) ∧ n ≤ max

/-- One of the given numbers. -/
def Code {α : Type} (table : List (Nat × α)) (j : Json F) (x : α) : Prop :=
  ∃ n, j = .num (.posInt n) ∧ (n, x) ∈ table

/-- One of the given names, or an object that has the name as its only key and holds nothing. -/
def Name {α : Type} (nothing : Json F → Prop) (table : List (String × α)) (j : Json F) (x : α) :
    Prop :=
  ∃ s, (s, x) ∈ table ∧ (j = .str s ∨ ∃ v, nothing v ∧ j = .obj [(s, v)])

section
variable [FloatOps F]

/-- A number. -/
def Number (j : Json F) (x : F) : Prop :=
  (∃ n : Nat, j = .num (.posInt n) ∧ x = FloatOps.ofUsize n) ∨
  (∃ n : Int, j = .num (.negInt n) ∧ x = FloatOps.neg (FloatOps.ofUsize n.natAbs)) ∨
  j = .num (.float x)

/-- Two numbers. -/
def Pair (j : Json F) (p : F × F) : Prop := ∃ a b, j = .arr [a, b] ∧ Number a p.1 ∧ Number b p.2

end

/-! ### Constants -/

/-- 0 and 1. -/
def Flag : Json F → BoolInt → Prop := Code [(0, .false), (1, .true)]

/-- The numbers of the blend modes. -/
def Blend : Json F → Schema.BlendMode → Prop :=
  Code [(0, .normal), (1, .multiply), (2, .screen), (3, .overlay), (4, .darken), (5, .lighten),
    (6, .colorDodge), (7, .colorBurn), (8, .hardLight), (9, .softLight), (10, .difference),
    (11, .exclusion), (12, .hue), (13, .saturation), (14, .color), (15, .luminosity), (16, .add),
    (17, .hardMix)]

/-- The numbers of the matte modes. -/
def Matte : Json F → MatteMode → Prop :=
  Code [(0, .normal), (1, .alpha), (2, .invertedAlpha), (3, .luma), (4, .invertedLuma)]

/-- The letters of the mask modes. -/
def Masking : Json F → MaskMode → Prop :=
  Name (· = .null) [("n", .none), ("a", .add), ("s", .subtract), ("i", .intersect), ("l", .lighten),
    ("d", .darken), ("f", .difference)]

/-- The letters of the parts of a dash pattern. -/
def Dashing : Json F → StrokeDashType → Prop :=
  Name (fun v => v = .null ∨ v = .obj []) [("d", .dash), ("g", .gap), ("o", .offset)]

/-- The numbers of the line caps. -/
def Cap : Json F → LineCap → Prop := Code [(1, .butt), (2, .round), (3, .square)]

/-- The numbers of the line joins. -/
def Join : Json F → LineJoin → Prop := Code [(1, .miter), (2, .round), (3, .bevel)]

/-- The numbers of the kinds of gradients. -/
def GradientKind : Json F → GradientType → Prop := Code [(1, .linear), (2, .radial)]

/-- The numbers of the fill rules. -/
def Rule : Json F → Schema.FillRule → Prop := Code [(1, .nonZero), (2, .evenOdd)]

/-- The numbers of the ways to merge paths. -/
def Merging : Json F → MergeMode → Prop :=
  Code [(1, .normal), (2, .add), (3, .subtract), (4, .intersect), (5, .excludeIntersections)]

/-- The numbers of the directions. -/
def Direction : Json F → ShapeDirection → Prop := Code [(1, .normal), (3, .reversed)]

/-- The numbers of the kinds of stars. -/
def StarKind : Json F → StarType → Prop := Code [(1, .star), (2, .polygon)]

/-- The numbers of the ways to trim. -/
def Trimming : Json F → TrimMultipleShapes → Prop := Code [(1, .individually), (2, .simultaneously)]

/-- The numbers of the ways to stack copies. -/
def Stacking : Json F → Composite → Prop := Code [(1, .above), (2, .below)]

/-! ### Animated properties -/

variable [FloatOps F]

/-- The names of a thing. -/
def Names (es : Entries F) (v : VisualObject) : Prop :=
  Opt Text es "nm" v.name ∧ Opt Text es "mn" v.matchName

/-- A Bézier path. -/
def Path : Json F → Bezier F → Prop :=
  Record ["c", "v", "i", "o"] fun es b =>
    Opt Truth es "c" b.closed ∧ Req (Array Pair) es "v" b.vertices ∧
    Req (Array Pair) es "i" b.inTangents ∧ Req (Array Pair) es "o" b.outTangents

/-- A coordinate of an easing handle: a number, or one for each component. -/
def Coordinate (j : Json F) : KeyframeComponent F → Prop
  | .arrayOfValues xs => Array Number j xs
  | .singleValue x => Number j x

/-- An easing handle. -/
def Handle : Json F → KeyframeBezierHandle F → Prop :=
  Record ["x", "y"] fun es h => Req Coordinate es "x" h.x ∧ Req Coordinate es "y" h.y

/-- When a keyframe is and how the property leaves it. -/
def Timing (es : Entries F) (b : KeyframeBase F) : Prop :=
  Req Number es "t" b.time ∧ Opt Flag es "h" b.hold ∧ Opt Handle es "i" b.inTangent ∧
  Opt Handle es "o" b.outTangent

/-- The entries of a keyframe. -/
def KeyframeEntries (es : Entries F) (k : Keyframe F) : Prop :=
  Timing es k.base ∧ Req (Array Number) es "s" k.value ∧
  Opt (Array Number) es "e" k.endValueDeprecated

/-- A keyframe. -/
def IsKeyframe : Json F → Keyframe F → Prop := Object KeyframeEntries

/-- The value of a property: keyframes, or else a value that does not change. -/
def Animated {S : Type} (R : Json F → S → Prop) (j : Json F) : AnimatedPropertyK F S → Prop
  | .animatedValue ks => Array IsKeyframe j ks
  | .static s => R j s ∧ ¬ ∃ ks, Array IsKeyframe j ks

/-- The entries of a property. -/
def Property {S : Type} (R : Json F → S → Prop) (es : Entries F) (p : AnimatedProperty F S) : Prop :=
  Req (Animated R) es "k" p.value ∧ Opt Number es "ix" p.propertyIndex ∧
  Opt Flag es "a" p.animated ∧ Opt Text es "x" p.expression ∧ Opt Text es "sid" p.slotId

/-- A property that is a number. -/
def Scalar : Json F → FloatValue F → Prop := Object (Property Number)

/-- A property that is a colour. -/
def Colour : Json F → ColorValue F → Prop := Object (Property (Array Number))

/-- A property with several components. -/
def Vector : Json F → MultiDimensional F → Prop :=
  Object fun es v => Property (Array Number) es v.animatedProperty ∧ Opt Number es "l" v.length

/-- The colours of a gradient. -/
def Stops : Json F → GradientColors F → Prop :=
  Record ["k", "p"] fun es g => Req Vector es "k" g.colors ∧ Req (Natural (2 ^ 64 - 1)) es "p" g.count

/-- A keyframe of a position. -/
def IsPositionKeyframe : Json F → PositionKeyframe F → Prop :=
  Object fun es k => KeyframeEntries es k.keyframe ∧ Opt (Array Number) es "ti" k.valueInTangent ∧
    Opt (Array Number) es "to" k.valueOutTangent

/-- The value of a position. -/
def AnimatedPosition (j : Json F) : PositionValueK F → Prop
  | .animated ks => Array IsPositionKeyframe j ks
  | .static xs => Array Number j xs ∧ ¬ ∃ ks, Array IsPositionKeyframe j ks

/-- A position. -/
def Position : Json F → Schema.Position F → Prop :=
  Record ["ix", "a", "x", "l", "k"] fun es p =>
    Req AnimatedPosition es "k" p.value ∧ Opt Number es "ix" p.propertyIndex ∧
    Opt Flag es "a" p.animated ∧ Opt Text es "x" p.expression ∧ Opt Number es "l" p.length

/-- A keyframe of a path. -/
def IsPathKeyframe : Json F → ShapeKeyframe F → Prop :=
  Object fun es k => Timing es k.base ∧ Opt (Array Path) es "s" k.start ∧ Opt (Array Path) es "e" k.stop

/-- The keyframes of a path: only the last may lack its path, and not if it is the first. -/
def PathKeyframes (j : Json F) (ks : List (ShapeKeyframe F)) : Prop :=
  Array IsPathKeyframe j ks ∧
  ∀ (i : Nat) (hi : i < ks.length), ks[i].start = none → 0 < i ∧ i + 1 = ks.length

/-- The value of an animated path. -/
def AnimatedPath (j : Json F) : ShapePropertyK F → Prop
  | .animated ks => PathKeyframes j ks
  | .static b => Path j b ∧ ¬ ∃ ks, PathKeyframes j ks

/-- A property that is a path. -/
def PathProperty : Json F → ShapeProperty F → Prop :=
  Record ["ix", "a", "x", "k"] fun es p =>
    Req AnimatedPath es "k" p.value ∧ Opt Number es "ix" p.propertyIndex ∧
    Opt Flag es "a" p.animated ∧ Opt Text es "x" p.expression

/-- A position whose components are separate properties. -/
def Split : Json F → SplitVector F → Prop :=
  Record ["s", "x", "y", "z"] fun es s =>
    Req Truth es "s" s.split ∧ Req Scalar es "x" s.x ∧ Req Scalar es "y" s.y ∧ Opt Scalar es "z" s.z

/-- The position of a transform. -/
def AnyPosition (j : Json F) : AnyTransformP F → Prop
  | .position p => Position j p
  | .splitPosition s => Split j s ∧ ¬ ∃ p, Position j p

/-- The rotation of a transform. -/
def AnyRotation (j : Json F) : AnyTransformR F → Prop
  | .rotation v => Scalar j v
  | .splitRotation x y z o =>
    (∃ es, j = .obj es ∧ Req Scalar es "x" x ∧ Req Scalar es "y" y ∧ Req Scalar es "z" z ∧
      Req Vector es "or" o) ∧ ¬ ∃ v, Scalar j v

/-- The entries of a transform. -/
def TransformEntries (es : Entries F) (t : Schema.Transform F) : Prop :=
  Opt Position es "a" t.anchorPoint ∧ Req AnyPosition es "p" t.position ∧
  Opt Vector es "s" t.scale ∧ Opt AnyRotation es "r" t.rotation ∧ Opt Scalar es "sk" t.skew ∧
  Opt Scalar es "sa" t.skewAxis ∧ Opt Scalar es "o" t.opacity

/-- A transform. -/
def Transform : Json F → Schema.Transform F → Prop :=
  Record ["a", "p", "s", "r", "sk", "sa", "o"] TransformEntries

/-- A mask. -/
def Mask : Json F → Schema.Mask F → Prop :=
  Record ["nm", "mn", "inv", "pt", "o", "mode", "x"] fun es m =>
    Opt PathProperty es "pt" m.shape ∧ Opt Scalar es "o" m.opacity ∧ Opt Masking es "mode" m.mode ∧
    Opt Truth es "inv" m.inverted ∧ Opt Scalar es "x" m.expand ∧ Opt Text es "nm" m.name ∧
    Opt Text es "mn" m.matchName

/-! ### Shapes -/

/-- What every shape has. -/
def Element (es : Entries F) (g : GraphicElement F) : Prop :=
  Names es g.visualObject ∧ Opt Truth es "hd" g.hidden ∧ Opt Blend es "bm" g.blendMode ∧
  Opt Number es "ix" g.propertyIndex ∧ Opt Text es "cl" g.cssClass ∧ Opt Text es "ln" g.xmlId ∧
  Opt Number es "ind" g.index

/-- What every figure has. -/
def Figure (es : Entries F) (s : ShapeBase F) : Prop :=
  Element es s.graphicElement ∧ Opt Direction es "d" s.direction

/-- What every fill and stroke has. -/
def Style (es : Entries F) (s : ShapeStyle F) : Prop :=
  Element es s.graphicElement ∧ Req Scalar es "o" s.opacity

/-- A part of a dash pattern. -/
def Dash : Json F → StrokeDash F → Prop :=
  Object fun es d => Names es d.visualObject ∧ Opt Dashing es "n" d.dashType ∧
    Opt Scalar es "v" d.length

/-- How a line is drawn. -/
def Line (es : Entries F) (s : BaseStroke F) : Prop :=
  Req Scalar es "w" s.width ∧ Opt Cap es "lc" s.lineCap ∧ Opt Join es "lj" s.lineJoin ∧
  Opt Number es "ml" s.miterLimit ∧ Opt Scalar es "ml2" s.miterLimitAnim ∧
  Opt (Array Dash) es "d" s.dashes

/-- A gradient. -/
def Gradient (es : Entries F) (g : BaseGradient F) : Prop :=
  Req Stops es "g" g.colors ∧ Req Vector es "s" g.startPoint ∧ Req Vector es "e" g.endPoint ∧
  Opt GradientKind es "t" g.gradientType ∧ Opt Scalar es "h" g.highlightLength ∧
  Opt Scalar es "a" g.highlightAngle

/-- The transform of a group or of a repeater's copies. -/
def GroupTransform (es : Entries F) (t : TransformShape F) : Prop :=
  Element es t.graphicElement ∧ TransformEntries es t.transform

/-- The transform of a repeater. -/
def Copying : Json F → RepeaterTransformShape F → Prop :=
  Object fun es t => GroupTransform es t.transform ∧ Opt Scalar es "so" t.startOpacity ∧
    Opt Scalar es "eo" t.endOpacity

/-- The name of a kind of shape and its position among the kinds. -/
def Kind : AnyShape F → String × Nat
  | .group .. => ("gr", 0)
  | .rectangle _ => ("rc", 1)
  | .ellipse _ => ("el", 2)
  | .transform _ => ("tr", 3)
  | .stroke _ => ("st", 4)
  | .puckerBloat _ => ("pb", 5)
  | .merge _ => ("mm", 6)
  | .repeater _ => ("rp", 7)
  | .offsetPath _ => ("op", 8)
  | .fill _ => ("fl", 9)
  | .trim _ => ("tm", 10)
  | .path _ => ("sh", 11)
  | .gradientFill _ => ("gf", 12)
  | .gradientStroke _ => ("gs", 13)
  | .twist _ => ("tw", 14)
  | .roundedCorners _ => ("rd", 15)
  | .polyStar _ => ("sr", 16)

/-- The entries of a shape other than a group. -/
def ShapeEntries (es : Entries F) : AnyShape F → Prop
  | .group .. => False
  | .rectangle s => Figure es s.shape ∧ Req Position es "p" s.position ∧ Req Vector es "s" s.size ∧
      Req Scalar es "r" s.roundedCornerRadius
  | .ellipse s => Figure es s.shape ∧ Req Position es "p" s.position ∧ Req Vector es "s" s.size
  | .path s => Figure es s.shape ∧ Req PathProperty es "ks" s.shapeProperty
  | .polyStar s => Figure es s.shape ∧ Req Position es "p" s.position ∧
      Req Scalar es "or" s.outerRadius ∧ Req Scalar es "os" s.outerRoundness ∧
      Req Scalar es "r" s.rotation ∧ Req Scalar es "pt" s.points ∧ Req StarKind es "sy" s.starType ∧
      Opt Scalar es "ir" s.innerRadius ∧ Opt Scalar es "is" s.innerRoundness
  | .transform s => GroupTransform es s
  | .fill s => Style es s.shapeStyle ∧ Req Colour es "c" s.color ∧ Opt Rule es "r" s.fillRule
  | .stroke s => Style es s.shapeStyle ∧ Line es s.baseStroke ∧ Req Colour es "c" s.strokeColor
  | .gradientFill s => Style es s.shapeStyle ∧ Gradient es s.gradient ∧ Opt Rule es "r" s.fillRule
  | .gradientStroke s => Style es s.shapeStyle ∧ Line es s.baseStroke ∧ Gradient es s.gradient
  | .trim s => Element es s.modifier ∧ Req Scalar es "s" s.start ∧ Req Scalar es "e" s.stop ∧
      Req Scalar es "o" s.offset ∧ Opt Trimming es "m" s.multiple
  | .repeater s => Element es s.modifier ∧ Req Scalar es "c" s.copies ∧ Opt Scalar es "o" s.offset ∧
      Opt Stacking es "m" s.composite ∧ Req Copying es "tr" s.transform
  | .puckerBloat s => Element es s.modifier ∧ Opt Scalar es "a" s.amount
  | .merge s => Element es s.graphicElement ∧ Opt Merging es "mm" s.mergeMode
  | .offsetPath s => Element es s.modifier ∧ Opt Scalar es "a" s.amount ∧ Opt Join es "lj" s.lineJoin ∧
      Opt Scalar es "ml" s.miterLimit
  | .twist s => Element es s.modifier ∧ Req Scalar es "a" s.angle ∧ Req Position es "p" s.position
  | .roundedCorners s => Element es s.modifier ∧ Req Scalar es "r" s.radius

/-- The entry that says of which kind a shape is; inside a group also by position. -/
def Typed (inGroup : Bool) (es : Entries F) (s : AnyShape F) : Prop :=
  (Json.obj es).At "ty" (.str (Kind s).1) ∨
  inGroup = true ∧ (Json.obj es).At "ty" (.num (.posInt (Kind s).2))

/-- A shape, outside or inside a group. -/
inductive Shape : Bool → Json F → AnyShape F → Prop
  | single {inGroup es s} : Typed inGroup es s → ShapeEntries es s → Shape inGroup (.obj es) s
  | group {inGroup es g np vs items cix} :
      Typed inGroup es (.group g np items cix) → Element es g → Opt Number es "np" np →
      Opt (Natural 255) es "cix" cix → (Json.obj es).At "it" (.arr vs) →
      vs.length = items.length →
      (∀ (i : Nat) (hv : i < vs.length) (hs : i < items.length), Shape true vs[i] items[i]) →
      Shape inGroup (.obj es) (.group g np items cix)

/-! ### Layers -/

/-- What every layer has.  The start of a layer that shows a composition is its own attribute. -/
def Base (comp : Bool) (es : Entries F) (l : LayerBase F) : Prop :=
  Names es l.visualObject ∧ Opt Flag es "ddd" l.threeDimensional ∧ Opt Truth es "hd" l.hidden ∧
  Req (Natural 255) es "ty" l.layerType ∧ Opt (Natural (2 ^ 64 - 1)) es "ind" l.index ∧
  Opt (Natural (2 ^ 64 - 1)) es "parent" l.parentIndex ∧ Opt Number es "sr" l.timeStretch ∧
  Req Number es "ip" l.inPoint ∧ Req Number es "op" l.outPoint ∧
  (if comp then l.startTime = none else Opt Number es "st" l.startTime)

/-- What every layer that can be seen has. -/
def Visual (comp : Bool) (es : Entries F) (l : VisualLayer F) : Prop :=
  Base comp es l.layer ∧ Req Transform es "ks" l.transform ∧ Opt Matte es "tt" l.matteMode ∧
  Opt Flag es "td" l.matteTarget ∧ Opt Number es "tp" l.matteLayerIndex ∧
  Opt (Array Mask) es "masksProperties" l.masksProperties ∧ Opt Truth es "hasMask" l.hasMask ∧
  Opt Blend es "bm" l.blendMode ∧ Opt Flag es "ao" l.rotateToMatch ∧
  Opt Truth es "mb" l.motionBlur ∧ Opt Text es "cl" l.cssClass ∧ Opt Text es "ln" l.id ∧
  Opt Text es "tg" l.tagName ∧ Opt Text es "cp" l.transformBeforeMaskDeprecated ∧
  Opt Flag es "ct" l.transformBeforeMask

/-- The entries of a layer. -/
def LayerEntries (es : Entries F) : AnyLayer F → Prop
  | .precomposition l => Visual true es l.visualLayer ∧ Req Text es "refId" l.refId ∧
      Req Number es "w" l.width ∧ Req Number es "h" l.height ∧ Req Number es "st" l.startTime ∧
      Opt Scalar es "tm" l.timeRemap
  | .solid l => Visual false es l.visualLayer ∧ Req Number es "sw" l.width ∧
      Req Number es "sh" l.height ∧ Req Text es "sc" l.color
  | .shape l => Visual false es l.visualLayer ∧ Req (Array (Shape false)) es "shapes" l.shapes
  | .null l => Visual false es l
  | .image l => Visual false es l.visualLayer ∧ Req Text es "refId" l.refId

/-- A layer; its kind is the number in `ty`. -/
def Layer : Json F → AnyLayer F → Prop :=
  Object fun es l => (Json.obj es).At "ty" (.num (.posInt l.typeCode)) ∧ LayerEntries es l

/-! ### Documents -/

/-- What every asset has. -/
def AssetEntries (es : Entries F) (a : AssetBase) : Prop :=
  Req Text es "id" a.id ∧ Names es a.visualObject

/-- An asset: a composition if it has layers, else a picture if it has a size. -/
def Asset (j : Json F) : AnyAsset F → Prop
  | .precomposition a => ∃ es, j = .obj es ∧ AssetEntries es a.asset ∧
      Req (Array Layer) es "layers" a.layers ∧ Opt Number es "fr" a.frameRate ∧ Opt Flag es "xt" a.extra
  | .image a => ∃ es, j = .obj es ∧ AssetEntries es a.fileAsset.asset ∧
      ¬ j.HasKey "layers" ∧ (j.HasKey "w" ∨ j.HasKey "h") ∧
      Opt Number es "w" a.width ∧ Opt Number es "h" a.height ∧
      Opt Text es "u" a.fileAsset.dir ∧ Req Text es "p" a.fileAsset.fileName ∧
      Opt Flag es "e" a.fileAsset.embedded ∧ Opt Text es "sid" a.slotId ∧
      (¬ j.HasKey "t" ∧ a.sequence = none ∨
        ∃ s, j.At "t" (.str s) ∧ a.sequence = if s = "seq" then some true else none)

/-- A marker. -/
def IsMarker : Json F → Marker F → Prop :=
  Record ["cm", "tm", "dr"] fun es m =>
    Opt Text es "cm" m.comment ∧ Opt Number es "tm" m.time ∧ Opt Number es "dr" m.duration

/-- The entries that describe a document. -/
def MetaEntries (es : Entries F) (m : Meta F) : Prop :=
  Opt Text es "a" m.author ∧ Opt Text es "d" m.description ∧ Opt Text es "tc" m.themeColor ∧
  Opt Text es "g" m.generator ∧ Opt Anything es "k" m.keywords

/-- The description of a document: an object, or the array of the values of its first keys. -/
def IsMeta (j : Json F) (m : Meta F) : Prop :=
  ∃ es, (j = .obj es ∨
    ∃ vs, j = .arr vs ∧ vs.length ≤ 5 ∧ es = ["a", "d", "tc", "g", "k"].zip vs) ∧ MetaEntries es m

/-- A document. -/
def Document : Json F → Animation F → Prop :=
  Object fun es a =>
    Req Number es "ip" a.inPoint ∧ Req Number es "op" a.outPoint ∧ Req Number es "fr" a.frameRate ∧
    Req (Natural (2 ^ 64 - 1)) es "w" a.width ∧ Req (Natural (2 ^ 64 - 1)) es "h" a.height ∧
    Req (Array Layer) es "layers" a.layers ∧ Opt (Array Asset) es "assets" a.assets ∧
    Names es a.visualObject ∧ Opt Text es "v" a.version ∧ Opt (Natural 4294967295) es "ver" a.ver ∧
    Opt Flag es "ddd" a.threeDimensional ∧ Opt (Array IsMarker) es "markers" a.markers ∧
    Opt IsMeta es "meta" a.metaInfo ∧ Opt Anything es "metadata" a.metadata

end
end Velato.Format
