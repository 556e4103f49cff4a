import Verif.Spec.Format
import Verif.Proofs.JsonKeys
import Verif.Proofs.ParsedPaths
import Mathlib.Data.List.Forall2
import Mathlib.Tactic.Tauto
import Mathlib.Tactic.IntervalCases

/-!
# The parser and the format
-/

namespace Velato
open Schema Decode

namespace Format

section
variable {F : Type}

/-- The function reads exactly what the relation says. -/
def Exact {α : Type} (d : Json F → Option α) (R : Json F → α → Prop) : Prop :=
  ∀ v x, d v = some x ↔ R v x

/-- The same for entries. -/
def ExactE {α : Type} (d : Obj F → Option α) (R : Entries F → α → Prop) : Prop :=
  ∀ es x, d es = some x ↔ R es x

theorem hasKey_iff {es : Obj F} {k : String} : ¬ (Json.obj es).HasKey k ↔ lookup es k = none := by
  rw [← lookup_isSome]; cases lookup es k <;> simp

theorem req_iff {α : Type} {d : Json F → Option α} {R : Json F → α → Prop} (h : Exact d R)
    (es : Obj F) (k : String) (x : α) : req d es k = some x ↔ Req R es k x := by
  unfold req Req
  simp only [← lookup_at, ← h _ _]
  cases lookup es k <;> simp

theorem opt_iff {α : Type} {d : Json F → Option α} {R : Json F → α → Prop} (h : Exact d R)
    (es : Obj F) (k : String) (x : Option α) : opt d es k = some x ↔ Opt R es k x := by
  unfold opt Opt
  simp only [← lookup_at, hasKey_iff, ← h _ _]
  rcases lookup es k with _ | v
  · cases x <;> simp
  · cases v <;> cases x <;> simp

theorem object {α : Type} {d : Obj F → Option α} {R : Entries F → α → Prop} (h : ExactE d R) :
    Exact (fun j => (objOnly j).bind d) (Object R) := by
  intro v x
  simp only [Object, ← h _ _]
  cases v <;> simp [objOnly]

theorem record {α : Type} {d : Obj F → Option α} {R : Entries F → α → Prop} (keys : List String)
    (h : ExactE d R) : Exact (fun j => (entries keys j).bind d) (Record keys R) := by
  intro v x
  simp only [Record, ← h _ _]
  cases v <;> simp [entries]
  split <;> simp [*]

theorem mapM_some_iff {α : Type} {d : Json F → Option α} {R : Json F → α → Prop} (h : Exact d R)
    (vs : List (Json F)) : ∀ xs, vs.mapM d = some xs ↔ List.Forall₂ R vs xs := by
  induction vs with
  | nil =>
    intro xs
    cases xs with
    | nil => simp
    | cons x xs => exact ⟨(by simp), (fun h => nomatch h)⟩
  | cons v vs ih =>
    intro xs
    rw [List.mapM_cons]
    cases xs with
    | nil =>
      refine ⟨fun h => ?_, fun h => nomatch h⟩
      simp [Option.bind_eq_some_iff] at h
    | cons x xs =>
      simp only [Option.bind_eq_bind, Option.bind_eq_some_iff, Option.pure_def, Option.some.injEq,
        List.cons.injEq, List.forall₂_cons, ← ih, ← h _ _]
      constructor
      · rintro ⟨_, ha, _, hb, rfl, rfl⟩; exact ⟨ha, hb⟩
      · rintro ⟨ha, hb⟩; exact ⟨_, ha, _, hb, rfl, rfl⟩

theorem array {α : Type} {d : Json F → Option α} {R : Json F → α → Prop} (h : Exact d R) :
    Exact (jVec d) (Array R) := by
  intro v xs
  cases v <;> simp [jVec, Array, mapM_some_iff h]

/-- An untagged choice. -/
theorem choice_none {α : Type} {d : Json F → Option α} {R : Json F → α → Prop} (h : Exact d R)
    (v : Json F) : d v = none ↔ ¬ ∃ x, R v x := by
  simp only [← h _ _, not_exists]
  cases d v <;> simp

/-! ### Values -/

theorem anything : Exact (F := F) (fun v => some v) Anything := by
  intro v x; simp [Anything]

theorem truth : Exact (F := F) jBool Truth := by
  intro v x; cases v <;> simp [jBool, Truth]

theorem text : Exact (F := F) jStr Text := by
  intro v x; cases v <;> simp [jStr, Text]

theorem natural (max : Nat) : Exact (F := F) (jNat max) (Natural max) := by
  intro v x
  rcases v with _ | _ | (n | _ | _) | _ | _ | _ <;> simp [jNat, Natural]
  constructor
  · rintro ⟨h, rfl⟩; exact ⟨rfl, h⟩
  · rintro ⟨rfl, h⟩; exact ⟨h, rfl⟩

theorem u8 : Exact (F := F) jU8 (Natural 255) := natural _
theorem u32 : Exact (F := F) jU32 (Natural 4294967295) := natural _
theorem usize : Exact (F := F) jUsize (Natural (2 ^ 64 - 1)) := natural _

theorem code {α : Type} (first : Nat) (vs : List α) (h : first + vs.length ≤ 256) :
    Exact (F := F) (jRepr first vs) (Code ((vs.zipIdx first).map Prod.swap)) := by
  intro v x
  rcases v with _ | _ | (n | _ | _) | _ | _ | _ <;>
    simp [jRepr, Code, List.mem_zipIdx_iff_le_and_getElem?_sub]
  intro hg hn
  have := (List.getElem?_eq_some_iff.1 hg).1
  omega

theorem name {α : Type} (empty : Bool) (nothing : Json F → Prop) (table : List (String × α))
    (of : String → Option α) (hof : ∀ s x, of s = some x ↔ (s, x) ∈ table)
    (hn : ∀ v, nothing v ↔ v = .null ∨ empty = true ∧ v = .obj []) :
    Exact (F := F) (jUnitEnum empty of) (Name nothing table) := by
  intro v x
  unfold jUnitEnum Name
  simp only [hn, ← hof]
  split
  · simp
  · simp
  · cases empty <;> simp
  · rename_i h1 h2 h3
    simp only [reduceCtorEq, false_iff, not_exists, not_and]
    rintro s hs (rfl | ⟨v, rfl | ⟨_, rfl⟩, rfl⟩)
    · exact h1 _ rfl
    · exact h2 _ rfl
    · exact h3 _ rfl

theorem flag : Exact (F := F) jBoolInt Flag := code 0 _ (by decide)
theorem blend : Exact (F := F) jBlendMode Blend := code 0 _ (by decide)
theorem matte : Exact (F := F) jMatteMode Matte := code 0 _ (by decide)
theorem cap : Exact (F := F) jLineCap Cap := code 1 _ (by decide)
theorem join : Exact (F := F) jLineJoin Join := code 1 _ (by decide)
theorem gradientKind : Exact (F := F) jGradientType GradientKind := code 1 _ (by decide)
theorem rule : Exact (F := F) jFillRule Rule := code 1 _ (by decide)
theorem merging : Exact (F := F) jMergeMode Merging := code 1 _ (by decide)
theorem starKind : Exact (F := F) jStarType StarKind := code 1 _ (by decide)
theorem trimming : Exact (F := F) jTrimMultiple Trimming := code 1 _ (by decide)
theorem stacking : Exact (F := F) jComposite Stacking := code 1 _ (by decide)

theorem direction : Exact (F := F) jShapeDirection Direction := by
  intro v x
  unfold jShapeDirection Direction Code
  split
  · cases x <;> simp
  · cases x <;> simp
  · rename_i h1 h2
    simp only [reduceCtorEq, false_iff, not_exists, not_and]
    rintro n rfl h
    simp only [List.mem_cons, Prod.mk.injEq, List.not_mem_nil, or_false] at h
    rcases h with ⟨rfl, -⟩ | ⟨rfl, -⟩
    · exact h1 rfl
    · exact h2 rfl

theorem masking : Exact (F := F) (jUnitEnum false maskModeOf) Masking := by
  refine name _ _ _ _ (fun s x => ?_) (by simp)
  unfold maskModeOf
  split <;> cases x <;> simp_all

theorem dashing : Exact (F := F) (jUnitEnum true strokeDashTypeOf) Dashing := by
  refine name _ _ _ _ (fun s x => ?_) (by simp)
  unfold strokeDashTypeOf
  split <;> cases x <;> simp_all

variable [FloatOps F]

theorem number : Exact (F := F) jF64 Number := by
  intro v x
  rcases v with _ | _ | (n | _ | _) | _ | _ | _ <;> simp [jF64, Number, eq_comm]

theorem pair : Exact (F := F) jPair Pair := by
  intro v x
  obtain ⟨x, y⟩ := x
  unfold jPair Pair
  split
  · simp [Option.bind_eq_some_iff, number _ _]
  · rename_i h
    simp only [reduceCtorEq, false_iff, not_exists, not_and]
    rintro a b rfl
    exact absurd rfl (h a b)

/-! ### Structures -/

/-- Reads a structure field by field. -/
macro "fields" "[" ts:Lean.Parser.Tactic.simpLemma,* "]" : tactic =>
  `(tactic| (
    intro es x
    cases x
    simp (maxSteps := 1000000) [Option.bind_eq_some_iff, $ts,*] <;> tauto))

omit [FloatOps F] in
theorem names : ExactE (F := F) dVisualObject Names := by
  fields [dVisualObject, Names, opt_iff text]

theorem path : Exact (F := F) jBezier Path := by
  refine record _ ?_
  fields [dBezier, opt_iff truth, req_iff (array pair)]

theorem coordinate : Exact (F := F) jKeyframeComponent Coordinate := by
  intro v x
  unfold jKeyframeComponent
  cases h : jVec jF64 v with
  | some xs =>
    cases x <;> simp [Coordinate, ← array number _ _, ← number _ _, h]
    cases v <;> simp_all [jVec, jF64]
  | none => cases x <;> simp [Coordinate, ← array number _ _, ← number _ _, h]

theorem handle : Exact (F := F) jHandle Handle := by
  refine record _ ?_
  fields [dHandle, req_iff coordinate]

theorem timing : ExactE (F := F) dKeyframeBase Timing := by
  fields [dKeyframeBase, Timing, req_iff number, opt_iff flag, opt_iff handle]

theorem keyframeEntries : ExactE (F := F) dKeyframe KeyframeEntries := by
  fields [dKeyframe, KeyframeEntries, timing _ _, req_iff (array number), opt_iff (array number)]

theorem isKeyframe : Exact (F := F) jKeyframe IsKeyframe := object keyframeEntries

theorem animated {S : Type} {d : Json F → Option S} {R : Json F → S → Prop} (h : Exact d R) :
    Exact (jAnimatedPropertyK d) (Animated R) := by
  intro v x
  unfold jAnimatedPropertyK
  cases x <;> simp only [Animated, ← array isKeyframe _ _, ← h _ _] <;>
    cases jVec jKeyframe v <;> simp

theorem property {S : Type} {d : Json F → Option S} {R : Json F → S → Prop} (h : Exact d R) :
    ExactE (dAnimatedProperty d) (Property R) := by
  fields [dAnimatedProperty, Property, req_iff (animated h), opt_iff number, opt_iff flag,
    opt_iff text]

theorem scalar : Exact (F := F) jFloatValue Scalar := object (property number)
theorem colour : Exact (F := F) jColorValue Colour := object (property (array number))

theorem vector : Exact (F := F) jMultiDimensional Vector := by
  refine object ?_
  fields [dMultiDimensional, property (array number) _ _, opt_iff number]

theorem stops : Exact (F := F) jGradientColors Stops := by
  refine record _ ?_
  fields [dGradientColors, req_iff vector, req_iff usize]

theorem isPositionKeyframe : Exact (F := F) jPositionKeyframe IsPositionKeyframe := by
  refine object ?_
  fields [dPositionKeyframe, keyframeEntries _ _, opt_iff (array number)]

theorem animatedPosition : Exact (F := F) jPositionValueK AnimatedPosition := by
  intro v x
  unfold jPositionValueK
  cases x <;> simp only [AnimatedPosition, ← array isPositionKeyframe _ _, ← array number _ _] <;>
    cases jVec jPositionKeyframe v <;> simp

theorem position : Exact (F := F) jPosition Position := by
  refine record _ ?_
  fields [dPosition, req_iff animatedPosition, opt_iff number, opt_iff flag, opt_iff text]

theorem isPathKeyframe : Exact (F := F) jShapeKeyframe IsPathKeyframe := by
  refine object ?_
  fields [dShapeKeyframe, timing _ _, opt_iff (array path)]

theorem pathKeyframes : Exact (F := F) jShapeKeyframes PathKeyframes := by
  intro v ks
  unfold jShapeKeyframes PathKeyframes
  rw [← array isPathKeyframe _ _,
    show (∀ (i : Nat) (hi : i < ks.length), ks[i].start = none → 0 < i ∧ i + 1 = ks.length) ↔
      keyframesOk ks = true from (keyframesOk_iff ks).symm]
  cases jVec jShapeKeyframe v with
  | none => simp
  | some ks' =>
    simp only [Option.some.injEq, Option.ite_none_right_eq_some]
    constructor
    · rintro ⟨h, rfl⟩; exact ⟨rfl, h⟩
    · rintro ⟨rfl, h⟩; exact ⟨h, rfl⟩

theorem animatedPath : Exact (F := F) jShapePropertyK AnimatedPath := by
  intro v x
  unfold jShapePropertyK
  cases x <;> simp only [AnimatedPath, ← pathKeyframes _ _, ← path _ _] <;>
    cases jShapeKeyframes v <;> simp

theorem pathProperty : Exact (F := F) jShapeProperty PathProperty := by
  refine record _ ?_
  fields [dShapeProperty, req_iff animatedPath, opt_iff number, opt_iff flag, opt_iff text]

theorem split : Exact (F := F) jSplitVector Split := by
  refine record _ ?_
  rintro es ⟨b, x, y, z⟩
  cases b <;> simp [Option.bind_eq_some_iff, dSplitVector, req_iff truth, req_iff scalar,
    opt_iff scalar]

theorem anyPosition : Exact (F := F) jTransformP AnyPosition := by
  intro v x
  unfold jTransformP
  cases x <;> simp only [AnyPosition, ← position _ _, ← split _ _] <;>
    cases jPosition v <;> simp

theorem anyRotation : Exact (F := F) jTransformR AnyRotation := by
  intro v x
  unfold jTransformR
  cases h : jFloatValue v with
  | some r => cases x <;> simp [AnyRotation, ← scalar _ _, h]
  | none =>
    cases x <;> simp only [AnyRotation, ← scalar _ _, h, ← req_iff scalar _ _ _,
      ← req_iff vector _ _ _] <;> cases v <;>
      simp [jSplitRotation, objOnly, dSplitRotation, Option.bind_eq_some_iff]

theorem transformEntries : ExactE (F := F) dTransform TransformEntries := by
  fields [dTransform, TransformEntries, opt_iff position, req_iff anyPosition, opt_iff vector,
    opt_iff anyRotation, opt_iff scalar]

theorem transform : Exact (F := F) jTransform Transform := record _ transformEntries

theorem mask : Exact (F := F) jMask Mask := by
  refine record _ ?_
  fields [dMask, opt_iff text, opt_iff truth, opt_iff pathProperty, opt_iff scalar, opt_iff masking]

/-! ### Shapes -/

theorem element : ExactE (F := F) dGraphicElement Element := by
  fields [dGraphicElement, Element, names _ _, opt_iff text, opt_iff truth, opt_iff blend,
    opt_iff number]

theorem figure : ExactE (F := F) dShapeBase Figure := by
  fields [dShapeBase, Figure, element _ _, opt_iff direction]

theorem style : ExactE (F := F) dShapeStyle Style := by
  fields [dShapeStyle, Style, element _ _, req_iff scalar]

theorem dash : Exact (F := F) jStrokeDash Dash := by
  refine object ?_
  fields [dStrokeDash, names _ _, opt_iff dashing, opt_iff scalar]

theorem line : ExactE (F := F) dBaseStroke Line := by
  fields [dBaseStroke, Line, opt_iff cap, opt_iff join, opt_iff number, opt_iff scalar,
    req_iff scalar, opt_iff (array dash)]

theorem gradient : ExactE (F := F) dBaseGradient Gradient := by
  fields [dBaseGradient, Gradient, req_iff stops, req_iff vector, opt_iff gradientKind,
    opt_iff scalar]

theorem groupTransform : ExactE (F := F) dTransformShape GroupTransform := by
  fields [dTransformShape, GroupTransform, element _ _, transformEntries _ _]

theorem copying : Exact (F := F) jRepeaterTransform Copying := by
  refine object ?_
  fields [dRepeaterTransform, groupTransform _ _, opt_iff scalar]

/-- The variants by their kind. -/
theorem tag_name {s : String} {t : Tag} : Tag.ofName s = some t ↔ (s, t) ∈
    [("gr", .group), ("rc", .rectangle), ("el", .ellipse), ("tr", .transform), ("st", .stroke),
      ("pb", .puckerBloat), ("mm", .merge), ("rp", .repeater), ("op", .offsetPath), ("fl", .fill),
      ("tm", .trim), ("sh", .path), ("gf", .gradientFill), ("gs", .gradientStroke), ("tw", .twist),
      ("rd", .roundedCorners), ("sr", .polyStar)] := by
  unfold Tag.ofName
  split <;> cases t <;> simp_all

/-- The variant of a shape. -/
def tagOf : AnyShape F → Tag
  | .group .. => .group
  | .rectangle _ => .rectangle
  | .ellipse _ => .ellipse
  | .transform _ => .transform
  | .stroke _ => .stroke
  | .puckerBloat _ => .puckerBloat
  | .merge _ => .merge
  | .repeater _ => .repeater
  | .offsetPath _ => .offsetPath
  | .fill _ => .fill
  | .trim _ => .trim
  | .path _ => .path
  | .gradientFill _ => .gradientFill
  | .gradientStroke _ => .gradientStroke
  | .twist _ => .twist
  | .roundedCorners _ => .roundedCorners
  | .polyStar _ => .polyStar

omit [FloatOps F] in
theorem tag_iff (nested : Bool) (v : Json F) (s : AnyShape F) :
    jTag nested v = some (tagOf s) ↔
      v = .str (Kind s).1 ∨ nested = true ∧ v = .num (.posInt (Kind s).2) := by
  unfold jTag
  split
  · rw [tag_name]
    cases s <;> simp [tagOf, Kind]
  · rename_i n
    have : Tag.all[n]? = some (tagOf s) ↔ n = (Kind s).2 := by
      by_cases hn : n < 17
      · interval_cases n <;> cases s <;> simp [Tag.all, tagOf, Kind]
      · rw [List.getElem?_eq_none (by simp [Tag.all]; omega)]
        cases s <;> simp [Kind] <;> omega
    cases nested <;> simp [this]
  · rename_i h1 h2
    simp only [reduceCtorEq, false_iff, not_or, not_and]
    exact ⟨fun h => h1 _ h, fun _ h => h2 _ h⟩

omit [FloatOps F] in
theorem typed_iff (nested : Bool) (es : Obj F) (s : AnyShape F) :
    (∃ t, lookup es "ty" = some t ∧ jTag nested t = some (tagOf s)) ↔ Typed nested es s := by
  simp only [tag_iff, Typed, ← lookup_at]
  constructor
  · rintro ⟨t, ht, rfl | ⟨hn, rfl⟩⟩
    · exact Or.inl ht
    · exact Or.inr ⟨hn, ht⟩
  · rintro (h | ⟨hn, h⟩)
    · exact ⟨_, h, Or.inl rfl⟩
    · exact ⟨_, h, Or.inr ⟨hn, rfl⟩⟩

theorem leaf_tag {t : Tag} {es : Obj F} {s : AnyShape F} (h : dLeaf t es = some s) :
    t = tagOf s := by
  cases t <;> simp only [dLeaf, Option.map_eq_some_iff, reduceCtorEq] at h <;>
    obtain ⟨_, -, rfl⟩ := h <;> rfl

theorem leaf_iff (es : Obj F) (s : AnyShape F) : dLeaf (tagOf s) es = some s ↔ ShapeEntries es s := by
  cases s with
  | group => simp [tagOf, dLeaf, ShapeEntries]
  | _ x =>
    simp only [tagOf, dLeaf, ShapeEntries, Option.map_eq_some_iff, AnyShape.rectangle.injEq,
      AnyShape.ellipse.injEq, AnyShape.transform.injEq, AnyShape.stroke.injEq,
      AnyShape.puckerBloat.injEq, AnyShape.merge.injEq, AnyShape.repeater.injEq,
      AnyShape.offsetPath.injEq, AnyShape.fill.injEq, AnyShape.trim.injEq, AnyShape.path.injEq,
      AnyShape.gradientFill.injEq, AnyShape.gradientStroke.injEq, AnyShape.twist.injEq,
      AnyShape.roundedCorners.injEq, AnyShape.polyStar.injEq, exists_eq_right,
      groupTransform _ _] <;>
    cases x <;>
    simp [Option.bind_eq_some_iff, dRectangle, dEllipse, dPath, dPolyStar, dFill, dStroke,
      dGradientFill, dGradientStroke, dTrim, dRepeater, dPuckerBloat, dMerge, dOffsetPath, dTwist,
      dRoundedCorners, figure _ _, style _ _, line _ _, gradient _ _, element _ _,
      req_iff position, req_iff vector, req_iff scalar, req_iff pathProperty, req_iff starKind,
      opt_iff scalar, req_iff colour, opt_iff rule, opt_iff trimming, opt_iff stacking,
      req_iff copying, opt_iff merging, opt_iff join]

theorem shapes_eq (xs : List (Json F)) : jShapes xs = xs.mapM (jShape true) := by
  induction xs with
  | nil => simp [jShapes]
  | cons x xs ih =>
    simp only [jShapes, List.mapM_cons, ih]
    cases jShape true x with
    | none => rfl
    | some s => cases List.mapM (jShape true) xs <;> rfl

theorem group_iff (es : Obj F) (items : List (AnyShape F)) (g : GraphicElement F) (np : Option F)
    (items' : List (AnyShape F)) (cix : Option Nat) :
    dGroup es items = some (.group g np items' cix) ↔
      items = items' ∧ Element es g ∧ Opt Number es "np" np ∧ Opt (Natural 255) es "cix" cix := by
  simp [dGroup, Option.bind_eq_some_iff, element _ _, opt_iff number, opt_iff u8]
  tauto

theorem group_form {es : Obj F} {items : List (AnyShape F)} {s : AnyShape F}
    (h : dGroup es items = some s) : ∃ g np cix, s = .group g np items cix := by
  simp only [dGroup, Option.bind_eq_bind, Option.bind_eq_some_iff, Option.some.injEq] at h
  obtain ⟨g, _, np, _, cix, _, rfl⟩ := h
  exact ⟨_, _, _, rfl⟩

/-- A group with the given elements, or another shape. -/
def ShapeStep (nested : Bool) (es : Obj F) (s : AnyShape F) : Prop :=
  Typed nested es s ∧ (ShapeEntries es s ∨ ∃ vs items, (Json.obj es).At "it" (.arr vs) ∧
    vs.mapM (jShape true) = some items ∧ dGroup es items = some s)

theorem leaf_step {tag : Tag} {es : Obj F} {s : AnyShape F} (hg : tag ≠ .group) :
    dLeaf tag es = some s ↔ tag = tagOf s ∧ (dLeaf (tagOf s) es = some s ∨
      ∃ vs items, lookup es "it" = some (.arr vs) ∧ vs.mapM (jShape true) = some items ∧
        dGroup es items = some s) := by
  constructor
  · intro h
    have := leaf_tag h
    subst this
    exact ⟨rfl, Or.inl h⟩
  · rintro ⟨rfl, h | ⟨vs, items, -, -, h⟩⟩
    · exact h
    · obtain ⟨g, np, cix, rfl⟩ := group_form h
      exact absurd rfl hg

theorem group_step {es : Obj F} {s : AnyShape F} :
    (match (lookup es "it").map jItems with
      | some (some items) => dGroup es items
      | _ => none) = some s ↔ Tag.group = tagOf s ∧ (dLeaf (tagOf s) es = some s ∨
      ∃ vs items, lookup es "it" = some (.arr vs) ∧ vs.mapM (jShape true) = some items ∧
        dGroup es items = some s) := by
  constructor
  · intro h
    split at h
    · rename_i items hi
      obtain ⟨v, hv, hj⟩ := Option.map_eq_some_iff.1 hi
      obtain ⟨g, np, cix, rfl⟩ := group_form h
      cases v <;> simp only [jItems, reduceCtorEq, shapes_eq] at hj
      exact ⟨rfl, Or.inr ⟨_, _, hv, hj, h⟩⟩
    · exact nomatch h
  · rintro ⟨hs, h | ⟨vs, items, hv, hm, h⟩⟩
    · rw [← hs] at h; exact nomatch h
    · simpa [hv, jItems, shapes_eq, hm] using h

theorem jShape_iff (nested : Bool) (es : Obj F) (s : AnyShape F) :
    jShape nested (.obj es) = some s ↔ ShapeStep nested es s := by
  rw [ShapeStep, ← typed_iff, ← leaf_iff, jShape]
  simp only [← lookup_at, dItems_eq]
  cases lookup es "ty" with
  | none => simp
  | some t =>
    simp only [Option.some.injEq, exists_eq_left']
    cases ht : jTag nested t with
    | none => simp
    | some tag =>
      simp only [Option.some.injEq]
      cases tag
      case group => exact group_step
      all_goals exact leaf_step (by simp)

theorem shape_sound {v : Json F} : ∀ {nested : Bool} {s : AnyShape F},
    jShape nested v = some s → Shape nested v s := by
  intro nested s h
  cases v with
  | obj es =>
    obtain ⟨ht, h | ⟨vs, items, hv, hm, hg⟩⟩ := (jShape_iff _ _ _).1 h
    · exact .single ht h
    · obtain ⟨g, np, cix, rfl⟩ := group_form hg
      obtain ⟨-, he, hn, hc⟩ := (group_iff _ _ _ _ _ _).1 hg
      have hf := (mapM_some_iff (fun _ _ => Iff.rfl) vs items).1 hm
      have hg := List.forall₂_iff_get.1 hf
      refine .group ht he hn hc hv hg.1 fun i hi hs => ?_
      have : sizeOf vs[i] < sizeOf (Json.obj es) := by
        have h1 := List.sizeOf_lt_of_mem (List.getElem_mem hi)
        obtain ⟨pre, post, hes, -⟩ := hv
        rw [hes]
        have h2 : sizeOf ("it", Json.arr vs) < sizeOf (pre ++ ("it", Json.arr vs) :: post) :=
          List.sizeOf_lt_of_mem (by simp)
        simp only [Prod.mk.sizeOf_spec, Json.arr.sizeOf_spec, Json.obj.sizeOf_spec] at h2 ⊢
        omega
      exact shape_sound (hg.2 i hi hs)
  | _ => simp [jShape] at h
termination_by sizeOf v

theorem shape_complete {nested : Bool} {v : Json F} {s : AnyShape F} (h : Shape nested v s) :
    jShape nested v = some s := by
  induction h with
  | single ht he => exact (jShape_iff _ _ _).2 ⟨ht, Or.inl he⟩
  | @group nested es g np vs items cix ht he hn hc hv hl _ ih =>
    refine (jShape_iff _ _ _).2 ⟨ht, Or.inr ⟨vs, items, hv, ?_, ?_⟩⟩
    · exact (mapM_some_iff (fun _ _ => Iff.rfl) vs items).2 (List.forall₂_iff_get.2 ⟨hl, ih⟩)
    · exact (group_iff _ _ _ _ _ _).2 ⟨rfl, he, hn, hc⟩

theorem shape (nested : Bool) : Exact (F := F) (jShape nested) (Shape nested) :=
  fun _ _ => ⟨shape_sound, shape_complete⟩

/-! ### Layers -/

theorem base (start : Bool) : ExactE (F := F) (dLayerBase start) (Base !start) := by
  cases start
  · fields [dLayerBase, Base, dStart, names _ _, opt_iff flag, opt_iff truth, req_iff u8,
      opt_iff usize, opt_iff number, req_iff number]
  · fields [dLayerBase, Base, dStart, names _ _, opt_iff flag, opt_iff truth, req_iff u8,
      opt_iff usize, opt_iff number, req_iff number]

theorem visual (start : Bool) : ExactE (F := F) (dVisualLayer start) (Visual !start) := by
  intro es x
  constructor
  · intro h
    obtain ⟨_, h0, h⟩ := Option.bind_eq_some_iff.1 h
    obtain ⟨_, h1, h⟩ := Option.bind_eq_some_iff.1 h
    obtain ⟨_, h2, h⟩ := Option.bind_eq_some_iff.1 h
    obtain ⟨_, h3, h⟩ := Option.bind_eq_some_iff.1 h
    obtain ⟨_, h4, h⟩ := Option.bind_eq_some_iff.1 h
    obtain ⟨_, h5, h⟩ := Option.bind_eq_some_iff.1 h
    obtain ⟨_, h6, h⟩ := Option.bind_eq_some_iff.1 h
    obtain ⟨_, h7, h⟩ := Option.bind_eq_some_iff.1 h
    obtain ⟨_, h8, h⟩ := Option.bind_eq_some_iff.1 h
    obtain ⟨_, h9, h⟩ := Option.bind_eq_some_iff.1 h
    obtain ⟨_, h10, h⟩ := Option.bind_eq_some_iff.1 h
    obtain ⟨_, h11, h⟩ := Option.bind_eq_some_iff.1 h
    obtain ⟨_, h12, h⟩ := Option.bind_eq_some_iff.1 h
    obtain ⟨_, h13, h⟩ := Option.bind_eq_some_iff.1 h
    obtain ⟨_, h14, h⟩ := Option.bind_eq_some_iff.1 h
    cases h
    exact ⟨(base _ _ _).1 h0,
      (req_iff transform _ _ _).1 h4,
      (opt_iff matte _ _ _).1 h1,
      (opt_iff flag _ _ _).1 h2,
      (opt_iff number _ _ _).1 h6,
      (opt_iff (array mask) _ _ _).1 h3,
      (opt_iff truth _ _ _).1 h7,
      (opt_iff blend _ _ _).1 h9,
      (opt_iff flag _ _ _).1 h5,
      (opt_iff truth _ _ _).1 h8,
      (opt_iff text _ _ _).1 h10,
      (opt_iff text _ _ _).1 h11,
      (opt_iff text _ _ _).1 h12,
      (opt_iff text _ _ _).1 h13,
      (opt_iff flag _ _ _).1 h14⟩
  · rintro ⟨h0, h4, h1, h2, h6, h3, h7, h9, h5, h8, h10, h11, h12, h13, h14⟩
    exact Option.bind_eq_some_iff.2 ⟨_, (base _ _ _).2 h0,
      Option.bind_eq_some_iff.2 ⟨_, (opt_iff matte _ _ _).2 h1,
      Option.bind_eq_some_iff.2 ⟨_, (opt_iff flag _ _ _).2 h2,
      Option.bind_eq_some_iff.2 ⟨_, (opt_iff (array mask) _ _ _).2 h3,
      Option.bind_eq_some_iff.2 ⟨_, (req_iff transform _ _ _).2 h4,
      Option.bind_eq_some_iff.2 ⟨_, (opt_iff flag _ _ _).2 h5,
      Option.bind_eq_some_iff.2 ⟨_, (opt_iff number _ _ _).2 h6,
      Option.bind_eq_some_iff.2 ⟨_, (opt_iff truth _ _ _).2 h7,
      Option.bind_eq_some_iff.2 ⟨_, (opt_iff truth _ _ _).2 h8,
      Option.bind_eq_some_iff.2 ⟨_, (opt_iff blend _ _ _).2 h9,
      Option.bind_eq_some_iff.2 ⟨_, (opt_iff text _ _ _).2 h10,
      Option.bind_eq_some_iff.2 ⟨_, (opt_iff text _ _ _).2 h11,
      Option.bind_eq_some_iff.2 ⟨_, (opt_iff text _ _ _).2 h12,
      Option.bind_eq_some_iff.2 ⟨_, (opt_iff text _ _ _).2 h13,
      Option.bind_eq_some_iff.2 ⟨_, (opt_iff flag _ _ _).2 h14,
      rfl⟩⟩⟩⟩⟩⟩⟩⟩⟩⟩⟩⟩⟩⟩⟩

/-- The reading of a layer of the kind of `l`. -/
def dContent (es : Obj F) : AnyLayer F → Option (AnyLayer F)
  | .precomposition _ => (dPrecompositionLayer es).map .precomposition
  | .solid _ => (dSolidLayer es).map .solid
  | .image _ => (dImageLayer es).map .image
  | .null _ => (dVisualLayer true es).map .null
  | .shape _ => (dShapeLayer es).map .shape

theorem layer : Exact (F := F) jLayer Layer := by
  intro v l
  cases v with
  | obj es =>
    have hp := visual (F := F) false es
    have hq := visual (F := F) true es
    simp only [Bool.not_false, Bool.not_true] at hp hq
    simp only [jLayer, objOnly, Layer, Object, Json.obj.injEq, exists_eq_left', ← lookup_at]
    have hall : (match lookup es "ty" with
        | some (.num (.posInt 0)) => (dPrecompositionLayer es).map .precomposition
        | some (.num (.posInt 1)) => (dSolidLayer es).map .solid
        | some (.num (.posInt 2)) => (dImageLayer es).map .image
        | some (.num (.posInt 3)) => (dVisualLayer true es).map .null
        | some (.num (.posInt 4)) => (dShapeLayer es).map .shape
        | _ => none) = some l ↔
      lookup es "ty" = some (.num (.posInt l.typeCode)) ∧ dContent es l = some l := by
      split
      · rename_i h; cases l <;> simp [h, dContent, AnyLayer.typeCode]
      · rename_i h; cases l <;> simp [h, dContent, AnyLayer.typeCode]
      · rename_i h; cases l <;> simp [h, dContent, AnyLayer.typeCode]
      · rename_i h; cases l <;> simp [h, dContent, AnyLayer.typeCode]
      · rename_i h; cases l <;> simp [h, dContent, AnyLayer.typeCode]
      · rename_i h0 h1 h2 h3 h4
        refine ⟨(fun h => nomatch h), fun h => ?_⟩
        cases l
        · exact (h0 h.1).elim
        · exact (h1 h.1).elim
        · exact (h4 h.1).elim
        · exact (h3 h.1).elim
        · exact (h2 h.1).elim
    refine hall.trans (and_congr_right fun _ => ?_)
    cases l with
    | precomposition x =>
      cases x
      simp [dContent, LayerEntries, dPrecompositionLayer, Option.bind_eq_some_iff, hp,
        req_iff text, req_iff number, opt_iff scalar]
    | solid x =>
      cases x
      simp [dContent, LayerEntries, dSolidLayer, Option.bind_eq_some_iff, hq, req_iff text,
        req_iff number]
    | shape x =>
      cases x
      simp [dContent, LayerEntries, dShapeLayer, Option.bind_eq_some_iff, hq,
        req_iff (array (shape false))]
    | null x => simp [dContent, LayerEntries, hq]
    | image x =>
      cases x
      simp [dContent, LayerEntries, dImageLayer, Option.bind_eq_some_iff, hq, req_iff text]
  | _ => simp [jLayer, objOnly, Layer, Object]

/-! ### Documents -/

omit [FloatOps F] in
theorem assetEntries : ExactE (F := F) dAsset AssetEntries := by
  fields [dAsset, AssetEntries, req_iff text, names _ _]

omit [FloatOps F] in
theorem sequence_iff (es : Obj F) (x : Option Bool) : dSequence es = some x ↔
    (¬ (Json.obj es).HasKey "t" ∧ x = none ∨
      ∃ s, (Json.obj es).At "t" (.str s) ∧ x = if s = "seq" then some true else none) := by
  unfold dSequence
  simp only [hasKey_iff, ← lookup_at]
  split
  · rename_i h; simp [h, eq_comm (a := x)]
  · rename_i s h; simp [h, eq_comm (a := x)]
  · rename_i v hv h
    simp only [h, reduceCtorEq, false_and, false_or, false_iff, not_exists, not_and,
      Option.some.injEq]
    rintro s rfl
    exact absurd rfl (hv s)

theorem asset : Exact (F := F) jAsset Asset := by
  intro v a
  cases v with
  | obj es =>
    simp only [jAsset, objOnly]
    cases a with
    | precomposition a =>
      obtain ⟨a, ls, fr, xt⟩ := a
      simp only [Asset, Json.obj.injEq, exists_eq_left', ← assetEntries _ _,
        ← req_iff (array layer) _ _ _, ← opt_iff number _ _ _, ← opt_iff flag _ _ _]
      by_cases hl : (lookup es "layers").isSome = true
      · simp [hl, dPrecompAsset, Option.bind_eq_some_iff]
      · have : lookup es "layers" = none := by simpa using hl
        simp only [this, Option.isSome_none, Bool.false_eq_true, if_false, req]
        constructor
        · intro h
          split at h
          · exact nomatch h
          · split at h <;> simp at h
        · rintro ⟨-, h, -⟩; exact nomatch h
    | image a =>
      obtain ⟨⟨a, u, p, e⟩, sid, w, h, t⟩ := a
      simp only [Asset, Json.obj.injEq, exists_eq_left', ← sequence_iff]
      simp only [← assetEntries _ _, ← req_iff text _ _ _, ← opt_iff text _ _ _, ← opt_iff number _ _ _, ← opt_iff flag _ _ _,
        ← lookup_isSome]
      by_cases hl : (lookup es "layers").isSome = true
      · simp [hl]
      · rw [if_neg hl]
        split
        · rename_i h3
          simp [dSequence, h3]
        · by_cases hw : (lookup es "w").isSome = true ∨ (lookup es "h").isSome = true
          · simp [hl, hw, dImageAsset, dFileAsset, Option.bind_eq_some_iff]
            tauto
          · simp [hl, hw]
  | _ => cases a <;> simp [jAsset, objOnly, Asset]

theorem isMarker : Exact (F := F) jMarker IsMarker := by
  refine record _ ?_
  fields [dMarker, opt_iff text, opt_iff number]

omit [FloatOps F] in
theorem metaEntries_iff : ExactE (F := F) dMeta MetaEntries := by
  fields [dMeta, MetaEntries, opt_iff text, opt_iff anything]

omit [FloatOps F] in
theorem isMeta : Exact (F := F) jMeta IsMeta := by
  intro v x
  simp only [IsMeta, ← metaEntries_iff _ _, jMeta]
  cases v <;> simp [metaEntries]
  split <;> simp [*]

theorem document : Exact (F := F) jAnimation Document := by
  refine object ?_
  intro es x
  constructor
  · intro h
    obtain ⟨_, h0, h⟩ := Option.bind_eq_some_iff.1 h
    obtain ⟨_, h1, h⟩ := Option.bind_eq_some_iff.1 h
    obtain ⟨_, h2, h⟩ := Option.bind_eq_some_iff.1 h
    obtain ⟨_, h3, h⟩ := Option.bind_eq_some_iff.1 h
    obtain ⟨_, h4, h⟩ := Option.bind_eq_some_iff.1 h
    obtain ⟨_, h5, h⟩ := Option.bind_eq_some_iff.1 h
    obtain ⟨_, h6, h⟩ := Option.bind_eq_some_iff.1 h
    obtain ⟨_, h7, h⟩ := Option.bind_eq_some_iff.1 h
    obtain ⟨_, h8, h⟩ := Option.bind_eq_some_iff.1 h
    obtain ⟨_, h9, h⟩ := Option.bind_eq_some_iff.1 h
    obtain ⟨_, h10, h⟩ := Option.bind_eq_some_iff.1 h
    obtain ⟨_, h11, h⟩ := Option.bind_eq_some_iff.1 h
    obtain ⟨_, h12, h⟩ := Option.bind_eq_some_iff.1 h
    obtain ⟨_, h13, h⟩ := Option.bind_eq_some_iff.1 h
    cases h
    exact ⟨(req_iff number _ _ _).1 h5,
      (req_iff number _ _ _).1 h6,
      (req_iff number _ _ _).1 h4,
      (req_iff usize _ _ _).1 h7,
      (req_iff usize _ _ _).1 h8,
      (req_iff (array layer) _ _ _).1 h1,
      (opt_iff (array asset) _ _ _).1 h10,
      (names _ _).1 h0,
      (opt_iff text _ _ _).1 h2,
      (opt_iff u32 _ _ _).1 h3,
      (opt_iff flag _ _ _).1 h9,
      (opt_iff (array isMarker) _ _ _).1 h11,
      (opt_iff isMeta _ _ _).1 h12,
      (opt_iff anything _ _ _).1 h13⟩
  · rintro ⟨h5, h6, h4, h7, h8, h1, h10, h0, h2, h3, h9, h11, h12, h13⟩
    exact Option.bind_eq_some_iff.2 ⟨_, (names _ _).2 h0,
      Option.bind_eq_some_iff.2 ⟨_, (req_iff (array layer) _ _ _).2 h1,
      Option.bind_eq_some_iff.2 ⟨_, (opt_iff text _ _ _).2 h2,
      Option.bind_eq_some_iff.2 ⟨_, (opt_iff u32 _ _ _).2 h3,
      Option.bind_eq_some_iff.2 ⟨_, (req_iff number _ _ _).2 h4,
      Option.bind_eq_some_iff.2 ⟨_, (req_iff number _ _ _).2 h5,
      Option.bind_eq_some_iff.2 ⟨_, (req_iff number _ _ _).2 h6,
      Option.bind_eq_some_iff.2 ⟨_, (req_iff usize _ _ _).2 h7,
      Option.bind_eq_some_iff.2 ⟨_, (req_iff usize _ _ _).2 h8,
      Option.bind_eq_some_iff.2 ⟨_, (opt_iff flag _ _ _).2 h9,
      Option.bind_eq_some_iff.2 ⟨_, (opt_iff (array asset) _ _ _).2 h10,
      Option.bind_eq_some_iff.2 ⟨_, (opt_iff (array isMarker) _ _ _).2 h11,
      Option.bind_eq_some_iff.2 ⟨_, (opt_iff isMeta _ _ _).2 h12,
      Option.bind_eq_some_iff.2 ⟨_, (opt_iff anything _ _ _).2 h13,
      rfl⟩⟩⟩⟩⟩⟩⟩⟩⟩⟩⟩⟩⟩⟩

end
end Format
end Velato
