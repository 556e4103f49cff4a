import Verif.Spec.JsonSteps
import Verif.Proofs.RoundTrip

/-!
# Small changes of a JSON value: what is read stays the same
-/

namespace Velato.Decode
open Schema

section
variable {F : Type}

/-- Nothing or the same value, or values that differ by a small change. -/
inductive Alike : Option (Json F) → Option (Json F) → Prop where
  | none : Alike none none
  | same (v : Json F) : Alike (some v) (some v)
  | step {v w : Json F} (h : Json.Step v w) : Alike (some v) (some w)

theorem Alike.refl (o : Option (Json F)) : Alike o o := by
  cases o with
  | none => exact .none
  | some v => exact .same v

theorem Alike.or {a a' b b' : Option (Json F)} (h : Alike a a') (h' : Alike b b') : Alike (a.or b) (a'.or b') := by
  cases h with
  | none => exact h'
  | same => exact .same _
  | step h => exact .step h

/-- The documented keys hold the same values, up to a small change. -/
def Similar (es es' : Obj F) : Prop := ∀ k ∈ documentedKeys, Alike (lookup es k) (lookup es' k)

/-- The small changes do not change what is read. -/
def Respects {α : Type} (d : Json F → Option α) : Prop := ∀ ⦃j j' : Json F⦄, Json.Step j j' → d j = d j'

theorem lookup_cons (k : String) (v : Json F) (es : Obj F) (key : String) :
    lookup ((k, v) :: es) key = (lookup es key).or (if k = key then some v else none) := by
  rw [lookup]
  cases lookup es key with
  | some x => rfl
  | none => simp

theorem similar_of_step {es es' : Obj F} (h : Json.Step (.obj es) (.obj es')) : Similar es es' := by
  intro key hkey
  generalize hj : Json.obj es = j at h
  generalize hj' : Json.obj es' = j' at h
  cases h with
  | swap hne =>
    rename_i A B x y
    cases hj
    cases hj'
    obtain ⟨kx, vx⟩ := x
    obtain ⟨ky, vy⟩ := y
    simp only at hne
    rw [lookup_append, lookup_append, lookup_cons, lookup_cons, lookup_cons, lookup_cons]
    by_cases h1 : kx = key
    · have h2 : ky ≠ key := fun h2 => hne (h1.trans h2.symm)
      simp only [if_neg h2, Option.or_none]
      exact Alike.refl _
    · simp only [if_neg h1, Option.or_none]
      exact Alike.refl _
  | extra hk h h1 h2 =>
    rename_i A B k v
    cases hj
    cases hj'
    rw [lookup_append, lookup_append, lookup_cons]
    have : k ≠ key := fun h => hk (h ▸ hkey)
    rw [if_neg this, Option.or_none]
    exact Alike.refl _
  | entry h =>
    cases hj
    cases hj'
    rw [lookup_append, lookup_append, lookup_cons, lookup_cons]
    refine ((Alike.refl _).or ?_).or (Alike.refl _)
    split_ifs
    · exact .step h
    · exact .none
  | element h => cases hj

/-- The same elements, up to a small change. -/
def AlikeLists : List (Json F) → List (Json F) → Prop := List.Forall₂ fun v w => v = w ∨ Json.Step v w

theorem AlikeLists.refl (xs : List (Json F)) : AlikeLists xs xs := by
  induction xs with
  | nil => exact .nil
  | cons x xs ih => exact .cons (.inl rfl) ih

theorem alike_element (A B : List (Json F)) {v w : Json F} (h : Json.Step v w) :
    AlikeLists (A ++ v :: B) (A ++ w :: B) := by
  induction A with
  | nil => exact .cons (.inr h) (AlikeLists.refl B)
  | cons x A ih => exact .cons (.inl rfl) ih

theorem similar_zip {xs ys : List (Json F)} (h : AlikeLists xs ys) :
    ∀ ks : List String, Similar (ks.zip xs) (ks.zip ys) := by
  induction h with
  | nil =>
    intro ks key _
    rw [List.zip_nil_right]
    exact .none
  | cons hv _ ih =>
    intro ks key hkey
    cases ks with
    | nil => exact .none
    | cons k ks =>
      rw [List.zip_cons_cons, List.zip_cons_cons, lookup_cons, lookup_cons]
      refine (ih ks key hkey).or ?_
      split_ifs
      · rcases hv with rfl | hv
        · exact .same _
        · exact .step hv
      · exact .none

theorem respects_entries {α : Type} {d : Obj F → Option α} (ks : List String)
    (hd : ∀ {es es' : Obj F}, Similar es es' → d es = d es') : Respects fun j => (entries ks j).bind d := by
  intro j j' h
  have h0 := h
  cases h with
  | swap => exact hd (similar_of_step h0)
  | extra => exact hd (similar_of_step h0)
  | entry => exact hd (similar_of_step h0)
  | @element A B v w h =>
    have hl : (A ++ v :: B).length = (A ++ w :: B).length := by simp
    dsimp only [entries]
    rw [hl]
    split_ifs
    · exact hd (similar_zip (alike_element A B h) ks)
    · rfl

theorem respects_objOnly {α : Type} {d : Obj F → Option α}
    (hd : ∀ {es es' : Obj F}, Similar es es' → d es = d es') : Respects fun j => (objOnly j).bind d := by
  intro j j' h
  have h0 := h
  cases h with
  | swap => exact hd (similar_of_step h0)
  | extra => exact hd (similar_of_step h0)
  | entry => exact hd (similar_of_step h0)
  | element => rfl

theorem Similar.req {es es' : Obj F} (h : Similar es es') {α : Type} {d : Json F → Option α} (hd : Respects d)
    (k : String) (hk : k ∈ documentedKeys := by decide) : req d es k = req d es' k := by
  have h := h k hk
  unfold Decode.req
  generalize lookup es k = a at h
  generalize lookup es' k = b at h
  cases h with
  | none => rfl
  | same => rfl
  | step h => exact hd h

theorem Similar.opt {es es' : Obj F} (h : Similar es es') {α : Type} {d : Json F → Option α} (hd : Respects d)
    (k : String) (hk : k ∈ documentedKeys := by decide) : opt d es k = opt d es' k := by
  have h := h k hk
  unfold Decode.opt
  generalize lookup es k = a at h
  generalize lookup es' k = b at h
  cases h with
  | none => rfl
  | same => rfl
  | step h =>
    have := hd h
    cases h <;> exact congrArg (Option.map some) this

/-! ## Values -/

theorem respects_bool : Respects (F := F) jBool := fun _ _ h => by cases h <;> rfl

theorem respects_str : Respects (F := F) jStr := fun _ _ h => by cases h <;> rfl

theorem respects_nat {max : Nat} : Respects (F := F) (jNat max) := fun _ _ h => by cases h <;> rfl

theorem respects_jU8 : Respects (F := F) jU8 := respects_nat

theorem respects_jU32 : Respects (F := F) jU32 := respects_nat

theorem respects_jUsize : Respects (F := F) jUsize := respects_nat

theorem respects_repr {α : Type} (n : Nat) (vs : List α) : Respects (F := F) (jRepr n vs) := fun _ _ h => by
  cases h <;> rfl

theorem alike_mapM {α : Type} {d : Json F → Option α} (hd : Respects d) {xs ys : List (Json F)}
    (h : AlikeLists xs ys) : xs.mapM d = ys.mapM d := by
  induction h with
  | nil => rfl
  | cons hv _ ih =>
    rw [List.mapM_cons, List.mapM_cons, ih]
    rcases hv with rfl | hv
    · rfl
    · rw [hd hv]

theorem respects_vec {α : Type} {d : Json F → Option α} (hd : Respects d) : Respects (jVec d) := by
  intro j j' h
  cases h with
  | element h => exact alike_mapM hd (alike_element _ _ h)
  | _ => rfl

theorem unit_none {α : Type} (e : Bool) (t : String → Option α) {es : Obj F} (h1 : ∀ k, es ≠ [(k, .null)])
    (h2 : ∀ k, es ≠ [(k, .obj [])]) : jUnitEnum e t (.obj es) = none := by
  unfold jUnitEnum
  split
  · rename_i h; cases h
  · rename_i h
    cases h
    exact absurd rfl (h1 _)
  · rename_i h
    cases h
    exact absurd rfl (h2 _)
  · rfl

theorem unit_long {α : Type} (e : Bool) (t : String → Option α) {es : Obj F} (h : es.length ≠ 1) :
    jUnitEnum e t (.obj es) = none :=
  unit_none e t (fun _ h' => h (by rw [h']; rfl)) fun _ h' => h (by rw [h']; rfl)

theorem Json.Step.ne {v w : Json F} (h : Json.Step v w) :
    (v ≠ .null ∧ v ≠ .obj []) ∧ w ≠ .null ∧ w ≠ .obj [] := by
  cases h with
  | extra _ h =>
    refine ⟨⟨nofun, fun h' => h ?_⟩, nofun, ?_⟩
    · injection h'
    · intro h'
      injection h' with h'
      simp at h'
  | element => exact ⟨⟨nofun, nofun⟩, nofun, nofun⟩
  | _ => refine ⟨⟨nofun, fun h' => ?_⟩, nofun, fun h' => ?_⟩ <;> · injection h' with h'; simp at h'

theorem respects_unit {α : Type} (e : Bool) (t : String → Option α) : Respects (F := F) (jUnitEnum e t) := by
  intro j j' h
  cases h with
  | swap =>
    rw [unit_long e t (by simp; omega), unit_long e t (by simp; omega)]
  | @extra A B k v hk h h1 h2 =>
    rw [unit_none e t h1 h2, unit_long e t]
    have : A.length + B.length ≠ 0 := by
      rw [← List.length_append]
      exact fun h' => h (List.length_eq_zero_iff.mp h')
    simp only [List.length_append, List.length_cons]
    omega
  | @entry A B k v w h =>
    obtain ⟨⟨h1, h2⟩, h3, h4⟩ := Json.Step.ne h
    have key : ∀ {v : Json F}, v ≠ .null → v ≠ .obj [] → jUnitEnum e t (.obj (A ++ (k, v) :: B)) = none := by
      intro v h1 h2
      have hmem : ∀ {k' : String} {x : Json F}, A ++ (k, v) :: B = [(k', x)] → v = x := by
        intro k' x hx
        have : (k, v) ∈ [(k', x)] := by rw [← hx]; simp
        cases List.mem_singleton.mp this
        rfl
      exact unit_none e t (fun k' h' => h1 (hmem h')) fun k' h' => h2 (hmem h')
    rw [key h1 h2, key h3 h4]
  | element => rfl

variable [FloatOps F]

theorem respects_f64 : Respects (F := F) jF64 := fun _ _ h => by cases h <;> rfl

theorem jPair_eq (xs : List (Json F)) : jPair (.arr xs) = match xs.mapM jF64 with
    | some [x, y] => some (x, y)
    | _ => none := by
  rcases xs with _ | ⟨a, _ | ⟨b, _ | ⟨c, xs⟩⟩⟩
  · rfl
  · simp only [jPair, List.mapM_cons, List.mapM_nil]
    cases jF64 a <;> rfl
  · simp only [jPair, List.mapM_cons, List.mapM_nil]
    cases jF64 a with
    | none => rfl
    | some x => cases jF64 b <;> rfl
  · simp only [jPair, List.mapM_cons]
    cases jF64 a with
    | none => rfl
    | some x =>
      cases jF64 b with
      | none => rfl
      | some y =>
        cases jF64 c with
        | none => rfl
        | some z => cases List.mapM jF64 xs <;> rfl

theorem respects_pair : Respects (F := F) jPair := by
  intro j j' h
  cases h with
  | element h => rw [jPair_eq, jPair_eq, alike_mapM respects_f64 (alike_element _ _ h)]
  | _ => rfl

variable {es es' : Obj F}

theorem Similar.start (h : Similar es es') {b : Bool} : dStart b es = dStart b es' := by
  unfold dStart
  rw [h.opt respects_f64 "st"]

omit [FloatOps F] in
theorem Similar.sequence (h : Similar es es') : dSequence es = dSequence es' := by
  have h := h "t" (by decide)
  unfold dSequence
  generalize lookup es "t" = a at h
  generalize lookup es' "t" = b at h
  cases h with
  | none => rfl
  | same => rfl
  | step h => cases h <;> rfl

/-! ## Structures -/

omit [FloatOps F] in
theorem respects_jBoolInt : Respects (F := F) jBoolInt := respects_repr _ _

omit [FloatOps F] in
theorem respects_jBlendMode : Respects (F := F) jBlendMode := respects_repr _ _

omit [FloatOps F] in
theorem respects_jMatteMode : Respects (F := F) jMatteMode := respects_repr _ _

omit [FloatOps F] in
theorem respects_jLineCap : Respects (F := F) jLineCap := respects_repr _ _

omit [FloatOps F] in
theorem respects_jLineJoin : Respects (F := F) jLineJoin := respects_repr _ _

omit [FloatOps F] in
theorem respects_jGradientType : Respects (F := F) jGradientType := respects_repr _ _

omit [FloatOps F] in
theorem respects_jFillRule : Respects (F := F) jFillRule := respects_repr _ _

omit [FloatOps F] in
theorem respects_jMergeMode : Respects (F := F) jMergeMode := respects_repr _ _

omit [FloatOps F] in
theorem respects_jShapeDirection : Respects (F := F) jShapeDirection := by
  intro j j' h
  cases h <;> rfl

omit [FloatOps F] in
theorem respects_jStarType : Respects (F := F) jStarType := respects_repr _ _

omit [FloatOps F] in
theorem respects_jTrimMultiple : Respects (F := F) jTrimMultiple := respects_repr _ _

omit [FloatOps F] in
theorem respects_jComposite : Respects (F := F) jComposite := respects_repr _ _

omit [FloatOps F] in
theorem Similar.dVisualObject (h : Similar es es') : Decode.dVisualObject es = Decode.dVisualObject es' := by
  unfold Decode.dVisualObject
  rw [h.opt respects_str "nm", h.opt respects_str "mn"]

theorem Similar.dBezier (h : Similar es es') : Decode.dBezier es = Decode.dBezier es' := by
  unfold Decode.dBezier
  rw [h.opt respects_bool "c", h.req (respects_vec respects_pair) "v", h.req (respects_vec respects_pair)
    "i", h.req (respects_vec respects_pair) "o"]

theorem respects_jBezier : Respects (F := F) jBezier := respects_entries _ fun h => h.dBezier

theorem respects_jKeyframeComponent : Respects (F := F) jKeyframeComponent := by
  intro j j' h
  unfold jKeyframeComponent
  rw [(respects_vec respects_f64) h, respects_f64 h]

theorem Similar.dHandle (h : Similar es es') : Decode.dHandle es = Decode.dHandle es' := by
  unfold Decode.dHandle
  rw [h.req respects_jKeyframeComponent "x", h.req respects_jKeyframeComponent "y"]

theorem respects_jHandle : Respects (F := F) jHandle := respects_entries _ fun h => h.dHandle

theorem Similar.dKeyframeBase (h : Similar es es') : Decode.dKeyframeBase es = Decode.dKeyframeBase es' := by
  unfold Decode.dKeyframeBase
  rw [h.req respects_f64 "t", h.opt respects_jBoolInt "h", h.opt respects_jHandle "i", h.opt
    respects_jHandle "o"]

theorem Similar.dKeyframe (h : Similar es es') : Decode.dKeyframe es = Decode.dKeyframe es' := by
  unfold Decode.dKeyframe
  rw [h.dKeyframeBase, h.req (respects_vec respects_f64) "s", h.opt (respects_vec respects_f64) "e"]

theorem respects_jKeyframe : Respects (F := F) jKeyframe := respects_objOnly fun h => h.dKeyframe

theorem respects_animatedK {S : Type} {static : Json F → Option S} (hs : Respects static) :
    Respects (jAnimatedPropertyK static) := by
  intro j j' h
  unfold jAnimatedPropertyK
  rw [respects_vec respects_jKeyframe h, hs h]

theorem Similar.dAnimatedProperty (h : Similar es es') {S : Type} {static : Json F → Option S} (hs :
    Respects static) :
    Decode.dAnimatedProperty static es = Decode.dAnimatedProperty static es' := by
  unfold Decode.dAnimatedProperty
  rw [h.opt respects_f64 "ix", h.opt respects_jBoolInt "a", h.opt respects_str "x", h.opt respects_str
    "sid", h.req (respects_animatedK hs) "k"]

theorem respects_jFloatValue : Respects (F := F) jFloatValue := respects_objOnly fun h =>
    h.dAnimatedProperty respects_f64

theorem respects_jColorValue : Respects (F := F) jColorValue := respects_objOnly fun h =>
    h.dAnimatedProperty (respects_vec respects_f64)

theorem Similar.dMultiDimensional (h : Similar es es') : Decode.dMultiDimensional es =
    Decode.dMultiDimensional es' := by
  unfold Decode.dMultiDimensional
  rw [h.dAnimatedProperty (respects_vec respects_f64), h.opt respects_f64 "l"]

theorem respects_jMultiDimensional : Respects (F := F) jMultiDimensional := respects_objOnly fun h =>
    h.dMultiDimensional

theorem Similar.dGradientColors (h : Similar es es') : Decode.dGradientColors es = Decode.dGradientColors
    es' := by
  unfold Decode.dGradientColors
  rw [h.req respects_jMultiDimensional "k", h.req respects_jUsize "p"]

theorem respects_jGradientColors : Respects (F := F) jGradientColors := respects_entries _ fun h =>
    h.dGradientColors

theorem Similar.dPositionKeyframe (h : Similar es es') : Decode.dPositionKeyframe es =
    Decode.dPositionKeyframe es' := by
  unfold Decode.dPositionKeyframe
  rw [h.dKeyframe, h.opt (respects_vec respects_f64) "ti", h.opt (respects_vec respects_f64) "to"]

theorem respects_jPositionKeyframe : Respects (F := F) jPositionKeyframe := respects_objOnly fun h =>
    h.dPositionKeyframe

theorem respects_jPositionValueK : Respects (F := F) jPositionValueK := by
  intro j j' h
  unfold jPositionValueK
  rw [(respects_vec respects_jPositionKeyframe) h, (respects_vec respects_f64) h]

theorem Similar.dPosition (h : Similar es es') : Decode.dPosition es = Decode.dPosition es' := by
  unfold Decode.dPosition
  rw [h.opt respects_f64 "ix", h.opt respects_jBoolInt "a", h.opt respects_str "x", h.opt respects_f64 "l",
    h.req respects_jPositionValueK "k"]

theorem respects_jPosition : Respects (F := F) jPosition := respects_entries _ fun h => h.dPosition

theorem Similar.dShapeKeyframe (h : Similar es es') : Decode.dShapeKeyframe es = Decode.dShapeKeyframe es'
    := by
  unfold Decode.dShapeKeyframe
  rw [h.dKeyframeBase, h.opt (respects_vec respects_jBezier) "s", h.opt (respects_vec respects_jBezier) "e"]

theorem respects_jShapeKeyframe : Respects (F := F) jShapeKeyframe := respects_objOnly fun h =>
    h.dShapeKeyframe

theorem respects_jShapeKeyframes : Respects (F := F) jShapeKeyframes := by
  intro j j' h
  unfold jShapeKeyframes
  rw [respects_vec respects_jShapeKeyframe h]

theorem respects_jShapePropertyK : Respects (F := F) jShapePropertyK := by
  intro j j' h
  unfold jShapePropertyK
  rw [respects_jShapeKeyframes h, respects_jBezier h]

theorem Similar.dShapeProperty (h : Similar es es') : Decode.dShapeProperty es = Decode.dShapeProperty es'
    := by
  unfold Decode.dShapeProperty
  rw [h.opt respects_f64 "ix", h.opt respects_jBoolInt "a", h.opt respects_str "x", h.req
    respects_jShapePropertyK "k"]

theorem respects_jShapeProperty : Respects (F := F) jShapeProperty := respects_entries _ fun h =>
    h.dShapeProperty

theorem Similar.dSplitVector (h : Similar es es') : Decode.dSplitVector es = Decode.dSplitVector es' := by
  unfold Decode.dSplitVector
  rw [h.req respects_bool "s", h.req respects_jFloatValue "x", h.req respects_jFloatValue "y", h.opt
    respects_jFloatValue "z"]

theorem respects_jSplitVector : Respects (F := F) jSplitVector := respects_entries _ fun h => h.dSplitVector

theorem respects_jTransformP : Respects (F := F) jTransformP := by
  intro j j' h
  unfold jTransformP
  rw [respects_jPosition h, respects_jSplitVector h]

theorem Similar.dSplitRotation (h : Similar es es') : Decode.dSplitRotation es = Decode.dSplitRotation es'
    := by
  unfold Decode.dSplitRotation
  rw [h.req respects_jFloatValue "x", h.req respects_jFloatValue "y", h.req respects_jFloatValue "z", h.req
    respects_jMultiDimensional "or"]

theorem respects_jSplitRotation : Respects (F := F) jSplitRotation := respects_objOnly fun h =>
    h.dSplitRotation

theorem respects_jTransformR : Respects (F := F) jTransformR := by
  intro j j' h
  unfold jTransformR
  rw [respects_jFloatValue h, respects_jSplitRotation h]

theorem Similar.dTransform (h : Similar es es') : Decode.dTransform es = Decode.dTransform es' := by
  unfold Decode.dTransform
  rw [h.opt respects_jPosition "a", h.req respects_jTransformP "p", h.opt respects_jMultiDimensional "s",
    h.opt respects_jTransformR "r", h.opt respects_jFloatValue "sk", h.opt respects_jFloatValue "sa", h.opt
    respects_jFloatValue "o"]

theorem respects_jTransform : Respects (F := F) jTransform := respects_entries _ fun h => h.dTransform

theorem Similar.dMask (h : Similar es es') : Decode.dMask es = Decode.dMask es' := by
  unfold Decode.dMask
  rw [h.opt respects_str "nm", h.opt respects_str "mn", h.opt respects_bool "inv", h.opt
    respects_jShapeProperty "pt", h.opt respects_jFloatValue "o", h.opt (respects_unit _ _) "mode", h.opt
    respects_jFloatValue "x"]

theorem respects_jMask : Respects (F := F) jMask := respects_entries _ fun h => h.dMask

theorem Similar.dGraphicElement (h : Similar es es') : Decode.dGraphicElement es = Decode.dGraphicElement
    es' := by
  unfold Decode.dGraphicElement
  rw [h.dVisualObject, h.opt respects_bool "hd", h.opt respects_jBlendMode "bm", h.opt respects_f64 "ix",
    h.opt respects_str "cl", h.opt respects_str "ln", h.opt respects_f64 "ind"]

theorem Similar.dShapeBase (h : Similar es es') : Decode.dShapeBase es = Decode.dShapeBase es' := by
  unfold Decode.dShapeBase
  rw [h.dGraphicElement, h.opt respects_jShapeDirection "d"]

theorem Similar.dShapeStyle (h : Similar es es') : Decode.dShapeStyle es = Decode.dShapeStyle es' := by
  unfold Decode.dShapeStyle
  rw [h.dGraphicElement, h.req respects_jFloatValue "o"]

theorem Similar.dStrokeDash (h : Similar es es') : Decode.dStrokeDash es = Decode.dStrokeDash es' := by
  unfold Decode.dStrokeDash
  rw [h.dVisualObject, h.opt (respects_unit _ _) "n", h.opt respects_jFloatValue "v"]

theorem respects_jStrokeDash : Respects (F := F) jStrokeDash := respects_objOnly fun h => h.dStrokeDash

theorem Similar.dBaseStroke (h : Similar es es') : Decode.dBaseStroke es = Decode.dBaseStroke es' := by
  unfold Decode.dBaseStroke
  rw [h.opt respects_jLineCap "lc", h.opt respects_jLineJoin "lj", h.opt respects_f64 "ml", h.opt
    respects_jFloatValue "ml2", h.req respects_jFloatValue "w", h.opt (respects_vec respects_jStrokeDash)
    "d"]

theorem Similar.dBaseGradient (h : Similar es es') : Decode.dBaseGradient es = Decode.dBaseGradient es' := by
  unfold Decode.dBaseGradient
  rw [h.req respects_jGradientColors "g", h.req respects_jMultiDimensional "s", h.req
    respects_jMultiDimensional "e", h.opt respects_jGradientType "t", h.opt respects_jFloatValue "h", h.opt
    respects_jFloatValue "a"]

theorem Similar.dRectangle (h : Similar es es') : Decode.dRectangle es = Decode.dRectangle es' := by
  unfold Decode.dRectangle
  rw [h.dShapeBase, h.req respects_jPosition "p", h.req respects_jMultiDimensional "s", h.req
    respects_jFloatValue "r"]

theorem Similar.dEllipse (h : Similar es es') : Decode.dEllipse es = Decode.dEllipse es' := by
  unfold Decode.dEllipse
  rw [h.dShapeBase, h.req respects_jPosition "p", h.req respects_jMultiDimensional "s"]

theorem Similar.dPath (h : Similar es es') : Decode.dPath es = Decode.dPath es' := by
  unfold Decode.dPath
  rw [h.dShapeBase, h.req respects_jShapeProperty "ks"]

theorem Similar.dPolyStar (h : Similar es es') : Decode.dPolyStar es = Decode.dPolyStar es' := by
  unfold Decode.dPolyStar
  rw [h.dShapeBase, h.req respects_jPosition "p", h.req respects_jFloatValue "or", h.req
    respects_jFloatValue "os", h.req respects_jFloatValue "r", h.req respects_jFloatValue "pt", h.req
    respects_jStarType "sy", h.opt respects_jFloatValue "ir", h.opt respects_jFloatValue "is"]

theorem Similar.dTransformShape (h : Similar es es') : Decode.dTransformShape es = Decode.dTransformShape
    es' := by
  unfold Decode.dTransformShape
  rw [h.dGraphicElement, h.dTransform]

theorem Similar.dFill (h : Similar es es') : Decode.dFill es = Decode.dFill es' := by
  unfold Decode.dFill
  rw [h.dShapeStyle, h.req respects_jColorValue "c", h.opt respects_jFillRule "r"]

theorem Similar.dStroke (h : Similar es es') : Decode.dStroke es = Decode.dStroke es' := by
  unfold Decode.dStroke
  rw [h.dShapeStyle, h.dBaseStroke, h.req respects_jColorValue "c"]

theorem Similar.dGradientFill (h : Similar es es') : Decode.dGradientFill es = Decode.dGradientFill es' := by
  unfold Decode.dGradientFill
  rw [h.dShapeStyle, h.dBaseGradient, h.opt respects_jFillRule "r"]

theorem Similar.dGradientStroke (h : Similar es es') : Decode.dGradientStroke es = Decode.dGradientStroke
    es' := by
  unfold Decode.dGradientStroke
  rw [h.dShapeStyle, h.dBaseStroke, h.dBaseGradient]

theorem Similar.dTrim (h : Similar es es') : Decode.dTrim es = Decode.dTrim es' := by
  unfold Decode.dTrim
  rw [h.dGraphicElement, h.req respects_jFloatValue "s", h.req respects_jFloatValue "e", h.req
    respects_jFloatValue "o", h.opt respects_jTrimMultiple "m"]

theorem Similar.dRepeaterTransform (h : Similar es es') : Decode.dRepeaterTransform es =
    Decode.dRepeaterTransform es' := by
  unfold Decode.dRepeaterTransform
  rw [h.dTransformShape, h.opt respects_jFloatValue "so", h.opt respects_jFloatValue "eo"]

theorem respects_jRepeaterTransform : Respects (F := F) jRepeaterTransform := respects_objOnly fun h =>
    h.dRepeaterTransform

theorem Similar.dRepeater (h : Similar es es') : Decode.dRepeater es = Decode.dRepeater es' := by
  unfold Decode.dRepeater
  rw [h.dGraphicElement, h.req respects_jFloatValue "c", h.opt respects_jFloatValue "o", h.opt
    respects_jComposite "m", h.req respects_jRepeaterTransform "tr"]

theorem Similar.dPuckerBloat (h : Similar es es') : Decode.dPuckerBloat es = Decode.dPuckerBloat es' := by
  unfold Decode.dPuckerBloat
  rw [h.dGraphicElement, h.opt respects_jFloatValue "a"]

theorem Similar.dMerge (h : Similar es es') : Decode.dMerge es = Decode.dMerge es' := by
  unfold Decode.dMerge
  rw [h.dGraphicElement, h.opt respects_jMergeMode "mm"]

theorem Similar.dOffsetPath (h : Similar es es') : Decode.dOffsetPath es = Decode.dOffsetPath es' := by
  unfold Decode.dOffsetPath
  rw [h.dGraphicElement, h.opt respects_jFloatValue "a", h.opt respects_jLineJoin "lj", h.opt
    respects_jFloatValue "ml"]

theorem Similar.dTwist (h : Similar es es') : Decode.dTwist es = Decode.dTwist es' := by
  unfold Decode.dTwist
  rw [h.dGraphicElement, h.req respects_jFloatValue "a", h.req respects_jPosition "p"]

theorem Similar.dRoundedCorners (h : Similar es es') : Decode.dRoundedCorners es = Decode.dRoundedCorners
    es' := by
  unfold Decode.dRoundedCorners
  rw [h.dGraphicElement, h.req respects_jFloatValue "r"]

theorem Similar.dLeaf (h : Similar es es') (tag : Tag) : Decode.dLeaf tag es = Decode.dLeaf tag es' := by
  unfold Decode.dLeaf
  cases tag <;> simp only [h.dRectangle, h.dEllipse, h.dTransformShape, h.dStroke, h.dPuckerBloat, h.dMerge,
    h.dRepeater, h.dOffsetPath, h.dFill, h.dTrim, h.dPath, h.dGradientFill, h.dGradientStroke, h.dTwist,
    h.dRoundedCorners, h.dPolyStar]

theorem Similar.dGroup (h : Similar es es') (items : List (AnyShape F)) :
    Decode.dGroup es items = Decode.dGroup es' items := by
  unfold Decode.dGroup
  rw [h.dGraphicElement, h.opt respects_f64 "np", h.opt respects_jU8 "cix"]

omit [FloatOps F] in
theorem respects_tag (b : Bool) : Respects (F := F) (jTag b) := fun _ _ h => by cases h <;> rfl

theorem jShapes_eq (xs : List (Json F)) : jShapes xs = xs.mapM (jShape true) := by
  induction xs with
  | nil => rfl
  | cons x xs ih =>
    rw [jShapes, List.mapM_cons, ih]
    cases jShape true x with
    | none => rfl
    | some s => cases List.mapM (jShape true) xs <;> rfl

theorem Similar.shape (h : Similar es es') (hi : dItems es = dItems es') (b : Bool) :
    jShape b (.obj es) = jShape b (.obj es') := by
  rw [jShape, jShape]
  have ht : (lookup es "ty").map (jTag b) = (lookup es' "ty").map (jTag b) := by
    have h := h "ty" (by decide)
    generalize lookup es "ty" = a at h
    generalize lookup es' "ty" = b at h
    cases h with
    | none => rfl
    | same => rfl
    | step h => exact congrArg some (respects_tag b h)
  cases h1 : lookup es "ty" with
  | none =>
    cases h2 : lookup es' "ty" with
    | none => rfl
    | some v => rw [h1, h2] at ht; cases ht
  | some t =>
    cases h2 : lookup es' "ty" with
    | none => rw [h1, h2] at ht; cases ht
    | some t' =>
      rw [h1, h2] at ht
      have ht : jTag b t = jTag b t' := Option.some.inj ht
      simp only [ht, hi, h.dGroup, h.dLeaf]

theorem items_or_shape {j j' : Json F} (h : Json.Step j j') :
    (∀ b, jShape b j = jShape b j') ∧ jItems j = jItems j' := by
  induction h with
  | @swap A B x y hne =>
    have hs := similar_of_step (.swap (A := A) (B := B) hne)
    refine ⟨fun b => hs.shape ?_ b, by rw [jItems, jItems] <;> simp⟩
    obtain ⟨kx, vx⟩ := x
    obtain ⟨ky, vy⟩ := y
    simp only at hne
    rw [dItems_eq, dItems_eq]
    congr 1
    rw [lookup_append, lookup_append, lookup_cons, lookup_cons, lookup_cons, lookup_cons]
    by_cases h1 : kx = "it"
    · have h2 : ky ≠ "it" := fun h2 => hne (h1.trans h2.symm)
      simp only [if_neg h2, Option.or_none]
    · simp only [if_neg h1, Option.or_none]
  | @extra A B k v hk h h1 h2 =>
    have hs := similar_of_step (.extra (v := v) hk h h1 h2)
    refine ⟨fun b => hs.shape ?_ b, by rw [jItems, jItems] <;> simp⟩
    rw [dItems_eq, dItems_eq]
    congr 1
    rw [lookup_append, lookup_append, lookup_cons]
    have : k ≠ "it" := fun h => hk (by rw [h]; decide)
    rw [if_neg this, Option.or_none]
  | @entry A B k v w h ih =>
    have hs := similar_of_step (.entry (A := A) (B := B) (k := k) h)
    refine ⟨fun b => hs.shape ?_ b, by rw [jItems, jItems] <;> simp⟩
    rw [dItems_eq, dItems_eq, lookup_append, lookup_append, lookup_cons, lookup_cons]
    cases lookup B "it" with
    | some x => rfl
    | none =>
      split_ifs
      · exact congrArg some ih.2
      · rfl
  | @element A B v w h ih =>
    refine ⟨fun b => by rw [jShape, jShape] <;> simp, ?_⟩
    rw [jItems, jItems, jShapes_eq, jShapes_eq, List.mapM_append, List.mapM_append, List.mapM_cons,
    List.mapM_cons,
      ih.1]

theorem respects_shape (b : Bool) : Respects (F := F) (jShape b) := fun _ _ h => (items_or_shape h).1 b

theorem Similar.dLayerBase (h : Similar es es') (b : Bool) : Decode.dLayerBase b es = Decode.dLayerBase b
    es' := by
  unfold Decode.dLayerBase
  rw [h.dVisualObject, h.opt respects_jBoolInt "ddd", h.opt respects_bool "hd", h.req respects_jU8 "ty",
    h.opt respects_jUsize "ind", h.opt respects_jUsize "parent", h.opt respects_f64 "sr", h.req respects_f64 "ip",
    h.req respects_f64 "op", h.start]

theorem Similar.dVisualLayer (h : Similar es es') (b : Bool) : Decode.dVisualLayer b es =
    Decode.dVisualLayer b es' := by
  unfold Decode.dVisualLayer
  rw [h.dLayerBase b, h.opt respects_jMatteMode "tt", h.opt respects_jBoolInt "td", h.opt (respects_vec
    respects_jMask) "masksProperties", h.req respects_jTransform "ks", h.opt respects_jBoolInt "ao", h.opt
    respects_f64 "tp", h.opt respects_bool "hasMask", h.opt respects_bool "mb", h.opt respects_jBlendMode
    "bm", h.opt respects_str "cl", h.opt respects_str "ln", h.opt respects_str "tg", h.opt respects_str
    "cp", h.opt respects_jBoolInt "ct"]

theorem Similar.dPrecompositionLayer (h : Similar es es') : Decode.dPrecompositionLayer es =
    Decode.dPrecompositionLayer es' := by
  unfold Decode.dPrecompositionLayer
  rw [h.dVisualLayer _, h.req respects_str "refId", h.req respects_f64 "w", h.req respects_f64 "h", h.req
    respects_f64 "st", h.opt respects_jFloatValue "tm"]

theorem Similar.dSolidLayer (h : Similar es es') : Decode.dSolidLayer es = Decode.dSolidLayer es' := by
  unfold Decode.dSolidLayer
  rw [h.dVisualLayer _, h.req respects_f64 "sw", h.req respects_f64 "sh", h.req respects_str "sc"]

theorem Similar.dShapeLayer (h : Similar es es') : Decode.dShapeLayer es = Decode.dShapeLayer es' := by
  unfold Decode.dShapeLayer
  rw [h.dVisualLayer _, h.req (respects_vec (respects_shape _)) "shapes"]

theorem Similar.dImageLayer (h : Similar es es') : Decode.dImageLayer es = Decode.dImageLayer es' := by
  unfold Decode.dImageLayer
  rw [h.dVisualLayer _, h.req respects_str "refId"]

theorem respects_jLayer : Respects (F := F) jLayer := by
  intro j j' h
  have key : ∀ {es es' : Obj F}, Similar es es' → jLayer (.obj es) = jLayer (.obj es') := by
    intro es es' h
    have hty := h "ty" (by decide)
    unfold jLayer
    simp only [objOnly, h.dPrecompositionLayer, h.dSolidLayer, h.dImageLayer, h.dVisualLayer, h.dShapeLayer]
    generalize lookup es "ty" = a at hty
    generalize lookup es' "ty" = b at hty
    cases hty with
    | none => rfl
    | same => rfl
    | step h => cases h <;> rfl
  have h0 := h
  cases h with
  | swap => exact key (similar_of_step h0)
  | extra => exact key (similar_of_step h0)
  | entry => exact key (similar_of_step h0)
  | element => rfl

omit [FloatOps F] in
theorem Similar.dAsset (h : Similar es es') : Decode.dAsset es = Decode.dAsset es' := by
  unfold Decode.dAsset
  rw [h.req respects_str "id", h.dVisualObject]

omit [FloatOps F] in
theorem Similar.dFileAsset (h : Similar es es') : Decode.dFileAsset es = Decode.dFileAsset es' := by
  unfold Decode.dFileAsset
  rw [h.dAsset, h.opt respects_str "u", h.req respects_str "p", h.opt respects_jBoolInt "e"]

theorem Similar.dImageAsset (h : Similar es es') : Decode.dImageAsset es = Decode.dImageAsset es' := by
  unfold Decode.dImageAsset
  rw [h.dFileAsset, h.opt respects_str "sid", h.opt respects_f64 "w", h.opt respects_f64 "h", h.sequence]

theorem Similar.dPrecompAsset (h : Similar es es') : Decode.dPrecompAsset es = Decode.dPrecompAsset es' := by
  unfold Decode.dPrecompAsset
  rw [h.dAsset, h.req (respects_vec respects_jLayer) "layers", h.opt respects_f64 "fr", h.opt
    respects_jBoolInt "xt"]

omit [FloatOps F] in
theorem Alike.isSome {a b : Option (Json F)} (h : Alike a b) : a.isSome = b.isSome := by cases h <;> rfl

theorem respects_jAsset : Respects (F := F) jAsset := by
  intro j j' h
  have key : ∀ {es es' : Obj F}, Similar es es' → jAsset (.obj es) = jAsset (.obj es') := by
    intro es es' h
    have ht := h "t" (by decide)
    unfold jAsset
    simp only [objOnly, h.dPrecompAsset, h.dImageAsset, (h "layers" (by decide)).isSome,
      (h "w" (by decide)).isSome, (h "h" (by decide)).isSome]
    generalize lookup es "t" = a at ht
    generalize lookup es' "t" = b at ht
    cases ht with
    | none => rfl
    | same => rfl
    | step h => cases h <;> rfl
  have h0 := h
  cases h with
  | swap => exact key (similar_of_step h0)
  | extra => exact key (similar_of_step h0)
  | entry => exact key (similar_of_step h0)
  | element => rfl

theorem Similar.dMarker (h : Similar es es') : Decode.dMarker es = Decode.dMarker es' := by
  unfold Decode.dMarker
  rw [h.opt respects_str "cm", h.opt respects_f64 "tm", h.opt respects_f64 "dr"]

theorem respects_jMarker : Respects (F := F) jMarker := respects_entries _ fun h => h.dMarker

/-! ## Documents -/

/-- The document without the parts that are kept as they were written. -/
def bare (a : Animation F) : Animation F := { a with metaInfo := none, metadata := none }

omit [FloatOps F] in
theorem Similar.meta (h : Similar es es') : (dMeta es).isSome = (dMeta es').isSome := by
  have hk : (Decode.opt some es "k").isSome = (Decode.opt some es' "k").isSome := by
    have h := h "k" (by decide)
    unfold Decode.opt
    generalize lookup es "k" = a at h
    generalize lookup es' "k" = b at h
    cases h with
    | none => rfl
    | same => rfl
    | step h => cases h <;> rfl
  unfold dMeta
  rw [h.opt respects_str "a", h.opt respects_str "d", h.opt respects_str "tc", h.opt respects_str "g"]
  cases Decode.opt jStr es' "a" with
  | none => rfl
  | some x =>
  cases Decode.opt jStr es' "d" with
  | none => rfl
  | some x =>
  cases Decode.opt jStr es' "tc" with
  | none => rfl
  | some x =>
  cases Decode.opt jStr es' "g" with
  | none => rfl
  | some x =>
  cases h1 : Decode.opt some es "k" with
  | none => rw [h1] at hk; cases h2 : Decode.opt some es' "k" with
    | none => rfl
    | some => rw [h2] at hk; cases hk
  | some => rw [h1] at hk; cases h2 : Decode.opt some es' "k" with
    | none => rw [h2] at hk; cases hk
    | some => rfl

omit [FloatOps F] in
theorem meta_respects {j j' : Json F} (h : Json.Step j j') : (jMeta j).isSome = (jMeta j').isSome := by
  have h0 := h
  cases h with
  | swap => exact (similar_of_step h0).meta
  | extra => exact (similar_of_step h0).meta
  | entry => exact (similar_of_step h0).meta
  | @element A B v w h =>
    have hl : (A ++ v :: B).length = (A ++ w :: B).length := by simp
    dsimp only [jMeta, metaEntries]
    rw [hl]
    split_ifs
    · exact (similar_zip (alike_element A B h) _).meta
    · rfl

omit [FloatOps F] in
theorem Similar.optMeta (h : Similar es es') : (Decode.opt jMeta es "meta").isSome = (Decode.opt jMeta es' "meta").isSome := by
  have h := h "meta" (by decide)
  unfold Decode.opt
  generalize lookup es "meta" = a at h
  generalize lookup es' "meta" = b at h
  cases h with
  | none => rfl
  | same => rfl
  | step h =>
    have := meta_respects h
    cases h <;> simpa using this

omit [FloatOps F] in
theorem Similar.optRaw (h : Similar es es') (k : String) (hk : k ∈ documentedKeys := by decide) :
    (Decode.opt some es k).isSome = (Decode.opt some es' k).isSome := by
  have h := h k hk
  unfold Decode.opt
  generalize lookup es k = a at h
  generalize lookup es' k = b at h
  cases h with
  | none => rfl
  | same => rfl
  | step h => cases h <;> rfl

omit [FloatOps F] in
theorem map_bind_congr {α β γ : Type} (f : β → γ) {x : Option α} {g g' : α → Option β}
    (h : ∀ v, (g v).map f = (g' v).map f) : (x >>= g).map f = (x >>= g').map f := by
  cases x with
  | none => rfl
  | some v => exact h v

theorem Similar.animation (h : Similar es es') : (dAnimation es).map bare = (dAnimation es').map bare := by
  have h1 := h.optMeta
  have h2 := h.optRaw "metadata"
  unfold dAnimation
  rw [h.dVisualObject, h.req (respects_vec respects_jLayer) "layers", h.opt respects_str "v",
    h.opt respects_jU32 "ver", h.req respects_f64 "fr", h.req respects_f64 "ip", h.req respects_f64 "op",
    h.req respects_jUsize "w", h.req respects_jUsize "h", h.opt respects_jBoolInt "ddd",
    h.opt (respects_vec respects_jAsset) "assets", h.opt (respects_vec respects_jMarker) "markers"]
  iterate 12 refine map_bind_congr bare fun _ => ?_
  generalize Decode.opt jMeta es "meta" = m at h1
  generalize Decode.opt jMeta es' "meta" = m' at h1
  generalize Decode.opt some es "metadata" = r at h2
  generalize Decode.opt some es' "metadata" = r' at h2
  cases m <;> cases m' <;> cases h1
  · rfl
  · cases r <;> cases r' <;> cases h2 <;> rfl

theorem animation_respects {j j' : Json F} (h : Json.Step j j') :
    (jAnimation j).map bare = (jAnimation j').map bare := by
  have h0 := h
  cases h with
  | swap => exact (similar_of_step h0).animation
  | extra => exact (similar_of_step h0).animation
  | entry => exact (similar_of_step h0).animation
  | element => rfl

theorem same_bare {j j' : Json F} (h : j.Same j') : (jAnimation j).map bare = (jAnimation j').map bare := by
  induction h with
  | rel _ _ h => exact animation_respects h
  | refl => rfl
  | symm _ _ _ ih => exact ih.symm
  | trans _ _ _ _ _ ih1 ih2 => exact ih1.trans ih2

end
end Velato.Decode
