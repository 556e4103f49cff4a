import Verif.Model.Encode

/-!
# Helper lemmas for C59: what is written is read back

`RT d w`: a value that came out of the reader `d` is read back from what the writer `w` makes of it.
For structs: the reader gives the same value on every object that agrees with the written one on the
keys of the struct.
-/

set_option linter.unusedSimpArgs false

namespace Velato
open Schema Decode Encode

section
variable {F : Type}

/-- Two objects hold the same values at the given keys. -/
def Agree (ks : List String) (es es' : Obj F) : Prop := ∀ k ∈ ks, lookup es' k = lookup es k

/-- Reading back what was read. -/
def RT {α : Type} (d : Json F → Option α) (w : α → Json F) : Prop :=
  ∀ j a, d j = some a → d (w a) = some a ∧ w a ≠ .null

theorem lookup_append (xs ys : Obj F) (k : String) :
    lookup (xs ++ ys) k = (lookup ys k).or (lookup xs k) := by
  induction xs with
  | nil => simp [lookup]
  | cons x xs ih =>
    obtain ⟨k', v⟩ := x
    simp only [List.cons_append, lookup, ih]
    cases lookup ys k <;> simp

theorem lookup_put (k k' : String) (v : Json F) :
    lookup (put k' v) k = if k' = k then some v else none := by
  simp [put, lookup]

theorem lookup_skip {α : Type} (w : α → Json F) (k k' : String) (o : Option α) :
    lookup (skip w k' o) k = if k' = k then o.map w else none := by
  cases o <;> simp [skip, lookup]

theorem lookup_nul {α : Type} (w : α → Json F) (k k' : String) (o : Option α) :
    lookup (nul w k' o) k = if k' = k then some ((o.map w).getD .null) else none := by
  cases o <;> simp [nul, lookup]

theorem req_rt {α : Type} {d : Json F → Option α} {w : α → Json F} (h : RT d w) {es es' : Obj F}
    {k : String} {v : α} (h1 : req d es k = some v) (h2 : lookup es' k = some (w v)) :
    req d es' k = some v := by
  unfold req at *
  rw [h2]
  split at h1
  · exact (h _ _ h1).1
  · exact nomatch h1

theorem opt_some {α : Type} {d : Json F → Option α} {es : Obj F} {k : String} {v : α}
    (h : opt d es k = some (some v)) : ∃ j, j ≠ .null ∧ lookup es k = some j ∧ d j = some v := by
  unfold opt at h
  split at h
  · simp at h
  · simp at h
  · rename_i j hj hl
    exact ⟨j, fun e => hj e, hl, by simpa using h⟩

theorem opt_of_some {α : Type} {d : Json F → Option α} {es : Obj F} {k : String} {v : α}
    {j : Json F} (hn : j ≠ .null) (hl : lookup es k = some j) (hd : d j = some v) :
    opt d es k = some (some v) := by
  unfold opt
  rw [hl]
  cases j <;> simp_all

theorem skip_rt {α : Type} {d : Json F → Option α} {w : α → Json F} (h : RT d w) {es es' : Obj F}
    {k : String} {o : Option α} (h1 : opt d es k = some o) (h2 : lookup es' k = o.map w) :
    opt d es' k = some o := by
  cases o with
  | none => unfold opt; rw [h2]; rfl
  | some v =>
    obtain ⟨j, _, _, hd⟩ := opt_some h1
    exact opt_of_some (h _ _ hd).2 h2 (h _ _ hd).1

theorem nul_rt {α : Type} {d : Json F → Option α} {w : α → Json F} (h : RT d w) {es es' : Obj F}
    {k : String} {o : Option α} (h1 : opt d es k = some o)
    (h2 : lookup es' k = some ((o.map w).getD .null)) :
    opt d es' k = some o := by
  cases o with
  | none => unfold opt; rw [h2]; rfl
  | some v =>
    obtain ⟨j, _, _, hd⟩ := opt_some h1
    exact opt_of_some (h _ _ hd).2 h2 (h _ _ hd).1

/-- A field of type `Option<serde_json::Value>`. -/
theorem val_rt {es es' : Obj F} {k : String} {o : Option (Json F)} (h1 : opt some es k = some o)
    (h2 : lookup es' k = o.map wValue) : opt some es' k = some o := by
  cases o with
  | none => unfold opt; rw [h2]; rfl
  | some v =>
    obtain ⟨j, hj, _, hd⟩ := opt_some h1
    cases hd
    exact opt_of_some hj h2 rfl

theorem rt_struct {α : Type} {d : Obj F → Option α} {e : α → Obj F} {ks : List String}
    (h : ∀ es es' a, d es = some a → Agree ks (e a) es' → d es' = some a)
    (en : Json F → Option (Obj F)) (hen : ∀ es, en (.obj es) = some es) :
    RT (fun j => (en j).bind d) (fun a => .obj (e a)) := by
  intro j a hj
  obtain ⟨es, _, hd⟩ := Option.bind_eq_some_iff.mp hj
  refine ⟨?_, fun h => nomatch h⟩
  show (en (.obj (e a))).bind d = some a
  rw [hen]
  exact h es _ a hd fun _ _ => rfl

theorem rt_vec {α : Type} {d : Json F → Option α} {w : α → Json F} (h : RT d w) :
    RT (jVec d) (wVec w) := by
  intro j xs hj
  refine ⟨?_, fun h => nomatch h⟩
  cases j with
  | arr js =>
    simp only [jVec, wVec] at hj ⊢
    induction js generalizing xs with
    | nil => simp only [List.mapM_nil] at hj; cases hj; rfl
    | cons j js ih =>
      simp only [List.mapM_cons, Option.bind_eq_bind, Option.bind_eq_some_iff, Option.pure_def,
        Option.some.injEq] at hj
      obtain ⟨x, hx, ys, hys, rfl⟩ := hj
      simp only [List.map_cons, List.mapM_cons, (h _ _ hx).1, ih _ hys, Option.bind_eq_bind,
        Option.bind_some, Option.pure_def]
  | _ => simp [jVec] at hj

theorem rt_Str : RT (F := F) jStr wStr := by
  intro j a h
  exact ⟨rfl, fun h => nomatch h⟩

theorem rt_Bool : RT (F := F) jBool wBool := by
  intro j a h
  exact ⟨rfl, fun h => nomatch h⟩

theorem rt_nat (m : Nat) : RT (F := F) (jNat m) (fun n => .num (.posInt n)) := by
  intro j a h
  refine ⟨?_, fun h => nomatch h⟩
  unfold jNat at h ⊢
  split at h
  · split at h
    · cases h; simp [*]
    · exact nomatch h
  · exact nomatch h

theorem rt_U8 : RT (F := F) jU8 wU8 := rt_nat _
theorem rt_U32 : RT (F := F) jU32 wU32 := rt_nat _
theorem rt_Usize : RT (F := F) jUsize wUsize := rt_nat _

theorem rt_BoolInt : RT (F := F) jBoolInt wBoolInt := by
  intro j a _; cases a <;> exact ⟨rfl, fun h => nomatch h⟩
theorem rt_BlendMode : RT (F := F) jBlendMode wBlendMode := by
  intro j a _; cases a <;> exact ⟨rfl, fun h => nomatch h⟩
theorem rt_MatteMode : RT (F := F) jMatteMode wMatteMode := by
  intro j a _; cases a <;> exact ⟨rfl, fun h => nomatch h⟩
theorem rt_LineCap : RT (F := F) jLineCap wLineCap := by
  intro j a _; cases a <;> exact ⟨rfl, fun h => nomatch h⟩
theorem rt_LineJoin : RT (F := F) jLineJoin wLineJoin := by
  intro j a _; cases a <;> exact ⟨rfl, fun h => nomatch h⟩
theorem rt_GradientType : RT (F := F) jGradientType wGradientType := by
  intro j a _; cases a <;> exact ⟨rfl, fun h => nomatch h⟩
theorem rt_FillRule : RT (F := F) jFillRule wFillRule := by
  intro j a _; cases a <;> exact ⟨rfl, fun h => nomatch h⟩
theorem rt_MergeMode : RT (F := F) jMergeMode wMergeMode := by
  intro j a _; cases a <;> exact ⟨rfl, fun h => nomatch h⟩
theorem rt_ShapeDirection : RT (F := F) jShapeDirection wShapeDirection := by
  intro j a _; cases a <;> exact ⟨rfl, fun h => nomatch h⟩
theorem rt_StarType : RT (F := F) jStarType wStarType := by
  intro j a _; cases a <;> exact ⟨rfl, fun h => nomatch h⟩
theorem rt_TrimMultiple : RT (F := F) jTrimMultiple wTrimMultiple := by
  intro j a _; cases a <;> exact ⟨rfl, fun h => nomatch h⟩
theorem rt_Composite : RT (F := F) jComposite wComposite := by
  intro j a _; cases a <;> exact ⟨rfl, fun h => nomatch h⟩
theorem rt_MaskMode : RT (F := F) (jUnitEnum false maskModeOf) wMaskMode := by
  intro j a _; cases a <;> exact ⟨rfl, fun h => nomatch h⟩
theorem rt_StrokeDashType : RT (F := F) (jUnitEnum true strokeDashTypeOf) wStrokeDashType := by
  intro j a _; cases a <;> exact ⟨rfl, fun h => nomatch h⟩

variable [FloatOps F]

theorem rt_F64 : RT (F := F) jF64 wF64 := by
  intro j a h
  exact ⟨rfl, fun h => nomatch h⟩

theorem rt_Pair : RT (F := F) jPair wPair := by
  intro j a h
  exact ⟨rfl, fun h => nomatch h⟩

/-- Keys of `VisualObject`. -/
def kVisualObject : List String := ["nm", "mn"]

omit [FloatOps F] in
theorem ek_VisualObject (a : VisualObject) (k : String) (hk : k ∉ kVisualObject) :
    lookup (eVisualObject a : Obj F) k = none := by
  simp only [kVisualObject, List.mem_append, List.mem_cons, List.not_mem_nil, or_false, not_or] at hk
  obtain ⟨ho0, ho1⟩ := hk
  simp [eVisualObject, lookup_append, lookup_put, lookup_skip, lookup_nul,
    Ne.symm ho0, Ne.symm ho1]

omit [FloatOps F] in
theorem rt_dVisualObject {es es' : Obj F} {a : VisualObject} (hd : dVisualObject es = some a)
    (hA : Agree kVisualObject (eVisualObject a) es') : dVisualObject es' = some a := by
  unfold dVisualObject at hd ⊢
  simp only [Option.bind_eq_bind, Option.bind_eq_some_iff, Option.some.injEq] at hd ⊢
  obtain ⟨v0, h0, v1, h1, rfl⟩ := hd
  exact ⟨_, skip_rt rt_Str h0 ((hA "nm" (by decide)).trans (by
      simp [eVisualObject, lookup_append, lookup_put, lookup_skip, lookup_nul])),
    _, skip_rt rt_Str h1 ((hA "mn" (by decide)).trans (by
      simp [eVisualObject, lookup_append, lookup_put, lookup_skip, lookup_nul])), rfl⟩

/-- Keys of `Bezier`. -/
def kBezier : List String := ["c", "v", "i", "o"]

omit [FloatOps F] in
theorem ek_Bezier (a : Bezier F) (k : String) (hk : k ∉ kBezier) :
    lookup (eBezier a : Obj F) k = none := by
  simp only [kBezier, List.mem_append, List.mem_cons, List.not_mem_nil, or_false, not_or] at hk
  obtain ⟨ho0, ho1, ho2, ho3⟩ := hk
  simp [eBezier, lookup_append, lookup_put, lookup_skip, lookup_nul,
    Ne.symm ho0, Ne.symm ho1, Ne.symm ho2, Ne.symm ho3]

theorem rt_dBezier {es es' : Obj F} {a : Bezier F} (hd : dBezier es = some a)
    (hA : Agree kBezier (eBezier a) es') : dBezier es' = some a := by
  unfold dBezier at hd ⊢
  simp only [Option.bind_eq_bind, Option.bind_eq_some_iff, Option.some.injEq] at hd ⊢
  obtain ⟨v0, h0, v1, h1, v2, h2, v3, h3, rfl⟩ := hd
  exact ⟨_, skip_rt rt_Bool h0 ((hA "c" (by decide)).trans (by
      simp [eBezier, lookup_append, lookup_put, lookup_skip, lookup_nul])),
    _, req_rt (rt_vec rt_Pair) h1 ((hA "v" (by decide)).trans (by
      simp [eBezier, lookup_append, lookup_put, lookup_skip, lookup_nul])),
    _, req_rt (rt_vec rt_Pair) h2 ((hA "i" (by decide)).trans (by
      simp [eBezier, lookup_append, lookup_put, lookup_skip, lookup_nul])),
    _, req_rt (rt_vec rt_Pair) h3 ((hA "o" (by decide)).trans (by
      simp [eBezier, lookup_append, lookup_put, lookup_skip, lookup_nul])), rfl⟩

theorem rt_Bezier : RT (F := F) jBezier wBezier :=
  rt_struct (fun _ _ _ => rt_dBezier) (entries _) fun _ => rfl

theorem rt_KeyframeComponent : RT (F := F) jKeyframeComponent wKeyframeComponent := by
  intro j a h
  unfold jKeyframeComponent at h
  split at h
  · rename_i xs hx
    cases h
    have := rt_vec rt_F64 _ _ hx
    refine ⟨?_, this.2⟩
    unfold jKeyframeComponent wKeyframeComponent
    rw [this.1]
  · cases hv : jF64 j with
    | none => rw [hv] at h; exact nomatch h
    | some x => rw [hv] at h; cases h; exact ⟨rfl, fun h => nomatch h⟩

/-- Keys of `Handle`. -/
def kHandle : List String := ["x", "y"]

omit [FloatOps F] in
theorem ek_Handle (a : KeyframeBezierHandle F) (k : String) (hk : k ∉ kHandle) :
    lookup (eHandle a : Obj F) k = none := by
  simp only [kHandle, List.mem_append, List.mem_cons, List.not_mem_nil, or_false, not_or] at hk
  obtain ⟨ho0, ho1⟩ := hk
  simp [eHandle, lookup_append, lookup_put, lookup_skip, lookup_nul,
    Ne.symm ho0, Ne.symm ho1]

theorem rt_dHandle {es es' : Obj F} {a : KeyframeBezierHandle F} (hd : dHandle es = some a)
    (hA : Agree kHandle (eHandle a) es') : dHandle es' = some a := by
  unfold dHandle at hd ⊢
  simp only [Option.bind_eq_bind, Option.bind_eq_some_iff, Option.some.injEq] at hd ⊢
  obtain ⟨v0, h0, v1, h1, rfl⟩ := hd
  exact ⟨_, req_rt rt_KeyframeComponent h0 ((hA "x" (by decide)).trans (by
      simp [eHandle, lookup_append, lookup_put, lookup_skip, lookup_nul])),
    _, req_rt rt_KeyframeComponent h1 ((hA "y" (by decide)).trans (by
      simp [eHandle, lookup_append, lookup_put, lookup_skip, lookup_nul])), rfl⟩

theorem rt_Handle : RT (F := F) jHandle wHandle :=
  rt_struct (fun _ _ _ => rt_dHandle) (entries _) fun _ => rfl

/-- Keys of `KeyframeBase`. -/
def kKeyframeBase : List String := ["t", "h", "i", "o"]

omit [FloatOps F] in
theorem ek_KeyframeBase (a : KeyframeBase F) (k : String) (hk : k ∉ kKeyframeBase) :
    lookup (eKeyframeBase a : Obj F) k = none := by
  simp only [kKeyframeBase, List.mem_append, List.mem_cons, List.not_mem_nil, or_false, not_or] at hk
  obtain ⟨ho0, ho1, ho2, ho3⟩ := hk
  simp [eKeyframeBase, lookup_append, lookup_put, lookup_skip, lookup_nul,
    Ne.symm ho0, Ne.symm ho1, Ne.symm ho2, Ne.symm ho3]

theorem rt_dKeyframeBase {es es' : Obj F} {a : KeyframeBase F} (hd : dKeyframeBase es = some a)
    (hA : Agree kKeyframeBase (eKeyframeBase a) es') : dKeyframeBase es' = some a := by
  unfold dKeyframeBase at hd ⊢
  simp only [Option.bind_eq_bind, Option.bind_eq_some_iff, Option.some.injEq] at hd ⊢
  obtain ⟨v0, h0, v1, h1, v2, h2, v3, h3, rfl⟩ := hd
  exact ⟨_, req_rt rt_F64 h0 ((hA "t" (by decide)).trans (by
      simp [eKeyframeBase, lookup_append, lookup_put, lookup_skip, lookup_nul])),
    _, skip_rt rt_BoolInt h1 ((hA "h" (by decide)).trans (by
      simp [eKeyframeBase, lookup_append, lookup_put, lookup_skip, lookup_nul])),
    _, skip_rt rt_Handle h2 ((hA "i" (by decide)).trans (by
      simp [eKeyframeBase, lookup_append, lookup_put, lookup_skip, lookup_nul])),
    _, skip_rt rt_Handle h3 ((hA "o" (by decide)).trans (by
      simp [eKeyframeBase, lookup_append, lookup_put, lookup_skip, lookup_nul])), rfl⟩

/-- Keys of `Keyframe`. -/
def kKeyframe : List String := kKeyframeBase ++ ["s", "e"]

omit [FloatOps F] in
theorem ek_Keyframe (a : Keyframe F) (k : String) (hk : k ∉ kKeyframe) :
    lookup (eKeyframe a : Obj F) k = none := by
  simp only [kKeyframe, List.mem_append, List.mem_cons, List.not_mem_nil, or_false, not_or] at hk
  obtain ⟨hs0, ⟨ho0, ho1⟩⟩ := hk
  simp [eKeyframe, lookup_append, lookup_put, lookup_skip, lookup_nul,
    ek_KeyframeBase _ _ hs0, Ne.symm ho0, Ne.symm ho1]

theorem rt_dKeyframe {es es' : Obj F} {a : Keyframe F} (hd : dKeyframe es = some a)
    (hA : Agree kKeyframe (eKeyframe a) es') : dKeyframe es' = some a := by
  unfold dKeyframe at hd ⊢
  simp only [Option.bind_eq_bind, Option.bind_eq_some_iff, Option.some.injEq] at hd ⊢
  obtain ⟨v0, h0, v1, h1, v2, h2, rfl⟩ := hd
  exact ⟨_, rt_dKeyframeBase h0 (by
      intro k hk
      rw [hA k (by simp only [kKeyframe, List.mem_append]; tauto)]
      simp only [kKeyframeBase, kKeyframeBase, List.mem_append, List.mem_cons, List.not_mem_nil, or_false, or_assoc] at hk
      rcases hk with rfl | rfl | rfl | rfl <;>
        simp [eKeyframe, lookup_append, lookup_put, lookup_skip, lookup_nul, ek_KeyframeBase, kKeyframeBase]),
    _, req_rt (rt_vec rt_F64) h1 ((hA "s" (by decide)).trans (by
      simp [eKeyframe, lookup_append, lookup_put, lookup_skip, lookup_nul, ek_KeyframeBase, kKeyframeBase])),
    _, skip_rt (rt_vec rt_F64) h2 ((hA "e" (by decide)).trans (by
      simp [eKeyframe, lookup_append, lookup_put, lookup_skip, lookup_nul, ek_KeyframeBase, kKeyframeBase])), rfl⟩

theorem rt_Keyframe : RT (F := F) jKeyframe wKeyframe :=
  rt_struct (fun _ _ _ => rt_dKeyframe) objOnly fun _ => rfl

theorem rt_AnimatedPropertyK {S : Type} {d : Json F → Option S} {w : S → Json F} (h : RT d w)
    (hn : ∀ j s, d j = some s → jVec jKeyframe j = none → jVec jKeyframe (w s) = none) :
    RT (jAnimatedPropertyK d) (wAnimatedPropertyK w) := by
  intro j a hj
  unfold jAnimatedPropertyK at hj
  split at hj
  · rename_i ks hk
    cases hj
    have := rt_vec rt_Keyframe _ _ hk
    refine ⟨?_, this.2⟩
    unfold jAnimatedPropertyK wAnimatedPropertyK
    rw [this.1]
  · rename_i hk
    cases hd : d j with
    | none => rw [hd] at hj; exact nomatch hj
    | some s =>
      rw [hd] at hj
      cases hj
      refine ⟨?_, (h _ _ hd).2⟩
      unfold jAnimatedPropertyK wAnimatedPropertyK
      dsimp only
      rw [hn _ _ hd hk, (h _ _ hd).1]
      rfl

/-- Keys of `AnimatedProperty`. -/
def kColorValue : List String := ["ix", "a", "x", "sid", "k"]

theorem rt_dAnimatedProperty {S : Type} {d : Json F → Option S} {w : S → Json F} (h : RT d w)
    (hn : ∀ j s, d j = some s → jVec jKeyframe j = none → jVec jKeyframe (w s) = none)
    {es es' : Obj F} {a : AnimatedProperty F S} (hd : dAnimatedProperty d es = some a)
    (hA : Agree kColorValue (eAnimatedProperty w a) es') : dAnimatedProperty d es' = some a := by
  unfold dAnimatedProperty at hd ⊢
  simp only [Option.bind_eq_bind, Option.bind_eq_some_iff, Option.some.injEq] at hd ⊢
  obtain ⟨v0, h0, v1, h1, v2, h2, v3, h3, v4, h4, rfl⟩ := hd
  exact ⟨_, skip_rt rt_F64 h0 ((hA "ix" (by decide)).trans (by simp [eAnimatedProperty, lookup_append, lookup_put, lookup_skip, lookup_nul])),
    _, skip_rt rt_BoolInt h1 ((hA "a" (by decide)).trans (by simp [eAnimatedProperty, lookup_append, lookup_put, lookup_skip, lookup_nul])),
    _, skip_rt rt_Str h2 ((hA "x" (by decide)).trans (by simp [eAnimatedProperty, lookup_append, lookup_put, lookup_skip, lookup_nul])),
    _, skip_rt rt_Str h3 ((hA "sid" (by decide)).trans (by simp [eAnimatedProperty, lookup_append, lookup_put, lookup_skip, lookup_nul])),
    _, req_rt (rt_AnimatedPropertyK h hn) h4 ((hA "k" (by decide)).trans (by simp [eAnimatedProperty, lookup_append, lookup_put, lookup_skip, lookup_nul])), rfl⟩

theorem static_F64 (j : Json F) (s : F) (_ : jF64 j = some s) (_ : jVec jKeyframe j = none) :
    jVec jKeyframe (wF64 s) = none := rfl

theorem jKeyframe_num (x : F) : jKeyframe (wF64 x) = none := rfl

theorem static_Vec (j : Json F) (s : List F) (h : jVec jF64 j = some s)
    (hk : jVec jKeyframe j = none) : jVec jKeyframe (wVec wF64 s) = none := by
  cases s with
  | nil =>
    cases j with
    | arr js =>
      cases js with
      | nil => exact nomatch hk
      | cons j js =>
        simp [jVec, List.mapM_cons, Option.bind_eq_some_iff] at h
    | _ => simp [jVec] at h
  | cons x xs => simp [wVec, jVec, List.mapM_cons, jKeyframe_num]

theorem rt_FloatValue : RT (F := F) jFloatValue wFloatValue :=
  rt_struct (fun _ _ _ => rt_dAnimatedProperty rt_F64 static_F64) objOnly fun _ => rfl

theorem rt_dColorValue {es es' : Obj F} {a : ColorValue F}
    (hd : dAnimatedProperty (jVec jF64) es = some a) (hA : Agree kColorValue (eColorValue a) es') :
    dAnimatedProperty (jVec jF64) es' = some a :=
  rt_dAnimatedProperty (rt_vec rt_F64) static_Vec hd hA

omit [FloatOps F] in
theorem ek_ColorValue (a : ColorValue F) (k : String) (hk : k ∉ kColorValue) :
    lookup (eColorValue a) k = none := by
  simp only [kColorValue, List.mem_cons, List.not_mem_nil, or_false, not_or] at hk
  simp [eColorValue, eAnimatedProperty, lookup_append, lookup_put, lookup_skip, lookup_nul,
    Ne.symm hk.1, Ne.symm hk.2.1, Ne.symm hk.2.2.1, Ne.symm hk.2.2.2.1, Ne.symm hk.2.2.2.2]

theorem rt_ColorValue : RT (F := F) jColorValue wColorValue :=
  rt_struct (fun _ _ _ => rt_dColorValue) objOnly fun _ => rfl

/-- Keys of `MultiDimensional`. -/
def kMultiDimensional : List String := kColorValue ++ ["l"]

omit [FloatOps F] in
theorem ek_MultiDimensional (a : MultiDimensional F) (k : String) (hk : k ∉ kMultiDimensional) :
    lookup (eMultiDimensional a : Obj F) k = none := by
  simp only [kMultiDimensional, List.mem_append, List.mem_cons, List.not_mem_nil, or_false, not_or] at hk
  obtain ⟨hs0, ho0⟩ := hk
  simp [eMultiDimensional, lookup_append, lookup_put, lookup_skip, lookup_nul,
    ek_ColorValue _ _ hs0, Ne.symm ho0]

theorem rt_dMultiDimensional {es es' : Obj F} {a : MultiDimensional F} (hd : dMultiDimensional es = some a)
    (hA : Agree kMultiDimensional (eMultiDimensional a) es') : dMultiDimensional es' = some a := by
  unfold dMultiDimensional at hd ⊢
  simp only [Option.bind_eq_bind, Option.bind_eq_some_iff, Option.some.injEq] at hd ⊢
  obtain ⟨v0, h0, v1, h1, rfl⟩ := hd
  exact ⟨_, rt_dColorValue h0 (by
      intro k hk
      rw [hA k (by simp only [kMultiDimensional, List.mem_append]; tauto)]
      simp only [kColorValue, kColorValue, List.mem_append, List.mem_cons, List.not_mem_nil, or_false, or_assoc] at hk
      rcases hk with rfl | rfl | rfl | rfl | rfl <;>
        simp [eMultiDimensional, lookup_append, lookup_put, lookup_skip, lookup_nul, ek_ColorValue, kColorValue]),
    _, skip_rt rt_F64 h1 ((hA "l" (by decide)).trans (by
      simp [eMultiDimensional, lookup_append, lookup_put, lookup_skip, lookup_nul, ek_ColorValue, kColorValue])), rfl⟩

theorem rt_MultiDimensional : RT (F := F) jMultiDimensional wMultiDimensional :=
  rt_struct (fun _ _ _ => rt_dMultiDimensional) objOnly fun _ => rfl

/-- Keys of `GradientColors`. -/
def kGradientColors : List String := ["k", "p"]

omit [FloatOps F] in
theorem ek_GradientColors (a : GradientColors F) (k : String) (hk : k ∉ kGradientColors) :
    lookup (eGradientColors a : Obj F) k = none := by
  simp only [kGradientColors, List.mem_append, List.mem_cons, List.not_mem_nil, or_false, not_or] at hk
  obtain ⟨ho0, ho1⟩ := hk
  simp [eGradientColors, lookup_append, lookup_put, lookup_skip, lookup_nul,
    Ne.symm ho0, Ne.symm ho1]

theorem rt_dGradientColors {es es' : Obj F} {a : GradientColors F} (hd : dGradientColors es = some a)
    (hA : Agree kGradientColors (eGradientColors a) es') : dGradientColors es' = some a := by
  unfold dGradientColors at hd ⊢
  simp only [Option.bind_eq_bind, Option.bind_eq_some_iff, Option.some.injEq] at hd ⊢
  obtain ⟨v0, h0, v1, h1, rfl⟩ := hd
  exact ⟨_, req_rt rt_MultiDimensional h0 ((hA "k" (by decide)).trans (by
      simp [eGradientColors, lookup_append, lookup_put, lookup_skip, lookup_nul])),
    _, req_rt rt_Usize h1 ((hA "p" (by decide)).trans (by
      simp [eGradientColors, lookup_append, lookup_put, lookup_skip, lookup_nul])), rfl⟩

theorem rt_GradientColors : RT (F := F) jGradientColors wGradientColors :=
  rt_struct (fun _ _ _ => rt_dGradientColors) (entries _) fun _ => rfl

/-- Keys of `PositionKeyframe`. -/
def kPositionKeyframe : List String := kKeyframe ++ ["ti", "to"]

omit [FloatOps F] in
theorem ek_PositionKeyframe (a : PositionKeyframe F) (k : String) (hk : k ∉ kPositionKeyframe) :
    lookup (ePositionKeyframe a : Obj F) k = none := by
  simp only [kPositionKeyframe, List.mem_append, List.mem_cons, List.not_mem_nil, or_false, not_or] at hk
  obtain ⟨hs0, ⟨ho0, ho1⟩⟩ := hk
  simp [ePositionKeyframe, lookup_append, lookup_put, lookup_skip, lookup_nul,
    ek_Keyframe _ _ hs0, Ne.symm ho0, Ne.symm ho1]

theorem rt_dPositionKeyframe {es es' : Obj F} {a : PositionKeyframe F} (hd : dPositionKeyframe es = some a)
    (hA : Agree kPositionKeyframe (ePositionKeyframe a) es') : dPositionKeyframe es' = some a := by
  unfold dPositionKeyframe at hd ⊢
  simp only [Option.bind_eq_bind, Option.bind_eq_some_iff, Option.some.injEq] at hd ⊢
  obtain ⟨v0, h0, v1, h1, v2, h2, rfl⟩ := hd
  exact ⟨_, rt_dKeyframe h0 (by
      intro k hk
      rw [hA k (by simp only [kPositionKeyframe, List.mem_append]; tauto)]
      simp only [kKeyframe, kKeyframe, kKeyframeBase, List.mem_append, List.mem_cons, List.not_mem_nil, or_false, or_assoc] at hk
      rcases hk with rfl | rfl | rfl | rfl | rfl | rfl <;>
        simp [ePositionKeyframe, lookup_append, lookup_put, lookup_skip, lookup_nul, ek_Keyframe, kKeyframe, kKeyframeBase]),
    _, skip_rt (rt_vec rt_F64) h1 ((hA "ti" (by decide)).trans (by
      simp [ePositionKeyframe, lookup_append, lookup_put, lookup_skip, lookup_nul, ek_Keyframe, kKeyframe, kKeyframeBase])),
    _, skip_rt (rt_vec rt_F64) h2 ((hA "to" (by decide)).trans (by
      simp [ePositionKeyframe, lookup_append, lookup_put, lookup_skip, lookup_nul, ek_Keyframe, kKeyframe, kKeyframeBase])), rfl⟩

theorem rt_PositionKeyframe : RT (F := F) jPositionKeyframe wPositionKeyframe :=
  rt_struct (fun _ _ _ => rt_dPositionKeyframe) objOnly fun _ => rfl

theorem rt_PositionValueK : RT (F := F) jPositionValueK wPositionValueK := by
  intro j a hj
  unfold jPositionValueK at hj
  split at hj
  · rename_i ks hk
    cases hj
    have := rt_vec rt_PositionKeyframe _ _ hk
    refine ⟨?_, this.2⟩
    unfold jPositionValueK wPositionValueK
    rw [this.1]
  · rename_i hk
    cases hd : jVec jF64 j with
    | none => rw [hd] at hj; exact nomatch hj
    | some s =>
      rw [hd] at hj
      cases hj
      have h := rt_vec rt_F64 _ _ hd
      refine ⟨?_, h.2⟩
      unfold jPositionValueK wPositionValueK
      dsimp only
      have : jVec jPositionKeyframe (wVec wF64 s) = none := by
        cases s with
        | nil =>
          cases j with
          | arr js =>
            cases js with
            | nil => exact nomatch hk
            | cons j js =>
              simp [jVec, List.mapM_cons, Option.bind_eq_some_iff] at hd
          | _ => simp [jVec] at hd
        | cons x xs =>
          have : jPositionKeyframe (wF64 x) = none := rfl
          simp [wVec, jVec, List.mapM_cons, this]
      rw [this, h.1]
      rfl

/-- Keys of `Position`. -/
def kPosition : List String := ["ix", "a", "x", "l", "k"]

omit [FloatOps F] in
theorem ek_Position (a : Schema.Position F) (k : String) (hk : k ∉ kPosition) :
    lookup (ePosition a : Obj F) k = none := by
  simp only [kPosition, List.mem_append, List.mem_cons, List.not_mem_nil, or_false, not_or] at hk
  obtain ⟨ho0, ho1, ho2, ho3, ho4⟩ := hk
  simp [ePosition, lookup_append, lookup_put, lookup_skip, lookup_nul,
    Ne.symm ho0, Ne.symm ho1, Ne.symm ho2, Ne.symm ho3, Ne.symm ho4]

theorem rt_dPosition {es es' : Obj F} {a : Schema.Position F} (hd : dPosition es = some a)
    (hA : Agree kPosition (ePosition a) es') : dPosition es' = some a := by
  unfold dPosition at hd ⊢
  simp only [Option.bind_eq_bind, Option.bind_eq_some_iff, Option.some.injEq] at hd ⊢
  obtain ⟨v0, h0, v1, h1, v2, h2, v3, h3, v4, h4, rfl⟩ := hd
  exact ⟨_, skip_rt rt_F64 h0 ((hA "ix" (by decide)).trans (by
      simp [ePosition, lookup_append, lookup_put, lookup_skip, lookup_nul])),
    _, nul_rt rt_BoolInt h1 ((hA "a" (by decide)).trans (by
      simp [ePosition, lookup_append, lookup_put, lookup_skip, lookup_nul])),
    _, skip_rt rt_Str h2 ((hA "x" (by decide)).trans (by
      simp [ePosition, lookup_append, lookup_put, lookup_skip, lookup_nul])),
    _, skip_rt rt_F64 h3 ((hA "l" (by decide)).trans (by
      simp [ePosition, lookup_append, lookup_put, lookup_skip, lookup_nul])),
    _, req_rt rt_PositionValueK h4 ((hA "k" (by decide)).trans (by
      simp [ePosition, lookup_append, lookup_put, lookup_skip, lookup_nul])), rfl⟩

theorem rt_Position : RT (F := F) jPosition wPosition :=
  rt_struct (fun _ _ _ => rt_dPosition) (entries _) fun _ => rfl

/-- Keys of `ShapeKeyframe`. -/
def kShapeKeyframe : List String := kKeyframeBase ++ ["s", "e"]

omit [FloatOps F] in
theorem ek_ShapeKeyframe (a : ShapeKeyframe F) (k : String) (hk : k ∉ kShapeKeyframe) :
    lookup (eShapeKeyframe a : Obj F) k = none := by
  simp only [kShapeKeyframe, List.mem_append, List.mem_cons, List.not_mem_nil, or_false, not_or] at hk
  obtain ⟨hs0, ⟨ho0, ho1⟩⟩ := hk
  simp [eShapeKeyframe, lookup_append, lookup_put, lookup_skip, lookup_nul,
    ek_KeyframeBase _ _ hs0, Ne.symm ho0, Ne.symm ho1]

theorem rt_dShapeKeyframe {es es' : Obj F} {a : ShapeKeyframe F} (hd : dShapeKeyframe es = some a)
    (hA : Agree kShapeKeyframe (eShapeKeyframe a) es') : dShapeKeyframe es' = some a := by
  unfold dShapeKeyframe at hd ⊢
  simp only [Option.bind_eq_bind, Option.bind_eq_some_iff, Option.some.injEq] at hd ⊢
  obtain ⟨v0, h0, v1, h1, v2, h2, rfl⟩ := hd
  exact ⟨_, rt_dKeyframeBase h0 (by
      intro k hk
      rw [hA k (by simp only [kShapeKeyframe, List.mem_append]; tauto)]
      simp only [kKeyframeBase, kKeyframeBase, List.mem_append, List.mem_cons, List.not_mem_nil, or_false, or_assoc] at hk
      rcases hk with rfl | rfl | rfl | rfl <;>
        simp [eShapeKeyframe, lookup_append, lookup_put, lookup_skip, lookup_nul, ek_KeyframeBase, kKeyframeBase]),
    _, skip_rt (rt_vec rt_Bezier) h1 ((hA "s" (by decide)).trans (by
      simp [eShapeKeyframe, lookup_append, lookup_put, lookup_skip, lookup_nul, ek_KeyframeBase, kKeyframeBase])),
    _, skip_rt (rt_vec rt_Bezier) h2 ((hA "e" (by decide)).trans (by
      simp [eShapeKeyframe, lookup_append, lookup_put, lookup_skip, lookup_nul, ek_KeyframeBase, kKeyframeBase])), rfl⟩

theorem rt_ShapeKeyframe : RT (F := F) jShapeKeyframe wShapeKeyframe :=
  rt_struct (fun _ _ _ => rt_dShapeKeyframe) objOnly fun _ => rfl

theorem rt_ShapePropertyK : RT (F := F) jShapePropertyK wShapePropertyK := by
  intro j a hj
  unfold jShapePropertyK at hj
  split at hj
  · rename_i ks hk
    cases hj
    unfold jShapeKeyframes at hk
    split at hk
    · rename_i ks' hk'
      split at hk
      · rename_i hok
        cases hk
        have := rt_vec rt_ShapeKeyframe _ _ hk'
        refine ⟨?_, this.2⟩
        unfold jShapePropertyK jShapeKeyframes wShapePropertyK
        rw [this.1]
        simp [hok]
      · exact nomatch hk
    · exact nomatch hk
  · cases hd : jBezier j with
    | none => rw [hd] at hj; exact nomatch hj
    | some s =>
      rw [hd] at hj
      cases hj
      have h := rt_Bezier _ _ hd
      refine ⟨?_, h.2⟩
      unfold jShapePropertyK wShapePropertyK
      dsimp only
      rw [h.1]
      rfl

/-- Keys of `ShapeProperty`. -/
def kShapeProperty : List String := ["ix", "a", "x", "k"]

omit [FloatOps F] in
theorem ek_ShapeProperty (a : ShapeProperty F) (k : String) (hk : k ∉ kShapeProperty) :
    lookup (eShapeProperty a : Obj F) k = none := by
  simp only [kShapeProperty, List.mem_append, List.mem_cons, List.not_mem_nil, or_false, not_or] at hk
  obtain ⟨ho0, ho1, ho2, ho3⟩ := hk
  simp [eShapeProperty, lookup_append, lookup_put, lookup_skip, lookup_nul,
    Ne.symm ho0, Ne.symm ho1, Ne.symm ho2, Ne.symm ho3]

theorem rt_dShapeProperty {es es' : Obj F} {a : ShapeProperty F} (hd : dShapeProperty es = some a)
    (hA : Agree kShapeProperty (eShapeProperty a) es') : dShapeProperty es' = some a := by
  unfold dShapeProperty at hd ⊢
  simp only [Option.bind_eq_bind, Option.bind_eq_some_iff, Option.some.injEq] at hd ⊢
  obtain ⟨v0, h0, v1, h1, v2, h2, v3, h3, rfl⟩ := hd
  exact ⟨_, skip_rt rt_F64 h0 ((hA "ix" (by decide)).trans (by
      simp [eShapeProperty, lookup_append, lookup_put, lookup_skip, lookup_nul])),
    _, skip_rt rt_BoolInt h1 ((hA "a" (by decide)).trans (by
      simp [eShapeProperty, lookup_append, lookup_put, lookup_skip, lookup_nul])),
    _, skip_rt rt_Str h2 ((hA "x" (by decide)).trans (by
      simp [eShapeProperty, lookup_append, lookup_put, lookup_skip, lookup_nul])),
    _, req_rt rt_ShapePropertyK h3 ((hA "k" (by decide)).trans (by
      simp [eShapeProperty, lookup_append, lookup_put, lookup_skip, lookup_nul])), rfl⟩

theorem rt_ShapeProperty : RT (F := F) jShapeProperty wShapeProperty :=
  rt_struct (fun _ _ _ => rt_dShapeProperty) (entries _) fun _ => rfl

/-- Keys of `SplitVector`. -/
def kSplitVector : List String := ["s", "x", "y", "z"]

omit [FloatOps F] in
theorem ek_SplitVector (a : SplitVector F) (k : String) (hk : k ∉ kSplitVector) :
    lookup (eSplitVector a : Obj F) k = none := by
  simp only [kSplitVector, List.mem_append, List.mem_cons, List.not_mem_nil, or_false, not_or] at hk
  obtain ⟨ho0, ho1, ho2, ho3⟩ := hk
  simp [eSplitVector, lookup_append, lookup_put, lookup_skip, lookup_nul,
    Ne.symm ho0, Ne.symm ho1, Ne.symm ho2, Ne.symm ho3]

theorem rt_dSplitVector {es es' : Obj F} {a : SplitVector F} (hd : dSplitVector es = some a)
    (hA : Agree kSplitVector (eSplitVector a) es') : dSplitVector es' = some a := by
  unfold dSplitVector at hd ⊢
  simp only [Option.bind_eq_bind, Option.bind_eq_some_iff, Option.some.injEq] at hd ⊢
  obtain ⟨v0, h0, v1, h1, v2, h2, v3, h3, rfl⟩ := hd
  exact ⟨_, req_rt rt_Bool h0 ((hA "s" (by decide)).trans (by
      simp [eSplitVector, lookup_append, lookup_put, lookup_skip, lookup_nul])),
    _, req_rt rt_FloatValue h1 ((hA "x" (by decide)).trans (by
      simp [eSplitVector, lookup_append, lookup_put, lookup_skip, lookup_nul])),
    _, req_rt rt_FloatValue h2 ((hA "y" (by decide)).trans (by
      simp [eSplitVector, lookup_append, lookup_put, lookup_skip, lookup_nul])),
    _, skip_rt rt_FloatValue h3 ((hA "z" (by decide)).trans (by
      simp [eSplitVector, lookup_append, lookup_put, lookup_skip, lookup_nul])), rfl⟩

theorem rt_SplitVector : RT (F := F) jSplitVector wSplitVector :=
  rt_struct (fun _ _ _ => rt_dSplitVector) (entries _) fun _ => rfl

theorem jPosition_wSplitVector (s : SplitVector F) : jPosition (wSplitVector s) = none := by
  have : lookup (eSplitVector s) "k" = none := ek_SplitVector s "k" (by decide)
  simp [jPosition, wSplitVector, entries, dPosition, req, this]

theorem rt_TransformP : RT (F := F) jTransformP wTransformP := by
  intro j a hj
  unfold jTransformP at hj
  split at hj
  · rename_i p hp
    cases hj
    have h := rt_Position _ _ hp
    refine ⟨?_, h.2⟩
    unfold jTransformP wTransformP
    rw [h.1]
  · cases hd : jSplitVector j with
    | none => rw [hd] at hj; exact nomatch hj
    | some s =>
      rw [hd] at hj
      cases hj
      have h := rt_SplitVector _ _ hd
      refine ⟨?_, h.2⟩
      unfold jTransformP wTransformP
      dsimp only
      rw [jPosition_wSplitVector, h.1]
      rfl

theorem rt_TransformR : RT (F := F) jTransformR wTransformR := by
  intro j a hj
  unfold jTransformR at hj
  split at hj
  · rename_i p hp
    cases hj
    have h := rt_FloatValue _ _ hp
    refine ⟨?_, h.2⟩
    unfold jTransformR wTransformR
    rw [h.1]
  · unfold jSplitRotation at hj
    obtain ⟨es, _, hd⟩ := Option.bind_eq_some_iff.mp hj
    unfold dSplitRotation at hd
    simp only [Option.bind_eq_bind, Option.bind_eq_some_iff, Option.some.injEq] at hd
    obtain ⟨x, hx, y, hy, z, hz, o, ho, rfl⟩ := hd
    refine ⟨?_, fun h => nomatch h⟩
    have hf : jFloatValue (wTransformR (.splitRotation x y z o)) = none := by
      simp [jFloatValue, wTransformR, objOnly, dAnimatedProperty, req, lookup_append, lookup_put]
    unfold jTransformR
    rw [hf]
    show (dSplitRotation _ : Option (AnyTransformR F)) = _
    unfold dSplitRotation
    simp only [Option.bind_eq_bind, Option.bind_eq_some_iff, Option.some.injEq]
    exact ⟨_, req_rt rt_FloatValue hx (by simp [lookup_append, lookup_put]),
      _, req_rt rt_FloatValue hy (by simp [lookup_append, lookup_put]),
      _, req_rt rt_FloatValue hz (by simp [lookup_append, lookup_put]),
      _, req_rt rt_MultiDimensional ho (by simp [lookup_append, lookup_put]), rfl⟩

/-- Keys of `Transform`. -/
def kTransform : List String := ["a", "p", "s", "r", "sk", "sa", "o"]

omit [FloatOps F] in
theorem ek_Transform (a : Schema.Transform F) (k : String) (hk : k ∉ kTransform) :
    lookup (eTransform a : Obj F) k = none := by
  simp only [kTransform, List.mem_append, List.mem_cons, List.not_mem_nil, or_false, not_or] at hk
  obtain ⟨ho0, ho1, ho2, ho3, ho4, ho5, ho6⟩ := hk
  simp [eTransform, lookup_append, lookup_put, lookup_skip, lookup_nul,
    Ne.symm ho0, Ne.symm ho1, Ne.symm ho2, Ne.symm ho3, Ne.symm ho4, Ne.symm ho5, Ne.symm ho6]

theorem rt_dTransform {es es' : Obj F} {a : Schema.Transform F} (hd : dTransform es = some a)
    (hA : Agree kTransform (eTransform a) es') : dTransform es' = some a := by
  unfold dTransform at hd ⊢
  simp only [Option.bind_eq_bind, Option.bind_eq_some_iff, Option.some.injEq] at hd ⊢
  obtain ⟨v0, h0, v1, h1, v2, h2, v3, h3, v4, h4, v5, h5, v6, h6, rfl⟩ := hd
  exact ⟨_, skip_rt rt_Position h0 ((hA "a" (by decide)).trans (by
      simp [eTransform, lookup_append, lookup_put, lookup_skip, lookup_nul])),
    _, req_rt rt_TransformP h1 ((hA "p" (by decide)).trans (by
      simp [eTransform, lookup_append, lookup_put, lookup_skip, lookup_nul])),
    _, skip_rt rt_MultiDimensional h2 ((hA "s" (by decide)).trans (by
      simp [eTransform, lookup_append, lookup_put, lookup_skip, lookup_nul])),
    _, skip_rt rt_TransformR h3 ((hA "r" (by decide)).trans (by
      simp [eTransform, lookup_append, lookup_put, lookup_skip, lookup_nul])),
    _, skip_rt rt_FloatValue h4 ((hA "sk" (by decide)).trans (by
      simp [eTransform, lookup_append, lookup_put, lookup_skip, lookup_nul])),
    _, skip_rt rt_FloatValue h5 ((hA "sa" (by decide)).trans (by
      simp [eTransform, lookup_append, lookup_put, lookup_skip, lookup_nul])),
    _, skip_rt rt_FloatValue h6 ((hA "o" (by decide)).trans (by
      simp [eTransform, lookup_append, lookup_put, lookup_skip, lookup_nul])), rfl⟩

theorem rt_Transform : RT (F := F) jTransform wTransform :=
  rt_struct (fun _ _ _ => rt_dTransform) (entries _) fun _ => rfl

/-- Keys of `Mask`. -/
def kMask : List String := ["nm", "mn", "inv", "pt", "o", "mode", "x"]

omit [FloatOps F] in
theorem ek_Mask (a : Schema.Mask F) (k : String) (hk : k ∉ kMask) :
    lookup (eMask a : Obj F) k = none := by
  simp only [kMask, List.mem_append, List.mem_cons, List.not_mem_nil, or_false, not_or] at hk
  obtain ⟨ho0, ho1, ho2, ho3, ho4, ho5, ho6⟩ := hk
  simp [eMask, lookup_append, lookup_put, lookup_skip, lookup_nul,
    Ne.symm ho0, Ne.symm ho1, Ne.symm ho2, Ne.symm ho3, Ne.symm ho4, Ne.symm ho5, Ne.symm ho6]

theorem rt_dMask {es es' : Obj F} {a : Schema.Mask F} (hd : dMask es = some a)
    (hA : Agree kMask (eMask a) es') : dMask es' = some a := by
  unfold dMask at hd ⊢
  simp only [Option.bind_eq_bind, Option.bind_eq_some_iff, Option.some.injEq] at hd ⊢
  obtain ⟨v0, h0, v1, h1, v2, h2, v3, h3, v4, h4, v5, h5, v6, h6, rfl⟩ := hd
  exact ⟨_, skip_rt rt_Str h0 ((hA "nm" (by decide)).trans (by
      simp [eMask, lookup_append, lookup_put, lookup_skip, lookup_nul])),
    _, skip_rt rt_Str h1 ((hA "mn" (by decide)).trans (by
      simp [eMask, lookup_append, lookup_put, lookup_skip, lookup_nul])),
    _, skip_rt rt_Bool h2 ((hA "inv" (by decide)).trans (by
      simp [eMask, lookup_append, lookup_put, lookup_skip, lookup_nul])),
    _, skip_rt rt_ShapeProperty h3 ((hA "pt" (by decide)).trans (by
      simp [eMask, lookup_append, lookup_put, lookup_skip, lookup_nul])),
    _, skip_rt rt_FloatValue h4 ((hA "o" (by decide)).trans (by
      simp [eMask, lookup_append, lookup_put, lookup_skip, lookup_nul])),
    _, skip_rt rt_MaskMode h5 ((hA "mode" (by decide)).trans (by
      simp [eMask, lookup_append, lookup_put, lookup_skip, lookup_nul])),
    _, skip_rt rt_FloatValue h6 ((hA "x" (by decide)).trans (by
      simp [eMask, lookup_append, lookup_put, lookup_skip, lookup_nul])), rfl⟩

theorem rt_Mask : RT (F := F) jMask wMask :=
  rt_struct (fun _ _ _ => rt_dMask) (entries _) fun _ => rfl

/-! ### Shapes -/

/-- Keys of `GraphicElement`. -/
def kGraphicElement : List String := kVisualObject ++ ["hd", "bm", "ix", "cl", "ln", "ind"]

omit [FloatOps F] in
theorem ek_GraphicElement (a : GraphicElement F) (k : String) (hk : k ∉ kGraphicElement) :
    lookup (eGraphicElement a : Obj F) k = none := by
  simp only [kGraphicElement, List.mem_append, List.mem_cons, List.not_mem_nil, or_false, not_or] at hk
  obtain ⟨hs0, ⟨ho0, ho1, ho2, ho3, ho4, ho5⟩⟩ := hk
  simp [eGraphicElement, lookup_append, lookup_put, lookup_skip, lookup_nul,
    ek_VisualObject _ _ hs0, Ne.symm ho0, Ne.symm ho1, Ne.symm ho2, Ne.symm ho3, Ne.symm ho4, Ne.symm ho5]

theorem rt_dGraphicElement {es es' : Obj F} {a : GraphicElement F} (hd : dGraphicElement es = some a)
    (hA : Agree kGraphicElement (eGraphicElement a) es') : dGraphicElement es' = some a := by
  unfold dGraphicElement at hd ⊢
  simp only [Option.bind_eq_bind, Option.bind_eq_some_iff, Option.some.injEq] at hd ⊢
  obtain ⟨v0, h0, v1, h1, v2, h2, v3, h3, v4, h4, v5, h5, v6, h6, rfl⟩ := hd
  exact ⟨_, rt_dVisualObject h0 (by
      intro k hk
      rw [hA k (by simp only [kGraphicElement, List.mem_append]; tauto)]
      simp only [kVisualObject, kVisualObject, List.mem_append, List.mem_cons, List.not_mem_nil, or_false, or_assoc] at hk
      rcases hk with rfl | rfl <;>
        simp [eGraphicElement, lookup_append, lookup_put, lookup_skip, lookup_nul, ek_VisualObject, kVisualObject]),
    _, skip_rt rt_Bool h1 ((hA "hd" (by decide)).trans (by
      simp [eGraphicElement, lookup_append, lookup_put, lookup_skip, lookup_nul, ek_VisualObject, kVisualObject])),
    _, skip_rt rt_BlendMode h2 ((hA "bm" (by decide)).trans (by
      simp [eGraphicElement, lookup_append, lookup_put, lookup_skip, lookup_nul, ek_VisualObject, kVisualObject])),
    _, skip_rt rt_F64 h3 ((hA "ix" (by decide)).trans (by
      simp [eGraphicElement, lookup_append, lookup_put, lookup_skip, lookup_nul, ek_VisualObject, kVisualObject])),
    _, skip_rt rt_Str h4 ((hA "cl" (by decide)).trans (by
      simp [eGraphicElement, lookup_append, lookup_put, lookup_skip, lookup_nul, ek_VisualObject, kVisualObject])),
    _, skip_rt rt_Str h5 ((hA "ln" (by decide)).trans (by
      simp [eGraphicElement, lookup_append, lookup_put, lookup_skip, lookup_nul, ek_VisualObject, kVisualObject])),
    _, skip_rt rt_F64 h6 ((hA "ind" (by decide)).trans (by
      simp [eGraphicElement, lookup_append, lookup_put, lookup_skip, lookup_nul, ek_VisualObject, kVisualObject])), rfl⟩

/-- Keys of `ShapeBase`. -/
def kShapeBase : List String := kGraphicElement ++ ["d"]

omit [FloatOps F] in
theorem ek_ShapeBase (a : ShapeBase F) (k : String) (hk : k ∉ kShapeBase) :
    lookup (eShapeBase a : Obj F) k = none := by
  simp only [kShapeBase, List.mem_append, List.mem_cons, List.not_mem_nil, or_false, not_or] at hk
  obtain ⟨hs0, ho0⟩ := hk
  simp [eShapeBase, lookup_append, lookup_put, lookup_skip, lookup_nul,
    ek_GraphicElement _ _ hs0, Ne.symm ho0]

theorem rt_dShapeBase {es es' : Obj F} {a : ShapeBase F} (hd : dShapeBase es = some a)
    (hA : Agree kShapeBase (eShapeBase a) es') : dShapeBase es' = some a := by
  unfold dShapeBase at hd ⊢
  simp only [Option.bind_eq_bind, Option.bind_eq_some_iff, Option.some.injEq] at hd ⊢
  obtain ⟨v0, h0, v1, h1, rfl⟩ := hd
  exact ⟨_, rt_dGraphicElement h0 (by
      intro k hk
      rw [hA k (by simp only [kShapeBase, List.mem_append]; tauto)]
      simp only [kGraphicElement, kGraphicElement, kVisualObject, List.mem_append, List.mem_cons, List.not_mem_nil, or_false, or_assoc] at hk
      rcases hk with rfl | rfl | rfl | rfl | rfl | rfl | rfl | rfl <;>
        simp [eShapeBase, lookup_append, lookup_put, lookup_skip, lookup_nul, ek_GraphicElement, kGraphicElement, kVisualObject]),
    _, skip_rt rt_ShapeDirection h1 ((hA "d" (by decide)).trans (by
      simp [eShapeBase, lookup_append, lookup_put, lookup_skip, lookup_nul, ek_GraphicElement, kGraphicElement, kVisualObject])), rfl⟩

/-- Keys of `ShapeStyle`. -/
def kShapeStyle : List String := kGraphicElement ++ ["o"]

omit [FloatOps F] in
theorem ek_ShapeStyle (a : ShapeStyle F) (k : String) (hk : k ∉ kShapeStyle) :
    lookup (eShapeStyle a : Obj F) k = none := by
  simp only [kShapeStyle, List.mem_append, List.mem_cons, List.not_mem_nil, or_false, not_or] at hk
  obtain ⟨hs0, ho0⟩ := hk
  simp [eShapeStyle, lookup_append, lookup_put, lookup_skip, lookup_nul,
    ek_GraphicElement _ _ hs0, Ne.symm ho0]

theorem rt_dShapeStyle {es es' : Obj F} {a : ShapeStyle F} (hd : dShapeStyle es = some a)
    (hA : Agree kShapeStyle (eShapeStyle a) es') : dShapeStyle es' = some a := by
  unfold dShapeStyle at hd ⊢
  simp only [Option.bind_eq_bind, Option.bind_eq_some_iff, Option.some.injEq] at hd ⊢
  obtain ⟨v0, h0, v1, h1, rfl⟩ := hd
  exact ⟨_, rt_dGraphicElement h0 (by
      intro k hk
      rw [hA k (by simp only [kShapeStyle, List.mem_append]; tauto)]
      simp only [kGraphicElement, kGraphicElement, kVisualObject, List.mem_append, List.mem_cons, List.not_mem_nil, or_false, or_assoc] at hk
      rcases hk with rfl | rfl | rfl | rfl | rfl | rfl | rfl | rfl <;>
        simp [eShapeStyle, lookup_append, lookup_put, lookup_skip, lookup_nul, ek_GraphicElement, kGraphicElement, kVisualObject]),
    _, req_rt rt_FloatValue h1 ((hA "o" (by decide)).trans (by
      simp [eShapeStyle, lookup_append, lookup_put, lookup_skip, lookup_nul, ek_GraphicElement, kGraphicElement, kVisualObject])), rfl⟩

/-- Keys of `StrokeDash`. -/
def kStrokeDash : List String := kVisualObject ++ ["n", "v"]

omit [FloatOps F] in
theorem ek_StrokeDash (a : StrokeDash F) (k : String) (hk : k ∉ kStrokeDash) :
    lookup (eStrokeDash a : Obj F) k = none := by
  simp only [kStrokeDash, List.mem_append, List.mem_cons, List.not_mem_nil, or_false, not_or] at hk
  obtain ⟨hs0, ⟨ho0, ho1⟩⟩ := hk
  simp [eStrokeDash, lookup_append, lookup_put, lookup_skip, lookup_nul,
    ek_VisualObject _ _ hs0, Ne.symm ho0, Ne.symm ho1]

theorem rt_dStrokeDash {es es' : Obj F} {a : StrokeDash F} (hd : dStrokeDash es = some a)
    (hA : Agree kStrokeDash (eStrokeDash a) es') : dStrokeDash es' = some a := by
  unfold dStrokeDash at hd ⊢
  simp only [Option.bind_eq_bind, Option.bind_eq_some_iff, Option.some.injEq] at hd ⊢
  obtain ⟨v0, h0, v1, h1, v2, h2, rfl⟩ := hd
  exact ⟨_, rt_dVisualObject h0 (by
      intro k hk
      rw [hA k (by simp only [kStrokeDash, List.mem_append]; tauto)]
      simp only [kVisualObject, kVisualObject, List.mem_append, List.mem_cons, List.not_mem_nil, or_false, or_assoc] at hk
      rcases hk with rfl | rfl <;>
        simp [eStrokeDash, lookup_append, lookup_put, lookup_skip, lookup_nul, ek_VisualObject, kVisualObject]),
    _, skip_rt rt_StrokeDashType h1 ((hA "n" (by decide)).trans (by
      simp [eStrokeDash, lookup_append, lookup_put, lookup_skip, lookup_nul, ek_VisualObject, kVisualObject])),
    _, skip_rt rt_FloatValue h2 ((hA "v" (by decide)).trans (by
      simp [eStrokeDash, lookup_append, lookup_put, lookup_skip, lookup_nul, ek_VisualObject, kVisualObject])), rfl⟩

theorem rt_StrokeDash : RT (F := F) jStrokeDash wStrokeDash :=
  rt_struct (fun _ _ _ => rt_dStrokeDash) objOnly fun _ => rfl

/-- Keys of `BaseStroke`. -/
def kBaseStroke : List String := ["lc", "lj", "ml", "ml2", "w", "d"]

omit [FloatOps F] in
theorem ek_BaseStroke (a : BaseStroke F) (k : String) (hk : k ∉ kBaseStroke) :
    lookup (eBaseStroke a : Obj F) k = none := by
  simp only [kBaseStroke, List.mem_append, List.mem_cons, List.not_mem_nil, or_false, not_or] at hk
  obtain ⟨ho0, ho1, ho2, ho3, ho4, ho5⟩ := hk
  simp [eBaseStroke, lookup_append, lookup_put, lookup_skip, lookup_nul,
    Ne.symm ho0, Ne.symm ho1, Ne.symm ho2, Ne.symm ho3, Ne.symm ho4, Ne.symm ho5]

theorem rt_dBaseStroke {es es' : Obj F} {a : BaseStroke F} (hd : dBaseStroke es = some a)
    (hA : Agree kBaseStroke (eBaseStroke a) es') : dBaseStroke es' = some a := by
  unfold dBaseStroke at hd ⊢
  simp only [Option.bind_eq_bind, Option.bind_eq_some_iff, Option.some.injEq] at hd ⊢
  obtain ⟨v0, h0, v1, h1, v2, h2, v3, h3, v4, h4, v5, h5, rfl⟩ := hd
  exact ⟨_, nul_rt rt_LineCap h0 ((hA "lc" (by decide)).trans (by
      simp [eBaseStroke, lookup_append, lookup_put, lookup_skip, lookup_nul])),
    _, nul_rt rt_LineJoin h1 ((hA "lj" (by decide)).trans (by
      simp [eBaseStroke, lookup_append, lookup_put, lookup_skip, lookup_nul])),
    _, nul_rt rt_F64 h2 ((hA "ml" (by decide)).trans (by
      simp [eBaseStroke, lookup_append, lookup_put, lookup_skip, lookup_nul])),
    _, nul_rt rt_FloatValue h3 ((hA "ml2" (by decide)).trans (by
      simp [eBaseStroke, lookup_append, lookup_put, lookup_skip, lookup_nul])),
    _, req_rt rt_FloatValue h4 ((hA "w" (by decide)).trans (by
      simp [eBaseStroke, lookup_append, lookup_put, lookup_skip, lookup_nul])),
    _, nul_rt (rt_vec rt_StrokeDash) h5 ((hA "d" (by decide)).trans (by
      simp [eBaseStroke, lookup_append, lookup_put, lookup_skip, lookup_nul])), rfl⟩

/-- Keys of `BaseGradient`. -/
def kBaseGradient : List String := ["g", "s", "e", "t", "h", "a"]

omit [FloatOps F] in
theorem ek_BaseGradient (a : BaseGradient F) (k : String) (hk : k ∉ kBaseGradient) :
    lookup (eBaseGradient a : Obj F) k = none := by
  simp only [kBaseGradient, List.mem_append, List.mem_cons, List.not_mem_nil, or_false, not_or] at hk
  obtain ⟨ho0, ho1, ho2, ho3, ho4, ho5⟩ := hk
  simp [eBaseGradient, lookup_append, lookup_put, lookup_skip, lookup_nul,
    Ne.symm ho0, Ne.symm ho1, Ne.symm ho2, Ne.symm ho3, Ne.symm ho4, Ne.symm ho5]

theorem rt_dBaseGradient {es es' : Obj F} {a : BaseGradient F} (hd : dBaseGradient es = some a)
    (hA : Agree kBaseGradient (eBaseGradient a) es') : dBaseGradient es' = some a := by
  unfold dBaseGradient at hd ⊢
  simp only [Option.bind_eq_bind, Option.bind_eq_some_iff, Option.some.injEq] at hd ⊢
  obtain ⟨v0, h0, v1, h1, v2, h2, v3, h3, v4, h4, v5, h5, rfl⟩ := hd
  exact ⟨_, req_rt rt_GradientColors h0 ((hA "g" (by decide)).trans (by
      simp [eBaseGradient, lookup_append, lookup_put, lookup_skip, lookup_nul])),
    _, req_rt rt_MultiDimensional h1 ((hA "s" (by decide)).trans (by
      simp [eBaseGradient, lookup_append, lookup_put, lookup_skip, lookup_nul])),
    _, req_rt rt_MultiDimensional h2 ((hA "e" (by decide)).trans (by
      simp [eBaseGradient, lookup_append, lookup_put, lookup_skip, lookup_nul])),
    _, nul_rt rt_GradientType h3 ((hA "t" (by decide)).trans (by
      simp [eBaseGradient, lookup_append, lookup_put, lookup_skip, lookup_nul])),
    _, nul_rt rt_FloatValue h4 ((hA "h" (by decide)).trans (by
      simp [eBaseGradient, lookup_append, lookup_put, lookup_skip, lookup_nul])),
    _, nul_rt rt_FloatValue h5 ((hA "a" (by decide)).trans (by
      simp [eBaseGradient, lookup_append, lookup_put, lookup_skip, lookup_nul])), rfl⟩

/-- Keys of `Rectangle`. -/
def kRectangle : List String := kShapeBase ++ ["p", "s", "r"]

omit [FloatOps F] in
theorem ek_Rectangle (a : RectangleShape F) (k : String) (hk : k ∉ kRectangle) :
    lookup (eRectangle a : Obj F) k = none := by
  simp only [kRectangle, List.mem_append, List.mem_cons, List.not_mem_nil, or_false, not_or] at hk
  obtain ⟨hs0, ⟨ho0, ho1, ho2⟩⟩ := hk
  simp [eRectangle, lookup_append, lookup_put, lookup_skip, lookup_nul,
    ek_ShapeBase _ _ hs0, Ne.symm ho0, Ne.symm ho1, Ne.symm ho2]

theorem rt_dRectangle {es es' : Obj F} {a : RectangleShape F} (hd : dRectangle es = some a)
    (hA : Agree kRectangle (eRectangle a) es') : dRectangle es' = some a := by
  unfold dRectangle at hd ⊢
  simp only [Option.bind_eq_bind, Option.bind_eq_some_iff, Option.some.injEq] at hd ⊢
  obtain ⟨v0, h0, v1, h1, v2, h2, v3, h3, rfl⟩ := hd
  exact ⟨_, rt_dShapeBase h0 (by
      intro k hk
      rw [hA k (by simp only [kRectangle, List.mem_append]; tauto)]
      simp only [kShapeBase, kGraphicElement, kShapeBase, kVisualObject, List.mem_append, List.mem_cons, List.not_mem_nil, or_false, or_assoc] at hk
      rcases hk with rfl | rfl | rfl | rfl | rfl | rfl | rfl | rfl | rfl <;>
        simp [eRectangle, lookup_append, lookup_put, lookup_skip, lookup_nul, ek_ShapeBase, kGraphicElement, kShapeBase, kVisualObject]),
    _, req_rt rt_Position h1 ((hA "p" (by decide)).trans (by
      simp [eRectangle, lookup_append, lookup_put, lookup_skip, lookup_nul, ek_ShapeBase, kGraphicElement, kShapeBase, kVisualObject])),
    _, req_rt rt_MultiDimensional h2 ((hA "s" (by decide)).trans (by
      simp [eRectangle, lookup_append, lookup_put, lookup_skip, lookup_nul, ek_ShapeBase, kGraphicElement, kShapeBase, kVisualObject])),
    _, req_rt rt_FloatValue h3 ((hA "r" (by decide)).trans (by
      simp [eRectangle, lookup_append, lookup_put, lookup_skip, lookup_nul, ek_ShapeBase, kGraphicElement, kShapeBase, kVisualObject])), rfl⟩

/-- Keys of `Ellipse`. -/
def kEllipse : List String := kShapeBase ++ ["p", "s"]

omit [FloatOps F] in
theorem ek_Ellipse (a : EllipseShape F) (k : String) (hk : k ∉ kEllipse) :
    lookup (eEllipse a : Obj F) k = none := by
  simp only [kEllipse, List.mem_append, List.mem_cons, List.not_mem_nil, or_false, not_or] at hk
  obtain ⟨hs0, ⟨ho0, ho1⟩⟩ := hk
  simp [eEllipse, lookup_append, lookup_put, lookup_skip, lookup_nul,
    ek_ShapeBase _ _ hs0, Ne.symm ho0, Ne.symm ho1]

theorem rt_dEllipse {es es' : Obj F} {a : EllipseShape F} (hd : dEllipse es = some a)
    (hA : Agree kEllipse (eEllipse a) es') : dEllipse es' = some a := by
  unfold dEllipse at hd ⊢
  simp only [Option.bind_eq_bind, Option.bind_eq_some_iff, Option.some.injEq] at hd ⊢
  obtain ⟨v0, h0, v1, h1, v2, h2, rfl⟩ := hd
  exact ⟨_, rt_dShapeBase h0 (by
      intro k hk
      rw [hA k (by simp only [kEllipse, List.mem_append]; tauto)]
      simp only [kShapeBase, kGraphicElement, kShapeBase, kVisualObject, List.mem_append, List.mem_cons, List.not_mem_nil, or_false, or_assoc] at hk
      rcases hk with rfl | rfl | rfl | rfl | rfl | rfl | rfl | rfl | rfl <;>
        simp [eEllipse, lookup_append, lookup_put, lookup_skip, lookup_nul, ek_ShapeBase, kGraphicElement, kShapeBase, kVisualObject]),
    _, req_rt rt_Position h1 ((hA "p" (by decide)).trans (by
      simp [eEllipse, lookup_append, lookup_put, lookup_skip, lookup_nul, ek_ShapeBase, kGraphicElement, kShapeBase, kVisualObject])),
    _, req_rt rt_MultiDimensional h2 ((hA "s" (by decide)).trans (by
      simp [eEllipse, lookup_append, lookup_put, lookup_skip, lookup_nul, ek_ShapeBase, kGraphicElement, kShapeBase, kVisualObject])), rfl⟩

/-- Keys of `Path`. -/
def kPath : List String := kShapeBase ++ ["ks"]

omit [FloatOps F] in
theorem ek_Path (a : PathShape F) (k : String) (hk : k ∉ kPath) :
    lookup (ePath a : Obj F) k = none := by
  simp only [kPath, List.mem_append, List.mem_cons, List.not_mem_nil, or_false, not_or] at hk
  obtain ⟨hs0, ho0⟩ := hk
  simp [ePath, lookup_append, lookup_put, lookup_skip, lookup_nul,
    ek_ShapeBase _ _ hs0, Ne.symm ho0]

theorem rt_dPath {es es' : Obj F} {a : PathShape F} (hd : dPath es = some a)
    (hA : Agree kPath (ePath a) es') : dPath es' = some a := by
  unfold dPath at hd ⊢
  simp only [Option.bind_eq_bind, Option.bind_eq_some_iff, Option.some.injEq] at hd ⊢
  obtain ⟨v0, h0, v1, h1, rfl⟩ := hd
  exact ⟨_, rt_dShapeBase h0 (by
      intro k hk
      rw [hA k (by simp only [kPath, List.mem_append]; tauto)]
      simp only [kShapeBase, kGraphicElement, kShapeBase, kVisualObject, List.mem_append, List.mem_cons, List.not_mem_nil, or_false, or_assoc] at hk
      rcases hk with rfl | rfl | rfl | rfl | rfl | rfl | rfl | rfl | rfl <;>
        simp [ePath, lookup_append, lookup_put, lookup_skip, lookup_nul, ek_ShapeBase, kGraphicElement, kShapeBase, kVisualObject]),
    _, req_rt rt_ShapeProperty h1 ((hA "ks" (by decide)).trans (by
      simp [ePath, lookup_append, lookup_put, lookup_skip, lookup_nul, ek_ShapeBase, kGraphicElement, kShapeBase, kVisualObject])), rfl⟩

/-- Keys of `PolyStar`. -/
def kPolyStar : List String := kShapeBase ++ ["p", "or", "os", "r", "pt", "sy", "ir", "is"]

omit [FloatOps F] in
theorem ek_PolyStar (a : PolyStarShape F) (k : String) (hk : k ∉ kPolyStar) :
    lookup (ePolyStar a : Obj F) k = none := by
  simp only [kPolyStar, List.mem_append, List.mem_cons, List.not_mem_nil, or_false, not_or] at hk
  obtain ⟨hs0, ⟨ho0, ho1, ho2, ho3, ho4, ho5, ho6, ho7⟩⟩ := hk
  simp [ePolyStar, lookup_append, lookup_put, lookup_skip, lookup_nul,
    ek_ShapeBase _ _ hs0, Ne.symm ho0, Ne.symm ho1, Ne.symm ho2, Ne.symm ho3, Ne.symm ho4, Ne.symm ho5, Ne.symm ho6, Ne.symm ho7]

theorem rt_dPolyStar {es es' : Obj F} {a : PolyStarShape F} (hd : dPolyStar es = some a)
    (hA : Agree kPolyStar (ePolyStar a) es') : dPolyStar es' = some a := by
  unfold dPolyStar at hd ⊢
  simp only [Option.bind_eq_bind, Option.bind_eq_some_iff, Option.some.injEq] at hd ⊢
  obtain ⟨v0, h0, v1, h1, v2, h2, v3, h3, v4, h4, v5, h5, v6, h6, v7, h7, v8, h8, rfl⟩ := hd
  exact ⟨_, rt_dShapeBase h0 (by
      intro k hk
      rw [hA k (by simp only [kPolyStar, List.mem_append]; tauto)]
      simp only [kShapeBase, kGraphicElement, kShapeBase, kVisualObject, List.mem_append, List.mem_cons, List.not_mem_nil, or_false, or_assoc] at hk
      rcases hk with rfl | rfl | rfl | rfl | rfl | rfl | rfl | rfl | rfl <;>
        simp [ePolyStar, lookup_append, lookup_put, lookup_skip, lookup_nul, ek_ShapeBase, kGraphicElement, kShapeBase, kVisualObject]),
    _, req_rt rt_Position h1 ((hA "p" (by decide)).trans (by
      simp [ePolyStar, lookup_append, lookup_put, lookup_skip, lookup_nul, ek_ShapeBase, kGraphicElement, kShapeBase, kVisualObject])),
    _, req_rt rt_FloatValue h2 ((hA "or" (by decide)).trans (by
      simp [ePolyStar, lookup_append, lookup_put, lookup_skip, lookup_nul, ek_ShapeBase, kGraphicElement, kShapeBase, kVisualObject])),
    _, req_rt rt_FloatValue h3 ((hA "os" (by decide)).trans (by
      simp [ePolyStar, lookup_append, lookup_put, lookup_skip, lookup_nul, ek_ShapeBase, kGraphicElement, kShapeBase, kVisualObject])),
    _, req_rt rt_FloatValue h4 ((hA "r" (by decide)).trans (by
      simp [ePolyStar, lookup_append, lookup_put, lookup_skip, lookup_nul, ek_ShapeBase, kGraphicElement, kShapeBase, kVisualObject])),
    _, req_rt rt_FloatValue h5 ((hA "pt" (by decide)).trans (by
      simp [ePolyStar, lookup_append, lookup_put, lookup_skip, lookup_nul, ek_ShapeBase, kGraphicElement, kShapeBase, kVisualObject])),
    _, req_rt rt_StarType h6 ((hA "sy" (by decide)).trans (by
      simp [ePolyStar, lookup_append, lookup_put, lookup_skip, lookup_nul, ek_ShapeBase, kGraphicElement, kShapeBase, kVisualObject])),
    _, nul_rt rt_FloatValue h7 ((hA "ir" (by decide)).trans (by
      simp [ePolyStar, lookup_append, lookup_put, lookup_skip, lookup_nul, ek_ShapeBase, kGraphicElement, kShapeBase, kVisualObject])),
    _, nul_rt rt_FloatValue h8 ((hA "is" (by decide)).trans (by
      simp [ePolyStar, lookup_append, lookup_put, lookup_skip, lookup_nul, ek_ShapeBase, kGraphicElement, kShapeBase, kVisualObject])), rfl⟩

/-- Keys of `TransformShape`. -/
def kTransformShape : List String := kGraphicElement ++ kTransform

omit [FloatOps F] in
theorem ek_TransformShape (a : TransformShape F) (k : String) (hk : k ∉ kTransformShape) :
    lookup (eTransformShape a : Obj F) k = none := by
  simp only [kTransformShape, List.mem_append, List.mem_cons, List.not_mem_nil, or_false, not_or] at hk
  obtain ⟨hs0, hs1⟩ := hk
  simp [eTransformShape, lookup_append, lookup_put, lookup_skip, lookup_nul,
    ek_GraphicElement _ _ hs0, ek_Transform _ _ hs1]

theorem rt_dTransformShape {es es' : Obj F} {a : TransformShape F} (hd : dTransformShape es = some a)
    (hA : Agree kTransformShape (eTransformShape a) es') : dTransformShape es' = some a := by
  unfold dTransformShape at hd ⊢
  simp only [Option.bind_eq_bind, Option.bind_eq_some_iff, Option.some.injEq] at hd ⊢
  obtain ⟨v0, h0, v1, h1, rfl⟩ := hd
  exact ⟨_, rt_dGraphicElement h0 (by
      intro k hk
      rw [hA k (by simp only [kTransformShape, List.mem_append]; tauto)]
      simp only [kGraphicElement, kGraphicElement, kTransform, kVisualObject, List.mem_append, List.mem_cons, List.not_mem_nil, or_false, or_assoc] at hk
      rcases hk with rfl | rfl | rfl | rfl | rfl | rfl | rfl | rfl <;>
        simp [eTransformShape, lookup_append, lookup_put, lookup_skip, lookup_nul, ek_GraphicElement, ek_Transform, kGraphicElement, kTransform, kVisualObject]),
    _, rt_dTransform h1 (by
      intro k hk
      rw [hA k (by simp only [kTransformShape, List.mem_append]; tauto)]
      simp only [kTransform, kGraphicElement, kTransform, kVisualObject, List.mem_append, List.mem_cons, List.not_mem_nil, or_false, or_assoc] at hk
      rcases hk with rfl | rfl | rfl | rfl | rfl | rfl | rfl <;>
        simp [eTransformShape, lookup_append, lookup_put, lookup_skip, lookup_nul, ek_GraphicElement, ek_Transform, kGraphicElement, kTransform, kVisualObject]), rfl⟩

/-- Keys of `Fill`. -/
def kFill : List String := kShapeStyle ++ ["c", "r"]

omit [FloatOps F] in
theorem ek_Fill (a : FillShape F) (k : String) (hk : k ∉ kFill) :
    lookup (eFill a : Obj F) k = none := by
  simp only [kFill, List.mem_append, List.mem_cons, List.not_mem_nil, or_false, not_or] at hk
  obtain ⟨hs0, ⟨ho0, ho1⟩⟩ := hk
  simp [eFill, lookup_append, lookup_put, lookup_skip, lookup_nul,
    ek_ShapeStyle _ _ hs0, Ne.symm ho0, Ne.symm ho1]

theorem rt_dFill {es es' : Obj F} {a : FillShape F} (hd : dFill es = some a)
    (hA : Agree kFill (eFill a) es') : dFill es' = some a := by
  unfold dFill at hd ⊢
  simp only [Option.bind_eq_bind, Option.bind_eq_some_iff, Option.some.injEq] at hd ⊢
  obtain ⟨v0, h0, v1, h1, v2, h2, rfl⟩ := hd
  exact ⟨_, rt_dShapeStyle h0 (by
      intro k hk
      rw [hA k (by simp only [kFill, List.mem_append]; tauto)]
      simp only [kShapeStyle, kGraphicElement, kShapeStyle, kVisualObject, List.mem_append, List.mem_cons, List.not_mem_nil, or_false, or_assoc] at hk
      rcases hk with rfl | rfl | rfl | rfl | rfl | rfl | rfl | rfl | rfl <;>
        simp [eFill, lookup_append, lookup_put, lookup_skip, lookup_nul, ek_ShapeStyle, kGraphicElement, kShapeStyle, kVisualObject]),
    _, req_rt rt_ColorValue h1 ((hA "c" (by decide)).trans (by
      simp [eFill, lookup_append, lookup_put, lookup_skip, lookup_nul, ek_ShapeStyle, kGraphicElement, kShapeStyle, kVisualObject])),
    _, skip_rt rt_FillRule h2 ((hA "r" (by decide)).trans (by
      simp [eFill, lookup_append, lookup_put, lookup_skip, lookup_nul, ek_ShapeStyle, kGraphicElement, kShapeStyle, kVisualObject])), rfl⟩

/-- Keys of `Stroke`. -/
def kStroke : List String := kShapeStyle ++ kBaseStroke ++ ["c"]

omit [FloatOps F] in
theorem ek_Stroke (a : StrokeShape F) (k : String) (hk : k ∉ kStroke) :
    lookup (eStroke a : Obj F) k = none := by
  simp only [kStroke, List.mem_append, List.mem_cons, List.not_mem_nil, or_false, not_or] at hk
  obtain ⟨⟨hs0, hs1⟩, ho0⟩ := hk
  simp [eStroke, lookup_append, lookup_put, lookup_skip, lookup_nul,
    ek_ShapeStyle _ _ hs0, ek_BaseStroke _ _ hs1, Ne.symm ho0]

theorem rt_dStroke {es es' : Obj F} {a : StrokeShape F} (hd : dStroke es = some a)
    (hA : Agree kStroke (eStroke a) es') : dStroke es' = some a := by
  unfold dStroke at hd ⊢
  simp only [Option.bind_eq_bind, Option.bind_eq_some_iff, Option.some.injEq] at hd ⊢
  obtain ⟨v0, h0, v1, h1, v2, h2, rfl⟩ := hd
  exact ⟨_, rt_dShapeStyle h0 (by
      intro k hk
      rw [hA k (by simp only [kStroke, List.mem_append]; tauto)]
      simp only [kShapeStyle, kBaseStroke, kGraphicElement, kShapeStyle, kVisualObject, List.mem_append, List.mem_cons, List.not_mem_nil, or_false, or_assoc] at hk
      rcases hk with rfl | rfl | rfl | rfl | rfl | rfl | rfl | rfl | rfl <;>
        simp [eStroke, lookup_append, lookup_put, lookup_skip, lookup_nul, ek_ShapeStyle, ek_BaseStroke, kBaseStroke, kGraphicElement, kShapeStyle, kVisualObject]),
    _, rt_dBaseStroke h1 (by
      intro k hk
      rw [hA k (by simp only [kStroke, List.mem_append]; tauto)]
      simp only [kBaseStroke, kBaseStroke, kGraphicElement, kShapeStyle, kVisualObject, List.mem_append, List.mem_cons, List.not_mem_nil, or_false, or_assoc] at hk
      rcases hk with rfl | rfl | rfl | rfl | rfl | rfl <;>
        simp [eStroke, lookup_append, lookup_put, lookup_skip, lookup_nul, ek_ShapeStyle, ek_BaseStroke, kBaseStroke, kGraphicElement, kShapeStyle, kVisualObject]),
    _, req_rt rt_ColorValue h2 ((hA "c" (by decide)).trans (by
      simp [eStroke, lookup_append, lookup_put, lookup_skip, lookup_nul, ek_ShapeStyle, ek_BaseStroke, kBaseStroke, kGraphicElement, kShapeStyle, kVisualObject])), rfl⟩

/-- Keys of `GradientFill`. -/
def kGradientFill : List String := kShapeStyle ++ kBaseGradient ++ ["r"]

omit [FloatOps F] in
theorem ek_GradientFill (a : GradientFillShape F) (k : String) (hk : k ∉ kGradientFill) :
    lookup (eGradientFill a : Obj F) k = none := by
  simp only [kGradientFill, List.mem_append, List.mem_cons, List.not_mem_nil, or_false, not_or] at hk
  obtain ⟨⟨hs0, hs1⟩, ho0⟩ := hk
  simp [eGradientFill, lookup_append, lookup_put, lookup_skip, lookup_nul,
    ek_ShapeStyle _ _ hs0, ek_BaseGradient _ _ hs1, Ne.symm ho0]

theorem rt_dGradientFill {es es' : Obj F} {a : GradientFillShape F} (hd : dGradientFill es = some a)
    (hA : Agree kGradientFill (eGradientFill a) es') : dGradientFill es' = some a := by
  unfold dGradientFill at hd ⊢
  simp only [Option.bind_eq_bind, Option.bind_eq_some_iff, Option.some.injEq] at hd ⊢
  obtain ⟨v0, h0, v1, h1, v2, h2, rfl⟩ := hd
  exact ⟨_, rt_dShapeStyle h0 (by
      intro k hk
      rw [hA k (by simp only [kGradientFill, List.mem_append]; tauto)]
      simp only [kShapeStyle, kBaseGradient, kGraphicElement, kShapeStyle, kVisualObject, List.mem_append, List.mem_cons, List.not_mem_nil, or_false, or_assoc] at hk
      rcases hk with rfl | rfl | rfl | rfl | rfl | rfl | rfl | rfl | rfl <;>
        simp [eGradientFill, lookup_append, lookup_put, lookup_skip, lookup_nul, ek_ShapeStyle, ek_BaseGradient, kBaseGradient, kGraphicElement, kShapeStyle, kVisualObject]),
    _, rt_dBaseGradient h1 (by
      intro k hk
      rw [hA k (by simp only [kGradientFill, List.mem_append]; tauto)]
      simp only [kBaseGradient, kBaseGradient, kGraphicElement, kShapeStyle, kVisualObject, List.mem_append, List.mem_cons, List.not_mem_nil, or_false, or_assoc] at hk
      rcases hk with rfl | rfl | rfl | rfl | rfl | rfl <;>
        simp [eGradientFill, lookup_append, lookup_put, lookup_skip, lookup_nul, ek_ShapeStyle, ek_BaseGradient, kBaseGradient, kGraphicElement, kShapeStyle, kVisualObject]),
    _, nul_rt rt_FillRule h2 ((hA "r" (by decide)).trans (by
      simp [eGradientFill, lookup_append, lookup_put, lookup_skip, lookup_nul, ek_ShapeStyle, ek_BaseGradient, kBaseGradient, kGraphicElement, kShapeStyle, kVisualObject])), rfl⟩

/-- Keys of `GradientStroke`. -/
def kGradientStroke : List String := kShapeStyle ++ kBaseStroke ++ kBaseGradient

omit [FloatOps F] in
theorem ek_GradientStroke (a : GradientStrokeShape F) (k : String) (hk : k ∉ kGradientStroke) :
    lookup (eGradientStroke a : Obj F) k = none := by
  simp only [kGradientStroke, List.mem_append, List.mem_cons, List.not_mem_nil, or_false, not_or] at hk
  obtain ⟨⟨hs0, hs1⟩, hs2⟩ := hk
  simp [eGradientStroke, lookup_append, lookup_put, lookup_skip, lookup_nul,
    ek_ShapeStyle _ _ hs0, ek_BaseStroke _ _ hs1, ek_BaseGradient _ _ hs2]

theorem rt_dGradientStroke {es es' : Obj F} {a : GradientStrokeShape F} (hd : dGradientStroke es = some a)
    (hA : Agree kGradientStroke (eGradientStroke a) es') : dGradientStroke es' = some a := by
  unfold dGradientStroke at hd ⊢
  simp only [Option.bind_eq_bind, Option.bind_eq_some_iff, Option.some.injEq] at hd ⊢
  obtain ⟨v0, h0, v1, h1, v2, h2, rfl⟩ := hd
  exact ⟨_, rt_dShapeStyle h0 (by
      intro k hk
      rw [hA k (by simp only [kGradientStroke, List.mem_append]; tauto)]
      simp only [kShapeStyle, kBaseGradient, kBaseStroke, kGraphicElement, kShapeStyle, kVisualObject, List.mem_append, List.mem_cons, List.not_mem_nil, or_false, or_assoc] at hk
      rcases hk with rfl | rfl | rfl | rfl | rfl | rfl | rfl | rfl | rfl <;>
        simp [eGradientStroke, lookup_append, lookup_put, lookup_skip, lookup_nul, ek_ShapeStyle, ek_BaseStroke, ek_BaseGradient, kBaseGradient, kBaseStroke, kGraphicElement, kShapeStyle, kVisualObject]),
    _, rt_dBaseStroke h1 (by
      intro k hk
      rw [hA k (by simp only [kGradientStroke, List.mem_append]; tauto)]
      simp only [kBaseStroke, kBaseGradient, kBaseStroke, kGraphicElement, kShapeStyle, kVisualObject, List.mem_append, List.mem_cons, List.not_mem_nil, or_false, or_assoc] at hk
      rcases hk with rfl | rfl | rfl | rfl | rfl | rfl <;>
        simp [eGradientStroke, lookup_append, lookup_put, lookup_skip, lookup_nul, ek_ShapeStyle, ek_BaseStroke, ek_BaseGradient, kBaseGradient, kBaseStroke, kGraphicElement, kShapeStyle, kVisualObject]),
    _, rt_dBaseGradient h2 (by
      intro k hk
      rw [hA k (by simp only [kGradientStroke, List.mem_append]; tauto)]
      simp only [kBaseGradient, kBaseGradient, kBaseStroke, kGraphicElement, kShapeStyle, kVisualObject, List.mem_append, List.mem_cons, List.not_mem_nil, or_false, or_assoc] at hk
      rcases hk with rfl | rfl | rfl | rfl | rfl | rfl <;>
        simp [eGradientStroke, lookup_append, lookup_put, lookup_skip, lookup_nul, ek_ShapeStyle, ek_BaseStroke, ek_BaseGradient, kBaseGradient, kBaseStroke, kGraphicElement, kShapeStyle, kVisualObject]), rfl⟩

/-- Keys of `Trim`. -/
def kTrim : List String := kGraphicElement ++ ["s", "e", "o", "m"]

omit [FloatOps F] in
theorem ek_Trim (a : TrimPathShape F) (k : String) (hk : k ∉ kTrim) :
    lookup (eTrim a : Obj F) k = none := by
  simp only [kTrim, List.mem_append, List.mem_cons, List.not_mem_nil, or_false, not_or] at hk
  obtain ⟨hs0, ⟨ho0, ho1, ho2, ho3⟩⟩ := hk
  simp [eTrim, lookup_append, lookup_put, lookup_skip, lookup_nul,
    ek_GraphicElement _ _ hs0, Ne.symm ho0, Ne.symm ho1, Ne.symm ho2, Ne.symm ho3]

theorem rt_dTrim {es es' : Obj F} {a : TrimPathShape F} (hd : dTrim es = some a)
    (hA : Agree kTrim (eTrim a) es') : dTrim es' = some a := by
  unfold dTrim at hd ⊢
  simp only [Option.bind_eq_bind, Option.bind_eq_some_iff, Option.some.injEq] at hd ⊢
  obtain ⟨v0, h0, v1, h1, v2, h2, v3, h3, v4, h4, rfl⟩ := hd
  exact ⟨_, rt_dGraphicElement h0 (by
      intro k hk
      rw [hA k (by simp only [kTrim, List.mem_append]; tauto)]
      simp only [kGraphicElement, kGraphicElement, kVisualObject, List.mem_append, List.mem_cons, List.not_mem_nil, or_false, or_assoc] at hk
      rcases hk with rfl | rfl | rfl | rfl | rfl | rfl | rfl | rfl <;>
        simp [eTrim, lookup_append, lookup_put, lookup_skip, lookup_nul, ek_GraphicElement, kGraphicElement, kVisualObject]),
    _, req_rt rt_FloatValue h1 ((hA "s" (by decide)).trans (by
      simp [eTrim, lookup_append, lookup_put, lookup_skip, lookup_nul, ek_GraphicElement, kGraphicElement, kVisualObject])),
    _, req_rt rt_FloatValue h2 ((hA "e" (by decide)).trans (by
      simp [eTrim, lookup_append, lookup_put, lookup_skip, lookup_nul, ek_GraphicElement, kGraphicElement, kVisualObject])),
    _, req_rt rt_FloatValue h3 ((hA "o" (by decide)).trans (by
      simp [eTrim, lookup_append, lookup_put, lookup_skip, lookup_nul, ek_GraphicElement, kGraphicElement, kVisualObject])),
    _, skip_rt rt_TrimMultiple h4 ((hA "m" (by decide)).trans (by
      simp [eTrim, lookup_append, lookup_put, lookup_skip, lookup_nul, ek_GraphicElement, kGraphicElement, kVisualObject])), rfl⟩

/-- Keys of `RepeaterTransform`. -/
def kRepeaterTransform : List String := kTransformShape ++ ["so", "eo"]

omit [FloatOps F] in
theorem ek_RepeaterTransform (a : RepeaterTransformShape F) (k : String) (hk : k ∉ kRepeaterTransform) :
    lookup (eRepeaterTransform a : Obj F) k = none := by
  simp only [kRepeaterTransform, List.mem_append, List.mem_cons, List.not_mem_nil, or_false, not_or] at hk
  obtain ⟨hs0, ⟨ho0, ho1⟩⟩ := hk
  simp [eRepeaterTransform, lookup_append, lookup_put, lookup_skip, lookup_nul,
    ek_TransformShape _ _ hs0, Ne.symm ho0, Ne.symm ho1]

theorem rt_dRepeaterTransform {es es' : Obj F} {a : RepeaterTransformShape F} (hd : dRepeaterTransform es = some a)
    (hA : Agree kRepeaterTransform (eRepeaterTransform a) es') : dRepeaterTransform es' = some a := by
  unfold dRepeaterTransform at hd ⊢
  simp only [Option.bind_eq_bind, Option.bind_eq_some_iff, Option.some.injEq] at hd ⊢
  obtain ⟨v0, h0, v1, h1, v2, h2, rfl⟩ := hd
  exact ⟨_, rt_dTransformShape h0 (by
      intro k hk
      rw [hA k (by simp only [kRepeaterTransform, List.mem_append]; tauto)]
      simp only [kTransformShape, kGraphicElement, kTransform, kTransformShape, kVisualObject, List.mem_append, List.mem_cons, List.not_mem_nil, or_false, or_assoc] at hk
      rcases hk with rfl | rfl | rfl | rfl | rfl | rfl | rfl | rfl | rfl | rfl | rfl | rfl | rfl | rfl | rfl <;>
        simp [eRepeaterTransform, lookup_append, lookup_put, lookup_skip, lookup_nul, ek_TransformShape, kGraphicElement, kTransform, kTransformShape, kVisualObject]),
    _, skip_rt rt_FloatValue h1 ((hA "so" (by decide)).trans (by
      simp [eRepeaterTransform, lookup_append, lookup_put, lookup_skip, lookup_nul, ek_TransformShape, kGraphicElement, kTransform, kTransformShape, kVisualObject])),
    _, skip_rt rt_FloatValue h2 ((hA "eo" (by decide)).trans (by
      simp [eRepeaterTransform, lookup_append, lookup_put, lookup_skip, lookup_nul, ek_TransformShape, kGraphicElement, kTransform, kTransformShape, kVisualObject])), rfl⟩

theorem rt_RepeaterTransform : RT (F := F) jRepeaterTransform wRepeaterTransform :=
  rt_struct (fun _ _ _ => rt_dRepeaterTransform) objOnly fun _ => rfl

/-- Keys of `Repeater`. -/
def kRepeater : List String := kGraphicElement ++ ["c", "o", "m", "tr"]

omit [FloatOps F] in
theorem ek_Repeater (a : RepeaterShape F) (k : String) (hk : k ∉ kRepeater) :
    lookup (eRepeater a : Obj F) k = none := by
  simp only [kRepeater, List.mem_append, List.mem_cons, List.not_mem_nil, or_false, not_or] at hk
  obtain ⟨hs0, ⟨ho0, ho1, ho2, ho3⟩⟩ := hk
  simp [eRepeater, lookup_append, lookup_put, lookup_skip, lookup_nul,
    ek_GraphicElement _ _ hs0, Ne.symm ho0, Ne.symm ho1, Ne.symm ho2, Ne.symm ho3]

theorem rt_dRepeater {es es' : Obj F} {a : RepeaterShape F} (hd : dRepeater es = some a)
    (hA : Agree kRepeater (eRepeater a) es') : dRepeater es' = some a := by
  unfold dRepeater at hd ⊢
  simp only [Option.bind_eq_bind, Option.bind_eq_some_iff, Option.some.injEq] at hd ⊢
  obtain ⟨v0, h0, v1, h1, v2, h2, v3, h3, v4, h4, rfl⟩ := hd
  exact ⟨_, rt_dGraphicElement h0 (by
      intro k hk
      rw [hA k (by simp only [kRepeater, List.mem_append]; tauto)]
      simp only [kGraphicElement, kGraphicElement, kVisualObject, List.mem_append, List.mem_cons, List.not_mem_nil, or_false, or_assoc] at hk
      rcases hk with rfl | rfl | rfl | rfl | rfl | rfl | rfl | rfl <;>
        simp [eRepeater, lookup_append, lookup_put, lookup_skip, lookup_nul, ek_GraphicElement, kGraphicElement, kVisualObject]),
    _, req_rt rt_FloatValue h1 ((hA "c" (by decide)).trans (by
      simp [eRepeater, lookup_append, lookup_put, lookup_skip, lookup_nul, ek_GraphicElement, kGraphicElement, kVisualObject])),
    _, skip_rt rt_FloatValue h2 ((hA "o" (by decide)).trans (by
      simp [eRepeater, lookup_append, lookup_put, lookup_skip, lookup_nul, ek_GraphicElement, kGraphicElement, kVisualObject])),
    _, skip_rt rt_Composite h3 ((hA "m" (by decide)).trans (by
      simp [eRepeater, lookup_append, lookup_put, lookup_skip, lookup_nul, ek_GraphicElement, kGraphicElement, kVisualObject])),
    _, req_rt rt_RepeaterTransform h4 ((hA "tr" (by decide)).trans (by
      simp [eRepeater, lookup_append, lookup_put, lookup_skip, lookup_nul, ek_GraphicElement, kGraphicElement, kVisualObject])), rfl⟩

/-- Keys of `PuckerBloat`. -/
def kPuckerBloat : List String := kGraphicElement ++ ["a"]

omit [FloatOps F] in
theorem ek_PuckerBloat (a : PuckerBloatShape F) (k : String) (hk : k ∉ kPuckerBloat) :
    lookup (ePuckerBloat a : Obj F) k = none := by
  simp only [kPuckerBloat, List.mem_append, List.mem_cons, List.not_mem_nil, or_false, not_or] at hk
  obtain ⟨hs0, ho0⟩ := hk
  simp [ePuckerBloat, lookup_append, lookup_put, lookup_skip, lookup_nul,
    ek_GraphicElement _ _ hs0, Ne.symm ho0]

theorem rt_dPuckerBloat {es es' : Obj F} {a : PuckerBloatShape F} (hd : dPuckerBloat es = some a)
    (hA : Agree kPuckerBloat (ePuckerBloat a) es') : dPuckerBloat es' = some a := by
  unfold dPuckerBloat at hd ⊢
  simp only [Option.bind_eq_bind, Option.bind_eq_some_iff, Option.some.injEq] at hd ⊢
  obtain ⟨v0, h0, v1, h1, rfl⟩ := hd
  exact ⟨_, rt_dGraphicElement h0 (by
      intro k hk
      rw [hA k (by simp only [kPuckerBloat, List.mem_append]; tauto)]
      simp only [kGraphicElement, kGraphicElement, kVisualObject, List.mem_append, List.mem_cons, List.not_mem_nil, or_false, or_assoc] at hk
      rcases hk with rfl | rfl | rfl | rfl | rfl | rfl | rfl | rfl <;>
        simp [ePuckerBloat, lookup_append, lookup_put, lookup_skip, lookup_nul, ek_GraphicElement, kGraphicElement, kVisualObject]),
    _, skip_rt rt_FloatValue h1 ((hA "a" (by decide)).trans (by
      simp [ePuckerBloat, lookup_append, lookup_put, lookup_skip, lookup_nul, ek_GraphicElement, kGraphicElement, kVisualObject])), rfl⟩

/-- Keys of `Merge`. -/
def kMerge : List String := kGraphicElement ++ ["mm"]

omit [FloatOps F] in
theorem ek_Merge (a : MergeShape F) (k : String) (hk : k ∉ kMerge) :
    lookup (eMerge a : Obj F) k = none := by
  simp only [kMerge, List.mem_append, List.mem_cons, List.not_mem_nil, or_false, not_or] at hk
  obtain ⟨hs0, ho0⟩ := hk
  simp [eMerge, lookup_append, lookup_put, lookup_skip, lookup_nul,
    ek_GraphicElement _ _ hs0, Ne.symm ho0]

theorem rt_dMerge {es es' : Obj F} {a : MergeShape F} (hd : dMerge es = some a)
    (hA : Agree kMerge (eMerge a) es') : dMerge es' = some a := by
  unfold dMerge at hd ⊢
  simp only [Option.bind_eq_bind, Option.bind_eq_some_iff, Option.some.injEq] at hd ⊢
  obtain ⟨v0, h0, v1, h1, rfl⟩ := hd
  exact ⟨_, rt_dGraphicElement h0 (by
      intro k hk
      rw [hA k (by simp only [kMerge, List.mem_append]; tauto)]
      simp only [kGraphicElement, kGraphicElement, kVisualObject, List.mem_append, List.mem_cons, List.not_mem_nil, or_false, or_assoc] at hk
      rcases hk with rfl | rfl | rfl | rfl | rfl | rfl | rfl | rfl <;>
        simp [eMerge, lookup_append, lookup_put, lookup_skip, lookup_nul, ek_GraphicElement, kGraphicElement, kVisualObject]),
    _, skip_rt rt_MergeMode h1 ((hA "mm" (by decide)).trans (by
      simp [eMerge, lookup_append, lookup_put, lookup_skip, lookup_nul, ek_GraphicElement, kGraphicElement, kVisualObject])), rfl⟩

/-- Keys of `OffsetPath`. -/
def kOffsetPath : List String := kGraphicElement ++ ["a", "lj", "ml"]

omit [FloatOps F] in
theorem ek_OffsetPath (a : OffsetPathShape F) (k : String) (hk : k ∉ kOffsetPath) :
    lookup (eOffsetPath a : Obj F) k = none := by
  simp only [kOffsetPath, List.mem_append, List.mem_cons, List.not_mem_nil, or_false, not_or] at hk
  obtain ⟨hs0, ⟨ho0, ho1, ho2⟩⟩ := hk
  simp [eOffsetPath, lookup_append, lookup_put, lookup_skip, lookup_nul,
    ek_GraphicElement _ _ hs0, Ne.symm ho0, Ne.symm ho1, Ne.symm ho2]

theorem rt_dOffsetPath {es es' : Obj F} {a : OffsetPathShape F} (hd : dOffsetPath es = some a)
    (hA : Agree kOffsetPath (eOffsetPath a) es') : dOffsetPath es' = some a := by
  unfold dOffsetPath at hd ⊢
  simp only [Option.bind_eq_bind, Option.bind_eq_some_iff, Option.some.injEq] at hd ⊢
  obtain ⟨v0, h0, v1, h1, v2, h2, v3, h3, rfl⟩ := hd
  exact ⟨_, rt_dGraphicElement h0 (by
      intro k hk
      rw [hA k (by simp only [kOffsetPath, List.mem_append]; tauto)]
      simp only [kGraphicElement, kGraphicElement, kVisualObject, List.mem_append, List.mem_cons, List.not_mem_nil, or_false, or_assoc] at hk
      rcases hk with rfl | rfl | rfl | rfl | rfl | rfl | rfl | rfl <;>
        simp [eOffsetPath, lookup_append, lookup_put, lookup_skip, lookup_nul, ek_GraphicElement, kGraphicElement, kVisualObject]),
    _, skip_rt rt_FloatValue h1 ((hA "a" (by decide)).trans (by
      simp [eOffsetPath, lookup_append, lookup_put, lookup_skip, lookup_nul, ek_GraphicElement, kGraphicElement, kVisualObject])),
    _, skip_rt rt_LineJoin h2 ((hA "lj" (by decide)).trans (by
      simp [eOffsetPath, lookup_append, lookup_put, lookup_skip, lookup_nul, ek_GraphicElement, kGraphicElement, kVisualObject])),
    _, skip_rt rt_FloatValue h3 ((hA "ml" (by decide)).trans (by
      simp [eOffsetPath, lookup_append, lookup_put, lookup_skip, lookup_nul, ek_GraphicElement, kGraphicElement, kVisualObject])), rfl⟩

/-- Keys of `Twist`. -/
def kTwist : List String := kGraphicElement ++ ["a", "p"]

omit [FloatOps F] in
theorem ek_Twist (a : TwistShape F) (k : String) (hk : k ∉ kTwist) :
    lookup (eTwist a : Obj F) k = none := by
  simp only [kTwist, List.mem_append, List.mem_cons, List.not_mem_nil, or_false, not_or] at hk
  obtain ⟨hs0, ⟨ho0, ho1⟩⟩ := hk
  simp [eTwist, lookup_append, lookup_put, lookup_skip, lookup_nul,
    ek_GraphicElement _ _ hs0, Ne.symm ho0, Ne.symm ho1]

theorem rt_dTwist {es es' : Obj F} {a : TwistShape F} (hd : dTwist es = some a)
    (hA : Agree kTwist (eTwist a) es') : dTwist es' = some a := by
  unfold dTwist at hd ⊢
  simp only [Option.bind_eq_bind, Option.bind_eq_some_iff, Option.some.injEq] at hd ⊢
  obtain ⟨v0, h0, v1, h1, v2, h2, rfl⟩ := hd
  exact ⟨_, rt_dGraphicElement h0 (by
      intro k hk
      rw [hA k (by simp only [kTwist, List.mem_append]; tauto)]
      simp only [kGraphicElement, kGraphicElement, kVisualObject, List.mem_append, List.mem_cons, List.not_mem_nil, or_false, or_assoc] at hk
      rcases hk with rfl | rfl | rfl | rfl | rfl | rfl | rfl | rfl <;>
        simp [eTwist, lookup_append, lookup_put, lookup_skip, lookup_nul, ek_GraphicElement, kGraphicElement, kVisualObject]),
    _, req_rt rt_FloatValue h1 ((hA "a" (by decide)).trans (by
      simp [eTwist, lookup_append, lookup_put, lookup_skip, lookup_nul, ek_GraphicElement, kGraphicElement, kVisualObject])),
    _, req_rt rt_Position h2 ((hA "p" (by decide)).trans (by
      simp [eTwist, lookup_append, lookup_put, lookup_skip, lookup_nul, ek_GraphicElement, kGraphicElement, kVisualObject])), rfl⟩

/-- Keys of `RoundedCorners`. -/
def kRoundedCorners : List String := kGraphicElement ++ ["r"]

omit [FloatOps F] in
theorem ek_RoundedCorners (a : RoundedCornersShape F) (k : String) (hk : k ∉ kRoundedCorners) :
    lookup (eRoundedCorners a : Obj F) k = none := by
  simp only [kRoundedCorners, List.mem_append, List.mem_cons, List.not_mem_nil, or_false, not_or] at hk
  obtain ⟨hs0, ho0⟩ := hk
  simp [eRoundedCorners, lookup_append, lookup_put, lookup_skip, lookup_nul,
    ek_GraphicElement _ _ hs0, Ne.symm ho0]

theorem rt_dRoundedCorners {es es' : Obj F} {a : RoundedCornersShape F} (hd : dRoundedCorners es = some a)
    (hA : Agree kRoundedCorners (eRoundedCorners a) es') : dRoundedCorners es' = some a := by
  unfold dRoundedCorners at hd ⊢
  simp only [Option.bind_eq_bind, Option.bind_eq_some_iff, Option.some.injEq] at hd ⊢
  obtain ⟨v0, h0, v1, h1, rfl⟩ := hd
  exact ⟨_, rt_dGraphicElement h0 (by
      intro k hk
      rw [hA k (by simp only [kRoundedCorners, List.mem_append]; tauto)]
      simp only [kGraphicElement, kGraphicElement, kVisualObject, List.mem_append, List.mem_cons, List.not_mem_nil, or_false, or_assoc] at hk
      rcases hk with rfl | rfl | rfl | rfl | rfl | rfl | rfl | rfl <;>
        simp [eRoundedCorners, lookup_append, lookup_put, lookup_skip, lookup_nul, ek_GraphicElement, kGraphicElement, kVisualObject]),
    _, req_rt rt_FloatValue h1 ((hA "r" (by decide)).trans (by
      simp [eRoundedCorners, lookup_append, lookup_put, lookup_skip, lookup_nul, ek_GraphicElement, kGraphicElement, kVisualObject])), rfl⟩

theorem dItems_eq (es : Obj F) : dItems es = (lookup es "it").map jItems := by
  induction es with
  | nil => rfl
  | cons x es ih =>
    obtain ⟨k, v⟩ := x
    unfold dItems lookup
    rw [ih]
    cases lookup es "it" with
    | some r => rfl
    | none => by_cases h : k == "it" <;> simp [h]

theorem jShapes_eq (xs : List (Json F)) : jShapes xs = xs.mapM (jShape true) := by
  induction xs with
  | nil => rfl
  | cons x xs ih =>
    unfold jShapes
    rw [List.mapM_cons, ih]
    cases jShape true x with
    | none => rfl
    | some s => cases xs.mapM (jShape true) <;> rfl

omit [FloatOps F] in
theorem wShapes_eq (ss : List (AnyShape F)) : wShapes ss = ss.map wShape := by
  induction ss with
  | nil => rfl
  | cons s ss ih => unfold wShapes; rw [ih]; rfl

omit [FloatOps F] in
/-- A shape that is not a group. -/
theorem rt_leaf {α : Type} {d : Obj F → Option α} {e : α → Obj F} {ks : List String}
    (h : ∀ {es es' a}, d es = some a → Agree ks (e a) es' → d es' = some a)
    (hty : "ty" ∉ ks) {es : Obj F} {a : α} (hd : d es = some a) (t : Json F) :
    d (put "ty" t ++ e a) = some a := by
  refine h hd fun k hk => ?_
  rw [lookup_append, lookup_put, if_neg (by rintro rfl; exact hty hk), Option.or_none]

omit [FloatOps F] in
theorem sizeOf_lookup {es : Obj F} {k : String} {v : Json F} (h : lookup es k = some v) :
    sizeOf v < sizeOf es := by
  induction es with
  | nil => exact nomatch h
  | cons x es ih =>
    obtain ⟨k', v'⟩ := x
    unfold lookup at h
    simp only [List.cons.sizeOf_spec, Prod.mk.sizeOf_spec]
    split at h
    · rename_i y hy
      have := ih (hy.trans h)
      omega
    · split at h
      · cases h; omega
      · exact nomatch h

theorem leaf_shape {α : Type} {e : α → Obj F} {ks : List String} {a : α} {tag : Tag}
    {name : String} {s : AnyShape F} {n : Bool}
    (ek : ∀ a k, k ∉ ks → lookup (e a) k = none) (hty : "ty" ∉ ks)
    (hname : Tag.ofName name = some tag) (hg : tag ≠ .group)
    (h : dLeaf tag (put "ty" (.str name) ++ e a) = some s) :
    jShape n (.obj (put "ty" (.str name) ++ e a)) = some s := by
  have hl : lookup (put "ty" (.str name) ++ e a) "ty" = some (.str name) := by
    rw [lookup_append, ek a _ hty, lookup_put]; simp
  unfold jShape
  rw [hl]
  simp only [jTag, hname]
  cases tag <;> first | exact absurd rfl hg | exact h

theorem jShape_group {n : Bool} {es : Obj F} {t : Json F} {xs : List (Json F)}
    {items : List (AnyShape F)} (ht : lookup es "ty" = some t) (htag : jTag n t = some .group)
    (hl : lookup es "it" = some (.arr xs)) (hit : xs.mapM (jShape true) = some items) :
    jShape n (.obj es) = dGroup es items := by
  unfold jShape
  rw [ht]
  simp only [htag]
  rw [dItems_eq, hl]
  simp only [Option.map_some, jItems, jShapes_eq, hit]

theorem rt_dLeaf {n : Bool} {tag : Tag} {es : Obj F} {s : AnyShape F} (hs : dLeaf tag es = some s) :
    jShape n (wShape s) = some s ∧ wShape s ≠ .null := by
  cases tag
  · exact nomatch hs
  · obtain ⟨v, hv, rfl⟩ := Option.map_eq_some_iff.mp hs
    refine ⟨?_, by simp [wShape]⟩
    simp only [wShape]
    exact leaf_shape (tag := .rectangle) ek_Rectangle (by decide) rfl (fun h => nomatch h) (by
      simp only [dLeaf]
      rw [rt_leaf rt_dRectangle (by decide) hv]; rfl)
  · obtain ⟨v, hv, rfl⟩ := Option.map_eq_some_iff.mp hs
    refine ⟨?_, by simp [wShape]⟩
    simp only [wShape]
    exact leaf_shape (tag := .ellipse) ek_Ellipse (by decide) rfl (fun h => nomatch h) (by
      simp only [dLeaf]
      rw [rt_leaf rt_dEllipse (by decide) hv]; rfl)
  · obtain ⟨v, hv, rfl⟩ := Option.map_eq_some_iff.mp hs
    refine ⟨?_, by simp [wShape]⟩
    simp only [wShape]
    exact leaf_shape (tag := .transform) ek_TransformShape (by decide) rfl (fun h => nomatch h) (by
      simp only [dLeaf]
      rw [rt_leaf rt_dTransformShape (by decide) hv]; rfl)
  · obtain ⟨v, hv, rfl⟩ := Option.map_eq_some_iff.mp hs
    refine ⟨?_, by simp [wShape]⟩
    simp only [wShape]
    exact leaf_shape (tag := .stroke) ek_Stroke (by decide) rfl (fun h => nomatch h) (by
      simp only [dLeaf]
      rw [rt_leaf rt_dStroke (by decide) hv]; rfl)
  · obtain ⟨v, hv, rfl⟩ := Option.map_eq_some_iff.mp hs
    refine ⟨?_, by simp [wShape]⟩
    simp only [wShape]
    exact leaf_shape (tag := .puckerBloat) ek_PuckerBloat (by decide) rfl (fun h => nomatch h) (by
      simp only [dLeaf]
      rw [rt_leaf rt_dPuckerBloat (by decide) hv]; rfl)
  · obtain ⟨v, hv, rfl⟩ := Option.map_eq_some_iff.mp hs
    refine ⟨?_, by simp [wShape]⟩
    simp only [wShape]
    exact leaf_shape (tag := .merge) ek_Merge (by decide) rfl (fun h => nomatch h) (by
      simp only [dLeaf]
      rw [rt_leaf rt_dMerge (by decide) hv]; rfl)
  · obtain ⟨v, hv, rfl⟩ := Option.map_eq_some_iff.mp hs
    refine ⟨?_, by simp [wShape]⟩
    simp only [wShape]
    exact leaf_shape (tag := .repeater) ek_Repeater (by decide) rfl (fun h => nomatch h) (by
      simp only [dLeaf]
      rw [rt_leaf rt_dRepeater (by decide) hv]; rfl)
  · obtain ⟨v, hv, rfl⟩ := Option.map_eq_some_iff.mp hs
    refine ⟨?_, by simp [wShape]⟩
    simp only [wShape]
    exact leaf_shape (tag := .offsetPath) ek_OffsetPath (by decide) rfl (fun h => nomatch h) (by
      simp only [dLeaf]
      rw [rt_leaf rt_dOffsetPath (by decide) hv]; rfl)
  · obtain ⟨v, hv, rfl⟩ := Option.map_eq_some_iff.mp hs
    refine ⟨?_, by simp [wShape]⟩
    simp only [wShape]
    exact leaf_shape (tag := .fill) ek_Fill (by decide) rfl (fun h => nomatch h) (by
      simp only [dLeaf]
      rw [rt_leaf rt_dFill (by decide) hv]; rfl)
  · obtain ⟨v, hv, rfl⟩ := Option.map_eq_some_iff.mp hs
    refine ⟨?_, by simp [wShape]⟩
    simp only [wShape]
    exact leaf_shape (tag := .trim) ek_Trim (by decide) rfl (fun h => nomatch h) (by
      simp only [dLeaf]
      rw [rt_leaf rt_dTrim (by decide) hv]; rfl)
  · obtain ⟨v, hv, rfl⟩ := Option.map_eq_some_iff.mp hs
    refine ⟨?_, by simp [wShape]⟩
    simp only [wShape]
    exact leaf_shape (tag := .path) ek_Path (by decide) rfl (fun h => nomatch h) (by
      simp only [dLeaf]
      rw [rt_leaf rt_dPath (by decide) hv]; rfl)
  · obtain ⟨v, hv, rfl⟩ := Option.map_eq_some_iff.mp hs
    refine ⟨?_, by simp [wShape]⟩
    simp only [wShape]
    exact leaf_shape (tag := .gradientFill) ek_GradientFill (by decide) rfl (fun h => nomatch h) (by
      simp only [dLeaf]
      rw [rt_leaf rt_dGradientFill (by decide) hv]; rfl)
  · obtain ⟨v, hv, rfl⟩ := Option.map_eq_some_iff.mp hs
    refine ⟨?_, by simp [wShape]⟩
    simp only [wShape]
    exact leaf_shape (tag := .gradientStroke) ek_GradientStroke (by decide) rfl (fun h => nomatch h) (by
      simp only [dLeaf]
      rw [rt_leaf rt_dGradientStroke (by decide) hv]; rfl)
  · obtain ⟨v, hv, rfl⟩ := Option.map_eq_some_iff.mp hs
    refine ⟨?_, by simp [wShape]⟩
    simp only [wShape]
    exact leaf_shape (tag := .twist) ek_Twist (by decide) rfl (fun h => nomatch h) (by
      simp only [dLeaf]
      rw [rt_leaf rt_dTwist (by decide) hv]; rfl)
  · obtain ⟨v, hv, rfl⟩ := Option.map_eq_some_iff.mp hs
    refine ⟨?_, by simp [wShape]⟩
    simp only [wShape]
    exact leaf_shape (tag := .roundedCorners) ek_RoundedCorners (by decide) rfl (fun h => nomatch h) (by
      simp only [dLeaf]
      rw [rt_leaf rt_dRoundedCorners (by decide) hv]; rfl)
  · obtain ⟨v, hv, rfl⟩ := Option.map_eq_some_iff.mp hs
    refine ⟨?_, by simp [wShape]⟩
    simp only [wShape]
    exact leaf_shape (tag := .polyStar) ek_PolyStar (by decide) rfl (fun h => nomatch h) (by
      simp only [dLeaf]
      rw [rt_leaf rt_dPolyStar (by decide) hv]; rfl)
theorem rt_jShape (n n' : Bool) : ∀ (j : Json F) (s : AnyShape F), jShape n j = some s →
    jShape n' (wShape s) = some s ∧ wShape s ≠ .null := by
  intro j
  induction hsz : sizeOf j using Nat.strongRecOn generalizing j n n' with
  | ind m IH =>
    intro s hs
    cases j with
    | obj es =>
      unfold jShape at hs
      split at hs
      · exact nomatch hs
      rename_i t ht
      split at hs
      · exact nomatch hs
      · -- groups
        rename_i htag
        rw [dItems_eq] at hs
        split at hs
        · rename_i items hit
          cases hl : lookup es "it" with
          | none => rw [hl] at hit; exact nomatch hit
          | some ji =>
            rw [hl] at hit
            simp only [Option.map_some, Option.some.injEq] at hit
            cases ji with
            | arr xs =>
              simp only [jItems, jShapes_eq] at hit
              have hlt : ∀ x ∈ xs, sizeOf x < m := by
                intro x hx
                have h1 := List.sizeOf_lt_of_mem hx
                have h2 := sizeOf_lookup hl
                simp only [Json.arr.sizeOf_spec, Json.obj.sizeOf_spec] at *
                omega
              have hit' : (wShapes items).mapM (jShape true) = some items := by
                rw [wShapes_eq]
                clear hs hl ht hsz
                induction xs generalizing items with
                | nil => simp only [List.mapM_nil] at hit; cases hit; rfl
                | cons x xs ih =>
                  simp only [List.mapM_cons, Option.bind_eq_bind, Option.bind_eq_some_iff,
                    Option.pure_def, Option.some.injEq] at hit
                  obtain ⟨y, hy, ys, hys, rfl⟩ := hit
                  have h1 := (IH _ (hlt x (by simp)) true true x rfl _ hy).1
                  have h2 := ih _ hys fun z hz => hlt z (by simp [hz])
                  simp only [List.map_cons, List.mapM_cons, h1, h2, Option.bind_eq_bind,
                    Option.bind_some, Option.pure_def]
              unfold dGroup at hs
              simp only [Option.bind_eq_bind, Option.bind_eq_some_iff, Option.some.injEq] at hs
              obtain ⟨ge, hge, np, hnp, cix, hcix, rfl⟩ := hs
              refine ⟨?_, by simp [wShape]⟩
              have hty : lookup (put "ty" (.str "gr") ++ eGraphicElement ge ++ skip wF64 "np" np ++
                  put "it" (.arr (wShapes items)) ++ skip wU8 "cix" cix) "ty"
                  = some (.str "gr" : Json F) := by
                simp [lookup_append, lookup_put, lookup_skip, ek_GraphicElement, kGraphicElement, kVisualObject]
              have hli : lookup (put "ty" (.str "gr") ++ eGraphicElement ge ++ skip wF64 "np" np ++
                  put "it" (.arr (wShapes items)) ++ skip wU8 "cix" cix) "it"
                  = some (.arr (wShapes items) : Json F) := by
                simp [lookup_append, lookup_put, lookup_skip]
              simp only [wShape]
              rw [jShape_group hty rfl hli hit']
              unfold dGroup
              simp only [Option.bind_eq_bind, Option.bind_eq_some_iff, Option.some.injEq]
              refine ⟨_, rt_dGraphicElement hge ?_, _, skip_rt rt_F64 hnp ?_, _,
                skip_rt rt_U8 hcix ?_, rfl⟩
              · intro k hk
                simp only [kGraphicElement, kVisualObject, List.mem_append, List.mem_cons, List.not_mem_nil,
                  or_false] at hk
                rcases hk with (rfl | rfl) | rfl | rfl | rfl | rfl | rfl | rfl <;>
                  simp [lookup_append, lookup_put, lookup_skip]
              · simp [lookup_append, lookup_put, lookup_skip, ek_GraphicElement, kGraphicElement, kVisualObject]
              · simp [lookup_append, lookup_put, lookup_skip, ek_GraphicElement, kGraphicElement, kVisualObject]
            | _ => exact nomatch hit
        · exact nomatch hs
      · -- the other shapes
        exact rt_dLeaf hs
    | _ => simp [jShape] at hs

theorem rt_Shape : RT (F := F) (jShape false) wShape :=
  fun j s hs => rt_jShape false false j s hs

end
end Velato
