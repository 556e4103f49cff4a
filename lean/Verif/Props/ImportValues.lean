import Verif.Proofs.ImportValues
import Verif.Proofs.Nest
import Verif.Spec.ExampleDoc

/-!
# C51 — import of animated properties
-/

namespace Velato
open FloatOps (lit)
open Import (convScalar convMulti convPosPoint convMultiP2 convColor convGradientColors
  convShapeGeometry convStops)

section
variable {F : Type} [FloatOps F]

/-- **C51.** Import of an animated vector property (points, sizes, scales): one or two entries per
keyframe (two if its handles are given per coordinate), in order, each with the time, hold flag,
handles and value of its keyframe; a static property becomes its fixed value. -/
theorem C51_vectors (p : Schema.MultiDimensional F) :
    match p.animatedProperty.value with
    | .static xs => ∃ v, convMultiP2 p = .fixed v ∧ PointOf xs v
    | .animatedValue ks => ∃ ts vs, convMultiP2 p = .animated ⟨ts, vs⟩ ∧
        FromKeyframes (·.base) (fun k v => PointOf k.value v) ks ts vs := by
  unfold convMultiP2 Import.convMulti
  cases p.animatedProperty.value with
  | static xs => exact ⟨_, rfl, toP2_spec xs⟩
  | animatedValue ks =>
    obtain ⟨ts, vs, h, hf⟩ := convKeyframes_spec ks Import.toP2
    exact ⟨ts, vs, h, hf.imp fun k v h => h ▸ toP2_spec _⟩

/-- **C51.** The same for positions. -/
theorem C51_positions (p : Schema.Position F) :
    match p.value with
    | .static xs => ∃ v, convPosPoint p = .fixed v ∧ PointOf xs v
    | .animated ks => ∃ ts vs, convPosPoint p = .animated ⟨ts, vs⟩ ∧
        FromKeyframes (·.keyframe.base) (fun k v => PointOf k.keyframe.value v) ks ts vs := by
  unfold convPosPoint
  cases p.value with
  | static xs => exact ⟨_, rfl, toP2_spec xs⟩
  | animated ks =>
    obtain ⟨ts, vs, h, hf⟩ := convKeyframes_spec (ks.map (·.keyframe)) Import.toP2
    exact ⟨ts, vs, h, hf.of_map.imp fun k v h => h ▸ toP2_spec _⟩

/-- **C51.** The same for colours. -/
theorem C51_colors (p : Schema.ColorValue F) :
    match p.value with
    | .static xs => ∃ v, convColor p = .fixed v ∧ ColorOf xs v
    | .animatedValue ks => ∃ ts vs, convColor p = .animated ⟨ts, vs⟩ ∧
        FromKeyframes (·.base) (fun k v => ColorOf k.value v) ks ts vs := by
  unfold convColor Import.convMulti
  cases p.value with
  | static xs => exact ⟨_, rfl, toColor_spec xs⟩
  | animatedValue ks =>
    obtain ⟨ts, vs, h, hf⟩ := convKeyframes_spec ks Import.toColor
    exact ⟨ts, vs, h, hf.imp fun k v h => h ▸ toColor_spec _⟩

omit [FloatOps F] in
/-- **C51.** Import of an animated scalar: exactly one entry per keyframe, in order, with its time,
hold flag, easing handles and first value. -/
theorem C51_scalars {p : Schema.FloatValue F} {v : Value F F} (h : convScalar p = .ok v) :
    match p.value with
    | .static x => v = .fixed x
    | .animatedValue ks => ∃ ts vs, v = .animated ⟨ts, vs⟩ ∧
        List.Forall₂ (fun (k : Schema.Keyframe F) t => EasedTimeOf k.base t) ks ts ∧
        List.Forall₂ (fun (k : Schema.Keyframe F) x => k.value.head? = some x) ks vs := by
  unfold convScalar at h
  cases hp : p.value with
  | static x => rw [hp] at h; exact (Except.ok.inj h).symm
  | animatedValue ks =>
    rw [hp] at h
    obtain ⟨es, hes, h⟩ := bind_ok h
    have hf := scalarKeyframes_ok (mapM_ok_iff.mp hes)
    exact ⟨_, _, (Except.ok.inj h).symm, hf.1, hf.2⟩

/-- **C51.** Import of an animated gradient: one entry per keyframe, in order, with its time, hold
flag, easing handles and stops. -/
theorem C51_gradients [Kurbo F] {g : Schema.GradientColors F} {s : ColorStops F}
    (h : convGradientColors g = .ok s) {ks : List (Schema.Keyframe F)}
    (hk : g.colors.animatedProperty.value = .animatedValue ks) :
    ∃ ts vs, s = .animated ⟨ts, vs, g.count⟩ ∧
      List.Forall₂ (fun (k : Schema.Keyframe F) t => EasedTimeOf k.base t) ks ts ∧
      List.Forall₂ (fun (k : Schema.Keyframe F) v =>
        v = (convStops k.value g.count).flatMap fun st => [st.offset, st.r, st.g, st.b, st.a])
        ks vs := by
  unfold convGradientColors at h
  rw [hk] at h
  obtain ⟨ts, hts, h⟩ := bind_ok h
  cases Except.ok.inj h
  refine ⟨_, _, rfl, (mapM_ok_iff.mp hts).imp fun k t ht => convTime_ok ht, ?_⟩
  exact List.forall₂_map_right_iff.mpr (List.forall₂_same.mpr fun _ _ => rfl)

/-- **C51.** Import of an animated path: one entry per keyframe, in order, with its time, hold flag,
easing handles, start shape and end shape; the path is closed if one of its shapes is. -/
theorem C51_paths {p : Schema.ShapeProperty F} {g : Geometry F} {ks : List (Schema.ShapeKeyframe F)}
    (hk : p.value = .animated ks) (h : convShapeGeometry p = .ok (some g)) :
    ∃ s, g = .spline s ∧ s.times.length = ks.length ∧ s.values.length = ks.length ∧
      (∀ (i : Nat) k, ks[i]? = some k → ∃ t v, s.times[i]? = some t ∧ s.values[i]? = some v ∧
        PathEntry (prevKeyframe ks i) k t v) ∧
      (s.isClosed = true ↔ SomeClosed ks) := by
  unfold convShapeGeometry at h
  rw [hk] at h
  obtain ⟨r, hr, h⟩ := bind_ok h
  cases r with
  | none => cases h
  | some r =>
    obtain ⟨ts, vs, c⟩ := r
    cases Option.some.inj (Except.ok.inj h)
    obtain ⟨h1, h2, h3, h4⟩ := splineLoop_ok hr
    simp only [prevOf_none] at h3 h4
    exact ⟨_, rfl, h1, h2, h3, h4⟩

/-- **C51.** If the keyframes of the document are in order of time (and no time is NaN), so are the
times of an imported property, however many entries each keyframe contributes. -/
theorem C51_sorted {K V : Type} {base : K → Schema.KeyframeBase F} {R : K → V → Prop}
    {ks : List K} {ts : List (Time F)} {vs : List V}
    (h : FromKeyframes base R ks ts vs)
    (hs : ks.Pairwise fun a b => ((base a).time <=. (base b).time) = true)
    (hn : ∀ k ∈ ks, ((base k).time <=. (base k).time) = true) :
    SortedTimes ts ∧ ts.length = vs.length := by
  unfold SortedTimes
  induction h with
  | nil => exact ⟨.nil, rfl⟩
  | plain h1 _ hf ih | once h1 _ _ hf ih =>
    rw [List.pairwise_cons] at hs
    obtain ⟨i1, i2⟩ := ih hs.2 fun k hk => hn k (by simp [hk])
    refine ⟨List.pairwise_cons.mpr ⟨fun t ht => ?_, i1⟩, by simp [i2]⟩
    obtain ⟨k, hk, e⟩ := hf.mem t ht
    rw [e, h1.1.1]; exact hs.1 k hk
  | twice h1 h2 _ _ _ hf ih =>
    rw [List.pairwise_cons] at hs
    obtain ⟨i1, i2⟩ := ih hs.2 fun k hk => hn k (by simp [hk])
    refine ⟨List.pairwise_cons.mpr ⟨fun t ht => ?_, List.pairwise_cons.mpr ⟨fun t ht => ?_, i1⟩⟩,
      by simp [i2]⟩
    · rcases List.mem_cons.mp ht with rfl | ht
      · rw [h1.1.1, h2.1.1]; exact hn _ (by simp)
      · obtain ⟨k, hk, e⟩ := hf.mem t ht
        rw [e, h1.1.1]; exact hs.1 k hk
    · obtain ⟨k, hk, e⟩ := hf.mem t ht
      rw [e, h2.1.1]; exact hs.1 k hk

/-- **C51.** The same for properties with one entry per keyframe. -/
theorem C51_sorted_scalars {K : Type} {base : K → Schema.KeyframeBase F} {ks : List K}
    {ts : List (Time F)} (h : List.Forall₂ (fun k t => EasedTimeOf (base k) t) ks ts)
    (hs : ks.Pairwise fun a b => ((base a).time <=. (base b).time) = true) :
    SortedTimes ts := by
  unfold SortedTimes
  induction h with
  | nil => exact .nil
  | cons h1 hf ih =>
    rw [List.pairwise_cons] at hs
    refine List.pairwise_cons.mpr ⟨fun t ht => ?_, ih hs.2⟩
    obtain ⟨k, hk, e⟩ := forall₂_right hf ht
    rw [h1.1.1, e.1.1]; exact hs.1 k hk

end

/-! ### The hypotheses can be met -/

section
open Schema

/-- A keyframe at frame `t` with a handle of one coordinate. -/
def exKey (t v : ℚ) (hold : Option BoolInt) : Keyframe F64 :=
  ⟨⟨lit t, hold, some ⟨.arrayOfValues [lit (1 / 2)], .singleValue (lit 1)⟩,
    some ⟨.singleValue (lit (1 / 4)), .singleValue (lit 0)⟩⟩, [lit v, lit (v + 1)], none⟩

/-- A keyframe with handles of two coordinates. -/
def exKey2 (t v : ℚ) : Keyframe F64 :=
  ⟨⟨lit t, none, some ⟨.arrayOfValues [lit (1 / 2), lit (1 / 2)], .arrayOfValues [lit 1, lit 1]⟩,
    some ⟨.arrayOfValues [lit (1 / 2), lit (1 / 2)], .arrayOfValues [lit 0, lit 0]⟩⟩,
    [lit v, lit (v + 1)], none⟩

/-- An animated scalar: both keyframes arrive, the first with its hold flag. -/
example : ((convScalar (⟨none, none, none, none,
      .animatedValue [exKey 0 5 (some .true), exKey 10 7 none]⟩ : FloatValue F64)).map fun v =>
        match v with
        | .animated a => (a.times.map fun t => (t.frame, t.hold), a.values)
        | .fixed x => ([], [x])).toOption
    = some ([(lit 0, true), (lit 10, false)], [lit 5, lit 7]) := by decide +kernel

/-- An animated vector whose first keyframe contributes two entries. -/
example : (match convMultiP2 (⟨⟨none, none, none, none,
      .animatedValue [exKey2 0 5, exKey 10 7 (some .true)]⟩, none⟩ : MultiDimensional F64) with
        | .animated a => (a.times.map fun t => (t.frame, t.hold), a.values)
        | .fixed x => ([], [x]))
    = ([(lit 0, false), (lit 0, false), (lit 10, true)],
       [⟨lit 5, lit 6⟩, ⟨lit 5, lit 6⟩, ⟨lit 7, lit 8⟩]) := by decide +kernel

/-- A triangle. -/
def exTriangleDoc (x : ℚ) (closed : Option Bool) : Bezier F64 :=
  ⟨closed, [(lit x, lit 0), (lit 4, lit 0), (lit 0, lit 4)], [(lit 1, lit 1)], []⟩

/-- An animated path; the second keyframe has no start of its own and takes the end of the first;
one closed shape closes the path. -/
example : ((convShapeGeometry (⟨none, none, none,
      .animated [⟨⟨lit 0, none, none, none⟩, some [exTriangleDoc 1 none], some [exTriangleDoc 2 none]⟩,
        ⟨⟨lit 10, none, none, none⟩, none, some [exTriangleDoc 3 (some true)]⟩]⟩ :
        ShapeProperty F64)).map fun g =>
      match g with
      | some (.spline s) => (s.isClosed, s.times.length, s.values.map fun v => v.start.take 2)
      | _ => (false, 0, [])).toOption
    = some (true, 2, [[⟨lit 1, lit 0⟩, ⟨lit 1, lit 1⟩], [⟨lit 2, lit 0⟩, ⟨lit 1, lit 1⟩]]) := by
  decide +kernel

/-- Keyframes in order. -/
example : [exKey2 0 5, exKey 10 7 none].Pairwise
    (fun a b => (a.base.time <=. b.base.time) = true) := by decide +kernel

end
end Velato
