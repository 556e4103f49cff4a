import Verif.Props.Trim
import Verif.Spec.Paint
import Verif.Props.Folding
import Verif.Props.Modifiers
import Verif.Proofs.ShapeTree
import Verif.Proofs.Paint

/-!
# C84: what a trim keeps; the trims of documents; C25, C26: animated repeaters
-/

namespace Velato
open FloatOps (lit)
open Import

/-- The position `x` of an outline (0 its start, 1 its end) lies in one of the segments. -/
def InSegments (segs : Option ((ℝ × ℝ) × Option (ℝ × ℝ))) (x : ℝ) : Prop :=
  ∃ first second, segs = some (first, second) ∧
    ((first.1 ≤ x ∧ x < first.2) ∨ ∃ s, second = some s ∧ s.1 ≤ x ∧ x < s.2)

/-- The position `x` lies, up to whole turns around the outline, between `start` and `stop` percent
moved by `offset` degrees. -/
def Between (start stop offset x : ℝ) : Prop :=
  ∃ k : ℤ, min start stop / 100 + offset / 360 ≤ x + k ∧
    x + k < max start stop / 100 + offset / 360

/-- **C84**: a trim keeps exactly the positions of the outline which lie between start and end, in
whichever order these are given, moved around by the offset. (The code treats ranges of less than
1e-9 percent as empty and of more than 100 - 1e-9 percent as full.) -/
theorem C84_kept (t : FixedTrim ℝ) {x : ℝ} (h0 : 0 ≤ x) (h1 : x < 1)
    (hr : t.start = t.stop ∨ 100 ≤ |t.stop - t.start| ∨
      (1 / 10 ^ 9 ≤ |t.stop - t.start| ∧ |t.stop - t.start| < 100 - 1 / 10 ^ 9)) :
    InSegments t.normalized x ↔ Between t.start t.stop t.offset x := by
  rw [real_normalized]
  have hm : max t.start t.stop = min t.start t.stop + |t.stop - t.start| := by
    rw [abs_sub_comm, ← max_sub_min_eq_abs']; ring
  unfold Between
  rw [hm]
  dsimp only
  rcases hr with hr | hr | ⟨hr1, hr2⟩
  · rw [hr]
    simp only [sub_self, abs_zero]
    rw [if_pos (by norm_num)]
    constructor
    · rintro ⟨_, _, h, -⟩; cases h
    · rintro ⟨k, h, h'⟩
      rw [add_zero] at h'
      exact absurd (h.trans_lt h') (lt_irrefl _)
  · generalize |t.stop - t.start| = range at *
    rw [if_neg (by norm_num; linarith), if_pos (by norm_num; linarith)]
    constructor
    · intro _
      have hd : (min t.start t.stop + range) / 100 = min t.start t.stop / 100 + range / 100 := by ring
      rw [hd]
      generalize min t.start t.stop / 100 = y, t.offset / 360 = o
      refine ⟨⌈y + o - x⌉, ?_, ?_⟩
      · have := Int.le_ceil (y + o - x); linarith
      · have := Int.ceil_lt_add_one (y + o - x); linarith
    · intro _
      exact ⟨_, _, rfl, .inl ⟨h0, h1⟩⟩
  · generalize |t.stop - t.start| = range at *
    rw [if_neg (not_lt.mpr hr1), if_neg (not_le.mpr hr2)]
    have hr2' : range < 100 := hr2.trans (by norm_num)
    have hr1' : 0 < range := lt_of_lt_of_le (by norm_num) hr1
    generalize hy : min t.start t.stop + t.offset * (100 / 360) = y
    have e1 : min t.start t.stop / 100 + t.offset / 360 = y / 100 := by rw [← hy]; ring
    have e2 : (min t.start t.stop + range) / 100 + t.offset / 360 = y / 100 + range / 100 := by
      rw [← hy]; ring
    rw [e1, e2]
    have hf0 := Int.floor_le (y / 100)
    have hf1 := Int.lt_floor_add_one (y / 100)
    generalize ⌊y / 100⌋ = n at *
    split
    · rename_i hw
      constructor
      · rintro ⟨_, _, h, h'⟩
        cases h
        rcases h' with ⟨h2, h3⟩ | ⟨_, h2, -⟩
        · exact ⟨n, by dsimp only at h2; linarith, by dsimp only at h3; linarith⟩
        · cases h2
      · rintro ⟨k, h2, h3⟩
        have : k = n := by
          have a1 : ((k - n : ℤ) : ℝ) < 1 := by push_cast; linarith
          have a2 : (-1 : ℝ) < ((k - n : ℤ) : ℝ) := by push_cast; linarith
          have a1' : k - n < 1 := by exact_mod_cast a1
          have a2' : -1 < k - n := by exact_mod_cast a2
          omega
        subst this
        exact ⟨_, _, rfl, .inl ⟨by dsimp only; linarith, by dsimp only; linarith⟩⟩
    · rename_i hw
      constructor
      · rintro ⟨_, _, h, h'⟩
        cases h
        rcases h' with ⟨h2, h3⟩ | ⟨_, h2, h3, h4⟩
        · exact ⟨n, by dsimp only at h2; linarith, by dsimp only at h3; linarith⟩
        · cases h2
          refine ⟨n + 1, ?_, ?_⟩
          · push_cast; linarith
          · push_cast; dsimp only at h4; linarith
      · rintro ⟨k, h2, h3⟩
        have : k = n ∨ k = n + 1 := by
          have a1 : ((k - n : ℤ) : ℝ) < 2 := by push_cast; linarith
          have a2 : (-1 : ℝ) < ((k - n : ℤ) : ℝ) := by push_cast; linarith
          have a1' : k - n < 2 := by exact_mod_cast a1
          have a2' : -1 < k - n := by exact_mod_cast a2
          omega
        rcases this with rfl | rfl
        · exact ⟨_, _, rfl, .inl ⟨by dsimp only; linarith, h1⟩⟩
        · push_cast at h2 h3
          exact ⟨_, _, rfl, .inr ⟨_, rfl, h0, by dsimp only; linarith⟩⟩

/-- The hypotheses of `C84_kept` are met by a trim that wraps around. -/
example : InSegments (⟨70, 20, 180⟩ : FixedTrim ℝ).normalized (1 / 10) ∧
    ¬ InSegments (⟨70, 20, 180⟩ : FixedTrim ℝ).normalized (1 / 2) := by
  have hr : (1 : ℝ) / 10 ^ 9 ≤ |20 - 70| ∧ |(20 : ℝ) - 70| < 100 - 1 / 10 ^ 9 := by
    rw [abs_of_neg] <;> norm_num
  constructor
  · rw [C84_kept _ (by norm_num) (by norm_num) (.inr (.inr hr))]
    refine ⟨1, ?_, ?_⟩
    · rw [min_eq_right (by norm_num)]; norm_num
    · rw [max_eq_left (by norm_num)]; norm_num
  · rw [C84_kept _ (by norm_num) (by norm_num) (.inr (.inr hr))]
    rintro ⟨k, h1, h2⟩
    rw [min_eq_right (by norm_num)] at h1
    rw [max_eq_left (by norm_num)] at h2
    have a1 : ((k : ℤ) : ℝ) < 1 := by norm_num at h2; linarith
    have a2 : (0 : ℝ) < (k : ℤ) := by norm_num at h1; linarith
    have a1' : k < 1 := by exact_mod_cast a1
    have a2' : 0 < k := by exact_mod_cast a2
    omega

section
variable {F : Type} [FloatOps F] [Libm F] [Kurbo F]

/-- **C84** for documents: an imported trim has at every frame the start, end and offset which the
document's properties have at that frame. -/
theorem C84_document {s : Schema.TrimPathShape F} {sh : Option (Shape F)}
    (h : convShape (.trim s) = .ok sh) :
    ∃ t, sh = some (.trim t) ∧ ∀ frame, ScalarAt s.start frame (t.evaluate frame).start ∧
      ScalarAt s.stop frame (t.evaluate frame).stop ∧
      ScalarAt s.offset frame (t.evaluate frame).offset := by
  rw [convShape] at h
  obtain ⟨d, hd, h⟩ := bind_ok h
  cases Except.ok.inj hd
  obtain ⟨g, hg, h⟩ := bind_ok h
  cases Except.ok.inj hg
  obtain ⟨start, h1, h⟩ := bind_ok h
  obtain ⟨stop, h2, h⟩ := bind_ok h
  obtain ⟨offset, h3, h⟩ := bind_ok h
  cases Except.ok.inj h
  refine ⟨_, rfl, fun frame => ?_⟩
  have e : (AnimTrim.intoModel ⟨start, stop, offset⟩).evaluate frame
      = ⟨start.evaluate frame, stop.evaluate frame, offset.evaluate frame⟩ :=
    C11_trim _ _
  rw [e]
  exact ⟨⟨_, h1, rfl⟩, ⟨_, h2, rfl⟩, ⟨_, h3, rfl⟩⟩

end

section
variable [Kurbo ℝ]

/-- **C84** for trims of documents that are not animated. -/
theorem C84_static {s : Schema.TrimPathShape ℝ} {a b o : ℝ} (ha : s.start.value = .static a)
    (hb : s.stop.value = .static b) (ho : s.offset.value = .static o) :
    ∃ t, convShape (.trim s) = .ok (some (.trim t)) ∧ ∀ frame x, 0 ≤ x → x < 1 →
      (a = b ∨ 100 ≤ |b - a| ∨ (1 / 10 ^ 9 ≤ |b - a| ∧ |b - a| < 100 - 1 / 10 ^ 9)) →
      (InSegments (t.evaluate frame).normalized x ↔ Between a b o x) := by
  have hs : ∀ {p : Schema.FloatValue ℝ} {y : ℝ}, p.value = .static y → convScalar p = .ok (.fixed y) := by
    intro p y hp
    unfold convScalar
    rw [hp]
  have hc : ∃ t, convShape (.trim s) = .ok (some (.trim t)) := by
    refine ⟨AnimTrim.intoModel ⟨.fixed a, .fixed b, .fixed o⟩, ?_⟩
    rw [convShape]
    show (convScalar s.start >>= _) = _
    rw [hs ha]
    show (convScalar s.stop >>= _) = _
    rw [hs hb]
    show (convScalar s.offset >>= _) = _
    rw [hs ho]
    rfl
  obtain ⟨t, ht⟩ := hc
  refine ⟨t, ht, fun frame x h0 h1 hr => ?_⟩
  obtain ⟨t', ht', h⟩ := C84_document ht
  cases ht'
  obtain ⟨⟨v1, hv1, e1⟩, ⟨v2, hv2, e2⟩, v3, hv3, e3⟩ := h frame
  rw [hs ha] at hv1
  rw [hs hb] at hv2
  rw [hs ho] at hv3
  cases hv1
  cases hv2
  cases hv3
  replace e1 : (t.evaluate frame).start = a := e1
  replace e2 : (t.evaluate frame).stop = b := e2
  replace e3 : (t.evaluate frame).offset = o := e3
  rw [← e1, ← e2] at hr
  rw [C84_kept _ h0 h1 hr, e1, e2, e3]

/-- The hypotheses of `C84_static` are met: the second quarter of an outline. -/
example : ∃ t, convShape (.trim ⟨exElement, exStatic 25, exStatic 50, exStatic 0, none⟩)
      = .ok (some (.trim t)) ∧
    ∀ frame, InSegments (t.evaluate frame).normalized (1 / 3) := by
  obtain ⟨t, ht, h⟩ := C84_static (a := 25) (b := 50) (o := 0)
    (s := ⟨exElement, exStatic 25, exStatic 50, exStatic 0, none⟩) rfl rfl rfl
  refine ⟨t, ht, fun frame => (h frame (1 / 3) (by norm_num) (by norm_num) (.inr (.inr ?_))).mpr
    ⟨0, ?_, ?_⟩⟩
  · rw [abs_of_nonneg] <;> norm_num
  · rw [min_eq_left (by norm_num)]; norm_num
  · rw [max_eq_right (by norm_num)]; norm_num

/-- **C25**, **C26** for animated repeaters: at every frame an animated repeater makes as many copies
as its number of copies says, rounded to the nearest number (none if it is negative), and places and
fades them according to the values its properties have at that frame. -/
theorem C25_animated (r : AnimRepeater ℝ) (frame : ℝ) (hc : r.copies.evaluate frame < 2 ^ 63) :
    (r.intoModel.evaluate frame).copies = ⌊r.copies.evaluate frame + 1 / 2⌋₊ ∧
    (∀ i < (r.intoModel.evaluate frame).copies, repeatAlpha (r.intoModel.evaluate frame) i
      = (r.startOpacity.evaluate frame + (r.endOpacity.evaluate frame
        - r.startOpacity.evaluate frame) * i / (r.intoModel.evaluate frame).copies) / 100) ∧
    ∀ i p, ((r.intoModel.evaluate frame).transform i).apply p =
      let t := r.offset.evaluate frame + i
      let θ := t * r.rotation.evaluate frame * (Real.pi / 180)
      let a := r.anchorPoint.evaluate frame
      let x := ((r.scale.evaluate frame).x / 100) ^ t * (p.x - a.x)
      let y := ((r.scale.evaluate frame).y / 100) ^ t * (p.y - a.y)
      ⟨a.x + t * (r.position.evaluate frame).x + (Real.cos θ * x - Real.sin θ * y),
       a.y + t * (r.position.evaluate frame).y + (Real.sin θ * x + Real.cos θ * y)⟩ := by
  have e : r.intoModel.evaluate frame = r.evaluate frame := C11_repeater _ _
  rw [e]
  refine ⟨?_, fun i hi => C26_opacity_partial _ i hi, fun i p => C25_transform _ i p⟩
  show FloatOps.toUsize (FloatOps.round (r.copies.evaluate frame)) = _
  generalize r.copies.evaluate frame = c at *
  show min ⌊((if 0 ≤ c then (⌊c + 1 / 2⌋ : ℝ) else -⌊-c + 1 / 2⌋ : ℝ))⌋.toNat (2 ^ 64 - 1) = _
  split
  · rename_i h
    rw [Int.floor_intCast, Int.floor_toNat]
    refine min_eq_left ?_
    have : ⌊c + 1 / 2⌋₊ ≤ 2 ^ 63 + 1 := by
      apply Nat.floor_le_of_le
      push_cast
      linarith
    omega
  · rename_i h
    push Not at h
    have h1 : ⌊c + 1 / 2⌋₊ = 0 := by
      rw [Nat.floor_eq_zero]; linarith
    rw [h1]
    have : (0 : ℤ) ≤ ⌊-c + 1 / 2⌋ := Int.floor_nonneg.mpr (by linarith)
    have h2 : ⌊(-⌊-c + 1 / 2⌋ : ℝ)⌋ = -⌊-c + 1 / 2⌋ := by
      have := Int.floor_intCast (R := ℝ) (-⌊-c + 1 / 2⌋)
      rwa [Int.cast_neg] at this
    rw [h2]
    omega

/-- The hypothesis of `C25_animated` is met: 2.5 copies are 3. -/
example : ((AnimRepeater.mk (.fixed (5 / 2)) (.fixed 0) (.fixed ⟨0, 0⟩) (.fixed ⟨5, 0⟩) (.fixed 0)
    (.fixed ⟨100, 100⟩) (.fixed 100) (.fixed 50) : AnimRepeater ℝ).intoModel.evaluate 7).copies = 3 := by
  rw [(C25_animated _ 7 (by show (5 / 2 : ℝ) < 2 ^ 63; norm_num)).1]
  show ⌊(5 / 2 : ℝ) + 1 / 2⌋₊ = 3
  norm_num

end

section
variable {F : Type} [FloatOps F] [Libm F] [Kurbo F]

/-- **C25**: what comes after a repeater is not painted by the draws before it: geometry pushed after
a repeater is a new outline, even if it has the transform of the last copy, and all draws paint what
they painted. -/
theorem C25_after {b : Batch F} {gs ds : Nat} {st} (h : MidRender b ((gs, ds) :: st))
    (r : FixedRepeater F) {b' : Batch F} (hr : b.repeat r gs ds = .ok b') (g : Geometry F)
    (T : Affine F) (fr : F) {els : List (PathEl F)} (hg : g.evaluate fr = .ok els) :
    ∃ b'', b'.pushGeometry g T fr = .ok b'' ∧ b''.outlines = b'.outlines ++ [⟨T, els⟩] ∧
      b''.draws = b'.draws ∧ ∀ d ∈ b'.draws, b''.painted d = b'.painted d := by
  have hi := h.inv
  rw [repeat_ok hi r] at hr
  cases Except.ok.inj hr
  have hw := (repeated_inv hi r).wf
  have hm : (b.repeated r gs ds).canMerge T = false := by
    simp [Batch.canMerge, Batch.repeated]
  have ho : ((b.repeated r gs ds).pushEls els T).outlines
      = (b.repeated r gs ds).outlines ++ [⟨T, els⟩] := by
    rw [pushEls_new els hm, outlines_eq, outlines_eq]
    simp only [List.map_append, List.map_cons, List.map_nil]
    congr 1
    · exact List.map_congr_left fun g hg => outlineOf_append (hw.ranges g hg).2
    · simp only [outlineOf, List.take_length, List.drop_left]
  refine ⟨(b.repeated r gs ds).pushEls els T, ?_, ho, (pushEls_fields _ _ _).1, fun d hd => ?_⟩
  · rw [pushGeometry_eq, hg]
    rfl
  · unfold Batch.painted
    rw [ho, List.take_append_of_le_length]
    rw [outlines_length]
    exact (hw.draws d hd).2

end
end Velato
