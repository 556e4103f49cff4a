import Verif.Proofs.CoordinatesDoc
import Verif.Props.Tame
import Verif.Props.NormalMatte

/-!
# C130: no coordinate is infinite or undefined
-/

set_option exponentiation.threshold 2000

namespace Velato
open FloatOps (lit)
open F64
open Import

section
variable [Libm F64] [Kurbo F64]

/-- **C130.** A path, rectangle, ellipse, star or polygon with moderate numbers has, at every frame, an outline with
coordinates up to `2^26`, those of handles included.  Missing from the full claim: paths at a last keyframe which is
not held (see `C130_last_keyframe`), stars with fewer than three points. -/
theorem C130_outline_partial (hK : BoundedKurbo) (hl : AccurateLibm) (hA : AccurateAngles) {s : Schema.AnyShape F64}
    (hs : s.Modest) {frame : F64} (hf : frame ≠ .nan)
    (hd : ∀ q, s = .path q → q.shapeProperty.DefinedAt frame) {els : List (PathEl F64)} (h : OutlineAt frame s els) :
    ∀ el ∈ els, ∀ p ∈ el.points, p.UpTo 26 := outline_upTo hK hl hA hs hf hd h

/-- **C130.** For any document that can be imported, with moderate geometry and at most `n` trims (up to 8) in a
layer, in double precision: whatever renderer, transform and opacity are used, at every frame at which all paths that
are shown have a weight, the outlines of all calls that fill, stroke or clip have coordinates up to `2^(26 + 3n)`.
Missing from the full claim: frames at which a path is at a keyframe which is not held and which is the last one (see
`C130_last_keyframe`). -/
theorem C130_calls_partial [KurboPaths F64] (hK : BoundedKurbo) (hl : AccurateLibm) (hA : AccurateAngles)
    {doc : Schema.Animation F64} {c : Composition F64} (h : convAnimation doc = .ok c) {n : Nat} (hn : n ≤ 8)
    (hm : doc.Modest n) {r r' : Renderer F64} (hr : Reachable r) {frame : F64} (hp : doc.PathsDefined frame)
    {T : Affine F64} {a : F64} {ops : List (Op F64)} (hops : AppendCalls r c frame T a r' ops) :
    ∀ op ∈ ops, ∀ els, op.outline = some els → ∀ el ∈ els, ∀ p ∈ el.points, p.UpTo (26 + 3 * n) := by
  obtain ⟨-, per, hper, rfl⟩ := (C117_calls h hr).mp hops
  have hall := layers_upTo hK (k := 26 + 3 * n) (by omega) hper
    (fun l x hx => fits_of_modest hK hl hA hm hp hx) fun _ h => h
  intro op hop
  simp only [List.mem_append, List.mem_singleton] at hop
  rcases hop with (rfl | hop) | rfl
  · intro els hels; cases hels
  · obtain ⟨ops, hops, hop⟩ := List.mem_flatten.mp hop
    exact hall ops (List.mem_reverse.mp hops) op hop
  · intro els hels; cases hels

/-- **C130.** So if in all paths every keyframe which is not held is followed by one at another time, as in documents
without animated paths, then this is so at every frame. -/
theorem C130_every_frame_partial [KurboPaths F64] (hK : BoundedKurbo) (hl : AccurateLibm) (hA : AccurateAngles)
    {doc : Schema.Animation F64} {c : Composition F64} (h : convAnimation doc = .ok c) {n : Nat} (hn : n ≤ 8)
    (hm : doc.Modest n) (hp : ∀ p, doc.HasPath p → p.EndsHeld) {r r' : Renderer F64} (hr : Reachable r) {frame : F64}
    {T : Affine F64} {a : F64} {ops : List (Op F64)} (hops : AppendCalls r c frame T a r' ops) :
    ∀ op ∈ ops, ∀ els, op.outline = some els → ∀ el ∈ els, ∀ p ∈ el.points, p.UpTo (26 + 3 * n) := by
  refine C130_calls_partial hK hl hA h hn hm hr ?_ hops
  intro l x hx p hh ks hks i k hk hh' _
  exact hp p ⟨l, (shown_mem hx fun l hl => List.mem_append_left _ hl).1, hh⟩ ks hks i k hk hh'

end

/-! ## The last keyframe of a path -/

/-- A path with two keyframes, at frames 1 and 5; `hold` says whether the last one is held. -/
def exMovingPath (hold : Option Schema.BoolInt) : Schema.ShapeProperty F64 :=
  ⟨none, some .true, none, .animated
    [⟨⟨lit 1, none, none, none⟩, some [⟨some true, [(lit 0, lit 0), (lit 4, lit 0)], [], []⟩], none⟩,
     ⟨⟨lit 5, hold, none, none⟩, some [⟨some true, [(lit 2, lit 2), (lit 6, lit 3)], [], []⟩], none⟩]⟩

/-- A document with one shape layer that fills this path. -/
def exMovingDoc : Schema.Animation F64 :=
  { exDoc with assets := none, layers := [.shape ⟨exVisual "a" none,
    [.path ⟨⟨exElement, none⟩, exMovingPath none⟩, exFillShape]⟩] }

/-- **C130** is false at the last keyframe of a path if this is not held: at frame 5 the path of this small document is
drawn with undefined coordinates. -/
theorem C130_last_keyframe [Libm F64] [Kurbo F64] : ∃ c, convAnimation exMovingDoc = .ok c ∧
    ∃ r' ops, AppendCalls Renderer.new c (lit 5) Affine.identity (lit 1) r' ops ∧
      ∃ op ∈ ops, ∃ els, op.outline = some els ∧ ∃ el ∈ els, ∃ p ∈ el.points, p = ⟨.nan, .nan⟩ := by
  obtain ⟨c, hc⟩ : ∃ c, convAnimation exMovingDoc = .ok c := ⟨_, rfl⟩
  refine ⟨c, hc, ?_⟩
  have h : ((docCalls exMovingDoc (lit 5)).toOption.map fun ops => ops.filterMap Op.outline) = some
      [[.moveTo ⟨.nan, .nan⟩, .curveTo ⟨.nan, .nan⟩ ⟨.nan, .nan⟩ ⟨.nan, .nan⟩,
        .curveTo ⟨.nan, .nan⟩ ⟨.nan, .nan⟩ ⟨.nan, .nan⟩, .closePath]] := by kernel_decide
  unfold docCalls at h
  rw [hc] at h
  cases hx : Renderer.append 3 Renderer.new c (lit 5) Affine.identity (lit 1) with
  | error e =>
    simp only [bind, Except.bind] at h
    rw [hx] at h
    cases h
  | ok p =>
    simp only [bind, Except.bind] at h
    rw [hx] at h
    have h' := Option.some.inj h
    dsimp only at h'
    have hm : [PathEl.moveTo ⟨.nan, .nan⟩, .curveTo ⟨.nan, .nan⟩ ⟨.nan, .nan⟩ ⟨.nan, .nan⟩,
        .curveTo ⟨.nan, .nan⟩ ⟨.nan, .nan⟩ ⟨.nan, .nan⟩, .closePath] ∈ p.2.filterMap Op.outline := by
      rw [h']
      exact List.mem_singleton.mpr rfl
    obtain ⟨op, hop, ho⟩ := List.mem_filterMap.mp hm
    exact ⟨p.1, p.2, ⟨3, hx⟩, op, hop, _, ho, _, List.mem_cons_self, _, List.mem_cons_self, rfl⟩

/-! ## The hypotheses can be met -/

theorem lit_modest {q : ℚ} {n : Nat} (h : 0 ≤ q ∧ q ≤ n) (hn : n ≤ 1000) {B : ℝ} (hB : 1000 ≤ B) :
    (lit q : F64).Between (-B) B := by
  have : (n : ℝ) ≤ 1000 := by exact_mod_cast hn
  exact (lit_between (n := n) (by omega) h).mono (by linarith) (by linarith)

/-- A layer with a mask, and, in a group, a path whose last keyframe is held, a rectangle, a star with 5 points and a
trim, filled. -/
def exFigures : Schema.AnyLayer F64 :=
  let v : Schema.VisualLayer F64 := exVisual "a" none
  .shape ⟨{ v with masksProperties := some [⟨none, none, none, some (exMovingPath (some .true)), none, none, none⟩] },
    [.group exElement none
      [.path ⟨⟨exElement, none⟩, exMovingPath (some .true)⟩,
       .rectangle ⟨⟨exElement, none⟩, ⟨none, none, none, none, .static [lit 5, lit 5]⟩,
         ⟨exStatic [lit 4, lit 6], none⟩, exStatic (lit 1)⟩,
       .polyStar ⟨⟨exElement, none⟩, ⟨none, none, none, none, .static [lit 50, lit 50]⟩, exStatic (lit 40),
         exStatic (lit 30), exStatic (lit 10), exStatic (lit 5), .star, some (exStatic (lit 20)), none⟩,
       .trim ⟨exElement, exStatic (lit 25), exStatic (lit 50), exStatic (lit 0), none⟩, exFillShape] none]⟩

/-- A document with this layer twice, one of them in an asset. -/
def exFiguresDoc : Schema.Animation F64 :=
  { exDoc with
    layers := [exFigures, .precomposition ⟨exVisual "instance" (some 5), "b", lit 20, lit 30, lit 4, none⟩]
    assets := some [.precomposition ⟨⟨"b", ⟨none, none⟩⟩, [exFigures], none, none⟩] }

theorem exMovingPath_modest (h : Option Schema.BoolInt) : (exMovingPath h).Modest := by
  intro k hk
  simp only [List.mem_cons, List.not_mem_nil, or_false] at hk
  have big : ∀ {q : ℚ} {n : Nat}, 0 ≤ q ∧ q ≤ n → n ≤ 1000 → (lit q : F64).Between (-2 ^ 1000) (2 ^ 1000) :=
    fun h hn => lit_modest h hn (by norm_num)
  have pt : ∀ {q r : ℚ}, 0 ≤ q ∧ q ≤ (10 : Nat) → 0 ≤ r ∧ r ≤ (10 : Nat) →
      (lit q : F64).Between (-8000) 8000 ∧ (lit r : F64).Between (-8000) 8000 :=
    fun h1 h2 => ⟨lit_modest h1 (by norm_num) (by norm_num), lit_modest h2 (by norm_num) (by norm_num)⟩
  rcases hk with rfl | rfl
  · refine ⟨big (n := 1) (by norm_num) (by norm_num), ?_⟩
    intro b hb
    cases List.mem_singleton.mp hb
    intro p hp
    simp only [List.append_nil, List.mem_cons, List.not_mem_nil, or_false] at hp
    rcases hp with rfl | rfl
    · exact pt (by norm_num) (by norm_num)
    · exact pt (by norm_num) (by norm_num)
  · refine ⟨big (n := 5) (by norm_num) (by norm_num), ?_⟩
    intro b hb
    cases List.mem_singleton.mp hb
    intro p hp
    simp only [List.append_nil, List.mem_cons, List.not_mem_nil, or_false] at hp
    rcases hp with rfl | rfl
    · exact pt (by norm_num) (by norm_num)
    · exact pt (by norm_num) (by norm_num)

theorem exMovingPath_held : (exMovingPath (some .true)).EndsHeld := by
  intro ks hks i k hk hh
  cases hks
  rcases i with _ | _ | i
  · exact ⟨_, rfl, by cases hk; decide +kernel⟩
  · cases hk
    exact absurd rfl hh
  · cases hk

theorem exFiguresDoc_layers {l : Schema.AnyLayer F64} (h : l ∈ exFiguresDoc.allLayers) :
    l = exFigures ∨ ∃ q, l = .precomposition q ∧ q.visualLayer.masksProperties = none := by
  have e : exFiguresDoc.allLayers = [exFigures, .precomposition ⟨exVisual "instance" (some 5), "b", lit 20, lit 30,
    lit 4, none⟩, exFigures] := rfl
  rw [e] at h
  simp only [List.mem_cons, List.not_mem_nil, or_false] at h
  rcases h with rfl | rfl | rfl
  · exact .inl rfl
  · exact .inr ⟨_, rfl, rfl⟩
  · exact .inl rfl

theorem exFigures_within {t : Schema.AnyShape F64} : ∀ q, exFigures = .shape q → ∀ s ∈ q.shapes, Within t s →
    t.Modest ∧ ∀ w, t = .path w → w.shapeProperty = exMovingPath (some .true) := by
  intro q hq s hs hw
  cases hq
  cases List.mem_singleton.mp hs
  have sm : ∀ {q : ℚ}, 0 ≤ q ∧ q ≤ (100 : Nat) → ∀ {B : ℝ}, 1000 ≤ B → (lit q : F64).Between (-B) B :=
    fun h _ hB => lit_modest h (by norm_num) hB
  cases hw with
  | self => exact ⟨trivial, fun w hw => by cases hw⟩
  | item hs h =>
    simp only [List.mem_cons, List.not_mem_nil, or_false] at hs
    rcases hs with rfl | rfl | rfl | rfl | rfl <;> cases h
    · exact ⟨exMovingPath_modest _, fun w hw => by cases hw; rfl⟩
    · refine ⟨⟨?_, ?_, ?_⟩, fun w hw => by cases hw⟩
      · exact ⟨_, _, _, rfl, sm (by norm_num) (by norm_num), sm (by norm_num) (by norm_num)⟩
      · exact ⟨_, _, _, rfl, sm (by norm_num) (by norm_num), sm (by norm_num) (by norm_num)⟩
      · exact sm (by norm_num) (by norm_num)
    · refine ⟨⟨?_, sm (by norm_num) (by norm_num), sm (by norm_num) (by norm_num), sm (by norm_num) (by norm_num),
        ?_, ?_, ?_⟩, fun w hw => by cases hw⟩
      · exact ⟨_, _, _, rfl, sm (by norm_num) (by norm_num), sm (by norm_num) (by norm_num)⟩
      · have : (lit 5 : F64).toR = 5 := by
          have := lit_nat (n := 5) (by norm_num)
          unfold toR; rw [show (5 : ℚ) = ((5 : Nat) : ℚ) from rfl, this.2]; norm_num
        exact ⟨by decide +kernel, by rw [this]; norm_num, by rw [this]; norm_num⟩
      · intro r hr; cases hr; exact sm (by norm_num) (by norm_num)
      · intro r hr; cases hr
    · exact ⟨trivial, fun w hw => by cases hw⟩
    · exact ⟨trivial, fun w hw => by cases hw⟩

theorem exFiguresDoc_path {p : Schema.ShapeProperty F64} (h : exFiguresDoc.HasPath p) :
    p = exMovingPath (some .true) := by
  obtain ⟨l, hl, h⟩ := h
  rcases exFiguresDoc_layers hl with rfl | ⟨q, rfl, hq⟩
  · rcases h with ⟨ms, m, hms, hm, hp⟩ | ⟨q, hq, s, hs, t, ht, hp⟩
    · cases hms
      cases List.mem_singleton.mp hm
      cases hp
      rfl
    · rw [← hp]
      exact (exFigures_within q hq s hs ht).2 t rfl
  · rcases h with ⟨ms, m, hms, -⟩ | ⟨q', hq', -⟩
    · rw [show (Schema.AnyLayer.precomposition q).visual.masksProperties = _ from hq] at hms
      cases hms
    · cases hq'

theorem exFiguresDoc_modest : exFiguresDoc.Modest 1 := by
  refine ⟨?_, ?_, ?_⟩
  · intro p hp
    rw [exFiguresDoc_path hp]
    exact exMovingPath_modest _
  · intro l hl q hq s hs t ht
    rcases exFiguresDoc_layers hl with rfl | ⟨q', rfl, -⟩
    · exact (exFigures_within q hq s hs ht).1
    · cases hq
  · intro l hl q hq
    rcases exFiguresDoc_layers hl with rfl | ⟨q', rfl, -⟩
    · cases hq
      decide
    · cases hq

/-- The document can be imported, and at every frame the outlines of its calls have coordinates up to `2^29`. -/
example [Libm F64] [Kurbo F64] [KurboPaths F64] (hK : BoundedKurbo) (hl : AccurateLibm) (hA : AccurateAngles) :
    ∃ c, convAnimation exFiguresDoc = .ok c ∧ ∀ r' frame T a ops, AppendCalls Renderer.new c frame T a r' ops →
      ∀ op ∈ ops, ∀ els, op.outline = some els → ∀ el ∈ els, ∀ p ∈ el.points, p.UpTo 29 := by
  have ho : (convAnimation exFiguresDoc).toOption.isSome = true := by kernel_decide
  obtain ⟨c, hc⟩ : ∃ c, convAnimation exFiguresDoc = .ok c := by
    cases h : convAnimation exFiguresDoc with
    | ok c => exact ⟨c, rfl⟩
    | error e => rw [h] at ho; cases ho
  exact ⟨c, hc, fun r' frame T a ops h => C130_every_frame_partial hK hl hA hc (by norm_num) exFiguresDoc_modest
    (fun p hp => by rw [exFiguresDoc_path hp]; exact exMovingPath_held) .new h⟩

/-- The path whose last keyframe is not held has a weight, for example, at frame 3 and at its first keyframe. -/
example : (exMovingPath none).DefinedAt (lit 3) ∧ (exMovingPath none).DefinedAt (lit 1) ∧
    ¬ (exMovingPath none).DefinedAt (lit 5) := by
  refine ⟨?_, ?_, ?_⟩
  · intro ks hks i k hk _ h
    cases hks
    rcases i with _ | _ | i <;> cases hk <;> exact absurd h (by decide +kernel)
  · intro ks hks i k hk _ h
    cases hks
    rcases i with _ | _ | i <;> cases hk
    · exact ⟨_, rfl, by decide +kernel⟩
    · exact absurd h (by decide +kernel)
  · intro h
    obtain ⟨k', hk', -⟩ := h _ rfl 1 _ rfl (by decide) (by decide +kernel)
    cases hk'

/-- There is a library with accurate constants. -/
example : ∃ l : Libm F64, @AccurateLibm l ∧ @AccurateAngles l :=
  ⟨accurateLibm, accurateLibm_accurate, accurateLibm_angles⟩

/-- The expectations of kurbo can be met. -/
example : ∃ k : Kurbo F64, @BoundedKurbo k := ⟨diamondKurbo, diamondKurbo_bounded⟩

end Velato
