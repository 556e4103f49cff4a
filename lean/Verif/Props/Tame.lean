import Verif.Proofs.TameDraws
import Verif.Props.DocDraws
import Verif.Props.Accuracy

/-!
# C127: in double precision, drawing does not overflow
-/

set_option exponentiation.threshold 2000

namespace Velato
open FloatOps (lit)
open F64
open Import

section
variable [Libm F64] [Kurbo F64] [KurboPaths F64]

/-- **C127.** For any document that can be imported, with moderate numbers and nested at most 40 deep, in double
precision: whatever renderer is used and whatever the frame, the calls that draw it with a moderate transform and an
opacity from 0 to 1 have finite matrices and finite stroke widths, and colours whose opacity and channels are
between 0 and 1, but for `10⁻⁹` below 0; the same for the colours and the offsets of the stops of gradients, whose
points and radii are finite. -/
theorem C127_calls (hl : AccurateLibm) {doc : Schema.Animation F64} {c : Composition F64}
    (h : convAnimation doc = .ok c) (hd : doc.Tame 40) {r r' : Renderer F64} (hr : Reachable r) {frame : F64}
    {T : Affine F64} (hT : T.AtMost (2 ^ 22)) {a : F64} (ha : a.Between 0 1) {ops : List (Op F64)}
    (hops : AppendCalls r c frame T a r' ops) : ∀ op ∈ ops, op.Tame := by
  obtain ⟨-, per, hper, rfl⟩ := (C117_calls h hr).mp hops
  obtain ⟨depth, h1, h2⟩ := hd
  have hT0 : Placement 0 T := hT
  have hf : Faded 0 a := ha.mono (by norm_num) (by norm_num)
  have hall := layers_tame hl h2 hper 0 40 hT0 hf h1 (by norm_num) fun _ h => h
  intro op hop
  simp only [List.mem_append, List.mem_singleton] at hop
  rcases hop with (rfl | hop) | rfl
  · exact hT0.finite
  · obtain ⟨ops, hops, hop⟩ := List.mem_flatten.mp hop
    exact hall ops (List.mem_reverse.mp hops) op hop
  · trivial

end

/-! ## The hypotheses can be met -/

/-- A moving, turning and skewed null layer, a shape layer of which it is the parent, and a precomposition. -/
def exTameDoc : Schema.Animation F64 :=
  { exDoc with
    layers :=
      [.null { exVisual "parent" (some 1) with transform := exModerate },
       (let v := exVisual "child" (some 2)
        exShapeDoc { v with layer := { v.layer with parentIndex := some 1 }, transform := exModerate }),
       .precomposition ⟨{ exVisual "instance" (some 5) with transform := exModerate }, "b", lit 20, lit 30, lit 4,
        none⟩]
    assets := some
      [.precomposition ⟨⟨"b", ⟨none, none⟩⟩, [exShapeDoc { exVisual "z" none with transform := exModerate }], none,
        none⟩] }

theorem exModerate_tame : exModerate.Tame := by
  refine ⟨exModerate_moderate, ?_⟩
  intro p hp
  cases hp

theorem exFillShape_tame : ShapesTame 1 [.group exElement none [exEllipse, exFillShape] none] := by
  intro s hs
  cases List.mem_singleton.mp hs
  refine ⟨trivial, ?_⟩
  intro e n items i he
  cases he
  refine ⟨fun t ht => (by cases ht), ?_⟩
  intro s hs
  simp only [List.mem_cons, List.not_mem_nil, or_false] at hs
  have one : (lit 1 : F64).Between 0 1 := lit_one_between.mono (by norm_num) (le_refl _)
  have zero : (lit 0 : F64).Between 0 1 :=
    (lit_between (q := 0) (n := 1) (by norm_num) (by norm_num)).mono (le_refl _) (by norm_num)
  rcases hs with rfl | rfl
  · refine ⟨trivial, ?_⟩
    intro e n items i he
    cases he
  · refine ⟨⟨?_, ?_⟩, ?_⟩
    · intro x hx
      simp only [List.mem_cons, List.not_mem_nil, or_false] at hx
      rcases hx with rfl | rfl | rfl
      · exact one
      · exact zero
      · exact zero
    · have := lit_between (q := 50) (n := 100) (by norm_num) (by norm_num)
      exact this.mono (le_refl _) (by norm_num)
    · intro e n items i he
      cases he

theorem exTame_layer {v : Schema.VisualLayer F64} (hv : v.transform = exModerate) {ls : List (Schema.AnyLayer F64)}
    {k n : Nat} (hk : ParentsAtMost ls k (exShapeDoc v)) (hn : k + 2 ≤ n) : (exShapeDoc v).visual.transform.Tame ∧
    ∃ k, ParentsAtMost ls k (exShapeDoc v) ∧ k + 1 ≤ n ∧
    (∀ q, exShapeDoc v = .shape q → ∃ g, ShapesTame g q.shapes ∧ k + 1 + g ≤ n) ∧
    ∀ q, exShapeDoc v = .precomposition q → k + 1 + 2 ≤ n := by
  refine ⟨(show v.transform.Tame by rw [hv]; exact exModerate_tame), k, hk, by omega, ?_, ?_⟩
  · intro q hq
    cases hq
    exact ⟨1, exFillShape_tame, by omega⟩
  · intro q hq
    cases hq

theorem exTameDoc_tame : exTameDoc.Tame 3 := by
  refine ⟨fun _ => 2, ?_, ?_⟩
  · intro l hl
    rcases List.mem_cons.mp hl with rfl | hl
    · refine ⟨exModerate_tame, 0, ?_, by norm_num, ?_, ?_⟩
      · intro id j h
        cases h
      · intro q hq
        cases hq
      · intro q hq
        cases hq
    rcases List.mem_cons.mp hl with rfl | hl
    · refine exTame_layer rfl (k := 1) ?_ (by norm_num)
      intro id j p hid hj hp id' j' hid'
      cases hid
      rcases j with _ | _ | _ | j
      · cases hp
        cases hid'
      · exact absurd hj.1 (by decide)
      · exact absurd hj.1 (by decide)
      · cases hp
    cases List.mem_singleton.mp hl
    refine ⟨exModerate_tame, 0, ?_, by norm_num, ?_, ?_⟩
    · intro id j h
      cases h
    · intro q hq
      cases hq
    · intro q hq
      norm_num
  · intro p hp
    cases List.mem_singleton.mp hp
    intro l hl
    cases List.mem_singleton.mp hl
    refine exTame_layer rfl (k := 0) ?_ (by norm_num)
    intro id j h
    cases h

theorem Schema.Animation.Tame.mono {a : Schema.Animation F64} {n m : Nat} (h : a.Tame n) (hm : n ≤ m) :
    a.Tame m := by
  obtain ⟨depth, h1, h2⟩ := h
  refine ⟨depth, fun l hl => ?_, h2⟩
  obtain ⟨ht, k, hk, hn, hs, hp⟩ := h1 l hl
  refine ⟨ht, k, hk, by omega, fun q hq => ?_, fun q hq => (hp q hq).trans hm⟩
  obtain ⟨g, hg, hgn⟩ := hs q hq
  exact ⟨g, hg, by omega⟩

/-- It can be imported, and so all calls that draw it are finite. -/
example [Libm F64] [Kurbo F64] [KurboPaths F64] (hl : AccurateLibm) : ∃ c, convAnimation exTameDoc = .ok c ∧
    ∀ r' frame ops, AppendCalls Renderer.new c frame Affine.identity (lit 1) r' ops → ∀ op ∈ ops, op.Tame := by
  obtain ⟨c, hc⟩ : ∃ c, convAnimation exTameDoc = .ok c := ⟨_, rfl⟩
  refine ⟨c, hc, fun r' frame ops h => ?_⟩
  exact C127_calls hl hc (exTameDoc_tame.mono (by norm_num)) .new placement_identity
    (lit_one_between.mono (by norm_num) (le_refl _)) h

/-- A radial gradient from an opaque red to a transparent blue, changing over time with easing, around a point. -/
def exGlow : Schema.AnyShape F64 :=
  .gradientFill ⟨⟨exElement, exStatic (lit 50)⟩,
    ⟨⟨⟨⟨none, none, none, none, .animatedValue
        [{ exEased64 (lit 0) (lit 0) with value :=
            [lit 0, lit 1, lit 0, lit 0, lit 1, lit 0, lit 0, lit 1, lit 0, lit 1, lit 1, lit 0] },
         { exEased64 (lit 30) (lit 0) with value :=
            [lit (1 / 10), lit 1, lit 0, lit 0, lit 1, lit 0, lit 0, lit 1, lit 0, lit 1, lit 1, lit (1 / 3)] }]⟩, none⟩, 2⟩,
      ⟨exStatic [lit 10, lit 20], none⟩, ⟨exStatic [lit 90, lit 0], none⟩, some .radial, none, none⟩, none⟩

theorem exGlow_tame : exGlow.TamePaint := by
  refine ⟨?_, ?_, by simp, ?_⟩
  · exact ⟨_, _, _, rfl, (lit_between (q := 10) (n := 10) (by norm_num) (by norm_num)).mono (by norm_num) (by norm_num),
      (lit_between (q := 20) (n := 20) (by norm_num) (by norm_num)).mono (by norm_num) (by norm_num)⟩
  · exact ⟨_, _, _, rfl, (lit_between (q := 90) (n := 90) (by norm_num) (by norm_num)).mono (by norm_num) (by norm_num),
      (lit_between (q := 0) (n := 1) (by norm_num) (by norm_num)).mono (by norm_num) (by norm_num)⟩
  · intro k hk
    simp only [List.mem_cons, List.not_mem_nil, or_false] at hk
    rcases hk with rfl | rfl <;>
    · refine ⟨exEased64_unit _ (lit 0), ?_⟩
      intro x hx
      simp only [List.mem_cons, List.not_mem_nil, or_false] at hx
      rcases hx with rfl | rfl | rfl | rfl | rfl | rfl | rfl | rfl | rfl | rfl | rfl | rfl <;>
        simpa using lit_between (n := 1) (by norm_num) (by norm_num)

/-- A document with this gradient. -/
def exGlowDoc : Schema.Animation F64 :=
  { exDoc with
    layers := [.shape ⟨{ exVisual "glow" none with transform := exModerate }, [exEllipse, exGlow]⟩]
    assets := none }

theorem exGlowDoc_tame : exGlowDoc.Tame 1 := by
  refine ⟨fun _ => 0, ?_, ?_⟩
  · intro l hl
    cases List.mem_singleton.mp hl
    refine ⟨exModerate_tame, 0, ?_, le_refl _, ?_, ?_⟩
    · intro id j h
      cases h
    · intro q hq
      cases hq
      refine ⟨0, ?_, le_refl _⟩
      intro s hs
      simp only [List.mem_cons, List.not_mem_nil, or_false] at hs
      rcases hs with rfl | rfl
      · exact ⟨trivial, fun _ _ _ _ h => by cases h⟩
      · exact ⟨exGlow_tame, fun _ _ _ _ h => by cases h⟩
    · intro q hq
      cases hq
  · intro p hp
    exact absurd hp List.not_mem_nil

/-- It is drawn with finite numbers at every frame. -/
example [Libm F64] [Kurbo F64] [KurboPaths F64] (hl : AccurateLibm) : ∃ c, convAnimation exGlowDoc = .ok c ∧
    ∀ r' frame ops, AppendCalls Renderer.new c frame Affine.identity (lit 1) r' ops → ∀ op ∈ ops, op.Tame := by
  obtain ⟨c, hc⟩ : ∃ c, convAnimation exGlowDoc = .ok c := ⟨_, rfl⟩
  refine ⟨c, hc, fun r' frame ops h => ?_⟩
  exact C127_calls hl hc (exGlowDoc_tame.mono (by norm_num)) .new placement_identity
    (lit_one_between.mono (by norm_num) (le_refl _)) h

end Velato
