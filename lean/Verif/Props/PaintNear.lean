import Verif.Proofs.PaintNear
import Verif.Props.Sources

/-!
# C144: fills and strokes are drawn with the declared colours, widths and gradients, in double precision
-/

set_option exponentiation.threshold 2000

namespace Velato
open FloatOps (lit)
open F64
open Import

section
variable [Libm F64] [Kurbo F64] [KurboPaths F64] {δ : ℝ}

omit [Libm F64] [Kurbo F64] [KurboPaths F64] in
theorem during_number {l : Schema.AnyLayer F64} {frame : F64} (h : l.During frame) : isNaN frame = false :=
  not_nan_of_le_right h.1

omit [KurboPaths F64] in
theorem Reaches.number {a : Schema.Animation F64} {ls : List (Schema.AnyLayer F64)} {frame al frame' al' : F64}
    {T T' : Affine F64} {q : Schema.ShapeLayer F64} (h : Reaches a ls frame T al q frame' T' al') : isNaN frame' = false := by
  induction h with
  | here _ hd => exact during_number hd
  | «instance» _ _ _ _ _ _ _ _ ih => exact ih

/-- **C144.** Everything that is drawn comes from a fill or stroke `t` in a layer that is reached at `frame'` (as in C142, with the
opacity factor `al₂` of its place).  If the numbers and keyframes of `t` are ordinary, then its colour, or its gradient, and its
stroke style are what the document says about `t` at `frame'`: red, green and blue up to `2^-22`, in gradients up to `2^-23`, offsets
up to `2^-23`, widths and points up to `1 / 10^5`, the radius up to `1 / 500`, in double and single precision and with a cubic solver
that is accurate up to `δ`.  The opacities are the subject of C132. -/
theorem C144_drawn (hl : AccurateLibm) (hδ : 0 ≤ δ) (hs : SolverWithin δ) {doc : Schema.Animation F64} {c : Composition F64}
    (h : convAnimation doc = .ok c) {r r' : Renderer F64} (hr : Reachable r) {frame : F64} {T : Affine F64} {al : F64}
    {ops : List (Op F64)} (hops : AppendCalls r c frame T al r' ops) {st : Option (KStroke F64)} {T' : Affine F64} {b : Brush F64}
    {path : List (PathEl F64)} (hop : .draw st T' b path ∈ ops) :
    ∃ q frame' T₁ al₁ xs T₂ al₂ pre t post p parts, Reaches doc doc.layers frame T al q frame' T₁ al₁ ∧
      GroupsTo frame' q.shapes T₁ al₁ xs T₂ al₂ ∧ xs = pre ++ t :: post ∧ PaintOf al₂ frame' p t ∧ st = p.stroke ∧
      b = p.finalBrush ∧ parts ≠ [] ∧
      (∀ part ∈ parts, ∃ T'', Supplies frame' pre T₂ T'' part ∧ (T' = T'' ∨ T'.beq T'' = true)) ∧
      (¬ TrimIn q.shapes → path = parts.flatten) ∧
      (OrdinaryPaint t → PaintNear (δ + 1 / 10 ^ 10) frame' st b t) := by
  obtain ⟨q, frame', T₁, al₁, xs, T₂, al₂, pre, t, post, p, parts, h1, h2, h3, h4, h5, h6, h7, h8, h9⟩ :=
    C142_sources h hr hops hop
  refine ⟨q, frame', T₁, al₁, xs, T₂, al₂, pre, t, post, p, parts, h1, h2, h3, h4, h5, h6, h7, h8, h9, fun ht => ?_⟩
  rw [h5, h6]
  exact paint_near hl hδ hs ht h1.number h4

end

/-! ## The hypotheses can be met -/

theorem lit0_between {lo hi : ℝ} (h1 : lo ≤ 0) (h2 : 0 ≤ hi) : (lit 0 : F64).Between lo hi :=
  ⟨near_lit0.fin, by have := abs_le.mp near_lit0.err; constructor <;> linarith⟩

theorem lit1_between {lo hi : ℝ} (h1 : lo ≤ 1) (h2 : 1 ≤ hi) : (lit 1 : F64).Between lo hi :=
  ⟨near_lit1.fin, by have := abs_le.mp near_lit1.err; constructor <;> linarith⟩

/-- The keyframes of the fade with other lists of zeros and ones are ordinary. -/
theorem ordinaryLists_fade {f : Schema.Keyframe F64 → List F64} {n : Nat} {lo hi : ℝ} (h1 : lo ≤ 0) (h2 : 1 ≤ hi)
    (hn : ∀ k, n ≤ (f k).length) (hf : ∀ k, ∀ x ∈ f k, x = lit 0 ∨ x = lit 1) {a b c d} :
    OrdinaryLists n lo hi ⟨a, b, c, d, .animatedValue (exFade.map fun k => ⟨k.base, f k, none⟩)⟩ := by
  have hm : ∀ {P : Schema.Keyframe F64 → Prop}, (∀ k ∈ exFade, P ⟨k.base, f k, none⟩) →
      ∀ k ∈ exFade.map (fun k => (⟨k.base, f k, none⟩ : Schema.Keyframe F64)), P k := by
    intro P h k hk
    obtain ⟨k', h', rfl⟩ := List.mem_map.mp hk
    exact h k' h'
  refine ⟨by simp [exFade], ⟨?_, hm exFade_times.times, hm exFade_times.handles⟩, hm fun k _ => ⟨hn k, fun x hx => ?_⟩⟩
  · rw [List.pairwise_map]
    exact exFade_times.order
  · rcases hf k x hx with rfl | rfl
    · exact lit0_between h1 (by linarith)
    · exact lit1_between (by linarith) h2

/-- The static fill of the example documents is ordinary. -/
example : OrdinaryPaint (exFillShape : Schema.AnyShape F64) := by
  refine ⟨le_refl _, fun x hx => ?_⟩
  simp only [List.mem_cons, List.not_mem_nil, or_false] at hx
  have b0 : (lit 0 : F64).Between 0 1 := lit0_between le_rfl zero_le_one
  have b1 : (lit 1 : F64).Between 0 1 := lit1_between zero_le_one le_rfl
  rcases hx with rfl | rfl | rfl
  exacts [b1, b0, b0]

/-- A stroke with a radial gradient of two stops that change places, whose width goes up and down. -/
def exRadialStroke : Schema.GradientStrokeShape F64 :=
  ⟨⟨exElement, exStatic (lit 100)⟩, ⟨none, none, none, none, ⟨none, none, none, none, .animatedValue exFade⟩, none⟩,
    ⟨⟨⟨⟨none, none, none, none, .animatedValue exTwoStops⟩, none⟩, 2⟩,
      ⟨exStatic [lit 0, lit 1], none⟩, ⟨⟨none, none, none, none, .animatedValue exMoves⟩, none⟩, some .radial, none, none⟩⟩

/-- It is ordinary, and so is a fill whose colour changes. -/
example : OrdinaryPaint (.gradientStroke exRadialStroke) ∧
    OrdinaryPaint (.fill ⟨⟨exElement, exStatic (lit 100)⟩, ⟨none, none, none, none, .animatedValue exMoves⟩, none⟩) := by
  have hmoves : ∀ {n : Nat} {lo hi : ℝ}, n ≤ 3 → lo ≤ 0 → 1 ≤ hi →
      OrdinaryLists n lo hi ⟨none, none, none, none, .animatedValue exMoves⟩ := by
    intro n lo hi hn h1 h2
    refine ordinaryLists_fade h1 h2 (fun k => ?_) fun k x hx => ?_
    · split <;> exact hn
    · split at hx <;> simp only [List.mem_cons, List.not_mem_nil, or_false] at hx <;> tauto
  refine ⟨⟨fun ks hks => ?_, by decide, ⟨le_refl _, fun x hx => ?_⟩, hmoves (by omega) (by norm_num) (by norm_num),
    ordinaryLists_fade le_rfl le_rfl (fun k => ?_) fun k x hx => ?_⟩, hmoves le_rfl le_rfl le_rfl⟩
  · cases hks
    refine ⟨by simp [exFade], exFade_times, fun k hk x hx => ?_⟩
    have : x.Between (-100) 100 := by
      refine exFade_ordinary.values k hk x ?_
      simp only [exFade, List.mem_cons, List.not_mem_nil, or_false] at hk
      rcases hk with rfl | rfl | rfl <;> rw [List.mem_singleton.mp hx] <;> rfl
    exact ⟨this.1, by linarith [this.2.1], by linarith [this.2.2]⟩
  · simp only [List.mem_cons, List.not_mem_nil, or_false] at hx
    rcases hx with rfl | rfl
    exacts [lit0_between (by norm_num) (by norm_num), lit1_between (by norm_num) (by norm_num)]
  · split <;> exact le_refl _
  · split at hx <;> simp only [List.mem_cons, List.not_mem_nil, or_false] at hx <;> tauto

end Velato
