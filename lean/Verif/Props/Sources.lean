import Verif.Proofs.SourcesMeant
import Verif.Props.Dimming

/-!
# C142: every call draws the outline of some geometry with the fill or stroke behind it
-/

set_option exponentiation.threshold 2000

namespace Velato
open FloatOps (lit)
open F64
open Import

section
variable {F : Type} [FloatOps F] [LawfulCmp F] [Libm F] [Kurbo F] [KurboPaths F]

/-- **C142.** Whatever is drawn of any document, in any arithmetic, comes from one fill or stroke `s` in the shapes `xs`
of a layer or of a group in it, where this layer and all that show it are there at their frame and not hidden.  The
stroke style and the brush are those of `s`, with the opacity factor `al₂` of its place.  What is drawn consists of
the outlines of geometry *before* `s` in `xs`, or in groups there, and the matrix is that of its place (or equal to it in the
sense of `==`).  If there is a trim in the layer, only the matrix and the brush are claimed. -/
theorem C142_sources {doc : Schema.Animation F} {c : Composition F} (h : convAnimation doc = .ok c)
    {r r' : Renderer F} (hr : Reachable r) {frame : F} {T : Affine F} {al : F} {ops : List (Op F)}
    (hops : AppendCalls r c frame T al r' ops) {st : Option (KStroke F)} {T' : Affine F} {b : Brush F}
    {path : List (PathEl F)} (hop : .draw st T' b path ∈ ops) :
    ∃ q frame' T₁ al₁ xs T₂ al₂ pre s post p parts, Reaches doc doc.layers frame T al q frame' T₁ al₁ ∧
      GroupsTo frame' q.shapes T₁ al₁ xs T₂ al₂ ∧ xs = pre ++ s :: post ∧ PaintOf al₂ frame' p s ∧ st = p.stroke ∧
      b = p.finalBrush ∧ parts ≠ [] ∧
      (∀ part ∈ parts, ∃ T'', Supplies frame' pre T₂ T'' part ∧ (T' = T'' ∨ T'.beq T'' = true)) ∧
      (¬ TrimIn q.shapes → path = parts.flatten) := by
  obtain ⟨-, per, hper, rfl⟩ := (C117_calls h hr).mp hops
  have hall := layers_sources (G := fun st T' b path => ∃ q frame' T₁ al₁,
    Reaches doc doc.layers frame T al q frame' T₁ al₁ ∧ FromLayer q frame' T₁ al₁ st T' b path) hper
    (fun q fr' T' al' h st T'' b path h' => ⟨q, fr', T', al', h, h'⟩) fun _ h => h
  simp only [List.mem_append, List.mem_singleton] at hop
  rcases hop with (hop | hop) | hop
  · cases hop
  · obtain ⟨ops, hops, hop⟩ := List.mem_flatten.mp hop
    obtain ⟨q, frame', T₁, al₁, h1, xs, T₂, al₂, pre, s, post, p, parts, h2⟩ :=
      hall ops (List.mem_reverse.mp hops) _ hop _ _ _ _ rfl
    exact ⟨q, frame', T₁, al₁, xs, T₂, al₂, pre, s, post, p, parts, h1, h2⟩
  · cases hop

end

section
variable [Libm F64] [Kurbo F64] [KurboPaths F64]

/-- **C142.** C129 and C132 together, in double precision, for any document with moderate numbers that stretches by at most `s`
in each step and is nested at most `d` deep (up to 40).  Whatever is drawn comes from one fill or stroke `t` in the
shapes `xs`, in `n₂` groups of a layer that is reached through `n₁` layers.  The brush is that of `t`, with its
opacity multiplied by `al`, by those of exactly these layers and groups, and by that of `t` itself, within 2⁻²².
What is drawn consists of outlines of geometry before `t` in `xs` (in further groups there), and puts each of them within
`(d + 1)² · sᵈ⁺¹ · 2⁻²⁶` of where these same layers, their parents, these same groups and the further ones are meant to put it. -/
theorem C142_drawn (hl : AccurateLibm) {doc : Schema.Animation F64} {c : Composition F64}
    (h : convAnimation doc = .ok c) {d : Nat} (hd : doc.Tame d) (hd40 : d ≤ 40) {s : ℝ} (h1 : 1 ≤ s) (h2 : s ≤ 15)
    (hdoc : doc.Stretches s) {r r' : Renderer F64} (hr : Reachable r) {frame : F64} {T : Affine F64}
    (hT : T.Stretches s) {al : F64} (ha : al.Between 0 1) {ops : List (Op F64)}
    (hops : AppendCalls r c frame T al r' ops) {st : Option (KStroke F64)} {T' : Affine F64} {b' : Brush F64}
    {path : List (PathEl F64)} (hop : .draw st T' b' path ∈ ops) :
    ∃ q frame' Q₁ f₁ n₁ xs Q₂ f₂ n₂ pre t post b o parts, MeantLayer doc doc.layers frame q frame' Q₁ f₁ n₁ ∧
      MeantGroups frame' q.shapes xs Q₂ f₂ n₂ ∧ xs = pre ++ t :: post ∧ Declares frame' t b o ∧
      b.FadedBy (1 / 2 ^ 22) (al.toR * (f₁ * f₂) * o) b' ∧ T'.Finite ∧ parts ≠ [] ∧
      (∀ part ∈ parts, ∃ ys Q₃ f₃ n₃ g, MeantGroups frame' pre ys Q₃ f₃ n₃ ∧ g ∈ ys ∧ OutlineAt frame' g part ∧
        n₁ + n₂ + n₃ ≤ d ∧ ∀ p : P2 ℝ, |p.x| ≤ 2 ^ 13 → |p.y| ≤ 2 ^ 13 →
          CloseTo ((d + 1) ^ 2 * s ^ (d + 1) / 2 ^ 26) (T'.toR.apply p) (T.toR.apply (Q₁ (Q₂ (Q₃ p))))) ∧
      (¬ TrimIn q.shapes → path = parts.flatten) := by
  obtain ⟨q, frame', T₁, al₁, xs, T₂, al₂, pre, t, post, p, parts, hq, hx, hxs, hp, -, rfl, hne, hparts, hpath⟩ :=
    C142_sources h hr hops hop
  obtain ⟨Q₁, f₁, n₁, m₁, hq⟩ := hq.both
  obtain ⟨Q₂, f₂, n₂, hx⟩ := hx.both
  obtain ⟨depth, k1, k2⟩ := hd
  have hf : Dims 0 al al.toR := ⟨ha.mono (by norm_num) (by norm_num), by simp⟩
  obtain ⟨-, ht, hdim⟩ := (hq.fade (hx.fade (s := t) (by simp [hxs]))).dims k2 k1 hf (by omega)
  have hlen : m₁ + n₂ ≤ d := ((hq.fade (hx.fade (s := t) (by simp [hxs]))).dims k2 k1 hf (by omega)).1
  obtain ⟨b, o, hb, hk⟩ := hdim.paint (by omega) hp ht
  have key : ∀ part ∈ parts, T'.Finite ∧ ∃ ys Q₃ f₃ n₃ g, MeantGroups frame' pre ys Q₃ f₃ n₃ ∧ g ∈ ys ∧
      OutlineAt frame' g part ∧ n₁ + n₂ + n₃ ≤ d ∧ ∀ p : P2 ℝ, |p.x| ≤ 2 ^ 13 → |p.y| ≤ 2 ^ 13 →
        CloseTo ((d + 1) ^ 2 * s ^ (d + 1) / 2 ^ 26) (T'.toR.apply p) (T.toR.apply (Q₁ (Q₂ (Q₃ p)))) := by
    intro part hpart
    obtain ⟨T'', ⟨al₃, ys, al₄, g, hy, hg, ho⟩, he⟩ := hparts part hpart
    obtain ⟨Q₃, f₃, n₃, hy⟩ := hy.both
    have hi : Into doc doc.layers frame T T'' (Q₁ ∘ (Q₂ ∘ Q₃)) (n₁ + (n₂ + n₃)) := by
      refine hq.into (hx.into ?_)
      refine IntoGroups.mono (ss := pre) ?_ fun x hx => by simp [hxs, hx]
      exact hy.into .here
    have hn := into_length k2 hi k1
    obtain ⟨hfin, hc⟩ := C129_into hl h1 h2 hdoc hT hi (hn.trans hd40)
    obtain ⟨hfin', e⟩ := hfin.of_beq he
    refine ⟨hfin', ys, Q₃, f₃, n₃, g, hy.meant, hg, ho, by omega, fun p hx hy => ?_⟩
    have bound : (((n₁ + (n₂ + n₃) : ℕ) : ℝ) + 1) ^ 2 * s ^ (n₁ + (n₂ + n₃) + 1) / 2 ^ 26 ≤
        (d + 1) ^ 2 * s ^ (d + 1) / 2 ^ 26 := by
      have : ((n₁ + (n₂ + n₃) : ℕ) : ℝ) ≤ d := by exact_mod_cast hn
      have : s ^ (n₁ + (n₂ + n₃) + 1) ≤ s ^ (d + 1) := pow_le_pow_right₀ h1 (by omega)
      gcongr
    rw [e]
    exact ⟨(hc p hx hy).1.trans bound, (hc p hx hy).2.trans bound⟩
  obtain ⟨part, hpart⟩ := List.exists_mem_of_ne_nil _ hne
  refine ⟨q, frame', Q₁, f₁, n₁, xs, Q₂, f₂, n₂, pre, t, post, b, o, parts, hq.meant, hx.meant, hxs, hb, hk,
    (key part hpart).1, hne, fun part hpart => (key part hpart).2, hpath⟩

end
/-! ## The hypotheses can be met -/

/-- The document of C129 can be imported.  Everything drawn of it comes from a fill or stroke behind some geometry, is
put within 0.0004 of its right place, and is as opaque as it is meant to be. -/
example [Libm F64] [Kurbo F64] [KurboPaths F64] (hl : AccurateLibm) : ∃ c, convAnimation exStretchedDoc = .ok c ∧
    ∀ r' frame ops, AppendCalls Renderer.new c frame Affine.identity (lit 1) r' ops → ∀ st T' b' path,
      .draw st T' b' path ∈ ops → ∃ q frame' Q₁ f₁ n₁ xs Q₂ f₂ n₂ pre t post b o ys Q₃ f₃ n₃ g part,
        MeantLayer exStretchedDoc exStretchedDoc.layers frame q frame' Q₁ f₁ n₁ ∧
        MeantGroups frame' q.shapes xs Q₂ f₂ n₂ ∧ xs = pre ++ t :: post ∧ Declares frame' t b o ∧
        b.FadedBy (1 / 2 ^ 22) ((lit 1 : F64).toR * (f₁ * f₂) * o) b' ∧
        MeantGroups frame' pre ys Q₃ f₃ n₃ ∧ g ∈ ys ∧ OutlineAt frame' g part ∧
        ∀ p : P2 ℝ, |p.x| ≤ 2 ^ 13 → |p.y| ≤ 2 ^ 13 →
          CloseTo (4 / 10 ^ 4) (T'.toR.apply p) ((Affine.identity : Affine F64).toR.apply (Q₁ (Q₂ (Q₃ p)))) := by
  obtain ⟨c, hc⟩ : ∃ c, convAnimation exStretchedDoc = .ok c := ⟨_, rfl⟩
  refine ⟨c, hc, fun r' frame ops h st T' b' path hop => ?_⟩
  obtain ⟨q, frame', Q₁, f₁, n₁, xs, Q₂, f₂, n₂, pre, t, post, b, o, parts, k1, k2, k3, k4, k5, -, k7, k8, -⟩ :=
    C142_drawn hl hc exStretchedDoc_tame (by norm_num) (by norm_num) (by norm_num) exStretchedDoc_stretches .new
      stretches_identity (lit_one_between.mono (by norm_num) (le_refl _)) h hop
  obtain ⟨part, hpart⟩ := List.exists_mem_of_ne_nil _ k7
  obtain ⟨ys, Q₃, f₃, n₃, g, m1, m2, m3, -, m5⟩ := k8 part hpart
  refine ⟨q, frame', Q₁, f₁, n₁, xs, Q₂, f₂, n₂, pre, t, post, b, o, ys, Q₃, f₃, n₃, g, part, k1, k2, k3, k4, k5,
    m1, m2, m3, fun p hx hy => ?_⟩
  exact ⟨(m5 p hx hy).1.trans (by norm_num), (m5 p hx hy).2.trans (by norm_num)⟩

/-- A fill, and then the geometry that it does not paint. -/
def exFillFirst : Schema.Animation F64 :=
  { exDoc with layers := [.shape ⟨exVisual "shape" none, [exFillShape, exEllipse]⟩], assets := none }

/-- It can be imported, and nothing is drawn. -/
example [Libm F64] [Kurbo F64] [KurboPaths F64] : ∃ c, convAnimation exFillFirst = .ok c ∧
    ∀ r' frame T al ops, AppendCalls Renderer.new c frame T al r' ops → ∀ st T' b path, .draw st T' b path ∉ ops := by
  obtain ⟨c, hc⟩ : ∃ c, convAnimation exFillFirst = .ok c := ⟨_, rfl⟩
  refine ⟨c, hc, fun r' frame T al ops h st T' b path hop => ?_⟩
  obtain ⟨q, frame', T₁, al₁, xs, T₂, al₂, pre, s, post, p, parts, h1, h2, h3, h4, -, -, h5, h6, -⟩ :=
    C142_sources hc .new h hop
  obtain ⟨part, hpart⟩ := List.exists_mem_of_ne_nil _ h5
  obtain ⟨T'', ⟨_, ys, _, g, h7, h8, -⟩, -⟩ := h6 part hpart
  have e : q.shapes = [exFillShape, exEllipse] := by
    generalize hls : exFillFirst.layers = ls at h1
    cases h1 with
    | here hm =>
      subst hls
      cases List.mem_singleton.mp hm
      rfl
    | «instance» hm =>
      subst hls
      cases List.mem_singleton.mp hm
  rw [e] at h2
  cases h2 with
  | group hm =>
    simp only [List.mem_cons, List.not_mem_nil, or_false] at hm
    rcases hm with hm | hm <;> cases hm
  | here =>
    rcases pre with _ | ⟨x, _ | ⟨y, pre⟩⟩
    · cases h7 with
      | here => cases h8
      | group hm => cases hm
    · cases h3
      exact h4
    · simp at h3

end Velato
