import Verif.Proofs.ChainCalls
import Verif.Props.Tame

/-!
# C129: what is drawn is put in the right place, in double precision
-/

set_option exponentiation.threshold 2000

namespace Velato
open FloatOps (lit)
open F64
open Import

section
variable [Libm F64] [Kurbo F64]

/-- **C129.** Take any list of layers with moderate numbers, which stretch by at most `s` each (by their scales and
skews), and one of the layers, with `k` layers (up to 40) above it in its chain of parents.  In double precision,
the matrix that places this layer at a frame is finite, and puts every point with coordinates up to 8192 within
`(k + 1)² · sᵏ⁺¹ · 2⁻²⁶` of where the layer's transform and then those of its parents are meant to put it. -/
theorem C129_parents (hl : AccurateLibm) {ls : List (Schema.AnyLayer F64)} {s : ℝ} (h1 : 1 ≤ s) (h2 : s ≤ 15)
    (hls : ∀ l ∈ ls, l.visual.transform.Stretches s) {l : Schema.AnyLayer F64} (hm : l ∈ ls) {frame : F64}
    {P : Affine F64} (hP : PlacedAt ls frame l P) {Q : P2 ℝ → P2 ℝ} {k : Nat} (hQ : MeantAt ls frame l Q k)
    (hk : k ≤ 40) : P.Finite ∧ ∀ p : P2 ℝ, |p.x| ≤ 2 ^ 13 → |p.y| ≤ 2 ^ 13 →
      CloseTo ((k + 1) ^ 2 * s ^ (k + 1) / 2 ^ 26) (P.toR.apply p) (Q p) := by
  obtain ⟨t, ht, hc⟩ := multiplied_placed hl h1 h2 hls hm hP hQ hk
  refine ⟨hc.fin, fun p hx hy => ?_⟩
  rw [← ht]
  have := hc.close h1 (by omega) (by omega) hx hy
  push_cast at this
  exact this

/-- **C129.** Every layer that is placed is meant to be put somewhere. -/
theorem C129_meant {ls : List (Schema.AnyLayer F64)} {frame : F64} {l : Schema.AnyLayer F64} {P : Affine F64}
    (hP : PlacedAt ls frame l P) : ∃ Q k, MeantAt ls frame l Q k := placedAt_meant hP

/-- **C129.** In a document whose layers and groups have moderate numbers, and stretch by at most `s` each (by their
scales and skews), follow `n` transforms (up to 40) into layers, their parents, the assets that they show, and groups.  If the
document is placed by a matrix `T` that stretches by at most `s`, then the matrix `T'` that is computed in double
precision on the way is finite, and puts every point with coordinates up to 8192 within
`(n + 1)² · sⁿ⁺¹ · 2⁻²⁶` of where all these transforms, and then `T`, are meant to put it. -/
theorem C129_into (hl : AccurateLibm) {a : Schema.Animation F64} {s : ℝ} (h1 : 1 ≤ s) (h2 : s ≤ 15)
    (ha : a.Stretches s) {frame : F64} {T T' : Affine F64} (hT : T.Stretches s) {Q : P2 ℝ → P2 ℝ} {n : Nat}
    (h : Into a a.layers frame T T' Q n) (hn : n ≤ 40) : T'.Finite ∧
      ∀ p : P2 ℝ, |p.x| ≤ 2 ^ 13 → |p.y| ≤ 2 ^ 13 →
        CloseTo ((n + 1) ^ 2 * s ^ (n + 1) / 2 ^ 26) (T'.toR.apply p) (T.toR.apply (Q p)) := by
  obtain ⟨t, ht, hc⟩ := multiplied_into hl h1 h2 ha.2 h ha.1 (le_refl 1) (by omega) (multiplied_outer h1 hT)
  refine ⟨hc.fin, fun p hx hy => ?_⟩
  rw [← ht]
  rw [add_comm 1 n] at hc
  have := hc.close h1 (by omega) (by omega) hx hy
  push_cast at this
  exact this

variable [KurboPaths F64]

/-- **C129.** The matrices of all calls that draw a document are computed on such ways. -/
theorem C129_ways {doc : Schema.Animation F64} {c : Composition F64} (h : convAnimation doc = .ok c)
    {r r' : Renderer F64} (hr : Reachable r) {frame : F64} {T : Affine F64} {al : F64} {ops : List (Op F64)}
    (hops : AppendCalls r c frame T al r' ops) : ∀ op ∈ ops, ∀ T', op.matrix = some T' →
      ∃ Q n, Into doc doc.layers frame T T' Q n := by
  obtain ⟨-, per, hper, rfl⟩ := (C117_calls h hr).mp hops
  have hall := layers_into (G := fun T' => ∃ Q n, Into doc doc.layers frame T T' Q n) hper
    (fun T' Q n h => ⟨Q, n, h⟩) (fun _ h => h)
  intro op hop T' hT'
  simp only [List.mem_append, List.mem_singleton] at hop
  rcases hop with (rfl | hop) | rfl
  · cases hT'
    exact ⟨_, _, .here⟩
  · obtain ⟨ops, hops, hop⟩ := List.mem_flatten.mp hop
    exact hall ops (List.mem_reverse.mp hops) op hop T' hT'
  · cases hT'

/-- **C129.** So if such a document is nested at most `d` deep (up to 40), then everything that is drawn and every clip
is put within `(d + 1)² · sᵈ⁺¹ · 2⁻²⁶` of its right place. -/
theorem C129_calls (hl : AccurateLibm) {doc : Schema.Animation F64} {c : Composition F64}
    (h : convAnimation doc = .ok c) {d : Nat} (hd : doc.Tame d) (hd40 : d ≤ 40) {s : ℝ} (h1 : 1 ≤ s) (h2 : s ≤ 15)
    (hdoc : doc.Stretches s) {r r' : Renderer F64} (hr : Reachable r) {frame : F64} {T : Affine F64}
    (hT : T.Stretches s) {al : F64} {ops : List (Op F64)} (hops : AppendCalls r c frame T al r' ops) :
    ∀ op ∈ ops, ∀ T', op.matrix = some T' → ∃ Q n, Into doc doc.layers frame T T' Q n ∧ n ≤ d ∧ T'.Finite ∧
      ∀ p : P2 ℝ, |p.x| ≤ 2 ^ 13 → |p.y| ≤ 2 ^ 13 →
        CloseTo ((d + 1) ^ 2 * s ^ (d + 1) / 2 ^ 26) (T'.toR.apply p) (T.toR.apply (Q p)) := by
  intro op hop T' hT'
  obtain ⟨Q, n, hi⟩ := C129_ways h hr hops op hop T' hT'
  obtain ⟨depth, k1, k2⟩ := hd
  have hn := into_length k2 hi k1
  obtain ⟨hf, hc⟩ := C129_into hl h1 h2 hdoc hT hi (hn.trans hd40)
  refine ⟨Q, n, hi, hn, hf, fun p hx hy => ?_⟩
  have key : ((n : ℝ) + 1) ^ 2 * s ^ (n + 1) / 2 ^ 26 ≤ (d + 1) ^ 2 * s ^ (d + 1) / 2 ^ 26 := by
    have : (n : ℝ) ≤ d := by exact_mod_cast hn
    have : s ^ (n + 1) ≤ s ^ (d + 1) := pow_le_pow_right₀ h1 (by omega)
    gcongr
  exact ⟨(hc p hx hy).1.trans key, (hc p hx hy).2.trans key⟩

end

/-! ## The hypotheses can be met -/

/-- The moving and turning layer transform of C115: 250 per cent, skewed by 30 degrees. -/
theorem exModerate_stretches : exModerate.Stretches 6 := by
  refine ⟨exModerate_moderate, 5 / 2, 30, by norm_num, by norm_num, by norm_num, ?_, ?_⟩
  · intro p hp; cases hp
    have k : (lit 250 : F64).Between (-(100 * (5 / 2))) (100 * (5 / 2)) :=
      (lit_between (q := 250) (n := 250) (by norm_num) (by norm_num)).mono (by norm_num) (by norm_num)
    exact ⟨_, _, _, rfl, k, k⟩
  · intro p hp; cases hp
    exact (lit_between (q := 30) (n := 30) (by norm_num) (by norm_num)).mono (by norm_num) (by norm_num)

/-- A moving and turning null layer, a shape layer of which it is the parent, and a precomposition. -/
def exStretchedDoc : Schema.Animation F64 :=
  { exDoc with
    layers :=
      [.null { exVisual "parent" (some 1) with transform := exModerate },
       (let v := exVisual "child" (some 2)
        exShapeDoc { v with layer := { v.layer with parentIndex := some 1 }, transform := exModerate }),
       .precomposition ⟨{ exVisual "instance" (some 5) with transform := exModerate }, "b", lit 20, lit 30, lit 4,
        none⟩]
    assets := some
      [.precomposition ⟨⟨"b", ⟨none, none⟩⟩, [exShapeDoc { exVisual "z" none with transform := exModerate }], none,
        none⟩] }

theorem exShapeDoc_groups {v : Schema.VisualLayer F64} : ∀ q, exShapeDoc v = .shape q → ∀ t, ¬ GroupIn q.shapes t := by
  intro q hq t ht
  cases hq
  have key : ∀ {ss : List (Schema.AnyShape F64)}, GroupIn ss t →
      ss ≠ [.group exElement none [exEllipse, exFillShape] none] := by
    intro ss h
    induction h with
    | here h ht =>
      rintro rfl
      cases List.mem_singleton.mp h
      cases ht
    | inner h ht ih =>
      rintro rfl
      cases List.mem_singleton.mp h
      cases ht with
      | here h _ =>
        simp only [List.mem_cons, List.not_mem_nil, or_false] at h
        rcases h with h | h <;> cases h
      | inner h _ =>
        simp only [List.mem_cons, List.not_mem_nil, or_false] at h
        rcases h with h | h <;> cases h
  exact key ht rfl

theorem exStretchedDoc_stretches : exStretchedDoc.Stretches 6 := by
  refine ⟨?_, ?_⟩
  · intro l hl
    rcases List.mem_cons.mp hl with rfl | hl
    · exact ⟨exModerate_stretches, fun q hq => by cases hq⟩
    rcases List.mem_cons.mp hl with rfl | hl
    · exact ⟨exModerate_stretches, fun q hq t ht => absurd ht (exShapeDoc_groups q hq t)⟩
    cases List.mem_singleton.mp hl
    exact ⟨exModerate_stretches, fun q hq => by cases hq⟩
  · intro p hp
    cases List.mem_singleton.mp hp
    intro l hl
    cases List.mem_singleton.mp hl
    exact ⟨exModerate_stretches, fun q hq t ht => absurd ht (exShapeDoc_groups q hq t)⟩

theorem stretches_identity : (Affine.identity : Affine F64).Stretches 6 := by
  have z : (lit 0 : F64).toR = 0 := by simpa [sub_eq_zero] using near_lit0.err
  have o : (lit 1 : F64).toR = 1 := by simpa [sub_eq_zero] using near_lit1.err
  refine ⟨placement_identity.finite, ?_, ?_, ?_⟩
  · intro x y
    simp only [Affine.identity, z, o]
    nlinarith [sq_nonneg x, sq_nonneg y]
  · simp [Affine.identity, z]
  · simp [Affine.identity, z]

theorem exModerate_layer {v : Schema.VisualLayer F64} (hv : v.transform = exModerate)
    {ls : List (Schema.AnyLayer F64)} {k n : Nat} (hk : ParentsAtMost ls k (exShapeDoc v)) (hn : k + 2 ≤ n) :
    (exShapeDoc v).visual.transform.Tame ∧
    ∃ k, ParentsAtMost ls k (exShapeDoc v) ∧ k + 1 ≤ n ∧
    (∀ q, exShapeDoc v = .shape q → ∃ g, ShapesTame g q.shapes ∧ k + 1 + g ≤ n) ∧
    ∀ q, exShapeDoc v = .precomposition q → k + 1 + 2 ≤ n := by
  refine ⟨(show v.transform.Tame by rw [hv]; exact exModerate_tame), k, hk, by omega, ?_, ?_⟩
  · intro q hq
    cases hq
    exact ⟨1, exFillShape_tame, by omega⟩
  · intro q hq
    cases hq

theorem exStretchedDoc_tame : exStretchedDoc.Tame 3 := by
  refine ⟨fun _ => 2, ?_, ?_⟩
  · intro l hl
    rcases List.mem_cons.mp hl with rfl | hl
    · refine ⟨exModerate_tame, 0, ?_, by norm_num, ?_, ?_⟩
      · intro id j h
        cases h
      · intro q hq
        cases hq
      · intro q hq
        cases hq
    rcases List.mem_cons.mp hl with rfl | hl
    · refine exModerate_layer rfl (k := 1) ?_ (by norm_num)
      intro id j p hid hj hp id' j' hid'
      cases hid
      rcases j with _ | _ | _ | j
      · cases hp
        cases hid'
      · exact absurd hj.1 (by decide)
      · exact absurd hj.1 (by decide)
      · cases hp
    cases List.mem_singleton.mp hl
    refine ⟨exModerate_tame, 0, ?_, by norm_num, ?_, ?_⟩
    · intro id j h
      cases h
    · intro q hq
      cases hq
    · intro q hq
      norm_num
  · intro p hp
    cases List.mem_singleton.mp hp
    intro l hl
    cases List.mem_singleton.mp hl
    refine exModerate_layer rfl (k := 0) ?_ (by norm_num)
    intro id j h
    cases h

/-- It can be imported, and everything is put within `16 · 6⁴ / 2²⁶`, less than 0.0004, of its right place. -/
example [Libm F64] [Kurbo F64] [KurboPaths F64] (hl : AccurateLibm) : ∃ c, convAnimation exStretchedDoc = .ok c ∧
    ∀ r' frame ops, AppendCalls Renderer.new c frame Affine.identity (lit 1) r' ops → ∀ op ∈ ops, ∀ T',
      op.matrix = some T' → ∃ Q n, Into exStretchedDoc exStretchedDoc.layers frame Affine.identity T' Q n ∧ n ≤ 3 ∧
        T'.Finite ∧ ∀ p : P2 ℝ, |p.x| ≤ 2 ^ 13 → |p.y| ≤ 2 ^ 13 →
          CloseTo (4 / 10 ^ 4) (T'.toR.apply p) ((Affine.identity : Affine F64).toR.apply (Q p)) := by
  obtain ⟨c, hc⟩ : ∃ c, convAnimation exStretchedDoc = .ok c := ⟨_, rfl⟩
  refine ⟨c, hc, fun r' frame ops h op hop T' hT' => ?_⟩
  obtain ⟨Q, n, hi, hn, hf, hcl⟩ := C129_calls hl hc exStretchedDoc_tame (by norm_num) (by norm_num) (by norm_num)
    exStretchedDoc_stretches .new stretches_identity h op hop T' hT'
  refine ⟨Q, n, hi, hn, hf, fun p hx hy => ?_⟩
  exact ⟨(hcl p hx hy).1.trans (by norm_num), (hcl p hx hy).2.trans (by norm_num)⟩

/-- The child: its own transform and that of its parent. -/
example [Libm F64] [Kurbo F64] (frame : F64) : ∃ l ∈ exStretchedDoc.layers, ∃ P Q,
    PlacedAt exStretchedDoc.layers frame l P ∧ MeantAt exStretchedDoc.layers frame l Q 1 := by
  obtain ⟨t, o, ht⟩ : ∃ t o, convTransform exModerate = .ok (t, o) := ⟨_, _, rfl⟩
  have hM : ∀ l : Schema.AnyLayer F64, l.visual.transform = exModerate →
      LayerAt frame l (t.evaluate frame) (o.evaluate frame) := fun l e => ⟨t, o, e ▸ ht, rfl, rfl⟩
  obtain ⟨q, hq⟩ := layerAt_means (hM _ (by rfl : (Schema.AnyLayer.null
    { exVisual "parent" (some 1) with transform := exModerate }).visual.transform = _))
  have h1 : LastPosition (exStretchedDoc.layers.map Schema.AnyLayer.ident) 1 (some 0) := by
    refine ⟨by rfl, ?_⟩
    intro j hj
    rcases j with _ | _ | _ | j
    · omega
    · decide
    · decide
    · simp [exStretchedDoc]
  refine ⟨_, List.mem_cons_of_mem _ List.mem_cons_self, _, _, ⟨_, _, hM _ rfl, .child (n := 2) rfl h1 rfl (hM _ rfl)
    (.root rfl)⟩, q, hq, .child (n := 2) rfl h1 rfl hq (.root rfl)⟩

end Velato
