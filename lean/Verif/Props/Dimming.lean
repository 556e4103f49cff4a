import Verif.Proofs.Dimming
import Verif.Props.Chain

/-!
# C132: everything is drawn with the right opacity
-/

set_option exponentiation.threshold 2000

namespace Velato
open FloatOps (lit)
open F64
open Import

section
variable [Libm F64] [Kurbo F64] [KurboPaths F64]

/-- **C132.** Take any document with moderate numbers in which at most `d` layers and groups (up to 40) are one in the
other, and append it at any frame, with any matrix and an opacity `al` between 0 and 1.  Whatever is drawn is drawn
with the brush that one of the fills or strokes of the document has at its frame.  Its opacity is multiplied by `al`,
by the opacity of the fill or stroke, and by the opacities of exactly the layers and groups in which it is.  The
error is at most 2⁻²² — the rounding to single precision included. -/
theorem C132_calls {doc : Schema.Animation F64} {c : Composition F64} (h : convAnimation doc = .ok c) {d : Nat}
    (hd : doc.Tame d) (hn : d ≤ 40) {r r' : Renderer F64} (hr : Reachable r) {frame : F64} {T : Affine F64} {al : F64}
    (ha : al.Between 0 1) {ops : List (Op F64)} (hops : AppendCalls r c frame T al r' ops) {st : Option (KStroke F64)}
    {T' : Affine F64} {b' : Brush F64} {path : List (PathEl F64)} (hop : .draw st T' b' path ∈ ops) :
    ∃ s frame' f n b o, FadedIn doc doc.layers frame frame' s f n ∧ n ≤ d ∧ Declares frame' s b o ∧
      b.FadedBy (1 / 2 ^ 22) (al.toR * f * o) b' := by
  obtain ⟨-, per, hper, rfl⟩ := (C117_calls h hr).mp hops
  obtain ⟨depth, h1, h2⟩ := hd
  have hf : Dims 0 al al.toR := ⟨ha.mono (by norm_num) (by norm_num), by simp⟩
  have hall := layers_fade (G := fun b' => ∃ s frame' f n b o, FadedIn doc doc.layers frame frame' s f n ∧ n ≤ d ∧
    Declares frame' s b o ∧ b.FadedBy (1 / 2 ^ 22) (al.toR * f * o) b') hper (fun fr' s al' f n p hs hp => by
      obtain ⟨hnd, ht, hdim⟩ := hs.dims h2 h1 hf (by omega)
      obtain ⟨b, o, hb, hk⟩ := hdim.paint (by omega) hp ht
      exact ⟨s, fr', f, n, b, o, hs.meant, hnd, hb, hk⟩) fun _ h => h
  simp only [List.mem_append, List.mem_singleton] at hop
  rcases hop with (hop | hop) | hop
  · cases hop
  · obtain ⟨ops, hops, hop⟩ := List.mem_flatten.mp hop
    exact hall ops (List.mem_reverse.mp hops) _ hop _ _ _ _ rfl
  · cases hop

end

/-! ## The hypotheses can be met -/

/-- A half transparent layer, in which an ellipse is filled half transparently. -/
def exFadedDoc : Schema.Animation F64 :=
  { exDoc with
    layers := [exShapeDoc { exVisual "shape" none with
      transform := { exModerate with opacity := some (exStatic (lit 50)) } }]
    assets := none }

theorem exFadedDoc_tame : exFadedDoc.Tame 2 := by
  refine ⟨fun _ => 0, ?_, ?_⟩
  · intro l hl
    cases List.mem_singleton.mp hl
    refine ⟨⟨have m := exModerate_moderate; ⟨m.1, m.2, m.3, m.4, m.5, m.6, m.7⟩, ?_⟩, 0, ?_, by norm_num, ?_, ?_⟩
    · intro p hp
      cases hp
      have := lit_between (q := 50) (n := 100) (by norm_num) (by norm_num)
      exact this.mono (le_refl _) (by norm_num)
    · intro id j h
      cases h
    · intro q hq
      cases hq
      exact ⟨1, exFillShape_tame, by norm_num⟩
    · intro q hq
      cases hq
  · intro p hp
    cases hp

/-- It can be imported, and then everything is painted in red with an opacity close to a quarter. -/
example [Libm F64] [Kurbo F64] [KurboPaths F64] : ∃ c, convAnimation exFadedDoc = .ok c ∧
    ∀ r' frame T ops, AppendCalls Renderer.new c frame T (lit 1) r' ops → ∀ st T' b' path, .draw st T' b' path ∈ ops →
      ∃ color, b' = .solid color ∧ |color.a.toR - 1 / 4| ≤ 1 / 2 ^ 22 := by
  obtain ⟨c, hc⟩ : ∃ c, convAnimation exFadedDoc = .ok c := ⟨_, rfl⟩
  refine ⟨c, hc, fun r' frame T ops h st T' b' path hop => ?_⟩
  obtain ⟨s, frame', f, n, b, o, hs, -, hb, hk⟩ := C132_calls hc exFadedDoc_tame (by norm_num) .new
    (lit_one_between.mono (by norm_num) (le_refl _)) h hop
  have h50 : ((lit 50 : F64).toR) = 50 := by
    have := near_lit (q := 50) (n := 50) (by norm_num) rfl
    have := abs_nonpos_iff.mp this.err
    push_cast at this
    linarith
  have h1e : (lit 1 : F64).toR = 1 := le_antisymm lit_one_between.2.2 lit_one_between.2.1
  generalize hls : exFadedDoc.layers = ls at hs
  cases hs with
  | shape h1 hk1 h2 =>
    subst hls
    cases List.mem_singleton.mp h1
    obtain ⟨o1, ho1, rfl⟩ := hk1
    cases h2 with
    | here h3 =>
      cases List.mem_singleton.mp h3
      cases hb
    | group h3 hk3 h4 =>
      cases List.mem_singleton.mp h3
      cases hk3
      cases h4 with
      | here h5 =>
        rcases List.mem_cons.mp h5 with rfl | h5
        · cases hb
        cases List.mem_singleton.mp h5
        cases hb with
        | fill ho =>
          obtain ⟨v1, hv1, rfl⟩ := ho1
          cases hv1
          obtain ⟨v2, hv2, rfl⟩ := ho
          cases hv2
          cases b' with
          | gradient g stops => cases hk
          | solid color =>
            refine ⟨color, rfl, ?_⟩
            have e := hk.2.2.2.2
            change |color.a.toR - (lit 1 : F64).toR * ((lit 1 : F64).toR * ((lit 50 : F64).toR / 100 * (1 * 1)) *
              ((lit 50 : F64).toR / 100))| ≤ _ at e
            rw [h1e, h50] at e
            norm_num at e ⊢
            exact e
      | group h5 _ _ =>
        rcases List.mem_cons.mp h5 with h5 | h5
        · cases h5
        · cases List.mem_singleton.mp h5
  | «instance» h1 _ _ _ _ =>
    subst hls
    cases List.mem_singleton.mp h1

end Velato
