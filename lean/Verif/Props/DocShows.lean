import Verif.Proofs.DocShows
import Verif.Props.DocDraws

/-!
# C119 — what is seen is what the document says
-/

namespace Velato
open FloatOps (lit)
open Import

section
variable [Kurbo ℝ] [KurboPaths ℝ]

/-- **C119.** The calls of rendering an imported document at a frame put a pixel `q`
onto whatever there is if and only if `q` is what the document shows at this pixel. -/
theorem C119_shown {doc : Schema.Animation ℝ} {c : Composition ℝ} (h : convAnimation doc = .ok c)
    {r r' : Renderer ℝ} (hr : Reachable r) {frame : ℝ} {T : Affine ℝ}
    {a : ℝ} {ops : List (Op ℝ)} (hops : AppendCalls r c frame T a r' ops) (R : Rasteriser) (q : Pixel) :
    (∀ d, R.picture ops d = q.over d) ↔ DocumentShown R doc T a frame q := by
  have hd := ((C117_calls h hr).mp hops).2
  constructor
  · intro hq
    obtain ⟨q', hq', hp⟩ := document_shown (R := R) hd
    have := hp.clear
    rw [hq, Pixel.over_clear] at this
    exact this ▸ hq'
  · intro hq d
    obtain ⟨ops', hd', hp⟩ := document_drawn hq
    rw [C117_unique h hd hd']
    exact hp.picture d

/-- **C119.** Any document that is imported and shows `q` at a pixel: rendering it shows `q` there. -/
theorem C119_seen {doc : Schema.Animation ℝ} {c : Composition ℝ} (h : convAnimation doc = .ok c)
    {r : Renderer ℝ} (hr : Reachable r) {frame : ℝ} {T : Affine ℝ} {a : ℝ} {R : Rasteriser} {q : Pixel}
    (hq : DocumentShown R doc T a frame q) :
    ∃ ops, AppendCalls r c frame T a Renderer.new ops ∧ ∀ d, R.picture ops d = q.over d := by
  obtain ⟨ops, hd, hp⟩ := document_drawn hq
  exact ⟨ops, C117_drawn h hr hd, hp.picture⟩

/-- **C119.** A document that can be imported shows at most one thing at a pixel. -/
theorem C119_unique {doc : Schema.Animation ℝ} {c : Composition ℝ} (h : convAnimation doc = .ok c)
    {frame : ℝ} {T : Affine ℝ} {a : ℝ} {R : Rasteriser} {q q' : Pixel}
    (hq : DocumentShown R doc T a frame q) (hq' : DocumentShown R doc T a frame q') : q = q' := by
  obtain ⟨ops, hd, hp⟩ := document_drawn hq
  obtain ⟨ops', hd', hp'⟩ := document_drawn hq'
  cases C117_unique h hd hd'
  exact hp.clear.symm.trans hp'.clear

omit [KurboPaths ℝ] in
/-- The small document of C117 shows red with an opacity of 1/4 at a pixel inside of everything. -/
theorem exSmallDoc_shown : DocumentShown exInside exSmallDoc Affine.identity 1 3 ⟨1 / 4, 0, 0, 1 / 4⟩ := by
  obtain ⟨q, hq, hp⟩ := document_shown (R := exInside) exSmallDoc_drawn
  have := hp.clear
  rw [← this] at hq
  convert hq using 1
  norm_num [Rasteriser.picture, Rasteriser.run, Rasteriser.step, exInside, Pixel.over, Pixel.scale,
    Pixel.ofColor, Pixel.clear, Rasteriser.compose, BlendMode.ofMix]

/-- The hypotheses of `C119_seen` are met, and what it says over white. -/
example : ∃ c ops, convAnimation exSmallDoc = .ok c ∧
    AppendCalls Renderer.new c 3 Affine.identity 1 Renderer.new ops ∧
    exInside.picture ops ⟨1, 1, 1, 1⟩ = ⟨1, 3 / 4, 3 / 4, 1⟩ := by
  obtain ⟨ops, h1, h2⟩ := C119_seen (doc := exSmallDoc) rfl .new exSmallDoc_shown
  refine ⟨_, ops, rfl, h1, ?_⟩
  rw [h2]
  norm_num [Pixel.over]

end
end Velato
