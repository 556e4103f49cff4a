import Verif.Proofs.Overlay
import Verif.Props.Player

/-!
# C109 — overlays of the picking scene; C110 — text
-/

namespace Velato
open FloatOps (lit)

/-! ## C109 -/

section
variable [Libm ℝ] [Kurbo ℝ] [KurboBox ℝ]

/-- **C109.** The overlays are drawn without a panic.  Each hit is covered with its rectangle.  The layer under
the cursor, and no other, has a thick outline and a large label; the others have a thin outline and a small
label.  Beside the cursor there is a text with the name of that layer, if there is one. -/
theorem C109_overlays {n : Nat} {r r' : Renderer ℝ} (hr : Reachable r) {c : Composition ℝ} {t : ℝ}
    {cursor viewport : Option (P2 ℝ)} {camera : Affine ℝ} {out : List (SceneOp ℝ)}
    {hits : List (LayerHit ℝ)} {hovered : Option Nat}
    (h : pickingFrame n r c t cursor viewport camera = .ok (r', out, hits, hovered)) :
    ∃ ops, pickingOverlays c cursor viewport camera hits hovered = .ok ops ∧
      let found := (hovered.bind fun i => hits[i]?).toList
      let others := (hits.zipIdx.filter fun p => decide (hovered ≠ some p.2)).map (·.1)
      ops.filterMap OverlayOp.filled? = hits.zipIdx.map (fun p =>
        (if hovered = some p.2 then ⟨1, 1, 1, 0.15⟩ else ⟨0.5, 0.5, 0.5, 0.08⟩, p.1.rect)) ∧
      ops.filterMap (OverlayOp.outline? 3) = found.map (fun h => (⟨1, 1, 1, 0.9⟩, h.rect)) ∧
      ops.filterMap (OverlayOp.outline? 1) = others.map (fun h => (⟨0.5, 0.5, 0.5, 0.3⟩, h.rect)) ∧
      ops.filterMap (OverlayOp.label? 16) =
        found.map (fun h => (⟨1, 1, 1, 1⟩, h.name, h.rect.x0 + 4, h.rect.y0 + 18)) ∧
      ops.filterMap (OverlayOp.label? 12) =
        others.map (fun h => (⟨1, 1, 1, 0.5⟩, h.name, h.rect.x0 + 4, h.rect.y0 + 14)) ∧
      ∀ cu vp, cursor = some cu → viewport = some vp →
        ops.filterMap (OverlayOp.label? 20) = found.map fun h =>
          let p := cursorToScene cu vp ⟨c.width, c.height⟩ camera
          (⟨1, 1, 1, 1⟩, "-> " ++ h.name, p.x + 16, p.y - 8) := by
  have hin : ∀ i, hovered = some i → i < hits.length ∧ cursor.isSome = true ∧ viewport.isSome = true := by
    intro i hi
    subst hi
    exact C91_in_range hr h
  obtain ⟨tip, hops, htip, htip'⟩ : ∃ tip : List (OverlayOp ℝ),
      pickingOverlays c cursor viewport camera hits hovered
        = .ok ((hits.zipIdx.flatMap fun p => hitOverlay hovered p.2 p.1) ++ tip) ∧
      (∀ op ∈ tip, ∃ color T t, op = .text 20 color T t) ∧
      ∀ cu vp, cursor = some cu → viewport = some vp →
        tip.filterMap (OverlayOp.label? 20) = (hovered.bind fun i => hits[i]?).toList.map fun h =>
          let p := cursorToScene cu vp ⟨c.width, c.height⟩ camera
          (⟨1, 1, 1, 1⟩, "-> " ++ h.name, p.x + 16, p.y - 8) := by
    cases hovered with
    | none =>
      refine ⟨[], ?_, by simp, by simp⟩
      rw [List.append_nil]
      unfold pickingOverlays overlays
      rfl
    | some i =>
      obtain ⟨hi, hc, hv⟩ := hin i rfl
      obtain ⟨cu, rfl⟩ := Option.isSome_iff_exists.mp hc
      obtain ⟨vp, rfl⟩ := Option.isSome_iff_exists.mp hv
      refine ⟨[.text (lit 20) hoverText (Affine.translate
        ⟨(cursorToScene cu vp ⟨c.width, c.height⟩ camera).x + lit 16,
          (cursorToScene cu vp ⟨c.width, c.height⟩ camera).y - lit 8⟩) ("-> " ++ hits[i].name)], ?_, ?_, ?_⟩
      · unfold pickingOverlays overlays
        simp only [List.getElem?_eq_getElem hi]
        rfl
      · intro op hop
        rw [List.mem_singleton] at hop
        exact ⟨_, _, _, hop.trans (by rw [show (lit 20 : ℝ) = 20 by simp])⟩
      · rintro _ _ ⟨⟩ ⟨⟩
        simp [OverlayOp.label?, hoverText, Affine.translate, List.getElem?_eq_getElem hi]
  have hnil : ∀ {α : Type} (g : OverlayOp ℝ → Option α), (∀ color T t, g (.text 20 color T t) = none) →
      tip.filterMap g = [] := by
    intro α g hg
    rw [List.filterMap_eq_nil_iff]
    intro op hop
    obtain ⟨_, _, _, rfl⟩ := htip op hop
    exact hg _ _ _
  refine ⟨_, hops, ?_, ?_, ?_, ?_, ?_, ?_⟩
  · rw [List.filterMap_append, hnil _ (fun _ _ _ => rfl), List.append_nil,
      boxes_all hits (fun h => (⟨1, 1, 1, 0.15⟩, h.rect)) (fun h => (⟨0.5, 0.5, 0.5, 0.08⟩, h.rect))]
    · refine List.map_congr_left fun p _ => ?_
      split_ifs <;> rfl
    · intro i h
      by_cases hi : hovered = some i <;>
        simp [hitOverlay, List.filterMap_cons, OverlayOp.filled?, hi, hoverFill, dimFill] <;> norm_num
  · rw [List.filterMap_append, hnil _ (fun _ _ _ => rfl), List.append_nil]
    refine boxes_hovered hits _ ?_
    intro i h
    by_cases hi : hovered = some i <;>
      simp [hitOverlay, List.filterMap_cons, OverlayOp.outline?, hi, hoverStroke, dimStroke]
    norm_num
  · rw [List.filterMap_append, hnil _ (fun _ _ _ => rfl), List.append_nil]
    refine boxes_others hits _ ?_
    intro i h
    by_cases hi : hovered = some i <;>
      simp [hitOverlay, List.filterMap_cons, OverlayOp.outline?, hi, hoverStroke, dimStroke]
    norm_num
  · rw [List.filterMap_append, hnil _ (fun _ _ _ => if_neg (by norm_num)), List.append_nil]
    refine boxes_hovered hits _ ?_
    intro i h
    by_cases hi : hovered = some i <;>
      simp [hitOverlay, List.filterMap_cons, OverlayOp.label?, hi, hoverText, dimText, Affine.translate, add_assoc]
    norm_num
  · rw [List.filterMap_append, hnil _ (fun _ _ _ => if_neg (by norm_num)), List.append_nil]
    refine boxes_others hits _ ?_
    intro i h
    by_cases hi : hovered = some i <;>
      simp [hitOverlay, List.filterMap_cons, OverlayOp.label?, hi, hoverText, dimText, Affine.translate, add_assoc]
    norm_num
  · intro cu vp hcu hvp
    rw [List.filterMap_append, htip' cu vp hcu hvp, filterMap_boxes (a := fun h => []) (b := fun h => [])]
    · simp
    · intro i h
      by_cases hi : hovered = some i <;> simp [hitOverlay, List.filterMap_cons, OverlayOp.label?, hi]

end

section
variable [Libm F64] [Kurbo F64]

/-- A frame of three layers with the cursor over the last one: three rectangles, one of them with a thick
outline, three labels and the text beside the cursor. -/
example : letI := exBoxes
    ((pickingFrame (F := F64) 5 Renderer.new exComp (lit (4 / 100)) (some ⟨lit 7, lit 2⟩)
      (some ⟨lit 200, lit 100⟩) Affine.identity).toOption.bind fun x =>
        (pickingOverlays exComp (some ⟨lit 7, lit 2⟩) (some ⟨lit 200, lit 100⟩) Affine.identity
          x.2.2.1 x.2.2.2).toOption.map fun ops =>
            (ops.length, (ops.filterMap (OverlayOp.outline? (lit 3))).length,
              (ops.filterMap (OverlayOp.label? (lit 20))).map (·.2.1)))
      = some (10, 1, ["-> i"]) := by
  kernel_decide

end

/-! ## C110 -/

/-- **C110.** Text is laid out line by line: each glyph stands where the glyphs before it in its line end, each
line one line height below the previous one (exact arithmetic). -/
theorem C110_layout (advance : Char → ℝ) (lineHeight : ℝ) (lines : List (List Char)) (h0 : lines ≠ [])
    (h : ∀ l ∈ lines, '\n' ∉ l) :
    textGlyphs advance lineHeight (['\n'].intercalate lines) =
      lines.zipIdx.flatMap fun q => q.1.zipIdx.map fun p =>
        (p.1, ⟨((q.1.take p.2).map advance).sum, q.2 * lineHeight⟩) := by
  have key : ∀ (lines : List (List Char)) (k : Nat) (y : ℝ), lines ≠ [] → (∀ l ∈ lines, '\n' ∉ l) →
      y = k * lineHeight →
      layoutGlyphs advance lineHeight (['\n'].intercalate lines) 0 y =
        (lines.zipIdx k).flatMap fun q => q.1.zipIdx.map fun p =>
          (p.1, ⟨((q.1.take p.2).map advance).sum, q.2 * lineHeight⟩) := by
    intro lines
    induction lines with
    | nil => exact fun k y h => absurd rfl h
    | cons l lines ih =>
      intro k y _ hl hy
      cases lines with
      | nil =>
        have := layout_line advance lineHeight l [] (hl l (by simp)) 0 y
        rw [List.append_nil] at this
        rw [show ['\n'].intercalate [l] = l by simp [List.intercalate], this]
        simp [layoutGlyphs, hy]
      | cons l' lines =>
        rw [show ['\n'].intercalate (l :: l' :: lines) = l ++ ('\n' :: ['\n'].intercalate (l' :: lines)) by
            simp [List.intercalate],
          layout_line advance lineHeight l _ (hl l (by simp)) 0 y, List.zipIdx_cons, List.flatMap_cons]
        congr 1
        · simp only [zero_add, hy]
        · unfold layoutGlyphs
          rw [if_pos rfl]
          simp only [real_add, real_toF32, real_lit]
          rw [Rat.cast_zero, ih (k + 1) (y + lineHeight) (by simp) (fun l hl' => hl l (by simp [hl']))
            (by rw [hy]; push_cast; ring)]
  simpa [textGlyphs] using key lines 0 0 h0 h (by simp)

/-- Every text is of this form. -/
example : "ab\nc".toList = ['\n'].intercalate ["ab".toList, "c".toList] := by decide

end Velato
