import Verif.Proofs.PlayerFrame
import Verif.Spec.Player
import Verif.Spec.Examples
import Verif.Spec.Transforms

/-!
# C88 – C92 — playing a composition, picking the layer under the cursor
-/

namespace Velato
open FloatOps (lit)

/-! ## C88 -/

/-- **C88**, in exact arithmetic: the frame is in the range of the composition (so not the end of it) and is
the start plus the elapsed frames, up to whole passes. -/
theorem C88_loops {c : Composition ℝ} {t : ℝ} (hd : c.frames.start < c.frames.stop)
    (hr : 0 ≤ c.frameRate) (ht : 0 ≤ t) :
    c.frames.start ≤ playFrame c t ∧ playFrame c t < c.frames.stop ∧
      ∃ passes : ℕ, playFrame c t + passes * (c.frames.stop - c.frames.start)
        = c.frames.start + t * c.frameRate := by
  obtain ⟨h0, h1, n, hn⟩ := real_rem (mul_nonneg ht hr) (sub_pos.mpr hd)
  unfold playFrame
  simp only [real_add, real_mul, real_sub]
  exact ⟨by linarith, by linarith, n, by linarith⟩

/-- During the first pass the frame grows with time. -/
theorem C88_first_pass {c : Composition ℝ} {t : ℝ} (hr : 0 ≤ c.frameRate) (ht : 0 ≤ t)
    (h : t * c.frameRate < c.frames.stop - c.frames.start) :
    playFrame c t = c.frames.start + t * c.frameRate := by
  have h' := mul_nonneg ht hr
  obtain ⟨h0, h1, n, hn⟩ := real_rem h' (h'.trans_lt h)
  have := rem_unique (m := n) (n := 0) h0 h1 h' h (by push_cast; linarith)
  unfold playFrame
  simp only [real_add, real_mul, real_sub]
  rw [this]; ring

/-- A whole number of passes later, the same frame is shown. -/
theorem C88_repeats {c : Composition ℝ} {t : ℝ} (hd : c.frames.start < c.frames.stop)
    (hr : 0 < c.frameRate) (ht : 0 ≤ t) (k : ℕ) :
    playFrame c (t + k * ((c.frames.stop - c.frames.start) / c.frameRate)) = playFrame c t := by
  have hd' := sub_pos.mpr hd
  have ht' : 0 ≤ t + k * ((c.frames.stop - c.frames.start) / c.frameRate) := by positivity
  obtain ⟨h0, h1, n, hn⟩ := real_rem (mul_nonneg ht hr.le) hd'
  obtain ⟨k0, k1, m, hm⟩ := real_rem (mul_nonneg ht' hr.le) hd'
  have e : (t + k * ((c.frames.stop - c.frames.start) / c.frameRate)) * c.frameRate
      = t * c.frameRate + k * (c.frames.stop - c.frames.start) := by field_simp
  have := rem_unique (m := m) (n := n + k) k0 k1 h0 h1 (by push_cast; rw [hm, e]; linarith)
  unfold playFrame
  simp only [real_add, real_mul, real_sub]
  rw [this]

/-- Frames 10 to 20 at 25 frames a second: after a second the frame is 15, in the third pass. -/
example : playFrame (F := ℝ) { (exComp : Composition ℝ) with frames := ⟨10, 20⟩ } 1 = 15 := by
  have h := C88_repeats (c := { (exComp : Composition ℝ) with frames := ⟨10, 20⟩ }) (t := 1 / 5)
    (by norm_num) (by norm_num [exComp]) (by norm_num) 2
  have h' := C88_first_pass (c := { (exComp : Composition ℝ) with frames := ⟨10, 20⟩ }) (t := 1 / 5)
    (by norm_num [exComp]) (by norm_num) (by norm_num [exComp])
  rw [h'] at h
  norm_num [exComp] at h
  exact h

/-- **C88 in IEEE arithmetic**, for compositions that start at frame 0: the frame is in the range and is
exactly the remainder of the number of elapsed frames (`t * rate`, rounded).
*Missing: other starts*, for which the sum may round to the end of the range (`C88_counterexample`). -/
theorem C88_from_zero_partial {c : Composition F64} {t : F64} (h0 : c.frames.start = lit 0)
    (hs : c.frames.stop.isFin = true) (hp : 0 < c.frames.stop.toQ)
    (ht : (t *. c.frameRate).isFin = true) (ht0 : 0 ≤ (t *. c.frameRate).toQ) :
    c.frames.contains (playFrame c t) = true ∧
      ∃ passes : ℕ, (playFrame c t).toQ + passes * c.frames.stop.toQ = (t *. c.frameRate).toQ := by
  have hz : (lit 0 : F64).isFin = true := by decide +kernel
  have hz' : (lit 0 : F64).toQ = 0 := by decide +kernel
  have hsub : (c.frames.stop -. c.frames.start).isFin = true ∧
      (c.frames.stop -. c.frames.start).toQ = c.frames.stop.toQ := by
    obtain ⟨s, e⟩ := F64.sub_eq hs (h0 ▸ hz : c.frames.start.isFin = true)
    show (F64.sub _ _).isFin = true ∧ (F64.sub _ _).toQ = _
    rw [e, h0, hz', sub_zero]
    exact F64.ofRat_exact (F64.exact_toQ _) (F64.abs_toQ_lt _)
  obtain ⟨hf, n, h1, h2, h3⟩ := F64.rem_fin ht hsub.1 ht0 (by rw [hsub.2]; exact hp)
  have hadd : (playFrame c t).isFin = true ∧ (playFrame c t).toQ
      = (F64.rem (t *. c.frameRate) (c.frames.stop -. c.frames.start)).toQ := by
    obtain ⟨s, e⟩ := F64.add_eq hf (h0 ▸ hz : c.frames.start.isFin = true)
    show (F64.add (F64.rem _ _) _).isFin = true ∧ (F64.add (F64.rem _ _) _).toQ = _
    rw [e, h0, hz', add_zero]
    exact F64.ofRat_exact (F64.exact_toQ _) (F64.abs_toQ_lt _)
  rw [hsub.2] at h1 h3
  constructor
  · rw [FRange.contains, Bool.and_eq_true, F64.le_fin (h0 ▸ hz) hadd.1, F64.lt_fin hadd.1 hs, h0,
      hz', hadd.2]
    exact ⟨h2, h3⟩
  · exact ⟨n, by rw [hadd.2, h1]; ring⟩

/-- **C88 in IEEE arithmetic**, for any start: if the length of the range is exact (as it is for whole
frames), the frame is not before the start and not after the end.  *Missing: that it is not the end*. -/
theorem C88_closed_partial {c : Composition F64} {t : F64} (h0 : c.frames.start.isFin = true)
    (hs : c.frames.stop.isFin = true) (hp : c.frames.start.toQ < c.frames.stop.toQ)
    (he : F64.Exact (c.frames.stop.toQ - c.frames.start.toQ))
    (hm : c.frames.stop.toQ - c.frames.start.toQ < maxMag)
    (ht : (t *. c.frameRate).isFin = true) (ht0 : 0 ≤ (t *. c.frameRate).toQ) :
    (playFrame c t).isFin = true ∧ c.frames.start.toQ ≤ (playFrame c t).toQ ∧
      (playFrame c t).toQ ≤ c.frames.stop.toQ := by
  have hsub : (c.frames.stop -. c.frames.start).isFin = true ∧
      (c.frames.stop -. c.frames.start).toQ = c.frames.stop.toQ - c.frames.start.toQ := by
    obtain ⟨s, e⟩ := F64.sub_eq hs h0
    show (F64.sub _ _).isFin = true ∧ (F64.sub _ _).toQ = _
    rw [e]
    exact F64.ofRat_exact he (by rw [abs_of_pos (sub_pos.mpr hp)]; exact hm)
  obtain ⟨hf, n, h1, h2, h3⟩ := F64.rem_fin ht hsub.1 ht0 (by rw [hsub.2]; exact sub_pos.mpr hp)
  rw [hsub.2] at h3
  generalize hq : (F64.rem (t *. c.frameRate) (c.frames.stop -. c.frames.start)).toQ = q at *
  have hlo : c.frames.start.toQ ≤ F64.rnd (q + c.frames.start.toQ) := by
    conv_lhs => rw [← F64.rnd_of_exact (F64.exact_toQ c.frames.start)]
    exact F64.rnd_mono (by linarith)
  have hhi : F64.rnd (q + c.frames.start.toQ) ≤ c.frames.stop.toQ := by
    conv_rhs => rw [← F64.rnd_of_exact (F64.exact_toQ c.frames.stop)]
    exact F64.rnd_mono (by linarith)
  have hb : |F64.rnd (q + c.frames.start.toQ)| < maxMag := by
    have a := abs_lt.mp (F64.abs_toQ_lt c.frames.start)
    have b := abs_lt.mp (F64.abs_toQ_lt c.frames.stop)
    exact abs_lt.mpr ⟨by linarith, by linarith⟩
  obtain ⟨h4, h5⟩ := F64.add_fin hf h0 (by rw [hq]; exact hb)
  refine ⟨h4, ?_, ?_⟩
  · show _ ≤ (F64.add (F64.rem _ _) _).toQ
    rw [h5, hq]; exact hlo
  · show (F64.add (F64.rem _ _) _).toQ ≤ _
    rw [h5, hq]; exact hhi

/-- The example, which starts at frame 0, after 7.5 seconds. -/
example : let c := (exComp : Composition F64); let t : F64 := lit (15 / 2)
    c.frames.start = lit 0 ∧ c.frames.stop.isFin = true ∧ 0 < c.frames.stop.toQ ∧
    (t *. c.frameRate).isFin = true ∧ 0 ≤ (t *. c.frameRate).toQ ∧ playFrame c t = lit (15 / 2) := by
  decide +kernel

/-- Frames 10 to 20, after one second. -/
example : let c := { (exComp : Composition F64) with frames := ⟨lit 10, lit 20⟩ }; let t : F64 := lit 1
    c.frames.start.isFin = true ∧ c.frames.stop.isFin = true ∧ c.frames.start.toQ < c.frames.stop.toQ ∧
    F64.Exact (c.frames.stop.toQ - c.frames.start.toQ) ∧
    c.frames.stop.toQ - c.frames.start.toQ < maxMag ∧
    (t *. c.frameRate).isFin = true ∧ 0 ≤ (t *. c.frameRate).toQ ∧ playFrame c t = lit 15 := by
  refine ⟨by decide +kernel, by decide +kernel, by decide +kernel, ?_, by decide +kernel,
    by decide +kernel, by decide +kernel, by decide +kernel⟩
  have : ({ (exComp : Composition F64) with frames := ⟨lit 10, lit 20⟩ }).frames.stop.toQ
      - ({ (exComp : Composition F64) with frames := ⟨lit 10, lit 20⟩ }).frames.start.toQ
      = (lit 10 : F64).toQ := by decide +kernel
  rw [this]
  exact F64.exact_toQ _

/-- **C88 is false of the code:** a composition of frame 1 only, at one frame a second, is shown at its
end, where no layer of that range is visible, just before the first second is over. -/
theorem C88_counterexample : ∃ (c : Composition F64) (t : F64),
    (c.frames.start <. c.frames.stop) = true ∧ (lit 0 <. c.frameRate) = true ∧
    (lit 0 <. t) = true ∧ (t <. lit 1) = true ∧
    playFrame c t = c.frames.stop ∧ c.frames.contains (playFrame c t) = false :=
  ⟨{ exComp with frames := ⟨lit 1, lit 2⟩, frameRate := lit 1 }, lit (1 - 1 / 2 ^ 53), by decide +kernel⟩

/-! ## C89 -/

section
variable {F : Type} [FloatOps F] [Libm F] [Kurbo F] [KurboBox F]

/-- **C89.** Picking does not change the picture: before the overlays, the calls made on the scene (and the
renderer left, or the panic) are those of rendering the same frame without picking, wherever the cursor
is. -/
theorem C89_picture (n : Nat) (r : Renderer F) (c : Composition F) (t : F) (cursor viewport : Option (P2 F))
    (camera : Affine F) :
    (pickingFrame n r c t cursor viewport camera).map (fun x => (x.1, x.2.1))
      = r.renderToScene n c (playFrame c t) Affine.identity (lit 1) := by
  unfold pickingFrame Renderer.renderToScene
  cases h : r.append n c (playFrame c t) Affine.identity (lit 1) with
  | error e => rfl
  | ok p =>
    show Except.ok _ = Except.ok _
    rw [Tracker.sinkAll_scene]

/-! ## C90 -/

omit [Libm F] [Kurbo F] [KurboBox F] in
theorem pickLayer_lt {hits : List (LayerHit F)} {p : P2 F} {i : Nat}
    (hp : hits.Pairwise fun a b => a.paintOrder < b.paintOrder) (h : pickLayer hits p = some i) :
    i < hits.length := by
  rw [pickLayer_eq hits p hp] at h
  obtain ⟨q, hq, rfl⟩ := Option.map_eq_some_iff.mp h
  have := List.mem_of_find?_eq_some hq
  obtain ⟨h1, -⟩ := List.mem_zipIdx' (List.mem_reverse.mp this)
  exact h1

theorem pickingFrame_ok {n : Nat} {r r' : Renderer F} {c : Composition F} {t : F}
    {cursor viewport : Option (P2 F)} {camera : Affine F} {out : List (SceneOp F)}
    {hits : List (LayerHit F)} {hovered : Option Nat}
    (h : pickingFrame n r c t cursor viewport camera = .ok (r', out, hits, hovered)) :
    ∃ ops, AppendCalls r c (playFrame c t) Affine.identity (lit 1) r' ops ∧
      hits = ((Tracker.new (c.layers.map (·.name))).sinkAll ops).1.collected ∧
      out = ops.flatMap Op.toScene ∧
      hovered = (match cursor, viewport with
        | some cursor, some viewport => some (cursorToScene cursor viewport
          ⟨FloatOps.ofUsize c.width, FloatOps.ofUsize c.height⟩ camera)
        | _, _ => none).bind (pickLayer hits) := by
  unfold pickingFrame at h
  obtain ⟨⟨r1, ops⟩, h1, h⟩ := bind_ok h
  cases h
  exact ⟨ops, ⟨n, h1⟩, rfl, Tracker.sinkAll_scene _ _, rfl⟩

/-- **C90.** The hits of a frame are the layers of the composition that draw something, each with its name
and the rectangle around everything that is drawn on its behalf (by its own content, its matte, the layers of
its asset), from the back to the front; later hits have greater paint orders. -/
theorem C90_hits {n : Nat} {r r' : Renderer F} (hr : Reachable r) {c : Composition F} {t : F}
    {cursor viewport : Option (P2 F)} {camera : Affine F} {out : List (SceneOp F)}
    {hits : List (LayerHit F)} {hovered : Option Nat}
    (h : pickingFrame n r c t cursor viewport camera = .ok (r', out, hits, hovered)) :
    ∃ per, LayersDrawn c (playFrame c t) per ∧
      hits.map (fun h => (h.name, h.rect)) = (c.layers.zip per).reverse.filterMap
        (fun p => (drawnBox p.2).map fun b => (p.1.name, b)) ∧
      hits.Pairwise fun a b => a.paintOrder < b.paintOrder := by
  obtain ⟨ops, h1, rfl, -, -⟩ := pickingFrame_ok h
  exact Tracker.append_collected hr h1

end

/-- **C90**, in exact arithmetic (kurbo's boxes of segments being exact): the rectangle of some calls is the
smallest one around the images of the bounding boxes of the paths drawn. -/
theorem C90_smallest [KurboBox ℝ] (hk : ExactBoxes) {ops : List (Op ℝ)} {R : KRect ℝ}
    (h : drawnBox ops = some R) :
    R.IsHull {q | ∃ st T br path p, Op.draw st T br path ∈ ops ∧ (boundingBox path).Has p ∧
      q = T.apply p} :=
  drawnBox_hull hk h

/-- **C90**: in particular every point of an outline that is drawn is in the rectangle (the width of strokes
is not accounted for). -/
theorem C90_covers [KurboBox ℝ] (hk : ExactBoxes) {ops : List (Op ℝ)} {R : KRect ℝ}
    (h : drawnBox ops = some R) {st : Option (KStroke ℝ)} {T : Affine ℝ} {br : Brush ℝ}
    {path : List (PathEl ℝ)} (hd : Op.draw st T br path ∈ ops) {p : P2 ℝ} (hp : OnPath path p) :
    R.Has (T.apply p) := by
  refine (drawnBox_hull hk h).1 _ ⟨st, T, br, path, p, hd, ?_, rfl⟩
  obtain ⟨s, hs, -⟩ := id hp
  exact (boundingBox_hull hk (List.ne_nil_of_mem hs)).1 p hp

/-- The box of a path is the smallest rectangle around its points. -/
theorem C90_path_box [KurboBox ℝ] (hk : ExactBoxes) {path : List (PathEl ℝ)}
    (h : segments path ≠ []) : (boundingBox path).IsHull {p | OnPath path p} :=
  boundingBox_hull hk h

/-- An outline without segments counts as the origin: its image is in the rectangle of the layer. -/
theorem C90_empty_outline [KurboBox ℝ] (hk : ExactBoxes) {ops : List (Op ℝ)} {R : KRect ℝ}
    (h : drawnBox ops = some R) {st : Option (KStroke ℝ)} {T : Affine ℝ} {br : Brush ℝ}
    {path : List (PathEl ℝ)} (hd : Op.draw st T br path ∈ ops) (he : segments path = []) :
    boundingBox path = ⟨0, 0, 0, 0⟩ ∧ R.Has ⟨T.e, T.f⟩ := by
  have hb : boundingBox path = ⟨0, 0, 0, 0⟩ := by simp [boundingBox, he]
  refine ⟨hb, ?_⟩
  have := (drawnBox_hull hk h).1 (T.apply ⟨0, 0⟩)
    ⟨st, T, br, path, ⟨0, 0⟩, hd, by rw [hb]; exact ⟨le_refl _, le_refl _, le_refl _, le_refl _⟩, rfl⟩
  simpa [Affine.apply] using this

theorem exists_hull {S : Set (P2 ℝ)} (h : S.Nonempty) {B : ℝ}
    (hb : ∀ p ∈ S, |p.x| ≤ B ∧ |p.y| ≤ B) : ∃ r : KRect ℝ, r.IsHull S := by
  have hx : ((fun p : P2 ℝ => p.x) '' S).Nonempty := h.image _
  have hy : ((fun p : P2 ℝ => p.y) '' S).Nonempty := h.image _
  have bx : BddBelow ((fun p : P2 ℝ => p.x) '' S) := ⟨-B, by
    rintro _ ⟨p, hp, rfl⟩; exact (abs_le.mp (hb p hp).1).1⟩
  have ax : BddAbove ((fun p : P2 ℝ => p.x) '' S) := ⟨B, by
    rintro _ ⟨p, hp, rfl⟩; exact (abs_le.mp (hb p hp).1).2⟩
  have by' : BddBelow ((fun p : P2 ℝ => p.y) '' S) := ⟨-B, by
    rintro _ ⟨p, hp, rfl⟩; exact (abs_le.mp (hb p hp).2).1⟩
  have ay : BddAbove ((fun p : P2 ℝ => p.y) '' S) := ⟨B, by
    rintro _ ⟨p, hp, rfl⟩; exact (abs_le.mp (hb p hp).2).2⟩
  refine ⟨⟨sInf ((fun p : P2 ℝ => p.x) '' S), sInf ((fun p : P2 ℝ => p.y) '' S),
    sSup ((fun p : P2 ℝ => p.x) '' S), sSup ((fun p : P2 ℝ => p.y) '' S)⟩, ?_, ?_⟩
  · intro p hp
    exact ⟨csInf_le bx ⟨p, hp, rfl⟩, le_csSup ax ⟨p, hp, rfl⟩, csInf_le by' ⟨p, hp, rfl⟩,
      le_csSup ay ⟨p, hp, rfl⟩⟩
  · intro r' hr'
    refine ⟨le_csInf hx ?_, csSup_le hx ?_, le_csInf hy ?_, csSup_le hy ?_⟩ <;>
      rintro _ ⟨p, hp, rfl⟩
    exacts [(hr' p hp).1, (hr' p hp).2.1, (hr' p hp).2.2.1, (hr' p hp).2.2.2]

/-- There are exact boxes. -/
theorem exactBoxes_exist : ∃ k : KurboBox ℝ, @ExactBoxes k := by
  have h : ∀ s : PathSeg ℝ, ∃ r : KRect ℝ, r.IsHull {p | ∃ t : ℝ, 0 ≤ t ∧ t ≤ 1 ∧ p = s.at t} := by
    intro s
    have hc : Continuous (fun t => (s.at t).x) ∧ Continuous (fun t => (s.at t).y) := by
      cases s <;> exact ⟨by simp only [PathSeg.at]; fun_prop, by simp only [PathSeg.at]; fun_prop⟩
    obtain ⟨A, hA⟩ := (isCompact_Icc (a := (0 : ℝ)) (b := 1)).exists_bound_of_continuousOn
      hc.1.continuousOn
    obtain ⟨B, hB⟩ := (isCompact_Icc (a := (0 : ℝ)) (b := 1)).exists_bound_of_continuousOn
      hc.2.continuousOn
    refine exists_hull (B := max A B) ⟨s.at 0, 0, le_refl _, zero_le_one, rfl⟩ ?_
    rintro _ ⟨t, h0, h1, rfl⟩
    exact ⟨(hA t ⟨h0, h1⟩).trans (le_max_left _ _), (hB t ⟨h0, h1⟩).trans (le_max_right _ _)⟩
  choose f hf using h
  exact ⟨⟨f⟩, hf⟩

/-- The hypotheses of `C90_empty_outline` are met. -/
example : ∃ k : KurboBox ℝ, @ExactBoxes k ∧ segments (F := ℝ) [.moveTo ⟨3, 4⟩] = [] ∧ ∃ R,
    drawnBox (F := ℝ) [.draw none Affine.identity (.solid ⟨1, 0, 0, 1⟩) [.moveTo ⟨3, 4⟩]] = some R := by
  obtain ⟨k, hk⟩ := exactBoxes_exist
  exact ⟨k, hk, by simp [segments, segmentsAux], _, rfl⟩

/-- The hypotheses of the three theorems are met: two triangles, one of them moved. -/
example : ∃ k : KurboBox ℝ, @ExactBoxes k ∧ segments (F := ℝ) exTriangle ≠ [] ∧ ∃ R,
    drawnBox (F := ℝ) [.draw none Affine.identity (.solid ⟨1, 0, 0, 1⟩) exTriangle, .pop,
      .draw none ⟨1, 0, 0, 1, 5, 5⟩ (.solid ⟨1, 0, 0, 1⟩) exTriangle] = some R := by
  obtain ⟨k, hk⟩ := exactBoxes_exist
  exact ⟨k, hk, by simp [exTriangle, segments, segmentsAux], _, rfl⟩

/-! ## C91 -/

section
variable {F : Type} [FloatOps F] [Libm F] [Kurbo F] [KurboBox F]

/-- **C91.** The layer found under the cursor is the front-most one whose rectangle contains the cursor's
place in the scene; no layer is found if there is none. -/
theorem C91_front_most {n : Nat} {r r' : Renderer F} (hr : Reachable r) {c : Composition F} {t : F}
    {cursor viewport : P2 F} {camera : Affine F} {out : List (SceneOp F)} {hits : List (LayerHit F)}
    {hovered : Option Nat}
    (h : pickingFrame n r c t (some cursor) (some viewport) camera = .ok (r', out, hits, hovered)) :
    ∃ per, LayersDrawn c (playFrame c t) per ∧
      (hovered.bind fun i => hits[i]?).map (fun h => (h.name, h.rect))
        = ((c.layers.zip per).findSome? fun p => (drawnBox p.2).bind fun b =>
          if b.covers (cursorToScene cursor viewport
            ⟨FloatOps.ofUsize c.width, FloatOps.ofUsize c.height⟩ camera)
          then some (p.1.name, b) else none) := by
  obtain ⟨per, h1, h2, h3⟩ := C90_hits hr h
  have hcov : ∀ (b : KRect F) q, b.covers q = b.contains q := fun b q => by
    unfold KRect.covers KRect.contains; simp only [Bool.and_assoc]
  simp only [hcov]
  refine ⟨per, h1, ?_⟩
  obtain ⟨ops, -, -, -, h5⟩ := pickingFrame_ok h
  replace h5 : hovered = pickLayer hits (cursorToScene cursor viewport
    ⟨FloatOps.ofUsize c.width, FloatOps.ofUsize c.height⟩ camera) := h5
  generalize cursorToScene cursor viewport
    ⟨FloatOps.ofUsize c.width, FloatOps.ofUsize c.height⟩ camera = q at *
  rw [h5, pickLayer_bind hits q h3]
  have e : (hits.reverse.find? fun h => h.rect.contains q).map (fun h => (h.name, h.rect))
      = (hits.map fun h => (h.name, h.rect)).reverse.find? fun h => h.2.contains q := by
    rw [← List.map_reverse, List.find?_map]; rfl
  rw [e, h2]
  rw [← List.filterMap_reverse, List.reverse_reverse]
  generalize c.layers.zip per = ps
  induction ps with
  | nil => rfl
  | cons p ps ih =>
    rw [List.filterMap_cons, List.findSome?_cons]
    cases hb : drawnBox p.2 with
    | none => simpa [hb] using ih
    | some b =>
      cases hc : b.contains q with
      | false => simpa [hb, hc] using ih
      | true => simp [hc]

/-- The index of the layer that is found is one of the hits. -/
theorem C91_in_range {n : Nat} {r r' : Renderer F} (hr : Reachable r) {c : Composition F} {t : F}
    {cursor viewport : Option (P2 F)} {camera : Affine F} {out : List (SceneOp F)}
    {hits : List (LayerHit F)} {i : Nat}
    (h : pickingFrame n r c t cursor viewport camera = .ok (r', out, hits, some i)) :
    i < hits.length ∧ cursor.isSome = true ∧ viewport.isSome = true := by
  obtain ⟨per, h1, h2, h3⟩ := C90_hits hr h
  obtain ⟨ops, -, -, -, h5⟩ := pickingFrame_ok h
  cases cursor with
  | none => cases h5
  | some cu =>
    cases viewport with
    | none => cases h5
    | some vp => exact ⟨pickLayer_lt h3 h5.symm, rfl, rfl⟩

end

section
variable [Libm F64] [Kurbo F64]

/-- Boxes of lines; those of curves are the boxes of their control points here. -/
@[instance_reducible] def exBoxes : KurboBox F64 where
  segBox
    | .line p q => .fromPoints p q
    | .quad p q r => (KRect.fromPoints p q).union (.fromPoints q r)
    | .cubic p q r s => (KRect.fromPoints p q).union (.fromPoints r s)

/-- The hypotheses of C89, C90 and C91 are met by the example, 40 milliseconds after the start, in a window
of twice its size: the hits are the three layers that are not mattes, the cursor is on the front-most
one. -/
example : letI := exBoxes
    ((pickingFrame (F := F64) 5 Renderer.new exComp (lit (4 / 100)) (some ⟨lit 7, lit 2⟩)
      (some ⟨lit 200, lit 100⟩) Affine.identity).map fun x =>
        (x.2.2.1.map fun h => (h.name, h.rect, h.paintOrder), x.2.2.2)).toOption
      = some ([("t", ⟨lit 0, lit 0, lit 4, lit 3⟩, 1000), ("m", ⟨lit 0, lit 0, lit 4, lit 3⟩, 3000),
          ("i", ⟨lit 0, lit 0, lit 4, lit 3⟩, 4000)], some 2) := by
  kernel_decide

/-- Nothing is found beside the triangles. -/
example : letI := exBoxes
    ((pickingFrame (F := F64) 5 Renderer.new exComp (lit (4 / 100)) (some ⟨lit 9, lit 2⟩)
      (some ⟨lit 200, lit 100⟩) Affine.identity).map fun x => x.2.2.2).toOption = some none := by
  kernel_decide

end

/-! ## C92 -/

/-- **C92.** The scale is the largest at which the whole picture fits the window. -/
theorem C92_fits {vw vh w h s : ℝ} (hw : 0 < w) (hh : 0 < h) (hs : s = fmin (vw /. w) (vh /. h)) :
    s * w ≤ vw ∧ s * h ≤ vh ∧ ∀ s', s' * w ≤ vw → s' * h ≤ vh → s' ≤ s := by
  rw [real_fmin, real_div, real_div] at hs
  subst hs
  refine ⟨?_, ?_, fun s' h1 h2 => le_min ((le_div_iff₀ hw).mpr h1) ((le_div_iff₀ hh).mpr h2)⟩
  · exact (le_div_iff₀ hw).mp (min_le_left _ _)
  · exact (le_div_iff₀ hh).mp (min_le_right _ _)

theorem Affine.real_inverse_left {m : Affine ℝ} (h : m.det ≠ 0) (p : P2 ℝ) :
    m.inverse.apply (m.apply p) = p := by
  unfold Affine.det at h
  simp only [Affine.inverse, Affine.apply, real_add, real_mul, real_sub, real_div, real_neg, real_lit,
    real_add, real_mul, real_sub] at h ⊢
  obtain ⟨x, y⟩ := p
  rw [P2.mk.injEq]
  constructor <;> · field_simp; ring

theorem Affine.real_inverse_right {m : Affine ℝ} (h : m.det ≠ 0) (p : P2 ℝ) :
    m.apply (m.inverse.apply p) = p := by
  unfold Affine.det at h
  simp only [Affine.inverse, Affine.apply, real_add, real_mul, real_sub, real_div, real_neg, real_lit]
    at h ⊢
  obtain ⟨x, y⟩ := p
  rw [P2.mk.injEq]
  constructor <;> · field_simp; ring

/-- **C92.** The cursor's place in the scene is the one that is displayed under the cursor: the scene is
displayed with the camera after the scale that fits the picture into the window. -/
theorem C92_inverse {cursor viewport resolution : P2 ℝ} {camera : Affine ℝ} (hc : camera.det ≠ 0)
    (hv : 0 < viewport.x ∧ 0 < viewport.y) (hr : 0 < resolution.x ∧ 0 < resolution.y) {p : P2 ℝ} :
    p = cursorToScene cursor viewport resolution camera ↔
      camera.apply ⟨min (viewport.x / resolution.x) (viewport.y / resolution.y) * p.x,
        min (viewport.x / resolution.x) (viewport.y / resolution.y) * p.y⟩ = cursor := by
  unfold cursorToScene
  rw [real_fmin, real_div, real_div]
  have hs : 0 < min (viewport.x / resolution.x) (viewport.y / resolution.y) :=
    lt_min (div_pos hv.1 hr.1) (div_pos hv.2 hr.2)
  generalize min (viewport.x / resolution.x) (viewport.y / resolution.y) = s at *
  have hd : (camera.mul (Affine.scale s)).det ≠ 0 := by
    have e : (camera.mul (Affine.scale s)).det = camera.det * (s * s) := by
      simp [Affine.det, Affine.mul, Affine.scale, Affine.scaleNonUniform]; ring
    rw [e]; positivity
  have he : ∀ p, camera.apply ⟨s * p.x, s * p.y⟩ = (camera.mul (Affine.scale s)).apply p := by
    intro p
    simp [Affine.apply, Affine.mul, Affine.scale, Affine.scaleNonUniform]
    constructor <;> ring
  rw [he]
  constructor
  · rintro rfl; exact Affine.real_inverse_right hd _
  · rintro rfl; exact (Affine.real_inverse_left hd _).symm

/-- A picture of 100 by 50 in a window of 200 by 300, zoomed twice: the scale is 2. -/
example : cursorToScene (F := ℝ) ⟨9, 6⟩ ⟨200, 300⟩ ⟨100, 50⟩ ⟨2, 0, 0, 2, 1, 2⟩ = ⟨2, 1⟩ := by
  symm
  rw [C92_inverse (by norm_num [Affine.det]) (by norm_num) (by norm_num)]
  norm_num [Affine.apply]

end Velato
