import Verif.Proofs.DocConverse
import Verif.Proofs.Picture
import Verif.Spec.DocShows

/-!
# The pictures of documents are those of their calls
-/

namespace Velato

variable {R : Rasteriser}

theorem paints_stacked {per : List (List (Op ℝ))} {qs : List Pixel}
    (h : List.Forall₂ (Paints R) per qs) : Paints R per.reverse.flatten (stacked qs) := by
  induction h with
  | nil => exact .nil
  | cons hx _ ih =>
    rw [List.reverse_cons, List.flatten_append, List.flatten_singleton]
    exact ih.append hx

theorem compose_matte (mode : Schema.MatteMode) (s d : Pixel) :
    R.compose (matteBlend mode) s d = throughMatte mode s d := by
  cases mode <;> simp [Rasteriser.compose, matteBlend, throughMatte, BlendMode.ofMix, BlendMode.ofCompose]

variable [Kurbo ℝ]

omit [Kurbo ℝ] in
theorem painting_shown (p : Painting ℝ) : Paints R p.calls (p.shown R) := by
  obtain ⟨p, os⟩ := p
  have : List.Forall₂ (Paints R)
      (os.reverse.map fun o => [Op.draw p.stroke o.transform p.finalBrush o.path])
      (os.reverse.map fun o => paintShown R o.transform o.path p) := by
    rw [List.forall₂_map_left_iff, List.forall₂_map_right_iff]
    exact List.forall₂_same.mpr fun o _ => .draw _ _ _ _
  have := paints_stacked this
  rw [← List.map_reverse, List.reverse_reverse, ← List.flatMap_def, ← List.map_eq_flatMap] at this
  exact this

omit [Kurbo ℝ] in
theorem sheet_shown (D : Sheet ℝ) : Paints R D.calls (D.shown R) := by
  have : List.Forall₂ (Paints R) (D.paintings.map Painting.calls)
      (D.paintings.map (Painting.shown R)) := by
    rw [List.forall₂_map_left_iff, List.forall₂_map_right_iff]
    exact List.forall₂_same.mpr fun p _ => painting_shown p
  have := paints_stacked this
  rw [← List.map_reverse, ← List.flatMap_def] at this
  exact this

theorem masks_shown {frame : ℝ} {T : Affine ℝ} {ms : List (Schema.Mask ℝ)} {ops : List (Op ℝ)}
    (h : MasksDrawn frame T ms ops) : ∃ k, MasksCover R frame T ms k ∧ ∀ {co q}, Paints R co q →
      Paints R (ops ++ co ++ List.replicate ops.length .pop) (q.scale k) := by
  induction h with
  | nil => exact ⟨1, .nil, fun h => by simpa [Pixel.scale_one] using h⟩
  | @keep _ _ _ _ els _ hp hg he _ ih =>
    obtain ⟨k, hk, hpaint⟩ := ih
    refine ⟨_, .keep hp hg he hk, fun h => ?_⟩
    have := (hpaint h).clip T (.path els)
    rw [Pixel.scale_scale] at this
    simpa [List.replicate_succ'] using this
  | drop hp _ ih =>
    obtain ⟨k, hk, hpaint⟩ := ih
    exact ⟨k, .drop hp hk, hpaint⟩

theorem masks_drawn {frame : ℝ} {T : Affine ℝ} {ms : List (Schema.Mask ℝ)} {k : ℝ}
    (h : MasksCover R frame T ms k) : ∃ ops, MasksDrawn frame T ms ops ∧ ∀ {co q}, Paints R co q →
      Paints R (ops ++ co ++ List.replicate ops.length .pop) (q.scale k) := by
  induction h with
  | nil => exact ⟨[], .nil, fun h => by simpa [Pixel.scale_one] using h⟩
  | @keep _ _ _ _ els _ hp hg he _ ih =>
    obtain ⟨ops, hk, hpaint⟩ := ih
    refine ⟨_, .keep hp hg he hk, fun h => ?_⟩
    have := (hpaint h).clip T (.path els)
    rw [Pixel.scale_scale] at this
    simpa [List.replicate_succ'] using this
  | drop hp _ ih =>
    obtain ⟨ops, hk, hpaint⟩ := ih
    exact ⟨ops, .drop hp hk, hpaint⟩

omit [Kurbo ℝ] in
theorem matte_mode {ls : List (Schema.AnyLayer ℝ)} {i : Nat} {l : Schema.AnyLayer ℝ} {b : BlendMode}
    {j : Nat} (h : MatteOf ls i l (some (b, j))) :
    ∃ mode, l.visual.matteMode = some mode ∧ b = matteBlend mode := by
  generalize hr : some (b, j) = r at h
  cases h with
  | without h => cases hr
  | @named mode x r h hx hr' =>
    cases r with
    | none => cases hr
    | some j' => cases hr; exact ⟨mode, h, rfl⟩
  | @pending mode j' h hx hj => cases hr; exact ⟨mode, h, rfl⟩
  | nothing => cases hr

omit [Kurbo ℝ] in
theorem composed_paints {a : Schema.Animation ℝ} {T : Affine ℝ} {mode : Schema.MatteMode}
    {mo ops : List (Op ℝ)} {qm q : Pixel} (hm : Paints R mo qm) (h : Paints R ops q) :
    Paints R (composed a T (matteBlend mode) mo ops)
      ((throughMatte mode (q.scale (R.clip T (.rect 0 0 a.width a.height))) qm).scale
        (R.clip T (.rect 0 0 a.width a.height))) := by
  have := Paints.matte (T := T) (s := .rect 0 0 (a.width : ℝ) a.height) (mode := matteBlend mode) hm h
  rw [compose_matte] at this
  simpa [composed, Schema.Animation.area] using this

omit [Kurbo ℝ] in
theorem factor_real (al o : ℝ) : al *. o /. FloatOps.lit 100 = al * (o / 100) := by
  simp [mul_div_assoc]

omit [Kurbo ℝ] in
theorem time_real (q : Schema.PrecompositionLayer ℝ) (fr : ℝ) :
    q.time fr = (fr - q.startTime) / q.visualLayer.layer.timeStretch.getD 1 := by
  unfold Schema.PrecompositionLayer.time
  simp only [real_add, real_div, real_neg, real_lit]
  rw [← add_div, ← sub_eq_add_neg]
  norm_num

omit [Kurbo ℝ] in
theorem area_real (a : Schema.Animation ℝ) : a.area = .rect 0 0 (a.width : ℝ) a.height := by
  simp [Schema.Animation.area]

theorem layers_shown {a : Schema.Animation ℝ} {src ls : List (Schema.AnyLayer ℝ)} {T : Affine ℝ}
    {al fr : ℝ} {number : Nat → Nat} {i : Nat} {per : List (List (Op ℝ))}
    (hl : LayerListDrawn a src T al fr number i ls per) :
    ∃ qs, LayerListShown R a src T al fr i ls qs ∧ Paints R per.reverse.flatten (stacked qs) := by
  refine LayerListDrawn.rec
    (motive_1 := fun src T al fr ix i s ops _ => ∃ q, LayerShown R a src T al fr i s q ∧ Paints R ops q)
    (motive_2 := fun T al fr s co _ => ∃ q, ContentShown R a T al fr s q ∧ Paints R co q)
    (motive_3 := fun src T al fr number i ls per _ => ∃ qs, LayerListShown R a src T al fr i ls qs ∧
      Paints R per.reverse.flatten (stacked qs))
    (fun hn => ⟨_, .absent hn, .nil⟩) ?_ ?_ (fun hh => ⟨_, .hidden hh, .nil⟩)
    (fun hs hp => ⟨_, .nothing hs hp, .nil⟩) ?_ (fun hn => ⟨_, .missing hn, .nil⟩) ?_
    ⟨[], .nil, .nil⟩ ?_ ?_ hl
  · rintro ls T alpha frame ix i l P M k ms co h hm hP hk hms - ⟨q, hq, hp⟩
    rw [factor_real] at hq
    obtain ⟨cov, hcov, hpaint⟩ := masks_shown (R := R) hms
    exact ⟨_, .plain h hm hP hk hcov hq, (hpaint hp).begin _ _⟩
  · rintro ls T alpha frame ix i l P M k ms co b j m mo h hm hj - hP hk hms - ⟨qm, hqm, hpm⟩ ⟨q, hq, hp⟩
    rw [factor_real] at hq
    obtain ⟨cov, hcov, hpaint⟩ := masks_shown (R := R) hms
    obtain ⟨mode, hmode, rfl⟩ := matte_mode hm
    exact ⟨_, .matted h hmode hm hj hqm hP hk hcov hq, (composed_paints hpm (hpaint hp)).begin _ _⟩
  · rintro T alpha frame q per hv hss
    exact ⟨_, .shape hv hss, sheet_shown _⟩
  · rintro T alpha frame q p per i hv hp hid hlast - ⟨qs, hqs, hpaint⟩
    rw [time_real] at hqs
    exact ⟨_, .precomposition hv hp hid hlast hqs, hpaint⟩
  · rintro ls T alpha frame number i l ls' per h - ⟨qs, hqs, hp⟩
    exact ⟨qs, .matte h hqs, by simpa using hp⟩
  · rintro ls T alpha frame number i l ops ls' per h - - ⟨q, hq, hpq⟩ ⟨qs, hqs, hp⟩
    refine ⟨_, .layer h hq hqs, ?_⟩
    rw [List.reverse_cons, List.flatten_append, List.flatten_singleton]
    exact hp.append hpq

theorem layers_drawn {a : Schema.Animation ℝ} {src ls : List (Schema.AnyLayer ℝ)} {T : Affine ℝ}
    {al fr : ℝ} {i : Nat} {qs : List Pixel} (hl : LayerListShown R a src T al fr i ls qs) :
    ∀ number, ∃ per, LayerListDrawn a src T al fr number i ls per ∧
      Paints R per.reverse.flatten (stacked qs) := by
  refine LayerListShown.rec
    (motive_1 := fun src T al fr i s q _ => ∀ ix, ∃ ops, LayerDrawn a src T al fr ix i s ops ∧
      Paints R ops q)
    (motive_2 := fun T al fr s q _ => ∃ co, ContentDrawn a T al fr s co ∧ Paints R co q)
    (motive_3 := fun src T al fr i ls qs _ => ∀ number, ∃ per,
      LayerListDrawn a src T al fr number i ls per ∧ Paints R per.reverse.flatten (stacked qs))
    (fun hn ix => ⟨_, .absent hn, .nil⟩) ?_ ?_ (fun hh => ⟨_, .hidden hh, .nil⟩)
    (fun hs hp => ⟨_, .nothing hs hp, .nil⟩) ?_ (fun hn => ⟨_, .missing hn, .nil⟩) ?_
    (fun number => ⟨[], .nil, .nil⟩) ?_ ?_ hl
  · rintro ls T alpha frame i l P M k cov q h hm hP hk hms - ⟨co, hq, hp⟩ ix
    rw [← factor_real] at hq
    obtain ⟨ms, hcov, hpaint⟩ := masks_drawn hms
    exact ⟨_, .plain h hm hP hk hcov hq, (hpaint hp).begin _ _⟩
  · rintro ls T alpha frame i l P M k cov q b j m mode mq h hmode hm hj - hP hk hms - hmo ⟨co, hq, hp⟩ ix
    rw [← factor_real] at hq
    obtain ⟨mo, hqm, hpm⟩ := hmo 0
    obtain ⟨ms, hcov, hpaint⟩ := masks_drawn hms
    obtain ⟨mode', hmode', rfl⟩ := matte_mode hm
    cases Option.some.inj (hmode.symm.trans hmode')
    exact ⟨_, .matted h hm hj hqm hP hk hcov hq, (composed_paints hpm (hpaint hp)).begin _ _⟩
  · rintro T alpha frame q per hv hss
    exact ⟨_, .shape hv hss, sheet_shown _⟩
  · rintro T alpha frame q p per i hv hp hid hlast - ih
    obtain ⟨qs, hqs, hpaint⟩ := ih fun _ => 0
    rw [← time_real] at hqs
    exact ⟨_, .precomposition hv hp hid hlast hqs, hpaint⟩
  · rintro ls T alpha frame i l ls' qs h - ih number
    obtain ⟨per, hqs, hp⟩ := ih number
    exact ⟨_, .matte h hqs, by simpa using hp⟩
  · rintro ls T alpha frame i l q ls' qs h - - ihl ih number
    obtain ⟨ops, hq, hpq⟩ := ihl (number i)
    obtain ⟨per, hqs, hp⟩ := ih number
    refine ⟨_, .layer h hq hqs, ?_⟩
    rw [List.reverse_cons, List.flatten_append, List.flatten_singleton]
    exact hp.append hpq

theorem document_shown {a : Schema.Animation ℝ} {T : Affine ℝ} {al fr : ℝ} {ops : List (Op ℝ)}
    (h : DocumentDrawn a T al fr ops) : ∃ q, DocumentShown R a T al fr q ∧ Paints R ops q := by
  obtain ⟨per, hper, rfl⟩ := h
  obtain ⟨qs, hqs, hp⟩ := layers_shown (R := R) hper
  exact ⟨_, ⟨qs, hqs, rfl⟩, area_real a ▸ hp.clip _ _⟩

theorem document_drawn {a : Schema.Animation ℝ} {T : Affine ℝ} {al fr : ℝ} {q : Pixel}
    (h : DocumentShown R a T al fr q) : ∃ ops, DocumentDrawn a T al fr ops ∧ Paints R ops q := by
  obtain ⟨qs, hqs, rfl⟩ := h
  obtain ⟨per, hper, hp⟩ := layers_drawn hqs id
  exact ⟨_, ⟨per, hper, rfl⟩, area_real a ▸ hp.clip _ _⟩

end Velato
