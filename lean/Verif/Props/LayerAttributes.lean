import Verif.Spec.Attributes
import Verif.Proofs.ImportedGeometry
import Verif.Props.Ignored
import Verif.Props.Parse
import Mathlib.Tactic.IntervalCases

/-!
# C77 — layers have the attributes the document gives them
-/

namespace Velato
open FloatOps (lit)
open Import

section
variable {F : Type} [FloatOps F] [Kurbo F] [Libm F]

omit [Kurbo F] [Libm F] in
theorem masksOf_ok {ms : List (Schema.Mask F)} {out : List (Mask F)} (h : convMasks ms = .ok out) :
    MasksOf ms out := by
  obtain ⟨os, hos, h'⟩ := bind_ok h
  have hf := mapM_ok_iff.mp hos
  cases Except.ok.inj h'
  clear h h' hos
  induction hf with
  | nil => exact .nil
  | @cons m o ms os hm _ ih =>
    rw [List.flatMap_cons]
    unfold convMask at hm
    cases hsh : m.shape with
    | none =>
      rw [hsh] at hm
      cases Except.ok.inj hm
      exact .drop (fun p hp => by rw [hsh] at hp; cases hp) ih
    | some p =>
      rw [hsh] at hm
      obtain ⟨g, hg, hm⟩ := bind_ok (show (convShapeGeometry p >>= fun g => _) = _ from hm)
      rcases shapeGeometry_ok hg with ⟨g', rfl, hp⟩ | ⟨rfl, hp⟩
      · obtain ⟨o', ho, hm⟩ := bind_ok hm
        cases Except.ok.inj hm
        exact .keep hsh hp (scalarOr_getD rfl ho) ih
      · cases Except.ok.inj hm
        exact .drop (fun q hq => by rw [hsh] at hq; cases hq; exact hp) ih

theorem layerTransform_ok {s : Schema.Transform F} {t : Transform F} {o : Value F F}
    (h : convTransform s = .ok (t, o)) :
    LayerTransformOf s t ∧ ScalarOr s.opacity (lit 100) o := by
  obtain ⟨r, hr, h⟩ := bind_ok h
  obtain ⟨p, hp, h⟩ := bind_ok h
  obtain ⟨rot, h1, h⟩ := bind_ok h
  obtain ⟨sk, h2, h⟩ := bind_ok h
  obtain ⟨sa, h3, h⟩ := bind_ok h
  obtain ⟨op, h4, h⟩ := bind_ok h
  have h := Except.ok.inj h
  rw [Prod.mk.injEq] at h
  obtain ⟨rfl, rfl⟩ := h
  refine ⟨⟨_, rfl, ?_, ?_, ?_, ?_, scalarOr_getD rfl h2, scalarOr_getD rfl h3⟩, scalarOr_getD rfl h4⟩
  · cases hpos : s.position with
    | position q =>
      rw [hpos] at hp
      exact ⟨_, (Except.ok.inj hp).symm, C51_positions q⟩
    | splitPosition q =>
      rw [hpos] at hp
      obtain ⟨x, hx, hp⟩ := bind_ok hp
      obtain ⟨y, hy, hp⟩ := bind_ok hp
      exact ⟨x, y, (Except.ok.inj hp).symm, C51_scalars hx, C51_scalars hy⟩
  · cases s.anchorPoint with
    | none => rfl
    | some q => exact C51_positions q
  · cases hrot : s.rotation with
    | none => rw [hrot] at hr; cases hr
    | some x =>
      rw [hrot] at hr
      cases x with
      | rotation x =>
        cases Except.ok.inj hr
        exact ⟨_, rfl, C51_scalars h1⟩
      | splitRotation => cases hr
  · cases s.scale with
    | none => rfl
    | some q => exact C51_vectors q

theorem blendOf_ok {b : Option Schema.BlendMode} {o : Option BlendMode}
    (h : convBlendMode (b.getD .normal) = .ok o) :
    BlendOf b (if o = some (.ofMix .normal) then none else o) := by
  cases b with
  | none => cases Except.ok.inj h; rfl
  | some b =>
    cases b <;> first
      | cases Except.ok.inj h; first | rfl | exact ⟨_, rfl, rfl⟩
      | cases h

theorem converted_attributes {s : Schema.AnyLayer F} {l : Layer F} {p : LayerSetupParams}
    (h : Converted s l p) : HasAttributes s l := by
  obtain ⟨ht, ho⟩ := layerTransform_ok h.transform
  obtain ⟨b, hb, hbl⟩ := h.blend
  refine ⟨ht, ho, hbl ▸ blendOf_ok hb, masksOf_ok h.masks, h.isMask, fun hh => ?_, h.hidden⟩
  have hc := h.content hh
  cases s with
  | precomposition q =>
    obtain ⟨tr, htr, hc⟩ := hc
    refine ⟨tr, hc, ?_⟩
    unfold convRemap at htr
    cases hq : q.timeRemap with
    | none => rw [hq] at htr; exact (Except.ok.inj htr).symm
    | some v =>
      rw [hq] at htr
      obtain ⟨x, hx, rfl⟩ := map_ok htr
      exact ⟨x, rfl, C51_scalars hx⟩
  | shape q =>
    obtain ⟨ss, hss, hc⟩ := hc
    exact ⟨ss, hc, C53_shapes _ hss⟩
  | solid q => exact hc
  | null q => exact hc
  | image q => exact hc

/-- **C77.** Every layer of an imported composition, of the composition itself or of an asset, has
the transform, opacity, blend mode, masks, matte flag and content of the layer at the same position
of the document. -/
theorem C77_attributes {a : Schema.Animation F} {c : Composition F} (h : convAnimation a = .ok c)
    {src : List (Schema.AnyLayer F)} {dst : List (Layer F)} (hl : ImportedList a c src dst) :
    List.Forall₂ HasAttributes src dst := by
  have hp := ImportedList.process h hl
  refine processLayers_forall hp fun i s l hs hl => ?_
  obtain ⟨es, e, -, -, hc, rfl⟩ := processLayers_get hp hs hl
  obtain ⟨h1, h2, h3, h4, h5, h6, h7⟩ := converted_attributes hc
  obtain ⟨e, p⟩ := e
  unfold linkLayer
  dsimp only at *
  exact ⟨h1, h2, h3, h4, h5, h6, h7⟩

end

/-- **C77.** In a JSON document the blend mode of a layer is the number of the mix function; 16 and
17 are not supported (C48). -/
theorem C77_blend_number {F : Type} [FloatOps F] {n : Nat} {b : Schema.BlendMode}
    (h : Decode.jBlendMode (.num (.posInt n) : Json F) = some b) {o : Option BlendMode}
    (ho : BlendOf (some b) o) (hn : n ≠ 0) :
    ∃ m : Mix, o = some ⟨m, .srcOver⟩ ∧ m.number = n := by
  have hb : b.number = n := by
    unfold Decode.jBlendMode Decode.jRepr at h
    dsimp only at h
    split_ifs at h with h0
    rw [Nat.sub_zero] at h
    have hlt := (List.getElem?_eq_some_iff.mp h).1
    simp only [List.length_cons, List.length_nil] at hlt
    interval_cases n <;> cases Option.some.inj h <;> rfl
  cases b <;> first
    | exact absurd hb.symm hn
    | exact hb ▸ ho

section
variable {F : Type} [FloatOps F] [Kurbo F] [Libm F]

/-- The hypotheses are met by a document with a mask and a blend mode, in every arithmetic. -/
example : ∃ c, convAnimation (exAttrDoc (F := F) [exTriangleShape, exFillShape]
    [exMaskDoc (some .subtract) none none, exMaskDoc none none (some (exStatic (lit 30)))]
    (some .overlay)) = .ok c ∧
    (c.layers.map fun l => l.masks.length) = [2, 0] ∧
    (c.layers.map fun l => l.blendMode) = [some ⟨.overlay, .srcOver⟩, none] :=
  ⟨_, rfl, rfl, rfl⟩

example : Decode.jBlendMode (.num (.posInt 3) : Json F) = some .overlay ∧
    BlendOf (some .overlay) (some ⟨.overlay, .srcOver⟩) := ⟨rfl, _, rfl, rfl⟩

end
end Velato
