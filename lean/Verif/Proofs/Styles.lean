import Verif.Proofs.Format
import Verif.Proofs.RoundTrip
import Verif.Spec.Styles

/-!
# Layer styles: helper lemmas
-/

set_option linter.unusedSimpArgs false

namespace Velato
open Schema Decode Encode

section
variable {F : Type}

theorem Format.isTextBased : Format.Exact (F := F) jTextBased Format.IsTextBased := Format.code 1 _ (by decide)
theorem Format.isTextCaps : Format.Exact (F := F) jTextCaps Format.IsTextCaps := Format.code 0 _ (by decide)
theorem Format.isTextGrouping : Format.Exact (F := F) jTextGrouping Format.IsTextGrouping := Format.code 1 _ (by decide)
theorem Format.isTextJustify : Format.Exact (F := F) jTextJustify Format.IsTextJustify := Format.code 0 _ (by decide)
theorem Format.isTextRangeUnits : Format.Exact (F := F) jTextRangeUnits Format.IsTextRangeUnits := Format.code 1 _ (by decide)
theorem Format.isTextShape : Format.Exact (F := F) jTextShape Format.IsTextShape := Format.code 1 _ (by decide)
theorem Format.isFontPathOrigin : Format.Exact (F := F) jFontPathOrigin Format.IsFontPathOrigin := Format.code 0 _ (by decide)
theorem Format.isStyleType : Format.Exact (F := F) jStyleType Format.IsStyleType := Format.code 0 _ (by decide)

theorem rt_StyleType : RT (F := F) jStyleType wStyleType := by
  intro j a _; cases a <;> exact ⟨rfl, fun h => nomatch h⟩

/-- Keys of `LayerStyle`. -/
def kLayerStyle : List String := kVisualObject ++ ["ty"]

theorem ek_LayerStyle (a : LayerStyle) (k : String) (hk : k ∉ kLayerStyle) :
    lookup (eLayerStyle a : Obj F) k = none := by
  simp only [kLayerStyle, List.mem_append, List.mem_cons, List.not_mem_nil, or_false, not_or] at hk
  obtain ⟨hs0, ho0⟩ := hk
  simp [eLayerStyle, lookup_append, lookup_put, ek_VisualObject _ _ hs0, Ne.symm ho0]

theorem rt_dLayerStyle {es es' : Obj F} {a : LayerStyle} (hd : dLayerStyle es = some a)
    (hA : Agree kLayerStyle (eLayerStyle a) es') : dLayerStyle es' = some a := by
  unfold dLayerStyle at hd ⊢
  simp only [Option.bind_eq_bind, Option.bind_eq_some_iff, Option.some.injEq] at hd ⊢
  obtain ⟨v0, h0, v1, h1, rfl⟩ := hd
  exact ⟨_, rt_dVisualObject h0 (by
      intro k hk
      rw [hA k (by simp only [kLayerStyle, List.mem_append]; tauto)]
      simp only [kVisualObject, List.mem_cons, List.not_mem_nil, or_false] at hk
      rcases hk with rfl | rfl <;> simp [eLayerStyle, lookup_append, lookup_put]),
    _, req_rt rt_StyleType h1 ((hA "ty" (by decide)).trans (by
      simp [eLayerStyle, lookup_append, lookup_put, ek_VisualObject, kVisualObject])), rfl⟩

theorem Format.layerStyleEntries [FloatOps F] : Format.ExactE (F := F) dLayerStyle Format.LayerStyleEntries := by
  fields [dLayerStyle, Format.LayerStyleEntries, Format.names _ _, Format.req_iff Format.isStyleType]

variable [FloatOps F]

theorem Format.isColorOverlayStyle : Format.Exact (F := F) jColorOverlayStyle Format.IsColorOverlayStyle := by
  refine Format.object ?_
  fields [dColorOverlayStyle, Format.layerStyleEntries _ _, Format.opt_iff Format.colour, Format.opt_iff Format.scalar]

theorem rt_ColorOverlayStyle : RT (F := F) jColorOverlayStyle wColorOverlayStyle := by
  intro j a hj
  obtain ⟨es, -, hd⟩ := Option.bind_eq_some_iff.mp hj
  refine ⟨?_, fun h => nomatch h⟩
  show dColorOverlayStyle (eColorOverlayStyle a) = some a
  unfold dColorOverlayStyle at hd ⊢
  simp only [Option.bind_eq_bind, Option.bind_eq_some_iff, Option.some.injEq] at hd ⊢
  obtain ⟨v, h, v0, h0, v1, h1, v2, h2, rfl⟩ := hd
  exact ⟨_, rt_dLayerStyle h (by
      intro k hk
      simp only [kLayerStyle, kVisualObject, List.mem_append, List.mem_cons, List.not_mem_nil, or_false,
        or_assoc] at hk
      rcases hk with rfl | rfl | rfl <;> simp [eColorOverlayStyle, lookup_append, lookup_skip]),
    _, skip_rt rt_FloatValue h0 (by simp [eColorOverlayStyle, lookup_append, lookup_put, lookup_skip, ek_LayerStyle, kLayerStyle, kVisualObject]),
    _, skip_rt rt_ColorValue h1 (by simp [eColorOverlayStyle, lookup_append, lookup_put, lookup_skip, ek_LayerStyle, kLayerStyle, kVisualObject]),
    _, skip_rt rt_FloatValue h2 (by simp [eColorOverlayStyle, lookup_append, lookup_put, lookup_skip, ek_LayerStyle, kLayerStyle, kVisualObject]),
    rfl⟩

theorem Format.isGradientOverlayStyle : Format.Exact (F := F) jGradientOverlayStyle Format.IsGradientOverlayStyle := by
  refine Format.object ?_
  intro es x
  cases x
  simp (maxSteps := 1000000) [Option.bind_eq_some_iff, dGradientOverlayStyle, Format.layerStyleEntries _ _,
    Format.opt_iff Format.colour, Format.opt_iff Format.gradientKind, Format.opt_iff Format.scalar,
    Format.opt_iff Format.stops]

set_option maxHeartbeats 800000 in
theorem rt_GradientOverlayStyle : RT (F := F) jGradientOverlayStyle wGradientOverlayStyle := by
  intro j a hj
  obtain ⟨es, -, hd⟩ := Option.bind_eq_some_iff.mp hj
  refine ⟨?_, fun h => nomatch h⟩
  show dGradientOverlayStyle (eGradientOverlayStyle a) = some a
  unfold dGradientOverlayStyle at hd ⊢
  simp only [Option.bind_eq_bind, Option.bind_eq_some_iff, Option.some.injEq] at hd ⊢
  obtain ⟨v, h, v0, h0, v1, h1, v2, h2, v3, h3, v4, h4, v5, h5, v6, h6, v7, h7, v8, h8, v9, h9, v10, h10, rfl⟩ := hd
  exact ⟨_, rt_dLayerStyle h (by
      intro k hk
      simp only [kLayerStyle, kVisualObject, List.mem_append, List.mem_cons, List.not_mem_nil, or_false,
        or_assoc] at hk
      rcases hk with rfl | rfl | rfl <;> simp [eGradientOverlayStyle, lookup_append, lookup_skip]),
    _, skip_rt rt_FloatValue h0 (by simp [eGradientOverlayStyle, lookup_append, lookup_put, lookup_skip, ek_LayerStyle, kLayerStyle, kVisualObject]),
    _, skip_rt rt_ColorValue h1 (by simp [eGradientOverlayStyle, lookup_append, lookup_put, lookup_skip, ek_LayerStyle, kLayerStyle, kVisualObject]),
    _, skip_rt rt_FloatValue h2 (by simp [eGradientOverlayStyle, lookup_append, lookup_put, lookup_skip, ek_LayerStyle, kLayerStyle, kVisualObject]),
    _, skip_rt rt_GradientColors h3 (by simp [eGradientOverlayStyle, lookup_append, lookup_put, lookup_skip, ek_LayerStyle, kLayerStyle, kVisualObject]),
    _, skip_rt rt_FloatValue h4 (by simp [eGradientOverlayStyle, lookup_append, lookup_put, lookup_skip, ek_LayerStyle, kLayerStyle, kVisualObject]),
    _, skip_rt rt_FloatValue h5 (by simp [eGradientOverlayStyle, lookup_append, lookup_put, lookup_skip, ek_LayerStyle, kLayerStyle, kVisualObject]),
    _, skip_rt rt_GradientType h6 (by simp [eGradientOverlayStyle, lookup_append, lookup_put, lookup_skip, ek_LayerStyle, kLayerStyle, kVisualObject]),
    _, skip_rt rt_FloatValue h7 (by simp [eGradientOverlayStyle, lookup_append, lookup_put, lookup_skip, ek_LayerStyle, kLayerStyle, kVisualObject]),
    _, skip_rt rt_FloatValue h8 (by simp [eGradientOverlayStyle, lookup_append, lookup_put, lookup_skip, ek_LayerStyle, kLayerStyle, kVisualObject]),
    _, skip_rt rt_FloatValue h9 (by simp [eGradientOverlayStyle, lookup_append, lookup_put, lookup_skip, ek_LayerStyle, kLayerStyle, kVisualObject]),
    _, skip_rt rt_FloatValue h10 (by simp [eGradientOverlayStyle, lookup_append, lookup_put, lookup_skip, ek_LayerStyle, kLayerStyle, kVisualObject]),
    rfl⟩

theorem Format.isOuterGlowStyle : Format.Exact (F := F) jOuterGlowStyle Format.IsOuterGlowStyle := by
  refine Format.object ?_
  fields [dOuterGlowStyle, Format.layerStyleEntries _ _, Format.opt_iff Format.colour, Format.opt_iff Format.scalar]

theorem rt_OuterGlowStyle : RT (F := F) jOuterGlowStyle wOuterGlowStyle := by
  intro j a hj
  obtain ⟨es, -, hd⟩ := Option.bind_eq_some_iff.mp hj
  refine ⟨?_, fun h => nomatch h⟩
  show dOuterGlowStyle (eOuterGlowStyle a) = some a
  unfold dOuterGlowStyle at hd ⊢
  simp only [Option.bind_eq_bind, Option.bind_eq_some_iff, Option.some.injEq] at hd ⊢
  obtain ⟨v, h, v0, h0, v1, h1, v2, h2, v3, h3, v4, h4, v5, h5, v6, h6, rfl⟩ := hd
  exact ⟨_, rt_dLayerStyle h (by
      intro k hk
      simp only [kLayerStyle, kVisualObject, List.mem_append, List.mem_cons, List.not_mem_nil, or_false,
        or_assoc] at hk
      rcases hk with rfl | rfl | rfl <;> simp [eOuterGlowStyle, lookup_append, lookup_skip]),
    _, skip_rt rt_FloatValue h0 (by simp [eOuterGlowStyle, lookup_append, lookup_put, lookup_skip, ek_LayerStyle, kLayerStyle, kVisualObject]),
    _, skip_rt rt_ColorValue h1 (by simp [eOuterGlowStyle, lookup_append, lookup_put, lookup_skip, ek_LayerStyle, kLayerStyle, kVisualObject]),
    _, skip_rt rt_FloatValue h2 (by simp [eOuterGlowStyle, lookup_append, lookup_put, lookup_skip, ek_LayerStyle, kLayerStyle, kVisualObject]),
    _, skip_rt rt_FloatValue h3 (by simp [eOuterGlowStyle, lookup_append, lookup_put, lookup_skip, ek_LayerStyle, kLayerStyle, kVisualObject]),
    _, skip_rt rt_FloatValue h4 (by simp [eOuterGlowStyle, lookup_append, lookup_put, lookup_skip, ek_LayerStyle, kLayerStyle, kVisualObject]),
    _, skip_rt rt_FloatValue h5 (by simp [eOuterGlowStyle, lookup_append, lookup_put, lookup_skip, ek_LayerStyle, kLayerStyle, kVisualObject]),
    _, skip_rt rt_FloatValue h6 (by simp [eOuterGlowStyle, lookup_append, lookup_put, lookup_skip, ek_LayerStyle, kLayerStyle, kVisualObject]),
    rfl⟩

theorem Format.isSatinStyle : Format.Exact (F := F) jSatinStyle Format.IsSatinStyle := by
  refine Format.object ?_
  fields [dSatinStyle, Format.layerStyleEntries _ _, Format.opt_iff Format.colour, Format.opt_iff Format.scalar]

theorem rt_SatinStyle : RT (F := F) jSatinStyle wSatinStyle := by
  intro j a hj
  obtain ⟨es, -, hd⟩ := Option.bind_eq_some_iff.mp hj
  refine ⟨?_, fun h => nomatch h⟩
  show dSatinStyle (eSatinStyle a) = some a
  unfold dSatinStyle at hd ⊢
  simp only [Option.bind_eq_bind, Option.bind_eq_some_iff, Option.some.injEq] at hd ⊢
  obtain ⟨v, h, v0, h0, v1, h1, v2, h2, v3, h3, v4, h4, v5, h5, v6, h6, rfl⟩ := hd
  exact ⟨_, rt_dLayerStyle h (by
      intro k hk
      simp only [kLayerStyle, kVisualObject, List.mem_append, List.mem_cons, List.not_mem_nil, or_false,
        or_assoc] at hk
      rcases hk with rfl | rfl | rfl <;> simp [eSatinStyle, lookup_append, lookup_skip]),
    _, skip_rt rt_FloatValue h0 (by simp [eSatinStyle, lookup_append, lookup_put, lookup_skip, ek_LayerStyle, kLayerStyle, kVisualObject]),
    _, skip_rt rt_ColorValue h1 (by simp [eSatinStyle, lookup_append, lookup_put, lookup_skip, ek_LayerStyle, kLayerStyle, kVisualObject]),
    _, skip_rt rt_FloatValue h2 (by simp [eSatinStyle, lookup_append, lookup_put, lookup_skip, ek_LayerStyle, kLayerStyle, kVisualObject]),
    _, skip_rt rt_FloatValue h3 (by simp [eSatinStyle, lookup_append, lookup_put, lookup_skip, ek_LayerStyle, kLayerStyle, kVisualObject]),
    _, skip_rt rt_FloatValue h4 (by simp [eSatinStyle, lookup_append, lookup_put, lookup_skip, ek_LayerStyle, kLayerStyle, kVisualObject]),
    _, skip_rt rt_FloatValue h5 (by simp [eSatinStyle, lookup_append, lookup_put, lookup_skip, ek_LayerStyle, kLayerStyle, kVisualObject]),
    _, skip_rt rt_FloatValue h6 (by simp [eSatinStyle, lookup_append, lookup_put, lookup_skip, ek_LayerStyle, kLayerStyle, kVisualObject]),
    rfl⟩

end
end Velato
