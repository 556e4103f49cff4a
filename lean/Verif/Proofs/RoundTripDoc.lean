import Verif.Spec.Import
import Verif.Proofs.RoundTrip

/-!
# Helper lemmas for C59: layers, assets and the animation
-/

set_option linter.unusedSimpArgs false

namespace Velato
open Schema Decode Encode

section
variable {F : Type} [FloatOps F]

/-! ### Layers -/

/-- Keys of `LayerBase`. -/
def kLayerBase : List String := kVisualObject ++ ["ddd", "hd", "ty", "ind", "parent", "sr", "ip", "op", "st"]

omit [FloatOps F] in
theorem ek_LayerBase (a : LayerBase F) (k : String) (hk : k ∉ kLayerBase) :
    lookup (eLayerBase a : Obj F) k = none := by
  simp only [kLayerBase, List.mem_append, List.mem_cons, List.not_mem_nil, or_false, not_or] at hk
  obtain ⟨hs0, ⟨ho0, ho1, ho2, ho3, ho4, ho5, ho6, ho7, ho8⟩⟩ := hk
  simp [eLayerBase, lookup_append, lookup_put, lookup_skip, lookup_nul,
    ek_VisualObject _ _ hs0, Ne.symm ho0, Ne.symm ho1, Ne.symm ho2, Ne.symm ho3, Ne.symm ho4, Ne.symm ho5, Ne.symm ho6, Ne.symm ho7, Ne.symm ho8]

/-- Keys of `LayerBase` other than `st`. -/
def kLayerBase0 : List String := kVisualObject ++ ["ddd", "hd", "ty", "ind", "parent", "sr", "ip", "op"]

theorem st_rt {start : Bool} {es es' : Obj F} {v : Option F}
    (h : dStart start es = some v)
    (h' : start = true → lookup es' "st" = v.map wF64) :
    dStart start es' = some v := by
  cases start with
  | false => exact h
  | true => exact skip_rt rt_F64 h (h' rfl)

theorem rt_dLayerBase {start : Bool} {es es' : Obj F} {a : LayerBase F} (hd : dLayerBase start es = some a)
    (hA : Agree kLayerBase0 (eLayerBase a) es')
    (hst : start = true → lookup es' "st" = a.startTime.map wF64) : dLayerBase start es' = some a := by
  unfold dLayerBase at hd ⊢
  simp only [Option.bind_eq_bind, Option.bind_eq_some_iff, Option.some.injEq] at hd ⊢
  obtain ⟨v0, h0, v1, h1, v2, h2, v3, h3, v4, h4, v5, h5, v6, h6, v7, h7, v8, h8, v9, h9, rfl⟩ := hd
  exact ⟨_, rt_dVisualObject h0 (by
      intro k hk
      rw [hA k (by simp only [kLayerBase0, List.mem_append]; tauto)]
      simp only [kVisualObject, List.mem_append, List.mem_cons, List.not_mem_nil, or_false, or_assoc] at hk
      rcases hk with rfl | rfl <;>
        simp [eLayerBase, lookup_append, lookup_put, lookup_skip, lookup_nul, ek_VisualObject, kVisualObject]),
    _, skip_rt rt_BoolInt h1 ((hA "ddd" (by decide)).trans (by
      simp [eLayerBase, lookup_append, lookup_put, lookup_skip, lookup_nul, ek_VisualObject, kVisualObject])),
    _, skip_rt rt_Bool h2 ((hA "hd" (by decide)).trans (by
      simp [eLayerBase, lookup_append, lookup_put, lookup_skip, lookup_nul, ek_VisualObject, kVisualObject])),
    _, req_rt rt_U8 h3 ((hA "ty" (by decide)).trans (by
      simp [eLayerBase, lookup_append, lookup_put, lookup_skip, lookup_nul, ek_VisualObject, kVisualObject])),
    _, skip_rt rt_Usize h4 ((hA "ind" (by decide)).trans (by
      simp [eLayerBase, lookup_append, lookup_put, lookup_skip, lookup_nul, ek_VisualObject, kVisualObject])),
    _, skip_rt rt_Usize h5 ((hA "parent" (by decide)).trans (by
      simp [eLayerBase, lookup_append, lookup_put, lookup_skip, lookup_nul, ek_VisualObject, kVisualObject])),
    _, skip_rt rt_F64 h6 ((hA "sr" (by decide)).trans (by
      simp [eLayerBase, lookup_append, lookup_put, lookup_skip, lookup_nul, ek_VisualObject, kVisualObject])),
    _, req_rt rt_F64 h7 ((hA "ip" (by decide)).trans (by
      simp [eLayerBase, lookup_append, lookup_put, lookup_skip, lookup_nul, ek_VisualObject, kVisualObject])),
    _, req_rt rt_F64 h8 ((hA "op" (by decide)).trans (by
      simp [eLayerBase, lookup_append, lookup_put, lookup_skip, lookup_nul, ek_VisualObject, kVisualObject])),
    _, st_rt h9 hst, rfl⟩

/-- Keys of `VisualLayer`. -/
def kVisualLayer : List String := kLayerBase ++ ["tt", "td", "masksProperties", "ks", "ao", "tp", "hasMask", "mb", "bm", "cl", "ln", "tg", "cp", "ct"]

omit [FloatOps F] in
theorem ek_VisualLayer (a : VisualLayer F) (k : String) (hk : k ∉ kVisualLayer) :
    lookup (eVisualLayer a : Obj F) k = none := by
  simp only [kVisualLayer, List.mem_append, List.mem_cons, List.not_mem_nil, or_false, not_or] at hk
  obtain ⟨hs0, ⟨ho0, ho1, ho2, ho3, ho4, ho5, ho6, ho7, ho8, ho9, ho10, ho11, ho12, ho13⟩⟩ := hk
  simp [eVisualLayer, lookup_append, lookup_put, lookup_skip, lookup_nul,
    ek_LayerBase _ _ hs0, Ne.symm ho0, Ne.symm ho1, Ne.symm ho2, Ne.symm ho3, Ne.symm ho4, Ne.symm ho5, Ne.symm ho6, Ne.symm ho7, Ne.symm ho8, Ne.symm ho9, Ne.symm ho10, Ne.symm ho11, Ne.symm ho12, Ne.symm ho13]

/-- Keys of `VisualLayer` other than `st`. -/
def kVisualLayer0 : List String := kLayerBase0 ++ ["tt", "td", "masksProperties", "ks", "ao", "tp", "hasMask", "mb", "bm", "cl", "ln", "tg", "cp", "ct"]

theorem rt_dVisualLayer {start : Bool} {es es' : Obj F} {a : VisualLayer F} (hd : dVisualLayer start es = some a)
    (hA : Agree kVisualLayer0 (eVisualLayer a) es')
    (hst : start = true → lookup es' "st" = a.layer.startTime.map wF64) : dVisualLayer start es' = some a := by
  unfold dVisualLayer at hd ⊢
  simp only [Option.bind_eq_bind, Option.bind_eq_some_iff, Option.some.injEq] at hd ⊢
  obtain ⟨v0, h0, v1, h1, v2, h2, v3, h3, v4, h4, v5, h5, v6, h6, v7, h7, v8, h8, v9, h9, v10, h10, v11, h11, v12, h12, v13, h13, v14, h14, rfl⟩ := hd
  exact ⟨_, rt_dLayerBase h0 (by
      intro k hk
      rw [hA k (by simp only [kVisualLayer0, List.mem_append]; tauto)]
      simp only [kLayerBase, kLayerBase0, kVisualObject, List.mem_append, List.mem_cons, List.not_mem_nil, or_false, or_assoc] at hk
      rcases hk with rfl | rfl | rfl | rfl | rfl | rfl | rfl | rfl | rfl | rfl <;>
        simp [eVisualLayer, lookup_append, lookup_put, lookup_skip, lookup_nul, ek_LayerBase, kLayerBase, kLayerBase0, kVisualObject]) hst,
    _, skip_rt rt_MatteMode h1 ((hA "tt" (by decide)).trans (by
      simp [eVisualLayer, lookup_append, lookup_put, lookup_skip, lookup_nul, ek_LayerBase, kLayerBase, kLayerBase0, kVisualObject])),
    _, skip_rt rt_BoolInt h2 ((hA "td" (by decide)).trans (by
      simp [eVisualLayer, lookup_append, lookup_put, lookup_skip, lookup_nul, ek_LayerBase, kLayerBase, kLayerBase0, kVisualObject])),
    _, skip_rt (rt_vec rt_Mask) h3 ((hA "masksProperties" (by decide)).trans (by
      simp [eVisualLayer, lookup_append, lookup_put, lookup_skip, lookup_nul, ek_LayerBase, kLayerBase, kLayerBase0, kVisualObject])),
    _, req_rt rt_Transform h4 ((hA "ks" (by decide)).trans (by
      simp [eVisualLayer, lookup_append, lookup_put, lookup_skip, lookup_nul, ek_LayerBase, kLayerBase, kLayerBase0, kVisualObject])),
    _, skip_rt rt_BoolInt h5 ((hA "ao" (by decide)).trans (by
      simp [eVisualLayer, lookup_append, lookup_put, lookup_skip, lookup_nul, ek_LayerBase, kLayerBase, kLayerBase0, kVisualObject])),
    _, skip_rt rt_F64 h6 ((hA "tp" (by decide)).trans (by
      simp [eVisualLayer, lookup_append, lookup_put, lookup_skip, lookup_nul, ek_LayerBase, kLayerBase, kLayerBase0, kVisualObject])),
    _, skip_rt rt_Bool h7 ((hA "hasMask" (by decide)).trans (by
      simp [eVisualLayer, lookup_append, lookup_put, lookup_skip, lookup_nul, ek_LayerBase, kLayerBase, kLayerBase0, kVisualObject])),
    _, skip_rt rt_Bool h8 ((hA "mb" (by decide)).trans (by
      simp [eVisualLayer, lookup_append, lookup_put, lookup_skip, lookup_nul, ek_LayerBase, kLayerBase, kLayerBase0, kVisualObject])),
    _, skip_rt rt_BlendMode h9 ((hA "bm" (by decide)).trans (by
      simp [eVisualLayer, lookup_append, lookup_put, lookup_skip, lookup_nul, ek_LayerBase, kLayerBase, kLayerBase0, kVisualObject])),
    _, skip_rt rt_Str h10 ((hA "cl" (by decide)).trans (by
      simp [eVisualLayer, lookup_append, lookup_put, lookup_skip, lookup_nul, ek_LayerBase, kLayerBase, kLayerBase0, kVisualObject])),
    _, skip_rt rt_Str h11 ((hA "ln" (by decide)).trans (by
      simp [eVisualLayer, lookup_append, lookup_put, lookup_skip, lookup_nul, ek_LayerBase, kLayerBase, kLayerBase0, kVisualObject])),
    _, skip_rt rt_Str h12 ((hA "tg" (by decide)).trans (by
      simp [eVisualLayer, lookup_append, lookup_put, lookup_skip, lookup_nul, ek_LayerBase, kLayerBase, kLayerBase0, kVisualObject])),
    _, skip_rt rt_Str h13 ((hA "cp" (by decide)).trans (by
      simp [eVisualLayer, lookup_append, lookup_put, lookup_skip, lookup_nul, ek_LayerBase, kLayerBase, kLayerBase0, kVisualObject])),
    _, skip_rt rt_BoolInt h14 ((hA "ct" (by decide)).trans (by
      simp [eVisualLayer, lookup_append, lookup_put, lookup_skip, lookup_nul, ek_LayerBase, kLayerBase, kLayerBase0, kVisualObject])), rfl⟩

omit [FloatOps F] in
theorem lookup_st (a : VisualLayer F) :
    lookup (eVisualLayer a) "st" = a.layer.startTime.map wF64 := by
  simp [eVisualLayer, eLayerBase, lookup_append, lookup_put, lookup_skip, ek_VisualObject,
    kVisualObject]

omit [FloatOps F] in
theorem lookup_ty (a : VisualLayer F) :
    lookup (eVisualLayer a) "ty" = some (wU8 a.layer.layerType) := by
  simp [eVisualLayer, eLayerBase, lookup_append, lookup_put, lookup_skip, ek_VisualObject,
    kVisualObject]

theorem layerType_of {start : Bool} {es : Obj F} {a : VisualLayer F} {n : Nat}
    (hd : dVisualLayer start es = some a) (hl : lookup es "ty" = some (.num (.posInt n))) :
    a.layer.layerType = n := by
  unfold dVisualLayer dLayerBase at hd
  simp only [Option.bind_eq_bind, Option.bind_eq_some_iff, Option.some.injEq] at hd
  obtain ⟨_, ⟨_, _, _, _, _, _, ty, hty, _, _, _, _, _, _, _, _, _, _, _, _, rfl⟩, _, _, _, _, _, _,
    _, _, _, _, _, _, _, _, _, _, _, _, _, _, _, _, _, _, _, _, _, _, rfl⟩ := hd
  simp only [req, hl, jU8, jNat] at hty
  split at hty
  · exact (Option.some.inj hty).symm
  · exact nomatch hty

/-- Keys of `PrecompositionLayer`. -/
def kPrecompositionLayer : List String := kVisualLayer ++ ["refId", "w", "h", "st", "tm"]

omit [FloatOps F] in
theorem ek_PrecompositionLayer (a : PrecompositionLayer F) (k : String) (hk : k ∉ kPrecompositionLayer) :
    lookup (ePrecompositionLayer a : Obj F) k = none := by
  simp only [kPrecompositionLayer, List.mem_append, List.mem_cons, List.not_mem_nil, or_false, not_or] at hk
  obtain ⟨hs0, ⟨ho0, ho1, ho2, ho3, ho4⟩⟩ := hk
  simp [ePrecompositionLayer, lookup_append, lookup_put, lookup_skip, lookup_nul,
    ek_VisualLayer _ _ hs0, Ne.symm ho0, Ne.symm ho1, Ne.symm ho2, Ne.symm ho3, Ne.symm ho4]

theorem rt_dPrecompositionLayer {es es' : Obj F} {a : PrecompositionLayer F} (hd : dPrecompositionLayer es = some a)
    (hA : Agree kPrecompositionLayer (ePrecompositionLayer a) es') : dPrecompositionLayer es' = some a := by
  unfold dPrecompositionLayer at hd ⊢
  simp only [Option.bind_eq_bind, Option.bind_eq_some_iff, Option.some.injEq] at hd ⊢
  obtain ⟨v0, h0, v1, h1, v2, h2, v3, h3, v4, h4, v5, h5, rfl⟩ := hd
  exact ⟨_, rt_dVisualLayer h0 (by
      intro k hk
      simp only [kVisualLayer0, kLayerBase0, kVisualObject, List.mem_append, List.mem_cons, List.not_mem_nil, or_false, or_assoc] at hk
      rcases hk with rfl | rfl | rfl | rfl | rfl | rfl | rfl | rfl | rfl | rfl | rfl | rfl | rfl | rfl | rfl | rfl | rfl | rfl | rfl | rfl | rfl | rfl | rfl | rfl <;>
        (rw [hA _ (by decide)]; simp [ePrecompositionLayer, lookup_append, lookup_put, lookup_skip, lookup_nul])) (fun h => nomatch h),
    _, req_rt rt_Str h1 ((hA "refId" (by decide)).trans (by
      simp [ePrecompositionLayer, lookup_append, lookup_put, lookup_skip, lookup_nul, ek_VisualLayer, kVisualLayer, kVisualLayer0, kLayerBase, kLayerBase0, kVisualObject])),
    _, req_rt rt_F64 h2 ((hA "w" (by decide)).trans (by
      simp [ePrecompositionLayer, lookup_append, lookup_put, lookup_skip, lookup_nul, ek_VisualLayer, kVisualLayer, kVisualLayer0, kLayerBase, kLayerBase0, kVisualObject])),
    _, req_rt rt_F64 h3 ((hA "h" (by decide)).trans (by
      simp [ePrecompositionLayer, lookup_append, lookup_put, lookup_skip, lookup_nul, ek_VisualLayer, kVisualLayer, kVisualLayer0, kLayerBase, kLayerBase0, kVisualObject])),
    _, req_rt rt_F64 h4 ((hA "st" (by decide)).trans (by
      simp [ePrecompositionLayer, lookup_append, lookup_put, lookup_skip, lookup_nul, ek_VisualLayer, kVisualLayer, kVisualLayer0, kLayerBase, kLayerBase0, kVisualObject])),
    _, skip_rt rt_FloatValue h5 ((hA "tm" (by decide)).trans (by
      simp [ePrecompositionLayer, lookup_append, lookup_put, lookup_skip, lookup_nul, ek_VisualLayer, kVisualLayer, kVisualLayer0, kLayerBase, kLayerBase0, kVisualObject])), rfl⟩

/-- Keys of `SolidLayer`. -/
def kSolidLayer : List String := kVisualLayer ++ ["sw", "sh", "sc"]

omit [FloatOps F] in
theorem ek_SolidLayer (a : SolidLayer F) (k : String) (hk : k ∉ kSolidLayer) :
    lookup (eSolidLayer a : Obj F) k = none := by
  simp only [kSolidLayer, List.mem_append, List.mem_cons, List.not_mem_nil, or_false, not_or] at hk
  obtain ⟨hs0, ⟨ho0, ho1, ho2⟩⟩ := hk
  simp [eSolidLayer, lookup_append, lookup_put, lookup_skip, lookup_nul,
    ek_VisualLayer _ _ hs0, Ne.symm ho0, Ne.symm ho1, Ne.symm ho2]

theorem rt_dSolidLayer {es es' : Obj F} {a : SolidLayer F} (hd : dSolidLayer es = some a)
    (hA : Agree kSolidLayer (eSolidLayer a) es') : dSolidLayer es' = some a := by
  unfold dSolidLayer at hd ⊢
  simp only [Option.bind_eq_bind, Option.bind_eq_some_iff, Option.some.injEq] at hd ⊢
  obtain ⟨v0, h0, v1, h1, v2, h2, v3, h3, rfl⟩ := hd
  exact ⟨_, rt_dVisualLayer h0 (by
      intro k hk
      simp only [kVisualLayer0, kLayerBase0, kVisualObject, List.mem_append, List.mem_cons, List.not_mem_nil, or_false, or_assoc] at hk
      rcases hk with rfl | rfl | rfl | rfl | rfl | rfl | rfl | rfl | rfl | rfl | rfl | rfl | rfl | rfl | rfl | rfl | rfl | rfl | rfl | rfl | rfl | rfl | rfl | rfl <;>
        (rw [hA _ (by decide)]; simp [eSolidLayer, lookup_append, lookup_put, lookup_skip, lookup_nul])) (fun _ => by
      rw [hA "st" (by decide)]
      simp [eSolidLayer, lookup_append, lookup_put, lookup_skip, lookup_nul, lookup_st]),
    _, req_rt rt_F64 h1 ((hA "sw" (by decide)).trans (by
      simp [eSolidLayer, lookup_append, lookup_put, lookup_skip, lookup_nul, ek_VisualLayer, kVisualLayer, kVisualLayer0, kLayerBase, kLayerBase0, kVisualObject])),
    _, req_rt rt_F64 h2 ((hA "sh" (by decide)).trans (by
      simp [eSolidLayer, lookup_append, lookup_put, lookup_skip, lookup_nul, ek_VisualLayer, kVisualLayer, kVisualLayer0, kLayerBase, kLayerBase0, kVisualObject])),
    _, req_rt rt_Str h3 ((hA "sc" (by decide)).trans (by
      simp [eSolidLayer, lookup_append, lookup_put, lookup_skip, lookup_nul, ek_VisualLayer, kVisualLayer, kVisualLayer0, kLayerBase, kLayerBase0, kVisualObject])), rfl⟩

/-- Keys of `ShapeLayer`. -/
def kShapeLayer : List String := kVisualLayer ++ ["shapes"]

omit [FloatOps F] in
theorem ek_ShapeLayer (a : ShapeLayer F) (k : String) (hk : k ∉ kShapeLayer) :
    lookup (eShapeLayer a : Obj F) k = none := by
  simp only [kShapeLayer, List.mem_append, List.mem_cons, List.not_mem_nil, or_false, not_or] at hk
  obtain ⟨hs0, ho0⟩ := hk
  simp [eShapeLayer, lookup_append, lookup_put, lookup_skip, lookup_nul,
    ek_VisualLayer _ _ hs0, Ne.symm ho0]

theorem rt_dShapeLayer {es es' : Obj F} {a : ShapeLayer F} (hd : dShapeLayer es = some a)
    (hA : Agree kShapeLayer (eShapeLayer a) es') : dShapeLayer es' = some a := by
  unfold dShapeLayer at hd ⊢
  simp only [Option.bind_eq_bind, Option.bind_eq_some_iff, Option.some.injEq] at hd ⊢
  obtain ⟨v0, h0, v1, h1, rfl⟩ := hd
  exact ⟨_, rt_dVisualLayer h0 (by
      intro k hk
      simp only [kVisualLayer0, kLayerBase0, kVisualObject, List.mem_append, List.mem_cons, List.not_mem_nil, or_false, or_assoc] at hk
      rcases hk with rfl | rfl | rfl | rfl | rfl | rfl | rfl | rfl | rfl | rfl | rfl | rfl | rfl | rfl | rfl | rfl | rfl | rfl | rfl | rfl | rfl | rfl | rfl | rfl <;>
        (rw [hA _ (by decide)]; simp [eShapeLayer, lookup_append, lookup_put, lookup_skip, lookup_nul])) (fun _ => by
      rw [hA "st" (by decide)]
      simp [eShapeLayer, lookup_append, lookup_put, lookup_skip, lookup_nul, lookup_st]),
    _, req_rt (rt_vec rt_Shape) h1 ((hA "shapes" (by decide)).trans (by
      simp [eShapeLayer, lookup_append, lookup_put, lookup_skip, lookup_nul, ek_VisualLayer, kVisualLayer, kVisualLayer0, kLayerBase, kLayerBase0, kVisualObject])), rfl⟩

/-- Keys of `ImageLayer`. -/
def kImageLayer : List String := kVisualLayer ++ ["refId"]

omit [FloatOps F] in
theorem ek_ImageLayer (a : ImageLayer F) (k : String) (hk : k ∉ kImageLayer) :
    lookup (eImageLayer a : Obj F) k = none := by
  simp only [kImageLayer, List.mem_append, List.mem_cons, List.not_mem_nil, or_false, not_or] at hk
  obtain ⟨hs0, ho0⟩ := hk
  simp [eImageLayer, lookup_append, lookup_put, lookup_skip, lookup_nul,
    ek_VisualLayer _ _ hs0, Ne.symm ho0]

theorem rt_dImageLayer {es es' : Obj F} {a : ImageLayer F} (hd : dImageLayer es = some a)
    (hA : Agree kImageLayer (eImageLayer a) es') : dImageLayer es' = some a := by
  unfold dImageLayer at hd ⊢
  simp only [Option.bind_eq_bind, Option.bind_eq_some_iff, Option.some.injEq] at hd ⊢
  obtain ⟨v0, h0, v1, h1, rfl⟩ := hd
  exact ⟨_, rt_dVisualLayer h0 (by
      intro k hk
      simp only [kVisualLayer0, kLayerBase0, kVisualObject, List.mem_append, List.mem_cons, List.not_mem_nil, or_false, or_assoc] at hk
      rcases hk with rfl | rfl | rfl | rfl | rfl | rfl | rfl | rfl | rfl | rfl | rfl | rfl | rfl | rfl | rfl | rfl | rfl | rfl | rfl | rfl | rfl | rfl | rfl | rfl <;>
        (rw [hA _ (by decide)]; simp [eImageLayer, lookup_append, lookup_put, lookup_skip, lookup_nul])) (fun _ => by
      rw [hA "st" (by decide)]
      simp [eImageLayer, lookup_append, lookup_put, lookup_skip, lookup_nul, lookup_st]),
    _, req_rt rt_Str h1 ((hA "refId" (by decide)).trans (by
      simp [eImageLayer, lookup_append, lookup_put, lookup_skip, lookup_nul, ek_VisualLayer, kVisualLayer, kVisualLayer0, kLayerBase, kLayerBase0, kVisualObject])), rfl⟩

theorem rt_Layer : RT (F := F) jLayer wLayer := by
  intro j a hj
  unfold jLayer at hj
  split at hj
  · exact nomatch hj
  rename_i es hes
  split at hj
  all_goals first
    | (rename_i hl
       obtain ⟨v, hv, rfl⟩ := Option.map_eq_some_iff.mp hj
       refine ⟨?_, by simp [wLayer]⟩)
    | simp at hj
  · have hw : lookup (ePrecompositionLayer v) "ty" = some (.num (.posInt 0)) := by
      have hv' := hv
      unfold dPrecompositionLayer at hv'
      simp only [Option.bind_eq_bind, Option.bind_eq_some_iff, Option.some.injEq] at hv'
      obtain ⟨u, hu, _, _, _, _, _, _, _, _, _, _, rfl⟩ := hv'
      simp [ePrecompositionLayer, lookup_append, lookup_put, lookup_skip, lookup_ty, wU8,
        layerType_of hu hl]
    simp only [jLayer, wLayer, objOnly]
    rw [hw]
    simp only [rt_dPrecompositionLayer hv fun _ _ => rfl, Option.map_some]
  · have hw : lookup (eSolidLayer v) "ty" = some (.num (.posInt 1)) := by
      have hv' := hv
      unfold dSolidLayer at hv'
      simp only [Option.bind_eq_bind, Option.bind_eq_some_iff, Option.some.injEq] at hv'
      obtain ⟨u, hu, _, _, _, _, _, _, rfl⟩ := hv'
      simp [eSolidLayer, lookup_append, lookup_put, lookup_skip, lookup_ty, wU8,
        layerType_of hu hl]
    simp only [jLayer, wLayer, objOnly]
    rw [hw]
    simp only [rt_dSolidLayer hv fun _ _ => rfl, Option.map_some]
  · have hw : lookup (eImageLayer v) "ty" = some (.num (.posInt 2)) := by
      have hv' := hv
      unfold dImageLayer at hv'
      simp only [Option.bind_eq_bind, Option.bind_eq_some_iff, Option.some.injEq] at hv'
      obtain ⟨u, hu, _, _, rfl⟩ := hv'
      simp [eImageLayer, lookup_append, lookup_put, lookup_skip, lookup_ty, wU8,
        layerType_of hu hl]
    simp only [jLayer, wLayer, objOnly]
    rw [hw]
    simp only [rt_dImageLayer hv fun _ _ => rfl, Option.map_some]
  · have hw : lookup (eVisualLayer v) "ty" = some (.num (.posInt 3)) := by
      simp [lookup_ty, wU8, layerType_of hv hl]
    simp only [jLayer, wLayer, objOnly]
    rw [hw]
    simp only [rt_dVisualLayer hv (fun _ _ => rfl) (fun _ => lookup_st v), Option.map_some]
  · have hw : lookup (eShapeLayer v) "ty" = some (.num (.posInt 4)) := by
      have hv' := hv
      unfold dShapeLayer at hv'
      simp only [Option.bind_eq_bind, Option.bind_eq_some_iff, Option.some.injEq] at hv'
      obtain ⟨u, hu, _, _, rfl⟩ := hv'
      simp [eShapeLayer, lookup_append, lookup_put, lookup_skip, lookup_ty, wU8,
        layerType_of hu hl]
    simp only [jLayer, wLayer, objOnly]
    rw [hw]
    simp only [rt_dShapeLayer hv fun _ _ => rfl, Option.map_some]

/-! ### Assets and animations -/

/-- Keys of `Asset`. -/
def kAsset : List String := kVisualObject ++ ["id"]

omit [FloatOps F] in
theorem ek_Asset (a : AssetBase) (k : String) (hk : k ∉ kAsset) :
    lookup (eAsset a : Obj F) k = none := by
  simp only [kAsset, List.mem_append, List.mem_cons, List.not_mem_nil, or_false, not_or] at hk
  obtain ⟨hs0, ho0⟩ := hk
  simp [eAsset, lookup_append, lookup_put, lookup_skip, lookup_nul,
    ek_VisualObject _ _ hs0, Ne.symm ho0]

omit [FloatOps F] in
theorem rt_dAsset {es es' : Obj F} {a : AssetBase} (hd : dAsset es = some a)
    (hA : Agree kAsset (eAsset a) es') : dAsset es' = some a := by
  unfold dAsset at hd ⊢
  simp only [Option.bind_eq_bind, Option.bind_eq_some_iff, Option.some.injEq] at hd ⊢
  obtain ⟨v0, h0, v1, h1, rfl⟩ := hd
  exact ⟨_, req_rt rt_Str h0 ((hA "id" (by decide)).trans (by
      simp [eAsset, lookup_append, lookup_put, lookup_skip, lookup_nul, ek_VisualObject, kVisualObject])),
    _, rt_dVisualObject h1 (by
      intro k hk
      rw [hA k (by simp only [kAsset, List.mem_append]; tauto)]
      simp only [kVisualObject, kVisualObject, List.mem_append, List.mem_cons, List.not_mem_nil, or_false, or_assoc] at hk
      rcases hk with rfl | rfl <;>
        simp [eAsset, lookup_append, lookup_put, lookup_skip, lookup_nul, ek_VisualObject, kVisualObject]), rfl⟩

/-- Keys of `FileAsset`. -/
def kFileAsset : List String := kAsset ++ ["u", "p", "e"]

omit [FloatOps F] in
theorem ek_FileAsset (a : FileAsset) (k : String) (hk : k ∉ kFileAsset) :
    lookup (eFileAsset a : Obj F) k = none := by
  simp only [kFileAsset, List.mem_append, List.mem_cons, List.not_mem_nil, or_false, not_or] at hk
  obtain ⟨hs0, ⟨ho0, ho1, ho2⟩⟩ := hk
  simp [eFileAsset, lookup_append, lookup_put, lookup_skip, lookup_nul,
    ek_Asset _ _ hs0, Ne.symm ho0, Ne.symm ho1, Ne.symm ho2]

omit [FloatOps F] in
theorem rt_dFileAsset {es es' : Obj F} {a : FileAsset} (hd : dFileAsset es = some a)
    (hA : Agree kFileAsset (eFileAsset a) es') : dFileAsset es' = some a := by
  unfold dFileAsset at hd ⊢
  simp only [Option.bind_eq_bind, Option.bind_eq_some_iff, Option.some.injEq] at hd ⊢
  obtain ⟨v0, h0, v1, h1, v2, h2, v3, h3, rfl⟩ := hd
  exact ⟨_, rt_dAsset h0 (by
      intro k hk
      rw [hA k (by simp only [kFileAsset, List.mem_append]; tauto)]
      simp only [kAsset, kAsset, kVisualObject, List.mem_append, List.mem_cons, List.not_mem_nil, or_false, or_assoc] at hk
      rcases hk with rfl | rfl | rfl <;>
        simp [eFileAsset, lookup_append, lookup_put, lookup_skip, lookup_nul, ek_Asset, kAsset, kVisualObject]),
    _, skip_rt rt_Str h1 ((hA "u" (by decide)).trans (by
      simp [eFileAsset, lookup_append, lookup_put, lookup_skip, lookup_nul, ek_Asset, kAsset, kVisualObject])),
    _, req_rt rt_Str h2 ((hA "p" (by decide)).trans (by
      simp [eFileAsset, lookup_append, lookup_put, lookup_skip, lookup_nul, ek_Asset, kAsset, kVisualObject])),
    _, skip_rt rt_BoolInt h3 ((hA "e" (by decide)).trans (by
      simp [eFileAsset, lookup_append, lookup_put, lookup_skip, lookup_nul, ek_Asset, kAsset, kVisualObject])), rfl⟩

/-- Keys of `ImageAsset`. -/
def kImageAsset : List String := kFileAsset ++ ["sid", "w", "h", "t"]

omit [FloatOps F] in
theorem ek_ImageAsset (a : ImageAsset F) (k : String) (hk : k ∉ kImageAsset) :
    lookup (eImageAsset a : Obj F) k = none := by
  simp only [kImageAsset, List.mem_append, List.mem_cons, List.not_mem_nil, or_false, not_or] at hk
  obtain ⟨hs0, ⟨ho0, ho1, ho2, ho3⟩⟩ := hk
  simp [eImageAsset, lookup_append, lookup_put, lookup_skip, lookup_nul,
    ek_FileAsset _ _ hs0, Ne.symm ho0, Ne.symm ho1, Ne.symm ho2, Ne.symm ho3]

omit [FloatOps F] in
theorem seq_rt {es es' : Obj F} {v : Option Bool} (h : dSequence es = some v)
    (h' : lookup es' "t" = v.map wSequence) : dSequence es' = some v := by
  unfold dSequence at h ⊢
  rw [h']
  split at h
  · cases h; rfl
  · split at h
    · cases h; rfl
    · cases h; rfl
  · exact nomatch h

theorem rt_dImageAsset {es es' : Obj F} {a : ImageAsset F} (hd : dImageAsset es = some a)
    (hA : Agree kImageAsset (eImageAsset a) es') : dImageAsset es' = some a := by
  unfold dImageAsset at hd ⊢
  simp only [Option.bind_eq_bind, Option.bind_eq_some_iff, Option.some.injEq] at hd ⊢
  obtain ⟨v0, h0, v1, h1, v2, h2, v3, h3, v4, h4, rfl⟩ := hd
  exact ⟨_, rt_dFileAsset h0 (by
      intro k hk
      rw [hA k (by simp only [kImageAsset, List.mem_append]; tauto)]
      simp only [kFileAsset, kAsset, kVisualObject, List.mem_append, List.mem_cons, List.not_mem_nil, or_false, or_assoc] at hk
      rcases hk with rfl | rfl | rfl | rfl | rfl | rfl <;>
        simp [eImageAsset, lookup_append, lookup_put, lookup_skip, lookup_nul, ek_FileAsset, kFileAsset, kAsset, kVisualObject]),
    _, skip_rt rt_Str h1 ((hA "sid" (by decide)).trans (by simp [eImageAsset, lookup_append, lookup_put, lookup_skip, lookup_nul, ek_FileAsset, kFileAsset, kAsset, kVisualObject])),
    _, skip_rt rt_F64 h2 ((hA "w" (by decide)).trans (by simp [eImageAsset, lookup_append, lookup_put, lookup_skip, lookup_nul, ek_FileAsset, kFileAsset, kAsset, kVisualObject])),
    _, skip_rt rt_F64 h3 ((hA "h" (by decide)).trans (by simp [eImageAsset, lookup_append, lookup_put, lookup_skip, lookup_nul, ek_FileAsset, kFileAsset, kAsset, kVisualObject])),
    _, seq_rt h4 ((hA "t" (by decide)).trans (by simp [eImageAsset, lookup_append, lookup_put, lookup_skip, lookup_nul, ek_FileAsset, kFileAsset, kAsset, kVisualObject])), rfl⟩

/-- Keys of `PrecompAsset`. -/
def kPrecompAsset : List String := kAsset ++ ["layers", "fr", "xt"]

omit [FloatOps F] in
theorem ek_PrecompAsset (a : PrecompAsset F) (k : String) (hk : k ∉ kPrecompAsset) :
    lookup (ePrecompAsset a : Obj F) k = none := by
  simp only [kPrecompAsset, List.mem_append, List.mem_cons, List.not_mem_nil, or_false, not_or] at hk
  obtain ⟨hs0, ⟨ho0, ho1, ho2⟩⟩ := hk
  simp [ePrecompAsset, lookup_append, lookup_put, lookup_skip, lookup_nul,
    ek_Asset _ _ hs0, Ne.symm ho0, Ne.symm ho1, Ne.symm ho2]

theorem rt_dPrecompAsset {es es' : Obj F} {a : PrecompAsset F} (hd : dPrecompAsset es = some a)
    (hA : Agree kPrecompAsset (ePrecompAsset a) es') : dPrecompAsset es' = some a := by
  unfold dPrecompAsset at hd ⊢
  simp only [Option.bind_eq_bind, Option.bind_eq_some_iff, Option.some.injEq] at hd ⊢
  obtain ⟨v0, h0, v1, h1, v2, h2, v3, h3, rfl⟩ := hd
  exact ⟨_, rt_dAsset h0 (by
      intro k hk
      rw [hA k (by simp only [kPrecompAsset, List.mem_append]; tauto)]
      simp only [kAsset, kAsset, kVisualObject, List.mem_append, List.mem_cons, List.not_mem_nil, or_false, or_assoc] at hk
      rcases hk with rfl | rfl | rfl <;>
        simp [ePrecompAsset, lookup_append, lookup_put, lookup_skip, lookup_nul, ek_Asset, kAsset, kVisualObject]),
    _, req_rt (rt_vec rt_Layer) h1 ((hA "layers" (by decide)).trans (by
      simp [ePrecompAsset, lookup_append, lookup_put, lookup_skip, lookup_nul, ek_Asset, kAsset, kVisualObject])),
    _, skip_rt rt_F64 h2 ((hA "fr" (by decide)).trans (by
      simp [ePrecompAsset, lookup_append, lookup_put, lookup_skip, lookup_nul, ek_Asset, kAsset, kVisualObject])),
    _, skip_rt rt_BoolInt h3 ((hA "xt" (by decide)).trans (by
      simp [ePrecompAsset, lookup_append, lookup_put, lookup_skip, lookup_nul, ek_Asset, kAsset, kVisualObject])), rfl⟩

/-- Every image asset has a width or a height. -/
def SizedAssets (o : Option (List (AnyAsset F))) : Prop :=
  ∀ as, o = some as → ∀ i, AnyAsset.image i ∈ as → i.width ≠ none ∨ i.height ≠ none

theorem rt_asset {j : Json F} {a : AnyAsset F} (hj : jAsset j = some a)
    (hs : ∀ i, a = .image i → i.width ≠ none ∨ i.height ≠ none) : jAsset (wAnyAsset a) = some a := by
  unfold jAsset at hj
  split at hj
  · exact nomatch hj
  rename_i es hes
  split at hj
  · obtain ⟨v, hv, rfl⟩ := Option.map_eq_some_iff.mp hj
    have hl : lookup (ePrecompAsset v) "layers" = some (wVec wLayer v.layers) := by
      simp [ePrecompAsset, lookup_append, lookup_put, lookup_skip]
    simp only [jAsset, wAnyAsset, objOnly, hl, Option.isSome_some, if_true]
    simp only [rt_dPrecompAsset hv fun _ _ => rfl, Option.map_some]
  · split at hj
    · exact nomatch hj
    split at hj
    · obtain ⟨v, hv, rfl⟩ := Option.map_eq_some_iff.mp hj
      have hl : lookup (eImageAsset v) "layers" = none := ek_ImageAsset v _ (by decide)
      have ht : lookup (eImageAsset v) "t" = v.sequence.map wSequence := by
        simp [eImageAsset, lookup_append, lookup_put, lookup_skip, ek_FileAsset, kFileAsset, kAsset,
          kVisualObject]
      have hw : lookup (eImageAsset v) "w" = v.width.map wF64 := by
        simp [eImageAsset, lookup_append, lookup_put, lookup_skip, ek_FileAsset, kFileAsset, kAsset,
          kVisualObject]
      have hh : lookup (eImageAsset v) "h" = v.height.map wF64 := by
        simp [eImageAsset, lookup_append, lookup_put, lookup_skip, ek_FileAsset, kFileAsset, kAsset,
          kVisualObject]
      have hsz : ((lookup (eImageAsset v) "w").isSome || (lookup (eImageAsset v) "h").isSome)
          = true := by
        rw [hw, hh]
        rcases hs v rfl with h | h
        · cases hc : v.width <;> simp_all
        · cases hc : v.height <;> simp_all
      have hi := rt_dImageAsset hv (es' := eImageAsset v) fun _ _ => rfl
      simp only [jAsset, wAnyAsset, objOnly, hl, Option.isSome_none, Bool.false_eq_true, if_false]
      rw [ht, hsz, hi]
      split
      · rename_i h
        cases hq : v.sequence with
        | none => rw [hq] at h; exact nomatch h
        | some b => rw [hq] at h; cases b <;> simp [wSequence] at h
      · rfl
    · exact nomatch hj

theorem assets_rt {es es' : Obj F} {k : String} {o : Option (List (AnyAsset F))}
    (hs : SizedAssets o) (h1 : opt (jVec jAsset) es k = some o)
    (h2 : lookup es' k = o.map (wVec wAnyAsset)) : opt (jVec jAsset) es' k = some o := by
  cases o with
  | none => unfold opt; rw [h2]; rfl
  | some v =>
    obtain ⟨j, hj1, hj2, hd⟩ := opt_some h1
    clear hj1 hj2
    refine opt_of_some (j := wVec wAnyAsset v) (fun h => nomatch h) h2 ?_
    replace hs := hs v rfl
    cases j with
    | arr js =>
      simp only [jVec, wVec] at hd ⊢
      clear h1 h2
      induction js generalizing v with
      | nil => simp only [List.mapM_nil] at hd; cases hd; rfl
      | cons j js ih =>
        simp only [List.mapM_cons, Option.bind_eq_bind, Option.bind_eq_some_iff, Option.pure_def,
          Option.some.injEq] at hd
        obtain ⟨x, hx, ys, hys, rfl⟩ := hd
        have h1 := rt_asset hx fun i e => hs i (by simp [e])
        have h2 := ih _ (fun i hi => hs i (by simp [hi])) hys
        simp only [List.map_cons, List.mapM_cons, h1, h2, Option.bind_eq_bind,
          Option.bind_some, Option.pure_def]
    | _ => simp [jVec] at hd

/-- Keys of `Marker`. -/
def kMarker : List String := ["cm", "tm", "dr"]

omit [FloatOps F] in
theorem ek_Marker (a : Marker F) (k : String) (hk : k ∉ kMarker) :
    lookup (eMarker a : Obj F) k = none := by
  simp only [kMarker, List.mem_append, List.mem_cons, List.not_mem_nil, or_false, not_or] at hk
  obtain ⟨ho0, ho1, ho2⟩ := hk
  simp [eMarker, lookup_append, lookup_put, lookup_skip, lookup_nul,
    Ne.symm ho0, Ne.symm ho1, Ne.symm ho2]

theorem rt_dMarker {es es' : Obj F} {a : Marker F} (hd : dMarker es = some a)
    (hA : Agree kMarker (eMarker a) es') : dMarker es' = some a := by
  unfold dMarker at hd ⊢
  simp only [Option.bind_eq_bind, Option.bind_eq_some_iff, Option.some.injEq] at hd ⊢
  obtain ⟨v0, h0, v1, h1, v2, h2, rfl⟩ := hd
  exact ⟨_, skip_rt rt_Str h0 ((hA "cm" (by decide)).trans (by
      simp [eMarker, lookup_append, lookup_put, lookup_skip, lookup_nul])),
    _, skip_rt rt_F64 h1 ((hA "tm" (by decide)).trans (by
      simp [eMarker, lookup_append, lookup_put, lookup_skip, lookup_nul])),
    _, skip_rt rt_F64 h2 ((hA "dr" (by decide)).trans (by
      simp [eMarker, lookup_append, lookup_put, lookup_skip, lookup_nul])), rfl⟩

theorem rt_Marker : RT (F := F) jMarker wMarker :=
  rt_struct (fun _ _ _ => rt_dMarker) (entries _) fun _ => rfl

/-- Keys of `Meta`. -/
def kMeta : List String := ["a", "d", "tc", "g", "k"]

omit [FloatOps F] in
theorem ek_Meta (a : Meta F) (k : String) (hk : k ∉ kMeta) :
    lookup (eMeta a : Obj F) k = none := by
  simp only [kMeta, List.mem_append, List.mem_cons, List.not_mem_nil, or_false, not_or] at hk
  obtain ⟨ho0, ho1, ho2, ho3, ho4⟩ := hk
  simp [eMeta, lookup_append, lookup_put, lookup_skip, lookup_nul,
    Ne.symm ho0, Ne.symm ho1, Ne.symm ho2, Ne.symm ho3, Ne.symm ho4]

omit [FloatOps F] in
theorem rt_dMeta {es es' : Obj F} {a : Meta F} (hd : dMeta es = some a)
    (hA : Agree kMeta (eMeta a) es') : dMeta es' = some a := by
  unfold dMeta at hd ⊢
  simp only [Option.bind_eq_bind, Option.bind_eq_some_iff, Option.some.injEq] at hd ⊢
  obtain ⟨v0, h0, v1, h1, v2, h2, v3, h3, v4, h4, rfl⟩ := hd
  exact ⟨_, skip_rt rt_Str h0 ((hA "a" (by decide)).trans (by
      simp [eMeta, lookup_append, lookup_put, lookup_skip, lookup_nul])),
    _, skip_rt rt_Str h1 ((hA "d" (by decide)).trans (by
      simp [eMeta, lookup_append, lookup_put, lookup_skip, lookup_nul])),
    _, skip_rt rt_Str h2 ((hA "tc" (by decide)).trans (by
      simp [eMeta, lookup_append, lookup_put, lookup_skip, lookup_nul])),
    _, skip_rt rt_Str h3 ((hA "g" (by decide)).trans (by
      simp [eMeta, lookup_append, lookup_put, lookup_skip, lookup_nul])),
    _, val_rt h4 ((hA "k" (by decide)).trans (by
      simp [eMeta, lookup_append, lookup_put, lookup_skip, lookup_nul])), rfl⟩

omit [FloatOps F] in
theorem rt_Meta : RT (F := F) jMeta wMeta :=
  rt_struct (fun _ _ _ => rt_dMeta) metaEntries fun _ => rfl

/-- Keys of `Animation`. -/
def kAnimation : List String := kVisualObject ++ ["layers", "v", "ver", "fr", "ip", "op", "w", "h", "ddd", "assets", "markers", "meta", "metadata"]

omit [FloatOps F] in
theorem ek_Animation (a : Animation F) (k : String) (hk : k ∉ kAnimation) :
    lookup (eAnimation a : Obj F) k = none := by
  simp only [kAnimation, List.mem_append, List.mem_cons, List.not_mem_nil, or_false, not_or] at hk
  obtain ⟨hs0, ⟨ho0, ho1, ho2, ho3, ho4, ho5, ho6, ho7, ho8, ho9, ho10, ho11, ho12⟩⟩ := hk
  simp [eAnimation, lookup_append, lookup_put, lookup_skip, lookup_nul,
    ek_VisualObject _ _ hs0, Ne.symm ho0, Ne.symm ho1, Ne.symm ho2, Ne.symm ho3, Ne.symm ho4, Ne.symm ho5, Ne.symm ho6, Ne.symm ho7, Ne.symm ho8, Ne.symm ho9, Ne.symm ho10, Ne.symm ho11, Ne.symm ho12]

theorem rt_dAnimation {es es' : Obj F} {a : Animation F} (hd : dAnimation es = some a)
    (hA : Agree kAnimation (eAnimation a) es') (hs : SizedAssets a.assets) : dAnimation es' = some a := by
  unfold dAnimation at hd ⊢
  simp only [Option.bind_eq_bind, Option.bind_eq_some_iff, Option.some.injEq] at hd ⊢
  obtain ⟨v0, h0, v1, h1, v2, h2, v3, h3, v4, h4, v5, h5, v6, h6, v7, h7, v8, h8, v9, h9, v10, h10, v11, h11, v12, h12, v13, h13, rfl⟩ := hd
  exact ⟨_, rt_dVisualObject h0 (by
      intro k hk
      rw [hA k (by simp only [kAnimation, List.mem_append]; tauto)]
      simp only [kVisualObject, kVisualObject, List.mem_append, List.mem_cons, List.not_mem_nil, or_false, or_assoc] at hk
      rcases hk with rfl | rfl <;>
        simp [eAnimation, lookup_append, lookup_put, lookup_skip, lookup_nul, ek_VisualObject, kVisualObject]),
    _, req_rt (rt_vec rt_Layer) h1 ((hA "layers" (by decide)).trans (by
      simp [eAnimation, lookup_append, lookup_put, lookup_skip, lookup_nul, ek_VisualObject, kVisualObject])),
    _, skip_rt rt_Str h2 ((hA "v" (by decide)).trans (by
      simp [eAnimation, lookup_append, lookup_put, lookup_skip, lookup_nul, ek_VisualObject, kVisualObject])),
    _, skip_rt rt_U32 h3 ((hA "ver" (by decide)).trans (by
      simp [eAnimation, lookup_append, lookup_put, lookup_skip, lookup_nul, ek_VisualObject, kVisualObject])),
    _, req_rt rt_F64 h4 ((hA "fr" (by decide)).trans (by
      simp [eAnimation, lookup_append, lookup_put, lookup_skip, lookup_nul, ek_VisualObject, kVisualObject])),
    _, req_rt rt_F64 h5 ((hA "ip" (by decide)).trans (by
      simp [eAnimation, lookup_append, lookup_put, lookup_skip, lookup_nul, ek_VisualObject, kVisualObject])),
    _, req_rt rt_F64 h6 ((hA "op" (by decide)).trans (by
      simp [eAnimation, lookup_append, lookup_put, lookup_skip, lookup_nul, ek_VisualObject, kVisualObject])),
    _, req_rt rt_Usize h7 ((hA "w" (by decide)).trans (by
      simp [eAnimation, lookup_append, lookup_put, lookup_skip, lookup_nul, ek_VisualObject, kVisualObject])),
    _, req_rt rt_Usize h8 ((hA "h" (by decide)).trans (by
      simp [eAnimation, lookup_append, lookup_put, lookup_skip, lookup_nul, ek_VisualObject, kVisualObject])),
    _, skip_rt rt_BoolInt h9 ((hA "ddd" (by decide)).trans (by
      simp [eAnimation, lookup_append, lookup_put, lookup_skip, lookup_nul, ek_VisualObject, kVisualObject])),
    _, assets_rt hs h10 ((hA "assets" (by decide)).trans (by
      simp [eAnimation, lookup_append, lookup_put, lookup_skip, lookup_nul, ek_VisualObject, kVisualObject])),
    _, skip_rt (rt_vec rt_Marker) h11 ((hA "markers" (by decide)).trans (by
      simp [eAnimation, lookup_append, lookup_put, lookup_skip, lookup_nul, ek_VisualObject, kVisualObject])),
    _, skip_rt rt_Meta h12 ((hA "meta" (by decide)).trans (by
      simp [eAnimation, lookup_append, lookup_put, lookup_skip, lookup_nul, ek_VisualObject, kVisualObject])),
    _, val_rt h13 ((hA "metadata" (by decide)).trans (by
      simp [eAnimation, lookup_append, lookup_put, lookup_skip, lookup_nul, ek_VisualObject, kVisualObject])), rfl⟩

theorem unsized_asset {i : ImageAsset F} (hw : i.width = none) (hh : i.height = none) :
    jAsset (wAnyAsset (.image i)) = none := by
  have hl : lookup (eImageAsset i) "layers" = none := ek_ImageAsset i _ (by decide)
  have hw : lookup (eImageAsset i) "w" = none := by
    simp [eImageAsset, lookup_append, lookup_skip, ek_FileAsset, kFileAsset, kAsset,
      kVisualObject, hw]
  have hh : lookup (eImageAsset i) "h" = none := by
    simp [eImageAsset, lookup_append, lookup_skip, ek_FileAsset, kFileAsset, kAsset,
      kVisualObject, hh]
  simp only [jAsset, wAnyAsset, objOnly, hl, hw, hh, Option.isSome_none, Bool.or_self,
    Bool.false_eq_true, if_false]
  split <;> rfl

theorem jAnimation_w (a : Animation F) : jAnimation (wAnimation a) = dAnimation (eAnimation a) := by
  simp only [jAnimation, wAnimation, objOnly, Option.bind_some]

theorem rt_unsized {a : Animation F} {i : ImageAsset F} (hi : AnyAsset.image i ∈ a.assetList)
    (hw : i.width = none) (hh : i.height = none) : jAnimation (wAnimation a) = none := by
  cases hb : jAnimation (wAnimation a) with
  | none => rfl
  | some b =>
    exfalso
    rw [jAnimation_w] at hb
    unfold dAnimation at hb
    simp only [Option.bind_eq_bind, Option.bind_eq_some_iff, Option.some.injEq] at hb
    obtain ⟨_, _, _, _, _, _, _, _, _, _, _, _, _, _, _, _, _, _, _, _, o, ho, -⟩ := hb
    cases has : a.assets with
    | none => unfold Animation.assetList at hi; rw [has] at hi; cases hi
    | some as =>
      have hi : AnyAsset.image i ∈ as := by
        unfold Animation.assetList at hi; rw [has] at hi; exact hi
      have hl : lookup (eAnimation a) "assets" = some (wVec wAnyAsset as) := by
        simp [eAnimation, lookup_append, lookup_put, lookup_skip, ek_VisualObject, kVisualObject,
          has]
      unfold opt at ho
      rw [hl] at ho
      obtain ⟨bs, hbs, -⟩ := Option.map_eq_some_iff.1 ho
      have key : ∀ (xs : List (AnyAsset F)) (ys : List (AnyAsset F)),
          (xs.map wAnyAsset).mapM jAsset = some ys → AnyAsset.image i ∉ xs := by
        intro xs
        induction xs with
        | nil => simp
        | cons x xs ih =>
          intro ys hys
          simp only [List.map_cons, List.mapM_cons, Option.bind_eq_bind, Option.bind_eq_some_iff,
            Option.pure_def, Option.some.injEq] at hys
          obtain ⟨y, hy, zs, hzs, -⟩ := hys
          rw [List.mem_cons, not_or]
          refine ⟨?_, ih zs hzs⟩
          rintro rfl
          rw [unsized_asset hw hh] at hy
          exact nomatch hy
      exact key as bs hbs hi

end
end Velato
