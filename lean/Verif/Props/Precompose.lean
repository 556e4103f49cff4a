import Verif.Proofs.Precompose
import Verif.Spec.Examples
import Verif.Spec.ExampleDoc
import Verif.Num.Real

/-!
# C87 — moving layers into a precomposition
-/

namespace Velato
open FloatOps (lit)
open Import

section
variable [Kurbo ℝ]

/-- **C87**, exact arithmetic: if the layers of a composition are moved into a new asset and replaced by
a plain instance of it, the picture makes the same calls on the sink, inside the group of the instance;
only the positions of the layers are not announced any more (C43). -/
theorem C87_precompose {c : Composition ℝ} {name : String} {l : Layer ℝ} {fr : ℝ}
    (hf : c.Fresh name) (hl : l.PlainInstance name fr) {r r' : Renderer ℝ} (hr : Reachable r)
    {T : Affine ℝ} {al : ℝ} {ops' : List (Op ℝ)} :
    AppendCalls r (c.precompose name l) fr T al r' ops' ↔
      ∃ body, AppendCalls r c fr T al r' ([Op.pushClip T (fullRect c)] ++ body ++ [Op.pop]) ∧
        ops' = [Op.pushClip T (fullRect c), Op.beginGroup l.name 0] ++ body.map Op.anonymous
          ++ [Op.endGroup, Op.pop] := by
  have key := appendOps_precompose (a := al) hf hl (Affine.real_mul_identity T)
    (by simp) (by simp)
  have hap : ∀ n, Renderer.append n r c fr T al = idle (appendOps n c fr T al) :=
    fun n => append_idle n r hr.idle c fr T al
  have hap' : ∀ n, Renderer.append n r (c.precompose name l) fr T al
      = idle (appendOps n (c.precompose name l) fr T al) :=
    fun n => append_idle n r hr.idle _ fr T al
  unfold AppendCalls
  simp only [hap, hap']
  constructor
  · rintro ⟨n, h⟩
    cases n with
    | zero =>
      exfalso
      obtain ⟨_, _, _, _, _, _, _, _, h9, _⟩ := hl
      have hz : (c.precompose name l).layers.zipIdx.reverse.filter (fun p => !p.1.isMask)
          = [(l, 0)] := by
        show (List.filter _ [(l, 0)]) = _
        simp [h9]
      unfold appendOps at h
      rw [hz] at h
      cases h
    | succ n =>
      rw [key n] at h
      unfold appendOps
      generalize hx : List.mapM (m := Except Fault) (fun p : Layer ℝ × Nat =>
        layerOps c n c.layers p.1 p.2 T al fr) _ = x at h
      cases x with
      | error e => cases h
      | ok per =>
        have := Except.ok.inj h
        rw [Prod.mk.injEq] at this
        obtain ⟨rfl, rfl⟩ := this
        exact ⟨per.flatten, ⟨n, by rw [hx]; rfl⟩, rfl⟩
  · rintro ⟨body, ⟨n, h⟩, rfl⟩
    refine ⟨n + 1, ?_⟩
    rw [key n]
    unfold appendOps at h
    generalize List.mapM (m := Except Fault) (fun p : Layer ℝ × Nat =>
      layerOps c n c.layers p.1 p.2 T al fr) _ = x at h
    cases x with
    | error e => cases h
    | ok per =>
      have := Except.ok.inj h
      rw [Prod.mk.injEq] at this
      obtain ⟨rfl, h'⟩ := this
      have h := List.append_cancel_left (List.append_cancel_right h')
      rw [← h]
      rfl

/-- **C87** for documents, exact arithmetic: moving all layers into a new precomposition of which there
is one instance with a neutral transform changes nothing but the groups that are announced. -/
theorem C87_document {a : Schema.Animation ℝ} {c : Composition ℝ} (hc : convAnimation a = .ok c)
    {name id : String} (hf : a.Fresh id) :
    ∃ c', convAnimation (a.precompose name id) = .ok c' ∧
      ∀ fr, a.inPoint ≤ fr → fr < a.outPoint → ∀ r r', Reachable r → ∀ T al ops',
        AppendCalls r c' fr T al r' ops' ↔
        ∃ body, AppendCalls r c fr T al r' ([Op.pushClip T (fullRect c)] ++ body ++ [Op.pop]) ∧
          ops' = [Op.pushClip T (fullRect c), Op.beginGroup name 0] ++ body.map Op.anonymous
            ++ [Op.endGroup, Op.pop] := by
  obtain ⟨has, hls, h1, h2, h3, h4⟩ := convAnimation_ok hc
  refine ⟨c.precompose id (neutralLayer name id a.inPoint a.outPoint), ?_, ?_⟩
  · have e1 : processLayers [.precomposition (Schema.plainInstance name id a.inPoint a.outPoint)]
        = .ok [neutralLayer name id a.inPoint a.outPoint] := rfl
    have e2 : (a.assetList ++ [Schema.AnyAsset.precomposition ⟨⟨id, ⟨none, none⟩⟩, a.layers, none, none⟩]).mapM
        convAsset = .ok (c.assets ++ [(id, c.layers)]) := by
      refine mapM_ok_iff.mpr (List.rel_append has (.cons ?_ .nil))
      show (processLayers a.layers >>= _) = _
      rw [hls]
      rfl
    refine bind_eq_ok.mpr ⟨_, e2, bind_eq_ok.mpr ⟨_, e1, ?_⟩⟩
    obtain ⟨fs, rate, w, h, as, ls⟩ := c
    simp only at h1 h2 h3 h4
    subst h1 h2 h3 h4
    rfl
  · intro fr hi ho r r' hr T al ops'
    refine C87_precompose (fresh_import hc hf) ⟨⟨none, rfl⟩, ?_, ?_, rfl, rfl, rfl, rfl, rfl, rfl, rfl⟩ hr
    · simp [neutralLayer, FRange.contains, hi, ho]
    · exact neutral_identity

/-- The hypotheses are met by the example composition. -/
example : (exComp (F := ℝ)).Fresh "all" ∧
    (exLayer (F := ℝ) "p" (.instance "all" none)).PlainInstance "all" 1 := by
  refine ⟨?_, ⟨none, rfl⟩, ?_, rfl, rfl, rfl, rfl, rfl, rfl, rfl, rfl⟩
  · rintro l (h | ⟨e, h, h'⟩) tr hc
    · simp only [exComp, List.mem_cons, List.not_mem_nil, or_false] at h
      rcases h with rfl | rfl | rfl | rfl <;> simp [exLayer, exShapeLayer] at hc
    · simp only [exComp, List.mem_cons, List.not_mem_nil, or_false] at h
      subst h
      simp only [List.mem_cons, List.not_mem_nil, or_false] at h'
      rcases h' with rfl | rfl <;> simp [exLayer, exShapeLayer] at hc
  · simp [exLayer, FRange.contains]

/-- The example document in exact arithmetic is imported, and no layer refers to "all". -/
example : (exDoc (F := ℝ)).Fresh "all" ∧ ∃ c, convAnimation (exDoc (F := ℝ)) = .ok c := by
  refine ⟨?_, _, rfl⟩
  rintro p (h | ⟨q, h, h'⟩)
  · simp only [exDoc, exDocLayers, List.mem_cons, exShapeDoc, reduceCtorEq, false_or,
      List.not_mem_nil, or_false, Schema.AnyLayer.precomposition.injEq] at h
    rw [h]
    simp
  · simp only [exDoc, Schema.Animation.assetList, Option.getD_some, List.mem_cons,
      Schema.AnyAsset.precomposition.injEq, List.not_mem_nil, or_false] at h
    rcases h with rfl | rfl | rfl <;> simp [exShapeDoc] at h'

end
end Velato
