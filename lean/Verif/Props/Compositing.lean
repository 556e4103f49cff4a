import Verif.Proofs.LayerSets
import Verif.Proofs.Ancestors
import Verif.Spec.Examples
import Verif.Num.Real

/-!
# C40, C41, C42 and the layer part of C37 — instances, masks, mattes, opacity of layers

The calls of a layer are described by those of the same layer without its matte (C42), of that one
without its masks (C41), and of that one according to its content (C40 for instances).
-/

namespace Velato
open FloatOps (lit)

section
variable {F : Type} [FloatOps F] [Libm F] [Kurbo F]

theorem ContentCalls.congr {c : Composition F} {l l' : Layer F} (hc : l.content = l'.content)
    (hs : l.stretch = l'.stretch) (hf : l.startFrame = l'.startFrame) {T : Affine F} {a fr : F}
    {co : List (Op F)} (h : ContentCalls c l T a fr co) : ContentCalls c l' T a fr co := by
  cases h with
  | none h => exact .none (hc ▸ h)
  | missing n tr h hn => exact .missing n tr (hc ▸ h) hn
  | asset n tr als per h hn hp => exact .asset n tr als per (hc ▸ h) hn (by rw [← hs, ← hf]; exact hp)
  | shape s b _ h hb ho => exact .shape s b _ (hc ▸ h) hb ho

theorem MatteCalls.congr {c : Composition F} {ls : List (Layer F)} {l l' : Layer F}
    (hm : l.maskLayer = l'.maskLayer) {T : Affine F} {a fr : F}
    {mo : List (Op F)} (h : MatteCalls c ls l T a fr mo) : MatteCalls c ls l' T a fr mo := by
  cases h with
  | none h => exact .none (hm ▸ h)
  | dangling m j h hj => exact .dangling m j (hm ▸ h) hj
  | matte m j l' o h hj ho => exact .matte m j l' o (hm ▸ h) hj ho

theorem computeTransform_congr {ls : List (Layer F)} {l l' : Layer F} (hp : l.parent = l'.parent)
    (ht : l.transform = l'.transform) (G : Affine F) (fr : F) :
    computeTransform ls l G fr = computeTransform ls l' G fr := by
  unfold computeTransform
  rw [hp, ht]

/-- **C42.** The calls of a layer `l` (visible at the frame) with a matte are: its group begins; an
isolation layer with normal blending covering the composition; the calls of the matte layer,
rendered with the caller's transform and alpha (nothing if the index is dangling); a layer with the
matte's blend mode; what `l` without its matte has between its group begin and end; two pops; its
group ends. -/
theorem C42_matte {c : Composition F} {ls : List (Layer F)} {l : Layer F} {ix : Nat} {T : Affine F}
    {a fr : F} {ops : List (Op F)} {mode : BlendMode} {j : Nat}
    (hm : l.maskLayer = some (mode, j)) (hin : l.frames.contains fr = true) :
    LayerCalls c ls l ix T a fr ops ↔ ∃ matte inner,
      (match ls[j]? with
        | some m => LayerCalls c ls m 0 T a fr matte
        | none => matte = []) ∧
      LayerCalls c ls { l with maskLayer := none } ix T a fr
        ([Op.beginGroup l.name ix] ++ inner ++ [Op.endGroup]) ∧
      ops = [Op.beginGroup l.name ix,
          Op.pushLayer (BlendMode.ofMix .normal) (lit 1) T (fullRect c)] ++ matte
        ++ [Op.pushLayer mode (lit 1) T (fullRect c)] ++ inner
        ++ [Op.pop, Op.pop, Op.endGroup] := by
  have hT : computeTransform ls { l with maskLayer := none } T fr = computeTransform ls l T fr :=
    computeTransform_congr rfl rfl T fr
  constructor
  · intro h
    rcases layerCalls_cases.mp h with ⟨hc, -⟩ | ⟨-, mo, ms, co, hmo, hms, hco, rfl⟩
    · rw [hin] at hc; cases hc
    · have hinner : LayerCalls c ls { l with maskLayer := none } ix T a fr
          ([Op.beginGroup l.name ix] ++ (ms ++ co ++ List.replicate l.masks.length Op.pop)
            ++ [Op.endGroup]) := by
        refine layerCalls_cases.mpr (.inr ⟨hin, [], ms, co, .none rfl, ?_, ?_, ?_⟩)
        · rw [hT]; exact hms
        · rw [hT]; refine hco.congr ?_ ?_ ?_ <;> rfl
        · simp [layerOut, List.append_assoc]
      cases hmo with
      | none h' => rw [hm] at h'; cases h'
      | dangling m' j' h' hj =>
        rw [hm] at h'
        cases h'
        refine ⟨[], _, by rw [hj], hinner, ?_⟩
        simp [layerOut, hm, List.append_assoc, ← List.replicate_append_replicate]
      | matte m' j' l' o h' hj ho =>
        rw [hm] at h'
        cases h'
        refine ⟨o, _, by rw [hj]; exact ho, hinner, ?_⟩
        simp [layerOut, hm, List.append_assoc, ← List.replicate_append_replicate]
  · rintro ⟨matte, inner, hmatte, hinner, rfl⟩
    rcases layerCalls_cases.mp hinner with ⟨hc, -⟩ | ⟨-, mo, ms, co, hmo, hms, hco, heq⟩
    · rw [show FRange.contains _ fr = true from hin] at hc; cases hc
    · have hmo' : mo = [] := by
        cases hmo with
        | none => rfl
        | dangling _ _ h' => cases h'
        | matte _ _ _ _ h' => cases h'
      subst hmo'
      have hinn : inner = ms ++ co ++ List.replicate l.masks.length Op.pop := by
        have heq' : inner ++ [Op.endGroup]
            = (ms ++ co ++ List.replicate l.masks.length Op.pop) ++ [Op.endGroup] := by
          simpa [layerOut, List.append_assoc] using heq
        exact List.append_cancel_right heq'
      rw [hT] at hms hco
      refine layerCalls_cases.mpr (.inr ⟨hin,
        [Op.pushLayer (BlendMode.ofMix .normal) (lit 1) T (fullRect c)] ++ matte
          ++ [Op.pushLayer mode (lit 1) T (fullRect c)], ms, co, ?_, hms, ?_, ?_⟩)
      · cases hj : ls[j]? with
        | none => rw [hj] at hmatte; cases hmatte; exact .dangling mode j hm hj
        | some m => rw [hj] at hmatte; exact .matte mode j m matte hm hj hmatte
      · refine hco.congr ?_ ?_ ?_ <;> rfl
      · rw [hinn]
        simp [layerOut, hm, List.append_assoc, ← List.replicate_append_replicate]

/-- **C41.** The calls of a layer `l` (visible at the frame, without matte; see `C42_matte`) are:
its group begins; one clip per mask, in order, with the layer's transform and the mask's path at
that frame; what `l` without masks has between its group begin and end; one pop per mask; its group
ends. -/
theorem C41_masks {c : Composition F} {ls : List (Layer F)} {l : Layer F} {ix : Nat} {T : Affine F}
    {a fr : F} {ops : List (Op F)} (hm : l.maskLayer = none) (hin : l.frames.contains fr = true) :
    LayerCalls c ls l ix T a fr ops ↔ ∃ paths inner,
      List.Forall₂ (fun (m : Mask F) path => m.geometry.evaluate fr = .ok path) l.masks paths ∧
      LayerCalls c ls { l with masks := [] } ix T a fr
        ([Op.beginGroup l.name ix] ++ inner ++ [Op.endGroup]) ∧
      ops = [Op.beginGroup l.name ix]
        ++ paths.map (fun path => Op.pushClip (computeTransform ls l T fr) (.path path)) ++ inner
        ++ List.replicate l.masks.length Op.pop ++ [Op.endGroup] := by
  have hT : computeTransform ls { l with masks := [] } T fr = computeTransform ls l T fr :=
    computeTransform_congr rfl rfl T fr
  have hmasks : ∀ (T' : Affine F) (masks : List (Mask F)) (ms : List (Op F)),
      List.Forall₂ (fun m op => maskOp T' fr m = .ok op) masks ms ↔
      ∃ paths, List.Forall₂ (fun (m : Mask F) path => m.geometry.evaluate fr = .ok path) masks paths
        ∧ ms = paths.map (fun path => Op.pushClip T' (.path path)) := by
    intro T' masks ms
    constructor
    · intro h
      induction h with
      | nil => exact ⟨[], .nil, rfl⟩
      | cons hx _ ih =>
        obtain ⟨els, he, rfl⟩ := map_ok hx
        obtain ⟨paths, hp, rfl⟩ := ih
        exact ⟨els :: paths, .cons he hp, rfl⟩
    · rintro ⟨paths, h, rfl⟩
      induction h with
      | nil => exact .nil
      | cons hx _ ih =>
        refine .cons ?_ ih
        unfold maskOp
        rw [hx]
        rfl
  constructor
  · intro h
    rcases layerCalls_cases.mp h with ⟨hc, -⟩ | ⟨-, mo, ms, co, hmo, hms, hco, rfl⟩
    · rw [hin] at hc; cases hc
    · have hmo' : mo = [] := by
        cases hmo with
        | none => rfl
        | dangling _ _ h' => rw [hm] at h'; cases h'
        | matte _ _ _ _ h' => rw [hm] at h'; cases h'
      subst hmo'
      obtain ⟨paths, hp, rfl⟩ := (hmasks _ _ _).mp hms
      refine ⟨paths, co, hp, ?_, ?_⟩
      · refine layerCalls_cases.mpr (.inr ⟨hin, [], [], co, .none hm, .nil, ?_, ?_⟩)
        · rw [hT]; refine hco.congr ?_ ?_ ?_ <;> rfl
        · simp [layerOut, hm]
      · simp [layerOut, hm, List.append_assoc]
  · rintro ⟨paths, inner, hp, hinner, rfl⟩
    rcases layerCalls_cases.mp hinner with ⟨hc, -⟩ | ⟨-, mo, ms, co, hmo, hms, hco, heq⟩
    · rw [show FRange.contains _ fr = true from hin] at hc; cases hc
    · have hmo' : mo = [] := by
        cases hmo with
        | none => rfl
        | dangling _ _ h' => rw [show l.maskLayer = _ from h'] at hm; cases hm
        | matte _ _ _ _ h' => rw [show l.maskLayer = _ from h'] at hm; cases hm
      subst hmo'
      cases hms
      have hinn : inner = co := by
        simpa [layerOut, hm] using heq
      subst hinn
      rw [hT] at hco
      refine layerCalls_cases.mpr (.inr ⟨hin, [], _, inner, .none hm, (hmasks _ _ _).mpr ⟨_, hp, rfl⟩,
        by refine hco.congr ?_ ?_ ?_ <;> rfl, ?_⟩)
      simp [layerOut, hm, List.append_assoc]

/-- **C40.** The calls of an instance layer (visible at the frame, without matte and masks; see
`C42_matte`, `C41_masks`) are: its group begins; the calls of the asset's layers that are not
mattes, last to first, each rendered among the asset's layers with the instance's transform, the
instance's opacity and the frame `frame/stretch + (-start)/stretch`; its group ends.  For an unknown
asset there is nothing in between. -/
theorem C40_instance {c : Composition F} {ls : List (Layer F)} {l : Layer F} {ix : Nat}
    {T : Affine F} {a fr : F} {ops : List (Op F)} {name : String} {tr : Option (Value F F)}
    (hl : l.content = .instance name tr) (hm : l.maskLayer = none) (hms : l.masks = [])
    (hin : l.frames.contains fr = true) :
    LayerCalls c ls l ix T a fr ops ↔ ∃ per : List (List (Op F)),
      (match c.asset name with
        | some als => List.Forall₂ (fun (l' : Layer F) os =>
            if l'.isMask then os = [] else
              LayerCalls c als l' 0 (computeTransform ls l T fr)
                (a *. l.opacity.evaluate fr /. lit 100)
                (fr /. l.stretch +. FloatOps.neg l.startFrame /. l.stretch) os) als per
        | none => per = []) ∧
      ops = [Op.beginGroup l.name ix] ++ per.reverse.flatten ++ [Op.endGroup] := by
  have hmo' : ∀ mo, MatteCalls c ls l T a fr mo ↔ mo = [] := by
    intro mo
    constructor
    · intro h
      cases h with
      | none => rfl
      | dangling _ _ h' => rw [hm] at h'; cases h'
      | matte _ _ _ _ h' => rw [hm] at h'; cases h'
    · rintro rfl; exact .none hm
  rw [layerCalls_cases]
  simp only [hin, Bool.true_eq_false, false_and, true_and, false_or, hmo', hms]
  constructor
  · rintro ⟨_, ms, co, rfl, hms', hco, rfl⟩
    cases hms'
    cases hco with
    | none h => rw [hl] at h; cases h
    | shape _ _ _ h => rw [hl] at h; cases h
    | missing _ _ h hn =>
      rw [hl] at h
      cases h
      exact ⟨[], by rw [hn], by simp [layerOut, hm, hms]⟩
    | asset _ _ als per h hn hper =>
      rw [hl] at h
      cases h
      obtain ⟨per', h', he⟩ := forall₂_filter_iff.mp ⟨per, hper, rfl⟩
      refine ⟨per'.reverse, ?_, by simp [layerOut, hm, hms, he]⟩
      rw [hn]
      dsimp only
      rw [← List.forall₂_reverse_iff, List.reverse_reverse]
      refine h'.imp fun l os h => ?_
      cases hi : l.isMask <;> simpa [hi] using h
  · rintro ⟨per, hper, rfl⟩
    cases hn : c.asset name with
    | none =>
      rw [hn] at hper
      subst hper
      exact ⟨[], [], [], rfl, .nil, .missing name tr hl hn, by simp [layerOut, hm, hms]⟩
    | some als =>
      rw [hn] at hper
      dsimp only at hper
      obtain ⟨per', h', he⟩ := (forall₂_filter_iff (p := fun l' : Layer F => !l'.isMask)
        (R := fun l' os => LayerCalls c als l' 0 (computeTransform ls l T fr)
                (a *. l.opacity.evaluate fr /. lit 100)
                (fr /. l.stretch +. FloatOps.neg l.startFrame /. l.stretch) os)
        (l := als.reverse) (ops := per.reverse.flatten)).mpr ⟨per.reverse, by
          rw [List.forall₂_reverse_iff]
          refine hper.imp fun l os h => ?_
          cases hi : l.isMask <;> simpa [hi] using h, rfl⟩
      exact ⟨[], [], per'.flatten, rfl, .nil, .asset name tr als per' hl hn h',
        by simp [layerOut, hm, hms, he]⟩

/-- **C37**, layers: the opacities of the other layers of the list do not matter.  A layer without
matte makes the same calls among any two lists of layers with the same transforms and parents; in
particular the opacity of a parent does not leak into its children. -/
theorem C37_no_leak {c : Composition F} {ls ls' : List (Layer F)} (hlen : ls.length = ls'.length)
    (h : ∀ i : Nat, Option.Rel (fun l l' : Layer F =>
      l.transform = l'.transform ∧ l.parent = l'.parent) ls[i]? ls'[i]?)
    {l : Layer F} (hm : l.maskLayer = none) {ix : Nat} {T : Affine F} {a fr : F}
    {ops : List (Op F)} :
    LayerCalls c ls l ix T a fr ops ↔ LayerCalls c ls' l ix T a fr ops := by
  have hT : computeTransform ls l T fr = computeTransform ls' l T fr := by
    unfold computeTransform
    rw [hlen, chaseParents_congr h]
  have hmo : ∀ ls mo, MatteCalls c ls l T a fr mo ↔ mo = [] := by
    intro ls mo
    constructor
    · intro h
      cases h with
      | none => rfl
      | dangling _ _ h' => rw [hm] at h'; cases h'
      | matte _ _ _ _ h' => rw [hm] at h'; cases h'
    · rintro rfl; exact .none hm
  rw [layerCalls_cases, layerCalls_cases]
  simp only [hT, hmo]

/-- **C37**, layers: a layer's opacity only scales the alpha it is rendered with: rendering it with
alpha `a` is rendering the same layer with opacity 100% and alpha `a * opacity / 100`.
(Exact arithmetic; a matte is rendered with the caller's alpha, hence without matte.) -/
theorem C37_layer_opacity [Kurbo ℝ] {c : Composition ℝ} {ls : List (Layer ℝ)} {l : Layer ℝ}
    (hm : l.maskLayer = none) {ix : Nat} {T : Affine ℝ} {a fr : ℝ} {ops : List (Op ℝ)} :
    LayerCalls c ls l ix T a fr ops ↔
      LayerCalls c ls { l with opacity := .fixed 100 } ix T (a * (l.opacity.evaluate fr / 100)) fr
        ops := by
  have hT : computeTransform ls { l with opacity := .fixed 100 } T fr
      = computeTransform ls l T fr := computeTransform_congr rfl rfl T fr
  have hmo : ∀ (l : Layer ℝ) a mo, l.maskLayer = none → (MatteCalls c ls l T a fr mo ↔ mo = []) := by
    intro l a mo hm
    constructor
    · intro h
      cases h with
      | none => rfl
      | dangling _ _ h' => rw [hm] at h'; cases h'
      | matte _ _ _ _ h' => rw [hm] at h'; cases h'
    · rintro rfl; exact .none hm
  have hco : ∀ T a co, ContentCalls c { l with opacity := .fixed 100 } T a fr co
      ↔ ContentCalls c l T a fr co := fun T a co =>
    ⟨fun h => by refine h.congr ?_ ?_ ?_ <;> rfl, fun h => by refine h.congr ?_ ?_ ?_ <;> rfl⟩
  have ha : (a * (l.opacity.evaluate fr / 100)) *. (Value.fixed 100 : Value ℝ ℝ).evaluate fr /. lit 100
      = a *. l.opacity.evaluate fr /. lit 100 := by
    show (a * (l.opacity.evaluate fr / 100)) *. (100 : ℝ) /. lit 100 = _
    simp only [real_mul, real_div, real_lit]
    push_cast
    ring
  rw [layerCalls_cases, layerCalls_cases]
  simp only [hT, hmo l a _ hm, hmo { l with opacity := .fixed 100 } _ _ hm, hco, ha]
  rfl

/-- **C40**, the frame of an instance in exact arithmetic. -/
theorem C40_frame (fr stretch start : ℝ) :
    fr /. stretch +. FloatOps.neg start /. stretch = (fr - start) / stretch := by
  simp only [real_add, real_div, real_neg]
  ring

/-- The layers of the example meet the hypotheses of `C40_instance`, `C41_masks`, `C42_matte`
and render. -/
example [Libm F64] [Kurbo F64] : ∃ i m t,
    (exComp (F := F64)).layers[0]? = some i ∧ i.content = .instance "b" none ∧
    i.frames.contains (lit 1) = true ∧ (exComp (F := F64)).layers[1]? = some m ∧
    m.masks.length = 1 ∧ m.maskLayer = none ∧ m.frames.contains (lit 1) = true ∧
    (exComp (F := F64)).layers[2]? = some t ∧ t.maskLayer = some (BlendMode.ofMix .normal, 3) ∧
    t.frames.contains (lit 1) = true ∧
    ∃ per, List.Forall₂ (fun (p : Layer F64 × Nat) os =>
        if p.1.isMask then os = [] else
          LayerCalls exComp exComp.layers p.1 p.2 Affine.identity (lit 1) (lit 1) os)
      (exComp (F := F64)).layers.zipIdx per := by
  obtain ⟨r', ops, h, -⟩ := exComp_renders
  obtain ⟨-, per, hper, -⟩ := (appendCalls_iff (c := exComp (F := F64)) rfl).mp h
  obtain ⟨per', h', -⟩ := forall₂_filter_iff.mp ⟨per, hper, rfl⟩
  refine ⟨_, _, _, rfl, rfl, by decide +kernel, rfl, rfl, rfl, by decide +kernel, rfl, rfl,
    by decide +kernel, per'.reverse, ?_⟩
  rw [← List.forall₂_reverse_iff, List.reverse_reverse]
  refine h'.imp fun p os h => ?_
  cases hi : p.1.isMask <;> simpa [hi] using h

end
end Velato
