import Verif.Proofs.Remove
import Verif.Spec.ExampleDoc
import Verif.Spec.Examples

/-!
# C112: removing a layer that nobody refers to
-/

namespace Velato
open FloatOps (lit)

section
variable {F : Type} [FloatOps F] [Libm F] [Kurbo F]

omit [FloatOps F] [Libm F] [Kurbo F] in
private theorem forall₂_split {α β : Type} {R : α → β → Prop} {A B : List α} {x : α} {per : List β}
    (h : List.Forall₂ R (A ++ x :: B) per) :
    ∃ p o q, per = p ++ o :: q ∧ List.Forall₂ R A p ∧ R x o ∧ List.Forall₂ R B q := by
  induction A generalizing per with
  | nil => cases h with | cons h1 h2 => exact ⟨[], _, _, rfl, .nil, h1, h2⟩
  | cons a A ih =>
    cases h with
    | cons h1 h2 =>
      obtain ⟨p, o, q, rfl, hp, ho, hq⟩ := ih h2
      exact ⟨_ :: p, o, q, rfl, .cons h1 hp, ho, hq⟩

omit [FloatOps F] [Libm F] [Kurbo F] in
private theorem forall₂_append_split {α β : Type} {R : α → β → Prop} {A B : List α} {per : List β}
    (h : List.Forall₂ R (A ++ B) per) :
    ∃ p q, per = p ++ q ∧ List.Forall₂ R A p ∧ List.Forall₂ R B q := by
  induction A generalizing per with
  | nil => exact ⟨[], per, rfl, .nil, h⟩
  | cons a A ih =>
    cases h with
    | cons h1 h2 =>
      obtain ⟨p, q, rfl, hp, hq⟩ := ih h2
      exact ⟨_ :: p, q, rfl, .cons h1 hp, hq⟩

omit [FloatOps F] [Libm F] [Kurbo F] in
private theorem transfer {R R' : Layer F × Nat → List (Op F) → Prop} {S : Layer F → Layer F → Prop}
    (step : ∀ l l' i i' os, S l l' → R (l, i) os → ∃ os', R' (l', i') os' ∧ SameButPositions os os') :
    ∀ {A A' : List (Layer F)}, List.Forall₂ S A A' → ∀ (n m : Nat) {p : List (List (Op F))},
      List.Forall₂ R (A.zipIdx n) p →
      ∃ p', List.Forall₂ R' (A'.zipIdx m) p' ∧
        SameButPositions p.reverse.flatten p'.reverse.flatten
  | _, _, .nil, n, m, p, h => by cases h; exact ⟨[], .nil, rfl⟩
  | _, _, .cons h1 h2, n, m, p, h => by
    rw [List.zipIdx_cons] at h
    cases h with
    | cons h3 h4 =>
      obtain ⟨p', hp', hs⟩ := transfer step h2 (n + 1) (m + 1) h4
      obtain ⟨os', ho, hso⟩ := step _ _ _ m _ h1 h3
      refine ⟨os' :: p', by rw [List.zipIdx_cons]; exact .cons ho hp', ?_⟩
      unfold SameButPositions at *
      simp only [List.reverse_cons, List.flatten_append, List.map_append, hs, List.flatten_cons,
        List.flatten_nil, List.append_nil, hso]

/-- **C112.** A layer of an imported document that no other layer refers to, that is neither a matte
nor matted, in a document whose parents form no cycle, can be removed. The document without it is
imported, and every append of it makes the same calls, except that those of the layer are missing and
that the positions in the groups may differ. Conversely, adding such a layer adds its calls, all
in one place. -/
theorem C112_calls {a : Schema.Animation F} {pre post : List (Schema.AnyLayer F)}
    {s : Schema.AnyLayer F} (ha : a.layers = pre ++ s :: post) (hu : s.Unreferenced (pre ++ post))
    (hs : ¬ s.Matte ∧ ¬ s.Matted) (hacy : ParentsAcyclic a.layers) {c : Composition F}
    (hc : Import.convAnimation a = .ok c) :
    ∃ c' l, Import.convAnimation { a with layers := pre ++ post } = .ok c' ∧
      c.layers[pre.length]? = some l ∧
      ∀ {r r' : Renderer F}, Reachable r → ∀ (fr : F) (T : Affine F) (al : F),
        (∀ ops, AppendCalls r c fr T al r' ops → ∃ before own after ops',
          ops = [Op.pushClip T (fullRect c)] ++ before ++ own ++ after ++ [Op.pop] ∧
          LayerCalls c c.layers l pre.length T al fr own ∧
          AppendCalls r c' fr T al r' ops' ∧
          SameButPositions ops' ([Op.pushClip T (fullRect c)] ++ before ++ after ++ [Op.pop])) ∧
        (∀ ops' own, AppendCalls r c' fr T al r' ops' →
          LayerCalls c c.layers l pre.length T al fr own → ∃ before after,
          AppendCalls r c fr T al r'
            ([Op.pushClip T (fullRect c)] ++ before ++ own ++ after ++ [Op.pop]) ∧
          SameButPositions ops' ([Op.pushClip T (fullRect c)] ++ before ++ after ++ [Op.pop])) := by
  obtain ⟨has, hp, h1, h2, h3, h4⟩ := Import.convAnimation_ok hc
  -- the shorter document is imported
  obtain ⟨c', hc', hcc⟩ : ∃ c', Import.convAnimation { a with layers := pre ++ post } = .ok c' ∧
      c' = { c with layers := c'.layers } := by
    obtain ⟨es, hes, -⟩ := Import.processLayers_ok hp
    rw [ha] at hes
    obtain ⟨p, o, q, -, hpre, -, hpost⟩ := forall₂_split hes
    have hps : (pre ++ post).mapM Import.convLayer = .ok (p ++ q) :=
      mapM_ok_iff.mpr (List.rel_append (R := fun s e => Import.convLayer s = .ok e) hpre hpost)
    have hpl : ∃ ls, Import.processLayers (pre ++ post) = .ok ls := by
      unfold Import.processLayers
      rw [hps]
      exact ⟨_, rfl⟩
    obtain ⟨ls, hls⟩ := hpl
    have has' : (a.assets.getD []).mapM Import.convAsset = .ok c.assets := mapM_ok_iff.mpr has
    refine ⟨{ c with layers := ls }, ?_, rfl⟩
    unfold Import.convAnimation
    dsimp only
    rw [has', hls]
    show Except.ok _ = Except.ok _
    rw [← h1, ← h2, ← h3, ← h4]
  have hp' : Import.processLayers (pre ++ post) = .ok c'.layers := (Import.convAnimation_ok hc').2.1
  have htw := twins_of_import ha hu hs hc hc'
  have hlen' := Import.processLayers_length hp'
  rw [ha] at hp
  have hlen := Import.processLayers_length hp
  have hk : pre.length < c.layers.length := by rw [← hlen]; simp
  have hk' : pre.length ≤ c'.layers.length := by rw [← hlen']; simp
  obtain ⟨l, hl⟩ : ∃ l, c.layers[pre.length]? = some l := ⟨_, List.getElem?_eq_getElem hk⟩
  refine ⟨c', l, hc', hl, ?_⟩
  have hlm : l.isMask = false := by
    obtain ⟨es, e, -, -, hcv, rfl⟩ := Import.processLayers_get hp (getElem?_mid pre post s) hl
    show e.1.isMask = false
    cases he : e.1.isMask with
    | false => rfl
    | true => exact absurd (hcv.isMask.mp he) hs.1
  -- the lists in parts
  generalize hA : c.layers.take pre.length = A
  generalize hB : c.layers.drop (pre.length + 1) = B
  generalize hA' : c'.layers.take pre.length = A'
  generalize hB' : c'.layers.drop pre.length = B'
  have hAl : A.length = pre.length := by rw [← hA, List.length_take]; omega
  have hAl' : A'.length = pre.length := by rw [← hA', List.length_take]; omega
  have hcl : c.layers = A ++ l :: B := by
    rw [← hA, ← hB]
    have : l = c.layers[pre.length] := (List.getElem?_eq_some_iff.mp hl).2.symm
    rw [this, List.getElem_cons_drop, List.take_append_drop]
  have hcl' : c'.layers = A' ++ B' := by rw [← hA', ← hB', List.take_append_drop]
  have hac := ancestors_of_acyclic (a := { a with layers := pre ++ post }) (c := c') (by
    obtain ⟨rank, hr⟩ := hacy
    refine ⟨rank, fun t ht => hr t ?_⟩
    rw [ha]
    rcases List.mem_append.mp ht with h | h
    · exact List.mem_append_left _ h
    · exact List.mem_append_right _ (List.mem_cons_of_mem _ h)) hc'
  have hmt : ∀ l' ∈ c'.layers, ∀ b j, l'.maskLayer = some (b, j) → j < c'.layers.length := by
    intro l' hl' b j hm
    obtain ⟨i, hi⟩ := List.mem_iff_getElem?.mp hl'
    obtain ⟨t, ht⟩ : ∃ t, (pre ++ post)[i]? = some t := by
      have := (List.getElem?_eq_some_iff.mp hi).1
      rw [← hlen'] at this
      exact ⟨_, List.getElem?_eq_getElem this⟩
    exact (C46_mattes hc' (.root (a := { a with layers := pre ++ post })) ht hi).2.2.2 b j hm
  have hlo : ∀ n, layerOps c' n = layerOps c n := fun n => by rw [hcc, layerOps_layers]
  have hcalls : ∀ {l l' : Layer F}, l' ∈ c'.layers → Twin pre.length l l' → ∀ ix T al fr ops,
      LayerCalls c c.layers l ix T al fr ops ↔ LayerCalls c' c'.layers l' ix T al fr ops := by
    intro l l' hl' ht ix T al fr ops
    rw [layerCalls_iff, layerCalls_iff]
    refine exists_congr fun n => ?_
    rw [hlo, layerOps_twins htw hac hmt n hl' ht]
  have hAA : List.Forall₂ (fun l l' => l' ∈ c'.layers ∧ Twin pre.length l l') A A' := by
    refine List.forall₂_iff_get.mpr ⟨by rw [hAl, hAl'], fun i hi hi' => ?_⟩
    have hik : i < pre.length := by omega
    have e : A[i]? = c.layers[skip pre.length i]? := by
      rw [← hA, List.getElem?_take_of_lt hik, skip, if_pos hik]
    have e' : A'[i]? = c'.layers[i]? := by rw [← hA', List.getElem?_take_of_lt hik]
    have ht := htw i
    rw [← e, ← e', List.getElem?_eq_getElem hi, List.getElem?_eq_getElem hi'] at ht
    cases ht with
    | some ht => exact ⟨List.mem_of_mem_take (by rw [hA']; exact List.getElem_mem hi'), ht⟩
  have hBB : List.Forall₂ (fun l l' => l' ∈ c'.layers ∧ Twin pre.length l l') B B' := by
    have hBl : B.length = B'.length := by
      rw [← hB, ← hB', List.length_drop, List.length_drop, ← hlen, ← hlen', List.length_append,
        List.length_append, List.length_cons]
      omega
    refine List.forall₂_iff_get.mpr ⟨hBl, fun i hi hi' => ?_⟩
    have e : B[i]? = c.layers[skip pre.length (pre.length + i)]? := by
      rw [← hB, List.getElem?_drop, skip, if_neg (by omega)]
      congr 1
      omega
    have e' : B'[i]? = c'.layers[pre.length + i]? := by rw [← hB', List.getElem?_drop]
    have ht := htw (pre.length + i)
    rw [← e, ← e', List.getElem?_eq_getElem hi, List.getElem?_eq_getElem hi'] at ht
    cases ht with
    | some ht => exact ⟨List.mem_of_mem_drop (by rw [hB']; exact List.getElem_mem hi'), ht⟩
  have hfull : fullRect c' = fullRect c := by rw [hcc]; rfl
  have hz : c.layers.zipIdx = A.zipIdx ++ (l, pre.length) :: B.zipIdx (pre.length + 1) := by
    rw [hcl, List.zipIdx_append, List.zipIdx_cons, hAl, Nat.zero_add]
  have hz' : c'.layers.zipIdx = A'.zipIdx ++ B'.zipIdx pre.length := by
    rw [hcl', List.zipIdx_append, hAl', Nat.zero_add]
  intro r r' hr fr T al
  have step : ∀ (l l' : Layer F) (i i' : Nat) os, (l' ∈ c'.layers ∧ Twin pre.length l l') →
      (if l.isMask then os = [] else LayerCalls c c.layers l i T al fr os) →
      ∃ os', (if l'.isMask then os' = [] else LayerCalls c' c'.layers l' i' T al fr os') ∧
        SameButPositions os os' := by
    rintro l l' i i' os ⟨hm, ht⟩ h
    have he : l.isMask = l'.isMask := by rw [ht.same]
    cases hx : l'.isMask with
    | true => rw [he, hx] at h; exact ⟨[], rfl, by rw [show os = [] from h]; rfl⟩
    | false =>
      rw [he, hx] at h
      obtain ⟨os', ho, hso⟩ := layerCalls_position (h : LayerCalls c c.layers l i T al fr os) i'
      exact ⟨os', (hcalls hm ht _ _ _ _ _).mp ho, hso⟩
  have step' : ∀ (l' l : Layer F) (i i' : Nat) os, (l' ∈ c'.layers ∧ Twin pre.length l l') →
      (if l'.isMask then os = [] else LayerCalls c' c'.layers l' i T al fr os) →
      ∃ os', (if l.isMask then os' = [] else LayerCalls c c.layers l i' T al fr os') ∧
        SameButPositions os os' := by
    rintro l' l i i' os ⟨hm, ht⟩ h
    have he : l.isMask = l'.isMask := by rw [ht.same]
    cases hx : l'.isMask with
    | true => rw [hx] at h; exact ⟨[], by rw [he, hx]; rfl, by rw [show os = [] from h]; rfl⟩
    | false =>
      rw [hx] at h
      obtain ⟨os', ho, hso⟩ := layerCalls_position (h : LayerCalls c' c'.layers l' i T al fr os) i'
      exact ⟨os', by rw [he, hx]; exact (hcalls hm ht _ _ _ _ _).mpr ho, hso⟩
  constructor
  · intro ops hops
    obtain ⟨rfl, per, hper, rfl⟩ := (C33_painters_order hr).mp hops
    rw [hz] at hper
    obtain ⟨p, o, q, rfl, hpA, ho, hqB⟩ := forall₂_split hper
    obtain ⟨p', hp', hsp⟩ := transfer (R' := fun x os =>
      if x.1.isMask then os = [] else LayerCalls c' c'.layers x.1 x.2 T al fr os) step hAA 0 0 hpA
    obtain ⟨q', hq', hsq⟩ := transfer (R' := fun x os =>
      if x.1.isMask then os = [] else LayerCalls c' c'.layers x.1 x.2 T al fr os) step hBB
        (pre.length + 1) pre.length hqB
    refine ⟨q.reverse.flatten, o, p.reverse.flatten, _, ?_, ?_,
      (C33_painters_order hr).mpr ⟨rfl, p' ++ q', ?_, rfl⟩, ?_⟩
    · simp [List.append_assoc]
    · rw [show (l, pre.length).1.isMask = false from hlm] at ho
      exact ho
    · rw [hz']
      exact List.rel_append hp' hq'
    · rw [hfull]
      unfold SameButPositions at *
      simp only [List.reverse_append, List.flatten_append, List.map_append, hsp, hsq,
        List.append_assoc]
  · intro ops' own hops' hown
    obtain ⟨rfl, per, hper, rfl⟩ := (C33_painters_order hr).mp hops'
    rw [hz'] at hper
    obtain ⟨p, q, rfl, hpA, hqB⟩ := forall₂_append_split hper
    obtain ⟨p', hp', hsp⟩ := transfer (R' := fun x os =>
      if x.1.isMask then os = [] else LayerCalls c c.layers x.1 x.2 T al fr os) step' hAA.flip 0 0 hpA
    obtain ⟨q', hq', hsq⟩ := transfer (R' := fun x os =>
      if x.1.isMask then os = [] else LayerCalls c c.layers x.1 x.2 T al fr os) step' hBB.flip
        pre.length (pre.length + 1) hqB
    refine ⟨q'.reverse.flatten, p'.reverse.flatten,
      (C33_painters_order hr).mpr ⟨rfl, p' ++ own :: q', ?_, ?_⟩, ?_⟩
    · rw [hz]
      refine List.rel_append hp' (.cons ?_ hq')
      rw [show (l, pre.length).1.isMask = false from hlm]
      exact hown
    · simp [List.append_assoc]
    · rw [hfull]
      unfold SameButPositions at *
      simp only [List.reverse_append, List.flatten_append, List.map_append, hsp, hsq,
        List.append_assoc]

/-- **C112**, outside the frames of the layer: the calls are the same except for the positions. -/
theorem C112_out_of_range {a : Schema.Animation F} {pre post : List (Schema.AnyLayer F)}
    {s : Schema.AnyLayer F} (ha : a.layers = pre ++ s :: post) (hu : s.Unreferenced (pre ++ post))
    (hs : ¬ s.Matte ∧ ¬ s.Matted) (hacy : ParentsAcyclic a.layers) {c : Composition F}
    (hc : Import.convAnimation a = .ok c) {r r' : Renderer F} (hr : Reachable r) {fr : F}
    {T : Affine F} {al : F}
    (hfr : ¬ (FloatOps.le s.visual.layer.inPoint fr = true ∧ FloatOps.lt fr s.visual.layer.outPoint = true))
    {ops : List (Op F)} (hops : AppendCalls r c fr T al r' ops) :
    ∃ c' ops', Import.convAnimation { a with layers := pre ++ post } = .ok c' ∧
      AppendCalls r c' fr T al r' ops' ∧ SameButPositions ops' ops := by
  obtain ⟨c', l, hc', hl, h⟩ := C112_calls ha hu hs hacy hc
  obtain ⟨before, own, after, ops', rfl, hown, hops', hsame⟩ := (h hr fr T al).1 ops hops
  have hown' : own = [] := by
    rcases layerCalls_cases.mp hown with ⟨-, h⟩ | ⟨h, -⟩
    · exact h
    · have hp := (Import.convAnimation_ok hc).2.1
      rw [ha] at hp
      obtain ⟨es, e, -, -, hcv, rfl⟩ := Import.processLayers_get hp (getElem?_mid pre post s) hl
      rw [show (Import.linkLayer _ _ _ e).1.frames = e.1.frames from rfl, hcv.frames] at h
      exact absurd (by simpa [FRange.contains] using h) hfr
  refine ⟨c', ops', hc', hops', ?_⟩
  rw [hown', List.append_nil]
  exact hsame

/-- **C112**, for a hidden layer: removing it removes no drawing. -/
theorem C112_hidden {a : Schema.Animation F} {pre post : List (Schema.AnyLayer F)}
    {s : Schema.AnyLayer F} (ha : a.layers = pre ++ s :: post) (hu : s.Unreferenced (pre ++ post))
    (hs : ¬ s.Matted) (hh : s.Hidden) (hacy : ParentsAcyclic a.layers) {c : Composition F}
    (hc : Import.convAnimation a = .ok c) {r r' : Renderer F} (hr : Reachable r) {fr : F}
    {T : Affine F} {al : F} {ops : List (Op F)} (hops : AppendCalls r c fr T al r' ops) :
    ∃ c' before own after ops', Import.convAnimation { a with layers := pre ++ post } = .ok c' ∧
      ops = before ++ own ++ after ∧ (∀ st Td br els, Op.draw st Td br els ∉ own) ∧
      AppendCalls r c' fr T al r' ops' ∧ SameButPositions ops' (before ++ after) := by
  obtain ⟨c', l, hc', hl, h⟩ := C112_calls ha hu ⟨fun hm => hm.1 hh, hs⟩ hacy hc
  obtain ⟨before, own, after, ops', rfl, hown, hops', hsame⟩ := (h hr fr T al).1 ops hops
  refine ⟨c', [Op.pushClip T (fullRect c)] ++ before, own, after ++ [Op.pop], ops', hc',
    by simp [List.append_assoc], fun st Td br els hd => ?_, hops', by
      rw [← List.append_assoc]; exact hsame⟩
  have hsg : a.layers[pre.length]? = some s := by rw [ha, getElem?_mid]
  obtain ⟨hm, -⟩ := C47_draws_nothing hc .root hsg hl hh hown hd
  refine hs ?_
  unfold Schema.AnyLayer.Matted
  cases hx : s.visual.matteMode with
  | none => exact absurd hx hm
  | some _ => rfl

end

/-! ## Examples -/

section
variable [Libm F64] [Kurbo F64]

/-- The example document: its last layer, the instance of an asset, is referred to by nobody. -/
example : (exDocLayers (F := F64)) = exDocLayers.take 5 ++
      Schema.AnyLayer.precomposition ⟨exVisual "instance" (some 5), "b", lit 20, lit 30, lit 4, none⟩ :: [] :=
  rfl

omit [Libm F64] [Kurbo F64] in
theorem exDoc_acyclic : ParentsAcyclic (exDocLayers (F := F64)) := by
  refine ⟨id, fun s hs id hid => ?_⟩
  simp only [exDocLayers, List.mem_cons, List.not_mem_nil, or_false] at hs
  rcases hs with rfl | rfl | rfl | rfl | rfl | rfl <;> cases hid
  decide

omit [Libm F64] [Kurbo F64] in
theorem exDoc_unreferenced : Schema.AnyLayer.Unreferenced (F := F64)
    (.precomposition ⟨exVisual "instance" (some 5), "b", lit 20, lit 30, lit 4, none⟩)
    (exDocLayers.take 5 ++ []) := by
  intro t ht
  simp only [exDocLayers, List.take, List.append_nil, List.mem_cons, List.not_mem_nil, or_false] at ht
  rcases ht with rfl | rfl | rfl | rfl | rfl <;> exact ⟨by decide, fun x hx => by cases hx⟩

/-- `C112_calls` applies to it. -/
example {c : Composition F64} (hc : Import.convAnimation exDoc = .ok c) :
    ∃ c' l, Import.convAnimation { exDoc (F := F64) with layers := exDocLayers.take 5 ++ [] } = .ok c' ∧
      c.layers[5]? = some l := by
  obtain ⟨c', l, h1, h2, -⟩ := C112_calls (a := exDoc (F := F64)) (pre := exDocLayers.take 5) (post := [])
    rfl exDoc_unreferenced ⟨fun h => (by cases h.2), fun h => by cases h⟩ exDoc_acyclic hc
  exact ⟨c', l, h1, h2⟩

/-- A parent that is referred to is not "unreferenced". -/
example : ¬ Schema.AnyLayer.Unreferenced (F := F64) (.null (exVisual "parent" (some 1))) exDocLayers := by
  intro h
  exact (h _ (List.mem_of_getElem? (i := 2) rfl)).1 rfl

/-- Why parents must not form a cycle: the parents are followed as many times as there are layers, and
so a layer that is its own parent is moved further in a list with one more layer. -/
example : let l : Layer F64 := { exLayer "l" .none with
      parent := some 0, transform := .fixed (Affine.translate ⟨lit 1, lit 0⟩) }
    (computeTransform [l] l Affine.identity (lit 1)).e ≠
      (computeTransform [l, exLayer "m" .none] l Affine.identity (lit 1)).e := by
  kernel_decide

end
end Velato
