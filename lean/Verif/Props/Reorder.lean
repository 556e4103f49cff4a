import Verif.Proofs.Reorder
import Verif.Spec.Cut
import Verif.Spec.ExampleDoc

/-!
# C145: rearranging the layers of a document
-/

namespace Velato
open FloatOps (lit)

section
variable {F : Type} [FloatOps F] [Libm F] [Kurbo F]

/-- **C145.** A document whose layers are rearranged can be imported.  What is called when it is rendered are the calls of its
layers, which are those that each layer makes in the first document (but for the positions in groups), from the last layer of the
list to the first; layers that are not there at the frame, and mattes, make none. -/
theorem C145_rearranged {a a' : Schema.Animation F} (h : a.Rearranged a') {c : Composition F}
    (hc : Import.convAnimation a = .ok c) :
    ∃ c', Import.convAnimation a' = .ok c' ∧
      ∀ {r r' : Renderer F}, Reachable r → ∀ {fr : F} {T : Affine F} {al : F} {ops : List (Op F)},
        AppendCalls r c fr T al r' ops → ∃ (calls : Schema.AnyLayer F → List (Op F)) (ops' : List (Op F)),
          (∀ (i : Nat) s l, a.layers[i]? = some s → c.layers[i]? = some l → ¬ s.Matte →
            LayerCalls c c.layers l i T al fr (calls s)) ∧
          (∀ s ∈ a.layers, calls s ≠ [] → s.PresentAt fr ∧ ¬ s.Matte) ∧
          ops = [Op.pushClip T (fullRect c)] ++ (a.layers.map calls).reverse.flatten ++ [Op.pop] ∧
          AppendCalls r c' fr T al r' ops' ∧
          SameButPositions ops' ([Op.pushClip T (fullRect c)] ++ (a'.layers.map calls).reverse.flatten ++ [Op.pop]) := by
  classical
  obtain ⟨c', hc', hcc⟩ := rearranged_import h hc
  obtain ⟨f, hf⟩ := exists_places h.perm
  have hmv := moved_of_import h hc hc' hf
  have hp := (Import.convAnimation_ok hc).2.1
  have hlen := Import.processLayers_length hp
  have hlen' := Import.processLayers_length (Import.convAnimation_ok hc').2.1
  have hll : c.layers.length = c'.layers.length := by rw [← hlen, ← hlen', h.perm.length_eq]
  have hnd' : a'.layers.Nodup := h.perm.nodup_iff.mpr h.distinct
  refine ⟨c', hc', fun {r r'} hr {fr T al ops} hops => ?_⟩
  obtain ⟨rfl, per, hper, rfl⟩ := (C33_painters_order hr).mp hops
  have hpl : per.length = a.layers.length := by rw [← hper.length_eq, List.length_zipIdx, hlen]
  -- the calls of each layer
  have hat : ∀ {i : Nat} {s : Schema.AnyLayer F}, a.layers[i]? = some s → a.layers.idxOf s = i := by
    intro i s hs
    obtain ⟨hi, rfl⟩ := List.getElem?_eq_some_iff.mp hs
    exact h.distinct.idxOf_getElem i hi
  have hcalls : ∀ {i : Nat} {s : Schema.AnyLayer F}, a.layers[i]? = some s →
      per[i]? = some (per.getD (a.layers.idxOf s) []) := by
    intro i s hs
    have hi := (List.getElem?_eq_some_iff.mp hs).1
    rw [hat hs, List.getD_eq_getElem?_getD, List.getElem?_eq_getElem (by omega)]
    rfl
  generalize hcs : (fun s => per.getD (a.layers.idxOf s) []) = calls
  have hcalls : ∀ {i : Nat} {s : Schema.AnyLayer F}, a.layers[i]? = some s → per[i]? = some (calls s) := by
    intro i s hs
    rw [hcalls hs, ← hcs]
  have hmap : a.layers.map calls = per := by
    refine List.ext_getElem? fun i => ?_
    rw [List.getElem?_map]
    cases hs : a.layers[i]? with
    | none => rw [List.getElem?_eq_none_iff] at hs; rw [List.getElem?_eq_none_iff.mpr (by omega)]; rfl
    | some s => rw [hcalls hs]; rfl
  have hblock : ∀ {i : Nat} {s : Schema.AnyLayer F} {l : Layer F}, a.layers[i]? = some s → c.layers[i]? = some l →
      if l.isMask then calls s = [] else LayerCalls c c.layers l i T al fr (calls s) := by
    intro i s l hs hl
    obtain ⟨os, ho, hx⟩ := forall₂_getElem?_right hper (i := i) (a := (l, i)) (by
      rw [List.getElem?_zipIdx, hl]; simp)
    rw [hcalls hs] at ho
    cases ho
    exact hx
  have hmatte : ∀ {i : Nat} {s : Schema.AnyLayer F} {l : Layer F}, a.layers[i]? = some s → c.layers[i]? = some l →
      (l.isMask = true ↔ s.Matte) ∧ l.frames = ⟨s.visual.layer.inPoint, s.visual.layer.outPoint⟩ := by
    intro i s l hs hl
    obtain ⟨es, e, -, -, hcv, rfl⟩ := Import.processLayers_get hp hs hl
    exact ⟨hcv.isMask, hcv.frames⟩
  have hlayer : ∀ {i : Nat} {s : Schema.AnyLayer F}, a.layers[i]? = some s → ∃ l, c.layers[i]? = some l := by
    intro i s hs
    have := (List.getElem?_eq_some_iff.mp hs).1
    exact ⟨_, List.getElem?_eq_getElem (by omega)⟩
  -- the calls in the other document
  have hper' : ∀ ls : List (Schema.AnyLayer F), ∀ ls' : List (Layer F), ∀ n : Nat,
      (∀ i : Nat, a'.layers[n + i]? = ls[i]?) → (∀ i : Nat, c'.layers[n + i]? = ls'[i]?) → ls.length = ls'.length →
      ∃ per', List.Forall₂ (fun (p : Layer F × Nat) os =>
          if p.1.isMask then os = [] else LayerCalls c' c'.layers p.1 p.2 T al fr os) (ls'.zipIdx n) per' ∧
        SameButPositions per'.reverse.flatten (ls.map calls).reverse.flatten := by
    intro ls
    induction ls with
    | nil =>
      intro ls' n _ _ hl
      rw [List.eq_nil_of_length_eq_zero hl.symm]
      exact ⟨[], .nil, rfl⟩
    | cons s ss ih =>
      intro ls' n h1 h2 hl
      cases ls' with
      | nil => cases hl
      | cons l' ls' =>
        obtain ⟨per', hp', hs'⟩ := ih ls' (n + 1)
          (fun i => by rw [show n + 1 + i = n + (i + 1) by omega, h1, List.getElem?_cons_succ])
          (fun i => by rw [show n + 1 + i = n + (i + 1) by omega, h2, List.getElem?_cons_succ]) (Nat.succ.inj hl)
        have hs : a'.layers[n]? = some s := h1 0
        have hl' : c'.layers[n]? = some l' := h2 0
        obtain ⟨i, hi⟩ := List.mem_iff_getElem?.mp (h.perm.mem_iff.mp (List.mem_of_getElem? hs))
        have hfi : f i = n := getElem?_inj_of_nodup hnd' (by rw [hf]; exact hi) hs
        obtain ⟨l, hli⟩ := hlayer hi
        have hm := hmv i
        rw [hfi, hli, hl'] at hm
        cases hm with
        | some hm =>
          have hb := hblock hi hli
          have hlm : l'.isMask = l.isMask := by rw [hm.same]
          obtain ⟨os, ho, hso⟩ : ∃ os, (if l'.isMask then os = [] else LayerCalls c' c'.layers l' n T al fr os) ∧
              SameButPositions os (calls s) := by
            rw [hlm]
            cases hx : l.isMask with
            | true => rw [hx] at hb; exact ⟨[], rfl, by rw [show calls s = [] from hb]; rfl⟩
            | false =>
              rw [hx] at hb
              obtain ⟨os, ho, hso⟩ := layerCalls_position (show LayerCalls c c.layers l i T al fr (calls s) from hb) n
              refine ⟨os, ?_, hso.symm⟩
              obtain ⟨k, hk⟩ := layerCalls_iff.mp ho
              refine layerCalls_iff.mpr ⟨k, ?_⟩
              rw [hcc, layerOps_layers]
              exact (layerOps_moved hll hmv k hm n T al fr).symm.trans hk
          refine ⟨os :: per', ?_, ?_⟩
          · rw [List.zipIdx_cons]
            exact .cons ho hp'
          · unfold SameButPositions at *
            simp only [List.map_cons, List.reverse_cons, List.flatten_append, List.map_append, List.flatten_cons,
              List.flatten_nil, List.append_nil, hs', hso]
  obtain ⟨per', hp', hs'⟩ := hper' a'.layers c'.layers 0 (fun i => by rw [Nat.zero_add]) (fun i => by rw [Nat.zero_add]) hlen'
  have hfull : fullRect c' = fullRect c := by rw [hcc]; rfl
  refine ⟨calls, [Op.pushClip T (fullRect c)] ++ per'.reverse.flatten ++ [Op.pop], fun i s l hs hl hm => ?_, fun s hs hne => ?_,
    by rw [hmap], (C33_painters_order hr).mpr ⟨rfl, per', hp', by rw [hfull]⟩, ?_⟩
  · have := hblock hs hl
    cases hx : l.isMask with
    | true => exact absurd ((hmatte hs hl).1.mp hx) hm
    | false => rw [hx] at this; exact this
  · obtain ⟨i, hi⟩ := List.mem_iff_getElem?.mp hs
    obtain ⟨l, hl⟩ := hlayer hi
    obtain ⟨h1, h2⟩ := hmatte hi hl
    have hb := hblock hi hl
    cases hx : l.isMask with
    | true => rw [hx] at hb; exact absurd hb hne
    | false =>
      rw [hx] at hb
      refine ⟨?_, fun hm => by rw [h1.mpr hm] at hx; cases hx⟩
      rcases layerCalls_cases.mp (show LayerCalls c c.layers l i T al fr (calls s) from hb) with ⟨-, h⟩ | ⟨h, -⟩
      · exact absurd h hne
      · rw [h2] at h
        exact by simpa [FRange.contains, Schema.AnyLayer.PresentAt] using h
  · unfold SameButPositions at *
    simp only [List.map_append, hs']

/-- **C145**, the order of layers that are not seen does not matter: if the layers that are there at the frame, and are not mattes,
come in the same order, the calls are the same but for the positions in groups. -/
theorem C145_unseen {a a' : Schema.Animation F} (h : a.Rearranged a') {c : Composition F} (hc : Import.convAnimation a = .ok c)
    {fr : F} {shown : Schema.AnyLayer F → Bool} (hs : ∀ s ∈ a.layers, s.PresentAt fr → ¬ s.Matte → shown s = true)
    (ho : a'.layers.filter shown = a.layers.filter shown) :
    ∃ c', Import.convAnimation a' = .ok c' ∧
      ∀ {r r' : Renderer F}, Reachable r → ∀ {T : Affine F} {al : F} {ops : List (Op F)},
        AppendCalls r c fr T al r' ops → ∃ ops', AppendCalls r c' fr T al r' ops' ∧ SameButPositions ops' ops := by
  obtain ⟨c', hc', hca⟩ := C145_rearranged h hc
  refine ⟨c', hc', fun {r r'} hr {T al ops} hops => ?_⟩
  obtain ⟨calls, ops', -, hp, he, hops', hsame⟩ := hca hr hops
  refine ⟨ops', hops', ?_⟩
  have hq : ∀ s ∈ a.layers, calls s ≠ [] → shown s = true := fun s hm hne => hs s hm (hp s hm hne).1 (hp s hm hne).2
  rw [flatten_shown (fun s hm => hq s (h.perm.mem_iff.mp hm)), ho, ← flatten_shown hq, ← he] at hsame
  exact hsame

/-- **C145**, two layers: exchanging two layers that follow each other, and are not both there at the frame, changes no call
but for the positions in groups. -/
theorem C145_swap {a a' : Schema.Animation F} (h : a.Rearranged a') {c : Composition F} (hc : Import.convAnimation a = .ok c)
    {xs ys : List (Schema.AnyLayer F)} {s t : Schema.AnyLayer F} (hl : a.layers = xs ++ s :: t :: ys)
    (hl' : a'.layers = xs ++ t :: s :: ys) {fr : F} (hn : ¬ (s.PresentAt fr ∧ t.PresentAt fr)) :
    ∃ c', Import.convAnimation a' = .ok c' ∧
      ∀ {r r' : Renderer F}, Reachable r → ∀ {T : Affine F} {al : F} {ops : List (Op F)},
        AppendCalls r c fr T al r' ops → ∃ ops', AppendCalls r c' fr T al r' ops' ∧ SameButPositions ops' ops := by
  classical
  refine C145_unseen h hc (shown := fun s => decide (s.PresentAt fr)) (fun s _ hp _ => decide_eq_true hp) ?_
  rw [hl, hl']
  by_cases h1 : s.PresentAt fr
  · have h2 : ¬ t.PresentAt fr := fun h2 => hn ⟨h1, h2⟩
    simp [h1, h2]
  · by_cases h2 : t.PresentAt fr <;> simp [h1, h2]

end

/-! ## An example -/

section
variable {F : Type} [FloatOps F]

/-- A parent, its child, a matte, the layer it mattes and an instance of an asset. -/
def exFiveDoc : Schema.Animation F := { exDoc with layers := exDocLayers.tail }

/-- The matte, the layer it mattes, the instance, the child, its parent. -/
def exFiveMoved : Schema.Animation F := { exDoc with
  layers := exDocLayers.tail.drop 2 ++ (exDocLayers.tail.take 2).reverse }

theorem exFive_distinct : (exFiveDoc (F := F)).layers.Nodup :=
  List.Nodup.of_map (fun s => s.visual.layer.visualObject.name) (by
    show ["parent", "child", "matte", "matted", "instance"].map some |>.Nodup
    decide)

theorem exFive_perm : (exFiveMoved (F := F)).layers.Perm exFiveDoc.layers :=
  (List.Perm.append_left _ (List.reverse_perm _)).trans
    (List.perm_append_comm.trans (by rw [List.take_append_drop]; exact .refl _))

theorem exFive_rearranged : (exFiveDoc (F := F)).Rearranged exFiveMoved where
  same := rfl
  perm := exFive_perm
  distinct := exFive_distinct
  numbers := by
    intro s hs t ht he
    simp only [exFiveDoc, exDocLayers, List.tail_cons, List.mem_cons, List.not_mem_nil, or_false] at hs ht
    rcases hs with rfl | rfl | rfl | rfl | rfl <;> rcases ht with rfl | rfl | rfl | rfl | rfl <;>
      first | exact .inl rfl | exact absurd he (fun he => by cases he)
  mattes := by
    intro t m h1 _
    have key : ∀ {ls : List (Schema.AnyLayer F)}, ls.Perm exFiveDoc.layers →
        (∃ i : Nat, ls[i]? = (exFiveDoc (F := F)).layers[2]? ∧ ls[i + 1]? = (exFiveDoc (F := F)).layers[3]?) →
        (MatteBefore ls t m ↔ exFiveDoc.layers[3]? = some t ∧ exFiveDoc.layers[2]? = some m) := by
      rintro ls hp ⟨i, hi, hi1⟩
      have hnd := hp.nodup_iff.mpr exFive_distinct
      constructor
      · intro hb
        have ht : t ∈ ls := by
          obtain ⟨i, _, h, -⟩ := hb
          exact List.mem_of_getElem? h
        have hm := hp.mem_iff.mp ht
        simp only [exFiveDoc, exDocLayers, List.tail_cons, List.mem_cons, List.not_mem_nil, or_false] at hm
        rcases hm with rfl | rfl | rfl | rfl | rfl <;>
          first | exact absurd rfl h1 | skip
        refine ⟨rfl, ?_⟩
        rw [(matteBefore_adjacent hnd (m := exShapeDoc { exVisual "matte" (some 3) with matteTarget := some .true })
          ⟨(fun h => by cases h), rfl⟩ hi hi1).mp hb]
        rfl
      · rintro ⟨h3, h2⟩
        rw [h2] at hi
        rw [h3] at hi1
        cases h2
        exact (matteBefore_adjacent hnd ⟨(fun h => by cases h), rfl⟩ hi hi1).mpr rfl
    rw [key (.refl _) ⟨2, rfl, rfl⟩, key exFive_perm ⟨0, rfl, rfl⟩]

end

/-- It can be imported and rendered in both orders. -/
example [Libm F64] [Kurbo F64] {r r' : Renderer F64} (hr : Reachable r) {fr : F64} {T : Affine F64} {al : F64}
    {c : Composition F64} (hc : Import.convAnimation exFiveDoc = .ok c) {ops : List (Op F64)}
    (h : AppendCalls r c fr T al r' ops) : ∃ c' ops', Import.convAnimation (exFiveMoved (F := F64)) = .ok c' ∧
      AppendCalls r c' fr T al r' ops' := by
  obtain ⟨c', hc', hca⟩ := C145_rearranged exFive_rearranged hc
  obtain ⟨_, ops', -, -, -, h', -⟩ := hca hr h
  exact ⟨c', ops', hc', h'⟩

/-- After the last frame of all layers the order does not matter. -/
example [Libm F64] [Kurbo F64] {r r' : Renderer F64} (hr : Reachable r) {T : Affine F64} {al : F64}
    {c : Composition F64} (hc : Import.convAnimation exFiveDoc = .ok c) {ops : List (Op F64)}
    (h : AppendCalls r c (lit 10) T al r' ops) : ∃ c' ops', Import.convAnimation (exFiveMoved (F := F64)) = .ok c' ∧
      AppendCalls r c' (lit 10) T al r' ops' ∧ SameButPositions ops' ops := by
  obtain ⟨c', hc', hca⟩ := C145_unseen (fr := lit 10) exFive_rearranged hc (shown := fun _ => false) (by
    intro s hs hp
    simp only [exFiveDoc, exDocLayers, List.tail_cons, List.mem_cons, List.not_mem_nil, or_false] at hs
    have h10 : FloatOps.lt (lit 10 : F64) (lit 10) = false := by decide +kernel
    rcases hs with rfl | rfl | rfl | rfl | rfl <;> exact absurd (h10.symm.trans hp.2) (by decide)) (by
    rw [List.filter_eq_nil_iff.mpr (by simp), List.filter_eq_nil_iff.mpr (by simp)])
  obtain ⟨ops', h', hs⟩ := hca hr h
  exact ⟨c', ops', hc', h', hs⟩

end Velato
