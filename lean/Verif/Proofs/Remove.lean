import Verif.Spec.Remove
import Verif.Props.ImportLayers
import Verif.Props.LayerOrder
import Verif.Proofs.Ancestors
import Verif.Proofs.SameAt

/-!
# Removing a layer: helper lemmas
-/

namespace Velato
open FloatOps (lit)

/-! ## Positions -/

/-- The position in a list of the element at position `j` after that at position `k` is removed. -/
def skip (k j : Nat) : Nat := if j < k then j else j + 1

theorem skip_lt {k i j : Nat} (h : i < j) : skip k i < skip k j := by
  unfold skip; split <;> split <;> omega

theorem skip_lt_iff {k i j : Nat} : skip k i < skip k j ↔ i < j := by
  unfold skip; split <;> split <;> omega

theorem skip_ne (k j : Nat) : skip k j ≠ k := by unfold skip; split <;> omega

theorem exists_skip {k m : Nat} (h : m ≠ k) : ∃ j, m = skip k j := by
  rcases Nat.lt_or_gt_of_ne h with h | h
  · exact ⟨m, by unfold skip; rw [if_pos h]⟩
  · exact ⟨m - 1, by unfold skip; rw [if_neg (by omega)]; omega⟩

theorem getElem?_skip {α : Type} (pre post : List α) (x : α) (j : Nat) :
    (pre ++ x :: post)[skip pre.length j]? = (pre ++ post)[j]? := by
  unfold skip
  split
  · rename_i h
    rw [List.getElem?_append_left h, List.getElem?_append_left h]
  · rename_i h
    rw [List.getElem?_append_right (by omega), List.getElem?_append_right (by omega),
      show j + 1 - pre.length = (j - pre.length) + 1 by omega, List.getElem?_cons_succ]

theorem getElem?_mid {α : Type} (pre post : List α) (x : α) :
    (pre ++ x :: post)[pre.length]? = some x := by
  rw [List.getElem?_append_right (le_refl _), Nat.sub_self]; rfl

theorem LastPosition.unique {α : Type} {ids : List α} {id : α} {r r' : Option Nat}
    (h : LastPosition ids id r) (h' : LastPosition ids id r') : r = r' := by
  cases r with
  | none =>
    cases r' with
    | none => rfl
    | some j => exact absurd (List.mem_of_getElem? h'.1) h
  | some i =>
    cases r' with
    | none => exact absurd (List.mem_of_getElem? h.1) h'
    | some j =>
      rcases lt_trichotomy i j with hij | rfl | hij
      · exact absurd h'.1 (h.2 j hij)
      · rfl
      · exact absurd h.1 (h'.2 i hij)

theorem LastPosition.skip {α : Type} {pre post : List α} {x id : α} (hne : id ≠ x) {r : Option Nat}
    (h : LastPosition (pre ++ post) id r) :
    LastPosition (pre ++ x :: post) id (r.map (skip pre.length)) := by
  cases r with
  | none =>
    show id ∉ pre ++ x :: post
    intro hm
    refine h ?_
    rcases List.mem_append.mp hm with hm | hm
    · exact List.mem_append_left _ hm
    · rcases List.mem_cons.mp hm with rfl | hm
      · exact absurd rfl hne
      · exact List.mem_append_right _ hm
  | some j =>
    refine ⟨by rw [getElem?_skip]; exact h.1, fun m hm he => ?_⟩
    by_cases hmk : m = pre.length
    · rw [hmk, getElem?_mid] at he
      exact hne (Option.some.inj he).symm
    · obtain ⟨m', rfl⟩ := exists_skip hmk
      rw [getElem?_skip] at he
      exact h.2 m' (skip_lt_iff.mp hm) he

section
variable {F : Type}

theorem PendingMatte.skip {pre post : List (Schema.AnyLayer F)} {s : Schema.AnyLayer F}
    (hs : ¬ s.Matte ∧ ¬ s.Matted) {i j : Nat} :
    PendingMatte (pre ++ s :: post) (skip pre.length i) (skip pre.length j) ↔
      PendingMatte (pre ++ post) i j := by
  unfold PendingMatte
  rw [getElem?_skip, skip_lt_iff]
  refine and_congr_right fun _ => and_congr_right fun _ => ⟨fun h k t hj hk ht => ?_,
    fun h k t hj hk ht => ?_⟩
  · exact h _ t (skip_lt hj) (skip_lt hk) (by rw [getElem?_skip]; exact ht)
  · by_cases hkk : k = pre.length
    · rw [hkk, getElem?_mid] at ht
      cases ht
      exact hs
    · obtain ⟨k', rfl⟩ := exists_skip hkk
      rw [getElem?_skip] at ht
      exact h k' t (skip_lt_iff.mp hj) (skip_lt_iff.mp hk) ht

theorem PendingMatte.exists_skip {pre post : List (Schema.AnyLayer F)} {s : Schema.AnyLayer F}
    (hs : ¬ s.Matte) {i m : Nat} (h : PendingMatte (pre ++ s :: post) i m) :
    ∃ j, m = Velato.skip pre.length j := by
  refine Velato.exists_skip fun hm => ?_
  obtain ⟨-, ⟨t, ht, hmt⟩, -⟩ := h
  rw [hm, getElem?_mid] at ht
  cases ht
  exact hs hmt

/-! ## Layers that refer to the same layers -/

variable [FloatOps F] [Libm F] [Kurbo F]

/-- The layer `l'` of the shorter list is the layer `l` of the longer one. -/
structure Twin (k : Nat) (l l' : Layer F) : Prop where
  same : l = { l' with parent := l.parent, maskLayer := l.maskLayer }
  parent : l.parent = l'.parent.map (skip k)
  matte : l.maskLayer = l'.maskLayer.map fun p => (p.1, skip k p.2)

/-- The list `ls'` is the list `ls` without the layer at position `k`. -/
def Twins (k : Nat) (ls ls' : List (Layer F)) : Prop :=
  ∀ j, Option.Rel (Twin k) ls[skip k j]? ls'[j]?

omit [FloatOps F] [Libm F] [Kurbo F] in
theorem Ancestors.twins {k : Nat} {ls ls' : List (Layer F)} (h : Twins k ls ls') {p' : Option Nat}
    {ps' : List (Layer F)} (ha : Ancestors ls' p' ps') :
    ∃ ps, Ancestors ls (p'.map (skip k)) ps ∧ List.Forall₂ (fun p q => p.transform = q.transform) ps ps' := by
  induction ha with
  | root => exact ⟨[], .root, .nil⟩
  | @dangling i hi =>
    have := h i
    rw [hi] at this
    refine ⟨[], .dangling ?_, .nil⟩
    generalize ls[skip k i]? = o at this
    cases this
    rfl
  | @parent i q qs hi _ ih =>
    have := h i
    rw [hi] at this
    cases hl : ls[skip k i]? with
    | none => rw [hl] at this; cases this
    | some l =>
      rw [hl] at this
      cases this with
      | some ht =>
        obtain ⟨ps, hp, hf⟩ := ih
        rw [← ht.parent] at hp
        exact ⟨l :: ps, .parent hl hp, .cons (by rw [ht.same]) hf⟩

theorem computeTransform_twins {k : Nat} {ls ls' : List (Layer F)} (h : Twins k ls ls')
    {l l' : Layer F} (hl : Twin k l l') {ps' : List (Layer F)} (ha : Ancestors ls' l'.parent ps')
    (T : Affine F) (fr : F) : computeTransform ls l T fr = computeTransform ls' l' T fr := by
  obtain ⟨ps, hp, hf⟩ := ha.twins h
  rw [← hl.parent] at hp
  unfold computeTransform
  rw [chaseParents_ancestors hp _ _ hp.length_le, chaseParents_ancestors ha _ _ ha.length_le]
  have ht : l.transform = l'.transform := by rw [hl.same]
  rw [ht]
  congr 1
  generalize l'.transform.evaluate fr = X
  clear hp ha
  induction hf generalizing X with
  | nil => rfl
  | cons h1 _ ih => rw [List.foldl_cons, List.foldl_cons, h1, ih]

theorem layerOps_layers (c : Composition F) (ls : List (Layer F)) (n : Nat) :
    layerOps { c with layers := ls } n = layerOps c n := by
  induction n with
  | zero => rfl
  | succ n ih =>
    show layerBody _ (layerOps { c with layers := ls } n) = layerBody c (layerOps c n)
    rw [ih]
    rfl

theorem layerOps_twins {c : Composition F} {k : Nat} {ls ls' : List (Layer F)} (h : Twins k ls ls')
    (ha : ∀ l' ∈ ls', ∃ ps, Ancestors ls' l'.parent ps) (hm : ∀ l' ∈ ls', ∀ b j,
      l'.maskLayer = some (b, j) → j < ls'.length) :
    ∀ (n : Nat) {l l' : Layer F}, l' ∈ ls' → Twin k l l' → ∀ (ix : Nat) (T : Affine F) (a fr : F),
      layerOps c n ls l ix T a fr = layerOps c n ls' l' ix T a fr
  | 0, _, _, _, _, _, _, _, _ => rfl
  | n + 1, l, l', hl', hl, ix, T, a, fr => by
    have ih := fun {l l'} => layerOps_twins (c := c) h ha hm n (l := l) (l' := l')
    show layerBody c (layerOps c n) ls l ix T a fr = layerBody c (layerOps c n) ls' l' ix T a fr
    obtain ⟨ps, hps⟩ := ha l' hl'
    have hT := computeTransform_twins h hl hps T fr
    have hmo : matteOps c (layerOps c n) ls l T a fr = matteOps c (layerOps c n) ls' l' T a fr := by
      unfold matteOps
      rw [hl.matte]
      cases hq : l'.maskLayer with
      | none => rfl
      | some p =>
        obtain ⟨b, j⟩ := p
        have hj := hm l' hl' b j hq
        have hr := h j
        rw [List.getElem?_eq_getElem hj] at hr
        dsimp only [Option.map_some]
        cases hx : ls[skip k j]? with
        | none => rw [hx] at hr; cases hr
        | some m =>
          rw [hx] at hr
          cases hr with
          | some ht =>
            rw [List.getElem?_eq_getElem hj]
            dsimp only
            rw [ih (List.getElem_mem hj) ht]
    have hco : ∀ T' a', contentOps c (layerOps c n) l T' a' fr = contentOps c (layerOps c n) l' T' a' fr := by
      intro T' a'
      rw [hl.same]
      rfl
    have hms : l.maskLayer.isSome = l'.maskLayer.isSome := by rw [hl.matte]; cases l'.maskLayer <;> rfl
    unfold layerBody layerOut
    rw [hmo, hT, hco, hms, hl.same]

/-- The position a layer is announced with is the only thing that depends on it. -/
theorem layerCalls_position {c : Composition F} {ls : List (Layer F)} {l : Layer F} {ix : Nat}
    {T : Affine F} {a fr : F} {ops : List (Op F)} (h : LayerCalls c ls l ix T a fr ops) (ix' : Nat) :
    ∃ ops', LayerCalls c ls l ix' T a fr ops' ∧ SameButPositions ops ops' := by
  rcases layerCalls_cases.mp h with ⟨h1, rfl⟩ | ⟨h1, mo, ms, co, h2, h3, h4, rfl⟩
  · exact ⟨[], layerCalls_cases.mpr (.inl ⟨h1, rfl⟩), rfl⟩
  · refine ⟨layerOut l ix' mo ms co, layerCalls_cases.mpr (.inr ⟨h1, mo, ms, co, h2, h3, h4, rfl⟩), ?_⟩
    simp [SameButPositions, layerOut, Op.unnumbered]

/-! ## Import -/

theorem twins_of_import {a : Schema.Animation F} {pre post : List (Schema.AnyLayer F)}
    {s : Schema.AnyLayer F} (ha : a.layers = pre ++ s :: post) (hu : s.Unreferenced (pre ++ post))
    (hs : ¬ s.Matte ∧ ¬ s.Matted) {c c' : Composition F} (hc : Import.convAnimation a = .ok c)
    (hc' : Import.convAnimation { a with layers := pre ++ post } = .ok c') :
    Twins pre.length c.layers c'.layers := by
  intro j
  obtain ⟨-, hp, -⟩ := Import.convAnimation_ok hc
  obtain ⟨-, hp', -⟩ := Import.convAnimation_ok hc'
  have hp' : Import.processLayers (pre ++ post) = .ok c'.layers := hp'
  rw [ha] at hp
  have hlen := Import.processLayers_length hp
  have hlen' := Import.processLayers_length hp'
  cases hl' : c'.layers[j]? with
  | none =>
    have : (pre ++ post)[j]? = none := by
      rw [List.getElem?_eq_none_iff] at hl' ⊢; omega
    rw [← getElem?_skip pre post s j, List.getElem?_eq_none_iff, hlen] at this
    rw [List.getElem?_eq_none_iff.mpr this]
    exact .none
  | some l' =>
    have hjl : j < (pre ++ post).length := by rw [hlen']; exact (List.getElem?_eq_some_iff.mp hl').1
    obtain ⟨t, ht'⟩ : ∃ t, (pre ++ post)[j]? = some t := ⟨_, List.getElem?_eq_getElem hjl⟩
    have ht : (pre ++ s :: post)[skip pre.length j]? = some t := by rw [getElem?_skip]; exact ht'
    obtain ⟨l, hl⟩ : ∃ l, c.layers[skip pre.length j]? = some l := by
      have := (List.getElem?_eq_some_iff.mp ht).1
      rw [hlen] at this
      exact ⟨_, List.getElem?_eq_getElem this⟩
    rw [hl]
    refine .some ?_
    have hd : ImportedList a c (pre ++ s :: post) c.layers := by rw [← ha]; exact .root
    have hd' : ImportedList { a with layers := pre ++ post } c' (pre ++ post) c'.layers := .root
    have htm := List.mem_of_getElem? ht'
    obtain ⟨hup, hum⟩ := hu t htm
    refine ⟨?_, ?_, ?_⟩
    · -- the attributes
      obtain ⟨es, hes, he⟩ := Import.processLayers_ok hp
      obtain ⟨es', hes', he'⟩ := Import.processLayers_ok hp'
      rw [he, Import.linkLayers_get] at hl
      rw [he', Import.linkLayers_get] at hl'
      obtain ⟨e, h1, rfl⟩ := Option.map_eq_some_iff.mp hl
      obtain ⟨e', h2, rfl⟩ := Option.map_eq_some_iff.mp hl'
      have c1 : Import.convLayer t = .ok e := by
        have := forall₂_getElem? hes (skip pre.length j)
        rw [ht, h1] at this
        cases this with | some h => exact h
      have c2 : Import.convLayer t = .ok e' := by
        have := forall₂_getElem? hes' j
        rw [ht', h2] at this
        cases this with | some h => exact h
      rw [c1] at c2
      cases c2
      rfl
    · have h1 := (C45_parents hc hd ht hl).1
      have h2 := (C45_parents hc' hd' ht' hl').1
      cases hpi : t.visual.layer.parentIndex with
      | none => rw [hpi] at h1 h2; rw [h1, h2]; rfl
      | some id =>
        rw [hpi] at h1 h2
        dsimp only at h1 h2
        rw [List.map_append] at h1 h2
        rw [List.map_cons] at h1
        have := h2.skip (x := s.ident) (fun he => hup (by rw [hpi, he]))
        rw [List.length_map] at this
        exact h1.unique this
    · obtain ⟨a1, b1, c1, -⟩ := C46_mattes hc hd ht hl
      obtain ⟨a2, b2, c2, -⟩ := C46_mattes hc' hd' ht' hl'
      cases hmm : t.visual.matteMode with
      | none => rw [a1 hmm, a2 hmm]; rfl
      | some mode =>
        cases hmi : t.visual.matteLayerIndex with
        | some x =>
          obtain ⟨r1, h1, e1⟩ := b1 mode x hmm hmi
          obtain ⟨r2, h2, e2⟩ := b2 mode x hmm hmi
          rw [List.map_append] at h1 h2
          rw [List.map_cons] at h1
          have := h2.skip (x := s.ident) (hum x hmi)
          rw [List.length_map] at this
          rw [e1, e2, h1.unique this]
          cases r2 <;> rfl
        | none =>
          rcases c1 mode hmm hmi with ⟨m, h1, e1⟩ | ⟨h1, e1⟩ <;>
            rcases c2 mode hmm hmi with ⟨m', h2, e2⟩ | ⟨h2, e2⟩
          · rw [e1, e2]
            obtain ⟨m'', rfl⟩ := h1.exists_skip hs.1
            have h3 := (PendingMatte.skip hs).mp h1
            have : m'' = m' := by
              by_contra hne
              rcases Nat.lt_or_gt_of_ne hne with hlt | hlt
              · obtain ⟨x, hx, hxm⟩ := h2.2.1
                exact (h3.2.2 m' x hlt h2.1 hx).1 hxm
              · obtain ⟨x, hx, hxm⟩ := h3.2.1
                exact (h2.2.2 m'' x hlt h3.1 hx).1 hxm
            rw [this]; rfl
          · obtain ⟨m'', rfl⟩ := h1.exists_skip hs.1
            exact absurd ((PendingMatte.skip hs).mp h1) (h2 _)
          · exact absurd ((PendingMatte.skip hs).mpr h2) (h1 _)
          · rw [e1, e2]; rfl

theorem ancestors_of_acyclic {a : Schema.Animation F} (h : ParentsAcyclic a.layers) {c : Composition F}
    (hc : Import.convAnimation a = .ok c) : ∀ l ∈ c.layers, ∃ ps, Ancestors c.layers l.parent ps := by
  obtain ⟨rank, hr⟩ := h
  obtain ⟨-, hp, -⟩ := Import.convAnimation_ok hc
  have hlen := Import.processLayers_length hp
  intro l hl
  obtain ⟨i, hi⟩ := List.mem_iff_getElem?.mp hl
  have key : ∀ (i : Nat) (l : Layer F) (j : Nat), c.layers[i]? = some l → l.parent = some j →
      (fun i => rank (a.layers.map Schema.AnyLayer.ident)[i]!) j <
        (fun i => rank (a.layers.map Schema.AnyLayer.ident)[i]!) i := by
    intro i l j hi hj
    obtain ⟨s, hs⟩ : ∃ s, a.layers[i]? = some s := by
      have := (List.getElem?_eq_some_iff.mp hi).1
      rw [← hlen] at this
      exact ⟨_, List.getElem?_eq_getElem this⟩
    have h1 := (C45_parents hc .root hs hi).1
    cases hpi : s.visual.layer.parentIndex with
    | none => rw [hpi] at h1; rw [h1] at hj; cases hj
    | some id =>
      rw [hpi, hj] at h1
      have e1 : (a.layers.map Schema.AnyLayer.ident)[j]! = id := by
        rw [List.getElem!_eq_getElem?_getD, h1.1]; rfl
      have e2 : (a.layers.map Schema.AnyLayer.ident)[i]! = s.ident := by
        rw [List.getElem!_eq_getElem?_getD, List.getElem?_map, hs]; rfl
      dsimp only
      rw [e1, e2]
      exact hr s (List.mem_of_getElem? hs) id hpi
  exact Ancestors.of_rank _ key _ l.parent fun j hj => key i l j hi hj

end
end Velato
