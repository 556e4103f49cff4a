import Verif.Spec.MoveLayers
import Verif.Props.DocDraws
import Verif.Proofs.Reorder
import Verif.Spec.Picture

/-!
# Moving layers to a precomposition: lemmas
-/

namespace Velato
open FloatOps (lit)

/-! ## Positions -/

section
variable {F : Type}

theorem lastPosition_carried {α : Type} {ids ids' : List α} {D : Nat → Prop} {f : Nat → Nat} {id : α}
    (hs : ∀ i, D i → ids'[f i]? = ids[i]?) (hout : ∀ i, ¬ D i → ids[i]? ≠ some id)
    (honto : ∀ k : Nat, ids'[k]? = some id → ∃ i, D i ∧ f i = k) (hmono : ∀ i j, D i → D j → f i < f j → i < j) {r : Option Nat}
    (h : LastPosition ids id r) : (∀ j, r = some j → D j) ∧ LastPosition ids' id (r.map f) := by
  cases r with
  | none =>
    refine ⟨fun j hj => (by cases hj), fun hm => ?_⟩
    obtain ⟨k, hk⟩ := List.mem_iff_getElem?.mp hm
    obtain ⟨i, hi, rfl⟩ := honto k hk
    rw [hs i hi] at hk
    exact h (List.mem_of_getElem? hk)
  | some j =>
    have hj : D j := by
      by_contra hn
      exact hout j hn h.1
    refine ⟨fun k hk => (by cases hk; exact hj), (hs j hj).trans h.1, fun k hk he => ?_⟩
    obtain ⟨i, hi, rfl⟩ := honto k he
    exact h.2 i (hmono j i hj hi hk) ((hs i hi).symm.trans he)

theorem pendingMatte_shift {us : List (Schema.AnyLayer F)} (pre post : List (Schema.AnyLayer F)) {i j : Nat} (hi : i ≤ us.length)
    (h : PendingMatte us i j) : PendingMatte (pre ++ us ++ post) (pre.length + i) (pre.length + j) := by
  have key : ∀ k, k < us.length → (pre ++ us ++ post)[pre.length + k]? = us[k]? := by
    intro k hk
    rw [List.append_assoc, List.getElem?_append_right (by omega), Nat.add_sub_cancel_left, List.getElem?_append_left hk]
  obtain ⟨h1, ⟨s, hs, hm⟩, h2⟩ := h
  refine ⟨by omega, ⟨s, (key j (by omega)).trans hs, hm⟩, fun k s hk hk' he => ?_⟩
  obtain ⟨k, rfl⟩ : ∃ m, k = pre.length + m := ⟨k - pre.length, by omega⟩
  exact h2 k s (by omega) (by omega) ((key k (by omega)).symm.trans he)

theorem pendingMatte_prefix {xs r r' : List (Schema.AnyLayer F)} {i j : Nat} (hi : i ≤ xs.length)
    (h : PendingMatte (xs ++ r) i j) : PendingMatte (xs ++ r') i j := by
  obtain ⟨h1, ⟨s, hs, hm⟩, h2⟩ := h
  rw [List.getElem?_append_left (by omega)] at hs
  refine ⟨h1, ⟨s, by rw [List.getElem?_append_left (by omega)]; exact hs, hm⟩, fun k s hk hk' he => ?_⟩
  rw [List.getElem?_append_left (by omega)] at he
  exact h2 k s hk hk' (by rw [List.getElem?_append_left (by omega)]; exact he)

end

section
variable {F : Type} [FloatOps F]

/-- The layers of `ls` at the positions `D` are at the positions `f i` of `ls'`, with the same parents and mattes. -/
structure Carried (D : Nat → Prop) (f : Nat → Nat) (ls ls' : List (Schema.AnyLayer F)) : Prop where
  same : ∀ i, D i → ls'[f i]? = ls[i]?
  parent : ∀ i l id r, D i → ls[i]? = some l → l.visual.layer.parentIndex = some id →
    LastPosition (ls.map Schema.AnyLayer.ident) id r →
      (∀ j, r = some j → D j) ∧ LastPosition (ls'.map Schema.AnyLayer.ident) id (r.map f)
  named : ∀ i l x r, D i → ls[i]? = some l → l.visual.matteLayerIndex = some x →
    LastPosition (ls.map Schema.AnyLayer.ident) (FloatOps.toUsize x) r →
      (∀ j, r = some j → D j) ∧ LastPosition (ls'.map Schema.AnyLayer.ident) (FloatOps.toUsize x) (r.map f)
  pending : ∀ i l j, D i → ls[i]? = some l → l.Matted → l.visual.matteLayerIndex = none → PendingMatte ls i j →
    D j ∧ PendingMatte ls' (f i) (f j)
  alone : ∀ i l, D i → ls[i]? = some l → l.Matted → l.visual.matteLayerIndex = none → (∀ j, ¬ PendingMatte ls i j) →
    ∀ j, ¬ PendingMatte ls' (f i) j

variable {D : Nat → Prop} {f : Nat → Nat} {ls ls' : List (Schema.AnyLayer F)}

theorem Carried.matteOf (h : Carried D f ls ls') {i : Nat} (hi : D i) {l : Schema.AnyLayer F} (hl : ls[i]? = some l)
    {r : Option (BlendMode × Nat)} (hm : MatteOf ls i l r) :
    (∀ b j, r = some (b, j) → D j) ∧ MatteOf ls' (f i) l (r.map fun p => (p.1, f p.2)) := by
  cases hm with
  | without h1 => exact ⟨fun b j hj => (by cases hj), .without h1⟩
  | @named mode x r h1 hx hr =>
    obtain ⟨h2, h3⟩ := h.named i l x r hi hl hx hr
    refine ⟨fun b j hj => ?_, ?_⟩
    · cases r with
      | none => cases hj
      | some k => cases hj; exact h2 _ rfl
    · have := MatteOf.named (ls := ls') (i := f i) h1 hx h3
      cases r <;> exact this
  | pending h1 hx hj =>
    obtain ⟨h2, h3⟩ := h.pending i l _ hi hl (by unfold Schema.AnyLayer.Matted; rw [h1]; rfl) hx hj
    exact ⟨fun b j hj => (by cases hj; exact h2), .pending h1 hx h3⟩
  | nothing h1 hx hj =>
    exact ⟨fun b j hj => (by cases hj),
      .nothing h1 hx (h.alone i l hi hl (by unfold Schema.AnyLayer.Matted; rw [h1]; rfl) hx hj)⟩

variable [Libm F] [Kurbo F]

/-! ## Parents -/

/-- The matrix of all parents. -/
inductive PlacedFully (ls : List (Schema.AnyLayer F)) (frame : F) : Schema.AnyLayer F → Affine F → Affine F → Prop where
  | root {l M} (h : l.visual.layer.parentIndex = none) : PlacedFully ls frame l M M
  | stray {l id M} (h : l.visual.layer.parentIndex = some id)
      (hn : LastPosition (ls.map Schema.AnyLayer.ident) id none) : PlacedFully ls frame l M M
  | child {l id j p M N o P} (h : l.visual.layer.parentIndex = some id)
      (hj : LastPosition (ls.map Schema.AnyLayer.ident) id (some j)) (hp : ls[j]? = some p)
      (hl : LayerAt frame p N o) (hr : PlacedFully ls frame p (N.mul M) P) : PlacedFully ls frame l M P

/-- How many layers can come before a layer as parents. -/
def layersBelow (rank : Nat → Nat) (ls : List (Schema.AnyLayer F)) (l : Schema.AnyLayer F) : Nat :=
  (ls.filter fun t => decide (rank t.ident < rank l.ident)).length

omit [FloatOps F] [Libm F] [Kurbo F] in
theorem layersBelow_lt {rank : Nat → Nat} {ls : List (Schema.AnyLayer F)} {l p : Schema.AnyLayer F} (hp : p ∈ ls)
    (h : rank p.ident < rank l.ident) : layersBelow rank ls p < layersBelow rank ls l := by
  unfold layersBelow
  rw [← List.countP_eq_length_filter, ← List.countP_eq_length_filter]
  obtain ⟨xs, ys, rfl⟩ := List.append_of_mem hp
  simp only [List.countP_append, List.countP_cons]
  have hm : ∀ ts : List (Schema.AnyLayer F), ts.countP (fun t => decide (rank t.ident < rank p.ident)) ≤
      ts.countP (fun t => decide (rank t.ident < rank l.ident)) := fun ts =>
    List.countP_mono_left fun t _ ht => by
      simp only [decide_eq_true_eq] at ht ⊢
      omega
  have h1 := hm xs
  have h2 := hm ys
  simp only [decide_eq_true_eq, h, lt_irrefl, if_true, if_false]
  omega

omit [FloatOps F] [Libm F] [Kurbo F] in
theorem parent_ident {id j : Nat} {p : Schema.AnyLayer F} (hj : LastPosition (ls.map Schema.AnyLayer.ident) id (some j))
    (hp : ls[j]? = some p) : p.ident = id := by
  have := hj.1
  rw [List.getElem?_map, hp] at this
  exact Option.some.inj this

theorem PlacedWithin.fully {rank : Nat → Nat}
    (hr : ∀ s ∈ ls, ∀ id, s.visual.layer.parentIndex = some id → rank id < rank s.ident) {fr : F} {n : Nat}
    {l : Schema.AnyLayer F} {M P : Affine F} (h : PlacedWithin ls fr n l M P) (hl : l ∈ ls) (hn : layersBelow rank ls l ≤ n) :
    PlacedFully ls fr l M P := by
  induction h with
  | root h => exact .root h
  | stray h hs => exact .stray h hs
  | child h hj hp hl' _ ih =>
    have hm := List.mem_of_getElem? hp
    have hlt := hr _ hl _ h
    rw [← parent_ident hj hp] at hlt
    have := layersBelow_lt hm hlt
    exact .child h hj hp hl' (ih hm (by omega))
  | @limit l M =>
    cases hp : l.visual.layer.parentIndex with
    | none => exact .root hp
    | some id =>
      by_cases hm : id ∈ ls.map Schema.AnyLayer.ident
      · obtain ⟨t, ht, rfl⟩ := List.mem_map.mp hm
        have := layersBelow_lt ht (hr l hl _ hp)
        omega
      · exact .stray hp hm

theorem PlacedFully.within {rank : Nat → Nat}
    (hr : ∀ s ∈ ls, ∀ id, s.visual.layer.parentIndex = some id → rank id < rank s.ident) {fr : F}
    {l : Schema.AnyLayer F} {M P : Affine F} (h : PlacedFully ls fr l M P) (hl : l ∈ ls) :
    ∀ n, layersBelow rank ls l ≤ n → PlacedWithin ls fr n l M P := by
  induction h with
  | root h => exact fun _ _ => .root h
  | stray h hn => exact fun _ _ => .stray h hn
  | child h hj hp hl' _ ih =>
    intro n hn
    have hm := List.mem_of_getElem? hp
    have hlt := hr _ hl _ h
    rw [← parent_ident hj hp] at hlt
    have := layersBelow_lt hm hlt
    obtain ⟨n, rfl⟩ : ∃ k, n = k + 1 := ⟨n - 1, by omega⟩
    exact .child h hj hp hl' (ih hm n (by omega))

theorem Carried.fully (h : Carried D f ls ls') {fr : F} {l : Schema.AnyLayer F} {M P : Affine F}
    (hp : PlacedFully ls fr l M P) : ∀ i, D i → ls[i]? = some l → PlacedFully ls' fr l M P := by
  induction hp with
  | root h => exact fun _ _ _ => .root h
  | stray h' hn => exact fun i hi hl => .stray h' (h.parent i _ _ _ hi hl h' hn).2
  | @child _ _ j _ _ _ _ _ h' hj hp hl' _ ih =>
    intro i hi hl
    obtain ⟨h1, h2⟩ := h.parent i _ _ _ hi hl h' hj
    exact .child h' h2 ((h.same j (h1 j rfl)).trans hp) hl' (ih j (h1 j rfl) hp)

theorem Carried.placedAt (h : Carried D f ls ls') {rank : Nat → Nat}
    (hr : ∀ s ∈ ls, ∀ id, s.visual.layer.parentIndex = some id → rank id < rank s.ident)
    (hr' : ∀ s ∈ ls', ∀ id, s.visual.layer.parentIndex = some id → rank id < rank s.ident) {fr : F} {i : Nat} (hi : D i)
    {l : Schema.AnyLayer F} (hl : ls[i]? = some l) {P : Affine F} (hp : PlacedAt ls fr l P) : PlacedAt ls' fr l P := by
  obtain ⟨M, o, hM, hP⟩ := hp
  have hl' : ls'[f i]? = some l := (h.same i hi).trans hl
  exact ⟨M, o, hM, (h.fully (hP.fully hr (List.mem_of_getElem? hl) (List.length_filter_le _ _)) i hi hl).within hr'
    (List.mem_of_getElem? hl') _ (List.length_filter_le _ _)⟩

/-! ## Layers -/

omit [Libm F] [Kurbo F] [FloatOps F] in
theorem SameButPositions.append {o1 o2 p1 p2 : List (Op F)} (h1 : SameButPositions o1 p1) (h2 : SameButPositions o2 p2) :
    SameButPositions (o1 ++ o2) (p1 ++ p2) := by
  unfold SameButPositions at *
  rw [List.map_append, List.map_append, h1, h2]

theorem Carried.layerDrawn {a : Schema.Animation F} {T : Affine F} {al fr : F} {ix i : Nat} {l : Schema.AnyLayer F}
    {ops : List (Op F)} (hd : LayerDrawn a ls T al fr ix i l ops) :
    ∀ D f ls', Carried D f ls ls' → (∀ i l P, D i → ls[i]? = some l → PlacedAt ls fr l P → PlacedAt ls' fr l P) →
      D i → ls[i]? = some l → ∀ ix', ∃ ops', LayerDrawn a ls' T al fr ix' (f i) l ops' ∧ SameButPositions ops' ops := by
  have H := LayerDrawn.rec
    (motive_1 := fun ls T al fr ix i l ops _ => ∀ D f ls', Carried D f ls ls' →
      (∀ i l P, D i → ls[i]? = some l → PlacedAt ls fr l P → PlacedAt ls' fr l P) →
      D i → ls[i]? = some l → ∀ ix', ∃ ops', LayerDrawn a ls' T al fr ix' (f i) l ops' ∧ SameButPositions ops' ops ∧
        (ix' = ix → ops' = ops))
    (motive_2 := fun _ _ _ _ _ _ => True) (motive_3 := fun _ _ _ _ _ _ _ _ _ => True)
    ?h1 ?h2 ?h3 (fun _ => trivial) (fun _ _ => trivial) (fun _ _ => trivial) (fun _ => trivial) (fun _ _ _ _ _ _ => trivial)
    trivial (fun _ _ _ => trivial) (fun _ _ _ _ _ => trivial) hd
  · intro D f ls' hc hpl hi hl ix'
    obtain ⟨ops', h1, h2, -⟩ := H D f ls' hc hpl hi hl ix'
    exact ⟨ops', h1, h2⟩
  · intro ls T alpha frame ix i l h D f ls' _ _ _ _ ix'
    exact ⟨[], .absent h, rfl, fun _ => rfl⟩
  · intro ls T alpha frame ix i l P M o ms co h hm hP hk hms hco _ D f ls' hc hpl hi hl ix'
    exact ⟨_, .plain h (hc.matteOf hi hl hm).2 (hpl i l P hi hl hP) hk hms hco, rfl, fun he => by rw [he]⟩
  · intro ls T alpha frame ix i l P M o ms co b j m mo h hm hj hmo hP hk hms hco ih _ D f ls' hc hpl hi hl ix'
    obtain ⟨h1, h2⟩ := hc.matteOf hi hl hm
    obtain ⟨mo', hmo', -, he⟩ := ih D f ls' hc hpl (h1 b j rfl) hj 0
    cases he rfl
    exact ⟨_, .matted h h2 ((hc.same j (h1 b j rfl)).trans hj) hmo' (hpl i l P hi hl hP) hk hms hco, rfl, fun he => by rw [he]⟩

theorem Carried.layersDrawn {a : Schema.Animation F} {T : Affine F} {al fr : F} (hc : Carried D f ls ls')
    (hpl : ∀ i l P, D i → ls[i]? = some l → PlacedAt ls fr l P → PlacedAt ls' fr l P) {number number' : Nat → Nat} :
    ∀ (seg : List (Schema.AnyLayer F)) (n n' : Nat) (per : List (List (Op F))), (∀ k, k < seg.length → D (n + k)) →
      (∀ k, k < seg.length → f (n + k) = n' + k) → (∀ k, k < seg.length → ls[n + k]? = seg[k]?) →
      LayerListDrawn a ls T al fr number n seg per → ∃ per', LayerListDrawn a ls' T al fr number' n' seg per' ∧
        SameButPositions per'.reverse.flatten per.reverse.flatten
  | [], _, _, _, _, _, _, h => by
    cases h
    exact ⟨[], .nil, rfl⟩
  | s :: seg, n, n', per, hD, hf, hs, h => by
    have hD' : ∀ k, k < seg.length → D (n + 1 + k) := fun k hk => by
      rw [show n + 1 + k = n + (k + 1) by omega]
      exact hD (k + 1) (by rw [List.length_cons]; omega)
    have hf' : ∀ k, k < seg.length → f (n + 1 + k) = n' + 1 + k := fun k hk => by
      rw [show n + 1 + k = n + (k + 1) by omega, hf (k + 1) (by rw [List.length_cons]; omega)]
      omega
    have hs' : ∀ k, k < seg.length → ls[n + 1 + k]? = seg[k]? := fun k hk => by
      rw [show n + 1 + k = n + (k + 1) by omega, hs (k + 1) (by rw [List.length_cons]; omega), List.getElem?_cons_succ]
    cases h with
    | matte h hr =>
      obtain ⟨per', h1, h2⟩ := hc.layersDrawn hpl seg (n + 1) (n' + 1) _ hD' hf' hs' hr
      exact ⟨[] :: per', .matte h h1, by simpa using h2⟩
    | layer h hl hr =>
      obtain ⟨per', h1, h2⟩ := hc.layersDrawn hpl seg (n + 1) (n' + 1) _ hD' hf' hs' hr
      obtain ⟨ops', h3, h4⟩ := Carried.layerDrawn hl D f ls' hc hpl (hD 0 (by simp)) (hs 0 (by simp)) (number' n')
      rw [show f n = n' from hf 0 (by simp)] at h3
      refine ⟨ops' :: per', .layer h h3 h1, ?_⟩
      rw [List.reverse_cons, List.reverse_cons, List.flatten_append, List.flatten_append]
      exact h2.append (by simpa using h4)

theorem layerListDrawn_append {a : Schema.Animation F} {T : Affine F} {al fr : F} {number : Nat → Nat} :
    ∀ {l1 l2 : List (Schema.AnyLayer F)} {n : Nat} {per : List (List (Op F))},
      LayerListDrawn a ls T al fr number n (l1 ++ l2) per ↔ ∃ p1 p2, per = p1 ++ p2 ∧
        LayerListDrawn a ls T al fr number n l1 p1 ∧ LayerListDrawn a ls T al fr number (n + l1.length) l2 p2
  | [], l2, n, per => by
    constructor
    · intro h
      exact ⟨[], per, rfl, .nil, h⟩
    · rintro ⟨p1, p2, rfl, h1, h2⟩
      cases h1
      exact h2
  | l :: l1, l2, n, per => by
    have hn : n + (l :: l1).length = n + 1 + l1.length := by rw [List.length_cons]; omega
    rw [hn]
    constructor
    · intro h
      cases h with
      | matte h hr =>
        obtain ⟨p1, p2, rfl, h1, h2⟩ := layerListDrawn_append.mp hr
        exact ⟨_ :: p1, p2, rfl, .matte h h1, h2⟩
      | layer h hl hr =>
        obtain ⟨p1, p2, rfl, h1, h2⟩ := layerListDrawn_append.mp hr
        exact ⟨_ :: p1, p2, rfl, .layer h hl h1, h2⟩
    · rintro ⟨p1, p2, rfl, h1, h2⟩
      cases h1 with
      | matte h hr => exact .matte h (layerListDrawn_append.mpr ⟨_, _, rfl, hr, h2⟩)
      | layer h hl hr => exact .layer h hl (layerListDrawn_append.mpr ⟨_, _, rfl, hr, h2⟩)

/-! ## A new asset -/

theorem layersDrawn_asset {a a' : Schema.Animation F} {p : Schema.PrecompAsset F} (har : a'.area = a.area)
    (has : a'.assetList = a.assetList ++ [.precomposition p])
    (hno : ∀ q, .precomposition q ∈ a.assetList → ShowsNo p.asset.id q.layers) {T : Affine F} {al fr : F} {number : Nat → Nat}
    {i : Nat} {seg : List (Schema.AnyLayer F)} {per : List (List (Op F))} (hls : ShowsNo p.asset.id ls)
    (hseg : ShowsNo p.asset.id seg) (h : LayerListDrawn a ls T al fr number i seg per) :
    LayerListDrawn a' ls T al fr number i seg per := by
  refine LayerListDrawn.rec
    (motive_1 := fun ls T al fr ix i l ops _ => ShowsNo p.asset.id ls → ShowsNo p.asset.id [l] →
      LayerDrawn a' ls T al fr ix i l ops)
    (motive_2 := fun T al fr l co _ => ShowsNo p.asset.id [l] → ContentDrawn a' T al fr l co)
    (motive_3 := fun ls T al fr number i seg per _ => ShowsNo p.asset.id ls → ShowsNo p.asset.id seg →
      LayerListDrawn a' ls T al fr number i seg per)
    (fun h _ _ => .absent h) (fun h hm hP hk hms _ ih h1 h2 => .plain h hm hP hk hms (ih h2)) ?_ (fun h _ => .hidden h)
    (fun hs hp _ => .nothing hs hp) (fun hv hss _ => .shape hv hss) ?_ ?_ (fun _ _ => .nil)
    (fun h _ ih h1 h2 => .matte h (ih h1 fun q hq => h2 q (List.mem_cons_of_mem _ hq)))
    (fun h _ _ ih1 ih2 h1 h2 => .layer h (ih1 h1 fun q hq => h2 q (by
      rw [List.mem_singleton] at hq; rw [hq]; simp)) (ih2 h1 fun q hq => h2 q (List.mem_cons_of_mem _ hq))) h hls hseg
  · intro ls T alpha frame ix i l P M o ms co b j m mo h hm hj _ hP hk hms _ ih1 ih2 h1 h2
    have := LayerDrawn.matted (a := a') (ix := ix) h hm hj (ih1 h1 fun q hq => h1 q (by
      rw [List.mem_singleton] at hq; rw [hq]; exact List.mem_of_getElem? hj)) hP hk hms (ih2 h2)
    unfold composed at this ⊢
    rw [har] at this
    exact this
  · intro T alpha frame q hn h2
    refine .missing fun p' hp' => ?_
    rw [has, List.mem_append, List.mem_singleton] at hp'
    rcases hp' with hp' | hp'
    · exact hn p' hp'
    · cases hp'
      exact (h2 q (by simp)).symm
  · intro T alpha frame q p' per i hv hp hid hlast _ ih h2
    have hi := (List.getElem?_eq_some_iff.mp hp).1
    refine .precomposition hv (by rw [has, List.getElem?_append_left hi]; exact hp) hid (fun j p'' hj hp'' => ?_)
      (ih (hno p' (List.mem_of_getElem? hp)) (hno p' (List.mem_of_getElem? hp)))
    rw [has] at hp''
    by_cases hjl : j < a.assetList.length
    · rw [List.getElem?_append_left hjl] at hp''
      exact hlast j p'' hj hp''
    · have := List.mem_of_getElem? (by rw [List.getElem?_append_right (by omega)] at hp''; exact hp'')
      rw [List.mem_singleton] at this
      cases this
      exact (h2 q (by simp)).symm

/-! ## The layers that are moved, and those that are not -/

variable {a a' : Schema.Animation F} {xs ys zs : List (Schema.AnyLayer F)} {w : Schema.PrecompositionLayer F}
  {p : Schema.PrecompAsset F}

omit [FloatOps F] [Libm F] [Kurbo F] in
theorem getElem?_middle {α : Type} (xs ys zs : List α) {i : Nat} (h1 : xs.length ≤ i) (h2 : i < xs.length + ys.length) :
    (xs ++ ys ++ zs)[i]? = ys[i - xs.length]? := by
  rw [List.append_assoc, List.getElem?_append_right h1, List.getElem?_append_left (by omega)]

omit [FloatOps F] [Libm F] [Kurbo F] in
theorem getElem?_outer {α : Type} (xs ys ys' zs : List α) {i : Nat} (h : i < xs.length ∨ xs.length + ys.length ≤ i) :
    (xs ++ ys' ++ zs)[if i < xs.length then i else i - ys.length + ys'.length]? = (xs ++ ys ++ zs)[i]? := by
  rw [List.append_assoc, List.append_assoc]
  split
  · rename_i hi
    rw [List.getElem?_append_left hi, List.getElem?_append_left hi]
  · rename_i hi
    rw [List.getElem?_append_right (by omega), List.getElem?_append_right (by omega), List.getElem?_append_right (by omega),
      List.getElem?_append_right (by omega)]
    congr 1
    omega

omit [FloatOps F] [Libm F] [Kurbo F] in
theorem mem_outer {α : Type} {xs ys zs : List α} {i : Nat} (h : i < xs.length ∨ xs.length + ys.length ≤ i) {x : α}
    (hx : (xs ++ ys ++ zs)[i]? = some x) : x ∈ xs ++ zs := by
  rw [List.append_assoc] at hx
  rcases h with h | h
  · rw [List.getElem?_append_left h] at hx
    exact List.mem_append_left _ (List.mem_of_getElem? hx)
  · rw [List.getElem?_append_right (by omega), List.getElem?_append_right (by omega)] at hx
    exact List.mem_append_right _ (List.mem_of_getElem? hx)

omit [Libm F] [Kurbo F] in
theorem carried_inside (h : a.Precomposed a' xs ys zs w p) :
    Carried (fun i => xs.length ≤ i ∧ i < xs.length + ys.length) (fun i => i - xs.length) a.layers ys := by
  have hsame : ∀ i, (xs.length ≤ i ∧ i < xs.length + ys.length) → ys[i - xs.length]? = a.layers[i]? := fun i hi => by
    rw [h.layers, getElem?_middle _ _ _ hi.1 hi.2]
  have hmem : ∀ {i : Nat} {l}, (xs.length ≤ i ∧ i < xs.length + ys.length) → a.layers[i]? = some l → l ∈ ys := fun hi hl =>
    List.mem_of_getElem? ((hsame _ hi).trans hl)
  have hlast : ∀ id r, (∀ t ∈ xs ++ zs, id ≠ t.ident) → LastPosition (a.layers.map Schema.AnyLayer.ident) id r →
      (∀ j, r = some j → xs.length ≤ j ∧ j < xs.length + ys.length) ∧
        LastPosition (ys.map Schema.AnyLayer.ident) id (r.map fun i => i - xs.length) := by
    intro id r hid hr
    refine lastPosition_carried (D := fun i => xs.length ≤ i ∧ i < xs.length + ys.length) (fun i hi => ?_) (fun i hi he => ?_)
      (fun k hk => ?_) (fun i j hi hj hf => ?_) hr
    · rw [List.getElem?_map, List.getElem?_map, hsame i hi]
    · rw [List.getElem?_map] at he
      obtain ⟨t, ht, rfl⟩ := Option.map_eq_some_iff.mp he
      rw [h.layers] at ht
      exact hid t (mem_outer (by omega) ht) rfl
    · have := (List.getElem?_eq_some_iff.mp hk).1
      rw [List.length_map] at this
      exact ⟨xs.length + k, ⟨by omega, by omega⟩, by omega⟩
    · omega
  have hpend : ∀ i l, (xs.length ≤ i ∧ i < xs.length + ys.length) → a.layers[i]? = some l → l.Matted →
      l.visual.matteLayerIndex = none → ∃ j, PendingMatte ys (i - xs.length) j ∧ PendingMatte a.layers i (xs.length + j) := by
    intro i l hi hl hm hx
    obtain ⟨j, hj⟩ := h.mattes (i - xs.length) l ((hsame i hi).trans hl) hm hx
    have := pendingMatte_shift xs zs (by omega) hj
    rw [Nat.add_sub_cancel' hi.1, ← h.layers] at this
    exact ⟨j, hj, this⟩
  constructor
  · exact hsame
  · intro i l id r hi hl hp hr
    exact hlast id r (fun t ht he => (h.apart l (hmem hi hl) t ht).1 (.inl (by rw [hp, he]))) hr
  · intro i l x r hi hl hx hr
    exact hlast _ r (fun t ht he => (h.apart l (hmem hi hl) t ht).1 (.inr ⟨x, hx, he⟩)) hr
  · intro i l j hi hl hm hx hj
    obtain ⟨j', h1, h2⟩ := hpend i l hi hl hm hx
    cases pendingMatte_unique hj h2
    refine ⟨⟨by omega, ?_⟩, ?_⟩
    · have := h1.1
      omega
    · rw [Nat.add_sub_cancel_left]
      exact h1
  · intro i l hi hl hm hx hn
    obtain ⟨j', h1, h2⟩ := hpend i l hi hl hm hx
    exact absurd h2 (hn _)

omit [Libm F] [Kurbo F] in
theorem carried_outside (h : a.Precomposed a' xs ys zs w p) :
    Carried (fun i => i < xs.length ∨ xs.length + ys.length ≤ i) (fun i => if i < xs.length then i else i - ys.length + 1)
      a.layers a'.layers := by
  have hl' : a'.layers = xs ++ [.precomposition w] ++ zs := by rw [h.result]; simp
  have hsame : ∀ i, (i < xs.length ∨ xs.length + ys.length ≤ i) →
      a'.layers[if i < xs.length then i else i - ys.length + 1]? = a.layers[i]? := fun i hi => by
    rw [hl', h.layers]
    exact getElem?_outer xs ys [.precomposition w] zs hi
  have hmem : ∀ {i : Nat} {l}, (i < xs.length ∨ xs.length + ys.length ≤ i) → a.layers[i]? = some l → l ∈ xs ++ zs :=
    fun hi hl => mem_outer hi (by rw [← h.layers]; exact hl)
  have hlast : ∀ id r, (∀ t ∈ ys, id ≠ t.ident) → id ≠ Schema.AnyLayer.ident (.precomposition w) →
      LastPosition (a.layers.map Schema.AnyLayer.ident) id r →
      (∀ j, r = some j → j < xs.length ∨ xs.length + ys.length ≤ j) ∧
        LastPosition (a'.layers.map Schema.AnyLayer.ident) id
          (r.map fun i => if i < xs.length then i else i - ys.length + 1) := by
    intro id r hid hw hr
    refine lastPosition_carried (D := fun i => i < xs.length ∨ xs.length + ys.length ≤ i) (fun i hi => ?_) (fun i hi he => ?_)
      (fun k hk => ?_) (fun i j hi hj hf => ?_) hr
    · rw [List.getElem?_map, List.getElem?_map, hsame i hi]
    · rw [List.getElem?_map] at he
      obtain ⟨t, ht, rfl⟩ := Option.map_eq_some_iff.mp he
      rw [h.layers, getElem?_middle _ _ _ (by omega) (by omega)] at ht
      exact hid t (List.mem_of_getElem? ht) rfl
    · rcases Nat.lt_trichotomy k xs.length with hlt | rfl | hgt
      · exact ⟨k, .inl hlt, if_pos hlt⟩
      · rw [List.getElem?_map, hl', getElem?_middle _ _ _ (le_refl _) (by simp), Nat.sub_self] at hk
        exact absurd (Option.some.inj hk).symm hw
      · exact ⟨k - 1 + ys.length, .inr (by omega), by rw [if_neg (by omega)]; omega⟩
    · split at hf <;> split at hf <;> omega
  have hpend : ∀ i l, xs.length + ys.length ≤ i → a.layers[i]? = some l → l.Matted → l.visual.matteLayerIndex = none →
      ∃ j, xs.length + ys.length ≤ j ∧ PendingMatte a.layers i j ∧ PendingMatte a'.layers (i - ys.length + 1) (j - ys.length + 1) := by
    intro i l hi hl hm hx
    have hz : zs[i - (xs ++ ys).length]? = some l := by
      rw [h.layers, List.getElem?_append_right (by rw [List.length_append]; exact hi)] at hl
      exact hl
    have hlt := (List.getElem?_eq_some_iff.mp hz).1
    obtain ⟨j, hj⟩ := h.mattesAfter _ l hz hm hx
    have h1 := pendingMatte_shift (xs ++ ys) [] (by omega) hj
    have h2 := pendingMatte_shift (xs ++ [.precomposition w]) [] (by omega) hj
    rw [List.append_nil] at h1 h2
    rw [← h.layers] at h1
    rw [← hl'] at h2
    rw [List.length_append, Nat.add_sub_cancel' hi] at h1
    refine ⟨_, ?_, h1, ?_⟩
    · omega
    · convert h2 using 1 <;> simp only [List.length_append, List.length_singleton] <;> omega
  constructor
  · exact hsame
  · intro i l id r hi hl hp hr
    have hm := hmem hi hl
    exact hlast id r (fun t ht he => (h.apart t ht l hm).2 (.inl (by rw [hp, he]))) (fun he => h.unused l hm (.inl (by rw [hp, he]))) hr
  · intro i l x r hi hl hx hr
    have hm := hmem hi hl
    exact hlast _ r (fun t ht he => (h.apart t ht l hm).2 (.inr ⟨x, hx, he⟩)) (fun he => h.unused l hm (.inr ⟨x, hx, he⟩)) hr
  · intro i l j hi hl hm hx hj
    by_cases hi' : i < xs.length
    · have hji := hj.1
      refine ⟨.inl (by omega), ?_⟩
      rw [if_pos hi', if_pos (by omega), hl', List.append_assoc]
      rw [h.layers, List.append_assoc] at hj
      exact pendingMatte_prefix (by omega) hj
    · obtain ⟨j', h1, h2, h3⟩ := hpend i l (by omega) hl hm hx
      cases pendingMatte_unique hj h2
      refine ⟨.inr h1, ?_⟩
      rw [if_neg hi', if_neg (by omega)]
      exact h3
  · intro i l hi hl hm hx hn
    by_cases hi' : i < xs.length
    · intro j hj
      rw [if_pos hi', hl', List.append_assoc] at hj
      refine hn j ?_
      rw [h.layers, List.append_assoc]
      exact pendingMatte_prefix (by omega) hj
    · obtain ⟨j', h1, h2, h3⟩ := hpend i l (by omega) hl hm hx
      exact absurd h2 (hn _)

/-! ## Import -/

theorem mapM_append_ok {α β : Type} {g : α → Except Fault β} {l l' : List α} {es es' : List β} (h : l.mapM g = .ok es)
    (h' : l'.mapM g = .ok es') : (l ++ l').mapM g = .ok (es ++ es') :=
  mapM_ok_iff.mpr (List.rel_append (mapM_ok_iff.mp h) (mapM_ok_iff.mp h'))

theorem plain_import (hw : w.Plain) {t : Transform F} {v : Value F F}
    (ht : Import.convTransform w.visualLayer.transform = .ok (t, v)) : ∃ e, Import.convLayer (.precomposition w) = .ok e := by
  have hh : Import.isLayerHidden (.precomposition w) = false := by
    unfold Import.isLayerHidden Import.visualLayer
    simpa using hw.visible
  have hc : Import.layerContent (.precomposition w) = .ok (.instance w.refId none) := by
    unfold Import.layerContent Import.convRemap
    simp only [hw.noRemap]
    rfl
  unfold Import.convLayer Import.layerSetup Import.setupLayer
  simp only [ht, hw.unmasked, hw.unblended, hh, hc]
  exact ⟨_, rfl⟩

theorem precomposed_import (h : a.Precomposed a' xs ys zs w p) (hw : w.Plain) {t : Transform F} {v : Value F F}
    (ht : Import.convTransform w.visualLayer.transform = .ok (t, v)) {c : Composition F} (hc : Import.convAnimation a = .ok c) :
    ∃ c', Import.convAnimation a' = .ok c' := by
  obtain ⟨has, hp, -⟩ := Import.convAnimation_ok hc
  obtain ⟨es, hes, -⟩ := Import.processLayers_ok hp
  obtain ⟨e, he⟩ := plain_import hw ht
  have hproc : ∀ ls : List (Schema.AnyLayer F), (∃ es, ls.mapM Import.convLayer = .ok es) → ∃ ls', Import.processLayers ls = .ok ls' := by
    rintro ls ⟨es, h⟩
    unfold Import.processLayers
    rw [h]
    exact ⟨_, rfl⟩
  have hmem : ∀ ls : List (Schema.AnyLayer F), (∀ s ∈ ls, s ∈ a.layers) → ∃ es, ls.mapM Import.convLayer = .ok es := fun ls hls =>
    mapM_ok_of_mem (mapM_ok_iff.mpr hes) hls
  obtain ⟨es1, h1⟩ := hmem xs fun s hs => by rw [h.layers]; simp [hs]
  obtain ⟨es2, h2⟩ := hmem zs fun s hs => by rw [h.layers]; simp [hs]
  obtain ⟨ly, hy⟩ := hproc ys (hmem ys fun s hs => by rw [h.layers]; simp [hs])
  obtain ⟨lx, hx⟩ := hproc (xs ++ .precomposition w :: zs) ⟨_, mapM_append_ok h1
    (mapM_ok_iff.mpr (.cons he (mapM_ok_iff.mp h2)))⟩
  have hasset : Import.convAsset (.precomposition p) = .ok (p.asset.id, ly) := by
    unfold Import.convAsset
    dsimp only
    rw [h.moved, hy]
    rfl
  have hall : (a.assetList ++ [Schema.AnyAsset.precomposition p]).mapM Import.convAsset = .ok (c.assets ++ [(p.asset.id, ly)]) :=
    mapM_append_ok (mapM_ok_iff.mpr has) (mapM_ok_iff.mpr (.cons hasset .nil))
  rw [h.result]
  unfold Import.convAnimation
  dsimp only [Option.getD_some]
  rw [hall, hx]
  exact ⟨_, rfl⟩

end

/-! ## Pictures -/

theorem run_samePositions {R : Rasteriser} {ops ops' : List (Op ℝ)} (h : SameButPositions ops ops') (st : Pixel × List OpenLayer) :
    R.run ops st = R.run ops' st := by
  have key : ∀ (ops : List (Op ℝ)) st, R.run (ops.map Op.unnumbered) st = R.run ops st := by
    intro ops
    induction ops with
    | nil => exact fun _ => rfl
    | cons op ops ih =>
      intro st
      have : R.step st op.unnumbered = R.step st op := by
        cases op <;> rfl
      exact (ih _).trans (by rw [this]; rfl)
  rw [← key, h, key]

end Velato
