import Verif.Proofs.Coordinates
import Verif.Proofs.TrimPath
import Verif.Proofs.ChainCalls

/-!
# The outlines of the calls that draw a document: helper lemmas
-/

namespace Velato
open FloatOps (lit)
open F64
open Import

/-- All elements of an outline. -/
def AllUpTo (k : Nat) (els : List (PathEl F64)) : Prop := ∀ el ∈ els, el.UpTo k

theorem AllUpTo.mono {k l : Nat} {els : List (PathEl F64)} (h : AllUpTo k els) (hl : k ≤ l) : AllUpTo l els :=
  fun el he => (h el he).mono hl

theorem AllUpTo.nil {k : Nat} : AllUpTo k [] := fun _ h => absurd h List.not_mem_nil

theorem AllUpTo.append {k : Nat} {xs ys : List (PathEl F64)} (h1 : AllUpTo k xs) (h2 : AllUpTo k ys) :
    AllUpTo k (xs ++ ys) := fun el he => (List.mem_append.mp he).elim (h1 el) (h2 el)

/-! ## Trims -/

theorem segmentsAux_upTo {k : Nat} : ∀ {els : List (PathEl F64)} (_ : AllUpTo k els) {start last : P2 F64},
    start.UpTo k → last.UpTo k → ∀ seg ∈ segmentsAux els start last, seg.UpTo k := by
  intro els
  induction els with
  | nil => exact fun _ _ _ _ _ _ h => absurd h List.not_mem_nil
  | cons el els ih =>
    intro h start last hs hl seg hseg
    have he := h el List.mem_cons_self
    have ht : AllUpTo k els := fun x hx => h x (List.mem_cons_of_mem _ hx)
    have two : ∀ {p q : P2 F64}, p.UpTo k → q.UpTo k → PathSeg.UpTo k (.line p q) := by
      intro p q hp hq x hx
      simp only [PathSeg.points, List.mem_cons, List.not_mem_nil, or_false] at hx
      rcases hx with rfl | rfl
      · exact hp
      · exact hq
    cases el with
    | moveTo p =>
      have hp := he p (by simp [PathEl.points])
      exact ih ht hp hp seg hseg
    | lineTo p =>
      have hp := he p (by simp [PathEl.points])
      rcases List.mem_cons.mp hseg with rfl | hseg
      · exact two hl hp
      · exact ih ht hs hp seg hseg
    | quadTo p q =>
      have hp := he p (by simp [PathEl.points])
      have hq := he q (by simp [PathEl.points])
      rcases List.mem_cons.mp hseg with rfl | hseg
      · intro x hx
        simp only [PathSeg.points, List.mem_cons, List.not_mem_nil, or_false] at hx
        rcases hx with rfl | rfl | rfl
        · exact hl
        · exact hp
        · exact hq
      · exact ih ht hs hq seg hseg
    | curveTo p q r =>
      have hp := he p (by simp [PathEl.points])
      have hq := he q (by simp [PathEl.points])
      have hr := he r (by simp [PathEl.points])
      rcases List.mem_cons.mp hseg with rfl | hseg
      · intro x hx
        simp only [PathSeg.points, List.mem_cons, List.not_mem_nil, or_false] at hx
        rcases hx with rfl | rfl | rfl | rfl
        · exact hl
        · exact hp
        · exact hq
        · exact hr
      · exact ih ht hs hr seg hseg
    | closePath =>
      unfold segmentsAux at hseg
      split_ifs at hseg
      · exact ih ht hs hl seg hseg
      · rcases List.mem_cons.mp hseg with rfl | hseg
        · exact two hl hs
        · exact ih ht hs hs seg hseg

theorem segments_upTo {k : Nat} {els : List (PathEl F64)} (h : AllUpTo k els) : ∀ seg ∈ segments els, seg.UpTo k := by
  unfold segments
  split
  · rename_i p es
    have hp := h _ List.mem_cons_self p (by simp [PathEl.points])
    exact segmentsAux_upTo (fun x hx => h x (List.mem_cons_of_mem _ hx)) hp hp
  · exact fun _ h => absurd h List.not_mem_nil

theorem unit_between {t : F64} (h0 : (lit 0 <=. t) = true) (h1 : (t <=. lit 1) = true) : t.Between 0 1 := by
  have hf : t.isFin = true := by
    cases t with
    | nan => exact absurd h0 (by decide +kernel)
    | inf n =>
      cases n
      · exact absurd h1 (by decide +kernel)
      · exact absurd h0 (by decide +kernel)
    | fin n a ha => rfl
  have q0 := (F64.le_fin F64.isFin_lit0 hf).mp h0
  have q1 := (F64.le_fin hf F64.isFin_lit1).mp h1
  rw [F64.toQ_lit0] at q0
  rw [F64.toQ_lit1] at q1
  exact ⟨hf, by unfold toR; exact_mod_cast q0, by unfold toR; exact_mod_cast q1⟩

theorem lt_le {x y : F64} (h : (x <. y) = true) : (x <=. y) = true := by
  rw [LawfulCmp.lt_iff] at h
  rw [LawfulCmp.le_iff]
  obtain ⟨a, b, ha, hb, hab⟩ := h
  exact ⟨a, b, ha, hb, le_of_lt hab⟩

theorem le_le {x y z : F64} (h1 : (x <=. y) = true) (h2 : (y <=. z) = true) : (x <=. z) = true := by
  rw [LawfulCmp.le_iff] at *
  obtain ⟨a, b, ha, hb, hab⟩ := h1
  obtain ⟨b', c, hb', hc, hbc⟩ := h2
  rw [hb] at hb'
  cases hb'
  exact ⟨a, c, ha, hc, hab.trans hbc⟩

section
variable [Kurbo F64]

theorem piece_upTo (hK : BoundedKurbo) {k : Nat} (hk : k ≤ 50) {p : Piece F64} (hp : p.seg.UpTo k) (h : Kept p) :
    p.sub.UpTo (k + 3) := by
  obtain ⟨v0, v1, v2⟩ := h.valid64
  have v1' := lt_le v1
  exact hK.subsegment k p.seg p.t0 p.t1 hk hp (unit_between v0 (le_le v1' v2)) (unit_between (le_le v0 v1') v2)

omit [Kurbo F64] in
theorem toEl_upTo {k : Nat} {seg : PathSeg F64} (h : seg.UpTo k) : seg.toEl.UpTo k ∧ seg.start.UpTo k := by
  cases seg <;> exact ⟨fun p hp => h p (List.mem_cons_of_mem _ hp), h _ List.mem_cons_self⟩

theorem trimSegs_upTo (hK : BoundedKurbo) {k : Nat} (hk : k ≤ 50) {segs : List (PathSeg F64)}
    (h : ∀ seg ∈ segs, seg.UpTo k) (s e cur : F64) : AllUpTo (k + 3) (trimSegs s e segs cur true) := by
  obtain ⟨run, h1, h2, h3⟩ := trimSegs_pieces s e segs cur true
  rw [h1]
  have hp : ∀ p ∈ run, p.sub.UpTo (k + 3) := fun p hp =>
    piece_upTo hK hk (h _ (h2.subset (List.mem_map_of_mem hp))) (h3 p hp)
  show AllUpTo (k + 3) (runPath run)
  cases run with
  | nil => exact .nil
  | cons p ps =>
    intro el hel
    rcases List.mem_cons.mp hel with rfl | hel
    · intro x hx
      cases List.mem_singleton.mp hx
      exact (toEl_upTo (hp p List.mem_cons_self)).2
    · obtain ⟨q, hq, rfl⟩ := List.mem_map.mp hel
      exact (toEl_upTo (hp q hq)).1

theorem cut_upTo (hK : BoundedKurbo) {k : Nat} (hk : k ≤ 50) (t : FixedTrim F64) {o : Outline F64}
    (h : AllUpTo k o.path) : AllUpTo (k + 3) (t.cut o).path := by
  unfold FixedTrim.cut
  split
  · exact .nil
  · rename_i first second e
    split_ifs
    · exact h.mono (by omega)
    · show AllUpTo (k + 3) (((trimPath first second o.path).toOption).getD [])
      unfold trimPath
      dsimp only
      split_ifs
      · exact .nil
      · exact .nil
      · intro el hel
        obtain ⟨range, -, hel⟩ := List.mem_flatMap.mp hel
        exact trimSegs_upTo hK hk (segments_upTo h) _ _ _ el hel

end

/-! ## The shapes of a layer -/

/-- All outlines of a sheet. -/
structure Sheet.UpTo (k : Nat) (S : Sheet F64) : Prop where
  outer : ∀ o ∈ S.outer, AllUpTo k o.path
  outlines : ∀ o ∈ S.outlines, AllUpTo k o.path
  paintings : ∀ p ∈ S.paintings, ∀ o ∈ p.outlines, AllUpTo k o.path
  elements : AllUpTo k S.elements

theorem Sheet.UpTo.mono {k l : Nat} {S : Sheet F64} (h : S.UpTo k) (hl : k ≤ l) : S.UpTo l :=
  ⟨fun o ho => (h.outer o ho).mono hl, fun o ho => (h.outlines o ho).mono hl,
    fun p hp o ho => (h.paintings p hp o ho).mono hl, h.elements.mono hl⟩

theorem Sheet.UpTo.add {k : Nat} {S : Sheet F64} (h : S.UpTo k) (T : Affine F64) {els : List (PathEl F64)}
    (he : AllUpTo k els) : (S.add T els).UpTo k := by
  have new : ∀ o ∈ S.outlines ++ [⟨T, els⟩], AllUpTo k o.path := by
    intro o ho
    rcases List.mem_append.mp ho with ho | ho
    · exact h.outlines o ho
    · cases List.mem_singleton.mp ho
      exact he
  have hel : AllUpTo k (S.elements ++ els) := h.elements.append he
  unfold Sheet.add
  dsimp only
  split
  · rename_i o ho
    have ho' : AllUpTo k o.path := by
      rcases List.mem_append.mp (List.mem_of_getLast? ho) with h' | h'
      · exact h.outer _ h'
      · exact h.outlines _ h'
    have all : ∀ p, AllUpTo k p → ∀ x ∈ (S.outer ++ S.outlines).dropLast ++ [⟨o.transform, p⟩], AllUpTo k x.path := by
      intro p hp x hx
      rcases List.mem_append.mp hx with hx | hx
      · rcases List.mem_append.mp (List.mem_of_mem_dropLast hx) with h' | h'
        · exact h.outer _ h'
        · exact h.outlines _ h'
      · cases List.mem_singleton.mp hx
        exact hp
    split_ifs
    · exact ⟨fun x hx => all _ hel x (List.mem_of_mem_take hx), fun x hx => all _ hel x (List.mem_of_mem_drop hx),
        h.paintings, hel⟩
    · exact ⟨fun x hx => all _ (ho'.append he) x (List.mem_of_mem_take hx),
        fun x hx => all _ (ho'.append he) x (List.mem_of_mem_drop hx), h.paintings, hel⟩
    · exact ⟨h.outer, new, h.paintings, hel⟩
  · exact ⟨h.outer, new, h.paintings, hel⟩

section
variable [Kurbo F64]

theorem Sheet.UpTo.trim (hK : BoundedKurbo) {k : Nat} (hk : k ≤ 50) {S : Sheet F64} (h : S.UpTo k)
    (t : FixedTrim F64) : (S.trim t).UpTo (k + 3) := by
  have cut : ∀ {os : List (Outline F64)}, (∀ o ∈ os, AllUpTo k o.path) → ∀ o ∈ os.map t.cut, AllUpTo (k + 3) o.path := by
    intro os hos o ho
    obtain ⟨o', ho', rfl⟩ := List.mem_map.mp ho
    exact cut_upTo hK hk t (hos _ ho')
  have h0 : ∀ o ∈ S.outer, AllUpTo (k + 3) o.path := fun o ho => (h.outer o ho).mono (by omega)
  have h1 := cut h.outlines
  have h2 : ∀ p ∈ S.paintings.map fun p => (⟨p.paint, p.outlines.map t.cut⟩ : Painting F64),
      ∀ o ∈ p.outlines, AllUpTo (k + 3) o.path := by
    intro p hp
    obtain ⟨p', hp', rfl⟩ := List.mem_map.mp hp
    exact cut (h.paintings _ hp')
  have h3 : AllUpTo (k + 3) S.elements := h.elements.mono (by omega)
  have h4 : AllUpTo (k + 3) ((S.outer ++ S.outlines.map t.cut).flatMap Outline.path) := by
    intro el hel
    obtain ⟨o, ho, hel⟩ := List.mem_flatMap.mp hel
    rcases List.mem_append.mp ho with ho | ho
    · exact h0 o ho el hel
    · exact h1 o ho el hel
  unfold Sheet.trim
  dsimp only
  split_ifs
  · exact ⟨h0, h1, h2, h3⟩
  · exact ⟨h0, h1, h2, h3⟩
  · exact ⟨h0, h1, h2, h3⟩
  · exact ⟨h0, h1, h2, h4⟩
  · exact ⟨h0, h1, h2, h4⟩

variable [Libm F64]

theorem items_upTo (hK : BoundedKurbo) {frame : F64} {T : Affine F64} {alpha : F64}
    {items : List (Schema.AnyShape F64)} {S S' : Sheet F64} (h : ItemsDrawn frame T alpha items S S') :
    (∀ s ∈ items, ∀ t, Within t s → ∀ els, OutlineAt frame t els → AllUpTo 26 els) →
    ∀ {k : Nat}, 26 ≤ k → k + 3 * trimsOf items ≤ 50 → S.UpTo k → S'.UpTo (k + 3 * trimsOf items) := by
  induction h with
  | nil =>
    intro _ k _ _ hS
    simpa only [trimsOf, Nat.mul_zero, Nat.add_zero] using hS
  | @geometry T alpha s els rest S S' h hr ih =>
    intro hG k hk hb hS
    rw [trimsOf] at hb ⊢
    exact (ih (fun s hs => hG s (List.mem_cons_of_mem _ hs)) hk (by omega)
      (hS.add T ((hG _ List.mem_cons_self _ .self _ h).mono hk))).mono (by omega)
  | @group T alpha e nm i items rest M m S E S' ht hi hr ihi ihr =>
    intro hG k hk hb hS
    rw [trimsOf, Schema.AnyShape.trims] at hb ⊢
    have hE := ihi (fun s hs t h => hG _ List.mem_cons_self t (.item hs h)) hk (by omega)
      ⟨fun o ho => (List.mem_append.mp ho).elim (hS.outer o) (hS.outlines o), fun _ h => absurd h List.not_mem_nil,
        fun _ h => absurd h List.not_mem_nil, hS.elements⟩
    have hS' := hS.mono (show k ≤ k + 3 * trimsOf items by omega)
    refine (ihr (fun s hs => hG s (List.mem_cons_of_mem _ hs)) (k := k + 3 * trimsOf items) (by omega) (by omega)
      ⟨fun o ho => hE.outer o (List.mem_of_mem_take ho), fun o ho => ?_,
      fun p hp => (List.mem_append.mp hp).elim (hS'.paintings p) (hE.paintings p), hE.elements⟩).mono (by omega)
    exact (List.mem_append.mp ho).elim (fun h => hE.outer o (List.mem_of_mem_drop h)) (hE.outlines o)
  | paint hp hr ih =>
    intro hG k hk hb hS
    rw [trimsOf] at hb ⊢
    refine (ih (fun s hs => hG s (List.mem_cons_of_mem _ hs)) hk (by omega)
      ⟨hS.outer, hS.outlines, fun p hp' => ?_, hS.elements⟩).mono (by omega)
    rcases List.mem_append.mp hp' with h | h
    · exact hS.paintings p h
    · cases List.mem_singleton.mp h
      exact hS.outlines
  | trim ht hr ih =>
    intro hG k hk hb hS
    rw [trimsOf, Schema.AnyShape.trims] at hb ⊢
    exact (ih (fun s hs => hG s (List.mem_cons_of_mem _ hs)) (k := k + 3) (by omega) (by omega)
      (hS.trim hK (by omega) _)).mono (by omega)
  | ignored h hr ih =>
    intro hG k hk hb hS
    rw [trimsOf] at hb ⊢
    exact (ih (fun s hs => hG s (List.mem_cons_of_mem _ hs)) hk (by omega) hS).mono (by omega)

/-! ## Layers -/

/-- The outline of the call. -/
def Op.OutlineUpTo (k : Nat) (op : Op F64) : Prop := ∀ els, op.outline = some els → AllUpTo k els

omit [Kurbo F64] [Libm F64] in
theorem calls_upTo {k : Nat} {S : Sheet F64} (h : S.UpTo k) : ∀ op ∈ S.calls, op.OutlineUpTo k := by
  intro op hop
  obtain ⟨p, hp, hop⟩ := List.mem_flatMap.mp hop
  obtain ⟨o, ho, rfl⟩ := List.mem_map.mp hop
  intro els hels
  cases hels
  exact h.paintings p (List.mem_reverse.mp hp) o ho

theorem masks_upTo {k : Nat} {frame : F64} {T : Affine F64} {ms : List (Schema.Mask F64)}
    {ops : List (Op F64)} (h : MasksDrawn frame T ms ops) :
    (∀ m ∈ ms, ∀ p, m.shape = some p → ∀ g, PathOf p g → ∀ els, g.evaluate frame = .ok els → AllUpTo k els) →
    ∀ op ∈ ops, op.OutlineUpTo k := by
  induction h with
  | nil => exact fun _ _ h => absurd h List.not_mem_nil
  | keep hp hg he _ ih =>
    intro hG op hop
    rcases List.mem_cons.mp hop with rfl | hop
    · intro els hels
      cases hels
      rcases shapeGeometry_ok hg with ⟨g', e, h⟩ | ⟨e, -⟩
      · cases e
        exact hG _ List.mem_cons_self _ hp _ h _ he
      · cases e
    · exact ih (fun m hm => hG m (List.mem_cons_of_mem _ hm)) op hop
  | drop _ _ ih => exact fun hG => ih fun m hm => hG m (List.mem_cons_of_mem _ hm)

omit [Kurbo F64] [Libm F64] in
theorem announced_upTo {k : Nat} {l : Schema.AnyLayer F64} {ix : Nat} {ops : List (Op F64)}
    (h : ∀ op ∈ ops, op.OutlineUpTo k) : ∀ op ∈ announced l ix ops, op.OutlineUpTo k := by
  intro op hop
  unfold announced at hop
  simp only [List.mem_append, List.mem_singleton] at hop
  rcases hop with (rfl | hop) | rfl
  · intro T hT; cases hT
  · exact h op hop
  · intro T hT; cases hT

omit [Kurbo F64] [Libm F64] in
theorem body_upTo {k : Nat} {ms co : List (Op F64)} (h1 : ∀ op ∈ ms, op.OutlineUpTo k)
    (h2 : ∀ op ∈ co, op.OutlineUpTo k) : ∀ op ∈ ms ++ co ++ List.replicate ms.length .pop, op.OutlineUpTo k := by
  intro op hop
  simp only [List.mem_append, List.mem_replicate] at hop
  rcases hop with (hop | hop) | ⟨-, rfl⟩
  · exact h1 op hop
  · exact h2 op hop
  · intro T hT; cases hT

/-- What is needed of a layer that is shown at a frame. -/
structure LayerFits (k : Nat) (l : Schema.AnyLayer F64) (frame : F64) : Prop where
  masks : ∀ ms m, l.visual.masksProperties = some ms → m ∈ ms → ∀ p, m.shape = some p → ∀ g, PathOf p g →
    ∀ els, g.evaluate frame = .ok els → AllUpTo k els
  shapes : ∀ q, l = .shape q → 26 + 3 * trimsOf q.shapes ≤ k ∧
    ∀ s ∈ q.shapes, ∀ t, Within t s → ∀ els, OutlineAt frame t els → AllUpTo 26 els

theorem layers_upTo (hK : BoundedKurbo) {k : Nat} (hk : k ≤ 50) {a : Schema.Animation F64}
    {src ls : List (Schema.AnyLayer F64)} {T : Affine F64} {al fr : F64} {number : Nat → Nat} {i : Nat}
    {per : List (List (Op F64))} (hd : LayerListDrawn a src T al fr number i ls per) :
    (∀ l x, ShownAt a src fr l x → LayerFits k l x) → (∀ l ∈ ls, l ∈ src) →
      ∀ ops ∈ per, ∀ op ∈ ops, op.OutlineUpTo k := by
  have own : ∀ {ls : List (Schema.AnyLayer F64)} {T : Affine F64} {frame : F64} {l : Schema.AnyLayer F64}
      {ms co : List (Op F64)}, l.During frame → MasksDrawn frame T (l.visual.masksProperties.getD []) ms →
      (LayerFits k l frame → (∀ q, l = .precomposition q → ∀ p, .precomposition p ∈ a.assetList →
        p.asset.id = q.refId → ∀ l' x, ShownAt a p.layers (q.time frame) l' x → LayerFits k l' x) →
        ∀ op ∈ co, op.OutlineUpTo k) →
      (∀ l x, ShownAt a ls frame l x → LayerFits k l x) → l ∈ ls →
        ∀ op ∈ ms ++ co ++ List.replicate ms.length .pop, op.OutlineUpTo k := by
    intro ls T frame l ms co hd hms hco hG hm
    have hl := hG l frame (.here hm hd)
    refine body_upTo (masks_upTo hms ?_) (hco hl ?_)
    · intro m hm' p hp g hg els he
      cases hx : l.visual.masksProperties with
      | none => rw [hx] at hm'; exact absurd hm' List.not_mem_nil
      | some xs =>
        rw [hx] at hm'
        exact hl.masks xs m hx hm' p hp g hg els he
    · rintro q rfl p hp hid l' x h
      exact hG _ _ (.inside hm hd hp hid h)
  refine LayerListDrawn.rec
    (motive_1 := fun src T al fr ix i l ops _ => (∀ l x, ShownAt a src fr l x → LayerFits k l x) → l ∈ src →
      ∀ op ∈ ops, op.OutlineUpTo k)
    (motive_2 := fun T al fr l co _ => LayerFits k l fr →
      (∀ q, l = .precomposition q → ∀ p, .precomposition p ∈ a.assetList → p.asset.id = q.refId →
        ∀ l' x, ShownAt a p.layers (q.time fr) l' x → LayerFits k l' x) → ∀ op ∈ co, op.OutlineUpTo k)
    (motive_3 := fun src T al fr number i ls per _ => (∀ l x, ShownAt a src fr l x → LayerFits k l x) →
      (∀ l ∈ ls, l ∈ src) → ∀ ops ∈ per, ∀ op ∈ ops, op.OutlineUpTo k)
    ?_ ?_ ?_ ?_ ?_ ?_ ?_ ?_ ?_ ?_ ?_ hd
  · intros
    rename_i h
    cases h
  · intro ls T alpha frame ix i l P M o ms co h hm hP hk hms _ ih hG hmem
    exact announced_upTo (own h hms ih hG hmem)
  · intro ls T alpha frame ix i l P M o ms co bl j m mo h hm hj _ hP hk hms _ ihm ih hG hmem
    refine announced_upTo fun op hop => ?_
    unfold composed at hop
    simp only [List.mem_append, List.mem_cons, List.not_mem_nil, or_false] at hop
    rcases hop with (((rfl | hop) | rfl) | hop) | rfl | rfl
    · intro T hT; cases hT
    · exact ihm hG (List.mem_of_getElem? hj) op hop
    · intro T hT; cases hT
    · refine own h hms ih hG hmem op ?_
      simpa only [List.mem_append] using hop
    · intro T hT; cases hT
    · intro T hT; cases hT
  · intros
    rename_i h
    cases h
  · intros
    rename_i h
    cases h
  · intro T alpha frame q S hv hss hG _
    obtain ⟨h1, h2⟩ := hG.shapes q rfl
    exact calls_upTo ((items_upTo hK hss h2 (le_refl _) (by omega)
      ⟨fun _ h => absurd h List.not_mem_nil, fun _ h => absurd h List.not_mem_nil, fun _ h => absurd h List.not_mem_nil,
        .nil⟩).mono h1)
  · intros
    rename_i h
    cases h
  · intro T alpha frame q p per i hv hp hid hlast _ ih _ hG op hop
    obtain ⟨ops, hops, hop⟩ := List.mem_flatten.mp hop
    exact ih (hG q rfl p (List.mem_of_getElem? hp) hid) (fun _ h => h) ops (List.mem_reverse.mp hops) op hop
  · intros
    rename_i h _ _
    cases h
  · intro ls T alpha frame number i l ls' per h _ ih hG hsub ops hops
    rcases List.mem_cons.mp hops with rfl | hops
    · exact fun _ h => absurd h List.not_mem_nil
    · exact ih hG (fun l hl' => hsub l (List.mem_cons_of_mem _ hl')) ops hops
  · intro ls T alpha frame number i l ops ls' per h _ _ ih1 ih2 hG hsub os hos
    rcases List.mem_cons.mp hos with rfl | hos
    · exact ih1 hG (hsub l List.mem_cons_self)
    · exact ih2 hG (fun l hl' => hsub l (List.mem_cons_of_mem _ hl')) os hos

omit [Kurbo F64] [Libm F64] in
theorem shown_mem {a : Schema.Animation F64} {ls : List (Schema.AnyLayer F64)} {frame x : F64}
    {l : Schema.AnyLayer F64} (h : ShownAt a ls frame l x) : (∀ l ∈ ls, l ∈ a.allLayers) →
      l ∈ a.allLayers ∧ l.During x := by
  induction h with
  | here h hd => exact fun hs => ⟨hs _ h, hd⟩
  | inside h hd hp hid hr ih =>
    intro _
    refine ih fun l hl => ?_
    unfold Schema.Animation.allLayers
    exact List.mem_append_right _ (List.mem_flatMap.mpr ⟨_, hp, hl⟩)

omit [Kurbo F64] [Libm F64] in
theorem during_not_nan {l : Schema.AnyLayer F64} {x : F64} (h : l.During x) : x ≠ .nan := by
  rintro rfl
  have := h.1
  rw [LawfulCmp.le_iff] at this
  obtain ⟨_, _, _, h, _⟩ := this
  cases h

theorem fits_of_modest (hK : BoundedKurbo) (hl : AccurateLibm) (hA : AccurateAngles) {a : Schema.Animation F64}
    {n : Nat} (hm : a.Modest n) {frame : F64} (hp : a.PathsDefined frame) {l : Schema.AnyLayer F64} {x : F64}
    (h : ShownAt a a.layers frame l x) : LayerFits (26 + 3 * n) l x := by
  obtain ⟨hmem, hdur⟩ := shown_mem h fun l hl => List.mem_append_left _ hl
  have hx := during_not_nan hdur
  refine ⟨?_, ?_⟩
  · intro ms m hms hm' p hpm g hg els he
    have hh : l.HasPath p := .inl ⟨ms, m, hms, hm', hpm⟩
    exact AllUpTo.mono (path_upTo (hm.paths p ⟨l, hmem, hh⟩) hx (hp l x h p hh) hg he) (by omega)
  · rintro q rfl
    refine ⟨?_, ?_⟩
    · have := hm.trims _ hmem q rfl
      omega
    · intro s hs t hts els he
      refine outline_upTo hK hl hA (hm.shapes _ hmem q rfl s hs t hts) hx ?_ he
      rintro w rfl
      exact hp _ x h _ (.inr ⟨q, rfl, s, hs, w, hts, rfl⟩)

end
end Velato
