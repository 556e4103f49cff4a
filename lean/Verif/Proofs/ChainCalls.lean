import Verif.Proofs.ChainDoc

/-!
# The matrices of the calls that draw a document: helper lemmas
-/

namespace Velato
open FloatOps (lit)
open Import

section
variable [Libm F64] [Kurbo F64]

/-- All outlines are placed by matrices with the property `G`. -/
structure Sheet.All (G : Affine F64 → Prop) (S : Sheet F64) : Prop where
  outer : ∀ o ∈ S.outer, G o.transform
  outlines : ∀ o ∈ S.outlines, G o.transform
  paintings : ∀ p ∈ S.paintings, ∀ o ∈ p.outlines, G o.transform

omit [Libm F64] [Kurbo F64] in
theorem Sheet.All.add {G : Affine F64 → Prop} {S : Sheet F64} (h : S.All G) {T : Affine F64} (hT : G T)
    (els : List (PathEl F64)) : (S.add T els).All G := by
  have new : ∀ o ∈ S.outlines ++ [⟨T, els⟩], G o.transform := by
    intro o ho
    rcases List.mem_append.mp ho with ho | ho
    · exact h.outlines o ho
    · cases List.mem_singleton.mp ho
      exact hT
  unfold Sheet.add
  dsimp only
  split
  · rename_i o ho
    have ho' : G o.transform := by
      rcases List.mem_append.mp (List.mem_of_getLast? ho) with h' | h'
      · exact h.outer _ h'
      · exact h.outlines _ h'
    have all : ∀ p, ∀ x ∈ (S.outer ++ S.outlines).dropLast ++ [⟨o.transform, p⟩], G x.transform := by
      intro p x hx
      rcases List.mem_append.mp hx with hx | hx
      · rcases List.mem_append.mp (List.mem_of_mem_dropLast hx) with h' | h'
        · exact h.outer _ h'
        · exact h.outlines _ h'
      · cases List.mem_singleton.mp hx
        exact ho'
    split_ifs
    · exact ⟨fun x hx => all _ x (List.mem_of_mem_take hx), fun x hx => all _ x (List.mem_of_mem_drop hx),
        h.paintings⟩
    · exact ⟨fun x hx => all _ x (List.mem_of_mem_take hx), fun x hx => all _ x (List.mem_of_mem_drop hx),
        h.paintings⟩
    · exact ⟨h.outer, new, h.paintings⟩
  · exact ⟨h.outer, new, h.paintings⟩

omit [Libm F64] in
theorem Sheet.All.trim {G : Affine F64 → Prop} {S : Sheet F64} (h : S.All G) (t : FixedTrim F64) :
    (S.trim t).All G := by
  have cut : ∀ {os : List (Outline F64)}, (∀ o ∈ os, G o.transform) → ∀ o ∈ os.map t.cut, G o.transform := by
    intro os hos o ho
    obtain ⟨o', ho', rfl⟩ := List.mem_map.mp ho
    rw [cut_transform]
    exact hos _ ho'
  have h1 := cut h.outlines
  have h2 : ∀ p ∈ S.paintings.map fun p => (⟨p.paint, p.outlines.map t.cut⟩ : Painting F64),
      ∀ o ∈ p.outlines, G o.transform := by
    intro p hp
    obtain ⟨p', hp', rfl⟩ := List.mem_map.mp hp
    exact cut (h.paintings _ hp')
  unfold Sheet.trim
  dsimp only
  split_ifs <;> exact ⟨h.outer, h1, h2⟩

theorem IntoGroups.mono {frame : F64} {ss : List (Schema.AnyShape F64)} {T T' : Affine F64} {Q : P2 ℝ → P2 ℝ}
    {k : Nat} (h : IntoGroups frame ss T T' Q k) {ss' : List (Schema.AnyShape F64)} (hs : ∀ s ∈ ss, s ∈ ss') :
    IntoGroups frame ss' T T' Q k := by
  cases h with
  | here => exact .here
  | group h hM hr hQ => exact .group (hs _ h) hM hr hQ

theorem items_into {G : Affine F64 → Prop} {frame : F64} {T : Affine F64} {alpha : F64}
    {items : List (Schema.AnyShape F64)} {S S' : Sheet F64} (h : ItemsDrawn frame T alpha items S S') :
    (∀ T' Q k, IntoGroups frame items T T' Q k → G T') → S.All G → S'.All G := by
  induction h with
  | nil => exact fun _ hS => hS
  | geometry h hr ih =>
    intro hG hS
    exact ih (fun T' Q k h => hG T' Q k (h.mono fun _ hs => List.mem_cons_of_mem _ hs))
      (hS.add (hG _ _ _ .here) _)
  | @group T alpha e nm i items rest M k S E S' ht hi hr ihi ihr =>
    intro hG hS
    obtain ⟨r, hr'⟩ := groupAt_means ht
    have hE := ihi (fun T' Q k h => hG T' _ _ (.group List.mem_cons_self ht hr' h))
      ⟨fun o ho => (List.mem_append.mp ho).elim (hS.outer o) (hS.outlines o), fun _ h => absurd h List.not_mem_nil,
        fun _ h => absurd h List.not_mem_nil⟩
    refine ihr (fun T' Q k h => hG T' Q k (h.mono fun _ hs => List.mem_cons_of_mem _ hs))
      ⟨fun o ho => hE.outer o (List.mem_of_mem_take ho), fun o ho => ?_,
      fun p hp => (List.mem_append.mp hp).elim (hS.paintings p) (hE.paintings p)⟩
    exact (List.mem_append.mp ho).elim (fun h => hE.outer o (List.mem_of_mem_drop h)) (hE.outlines o)
  | paint hp hr ih =>
    intro hG hS
    refine ih (fun T' Q k h => hG T' Q k (h.mono fun _ hs => List.mem_cons_of_mem _ hs))
      ⟨hS.outer, hS.outlines, fun p hp' => ?_⟩
    rcases List.mem_append.mp hp' with h | h
    · exact hS.paintings p h
    · cases List.mem_singleton.mp h
      exact hS.outlines
  | trim ht hr ih =>
    exact fun hG hS => ih (fun T' Q k h => hG T' Q k (h.mono fun _ hs => List.mem_cons_of_mem _ hs)) (hS.trim _)
  | ignored h hr ih =>
    exact fun hG hS => ih (fun T' Q k h => hG T' Q k (h.mono fun _ hs => List.mem_cons_of_mem _ hs)) hS

/-- The matrix of the call has the property. -/
def Op.Has (G : Affine F64 → Prop) (op : Op F64) : Prop := ∀ T, op.matrix = some T → G T

omit [Libm F64] [Kurbo F64] in
theorem calls_have {G : Affine F64 → Prop} {S : Sheet F64} (h : S.All G) : ∀ op ∈ S.calls, op.Has G := by
  intro op hop
  obtain ⟨p, hp, hop⟩ := List.mem_flatMap.mp hop
  obtain ⟨o, ho, rfl⟩ := List.mem_map.mp hop
  intro T hT
  cases hT
  exact h.paintings p (List.mem_reverse.mp hp) o ho

theorem masks_have {G : Affine F64 → Prop} {frame : F64} {T : Affine F64} (hT : G T) {ms : List (Schema.Mask F64)}
    {ops : List (Op F64)} (h : MasksDrawn frame T ms ops) : ∀ op ∈ ops, op.Has G := by
  induction h with
  | nil => exact fun _ h => absurd h List.not_mem_nil
  | keep _ _ _ _ ih =>
    intro op hop
    rcases List.mem_cons.mp hop with rfl | hop
    · intro T hT'; cases hT'; exact hT
    · exact ih op hop
  | drop _ _ ih => exact ih

omit [Libm F64] [Kurbo F64] in
theorem announced_have {G : Affine F64 → Prop} {l : Schema.AnyLayer F64} {ix : Nat} {ops : List (Op F64)}
    (h : ∀ op ∈ ops, op.Has G) : ∀ op ∈ announced l ix ops, op.Has G := by
  intro op hop
  unfold announced at hop
  simp only [List.mem_append, List.mem_singleton] at hop
  rcases hop with (rfl | hop) | rfl
  · intro T hT; cases hT
  · exact h op hop
  · intro T hT; cases hT

omit [Libm F64] [Kurbo F64] in
theorem body_have {G : Affine F64 → Prop} {ms co : List (Op F64)} (h1 : ∀ op ∈ ms, op.Has G)
    (h2 : ∀ op ∈ co, op.Has G) : ∀ op ∈ ms ++ co ++ List.replicate ms.length .pop, op.Has G := by
  intro op hop
  simp only [List.mem_append, List.mem_replicate] at hop
  rcases hop with (hop | hop) | ⟨-, rfl⟩
  · exact h1 op hop
  · exact h2 op hop
  · intro T hT; cases hT

theorem layers_into {G : Affine F64 → Prop} {a : Schema.Animation F64}
    {src ls : List (Schema.AnyLayer F64)} {T : Affine F64} {al fr : F64} {number : Nat → Nat} {i : Nat}
    {per : List (List (Op F64))} (hd : LayerListDrawn a src T al fr number i ls per) :
    (∀ T' Q n, Into a src fr T T' Q n → G T') → (∀ l ∈ ls, l ∈ src) → ∀ ops ∈ per, ∀ op ∈ ops, op.Has G := by
  have own : ∀ {ls : List (Schema.AnyLayer F64)} {T : Affine F64} {frame : F64} {l : Schema.AnyLayer F64}
      {P : Affine F64} {ms co : List (Op F64)}, PlacedAt ls frame l P →
      MasksDrawn frame (T.mul P) (l.visual.masksProperties.getD []) ms →
      ((∀ q, l = .shape q → ∀ T' R n, IntoGroups frame q.shapes (T.mul P) T' R n → G T') →
        (∀ q, l = .precomposition q → ∀ p, .precomposition p ∈ a.assetList → p.asset.id = q.refId →
          ∀ T' R n, Into a p.layers (q.time frame) (T.mul P) T' R n → G T') → ∀ op ∈ co, op.Has G) →
      (∀ T' Q n, Into a ls frame T T' Q n → G T') → l ∈ ls →
        ∀ op ∈ ms ++ co ++ List.replicate ms.length .pop, op.Has G := by
    intro ls T frame l P ms co hP hms hco hG hm
    obtain ⟨Q, k, hQ⟩ := placedAt_meant hP
    refine body_have (masks_have (hG _ _ _ (.layer hm hP hQ)) hms) (hco ?_ ?_)
    · rintro q rfl T' R n h
      exact hG _ _ _ (.shapes hm hP hQ h)
    · rintro q rfl p hp hid T' R n h
      exact hG _ _ _ (.instance hm hP hQ hp hid h)
  refine LayerListDrawn.rec
    (motive_1 := fun src T al fr ix i l ops _ => (∀ T' Q n, Into a src fr T T' Q n → G T') → l ∈ src →
      ∀ op ∈ ops, op.Has G)
    (motive_2 := fun T al fr l co _ =>
      (∀ q, l = .shape q → ∀ T' R n, IntoGroups fr q.shapes T T' R n → G T') →
      (∀ q, l = .precomposition q → ∀ p, .precomposition p ∈ a.assetList → p.asset.id = q.refId →
        ∀ T' R n, Into a p.layers (q.time fr) T T' R n → G T') → ∀ op ∈ co, op.Has G)
    (motive_3 := fun src T al fr number i ls per _ => (∀ T' Q n, Into a src fr T T' Q n → G T') →
      (∀ l ∈ ls, l ∈ src) → ∀ ops ∈ per, ∀ op ∈ ops, op.Has G)
    ?_ ?_ ?_ ?_ ?_ ?_ ?_ ?_ ?_ ?_ ?_ hd
  · intros
    rename_i h
    cases h
  · intro ls T alpha frame ix i l P M o ms co h hm hP hk hms _ ih hG hmem
    exact announced_have (own hP hms ih hG hmem)
  · intro ls T alpha frame ix i l P M o ms co bl j m mo h hm hj _ hP hk hms _ ihm ih hG hmem
    refine announced_have fun op hop => ?_
    unfold composed at hop
    simp only [List.mem_append, List.mem_cons, List.not_mem_nil, or_false] at hop
    rcases hop with (((rfl | hop) | rfl) | hop) | rfl | rfl
    · intro T hT; cases hT; exact hG _ _ _ .here
    · exact ihm hG (List.mem_of_getElem? hj) op hop
    · intro T hT; cases hT; exact hG _ _ _ .here
    · refine own hP hms ih hG hmem op ?_
      simpa only [List.mem_append] using hop
    · intro T hT; cases hT
    · intro T hT; cases hT
  · intros
    rename_i h
    cases h
  · intros
    rename_i h
    cases h
  · intro T alpha frame q S hv hss hG _
    exact calls_have (items_into hss (hG q rfl)
      ⟨fun _ h => absurd h List.not_mem_nil, fun _ h => absurd h List.not_mem_nil, fun _ h => absurd h List.not_mem_nil⟩)
  · intros
    rename_i h
    cases h
  · intro T alpha frame q p per i hv hp hid hlast _ ih _ hG op hop
    obtain ⟨ops, hops, hop⟩ := List.mem_flatten.mp hop
    exact ih (hG q rfl p (List.mem_of_getElem? hp) hid) (fun _ h => h) ops (List.mem_reverse.mp hops) op hop
  · intros
    rename_i h _ _
    cases h
  · intro ls T alpha frame number i l ls' per h _ ih hG hsub ops hops
    rcases List.mem_cons.mp hops with rfl | hops
    · exact fun _ h => absurd h List.not_mem_nil
    · exact ih hG (fun l hl' => hsub l (List.mem_cons_of_mem _ hl')) ops hops
  · intro ls T alpha frame number i l ops ls' per h _ _ ih1 ih2 hG hsub os hos
    rcases List.mem_cons.mp hos with rfl | hos
    · exact ih1 hG (hsub l List.mem_cons_self)
    · exact ih2 hG (fun l hl' => hsub l (List.mem_cons_of_mem _ hl')) os hos

/-! ## The lengths of the ways -/

omit [Libm F64] in
theorem meant_length {ls : List (Schema.AnyLayer F64)} {frame : F64} {f k : Nat} {l : Schema.AnyLayer F64}
    {q Q : P2 ℝ → P2 ℝ} (h : MeantWithin ls frame f l q Q k) : ∀ {n : Nat}, ParentsAtMost ls n l → k ≤ n := by
  induction h with
  | @child f l id j p q r Q k h hj hp hr hQ ih =>
    intro n hn
    cases n with
    | zero => exact absurd hj (hn id j h)
    | succ n => exact Nat.succ_le_succ (ih (hn id j p h hj hp))
  | _ => exact fun _ => Nat.zero_le _

theorem groups_length {frame : F64} {ss : List (Schema.AnyShape F64)} {T T' : Affine F64} {Q : P2 ℝ → P2 ℝ}
    {k : Nat} (h : IntoGroups frame ss T T' Q k) : ∀ {g : Nat}, ShapesTame g ss → k ≤ g := by
  induction h with
  | here => exact fun _ => Nat.zero_le _
  | group h hM hr hQ ih =>
    intro g hg
    cases g with
    | zero => exact absurd rfl ((hg _ h).2 _ _ _ _)
    | succ g => exact Nat.succ_le_succ (ih ((hg _ h).2 _ _ _ _ rfl).2)

theorem into_length {a : Schema.Animation F64} {depth : String → Nat}
    (hassets : ∀ p, .precomposition p ∈ a.assetList → LayersTame depth (depth p.asset.id) p.layers)
    {ls : List (Schema.AnyLayer F64)} {frame : F64} {T T' : Affine F64} {Q : P2 ℝ → P2 ℝ} {n : Nat}
    (h : Into a ls frame T T' Q n) : ∀ {b : Nat}, LayersTame depth b ls → n ≤ b := by
  induction h with
  | here => exact fun _ => Nat.zero_le _
  | layer h hP hQ =>
    intro b hb
    obtain ⟨-, k, hk, hkb, -, -⟩ := hb _ h
    obtain ⟨q, hq, hQ⟩ := hQ
    have := meant_length hQ hk
    omega
  | shapes h hP hQ hR =>
    intro b hb
    obtain ⟨-, k, hk, -, hs, -⟩ := hb _ h
    obtain ⟨q, hq, hQ⟩ := hQ
    obtain ⟨g, hg, hgb⟩ := hs _ rfl
    have := meant_length hQ hk
    have := groups_length hR hg
    omega
  | «instance» h hP hQ hp hid hR ih =>
    intro b hb
    obtain ⟨-, k, hk, -, -, hpre⟩ := hb _ h
    obtain ⟨q, hq, hQ⟩ := hQ
    have h1 := meant_length hQ hk
    have h2 := ih (hassets _ hp)
    have h3 := hpre _ rfl
    rw [← hid] at h3
    omega

end
end Velato
