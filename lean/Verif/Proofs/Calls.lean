import Verif.Spec.Calls

/-!
# Numbers of calls: helper lemmas
-/

namespace Velato
open FloatOps (lit)

section
variable {F : Type} [FloatOps F] [Libm F] [Kurbo F]

/-- The number of outlines of a layer so far. -/
def Sheet.count (S : Sheet F) : Nat := S.outer.length + S.outlines.length

omit [Libm F] [Kurbo F] in
theorem Sheet.count_add (S : Sheet F) (T : Affine F) (els : List (PathEl F)) :
    (S.add T els).count ≤ S.count + 1 ∧ (S.add T els).paintings = S.paintings := by
  unfold Sheet.add
  dsimp only
  split
  · rename_i o ho
    have hne : S.outer ++ S.outlines ≠ [] := by
      intro e
      rw [e] at ho
      cases ho
    have hpos := List.length_pos_iff.mpr hne
    rw [List.length_append] at hpos
    split_ifs
    all_goals
      refine ⟨?_, rfl⟩
      simp only [Sheet.count, List.length_take, List.length_drop, List.length_append, List.length_dropLast,
        List.length_cons, List.length_nil]
      omega
  · refine ⟨?_, rfl⟩
    simp only [Sheet.count, List.length_append, List.length_cons, List.length_nil]
    omega

omit [Libm F] in
theorem Sheet.count_trim (S : Sheet F) (t : FixedTrim F) : (S.trim t).count = S.count ∧
    (S.trim t).paintings = S.paintings.map fun p => ⟨p.paint, p.outlines.map t.cut⟩ := by
  unfold Sheet.trim
  dsimp only
  split_ifs <;> exact ⟨by simp [Sheet.count], rfl⟩

omit [FloatOps F] [Libm F] [Kurbo F] in
theorem count_leave (S E : Sheet F) : (S.leave E).count = E.count := by
  simp only [Sheet.leave, Sheet.count, List.length_take, List.length_drop, List.length_append]
  omega

theorem outlineAt_geometries {frame : F} {s : Schema.AnyShape F} {els : List (PathEl F)} (h : OutlineAt frame s els) :
    s.geometries = 1 := by
  obtain ⟨g, hg, -⟩ := h
  cases s <;> first | rfl | cases hg

theorem paintOf_paints {alpha frame : F} {p : Paint F} {s : Schema.AnyShape F} (h : PaintOf alpha frame p s) :
    s.paints = 1 := by
  cases s <;> first | rfl | exact absurd h id

/-- Outlines and fills or strokes after some more shapes. -/
theorem items_count {frame : F} {T : Affine F} {alpha : F} {items : List (Schema.AnyShape F)} {S S' : Sheet F}
    (h : ItemsDrawn frame T alpha items S S') : S'.count ≤ S.count + countGeometries items ∧
      S'.paintings.length ≤ S.paintings.length + countPaints items ∧
      ∀ K, S.count + countGeometries items ≤ K → (∀ p ∈ S.paintings, p.outlines.length ≤ K) →
        ∀ p ∈ S'.paintings, p.outlines.length ≤ K := by
  induction h with
  | nil => exact ⟨by omega, by omega, fun K _ h => h⟩
  | @geometry T alpha s els rest S S' h hr ih =>
    obtain ⟨i1, i2, i3⟩ := ih
    obtain ⟨k1, k2⟩ := S.count_add T els
    have e := outlineAt_geometries h
    simp only [countGeometries, countPaints]
    refine ⟨by omega, by rw [k2] at i2; omega, fun K hK hp => i3 K (by omega) (by rw [k2]; exact hp)⟩
  | @group T alpha e nm i items rest M k S E S' ht hi hr ihi ihr =>
    obtain ⟨i1, i2, i3⟩ := ihi
    obtain ⟨j1, j2, j3⟩ := ihr
    have e1 : S.enter.count = S.count := by
      simp only [Sheet.enter, Sheet.count, List.length_append, List.length_nil]
      omega
    have e2 := count_leave S E
    have e3 : (S.leave E).paintings.length = S.paintings.length + E.paintings.length := List.length_append
    have e4 : S.enter.paintings.length = 0 := rfl
    simp only [countGeometries, countPaints, Schema.AnyShape.geometries, Schema.AnyShape.paints]
    refine ⟨by omega, by omega, fun K hK hp => j3 K (by omega) fun p hp' => ?_⟩
    rcases List.mem_append.mp hp' with h | h
    · exact hp p h
    · exact i3 K (by omega) (fun p h => absurd h List.not_mem_nil) p h
  | @paint T alpha s p rest S S' hp hr ih =>
    obtain ⟨i1, i2, i3⟩ := ih
    have e := paintOf_paints hp
    have e1 : (S.draw p).count = S.count := rfl
    have e2 : (S.draw p).paintings.length = S.paintings.length + 1 := List.length_append
    simp only [countGeometries, countPaints]
    refine ⟨by omega, by omega, fun K hK hp => i3 K (by omega) fun p hp' => ?_⟩
    rcases List.mem_append.mp hp' with h | h
    · exact hp p h
    · cases List.mem_singleton.mp h
      have : S.outlines.length ≤ S.count := Nat.le_add_left _ _
      dsimp only
      omega
  | @trim T alpha s t rest S S' ht hr ih =>
    obtain ⟨i1, i2, i3⟩ := ih
    obtain ⟨k1, k2⟩ := S.count_trim t
    rw [k1] at i1 i3
    rw [k2, List.length_map] at i2
    simp only [countGeometries, countPaints]
    refine ⟨by omega, by omega, fun K hK hp => i3 K (by omega) fun p hp' => ?_⟩
    rw [k2] at hp'
    obtain ⟨p', h, rfl⟩ := List.mem_map.mp hp'
    simpa using hp p' h
  | ignored h hr ih =>
    obtain ⟨i1, i2, i3⟩ := ih
    simp only [countGeometries, countPaints]
    exact ⟨by omega, by omega, fun K hK hp => i3 K (by omega) hp⟩

theorem length_flatMap_le {α β : Type} {f : α → List β} {K : Nat} {xs : List α} (h : ∀ x ∈ xs, (f x).length ≤ K) :
    (xs.flatMap f).length ≤ xs.length * K := by
  induction xs with
  | nil => simp
  | cons x xs ih =>
    rw [List.flatMap_cons, List.length_append, List.length_cons, Nat.succ_mul]
    have := h x List.mem_cons_self
    have := ih fun y hy => h y (List.mem_cons_of_mem _ hy)
    omega

/-- The calls of the shapes of a layer. -/
theorem shapes_count {frame : F} {T : Affine F} {alpha : F} {items : List (Schema.AnyShape F)} {S : Sheet F}
    (h : ItemsDrawn frame T alpha items .empty S) : S.calls.length ≤ countPaints items * countGeometries items := by
  obtain ⟨-, h2, h3⟩ := items_count h
  have h4 : S.calls.length ≤ S.paintings.reverse.length * countGeometries items := by
    refine length_flatMap_le fun p hp => ?_
    rw [Painting.calls, List.length_map]
    exact h3 _ (by simp [Sheet.count, Sheet.empty]) (fun p h => absurd h List.not_mem_nil) p (List.mem_reverse.mp hp)
  refine h4.trans (Nat.mul_le_mul_right _ ?_)
  rw [List.length_reverse]
  simpa [Sheet.empty] using h2

theorem masks_calls {frame : F} {T : Affine F} {ms : List (Schema.Mask F)} {ops : List (Op F)}
    (h : MasksDrawn frame T ms ops) : ops.length ≤ ms.length := by
  induction h with
  | nil => exact Nat.le_refl _
  | keep _ _ _ _ ih => simpa using ih
  | drop _ _ ih => exact ih.trans (by simp)

theorem body_calls {frame : F} {T : Affine F} {l : Schema.AnyLayer F} {ms co : List (Op F)} {w : String → Nat}
    (hms : MasksDrawn frame T (l.visual.masksProperties.getD []) ms) {n : Nat} (hco : co.length ≤ n)
    (hn : n + 2 + 2 * (l.visual.masksProperties.getD []).length ≤ l.calls w) :
    (ms ++ co ++ List.replicate ms.length Op.pop).length + 2 ≤ l.calls w := by
  have := masks_calls hms
  simp only [List.length_append, List.length_replicate]
  omega

/-- The calls that are allowed for what a layer shows. -/
def Schema.AnyLayer.contentCalls (w : String → Nat) : Schema.AnyLayer F → Nat
  | .shape q => countPaints q.shapes * countGeometries q.shapes
  | .precomposition q => w q.refId
  | _ => 0

omit [FloatOps F] [Libm F] [Kurbo F] in
theorem calls_eq (w : String → Nat) (l : Schema.AnyLayer F) :
    l.contentCalls w + 2 + 2 * (l.visual.masksProperties.getD []).length = l.calls w := by
  unfold Schema.AnyLayer.calls Schema.AnyLayer.contentCalls
  cases l <;> simp only <;> omega

theorem layers_calls {a : Schema.Animation F} {w : String → Nat} {c : List (Schema.AnyLayer F) → Nat → Nat}
    (hc : Enough a w c) {src ls : List (Schema.AnyLayer F)} {T : Affine F} {al fr : F} {number : Nat → Nat} {i : Nat}
    {per : List (List (Op F))} (hd : LayerListDrawn a src T al fr number i ls per) : ListShown a src →
    (∀ (k : Nat) l, ls[k]? = some l → src[i + k]? = some l) →
      per.flatten.length ≤ ((List.range ls.length).map fun k => c src (i + k)).sum := by
  refine LayerListDrawn.rec
    (motive_1 := fun src T al fr ix i l ops _ => ListShown a src → src[i]? = some l → ops.length ≤ c src i)
    (motive_2 := fun T al fr l co _ => (∀ q, l = .precomposition q → ∃ src, ListShown a src ∧ .precomposition q ∈ src) →
      co.length ≤ l.contentCalls w)
    (motive_3 := fun src T al fr number i ls per _ => ListShown a src →
      (∀ (k : Nat) l, ls[k]? = some l → src[i + k]? = some l) →
      per.flatten.length ≤ ((List.range ls.length).map fun k => c src (i + k)).sum)
    ?_ ?_ ?_ ?_ ?_ ?_ ?_ ?_ ?_ ?_ ?_ hd
  · intros
    exact Nat.zero_le _
  · intro ls T alpha frame ix i l P M o ms co h hm hP hk hms _ ih hs hl
    refine le_trans ?_ (hc.plain ls hs i l hl)
    have := body_calls hms (ih fun q hq => ⟨ls, hs, hq ▸ List.mem_of_getElem? hl⟩) (calls_eq w l).le
    simp only [announced, List.length_append, List.length_cons, List.length_nil, List.length_replicate] at *
    omega
  · intro ls T alpha frame ix i l P M o ms co bl j m mo h hm hj _ hP hk hms _ ihm ih hs hl
    refine le_trans ?_ (hc.matted ls hs i l bl j hl hm (List.getElem?_eq_some_iff.mp hj).1)
    have := body_calls hms (ih fun q hq => ⟨ls, hs, hq ▸ List.mem_of_getElem? hl⟩) (calls_eq w l).le
    have := ihm hs hj
    simp only [announced, composed, List.length_append, List.length_cons, List.length_nil, List.length_replicate] at *
    omega
  · intros
    exact Nat.zero_le _
  · intros
    exact Nat.zero_le _
  · intro T alpha frame q S hv hss _
    exact shapes_count hss
  · intros
    exact Nat.zero_le _
  · intro T alpha frame q p per i hv hp hid hlast _ ih hq
    obtain ⟨src, hs, hm⟩ := hq q rfl
    have hp' := List.mem_of_getElem? hp
    have hs' : ListShown a p.layers := .asset hs hm hp' hid
    have h1 := ih hs' (fun k l h => by rwa [Nat.zero_add])
    have h2 := hc.asset p hp' hs'
    have e : per.reverse.flatten.length = per.flatten.length := by
      simp only [List.length_flatten, List.map_reverse, List.sum_reverse]
    rw [e]
    simp only [Nat.zero_add] at h1
    rw [hid] at h2
    exact h1.trans h2
  · intros
    exact Nat.zero_le _
  · intro ls T alpha frame number i l ls' per _ _ ih hs hk
    have h1 := ih hs (fun k l h => by
      have := hk (k + 1) l h
      rwa [← Nat.add_assoc, Nat.add_right_comm] at this)
    rw [List.flatten_cons, List.nil_append]
    refine h1.trans ?_
    rw [List.length_cons, List.range_succ_eq_map, List.map_cons, List.map_map, List.sum_cons]
    have e : ((fun k => c ls (i + k)) ∘ Nat.succ) = fun k => c ls (i + 1 + k) := by
      funext k
      simp only [Function.comp]
      congr 1
      omega
    rw [e]
    exact Nat.le_add_left _ _
  · intro ls T alpha frame number i l ops ls' per _ _ _ ihl ih hs hk
    have h0 := ihl hs (hk 0 l rfl)
    have h1 := ih hs (fun k l h => by
      have := hk (k + 1) l h
      rwa [← Nat.add_assoc, Nat.add_right_comm] at this)
    rw [List.flatten_cons, List.length_append, List.length_cons, List.range_succ_eq_map, List.map_cons, List.map_map,
      List.sum_cons]
    have e : ((fun k => c ls (i + k)) ∘ Nat.succ) = fun k => c ls (i + 1 + k) := by
      funext k
      simp only [Function.comp]
      congr 1
      omega
    rw [e]
    exact Nat.add_le_add h0 h1

theorem list_calls {a : Schema.Animation F} {src ls : List (Schema.AnyLayer F)} {T : Affine F} {al fr : F}
    {number : Nat → Nat} {i : Nat} {per : List (List (Op F))} (hd : LayerListDrawn a src T al fr number i ls per)
    {K : Nat} : (∀ l ∈ ls, ∀ ix i ops, LayerDrawn a src T al fr ix i l ops → ops.length ≤ K) →
      per.flatten.length ≤ ls.length * K := by
  induction ls generalizing i per with
  | nil =>
    cases hd
    simp
  | cons l ls ih =>
    intro hK
    cases hd with
    | matte h hs =>
      have := ih hs fun l hl => hK l (List.mem_cons_of_mem _ hl)
      rw [List.length_cons, Nat.succ_mul, List.flatten_cons, List.nil_append]
      omega
    | layer h hl hs =>
      have := ih hs fun l hl => hK l (List.mem_cons_of_mem _ hl)
      have := hK l List.mem_cons_self _ _ _ hl
      rw [List.length_cons, Nat.succ_mul, List.flatten_cons, List.length_append]
      omega

omit [FloatOps F] [Libm F] [Kurbo F] in
theorem calls_const (W : Nat) (l : Schema.AnyLayer F) : l.calls (fun _ => W) ≤ l.calls (fun _ => 0) + W := by
  cases l <;> simp [Schema.AnyLayer.calls]

omit [Libm F] [Kurbo F] in
theorem matteOf_mode {ls : List (Schema.AnyLayer F)} {i : Nat} {l : Schema.AnyLayer F} {x : BlendMode × Nat}
    (h : MatteOf ls i l (some x)) : l.visual.matteMode ≠ none := by
  generalize e : some x = y at h
  cases h with
  | without => cases e
  | named h => simp [h]
  | pending h => simp [h]
  | nothing => cases e

/-- One layer without a matte, where each asset it shows takes at most `W` calls. -/
theorem layer_calls {a : Schema.Animation F} {src : List (Schema.AnyLayer F)} {T : Affine F} {al fr : F}
    {ix i : Nat} {l : Schema.AnyLayer F} {ops : List (Op F)} (hd : LayerDrawn a src T al fr ix i l ops)
    (hm : l.visual.matteMode = none) {W : Nat}
    (hW : ∀ q, l = .precomposition q → ∀ p, .precomposition p ∈ a.assetList → p.asset.id = q.refId →
      ∀ T al fr per, LayerListDrawn a p.layers T al fr (fun _ => 0) 0 p.layers per → per.flatten.length ≤ W) :
    ops.length ≤ l.calls (fun _ => 0) + W := by
  cases hd with
  | absent h => exact Nat.zero_le _
  | plain h hmat hP hk hms hco =>
    have hc : ∀ {T al fr co}, ContentDrawn a T al fr l co → co.length ≤ l.contentCalls fun _ => W := by
      intro T al fr co hco
      cases hco with
      | hidden => exact Nat.zero_le _
      | nothing => exact Nat.zero_le _
      | missing => exact Nat.zero_le _
      | shape hv hss => exact shapes_count hss
      | precomposition hv hp hid hlast hls =>
        have := hW _ rfl _ (List.mem_of_getElem? hp) hid _ _ _ _ hls
        rw [List.length_flatten, List.map_reverse, List.sum_reverse, ← List.length_flatten]
        exact this
    have := body_calls hms (hc hco) (calls_eq (fun _ => W) l).le
    refine le_trans ?_ (calls_const W l)
    simp only [announced, List.length_append, List.length_cons, List.length_nil, List.length_replicate] at *
    omega
  | matted h hmat =>
    exact absurd (matteOf_mode hmat) (by rw [hm]; simp)

theorem nested_calls {a : Schema.Animation F} {n B d : Nat} {ls : List (Schema.AnyLayer F)}
    (h : NestedWithin a n B d ls) : ∀ {T : Affine F} {al fr : F} {number : Nat → Nat} {per : List (List (Op F))},
      LayerListDrawn a ls T al fr number 0 ls per → per.flatten.length ≤ B * (n + 1) ^ (d + 1) := by
  induction h with
  | @flat ls hn hB hm hp =>
    intro T al fr number per hd
    have h1 := list_calls hd (K := B) fun l hl ix i ops hd => by
      refine (layer_calls hd (hm l hl) (W := 0) ?_).trans (hB l hl)
      rintro q rfl
      exact absurd hl (hp q)
    calc _ ≤ _ := h1
      _ ≤ n * B := Nat.mul_le_mul_right _ hn
      _ ≤ B * (n + 1) ^ (0 + 1) := by rw [zero_add, pow_one]; nlinarith
  | @deeper d ls hn hB hm hp ih =>
    intro T al fr number per hd
    have h1 := list_calls hd (K := B + B * (n + 1) ^ (d + 1)) fun l hl ix i ops hd => by
      refine (layer_calls hd (hm l hl) (W := B * (n + 1) ^ (d + 1)) ?_).trans (Nat.add_le_add_right (hB l hl) _)
      rintro q rfl p hp' hid T al fr per hls
      exact ih q hl p hp' hid hls
    have h2 : n ≤ (n + 1) ^ (d + 1) := by
      rw [pow_succ]
      have : 1 ≤ (n + 1) ^ d := Nat.one_le_pow _ _ (by omega)
      nlinarith
    calc _ ≤ _ := h1
      _ ≤ n * (B + B * (n + 1) ^ (d + 1)) := Nat.mul_le_mul_right _ hn
      _ ≤ B * (n + 1) ^ (d + 1 + 1) := by
        rw [pow_succ (n + 1) (d + 1)]
        nlinarith [Nat.mul_le_mul_left B h2]

end
end Velato
