import Verif.Proofs.Termination
import Verif.Proofs.DocConverse
import Verif.Proofs.Names
import Verif.Spec.Finish
import Mathlib.Order.WellFounded

/-!
# When rendering comes to an end
-/

namespace Velato
open FloatOps (lit)
open Import

section
variable {F : Type} [FloatOps F] [Libm F] [Kurbo F]

omit [Libm F] [Kurbo F] in
theorem endless_iff {c : Composition F} {fr : F} : Endless c fr ↔
    ∃ i l, c.layers[i]? = some l ∧ l.isMask = false ∧ ¬ Acc (fun y x => Needs c x y) ⟨none, i, fr⟩ := by
  constructor
  · rintro ⟨s, h0, h1, ⟨l, hl, hm⟩, hs⟩
    refine ⟨_, l, hl, hm, not_acc_iff_exists_descending_chain.mpr ⟨s, ?_, hs⟩⟩
    rw [← h0, ← h1]
  · rintro ⟨i, l, hl, hm, h⟩
    obtain ⟨s, h0, hs⟩ := not_acc_iff_exists_descending_chain.mp h
    exact ⟨s, by rw [h0], by rw [h0], ⟨l, by rw [h0]; exact hl, hm⟩, hs⟩

/-- What a rendered layer needs comes to an end. -/
theorem acc_of_calls {c : Composition F} {ls : List (Layer F)} {l : Layer F} {ix : Nat} {T : Affine F}
    {a fr : F} {ops : List (Op F)} (h : LayerCalls c ls l ix T a fr ops) :
    ∀ k i, c.layersOf k = ls → ls[i]? = some l → Acc (fun y x => Needs c x y) ⟨k, i, fr⟩ := by
  refine LayerCalls.induct (c := c) (P := fun ls l _ _ _ fr _ => ∀ k i, c.layersOf k = ls →
    ls[i]? = some l → Acc (fun y x => Needs c x y) ⟨k, i, fr⟩) ?_ ?_ h
  · intro ls l ix T a fr hout k i hk hi
    refine ⟨_, fun y hy => ?_⟩
    subst hk
    cases hy with
    | matte hl hin => rw [hi] at hl; cases hl; rw [hout] at hin; cases hin
    | asset hl hin => rw [hi] at hl; cases hl; rw [hout] at hin; cases hin
  · intro ls l ix T a fr mo ms co hin hmo ihm hms hco ihc k i hk hi
    refine ⟨_, fun y hy => ?_⟩
    subst hk
    cases hy with
    | @matte _ _ _ l' mode j hl _ hm =>
      rw [hi] at hl
      cases hl
      cases hmo with
      | none h => rw [hm] at h; cases h
      | dangling mode' j' h hj =>
        rw [hm] at h
        cases h
        refine ⟨_, fun z hz => ?_⟩
        cases hz with
        | matte hl => rw [hj] at hl; cases hl
        | asset hl => rw [hj] at hl; cases hl
      | matte mode' j' m ops h hj hops =>
        rw [hm] at h
        cases h
        exact ihm _ _ _ _ hm hj hops k j rfl hj
    | @asset _ _ _ l' name tr j l2 hl _ hc hj hn =>
      rw [hi] at hl
      cases hl
      cases hco with
      | none h => rw [hc] at h; cases h
      | shape _ _ _ h => rw [hc] at h; cases h
      | missing name' tr' h hno =>
        rw [hc] at h
        cases h
        have he : c.layersOf (some name) = [] := by
          show (c.asset name).getD [] = []
          rw [hno]
          rfl
        rw [he] at hj
        cases hj
      | asset name' tr' als per h ha hper =>
        rw [hc] at h
        cases h
        have he : c.layersOf (some name) = als := by
          show (c.asset name).getD [] = als
          rw [ha]
          rfl
        rw [he] at hj
        have hmem := List.mem_of_getElem? hj
        obtain ⟨ops, hops⟩ := forall₂_left hper (x := l2) (by
          rw [List.mem_filter, List.mem_reverse]
          exact ⟨hmem, by rw [hn]; rfl⟩)
        exact ihc _ _ _ _ ops hc ha hmem hn hops _ j he hj

/-- A layer terminates if what it needs comes to an end. -/
theorem layerOps_ends {c : Composition F} {x : Visit F} (h : Acc (fun y x => Needs c x y) x) :
    ∀ l, (c.layersOf x.list)[x.position]? = some l →
      ∀ ix T a, ∃ n, NoFuel (layerOps c n (c.layersOf x.list) l ix T a x.frame) := by
  induction h with
  | intro x _ ih =>
    intro l hl ix T a
    refine layerOps_noFuel_step ?_ ?_ ix T a
    · intro hin mode j m hm hj ix T a
      exact ih ⟨x.list, j, x.frame⟩ (.matte hl hin hm) m hj ix T a
    · intro hin name tr als l' hc ha hmem hmask ix T a
      obtain ⟨j, hj⟩ := List.mem_iff_getElem?.mp hmem
      have hals : c.layersOf (some name) = als := by
        show (c.asset name).getD [] = als
        rw [ha]
        rfl
      have hj' : (c.layersOf (some name))[j]? = some l' := by rw [hals]; exact hj
      have := ih ⟨some name, j, _⟩ (.asset hl hin hc hj' hmask) l' hj' ix T a
      rw [show c.layersOf (Visit.mk (some name) j (x.frame /. l.stretch +.
        FloatOps.neg l.startFrame /. l.stretch)).list = als from hals] at this
      exact this

theorem appendOps_ends {c : Composition F} {fr : F} (h : ¬ Endless c fr) (T : Affine F) (a : F) :
    ∃ n, NoFuel (appendOps n c fr T a) := by
  unfold appendOps
  obtain ⟨n, hn⟩ := exists_mapM_noFuel
    (f := fun n (p : Layer F × Nat) => layerOps c n c.layers p.1 p.2 T a fr)
    (fun n m h x => layerOps_mono c h _ _ _ _ _ _)
    (l := c.layers.zipIdx.reverse.filter (fun p => !p.1.isMask)) fun p hp => by
      rw [List.mem_filter, List.mem_reverse] at hp
      have hmem := List.fst_mem_of_mem_zipIdx hp.1
      obtain ⟨i, hi⟩ := List.mem_iff_getElem?.mp hmem
      have hacc : Acc (fun y x => Needs c x y) ⟨none, i, fr⟩ := by
        by_contra hno
        exact h (endless_iff.mpr ⟨i, p.1, hi, by simpa using hp.2, hno⟩)
      exact layerOps_ends hacc p.1 hi _ _ _
  exact ⟨n, NoFuel.map hn⟩

end

/-! ## Documents -/

section
variable {F : Type} [FloatOps F] [Libm F] [Kurbo F]

theorem lastAsset_of {a : Schema.Animation F} {c : Composition F} (h : convAnimation a = .ok c)
    {i : Nat} {p : Schema.PrecompAsset F} (hi : a.assetList[i]? = some (.precomposition p))
    (hlast : ∀ (j : Nat) p', i < j → a.assetList[j]? = some (.precomposition p') →
      p'.asset.id ≠ p.asset.id) : a.lastAsset p.asset.id = some (.precomposition p) := by
  unfold Schema.Animation.lastAsset
  rw [List.find?_eq_some_iff_append]
  refine ⟨by simp [Schema.AnyAsset.name], (a.assetList.drop (i + 1)).reverse,
    (a.assetList.take i).reverse, ?_, ?_⟩
  · obtain ⟨hlt, he⟩ := List.getElem?_eq_some_iff.mp hi
    conv_lhs => rw [← List.take_append_drop i a.assetList, List.drop_eq_getElem_cons hlt, he]
    simp
  · intro x hx
    rw [List.mem_reverse, List.mem_iff_getElem?] at hx
    obtain ⟨j, hj⟩ := hx
    rw [List.getElem?_drop] at hj
    obtain ⟨has, -⟩ := Import.convAnimation_ok h
    obtain ⟨e, he⟩ := forall₂_left has (List.mem_of_getElem? hj)
    obtain ⟨q, rfl, -⟩ := Import.convAsset_ok he
    simpa [Schema.AnyAsset.name] using hlast _ q (by omega) hj

theorem lists_of {a : Schema.Animation F} {c : Composition F} (h : convAnimation a = .ok c) :
    ∀ k, ImportedList a c (a.layersOf k) (c.layersOf k) ∨ (a.layersOf k = [] ∧ c.layersOf k = [])
  | none => .inl .root
  | some n => by
    have h57 := C57_last h n
    rcases last_asset a.assetList n with hno | ⟨i, p, h1, h2, h3⟩
    · refine .inr ⟨?_, ?_⟩
      · simp only [Schema.Animation.layersOf]
        split
        · rename_i p hp
          have h1 := List.find?_some hp
          have h2 := List.mem_of_find?_eq_some hp
          exact absurd (by simpa [Schema.AnyAsset.name] using h1) (hno p (by simpa using h2))
        · rfl
      · show (c.asset n).getD [] = []
        rw [h57.2 hno]
        rfl
    · obtain ⟨-, ls, -, -, he, hd⟩ := h57.1 i p h1 h2 h3
      subst h2
      have e1 : a.layersOf (some p.asset.id) = p.layers := by
        simp only [Schema.Animation.layersOf, lastAsset_of h h1 h3]
      have e2 : c.layersOf (some p.asset.id) = ls := by
        show (c.asset p.asset.id).getD [] = ls
        rw [he]
        rfl
      rw [e1, e2]
      exact .inl hd

/-- The layers at the same position of a list of the document and of the imported list. -/
theorem counterpart {a : Schema.Animation F} {c : Composition F} (h : convAnimation a = .ok c)
    {k : Option String} {i : Nat} :
    ((a.layersOf k)[i]? = none ∧ (c.layersOf k)[i]? = none) ∨
    ∃ s l, (a.layersOf k)[i]? = some s ∧ (c.layersOf k)[i]? = some l ∧
      Facts (a.layersOf k) i s l := by
  rcases lists_of h k with hd | ⟨h1, h2⟩
  · have hlen := Import.processLayers_length (Import.ImportedList.process h hd)
    cases hs : (a.layersOf k)[i]? with
    | none =>
      refine .inl ⟨rfl, ?_⟩
      rw [List.getElem?_eq_none_iff] at hs ⊢
      omega
    | some s =>
      obtain ⟨l, hl⟩ := get_of_length hlen hs
      exact .inr ⟨s, l, rfl, hl, facts_of h hd hs hl⟩
  · rw [h1, h2]
    exact .inl ⟨rfl, rfl⟩

theorem needs_iff {a : Schema.Animation F} {c : Composition F} (h : convAnimation a = .ok c)
    {x y : Visit F} : Needs c x y ↔ DocNeeds a x y := by
  constructor
  · intro hn
    cases hn with
    | @matte k i fr l mode j hl hin hm =>
      rcases counterpart h (k := k) (i := i) with ⟨-, h2⟩ | ⟨s, l', h1, h2, hf⟩
      · rw [h2] at hl; cases hl
      · rw [h2] at hl
        cases hl
        exact .matte h1 ((hf.during _).mp hin) (hm ▸ hf.matte)
    | @asset k i fr l name tr j l' hl hin hc hj hn =>
      rcases counterpart h (k := k) (i := i) with ⟨-, h2⟩ | ⟨s, l2, h1, h2, hf⟩
      · rw [h2] at hl; cases hl
      · rw [h2] at hl
        cases hl
        by_cases hh : s.Hidden
        · rw [hf.hidden hh] at hc; cases hc
        · have hcc := hf.content hh
          cases s with
          | precomposition q =>
            obtain ⟨tr', -, he⟩ := hcc
            rw [hc] at he
            cases he
            rcases counterpart h (k := some q.refId) (i := j) with ⟨-, h3⟩ | ⟨s', l3, h3, h4, hf'⟩
            · rw [h3] at hj; cases hj
            · rw [h4] at hj
              cases hj
              rw [hf.time q rfl]
              exact .asset h1 ((hf.during _).mp hin) hh h3 fun hm => by
                rw [hf'.isMask.mpr hm] at hn
                cases hn
          | shape q => obtain ⟨ss, -, he⟩ := hcc; rw [hc] at he; cases he
          | _ =>
            have he : l.content = .none := hcc
            rw [hc] at he
            cases he
  · intro hn
    cases hn with
    | @matte k i fr s b j hs hin hm =>
      rcases counterpart h (k := k) (i := i) with ⟨h1, -⟩ | ⟨s', l, h1, h2, hf⟩
      · rw [h1] at hs; cases hs
      · rw [h1] at hs
        cases hs
        exact .matte h2 ((hf.during _).mpr hin) (matteOf_unique hf.matte hm)
    | @asset k i fr q j s' hs hin hv hj hn =>
      rcases counterpart h (k := k) (i := i) with ⟨h1, -⟩ | ⟨s2, l, h1, h2, hf⟩
      · rw [h1] at hs; cases hs
      · rw [h1] at hs
        cases hs
        obtain ⟨tr, -, hc⟩ := hf.content hv
        rcases counterpart h (k := some q.refId) (i := j) with ⟨h3, -⟩ | ⟨s3, l', h3, h4, hf'⟩
        · rw [h3] at hj; cases hj
        · rw [h3] at hj
          cases hj
          rw [← hf.time q rfl]
          exact .asset h2 ((hf.during _).mpr hin) hc h4 (by
            cases hm : l'.isMask with
            | false => rfl
            | true => exact absurd (hf'.isMask.mp hm) hn)

theorem endless_document {a : Schema.Animation F} {c : Composition F} (h : convAnimation a = .ok c)
    (fr : F) : Endless c fr ↔ EndlessDocument a fr := by
  unfold Endless EndlessDocument
  refine exists_congr fun s => and_congr_right fun _ => and_congr_right fun _ => and_congr ?_ ?_
  · rcases counterpart h (k := none) (i := (s 0).position) with ⟨h1, h2⟩ | ⟨s', l, h1, h2, hf⟩
    · change a.layers[_]? = _ at h1
      change c.layers[_]? = _ at h2
      rw [h1, h2]
      simp
    · change a.layers[_]? = _ at h1
      change c.layers[_]? = _ at h2
      rw [h1, h2]
      simp only [Option.some.injEq, exists_eq_left']
      rw [← hf.isMask, Bool.not_eq_true]
  · exact forall_congr' fun n => needs_iff h

end
end Velato
