import Verif.Proofs.Names
import Verif.Spec.ExampleDoc

/-!
# C85, C86 — names and assets
-/

namespace Velato
open FloatOps (lit)
open Import

section
variable {F : Type} [FloatOps F] [Libm F] [Kurbo F]

/-! ## C85 — numbers of layers and names of assets are only names -/

/-- **C85.** Documents that differ only in the numbers of their layers and the ids of their assets are
imported alike (with the same panics), and the pictures make the same calls on the sink. -/
theorem C85_names {a b : Schema.Animation F} (h : a.Renamed b) :
    (∀ e, convAnimation a = .error e ↔ convAnimation b = .error e) ∧
    ∀ c c', convAnimation a = .ok c → convAnimation b = .ok c' →
      ∀ r, Reachable r → ∀ (fuel : Nat) (fr : F) (T : Affine F) (al : F),
        Renderer.append fuel r c fr T al = Renderer.append fuel r c' fr T al := by
  obtain ⟨σ, hσ, h⟩ := convAnimation_renamed h
  rw [h]
  constructor
  · intro e
    cases convAnimation a with
    | error e' => exact Iff.rfl
    | ok c => exact ⟨(fun h => nomatch h), (fun h => nomatch h)⟩
  · intro c c' hc hc' r hr n fr T al
    rw [hc] at hc'
    cases Except.ok.inj hc'
    exact (append_rename hσ c hr n fr T al).symm

/-! ## C86 — only assets in use matter -/

/-- **C86.** Documents that differ only in assets that are not used (by no layer, or only by layers of
assets that are not used, or shadowed by a later asset with the same id) or in the order of the assets
make the same calls on the sink. -/
theorem C86_assets {a b : Schema.Animation F} (hb : b = { a with assets := b.assets })
    (h : ∀ n, a.Uses n → a.lastAsset n = b.lastAsset n) {c c' : Composition F}
    (hc : convAnimation a = .ok c) (hc' : convAnimation b = .ok c')
    {r : Renderer F} (hr : Reachable r) (fuel : Nat) (fr : F) (T : Affine F) (al : F) :
    Renderer.append fuel r c fr T al = Renderer.append fuel r c' fr T al :=
  append_used hb h hc hc' hr fuel fr T al

theorem convAnimation_assets {a : Schema.Animation F} {c : Composition F}
    (hc : convAnimation a = .ok c) {as : List (Schema.AnyAsset F)}
    (h : ∀ x ∈ as, x ∈ a.assetList) : ∃ c', convAnimation { a with assets := some as } = .ok c' := by
  obtain ⟨has, hls, -⟩ := convAnimation_ok hc
  have : ∃ es, as.mapM convAsset = .ok es := by
    induction as with
    | nil => exact ⟨[], rfl⟩
    | cons x as ih =>
      obtain ⟨es, hes⟩ := ih fun y hy => h y (by simp [hy])
      obtain ⟨e, he⟩ : ∃ e, convAsset x = .ok e := by
        have hx := h x (by simp)
        clear h ih hes
        generalize a.assetList = ss at has hx
        generalize c.assets = es at has
        induction has with
        | nil => cases hx
        | cons h1 _ ih =>
          rcases List.mem_cons.mp hx with rfl | hx
          · exact ⟨_, h1⟩
          · exact ih hx
      exact ⟨e :: es, by rw [mapM_cons', he, hes]; rfl⟩
  obtain ⟨es, hes⟩ := this
  refine ⟨⟨⟨a.inPoint, a.outPoint⟩, a.frameRate, a.width, a.height, es, c.layers⟩, ?_⟩
  unfold convAnimation
  show (as.mapM convAsset >>= _) = _
  rw [hes]
  show (processLayers a.layers >>= _) = _
  rw [hls]
  rfl

/-- **C86.** The order of the assets does not matter if their ids are different. -/
theorem C86_order {a : Schema.Animation F} {as : List (Schema.AnyAsset F)}
    (hp : a.assetList.Perm as) (hd : (as.map Schema.AnyAsset.name).Nodup) {c : Composition F}
    (hc : convAnimation a = .ok c) :
    ∃ c', convAnimation { a with assets := some as } = .ok c' ∧
      ∀ r, Reachable r → ∀ (fuel : Nat) (fr : F) (T : Affine F) (al : F),
        Renderer.append fuel r c fr T al = Renderer.append fuel r c' fr T al := by
  obtain ⟨c', hc'⟩ := convAnimation_assets hc fun x hx => hp.mem_iff.mpr hx
  refine ⟨c', hc', fun r hr n fr T al => append_used rfl (fun m _ => ?_) hc hc' hr n fr T al⟩
  have key : ∀ l : List (Schema.AnyAsset F), (l.map Schema.AnyAsset.name).Nodup →
      ∀ x, (l.find? fun x => x.name == m) = some x ↔ x ∈ l ∧ x.name = m := by
    intro l hl x
    induction l with
    | nil => simp
    | cons y l ih =>
      rw [List.map_cons, List.nodup_cons] at hl
      rw [List.find?_cons]
      by_cases hy : y.name = m
      · rw [show (y.name == m) = true by simpa using hy]
        simp only [Option.some.injEq, List.mem_cons]
        constructor
        · rintro rfl
          exact ⟨.inl rfl, hy⟩
        · rintro ⟨rfl | hx, hm⟩
          · rfl
          · exact absurd (List.mem_map.mpr ⟨x, hx, hm.trans hy.symm⟩) hl.1
      · rw [show (y.name == m) = false by simpa using hy]
        simp only [List.mem_cons]
        rw [ih hl.2]
        constructor
        · exact fun h => ⟨.inr h.1, h.2⟩
        · rintro ⟨rfl | hx, hm⟩
          · exact absurd hm hy
          · exact ⟨hx, hm⟩
  have hd' : (a.assetList.map Schema.AnyAsset.name).Nodup := (hp.map _).nodup_iff.mpr hd
  have k1 := key a.assetList.reverse (by rw [List.map_reverse]; exact List.nodup_reverse.mpr hd')
  have k2 := key as.reverse (by rw [List.map_reverse]; exact List.nodup_reverse.mpr hd)
  refine Option.ext fun x => ?_
  show (a.assetList.reverse.find? fun x => x.name == m) = some x
    ↔ (as.reverse.find? fun x => x.name == m) = some x
  rw [k1, k2, List.mem_reverse, List.mem_reverse, hp.mem_iff]

/-- **C86.** An asset that is not used can be left out. -/
theorem C86_unused {a : Schema.Animation F} {xs ys : List (Schema.AnyAsset F)}
    {x : Schema.AnyAsset F} (ha : a.assetList = xs ++ x :: ys) (hx : ¬ a.Uses x.name)
    {c : Composition F} (hc : convAnimation a = .ok c) :
    ∃ c', convAnimation { a with assets := some (xs ++ ys) } = .ok c' ∧
      ∀ r, Reachable r → ∀ (fuel : Nat) (fr : F) (T : Affine F) (al : F),
        Renderer.append fuel r c fr T al = Renderer.append fuel r c' fr T al := by
  obtain ⟨c', hc'⟩ := convAnimation_assets (as := xs ++ ys) hc fun y hy => by
    rw [ha]
    simp only [List.mem_append, List.mem_cons] at hy ⊢
    exact hy.imp id .inr
  refine ⟨c', hc', fun r hr n fr T al => append_used rfl (fun m hm => ?_) hc hc' hr n fr T al⟩
  show (a.assetList.reverse.find? fun x => x.name == m)
    = ((xs ++ ys).reverse.find? fun x => x.name == m)
  rw [ha, List.reverse_append, List.reverse_append, List.reverse_cons, List.append_assoc,
    List.find?_append, List.find?_append, List.find?_append, List.find?_cons_of_neg, List.find?_nil,
    Option.none_or]
  intro h
  rw [beq_iff_eq] at h
  exact hx (h ▸ hm)

end

/-! ## Examples -/

/-- Numbers 1 and 5 swapped. -/
def exSwap (n : Nat) : Nat := if n = 1 then 5 else if n = 5 then 1 else n

/-- Id "b" becomes "c" and the other way round. -/
def exSwapId (s : String) : String := if s = "b" then "c" else if s = "c" then "b" else s

/-- The example document with swapped numbers and ids. -/
def exRenamedDoc : Schema.Animation F64 :=
  { exDoc with
    layers := exDocLayers.map (Schema.AnyLayer.rename exSwap
      (fun x => if FloatOps.toUsize x = 1 then lit 5 else if FloatOps.toUsize x = 5 then lit 1 else x)
      exSwapId)
    assets := some
      [.precomposition ⟨⟨"c", ⟨none, none⟩⟩, [.null (exVisual "x" (some 0))], none, none⟩,
       .precomposition ⟨⟨"b", ⟨none, none⟩⟩, [exShapeDoc (exVisual "y" (some 0))], none, none⟩,
       .precomposition ⟨⟨"c", ⟨none, none⟩⟩, [exShapeDoc (exVisual "z" (some 7))], none, none⟩] }

theorem exSwap_injective : Function.Injective exSwap := by
  intro i j h
  unfold exSwap at h
  split at h <;> split at h <;> (try split at h) <;> (try split at h) <;> omega

theorem exSwapId_injective : Function.Injective exSwapId := by
  intro i j h
  unfold exSwapId at h
  split at h <;> split at h <;> (try split at h) <;> (try split at h) <;> simp_all

theorem exRenamed : (exDoc (F := F64)).Renamed exRenamedDoc := by
  have hid : ∀ x : F64, FloatOps.toUsize (id x) = id (FloatOps.toUsize x) := fun _ => rfl
  refine ⟨rfl, exSwapId, exSwapId_injective, ⟨exSwap, _, exSwap_injective, fun x => ?_, rfl⟩, ?_⟩
  · unfold exSwap
    split_ifs with h1 h2
    · decide +kernel
    · decide +kernel
    · rfl
  · exact .cons (.precomposition ⟨id, id, Function.injective_id, hid, rfl⟩)
      (.cons (.precomposition ⟨id, id, Function.injective_id, hid, rfl⟩)
        (.cons (.precomposition ⟨id, id, Function.injective_id, hid, rfl⟩) .nil))

section
variable [Libm F64] [Kurbo F64]

/-- The example document, its layers 1 and 5 and its assets "b" and "c" exchanging their names: both
are imported, with the same parents but other names of assets. -/
example : (exDoc (F := F64)).Renamed exRenamedDoc ∧
    ((convAnimation exRenamedDoc).map fun c => c.layers.map fun l => (l.name, l.parent)).toOption
      = some [("unused", none), ("parent", none), ("child", some 1), ("matte", none),
        ("matted", none), ("instance", none)] ∧
    ((convAnimation exRenamedDoc).map fun c => (c.asset "c").map fun ls => ls.map (·.name)).toOption
      = some (some ["z"]) := by
  refine ⟨exRenamed, ?_, ?_⟩ <;> kernel_decide

/-- In the example document the asset "b" is used and the asset "c" is not. -/
example : (exDoc (F := F64)).Uses "b" ∧ ¬ (exDoc (F := F64)).Uses "c" ∧
    (convAnimation (exDoc (F := F64))).toOption.isSome = true := by
  have hb : (exDoc (F := F64)).Uses "b" :=
    .layer (p := ⟨exVisual "instance" (some 5), "b", lit 20, lit 30, lit 4, none⟩)
      (by simp [exDoc, exDocLayers]) (by intro h; cases h)
  refine ⟨hb, ?_, by kernel_decide⟩
  have : ∀ n, (exDoc (F := F64)).Uses n → n = "b" := by
    intro n hn
    induction hn with
    | layer h hv =>
      simp only [exDoc, exDocLayers, List.mem_cons, exShapeDoc, reduceCtorEq, false_or,
        List.not_mem_nil, or_false, Schema.AnyLayer.precomposition.injEq] at h
      rw [h]
    | asset hn hq h hv ih =>
      subst ih
      have hq' : (exDoc (F := F64)).lastAsset "b"
          = some (.precomposition ⟨⟨"b", ⟨none, none⟩⟩, [exShapeDoc (exVisual "z" (some 7))],
            none, none⟩) := rfl
      rw [hq'] at hq
      cases hq
      simp [exShapeDoc] at h
  intro h
  have := this _ h
  simp at this

end
end Velato
