import Verif.Proofs.Calls
import Verif.Props.DocDraws
import Verif.Props.ImportFails
import Verif.Spec.DocStars

/-!
# C131: how many calls it takes to draw a document
-/

namespace Velato
open FloatOps (lit)
open Import

section
variable {F : Type} [FloatOps F] [Libm F] [Kurbo F]

/-- **C131 (partial).** If `w` calls for each asset and `c` for each layer are enough (for its group, its masks, for each
pair of a fill or stroke and a geometry, for its matte, and for all layers of the asset that it shows), then a document
is drawn at every frame with at most two calls more than these. -/
theorem C131_calls_partial [LawfulCmp F] [KurboPaths F] {doc : Schema.Animation F} {comp : Composition F}
    (h : convAnimation doc = .ok comp) {w : String → Nat} {c : List (Schema.AnyLayer F) → Nat → Nat}
    (hc : Enough doc w c) {r r' : Renderer F} (hr : Reachable r) {frame : F} {T : Affine F} {al : F} {ops : List (Op F)}
    (hops : AppendCalls r comp frame T al r' ops) : ops.length ≤ 2 + callsOf c doc.layers := by
  obtain ⟨-, per, hper, rfl⟩ := (C117_calls h hr).mp hops
  have h1 := layers_calls hc hper .root (fun k l h => by rwa [Nat.zero_add])
  have h2 : per.flatten.length ≤ callsOf c doc.layers := by
    simp only [Nat.zero_add] at h1
    exact h1
  have e : per.reverse.flatten.length = per.flatten.length := by
    simp only [List.length_flatten, List.map_reverse, List.sum_reverse]
  simp only [List.length_append, List.length_cons, List.length_nil, e]
  omega

/-- **C131 (partial).** Without mattes, and with at most `n` layers in each list, each of which takes at most `B` calls
by itself, a document nested `d` deep is drawn at every frame with at most `B · (n + 1)ᵈ⁺¹ + 2` calls. -/
theorem C131_nested_partial [LawfulCmp F] [KurboPaths F] {doc : Schema.Animation F} {comp : Composition F}
    (h : convAnimation doc = .ok comp) {n B d : Nat} (hd : NestedWithin doc n B d doc.layers) {r r' : Renderer F}
    (hr : Reachable r) {frame : F} {T : Affine F} {al : F} {ops : List (Op F)}
    (hops : AppendCalls r comp frame T al r' ops) : ops.length ≤ B * (n + 1) ^ (d + 1) + 2 := by
  obtain ⟨-, per, hper, rfl⟩ := (C117_calls h hr).mp hops
  have h1 := nested_calls hd hper
  have e : per.reverse.flatten.length = per.flatten.length := by
    simp only [List.length_flatten, List.map_reverse, List.sum_reverse]
  simp only [List.length_append, List.length_cons, List.length_nil, e]
  omega

end

/-! ## Few layers, many calls -/

/-- The call fills or strokes something. -/
def Op.draws {F : Type} : Op F → Bool
  | .draw .. => true
  | _ => false

/-- A name of `i` letters. -/
def exDoublingName (i : Nat) : String := String.ofList (List.replicate i 'a')

theorem exDoublingName_inj {i j : Nat} (h : exDoublingName i = exDoublingName j) : i = j := by
  have := congrArg (fun s : String => s.toList.length) h
  simpa [exDoublingName] using this

/-- A layer that shows the asset with a name of `i` letters. -/
def exDoublingLayer (i : Nat) : Schema.AnyLayer F64 :=
  .precomposition ⟨exVisual "again" none, exDoublingName i, lit 100, lit 50, lit 0, none⟩

/-- An ellipse, or twice the asset with a name of one letter less. -/
def exDoublingLayers : Nat → List (Schema.AnyLayer F64)
  | 0 => [exShapeDoc (exVisual "ellipse" none)]
  | i + 1 => [exDoublingLayer i, exDoublingLayer i]

/-- The assets with names of up to `n` letters, and a layer that shows the last of them. -/
def exDoubling (n : Nat) : Schema.Animation F64 :=
  { exDoc with
    layers := [exDoublingLayer n]
    assets := some ((List.range (n + 1)).map fun i =>
      .precomposition ⟨⟨exDoublingName i, ⟨none, none⟩⟩, exDoublingLayers i, none, none⟩) }

section
variable [Libm F64] [Kurbo F64]

omit [Libm F64] [Kurbo F64] in
theorem exDoubling_asset {n i : Nat} (hi : i ≤ n) : (exDoubling n).assetList[i]? =
    some (.precomposition ⟨⟨exDoublingName i, ⟨none, none⟩⟩, exDoublingLayers i, none, none⟩) := by
  show ((List.range (n + 1)).map _)[i]? = _
  rw [List.getElem?_map, List.getElem?_range (by omega)]
  rfl

theorem exShapeDoc_drawn (T : Affine F64) (al fr : F64) : ∃ co : List (Op F64),
    (∀ a, ContentDrawn a T al fr (exShapeDoc (exVisual "ellipse" none)) co) ∧ co.countP Op.draws = 1 := by
  refine ⟨_, fun a => .shape (fun h => by cases (show (none : Option Bool) = some true from h)) (.group ⟨rfl, rfl⟩ (.geometry ⟨_, rfl, rfl⟩
    (.paint (p := ⟨none, _, _⟩) ⟨rfl, rfl, _, ⟨_, rfl, rfl⟩, rfl⟩ .nil)) .nil), ?_⟩
  rfl

theorem exDoubling_layer {n : Nat} {src : List (Schema.AnyLayer F64)} {l : Schema.AnyLayer F64}
    (hv : ∃ name, l.visual = exVisual name none) (T : Affine F64) (al : F64) (ix i : Nat) {k : Nat}
    (hco : ∀ T al, ∃ co, ContentDrawn (exDoubling n) T al (lit 0) l co ∧ co.countP Op.draws = k) :
    ∃ ops, LayerDrawn (exDoubling n) src T al (lit 0) ix i l ops ∧ ops.countP Op.draws = k := by
  obtain ⟨name, hv⟩ := hv
  obtain ⟨t, o, ht⟩ : ∃ t o, convTransform (exDocTransform (F := F64) (lit 1) (lit 2)) = .ok (t, o) := ⟨_, _, rfl⟩
  have hl : LayerAt (lit 0) l (t.evaluate (lit 0)) (o.evaluate (lit 0)) := ⟨t, o, by rw [hv]; exact ht, rfl, rfl⟩
  obtain ⟨co, h, hk⟩ := hco (T.mul (t.evaluate (lit 0))) (al *. o.evaluate (lit 0) /. lit 100)
  refine ⟨_, .plain (by rw [Schema.AnyLayer.During, hv]; exact (by decide +kernel : ((lit 0 : F64) <=. lit 0) = true ∧ ((lit 0 : F64) <. lit 10) = true)) (.without (by rw [hv]; rfl))
    ⟨_, _, hl, .root (by rw [hv]; rfl)⟩ hl (by rw [hv]; exact .nil) h, ?_⟩
  simpa [announced, Op.draws, List.countP_append] using hk

theorem exDoubling_content {n i : Nat} (hi : i ≤ n) {T : Affine F64} {al : F64} {per : List (List (Op F64))}
    (h : LayerListDrawn (exDoubling n) (exDoublingLayers i) T al (lit 0) (fun _ => 0) 0 (exDoublingLayers i) per) :
    ContentDrawn (exDoubling n) T al (lit 0) (exDoublingLayer i) per.reverse.flatten := by
  refine .precomposition (fun h => by cases (show (none : Option Bool) = some true from h)) (exDoubling_asset hi) rfl ?_ ?_
  · intro j p hij hp e
    have hj : j ≤ n := by
      have h1 := (List.getElem?_eq_some_iff.mp hp).1
      have h2 : (exDoubling n).assetList.length = n + 1 := by
        show ((List.range (n + 1)).map _).length = _
        simp
      omega
    rw [exDoubling_asset hj] at hp
    cases hp
    have := exDoublingName_inj e
    omega
  · have e : (Schema.PrecompositionLayer.time ⟨exVisual "again" none, exDoublingName i, lit 100, lit 50, lit 0, none⟩
        (lit 0) : F64) = lit 0 := by
      show (lit 0 /. lit 1 +. FloatOps.neg (lit 0) /. lit 1 : F64) = lit 0
      decide +kernel
    rw [e]
    exact h

/-- What the assets take. -/
theorem exDoubling_drawn {n : Nat} : ∀ {i : Nat}, i ≤ n → ∀ T al, ∃ per,
    LayerListDrawn (exDoubling n) (exDoublingLayers i) T al (lit 0) (fun _ => 0) 0 (exDoublingLayers i) per ∧
      per.reverse.flatten.countP Op.draws = 2 ^ i
  | 0, _, T, al => by
    obtain ⟨ops, h, hk⟩ := exDoubling_layer (n := n) (src := exDoublingLayers 0) (l := exShapeDoc (exVisual "ellipse" none))
      ⟨_, rfl⟩ T al 0 0 (k := 1) (fun T al => by
        obtain ⟨co, h, hk⟩ := exShapeDoc_drawn T al (lit 0)
        exact ⟨co, h _, hk⟩)
    exact ⟨_, .layer (fun h => by cases (show (none : Option Schema.BoolInt) = some .true from h.2)) h .nil, by simpa using hk⟩
  | i + 1, hi, T, al => by
    have hl := fun k => exDoubling_layer (n := n) (src := exDoublingLayers (i + 1)) (l := exDoublingLayer i)
      ⟨_, rfl⟩ T al 0 k (k := 2 ^ i) fun T al => by
        obtain ⟨per, h, hk⟩ := exDoubling_drawn (n := n) (i := i) (by omega) T al
        exact ⟨_, exDoubling_content (by omega) h, hk⟩
    obtain ⟨ops, h, hk⟩ := hl 0
    obtain ⟨ops', h', hk'⟩ := hl 1
    have hm : ¬ (exDoublingLayer i).Matte :=
      fun h => by cases (show (none : Option Schema.BoolInt) = some .true from h.2)
    refine ⟨_, .layer hm h (.layer hm h' .nil), ?_⟩
    simp [hk, hk', pow_succ]
    omega

omit [Libm F64] [Kurbo F64] in
theorem exDoubling_layers {n : Nat} : ∀ l ∈ (exDoubling n).allLayers,
    l = exShapeDoc (exVisual "ellipse" none) ∨ ∃ i, l = exDoublingLayer i := by
  intro l hl
  rcases List.mem_append.mp hl with hl | hl
  · exact .inr ⟨n, List.mem_singleton.mp hl⟩
  · obtain ⟨x, hx, hl⟩ := List.mem_flatMap.mp hl
    obtain ⟨i, -, rfl⟩ := List.mem_map.mp hx
    cases i with
    | zero => exact .inl (List.mem_singleton.mp hl)
    | succ i =>
      simp only [exDoublingLayers, List.mem_cons, List.not_mem_nil, or_false, or_self] at hl
      exact .inr ⟨i, hl⟩

omit [Libm F64] [Kurbo F64] in
theorem exDoublingLayers_length (n : Nat) : ((List.range (n + 1)).flatMap exDoublingLayers).length = 2 * n + 1 := by
  induction n with
  | zero => rfl
  | succ n ih =>
    rw [List.range_succ, List.flatMap_append, List.length_append, ih]
    simp [exDoublingLayers]
    omega

omit [Libm F64] [Kurbo F64] in
theorem exDoubling_nested (n : Nat) : ∀ i, NestedWithin (exDoubling n) 2 3 i (exDoublingLayers i)
  | 0 => by
    refine .flat (by decide) ?_ ?_ ?_
    · intro l hl
      cases List.mem_singleton.mp hl
      decide
    · intro l hl
      cases List.mem_singleton.mp hl
      rfl
    · intro q hq
      cases List.mem_singleton.mp hq
  | i + 1 => by
    refine .deeper (le_refl 2) ?_ ?_ ?_
    · intro l hl
      simp only [exDoublingLayers, List.mem_cons, List.not_mem_nil, or_false, or_self] at hl
      cases hl
      exact (by decide : 2 ≤ 3)
    · intro l hl
      simp only [exDoublingLayers, List.mem_cons, List.not_mem_nil, or_false, or_self] at hl
      cases hl
      rfl
    · intro q hq p hp hid
      simp only [exDoublingLayers, List.mem_cons, List.not_mem_nil, or_false, or_self] at hq
      cases hq
      obtain ⟨j, -, h⟩ := List.mem_map.mp hp
      cases h
      cases exDoublingName_inj hid
      exact exDoubling_nested n i

theorem exDoubling_imported (n : Nat) : ∃ c, convAnimation (exDoubling n) = .ok c := by
  rw [C48_returns_iff]
  have hv : ∀ (name : String) (l : Schema.AnyLayer F64), l.visual = exVisual name none →
      ¬ BadContent l → ¬ BadLayer l := by
    rintro name l hv hc (h | h | h | h)
    · rw [hv] at h
      rcases h with h | ⟨x, y, z, o, h⟩ | ⟨v, h, -⟩ | ⟨r, h, ks, hk, -⟩ | ⟨r, h, -⟩ | ⟨r, h, -⟩ | ⟨r, h, ks, hk, -⟩
      · cases h
      · cases h
      · cases h
      · cases h; cases hk
      · cases h
      · cases h
      · cases h; cases hk
    · rw [hv] at h
      rcases h with h | h <;> cases h
    · rw [hv] at h
      obtain ⟨m, hm, -⟩ := h
      exact absurd hm List.not_mem_nil
    · exact hc h.2
  have key : ∀ l ∈ (exDoubling n).allLayers, ¬ BadLayer l := by
    intro l hl
    rcases exDoubling_layers l hl with rfl | ⟨i, rfl⟩
    · refine hv "ellipse" _ rfl ?_
      rintro ⟨s, hs, hb⟩
      cases List.mem_singleton.mp hs
      cases hb with
      | item hs hb =>
        simp only [List.mem_cons, List.not_mem_nil, or_false] at hs
        rcases hs with rfl | rfl
        · cases hb
        · cases hb with
          | fill h =>
            obtain ⟨ks, hk, -⟩ := h
            cases hk
      | transform ht hb =>
        simp only [List.mem_cons, List.not_mem_nil, or_false] at ht
        rcases ht with h | h <;> cases h
    · refine hv "again" _ rfl ?_
      rintro ⟨q, hq, -⟩
      cases hq
  rintro (⟨x, hx, hb⟩ | ⟨l, hl, hb⟩)
  · cases x with
    | image => 
      obtain ⟨i, -, h⟩ := List.mem_map.mp hx
      cases h
    | precomposition p =>
      obtain ⟨l, hl, hb⟩ := hb
      exact key l (List.mem_append_right _ (List.mem_flatMap.mpr ⟨_, hx, hl⟩)) hb
  · exact key l (List.mem_append_left _ hl) hb

end

/-- **C131.** The number of calls is not bounded by any polynomial in the size of the document: there are documents
with `n + 1` assets and `2 n + 2` layers, at most two in each list and none with masks or mattes, that are drawn with
`2ⁿ` fills. -/
theorem C131_counterexample [Libm F64] [Kurbo F64] [KurboPaths F64] (n : Nat) :
    ∃ (doc : Schema.Animation F64) (c : Composition F64), doc.assetList.length = n + 1 ∧
      doc.allLayers.length = 2 * n + 2 ∧ NestedWithin doc 2 3 (n + 1) doc.layers ∧ convAnimation doc = .ok c ∧
      ∃ r' ops, AppendCalls Renderer.new c (lit 0) Affine.identity (lit 1) r' ops ∧
        ops.countP Op.draws = 2 ^ n := by
  obtain ⟨c, hc⟩ := exDoubling_imported n
  refine ⟨exDoubling n, c, ?_, ?_, ?_, hc, ?_⟩
  · show ((List.range (n + 1)).map _).length = _
    simp
  · unfold Schema.Animation.allLayers
    rw [List.length_append]
    show 1 + (((List.range (n + 1)).map _).flatMap _).length = _
    rw [List.flatMap_map]
    have := exDoublingLayers_length n
    show 1 + ((List.range (n + 1)).flatMap exDoublingLayers).length = _
    omega
  · refine .deeper (by simp [exDoubling]) ?_ ?_ ?_
    · intro l hl
      cases List.mem_singleton.mp hl
      exact (by decide : 2 ≤ 3)
    · intro l hl
      cases List.mem_singleton.mp hl
      rfl
    · intro q hq p hp hid
      cases List.mem_singleton.mp hq
      obtain ⟨i, -, h⟩ := List.mem_map.mp hp
      cases h
      cases exDoublingName_inj hid
      exact exDoubling_nested n n
  · obtain ⟨ops, h, hk⟩ := exDoubling_layer (n := n) (src := [exDoublingLayer n]) (l := exDoublingLayer n) ⟨_, rfl⟩
      Affine.identity (lit 1) 0 0 (k := 2 ^ n) (fun T al => by
        obtain ⟨per, h, hk⟩ := exDoubling_drawn (n := n) (le_refl n) T al
        exact ⟨_, exDoubling_content (le_refl n) h, hk⟩)
    have hm : ¬ (exDoublingLayer n).Matte :=
      fun h => by cases (show (none : Option Schema.BoolInt) = some .true from h.2)
    refine ⟨_, _, C117_drawn hc .new ⟨_, .layer hm h .nil, rfl⟩, ?_⟩
    simpa [Op.draws] using hk

/-! ## The hypotheses can be met -/

/-- A document with a matte and an asset: 16 calls for the matted layer, 9 for every other layer, 3 for the assets. -/
theorem exDoc_enough : Enough (exDoc (F := F64)) (fun _ => 3)
    (fun ls i => if ls.length = 1 then 3 else if i = 4 then 16 else 9) := by
  have lists : ∀ ls, ListShown (exDoc (F := F64)) ls → ls = exDocLayers ∨
      ∃ p, .precomposition p ∈ (exDoc (F := F64)).assetList ∧ ls = p.layers := by
    intro ls h
    cases h with
    | root => exact .inl rfl
    | asset h hq hp hid => exact .inr ⟨_, hp, rfl⟩
  have assets : ∀ p, .precomposition p ∈ (exDoc (F := F64)).assetList → ∃ l, p.layers = [l] ∧ l.calls (fun _ => 3) ≤ 3 ∧
      l.visual.matteMode = none := by
    intro p hp
    change _ ∈ [_, _, _] at hp
    simp only [List.mem_cons, List.not_mem_nil, or_false] at hp
    rcases hp with h | h | h <;> cases h <;> exact ⟨_, rfl, by decide, rfl⟩
  refine ⟨?_, ?_, ?_⟩
  · intro ls h i l hl
    rcases lists ls h with rfl | ⟨p, hp, rfl⟩
    · have h5 : l.calls (fun _ => 3) ≤ 5 := by
        have hm := List.mem_of_getElem? hl
        simp only [exDocLayers, List.mem_cons, List.not_mem_nil, or_false] at hm
        rcases hm with rfl | rfl | rfl | rfl | rfl | rfl <;> decide
      show _ ≤ if i = 4 then 16 else 9
      split_ifs <;> omega
    · obtain ⟨l', e, hc, -⟩ := assets p hp
      rw [e] at hl ⊢
      cases List.mem_singleton.mp (List.mem_of_getElem? hl)
      exact hc
  · intro ls h i l b j hl hm hj
    rcases lists ls h with rfl | ⟨p, hp, rfl⟩
    · have hi : i = 4 ∧ l = exShapeDoc { exVisual "matted" none with matteMode := some .alpha } := by
        have hmode := matteOf_mode hm
        rcases i with _ | _ | _ | _ | _ | _ | i
        all_goals cases hl
        all_goals first | exact ⟨rfl, rfl⟩ | exact absurd rfl hmode
      obtain ⟨rfl, rfl⟩ := hi
      have hj4 : j < 4 := by
        generalize e : some (b, j) = x at hm
        cases hm with
        | without => cases e
        | named _ hx => cases hx
        | pending _ _ hj => cases e; exact hj.1
        | nothing => cases e
      show 3 + 4 + (if j = 4 then 16 else 9) ≤ 16
      rw [if_neg (by omega)]
    · obtain ⟨l', e, -, hn⟩ := assets p hp
      rw [e] at hl
      cases List.mem_singleton.mp (List.mem_of_getElem? hl)
      exact absurd hn (matteOf_mode hm)
  · intro p hp _
    obtain ⟨l', e, -, -⟩ := assets p hp
    rw [e]
    exact le_refl 3

/-- It can be imported, and is drawn with at most 2 + 61 calls. -/
example [Libm F64] [Kurbo F64] [KurboPaths F64] : ∃ c, convAnimation (exDoc (F := F64)) = .ok c ∧
    ∀ r' frame T al ops, AppendCalls Renderer.new c frame T al r' ops → ops.length ≤ 63 := by
  obtain ⟨c, hc⟩ : ∃ c, convAnimation (exDoc (F := F64)) = .ok c := ⟨_, rfl⟩
  exact ⟨c, hc, fun r' frame T al ops h => (C131_calls_partial hc exDoc_enough .new h).trans (by decide)⟩

end Velato
