import Verif.Proofs.DocLayers
import Verif.Proofs.ImportFails

/-!
# The calls of a document: the document's calls are made
-/

namespace Velato
open FloatOps (lit)
open Import

section
variable {F : Type} [FloatOps F] [Libm F] [Kurbo F]

/-! ## Layers -/

omit [FloatOps F] [Libm F] [Kurbo F] in
theorem pendingMatte_unique {ls : List (Schema.AnyLayer F)} {i j j' : Nat} (h : PendingMatte ls i j)
    (h' : PendingMatte ls i j') : j = j' := by
  obtain ⟨h1, ⟨s, hs, hm⟩, h2⟩ := h
  obtain ⟨h1', ⟨s', hs', hm'⟩, h2'⟩ := h'
  rcases Nat.lt_trichotomy j j' with hj | hj | hj
  · exact ((h2 j' s' hj h1' hs').1 hm').elim
  · exact hj
  · exact ((h2' j s hj h1 hs).1 hm).elim

omit [Libm F] [Kurbo F] in
theorem matteOf_unique {ls : List (Schema.AnyLayer F)} {i : Nat} {l : Schema.AnyLayer F}
    {r r' : Option (BlendMode × Nat)} (h : MatteOf ls i l r) (h' : MatteOf ls i l r') : r = r' := by
  cases h with
  | without h => cases h' with
    | without => rfl
    | named h' => rw [h] at h'; cases h'
    | pending h' => rw [h] at h'; cases h'
    | nothing => rfl
  | named h hx hr => cases h' with
    | without h' => rw [h] at h'; cases h'
    | named h' hx' hr' =>
      rw [h] at h'
      rw [hx] at hx'
      cases h'
      cases hx'
      rw [LastPosition.unique hr hr']
    | pending _ hx' => rw [hx] at hx'; cases hx'
    | nothing _ hx' => rw [hx] at hx'; cases hx'
  | pending h hx hj => cases h' with
    | without h' => rw [h] at h'; cases h'
    | named _ hx' => rw [hx] at hx'; cases hx'
    | pending h' _ hj' =>
      rw [h] at h'
      cases h'
      rw [pendingMatte_unique hj hj']
    | nothing _ _ hj' => exact (hj' _ hj).elim
  | nothing h hx hj => cases h' with
    | without => rfl
    | named _ hx' => rw [hx] at hx'; cases hx'
    | pending _ _ hj' => exact (hj _ hj').elim
    | nothing => rfl

theorem layerAt_unique {l : Schema.AnyLayer F} {fr : F} {M M' : Affine F} {k k' : F}
    (h : LayerAt fr l M k) (h' : LayerAt fr l M' k') : M = M' ∧ k = k' := by
  obtain ⟨t, o, ht, rfl, rfl⟩ := h
  obtain ⟨t', o', ht', rfl, rfl⟩ := h'
  rw [ht] at ht'
  cases ht'
  exact ⟨rfl, rfl⟩

theorem masks_rendered {ms : List (Schema.Mask F)} {fr : F} {T : Affine F} {ops : List (Op F)}
    (h : MasksDrawn fr T ms ops) {out : List (Mask F)} (ho : convMasks ms = .ok out) :
    List.Forall₂ (fun m op => maskOp T fr m = .ok op) out ops := by
  obtain ⟨os, hos, h'⟩ := bind_ok ho
  have hf := mapM_ok_iff.mp hos
  cases Except.ok.inj h'
  clear h' hos ho
  induction h generalizing os with
  | nil => cases hf; exact .nil
  | @keep m ms p g els ops hp hg he _ ih =>
    cases hf with
    | cons hm hf =>
      unfold convMask at hm
      rw [hp] at hm
      simp only [hg] at hm
      obtain ⟨o', ho', hm⟩ := bind_ok (show (convScalar _ >>= fun o => _) = _ from hm)
      cases Except.ok.inj hm
      rw [List.flatMap_cons]
      exact .cons (by unfold maskOp; rw [he]; rfl) (ih _ hf)
  | @drop m ms ops hp _ ih =>
    cases hf with
    | cons hm hf =>
      unfold convMask at hm
      cases hsh : m.shape with
      | none =>
        rw [hsh] at hm
        cases Except.ok.inj hm
        rw [List.flatMap_cons]
        exact ih _ hf
      | some p =>
        rw [hsh] at hm
        obtain ⟨g, hg, hm⟩ := bind_ok (show (convShapeGeometry p >>= fun g => _) = _ from hm)
        rcases shapeGeometry_ok hg with ⟨g', -, hx⟩ | ⟨rfl, -⟩
        · exact (not_noPath hx (hp p hsh)).elim
        · cases Except.ok.inj hm
          rw [List.flatMap_cons]
          exact ih _ hf

theorem placed_rendered {a : Schema.Animation F} {c : Composition F} (h : convAnimation a = .ok c)
    {src : List (Schema.AnyLayer F)} {dst : List (Layer F)} (hd : ImportedList a c src dst) {fr : F}
    {n : Nat} {s : Schema.AnyLayer F} {M P : Affine F} (hr : PlacedWithin src fr n s M P) :
    ∀ {i : Nat} {l : Layer F}, src[i]? = some s → dst[i]? = some l →
      P = chaseParents dst fr n l.parent M := by
  induction hr with
  | @root n s M hp =>
    intro i l hs hl
    have := (C45_parents h hd hs hl).1
    rw [hp] at this
    rw [show l.parent = none from this, chaseParents]
  | @stray n s id M hp hn =>
    intro i l hs hl
    have := (C45_parents h hd hs hl).1
    rw [hp] at this
    rw [← hn.unique this, chaseParents]
  | @child n s id j p M N o P hp hj hpj hl' _ ih =>
    intro i l hs hl
    have := (C45_parents h hd hs hl).1
    rw [hp] at this
    obtain ⟨lp, hlp⟩ := get_of_length
      (Import.processLayers_length (Import.ImportedList.process h hd)) hpj
    rw [← hj.unique this, chaseParents, hlp]
    dsimp only
    rw [← (layerAt_unique hl' ((facts_of h hd hpj hlp).placed fr)).1]
    exact ih hpj hlp
  | limit =>
    intro i l hs hl
    cases l.parent <;> rfl

theorem transform_rendered {a : Schema.Animation F} {c : Composition F} (h : convAnimation a = .ok c)
    {src : List (Schema.AnyLayer F)} {dst : List (Layer F)} (hd : ImportedList a c src dst) {fr : F}
    {s : Schema.AnyLayer F} {P : Affine F} (hr : PlacedAt src fr s P) {i : Nat} {l : Layer F}
    (hs : src[i]? = some s) (hl : dst[i]? = some l) (T : Affine F) :
    computeTransform dst l T fr = T.mul P := by
  obtain ⟨M, o, hl', hr⟩ := hr
  rw [computeTransform, ← Import.processLayers_length (Import.ImportedList.process h hd),
    ← (layerAt_unique hl' ((facts_of h hd hs hl).placed fr)).1, ← placed_rendered h hd hr hs hl]

/-- The calls of a layer are made. -/
def LayerRendered (a : Schema.Animation F) (c : Composition F) (src : List (Schema.AnyLayer F))
    (T : Affine F) (al fr : F) (ix i : Nat) (s : Schema.AnyLayer F) (ops : List (Op F)) : Prop :=
  ∀ {dst : List (Layer F)} {l : Layer F}, ImportedList a c src dst → src[i]? = some s →
    dst[i]? = some l → LayerCalls c dst l ix T al fr ops

/-- The calls for what a layer shows are made. -/
def ContentRendered (c : Composition F) (T : Affine F) (al fr : F) (s : Schema.AnyLayer F)
    (co : List (Op F)) : Prop :=
  ∀ {src : List (Schema.AnyLayer F)} {i : Nat} {l : Layer F}, Facts src i s l →
    ContentCalls c l T al fr co

/-- The calls of several layers are made. -/
def LayersRendered (a : Schema.Animation F) (c : Composition F) (src : List (Schema.AnyLayer F))
    (T : Affine F) (al fr : F) (number : Nat → Nat) (i : Nat) (ls : List (Schema.AnyLayer F))
    (per : List (List (Op F))) : Prop :=
  ∀ {dst dst' : List (Layer F)}, ImportedList a c src dst → (∀ k, ls[k]? = src[i + k]?) →
    (∀ k, dst'[k]? = dst[i + k]?) →
    List.Forall₂ (fun (x : Layer F × Nat) os => if x.1.isMask then os = []
      else LayerCalls c dst x.1 (number x.2) T al fr os) (dst'.zipIdx i) per

section
variable {a : Schema.Animation F} {c : Composition F} (h : convAnimation a = .ok c)
include h

theorem absent_rendered {src T al fr ix i} {s : Schema.AnyLayer F} (hn : ¬ s.During fr) :
    LayerRendered a c src T al fr ix i s [] := by
  intro dst l hd hs hl
  refine layerCalls_cases.mpr (.inl ⟨?_, rfl⟩)
  cases hx : l.frames.contains fr with
  | false => rfl
  | true => exact (hn (((facts_of h hd hs hl).during fr).mp hx)).elim

theorem plain_rendered {src T al fr ix i P M k ms co} {s : Schema.AnyLayer F} (hin : s.During fr)
    (hm : MatteOf src i s none) (hP : PlacedAt src fr s P) (hk : LayerAt fr s M k)
    (hms : MasksDrawn fr (T.mul P) (s.visual.masksProperties.getD []) ms)
    (hco : ContentRendered c (T.mul P) (al *. k /. lit 100) fr s co) :
    LayerRendered a c src T al fr ix i s
      (announced s ix (ms ++ co ++ List.replicate ms.length .pop)) := by
  intro dst l hd hs hl
  have hf := facts_of h hd hs hl
  have hT := transform_rendered h hd hP hs hl T
  have hk' := (layerAt_unique hk (hf.placed fr)).2
  have hml := matteOf_unique hf.matte hm
  have hms' := masks_rendered hms hf.masks
  have hco' := hco hf
  refine layerCalls_cases.mpr (.inr ⟨(hf.during fr).mpr hin, [], ms, co, .none hml, hT ▸ hms', ?_,
    ?_⟩)
  · rw [hT, ← hk']
    exact hco'
  · rw [announced_of hf hms'.length_eq, hml]
    simp

theorem matted_rendered {src T al fr ix i P M k ms co b j m mo} {s : Schema.AnyLayer F}
    (hin : s.During fr) (hm : MatteOf src i s (some (b, j))) (hj : src[j]? = some m)
    (hmo : LayerRendered a c src T al fr 0 j m mo) (hP : PlacedAt src fr s P) (hk : LayerAt fr s M k)
    (hms : MasksDrawn fr (T.mul P) (s.visual.masksProperties.getD []) ms)
    (hco : ContentRendered c (T.mul P) (al *. k /. lit 100) fr s co) :
    LayerRendered a c src T al fr ix i s
      (announced s ix (composed a T b mo (ms ++ co ++ List.replicate ms.length .pop))) := by
  intro dst l hd hs hl
  have hf := facts_of h hd hs hl
  have hT := transform_rendered h hd hP hs hl T
  have hk' := (layerAt_unique hk (hf.placed fr)).2
  have hml := matteOf_unique hf.matte hm
  have hms' := masks_rendered hms hf.masks
  have hco' := hco hf
  obtain ⟨lm, hlm⟩ := get_of_length
    (Import.processLayers_length (Import.ImportedList.process h hd)) hj
  have hmo' := hmo hd hj hlm
  refine layerCalls_cases.mpr (.inr ⟨(hf.during fr).mpr hin, _, ms, co, .matte b j lm _ hml hlm hmo',
    hT ▸ hms', ?_, ?_⟩)
  · rw [hT, ← hk']
    exact hco'
  · rw [announced_of hf hms'.length_eq, hml, fullRect_of h]
    simp [composed, List.replicate_succ]

omit h in
theorem nothing_rendered {T al fr} {s : Schema.AnyLayer F} (hs : ∀ q, s ≠ .shape q)
    (hp : ∀ q, s ≠ .precomposition q) : ContentRendered c T al fr s [] := by
  intro src i l hf
  by_cases hh : s.Hidden
  · exact .none (hf.hidden hh)
  · have hcc := hf.content hh
    cases s with
    | precomposition q => exact (hp q rfl).elim
    | shape q => exact (hs q rfl).elim
    | solid q => exact .none hcc
    | null q => exact .none hcc
    | image q => exact .none hcc

omit h in
theorem shape_rendered [LawfulCmp F] [KurboPaths F] {T al fr q D} (hv : ¬ (Schema.AnyLayer.shape q).Hidden)
    (hss : ItemsDrawn fr T al q.shapes .empty D) :
    ContentRendered c T al fr (.shape q) D.calls := by
  intro src i l hf
  obtain ⟨ss, hss', hcn⟩ := hf.content hv
  obtain ⟨b, hb, hr⟩ := shapes_rendered hss hss'
  exact .shape _ b _ hcn hb hr

theorem missing_rendered {T al fr q}
    (hn : ∀ p, .precomposition p ∈ a.assetList → p.asset.id ≠ q.refId) :
    ContentRendered c T al fr (.precomposition q) [] := by
  intro src i l hf
  by_cases hh : (Schema.AnyLayer.precomposition q).Hidden
  · exact .none (hf.hidden hh)
  · obtain ⟨tr, -, hcn⟩ := hf.content hh
    exact .missing _ tr hcn ((C57_last h q.refId).2 hn)

theorem precomposition_rendered {T al} {fr : F} {q p per} {k : Nat}
    (hv : ¬ (Schema.AnyLayer.precomposition q).Hidden)
    (hp : a.assetList[k]? = some (.precomposition p)) (hid : p.asset.id = q.refId)
    (hlast : ∀ (j : Nat) p', k < j → a.assetList[j]? = some (.precomposition p') →
      p'.asset.id ≠ q.refId)
    (hls : LayersRendered a c p.layers T al
      (q.time fr) (fun _ => 0) 0 p.layers per) :
    ContentRendered c T al fr (.precomposition q) per.reverse.flatten := by
  intro src i l hf
  obtain ⟨tr, -, hcn⟩ := hf.content hv
  obtain ⟨-, als, -, -, he, hdi⟩ := (C57_last h q.refId).1 k p hp hid hlast
  have hr := hls hdi (fun k => by rw [Nat.zero_add]) (dst' := als) (fun k => by rw [Nat.zero_add])
  rw [← hf.time q rfl] at hr
  obtain ⟨per', hper', e⟩ := forall₂_filter_iff (p := fun l : Layer F => !l.isMask)
    (l := als.reverse) (R := fun l' ops => LayerCalls c als l' 0 T al
      (fr /. l.stretch +. FloatOps.neg l.startFrame /. l.stretch) ops)
    (ops := per.reverse.flatten) |>.mpr ⟨per.reverse, by
      rw [List.forall₂_reverse_iff]
      have h2 : List.Forall₂ (fun (x : Layer F) os => if x.isMask then os = []
        else LayerCalls c als x 0 T al
          (fr /. l.stretch +. FloatOps.neg l.startFrame /. l.stretch) os)
        (als.zipIdx.map Prod.fst) per := by
        rw [List.forall₂_map_left_iff]
        exact hr
      rw [List.zipIdx_map_fst] at h2
      refine h2.imp fun x os hx => ?_
      cases hm : x.isMask <;> simpa [hm] using hx, rfl⟩
  rw [e]
  exact .asset _ tr als per' hcn he hper'

theorem nil_layers_rendered {src T al fr number i} :
    LayersRendered a c src T al fr number i [] [] := by
  intro dst dst' hd hs hdd
  have hlen := Import.processLayers_length (Import.ImportedList.process h hd)
  cases dst' with
  | nil => exact .nil
  | cons l dst' =>
    have h1 := hs 0
    have h2 := hdd 0
    rw [Nat.add_zero] at h1 h2
    obtain ⟨s, hs'⟩ := get_of_length hlen.symm h2.symm
    rw [hs'] at h1
    cases h1

theorem cons_layers_rendered {src T al fr number i} {s : Schema.AnyLayer F} {ops ls per}
    (hl' : ∀ {dst : List (Layer F)} {l : Layer F}, ImportedList a c src dst → src[i]? = some s →
      dst[i]? = some l → Facts src i s l → if l.isMask then ops = []
        else LayerCalls c dst l (number i) T al fr ops)
    (hss : LayersRendered a c src T al fr number (i + 1) ls per) :
    LayersRendered a c src T al fr number i (s :: ls) (ops :: per) := by
  intro dst dst' hd hs hdd
  have hlen := Import.processLayers_length (Import.ImportedList.process h hd)
  have h1 := hs 0
  rw [Nat.add_zero] at h1
  obtain ⟨l, hl⟩ := get_of_length hlen h1.symm
  cases dst' with
  | nil => have h2 := hdd 0; rw [Nat.add_zero, hl] at h2; cases h2
  | cons l' dst' =>
    have h2 := hdd 0
    rw [Nat.add_zero, hl] at h2
    cases h2
    rw [List.zipIdx_cons]
    refine .cons (hl' hd h1.symm hl (facts_of h hd h1.symm hl)) (hss hd ?_ ?_)
    · intro k
      have := hs (k + 1)
      rw [show i + (k + 1) = i + 1 + k by omega] at this
      exact this
    · intro k
      have := hdd (k + 1)
      rw [show i + (k + 1) = i + 1 + k by omega] at this
      exact this

theorem layers_rendered [LawfulCmp F] [KurboPaths F] {src ls : List (Schema.AnyLayer F)} {T : Affine F} {al fr : F}
    {number : Nat → Nat} {i : Nat} {per : List (List (Op F))}
    (hl : LayerListDrawn a src T al fr number i ls per) :
    LayersRendered a c src T al fr number i ls per := by
  refine LayerListDrawn.rec
    (motive_1 := fun src T al fr ix i s ops _ => LayerRendered a c src T al fr ix i s ops)
    (motive_2 := fun T al fr s co _ => ContentRendered c T al fr s co)
    (motive_3 := fun src T al fr number i ls per _ => LayersRendered a c src T al fr number i ls per)
    (fun hn => absent_rendered h hn)
    (fun hin hm hP hk hms _ ih => plain_rendered h hin hm hP hk hms ih)
    (fun hin hm hj _ hP hk hms _ ihm ih => matted_rendered h hin hm hj ihm hP hk hms ih)
    (fun hh _ _ _ hf => .none (hf.hidden hh))
    (fun hs hp => nothing_rendered hs hp)
    (fun hv hss => shape_rendered hv hss)
    (fun hn => missing_rendered h hn)
    (fun hv hp hid hlast _ ih => precomposition_rendered h hv hp hid hlast ih)
    (nil_layers_rendered h)
    (fun hm _ ih => cons_layers_rendered h (fun _ _ _ hf => by rw [hf.isMask.mpr hm]; rfl) ih)
    (fun hm _ _ ihl ih => cons_layers_rendered h (fun hd hs hl hf => by
      rw [if_neg fun hx => hm (hf.isMask.mp hx)]
      exact ihl hd hs hl) ih)
    hl

end
end
end Velato
