import Verif.Proofs.RoundTrip
import Verif.Spec.DocPaths

/-!
# Helper lemmas for C52: the paths of a parsed document
-/

namespace Velato
open Schema Decode

section
variable {F : Type}

theorem req_some {α : Type} {d : Json F → Option α} {es : Obj F} {k : String} {a : α}
    (h : req d es k = some a) : ∃ j, lookup es k = some j ∧ d j = some a := by
  unfold req at h
  split at h
  · exact ⟨_, by assumption, h⟩
  · exact nomatch h

theorem mapM_some_mem {α β : Type} {f : α → Option β} : ∀ {xs : List α} {ys : List β} {y : β},
    xs.mapM f = some ys → y ∈ ys → ∃ x ∈ xs, f x = some y
  | [], ys, y, h, hy => by
    simp only [List.mapM_nil] at h
    cases h; cases hy
  | x :: xs, ys, y, h, hy => by
    simp only [List.mapM_cons, Option.bind_eq_bind, Option.bind_eq_some_iff, Option.pure_def,
      Option.some.injEq] at h
    obtain ⟨z, hz, zs, hzs, rfl⟩ := h
    rcases List.mem_cons.1 hy with rfl | hy
    · exact ⟨x, List.mem_cons_self, hz⟩
    · obtain ⟨w, hw, h⟩ := mapM_some_mem hzs hy
      exact ⟨w, List.mem_cons_of_mem _ hw, h⟩

theorem vec_some {α : Type} {d : Json F → Option α} {j : Json F} {as : List α} {a : α}
    (h : jVec d j = some as) (ha : a ∈ as) : ∃ v, d v = some a := by
  cases j with
  | arr xs => obtain ⟨x, -, h⟩ := mapM_some_mem h ha; exact ⟨x, h⟩
  | _ => exact nomatch h

theorem keyframesOk_iff (ks : List (ShapeKeyframe F)) :
    keyframesOk ks = true ↔ StartsGiven ks := by
  unfold keyframesOk StartsGiven
  rcases List.eq_nil_or_concat ks with rfl | ⟨init, last, rfl⟩
  · simp
  · have htake : (init ++ [last]).take ((init ++ [last]).length - 1) = init := by simp
    simp only [List.concat_eq_append, htake]
    have hne : (init ++ [last]).isEmpty = false := by cases init <;> rfl
    simp only [hne, List.getLast?_append, List.getLast?_singleton, Option.some_or,
      List.length_append, List.length_cons, List.length_nil]
    constructor
    · intro h i hi hn
      have hall : ∀ k ∈ init, k.start.isSome = true := by
        by_contra hc
        have : init.all (fun k => k.start.isSome) = false := by
          rw [Bool.eq_false_iff]; intro hh; exact hc (List.all_eq_true.1 hh)
        simp [this] at h
      by_cases hlt : i < init.length
      · rw [List.getElem_append_left hlt] at hn
        have := hall _ (List.getElem_mem hlt)
        simp [hn] at this
      · have hi' : i = init.length := by omega
        subst hi'
        rw [List.getElem_append_right (by omega)] at hn
        simp only [Nat.sub_self, List.getElem_cons_zero] at hn
        refine ⟨?_, by omega⟩
        have h1 : init.all (fun k => k.start.isSome) = true := List.all_eq_true.2 hall
        simp [h1, hn] at h
        omega
    · intro h
      have hall : init.all (fun k => k.start.isSome) = true := by
        refine List.all_eq_true.2 fun k hk => ?_
        obtain ⟨i, hi, rfl⟩ := List.mem_iff_getElem.1 hk
        cases hs : (init[i]).start with
        | some _ => rfl
        | none =>
          have := h i (by omega) (by rw [List.getElem_append_left hi]; exact hs)
          omega
      rw [hall]
      cases hs : last.start with
      | some _ => simp
      | none =>
        have := h init.length (by omega) (by
          rw [List.getElem_append_right (by omega)]; simpa using hs)
        simp; omega

variable [FloatOps F]

/-- A path whose keyframes, if any, the parser would accept. -/
def PathGiven (p : ShapeProperty F) : Prop := ∀ ks, p.value = .animated ks → StartsGiven ks

theorem parsed_path {j : Json F} {p : ShapeProperty F} (h : jShapeProperty j = some p) :
    PathGiven p := by
  obtain ⟨es, -, h⟩ := Option.bind_eq_some_iff.1 h
  unfold dShapeProperty at h
  simp only [Option.bind_eq_bind, Option.bind_eq_some_iff, Option.some.injEq] at h
  obtain ⟨_, _, _, _, _, _, v, hv, rfl⟩ := h
  obtain ⟨j, -, hv⟩ := req_some hv
  intro ks hks
  subst hks
  unfold jShapePropertyK jShapeKeyframes at hv
  split at hv
  · rename_i ks' hks'
    simp only [Option.some.injEq, ShapePropertyK.animated.injEq] at hv
    subst hv
    split at hks'
    · split at hks'
      · cases hks'; exact (keyframesOk_iff _).1 (by assumption)
      · exact nomatch hks'
    · exact nomatch hks'
  · obtain ⟨b, -, hb⟩ := Option.map_eq_some_iff.1 hv
    exact nomatch hb

theorem parsed_mask {j : Json F} {m : Schema.Mask F} (h : jMask j = some m) {p : ShapeProperty F}
    (hp : m.shape = some p) : PathGiven p := by
  obtain ⟨es, -, h⟩ := Option.bind_eq_some_iff.1 h
  unfold dMask at h
  simp only [Option.bind_eq_bind, Option.bind_eq_some_iff, Option.some.injEq] at h
  obtain ⟨_, _, _, _, _, _, v, hv, _, _, _, _, _, _, rfl⟩ := h
  subst hp
  obtain ⟨j, -, -, h⟩ := opt_some hv
  exact parsed_path h

theorem jShape_inv {n : Bool} {j : Json F} {s : AnyShape F} (h : jShape n j = some s) :
    ∃ es, j = .obj es ∧ ((∃ (xs : List (Json F)) (items : List (AnyShape F)), xs.mapM (jShape true) = some items ∧
      dGroup es items = some s) ∨ ∃ tag, dLeaf tag es = some s) := by
  cases j with
  | obj es =>
    refine ⟨es, rfl, ?_⟩
    unfold jShape at h
    split at h
    · exact nomatch h
    · split at h
      · exact nomatch h
      · rw [dItems_eq] at h
        split at h
        · rename_i items hit
          cases hl : lookup es "it" with
          | none => rw [hl] at hit; exact nomatch hit
          | some ji =>
            rw [hl] at hit
            simp only [Option.map_some, Option.some.injEq] at hit
            cases ji with
            | arr xs =>
              simp only [jItems, jShapes_eq] at hit
              exact .inl ⟨xs, items, hit, h⟩
            | _ => exact nomatch hit
        · exact nomatch h
      · exact .inr ⟨_, h⟩
  | _ => simp [jShape] at h

theorem dGroup_inv {es : Obj F} {items : List (AnyShape F)} {s : AnyShape F}
    (h : dGroup es items = some s) : ∃ e np i, s = .group e np items i := by
  unfold dGroup at h
  simp only [Option.bind_eq_bind, Option.bind_eq_some_iff, Option.some.injEq] at h
  obtain ⟨e, _, np, _, i, _, rfl⟩ := h
  exact ⟨e, np, i, rfl⟩

theorem dLeaf_path {es : Obj F} {tag : Tag} {t : PathShape F} (h : dLeaf tag es = some (.path t)) :
    dPath es = some t := by
  cases tag <;> simp [dLeaf] at h; exact h

theorem dLeaf_group {es : Obj F} {tag : Tag} {e : GraphicElement F} {np i items}
    (h : dLeaf tag es = some (.group e np items i)) : False := by
  cases tag <;> simp [dLeaf] at h

theorem parsed_shape {t : PathShape F} {s : AnyShape F} (hw : Within (.path t) s) :
    ∀ {n : Bool} {j : Json F}, jShape n j = some s → PathGiven t.shapeProperty := by
  induction hw with
  | self =>
    intro n j h
    obtain ⟨es, rfl, ⟨xs, items, -, h⟩ | ⟨tag, h⟩⟩ := jShape_inv h
    · obtain ⟨_, _, _, h⟩ := dGroup_inv h
      exact nomatch h
    · have h := dLeaf_path h
      unfold dPath at h
      simp only [Option.bind_eq_bind, Option.bind_eq_some_iff, Option.some.injEq] at h
      obtain ⟨_, _, v, hv, rfl⟩ := h
      obtain ⟨_, -, h⟩ := req_some hv
      exact parsed_path h
  | item hs hw ih =>
    intro n j h
    obtain ⟨es, rfl, ⟨xs, items, hm, h⟩ | ⟨tag, h⟩⟩ := jShape_inv h
    · obtain ⟨_, _, _, h⟩ := dGroup_inv h
      cases h
      obtain ⟨x, -, hx⟩ := mapM_some_mem hm hs
      exact ih hx
    · exact (dLeaf_group h).elim

theorem parsed_visual {b : Bool} {es : Obj F} {v : VisualLayer F} (h : dVisualLayer b es = some v)
    {ms m p} (hms : v.masksProperties = some ms) (hm : m ∈ ms) (hp : m.shape = some p) :
    PathGiven p := by
  unfold dVisualLayer at h
  simp only [Option.bind_eq_bind, Option.bind_eq_some_iff, Option.some.injEq] at h
  obtain ⟨_, _, _, _, _, _, v, hv, _, _, _, _, _, _, _, _, _, _, _, _, _, _, _, _, _, _, _, _, _, _,
    rfl⟩ := h
  subst hms
  obtain ⟨_, -, -, h⟩ := opt_some hv
  obtain ⟨_, h⟩ := vec_some h hm
  exact parsed_mask h hp

theorem parsed_layer {j : Json F} {l : AnyLayer F} (h : jLayer j = some l) {p : ShapeProperty F}
    (hp : l.HasPath p) : PathGiven p := by
  have hv : ∃ b es, dVisualLayer b es = some l.visual ∧
      ∀ q, l = .shape q → ∃ j, jVec (jShape false) j = some q.shapes := by
    unfold jLayer at h
    split at h
    · exact nomatch h
    · rename_i es _
      split at h
      · obtain ⟨v, hv, rfl⟩ := Option.map_eq_some_iff.1 h
        unfold dPrecompositionLayer at hv
        simp only [Option.bind_eq_bind, Option.bind_eq_some_iff, Option.some.injEq] at hv
        obtain ⟨v, hv, _, _, _, _, _, _, _, _, _, _, rfl⟩ := hv
        exact ⟨_, es, hv, fun _ h => nomatch h⟩
      · obtain ⟨v, hv, rfl⟩ := Option.map_eq_some_iff.1 h
        unfold dSolidLayer at hv
        simp only [Option.bind_eq_bind, Option.bind_eq_some_iff, Option.some.injEq] at hv
        obtain ⟨v, hv, _, _, _, _, _, _, rfl⟩ := hv
        exact ⟨_, es, hv, fun _ h => nomatch h⟩
      · obtain ⟨v, hv, rfl⟩ := Option.map_eq_some_iff.1 h
        unfold dImageLayer at hv
        simp only [Option.bind_eq_bind, Option.bind_eq_some_iff, Option.some.injEq] at hv
        obtain ⟨v, hv, _, _, rfl⟩ := hv
        exact ⟨_, es, hv, fun _ h => nomatch h⟩
      · obtain ⟨v, hv, rfl⟩ := Option.map_eq_some_iff.1 h
        exact ⟨_, es, hv, fun _ h => nomatch h⟩
      · obtain ⟨v, hv, rfl⟩ := Option.map_eq_some_iff.1 h
        unfold dShapeLayer at hv
        simp only [Option.bind_eq_bind, Option.bind_eq_some_iff, Option.some.injEq] at hv
        obtain ⟨v, hv, ss, hss, rfl⟩ := hv
        obtain ⟨j, -, hj⟩ := req_some hss
        exact ⟨_, es, hv, fun q h => ⟨j, by cases h; exact hj⟩⟩
      · exact nomatch h
  obtain ⟨b, es, hv, hq⟩ := hv
  rcases hp with ⟨ms, m, hms, hm, hp⟩ | ⟨q, rfl, s, hs, t, ht, rfl⟩
  · exact parsed_visual hv hms hm hp
  · obtain ⟨j, hj⟩ := hq q rfl
    obtain ⟨_, hj⟩ := vec_some hj hs
    exact parsed_shape ht hj

theorem parsed_layers {a : Animation F} {j : Json F} (h : jAnimation j = some a) {l : AnyLayer F}
    (hl : l ∈ a.allLayers) : ∃ j, jLayer j = some l := by
  obtain ⟨es, -, h⟩ := Option.bind_eq_some_iff.1 h
  unfold dAnimation at h
  simp only [Option.bind_eq_bind, Option.bind_eq_some_iff, Option.some.injEq] at h
  obtain ⟨_, _, ls, hls, _, _, _, _, _, _, _, _, _, _, _, _, _, _, _, _, as, has, _, _, _, _, _, _,
    rfl⟩ := h
  rcases List.mem_append.1 hl with hl | hl
  · obtain ⟨_, -, h⟩ := req_some hls
    exact vec_some h hl
  · obtain ⟨x, hx, hl⟩ := List.mem_flatMap.1 hl
    cases as with
    | none => cases hx
    | some as =>
      obtain ⟨_, -, -, h⟩ := opt_some has
      obtain ⟨_, h⟩ := vec_some h (show x ∈ as from hx)
      cases x with
      | image i => cases hl
      | precomposition q =>
        unfold jAsset at h
        split at h
        · exact nomatch h
        · split at h
          · obtain ⟨v, hv, he⟩ := Option.map_eq_some_iff.1 h
            cases he
            unfold dPrecompAsset at hv
            simp only [Option.bind_eq_bind, Option.bind_eq_some_iff, Option.some.injEq] at hv
            obtain ⟨_, _, ls, hls, _, _, _, _, rfl⟩ := hv
            obtain ⟨_, -, h⟩ := req_some hls
            exact vec_some h hl
          · split at h
            · exact nomatch h
            · split at h
              · obtain ⟨v, hv, he⟩ := Option.map_eq_some_iff.1 h
                exact nomatch he
              · exact nomatch h

theorem parsed_animation {a : Animation F} {j : Json F} (h : jAnimation j = some a)
    {p : ShapeProperty F} (hp : a.HasPath p) : PathGiven p := by
  obtain ⟨l, hl, hp⟩ := hp
  obtain ⟨_, h⟩ := parsed_layers h hl
  exact parsed_layer h hp

end
end Velato
