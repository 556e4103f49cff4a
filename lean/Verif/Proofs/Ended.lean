import Verif.Proofs.RetimeDoc
import Verif.Proofs.Weight
import Verif.Proofs.Retime
import Verif.Proofs.LumaMatte
import Verif.Proofs.DoublePrecision
import Verif.Proofs.Search

/-!
# Documents moved in time, and documents whose keyframes are over: helper lemmas
-/

set_option exponentiation.threshold 2000

namespace Velato
open FloatOps (lit)

/-! ### Moving nothing -/

namespace Schema
variable {F : Type}

theorem KeyframeBase.retime_id (b : KeyframeBase F) : b.retime id = b := rfl

theorem AnimatedProperty.retime_id {S : Type} (p : AnimatedProperty F S) : p.retime id = p := by
  unfold AnimatedProperty.retime
  cases p with
  | mk a b c d v =>
    cases v with
    | static s => rfl
    | animatedValue ks =>
      show AnimatedProperty.mk _ _ _ _ (.animatedValue (ks.map (Keyframe.retime id))) = _
      rw [show Keyframe.retime (F := F) id = id from rfl, List.map_id]

theorem AnimatedProperty.map_retime_id {S : Type} (o : Option (AnimatedProperty F S)) :
    o.map (AnimatedProperty.retime id) = o := by
  rw [show AnimatedProperty.retime (F := F) (S := S) id = id from funext AnimatedProperty.retime_id, Option.map_id]
  rfl

theorem MultiDimensional.retime_id (p : MultiDimensional F) : p.retime id = p := by
  unfold MultiDimensional.retime
  rw [AnimatedProperty.retime_id]

theorem GradientColors.retime_id (p : GradientColors F) : p.retime id = p := by
  unfold GradientColors.retime
  rw [MultiDimensional.retime_id]

theorem Position.retime_id (p : Position F) : p.retime id = p := by
  unfold Position.retime
  cases p with
  | mk a b c d v =>
    cases v with
    | static s => rfl
    | animated ks =>
      dsimp only
      rw [show PositionKeyframe.retime (F := F) id = id from rfl, List.map_id]

theorem ShapeProperty.retime_id (p : ShapeProperty F) : p.retime id = p := by
  unfold ShapeProperty.retime
  cases p with
  | mk a b c v =>
    cases v with
    | static s => rfl
    | animated ks =>
      dsimp only
      rw [show ShapeKeyframe.retime (F := F) id = id from rfl, List.map_id]

theorem AnyTransformP.retime_id (p : AnyTransformP F) : p.retime id = p := by
  cases p with
  | position p =>
    unfold AnyTransformP.retime
    dsimp only
    rw [Position.retime_id]
  | splitPosition s =>
    unfold AnyTransformP.retime
    dsimp only
    rw [AnimatedProperty.retime_id, AnimatedProperty.retime_id, AnimatedProperty.map_retime_id]

theorem AnyTransformR.retime_id (p : AnyTransformR F) : p.retime id = p := by
  cases p with
  | rotation p =>
    unfold AnyTransformR.retime
    dsimp only
    rw [AnimatedProperty.retime_id]
  | splitRotation x y z o =>
    unfold AnyTransformR.retime
    dsimp only
    rw [AnimatedProperty.retime_id, AnimatedProperty.retime_id, AnimatedProperty.retime_id, MultiDimensional.retime_id]

theorem Transform.retime_id (t : Transform F) : t.retime id = t := by
  unfold Transform.retime
  rw [show Position.retime (F := F) id = id from funext Position.retime_id,
    show MultiDimensional.retime (F := F) id = id from funext MultiDimensional.retime_id,
    show AnyTransformR.retime (F := F) id = id from funext AnyTransformR.retime_id,
    AnyTransformP.retime_id, AnimatedProperty.map_retime_id, AnimatedProperty.map_retime_id,
    AnimatedProperty.map_retime_id, Option.map_id, Option.map_id, Option.map_id]
  rfl

theorem Mask.retime_id (m : Mask F) : m.retime id = m := by
  unfold Mask.retime
  rw [show ShapeProperty.retime (F := F) id = id from funext ShapeProperty.retime_id,
    AnimatedProperty.map_retime_id, AnimatedProperty.map_retime_id, Option.map_id]
  rfl

theorem ShapeStyle.retime_id (s : ShapeStyle F) : s.retime id = s := by
  unfold ShapeStyle.retime
  rw [AnimatedProperty.retime_id]

theorem StrokeDash.retime_id (s : StrokeDash F) : s.retime id = s := by
  unfold StrokeDash.retime
  rw [AnimatedProperty.map_retime_id]

theorem BaseStroke.retime_id (s : BaseStroke F) : s.retime id = s := by
  unfold BaseStroke.retime
  rw [AnimatedProperty.map_retime_id, AnimatedProperty.retime_id,
    show StrokeDash.retime (F := F) id = id from funext StrokeDash.retime_id, List.map_id_fun, Option.map_id]
  rfl

theorem BaseGradient.retime_id (s : BaseGradient F) : s.retime id = s := by
  unfold BaseGradient.retime
  rw [GradientColors.retime_id, MultiDimensional.retime_id, MultiDimensional.retime_id, AnimatedProperty.map_retime_id,
    AnimatedProperty.map_retime_id]

mutual
theorem AnyShape.retime_id : ∀ s : AnyShape F, s.retime id = s
  | .group _ _ ss _ => by rw [AnyShape.retime, AnyShape.retimeAll_id]
  | .rectangle s => by
    rw [AnyShape.retime, Position.retime_id, MultiDimensional.retime_id, AnimatedProperty.retime_id]
  | .ellipse s => by rw [AnyShape.retime, Position.retime_id, MultiDimensional.retime_id]
  | .transform s => by rw [AnyShape.retime, Transform.retime_id]
  | .stroke s => by rw [AnyShape.retime, ShapeStyle.retime_id, BaseStroke.retime_id, AnimatedProperty.retime_id]
  | .puckerBloat s => by rw [AnyShape.retime, AnimatedProperty.map_retime_id]
  | .merge s => by rw [AnyShape.retime]
  | .repeater s => by
    rw [AnyShape.retime, RepeaterShape.retime, AnimatedProperty.retime_id, AnimatedProperty.map_retime_id,
      AnimatedProperty.map_retime_id, AnimatedProperty.map_retime_id, Transform.retime_id]
  | .offsetPath s => by rw [AnyShape.retime, AnimatedProperty.map_retime_id, AnimatedProperty.map_retime_id]
  | .fill s => by rw [AnyShape.retime, ShapeStyle.retime_id, AnimatedProperty.retime_id]
  | .trim s => by
    rw [AnyShape.retime, AnimatedProperty.retime_id, AnimatedProperty.retime_id, AnimatedProperty.retime_id]
  | .path s => by rw [AnyShape.retime, ShapeProperty.retime_id]
  | .gradientFill s => by rw [AnyShape.retime, ShapeStyle.retime_id, BaseGradient.retime_id]
  | .gradientStroke s => by rw [AnyShape.retime, ShapeStyle.retime_id, BaseStroke.retime_id, BaseGradient.retime_id]
  | .twist s => by rw [AnyShape.retime, AnimatedProperty.retime_id, Position.retime_id]
  | .roundedCorners s => by rw [AnyShape.retime, AnimatedProperty.retime_id]
  | .polyStar s => by
    rw [AnyShape.retime, PolyStarShape.retime, Position.retime_id, AnimatedProperty.retime_id, AnimatedProperty.retime_id,
      AnimatedProperty.retime_id, AnimatedProperty.retime_id, AnimatedProperty.map_retime_id,
      AnimatedProperty.map_retime_id]

theorem AnyShape.retimeAll_id : ∀ ss : List (AnyShape F), AnyShape.retimeAll id ss = ss
  | [] => rfl
  | s :: ss => by rw [AnyShape.retimeAll, AnyShape.retime_id s, AnyShape.retimeAll_id ss]
end

end Schema

section
variable {F : Type} [FloatOps F]

omit [FloatOps F] in
theorem sameVisual_id (v : Schema.VisualLayer F) : SameVisual id v v where
  transform := (Schema.Transform.retime_id _).symm
  masks := by rw [show Schema.Mask.retime (F := F) id = id from funext Schema.Mask.retime_id, List.map_id]
  blendMode := rfl
  matteTarget := rfl
  matteMode := rfl
  matteLayerIndex := rfl
  name := rfl
  parent := rfl
  index := rfl

omit [FloatOps F] in
theorem sameLayer_id (s : Schema.AnyLayer F) : SameLayer id s s := by
  cases s with
  | precomposition l =>
    exact .precomposition (sameVisual_id _) rfl rfl rfl rfl (Schema.AnimatedProperty.map_retime_id _).symm
  | solid l => exact .solid (sameVisual_id _) rfl
  | shape l => exact .shape (sameVisual_id _) rfl (Schema.AnyShape.retimeAll_id _).symm
  | null l => exact .null (sameVisual_id _) rfl
  | image l => exact .image (sameVisual_id _) rfl

omit [FloatOps F] in
theorem sameVisual_retime [FloatOps F] (f g : F → F) (v : Schema.VisualLayer F) : SameVisual f v (v.retime f g) where
  transform := rfl
  masks := by
    show (v.masksProperties.map _).getD [] = _
    cases v.masksProperties <;> rfl
  blendMode := rfl
  matteTarget := rfl
  matteMode := rfl
  matteLayerIndex := rfl
  name := rfl
  parent := rfl
  index := rfl

theorem sameLayer_retime (f g : F → F) (s : Schema.AnyLayer F) : SameLayer f s (s.retime f g) := by
  cases s with
  | precomposition l => exact .precomposition (sameVisual_retime f g _) rfl rfl rfl rfl rfl
  | solid l => exact .solid (sameVisual_retime f g _) rfl
  | shape l => exact .shape (sameVisual_retime f g _) rfl rfl
  | null l => exact .null (sameVisual_retime f g _) rfl
  | image l => exact .image (sameVisual_retime f g _) rfl

end

/-! ### After the last keyframe -/

theorem bsearchLoop_all_lt {α : Type} (l : List α) (f : α → Ordering) (h : ∀ x ∈ l, f x = .lt) (base size : Nat)
    (hs : 1 ≤ size) (hb : base + size ≤ l.length) : bsearchLoop l f base size = base + size - 1 := by
  induction size using Nat.strong_induction_on generalizing base with
  | _ size ih =>
    unfold bsearchLoop
    split
    · rename_i h1
      have hm : base + size / 2 < l.length := by omega
      dsimp only
      rw [List.getElem?_eq_getElem hm]
      dsimp only
      rw [h _ (List.getElem_mem hm)]
      show bsearchLoop l f (base + size / 2) (size - size / 2) = _
      rw [ih _ (by omega) _ (by omega) (by omega)]
      omega
    · omega

theorem search_all_lt {ts : List (Time F64)} (hne : ts ≠ []) {fr : F64} (h : ∀ t ∈ ts, (t.frame <. fr) = true) :
    Time.search ts fr = ts.length - 1 := by
  have hl : 1 ≤ ts.length := List.length_pos_iff.mpr hne
  have hc : ∀ t ∈ ts, Time.cmpFrame fr t = .lt := fun t ht => by unfold Time.cmpFrame; rw [h t ht]; rfl
  unfold Time.search binarySearchBy
  rw [if_neg (by omega), bsearchLoop_all_lt ts _ hc 0 ts.length hl (by omega)]
  dsimp only
  have hm : 0 + ts.length - 1 < ts.length := by omega
  rw [List.getElem?_eq_getElem hm]
  dsimp only
  rw [hc _ (List.getElem_mem hm)]
  dsimp only
  omega

/-- After all keyframes the last one is mixed with itself, with weight 1. -/
theorem framesAndWeight_ended {ts : List (Time F64)} {fr : F64}
    (h : ∀ t ∈ ts, t.frame.isFin = true ∧ (t.frame <. fr) = true) :
    Time.framesAndWeight ts fr = ts.getLast?.map fun t => ⟨ts.length - 1, ts.length - 1, lit 1, t.easing, t.hold⟩ := by
  by_cases hne : ts = []
  · subst hne; rfl
  have hl : 1 ≤ ts.length := List.length_pos_iff.mpr hne
  have hm : ts.length - 1 < ts.length := by omega
  have hlast : ts.getLast? = some ts[ts.length - 1] := by
    rw [List.getLast?_eq_getElem?, List.getElem?_eq_getElem hm]
  rw [hlast]
  have e0 : min (Time.search ts fr) (ts.length - 1) = ts.length - 1 := by
    rw [search_all_lt hne fun t ht => (h t ht).2]
    omega
  have e1 : min (min (Time.search ts fr) (ts.length - 1) + 1) (ts.length - 1) = ts.length - 1 := by omega
  rw [framesAndWeight_eq ts fr ts[ts.length - 1] ts[ts.length - 1] (by rw [e0, List.getElem?_eq_getElem hm])
    (by rw [e1, List.getElem?_eq_getElem hm]), e1, e0]
  obtain ⟨hf, hlt⟩ := h _ (List.getElem_mem hm)
  rw [F64.weight_after_self hf hlt]
  rfl

theorem entriesFor_mem {F : Type} {ks : List (Schema.KeyframeBase F)} {ts : List (Time F)} (h : EntriesFor ks ts) {t : Time F}
    (ht : t ∈ ts) : ∃ k ∈ ks, t.frame = k.time ∧ t.hold = Import.isHold k := by
  obtain ⟨tss, h, rfl⟩ := h
  induction h with
  | nil => cases ht
  | cons h _ ih =>
    rw [List.flatten_cons] at ht
    rcases List.mem_append.mp ht with ht | ht
    · exact ⟨_, List.mem_cons_self .., h.2 t ht⟩
    · obtain ⟨k, hk, e⟩ := ih ht
      exact ⟨k, List.mem_cons_of_mem _ hk, e⟩

theorem entriesFor_split {F : Type} {pre post : List (Schema.KeyframeBase F)} {k : Schema.KeyframeBase F} {ts : List (Time F)}
    (h : EntriesFor (pre ++ k :: post) ts) : ∃ xs ys zs, ts = xs ++ ys ++ zs ∧ ys ≠ [] ∧
      (pre = [] → xs = []) ∧ (∀ t ∈ xs, ∃ j ∈ pre, t.frame = j.time) ∧
      (∀ t ∈ ys, t.frame = k.time ∧ t.hold = Import.isHold k) ∧ ∀ t ∈ zs, ∃ j ∈ post, t.frame = j.time := by
  obtain ⟨tss, h, rfl⟩ := h
  obtain ⟨t1, t2, h1, h2, rfl⟩ := forall₂_append_left h
  cases h2 with
  | @cons _ l _ t3 hk hp =>
    refine ⟨t1.flatten, l, t3.flatten, by simp, hk.1, ?_, ?_, hk.2, ?_⟩
    · rintro rfl
      cases h1
      rfl
    · intro t ht
      obtain ⟨j, hj, e, -⟩ := entriesFor_mem ⟨t1, h1, rfl⟩ ht
      exact ⟨j, hj, e⟩
    · intro t ht
      obtain ⟨j, hj, e, -⟩ := entriesFor_mem ⟨t3, hp, rfl⟩ ht
      exact ⟨j, hj, e⟩

section
variable {F : Type} [FloatOps F] [LawfulCmp F]

/-- The search when the frame separates the keyframes. -/
theorem search_split {xs zs : List (Time F)} (hx : xs ≠ []) {fr : F} (h1 : ∀ t ∈ xs, (fr <. t.frame) = false)
    (h2 : ∀ t ∈ zs, (fr <. t.frame) = true) : Time.search (xs ++ zs) fr = xs.length - 1 := by
  have hl : 0 < xs.length := List.length_pos_iff.mpr hx
  have hlen : 0 < (xs ++ zs).length := by rw [List.length_append]; omega
  have hn : ∀ i, NotGt (xs ++ zs) (Time.cmpFrame fr) i ↔ i < xs.length := by
    intro i
    constructor
    · rintro ⟨hi, h⟩
      by_contra hc
      rw [List.getElem_append_right (by omega)] at h
      exact h ((cmpFrame_gt_iff _ _).mpr (h2 _ (List.getElem_mem _)))
    · intro hi
      refine ⟨by rw [List.length_append]; omega, ?_⟩
      rw [List.getElem_append_left hi, ne_eq, cmpFrame_gt_iff, h1 _ (List.getElem_mem _)]
      simp
  have hsp := bsearchLoop_spec (xs ++ zs) (Time.cmpFrame fr) (fun i j hij h => (hn i).mpr (by have := (hn j).mp h; omega)) 0
    (xs ++ zs).length hlen (by omega) (Or.inl rfl) (by rintro j hj ⟨h, _⟩; omega)
  have hb := bsearchLoop_bounds (xs ++ zs) (Time.cmpFrame fr) 0 (xs ++ zs).length hlen
  generalize hr : bsearchLoop (xs ++ zs) (Time.cmpFrame fr) 0 (xs ++ zs).length = r at hb hsp
  have hr1 : r = xs.length - 1 := by
    have h3 : r < xs.length := by
      rcases hsp.1 with h | h
      · omega
      · exact (hn r).mp h
    by_contra hc
    exact hsp.2 (xs.length - 1) (by omega) ((hn _).mpr (by omega))
  have hrl : r < (xs ++ zs).length := by omega
  obtain ⟨_, hng⟩ := (hn r).mpr (by omega)
  unfold Time.search binarySearchBy
  rw [if_neg (by omega)]
  simp only [hr, List.getElem?_eq_getElem hrl]
  cases hc : Time.cmpFrame fr (xs ++ zs)[r] with
  | lt => simp [hr1]
  | eq => exact hr1
  | gt => exact absurd hc hng

/-- The search before the first keyframe. -/
theorem search_all_gt {ts : List (Time F)} {fr : F} (h : ∀ t ∈ ts, (fr <. t.frame) = true) : Time.search ts fr = 0 := by
  by_cases hne : ts = []
  · subst hne; rfl
  have hlen : 0 < ts.length := List.length_pos_iff.mpr hne
  have hn : ∀ i, ¬ NotGt ts (Time.cmpFrame fr) i := by
    rintro i ⟨hi, hg⟩
    exact hg ((cmpFrame_gt_iff _ _).mpr (h _ (List.getElem_mem _)))
  have hsp := bsearchLoop_spec ts (Time.cmpFrame fr) (fun i j hij h => absurd h (hn j)) 0
    ts.length hlen (by omega) (Or.inl rfl) (by rintro j hj ⟨h, _⟩; omega)
  have hr : bsearchLoop ts (Time.cmpFrame fr) 0 ts.length = 0 := hsp.1.resolve_right (hn _)
  unfold Time.search binarySearchBy
  rw [if_neg (by omega)]
  simp only [hr, List.getElem?_eq_getElem hlen]
  rw [(cmpFrame_gt_iff _ _).mpr (h _ (List.getElem_mem _))]

omit [LawfulCmp F] in
/-- During a hold only the keyframe found matters. -/
theorem sameWeight_of_search {ts : List (Time F)} {fr fr' : F} {i : Nat} (hi : i < ts.length) (e : Time.search ts fr = i)
    (e' : Time.search ts fr' = i) (hh : ts[i].hold = true) :
    Option.Rel SameWeight (Time.framesAndWeight ts fr) (Time.framesAndWeight ts fr') := by
  have hm : min i (ts.length - 1) = i := by omega
  have h1 : min (i + 1) (ts.length - 1) < ts.length := by omega
  rw [framesAndWeight_eq ts fr ts[i] ts[min (i + 1) (ts.length - 1)] (by rw [e, hm, List.getElem?_eq_getElem hi])
      (by rw [e, hm, List.getElem?_eq_getElem h1]),
    framesAndWeight_eq ts fr' ts[i] ts[min (i + 1) (ts.length - 1)] (by rw [e', hm, List.getElem?_eq_getElem hi])
      (by rw [e', hm, List.getElem?_eq_getElem h1])]
  refine .some ⟨by dsimp only; rw [e, e'], by dsimp only; rw [e, e'], rfl, rfl, fun h => ?_⟩
  dsimp only at h
  rw [hh] at h
  cases h

end

theorem trackAlike_retime {α β : ℝ} (hα : 0 < α) (tr : Schema.Track ℝ) (fr : ℝ) :
    TrackAlike (fun t => α * t + β) fr (α * fr + β) tr := by
  intro ts _
  have e := framesAndWeight_retime (β := β) hα ts fr
  split
  · exact e
  · rw [e]
    cases Time.framesAndWeight ts fr with
    | none => exact .none
    | some w => exact .some (.refl w)

section
open F64

/-- Well before the first keyframe the weight is zero. -/
theorem weight_early {x t0 t1 : F64} (h0 : t0.isFin = true) (h1 : t1.isFin = true)
    (h : ((x -. t0) <=. lit (-(1 / 2 ^ 500))) = true)
    (h01 : t1 = t0 ∨ (t0 <. t1) = true ∧ ((t1 -. t0) <=. lit (2 ^ 500)) = true) :
    clamp ((x -. t0) /. (t1 -. t0)) (lit 0) (lit 1) = (lit 0 : F64) := by
  refine clamp_lo ?_ one_not_lt_zero
  have hc : (lit (-(1 / 2 ^ 500)) : F64).isFin = true ∧ (lit (-(1 / 2 ^ 500)) : F64).toQ = -(1 / 2 ^ 500) := by
    constructor <;> decide +kernel
  have hC : (lit (2 ^ 500) : F64).isFin = true ∧ (lit (2 ^ 500) : F64).toQ = 2 ^ 500 := by
    constructor <;> decide +kernel
  generalize x -. t0 = d at h
  rcases h01 with rfl | ⟨hlt, hle⟩
  · obtain ⟨hz, e⟩ := sub_same h0
    rw [e]
    cases d with
    | nan => exact absurd rfl (ne_nan_of_le_left h)
    | inf s =>
      cases s with
      | true => rfl
      | false => exact absurd h (by decide +kernel)
    | fin s a ha =>
      rw [le_fin rfl hc.1, hc.2] at h
      have hn := isRepr_nonneg ha.1
      have p : (0 : ℚ) < 1 / 2 ^ 500 := by positivity
      cases s with
      | false => simp only [toQ] at h; simp at h; linarith
      | true =>
        have hb0 : a ≠ 0 := by rintro rfl; simp [toQ] at h; linarith
        show (div _ _ <. _) = true
        rw [div_by_zero hb0]
        decide +kernel
  · have hf : (t1 -. t0).isFin = true := by
      have hnn := sub_nonneg' h0 (le_of_lt' hlt)
      revert hle hnn
      generalize t1 -. t0 = g
      intro hle hnn
      cases g with
      | nan => exact absurd rfl (ne_nan_of_le_left hle)
      | inf s =>
        cases s with
        | true => exact absurd hnn (by decide +kernel)
        | false => exact absurd hle (by decide +kernel)
      | fin s a ha => rfl
    have hp := sub_pos' h1 h0 hlt hf
    rw [le_fin hf hC.1, hC.2] at hle
    revert hf hp hle
    generalize t1 -. t0 = g
    intro hle hf hp
    cases d with
    | nan => exact absurd rfl (ne_nan_of_le_left h)
    | inf s =>
      cases s with
      | true =>
        obtain ⟨b, hb, rfl, hb0⟩ := sign_of_pos hf hp
        rfl
      | false => exact absurd h (by decide +kernel)
    | fin s a ha =>
      rw [le_fin rfl hc.1, hc.2] at h
      obtain ⟨s', e⟩ := div_eq (x := fin s a ha) rfl hf hp.ne'
      show (div _ _ <. _) = true
      rw [e]
      have hq : (fin s a ha).toQ / g.toQ ≤ -(2 ^ (-1000 : ℤ)) := by
        rw [div_le_iff₀ hp]
        have : (2 : ℚ) ^ (-1000 : ℤ) * g.toQ ≤ 1 / 2 ^ 500 := by
          calc (2 : ℚ) ^ (-1000 : ℤ) * g.toQ ≤ 2 ^ (-1000 : ℤ) * 2 ^ 500 := by
                exact mul_le_mul_of_nonneg_left hle (by positivity)
            _ = 1 / 2 ^ 500 := by norm_num
        rw [neg_mul]
        exact h.trans (neg_le_neg this)
      have hr : rnd ((fin s a ha).toQ / g.toQ) < 0 := by
        refine (rnd_mono hq).trans_lt ?_
        rw [rnd_neg, rnd_of_exact (exact_zpow (by norm_num))]
        exact neg_lt_zero.mpr (by positivity)
      have hq0 : (fin s a ha).toQ / g.toQ < 0 := hq.trans_lt (neg_lt_zero.mpr (by positivity))
      by_cases hm : |rnd ((fin s a ha).toQ / g.toQ)| < maxMag
      · obtain ⟨f1, f2⟩ := ofRat_fin (s := s') hm
        rw [lt_fin f1 (by decide +kernel), f2]
        have : (lit 0 : F64).toQ = 0 := by decide +kernel
        rw [this]
        exact hr
      · rw [ofRat_inf hm, decide_eq_true hq0]
        decide +kernel

end

theorem framesAndWeight_early {tr : Schema.Track F64} {fr : F64} (h : tr.Early F64.isFin fr) {ts : List (Time F64)}
    (ht : EntriesFor tr.keyframes ts) :
    Time.framesAndWeight ts fr = ts.head?.map fun t => ⟨0, min 1 (ts.length - 1), lit 0, t.easing, t.hold⟩ := by
  obtain @⟨k, post, hk, hf, hb, ha⟩ := h
  rw [hk] at ht
  obtain ⟨xs, ys, zs, rfl, hys, hx0, -, hy, hz⟩ := entriesFor_split (pre := []) ht
  cases hx0 rfl
  rw [List.nil_append]
  have hfr : (fr <. k.time) = true := by
    by_contra hc
    have hx : isNaN fr = false := by
      rw [Bool.eq_false_iff, ne_eq, F64.isNaN_iff']
      rintro rfl
      exact absurd rfl (F64.ne_nan_of_le_left hb)
    have hn : isNaN k.time = false := by
      rw [Bool.eq_false_iff, ne_eq, F64.isNaN_iff']
      exact F64.not_nan_of_fin hf
    have h1 := F64.sub_nonneg' hf (le_of_not_lt' hx hn (by simpa using hc))
    exact absurd (le_trans' h1 hb) (by decide +kernel)
  have hall : ∀ t ∈ ys ++ zs, (fr <. t.frame) = true ∧ t.frame.isFin = true ∧ (t.frame = k.time ∨
      (k.time <. t.frame) = true ∧ ((t.frame -. k.time) <=. lit (2 ^ 500)) = true) := by
    intro t ht
    rcases List.mem_append.mp ht with ht | ht
    · rw [(hy t ht).1]
      exact ⟨hfr, hf, .inl rfl⟩
    · obtain ⟨j, hj, e⟩ := hz t ht
      rw [e]
      obtain ⟨a1, a2, a3⟩ := ha j hj
      exact ⟨lt_trans' hfr a2, a1, .inr ⟨a2, a3⟩⟩
  have hyl : 0 < ys.length := List.length_pos_iff.mpr hys
  have hl : 0 < (ys ++ zs).length := by rw [List.length_append]; omega
  have hs := search_all_gt fun t ht => (hall t ht).1
  have h0 : (ys ++ zs)[0].frame = k.time := by
    rw [List.getElem_append_left hyl]
    exact (hy _ (List.getElem_mem _)).1
  have h1 : min 1 ((ys ++ zs).length - 1) < (ys ++ zs).length := by omega
  rw [framesAndWeight_eq (ys ++ zs) fr (ys ++ zs)[0] (ys ++ zs)[min 1 ((ys ++ zs).length - 1)]
    (by rw [hs, Nat.zero_min, List.getElem?_eq_getElem hl])
    (by rw [hs, Nat.zero_min, Nat.zero_add, List.getElem?_eq_getElem h1]),
    List.head?_eq_getElem?, List.getElem?_eq_getElem hl, h0]
  obtain ⟨-, b1, b2⟩ := hall _ (List.getElem_mem h1)
  rw [weight_early hf b1 hb b2, hs, Nat.zero_min, Nat.zero_add]
  rfl

theorem trackAlike_of_eq {tr : Schema.Track F64} {fr fr' : F64}
    (h : ∀ ts, EntriesFor tr.keyframes ts → Time.framesAndWeight ts fr' = Time.framesAndWeight ts fr) :
    TrackAlike id fr fr' tr := by
  intro ts ht
  rw [show Time.retime (F := F64) id = id from rfl, List.map_id, h ts ht]
  split
  · rfl
  · cases Time.framesAndWeight ts fr with
    | none => exact .none
    | some w => exact .some (.refl w)

theorem trackAlike_rests {tr : Schema.Track F64} {fr fr' : F64} (h : tr.Rests F64.isFin fr fr') :
    TrackAlike id fr fr' tr := by
  obtain ⟨h, h'⟩ | ⟨h, h'⟩ | ⟨hg, @⟨pre, post, k, hk, hold, hb, hn, ha⟩⟩ := h
  · exact trackAlike_of_eq fun ts ht => by rw [framesAndWeight_early h ht, framesAndWeight_early h' ht]
  · refine trackAlike_of_eq fun ts ht => ?_
    rw [framesAndWeight_ended, framesAndWeight_ended]
    · intro t hm
      obtain ⟨k, hk, e, -⟩ := entriesFor_mem ht hm
      rw [e]
      exact h k hk
    · intro t hm
      obtain ⟨k, hk, e, -⟩ := entriesFor_mem ht hm
      rw [e]
      exact h' k hk
  have hgr : ¬ tr.gradient = true := by rw [hg]; simp
  intro ts ht
  rw [if_neg hgr, show Time.retime (F := F64) id = id from rfl, List.map_id]
  rw [hk] at ht
  obtain ⟨xs, ys, zs, rfl, hys, hx0, hx, hy, hz⟩ := entriesFor_split ht
  have hh : ∀ t ∈ ys, t.hold = true := fun t ht => by
    rw [(hy t ht).2]
    unfold Import.isHold
    rw [hold]
  have hzs : ∀ t ∈ zs, (fr <. t.frame) = true ∧ (fr' <. t.frame) = true := fun t ht => by
    obtain ⟨j, hj, e⟩ := hz t ht
    rw [e]
    exact ha j hj
  have hyl : 0 < ys.length := List.length_pos_iff.mpr hys
  rcases hn with ⟨n1, n2⟩ | ⟨rfl, n1, n2⟩
  · have s1 : ∀ t ∈ xs ++ ys, (fr <. t.frame) = false ∧ (fr' <. t.frame) = false := by
      intro t ht
      rcases List.mem_append.mp ht with ht | ht
      · obtain ⟨j, hj, e⟩ := hx t ht
        rw [e]
        exact ⟨not_lt_of_le' (hb j hj).1, not_lt_of_le' (hb j hj).2⟩
      · rw [(hy t ht).1]
        exact ⟨not_lt_of_le' n1, not_lt_of_le' n2⟩
    have hxy : xs ++ ys ≠ [] := by simp [hys]
    have e1 := search_split hxy (fun t ht => (s1 t ht).1) fun t ht => (hzs t ht).1
    have e2 := search_split hxy (fun t ht => (s1 t ht).2) fun t ht => (hzs t ht).2
    refine sameWeight_of_search (by simp only [List.length_append]; omega) e1 e2 ?_
    rw [List.getElem_append_left (by simp only [List.length_append]; omega),
      List.getElem_append_right (by simp only [List.length_append]; omega)]
    exact hh _ (List.getElem_mem _)
  · cases hx0 rfl
    have s1 : ∀ t ∈ [] ++ ys ++ zs, (fr <. t.frame) = true ∧ (fr' <. t.frame) = true := by
      intro t ht
      rw [List.nil_append] at ht
      rcases List.mem_append.mp ht with ht | ht
      · rw [(hy t ht).1]
        exact ⟨n1, n2⟩
      · exact hzs t ht
    have e1 := search_all_gt fun t ht => (s1 t ht).1
    have e2 := search_all_gt fun t ht => (s1 t ht).2
    refine sameWeight_of_search (by simp only [List.length_append]; omega) e1 e2 ?_
    have : ([] ++ ys ++ zs)[0]'(by simp only [List.length_append]; omega) = ys[0] := by
      simp only [List.nil_append]
      exact List.getElem_append_left hyl
    rw [this]
    exact hh _ (List.getElem_mem _)

theorem Ended.atRest {a : Schema.Animation F64} {ls : List (Schema.AnyLayer F64)} {fr fr' : F64}
    (h : Ended F64.isFin a ls fr fr') : AtRest F64.isFin a ls fr fr' := by
  induction h with
  | mk hk hs _ ih => exact .mk (fun l hl t ht => .inr (.inl ⟨(hk l hl).1 t ht, (hk l hl).2 t ht⟩)) hs ih

/-- The relation between the frames at which an asset is shown. -/
def RestingAsset (a : Schema.Animation F64) (name : String) (fr fr' : F64) : Prop :=
  ∀ p, Schema.AnyAsset.precomposition p ∈ a.assets.getD [] → p.asset.id = name → AtRest F64.isFin a p.layers fr fr'

variable [Kurbo F64] [Libm F64]

theorem processLayers_atRest {a : Schema.Animation F64} {ss : List (Schema.AnyLayer F64)} {fr fr' : F64}
    (h : AtRest F64.isFin a ss fr fr') :
    Imports (List.Forall₂ (Layer.SameAt (RestingAsset a) fr fr')) (Import.processLayers ss) (Import.processLayers ss) := by
  obtain ⟨hk, hs, ha⟩ := h
  refine processLayers_retimed (List.forall₂_same.mpr fun s hm => ?_)
  refine layer_retimed (sameLayer_id s) (fun t ht => trackAlike_rests (hk s hm t ht)) ?_ ?_
  · have := hs s hm
    unfold Schema.AnyLayer.ShownAt at this
    have e : s.base = (Import.visualLayer s).layer := by cases s <;> rfl
    rw [e] at this
    unfold shownAt FRange.contains
    dsimp only
    rw [Bool.eq_iff_iff, Bool.and_eq_true, Bool.and_eq_true]
    exact this
  · rintro l l' rfl e p hp hid
    cases e
    exact ha l hm p hp hid

theorem append_atRest {a : Schema.Animation F64} {c : Composition F64} (hc : Import.convAnimation a = .ok c) {fr fr' : F64}
    (h : AtRest F64.isFin a a.layers fr fr') {r : Renderer F64} (hr : Reachable r) (n : Nat) (T : Affine F64) (al : F64) :
    Renderer.append n r c fr T al = Renderer.append n r c fr' T al := by
  obtain ⟨hca, hp, -⟩ := Import.convAnimation_ok hc
  obtain ⟨ls', hp', hls⟩ := processLayers_atRest h _ hp
  obtain rfl := Except.ok.inj (hp.symm.trans hp')
  refine appendCalls_sameAt (R := RestingAsset a) ⟨rfl, rfl, fun name f f' hR => ?_⟩ hls hr.idle n T al
  unfold Composition.asset
  have hx : ∀ e ∈ c.assets.reverse, e.1 = name → List.Forall₂ (Layer.SameAt (RestingAsset a) f f') e.2 e.2 := by
    intro e he hn
    obtain ⟨s, hs, hse⟩ := forall₂_mem_right hca (List.mem_reverse.mp he)
    cases s with
    | image i => cases hse
    | precomposition p =>
      obtain ⟨als, h1, h2⟩ := bind_ok (show (Import.processLayers p.layers >>= _) = _ from hse)
      cases h2
      obtain ⟨als', h3, h4⟩ := processLayers_atRest (hR p hs hn) _ h1
      obtain rfl := Except.ok.inj (h1.symm.trans h3)
      exact h4
  cases hf : c.assets.reverse.find? (fun e => e.1 == name) with
  | none => exact .none
  | some e =>
    refine .some (hx e (List.mem_of_find?_eq_some hf) ?_)
    have := List.find?_some hf
    exact beq_iff_eq.mp this

end Velato
