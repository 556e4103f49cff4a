import Verif.Proofs.Sources
import Verif.Proofs.Dimming
import Verif.Proofs.ChainCalls

/-!
# The places and opacities that are meant, for the fill or stroke and the geometry of a call: helper lemmas
-/

namespace Velato
open FloatOps (lit)
open F64
open Import

section
variable [Libm F64] [Kurbo F64]

/-- As `GroupsTo` and `MeantGroups` together. -/
inductive GroupsBoth (frame : F64) : List (Schema.AnyShape F64) → Affine F64 → F64 → List (Schema.AnyShape F64) →
    Affine F64 → F64 → (P2 ℝ → P2 ℝ) → ℝ → Nat → Prop where
  | here {ss T al} : GroupsBoth frame ss T al ss T al id 1 0
  | group {ss T al e nm items i M o r k xs T' al' Q f n} (h : .group e nm items i ∈ ss)
      (hM : GroupAt frame (groupTransform items) M o) (hr : GroupMeans frame (groupTransform items) r)
      (hk : GroupFades frame (groupTransform items) k)
      (hx : GroupsBoth frame items (T.mul M) (al *. o) xs T' al' Q f n) :
      GroupsBoth frame ss T al xs T' al' (r ∘ Q) (k * f) (n + 1)

/-- As `Reaches` and `MeantLayer` together; `m` counts the layers without their parents. -/
inductive LayerBoth (a : Schema.Animation F64) : List (Schema.AnyLayer F64) → F64 → Affine F64 → F64 →
    Schema.ShapeLayer F64 → F64 → Affine F64 → F64 → (P2 ℝ → P2 ℝ) → ℝ → Nat → Nat → Prop where
  | here {ls frame T al q P M o Q k n} (h : .shape q ∈ ls) (hd : (Schema.AnyLayer.shape q).During frame)
      (hv : ¬ (Schema.AnyLayer.shape q).Hidden) (hP : PlacedAt ls frame (.shape q) P)
      (hM : LayerAt frame (.shape q) M o) (hQ : MeantAt ls frame (.shape q) Q n)
      (hk : (Schema.AnyLayer.shape q).visual.transform.Fades frame k) :
      LayerBoth a ls frame T al q frame (T.mul P) (al *. o /. lit 100) Q k (n + 1) 1
  | instance {ls frame T al x p q frame' T' al' P M o Q k n R f n' m} (h : .precomposition x ∈ ls)
      (hd : (Schema.AnyLayer.precomposition x).During frame) (hv : ¬ (Schema.AnyLayer.precomposition x).Hidden)
      (hP : PlacedAt ls frame (.precomposition x) P) (hM : LayerAt frame (.precomposition x) M o)
      (hQ : MeantAt ls frame (.precomposition x) Q n)
      (hk : (Schema.AnyLayer.precomposition x).visual.transform.Fades frame k)
      (hp : .precomposition p ∈ a.assetList) (hid : p.asset.id = x.refId)
      (hq : LayerBoth a p.layers (x.time frame) (T.mul P) (al *. o /. lit 100) q frame' T' al' R f n' m) :
      LayerBoth a ls frame T al q frame' T' al' (Q ∘ R) (k * f) (n + 1 + n') (m + 1)

theorem GroupsTo.both {frame : F64} {ss xs : List (Schema.AnyShape F64)} {T T' : Affine F64} {al al' : F64}
    (h : GroupsTo frame ss T al xs T' al') : ∃ Q f n, GroupsBoth frame ss T al xs T' al' Q f n := by
  induction h with
  | here => exact ⟨_, _, _, .here⟩
  | group h hM _ ih =>
    obtain ⟨Q, f, n, hx⟩ := ih
    obtain ⟨r, hr⟩ := groupAt_means hM
    obtain ⟨k, hk⟩ := group_fades hM
    exact ⟨_, _, _, .group h hM hr hk hx⟩

theorem Reaches.both {a : Schema.Animation F64} {ls : List (Schema.AnyLayer F64)} {frame al frame' al' : F64}
    {T T' : Affine F64} {q : Schema.ShapeLayer F64} (h : Reaches a ls frame T al q frame' T' al') :
    ∃ Q f n m, LayerBoth a ls frame T al q frame' T' al' Q f n m := by
  induction h with
  | here h hd hv hP hM =>
    obtain ⟨Q, n, hQ⟩ := placedAt_meant hP
    exact ⟨_, _, _, _, .here h hd hv hP hM hQ (layer_fades hM)⟩
  | «instance» h hd hv hP hM hp hid _ ih =>
    obtain ⟨R, f, n', m, hq⟩ := ih
    obtain ⟨Q, n, hQ⟩ := placedAt_meant hP
    exact ⟨_, _, _, _, .instance h hd hv hP hM hQ (layer_fades hM) hp hid hq⟩

theorem GroupsBoth.meant {frame : F64} {ss xs : List (Schema.AnyShape F64)} {T T' : Affine F64} {al al' : F64}
    {Q : P2 ℝ → P2 ℝ} {f : ℝ} {n : Nat} (h : GroupsBoth frame ss T al xs T' al' Q f n) :
    MeantGroups frame ss xs Q f n := by
  induction h with
  | here => exact .here
  | group h _ hr hk _ ih => exact .group h hr hk ih

theorem LayerBoth.meant {a : Schema.Animation F64} {ls : List (Schema.AnyLayer F64)} {frame al frame' al' : F64}
    {T T' : Affine F64} {q : Schema.ShapeLayer F64} {Q : P2 ℝ → P2 ℝ} {f : ℝ} {n m : Nat}
    (h : LayerBoth a ls frame T al q frame' T' al' Q f n m) : MeantLayer a ls frame q frame' Q f n := by
  induction h with
  | here h hd hv _ _ hQ hk => exact .here h hd hv hQ hk
  | «instance» h hd hv _ _ hQ hk hp hid _ ih => exact .instance h hd hv hQ hk hp hid ih

theorem GroupsBoth.into {frame : F64} {ss xs : List (Schema.AnyShape F64)} {T T' T'' : Affine F64} {al al' : F64}
    {Q Q' : P2 ℝ → P2 ℝ} {f : ℝ} {n n' : Nat} (h : GroupsBoth frame ss T al xs T' al' Q f n)
    (h' : IntoGroups frame xs T' T'' Q' n') : IntoGroups frame ss T T'' (Q ∘ Q') (n + n') := by
  induction h with
  | here => simpa using h'
  | @group ss T al e nm items i M o r k xs T' al' Q f n h hM hr hk hx ih =>
    rw [show n + 1 + n' = n + n' + 1 by omega, Function.comp_assoc]
    exact .group h hM hr (ih h')

theorem GroupsBoth.fade {frame : F64} {ss xs : List (Schema.AnyShape F64)} {T T' : Affine F64} {al al' : F64}
    {Q : P2 ℝ → P2 ℝ} {f : ℝ} {n : Nat} (h : GroupsBoth frame ss T al xs T' al' Q f n) {s : Schema.AnyShape F64}
    (hs : s ∈ xs) : GroupsFade frame ss al s al' f n := by
  induction h with
  | here => exact .here hs
  | group h hM _ hk _ ih => exact .group h hM hk (ih hs)

theorem LayerBoth.into {a : Schema.Animation F64} {ls : List (Schema.AnyLayer F64)} {frame al frame' al' : F64}
    {T T' T'' : Affine F64} {q : Schema.ShapeLayer F64} {Q R : P2 ℝ → P2 ℝ} {f : ℝ} {n m k : Nat}
    (h : LayerBoth a ls frame T al q frame' T' al' Q f n m) (h' : IntoGroups frame' q.shapes T' T'' R k) :
    Into a ls frame T T'' (Q ∘ R) (n + k) := by
  induction h with
  | here h hd hv hP _ hQ hk => exact .shapes h hP hQ h'
  | @«instance» ls frame T al x p q frame' T' al' P M o Q k' n R' f n' m h hd hv hP hM hQ hk hp hid hq ih =>
    rw [show n + 1 + n' + k = n + 1 + (n' + k) by omega, Function.comp_assoc]
    exact .instance h hP hQ hp hid (ih h')

theorem LayerBoth.fade {a : Schema.Animation F64} {ls : List (Schema.AnyLayer F64)} {frame al frame' al' al'' : F64}
    {T T' : Affine F64} {q : Schema.ShapeLayer F64} {Q : P2 ℝ → P2 ℝ} {f g : ℝ} {n m k : Nat}
    (h : LayerBoth a ls frame T al q frame' T' al' Q f n m) {s : Schema.AnyShape F64}
    (h' : GroupsFade frame' q.shapes al' s al'' g k) : LayersFade a ls frame al frame' s al'' (f * g) (m + k) := by
  induction h with
  | here h hd hv hP hM hQ hk =>
    rw [Nat.add_comm 1 k]
    exact .shape h hM hk h'
  | @«instance» ls frame T al x p q frame' T' al' P M o Q k' n R' f n' m h hd hv hP hM hQ hk hp hid hq ih =>
    rw [show m + 1 + k = m + k + 1 by omega, mul_assoc]
    exact .instance h hM hk hp hid (ih h')

omit [Libm F64] [Kurbo F64] in
theorem eq_of_beq_fin {x y : F64} (hy : y.isFin = true) (h : (x ==. y) = true) : x.isFin = true ∧ x.toR = y.toR := by
  have hx : x.isFin = true := by
    obtain ⟨t, b, hb, rfl⟩ := isFin_iff.mp hy
    cases x with
    | fin => rfl
    | _ => cases h
  refine ⟨hx, ?_⟩
  unfold F64.toR
  rw [(beq_fin hx hy).mp h]

omit [Libm F64] [Kurbo F64] in
theorem Affine.Finite.of_beq {T T' : Affine F64} (h : T'.Finite) (he : T = T' ∨ T.beq T' = true) :
    T.Finite ∧ T.toR = T'.toR := by
  rcases he with rfl | he
  · exact ⟨h, rfl⟩
  unfold Affine.beq at he
  simp only [Bool.and_eq_true] at he
  obtain ⟨⟨⟨⟨⟨h1, h2⟩, h3⟩, h4⟩, h5⟩, h6⟩ := he
  obtain ⟨f1, f2, f3, f4, f5, f6⟩ := h
  obtain ⟨a1, e1⟩ := eq_of_beq_fin f1 h1
  obtain ⟨a2, e2⟩ := eq_of_beq_fin f2 h2
  obtain ⟨a3, e3⟩ := eq_of_beq_fin f3 h3
  obtain ⟨a4, e4⟩ := eq_of_beq_fin f4 h4
  obtain ⟨a5, e5⟩ := eq_of_beq_fin f5 h5
  obtain ⟨a6, e6⟩ := eq_of_beq_fin f6 h6
  refine ⟨⟨a1, a2, a3, a4, a5, a6⟩, ?_⟩
  unfold Affine.toR
  rw [e1, e2, e3, e4, e5, e6]

end
end Velato
