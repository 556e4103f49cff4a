import Verif.Spec.Split
import Verif.Proofs.AgreeSymm
import Verif.Props.Keyframes

/-!
# Positions that are split into their coordinates
-/

namespace Velato
open FloatOps (lit)
open Import

section
variable {F : Type}

theorem handle_single {h : Schema.KeyframeBezierHandle F} {e : EasingHandle F} (hc : convKeyframeHandle h = .ok e) :
    collectTangents (some h) = [e] := by
  obtain ⟨x, y⟩ := h
  obtain ⟨a, ha, hc⟩ := bind_ok hc
  obtain ⟨b, hb, hc⟩ := bind_ok hc
  cases hc
  have single : ∀ {c : Schema.KeyframeComponent F} {v : F}, convComponent c = .ok v →
      c = .singleValue v ∨ c = .arrayOfValues [v] := by
    intro c v hc
    match c, hc with
    | .singleValue _, rfl => exact .inl rfl
    | .arrayOfValues [_], rfl => exact .inr rfl
  rcases single ha with h | h <;> rcases single hb with h' | h' <;> dsimp only at h h' <;> subst h h' <;> rfl

theorem keyframeTimes_single {b : Schema.KeyframeBase F} (hb : b.inTangent = none ↔ b.outTangent = none) {t : Time F}
    (ht : convTime b = .ok t) : keyframeTimes b = [t] := by
  obtain ⟨tm, h, i, o⟩ := b
  obtain ⟨i', hi, ht⟩ := bind_ok ht
  obtain ⟨o', ho, ht⟩ := bind_ok ht
  cases ht
  cases i with
  | none =>
    cases hb.mp rfl
    cases hi
    cases ho
    rfl
  | some i =>
    cases o with
    | none => cases hb.mpr rfl
    | some o =>
      have ok : ∀ {x : Schema.KeyframeBezierHandle F} {y}, convHandle? (some x) = .ok y → ∃ e, y = some e ∧ convKeyframeHandle x = .ok e := by
        intro x y hx
        unfold convHandle? at hx
        dsimp only at hx
        cases hc : convKeyframeHandle x with
        | error e => rw [hc] at hx; cases hx
        | ok e => rw [hc] at hx; cases hx; exact ⟨e, rfl, rfl⟩
      obtain ⟨e, rfl, he⟩ := ok hi
      obtain ⟨e', rfl, he'⟩ := ok ho
      unfold keyframeTimes
      dsimp only
      rw [handle_single he, handle_single he']
      rfl

variable [FloatOps F]

omit [FloatOps F] in
theorem scalarKeyframe_ok {k : Schema.Keyframe F} {e : Time F × F} (h : convScalarKeyframe k = .ok e) :
    convTime k.base = .ok e.1 ∧ k.value.head? = some e.2 := by
  unfold convScalarKeyframe at h
  cases hv : k.value with
  | nil => rw [hv] at h; cases h
  | cons x xs =>
    rw [hv] at h
    obtain ⟨t, ht, h⟩ := bind_ok h
    cases h
    exact ⟨ht, rfl⟩

theorem split_entries {ks : List (Schema.PositionKeyframe F)} {kx ky : List (Schema.Keyframe F)}
    (hx : List.Forall₂ (Schema.PositionKeyframe.Gives 0) ks kx) (hy : List.Forall₂ (Schema.PositionKeyframe.Gives 1) ks ky)
    (hh : ∀ k ∈ ks, k.keyframe.base.inTangent = none ↔ k.keyframe.base.outTangent = none) {ex ey : List (Time F × F)}
    (hex : List.Forall₂ (fun k e => convScalarKeyframe k = .ok e) kx ex)
    (hey : List.Forall₂ (fun k e => convScalarKeyframe k = .ok e) ky ey) :
    ∃ ps : List (P2 F), convKeyframes (ks.map (·.keyframe)) toP2 = .animated ⟨ex.map (·.1), ps⟩ ∧ ey.map (·.1) = ex.map (·.1) ∧
      ex.map (·.2) = ps.map P2.x ∧ ey.map (·.2) = ps.map P2.y := by
  induction hx generalizing ky ex ey with
  | nil => cases hy; cases hex; cases hey; exact ⟨[], rfl, rfl, rfl, rfl⟩
  | @cons k k₁ ks kx h₁ _ ih =>
    cases hy with
    | @cons _ k₂ _ ky h₂ hy =>
      cases hex with
      | @cons _ e₁ _ ex he₁ hex =>
        cases hey with
        | @cons _ e₂ _ ey he₂ hey =>
          obtain ⟨ps, h, ht, hpx, hpy⟩ := ih hy (fun k hk => hh k (List.mem_cons_of_mem _ hk)) hex hey
          obtain ⟨t₁, v₁⟩ := scalarKeyframe_ok he₁
          obtain ⟨t₂, v₂⟩ := scalarKeyframe_ok he₂
          rw [h₁.base] at t₁
          rw [h₂.base, t₁] at t₂
          have et : e₁.1 = e₂.1 := Except.ok.inj t₂
          obtain ⟨x, hx, hx'⟩ := h₁.value
          obtain ⟨y, hy, hy'⟩ := h₂.value
          rw [v₁] at hx'
          rw [v₂] at hy'
          cases hx'
          cases hy'
          have hp : toP2 k.keyframe.value = ⟨e₁.2, e₂.2⟩ := by
            generalize k.keyframe.value = l at hx hy
            match l, hx, hy with
            | a :: b :: _, hx, hy => cases hx; cases hy; rfl
          have hk := keyframeTimes_single (hh k (List.mem_cons_self ..)) t₁
          unfold convKeyframes at h ⊢
          injection h with h
          injection h with ha hb
          refine ⟨⟨e₁.2, e₂.2⟩ :: ps, ?_, ?_, ?_, ?_⟩
          · rw [List.map_cons, List.flatMap_cons, List.flatMap_cons, ha, hb, hk, hp]
            rfl
          · rw [List.map_cons, List.map_cons, ht, et]
          · rw [List.map_cons, List.map_cons, hpx]
          · rw [List.map_cons, List.map_cons, hpy]

theorem splits_evaluate [Kurbo F] {p : Schema.Position F} {x y : Schema.FloatValue F}
    (h : Schema.PositionValueK.Splits p.value x.value y.value) {vx vy : Value F F} (hx : convScalar x = .ok vx)
    (hy : convScalar y = .ok vy) (fr : F) : (⟨vx.evaluate fr, vy.evaluate fr⟩ : P2 F) = (convPosPoint p).evaluate fr := by
  obtain ⟨_, _, _, _, p⟩ := p
  obtain ⟨_, _, _, _, x⟩ := x
  obtain ⟨_, _, _, _, y⟩ := y
  dsimp only at h
  cases h with
  | static => cases hx; cases hy; rfl
  | animated h₁ h₂ hh =>
    obtain ⟨ex, hex, hx⟩ := bind_ok hx
    obtain ⟨ey, hey, hy⟩ := bind_ok hy
    cases hx
    cases hy
    obtain ⟨ps, hp, ht, hpx, hpy⟩ := split_entries h₁ h₂ hh (mapM_ok_iff.mp hex) (mapM_ok_iff.mp hey)
    rw [ht, hpx, hpy]
    show _ = (convKeyframes _ toP2).evaluate fr
    rw [hp]
    have := C10_point (⟨ex.map (·.1), ps⟩ : Animated F (P2 F)) fr RDefault.dflt
    exact (congrArg₂ P2.mk this.1 this.2).symm

theorem splitPositions_sound [Kurbo F] [Libm F] (fr : F) : (Schema.splitPositions : Schema.KeyframeRelations F).Sound fr where
  numbers p p' h := by
    obtain ⟨_, _, _, _, v⟩ := p
    obtain ⟨_, _, _, _, v'⟩ := p'
    cases (h : v' = v)
    intro x x' e e'
    cases e.symm.trans e'
    exact .refl _
  vectors p p' h := by
    obtain ⟨_, _, _, _, v⟩ := p
    obtain ⟨_, _, _, _, v'⟩ := p'
    cases (h : v' = v)
    exact .refl _
  colors p p' h := by
    obtain ⟨_, _, _, _, v⟩ := p
    obtain ⟨_, _, _, _, v'⟩ := p'
    cases (h : v' = v)
    exact .refl _
  gradients g g' h := by
    obtain ⟨⟨⟨_, _, _, _, v⟩, _⟩, n⟩ := g
    obtain ⟨⟨⟨_, _, _, _, v'⟩, _⟩, n'⟩ := g'
    cases (h.colors : v' = v)
    cases (h.count : n' = n)
    intro x x' e e'
    cases e.symm.trans e'
    rfl
  positions p p' h := by
    obtain ⟨_, _, _, _, v⟩ := p
    obtain ⟨_, _, _, _, v'⟩ := p'
    cases (h : v' = v)
    exact .refl _
  paths p p' h := by
    obtain ⟨_, _, _, v⟩ := p
    obtain ⟨_, _, _, v'⟩ := p'
    cases (h : v' = v)
    intro x x' e e'
    cases e.symm.trans e'
    cases x with
    | none => exact .none
    | some g => exact .some rfl
  splits p x y h vx vy hx hy := splits_evaluate h hx hy fr

end
end Velato
