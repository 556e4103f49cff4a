import Mathlib.Data.List.Perm.Subperm
import Verif.Proofs.LayerSets

/-!
# Chains of parents
-/

namespace Velato
open FloatOps (lit)

section
variable {F : Type} [FloatOps F] [Libm F] [Kurbo F]

omit [FloatOps F] [Libm F] [Kurbo F] in
theorem Ancestors.unique {ls : List (Layer F)} {p ps qs} (h : Ancestors ls p ps)
    (h' : Ancestors ls p qs) : ps = qs := by
  induction h generalizing qs with
  | root => cases h'; rfl
  | dangling hi =>
    cases h' with
    | dangling _ => rfl
    | parent hp _ => rw [hi] at hp; cases hp
  | parent hi _ ih =>
    cases h' with
    | dangling hp => rw [hi] at hp; cases hp
    | parent hp h' => rw [hi] at hp; cases hp; rw [ih h']

/-- The indices along a chain. -/
inductive ChainIx {F : Type} (ls : List (Layer F)) : Option Nat → List Nat → Prop where
  | stop {p} (h : Ancestors ls p []) : ChainIx ls p []
  | step {i p is} (h : ls[i]? = some p) (hp : ChainIx ls p.parent is) :
      ChainIx ls (some i) (i :: is)

omit [FloatOps F] [Libm F] [Kurbo F] in
theorem Ancestors.ix {ls : List (Layer F)} {p ps} (h : Ancestors ls p ps) :
    ∃ is, ChainIx ls p is ∧ is.length = ps.length := by
  induction h with
  | root => exact ⟨[], .stop .root, rfl⟩
  | dangling h => exact ⟨[], .stop (.dangling h), rfl⟩
  | parent h _ ih =>
    obtain ⟨is, h1, h2⟩ := ih
    exact ⟨_ :: is, .step h h1, by simp [h2]⟩

omit [FloatOps F] [Libm F] [Kurbo F] in
theorem ChainIx.unique {ls : List (Layer F)} {p is js} (h : ChainIx ls p is)
    (h' : ChainIx ls p js) : is = js := by
  induction h generalizing js with
  | stop h =>
    cases h' with
    | stop _ => rfl
    | step hi _ => cases h with
      | dangling hd => rw [hd] at hi; cases hi
  | step hi _ ih =>
    cases h' with
    | stop h => cases h with
      | dangling hd => rw [hd] at hi; cases hi
    | step hi' h' => rw [hi] at hi'; cases hi'; rw [ih h']

omit [FloatOps F] [Libm F] [Kurbo F] in
theorem ChainIx.suffix {ls : List (Layer F)} {p is i} (h : ChainIx ls p is) (hi : i ∈ is) :
    ∃ js, ChainIx ls (some i) js ∧ js.length ≤ is.length := by
  induction h with
  | stop => cases hi
  | step h h' ih =>
    rcases List.mem_cons.mp hi with rfl | hi
    · exact ⟨_, .step h h', le_rfl⟩
    · obtain ⟨js, h1, h2⟩ := ih hi
      exact ⟨js, h1, by rw [List.length_cons]; omega⟩

omit [FloatOps F] [Libm F] [Kurbo F] in
theorem ChainIx.nodup {ls : List (Layer F)} {p is} (h : ChainIx ls p is) : is.Nodup := by
  induction h with
  | stop => exact List.nodup_nil
  | @step i q is hi h' ih =>
    refine List.nodup_cons.mpr ⟨fun hm => ?_, ih⟩
    obtain ⟨js, h1, h2⟩ := h'.suffix hm
    have := congrArg List.length (h1.unique (.step hi h'))
    rw [List.length_cons] at this
    omega

omit [FloatOps F] [Libm F] [Kurbo F] in
theorem ChainIx.lt {ls : List (Layer F)} {p is} (h : ChainIx ls p is) : ∀ i ∈ is, i < ls.length := by
  induction h with
  | stop => intro i hi; cases hi
  | step h _ ih =>
    intro i hi
    rcases List.mem_cons.mp hi with rfl | hi
    · exact (List.getElem?_eq_some_iff.mp h).1
    · exact ih i hi

omit [FloatOps F] [Libm F] [Kurbo F] in
/-- A finite chain of ancestors is not longer than the layer list. -/
theorem Ancestors.length_le {ls : List (Layer F)} {p ps} (h : Ancestors ls p ps) :
    ps.length ≤ ls.length := by
  obtain ⟨is, hix, hlen⟩ := h.ix
  rw [← hlen, ← List.length_range (n := ls.length)]
  exact (List.Nodup.subperm hix.nodup fun i hi => List.mem_range.mpr (hix.lt i hi)).length_le

omit [FloatOps F] [Libm F] [Kurbo F] in
/-- If a rank decreases from every layer to its parent, every layer has a finite chain. -/
theorem Ancestors.of_rank {ls : List (Layer F)} (rank : Nat → Nat)
    (h : ∀ i l j, ls[i]? = some l → l.parent = some j → rank j < rank i) :
    ∀ (n : Nat) (p : Option Nat), (∀ i, p = some i → rank i < n) → ∃ ps, Ancestors ls p ps
  | _, none, _ => ⟨[], .root⟩
  | 0, some i, hp => absurd (hp i rfl) (Nat.not_lt_zero _)
  | n + 1, some i, hp => by
    cases hi : ls[i]? with
    | none => exact ⟨[], .dangling hi⟩
    | some q =>
      obtain ⟨ps, hps⟩ := Ancestors.of_rank rank h n q.parent fun j hj => by
        have := h i q j hi hj
        have := hp i rfl
        omega
      exact ⟨q :: ps, .parent hi hps⟩

theorem chaseParents_ancestors {ls : List (Layer F)} {fr : F} {p ps}
    (h : Ancestors ls p ps) : ∀ n T, ps.length ≤ n →
      chaseParents ls fr n p T = ps.foldl (fun T p => (p.transform.evaluate fr).mul T) T := by
  induction h with
  | root => intro n T _; unfold chaseParents; rfl
  | @dangling i hi =>
    intro n T _
    cases n with
    | zero => rfl
    | succ n => rw [chaseParents, hi]; rfl
  | @parent i p ps hi _ ih =>
    intro n T hn
    cases n with
    | zero => simp at hn
    | succ n =>
      rw [chaseParents, hi]
      exact ih n _ (by simpa using hn)

theorem loopExits_chase (ls : List (Layer F)) (fr : F) :
    ∀ (n count : Nat) (p : Option Nat) (T : Affine F), n + count = ls.length →
      ∃ k ≤ n, ∃ p' count', LoopExits (chaseStep ls fr) k (p, T, count)
        (p', chaseParents ls fr n p T, count')
  | n, count, none, T, h => ⟨0, Nat.zero_le _, none, count, by unfold chaseParents; exact ⟨rfl, rfl⟩⟩
  | 0, count, some i, T, h => by
    refine ⟨0, le_rfl, some i, count, rfl, ?_⟩
    simp [chaseStep, show ls.length ≤ count by omega]
  | n + 1, count, some i, T, h => by
    have hlt : ¬ ls.length ≤ count := by omega
    cases hi : ls[i]? with
    | none =>
      refine ⟨0, Nat.zero_le _, some i, count, ?_, ?_⟩
      · rw [chaseParents, hi]
      · simp only [chaseStep, if_neg hlt, hi]
    | some q =>
      obtain ⟨k, hk, p', count', hl⟩ := loopExits_chase ls fr n (count + 1) q.parent
        ((q.transform.evaluate fr).mul T) (by omega)
      refine ⟨k + 1, by omega, p', count',
        ⟨(q.parent, (q.transform.evaluate fr).mul T, count + 1), ?_, ?_⟩⟩
      · simp only [chaseStep, if_neg hlt, hi]
      · rw [chaseParents, hi]
        exact hl

end
end Velato
