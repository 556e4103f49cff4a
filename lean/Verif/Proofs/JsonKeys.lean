import Verif.Model.Decode
import Verif.Spec.Json

/-!
# Lookup of keys
-/

namespace Velato
open Schema Decode

section
variable {F : Type}

theorem lookup_none {es : Obj F} {k : String} : lookup es k = none ↔ ∀ e ∈ es, e.1 ≠ k := by
  induction es with
  | nil => simp [lookup]
  | cons x es ih =>
    obtain ⟨k', v⟩ := x
    simp only [lookup, List.forall_mem_cons, ← ih]
    cases lookup es k with
    | some v => simp
    | none => simp

theorem lookup_at {es : Obj F} {k : String} {v : Json F} :
    lookup es k = some v ↔ (Json.obj es).At k v := by
  constructor
  · intro h
    induction es with
    | nil => exact nomatch h
    | cons x es ih =>
      obtain ⟨k', v'⟩ := x
      unfold lookup at h
      cases hl : lookup es k with
      | some y =>
        rw [hl] at h
        cases h
        obtain ⟨pre, post, he, hp⟩ := ih hl
        exact ⟨(k', v') :: pre, post, by cases he; rfl, hp⟩
      | none =>
        rw [hl] at h
        by_cases hk : k' = k
        · simp only [hk, beq_self_eq_true, if_true, Option.some.injEq] at h
          subst h
          exact ⟨[], es, by rw [hk]; rfl, lookup_none.1 hl⟩
        · simp [hk] at h
  · rintro ⟨pre, post, he, hp⟩
    cases he
    induction pre with
    | nil => simp [lookup, lookup_none.2 hp]
    | cons x pre ih => obtain ⟨k', v'⟩ := x; simp [lookup, ih]

theorem lookup_isSome {es : Obj F} {k : String} :
    (lookup es k).isSome = true ↔ (Json.obj es).HasKey k := by
  rw [Option.isSome_iff_exists]
  exact exists_congr fun v => lookup_at

end
end Velato
