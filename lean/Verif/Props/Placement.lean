import Verif.Proofs.Ancestors
import Verif.Spec.Examples
import Verif.Num.Real

/-!
# C34, C35 — parent chains
-/

namespace Velato
open FloatOps (lit)

section
variable {F : Type} [FloatOps F] [Libm F] [Kurbo F]

/-! ## C34 -/

/-- **C34.** A layer with a finite chain of ancestors `p₁` (parent), `p₂`, ..., `pₙ` is placed by
`global * (T pₙ * ( ... * (T p₁ * T layer)))`; the chain ends at a layer without parent or with a
dangling parent index. -/
theorem C34_chain {ls : List (Layer F)} {l : Layer F} {ps : List (Layer F)}
    (h : Ancestors ls l.parent ps) (G : Affine F) (fr : F) :
    computeTransform ls l G fr
      = G.mul (ps.foldl (fun T p => (p.transform.evaluate fr).mul T) (l.transform.evaluate fr)) := by
  unfold computeTransform
  rw [chaseParents_ancestors h _ _ h.length_le]

/-- **C34.** Rendering the layer is rendering the same layer without a parent and with the product
of the chain as its transform: the ancestors have no other influence. -/
theorem C34_calls {c : Composition F} {ls : List (Layer F)} {l : Layer F} {ps : List (Layer F)}
    (h : Ancestors ls l.parent ps) {ix : Nat} {T : Affine F} {a fr : F} {ops : List (Op F)} :
    LayerCalls c ls l ix T a fr ops ↔
      LayerCalls c ls { l with
        parent := none
        transform := .fixed (ps.foldl (fun T p => (p.transform.evaluate fr).mul T)
          (l.transform.evaluate fr)) } ix T a fr ops := by
  have hT := C34_chain h T fr
  have hT' : computeTransform ls { l with
        parent := none
        transform := .fixed (ps.foldl (fun T p => (p.transform.evaluate fr).mul T)
          (l.transform.evaluate fr)) } T fr
      = computeTransform ls l T fr := by
    rw [hT, C34_chain (ps := []) .root]
    rfl
  rw [layerCalls_cases, layerCalls_cases, hT']
  have e1 : ∀ mo, MatteCalls c ls l T a fr mo ↔ MatteCalls c ls { l with
        parent := none
        transform := .fixed (ps.foldl (fun T p => (p.transform.evaluate fr).mul T)
          (l.transform.evaluate fr)) } T a fr mo := by
    intro mo
    constructor
    · intro h
      cases h with
      | none h => exact .none h
      | dangling m j h hj => exact .dangling m j h hj
      | matte m j l' o h hj ho => exact .matte m j l' o h hj ho
    · intro h
      cases h with
      | none h => exact .none h
      | dangling m j h hj => exact .dangling m j h hj
      | matte m j l' o h hj ho => exact .matte m j l' o h hj ho
  have e2 : ∀ T a co, ContentCalls c l T a fr co ↔ ContentCalls c { l with
        parent := none
        transform := .fixed (ps.foldl (fun T p => (p.transform.evaluate fr).mul T)
          (l.transform.evaluate fr)) } T a fr co := by
    intro T a co
    constructor
    · intro h
      cases h with
      | none h => exact .none h
      | missing n tr h hn => exact .missing n tr h hn
      | asset n tr als per h hn hp => exact .asset n tr als per h hn hp
      | shape s b _ h hb ho => exact .shape s b _ h hb ho
    · intro h
      cases h with
      | none h => exact .none h
      | missing n tr h hn => exact .missing n tr h hn
      | asset n tr als per h hn hp => exact .asset n tr als per h hn hp
      | shape s b _ h hb ho => exact .shape s b _ h hb ho
  simp only [e1, e2]
  rfl

omit [FloatOps F] [Libm F] [Kurbo F] in
/-- **C34.** The hypothesis of `C34_chain` holds for every layer when the parents are acyclic, that
is, when some rank decreases from each layer to its parent. -/
theorem C34_acyclic {ls : List (Layer F)} (rank : Nat → Nat)
    (h : ∀ i l j, ls[i]? = some l → l.parent = some j → rank j < rank i) (l : Layer F) :
    ∃ ps, Ancestors ls l.parent ps := by
  cases hp : l.parent with
  | none => exact ⟨[], .root⟩
  | some i => exact Ancestors.of_rank rank h (rank i + 1) (some i) (by intro j hj; cases hj; omega)

/-- The masked layer of the example has one ancestor. -/
example : ∃ l p, (exComp (F := F64)).layers[1]? = some l ∧ (exComp (F := F64)).layers[0]? = some p ∧
    Ancestors (exComp (F := F64)).layers l.parent [p] :=
  ⟨_, _, rfl, rfl, .parent rfl .root⟩

/-! ## C35 -/

/-- **C35.** For every assignment of parents, cyclic or not, the loop that follows the parents
exits after at most as many iterations as there are layers, and what it has computed is the
transform the layer is placed with. -/
theorem C35_parent_loop_exits (ls : List (Layer F)) (l : Layer F) (G : Affine F) (fr : F) :
    ∃ k ≤ ls.length, ∃ p' T' count',
      LoopExits (chaseStep ls fr) k (l.parent, l.transform.evaluate fr, 0) (p', T', count') ∧
      computeTransform ls l G fr = G.mul T' := by
  obtain ⟨k, hk, p', count', h⟩ := loopExits_chase ls fr ls.length 0 l.parent
    (l.transform.evaluate fr) (by omega)
  exact ⟨k, hk, p', _, count', h, rfl⟩

/-- On a cyclic assignment the loop runs exactly as many times as there are layers. -/
example [Libm F64] [Kurbo F64] : ∃ T', LoopExits (chaseStep (F := F64) [{ exShapeLayer "a" with parent := some 0 }] (lit 0))
    1 (some 0, Affine.identity, 0) (some 0, T', 1) := ⟨_, _, rfl, rfl, rfl⟩

end

/-- **C34**, on points and in exact arithmetic: the layer's own transform is applied first, then
its parent's, and so on up to the caller's. -/
theorem C34_points [Kurbo ℝ] {ls : List (Layer ℝ)} {l : Layer ℝ} {ps : List (Layer ℝ)}
    (h : Ancestors ls l.parent ps) (G : Affine ℝ) (fr : ℝ) (x : P2 ℝ) :
    (computeTransform ls l G fr).apply x
      = G.apply (ps.foldl (fun x p => (p.transform.evaluate fr).apply x)
          ((l.transform.evaluate fr).apply x)) := by
  rw [C34_chain h]
  have hmul : ∀ (A B : Affine ℝ) (x : P2 ℝ), (A.mul B).apply x = A.apply (B.apply x) := by
    intro A B x
    simp only [Affine.mul, Affine.apply, real_add, real_mul, P2.mk.injEq]
    constructor <;> ring
  rw [hmul]
  congr 1
  clear h
  generalize l.transform.evaluate fr = T
  induction ps generalizing T with
  | nil => rfl
  | cons p ps ih => rw [List.foldl_cons, List.foldl_cons, ih, hmul]

end Velato
