import Lean.Elab.Tactic

/-!
# `kernel_decide`

`decide +kernel` refuses goals with free variables (for instance an arbitrary `[Kurbo F64]`
instance which the evaluation never consults).  `kernel_decide` builds the same proof term
`of_decide_eq_true (Eq.refl true)` for such a goal and leaves the check entirely to the kernel; it
adds no axiom and trusts nothing but the kernel.
-/

open Lean Elab Tactic Meta

/-- Prove a decidable goal, possibly with free variables, by kernel evaluation. -/
elab "kernel_decide" : tactic => withMainContext do
  let g ← getMainGoal
  let p ← instantiateMVars (← g.getType)
  let inst ← synthInstance (mkApp (mkConst ``Decidable) p)
  let refl := mkApp2 (mkConst ``Eq.refl [1]) (mkConst ``Bool) (mkConst ``true)
  g.assign (mkApp3 (mkConst ``of_decide_eq_true) p inst refl)
