import Lean.Elab.Tactic.BuiltinTactic
/-!
# A proof by evaluation in the kernel

`kernel_rfl` closes an equation with `Eq.refl`; that both sides are the same by evaluation is left to the kernel.
-/
open Lean Elab Tactic in
elab "kernel_rfl" : tactic => do
  let g ← getMainGoal
  let t ← instantiateMVars (← g.getType)
  let some (α, a, _) := t.consumeMData.eq? | throwError "kernel_rfl: no equation"
  g.assign (mkApp2 (mkConst ``Eq.refl [← Meta.getLevel α]) α a)
