import Lean.Elab.Tactic
/-
A tactic for equations that hold by computation: it leaves the check to the kernel.
-/
namespace Stfx.Cpp
open Lean Elab Tactic Meta

/-- Closes `a = b` by `Eq.refl a`; the kernel checks that `a` and `b` compute to the same value. -/
elab "kernel_rfl" : tactic => do
  let goal ← getMainGoal
  goal.withContext do
    let type ← instantiateMVars (← goal.getType)
    match type.consumeMData.eq? with
    | some (α, a, _) =>
      if type.hasExprMVar then throwError "kernel_rfl: the goal has metavariables"
      let u ← getLevel α
      goal.assign (mkApp2 (mkConst ``Eq.refl [u]) α a)
    | none => throwError "kernel_rfl: not an equation"

end Stfx.Cpp
