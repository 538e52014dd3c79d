import Lean.Elab.Tactic.Basic
import Lean.Meta.AppBuilder

/- `kernel_rfl` closes `a = b` by `Eq.refl a` and leaves it to the kernel to check that the two sides agree. It
is used to run schedules, for which the elaborator is too slow. -/

open Lean Elab Tactic Meta

elab "kernel_rfl" : tactic => do
  let g ← getMainGoal
  g.withContext do
    let t ← instantiateMVars (← g.getType)
    match t.eq? with
    | some (_, a, _) => g.assign (← mkEqRefl a)
    | none => throwError "kernel_rfl: not an equation"
