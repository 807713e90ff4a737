import Lean.Elab.Tactic.Basic
import Lean.Meta.Closure
/-!
# Evaluation by the kernel

`kernel_rfl` proves `a = b` by `Eq.refl a` and leaves the comparison to the kernel,
as `decide +kernel` does.  Runs of the model on literal input are too long for the
comparison of the elaborator.
-/

open Lean Meta Elab Tactic in
elab "kernel_rfl" : tactic => withMainContext do
  let g ← getMainGoal
  let type ← instantiateMVars (← g.getType)
  let some (_, a, _) := type.eq? | throwError "not an equation"
  g.assign (← mkAuxTheorem type (← mkEqRefl a) (zetaDelta := true))
  replaceMainGoal []
