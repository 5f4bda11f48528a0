import Lean.Elab.Tactic.Basic
import Lean.Meta.AppBuilder
/-
`kernel_rfl` closes `a = b` with `Eq.refl b`, leaving the check that `a` evaluates to `b` to the kernel (the
elaborator's own unifier is slow on long evaluations; the kernel checks the proof term in any case).
-/
namespace Verif
open Lean Meta Elab Tactic

elab "kernel_rfl" : tactic => do
  let g ← getMainGoal
  let t ← instantiateMVars (← g.getType)
  let some (ty, _, r) := t.consumeMData.eq? | throwError "kernel_rfl: not an equation"
  g.assign (← mkExpectedTypeHint (mkApp2 (mkConst ``Eq.refl [← getLevel ty]) ty r) t)

end Verif
