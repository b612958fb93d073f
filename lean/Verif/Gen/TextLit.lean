import Lean.Elab.Term
import Lean.Elab.Tactic.Basic
import Lean.Meta.AppBuilder

/-!
# Notation for texts

`text% "..."` is the list of the characters of the literal, `"...".toList` in evaluated form: Lean's kernel works with it much
faster.  `kernel_rfl` leaves an equation to the kernel without evaluating it before.
-/

namespace Verif.Gen

open Lean Elab Term Tactic Meta

elab "text% " s:str : term => return toExpr s.getString.toList

elab "kernel_rfl" : tactic => do
  let goal ← getMainGoal
  let some (_, a, _) := (← instantiateMVars (← goal.getType)).eq? | throwError "not an equation"
  goal.assign (← mkEqRefl a)

/-- `text%` gives what it should. -/
example : "id-Cause ::= {\n".toList = text% "id-Cause ::= {\n" := String.toList_ofList

end Verif.Gen
