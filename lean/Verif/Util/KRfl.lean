import Lean
/-!
`krfl` closes a goal `a = b` by `Eq.refl a` and leaves the check that both sides compute to the same
value to the kernel (the elaborator's own unifier is slow on computations). It adds no trust: a wrong
claim is rejected by the kernel when the declaration is added.
-/

open Lean Elab Tactic Meta

/-- Closed-term computation checked by the kernel. -/
elab "krfl" : tactic => do
  let g ← getMainGoal
  g.withContext do
    let t ← instantiateMVars (← g.getType)
    let some (_, a, _) := t.consumeMData.eq? | throwError "krfl: goal is not an equation"
    g.assign (← mkEqRefl a)
