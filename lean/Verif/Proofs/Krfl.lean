import Lean.Elab.Tactic.Basic
import Lean.Elab.Tactic.ElabTerm
/-!
# Equations that hold by computation

`krfl` closes `a = b` with `Eq.refl a`; the equation is only checked by the kernel.
-/

namespace Gowrap

open Lean Elab Tactic Meta in
elab "krfl" : tactic => liftMetaTactic fun g => do
  let t ← whnfR (← instantiateMVars (← g.getType))
  match t.eq? with
  | some (α, a, _) =>
    let a ← instantiateMVars a
    let α ← instantiateMVars α
    let u ← getLevel α
    g.assign (mkApp2 (mkConst ``Eq.refl [u]) α a)
    return []
  | none => throwError "krfl: not an equation"

/-- `kexact h` closes the goal with `h`, whose type is only compared with the goal by the kernel. -/
elab "kexact" t:term : tactic => Lean.Elab.Tactic.withMainContext do
  let e ← Lean.Elab.Tactic.elabTerm t none
  Lean.Elab.Term.synthesizeSyntheticMVarsNoPostponing
  let e ← Lean.instantiateMVars e
  if e.hasExprMVar then throwError "kexact: metavariables"
  Lean.Elab.Tactic.liftMetaTactic fun g => do
    g.assign e
    return []

end Gowrap
