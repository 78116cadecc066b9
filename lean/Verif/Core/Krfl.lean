import Lean.Elab.Tactic

/-! A tactic used by the proofs (no model content): close `a = b` with `Eq.refl a` and leave the check that `a` and `b`
compute to the same value to the kernel. -/

open Lean Elab Tactic Meta in
/-- close `a = b` by `Eq.refl a`, checked by the kernel only -/
elab "krfl" : tactic => do
  let g ← getMainGoal
  let mut t ← whnfR (← instantiateMVars (← g.getType))
  unless t.isEq do
    if let some t' ← unfoldDefinition? t then t := t'
  match t.eq? with
  | some (α, a, _) =>
    let u ← getLevel α
    g.assign (mkApp2 (mkConst ``Eq.refl [u]) α a)
  | none => throwError "not an equation"
