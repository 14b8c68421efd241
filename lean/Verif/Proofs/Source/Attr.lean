import Mathlib.Tactic.Attr.Register
/-! The simp set for running the source text, and a tactic that hands an equation to the kernel. -/
register_simp_attr py

/-- Closes `a = b` by computation in the kernel. -/
elab "krefl" : tactic => do
  let g ← Lean.Elab.Tactic.getMainGoal
  let t ← Lean.instantiateMVars (← g.getType)
  let some (α, a, _) := t.eq? | throwError "not an equation"
  let u ← Lean.Meta.getLevel α
  g.assign (Lean.mkApp2 (Lean.mkConst ``Eq.refl [u]) α a)
