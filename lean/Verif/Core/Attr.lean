import Lean.Meta.Tactic.Simp.RegisterCommand

/-! Simp sets used by the proofs (no model content). -/

/-- read-after-write lemmas: `parser.run (writer x ++ rest) = ok x rest` -/
register_simp_attr rt

/-- length-of-serialisation lemmas: `(writer x).length = n` -/
register_simp_attr len
