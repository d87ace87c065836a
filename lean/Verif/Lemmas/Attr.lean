import Lean.Meta.Tactic.Simp.RegisterCommand

/-! # Simp set of the entry lemmas -/

/-- Entries of the matrices and vectors written out in `src/transformations.rs`. -/
register_simp_attr entries

/-- Evaluating an expression-valued result of a model function is running it on the evaluated inputs. -/
register_simp_attr ev
