import Lean.Meta.Tactic.Simp.RegisterCommand

/-! The simp set `src`: rules that run the interpreter of `Source.Semantics` on given syntax. -/

/-- Rules that run the interpreter of `Source.Semantics` on given syntax. -/
register_simp_attr src
