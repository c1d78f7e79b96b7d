import Lean.Meta.Tactic.Simp.RegisterCommand

/-! The simp set that carries an expression from the arithmetic with NaN to the one without. -/

/-- Rules that carry an expression from the arithmetic with NaN to the one without. -/
register_simp_attr nanpush
