import Mathlib.Tactic.Attr.Register

/-- simp set: evaluate model scalars on finite values -/
register_simp_attr xr
