import Lean.Meta.Tactic.Simp.RegisterCommand

/-! # The set of equations that move a replacement of words through a reading function -/

/-- Equations that move a replacement of words out of a reading function. -/
register_simp_attr natural
