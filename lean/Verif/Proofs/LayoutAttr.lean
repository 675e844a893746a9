import Lean.Meta.Tactic.Simp.RegisterCommand
/-!
# Layout: a set of simplification rules

For `Verif.Proofs.LayoutTac`.
-/
/-- Rules that push the removal of positions into a tree. -/
register_simp_attr lk_simp
