import Lean
/-!
# Simp set for token shapes
-/

/-- Lemmas that bring a statement `Kids …` into the form of an explicit token list. -/
register_simp_attr kids_simp
