import Lean

/-! Simp sets for the symbolic execution of encoders (`wr`), decoders (`rd`) and layout lengths (`ll`). -/

/-- writing lemmas -/
register_simp_attr wr
/-- reading lemmas -/
register_simp_attr rd
/-- length lemmas -/
register_simp_attr ll
