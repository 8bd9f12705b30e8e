import Mathlib.Tactic.Attr.Register

/-!
Simp sets used by the proofs (no mathematical content):
`pga` – coefficients of specification multivectors, `sse` – unfolding of the intrinsics,
`kln` – unfolding of the modelled library functions.
-/

register_simp_attr pga
register_simp_attr sse
register_simp_attr kln
