import Mathlib.Tactic.Ring
import Mathlib.Algebra.Algebra.Defs
import Verif.Attr

/-!
# Specification: the projective geometric algebra Cl(3,0,1)

A multivector has 16 coefficients, one per ascending product of the generators
`e0, e1, e2, e3` with `e0² = 0`, `e1² = e2² = e3² = 1`.  The product formulas are validated in
`Verif/Spec/Clifford.lean`, where this algebra is shown to be isomorphic to Mathlib's
`CliffordAlgebra` of the quadratic form `diag(0, 1, 1, 1)`.  Nothing here refers to the model.
-/

set_option linter.unusedSimpArgs false

namespace PGA

/-- Multivectors of Cl(3,0,1); the field `e013` is the coefficient of `e0 * e1 * e3`, etc. -/
@[ext] structure MV (K : Type*) where
  s : K
  e0 : K
  e1 : K
  e01 : K
  e2 : K
  e02 : K
  e12 : K
  e012 : K
  e3 : K
  e03 : K
  e13 : K
  e013 : K
  e23 : K
  e023 : K
  e123 : K
  e0123 : K
  deriving DecidableEq, Repr

namespace MV

variable {K : Type*}

section Ring
variable [CommRing K]

instance : Zero (MV K) := ⟨
  { s := 0
    e0 := 0
    e1 := 0
    e01 := 0
    e2 := 0
    e02 := 0
    e12 := 0
    e012 := 0
    e3 := 0
    e03 := 0
    e13 := 0
    e013 := 0
    e23 := 0
    e023 := 0
    e123 := 0
    e0123 := 0 }⟩

instance : One (MV K) := ⟨
  { s := 1
    e0 := 0
    e1 := 0
    e01 := 0
    e2 := 0
    e02 := 0
    e12 := 0
    e012 := 0
    e3 := 0
    e03 := 0
    e13 := 0
    e013 := 0
    e23 := 0
    e023 := 0
    e123 := 0
    e0123 := 0 }⟩

instance : Add (MV K) := ⟨fun a b => 
  { s := a.s + b.s
    e0 := a.e0 + b.e0
    e1 := a.e1 + b.e1
    e01 := a.e01 + b.e01
    e2 := a.e2 + b.e2
    e02 := a.e02 + b.e02
    e12 := a.e12 + b.e12
    e012 := a.e012 + b.e012
    e3 := a.e3 + b.e3
    e03 := a.e03 + b.e03
    e13 := a.e13 + b.e13
    e013 := a.e013 + b.e013
    e23 := a.e23 + b.e23
    e023 := a.e023 + b.e023
    e123 := a.e123 + b.e123
    e0123 := a.e0123 + b.e0123 }⟩

instance : Neg (MV K) := ⟨fun a => 
  { s := -a.s
    e0 := -a.e0
    e1 := -a.e1
    e01 := -a.e01
    e2 := -a.e2
    e02 := -a.e02
    e12 := -a.e12
    e012 := -a.e012
    e3 := -a.e3
    e03 := -a.e03
    e13 := -a.e13
    e013 := -a.e013
    e23 := -a.e23
    e023 := -a.e023
    e123 := -a.e123
    e0123 := -a.e0123 }⟩

instance : Sub (MV K) := ⟨fun a b => 
  { s := a.s - b.s
    e0 := a.e0 - b.e0
    e1 := a.e1 - b.e1
    e01 := a.e01 - b.e01
    e2 := a.e2 - b.e2
    e02 := a.e02 - b.e02
    e12 := a.e12 - b.e12
    e012 := a.e012 - b.e012
    e3 := a.e3 - b.e3
    e03 := a.e03 - b.e03
    e13 := a.e13 - b.e13
    e013 := a.e013 - b.e013
    e23 := a.e23 - b.e23
    e023 := a.e023 - b.e023
    e123 := a.e123 - b.e123
    e0123 := a.e0123 - b.e0123 }⟩

instance : SMul K (MV K) := ⟨fun r a => 
  { s := r * a.s
    e0 := r * a.e0
    e1 := r * a.e1
    e01 := r * a.e01
    e2 := r * a.e2
    e02 := r * a.e02
    e12 := r * a.e12
    e012 := r * a.e012
    e3 := r * a.e3
    e03 := r * a.e03
    e13 := r * a.e13
    e013 := r * a.e013
    e23 := r * a.e23
    e023 := r * a.e023
    e123 := r * a.e123
    e0123 := r * a.e0123 }⟩

/-- The geometric product. -/
instance : Mul (MV K) := ⟨fun a b => 
  { s := a.s * b.s + a.e1 * b.e1 + a.e2 * b.e2 - a.e12 * b.e12 + a.e3 * b.e3 - a.e13 * b.e13 - a.e23 * b.e23 - a.e123 * b.e123
    e0 := a.s * b.e0 + a.e0 * b.s - a.e1 * b.e01 + a.e01 * b.e1 - a.e2 * b.e02 + a.e02 * b.e2 - a.e12 * b.e012 - a.e012 * b.e12 - a.e3 * b.e03 + a.e03 * b.e3 - a.e13 * b.e013 - a.e013 * b.e13 - a.e23 * b.e023 - a.e023 * b.e23 + a.e123 * b.e0123 - a.e0123 * b.e123
    e1 := a.s * b.e1 + a.e1 * b.s - a.e2 * b.e12 + a.e12 * b.e2 - a.e3 * b.e13 + a.e13 * b.e3 - a.e23 * b.e123 - a.e123 * b.e23
    e01 := a.s * b.e01 + a.e0 * b.e1 - a.e1 * b.e0 + a.e01 * b.s + a.e2 * b.e012 - a.e02 * b.e12 + a.e12 * b.e02 + a.e012 * b.e2 + a.e3 * b.e013 - a.e03 * b.e13 + a.e13 * b.e03 + a.e013 * b.e3 - a.e23 * b.e0123 - a.e023 * b.e123 + a.e123 * b.e023 - a.e0123 * b.e23
    e2 := a.s * b.e2 + a.e1 * b.e12 + a.e2 * b.s - a.e12 * b.e1 - a.e3 * b.e23 + a.e13 * b.e123 + a.e23 * b.e3 + a.e123 * b.e13
    e02 := a.s * b.e02 + a.e0 * b.e2 - a.e1 * b.e012 + a.e01 * b.e12 - a.e2 * b.e0 + a.e02 * b.s - a.e12 * b.e01 - a.e012 * b.e1 + a.e3 * b.e023 - a.e03 * b.e23 + a.e13 * b.e0123 + a.e013 * b.e123 + a.e23 * b.e03 + a.e023 * b.e3 - a.e123 * b.e013 + a.e0123 * b.e13
    e12 := a.s * b.e12 + a.e1 * b.e2 - a.e2 * b.e1 + a.e12 * b.s + a.e3 * b.e123 - a.e13 * b.e23 + a.e23 * b.e13 + a.e123 * b.e3
    e012 := a.s * b.e012 + a.e0 * b.e12 - a.e1 * b.e02 + a.e01 * b.e2 + a.e2 * b.e01 - a.e02 * b.e1 + a.e12 * b.e0 + a.e012 * b.s - a.e3 * b.e0123 + a.e03 * b.e123 - a.e13 * b.e023 - a.e013 * b.e23 + a.e23 * b.e013 + a.e023 * b.e13 - a.e123 * b.e03 + a.e0123 * b.e3
    e3 := a.s * b.e3 + a.e1 * b.e13 + a.e2 * b.e23 - a.e12 * b.e123 + a.e3 * b.s - a.e13 * b.e1 - a.e23 * b.e2 - a.e123 * b.e12
    e03 := a.s * b.e03 + a.e0 * b.e3 - a.e1 * b.e013 + a.e01 * b.e13 - a.e2 * b.e023 + a.e02 * b.e23 - a.e12 * b.e0123 - a.e012 * b.e123 - a.e3 * b.e0 + a.e03 * b.s - a.e13 * b.e01 - a.e013 * b.e1 - a.e23 * b.e02 - a.e023 * b.e2 + a.e123 * b.e012 - a.e0123 * b.e12
    e13 := a.s * b.e13 + a.e1 * b.e3 - a.e2 * b.e123 + a.e12 * b.e23 - a.e3 * b.e1 + a.e13 * b.s - a.e23 * b.e12 - a.e123 * b.e2
    e013 := a.s * b.e013 + a.e0 * b.e13 - a.e1 * b.e03 + a.e01 * b.e3 + a.e2 * b.e0123 - a.e02 * b.e123 + a.e12 * b.e023 + a.e012 * b.e23 + a.e3 * b.e01 - a.e03 * b.e1 + a.e13 * b.e0 + a.e013 * b.s - a.e23 * b.e012 - a.e023 * b.e12 + a.e123 * b.e02 - a.e0123 * b.e2
    e23 := a.s * b.e23 + a.e1 * b.e123 + a.e2 * b.e3 - a.e12 * b.e13 - a.e3 * b.e2 + a.e13 * b.e12 + a.e23 * b.s + a.e123 * b.e1
    e023 := a.s * b.e023 + a.e0 * b.e23 - a.e1 * b.e0123 + a.e01 * b.e123 - a.e2 * b.e03 + a.e02 * b.e3 - a.e12 * b.e013 - a.e012 * b.e13 + a.e3 * b.e02 - a.e03 * b.e2 + a.e13 * b.e012 + a.e013 * b.e12 + a.e23 * b.e0 + a.e023 * b.s - a.e123 * b.e01 + a.e0123 * b.e1
    e123 := a.s * b.e123 + a.e1 * b.e23 - a.e2 * b.e13 + a.e12 * b.e3 + a.e3 * b.e12 - a.e13 * b.e2 + a.e23 * b.e1 + a.e123 * b.s
    e0123 := a.s * b.e0123 + a.e0 * b.e123 - a.e1 * b.e023 + a.e01 * b.e23 + a.e2 * b.e013 - a.e02 * b.e13 + a.e12 * b.e03 + a.e012 * b.e3 - a.e3 * b.e012 + a.e03 * b.e12 - a.e13 * b.e02 - a.e013 * b.e2 + a.e23 * b.e01 + a.e023 * b.e1 - a.e123 * b.e0 + a.e0123 * b.s }⟩

@[simp, pga] theorem zero_s : (0 : MV K).s = 0 := rfl
@[simp, pga] theorem one_s : (1 : MV K).s = 1 := rfl
@[simp, pga] theorem add_s (a b : MV K) : (a + b).s = a.s + b.s := rfl
@[simp, pga] theorem neg_s (a : MV K) : (-a).s = -a.s := rfl
@[simp, pga] theorem sub_s (a b : MV K) : (a - b).s = a.s - b.s := rfl
@[simp, pga] theorem smul_s (r : K) (a : MV K) : (r • a).s = r * a.s := rfl
@[simp, pga] theorem mul_s (a b : MV K) : (a * b).s =
    a.s * b.s + a.e1 * b.e1 + a.e2 * b.e2 - a.e12 * b.e12 + a.e3 * b.e3 - a.e13 * b.e13 - a.e23 * b.e23 - a.e123 * b.e123 := rfl
@[simp, pga] theorem zero_e0 : (0 : MV K).e0 = 0 := rfl
@[simp, pga] theorem one_e0 : (1 : MV K).e0 = 0 := rfl
@[simp, pga] theorem add_e0 (a b : MV K) : (a + b).e0 = a.e0 + b.e0 := rfl
@[simp, pga] theorem neg_e0 (a : MV K) : (-a).e0 = -a.e0 := rfl
@[simp, pga] theorem sub_e0 (a b : MV K) : (a - b).e0 = a.e0 - b.e0 := rfl
@[simp, pga] theorem smul_e0 (r : K) (a : MV K) : (r • a).e0 = r * a.e0 := rfl
@[simp, pga] theorem mul_e0 (a b : MV K) : (a * b).e0 =
    a.s * b.e0 + a.e0 * b.s - a.e1 * b.e01 + a.e01 * b.e1 - a.e2 * b.e02 + a.e02 * b.e2 - a.e12 * b.e012 - a.e012 * b.e12 - a.e3 * b.e03 + a.e03 * b.e3 - a.e13 * b.e013 - a.e013 * b.e13 - a.e23 * b.e023 - a.e023 * b.e23 + a.e123 * b.e0123 - a.e0123 * b.e123 := rfl
@[simp, pga] theorem zero_e1 : (0 : MV K).e1 = 0 := rfl
@[simp, pga] theorem one_e1 : (1 : MV K).e1 = 0 := rfl
@[simp, pga] theorem add_e1 (a b : MV K) : (a + b).e1 = a.e1 + b.e1 := rfl
@[simp, pga] theorem neg_e1 (a : MV K) : (-a).e1 = -a.e1 := rfl
@[simp, pga] theorem sub_e1 (a b : MV K) : (a - b).e1 = a.e1 - b.e1 := rfl
@[simp, pga] theorem smul_e1 (r : K) (a : MV K) : (r • a).e1 = r * a.e1 := rfl
@[simp, pga] theorem mul_e1 (a b : MV K) : (a * b).e1 =
    a.s * b.e1 + a.e1 * b.s - a.e2 * b.e12 + a.e12 * b.e2 - a.e3 * b.e13 + a.e13 * b.e3 - a.e23 * b.e123 - a.e123 * b.e23 := rfl
@[simp, pga] theorem zero_e01 : (0 : MV K).e01 = 0 := rfl
@[simp, pga] theorem one_e01 : (1 : MV K).e01 = 0 := rfl
@[simp, pga] theorem add_e01 (a b : MV K) : (a + b).e01 = a.e01 + b.e01 := rfl
@[simp, pga] theorem neg_e01 (a : MV K) : (-a).e01 = -a.e01 := rfl
@[simp, pga] theorem sub_e01 (a b : MV K) : (a - b).e01 = a.e01 - b.e01 := rfl
@[simp, pga] theorem smul_e01 (r : K) (a : MV K) : (r • a).e01 = r * a.e01 := rfl
@[simp, pga] theorem mul_e01 (a b : MV K) : (a * b).e01 =
    a.s * b.e01 + a.e0 * b.e1 - a.e1 * b.e0 + a.e01 * b.s + a.e2 * b.e012 - a.e02 * b.e12 + a.e12 * b.e02 + a.e012 * b.e2 + a.e3 * b.e013 - a.e03 * b.e13 + a.e13 * b.e03 + a.e013 * b.e3 - a.e23 * b.e0123 - a.e023 * b.e123 + a.e123 * b.e023 - a.e0123 * b.e23 := rfl
@[simp, pga] theorem zero_e2 : (0 : MV K).e2 = 0 := rfl
@[simp, pga] theorem one_e2 : (1 : MV K).e2 = 0 := rfl
@[simp, pga] theorem add_e2 (a b : MV K) : (a + b).e2 = a.e2 + b.e2 := rfl
@[simp, pga] theorem neg_e2 (a : MV K) : (-a).e2 = -a.e2 := rfl
@[simp, pga] theorem sub_e2 (a b : MV K) : (a - b).e2 = a.e2 - b.e2 := rfl
@[simp, pga] theorem smul_e2 (r : K) (a : MV K) : (r • a).e2 = r * a.e2 := rfl
@[simp, pga] theorem mul_e2 (a b : MV K) : (a * b).e2 =
    a.s * b.e2 + a.e1 * b.e12 + a.e2 * b.s - a.e12 * b.e1 - a.e3 * b.e23 + a.e13 * b.e123 + a.e23 * b.e3 + a.e123 * b.e13 := rfl
@[simp, pga] theorem zero_e02 : (0 : MV K).e02 = 0 := rfl
@[simp, pga] theorem one_e02 : (1 : MV K).e02 = 0 := rfl
@[simp, pga] theorem add_e02 (a b : MV K) : (a + b).e02 = a.e02 + b.e02 := rfl
@[simp, pga] theorem neg_e02 (a : MV K) : (-a).e02 = -a.e02 := rfl
@[simp, pga] theorem sub_e02 (a b : MV K) : (a - b).e02 = a.e02 - b.e02 := rfl
@[simp, pga] theorem smul_e02 (r : K) (a : MV K) : (r • a).e02 = r * a.e02 := rfl
@[simp, pga] theorem mul_e02 (a b : MV K) : (a * b).e02 =
    a.s * b.e02 + a.e0 * b.e2 - a.e1 * b.e012 + a.e01 * b.e12 - a.e2 * b.e0 + a.e02 * b.s - a.e12 * b.e01 - a.e012 * b.e1 + a.e3 * b.e023 - a.e03 * b.e23 + a.e13 * b.e0123 + a.e013 * b.e123 + a.e23 * b.e03 + a.e023 * b.e3 - a.e123 * b.e013 + a.e0123 * b.e13 := rfl
@[simp, pga] theorem zero_e12 : (0 : MV K).e12 = 0 := rfl
@[simp, pga] theorem one_e12 : (1 : MV K).e12 = 0 := rfl
@[simp, pga] theorem add_e12 (a b : MV K) : (a + b).e12 = a.e12 + b.e12 := rfl
@[simp, pga] theorem neg_e12 (a : MV K) : (-a).e12 = -a.e12 := rfl
@[simp, pga] theorem sub_e12 (a b : MV K) : (a - b).e12 = a.e12 - b.e12 := rfl
@[simp, pga] theorem smul_e12 (r : K) (a : MV K) : (r • a).e12 = r * a.e12 := rfl
@[simp, pga] theorem mul_e12 (a b : MV K) : (a * b).e12 =
    a.s * b.e12 + a.e1 * b.e2 - a.e2 * b.e1 + a.e12 * b.s + a.e3 * b.e123 - a.e13 * b.e23 + a.e23 * b.e13 + a.e123 * b.e3 := rfl
@[simp, pga] theorem zero_e012 : (0 : MV K).e012 = 0 := rfl
@[simp, pga] theorem one_e012 : (1 : MV K).e012 = 0 := rfl
@[simp, pga] theorem add_e012 (a b : MV K) : (a + b).e012 = a.e012 + b.e012 := rfl
@[simp, pga] theorem neg_e012 (a : MV K) : (-a).e012 = -a.e012 := rfl
@[simp, pga] theorem sub_e012 (a b : MV K) : (a - b).e012 = a.e012 - b.e012 := rfl
@[simp, pga] theorem smul_e012 (r : K) (a : MV K) : (r • a).e012 = r * a.e012 := rfl
@[simp, pga] theorem mul_e012 (a b : MV K) : (a * b).e012 =
    a.s * b.e012 + a.e0 * b.e12 - a.e1 * b.e02 + a.e01 * b.e2 + a.e2 * b.e01 - a.e02 * b.e1 + a.e12 * b.e0 + a.e012 * b.s - a.e3 * b.e0123 + a.e03 * b.e123 - a.e13 * b.e023 - a.e013 * b.e23 + a.e23 * b.e013 + a.e023 * b.e13 - a.e123 * b.e03 + a.e0123 * b.e3 := rfl
@[simp, pga] theorem zero_e3 : (0 : MV K).e3 = 0 := rfl
@[simp, pga] theorem one_e3 : (1 : MV K).e3 = 0 := rfl
@[simp, pga] theorem add_e3 (a b : MV K) : (a + b).e3 = a.e3 + b.e3 := rfl
@[simp, pga] theorem neg_e3 (a : MV K) : (-a).e3 = -a.e3 := rfl
@[simp, pga] theorem sub_e3 (a b : MV K) : (a - b).e3 = a.e3 - b.e3 := rfl
@[simp, pga] theorem smul_e3 (r : K) (a : MV K) : (r • a).e3 = r * a.e3 := rfl
@[simp, pga] theorem mul_e3 (a b : MV K) : (a * b).e3 =
    a.s * b.e3 + a.e1 * b.e13 + a.e2 * b.e23 - a.e12 * b.e123 + a.e3 * b.s - a.e13 * b.e1 - a.e23 * b.e2 - a.e123 * b.e12 := rfl
@[simp, pga] theorem zero_e03 : (0 : MV K).e03 = 0 := rfl
@[simp, pga] theorem one_e03 : (1 : MV K).e03 = 0 := rfl
@[simp, pga] theorem add_e03 (a b : MV K) : (a + b).e03 = a.e03 + b.e03 := rfl
@[simp, pga] theorem neg_e03 (a : MV K) : (-a).e03 = -a.e03 := rfl
@[simp, pga] theorem sub_e03 (a b : MV K) : (a - b).e03 = a.e03 - b.e03 := rfl
@[simp, pga] theorem smul_e03 (r : K) (a : MV K) : (r • a).e03 = r * a.e03 := rfl
@[simp, pga] theorem mul_e03 (a b : MV K) : (a * b).e03 =
    a.s * b.e03 + a.e0 * b.e3 - a.e1 * b.e013 + a.e01 * b.e13 - a.e2 * b.e023 + a.e02 * b.e23 - a.e12 * b.e0123 - a.e012 * b.e123 - a.e3 * b.e0 + a.e03 * b.s - a.e13 * b.e01 - a.e013 * b.e1 - a.e23 * b.e02 - a.e023 * b.e2 + a.e123 * b.e012 - a.e0123 * b.e12 := rfl
@[simp, pga] theorem zero_e13 : (0 : MV K).e13 = 0 := rfl
@[simp, pga] theorem one_e13 : (1 : MV K).e13 = 0 := rfl
@[simp, pga] theorem add_e13 (a b : MV K) : (a + b).e13 = a.e13 + b.e13 := rfl
@[simp, pga] theorem neg_e13 (a : MV K) : (-a).e13 = -a.e13 := rfl
@[simp, pga] theorem sub_e13 (a b : MV K) : (a - b).e13 = a.e13 - b.e13 := rfl
@[simp, pga] theorem smul_e13 (r : K) (a : MV K) : (r • a).e13 = r * a.e13 := rfl
@[simp, pga] theorem mul_e13 (a b : MV K) : (a * b).e13 =
    a.s * b.e13 + a.e1 * b.e3 - a.e2 * b.e123 + a.e12 * b.e23 - a.e3 * b.e1 + a.e13 * b.s - a.e23 * b.e12 - a.e123 * b.e2 := rfl
@[simp, pga] theorem zero_e013 : (0 : MV K).e013 = 0 := rfl
@[simp, pga] theorem one_e013 : (1 : MV K).e013 = 0 := rfl
@[simp, pga] theorem add_e013 (a b : MV K) : (a + b).e013 = a.e013 + b.e013 := rfl
@[simp, pga] theorem neg_e013 (a : MV K) : (-a).e013 = -a.e013 := rfl
@[simp, pga] theorem sub_e013 (a b : MV K) : (a - b).e013 = a.e013 - b.e013 := rfl
@[simp, pga] theorem smul_e013 (r : K) (a : MV K) : (r • a).e013 = r * a.e013 := rfl
@[simp, pga] theorem mul_e013 (a b : MV K) : (a * b).e013 =
    a.s * b.e013 + a.e0 * b.e13 - a.e1 * b.e03 + a.e01 * b.e3 + a.e2 * b.e0123 - a.e02 * b.e123 + a.e12 * b.e023 + a.e012 * b.e23 + a.e3 * b.e01 - a.e03 * b.e1 + a.e13 * b.e0 + a.e013 * b.s - a.e23 * b.e012 - a.e023 * b.e12 + a.e123 * b.e02 - a.e0123 * b.e2 := rfl
@[simp, pga] theorem zero_e23 : (0 : MV K).e23 = 0 := rfl
@[simp, pga] theorem one_e23 : (1 : MV K).e23 = 0 := rfl
@[simp, pga] theorem add_e23 (a b : MV K) : (a + b).e23 = a.e23 + b.e23 := rfl
@[simp, pga] theorem neg_e23 (a : MV K) : (-a).e23 = -a.e23 := rfl
@[simp, pga] theorem sub_e23 (a b : MV K) : (a - b).e23 = a.e23 - b.e23 := rfl
@[simp, pga] theorem smul_e23 (r : K) (a : MV K) : (r • a).e23 = r * a.e23 := rfl
@[simp, pga] theorem mul_e23 (a b : MV K) : (a * b).e23 =
    a.s * b.e23 + a.e1 * b.e123 + a.e2 * b.e3 - a.e12 * b.e13 - a.e3 * b.e2 + a.e13 * b.e12 + a.e23 * b.s + a.e123 * b.e1 := rfl
@[simp, pga] theorem zero_e023 : (0 : MV K).e023 = 0 := rfl
@[simp, pga] theorem one_e023 : (1 : MV K).e023 = 0 := rfl
@[simp, pga] theorem add_e023 (a b : MV K) : (a + b).e023 = a.e023 + b.e023 := rfl
@[simp, pga] theorem neg_e023 (a : MV K) : (-a).e023 = -a.e023 := rfl
@[simp, pga] theorem sub_e023 (a b : MV K) : (a - b).e023 = a.e023 - b.e023 := rfl
@[simp, pga] theorem smul_e023 (r : K) (a : MV K) : (r • a).e023 = r * a.e023 := rfl
@[simp, pga] theorem mul_e023 (a b : MV K) : (a * b).e023 =
    a.s * b.e023 + a.e0 * b.e23 - a.e1 * b.e0123 + a.e01 * b.e123 - a.e2 * b.e03 + a.e02 * b.e3 - a.e12 * b.e013 - a.e012 * b.e13 + a.e3 * b.e02 - a.e03 * b.e2 + a.e13 * b.e012 + a.e013 * b.e12 + a.e23 * b.e0 + a.e023 * b.s - a.e123 * b.e01 + a.e0123 * b.e1 := rfl
@[simp, pga] theorem zero_e123 : (0 : MV K).e123 = 0 := rfl
@[simp, pga] theorem one_e123 : (1 : MV K).e123 = 0 := rfl
@[simp, pga] theorem add_e123 (a b : MV K) : (a + b).e123 = a.e123 + b.e123 := rfl
@[simp, pga] theorem neg_e123 (a : MV K) : (-a).e123 = -a.e123 := rfl
@[simp, pga] theorem sub_e123 (a b : MV K) : (a - b).e123 = a.e123 - b.e123 := rfl
@[simp, pga] theorem smul_e123 (r : K) (a : MV K) : (r • a).e123 = r * a.e123 := rfl
@[simp, pga] theorem mul_e123 (a b : MV K) : (a * b).e123 =
    a.s * b.e123 + a.e1 * b.e23 - a.e2 * b.e13 + a.e12 * b.e3 + a.e3 * b.e12 - a.e13 * b.e2 + a.e23 * b.e1 + a.e123 * b.s := rfl
@[simp, pga] theorem zero_e0123 : (0 : MV K).e0123 = 0 := rfl
@[simp, pga] theorem one_e0123 : (1 : MV K).e0123 = 0 := rfl
@[simp, pga] theorem add_e0123 (a b : MV K) : (a + b).e0123 = a.e0123 + b.e0123 := rfl
@[simp, pga] theorem neg_e0123 (a : MV K) : (-a).e0123 = -a.e0123 := rfl
@[simp, pga] theorem sub_e0123 (a b : MV K) : (a - b).e0123 = a.e0123 - b.e0123 := rfl
@[simp, pga] theorem smul_e0123 (r : K) (a : MV K) : (r • a).e0123 = r * a.e0123 := rfl
@[simp, pga] theorem mul_e0123 (a b : MV K) : (a * b).e0123 =
    a.s * b.e0123 + a.e0 * b.e123 - a.e1 * b.e023 + a.e01 * b.e23 + a.e2 * b.e013 - a.e02 * b.e13 + a.e12 * b.e03 + a.e012 * b.e3 - a.e3 * b.e012 + a.e03 * b.e12 - a.e13 * b.e02 - a.e013 * b.e2 + a.e23 * b.e01 + a.e023 * b.e1 - a.e123 * b.e0 + a.e0123 * b.s := rfl

theorem mul_assoc' (a b c : MV K) : a * b * c = a * (b * c) := by
  apply MV.ext <;> simp only [pga] <;> ring

instance : Ring (MV K) where
  add_assoc a b c := by ext <;> simp [add_assoc]
  zero_add a := by ext <;> simp
  add_zero a := by ext <;> simp
  add_comm a b := by ext <;> simp [add_comm]
  neg_add_cancel a := by ext <;> simp
  sub_eq_add_neg a b := by ext <;> simp [sub_eq_add_neg]
  mul_assoc := mul_assoc'
  one_mul a := by ext <;> simp
  mul_one a := by ext <;> simp
  zero_mul a := by ext <;> simp
  mul_zero a := by ext <;> simp
  left_distrib a b c := by ext <;> simp only [pga] <;> ring
  right_distrib a b c := by ext <;> simp only [pga] <;> ring
  nsmul := nsmulRec
  zsmul := zsmulRec

/-- Scalars as multivectors. -/
def ofK : K →+* MV K where
  toFun r := ⟨r, 0, 0, 0, 0, 0, 0, 0, 0, 0, 0, 0, 0, 0, 0, 0⟩
  map_one' := rfl
  map_zero' := rfl
  map_add' a b := by ext <;> simp
  map_mul' a b := by ext <;> simp

instance : Algebra K (MV K) where
  algebraMap := ofK
  commutes' r a := by ext <;> simp [ofK, mul_comm]
  smul_def' r a := by ext <;> simp [ofK]

/-- The generator `e0`. -/
def g0 : MV K := ⟨0, 1, 0, 0, 0, 0, 0, 0, 0, 0, 0, 0, 0, 0, 0, 0⟩
/-- The generator `e1`. -/
def g1 : MV K := ⟨0, 0, 1, 0, 0, 0, 0, 0, 0, 0, 0, 0, 0, 0, 0, 0⟩
/-- The generator `e2`. -/
def g2 : MV K := ⟨0, 0, 0, 0, 1, 0, 0, 0, 0, 0, 0, 0, 0, 0, 0, 0⟩
/-- The generator `e3`. -/
def g3 : MV K := ⟨0, 0, 0, 0, 0, 0, 0, 0, 1, 0, 0, 0, 0, 0, 0, 0⟩

/-- Grade projection. -/
def grade (k : ℕ) (a : MV K) : MV K :=
  { s := if k = 0 then a.s else 0
    e0 := if k = 1 then a.e0 else 0
    e1 := if k = 1 then a.e1 else 0
    e01 := if k = 2 then a.e01 else 0
    e2 := if k = 1 then a.e2 else 0
    e02 := if k = 2 then a.e02 else 0
    e12 := if k = 2 then a.e12 else 0
    e012 := if k = 3 then a.e012 else 0
    e3 := if k = 1 then a.e3 else 0
    e03 := if k = 2 then a.e03 else 0
    e13 := if k = 2 then a.e13 else 0
    e013 := if k = 3 then a.e013 else 0
    e23 := if k = 2 then a.e23 else 0
    e023 := if k = 3 then a.e023 else 0
    e123 := if k = 3 then a.e123 else 0
    e0123 := if k = 4 then a.e0123 else 0 }

/-- Reversion: reverses the order of the factors of every product, i.e. the sign
`(-1)^(k(k-1)/2)` on grade `k`. -/
def rev (a : MV K) : MV K :=
  grade 0 a + grade 1 a - grade 2 a - grade 3 a + grade 4 a

/-- Exterior product: the grade `r + s` part of the product of grade `r` and grade `s` parts. -/
def wedge (a b : MV K) : MV K :=
  ([0, 1, 2, 3, 4] : List ℕ).foldl (fun acc r => ([0, 1, 2, 3, 4] : List ℕ).foldl
    (fun acc s => acc + grade (r + s) (grade r a * grade s b)) acc) 0

/-- Symmetric inner product: the grade `|r - s|` part of the product of grade `r` and grade `s`
parts, with scalars contributing nothing (docs/geometry-potpourri.md). -/
def inner (a b : MV K) : MV K :=
  ([1, 2, 3, 4] : List ℕ).foldl (fun acc r => ([1, 2, 3, 4] : List ℕ).foldl
    (fun acc s => acc + grade (max r s - min r s) (grade r a * grade s b)) acc) 0


/-- The Poincaré duality map `J` of docs/geometry-potpourri.md:
`J(1) = e0123, J(e0) = e123, J(e1) = e032, J(e2) = e013, J(e3) = e021, J(e01) = e23,
J(e02) = e31, J(e03) = e12` and conversely (recall `e032 = -e023`, `e31 = -e13`, `e021 = -e012`). -/
def J (a : MV K) : MV K :=
  { s := a.e0123
    e0 := a.e123
    e1 := -a.e023
    e01 := a.e23
    e2 := a.e013
    e02 := -a.e13
    e12 := a.e03
    e012 := -a.e3
    e3 := -a.e012
    e03 := a.e12
    e13 := -a.e02
    e013 := a.e2
    e23 := a.e01
    e023 := -a.e1
    e123 := a.e0
    e0123 := a.s }

/-- Regressive product `a ∨ b = J(J(a) ∧ J(b))`. -/
def vee (a b : MV K) : MV K := J (wedge (J a) (J b))

@[simp, pga] theorem rev_s (a : MV K) : (rev a).s = a.s := by simp [rev, grade]
@[simp, pga] theorem rev_e0 (a : MV K) : (rev a).e0 = a.e0 := by simp [rev, grade]
@[simp, pga] theorem rev_e1 (a : MV K) : (rev a).e1 = a.e1 := by simp [rev, grade]
@[simp, pga] theorem rev_e01 (a : MV K) : (rev a).e01 = -a.e01 := by simp [rev, grade]
@[simp, pga] theorem rev_e2 (a : MV K) : (rev a).e2 = a.e2 := by simp [rev, grade]
@[simp, pga] theorem rev_e02 (a : MV K) : (rev a).e02 = -a.e02 := by simp [rev, grade]
@[simp, pga] theorem rev_e12 (a : MV K) : (rev a).e12 = -a.e12 := by simp [rev, grade]
@[simp, pga] theorem rev_e012 (a : MV K) : (rev a).e012 = -a.e012 := by simp [rev, grade]
@[simp, pga] theorem rev_e3 (a : MV K) : (rev a).e3 = a.e3 := by simp [rev, grade]
@[simp, pga] theorem rev_e03 (a : MV K) : (rev a).e03 = -a.e03 := by simp [rev, grade]
@[simp, pga] theorem rev_e13 (a : MV K) : (rev a).e13 = -a.e13 := by simp [rev, grade]
@[simp, pga] theorem rev_e013 (a : MV K) : (rev a).e013 = -a.e013 := by simp [rev, grade]
@[simp, pga] theorem rev_e23 (a : MV K) : (rev a).e23 = -a.e23 := by simp [rev, grade]
@[simp, pga] theorem rev_e023 (a : MV K) : (rev a).e023 = -a.e023 := by simp [rev, grade]
@[simp, pga] theorem rev_e123 (a : MV K) : (rev a).e123 = -a.e123 := by simp [rev, grade]
@[simp, pga] theorem rev_e0123 (a : MV K) : (rev a).e0123 = a.e0123 := by simp [rev, grade]
@[simp, pga] theorem J_s (a : MV K) : (J a).s = a.e0123 := rfl
@[simp, pga] theorem J_e0 (a : MV K) : (J a).e0 = a.e123 := rfl
@[simp, pga] theorem J_e1 (a : MV K) : (J a).e1 = -a.e023 := rfl
@[simp, pga] theorem J_e01 (a : MV K) : (J a).e01 = a.e23 := rfl
@[simp, pga] theorem J_e2 (a : MV K) : (J a).e2 = a.e013 := rfl
@[simp, pga] theorem J_e02 (a : MV K) : (J a).e02 = -a.e13 := rfl
@[simp, pga] theorem J_e12 (a : MV K) : (J a).e12 = a.e03 := rfl
@[simp, pga] theorem J_e012 (a : MV K) : (J a).e012 = -a.e3 := rfl
@[simp, pga] theorem J_e3 (a : MV K) : (J a).e3 = -a.e012 := rfl
@[simp, pga] theorem J_e03 (a : MV K) : (J a).e03 = a.e12 := rfl
@[simp, pga] theorem J_e13 (a : MV K) : (J a).e13 = -a.e02 := rfl
@[simp, pga] theorem J_e013 (a : MV K) : (J a).e013 = a.e2 := rfl
@[simp, pga] theorem J_e23 (a : MV K) : (J a).e23 = a.e01 := rfl
@[simp, pga] theorem J_e023 (a : MV K) : (J a).e023 = -a.e1 := rfl
@[simp, pga] theorem J_e123 (a : MV K) : (J a).e123 = a.e0 := rfl
@[simp, pga] theorem J_e0123 (a : MV K) : (J a).e0123 = a.s := rfl
theorem grade0_s (a : MV K) : (grade 0 a).s = a.s := rfl
theorem grade0_e0 (a : MV K) : (grade 0 a).e0 = 0 := rfl
theorem grade0_e1 (a : MV K) : (grade 0 a).e1 = 0 := rfl
theorem grade0_e01 (a : MV K) : (grade 0 a).e01 = 0 := rfl
theorem grade0_e2 (a : MV K) : (grade 0 a).e2 = 0 := rfl
theorem grade0_e02 (a : MV K) : (grade 0 a).e02 = 0 := rfl
theorem grade0_e12 (a : MV K) : (grade 0 a).e12 = 0 := rfl
theorem grade0_e012 (a : MV K) : (grade 0 a).e012 = 0 := rfl
theorem grade0_e3 (a : MV K) : (grade 0 a).e3 = 0 := rfl
theorem grade0_e03 (a : MV K) : (grade 0 a).e03 = 0 := rfl
theorem grade0_e13 (a : MV K) : (grade 0 a).e13 = 0 := rfl
theorem grade0_e013 (a : MV K) : (grade 0 a).e013 = 0 := rfl
theorem grade0_e23 (a : MV K) : (grade 0 a).e23 = 0 := rfl
theorem grade0_e023 (a : MV K) : (grade 0 a).e023 = 0 := rfl
theorem grade0_e123 (a : MV K) : (grade 0 a).e123 = 0 := rfl
theorem grade0_e0123 (a : MV K) : (grade 0 a).e0123 = 0 := rfl
theorem grade1_s (a : MV K) : (grade 1 a).s = 0 := rfl
theorem grade1_e0 (a : MV K) : (grade 1 a).e0 = a.e0 := rfl
theorem grade1_e1 (a : MV K) : (grade 1 a).e1 = a.e1 := rfl
theorem grade1_e01 (a : MV K) : (grade 1 a).e01 = 0 := rfl
theorem grade1_e2 (a : MV K) : (grade 1 a).e2 = a.e2 := rfl
theorem grade1_e02 (a : MV K) : (grade 1 a).e02 = 0 := rfl
theorem grade1_e12 (a : MV K) : (grade 1 a).e12 = 0 := rfl
theorem grade1_e012 (a : MV K) : (grade 1 a).e012 = 0 := rfl
theorem grade1_e3 (a : MV K) : (grade 1 a).e3 = a.e3 := rfl
theorem grade1_e03 (a : MV K) : (grade 1 a).e03 = 0 := rfl
theorem grade1_e13 (a : MV K) : (grade 1 a).e13 = 0 := rfl
theorem grade1_e013 (a : MV K) : (grade 1 a).e013 = 0 := rfl
theorem grade1_e23 (a : MV K) : (grade 1 a).e23 = 0 := rfl
theorem grade1_e023 (a : MV K) : (grade 1 a).e023 = 0 := rfl
theorem grade1_e123 (a : MV K) : (grade 1 a).e123 = 0 := rfl
theorem grade1_e0123 (a : MV K) : (grade 1 a).e0123 = 0 := rfl
theorem grade2_s (a : MV K) : (grade 2 a).s = 0 := rfl
theorem grade2_e0 (a : MV K) : (grade 2 a).e0 = 0 := rfl
theorem grade2_e1 (a : MV K) : (grade 2 a).e1 = 0 := rfl
theorem grade2_e01 (a : MV K) : (grade 2 a).e01 = a.e01 := rfl
theorem grade2_e2 (a : MV K) : (grade 2 a).e2 = 0 := rfl
theorem grade2_e02 (a : MV K) : (grade 2 a).e02 = a.e02 := rfl
theorem grade2_e12 (a : MV K) : (grade 2 a).e12 = a.e12 := rfl
theorem grade2_e012 (a : MV K) : (grade 2 a).e012 = 0 := rfl
theorem grade2_e3 (a : MV K) : (grade 2 a).e3 = 0 := rfl
theorem grade2_e03 (a : MV K) : (grade 2 a).e03 = a.e03 := rfl
theorem grade2_e13 (a : MV K) : (grade 2 a).e13 = a.e13 := rfl
theorem grade2_e013 (a : MV K) : (grade 2 a).e013 = 0 := rfl
theorem grade2_e23 (a : MV K) : (grade 2 a).e23 = a.e23 := rfl
theorem grade2_e023 (a : MV K) : (grade 2 a).e023 = 0 := rfl
theorem grade2_e123 (a : MV K) : (grade 2 a).e123 = 0 := rfl
theorem grade2_e0123 (a : MV K) : (grade 2 a).e0123 = 0 := rfl
theorem grade3_s (a : MV K) : (grade 3 a).s = 0 := rfl
theorem grade3_e0 (a : MV K) : (grade 3 a).e0 = 0 := rfl
theorem grade3_e1 (a : MV K) : (grade 3 a).e1 = 0 := rfl
theorem grade3_e01 (a : MV K) : (grade 3 a).e01 = 0 := rfl
theorem grade3_e2 (a : MV K) : (grade 3 a).e2 = 0 := rfl
theorem grade3_e02 (a : MV K) : (grade 3 a).e02 = 0 := rfl
theorem grade3_e12 (a : MV K) : (grade 3 a).e12 = 0 := rfl
theorem grade3_e012 (a : MV K) : (grade 3 a).e012 = a.e012 := rfl
theorem grade3_e3 (a : MV K) : (grade 3 a).e3 = 0 := rfl
theorem grade3_e03 (a : MV K) : (grade 3 a).e03 = 0 := rfl
theorem grade3_e13 (a : MV K) : (grade 3 a).e13 = 0 := rfl
theorem grade3_e013 (a : MV K) : (grade 3 a).e013 = a.e013 := rfl
theorem grade3_e23 (a : MV K) : (grade 3 a).e23 = 0 := rfl
theorem grade3_e023 (a : MV K) : (grade 3 a).e023 = a.e023 := rfl
theorem grade3_e123 (a : MV K) : (grade 3 a).e123 = a.e123 := rfl
theorem grade3_e0123 (a : MV K) : (grade 3 a).e0123 = 0 := rfl
theorem grade4_s (a : MV K) : (grade 4 a).s = 0 := rfl
theorem grade4_e0 (a : MV K) : (grade 4 a).e0 = 0 := rfl
theorem grade4_e1 (a : MV K) : (grade 4 a).e1 = 0 := rfl
theorem grade4_e01 (a : MV K) : (grade 4 a).e01 = 0 := rfl
theorem grade4_e2 (a : MV K) : (grade 4 a).e2 = 0 := rfl
theorem grade4_e02 (a : MV K) : (grade 4 a).e02 = 0 := rfl
theorem grade4_e12 (a : MV K) : (grade 4 a).e12 = 0 := rfl
theorem grade4_e012 (a : MV K) : (grade 4 a).e012 = 0 := rfl
theorem grade4_e3 (a : MV K) : (grade 4 a).e3 = 0 := rfl
theorem grade4_e03 (a : MV K) : (grade 4 a).e03 = 0 := rfl
theorem grade4_e13 (a : MV K) : (grade 4 a).e13 = 0 := rfl
theorem grade4_e013 (a : MV K) : (grade 4 a).e013 = 0 := rfl
theorem grade4_e23 (a : MV K) : (grade 4 a).e23 = 0 := rfl
theorem grade4_e023 (a : MV K) : (grade 4 a).e023 = 0 := rfl
theorem grade4_e123 (a : MV K) : (grade 4 a).e123 = 0 := rfl
theorem grade4_e0123 (a : MV K) : (grade 4 a).e0123 = a.e0123 := rfl
theorem grade5_s (a : MV K) : (grade 5 a).s = 0 := rfl
theorem grade5_e0 (a : MV K) : (grade 5 a).e0 = 0 := rfl
theorem grade5_e1 (a : MV K) : (grade 5 a).e1 = 0 := rfl
theorem grade5_e01 (a : MV K) : (grade 5 a).e01 = 0 := rfl
theorem grade5_e2 (a : MV K) : (grade 5 a).e2 = 0 := rfl
theorem grade5_e02 (a : MV K) : (grade 5 a).e02 = 0 := rfl
theorem grade5_e12 (a : MV K) : (grade 5 a).e12 = 0 := rfl
theorem grade5_e012 (a : MV K) : (grade 5 a).e012 = 0 := rfl
theorem grade5_e3 (a : MV K) : (grade 5 a).e3 = 0 := rfl
theorem grade5_e03 (a : MV K) : (grade 5 a).e03 = 0 := rfl
theorem grade5_e13 (a : MV K) : (grade 5 a).e13 = 0 := rfl
theorem grade5_e013 (a : MV K) : (grade 5 a).e013 = 0 := rfl
theorem grade5_e23 (a : MV K) : (grade 5 a).e23 = 0 := rfl
theorem grade5_e023 (a : MV K) : (grade 5 a).e023 = 0 := rfl
theorem grade5_e123 (a : MV K) : (grade 5 a).e123 = 0 := rfl
theorem grade5_e0123 (a : MV K) : (grade 5 a).e0123 = 0 := rfl
theorem grade6_s (a : MV K) : (grade 6 a).s = 0 := rfl
theorem grade6_e0 (a : MV K) : (grade 6 a).e0 = 0 := rfl
theorem grade6_e1 (a : MV K) : (grade 6 a).e1 = 0 := rfl
theorem grade6_e01 (a : MV K) : (grade 6 a).e01 = 0 := rfl
theorem grade6_e2 (a : MV K) : (grade 6 a).e2 = 0 := rfl
theorem grade6_e02 (a : MV K) : (grade 6 a).e02 = 0 := rfl
theorem grade6_e12 (a : MV K) : (grade 6 a).e12 = 0 := rfl
theorem grade6_e012 (a : MV K) : (grade 6 a).e012 = 0 := rfl
theorem grade6_e3 (a : MV K) : (grade 6 a).e3 = 0 := rfl
theorem grade6_e03 (a : MV K) : (grade 6 a).e03 = 0 := rfl
theorem grade6_e13 (a : MV K) : (grade 6 a).e13 = 0 := rfl
theorem grade6_e013 (a : MV K) : (grade 6 a).e013 = 0 := rfl
theorem grade6_e23 (a : MV K) : (grade 6 a).e23 = 0 := rfl
theorem grade6_e023 (a : MV K) : (grade 6 a).e023 = 0 := rfl
theorem grade6_e123 (a : MV K) : (grade 6 a).e123 = 0 := rfl
theorem grade6_e0123 (a : MV K) : (grade 6 a).e0123 = 0 := rfl
theorem grade7_s (a : MV K) : (grade 7 a).s = 0 := rfl
theorem grade7_e0 (a : MV K) : (grade 7 a).e0 = 0 := rfl
theorem grade7_e1 (a : MV K) : (grade 7 a).e1 = 0 := rfl
theorem grade7_e01 (a : MV K) : (grade 7 a).e01 = 0 := rfl
theorem grade7_e2 (a : MV K) : (grade 7 a).e2 = 0 := rfl
theorem grade7_e02 (a : MV K) : (grade 7 a).e02 = 0 := rfl
theorem grade7_e12 (a : MV K) : (grade 7 a).e12 = 0 := rfl
theorem grade7_e012 (a : MV K) : (grade 7 a).e012 = 0 := rfl
theorem grade7_e3 (a : MV K) : (grade 7 a).e3 = 0 := rfl
theorem grade7_e03 (a : MV K) : (grade 7 a).e03 = 0 := rfl
theorem grade7_e13 (a : MV K) : (grade 7 a).e13 = 0 := rfl
theorem grade7_e013 (a : MV K) : (grade 7 a).e013 = 0 := rfl
theorem grade7_e23 (a : MV K) : (grade 7 a).e23 = 0 := rfl
theorem grade7_e023 (a : MV K) : (grade 7 a).e023 = 0 := rfl
theorem grade7_e123 (a : MV K) : (grade 7 a).e123 = 0 := rfl
theorem grade7_e0123 (a : MV K) : (grade 7 a).e0123 = 0 := rfl
theorem grade8_s (a : MV K) : (grade 8 a).s = 0 := rfl
theorem grade8_e0 (a : MV K) : (grade 8 a).e0 = 0 := rfl
theorem grade8_e1 (a : MV K) : (grade 8 a).e1 = 0 := rfl
theorem grade8_e01 (a : MV K) : (grade 8 a).e01 = 0 := rfl
theorem grade8_e2 (a : MV K) : (grade 8 a).e2 = 0 := rfl
theorem grade8_e02 (a : MV K) : (grade 8 a).e02 = 0 := rfl
theorem grade8_e12 (a : MV K) : (grade 8 a).e12 = 0 := rfl
theorem grade8_e012 (a : MV K) : (grade 8 a).e012 = 0 := rfl
theorem grade8_e3 (a : MV K) : (grade 8 a).e3 = 0 := rfl
theorem grade8_e03 (a : MV K) : (grade 8 a).e03 = 0 := rfl
theorem grade8_e13 (a : MV K) : (grade 8 a).e13 = 0 := rfl
theorem grade8_e013 (a : MV K) : (grade 8 a).e013 = 0 := rfl
theorem grade8_e23 (a : MV K) : (grade 8 a).e23 = 0 := rfl
theorem grade8_e023 (a : MV K) : (grade 8 a).e023 = 0 := rfl
theorem grade8_e123 (a : MV K) : (grade 8 a).e123 = 0 := rfl
theorem grade8_e0123 (a : MV K) : (grade 8 a).e0123 = 0 := rfl
theorem wedge_eq (a b : MV K) : wedge a b = 0 + grade 0 (grade 0 a * grade 0 b) + grade 1 (grade 0 a * grade 1 b) + grade 2 (grade 0 a * grade 2 b) + grade 3 (grade 0 a * grade 3 b) + grade 4 (grade 0 a * grade 4 b) + grade 1 (grade 1 a * grade 0 b) + grade 2 (grade 1 a * grade 1 b) + grade 3 (grade 1 a * grade 2 b) + grade 4 (grade 1 a * grade 3 b) + grade 5 (grade 1 a * grade 4 b) + grade 2 (grade 2 a * grade 0 b) + grade 3 (grade 2 a * grade 1 b) + grade 4 (grade 2 a * grade 2 b) + grade 5 (grade 2 a * grade 3 b) + grade 6 (grade 2 a * grade 4 b) + grade 3 (grade 3 a * grade 0 b) + grade 4 (grade 3 a * grade 1 b) + grade 5 (grade 3 a * grade 2 b) + grade 6 (grade 3 a * grade 3 b) + grade 7 (grade 3 a * grade 4 b) + grade 4 (grade 4 a * grade 0 b) + grade 5 (grade 4 a * grade 1 b) + grade 6 (grade 4 a * grade 2 b) + grade 7 (grade 4 a * grade 3 b) + grade 8 (grade 4 a * grade 4 b) := rfl
theorem inner_eq (a b : MV K) : inner a b = 0 + grade 0 (grade 1 a * grade 1 b) + grade 1 (grade 1 a * grade 2 b) + grade 2 (grade 1 a * grade 3 b) + grade 3 (grade 1 a * grade 4 b) + grade 1 (grade 2 a * grade 1 b) + grade 0 (grade 2 a * grade 2 b) + grade 1 (grade 2 a * grade 3 b) + grade 2 (grade 2 a * grade 4 b) + grade 2 (grade 3 a * grade 1 b) + grade 1 (grade 3 a * grade 2 b) + grade 0 (grade 3 a * grade 3 b) + grade 1 (grade 3 a * grade 4 b) + grade 3 (grade 4 a * grade 1 b) + grade 2 (grade 4 a * grade 2 b) + grade 1 (grade 4 a * grade 3 b) + grade 0 (grade 4 a * grade 4 b) := rfl
theorem wedge_s (a b : MV K) : (wedge a b).s =
    a.s * b.s := by
  simp only [wedge_eq, zero_s, add_s, grade0_s, grade1_s, grade2_s, grade3_s, grade4_s, grade5_s, grade6_s, grade7_s, grade8_s]
  simp only [mul_s, grade0_s, grade0_e0, grade0_e1, grade0_e01, grade0_e2, grade0_e02, grade0_e12, grade0_e012, grade0_e3, grade0_e03, grade0_e13, grade0_e013, grade0_e23, grade0_e023, grade0_e123, grade0_e0123, grade1_s, grade1_e0, grade1_e1, grade1_e01, grade1_e2, grade1_e02, grade1_e12, grade1_e012, grade1_e3, grade1_e03, grade1_e13, grade1_e013, grade1_e23, grade1_e023, grade1_e123, grade1_e0123, grade2_s, grade2_e0, grade2_e1, grade2_e01, grade2_e2, grade2_e02, grade2_e12, grade2_e012, grade2_e3, grade2_e03, grade2_e13, grade2_e013, grade2_e23, grade2_e023, grade2_e123, grade2_e0123, grade3_s, grade3_e0, grade3_e1, grade3_e01, grade3_e2, grade3_e02, grade3_e12, grade3_e012, grade3_e3, grade3_e03, grade3_e13, grade3_e013, grade3_e23, grade3_e023, grade3_e123, grade3_e0123, grade4_s, grade4_e0, grade4_e1, grade4_e01, grade4_e2, grade4_e02, grade4_e12, grade4_e012, grade4_e3, grade4_e03, grade4_e13, grade4_e013, grade4_e23, grade4_e023, grade4_e123, grade4_e0123, zero_mul, mul_zero, add_zero, zero_add, sub_zero, zero_sub, neg_zero]
  try ring
theorem wedge_e0 (a b : MV K) : (wedge a b).e0 =
    a.s * b.e0 + a.e0 * b.s := by
  simp only [wedge_eq, zero_e0, add_e0, grade0_e0, grade1_e0, grade2_e0, grade3_e0, grade4_e0, grade5_e0, grade6_e0, grade7_e0, grade8_e0]
  simp only [mul_e0, grade0_s, grade0_e0, grade0_e1, grade0_e01, grade0_e2, grade0_e02, grade0_e12, grade0_e012, grade0_e3, grade0_e03, grade0_e13, grade0_e013, grade0_e23, grade0_e023, grade0_e123, grade0_e0123, grade1_s, grade1_e0, grade1_e1, grade1_e01, grade1_e2, grade1_e02, grade1_e12, grade1_e012, grade1_e3, grade1_e03, grade1_e13, grade1_e013, grade1_e23, grade1_e023, grade1_e123, grade1_e0123, grade2_s, grade2_e0, grade2_e1, grade2_e01, grade2_e2, grade2_e02, grade2_e12, grade2_e012, grade2_e3, grade2_e03, grade2_e13, grade2_e013, grade2_e23, grade2_e023, grade2_e123, grade2_e0123, grade3_s, grade3_e0, grade3_e1, grade3_e01, grade3_e2, grade3_e02, grade3_e12, grade3_e012, grade3_e3, grade3_e03, grade3_e13, grade3_e013, grade3_e23, grade3_e023, grade3_e123, grade3_e0123, grade4_s, grade4_e0, grade4_e1, grade4_e01, grade4_e2, grade4_e02, grade4_e12, grade4_e012, grade4_e3, grade4_e03, grade4_e13, grade4_e013, grade4_e23, grade4_e023, grade4_e123, grade4_e0123, zero_mul, mul_zero, add_zero, zero_add, sub_zero, zero_sub, neg_zero]
  try ring
theorem wedge_e1 (a b : MV K) : (wedge a b).e1 =
    a.s * b.e1 + a.e1 * b.s := by
  simp only [wedge_eq, zero_e1, add_e1, grade0_e1, grade1_e1, grade2_e1, grade3_e1, grade4_e1, grade5_e1, grade6_e1, grade7_e1, grade8_e1]
  simp only [mul_e1, grade0_s, grade0_e0, grade0_e1, grade0_e01, grade0_e2, grade0_e02, grade0_e12, grade0_e012, grade0_e3, grade0_e03, grade0_e13, grade0_e013, grade0_e23, grade0_e023, grade0_e123, grade0_e0123, grade1_s, grade1_e0, grade1_e1, grade1_e01, grade1_e2, grade1_e02, grade1_e12, grade1_e012, grade1_e3, grade1_e03, grade1_e13, grade1_e013, grade1_e23, grade1_e023, grade1_e123, grade1_e0123, grade2_s, grade2_e0, grade2_e1, grade2_e01, grade2_e2, grade2_e02, grade2_e12, grade2_e012, grade2_e3, grade2_e03, grade2_e13, grade2_e013, grade2_e23, grade2_e023, grade2_e123, grade2_e0123, grade3_s, grade3_e0, grade3_e1, grade3_e01, grade3_e2, grade3_e02, grade3_e12, grade3_e012, grade3_e3, grade3_e03, grade3_e13, grade3_e013, grade3_e23, grade3_e023, grade3_e123, grade3_e0123, grade4_s, grade4_e0, grade4_e1, grade4_e01, grade4_e2, grade4_e02, grade4_e12, grade4_e012, grade4_e3, grade4_e03, grade4_e13, grade4_e013, grade4_e23, grade4_e023, grade4_e123, grade4_e0123, zero_mul, mul_zero, add_zero, zero_add, sub_zero, zero_sub, neg_zero]
  try ring
theorem wedge_e01 (a b : MV K) : (wedge a b).e01 =
    a.s * b.e01 + a.e0 * b.e1 - a.e1 * b.e0 + a.e01 * b.s := by
  simp only [wedge_eq, zero_e01, add_e01, grade0_e01, grade1_e01, grade2_e01, grade3_e01, grade4_e01, grade5_e01, grade6_e01, grade7_e01, grade8_e01]
  simp only [mul_e01, grade0_s, grade0_e0, grade0_e1, grade0_e01, grade0_e2, grade0_e02, grade0_e12, grade0_e012, grade0_e3, grade0_e03, grade0_e13, grade0_e013, grade0_e23, grade0_e023, grade0_e123, grade0_e0123, grade1_s, grade1_e0, grade1_e1, grade1_e01, grade1_e2, grade1_e02, grade1_e12, grade1_e012, grade1_e3, grade1_e03, grade1_e13, grade1_e013, grade1_e23, grade1_e023, grade1_e123, grade1_e0123, grade2_s, grade2_e0, grade2_e1, grade2_e01, grade2_e2, grade2_e02, grade2_e12, grade2_e012, grade2_e3, grade2_e03, grade2_e13, grade2_e013, grade2_e23, grade2_e023, grade2_e123, grade2_e0123, grade3_s, grade3_e0, grade3_e1, grade3_e01, grade3_e2, grade3_e02, grade3_e12, grade3_e012, grade3_e3, grade3_e03, grade3_e13, grade3_e013, grade3_e23, grade3_e023, grade3_e123, grade3_e0123, grade4_s, grade4_e0, grade4_e1, grade4_e01, grade4_e2, grade4_e02, grade4_e12, grade4_e012, grade4_e3, grade4_e03, grade4_e13, grade4_e013, grade4_e23, grade4_e023, grade4_e123, grade4_e0123, zero_mul, mul_zero, add_zero, zero_add, sub_zero, zero_sub, neg_zero]
  try ring
theorem wedge_e2 (a b : MV K) : (wedge a b).e2 =
    a.s * b.e2 + a.e2 * b.s := by
  simp only [wedge_eq, zero_e2, add_e2, grade0_e2, grade1_e2, grade2_e2, grade3_e2, grade4_e2, grade5_e2, grade6_e2, grade7_e2, grade8_e2]
  simp only [mul_e2, grade0_s, grade0_e0, grade0_e1, grade0_e01, grade0_e2, grade0_e02, grade0_e12, grade0_e012, grade0_e3, grade0_e03, grade0_e13, grade0_e013, grade0_e23, grade0_e023, grade0_e123, grade0_e0123, grade1_s, grade1_e0, grade1_e1, grade1_e01, grade1_e2, grade1_e02, grade1_e12, grade1_e012, grade1_e3, grade1_e03, grade1_e13, grade1_e013, grade1_e23, grade1_e023, grade1_e123, grade1_e0123, grade2_s, grade2_e0, grade2_e1, grade2_e01, grade2_e2, grade2_e02, grade2_e12, grade2_e012, grade2_e3, grade2_e03, grade2_e13, grade2_e013, grade2_e23, grade2_e023, grade2_e123, grade2_e0123, grade3_s, grade3_e0, grade3_e1, grade3_e01, grade3_e2, grade3_e02, grade3_e12, grade3_e012, grade3_e3, grade3_e03, grade3_e13, grade3_e013, grade3_e23, grade3_e023, grade3_e123, grade3_e0123, grade4_s, grade4_e0, grade4_e1, grade4_e01, grade4_e2, grade4_e02, grade4_e12, grade4_e012, grade4_e3, grade4_e03, grade4_e13, grade4_e013, grade4_e23, grade4_e023, grade4_e123, grade4_e0123, zero_mul, mul_zero, add_zero, zero_add, sub_zero, zero_sub, neg_zero]
  try ring
theorem wedge_e02 (a b : MV K) : (wedge a b).e02 =
    a.s * b.e02 + a.e0 * b.e2 - a.e2 * b.e0 + a.e02 * b.s := by
  simp only [wedge_eq, zero_e02, add_e02, grade0_e02, grade1_e02, grade2_e02, grade3_e02, grade4_e02, grade5_e02, grade6_e02, grade7_e02, grade8_e02]
  simp only [mul_e02, grade0_s, grade0_e0, grade0_e1, grade0_e01, grade0_e2, grade0_e02, grade0_e12, grade0_e012, grade0_e3, grade0_e03, grade0_e13, grade0_e013, grade0_e23, grade0_e023, grade0_e123, grade0_e0123, grade1_s, grade1_e0, grade1_e1, grade1_e01, grade1_e2, grade1_e02, grade1_e12, grade1_e012, grade1_e3, grade1_e03, grade1_e13, grade1_e013, grade1_e23, grade1_e023, grade1_e123, grade1_e0123, grade2_s, grade2_e0, grade2_e1, grade2_e01, grade2_e2, grade2_e02, grade2_e12, grade2_e012, grade2_e3, grade2_e03, grade2_e13, grade2_e013, grade2_e23, grade2_e023, grade2_e123, grade2_e0123, grade3_s, grade3_e0, grade3_e1, grade3_e01, grade3_e2, grade3_e02, grade3_e12, grade3_e012, grade3_e3, grade3_e03, grade3_e13, grade3_e013, grade3_e23, grade3_e023, grade3_e123, grade3_e0123, grade4_s, grade4_e0, grade4_e1, grade4_e01, grade4_e2, grade4_e02, grade4_e12, grade4_e012, grade4_e3, grade4_e03, grade4_e13, grade4_e013, grade4_e23, grade4_e023, grade4_e123, grade4_e0123, zero_mul, mul_zero, add_zero, zero_add, sub_zero, zero_sub, neg_zero]
  try ring
theorem wedge_e12 (a b : MV K) : (wedge a b).e12 =
    a.s * b.e12 + a.e1 * b.e2 - a.e2 * b.e1 + a.e12 * b.s := by
  simp only [wedge_eq, zero_e12, add_e12, grade0_e12, grade1_e12, grade2_e12, grade3_e12, grade4_e12, grade5_e12, grade6_e12, grade7_e12, grade8_e12]
  simp only [mul_e12, grade0_s, grade0_e0, grade0_e1, grade0_e01, grade0_e2, grade0_e02, grade0_e12, grade0_e012, grade0_e3, grade0_e03, grade0_e13, grade0_e013, grade0_e23, grade0_e023, grade0_e123, grade0_e0123, grade1_s, grade1_e0, grade1_e1, grade1_e01, grade1_e2, grade1_e02, grade1_e12, grade1_e012, grade1_e3, grade1_e03, grade1_e13, grade1_e013, grade1_e23, grade1_e023, grade1_e123, grade1_e0123, grade2_s, grade2_e0, grade2_e1, grade2_e01, grade2_e2, grade2_e02, grade2_e12, grade2_e012, grade2_e3, grade2_e03, grade2_e13, grade2_e013, grade2_e23, grade2_e023, grade2_e123, grade2_e0123, grade3_s, grade3_e0, grade3_e1, grade3_e01, grade3_e2, grade3_e02, grade3_e12, grade3_e012, grade3_e3, grade3_e03, grade3_e13, grade3_e013, grade3_e23, grade3_e023, grade3_e123, grade3_e0123, grade4_s, grade4_e0, grade4_e1, grade4_e01, grade4_e2, grade4_e02, grade4_e12, grade4_e012, grade4_e3, grade4_e03, grade4_e13, grade4_e013, grade4_e23, grade4_e023, grade4_e123, grade4_e0123, zero_mul, mul_zero, add_zero, zero_add, sub_zero, zero_sub, neg_zero]
  try ring
theorem wedge_e012 (a b : MV K) : (wedge a b).e012 =
    a.s * b.e012 + a.e0 * b.e12 - a.e1 * b.e02 + a.e01 * b.e2 + a.e2 * b.e01 - a.e02 * b.e1 + a.e12 * b.e0 + a.e012 * b.s := by
  simp only [wedge_eq, zero_e012, add_e012, grade0_e012, grade1_e012, grade2_e012, grade3_e012, grade4_e012, grade5_e012, grade6_e012, grade7_e012, grade8_e012]
  simp only [mul_e012, grade0_s, grade0_e0, grade0_e1, grade0_e01, grade0_e2, grade0_e02, grade0_e12, grade0_e012, grade0_e3, grade0_e03, grade0_e13, grade0_e013, grade0_e23, grade0_e023, grade0_e123, grade0_e0123, grade1_s, grade1_e0, grade1_e1, grade1_e01, grade1_e2, grade1_e02, grade1_e12, grade1_e012, grade1_e3, grade1_e03, grade1_e13, grade1_e013, grade1_e23, grade1_e023, grade1_e123, grade1_e0123, grade2_s, grade2_e0, grade2_e1, grade2_e01, grade2_e2, grade2_e02, grade2_e12, grade2_e012, grade2_e3, grade2_e03, grade2_e13, grade2_e013, grade2_e23, grade2_e023, grade2_e123, grade2_e0123, grade3_s, grade3_e0, grade3_e1, grade3_e01, grade3_e2, grade3_e02, grade3_e12, grade3_e012, grade3_e3, grade3_e03, grade3_e13, grade3_e013, grade3_e23, grade3_e023, grade3_e123, grade3_e0123, grade4_s, grade4_e0, grade4_e1, grade4_e01, grade4_e2, grade4_e02, grade4_e12, grade4_e012, grade4_e3, grade4_e03, grade4_e13, grade4_e013, grade4_e23, grade4_e023, grade4_e123, grade4_e0123, zero_mul, mul_zero, add_zero, zero_add, sub_zero, zero_sub, neg_zero]
  try ring
theorem wedge_e3 (a b : MV K) : (wedge a b).e3 =
    a.s * b.e3 + a.e3 * b.s := by
  simp only [wedge_eq, zero_e3, add_e3, grade0_e3, grade1_e3, grade2_e3, grade3_e3, grade4_e3, grade5_e3, grade6_e3, grade7_e3, grade8_e3]
  simp only [mul_e3, grade0_s, grade0_e0, grade0_e1, grade0_e01, grade0_e2, grade0_e02, grade0_e12, grade0_e012, grade0_e3, grade0_e03, grade0_e13, grade0_e013, grade0_e23, grade0_e023, grade0_e123, grade0_e0123, grade1_s, grade1_e0, grade1_e1, grade1_e01, grade1_e2, grade1_e02, grade1_e12, grade1_e012, grade1_e3, grade1_e03, grade1_e13, grade1_e013, grade1_e23, grade1_e023, grade1_e123, grade1_e0123, grade2_s, grade2_e0, grade2_e1, grade2_e01, grade2_e2, grade2_e02, grade2_e12, grade2_e012, grade2_e3, grade2_e03, grade2_e13, grade2_e013, grade2_e23, grade2_e023, grade2_e123, grade2_e0123, grade3_s, grade3_e0, grade3_e1, grade3_e01, grade3_e2, grade3_e02, grade3_e12, grade3_e012, grade3_e3, grade3_e03, grade3_e13, grade3_e013, grade3_e23, grade3_e023, grade3_e123, grade3_e0123, grade4_s, grade4_e0, grade4_e1, grade4_e01, grade4_e2, grade4_e02, grade4_e12, grade4_e012, grade4_e3, grade4_e03, grade4_e13, grade4_e013, grade4_e23, grade4_e023, grade4_e123, grade4_e0123, zero_mul, mul_zero, add_zero, zero_add, sub_zero, zero_sub, neg_zero]
  try ring
theorem wedge_e03 (a b : MV K) : (wedge a b).e03 =
    a.s * b.e03 + a.e0 * b.e3 - a.e3 * b.e0 + a.e03 * b.s := by
  simp only [wedge_eq, zero_e03, add_e03, grade0_e03, grade1_e03, grade2_e03, grade3_e03, grade4_e03, grade5_e03, grade6_e03, grade7_e03, grade8_e03]
  simp only [mul_e03, grade0_s, grade0_e0, grade0_e1, grade0_e01, grade0_e2, grade0_e02, grade0_e12, grade0_e012, grade0_e3, grade0_e03, grade0_e13, grade0_e013, grade0_e23, grade0_e023, grade0_e123, grade0_e0123, grade1_s, grade1_e0, grade1_e1, grade1_e01, grade1_e2, grade1_e02, grade1_e12, grade1_e012, grade1_e3, grade1_e03, grade1_e13, grade1_e013, grade1_e23, grade1_e023, grade1_e123, grade1_e0123, grade2_s, grade2_e0, grade2_e1, grade2_e01, grade2_e2, grade2_e02, grade2_e12, grade2_e012, grade2_e3, grade2_e03, grade2_e13, grade2_e013, grade2_e23, grade2_e023, grade2_e123, grade2_e0123, grade3_s, grade3_e0, grade3_e1, grade3_e01, grade3_e2, grade3_e02, grade3_e12, grade3_e012, grade3_e3, grade3_e03, grade3_e13, grade3_e013, grade3_e23, grade3_e023, grade3_e123, grade3_e0123, grade4_s, grade4_e0, grade4_e1, grade4_e01, grade4_e2, grade4_e02, grade4_e12, grade4_e012, grade4_e3, grade4_e03, grade4_e13, grade4_e013, grade4_e23, grade4_e023, grade4_e123, grade4_e0123, zero_mul, mul_zero, add_zero, zero_add, sub_zero, zero_sub, neg_zero]
  try ring
theorem wedge_e13 (a b : MV K) : (wedge a b).e13 =
    a.s * b.e13 + a.e1 * b.e3 - a.e3 * b.e1 + a.e13 * b.s := by
  simp only [wedge_eq, zero_e13, add_e13, grade0_e13, grade1_e13, grade2_e13, grade3_e13, grade4_e13, grade5_e13, grade6_e13, grade7_e13, grade8_e13]
  simp only [mul_e13, grade0_s, grade0_e0, grade0_e1, grade0_e01, grade0_e2, grade0_e02, grade0_e12, grade0_e012, grade0_e3, grade0_e03, grade0_e13, grade0_e013, grade0_e23, grade0_e023, grade0_e123, grade0_e0123, grade1_s, grade1_e0, grade1_e1, grade1_e01, grade1_e2, grade1_e02, grade1_e12, grade1_e012, grade1_e3, grade1_e03, grade1_e13, grade1_e013, grade1_e23, grade1_e023, grade1_e123, grade1_e0123, grade2_s, grade2_e0, grade2_e1, grade2_e01, grade2_e2, grade2_e02, grade2_e12, grade2_e012, grade2_e3, grade2_e03, grade2_e13, grade2_e013, grade2_e23, grade2_e023, grade2_e123, grade2_e0123, grade3_s, grade3_e0, grade3_e1, grade3_e01, grade3_e2, grade3_e02, grade3_e12, grade3_e012, grade3_e3, grade3_e03, grade3_e13, grade3_e013, grade3_e23, grade3_e023, grade3_e123, grade3_e0123, grade4_s, grade4_e0, grade4_e1, grade4_e01, grade4_e2, grade4_e02, grade4_e12, grade4_e012, grade4_e3, grade4_e03, grade4_e13, grade4_e013, grade4_e23, grade4_e023, grade4_e123, grade4_e0123, zero_mul, mul_zero, add_zero, zero_add, sub_zero, zero_sub, neg_zero]
  try ring
theorem wedge_e013 (a b : MV K) : (wedge a b).e013 =
    a.s * b.e013 + a.e0 * b.e13 - a.e1 * b.e03 + a.e01 * b.e3 + a.e3 * b.e01 - a.e03 * b.e1 + a.e13 * b.e0 + a.e013 * b.s := by
  simp only [wedge_eq, zero_e013, add_e013, grade0_e013, grade1_e013, grade2_e013, grade3_e013, grade4_e013, grade5_e013, grade6_e013, grade7_e013, grade8_e013]
  simp only [mul_e013, grade0_s, grade0_e0, grade0_e1, grade0_e01, grade0_e2, grade0_e02, grade0_e12, grade0_e012, grade0_e3, grade0_e03, grade0_e13, grade0_e013, grade0_e23, grade0_e023, grade0_e123, grade0_e0123, grade1_s, grade1_e0, grade1_e1, grade1_e01, grade1_e2, grade1_e02, grade1_e12, grade1_e012, grade1_e3, grade1_e03, grade1_e13, grade1_e013, grade1_e23, grade1_e023, grade1_e123, grade1_e0123, grade2_s, grade2_e0, grade2_e1, grade2_e01, grade2_e2, grade2_e02, grade2_e12, grade2_e012, grade2_e3, grade2_e03, grade2_e13, grade2_e013, grade2_e23, grade2_e023, grade2_e123, grade2_e0123, grade3_s, grade3_e0, grade3_e1, grade3_e01, grade3_e2, grade3_e02, grade3_e12, grade3_e012, grade3_e3, grade3_e03, grade3_e13, grade3_e013, grade3_e23, grade3_e023, grade3_e123, grade3_e0123, grade4_s, grade4_e0, grade4_e1, grade4_e01, grade4_e2, grade4_e02, grade4_e12, grade4_e012, grade4_e3, grade4_e03, grade4_e13, grade4_e013, grade4_e23, grade4_e023, grade4_e123, grade4_e0123, zero_mul, mul_zero, add_zero, zero_add, sub_zero, zero_sub, neg_zero]
  try ring
theorem wedge_e23 (a b : MV K) : (wedge a b).e23 =
    a.s * b.e23 + a.e2 * b.e3 - a.e3 * b.e2 + a.e23 * b.s := by
  simp only [wedge_eq, zero_e23, add_e23, grade0_e23, grade1_e23, grade2_e23, grade3_e23, grade4_e23, grade5_e23, grade6_e23, grade7_e23, grade8_e23]
  simp only [mul_e23, grade0_s, grade0_e0, grade0_e1, grade0_e01, grade0_e2, grade0_e02, grade0_e12, grade0_e012, grade0_e3, grade0_e03, grade0_e13, grade0_e013, grade0_e23, grade0_e023, grade0_e123, grade0_e0123, grade1_s, grade1_e0, grade1_e1, grade1_e01, grade1_e2, grade1_e02, grade1_e12, grade1_e012, grade1_e3, grade1_e03, grade1_e13, grade1_e013, grade1_e23, grade1_e023, grade1_e123, grade1_e0123, grade2_s, grade2_e0, grade2_e1, grade2_e01, grade2_e2, grade2_e02, grade2_e12, grade2_e012, grade2_e3, grade2_e03, grade2_e13, grade2_e013, grade2_e23, grade2_e023, grade2_e123, grade2_e0123, grade3_s, grade3_e0, grade3_e1, grade3_e01, grade3_e2, grade3_e02, grade3_e12, grade3_e012, grade3_e3, grade3_e03, grade3_e13, grade3_e013, grade3_e23, grade3_e023, grade3_e123, grade3_e0123, grade4_s, grade4_e0, grade4_e1, grade4_e01, grade4_e2, grade4_e02, grade4_e12, grade4_e012, grade4_e3, grade4_e03, grade4_e13, grade4_e013, grade4_e23, grade4_e023, grade4_e123, grade4_e0123, zero_mul, mul_zero, add_zero, zero_add, sub_zero, zero_sub, neg_zero]
  try ring
theorem wedge_e023 (a b : MV K) : (wedge a b).e023 =
    a.s * b.e023 + a.e0 * b.e23 - a.e2 * b.e03 + a.e02 * b.e3 + a.e3 * b.e02 - a.e03 * b.e2 + a.e23 * b.e0 + a.e023 * b.s := by
  simp only [wedge_eq, zero_e023, add_e023, grade0_e023, grade1_e023, grade2_e023, grade3_e023, grade4_e023, grade5_e023, grade6_e023, grade7_e023, grade8_e023]
  simp only [mul_e023, grade0_s, grade0_e0, grade0_e1, grade0_e01, grade0_e2, grade0_e02, grade0_e12, grade0_e012, grade0_e3, grade0_e03, grade0_e13, grade0_e013, grade0_e23, grade0_e023, grade0_e123, grade0_e0123, grade1_s, grade1_e0, grade1_e1, grade1_e01, grade1_e2, grade1_e02, grade1_e12, grade1_e012, grade1_e3, grade1_e03, grade1_e13, grade1_e013, grade1_e23, grade1_e023, grade1_e123, grade1_e0123, grade2_s, grade2_e0, grade2_e1, grade2_e01, grade2_e2, grade2_e02, grade2_e12, grade2_e012, grade2_e3, grade2_e03, grade2_e13, grade2_e013, grade2_e23, grade2_e023, grade2_e123, grade2_e0123, grade3_s, grade3_e0, grade3_e1, grade3_e01, grade3_e2, grade3_e02, grade3_e12, grade3_e012, grade3_e3, grade3_e03, grade3_e13, grade3_e013, grade3_e23, grade3_e023, grade3_e123, grade3_e0123, grade4_s, grade4_e0, grade4_e1, grade4_e01, grade4_e2, grade4_e02, grade4_e12, grade4_e012, grade4_e3, grade4_e03, grade4_e13, grade4_e013, grade4_e23, grade4_e023, grade4_e123, grade4_e0123, zero_mul, mul_zero, add_zero, zero_add, sub_zero, zero_sub, neg_zero]
  try ring
theorem wedge_e123 (a b : MV K) : (wedge a b).e123 =
    a.s * b.e123 + a.e1 * b.e23 - a.e2 * b.e13 + a.e12 * b.e3 + a.e3 * b.e12 - a.e13 * b.e2 + a.e23 * b.e1 + a.e123 * b.s := by
  simp only [wedge_eq, zero_e123, add_e123, grade0_e123, grade1_e123, grade2_e123, grade3_e123, grade4_e123, grade5_e123, grade6_e123, grade7_e123, grade8_e123]
  simp only [mul_e123, grade0_s, grade0_e0, grade0_e1, grade0_e01, grade0_e2, grade0_e02, grade0_e12, grade0_e012, grade0_e3, grade0_e03, grade0_e13, grade0_e013, grade0_e23, grade0_e023, grade0_e123, grade0_e0123, grade1_s, grade1_e0, grade1_e1, grade1_e01, grade1_e2, grade1_e02, grade1_e12, grade1_e012, grade1_e3, grade1_e03, grade1_e13, grade1_e013, grade1_e23, grade1_e023, grade1_e123, grade1_e0123, grade2_s, grade2_e0, grade2_e1, grade2_e01, grade2_e2, grade2_e02, grade2_e12, grade2_e012, grade2_e3, grade2_e03, grade2_e13, grade2_e013, grade2_e23, grade2_e023, grade2_e123, grade2_e0123, grade3_s, grade3_e0, grade3_e1, grade3_e01, grade3_e2, grade3_e02, grade3_e12, grade3_e012, grade3_e3, grade3_e03, grade3_e13, grade3_e013, grade3_e23, grade3_e023, grade3_e123, grade3_e0123, grade4_s, grade4_e0, grade4_e1, grade4_e01, grade4_e2, grade4_e02, grade4_e12, grade4_e012, grade4_e3, grade4_e03, grade4_e13, grade4_e013, grade4_e23, grade4_e023, grade4_e123, grade4_e0123, zero_mul, mul_zero, add_zero, zero_add, sub_zero, zero_sub, neg_zero]
  try ring
theorem wedge_e0123 (a b : MV K) : (wedge a b).e0123 =
    a.s * b.e0123 + a.e0 * b.e123 - a.e1 * b.e023 + a.e01 * b.e23 + a.e2 * b.e013 - a.e02 * b.e13 + a.e12 * b.e03 + a.e012 * b.e3 - a.e3 * b.e012 + a.e03 * b.e12 - a.e13 * b.e02 - a.e013 * b.e2 + a.e23 * b.e01 + a.e023 * b.e1 - a.e123 * b.e0 + a.e0123 * b.s := by
  simp only [wedge_eq, zero_e0123, add_e0123, grade0_e0123, grade1_e0123, grade2_e0123, grade3_e0123, grade4_e0123, grade5_e0123, grade6_e0123, grade7_e0123, grade8_e0123]
  simp only [mul_e0123, grade0_s, grade0_e0, grade0_e1, grade0_e01, grade0_e2, grade0_e02, grade0_e12, grade0_e012, grade0_e3, grade0_e03, grade0_e13, grade0_e013, grade0_e23, grade0_e023, grade0_e123, grade0_e0123, grade1_s, grade1_e0, grade1_e1, grade1_e01, grade1_e2, grade1_e02, grade1_e12, grade1_e012, grade1_e3, grade1_e03, grade1_e13, grade1_e013, grade1_e23, grade1_e023, grade1_e123, grade1_e0123, grade2_s, grade2_e0, grade2_e1, grade2_e01, grade2_e2, grade2_e02, grade2_e12, grade2_e012, grade2_e3, grade2_e03, grade2_e13, grade2_e013, grade2_e23, grade2_e023, grade2_e123, grade2_e0123, grade3_s, grade3_e0, grade3_e1, grade3_e01, grade3_e2, grade3_e02, grade3_e12, grade3_e012, grade3_e3, grade3_e03, grade3_e13, grade3_e013, grade3_e23, grade3_e023, grade3_e123, grade3_e0123, grade4_s, grade4_e0, grade4_e1, grade4_e01, grade4_e2, grade4_e02, grade4_e12, grade4_e012, grade4_e3, grade4_e03, grade4_e13, grade4_e013, grade4_e23, grade4_e023, grade4_e123, grade4_e0123, zero_mul, mul_zero, add_zero, zero_add, sub_zero, zero_sub, neg_zero]
  try ring
theorem inner_s (a b : MV K) : (inner a b).s =
    a.e1 * b.e1 + a.e2 * b.e2 - a.e12 * b.e12 + a.e3 * b.e3 - a.e13 * b.e13 - a.e23 * b.e23 - a.e123 * b.e123 := by
  simp only [inner_eq, zero_s, add_s, grade0_s, grade1_s, grade2_s, grade3_s]
  simp only [mul_s, grade0_s, grade0_e0, grade0_e1, grade0_e01, grade0_e2, grade0_e02, grade0_e12, grade0_e012, grade0_e3, grade0_e03, grade0_e13, grade0_e013, grade0_e23, grade0_e023, grade0_e123, grade0_e0123, grade1_s, grade1_e0, grade1_e1, grade1_e01, grade1_e2, grade1_e02, grade1_e12, grade1_e012, grade1_e3, grade1_e03, grade1_e13, grade1_e013, grade1_e23, grade1_e023, grade1_e123, grade1_e0123, grade2_s, grade2_e0, grade2_e1, grade2_e01, grade2_e2, grade2_e02, grade2_e12, grade2_e012, grade2_e3, grade2_e03, grade2_e13, grade2_e013, grade2_e23, grade2_e023, grade2_e123, grade2_e0123, grade3_s, grade3_e0, grade3_e1, grade3_e01, grade3_e2, grade3_e02, grade3_e12, grade3_e012, grade3_e3, grade3_e03, grade3_e13, grade3_e013, grade3_e23, grade3_e023, grade3_e123, grade3_e0123, grade4_s, grade4_e0, grade4_e1, grade4_e01, grade4_e2, grade4_e02, grade4_e12, grade4_e012, grade4_e3, grade4_e03, grade4_e13, grade4_e013, grade4_e23, grade4_e023, grade4_e123, grade4_e0123, zero_mul, mul_zero, add_zero, zero_add, sub_zero, zero_sub, neg_zero]
  try ring
theorem inner_e0 (a b : MV K) : (inner a b).e0 =
    -a.e1 * b.e01 + a.e01 * b.e1 - a.e2 * b.e02 + a.e02 * b.e2 - a.e12 * b.e012 - a.e012 * b.e12 - a.e3 * b.e03 + a.e03 * b.e3 - a.e13 * b.e013 - a.e013 * b.e13 - a.e23 * b.e023 - a.e023 * b.e23 + a.e123 * b.e0123 - a.e0123 * b.e123 := by
  simp only [inner_eq, zero_e0, add_e0, grade0_e0, grade1_e0, grade2_e0, grade3_e0]
  simp only [mul_e0, grade0_s, grade0_e0, grade0_e1, grade0_e01, grade0_e2, grade0_e02, grade0_e12, grade0_e012, grade0_e3, grade0_e03, grade0_e13, grade0_e013, grade0_e23, grade0_e023, grade0_e123, grade0_e0123, grade1_s, grade1_e0, grade1_e1, grade1_e01, grade1_e2, grade1_e02, grade1_e12, grade1_e012, grade1_e3, grade1_e03, grade1_e13, grade1_e013, grade1_e23, grade1_e023, grade1_e123, grade1_e0123, grade2_s, grade2_e0, grade2_e1, grade2_e01, grade2_e2, grade2_e02, grade2_e12, grade2_e012, grade2_e3, grade2_e03, grade2_e13, grade2_e013, grade2_e23, grade2_e023, grade2_e123, grade2_e0123, grade3_s, grade3_e0, grade3_e1, grade3_e01, grade3_e2, grade3_e02, grade3_e12, grade3_e012, grade3_e3, grade3_e03, grade3_e13, grade3_e013, grade3_e23, grade3_e023, grade3_e123, grade3_e0123, grade4_s, grade4_e0, grade4_e1, grade4_e01, grade4_e2, grade4_e02, grade4_e12, grade4_e012, grade4_e3, grade4_e03, grade4_e13, grade4_e013, grade4_e23, grade4_e023, grade4_e123, grade4_e0123, zero_mul, mul_zero, add_zero, zero_add, sub_zero, zero_sub, neg_zero]
  try ring
theorem inner_e1 (a b : MV K) : (inner a b).e1 =
    -a.e2 * b.e12 + a.e12 * b.e2 - a.e3 * b.e13 + a.e13 * b.e3 - a.e23 * b.e123 - a.e123 * b.e23 := by
  simp only [inner_eq, zero_e1, add_e1, grade0_e1, grade1_e1, grade2_e1, grade3_e1]
  simp only [mul_e1, grade0_s, grade0_e0, grade0_e1, grade0_e01, grade0_e2, grade0_e02, grade0_e12, grade0_e012, grade0_e3, grade0_e03, grade0_e13, grade0_e013, grade0_e23, grade0_e023, grade0_e123, grade0_e0123, grade1_s, grade1_e0, grade1_e1, grade1_e01, grade1_e2, grade1_e02, grade1_e12, grade1_e012, grade1_e3, grade1_e03, grade1_e13, grade1_e013, grade1_e23, grade1_e023, grade1_e123, grade1_e0123, grade2_s, grade2_e0, grade2_e1, grade2_e01, grade2_e2, grade2_e02, grade2_e12, grade2_e012, grade2_e3, grade2_e03, grade2_e13, grade2_e013, grade2_e23, grade2_e023, grade2_e123, grade2_e0123, grade3_s, grade3_e0, grade3_e1, grade3_e01, grade3_e2, grade3_e02, grade3_e12, grade3_e012, grade3_e3, grade3_e03, grade3_e13, grade3_e013, grade3_e23, grade3_e023, grade3_e123, grade3_e0123, grade4_s, grade4_e0, grade4_e1, grade4_e01, grade4_e2, grade4_e02, grade4_e12, grade4_e012, grade4_e3, grade4_e03, grade4_e13, grade4_e013, grade4_e23, grade4_e023, grade4_e123, grade4_e0123, zero_mul, mul_zero, add_zero, zero_add, sub_zero, zero_sub, neg_zero]
  try ring
theorem inner_e01 (a b : MV K) : (inner a b).e01 =
    a.e2 * b.e012 + a.e012 * b.e2 + a.e3 * b.e013 + a.e013 * b.e3 - a.e23 * b.e0123 - a.e0123 * b.e23 := by
  simp only [inner_eq, zero_e01, add_e01, grade0_e01, grade1_e01, grade2_e01, grade3_e01]
  simp only [mul_e01, grade0_s, grade0_e0, grade0_e1, grade0_e01, grade0_e2, grade0_e02, grade0_e12, grade0_e012, grade0_e3, grade0_e03, grade0_e13, grade0_e013, grade0_e23, grade0_e023, grade0_e123, grade0_e0123, grade1_s, grade1_e0, grade1_e1, grade1_e01, grade1_e2, grade1_e02, grade1_e12, grade1_e012, grade1_e3, grade1_e03, grade1_e13, grade1_e013, grade1_e23, grade1_e023, grade1_e123, grade1_e0123, grade2_s, grade2_e0, grade2_e1, grade2_e01, grade2_e2, grade2_e02, grade2_e12, grade2_e012, grade2_e3, grade2_e03, grade2_e13, grade2_e013, grade2_e23, grade2_e023, grade2_e123, grade2_e0123, grade3_s, grade3_e0, grade3_e1, grade3_e01, grade3_e2, grade3_e02, grade3_e12, grade3_e012, grade3_e3, grade3_e03, grade3_e13, grade3_e013, grade3_e23, grade3_e023, grade3_e123, grade3_e0123, grade4_s, grade4_e0, grade4_e1, grade4_e01, grade4_e2, grade4_e02, grade4_e12, grade4_e012, grade4_e3, grade4_e03, grade4_e13, grade4_e013, grade4_e23, grade4_e023, grade4_e123, grade4_e0123, zero_mul, mul_zero, add_zero, zero_add, sub_zero, zero_sub, neg_zero]
  try ring
theorem inner_e2 (a b : MV K) : (inner a b).e2 =
    a.e1 * b.e12 - a.e12 * b.e1 - a.e3 * b.e23 + a.e13 * b.e123 + a.e23 * b.e3 + a.e123 * b.e13 := by
  simp only [inner_eq, zero_e2, add_e2, grade0_e2, grade1_e2, grade2_e2, grade3_e2]
  simp only [mul_e2, grade0_s, grade0_e0, grade0_e1, grade0_e01, grade0_e2, grade0_e02, grade0_e12, grade0_e012, grade0_e3, grade0_e03, grade0_e13, grade0_e013, grade0_e23, grade0_e023, grade0_e123, grade0_e0123, grade1_s, grade1_e0, grade1_e1, grade1_e01, grade1_e2, grade1_e02, grade1_e12, grade1_e012, grade1_e3, grade1_e03, grade1_e13, grade1_e013, grade1_e23, grade1_e023, grade1_e123, grade1_e0123, grade2_s, grade2_e0, grade2_e1, grade2_e01, grade2_e2, grade2_e02, grade2_e12, grade2_e012, grade2_e3, grade2_e03, grade2_e13, grade2_e013, grade2_e23, grade2_e023, grade2_e123, grade2_e0123, grade3_s, grade3_e0, grade3_e1, grade3_e01, grade3_e2, grade3_e02, grade3_e12, grade3_e012, grade3_e3, grade3_e03, grade3_e13, grade3_e013, grade3_e23, grade3_e023, grade3_e123, grade3_e0123, grade4_s, grade4_e0, grade4_e1, grade4_e01, grade4_e2, grade4_e02, grade4_e12, grade4_e012, grade4_e3, grade4_e03, grade4_e13, grade4_e013, grade4_e23, grade4_e023, grade4_e123, grade4_e0123, zero_mul, mul_zero, add_zero, zero_add, sub_zero, zero_sub, neg_zero]
  try ring
theorem inner_e02 (a b : MV K) : (inner a b).e02 =
    -a.e1 * b.e012 - a.e012 * b.e1 + a.e3 * b.e023 + a.e13 * b.e0123 + a.e023 * b.e3 + a.e0123 * b.e13 := by
  simp only [inner_eq, zero_e02, add_e02, grade0_e02, grade1_e02, grade2_e02, grade3_e02]
  simp only [mul_e02, grade0_s, grade0_e0, grade0_e1, grade0_e01, grade0_e2, grade0_e02, grade0_e12, grade0_e012, grade0_e3, grade0_e03, grade0_e13, grade0_e013, grade0_e23, grade0_e023, grade0_e123, grade0_e0123, grade1_s, grade1_e0, grade1_e1, grade1_e01, grade1_e2, grade1_e02, grade1_e12, grade1_e012, grade1_e3, grade1_e03, grade1_e13, grade1_e013, grade1_e23, grade1_e023, grade1_e123, grade1_e0123, grade2_s, grade2_e0, grade2_e1, grade2_e01, grade2_e2, grade2_e02, grade2_e12, grade2_e012, grade2_e3, grade2_e03, grade2_e13, grade2_e013, grade2_e23, grade2_e023, grade2_e123, grade2_e0123, grade3_s, grade3_e0, grade3_e1, grade3_e01, grade3_e2, grade3_e02, grade3_e12, grade3_e012, grade3_e3, grade3_e03, grade3_e13, grade3_e013, grade3_e23, grade3_e023, grade3_e123, grade3_e0123, grade4_s, grade4_e0, grade4_e1, grade4_e01, grade4_e2, grade4_e02, grade4_e12, grade4_e012, grade4_e3, grade4_e03, grade4_e13, grade4_e013, grade4_e23, grade4_e023, grade4_e123, grade4_e0123, zero_mul, mul_zero, add_zero, zero_add, sub_zero, zero_sub, neg_zero]
  try ring
theorem inner_e12 (a b : MV K) : (inner a b).e12 =
    a.e3 * b.e123 + a.e123 * b.e3 := by
  simp only [inner_eq, zero_e12, add_e12, grade0_e12, grade1_e12, grade2_e12, grade3_e12]
  simp only [mul_e12, grade0_s, grade0_e0, grade0_e1, grade0_e01, grade0_e2, grade0_e02, grade0_e12, grade0_e012, grade0_e3, grade0_e03, grade0_e13, grade0_e013, grade0_e23, grade0_e023, grade0_e123, grade0_e0123, grade1_s, grade1_e0, grade1_e1, grade1_e01, grade1_e2, grade1_e02, grade1_e12, grade1_e012, grade1_e3, grade1_e03, grade1_e13, grade1_e013, grade1_e23, grade1_e023, grade1_e123, grade1_e0123, grade2_s, grade2_e0, grade2_e1, grade2_e01, grade2_e2, grade2_e02, grade2_e12, grade2_e012, grade2_e3, grade2_e03, grade2_e13, grade2_e013, grade2_e23, grade2_e023, grade2_e123, grade2_e0123, grade3_s, grade3_e0, grade3_e1, grade3_e01, grade3_e2, grade3_e02, grade3_e12, grade3_e012, grade3_e3, grade3_e03, grade3_e13, grade3_e013, grade3_e23, grade3_e023, grade3_e123, grade3_e0123, grade4_s, grade4_e0, grade4_e1, grade4_e01, grade4_e2, grade4_e02, grade4_e12, grade4_e012, grade4_e3, grade4_e03, grade4_e13, grade4_e013, grade4_e23, grade4_e023, grade4_e123, grade4_e0123, zero_mul, mul_zero, add_zero, zero_add, sub_zero, zero_sub, neg_zero]
  try ring
theorem inner_e012 (a b : MV K) : (inner a b).e012 =
    -a.e3 * b.e0123 + a.e0123 * b.e3 := by
  simp only [inner_eq, zero_e012, add_e012, grade0_e012, grade1_e012, grade2_e012, grade3_e012]
  simp only [mul_e012, grade0_s, grade0_e0, grade0_e1, grade0_e01, grade0_e2, grade0_e02, grade0_e12, grade0_e012, grade0_e3, grade0_e03, grade0_e13, grade0_e013, grade0_e23, grade0_e023, grade0_e123, grade0_e0123, grade1_s, grade1_e0, grade1_e1, grade1_e01, grade1_e2, grade1_e02, grade1_e12, grade1_e012, grade1_e3, grade1_e03, grade1_e13, grade1_e013, grade1_e23, grade1_e023, grade1_e123, grade1_e0123, grade2_s, grade2_e0, grade2_e1, grade2_e01, grade2_e2, grade2_e02, grade2_e12, grade2_e012, grade2_e3, grade2_e03, grade2_e13, grade2_e013, grade2_e23, grade2_e023, grade2_e123, grade2_e0123, grade3_s, grade3_e0, grade3_e1, grade3_e01, grade3_e2, grade3_e02, grade3_e12, grade3_e012, grade3_e3, grade3_e03, grade3_e13, grade3_e013, grade3_e23, grade3_e023, grade3_e123, grade3_e0123, grade4_s, grade4_e0, grade4_e1, grade4_e01, grade4_e2, grade4_e02, grade4_e12, grade4_e012, grade4_e3, grade4_e03, grade4_e13, grade4_e013, grade4_e23, grade4_e023, grade4_e123, grade4_e0123, zero_mul, mul_zero, add_zero, zero_add, sub_zero, zero_sub, neg_zero]
  try ring
theorem inner_e3 (a b : MV K) : (inner a b).e3 =
    a.e1 * b.e13 + a.e2 * b.e23 - a.e12 * b.e123 - a.e13 * b.e1 - a.e23 * b.e2 - a.e123 * b.e12 := by
  simp only [inner_eq, zero_e3, add_e3, grade0_e3, grade1_e3, grade2_e3, grade3_e3]
  simp only [mul_e3, grade0_s, grade0_e0, grade0_e1, grade0_e01, grade0_e2, grade0_e02, grade0_e12, grade0_e012, grade0_e3, grade0_e03, grade0_e13, grade0_e013, grade0_e23, grade0_e023, grade0_e123, grade0_e0123, grade1_s, grade1_e0, grade1_e1, grade1_e01, grade1_e2, grade1_e02, grade1_e12, grade1_e012, grade1_e3, grade1_e03, grade1_e13, grade1_e013, grade1_e23, grade1_e023, grade1_e123, grade1_e0123, grade2_s, grade2_e0, grade2_e1, grade2_e01, grade2_e2, grade2_e02, grade2_e12, grade2_e012, grade2_e3, grade2_e03, grade2_e13, grade2_e013, grade2_e23, grade2_e023, grade2_e123, grade2_e0123, grade3_s, grade3_e0, grade3_e1, grade3_e01, grade3_e2, grade3_e02, grade3_e12, grade3_e012, grade3_e3, grade3_e03, grade3_e13, grade3_e013, grade3_e23, grade3_e023, grade3_e123, grade3_e0123, grade4_s, grade4_e0, grade4_e1, grade4_e01, grade4_e2, grade4_e02, grade4_e12, grade4_e012, grade4_e3, grade4_e03, grade4_e13, grade4_e013, grade4_e23, grade4_e023, grade4_e123, grade4_e0123, zero_mul, mul_zero, add_zero, zero_add, sub_zero, zero_sub, neg_zero]
  try ring
theorem inner_e03 (a b : MV K) : (inner a b).e03 =
    -a.e1 * b.e013 - a.e2 * b.e023 - a.e12 * b.e0123 - a.e013 * b.e1 - a.e023 * b.e2 - a.e0123 * b.e12 := by
  simp only [inner_eq, zero_e03, add_e03, grade0_e03, grade1_e03, grade2_e03, grade3_e03]
  simp only [mul_e03, grade0_s, grade0_e0, grade0_e1, grade0_e01, grade0_e2, grade0_e02, grade0_e12, grade0_e012, grade0_e3, grade0_e03, grade0_e13, grade0_e013, grade0_e23, grade0_e023, grade0_e123, grade0_e0123, grade1_s, grade1_e0, grade1_e1, grade1_e01, grade1_e2, grade1_e02, grade1_e12, grade1_e012, grade1_e3, grade1_e03, grade1_e13, grade1_e013, grade1_e23, grade1_e023, grade1_e123, grade1_e0123, grade2_s, grade2_e0, grade2_e1, grade2_e01, grade2_e2, grade2_e02, grade2_e12, grade2_e012, grade2_e3, grade2_e03, grade2_e13, grade2_e013, grade2_e23, grade2_e023, grade2_e123, grade2_e0123, grade3_s, grade3_e0, grade3_e1, grade3_e01, grade3_e2, grade3_e02, grade3_e12, grade3_e012, grade3_e3, grade3_e03, grade3_e13, grade3_e013, grade3_e23, grade3_e023, grade3_e123, grade3_e0123, grade4_s, grade4_e0, grade4_e1, grade4_e01, grade4_e2, grade4_e02, grade4_e12, grade4_e012, grade4_e3, grade4_e03, grade4_e13, grade4_e013, grade4_e23, grade4_e023, grade4_e123, grade4_e0123, zero_mul, mul_zero, add_zero, zero_add, sub_zero, zero_sub, neg_zero]
  try ring
theorem inner_e13 (a b : MV K) : (inner a b).e13 =
    -a.e2 * b.e123 - a.e123 * b.e2 := by
  simp only [inner_eq, zero_e13, add_e13, grade0_e13, grade1_e13, grade2_e13, grade3_e13]
  simp only [mul_e13, grade0_s, grade0_e0, grade0_e1, grade0_e01, grade0_e2, grade0_e02, grade0_e12, grade0_e012, grade0_e3, grade0_e03, grade0_e13, grade0_e013, grade0_e23, grade0_e023, grade0_e123, grade0_e0123, grade1_s, grade1_e0, grade1_e1, grade1_e01, grade1_e2, grade1_e02, grade1_e12, grade1_e012, grade1_e3, grade1_e03, grade1_e13, grade1_e013, grade1_e23, grade1_e023, grade1_e123, grade1_e0123, grade2_s, grade2_e0, grade2_e1, grade2_e01, grade2_e2, grade2_e02, grade2_e12, grade2_e012, grade2_e3, grade2_e03, grade2_e13, grade2_e013, grade2_e23, grade2_e023, grade2_e123, grade2_e0123, grade3_s, grade3_e0, grade3_e1, grade3_e01, grade3_e2, grade3_e02, grade3_e12, grade3_e012, grade3_e3, grade3_e03, grade3_e13, grade3_e013, grade3_e23, grade3_e023, grade3_e123, grade3_e0123, grade4_s, grade4_e0, grade4_e1, grade4_e01, grade4_e2, grade4_e02, grade4_e12, grade4_e012, grade4_e3, grade4_e03, grade4_e13, grade4_e013, grade4_e23, grade4_e023, grade4_e123, grade4_e0123, zero_mul, mul_zero, add_zero, zero_add, sub_zero, zero_sub, neg_zero]
  try ring
theorem inner_e013 (a b : MV K) : (inner a b).e013 =
    a.e2 * b.e0123 - a.e0123 * b.e2 := by
  simp only [inner_eq, zero_e013, add_e013, grade0_e013, grade1_e013, grade2_e013, grade3_e013]
  simp only [mul_e013, grade0_s, grade0_e0, grade0_e1, grade0_e01, grade0_e2, grade0_e02, grade0_e12, grade0_e012, grade0_e3, grade0_e03, grade0_e13, grade0_e013, grade0_e23, grade0_e023, grade0_e123, grade0_e0123, grade1_s, grade1_e0, grade1_e1, grade1_e01, grade1_e2, grade1_e02, grade1_e12, grade1_e012, grade1_e3, grade1_e03, grade1_e13, grade1_e013, grade1_e23, grade1_e023, grade1_e123, grade1_e0123, grade2_s, grade2_e0, grade2_e1, grade2_e01, grade2_e2, grade2_e02, grade2_e12, grade2_e012, grade2_e3, grade2_e03, grade2_e13, grade2_e013, grade2_e23, grade2_e023, grade2_e123, grade2_e0123, grade3_s, grade3_e0, grade3_e1, grade3_e01, grade3_e2, grade3_e02, grade3_e12, grade3_e012, grade3_e3, grade3_e03, grade3_e13, grade3_e013, grade3_e23, grade3_e023, grade3_e123, grade3_e0123, grade4_s, grade4_e0, grade4_e1, grade4_e01, grade4_e2, grade4_e02, grade4_e12, grade4_e012, grade4_e3, grade4_e03, grade4_e13, grade4_e013, grade4_e23, grade4_e023, grade4_e123, grade4_e0123, zero_mul, mul_zero, add_zero, zero_add, sub_zero, zero_sub, neg_zero]
  try ring
theorem inner_e23 (a b : MV K) : (inner a b).e23 =
    a.e1 * b.e123 + a.e123 * b.e1 := by
  simp only [inner_eq, zero_e23, add_e23, grade0_e23, grade1_e23, grade2_e23, grade3_e23]
  simp only [mul_e23, grade0_s, grade0_e0, grade0_e1, grade0_e01, grade0_e2, grade0_e02, grade0_e12, grade0_e012, grade0_e3, grade0_e03, grade0_e13, grade0_e013, grade0_e23, grade0_e023, grade0_e123, grade0_e0123, grade1_s, grade1_e0, grade1_e1, grade1_e01, grade1_e2, grade1_e02, grade1_e12, grade1_e012, grade1_e3, grade1_e03, grade1_e13, grade1_e013, grade1_e23, grade1_e023, grade1_e123, grade1_e0123, grade2_s, grade2_e0, grade2_e1, grade2_e01, grade2_e2, grade2_e02, grade2_e12, grade2_e012, grade2_e3, grade2_e03, grade2_e13, grade2_e013, grade2_e23, grade2_e023, grade2_e123, grade2_e0123, grade3_s, grade3_e0, grade3_e1, grade3_e01, grade3_e2, grade3_e02, grade3_e12, grade3_e012, grade3_e3, grade3_e03, grade3_e13, grade3_e013, grade3_e23, grade3_e023, grade3_e123, grade3_e0123, grade4_s, grade4_e0, grade4_e1, grade4_e01, grade4_e2, grade4_e02, grade4_e12, grade4_e012, grade4_e3, grade4_e03, grade4_e13, grade4_e013, grade4_e23, grade4_e023, grade4_e123, grade4_e0123, zero_mul, mul_zero, add_zero, zero_add, sub_zero, zero_sub, neg_zero]
  try ring
theorem inner_e023 (a b : MV K) : (inner a b).e023 =
    -a.e1 * b.e0123 + a.e0123 * b.e1 := by
  simp only [inner_eq, zero_e023, add_e023, grade0_e023, grade1_e023, grade2_e023, grade3_e023]
  simp only [mul_e023, grade0_s, grade0_e0, grade0_e1, grade0_e01, grade0_e2, grade0_e02, grade0_e12, grade0_e012, grade0_e3, grade0_e03, grade0_e13, grade0_e013, grade0_e23, grade0_e023, grade0_e123, grade0_e0123, grade1_s, grade1_e0, grade1_e1, grade1_e01, grade1_e2, grade1_e02, grade1_e12, grade1_e012, grade1_e3, grade1_e03, grade1_e13, grade1_e013, grade1_e23, grade1_e023, grade1_e123, grade1_e0123, grade2_s, grade2_e0, grade2_e1, grade2_e01, grade2_e2, grade2_e02, grade2_e12, grade2_e012, grade2_e3, grade2_e03, grade2_e13, grade2_e013, grade2_e23, grade2_e023, grade2_e123, grade2_e0123, grade3_s, grade3_e0, grade3_e1, grade3_e01, grade3_e2, grade3_e02, grade3_e12, grade3_e012, grade3_e3, grade3_e03, grade3_e13, grade3_e013, grade3_e23, grade3_e023, grade3_e123, grade3_e0123, grade4_s, grade4_e0, grade4_e1, grade4_e01, grade4_e2, grade4_e02, grade4_e12, grade4_e012, grade4_e3, grade4_e03, grade4_e13, grade4_e013, grade4_e23, grade4_e023, grade4_e123, grade4_e0123, zero_mul, mul_zero, add_zero, zero_add, sub_zero, zero_sub, neg_zero]
  try ring
theorem inner_e123 (a b : MV K) : (inner a b).e123 =
    0 := by
  simp only [inner_eq, zero_e123, add_e123, grade0_e123, grade1_e123, grade2_e123, grade3_e123]
  simp only [mul_e123, grade0_s, grade0_e0, grade0_e1, grade0_e01, grade0_e2, grade0_e02, grade0_e12, grade0_e012, grade0_e3, grade0_e03, grade0_e13, grade0_e013, grade0_e23, grade0_e023, grade0_e123, grade0_e0123, grade1_s, grade1_e0, grade1_e1, grade1_e01, grade1_e2, grade1_e02, grade1_e12, grade1_e012, grade1_e3, grade1_e03, grade1_e13, grade1_e013, grade1_e23, grade1_e023, grade1_e123, grade1_e0123, grade2_s, grade2_e0, grade2_e1, grade2_e01, grade2_e2, grade2_e02, grade2_e12, grade2_e012, grade2_e3, grade2_e03, grade2_e13, grade2_e013, grade2_e23, grade2_e023, grade2_e123, grade2_e0123, grade3_s, grade3_e0, grade3_e1, grade3_e01, grade3_e2, grade3_e02, grade3_e12, grade3_e012, grade3_e3, grade3_e03, grade3_e13, grade3_e013, grade3_e23, grade3_e023, grade3_e123, grade3_e0123, grade4_s, grade4_e0, grade4_e1, grade4_e01, grade4_e2, grade4_e02, grade4_e12, grade4_e012, grade4_e3, grade4_e03, grade4_e13, grade4_e013, grade4_e23, grade4_e023, grade4_e123, grade4_e0123, zero_mul, mul_zero, add_zero, zero_add, sub_zero, zero_sub, neg_zero]
  try ring
theorem inner_e0123 (a b : MV K) : (inner a b).e0123 =
    0 := by
  simp only [inner_eq, zero_e0123, add_e0123, grade0_e0123, grade1_e0123, grade2_e0123, grade3_e0123]
  simp only [mul_e0123, grade0_s, grade0_e0, grade0_e1, grade0_e01, grade0_e2, grade0_e02, grade0_e12, grade0_e012, grade0_e3, grade0_e03, grade0_e13, grade0_e013, grade0_e23, grade0_e023, grade0_e123, grade0_e0123, grade1_s, grade1_e0, grade1_e1, grade1_e01, grade1_e2, grade1_e02, grade1_e12, grade1_e012, grade1_e3, grade1_e03, grade1_e13, grade1_e013, grade1_e23, grade1_e023, grade1_e123, grade1_e0123, grade2_s, grade2_e0, grade2_e1, grade2_e01, grade2_e2, grade2_e02, grade2_e12, grade2_e012, grade2_e3, grade2_e03, grade2_e13, grade2_e013, grade2_e23, grade2_e023, grade2_e123, grade2_e0123, grade3_s, grade3_e0, grade3_e1, grade3_e01, grade3_e2, grade3_e02, grade3_e12, grade3_e012, grade3_e3, grade3_e03, grade3_e13, grade3_e013, grade3_e23, grade3_e023, grade3_e123, grade3_e0123, grade4_s, grade4_e0, grade4_e1, grade4_e01, grade4_e2, grade4_e02, grade4_e12, grade4_e012, grade4_e3, grade4_e03, grade4_e13, grade4_e013, grade4_e23, grade4_e023, grade4_e123, grade4_e0123, zero_mul, mul_zero, add_zero, zero_add, sub_zero, zero_sub, neg_zero]
  try ring

attribute [simp, pga] wedge_s inner_s wedge_e0 inner_e0 wedge_e1 inner_e1 wedge_e01 inner_e01 wedge_e2 inner_e2 wedge_e02 inner_e02 wedge_e12 inner_e12 wedge_e012 inner_e012 wedge_e3 inner_e3 wedge_e03 inner_e03 wedge_e13 inner_e13 wedge_e013 inner_e013 wedge_e23 inner_e23 wedge_e023 inner_e023 wedge_e123 inner_e123 wedge_e0123 inner_e0123

theorem rev_mul (a b : MV K) : rev (a * b) = rev b * rev a := by
  apply MV.ext <;> simp only [pga] <;> ring

@[simp, pga] theorem rev_rev (a : MV K) : rev (rev a) = a := by ext <;> simp
@[simp, pga] theorem J_J (a : MV K) : J (J a) = a := by ext <;> simp
theorem rev_add (a b : MV K) : rev (a + b) = rev a + rev b := by ext <;> simp <;> ring
theorem rev_one : rev (1 : MV K) = 1 := by ext <;> simp
theorem rev_neg (a : MV K) : rev (-a) = -rev a := by ext <;> simp
theorem rev_smul (r : K) (a : MV K) : rev (r • a) = r • rev a := by ext <;> simp

/-- The defining relations of the algebra. -/
theorem g0_sq : (g0 : MV K) * g0 = 0 := by ext <;> simp [g0]
theorem g1_sq : (g1 : MV K) * g1 = 1 := by ext <;> simp [g1]
theorem g2_sq : (g2 : MV K) * g2 = 1 := by ext <;> simp [g2]
theorem g3_sq : (g3 : MV K) * g3 = 1 := by ext <;> simp [g3]

theorem g0_g1 : (g0 : MV K) * g1 = -(g1 * g0) := by ext <;> simp [g0, g1]
theorem g0_g2 : (g0 : MV K) * g2 = -(g2 * g0) := by ext <;> simp [g0, g2]
theorem g0_g3 : (g0 : MV K) * g3 = -(g3 * g0) := by ext <;> simp [g0, g3]
theorem g1_g2 : (g1 : MV K) * g2 = -(g2 * g1) := by ext <;> simp [g1, g2]
theorem g1_g3 : (g1 : MV K) * g3 = -(g3 * g1) := by ext <;> simp [g1, g3]
theorem g2_g3 : (g2 : MV K) * g3 = -(g3 * g2) := by ext <;> simp [g2, g3]

end Ring
end MV
end PGA
