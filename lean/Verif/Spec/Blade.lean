import Mathlib.LinearAlgebra.CliffordAlgebra.Basic
import Mathlib.LinearAlgebra.CliffordAlgebra.Conjugation
import Mathlib.Data.Nat.Bitwise
import Mathlib.Tactic.Abel

/-!
# Specification: basis blades of a Clifford algebra of any signature

`Q w` is the diagonal quadratic form with weights `w` on `Fin n → R`; the algebra is Mathlib's
`CliffordAlgebra`.  `blade S` is the product, in increasing order, of the generators `e i` whose bit
is set in `S`.  Independent of the model.
-/

namespace Klein.Spec

variable {R : Type*} [CommRing R]

/-- The diagonal form `Σ w i * x i ^ 2`. -/
def diag {n : ℕ} (w : Fin n → R) : QuadraticForm R (Fin n → R) :=
  QuadraticMap.weightedSumSquares R w

variable {A : Type*} [Ring A] [Algebra R A]

/-- `e 0, …, e (n-1)` satisfy the Clifford relations with squares `w`. -/
structure Gens (n : ℕ) (w : ℕ → R) (e : ℕ → A) : Prop where
  sq : ∀ i < n, e i * e i = algebraMap R A (w i)
  anti : ∀ i < n, ∀ j < n, i ≠ j → e i * e j = -(e j * e i)

/-- The product of the `e i` with `i < n` and bit `i` of `S` set, in increasing order. -/
def blade (e : ℕ → A) (n S : ℕ) : A := (((List.range n).filter fun i => S.testBit i).map e).prod

/-- The generators of the Clifford algebra of `diag w`. -/
def gen {n : ℕ} (w : Fin n → R) (i : ℕ) : CliffordAlgebra (diag w) :=
  if h : i < n then CliffordAlgebra.ι (diag w) (Pi.single ⟨i, h⟩ 1) else 0

theorem diag_single {n : ℕ} (w : Fin n → R) (i : Fin n) : diag w (Pi.single i 1) = w i := by
  simp [diag, QuadraticMap.weightedSumSquares_apply, Pi.single_apply]

theorem diag_add_single {n : ℕ} (w : Fin n → R) (i j : Fin n) (h : i ≠ j) :
    diag w (Pi.single i 1 + Pi.single j 1) = w i + w j := by
  simp only [diag, QuadraticMap.weightedSumSquares_apply, Pi.add_apply, Pi.single_apply]
  have : ∀ x : Fin n, w x • (((if x = i then (1 : R) else 0) + if x = j then 1 else 0) *
      ((if x = i then (1 : R) else 0) + if x = j then 1 else 0))
      = (if x = i then w i else 0) + (if x = j then w j else 0) := by
    intro x
    by_cases h1 : x = i
    · subst h1; simp [h]
    · by_cases h2 : x = j
      · subst h2; simp [h1]
      · simp [h1, h2]
  rw [Finset.sum_congr rfl fun x _ => this x, Finset.sum_add_distrib]
  simp

/-- They satisfy the relations. -/
theorem gens {n : ℕ} (w : ℕ → R) : Gens n w (gen fun i : Fin n => w i) where
  sq i hi := by
    rw [gen, dif_pos hi, CliffordAlgebra.ι_sq_scalar, diag_single]
  anti i hi j hj h := by
    rw [gen, dif_pos hi, gen, dif_pos hj, eq_neg_iff_add_eq_zero, CliffordAlgebra.ι_mul_ι_add_swap,
      QuadraticMap.polar, diag_add_single _ _ _ (by simpa using h), diag_single, diag_single]
    simp

end Klein.Spec
