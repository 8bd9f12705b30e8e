import Verif.Spec.PGA
import Verif.Spec.Blade
import Mathlib.LinearAlgebra.CliffordAlgebra.Fold
import Mathlib.Tactic.Module

/-!
# Specification: `PGA.MV K` is the Clifford algebra of `diag(0, 1, 1, 1)`

The product formulas of `Verif/Spec/PGA.lean` are those of Mathlib's `CliffordAlgebra`: there is an
isomorphism of algebras that sends the generators to the generators, every multivector is the linear
combination of the 16 ascending products with its coefficients, and reversion is
`CliffordAlgebra.reverse`.
-/

namespace PGA

open Klein.Spec

variable {K : Type*} [CommRing K]

/-- The squares of the generators of Cl(3,0,1). -/
def sq : ℕ → K := fun i => if i = 0 then 0 else 1

/-- The quadratic form `x1² + x2² + x3²` on four dimensions. -/
abbrev Q (K : Type*) [CommRing K] : QuadraticForm K (Fin 4 → K) := diag (fun i : Fin 4 => sq (K := K) i)

theorem Q_apply (v : Fin 4 → K) : Q K v = v 1 * v 1 + v 2 * v 2 + v 3 * v 3 := by
  simp [Q, diag, QuadraticMap.weightedSumSquares_apply, Fin.sum_univ_four, sq]

/-- A vector as a multivector. -/
def vec : (Fin 4 → K) →ₗ[K] MV K where
  toFun v := ⟨0, v 0, v 1, 0, v 2, 0, 0, 0, v 3, 0, 0, 0, 0, 0, 0, 0⟩
  map_add' v w := by ext <;> simp
  map_smul' r v := by ext <;> simp

theorem vec_sq (v : Fin 4 → K) : vec v * vec v = algebraMap K (MV K) (Q K v) := by
  rw [Q_apply]
  ext <;> simp [vec, Algebra.algebraMap_eq_smul_one] <;> ring

/-- The homomorphism from the Clifford algebra. -/
def toMV : CliffordAlgebra (Q K) →ₐ[K] MV K := CliffordAlgebra.lift (Q K) ⟨vec, vec_sq⟩

theorem toMV_ι (v : Fin 4 → K) : toMV (CliffordAlgebra.ι (Q K) v) = vec v := by
  simp [toMV]

/-- The generators of the Clifford algebra. -/
abbrev e (K : Type*) [CommRing K] (i : ℕ) : CliffordAlgebra (Q K) := gen (fun i : Fin 4 => sq (K := K) i) i

/-- The linear combination of the ascending products. -/
def ofMV (a : MV K) : CliffordAlgebra (Q K) :=
  a.s • 1 + a.e0 • e K 0 + a.e1 • e K 1 + a.e01 • (e K 0 * e K 1)
    + a.e2 • e K 2 + a.e02 • (e K 0 * e K 2) + a.e12 • (e K 1 * e K 2) + a.e012 • (e K 0 * (e K 1 * e K 2))
    + a.e3 • e K 3 + a.e03 • (e K 0 * e K 3) + a.e13 • (e K 1 * e K 3) + a.e013 • (e K 0 * (e K 1 * e K 3))
    + a.e23 • (e K 2 * e K 3) + a.e023 • (e K 0 * (e K 2 * e K 3)) + a.e123 • (e K 1 * (e K 2 * e K 3))
    + a.e0123 • (e K 0 * (e K 1 * (e K 2 * e K 3)))

theorem toMV_e0 : toMV (e K 0) = MV.g0 := by
  simp only [e, gen, Nat.zero_lt_succ, dif_pos]
  rw [toMV_ι]; ext <;> simp [vec, MV.g0]
theorem toMV_e1 : toMV (e K 1) = MV.g1 := by
  simp only [e, gen, show 1 < 4 by decide, dif_pos]
  rw [toMV_ι]; ext <;> simp [vec, MV.g1]
theorem toMV_e2 : toMV (e K 2) = MV.g2 := by
  simp only [e, gen, show 2 < 4 by decide, dif_pos]
  rw [toMV_ι]; ext <;> simp [vec, MV.g2]
theorem toMV_e3 : toMV (e K 3) = MV.g3 := by
  simp only [e, gen, show 3 < 4 by decide, dif_pos]
  rw [toMV_ι]; ext <;> simp [vec, MV.g3]

private theorem m01 : (MV.g0 : MV K) * MV.g1 = ⟨0, 0, 0, 1, 0, 0, 0, 0, 0, 0, 0, 0, 0, 0, 0, 0⟩ := by
  ext <;> simp [MV.g0, MV.g1, MV.g2, MV.g3]
private theorem m02 : (MV.g0 : MV K) * MV.g2 = ⟨0, 0, 0, 0, 0, 1, 0, 0, 0, 0, 0, 0, 0, 0, 0, 0⟩ := by
  ext <;> simp [MV.g0, MV.g1, MV.g2, MV.g3]
private theorem m12 : (MV.g1 : MV K) * MV.g2 = ⟨0, 0, 0, 0, 0, 0, 1, 0, 0, 0, 0, 0, 0, 0, 0, 0⟩ := by
  ext <;> simp [MV.g0, MV.g1, MV.g2, MV.g3]
private theorem m03 : (MV.g0 : MV K) * MV.g3 = ⟨0, 0, 0, 0, 0, 0, 0, 0, 0, 1, 0, 0, 0, 0, 0, 0⟩ := by
  ext <;> simp [MV.g0, MV.g1, MV.g2, MV.g3]
private theorem m13 : (MV.g1 : MV K) * MV.g3 = ⟨0, 0, 0, 0, 0, 0, 0, 0, 0, 0, 1, 0, 0, 0, 0, 0⟩ := by
  ext <;> simp [MV.g0, MV.g1, MV.g2, MV.g3]
private theorem m23 : (MV.g2 : MV K) * MV.g3 = ⟨0, 0, 0, 0, 0, 0, 0, 0, 0, 0, 0, 0, 1, 0, 0, 0⟩ := by
  ext <;> simp [MV.g0, MV.g1, MV.g2, MV.g3]
private theorem m012 : (MV.g0 : MV K) * ⟨0, 0, 0, 0, 0, 0, 1, 0, 0, 0, 0, 0, 0, 0, 0, 0⟩ = ⟨0, 0, 0, 0, 0, 0, 0, 1, 0, 0, 0, 0, 0, 0, 0, 0⟩ := by
  ext <;> simp [MV.g0, MV.g1, MV.g2, MV.g3]
private theorem m013 : (MV.g0 : MV K) * ⟨0, 0, 0, 0, 0, 0, 0, 0, 0, 0, 1, 0, 0, 0, 0, 0⟩ = ⟨0, 0, 0, 0, 0, 0, 0, 0, 0, 0, 0, 1, 0, 0, 0, 0⟩ := by
  ext <;> simp [MV.g0, MV.g1, MV.g2, MV.g3]
private theorem m023 : (MV.g0 : MV K) * ⟨0, 0, 0, 0, 0, 0, 0, 0, 0, 0, 0, 0, 1, 0, 0, 0⟩ = ⟨0, 0, 0, 0, 0, 0, 0, 0, 0, 0, 0, 0, 0, 1, 0, 0⟩ := by
  ext <;> simp [MV.g0, MV.g1, MV.g2, MV.g3]
private theorem m123 : (MV.g1 : MV K) * ⟨0, 0, 0, 0, 0, 0, 0, 0, 0, 0, 0, 0, 1, 0, 0, 0⟩ = ⟨0, 0, 0, 0, 0, 0, 0, 0, 0, 0, 0, 0, 0, 0, 1, 0⟩ := by
  ext <;> simp [MV.g0, MV.g1, MV.g2, MV.g3]
private theorem m0123 : (MV.g0 : MV K) * ⟨0, 0, 0, 0, 0, 0, 0, 0, 0, 0, 0, 0, 0, 0, 1, 0⟩ = ⟨0, 0, 0, 0, 0, 0, 0, 0, 0, 0, 0, 0, 0, 0, 0, 1⟩ := by
  ext <;> simp [MV.g0, MV.g1, MV.g2, MV.g3]

theorem toMV_ofMV (a : MV K) : toMV (ofMV a) = a := by
  simp only [ofMV, map_add, map_smul, map_mul, map_one, toMV_e0, toMV_e1, toMV_e2, toMV_e3, m01, m02,
    m12, m03, m13, m23, m012, m013, m023, m123, m0123]
  ext <;> simp [MV.g0, MV.g1, MV.g2, MV.g3]

theorem ofMV_add (a b : MV K) : ofMV (a + b) = ofMV a + ofMV b := by
  simp only [ofMV, MV.add_s, MV.add_e0, MV.add_e1, MV.add_e01, MV.add_e2, MV.add_e02, MV.add_e12,
    MV.add_e012, MV.add_e3, MV.add_e03, MV.add_e13, MV.add_e013, MV.add_e23, MV.add_e023,
    MV.add_e123, MV.add_e0123]
  module

theorem ofMV_smul (r : K) (a : MV K) : ofMV (r • a) = r • ofMV a := by
  simp only [ofMV, MV.smul_s, MV.smul_e0, MV.smul_e1, MV.smul_e01, MV.smul_e2, MV.smul_e02, MV.smul_e12,
    MV.smul_e012, MV.smul_e3, MV.smul_e03, MV.smul_e13, MV.smul_e013, MV.smul_e23, MV.smul_e023,
    MV.smul_e123, MV.smul_e0123]
  module

section Rel
variable {A : Type*} [Ring A] [Algebra K A] {x : ℕ → A}

theorem swap {i j : ℕ} (h : x i * x j = -(x j * x i)) (y : A) : x i * (x j * y) = -(x j * (x i * y)) := by
  rw [← mul_assoc, h, neg_mul, mul_assoc]

theorem square {i : ℕ} {c : K} (h : x i * x i = algebraMap K A c) (y : A) : x i * (x i * y) = c • y := by
  rw [← mul_assoc, h, Algebra.smul_def]
end Rel

theorem ofMV_g (i : ℕ) (hi : i < 4) (g : MV K) (hg : g = [MV.g0, MV.g1, MV.g2, MV.g3][i]) (a : MV K) :
    ofMV (g * a) = e K i * ofMV a := by
  have G := gens (n := 4) (sq (K := K))
  have q0 : e K 0 * e K 0 = algebraMap K _ 0 := G.sq 0 (by decide)
  have q1 : e K 1 * e K 1 = algebraMap K _ 1 := G.sq 1 (by decide)
  have q2 : e K 2 * e K 2 = algebraMap K _ 1 := G.sq 2 (by decide)
  have q3 : e K 3 * e K 3 = algebraMap K _ 1 := G.sq 3 (by decide)
  have a10 : e K 1 * e K 0 = -(e K 0 * e K 1) := G.anti 1 (by decide) 0 (by decide) (by decide)
  have a20 : e K 2 * e K 0 = -(e K 0 * e K 2) := G.anti 2 (by decide) 0 (by decide) (by decide)
  have a30 : e K 3 * e K 0 = -(e K 0 * e K 3) := G.anti 3 (by decide) 0 (by decide) (by decide)
  have a21 : e K 2 * e K 1 = -(e K 1 * e K 2) := G.anti 2 (by decide) 1 (by decide) (by decide)
  have a31 : e K 3 * e K 1 = -(e K 1 * e K 3) := G.anti 3 (by decide) 1 (by decide) (by decide)
  have a32 : e K 3 * e K 2 = -(e K 2 * e K 3) := G.anti 3 (by decide) 2 (by decide) (by decide)
  have s10 := fun y => swap a10 y
  have s20 := fun y => swap a20 y
  have s30 := fun y => swap a30 y
  have s21 := fun y => swap a21 y
  have s31 := fun y => swap a31 y
  have s32 := fun y => swap a32 y
  have t0 := fun y => square q0 y
  have t1 := fun y => square q1 y
  have t2 := fun y => square q2 y
  have t3 := fun y => square q3 y
  simp only [map_zero, map_one] at q0 q1 q2 q3
  match i, hi, hg with
  | 0, _, hg | 1, _, hg | 2, _, hg | 3, _, hg =>
    subst hg
    simp only [ofMV, mul_add, mul_smul_comm, mul_one, q0, q1, q2, q3, a10, a20, a30, a21, a31, a32,
      s10, s20, s30, s21, s31, s32, t0, t1, t2, t3, mul_neg, neg_neg, zero_smul, one_smul, smul_zero,
      neg_zero]
    simp only [List.getElem_cons_zero, List.getElem_cons_succ, MV.g0, MV.g1, MV.g2, MV.g3, pga]
    module

theorem e_vec (v : Fin 4 → K) : CliffordAlgebra.ι (Q K) v = v 0 • e K 0 + v 1 • e K 1 + v 2 • e K 2 + v 3 • e K 3 := by
  have hv : v = v 0 • Pi.single 0 1 + v 1 • Pi.single 1 1 + v 2 • Pi.single 2 1 + v 3 • Pi.single 3 1 := by
    ext i; fin_cases i <;> simp
  conv_lhs => rw [hv]
  simp only [map_add, map_smul]
  rfl

theorem ofMV_vec (v : Fin 4 → K) (a : MV K) : ofMV (vec v * a) = CliffordAlgebra.ι (Q K) v * ofMV a := by
  have h : vec v = v 0 • MV.g0 + v 1 • MV.g1 + v 2 • MV.g2 + v 3 • MV.g3 := by
    ext <;> simp [vec, MV.g0, MV.g1, MV.g2, MV.g3]
  rw [h, e_vec]
  simp only [add_mul, smul_mul_assoc, ofMV_add, ofMV_smul]
  rw [ofMV_g 0 (by decide) MV.g0 rfl, ofMV_g 1 (by decide) MV.g1 rfl, ofMV_g 2 (by decide) MV.g2 rfl,
    ofMV_g 3 (by decide) MV.g3 rfl]

theorem ofMV_toMV (x : CliffordAlgebra (Q K)) : ofMV (toMV x) = x := by
  induction x using CliffordAlgebra.left_induction with
  | algebraMap r =>
    rw [AlgHom.commutes, Algebra.algebraMap_eq_smul_one, Algebra.algebraMap_eq_smul_one, ofMV_smul]
    congr 1
    simp [ofMV]
  | add x y hx hy => rw [map_add, ofMV_add, hx, hy]
  | ι_mul x v h => rw [map_mul, toMV_ι, ofMV_vec, h]

/-- **The specification is the Clifford algebra**: an isomorphism of algebras under which a
multivector is the combination of the ascending products of the generators with its coefficients. -/
noncomputable def equiv : MV K ≃ₐ[K] CliffordAlgebra (Q K) :=
  (AlgEquiv.ofBijective toMV ⟨Function.LeftInverse.injective ofMV_toMV,
    Function.RightInverse.surjective toMV_ofMV⟩).symm

theorem equiv_apply (a : MV K) : equiv a = ofMV a :=
  (AlgEquiv.symm_apply_eq _).2 (toMV_ofMV a).symm

/-- `ι v` is the vector with the coordinates of `v`. -/
theorem equiv_vec (v : Fin 4 → K) : equiv (vec v) = CliffordAlgebra.ι (Q K) v := by
  rw [equiv_apply, ← toMV_ι, ofMV_toMV]

/-- Reversion is Mathlib's. -/
theorem equiv_rev (a : MV K) : equiv (MV.rev a) = CliffordAlgebra.reverse (equiv a) := by
  have key : ∀ x : CliffordAlgebra (Q K), toMV (CliffordAlgebra.reverse x) = MV.rev (toMV x) := by
    intro x
    induction x using CliffordAlgebra.left_induction with
    | algebraMap r =>
      rw [CliffordAlgebra.reverse.commutes, AlgHom.commutes, Algebra.algebraMap_eq_smul_one]
      ext <;> simp
    | add x y hx hy =>
      rw [map_add, map_add, map_add, hx, hy]; ext <;> simp <;> ring
    | ι_mul x v h =>
      rw [CliffordAlgebra.reverse.map_mul, map_mul, map_mul, CliffordAlgebra.reverse_ι, h, toMV_ι]
      ext <;> simp [vec] <;> ring
  have := key (equiv a)
  rw [equiv_apply, toMV_ofMV] at this
  rw [equiv_apply, equiv_apply, ← this, ofMV_toMV]

/-- A case: `e2 e1 = -e12` and `e0 e0 = 0` come out of the formulas. -/
example : equiv (MV.g2 * MV.g1 + MV.g0 * MV.g0 : MV ℤ) = -(e ℤ 1 * e ℤ 2) := by
  rw [equiv_apply]
  simp [ofMV, MV.g0, MV.g1, MV.g2]

end PGA
