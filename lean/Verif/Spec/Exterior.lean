import Verif.Spec.Clifford
import Mathlib.LinearAlgebra.ExteriorAlgebra.Basic

/-!
# Specification: `PGA.MV.wedge` is the product of the exterior algebra

`Gr K` is `MV K` with `wedge` as multiplication.  It is isomorphic to Mathlib's
`ExteriorAlgebra K (Fin 4 → K)`, the generators being sent to the generators.
-/

namespace PGA

variable {K : Type*} [CommRing K]

/-- Multivectors, multiplied by the exterior product. -/
@[ext] structure Gr (K : Type*) where
  mv : MV K

namespace Gr

theorem wedge_assoc (a b c : MV K) : MV.wedge (MV.wedge a b) c = MV.wedge a (MV.wedge b c) := by
  apply MV.ext <;> simp only [pga] <;> ring

theorem one_wedge (a : MV K) : MV.wedge 1 a = a := by
  apply MV.ext <;> simp only [pga] <;> ring
theorem wedge_one (a : MV K) : MV.wedge a 1 = a := by
  apply MV.ext <;> simp only [pga] <;> ring
theorem zero_wedge (a : MV K) : MV.wedge 0 a = 0 := by
  apply MV.ext <;> simp only [pga] <;> ring
theorem wedge_zero (a : MV K) : MV.wedge a 0 = 0 := by
  apply MV.ext <;> simp only [pga] <;> ring
theorem wedge_add (a b c : MV K) : MV.wedge a (b + c) = MV.wedge a b + MV.wedge a c := by
  apply MV.ext <;> simp only [pga] <;> ring
theorem add_wedge (a b c : MV K) : MV.wedge (a + b) c = MV.wedge a c + MV.wedge b c := by
  apply MV.ext <;> simp only [pga] <;> ring

instance : Zero (Gr K) := ⟨⟨0⟩⟩
instance : One (Gr K) := ⟨⟨1⟩⟩
instance : Add (Gr K) := ⟨fun a b => ⟨a.mv + b.mv⟩⟩
instance : Neg (Gr K) := ⟨fun a => ⟨-a.mv⟩⟩
instance : Sub (Gr K) := ⟨fun a b => ⟨a.mv - b.mv⟩⟩
instance : SMul K (Gr K) := ⟨fun r a => ⟨r • a.mv⟩⟩
instance : Mul (Gr K) := ⟨fun a b => ⟨MV.wedge a.mv b.mv⟩⟩

@[simp] theorem zero_mv : (0 : Gr K).mv = 0 := rfl
@[simp] theorem one_mv : (1 : Gr K).mv = 1 := rfl
@[simp] theorem add_mv (a b : Gr K) : (a + b).mv = a.mv + b.mv := rfl
@[simp] theorem neg_mv (a : Gr K) : (-a).mv = -a.mv := rfl
@[simp] theorem sub_mv (a b : Gr K) : (a - b).mv = a.mv - b.mv := rfl
@[simp] theorem smul_mv (r : K) (a : Gr K) : (r • a).mv = r • a.mv := rfl
@[simp] theorem mul_mv (a b : Gr K) : (a * b).mv = MV.wedge a.mv b.mv := rfl

instance : Ring (Gr K) where
  add_assoc a b c := by ext1; simp [add_assoc]
  zero_add a := by ext1; simp
  add_zero a := by ext1; simp
  add_comm a b := by ext1; simp [add_comm]
  neg_add_cancel a := by ext1; simp
  sub_eq_add_neg a b := by ext1; simp [sub_eq_add_neg]
  mul_assoc a b c := by ext1; simp only [mul_mv, wedge_assoc]
  one_mul a := by ext1; simp only [mul_mv, one_mv, zero_mv, one_wedge]
  mul_one a := by ext1; simp only [mul_mv, one_mv, zero_mv, wedge_one]
  zero_mul a := by ext1; simp only [mul_mv, one_mv, zero_mv, zero_wedge]
  mul_zero a := by ext1; simp only [mul_mv, one_mv, zero_mv, wedge_zero]
  left_distrib a b c := by ext1; simp only [mul_mv, add_mv, wedge_add]
  right_distrib a b c := by ext1; simp only [mul_mv, add_mv, add_wedge]
  nsmul := nsmulRec
  zsmul := zsmulRec

def ofK : K →+* Gr K where
  toFun r := ⟨⟨r, 0, 0, 0, 0, 0, 0, 0, 0, 0, 0, 0, 0, 0, 0, 0⟩⟩
  map_one' := rfl
  map_zero' := rfl
  map_add' a b := by ext1; apply MV.ext <;> simp
  map_mul' a b := by ext1; apply MV.ext <;> simp only [mul_mv, pga] <;> ring

instance : Algebra K (Gr K) where
  algebraMap := ofK
  commutes' r a := by ext1; apply MV.ext <;> simp only [ofK, RingHom.coe_mk, MonoidHom.coe_mk, OneHom.coe_mk, mul_mv, pga] <;> ring
  smul_def' r a := by ext1; apply MV.ext <;> simp only [ofK, RingHom.coe_mk, MonoidHom.coe_mk, OneHom.coe_mk, mul_mv, smul_mv, pga] <;> ring

/-- A vector. -/
def vec : (Fin 4 → K) →ₗ[K] Gr K where
  toFun v := ⟨PGA.vec v⟩
  map_add' v w := by ext1; simp
  map_smul' r v := by ext1; simp

theorem vec_sq (v : Fin 4 → K) : vec v * vec v = 0 := by
  ext1; apply MV.ext <;> simp [vec, PGA.vec, pga] <;> ring

/-- The homomorphism from the exterior algebra. -/
def toGr : ExteriorAlgebra K (Fin 4 → K) →ₐ[K] Gr K := ExteriorAlgebra.lift K ⟨vec, vec_sq⟩

theorem toGr_ι (v : Fin 4 → K) : toGr (ExteriorAlgebra.ι K v) = vec v := by
  simp [toGr]

/-- The generators. -/
abbrev e (K : Type*) [CommRing K] (i : Fin 4) : ExteriorAlgebra K (Fin 4 → K) :=
  ExteriorAlgebra.ι K (Pi.single i 1)

/-- The linear combination of the ascending products. -/
def ofGr (x : Gr K) : ExteriorAlgebra K (Fin 4 → K) :=
  x.mv.s • 1 + x.mv.e0 • e K 0 + x.mv.e1 • e K 1 + x.mv.e01 • (e K 0 * e K 1)
    + x.mv.e2 • e K 2 + x.mv.e02 • (e K 0 * e K 2) + x.mv.e12 • (e K 1 * e K 2) + x.mv.e012 • (e K 0 * (e K 1 * e K 2))
    + x.mv.e3 • e K 3 + x.mv.e03 • (e K 0 * e K 3) + x.mv.e13 • (e K 1 * e K 3) + x.mv.e013 • (e K 0 * (e K 1 * e K 3))
    + x.mv.e23 • (e K 2 * e K 3) + x.mv.e023 • (e K 0 * (e K 2 * e K 3)) + x.mv.e123 • (e K 1 * (e K 2 * e K 3))
    + x.mv.e0123 • (e K 0 * (e K 1 * (e K 2 * e K 3)))

theorem ofGr_add (a b : Gr K) : ofGr (a + b) = ofGr a + ofGr b := by
  simp only [ofGr, add_mv, MV.add_s, MV.add_e0, MV.add_e1, MV.add_e01, MV.add_e2, MV.add_e02, MV.add_e12,
    MV.add_e012, MV.add_e3, MV.add_e03, MV.add_e13, MV.add_e013, MV.add_e23, MV.add_e023,
    MV.add_e123, MV.add_e0123]
  module

theorem ofGr_smul (r : K) (a : Gr K) : ofGr (r • a) = r • ofGr a := by
  simp only [ofGr, smul_mv, MV.smul_s, MV.smul_e0, MV.smul_e1, MV.smul_e01, MV.smul_e2, MV.smul_e02, MV.smul_e12,
    MV.smul_e012, MV.smul_e3, MV.smul_e03, MV.smul_e13, MV.smul_e013, MV.smul_e23, MV.smul_e023,
    MV.smul_e123, MV.smul_e0123]
  module

theorem toGr_e (i : Fin 4) : toGr (e K i) = vec (Pi.single i 1) := toGr_ι _

theorem toGr_ofGr (a : Gr K) : toGr (ofGr a) = a := by
  simp only [ofGr, map_add, map_smul, map_mul, map_one, toGr_e]
  ext1
  apply MV.ext <;> simp [vec, PGA.vec, pga]

theorem anti (i j : Fin 4) : e K i * e K j = -(e K j * e K i) := by
  rw [eq_neg_iff_add_eq_zero]; exact ExteriorAlgebra.ι_add_mul_swap _ _
theorem sq (i : Fin 4) : e K i * e K i = 0 := ExteriorAlgebra.ι_sq_zero _
theorem anti' (i j : Fin 4) (y) : e K i * (e K j * y) = -(e K j * (e K i * y)) := by
  rw [← mul_assoc, anti, neg_mul, mul_assoc]
theorem sq' (i : Fin 4) (y) : e K i * (e K i * y) = 0 := by rw [← mul_assoc, sq, zero_mul]

theorem ofGr_e (i : Fin 4) (a : Gr K) : ofGr (vec (Pi.single i 1) * a) = e K i * ofGr a := by
  have a10 := anti (K := K) 1 0
  have a20 := anti (K := K) 2 0
  have a30 := anti (K := K) 3 0
  have a21 := anti (K := K) 2 1
  have a31 := anti (K := K) 3 1
  have a32 := anti (K := K) 3 2
  have s10 := anti' (K := K) 1 0
  have s20 := anti' (K := K) 2 0
  have s30 := anti' (K := K) 3 0
  have s21 := anti' (K := K) 2 1
  have s31 := anti' (K := K) 3 1
  have s32 := anti' (K := K) 3 2
  fin_cases i
  all_goals
    simp only [Fin.zero_eta, Fin.mk_one, Fin.reduceFinMk]
    simp only [ofGr, mul_add, mul_smul_comm, mul_one, sq, sq', a10, a20, a30, a21, a31, a32,
      s10, s20, s30, s21, s31, s32, mul_neg, neg_neg, smul_zero, neg_zero, mul_zero]
    simp only [mul_mv, vec, PGA.vec, LinearMap.coe_mk, AddHom.coe_mk, pga, Pi.single_apply]
    simp only [Fin.reduceEq, if_true, if_false]
    module

theorem e_vec (v : Fin 4 → K) :
    ExteriorAlgebra.ι K v = v 0 • e K 0 + v 1 • e K 1 + v 2 • e K 2 + v 3 • e K 3 := by
  have hv : v = v 0 • Pi.single 0 1 + v 1 • Pi.single 1 1 + v 2 • Pi.single 2 1 + v 3 • Pi.single 3 1 := by
    ext i; fin_cases i <;> simp
  conv_lhs => rw [hv]
  simp only [map_add, map_smul]

theorem ofGr_vec (v : Fin 4 → K) (a : Gr K) : ofGr (vec v * a) = ExteriorAlgebra.ι K v * ofGr a := by
  have h : vec v = v 0 • vec (Pi.single 0 1) + v 1 • vec (Pi.single 1 1) + v 2 • vec (Pi.single 2 1)
      + v 3 • vec (Pi.single 3 1) := by
    ext1; apply MV.ext <;> simp [vec, PGA.vec]
  rw [h, e_vec]
  simp only [add_mul, smul_mul_assoc, ofGr_add, ofGr_smul, ofGr_e]

theorem ofGr_toGr (x : ExteriorAlgebra K (Fin 4 → K)) : ofGr (toGr x) = x := by
  induction x using CliffordAlgebra.left_induction with
  | algebraMap r =>
    rw [AlgHom.commutes, Algebra.algebraMap_eq_smul_one, ofGr_smul]
    have : ofGr (1 : Gr K) = 1 := by simp [ofGr]
    rw [this, ← Algebra.algebraMap_eq_smul_one]
  | add x y hx hy => rw [map_add, ofGr_add, hx, hy]
  | ι_mul x v h =>
    rw [map_mul]
    have : toGr (CliffordAlgebra.ι _ v) = vec v := toGr_ι v
    rw [this, ofGr_vec, h]

/-- **`wedge` is the product of the exterior algebra.** -/
noncomputable def equiv : Gr K ≃ₐ[K] ExteriorAlgebra K (Fin 4 → K) :=
  (AlgEquiv.ofBijective toGr ⟨Function.LeftInverse.injective ofGr_toGr,
    Function.RightInverse.surjective toGr_ofGr⟩).symm

theorem equiv_apply (a : Gr K) : equiv a = ofGr a :=
  (AlgEquiv.symm_apply_eq _).2 (toGr_ofGr a).symm

theorem equiv_vec (v : Fin 4 → K) : equiv ⟨PGA.vec v⟩ = ExteriorAlgebra.ι K v := by
  have : (⟨PGA.vec v⟩ : Gr K) = vec v := rfl
  rw [this, equiv_apply, ← toGr_ι, ofGr_toGr]

end Gr
end PGA
