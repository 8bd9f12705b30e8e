import Mathlib.Algebra.Quaternion
import Mathlib.Algebra.DualNumber
import Mathlib.Algebra.Group.Subgroup.Ker
import Verif.Props.DoubleCover

/-!
# C81: motors are the dual quaternions, and the normalised ones form a group

motor.hpp:25-33: "The motor algebra is isomorphic to the dual quaternions" and motors form a group that
acts on space; README.md:53-66 says the same of rotors and quaternions.

The specification is Mathlib's: `Quaternion K`, `DualNumber (Quaternion K)`, `Group`, `MonoidHom`.
-/

set_option linter.unusedSimpArgs false
set_option linter.unusedSectionVars false

namespace Klein

open PGA PGA.MV Euclid

variable {K : Type} [CommRing K]

/-- The quaternion of a rotor.  The unit `i` is `-e23`, `j` is `-e31` and `k` is `-e12`, because
`e23 * e31 = -e12`. -/
def Rotor.toQuat (r : Rotor K) : Quaternion K := ⟨r.p1.l0, -r.p1.l1, -r.p1.l2, -r.p1.l3⟩

/-- The dual quaternion of a motor.  The dual unit is `e0123`, so that `e01` is the dual unit times
`i`, and so on. -/
def Motor.toDQ (m : Motor K) : DualNumber (Quaternion K) :=
  (⟨m.p1.l0, -m.p1.l1, -m.p1.l2, -m.p1.l3⟩, ⟨m.p2.l0, m.p2.l1, m.p2.l2, m.p2.l3⟩)

/-- The quaternion conjugate of a dual quaternion. -/
def dqConj (q : DualNumber (Quaternion K)) : DualNumber (Quaternion K) := (star q.1, star q.2)

theorem dq_ext {a b : DualNumber (Quaternion K)} (h1 : a.1 = b.1) (h2 : a.2 = b.2) : a = b :=
  Prod.ext h1 h2

section
variable (r : Rotor K) (m : Motor K)
theorem Rotor.re_toQuat : r.toQuat.re = r.p1.l0 := rfl
theorem Rotor.imI_toQuat : r.toQuat.imI = -r.p1.l1 := rfl
theorem Rotor.imJ_toQuat : r.toQuat.imJ = -r.p1.l2 := rfl
theorem Rotor.imK_toQuat : r.toQuat.imK = -r.p1.l3 := rfl
theorem Motor.re_toDQ : m.toDQ.1.re = m.p1.l0 := rfl
theorem Motor.imI_toDQ : m.toDQ.1.imI = -m.p1.l1 := rfl
theorem Motor.imJ_toDQ : m.toDQ.1.imJ = -m.p1.l2 := rfl
theorem Motor.imK_toDQ : m.toDQ.1.imK = -m.p1.l3 := rfl
theorem Motor.re_toDQ2 : m.toDQ.2.re = m.p2.l0 := rfl
theorem Motor.imI_toDQ2 : m.toDQ.2.imI = m.p2.l1 := rfl
theorem Motor.imJ_toDQ2 : m.toDQ.2.imJ = m.p2.l2 := rfl
theorem Motor.imK_toDQ2 : m.toDQ.2.imK = m.p2.l3 := rfl
end

/-- Compares quaternions component by component. -/
macro "quat_ring" : tactic => `(tactic|
  (ext <;> simp only [Quaternion.re_mul, Quaternion.imI_mul, Quaternion.imJ_mul,
    Quaternion.imK_mul, Quaternion.re_add, Quaternion.imI_add, Quaternion.imJ_add, Quaternion.imK_add,
    Quaternion.re_star, Quaternion.imI_star, Quaternion.imJ_star, Quaternion.imK_star,
    Quaternion.re_smul, Quaternion.imI_smul, Quaternion.imJ_smul, Quaternion.imK_smul,
    Quaternion.re_one, Quaternion.imI_one, Quaternion.imJ_one, Quaternion.imK_one,
    Quaternion.re_zero, Quaternion.imI_zero, Quaternion.imJ_zero, Quaternion.imK_zero,
    Rotor.re_toQuat, Rotor.imI_toQuat, Rotor.imJ_toQuat, Rotor.imK_toQuat,
    Motor.re_toDQ, Motor.imI_toDQ, Motor.imJ_toDQ, Motor.imK_toDQ,
    Motor.re_toDQ2, Motor.imI_toDQ2, Motor.imJ_toDQ2, Motor.imK_toDQ2,
    smul_eq_mul, kln, sse, cond_true, cond_false] <;> ring))

/-- C81: the product of rotors is the product of quaternions. -/
theorem C81_rotor_mul (a b : Rotor K) : (a.mulRotor b).toQuat = a.toQuat * b.toQuat := by
  quat_ring

/-- C81: sums, reversal and scaling of rotors are those of quaternions, and every quaternion is the
quaternion of exactly one rotor. -/
theorem C81_rotor (a b : Rotor K) (k : K) :
    (a.add b).toQuat = a.toQuat + b.toQuat ∧ a.rev.toQuat = star a.toQuat ∧
    (a.smul k).toQuat = k • a.toQuat ∧ Function.Bijective (Rotor.toQuat (K := K)) := by
  refine ⟨?_, ?_, ?_, ?_, ?_⟩
  · quat_ring
  · quat_ring
  · quat_ring
  · intro a b h
    have h0 := congrArg QuaternionAlgebra.re h
    have h1 := congrArg QuaternionAlgebra.imI h
    have h2 := congrArg QuaternionAlgebra.imJ h
    have h3 := congrArg QuaternionAlgebra.imK h
    simp only [Rotor.toQuat, neg_inj] at h0 h1 h2 h3
    obtain ⟨⟨_, _, _, _⟩⟩ := a
    obtain ⟨⟨_, _, _, _⟩⟩ := b
    simp_all
  · intro q
    exact ⟨⟨⟨q.re, -q.imI, -q.imJ, -q.imK⟩⟩, by ext <;> simp [Rotor.toQuat]⟩

/-- C81: the product of motors is the product of dual quaternions. -/
theorem C81_motor_mul (a b : Motor K) : (a.mulMotor b).toDQ = a.toDQ * b.toDQ := by
  apply dq_ext
  · show _ = a.toDQ.1 * b.toDQ.1
    quat_ring
  · show _ = a.toDQ.1 * b.toDQ.2 + a.toDQ.2 * b.toDQ.1
    quat_ring

/-- C81: sums, reversal and scaling of motors are those of dual quaternions, reversal being the
conjugation of both quaternions, and every dual quaternion is that of exactly one motor. -/
theorem C81_motor (a b : Motor K) (k : K) :
    (a.add b).toDQ = a.toDQ + b.toDQ ∧
    a.rev.toDQ = dqConj a.toDQ ∧
    (a.smul k).toDQ = (k • a.toDQ.1, k • a.toDQ.2) ∧
    (⟨set_ss 1, setzero_ps⟩ : Motor K).toDQ = 1 ∧
    (⟨setzero_ps, set_ss 1⟩ : Motor K).toDQ = DualNumber.eps ∧
    Function.Bijective (Motor.toDQ (K := K)) := by
  refine ⟨?_, ?_, ?_, ?_, ?_, ?_, ?_⟩
  · apply dq_ext
    · show _ = a.toDQ.1 + b.toDQ.1
      quat_ring
    · show _ = a.toDQ.2 + b.toDQ.2
      quat_ring
  · apply dq_ext <;> dsimp only [dqConj] <;> quat_ring
  · apply dq_ext <;> dsimp only <;> quat_ring
  · apply dq_ext
    · show _ = (1 : Quaternion K)
      quat_ring
    · show _ = (0 : Quaternion K)
      quat_ring
  · apply dq_ext
    · show _ = (0 : Quaternion K)
      quat_ring
    · show _ = (1 : Quaternion K)
      quat_ring
  · intro a b h
    have f := congrArg Prod.fst h
    have g := congrArg Prod.snd h
    have h0 := congrArg QuaternionAlgebra.re f
    have h1 := congrArg QuaternionAlgebra.imI f
    have h2 := congrArg QuaternionAlgebra.imJ f
    have h3 := congrArg QuaternionAlgebra.imK f
    have g0 := congrArg QuaternionAlgebra.re g
    have g1 := congrArg QuaternionAlgebra.imI g
    have g2 := congrArg QuaternionAlgebra.imJ g
    have g3 := congrArg QuaternionAlgebra.imK g
    simp only [Motor.toDQ, neg_inj] at h0 h1 h2 h3 g0 g1 g2 g3
    obtain ⟨⟨_, _, _, _⟩, ⟨_, _, _, _⟩⟩ := a
    obtain ⟨⟨_, _, _, _⟩, ⟨_, _, _, _⟩⟩ := b
    simp_all
  · intro q
    refine ⟨⟨⟨q.1.re, -q.1.imI, -q.1.imJ, -q.1.imK⟩, ⟨q.2.re, q.2.imI, q.2.imJ, q.2.imK⟩⟩, ?_⟩
    apply dq_ext <;> ext <;> simp [Motor.toDQ]

/-- C81: a motor is normalised exactly if its dual quaternion times its conjugate is 1. -/
theorem C81_normed (m : Motor K) :
    m.Normed ↔ m.toDQ * dqConj m.toDQ = 1 := by
  obtain ⟨-, h2, -, h4, -, hb⟩ := C81_motor m m 1
  rw [← h2, ← C81_motor_mul, ← h4, hb.1.eq_iff, ← Motor.mv_inj, C06_motor_mul_motor, Motor.mv_rev]
  have e : (⟨set_ss 1, setzero_ps⟩ : Motor K).mv = 1 := by mv_ring
  rw [e, Motor.Normed]

/-- The isomorphism from the rotors to the quaternions keeps the embedding: a rotor seen as a motor has
the dual quaternion without dual part. -/
theorem C81_rotor_motor (r : Rotor K) : (Motor.ofRotor r).toDQ = TrivSqZeroExt.inl r.toQuat := by
  apply dq_ext
  · show _ = r.toQuat
    quat_ring
  · show _ = (0 : Quaternion K)
    quat_ring

/-- A concrete product: `(1 + 2 e23 + 3 e01) * (4 + 5 e31 + 6 e0123)`, in both algebras. -/
example : ((⟨⟨1, 2, 0, 0⟩, ⟨0, 3, 0, 0⟩⟩ : Motor ℤ).mulMotor ⟨⟨4, 0, 5, 0⟩, ⟨6, 0, 0, 0⟩⟩).toDQ =
    ((⟨4, -8, -5, 10⟩, ⟨6, 0, 0, -15⟩) : DualNumber (Quaternion ℤ)) := by
  apply dq_ext <;> ext <;> decide +kernel

/-! ### The group of motions -/

/-- The normalised motors. -/
abbrev UnitMotor := {m : Motor ℝ // m.Normed}

theorem Motor.one_mv : (⟨set_ss 1, setzero_ps⟩ : Motor ℝ).mv = 1 := by mv_ring

theorem Motor.one_normed : (⟨set_ss 1, setzero_ps⟩ : Motor ℝ).Normed := by
  rw [Motor.Normed, Motor.one_mv, PGA.MV.rev_one, one_mul]

/-- C81: the normalised motors form a group under the library's product, with the library's reversal as
inverse. -/
instance C81_group : Group UnitMotor where
  mul a b := ⟨a.1.mulMotor b.1, a.2.mul b.2⟩
  one := ⟨⟨set_ss 1, setzero_ps⟩, Motor.one_normed⟩
  inv a := ⟨a.1.rev, a.2.rev⟩
  mul_assoc a b c := by
    refine Subtype.ext (Motor.mv_inj.1 ?_)
    show ((a.1.mulMotor b.1).mulMotor c.1).mv = (a.1.mulMotor (b.1.mulMotor c.1)).mv
    simp only [C06_motor_mul_motor, mul_assoc]
  one_mul a := by
    refine Subtype.ext (Motor.mv_inj.1 ?_)
    show ((⟨set_ss 1, setzero_ps⟩ : Motor ℝ).mulMotor a.1).mv = a.1.mv
    rw [C06_motor_mul_motor, Motor.one_mv, one_mul]
  mul_one a := by
    refine Subtype.ext (Motor.mv_inj.1 ?_)
    show (a.1.mulMotor (⟨set_ss 1, setzero_ps⟩ : Motor ℝ)).mv = a.1.mv
    rw [C06_motor_mul_motor, Motor.one_mv, mul_one]
  inv_mul_cancel a := by
    refine Subtype.ext (Motor.mv_inj.1 ?_)
    show (a.1.rev.mulMotor a.1).mv = (⟨set_ss 1, setzero_ps⟩ : Motor ℝ).mv
    rw [C06_motor_mul_motor, Motor.one_mv, Motor.mv_rev, a.2.left]

theorem UnitMotor.mul_val (a b : UnitMotor) : (a * b).1 = a.1.mulMotor b.1 := rfl
theorem UnitMotor.inv_val (a : UnitMotor) : (a⁻¹).1 = a.1.rev := rfl
theorem UnitMotor.one_val : (1 : UnitMotor).1 = ⟨set_ss 1, setzero_ps⟩ := rfl

/-- C81: the group acts on the points of space by `operator()`. -/
noncomputable instance C81_action : MulAction UnitMotor (Vec3 ℝ) where
  smul m v := (m.1.onPoint (Point.at v)).pos
  one_smul v := by
    show ((1 : UnitMotor).1.onPoint (Point.at v)).pos = v
    have e : (1 : UnitMotor).1.onPoint (Point.at v) = Point.at v := by
      rw [← Point.mv_inj, C15_motor_on_point, UnitMotor.one_val, Motor.one_mv, PGA.MV.rev_one, one_mul,
        mul_one]
    rw [e, Point.at_pos]
  mul_smul a b v := by
    show ((a * b).1.onPoint (Point.at v)).pos = (a.1.onPoint (Point.at (b.1.onPoint (Point.at v)).pos)).pos
    rw [UnitMotor.mul_val, C16_motor_motor_point, ← b.2.onPoint_at]

theorem UnitMotor.smul_def (m : UnitMotor) (v : Vec3 ℝ) : m • v = (m.1.onPoint (Point.at v)).pos := rfl

/-- The homomorphism from the normalised motors to the permutations of space. -/
noncomputable def UnitMotor.toPerm : UnitMotor →* Equiv.Perm (Vec3 ℝ) :=
  MulAction.toPermHom UnitMotor (Vec3 ℝ)

/-- C81: the image of the homomorphism is the group of rigid motions. -/
theorem C81_range (f : Equiv.Perm (Vec3 ℝ)) : f ∈ UnitMotor.toPerm.range ↔ Rigid f := by
  rw [C76_rigid_iff, MonoidHom.mem_range]
  constructor
  · rintro ⟨m, rfl⟩
    exact ⟨m.1, m.2, fun a => m.2.onPoint_at a⟩
  · rintro ⟨m, hm, h⟩
    refine ⟨⟨m, hm⟩, Equiv.ext fun v => ?_⟩
    show (m.onPoint (Point.at v)).pos = f v
    rw [h, Point.at_pos]

/-- C81: the kernel consists of the two motors 1 and -1. -/
theorem C81_ker (m : UnitMotor) : m ∈ UnitMotor.toPerm.ker ↔ m.1.mv = 1 ∨ m.1.mv = -1 := by
  rw [MonoidHom.mem_ker, ← Motor.one_mv, ← C76_injective m.2 Motor.one_normed]
  have e1 : ∀ a, (⟨set_ss 1, setzero_ps⟩ : Motor ℝ).onPoint (Point.at a) = Point.at a := fun a => by
    rw [← Point.mv_inj, C15_motor_on_point, Motor.one_mv, PGA.MV.rev_one, one_mul, mul_one]
  constructor
  · intro h a
    have : m • a = a := by
      have := congrArg (fun e : Equiv.Perm (Vec3 ℝ) => e a) h
      exact this
    rw [e1, m.2.onPoint_at, ← UnitMotor.smul_def, this]
  · intro h
    refine Equiv.ext fun a => ?_
    show (m.1.onPoint (Point.at a)).pos = a
    rw [h, e1, Point.at_pos]

/-- C81: every rigid motion has a unique inverse motor and composing motors composes the motions. -/
theorem C81_hom (a b : UnitMotor) (v : Vec3 ℝ) :
    (a * b) • v = a • b • v ∧ a⁻¹ • a • v = v ∧ a • a⁻¹ • v = v :=
  ⟨mul_smul a b v, inv_smul_smul a v, smul_inv_smul a v⟩

/-- The group is not commutative: a quarter turn about the z axis and a unit translation along x. -/
example : ((⟨⟨3 / 5, 0, 0, 4 / 5⟩, ⟨0, 0, 0, 0⟩⟩ : Motor ℚ).mulMotor ⟨⟨1, 0, 0, 0⟩, ⟨0, 1, 0, 0⟩⟩) ≠
    ((⟨⟨1, 0, 0, 0⟩, ⟨0, 1, 0, 0⟩⟩ : Motor ℚ).mulMotor ⟨⟨3 / 5, 0, 0, 4 / 5⟩, ⟨0, 0, 0, 0⟩⟩) := by
  intro h
  have := congrArg (fun m : Motor ℚ => m.p2.l2) h
  norm_num [kln, sse] at this

end Klein
