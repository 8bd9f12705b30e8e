import Verif.Api.Embed
import Verif.Spec.Estimate
import Verif.Lemmas.Newton
import Mathlib.Tactic.LinearCombination
import Mathlib.Tactic.NormNum

/-!
# C01 - C07: `*` is the geometric product of Cl(3,0,1)

All statements are for operands with coefficients in an arbitrary commutative ring and for both
builds (`isa`).
-/

set_option linter.unusedSimpArgs false

namespace Klein

open PGA PGA.MV

variable {K : Type} [CommRing K]

/-- C01. -/
theorem C01_plane_mul_plane (a b : Plane K) : (a.mulPlane b).mv = a.mv * b.mv := by
  mv_ring

/-- test/test_gp.cpp "plane*plane" -/
example : (Plane.mk4 1 2 3 4 : Plane ℤ).mulPlane (Plane.mk4 2 3 (-1) (-2))
    = Motor.mk8 5 (-11) 7 (-1) 10 16 2 0 := by decide

/-- C02. -/
theorem C02_plane_mul_point (isa : Isa) (a : Plane K) (b : Point K) :
    (a.mulPoint isa b).mv = a.mv * b.mv := by
  cases isa <;> mv_ring

/-- C02. -/
theorem C02_point_mul_plane (isa : Isa) (a : Plane K) (b : Point K) :
    (b.mulPlane isa a).mv = b.mv * a.mv := by
  cases isa <;> mv_ring

example : (Plane.mk4 1 2 3 4 : Plane ℤ).mulPoint .sse3 (Point.mk3 (-2) 1 4)
    = Motor.mk8 0 1 2 3 (-5) 10 (-5) 16 := by decide

/-- C03. -/
theorem C03_rotor_mul_rotor (a b : Rotor K) : (a.mulRotor b).mv = a.mv * b.mv := by
  mv_ring

/-- C03; a branch has no scalar part. -/
theorem C03_branch_mul_branch (a b : Branch K) (ha : a.WF) (hb : b.WF) :
    (a.mulBranch b).mv = a.mv * b.mv := by
  obtain ⟨⟨a0, a1, a2, a3⟩⟩ := a
  obtain ⟨⟨b0, b1, b2, b3⟩⟩ := b
  simp only [Branch.WF] at ha hb
  subst ha hb
  mv_ring

example : (Branch.mk3 2 1 3 : Branch ℤ).WF ∧
    (Branch.mk3 2 1 3 : Branch ℤ).mulBranch (Branch.mk3 1 (-2) (-3)) = ⟨⟨9, -3, -9, 5⟩⟩ :=
  ⟨rfl, by decide⟩

/-- C04: `P * Q` times the scalar part `-(w_P w_Q)` of the product is the geometric product. -/
theorem C04_point_mul_point (hw : Hw K) (isa : Isa) (a b : Point K)
    (h : hw.RcpAt (-(a.w * b.w))) :
    (-(a.w * b.w)) • (a.mulPoint hw isa b).mv = a.mv * b.mv := by
  have e : a.p3.l0 * b.p3.l0 * (-2) + a.p3.l0 * b.p3.l0 = -(a.w * b.w) := by
    simp only [kln]; ring
  have hr := rcp_nr1_exact hw h
  simp only [Point.mulPoint, gp33, sse, rcp_nr1_map, e, hr]
  simp only [Hw.RcpAt, kln] at h ⊢
  generalize hw.rcp (-(a.p3.l0 * b.p3.l0)) = r at h ⊢
  cases isa <;> apply MV.ext <;> simp only [pga, sse, cond_true, cond_false, mul_zero, zero_mul, add_zero,
    zero_add, mul_one, one_mul, sub_zero, zero_sub, neg_zero, neg_neg] <;>
    first
    | ring1
    | linear_combination (a.p3.l1 * b.p3.l0 - a.p3.l0 * b.p3.l1) * h
    | linear_combination (a.p3.l2 * b.p3.l0 - a.p3.l0 * b.p3.l2) * h
    | linear_combination (a.p3.l3 * b.p3.l0 - a.p3.l0 * b.p3.l3) * h

example : (Point.mk3 1 2 3 : Point ℚ).mulPoint Hw.rat .sse41 (Point.mk3 (-2) 1 4)
    = ⟨⟨0, -3, -1, 1⟩⟩ := by
  simp only [kln, sse, Hw.rat]; norm_num

/-- C05, what the code computes: all coefficients are those of the geometric product except that
the coefficients of `e23` and `e12` are exchanged (x86_geometric_product.hpp:284-288).
The full statement `(a.mulLine b).mv = a.mv * b.mv` is refuted by `C05_line_mul_line_fails`. -/
theorem C05_line_mul_line_partial (a b : Line K) :
    let m := a.mulLine b
    (Motor.mk8 m.scalar m.e12 m.e31 m.e23 m.e01 m.e02 m.e03 m.e0123).mv = a.mv * b.mv := by
  mv_ring

/-- C05 holds exactly when the two exchanged coefficients coincide. -/
theorem C05_line_mul_line_iff (a b : Line K) :
    (a.mulLine b).mv = a.mv * b.mv ↔
      a.e31 * b.e23 - a.e23 * b.e31 = a.e12 * b.e31 - a.e31 * b.e12 := by
  rw [← C05_line_mul_line_partial]
  constructor
  · intro h
    have := congrArg MV.e23 h
    simp only [pga, kln, sse, cond_false] at this ⊢
    linear_combination this
  · intro h
    simp only [kln, sse] at h
    apply MV.ext <;> simp only [pga, kln, sse, cond_false, cond_true]
    · linear_combination -h
    · linear_combination h

/-- C05 is violated: for the x and y axes the code returns `-e23` where the product is `-e12`. -/
theorem C05_line_mul_line_fails :
    ∃ a b : Line ℤ, a.WF ∧ b.WF ∧ (a.mulLine b).mv ≠ a.mv * b.mv ∧
      a = Line.mk6 0 0 0 1 0 0 ∧ b = Line.mk6 0 0 0 0 1 0 ∧
      a.mv * b.mv = -(g1 * g2) ∧ (a.mulLine b).mv = -(g2 * g3) :=
  ⟨Line.mk6 0 0 0 1 0 0, Line.mk6 0 0 0 0 1 0, by decide, by decide, by decide, rfl, rfl,
    by decide, by decide⟩

/-- test/test_gp.cpp "line*line": the two exchanged coefficients are both 5 there, which is why the
unit test does not notice. -/
example : (Line.mk6 1 0 0 3 2 1 : Line ℤ).mulLine (Line.mk6 0 1 0 4 1 (-2))
    = Motor.mk8 (-12) 5 (-10) 5 1 (-2) (-4) 6 := by decide

/-- Parallel lines satisfy the hypothesis of `C05_line_mul_line_iff`. -/
example (a : Line K) (k : K) : (a.mulLine (a.smul k)).mv = a.mv * (a.smul k).mv := by
  rw [C05_line_mul_line_iff]; simp only [kln, sse]; ring

/-- C06. -/
theorem C06_rotor_mul_translator (a : Rotor K) (b : Translator K) (hb : b.WF) :
    (a.mulTranslator b).mv = a.mv * b.mv := by
  obtain ⟨⟨b0, b1, b2, b3⟩⟩ := b
  simp only [Translator.WF] at hb
  subst hb
  mv_ring

theorem C06_translator_mul_rotor (b : Translator K) (a : Rotor K) (hb : b.WF) :
    (b.mulRotor a).mv = b.mv * a.mv := by
  obtain ⟨⟨b0, b1, b2, b3⟩⟩ := b
  simp only [Translator.WF] at hb
  subst hb
  mv_ring

theorem C06_translator_mul_translator (a b : Translator K) :
    (a.mulTranslator b).mv = a.mv * b.mv := by
  mv_ring

theorem C06_rotor_mul_motor (a : Rotor K) (b : Motor K) : (a.mulMotor b).mv = a.mv * b.mv := by
  mv_ring

theorem C06_motor_mul_rotor (b : Motor K) (a : Rotor K) : (b.mulRotor a).mv = b.mv * a.mv := by
  mv_ring

theorem C06_translator_mul_motor (a : Translator K) (b : Motor K) (ha : a.WF) :
    (a.mulMotor b).mv = a.mv * b.mv := by
  obtain ⟨⟨a0, a1, a2, a3⟩⟩ := a
  simp only [Translator.WF] at ha
  subst ha
  mv_ring

theorem C06_motor_mul_translator (b : Motor K) (a : Translator K) (ha : a.WF) :
    (b.mulTranslator a).mv = b.mv * a.mv := by
  obtain ⟨⟨a0, a1, a2, a3⟩⟩ := a
  simp only [Translator.WF] at ha
  subst ha
  mv_ring

theorem C06_motor_mul_motor (a b : Motor K) : (a.mulMotor b).mv = a.mv * b.mv := by
  mv_ring

/-- C07. -/
theorem C07_dual_mul_line (a : Dual K) (b : Line K) : (a.mulLine b).mv = a.mv * b.mv := by
  mv_ring

theorem C07_line_mul_dual (a : Dual K) (b : Line K) : (b.mulDual a).mv = b.mv * a.mv := by
  mv_ring

theorem C07_commute (a : Dual K) (b : Line K) : a.mulLine b = b.mulDual a := rfl

end Klein
