import Verif.Float.Partial
import Verif.Float.Binary32
import Verif.Lemmas.Newton
import Verif.Props.Newton
import Mathlib.Tactic.Positivity

/-!
# C53: where results are not finite

For inputs that are numbers: off the degenerate set the operation in `Fp` is the operation in `ℝ`
(so the conventions `x / 0 = 0`, `√x = 0` for negative `x`, ... of the real numbers play no role in
the theorems about the exact model), on the degenerate set some lane is not a number.
-/

set_option linter.unusedSimpArgs false

namespace Klein

open Fp

variable {hw : Hw Fp} {hw' : Hw ℝ}

/-! ### the two refinements -/

theorem Fp.rcp1_fin (h : hw.Est hw') {a : ℝ} (ha : a ≠ 0) : rcp1 hw (fin a) = fin (rcp1 hw' a) := by
  rw [rcp1, h.rcp a ha, two_fin]; rfl

theorem Fp.rcp1_zero (h : hw.Est hw') : rcp1 hw (fin 0) = bad := by
  rw [rcp1, h.rcp_zero]; rfl

theorem Fp.rsqrt1_fin (h : hw.Est hw') {a : ℝ} (ha : 0 < a) : rsqrt1 hw (fin a) = fin (rsqrt1 hw' a) := by
  rw [rsqrt1, h.rsqrt a ha, half_fin, three_fin]; rfl

theorem Fp.rsqrt1_npos (h : hw.Est hw') {a : ℝ} (ha : a ≤ 0) : rsqrt1 hw (fin a) = bad := by
  rw [rsqrt1, h.rsqrt_npos a ha]; simp

/-- Four lanes that are not numbers. -/
def allBad : V4 Fp := ⟨.bad, .bad, .bad, .bad⟩

theorem rcp_nr1_fp (h : hw.Est hw') {a : ℝ} (ha : a ≠ 0) :
    rcp_nr1 hw (V4.fp ⟨a, a, a, a⟩) = (rcp_nr1 hw' ⟨a, a, a, a⟩).fp := by
  rw [rcp_nr1_map, rcp_nr1_map]
  simp only [V4.fp, rcp1_fin h ha]

theorem rcp_nr1_zero (h : hw.Est hw') : rcp_nr1 hw (V4.fp ⟨0, 0, 0, 0⟩) = allBad := by
  rw [rcp_nr1_map]
  simp only [V4.fp, rcp1_zero h, allBad]

theorem rsqrt_nr1_fp (h : hw.Est hw') {a : ℝ} (ha : 0 < a) :
    rsqrt_nr1 hw (V4.fp ⟨a, a, a, a⟩) = (rsqrt_nr1 hw' ⟨a, a, a, a⟩).fp := by
  rw [rsqrt_nr1_map, rsqrt_nr1_map]
  simp only [V4.fp, rsqrt1_fin h ha]

theorem rsqrt_nr1_npos (h : hw.Est hw') {a : ℝ} (ha : a ≤ 0) :
    rsqrt_nr1 hw (V4.fp ⟨a, a, a, a⟩) = allBad := by
  rw [rsqrt_nr1_map]
  simp only [V4.fp, rsqrt1_npos h ha, allBad]

/-! ### inner products are always defined -/

theorem hi_dp_bc_real (isa : Isa) (a b : V4 ℝ) :
    hi_dp_bc isa a b = ⟨dot3 a b, dot3 a b, dot3 a b, dot3 a b⟩ := by
  cases isa <;> ext <;> simp [kln, sse, dot3] <;> ring

theorem dp_bc_real (isa : Isa) (a b : V4 ℝ) :
    dp_bc isa a b = ⟨dot4 a b, dot4 a b, dot4 a b, dot4 a b⟩ := by
  cases isa <;> ext <;> simp [kln, sse, dot4] <;> ring

theorem hi_dp_bc_fp (isa : Isa) (a b : V4 ℝ) :
    hi_dp_bc isa a.fp b.fp = V4.fp ⟨dot3 a b, dot3 a b, dot3 a b, dot3 a b⟩ := by
  rw [← hi_dp_bc_real isa]; cases isa <;> rfl

theorem dp_bc_fp (isa : Isa) (a b : V4 ℝ) :
    dp_bc isa a.fp b.fp = V4.fp ⟨dot4 a b, dot4 a b, dot4 a b, dot4 a b⟩ := by
  rw [← dp_bc_real isa]; cases isa <;> rfl

theorem dot3_nonneg (a : V4 ℝ) : 0 ≤ dot3 a a := by
  have := mul_self_nonneg a.l1; have := mul_self_nonneg a.l2; have := mul_self_nonneg a.l3
  unfold dot3; linarith
theorem dot4_nonneg (a : V4 ℝ) : 0 ≤ dot4 a a := by
  have := mul_self_nonneg a.l0; have := dot3_nonneg a
  unfold dot4 dot3 at *; linarith
theorem dot3_eq_zero (a : V4 ℝ) : dot3 a a = 0 ↔ a.l1 = 0 ∧ a.l2 = 0 ∧ a.l3 = 0 := by
  constructor
  · intro h
    have h1 := mul_self_nonneg a.l1; have h2 := mul_self_nonneg a.l2; have h3 := mul_self_nonneg a.l3
    unfold dot3 at h
    exact ⟨mul_self_eq_zero.1 (by linarith), mul_self_eq_zero.1 (by linarith), mul_self_eq_zero.1 (by linarith)⟩
  · rintro ⟨h1, h2, h3⟩; simp [dot3, h1, h2, h3]
theorem dot4_eq_zero (a : V4 ℝ) : dot4 a a = 0 ↔ a.l0 = 0 ∧ a.l1 = 0 ∧ a.l2 = 0 ∧ a.l3 = 0 := by
  constructor
  · intro h
    have h0 := mul_self_nonneg a.l0
    have h1 := mul_self_nonneg a.l1; have h2 := mul_self_nonneg a.l2; have h3 := mul_self_nonneg a.l3
    unfold dot4 at h
    exact ⟨mul_self_eq_zero.1 (by linarith), mul_self_eq_zero.1 (by linarith),
      mul_self_eq_zero.1 (by linarith), mul_self_eq_zero.1 (by linarith)⟩
  · rintro ⟨h0, h1, h2, h3⟩; simp [dot4, h0, h1, h2, h3]

theorem V4.isFin_fp (v : V4 ℝ) : v.fp.isFin := ⟨trivial, trivial, trivial, trivial⟩

/-! ### planes -/

/-- `plane::normalize` is defined off the planes with zero normal, ... -/
theorem C53_plane_normalize (h : hw.Est hw') (isa : Isa) (a : Plane ℝ) (ha : dot3 a.p0 a.p0 ≠ 0) :
    a.fp.normalize hw isa = (a.normalize hw' isa).fp := by
  have h0 : 0 < dot3 a.p0 a.p0 := lt_of_le_of_ne (dot3_nonneg _) (Ne.symm ha)
  simp only [Plane.normalize, Plane.fp, hi_dp_bc_fp, rsqrt_nr1_fp h h0, hi_dp_bc_real]
  cases isa <;> rfl

/-- ... and at these gives lanes that are not numbers. -/
theorem C53_plane_normalize_zero (h : hw.Est hw') (isa : Isa) (a : Plane ℝ) (ha : dot3 a.p0 a.p0 = 0) :
    (a.fp.normalize hw isa).p0.l1 = .bad ∧ (a.fp.normalize hw isa).p0.l2 = .bad ∧
      (a.fp.normalize hw isa).p0.l3 = .bad := by
  simp only [Plane.normalize, Plane.fp, hi_dp_bc_fp, rsqrt_nr1_npos h ha.le]
  cases isa <;> exact ⟨rfl, rfl, rfl⟩

theorem C53_plane_invert (h : hw.Est hw') (isa : Isa) (a : Plane ℝ) (ha : dot3 a.p0 a.p0 ≠ 0) :
    a.fp.invert hw isa = (a.invert hw' isa).fp := by
  have h0 : 0 < dot3 a.p0 a.p0 := lt_of_le_of_ne (dot3_nonneg _) (Ne.symm ha)
  simp only [Plane.invert, Plane.fp, hi_dp_bc_fp, rsqrt_nr1_fp h h0, hi_dp_bc_real]
  rfl

theorem C53_plane_invert_zero (h : hw.Est hw') (isa : Isa) (a : Plane ℝ) (ha : dot3 a.p0 a.p0 = 0) :
    (a.fp.invert hw isa).p0 = allBad := by
  simp only [Plane.invert, Plane.fp, hi_dp_bc_fp, rsqrt_nr1_npos h ha.le]
  rfl

/-! ### points -/

theorem swz0_fp (v : V4 ℝ) : swz v.fp 0 0 0 0 = V4.fp ⟨v.l0, v.l0, v.l0, v.l0⟩ := rfl
theorem swz0_real (v : V4 ℝ) : swz v 0 0 0 0 = ⟨v.l0, v.l0, v.l0, v.l0⟩ := rfl

theorem C53_point_normalize (h : hw.Est hw') (a : Point ℝ) (ha : a.p3.l0 ≠ 0) :
    a.fp.normalize hw = (a.normalize hw').fp := by
  simp only [Point.normalize, Point.fp, swz0_fp, rcp_nr1_fp h ha, swz0_real]
  rfl

theorem C53_point_normalize_zero (h : hw.Est hw') (a : Point ℝ) (ha : a.p3.l0 = 0) :
    (a.fp.normalize hw).p3 = allBad := by
  simp only [Point.normalize, Point.fp, swz0_fp, ha, rcp_nr1_zero h]
  rfl

theorem C53_point_invert (h : hw.Est hw') (a : Point ℝ) (ha : a.p3.l0 ≠ 0) :
    a.fp.invert hw = (a.invert hw').fp := by
  simp only [Point.invert, Point.fp, swz0_fp, rcp_nr1_fp h ha, swz0_real]
  rfl

theorem C53_point_invert_zero (h : hw.Est hw') (a : Point ℝ) (ha : a.p3.l0 = 0) :
    (a.fp.invert hw).p3 = allBad := by
  simp only [Point.invert, Point.fp, swz0_fp, ha, rcp_nr1_zero h]
  rfl

/-! ### directions, branches, lines, rotors, motors -/

theorem xor_ss_fp (v : V4 ℝ) : xor_ps v.fp flip_ss = (xor_ps v flip_ss).fp := rfl

theorem C53_direction_normalize (h : hw.Est hw') (isa : Isa) (a : Direction ℝ) (ha : dot3 a.p3 a.p3 ≠ 0) :
    a.fp.normalize hw isa = (a.normalize hw' isa).fp := by
  have h0 : 0 < dot3 a.p3 a.p3 := lt_of_le_of_ne (dot3_nonneg _) (Ne.symm ha)
  simp only [Direction.normalize, Direction.fp, hi_dp_bc_fp, dp_bc_fp, rsqrt_nr1_fp h h0, rcp_nr1_fp h ha, hi_dp_bc_real, dp_bc_real, xor_ss_fp]
  rfl

theorem C53_direction_normalize_zero (h : hw.Est hw') (isa : Isa) (a : Direction ℝ) (ha : dot3 a.p3 a.p3 = 0) :
    (a.fp.normalize hw isa).p3 = allBad := by
  simp only [Direction.normalize, Direction.fp, hi_dp_bc_fp, dp_bc_fp, ha, rsqrt_nr1_npos h (le_refl (0 : ℝ)), rcp_nr1_zero h, xor_ss_fp]
  rfl

theorem C53_branch_normalize (h : hw.Est hw') (isa : Isa) (a : Branch ℝ) (ha : dot3 a.p1 a.p1 ≠ 0) :
    a.fp.normalize hw isa = (a.normalize hw' isa).fp := by
  have h0 : 0 < dot3 a.p1 a.p1 := lt_of_le_of_ne (dot3_nonneg _) (Ne.symm ha)
  simp only [Branch.normalize, Branch.fp, hi_dp_bc_fp, dp_bc_fp, rsqrt_nr1_fp h h0, rcp_nr1_fp h ha, hi_dp_bc_real, dp_bc_real, xor_ss_fp]
  rfl

theorem C53_branch_normalize_zero (h : hw.Est hw') (isa : Isa) (a : Branch ℝ) (ha : dot3 a.p1 a.p1 = 0) :
    (a.fp.normalize hw isa).p1 = allBad := by
  simp only [Branch.normalize, Branch.fp, hi_dp_bc_fp, dp_bc_fp, ha, rsqrt_nr1_npos h (le_refl (0 : ℝ)), rcp_nr1_zero h, xor_ss_fp]
  rfl

theorem C53_branch_invert (h : hw.Est hw') (isa : Isa) (a : Branch ℝ) (ha : dot3 a.p1 a.p1 ≠ 0) :
    a.fp.invert hw isa = (a.invert hw' isa).fp := by
  have h0 : 0 < dot3 a.p1 a.p1 := lt_of_le_of_ne (dot3_nonneg _) (Ne.symm ha)
  simp only [Branch.invert, Branch.fp, hi_dp_bc_fp, dp_bc_fp, rsqrt_nr1_fp h h0, rcp_nr1_fp h ha, hi_dp_bc_real, dp_bc_real, xor_ss_fp]
  rfl

theorem C53_branch_invert_zero (h : hw.Est hw') (isa : Isa) (a : Branch ℝ) (ha : dot3 a.p1 a.p1 = 0) :
    (a.fp.invert hw isa).p1 = allBad := by
  simp only [Branch.invert, Branch.fp, hi_dp_bc_fp, dp_bc_fp, ha, rsqrt_nr1_npos h (le_refl (0 : ℝ)), rcp_nr1_zero h, xor_ss_fp]
  rfl

theorem C53_line_normalize (h : hw.Est hw') (isa : Isa) (a : Line ℝ) (ha : dot3 a.p1 a.p1 ≠ 0) :
    a.fp.normalize hw isa = (a.normalize hw' isa).fp := by
  have h0 : 0 < dot3 a.p1 a.p1 := lt_of_le_of_ne (dot3_nonneg _) (Ne.symm ha)
  simp only [Line.normalize, Line.fp, hi_dp_bc_fp, dp_bc_fp, rsqrt_nr1_fp h h0, rcp_nr1_fp h ha, hi_dp_bc_real, dp_bc_real, xor_ss_fp]
  rfl

theorem C53_line_normalize_zero (h : hw.Est hw') (isa : Isa) (a : Line ℝ) (ha : dot3 a.p1 a.p1 = 0) :
    (a.fp.normalize hw isa).p1 = allBad ∧ (a.fp.normalize hw isa).p2 = allBad := by
  simp only [Line.normalize, Line.fp, hi_dp_bc_fp, dp_bc_fp, ha, rsqrt_nr1_npos h (le_refl (0 : ℝ)), rcp_nr1_zero h, xor_ss_fp]
  exact ⟨rfl, rfl⟩

theorem C53_line_invert (h : hw.Est hw') (isa : Isa) (a : Line ℝ) (ha : dot3 a.p1 a.p1 ≠ 0) :
    a.fp.invert hw isa = (a.invert hw' isa).fp := by
  have h0 : 0 < dot3 a.p1 a.p1 := lt_of_le_of_ne (dot3_nonneg _) (Ne.symm ha)
  simp only [Line.invert, Line.fp, hi_dp_bc_fp, dp_bc_fp, rsqrt_nr1_fp h h0, rcp_nr1_fp h ha, hi_dp_bc_real, dp_bc_real, xor_ss_fp]
  rfl

theorem C53_line_invert_zero (h : hw.Est hw') (isa : Isa) (a : Line ℝ) (ha : dot3 a.p1 a.p1 = 0) :
    (a.fp.invert hw isa).p1 = allBad ∧ (a.fp.invert hw isa).p2 = allBad := by
  simp only [Line.invert, Line.fp, hi_dp_bc_fp, dp_bc_fp, ha, rsqrt_nr1_npos h (le_refl (0 : ℝ)), rcp_nr1_zero h, xor_ss_fp]
  exact ⟨rfl, rfl⟩

theorem C53_rotor_normalize (h : hw.Est hw') (isa : Isa) (a : Rotor ℝ) (ha : dot4 a.p1 a.p1 ≠ 0) :
    a.fp.normalize hw isa = (a.normalize hw' isa).fp := by
  have h0 : 0 < dot4 a.p1 a.p1 := lt_of_le_of_ne (dot4_nonneg _) (Ne.symm ha)
  simp only [Rotor.normalize, Rotor.fp, hi_dp_bc_fp, dp_bc_fp, rsqrt_nr1_fp h h0, rcp_nr1_fp h ha, hi_dp_bc_real, dp_bc_real, xor_ss_fp]
  rfl

theorem C53_rotor_normalize_zero (h : hw.Est hw') (isa : Isa) (a : Rotor ℝ) (ha : dot4 a.p1 a.p1 = 0) :
    (a.fp.normalize hw isa).p1 = allBad := by
  simp only [Rotor.normalize, Rotor.fp, hi_dp_bc_fp, dp_bc_fp, ha, rsqrt_nr1_npos h (le_refl (0 : ℝ)), rcp_nr1_zero h, xor_ss_fp]
  rfl

theorem C53_rotor_invert (h : hw.Est hw') (isa : Isa) (a : Rotor ℝ) (ha : dot3 a.p1 a.p1 ≠ 0) :
    a.fp.invert hw isa = (a.invert hw' isa).fp := by
  have h0 : 0 < dot3 a.p1 a.p1 := lt_of_le_of_ne (dot3_nonneg _) (Ne.symm ha)
  simp only [Rotor.invert, Rotor.fp, hi_dp_bc_fp, dp_bc_fp, rsqrt_nr1_fp h h0, rcp_nr1_fp h ha, hi_dp_bc_real, dp_bc_real, xor_ss_fp]
  rfl

theorem C53_rotor_invert_zero (h : hw.Est hw') (isa : Isa) (a : Rotor ℝ) (ha : dot3 a.p1 a.p1 = 0) :
    (a.fp.invert hw isa).p1 = allBad := by
  simp only [Rotor.invert, Rotor.fp, hi_dp_bc_fp, dp_bc_fp, ha, rsqrt_nr1_npos h (le_refl (0 : ℝ)), rcp_nr1_zero h, xor_ss_fp]
  rfl

theorem C53_motor_normalize (h : hw.Est hw') (isa : Isa) (a : Motor ℝ) (ha : dot4 a.p1 a.p1 ≠ 0) :
    a.fp.normalize hw isa = (a.normalize hw' isa).fp := by
  have h0 : 0 < dot4 a.p1 a.p1 := lt_of_le_of_ne (dot4_nonneg _) (Ne.symm ha)
  simp only [Motor.normalize, Motor.fp, hi_dp_bc_fp, dp_bc_fp, rsqrt_nr1_fp h h0, rcp_nr1_fp h ha, hi_dp_bc_real, dp_bc_real, xor_ss_fp]
  rfl

theorem C53_motor_normalize_zero (h : hw.Est hw') (isa : Isa) (a : Motor ℝ) (ha : dot4 a.p1 a.p1 = 0) :
    (a.fp.normalize hw isa).p1 = allBad ∧ (a.fp.normalize hw isa).p2 = allBad := by
  simp only [Motor.normalize, Motor.fp, hi_dp_bc_fp, dp_bc_fp, ha, rsqrt_nr1_npos h (le_refl (0 : ℝ)), rcp_nr1_zero h, xor_ss_fp]
  exact ⟨rfl, rfl⟩

theorem C53_motor_invert (h : hw.Est hw') (isa : Isa) (a : Motor ℝ) (ha : dot4 a.p1 a.p1 ≠ 0) :
    a.fp.invert hw isa = (a.invert hw' isa).fp := by
  have h0 : 0 < dot4 a.p1 a.p1 := lt_of_le_of_ne (dot4_nonneg _) (Ne.symm ha)
  simp only [Motor.invert, Motor.fp, hi_dp_bc_fp, dp_bc_fp, rsqrt_nr1_fp h h0, rcp_nr1_fp h ha, hi_dp_bc_real, dp_bc_real, xor_ss_fp]
  rfl

theorem C53_motor_invert_zero (h : hw.Est hw') (isa : Isa) (a : Motor ℝ) (ha : dot4 a.p1 a.p1 = 0) :
    (a.fp.invert hw isa).p1 = allBad ∧ (a.fp.invert hw isa).p2 = allBad := by
  simp only [Motor.invert, Motor.fp, hi_dp_bc_fp, dp_bc_fp, ha, rsqrt_nr1_npos h (le_refl (0 : ℝ)), rcp_nr1_zero h, xor_ss_fp]
  exact ⟨rfl, rfl⟩

/-- In particular the inverse the code computes of the identity rotor is not a number. -/
theorem C53_rotor_invert_identity (h : hw.Est hw') (isa : Isa) :
    ((Rotor.mk ⟨1, 0, 0, 0⟩ : Rotor ℝ).fp.invert hw isa).p1 = allBad :=
  C53_rotor_invert_zero h isa _ (by simp [dot3])

/-! ### division by a scalar -/

theorem set1_fp (k : ℝ) : set1_ps (fin k) = V4.fp ⟨k, k, k, k⟩ := rfl
theorem set1_real (k : ℝ) : set1_ps k = ⟨k, k, k, k⟩ := rfl

theorem C53_plane_div (h : hw.Est hw') (a : Plane ℝ) {k : ℝ} (hk : k ≠ 0) :
    a.fp.sdiv hw (fin k) = (a.sdiv hw' k).fp := by
  simp only [Plane.sdiv, Plane.fp, set1_fp, set1_real, rcp_nr1_fp h hk]
  rfl

theorem C53_plane_div_zero (h : hw.Est hw') (a : Plane ℝ) : (a.fp.sdiv hw (fin 0)).p0 = allBad := by
  simp only [Plane.sdiv, Plane.fp, set1_fp, rcp_nr1_zero h]
  rfl

theorem C53_point_div (h : hw.Est hw') (a : Point ℝ) {k : ℝ} (hk : k ≠ 0) :
    a.fp.sdiv hw (fin k) = (a.sdiv hw' k).fp := by
  simp only [Point.sdiv, Point.fp, set1_fp, set1_real, rcp_nr1_fp h hk]
  rfl

theorem C53_point_div_zero (h : hw.Est hw') (a : Point ℝ) : (a.fp.sdiv hw (fin 0)).p3 = allBad := by
  simp only [Point.sdiv, Point.fp, set1_fp, rcp_nr1_zero h]
  rfl

theorem C53_direction_div (h : hw.Est hw') (a : Direction ℝ) {k : ℝ} (hk : k ≠ 0) :
    a.fp.sdiv hw (fin k) = (a.sdiv hw' k).fp := by
  simp only [Direction.sdiv, Direction.fp, set1_fp, set1_real, rcp_nr1_fp h hk]
  rfl

theorem C53_direction_div_zero (h : hw.Est hw') (a : Direction ℝ) : (a.fp.sdiv hw (fin 0)).p3 = allBad := by
  simp only [Direction.sdiv, Direction.fp, set1_fp, rcp_nr1_zero h]
  rfl

theorem C53_ideal_line_div (h : hw.Est hw') (a : IdealLine ℝ) {k : ℝ} (hk : k ≠ 0) :
    a.fp.sdiv hw (fin k) = (a.sdiv hw' k).fp := by
  simp only [IdealLine.sdiv, IdealLine.fp, set1_fp, set1_real, rcp_nr1_fp h hk]
  rfl

theorem C53_ideal_line_div_zero (h : hw.Est hw') (a : IdealLine ℝ) : (a.fp.sdiv hw (fin 0)).p2 = allBad := by
  simp only [IdealLine.sdiv, IdealLine.fp, set1_fp, rcp_nr1_zero h]
  rfl

theorem C53_branch_div (h : hw.Est hw') (a : Branch ℝ) {k : ℝ} (hk : k ≠ 0) :
    a.fp.sdiv hw (fin k) = (a.sdiv hw' k).fp := by
  simp only [Branch.sdiv, Branch.fp, set1_fp, set1_real, rcp_nr1_fp h hk]
  rfl

theorem C53_branch_div_zero (h : hw.Est hw') (a : Branch ℝ) : (a.fp.sdiv hw (fin 0)).p1 = allBad := by
  simp only [Branch.sdiv, Branch.fp, set1_fp, rcp_nr1_zero h]
  rfl

theorem C53_line_div (h : hw.Est hw') (a : Line ℝ) {k : ℝ} (hk : k ≠ 0) :
    a.fp.sdiv hw (fin k) = (a.sdiv hw' k).fp := by
  simp only [Line.sdiv, Line.fp, set1_fp, set1_real, rcp_nr1_fp h hk]
  rfl

theorem C53_line_div_zero (h : hw.Est hw') (a : Line ℝ) : (a.fp.sdiv hw (fin 0)).p1 = allBad ∧ (a.fp.sdiv hw (fin 0)).p2 = allBad := by
  simp only [Line.sdiv, Line.fp, set1_fp, rcp_nr1_zero h]
  exact ⟨rfl, rfl⟩

theorem C53_rotor_div (h : hw.Est hw') (a : Rotor ℝ) {k : ℝ} (hk : k ≠ 0) :
    a.fp.sdiv hw (fin k) = (a.sdiv hw' k).fp := by
  simp only [Rotor.sdiv, Rotor.fp, set1_fp, set1_real, rcp_nr1_fp h hk]
  rfl

theorem C53_rotor_div_zero (h : hw.Est hw') (a : Rotor ℝ) : (a.fp.sdiv hw (fin 0)).p1 = allBad := by
  simp only [Rotor.sdiv, Rotor.fp, set1_fp, rcp_nr1_zero h]
  rfl

theorem C53_translator_div (h : hw.Est hw') (a : Translator ℝ) {k : ℝ} (hk : k ≠ 0) :
    a.fp.sdiv hw (fin k) = (a.sdiv hw' k).fp := by
  simp only [Translator.sdiv, Translator.fp, set1_fp, set1_real, rcp_nr1_fp h hk]
  rfl

theorem C53_translator_div_zero (h : hw.Est hw') (a : Translator ℝ) : (a.fp.sdiv hw (fin 0)).p2 = allBad := by
  simp only [Translator.sdiv, Translator.fp, set1_fp, rcp_nr1_zero h]
  rfl

theorem C53_motor_div (h : hw.Est hw') (a : Motor ℝ) {k : ℝ} (hk : k ≠ 0) :
    a.fp.sdiv hw (fin k) = (a.sdiv hw' k).fp := by
  simp only [Motor.sdiv, Motor.fp, set1_fp, set1_real, rcp_nr1_fp h hk]
  rfl

theorem C53_motor_div_zero (h : hw.Est hw') (a : Motor ℝ) : (a.fp.sdiv hw (fin 0)).p1 = allBad ∧ (a.fp.sdiv hw (fin 0)).p2 = allBad := by
  simp only [Motor.sdiv, Motor.fp, set1_fp, rcp_nr1_zero h]
  exact ⟨rfl, rfl⟩

/-! ### products of points, translations of planes -/

/-- `point * point` divides by the product of the weights, ... -/
theorem C53_point_mul_point (h : hw.Est hw') (isa : Isa) (a b : Point ℝ) (ha : a.p3.l0 * b.p3.l0 ≠ 0) :
    a.fp.mulPoint hw isa b.fp = (a.mulPoint hw' isa b).fp := by
  have e : a.p3.l0 * b.p3.l0 * (-2) + a.p3.l0 * b.p3.l0 ≠ 0 := by
    intro h; apply ha; linarith
  have k : rcp1 hw (fin (a.p3.l0 * b.p3.l0 * (-2) + a.p3.l0 * b.p3.l0)) = _ := rcp1_fin h e
  have k1 : (-1 : Fp) = fin (-1) := rfl
  have k2 : (-2 : Fp) = fin (-2) := by rw [two_fin]; rfl
  simp only [Point.mulPoint, gp33, rcp_nr1_map, Point.fp, V4.fp, sse, V4.get, mul_fin, add_fin, k1, k2, k]
  cases isa <;> rfl

/-- ... and fails when one of them is zero. -/
theorem C53_point_mul_point_zero (h : hw.Est hw') (isa : Isa) (a b : Point ℝ) (ha : a.p3.l0 * b.p3.l0 = 0) :
    (a.fp.mulPoint hw isa b.fp).p2 = ⟨0, .bad, .bad, .bad⟩ := by
  have k : rcp1 hw (fin (a.p3.l0 * b.p3.l0 * (-2) + a.p3.l0 * b.p3.l0)) = bad := by
    rw [ha, show (0 : ℝ) * (-2) + 0 = 0 by norm_num]; exact rcp1_zero h
  have k1 : (-1 : Fp) = fin (-1) := rfl
  have k2 : (-2 : Fp) = fin (-2) := by rw [two_fin]; rfl
  simp only [Point.mulPoint, gp33, rcp_nr1_map, Point.fp, V4.fp, sse, V4.get, mul_fin, add_fin, k1, k2, k]
  cases isa <;> rfl

/-- `translator(plane)` takes reciprocals of the components of the translator, which may be zero,
but uses only that of the constant 1. -/
theorem C53_translator_plane (h : hw.Est hw') (isa : Isa) (t : Translator ℝ) (x : Plane ℝ)
    (ht : isa = .sse3 → t.p2.l0 = 0) :
    t.fp.onPlane hw isa x.fp = (t.onPlane hw' isa x).fp := by
  have k : rcp1 hw (fin 1) = fin (rcp1 hw' 1) := rcp1_fin h one_ne_zero
  cases isa
  · have h0 := ht rfl
    have e : (0 : ℝ) + 1 = 1 := by norm_num
    simp only [Translator.onPlane, sw02, rcp_nr1_map, Translator.fp, Plane.fp, V4.fp, sse, h0, zero_fin, one_fin,
      add_fin, e, k]
    rfl
  · simp only [Translator.onPlane, sw02, rcp_nr1_map, Translator.fp, Plane.fp, V4.fp, sse, zero_fin, one_fin,
      cond_true, k]
    rfl

/-! ### quotients -/

theorem C53_plane_div_plane (h : hw.Est hw') (isa : Isa) (a b : Plane ℝ) (hb : dot3 b.p0 b.p0 ≠ 0) :
    a.fp.divPlane hw isa b.fp = (a.divPlane hw' isa b).fp := by
  simp only [Plane.divPlane, C53_plane_invert h isa b hb]; rfl
theorem C53_branch_div_branch (h : hw.Est hw') (isa : Isa) (a b : Branch ℝ) (hb : dot3 b.p1 b.p1 ≠ 0) :
    a.fp.divBranch hw isa b.fp = (a.divBranch hw' isa b).fp := by
  simp only [Branch.divBranch, C53_branch_invert h isa b hb]; rfl
theorem C53_rotor_div_rotor (h : hw.Est hw') (isa : Isa) (a b : Rotor ℝ) (hb : dot3 b.p1 b.p1 ≠ 0) :
    a.fp.divRotor hw isa b.fp = (a.divRotor hw' isa b).fp := by
  simp only [Rotor.divRotor, C53_rotor_invert h isa b hb]; rfl
theorem C53_line_div_line (h : hw.Est hw') (isa : Isa) (a b : Line ℝ) (hb : dot3 b.p1 b.p1 ≠ 0) :
    a.fp.divLine hw isa b.fp = (a.divLine hw' isa b).fp := by
  simp only [Line.divLine, C53_line_invert h isa b hb]; rfl
theorem C53_motor_div_motor (h : hw.Est hw') (isa : Isa) (a b : Motor ℝ) (hb : dot4 b.p1 b.p1 ≠ 0) :
    a.fp.divMotor hw isa b.fp = (a.divMotor hw' isa b).fp := by
  simp only [Motor.divMotor, C53_motor_invert h isa b hb]; rfl

/-! ### square roots -/

theorem C53_rotor_sqrt (h : hw.Est hw') (isa : Isa) (r : Rotor ℝ)
    (hr : r.p1 ≠ ⟨-1, 0, 0, 0⟩) : r.fp.sqrt hw isa = (r.sqrt hw' isa).fp := by
  refine C53_rotor_normalize h isa ⟨add_ss r.p1 (set_ss 1)⟩ ?_
  intro h0
  obtain ⟨h0, h1, h2, h3⟩ := (dot4_eq_zero _).1 h0
  simp only [sse] at h0 h1 h2 h3
  exact hr (by ext <;> simp <;> linarith)

theorem C53_rotor_sqrt_minus_one (h : hw.Est hw') (isa : Isa) :
    ((Rotor.mk ⟨-1, 0, 0, 0⟩ : Rotor ℝ).fp.sqrt hw isa).p1 = allBad := by
  refine C53_rotor_normalize_zero h isa ⟨add_ss ⟨-1, 0, 0, 0⟩ (set_ss 1)⟩ ?_
  simp [dot4, sse]

theorem C53_motor_sqrt (h : hw.Est hw') (isa : Isa) (m : Motor ℝ)
    (hr : m.p1 ≠ ⟨-1, 0, 0, 0⟩) : m.fp.sqrt hw isa = (m.sqrt hw' isa).fp := by
  refine C53_motor_normalize h isa ⟨add_ss m.p1 (set_ss 1), m.p2⟩ ?_
  intro h0
  obtain ⟨h0, h1, h2, h3⟩ := (dot4_eq_zero _).1 h0
  simp only [sse] at h0 h1 h2 h3
  exact hr (by ext <;> simp <;> linarith)

theorem C53_motor_sqrt_minus_one (h : hw.Est hw') (isa : Isa) (p2 : V4 ℝ) :
    ((Motor.mk ⟨-1, 0, 0, 0⟩ p2 : Motor ℝ).fp.sqrt hw isa).p1 = allBad := by
  refine (C53_motor_normalize_zero h isa ⟨add_ss ⟨-1, 0, 0, 0⟩ (set_ss 1), p2⟩ ?_).1
  simp [dot4, sse]

/-! ### constructors -/

theorem C53_rotor_axis (ang x y z : ℝ) (h : x * x + y * y + z * z ≠ 0) :
    Rotor.mkAxis Libm.partial (fin ang) (fin x) (fin y) (fin z) = (Rotor.mkAxis Libm.real ang x y z).fp := by
  have h0 : 0 ≤ x * x + y * y + z * z := by nlinarith [mul_self_nonneg x, mul_self_nonneg y, mul_self_nonneg z]
  have h1 : Libm.partial.sqrt (fin (x * x + y * y + z * z)) = fin √(x * x + y * y + z * z) := by
    simp [Libm.partial, h0]
  have h2 : √(x * x + y * y + z * z) ≠ 0 := by rw [Real.sqrt_ne_zero h0]; exact h
  simp only [Rotor.mkAxis, mul_fin, add_fin, h1, one_fin, two_fin, div_fin h2, div_fin (two_ne_zero)]
  rfl

theorem C53_rotor_axis_zero (ang : ℝ) :
    (Rotor.mkAxis Libm.partial (fin ang) (fin 0) (fin 0) (fin 0)).p1 = ⟨.fin (Real.cos (1 / 2 * ang)), .bad, .bad, .bad⟩ := by
  have h1 : Libm.partial.sqrt (fin (0 * 0 + 0 * 0 + 0 * 0)) = fin 0 := by simp [Libm.partial]
  simp only [Rotor.mkAxis, mul_fin, add_fin, h1, one_fin, two_fin, div_zero, div_fin (two_ne_zero)]
  ext <;> simp [sse, Libm.partial, Fp.lift1, mul_fin]

theorem C53_translator_axis (d x y z : ℝ) (h : x * x + y * y + z * z ≠ 0) :
    Translator.mkAxis Libm.partial (fin d) (fin x) (fin y) (fin z) = (Translator.mkAxis Libm.real d x y z).fp := by
  have h0 : 0 ≤ x * x + y * y + z * z := by nlinarith [mul_self_nonneg x, mul_self_nonneg y, mul_self_nonneg z]
  have h1 : Libm.partial.sqrt (fin (x * x + y * y + z * z)) = fin √(x * x + y * y + z * z) := by
    simp [Libm.partial, h0]
  have h2 : √(x * x + y * y + z * z) ≠ 0 := by rw [Real.sqrt_ne_zero h0]; exact h
  simp only [Translator.mkAxis, mul_fin, add_fin, h1, one_fin, two_fin, div_fin h2, div_fin (two_ne_zero), neg_fin]
  rfl

theorem C53_translator_axis_zero (d : ℝ) :
    (Translator.mkAxis Libm.partial (fin d) (fin 0) (fin 0) (fin 0)).p2 = ⟨.fin 0, .bad, .bad, .bad⟩ := by
  have h1 : Libm.partial.sqrt (fin (0 * 0 + 0 * 0 + 0 * 0)) = fin 0 := by simp [Libm.partial]
  simp only [Translator.mkAxis, mul_fin, add_fin, h1, one_fin, two_fin, div_zero, div_fin (two_ne_zero), neg_fin]
  ext <;> simp [sse, mul_fin, zero_fin]

/-! ### exponentials and logarithms -/

theorem rsqrt1_ne_zero (hc : hw'.Contract) {a : ℝ} (ha : 0 < a) : rsqrt1 hw' a ≠ 0 := by
  intro h0
  have := C23_rsqrt_bound hw' hc ⟨a, a, a, a⟩ 0 ha
  have e : (rsqrt_nr1 hw' ⟨a, a, a, a⟩).get 0 = rsqrt1 hw' a := rfl
  rw [e, h0] at this
  norm_num at this

theorem hi_dp_real0 (isa : Isa) (a b : V4 ℝ) : (hi_dp isa a b).l0 = dot3 a b := by
  cases isa <;> simp [kln, sse, dot3] <;> ring
theorem hi_dp_fp0 (isa : Isa) (a b : V4 ℝ) : (hi_dp isa a.fp b.fp).l0 = fin (dot3 a b) := by
  rw [← hi_dp_real0 isa]; cases isa <;> rfl

/-- `plane::norm` is defined unless the normal is zero, when it is `0 * rsqrt(0)`. -/
theorem C53_plane_norm (h : hw.Est hw') (isa : Isa) (a : Plane ℝ) (ha : dot3 a.p0 a.p0 ≠ 0) :
    a.fp.norm hw isa = fin (a.norm hw' isa) := by
  have h0 : 0 < dot3 a.p0 a.p0 := lt_of_le_of_ne (dot3_nonneg _) (Ne.symm ha)
  simp only [Plane.norm, sqrt_nr1, rsqrt_nr1_map, mul_ps, V4.map₂, Plane.fp, hi_dp_fp0, hi_dp_real0, rsqrt1_fin h h0]
  rfl

theorem C53_plane_norm_zero (h : hw.Est hw') (isa : Isa) (a : Plane ℝ) (ha : dot3 a.p0 a.p0 = 0) :
    a.fp.norm hw isa = .bad := by
  simp only [Plane.norm, sqrt_nr1, rsqrt_nr1_map, mul_ps, V4.map₂, Plane.fp, hi_dp_fp0, ha, rsqrt1_npos h (le_refl (0 : ℝ))]
  rfl

/-- `exp(branch)` is defined unless the branch is zero, ... -/
theorem C53_branch_exp (h : hw.Est hw') (hc : hw'.Contract) (isa : Isa) (b : Branch ℝ)
    (hb : dot3 b.p1 b.p1 ≠ 0) :
    b.fp.exp hw Libm.partial isa = (b.exp hw' Libm.real isa).fp := by
  have h0 : 0 < dot3 b.p1 b.p1 := lt_of_le_of_ne (dot3_nonneg _) (Ne.symm hb)
  have hr := rsqrt1_ne_zero hc h0
  have hd : dot3 b.p1 b.p1 * rsqrt1 hw' (dot3 b.p1 b.p1) ≠ 0 := mul_ne_zero hb hr
  simp only [Branch.exp, sqrt_nr1, rsqrt_nr1_map, mul_ps, V4.map₂, Branch.fp, hi_dp_fp0, hi_dp_real0,
    rsqrt1_fin h h0, mul_fin]
  have e : Libm.partial.sin (fin (dot3 b.p1 b.p1 * rsqrt1 hw' (dot3 b.p1 b.p1))) =
    fin (Real.sin (dot3 b.p1 b.p1 * rsqrt1 hw' (dot3 b.p1 b.p1))) := rfl
  rw [e, div_fin hd]
  rfl

/-- ... when all its lanes are not numbers. -/
theorem C53_branch_exp_zero (h : hw.Est hw') (isa : Isa) (b : Branch ℝ) (hb : dot3 b.p1 b.p1 = 0) :
    (b.fp.exp hw Libm.partial isa).p1 = allBad := by
  simp only [Branch.exp, sqrt_nr1, rsqrt_nr1_map, mul_ps, V4.map₂, Branch.fp, hi_dp_fp0, hb,
    rsqrt1_npos h (le_refl (0 : ℝ)), mul_bad]
  rfl

/-- `log(rotor)` is defined when the scalar part is strictly between -1 and 1, ... -/
theorem C53_rotor_log (h : hw.Est hw') (isa : Isa) (r : Rotor ℝ) (hr : |r.p1.l0| < 1) :
    r.fp.log hw Libm.partial isa = (r.log hw' Libm.real isa).fp := by
  have h1 : Libm.partial.acos (fin r.p1.l0) = fin (Real.arccos r.p1.l0) := by
    simp [Libm.partial, hr.le]
  have h2 : Libm.partial.sin (fin (Real.arccos r.p1.l0)) = fin (Real.sin (Real.arccos r.p1.l0)) := rfl
  have h3 : Real.sin (Real.arccos r.p1.l0) ≠ 0 := by
    rw [Real.sin_arccos]
    have := abs_lt.1 hr
    exact (Real.sqrt_pos.2 (by nlinarith)).ne'
  simp only [Rotor.log, Rotor.fp, V4.fp, h1, h2, set1_fp, rcp_nr1_fp h h3]
  simp only [rcp_nr1_map, V4.fp, rcp1_fin h h3, set1_ps]
  cases isa <;> rfl

/-- ... and not a number otherwise: at the rotors 1 and -1, and when rounding has pushed the scalar
part of a rotor beyond 1. -/
theorem C53_rotor_log_degenerate (h : hw.Est hw') (isa : Isa) (r : Rotor ℝ) (hr : 1 ≤ |r.p1.l0|) :
    (r.fp.log hw Libm.partial isa).p1 = ⟨0, .bad, .bad, .bad⟩ := by
  have key : rcp_nr1 hw (set1_ps (Libm.partial.sin (Libm.partial.acos (fin r.p1.l0)))) = allBad := by
    rcases hr.eq_or_lt with h1 | h1
    · have h2 : Libm.partial.acos (fin r.p1.l0) = fin (Real.arccos r.p1.l0) := by simp [Libm.partial, ← h1]
      have h3 : Real.sin (Real.arccos r.p1.l0) = 0 := by
        rw [Real.sin_arccos, ← sq_abs, ← h1]; norm_num
      have h4 : Libm.partial.sin (fin (Real.arccos r.p1.l0)) = fin 0 := by
        rw [← h3]; rfl
      rw [h2, h4]; exact rcp_nr1_zero h
    · have h2 : Libm.partial.acos (fin r.p1.l0) = bad := by simp [Libm.partial, h1]
      rw [h2]
      have h4 : Libm.partial.sin bad = bad := rfl
      have h5 : rcp1 hw bad = bad := by rw [rcp1, h.rcp_bad]; rfl
      rw [h4, rcp_nr1_map]
      simp only [set1_ps, allBad, h5]
  simp only [Rotor.log, Rotor.fp, V4.fp, key]
  cases isa <;> rfl

theorem explog_norm_fp (h : hw.Est hw') (isa : Isa) (a b : V4 ℝ) (ha : dot3 a a ≠ 0) :
    explog_norm hw isa a.fp b.fp = ((explog_norm hw' isa a b).1.fp, (explog_norm hw' isa a b).2.1.fp,
      (explog_norm hw' isa a b).2.2.1.fp, (explog_norm hw' isa a b).2.2.2.1.fp,
      (explog_norm hw' isa a b).2.2.2.2.fp) := by
  have h0 : 0 < dot3 a a := lt_of_le_of_ne (dot3_nonneg _) (Ne.symm ha)
  simp only [explog_norm, hi_dp_bc_fp, hi_dp_bc_real, rsqrt_nr1_fp h h0, rcp_nr1_fp h ha]
  rfl

theorem cmpeq_fp (a : V4 ℝ) : Libm.partial.cmpeq_all a.fp setzero_ps = Libm.real.cmpeq_all a setzero_ps := rfl

/-- `exp(line)` is defined for every line, ideal lines included. -/
theorem C53_line_exp (h : hw.Est hw') (isa : Isa) (l : Line ℝ) (hl : l.p1.l0 = 0) :
    l.fp.exp hw Libm.partial isa = (l.exp hw' Libm.real isa).fp := by
  simp only [Line.exp, exp_kernel, Line.fp, cmpeq_fp]
  cases hz : Libm.real.cmpeq_all l.p1 setzero_ps
  · have ha : dot3 l.p1 l.p1 ≠ 0 := by
      intro h0
      obtain ⟨h1, h2, h3⟩ := (dot3_eq_zero _).1 h0
      simp [Libm.cmpeq_all, Libm.real, sse, hl, h1, h2, h3] at hz
    simp only [cond_false, exp_general, explog_norm_fp h isa _ _ ha]
    rfl
  · rfl

/-- A line whose unused lane is not zero escapes the test for ideal lines. -/
theorem C53_line_exp_ill_formed (h : hw.Est hw') (isa : Isa) (p2 : V4 ℝ) :
    (Line.exp hw Libm.partial isa (Line.mk ⟨1, 0, 0, 0⟩ p2 : Line ℝ).fp).p1 = allBad := by
  have hz : Libm.real.cmpeq_all (⟨1, 0, 0, 0⟩ : V4 ℝ) setzero_ps = false := by
    simp [Libm.cmpeq_all, Libm.real, sse]
  have h0 : dot3 (⟨1, 0, 0, 0⟩ : V4 ℝ) ⟨1, 0, 0, 0⟩ = 0 := by simp [dot3]
  simp only [Line.exp, exp_kernel, Line.fp, cmpeq_fp, hz, cond_false, exp_general, explog_norm, hi_dp_bc_fp, h0,
    rsqrt_nr1_npos h (le_refl (0 : ℝ)), rcp_nr1_zero h]
  rfl

/-- `log(motor)` is defined for every motor. -/
theorem C53_motor_log (h : hw.Est hw') (hc : hw'.Contract) (isa : Isa) (m : Motor ℝ) :
    m.fp.log hw Libm.partial isa = (m.log hw' Libm.real isa).fp := by
  have hm : ∀ v : V4 ℝ, mul_ps (set_ps 1 1 1 0) v.fp = (mul_ps (set_ps 1 1 1 0) v).fp := fun _ => rfl
  simp only [Motor.log, log_kernel, Motor.fp, hm, cmpeq_fp]
  cases hz : Libm.real.cmpeq_all (mul_ps (set_ps 1 1 1 0) m.p1) setzero_ps
  · have ha : dot3 (mul_ps (set_ps 1 1 1 0) m.p1) (mul_ps (set_ps 1 1 1 0) m.p1) ≠ 0 := by
      intro h0
      obtain ⟨h1, h2, h3⟩ := (dot3_eq_zero _).1 h0
      simp only [sse, one_mul] at h1 h2 h3
      simp [Libm.cmpeq_all, Libm.real, sse, h1, h2, h3] at hz
    simp only [cond_false, log_general, hm, explog_norm_fp h isa _ _ ha]
    set n := explog_norm hw' isa (mul_ps (set_ps 1 1 1 0) m.p1) (mul_ps (set_ps 1 1 1 0) m.p2)
    have hs : (mul_ps n.1 n.2.2.1).l0 ≠ 0 := by
      have h0 : 0 < dot3 (mul_ps (set_ps 1 1 1 0) m.p1) (mul_ps (set_ps 1 1 1 0) m.p1) :=
        lt_of_le_of_ne (dot3_nonneg _) (Ne.symm ha)
      have e : (mul_ps n.1 n.2.2.1).l0 = dot3 (mul_ps (set_ps 1 1 1 0) m.p1) (mul_ps (set_ps 1 1 1 0) m.p1) *
          rsqrt1 hw' (dot3 (mul_ps (set_ps 1 1 1 0) m.p1) (mul_ps (set_ps 1 1 1 0) m.p1)) := by
        simp only [n, explog_norm, hi_dp_bc_real, rsqrt_nr1_map]
        rfl
      rw [e]
      exact mul_ne_zero ha (rsqrt1_ne_zero hc h0)
    have hp : Libm.partial.flt (Libm.partial.abs (V4.fp m.p1).l0) Libm.partial.eps6
        = Libm.real.flt (Libm.real.abs m.p1.l0) Libm.real.eps6 := rfl
    rw [hp]
    cases hq : Libm.real.flt (Libm.real.abs m.p1.l0) Libm.real.eps6
    · have hn : m.p1.l0 ≠ 0 := by
        intro h0
        simp [Libm.real, h0] at hq
      have hd : (mul_ps n.2.1.fp n.2.2.1.fp).l0 * (-1) / (V4.fp m.p1).l0
          = fin ((mul_ps n.2.1 n.2.2.1).l0 * (-1) / m.p1.l0) := div_fin hn
      simp only [cond_false, hd]
      rfl
    · have hd : -(V4.fp m.p2).l0 / (mul_ps n.1.fp n.2.2.1.fp).l0
          = fin (-m.p2.l0 / (mul_ps n.1 n.2.2.1).l0) := div_fin hs
      simp only [cond_true, hd]
      rfl
  · rfl

/-! ### binary32

Here the property is false: the squared norm of a vector that is not zero can underflow to zero, and
that of a finite vector can overflow.  `h0`, `hinf` are the values the Intel manual prescribes for the
estimate of zero and of infinity. -/

/-- A plane whose normal is `2^-100 e1`: finite, not zero, ... -/
def tinyPlane : Plane F32 := ⟨⟨0, F32.ofMag false 0x0D800000, 0, 0⟩⟩
/-- ... and one whose normal is `2^100 e1`. -/
def hugePlane : Plane F32 := ⟨⟨0, F32.ofMag false 0x71800000, 0, 0⟩⟩

theorem tinyPlane_val : (tinyPlane.p0.l1.val : ℚ) = 1 / 2 ^ 100 ∧ (hugePlane.p0.l1.val : ℚ) = 2 ^ 100 := by
  constructor <;> decide +kernel

/-- Underflow: `normalize` gives NaN for a plane that is not degenerate. -/
theorem C53_underflow_fails (hw : Hw F32) (h0 : hw.rsqrt 0 = F32.inf false) (isa : Isa) :
    (tinyPlane.normalize hw isa).p0.l1.isNaN = true := by
  have e : ∀ isa, (hi_dp_bc isa tinyPlane.p0 tinyPlane.p0).l1 = 0 := by
    intro isa; cases isa <;> decide +kernel
  have k : (rsqrt_nr1 hw (hi_dp_bc isa tinyPlane.p0 tinyPlane.p0)).l1 = rsqrt1 hw 0 := by
    rw [rsqrt_nr1_map]; simp only [e]
  have n : (rsqrt1 hw (0 : F32)) = 1 / 2 * F32.inf false * (3 - 0 * (F32.inf false * F32.inf false)) := by
    rw [rsqrt1, h0]
  cases isa
  · have : (tinyPlane.normalize hw .sse3).p0.l1 =
      ((rsqrt_nr1 hw (hi_dp_bc .sse3 tinyPlane.p0 tinyPlane.p0)).l1 + 0) * tinyPlane.p0.l1 := rfl
    rw [this, k, n]; decide +kernel
  · have : (tinyPlane.normalize hw .sse41).p0.l1 =
      (rsqrt_nr1 hw (hi_dp_bc .sse41 tinyPlane.p0 tinyPlane.p0)).l1 * tinyPlane.p0.l1 := rfl
    rw [this, k, n]; decide +kernel

/-- Overflow: the same for a large one. -/
theorem C53_overflow_fails (hw : Hw F32) (hinf : hw.rsqrt (F32.inf false) = 0) (isa : Isa) :
    (hugePlane.normalize hw isa).p0.l1.isNaN = true := by
  have e : ∀ isa, (hi_dp_bc isa hugePlane.p0 hugePlane.p0).l1 = F32.inf false := by
    intro isa; cases isa <;> decide +kernel
  have k : (rsqrt_nr1 hw (hi_dp_bc isa hugePlane.p0 hugePlane.p0)).l1 = rsqrt1 hw (F32.inf false) := by
    rw [rsqrt_nr1_map]; simp only [e]
  have n : (rsqrt1 hw (F32.inf false)) = 1 / 2 * 0 * (3 - F32.inf false * (0 * 0)) := by
    rw [rsqrt1, hinf]
  cases isa
  · have : (hugePlane.normalize hw .sse3).p0.l1 =
      ((rsqrt_nr1 hw (hi_dp_bc .sse3 hugePlane.p0 hugePlane.p0)).l1 + 0) * hugePlane.p0.l1 := rfl
    rw [this, k, n]; decide +kernel
  · have : (hugePlane.normalize hw .sse41).p0.l1 =
      (rsqrt_nr1 hw (hi_dp_bc .sse41 hugePlane.p0 hugePlane.p0)).l1 * hugePlane.p0.l1 := rfl
    rw [this, k, n]; decide +kernel

/-- A weight whose reciprocal overflows: `rcpps` treats subnormal operands as zero, so a point of
weight `2^-127` cannot be normalised. -/
theorem C53_subnormal_fails (hw : Hw F32) (h0 : hw.rcp (F32.ofMag false 0x00400000) = F32.inf false) :
    ((Point.mk ⟨F32.ofMag false 0x00400000, 1, 0, 0⟩ : Point F32).normalize hw).p3.l1.isFinite = false := by
  have n : rcp1 hw (F32.ofMag false 0x00400000) =
      F32.inf false * (2 - F32.ofMag false 0x00400000 * F32.inf false) := by rw [rcp1, h0]
  have : ((Point.mk ⟨F32.ofMag false 0x00400000, 1, 0, 0⟩ : Point F32).normalize hw).p3.l1 =
      1 * rcp1 hw (F32.ofMag false 0x00400000) := rfl
  rw [this, n]; decide +kernel

/-- The degenerate inputs in binary32: the exponential of the zero branch is NaN in every lane
whatever `sin` and `cos` do with a NaN, as long as they return one. -/
theorem C53_f32_branch_exp_zero (hw : Hw F32) (lm : Libm F32) (h0 : hw.rsqrt 0 = F32.inf false)
    (hs : lm.sin F32.defaultNaN = F32.defaultNaN) (isa : Isa) :
    ((Branch.mk ⟨0, 0, 0, 0⟩ : Branch F32).exp hw lm isa).p1.l1.isNaN = true := by
  have e : ∀ isa, (hi_dp isa (⟨0, 0, 0, 0⟩ : V4 F32) ⟨0, 0, 0, 0⟩).l0 = 0 := by
    intro isa; cases isa <;> decide +kernel
  have k : (sqrt_nr1 hw (hi_dp isa (⟨0, 0, 0, 0⟩ : V4 F32) ⟨0, 0, 0, 0⟩)).l0 = 0 * rsqrt1 hw 0 := by
    rw [sqrt_nr1, rsqrt_nr1_map]; simp only [mul_ps, V4.map₂, e]
  have n : 0 * (rsqrt1 hw (0 : F32)) = F32.defaultNaN := by
    rw [rsqrt1, h0]; decide +kernel
  have : ((Branch.mk ⟨0, 0, 0, 0⟩ : Branch F32).exp hw lm isa).p1.l1 =
      lm.sin (sqrt_nr1 hw (hi_dp isa (⟨0, 0, 0, 0⟩ : V4 F32) ⟨0, 0, 0, 0⟩)).l0 /
        (sqrt_nr1 hw (hi_dp isa (⟨0, 0, 0, 0⟩ : V4 F32) ⟨0, 0, 0, 0⟩)).l0 * 0 + 0 := rfl
  rw [this, k, n, hs]; decide +kernel

/-- A case: the plane `3 x + 4 y + 5 = 0` normalises to numbers, the plane at infinity does not. -/
example : (Plane.normalize (Hw.partial Hw.ideal) .sse41 (Plane.mk4 3 4 0 5 : Plane ℝ).fp).isFin ∧
    ¬ (Plane.normalize (Hw.partial Hw.ideal) .sse41 (Plane.mk4 0 0 0 5 : Plane ℝ).fp).isFin := by
  constructor
  · rw [C53_plane_normalize (Hw.partial_est _) .sse41 _ (by norm_num [dot3, Plane.mk4, set_ps])]
    exact V4.isFin_fp _
  · intro h
    have := (C53_plane_normalize_zero (Hw.partial_est Hw.ideal) .sse41 (Plane.mk4 0 0 0 5)
      (by norm_num [dot3, Plane.mk4, set_ps])).1
    have h2 := h.2.1
    rw [this] at h2
    exact h2

end Klein
