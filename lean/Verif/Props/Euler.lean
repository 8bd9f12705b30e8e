import Verif.Props.Log
import Verif.Props.Norms

/-!
# C37: Euler angles

The conversion to Euler angles inverts the constructor away from gimbal lock, except where the code's
gimbal lock test fires: the test looks at `b1 b2 + b3 b0` (half the sine of another angle
convention), so that it fires at the wrong rotors.
-/

set_option linter.unusedSimpArgs false
set_option linter.unusedSectionVars false

namespace Klein

open PGA PGA.MV Euclid

variable {hw : Hw ℝ} (hx : hw.Exact) (isa : Isa)

theorem sumsq_zero {a b : ℝ} (h : a * a + b * b = 0) : a = 0 ∧ b = 0 := by
  constructor <;> nlinarith [mul_self_nonneg a, mul_self_nonneg b]

/-- Two unit quaternions with the same first column and the same third row of their rotation matrices,
the first column not along the third axis, agree up to sign. -/
theorem quat_eq_of_matrix {q0 q1 q2 q3 c0 c1 c2 c3 : ℝ}
    (hq : q0 * q0 + q1 * q1 + q2 * q2 + q3 * q3 = 1) (hc : c0 * c0 + c1 * c1 + c2 * c2 + c3 * c3 = 1)
    (e11 : 1 - 2 * (c2 * c2 + c3 * c3) = 1 - 2 * (q2 * q2 + q3 * q3))
    (e21 : 2 * (c0 * c3 + c1 * c2) = 2 * (q0 * q3 + q1 * q2))
    (e31 : 2 * (c0 * c2 - c1 * c3) = 2 * (q0 * q2 - q1 * q3))
    (e32 : 2 * (c0 * c1 + c2 * c3) = 2 * (q0 * q1 + q2 * q3))
    (e33 : 1 - 2 * (c1 * c1 + c2 * c2) = 1 - 2 * (q1 * q1 + q2 * q2))
    (hne : 2 * (q0 * q2 - q1 * q3) ≠ 1 ∧ 2 * (q0 * q2 - q1 * q3) ≠ -1) :
    (c0 = q0 ∧ c1 = q1 ∧ c2 = q2 ∧ c3 = q3) ∨ (c0 = -q0 ∧ c1 = -q1 ∧ c2 = -q2 ∧ c3 = -q3) := by
  -- the relative quaternion `q* c`
  set d0 := q0 * c0 + q1 * c1 + q2 * c2 + q3 * c3 with hd0
  set d1 := q0 * c1 - q1 * c0 - (q2 * c3 - q3 * c2) with hd1
  set d2 := q0 * c2 - q2 * c0 - (q3 * c1 - q1 * c3) with hd2
  set d3 := q0 * c3 - q3 * c0 - (q1 * c2 - q2 * c1) with hd3
  have hN : d0 * d0 + d1 * d1 + d2 * d2 + d3 * d3 = 1 := by
    have : d0 * d0 + d1 * d1 + d2 * d2 + d3 * d3 =
        (q0 * q0 + q1 * q1 + q2 * q2 + q3 * q3) * (c0 * c0 + c1 * c1 + c2 * c2 + c3 * c3) := by
      rw [hd0, hd1, hd2, hd3]; ring
    rw [this, hq, hc]; norm_num
  have hx : 1 - 2 * (q2 * q2 + q3 * q3) = q0 * q0 + q1 * q1 - q2 * q2 - q3 * q3 := by
    linear_combination -hq
  have hx' : 1 - 2 * (c2 * c2 + c3 * c3) = c0 * c0 + c1 * c1 - c2 * c2 - c3 * c3 := by
    linear_combination -hc
  have hz : 1 - 2 * (q1 * q1 + q2 * q2) = q0 * q0 - q1 * q1 - q2 * q2 + q3 * q3 := by
    linear_combination -hq
  have hz' : 1 - 2 * (c1 * c1 + c2 * c2) = c0 * c0 - c1 * c1 - c2 * c2 + c3 * c3 := by
    linear_combination -hc
  -- first columns have inner product 1
  have hcol : (q0 * q0 + q1 * q1 - q2 * q2 - q3 * q3) * (c0 * c0 + c1 * c1 - c2 * c2 - c3 * c3) +
      (2 * (q0 * q3 + q1 * q2)) * (2 * (c0 * c3 + c1 * c2)) +
      (2 * (q0 * q2 - q1 * q3)) * (2 * (c0 * c2 - c1 * c3)) = 1 := by
    rw [← hx, ← hx', e11, e21, e31, hx]
    linear_combination (q0 * q0 + q1 * q1 + q2 * q2 + q3 * q3 + 1) * hq
  have hcol' : d0 * d0 + d1 * d1 - d2 * d2 - d3 * d3 = 1 := by
    rw [← hcol, hd0, hd1, hd2, hd3]; ring
  have h23 : d2 * d2 + d3 * d3 = 0 := by linear_combination (hN - hcol') / 2
  have z2 : d2 = 0 := (sumsq_zero h23).1
  have z3 : d3 = 0 := (sumsq_zero h23).2
  -- the other relative quaternion `c q*`
  set f1 := q0 * c1 - q1 * c0 + (q2 * c3 - q3 * c2) with hf1
  set f2 := q0 * c2 - q2 * c0 + (q3 * c1 - q1 * c3) with hf2
  set f3 := q0 * c3 - q3 * c0 + (q1 * c2 - q2 * c1) with hf3
  have hN' : d0 * d0 + f1 * f1 + f2 * f2 + f3 * f3 = 1 := by
    have : d0 * d0 + f1 * f1 + f2 * f2 + f3 * f3 =
        (q0 * q0 + q1 * q1 + q2 * q2 + q3 * q3) * (c0 * c0 + c1 * c1 + c2 * c2 + c3 * c3) := by
      rw [hd0, hf1, hf2, hf3]; ring
    rw [this, hq, hc]; norm_num
  have hrow : (2 * (q0 * q2 - q1 * q3)) * (2 * (c0 * c2 - c1 * c3)) +
      (2 * (q0 * q1 + q2 * q3)) * (2 * (c0 * c1 + c2 * c3)) +
      (q0 * q0 - q1 * q1 - q2 * q2 + q3 * q3) * (c0 * c0 - c1 * c1 - c2 * c2 + c3 * c3) = 1 := by
    rw [← hz, ← hz', e33, e31, e32, hz]
    linear_combination (q0 * q0 + q1 * q1 + q2 * q2 + q3 * q3 + 1) * hq
  have hrow' : d0 * d0 + f3 * f3 - f1 * f1 - f2 * f2 = 1 := by
    rw [← hrow, hd0, hf1, hf2, hf3]; ring
  have h12 : f1 * f1 + f2 * f2 = 0 := by linear_combination (hN' - hrow') / 2
  have y1 : f1 = 0 := (sumsq_zero h12).1
  have y2 : f2 = 0 := (sumsq_zero h12).2
  -- `c = q (d0 + d1 i) = (d0 + f3 k) q`
  have a0 : c0 = d0 * q0 - d1 * q1 := by
    have : c0 * (q0 * q0 + q1 * q1 + q2 * q2 + q3 * q3) = d0 * q0 - d1 * q1 - d2 * q2 - d3 * q3 := by
      rw [hd0, hd1, hd2, hd3]; ring
    rw [hq, z2, z3] at this; linear_combination this
  have a1 : c1 = d0 * q1 + d1 * q0 := by
    have : c1 * (q0 * q0 + q1 * q1 + q2 * q2 + q3 * q3) = d0 * q1 + d1 * q0 + d3 * q2 - d2 * q3 := by
      rw [hd0, hd1, hd2, hd3]; ring
    rw [hq, z2, z3] at this; linear_combination this
  have a2 : c2 = d0 * q2 + d1 * q3 := by
    have : c2 * (q0 * q0 + q1 * q1 + q2 * q2 + q3 * q3) = d0 * q2 + d2 * q0 + d1 * q3 - d3 * q1 := by
      rw [hd0, hd1, hd2, hd3]; ring
    rw [hq, z2, z3] at this; linear_combination this
  have a3 : c3 = d0 * q3 - d1 * q2 := by
    have : c3 * (q0 * q0 + q1 * q1 + q2 * q2 + q3 * q3) = d0 * q3 + d3 * q0 + d2 * q1 - d1 * q2 := by
      rw [hd0, hd1, hd2, hd3]; ring
    rw [hq, z2, z3] at this; linear_combination this
  -- `f1 = f2 = 0` then says that `d1` times the x and y parts of the first column vanish
  have b1 : d1 * (q0 * q0 + q1 * q1 - q2 * q2 - q3 * q3) = 0 := by
    have : f1 = d1 * (q0 * q0 + q1 * q1 - q2 * q2 - q3 * q3) := by
      rw [hf1]; rw [a0, a1, a2, a3]; ring
    rw [← this, y1]
  have b2 : d1 * (2 * (q0 * q3 + q1 * q2)) = 0 := by
    have : f2 = d1 * (2 * (q0 * q3 + q1 * q2)) := by
      rw [hf2]; rw [a0, a1, a2, a3]; ring
    rw [← this, y2]
  have hcol1 : (q0 * q0 + q1 * q1 - q2 * q2 - q3 * q3) ^ 2 + (2 * (q0 * q3 + q1 * q2)) ^ 2 +
      (2 * (q0 * q2 - q1 * q3)) ^ 2 = 1 := by
    linear_combination (q0 * q0 + q1 * q1 + q2 * q2 + q3 * q3 + 1) * hq
  have w1 : d1 = 0 := by
    by_contra hne1
    have u1 := (mul_eq_zero.1 b1).resolve_left hne1
    have u2 := (mul_eq_zero.1 b2).resolve_left hne1
    rw [u1, u2] at hcol1
    have : (2 * (q0 * q2 - q1 * q3)) * (2 * (q0 * q2 - q1 * q3)) = 1 := by linear_combination hcol1
    rcases mul_self_eq_one_iff.1 this with h | h
    · exact hne.1 h
    · exact hne.2 h
  have hd : d0 * d0 = 1 := by rw [z2, z3, w1] at hN; linear_combination hN
  rw [w1] at a0 a1 a2 a3
  rcases mul_self_eq_one_iff.1 hd with h | h <;> rw [h] at a0 a1 a2 a3
  · left; exact ⟨by linear_combination a0, by linear_combination a1, by linear_combination a2,
      by linear_combination a3⟩
  · right; exact ⟨by linear_combination a0, by linear_combination a1, by linear_combination a2,
      by linear_combination a3⟩

/-- The unnormalised quaternion of the constructor. -/
noncomputable def eulerQuat (roll pitch yaw : ℝ) : V4 ℝ :=
  let cy := Real.cos (yaw / 2); let sy := Real.sin (yaw / 2)
  let cp := Real.cos (pitch / 2); let sp := Real.sin (pitch / 2)
  let cr := Real.cos (roll / 2); let sr := Real.sin (roll / 2)
  ⟨cr * cp * cy + sr * sp * sy, sr * cp * cy - cr * sp * sy, cr * sp * cy + sr * cp * sy,
   cr * cp * sy - sr * sp * cy⟩

theorem eulerQuat_norm (a b c : ℝ) : dot4 (eulerQuat a b c) (eulerQuat a b c) = 1 := by
  have h1 := Real.cos_sq_add_sin_sq (a / 2)
  have h2 := Real.cos_sq_add_sin_sq (b / 2)
  have h3 := Real.cos_sq_add_sin_sq (c / 2)
  simp only [dot4, eulerQuat]
  generalize Real.cos (a / 2) = x at *
  generalize Real.sin (a / 2) = x' at *
  generalize Real.cos (b / 2) = y at *
  generalize Real.sin (b / 2) = y' at *
  generalize Real.cos (c / 2) = z at *
  generalize Real.sin (c / 2) = z' at *
  grobner

include hx in
/-- The normalisation in the Euler constructor does nothing in exact arithmetic. -/
theorem Rotor.mkEuler_eq (ea : EulerAngles ℝ) :
    Rotor.mkEuler hw Libm.real isa ea = ⟨eulerQuat ea.roll ea.pitch ea.yaw⟩ := by
  have e : Rotor.mkEuler hw Libm.real isa ea =
      Rotor.normalize hw isa ⟨eulerQuat ea.roll ea.pitch ea.yaw⟩ := by
    simp only [Rotor.mkEuler, eulerQuat, sse, Libm.real, one_div]
    rfl
  rw [e, Rotor.normalize_eq, eulerQuat_norm, rsqrt1_eq hx one_pos, Real.sqrt_one, inv_one]
  simp [kln, sse]

/-- The entries of the rotation matrix of the Euler quaternion. -/
theorem eulerQuat_entries (a b c : ℝ) :
    let q := eulerQuat a b c
    2 * (q.l0 * q.l2 - q.l1 * q.l3) = Real.sin b ∧
    2 * (q.l0 * q.l1 + q.l2 * q.l3) = Real.cos b * Real.sin a ∧
    1 - 2 * (q.l1 * q.l1 + q.l2 * q.l2) = Real.cos b * Real.cos a ∧
    2 * (q.l0 * q.l3 + q.l1 * q.l2) = Real.cos b * Real.sin c ∧
    1 - 2 * (q.l2 * q.l2 + q.l3 * q.l3) = Real.cos b * Real.cos c := by
  have h1 := Real.cos_sq_add_sin_sq (a / 2)
  have h2 := Real.cos_sq_add_sin_sq (b / 2)
  have h3 := Real.cos_sq_add_sin_sq (c / 2)
  have ea : a = 2 * (a / 2) := by ring
  have eb : b = 2 * (b / 2) := by ring
  have ec : c = 2 * (c / 2) := by ring
  have ca : Real.cos a = 2 * Real.cos (a / 2) ^ 2 - 1 := by nth_rewrite 1 [ea]; rw [Real.cos_two_mul]
  have cb : Real.cos b = 2 * Real.cos (b / 2) ^ 2 - 1 := by nth_rewrite 1 [eb]; rw [Real.cos_two_mul]
  have cc : Real.cos c = 2 * Real.cos (c / 2) ^ 2 - 1 := by nth_rewrite 1 [ec]; rw [Real.cos_two_mul]
  have sa : Real.sin a = 2 * Real.sin (a / 2) * Real.cos (a / 2) := by
    nth_rewrite 1 [ea]; rw [Real.sin_two_mul]
  have sb : Real.sin b = 2 * Real.sin (b / 2) * Real.cos (b / 2) := by
    nth_rewrite 1 [eb]; rw [Real.sin_two_mul]
  have sc : Real.sin c = 2 * Real.sin (c / 2) * Real.cos (c / 2) := by
    nth_rewrite 1 [ec]; rw [Real.sin_two_mul]
  simp only [eulerQuat]
  rw [ca, cb, cc, sa, sb, sc]
  generalize Real.cos (a / 2) = x at *
  generalize Real.sin (a / 2) = x' at *
  generalize Real.cos (b / 2) = y at *
  generalize Real.sin (b / 2) = y' at *
  generalize Real.cos (c / 2) = z at *
  generalize Real.sin (c / 2) = z' at *
  refine ⟨?_, ?_, ?_, ?_, ?_⟩ <;> grobner

/-- Sine of the pitch of a rotor. -/
def Rotor.sinp (r : Rotor ℝ) : ℝ := 2 * (r.p1.l0 * r.p1.l2 - r.p1.l1 * r.p1.l3)

/-- The quantity compared with `±0.4999` (rotor.hpp:211). -/
def Rotor.gimbalTest (r : Rotor ℝ) : ℝ := r.p1.l1 * r.p1.l2 + r.p1.l3 * r.p1.l0

theorem arg_polar {x y C : ℝ} (hC : 0 < C) (h : x ^ 2 + y ^ 2 = C ^ 2) :
    C * Real.cos (Complex.arg ⟨x, y⟩) = x ∧ C * Real.sin (Complex.arg ⟨x, y⟩) = y := by
  have hn : ‖(⟨x, y⟩ : ℂ)‖ = C := by
    rw [Complex.norm_def, Complex.normSq_mk, show x * x + y * y = C ^ 2 by linarith, Real.sqrt_sq hC.le]
  have h0 : (⟨x, y⟩ : ℂ) ≠ 0 := by
    intro e; rw [e] at hn; simp at hn; exact hC.ne hn
  constructor
  · rw [Complex.cos_arg h0, hn]; field_simp
  · rw [Complex.sin_arg, hn]; field_simp

include hx in
/-- C37 where the code's gimbal test does not fire and the rotor is not in gimbal lock: the round trip
gives the rotor back up to sign. -/
theorem C37_generic_partial (r : Rotor ℝ) (h : r.sqNorm = 1) (hg : |r.gimbalTest| ≤ 4999 / 10000)
    (hp : |r.sinp| < 1) :
    Rotor.mkEuler hw Libm.real isa (r.as_euler_angles Libm.real) = r ∨
    Rotor.mkEuler hw Libm.real isa (r.as_euler_angles Libm.real) =
      ⟨⟨-r.p1.l0, -r.p1.l1, -r.p1.l2, -r.p1.l3⟩⟩ := by
  rw [Rotor.mkEuler_eq hx]
  obtain ⟨⟨b0, b1, b2, b3⟩⟩ := r
  simp only [Rotor.sqNorm, kln, sse] at h
  simp only [Rotor.gimbalTest] at hg
  simp only [Rotor.sinp] at hp
  obtain ⟨hg1, hg2⟩ := abs_le.1 hg
  obtain ⟨hp1, hp2⟩ := abs_lt.1 hp
  have t1 : decide ((4999 / 10000 : ℝ) < b1 * b2 + b3 * b0) = false := decide_eq_false (not_lt.2 hg2)
  have t2 : decide (b1 * b2 + b3 * b0 < -(4999 / 10000 : ℝ)) = false := decide_eq_false (not_lt.2 hg1)
  have t3 : decide (1 < |2 * (b0 * b2 - b1 * b3)|) = false := decide_eq_false (not_lt.2 hp.le)
  have e : (⟨⟨b0, b1, b2, b3⟩⟩ : Rotor ℝ).as_euler_angles Libm.real =
      ⟨Complex.arg ⟨1 - 2 * (b1 * b1 + b2 * b2), 2 * (b0 * b1 + b2 * b3)⟩,
       Real.arcsin (2 * (b0 * b2 - b1 * b3)),
       Complex.arg ⟨1 - 2 * (b2 * b2 + b3 * b3), 2 * (b0 * b3 + b1 * b2)⟩⟩ := by
    simp only [Rotor.as_euler_angles, Libm.real, t1, t2, t3, cond_false]
  rw [e]
  set S := 2 * (b0 * b2 - b1 * b3) with hS
  have hC : 0 < Real.sqrt (1 - S ^ 2) := Real.sqrt_pos.2 (by nlinarith)
  have hC2 : Real.sqrt (1 - S ^ 2) ^ 2 = 1 - S ^ 2 := Real.sq_sqrt (by nlinarith)
  have p1 := arg_polar hC (x := 1 - 2 * (b1 * b1 + b2 * b2)) (y := 2 * (b0 * b1 + b2 * b3)) (by
    rw [hC2, hS]; grobner)
  have p2 := arg_polar hC (x := 1 - 2 * (b2 * b2 + b3 * b3)) (y := 2 * (b0 * b3 + b1 * b2)) (by
    rw [hC2, hS]; grobner)
  have en := eulerQuat_entries (Complex.arg ⟨1 - 2 * (b1 * b1 + b2 * b2), 2 * (b0 * b1 + b2 * b3)⟩)
    (Real.arcsin S) (Complex.arg ⟨1 - 2 * (b2 * b2 + b3 * b3), 2 * (b0 * b3 + b1 * b2)⟩)
  have nn := eulerQuat_norm (Complex.arg ⟨1 - 2 * (b1 * b1 + b2 * b2), 2 * (b0 * b1 + b2 * b3)⟩)
    (Real.arcsin S) (Complex.arg ⟨1 - 2 * (b2 * b2 + b3 * b3), 2 * (b0 * b3 + b1 * b2)⟩)
  simp only [Real.cos_arcsin, Real.sin_arcsin hp1.le hp2.le, p1.1, p1.2, p2.1, p2.2] at en
  obtain ⟨n1, n2, n3, n4, n5⟩ := en
  simp only [dot4] at nn
  rcases quat_eq_of_matrix h nn n5 n4 (n1.trans hS) n2 n3 ⟨by rw [← hS]; exact hp2.ne, by rw [← hS]; exact hp1.ne'⟩ with H | H
  · left
    exact Rotor.ext (V4.ext H.1 H.2.1 H.2.2.1 H.2.2.2)
  · right
    exact Rotor.ext (V4.ext H.1 H.2.1 H.2.2.1 H.2.2.2)

include hx in
/-- C37 is violated (wrong gimbal test): the quarter turn about the z axis comes back as a quarter
turn about the y axis.  It is nowhere near gimbal lock: the sine of its pitch is 0. -/
theorem C37_fails_yaw (r : Rotor ℝ)
    (hr : r = ⟨⟨Real.sqrt 2 / 2, 0, 0, Real.sqrt 2 / 2⟩⟩) :
    r.sqNorm = 1 ∧ r.sinp = 0 ∧
    Rotor.mkEuler hw Libm.real isa (r.as_euler_angles Libm.real) =
      ⟨⟨Real.sqrt 2 / 2, 0, Real.sqrt 2 / 2, 0⟩⟩ := by
  subst hr
  have h2 : Real.sqrt 2 / 2 * (Real.sqrt 2 / 2) = 1 / 2 := by
    rw [div_mul_div_comm, Real.mul_self_sqrt (by norm_num)]; norm_num
  have t1 : decide ((4999 / 10000 : ℝ) < 0 * 0 + Real.sqrt 2 / 2 * (Real.sqrt 2 / 2)) = true := by
    rw [h2]; apply decide_eq_true; norm_num
  have ha : Complex.arg ⟨Real.sqrt 2 / 2, 0⟩ = 0 := by
    have : (⟨Real.sqrt 2 / 2, 0⟩ : ℂ) = ((Real.sqrt 2 / 2 : ℝ) : ℂ) := rfl
    rw [this, Complex.arg_ofReal_of_nonneg (by positivity)]
  have e : (⟨⟨Real.sqrt 2 / 2, 0, 0, Real.sqrt 2 / 2⟩⟩ : Rotor ℝ).as_euler_angles Libm.real =
      ⟨0, Real.pi / 2, 0⟩ := by
    simp only [Rotor.as_euler_angles, Libm.real, t1, cond_true, ha]
    simp
  refine ⟨?_, ?_, ?_⟩
  · simp only [Rotor.sqNorm, kln, h2]; norm_num
  · simp [Rotor.sinp]
  · rw [e, Rotor.mkEuler_eq hx]
    have : Real.pi / 2 / 2 = Real.pi / 4 := by ring
    simp [eulerQuat, this, Real.cos_pi_div_four, Real.sin_pi_div_four]

include hx in
/-- C37 is violated at gimbal lock: the test does not fire for this rotor with pitch a quarter turn,
and the round trip loses the remaining rotation. -/
theorem C37_fails_gimbal (r : Rotor ℝ) (hr : r = ⟨⟨1 / 2, 1 / 2, 1 / 2, -(1 / 2)⟩⟩) :
    r.sqNorm = 1 ∧ r.sinp = 1 ∧ r.gimbalTest = 0 ∧
    Rotor.mkEuler hw Libm.real isa (r.as_euler_angles Libm.real) =
      ⟨⟨Real.sqrt 2 / 2, 0, Real.sqrt 2 / 2, 0⟩⟩ := by
  subst hr
  have t1 : decide ((4999 / 10000 : ℝ) < 1 / 2 * (1 / 2) + -(1 / 2) * (1 / 2)) = false := by
    apply decide_eq_false; norm_num
  have t2 : decide ((1 / 2 * (1 / 2) + -(1 / 2) * (1 / 2) : ℝ) < -(4999 / 10000)) = false := by
    apply decide_eq_false; norm_num
  have hsp : (2 * (1 / 2 * (1 / 2) - 1 / 2 * -(1 / 2)) : ℝ) = 1 := by norm_num
  have t3 : decide (1 < |(1 : ℝ)|) = false := by
    apply decide_eq_false; norm_num
  have z1 : (1 - 2 * (1 / 2 * (1 / 2) + 1 / 2 * (1 / 2)) : ℝ) = 0 := by norm_num
  have z2 : (2 * (1 / 2 * (1 / 2) + 1 / 2 * -(1 / 2)) : ℝ) = 0 := by norm_num
  have z3 : (1 - 2 * (1 / 2 * (1 / 2) + -(1 / 2) * -(1 / 2)) : ℝ) = 0 := by norm_num
  have z4 : (2 * (1 / 2 * -(1 / 2) + 1 / 2 * (1 / 2)) : ℝ) = 0 := by norm_num
  have e0 : (⟨0, 0⟩ : ℂ) = 0 := rfl
  have e : (⟨⟨1 / 2, 1 / 2, 1 / 2, -(1 / 2)⟩⟩ : Rotor ℝ).as_euler_angles Libm.real =
      ⟨0, Real.pi / 2, 0⟩ := by
    simp only [Rotor.as_euler_angles, Libm.real, t1, t2, hsp, t3, cond_false, z1, z2, z3, z4, e0,
      Complex.arg_zero, Real.arcsin_one]
  refine ⟨?_, ?_, ?_, ?_⟩
  · simp only [Rotor.sqNorm, kln]; norm_num
  · simp only [Rotor.sinp, hsp]
  · simp only [Rotor.gimbalTest]; norm_num
  · rw [e, Rotor.mkEuler_eq hx]
    have : Real.pi / 2 / 2 = Real.pi / 4 := by ring
    simp [eulerQuat, this, Real.cos_pi_div_four, Real.sin_pi_div_four]

/-- The rotor of the constructor is the product of the three elementary rotors: roll (about x) times
pitch (about y) times yaw (about z), so that yaw acts first. -/
theorem C37_order (a b c : ℝ) :
    (⟨eulerQuat a b c⟩ : Rotor ℝ).mv =
      (Rotor.mk ⟨Real.cos (a / 2), Real.sin (a / 2), 0, 0⟩).mv *
      (Rotor.mk ⟨Real.cos (b / 2), 0, Real.sin (b / 2), 0⟩).mv *
      (Rotor.mk ⟨Real.cos (c / 2), 0, 0, Real.sin (c / 2)⟩).mv := by
  simp only [eulerQuat]
  mv_ring

end Klein
