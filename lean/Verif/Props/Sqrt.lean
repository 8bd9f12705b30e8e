import Verif.Props.Inverses
import Verif.Props.Actions
import Mathlib.Tactic.FieldSimp

/-!
# C29: square roots; C04: the translator between two points
-/

set_option linter.unusedSimpArgs false
set_option linter.unusedSectionVars false

namespace Klein

open PGA PGA.MV Euclid

/-! ### helper lemmas on `1 + m` -/

section Ring
variable {K : Type} [CommRing K]

theorem Motor.rev_mul_self (m : Motor K) : PGA.MV.rev m.mv * m.mv = m.mv * PGA.MV.rev m.mv := by mv_ring

theorem Motor.dualSmul_sq (m : Motor K) (s t : K) :
    (m.dualSmul s t).mv * (m.dualSmul s t).mv = (Dual.mk (s * s) (2 * s * t)).mv * (m.mv * m.mv) := by
  rw [Motor.dualSmul_mv]
  mv_ring

/-- `1 + m` as a motor. -/
def Motor.succ (m : Motor K) : Motor K := ⟨add_ss m.p1 (set_ss 1), m.p2⟩

theorem Motor.succ_mv (m : Motor K) : m.succ.mv = 1 + m.mv := by
  simp only [Motor.succ]; mv_ring

theorem Motor.mul_rev_dual (m : Motor K) :
    m.mv * PGA.MV.rev m.mv = (Dual.mk m.sqNorm (2 * m.bc)).mv := by
  simp only [Motor.sqNorm, Motor.bc]; mv_ring

theorem Motor.succ_sq (m : Motor K) (h : m.mv * PGA.MV.rev m.mv = 1) :
    m.succ.mv * m.succ.mv = (Dual.mk m.succ.sqNorm (2 * m.succ.bc)).mv * m.mv := by
  rw [← Motor.mul_rev_dual, Motor.succ_mv, rev_add, rev_one]
  have h' : PGA.MV.rev m.mv * m.mv = 1 := by rw [Motor.rev_mul_self, h]
  have : (1 + m.mv) * (1 + PGA.MV.rev m.mv) * m.mv = (1 + m.mv) * (m.mv + PGA.MV.rev m.mv * m.mv) := by
    noncomm_ring
  rw [this, h']
  noncomm_ring

theorem Motor.succ_sqNorm (m : Motor K) (h : m.mv * PGA.MV.rev m.mv = 1) :
    m.succ.sqNorm = 2 + 2 * m.scalar := by
  have := Motor.sqNorm_eq_one h
  simp only [Motor.sqNorm, Motor.succ, kln, sse] at this ⊢
  linear_combination this

theorem Motor.succ_bc (m : Motor K) : m.succ.bc = m.bc + m.e0123 := by
  simp only [Motor.bc, Motor.succ, kln, sse]; ring

theorem Dual.mv_mul (a b c d : K) :
    (Dual.mk a b).mv * (Dual.mk c d).mv = (Dual.mk (a * c) (a * d + b * c)).mv := by mv_ring

theorem Dual.mv_one : (Dual.mk 1 0 : Dual K).mv = 1 := rfl

end Ring

section Field
variable {K : Type} [Field K] [CharZero K]

/-- C29: for a normalised motor `m ≠ -1` (the estimates are exact at `2 + 2 scalar`, hence this is
not zero), `sqrt(m)` is normalised and its square is `m`. -/
theorem C29_motor (hw : Hw K) (isa : Isa) (m : Motor K) (h : m.mv * PGA.MV.rev m.mv = 1)
    (hs : hw.RsqrtAt (2 + 2 * m.scalar)) (hr : hw.RcpAt (2 + 2 * m.scalar)) :
    (m.sqrt hw isa).mulMotor (m.sqrt hw isa) = m ∧
    (m.sqrt hw isa).mv * PGA.MV.rev (m.sqrt hw isa).mv = 1 := by
  have e : m.sqrt hw isa = m.succ.normalize hw isa := rfl
  have hN := Motor.succ_sqNorm m h
  rw [← hN] at hs hr
  refine ⟨?_, e ▸ C24_motor hw isa m.succ hs hr⟩
  rw [← Motor.mv_inj, C06_motor_mul_motor, e, Motor.normalize_eq, Motor.dualSmul_sq,
    Motor.succ_sq m h, ← mul_assoc, Dual.mv_mul]
  have hd : dot4 m.succ.p1 m.succ.p1 = m.succ.sqNorm := rfl
  rw [hd]
  have e1 := sq_exact hs
  have e2 := rcp_exact hr
  generalize rsqrt1 hw m.succ.sqNorm = s at *
  generalize rcp1 hw m.succ.sqNorm = r at *
  have a1 : s * s * m.succ.sqNorm = 1 := by linear_combination e1
  have a2 : s * s * (2 * m.succ.bc) + 2 * s * (-m.succ.bc * r * s) * m.succ.sqNorm = 0 := by
    linear_combination (-2 * m.succ.bc * s * s) * e2
  rw [a1, a2, Dual.mv_one, one_mul]

/-- C29 for rotors. -/
theorem C29_rotor (hw : Hw K) (isa : Isa) (r : Rotor K) (h : r.sqNorm = 1)
    (hs : hw.RsqrtAt (2 + 2 * r.scalar)) :
    (r.sqrt hw isa).mulRotor (r.sqrt hw isa) = r ∧ (r.sqrt hw isa).sqNorm = 1 := by
  obtain ⟨⟨r0, r1, r2, r3⟩⟩ := r
  have hN : dot4 (add_ss (⟨r0, r1, r2, r3⟩ : V4 K) (set_ss 1)) (add_ss ⟨r0, r1, r2, r3⟩ (set_ss 1))
      = 2 + 2 * r0 := by
    simp only [Rotor.sqNorm, kln, sse, dot4] at h ⊢
    linear_combination h
  simp only [kln] at hs
  have e1 := sq_exact hs
  rw [Rotor.sqrt, Rotor.normalize_eq, hN]
  generalize rsqrt1 hw (2 + 2 * r0) = s at *
  simp only [Rotor.sqNorm, kln] at h
  constructor
  · simp only [kln, sse, cond_true, cond_false, Rotor.mk.injEq, V4.mk.injEq]
    refine ⟨?_, ?_, ?_, ?_⟩
    · linear_combination r0 * e1 - s ^ 2 * h
    · linear_combination r1 * e1
    · linear_combination r2 * e1
    · linear_combination r3 * e1
  · simp only [kln, sse, Rotor.sqNorm]
    linear_combination e1 + s ^ 2 * h

/-- C29 for a unit branch, which is the rotor of a half turn. -/
theorem C29_branch (hw : Hw K) (isa : Isa) (b : Branch K) (wb : b.WF) (h : b.sqNorm = 1)
    (hs : hw.RsqrtAt 2) :
    ((b.sqrt hw isa).mulRotor (b.sqrt hw isa)).mv = b.mv ∧ (b.sqrt hw isa).sqNorm = 1 := by
  obtain ⟨⟨b0, b1, b2, b3⟩⟩ := b
  have wb' : b0 = 0 := wb
  subst wb'
  have hr : (⟨⟨0, b1, b2, b3⟩⟩ : Rotor K).sqNorm = 1 := by
    simp only [Rotor.sqNorm, Branch.sqNorm, kln] at h ⊢; linear_combination h
  have := C29_rotor hw isa ⟨⟨0, b1, b2, b3⟩⟩ hr (by simpa [kln] using hs)
  refine ⟨?_, this.2⟩
  have e : (⟨⟨0, b1, b2, b3⟩⟩ : Branch K).sqrt hw isa = (⟨⟨0, b1, b2, b3⟩⟩ : Rotor K).sqrt hw isa := rfl
  rw [e, this.1]; rfl

/-- C29 for translators, without exception. -/
theorem C29_translator (t : Translator K) : t.sqrt.mulTranslator t.sqrt = t := by
  obtain ⟨⟨t0, t1, t2, t3⟩⟩ := t
  simp only [kln, sse, Translator.mk.injEq, V4.mk.injEq]
  refine ⟨?_, ?_, ?_, ?_⟩ <;> ring

theorem Plane.mv_sq {K : Type} [CommRing K] (p : Plane K) : p.mv * p.mv = scalarMv p.sqNorm := by
  simp only [Plane.sqNorm, dot, Plane.normal]; mv_ring

theorem Plane.mv_anti {K : Type} [CommRing K] (a b : Plane K) :
    a.mv * b.mv + b.mv * a.mv = scalarMv (2 * dot a.normal b.normal) := by
  simp only [dot, Plane.normal]; mv_ring

/-- C29: for unit planes `a`, `b` that are not opposite, the action `sqrt(a * b)` takes `b` to `a`,
exactly, including the sign. -/
theorem C29_plane_to_plane (hw : Hw K) (isa : Isa) (a b : Plane K) (ha : a.sqNorm = 1)
    (hb : b.sqNorm = 1) (hs : hw.RsqrtAt (2 + 2 * dot a.normal b.normal)) :
    ((a.mulPlane b).sqrt hw isa).onPlane isa b = a := by
  rw [← Plane.mv_inj, C15_motor_on_plane]
  have hA : a.mv * a.mv = 1 := by rw [Plane.mv_sq, ha, scalarMv_one]
  have hB : b.mv * b.mv = 1 := by rw [Plane.mv_sq, hb, scalarMv_one]
  have hAB := Plane.mv_anti a b
  have e : (a.mulPlane b).sqrt hw isa = (a.mulPlane b).succ.normalize hw isa := rfl
  have hm : (a.mulPlane b).mv * PGA.MV.rev (a.mulPlane b).mv = 1 := by
    rw [C01_plane_mul_plane, rev_mul]
    have ra : PGA.MV.rev a.mv = a.mv := by mv_ring
    have rb : PGA.MV.rev b.mv = b.mv := by mv_ring
    rw [ra, rb, mul_assoc, ← mul_assoc b.mv, hB, one_mul, hA]
  have hsc : (a.mulPlane b).scalar = dot a.normal b.normal := by
    simp only [kln, sse, dot, Plane.normal, cond_true, cond_false]; ring
  have hN := Motor.succ_sqNorm (a.mulPlane b) hm
  rw [hsc] at hN
  have hbc : (a.mulPlane b).succ.bc = 0 := by
    simp only [Motor.bc, Motor.succ, kln, sse, cond_true, cond_false]; ring
  have hd : dot4 (a.mulPlane b).succ.p1 (a.mulPlane b).succ.p1 = (a.mulPlane b).succ.sqNorm := rfl
  rw [e, Motor.normalize_eq, hbc, hd, hN, Motor.dualSmul_mv, Motor.succ_mv, C01_plane_mul_plane]
  have e1 := sq_exact hs
  generalize rsqrt1 hw (2 + 2 * dot a.normal b.normal) = s at *
  have ed : (Dual.mk s (-0 * rcp1 hw (2 + 2 * dot a.normal b.normal) * s)).mv = scalarMv s := by
    simp only [neg_zero, zero_mul]; rfl
  rw [ed, scalarMv_mul, rev_smul, rev_add, rev_one, rev_mul]
  have ra : PGA.MV.rev a.mv = a.mv := by mv_ring
  have rb : PGA.MV.rev b.mv = b.mv := by mv_ring
  rw [ra, rb]
  simp only [smul_mul_assoc, mul_smul_comm, smul_smul]
  have key : (1 + a.mv * b.mv) * b.mv * (1 + b.mv * a.mv)
      = (2 + 2 * dot a.normal b.normal) • a.mv := by
    have k1 : (1 + a.mv * b.mv) * b.mv = b.mv + a.mv := by
      rw [add_mul, one_mul, mul_assoc, hB, mul_one]
    rw [k1, mul_add, mul_one, add_mul, ← mul_assoc b.mv, hB, one_mul, ← mul_assoc a.mv]
    have k2 : b.mv + a.mv + (a.mv + a.mv * b.mv * a.mv)
        = a.mv + a.mv + (a.mv * b.mv + b.mv * a.mv) * a.mv := by
      rw [add_mul, mul_assoc b.mv, hA, mul_one]; abel
    rw [k2, hAB, scalarMv_mul, add_smul, two_smul]
  rw [key, smul_smul]
  have : s * s * (2 + 2 * dot a.normal b.normal) = 1 := by linear_combination e1
  rw [this, one_smul]

/-! ### C04 -/

/-- The Euclidean position of a point of non-zero weight. -/
def Point.eucl (p : Point K) : Vec3 K := p.w⁻¹ • p.pos

/-- C04: applying `P * Q` displaces every point by twice the vector from `Q` to `P`. -/
theorem C04_displacement (hw : Hw K) (isa : Isa) (P Q x : Point K) (hP : P.w ≠ 0) (hQ : Q.w ≠ 0)
    (h : hw.RcpAt (-(P.w * Q.w))) (hx : x.w ≠ 0) :
    ((P.mulPoint hw isa Q).onPoint x).w = x.w ∧
    ((P.mulPoint hw isa Q).onPoint x).eucl = x.eucl + (2 : K) • (P.eucl - Q.eucl) := by
  have hm := C04_point_mul_point hw isa P Q h
  rw [C14_translator_point_coords]
  generalize P.mulPoint hw isa Q = t at hm ⊢
  have m1 := congrArg MV.e01 hm
  have m2 := congrArg MV.e02 hm
  have m3 := congrArg MV.e03 hm
  simp only [pga, kln, sse, mul_zero, zero_mul, add_zero, zero_add, sub_zero, zero_sub] at *
  refine ⟨trivial, ?_⟩
  have k1 : t.p2.l1 = (P.p3.l0 * Q.p3.l1 - P.p3.l1 * Q.p3.l0) / (P.p3.l0 * Q.p3.l0) := by
    field_simp
    linear_combination -m1
  have k2 : t.p2.l2 = (P.p3.l0 * Q.p3.l2 - P.p3.l2 * Q.p3.l0) / (P.p3.l0 * Q.p3.l0) := by
    field_simp
    linear_combination -m2
  have k3 : t.p2.l3 = (P.p3.l0 * Q.p3.l3 - P.p3.l3 * Q.p3.l0) / (P.p3.l0 * Q.p3.l0) := by
    field_simp
    linear_combination -m3
  apply Vec3.ext <;>
    simp only [Point.eucl, Point.pos, kln, sse, smul_x, smul_y, smul_z, add_x, add_y, add_z, sub_x,
      sub_y, sub_z, k1, k2, k3] <;> field_simp <;> ring

/-- C04: the square root of `P * Q` takes `Q` to `P`. -/
theorem C04_sqrt_takes (hw : Hw K) (isa : Isa) (P Q : Point K) (hP : P.w ≠ 0) (hQ : Q.w ≠ 0)
    (h : hw.RcpAt (-(P.w * Q.w))) :
    (((P.mulPoint hw isa Q).sqrt).onPoint Q).w = Q.w ∧
    (((P.mulPoint hw isa Q).sqrt).onPoint Q).eucl = P.eucl := by
  have hd := (C04_displacement hw isa P Q Q hP hQ h hQ).2
  rw [C14_translator_point_coords] at hd ⊢
  generalize P.mulPoint hw isa Q = t at hd ⊢
  refine ⟨rfl, ?_⟩
  have d1 := congrArg Vec3.x hd
  have d2 := congrArg Vec3.y hd
  have d3 := congrArg Vec3.z hd
  simp only [Point.eucl, Point.pos, kln, sse, smul_x, smul_y, smul_z, add_x, add_y, add_z, sub_x,
      sub_y, sub_z] at *
  apply Vec3.ext <;> simp only [smul_x, smul_y, smul_z]
  · linear_combination d1 / 2
  · linear_combination d2 / 2
  · linear_combination d3 / 2

/-- C04: `P / Q` is the same translator as `P * Q`. -/
theorem C04_point_div_point (hw : Hw K) (isa : Isa) (P Q : Point K) (hP : P.w ≠ 0) (hQ : Q.w ≠ 0)
    (h : hw.RcpAt (-(P.w * Q.w))) (h1 : hw.RcpAt Q.w)
    (h2 : hw.RcpAt (-(P.w * (Q.invert hw).w))) :
    (P.divPoint hw isa Q).mv = (P.mulPoint hw isa Q).mv := by
  have e1 := C04_point_mul_point hw isa P Q h
  have e2 := C04_point_mul_point hw isa P (Q.invert hw) h2
  rw [Point.divPoint]
  have er := rcp_exact h1
  rw [Point.invert_eq] at *
  generalize rcp1 hw Q.w = r at *
  have hr : r ≠ 0 := by intro h0; rw [h0] at er; simp at er
  have em : (Q.smul (r * r)).mv = (r * r) • Q.mv := by mv_ring
  rw [em, mul_smul_comm, ← e1, smul_smul, Point.smul_w] at e2
  have hne : (-(P.w * (Q.w * (r * r)))) ≠ 0 := by
    simp only [neg_ne_zero]; exact mul_ne_zero hP (mul_ne_zero hQ (mul_ne_zero hr hr))
  have e3 : r * r * (-(P.w * Q.w)) = -(P.w * (Q.w * (r * r))) := by ring
  rw [e3] at e2
  exact smul_right_injective _ hne e2

end Field

/-- The hypotheses are met: the rotor `(4/5... )`: a quarter turn about z composed with a translation,
`scalar = 7/25` so that `2 + 2 scalar = 64/25` is a square. -/
example : let m : Motor ℝ := Motor.mk8 (7 / 25) 0 0 (24 / 25) 2 3 0 0
    m.mv * PGA.MV.rev m.mv = 1 ∧ Hw.ideal.RsqrtAt (2 + 2 * m.scalar) ∧ Hw.ideal.RcpAt (2 + 2 * m.scalar) := by
  refine ⟨?_, ?_, ?_⟩
  · rw [Motor.mul_rev]; apply MV.ext <;> simp only [pga, kln, sse, Motor.sqNorm] <;> norm_num
  · apply Hw.ideal_rsqrtAt; simp only [kln]; norm_num
  · apply Hw.ideal_rcpAt; simp only [kln]; norm_num

example : Hw.rat.RcpAt (-((⟨⟨2, 1, 3, 5⟩⟩ : Point ℚ).w * (⟨⟨3, 0, 3, 5⟩⟩ : Point ℚ).w)) := by
  simp only [Hw.RcpAt, Hw.rat, kln]; norm_num

end Klein
