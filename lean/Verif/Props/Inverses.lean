import Verif.Props.Norms
import Verif.Props.WellFormed

/-!
# C26: inverses and division; C27: rotor inverse; C28: point inverse
-/

set_option linter.unusedSimpArgs false
set_option linter.unusedSectionVars false

namespace Klein

open PGA PGA.MV Euclid

theorem scalarMv_one {K : Type} [CommRing K] : (scalarMv 1 : MV K) = 1 := rfl

theorem scalarMv_mul {K : Type} [CommRing K] (k : K) (a : MV K) : scalarMv k * a = k • a := by
  mv_ring

theorem mul_scalarMv {K : Type} [CommRing K] (k : K) (a : MV K) : a * scalarMv k = k • a := by
  mv_ring

section Value
variable {K : Type} [CommRing K] [Div K]

/-! ### what `x * x.inverse()` is, for any estimate -/

theorem C26_plane_value (hw : Hw K) (isa : Isa) (p : Plane K) :
    p.mv * (p.invert hw isa).mv = scalarMv (p.sqNorm * rsqrt1 hw p.sqNorm ^ 2) ∧
    (p.invert hw isa).mv * p.mv = scalarMv (p.sqNorm * rsqrt1 hw p.sqNorm ^ 2) := by
  rw [Plane.invert_eq]
  have : dot3 p.p0 p.p0 = p.sqNorm := rfl
  rw [this]
  generalize rsqrt1 hw p.sqNorm = s
  simp only [Plane.sqNorm, dot, Plane.normal]
  constructor <;> mv_ring

theorem C26_branch_value (hw : Hw K) (isa : Isa) (p : Branch K) :
    p.mv * (p.invert hw isa).mv = scalarMv (p.sqNorm * rsqrt1 hw p.sqNorm ^ 2) ∧
    (p.invert hw isa).mv * p.mv = scalarMv (p.sqNorm * rsqrt1 hw p.sqNorm ^ 2) := by
  rw [Branch.invert_eq]
  have : dot3 p.p1 p.p1 = p.sqNorm := rfl
  rw [this]
  generalize rsqrt1 hw p.sqNorm = s
  simp only [Branch.sqNorm]
  constructor <;> mv_ring

/-- For a rotor the factor uses the squared norm of the bivector part only. -/
theorem C27_rotor_value (hw : Hw K) (isa : Isa) (p : Rotor K) :
    p.mv * (p.invert hw isa).mv
      = scalarMv (p.sqNorm * rsqrt1 hw (p.sqNorm - p.scalar ^ 2) ^ 2) ∧
    (p.invert hw isa).mv * p.mv
      = scalarMv (p.sqNorm * rsqrt1 hw (p.sqNorm - p.scalar ^ 2) ^ 2) := by
  rw [Rotor.invert_eq]
  have : dot3 p.p1 p.p1 = p.sqNorm - p.scalar ^ 2 := by
    simp only [dot3, Rotor.sqNorm, kln]; ring
  rw [this]
  generalize rsqrt1 hw (p.sqNorm - p.scalar ^ 2) = s
  simp only [Rotor.sqNorm]
  constructor <;> mv_ring

theorem C28_point_value {K : Type} [CommRing K] (hw : Hw K) (p : Point K) :
    p.mv * (p.invert hw).mv = scalarMv (-(p.w * rcp1 hw p.w) ^ 2) ∧
    (p.invert hw).mv * p.mv = scalarMv (-(p.w * rcp1 hw p.w) ^ 2) := by
  rw [Point.invert_eq]
  generalize rcp1 hw p.w = s
  constructor <;> mv_ring

theorem C26_motor_value (hw : Hw K) (isa : Isa) (m : Motor K) :
    let q := m.scalar * m.e0123 - m.e23 * m.e01 - m.e31 * m.e02 - m.e12 * m.e03
    let N := m.sqNorm
    m.mv * (m.invert hw isa).mv = { (0 : MV K) with
      s := N * rcp1 hw N
      e0123 := 2 * q * rcp1 hw N * (1 - N * rsqrt1 hw N ^ 2) } ∧
    (m.invert hw isa).mv * m.mv = m.mv * (m.invert hw isa).mv := by
  intro q N
  rw [Motor.invert_eq]
  have : dot4 m.p1 m.p1 = N := rfl
  rw [this]
  generalize rsqrt1 hw N = s
  generalize rcp1 hw N = r
  simp only [N, q, Motor.sqNorm, Motor.dualSmul, Motor.bc]
  constructor <;> mv_ring

theorem C26_line_value (hw : Hw K) (isa : Isa) (l : Line K) :
    let N := l.sqNorm
    l.mv * (l.invert hw isa).mv = { (0 : MV K) with
      s := N * rcp1 hw N
      e0123 := -(2 * dot l.dir l.mom * rcp1 hw N * (1 - N * rsqrt1 hw N ^ 2)) } ∧
    (l.invert hw isa).mv * l.mv = l.mv * (l.invert hw isa).mv := by
  intro N
  rw [Line.invert_eq]
  have : dot3 l.p1 l.p1 = N := rfl
  rw [this]
  generalize rsqrt1 hw N = s
  generalize rcp1 hw N = r
  simp only [N, Line.sqNorm, Line.dualSmul, dot3, dot, Line.dir, Line.mom]
  constructor <;> mv_ring

end Value

section Exact
variable {K : Type} [Field K] [CharZero K]

/-- C26: both-sided inverses. -/
theorem C26_plane (hw : Hw K) (isa : Isa) (p : Plane K) (h : hw.RsqrtAt p.sqNorm) :
    p.mv * (p.invert hw isa).mv = 1 ∧ (p.invert hw isa).mv * p.mv = 1 := by
  have := C26_plane_value hw isa p
  rwa [sq_exact h, scalarMv_one] at this

theorem C26_branch (hw : Hw K) (isa : Isa) (p : Branch K) (h : hw.RsqrtAt p.sqNorm) :
    p.mv * (p.invert hw isa).mv = 1 ∧ (p.invert hw isa).mv * p.mv = 1 := by
  have := C26_branch_value hw isa p
  rwa [sq_exact h, scalarMv_one] at this

theorem C26_translator {K : Type} [CommRing K] (t : Translator K) :
    t.mv * t.invert.mv = 1 ∧ t.invert.mv * t.mv = 1 := by
  constructor <;> mv_ring

theorem C26_motor (hw : Hw K) (isa : Isa) (m : Motor K) (h : hw.RsqrtAt m.sqNorm)
    (h' : hw.RcpAt m.sqNorm) :
    m.mv * (m.invert hw isa).mv = 1 ∧ (m.invert hw isa).mv * m.mv = 1 := by
  obtain ⟨h1, h2⟩ := C26_motor_value hw isa m
  rw [sq_exact h, rcp_exact h'] at h1
  rw [h2, h1]
  constructor <;> (apply MV.ext <;> simp [pga])

theorem C26_line (hw : Hw K) (isa : Isa) (m : Line K) (h : hw.RsqrtAt m.sqNorm)
    (h' : hw.RcpAt m.sqNorm) :
    m.mv * (m.invert hw isa).mv = 1 ∧ (m.invert hw isa).mv * m.mv = 1 := by
  obtain ⟨h1, h2⟩ := C26_line_value hw isa m
  rw [sq_exact h, rcp_exact h'] at h1
  rw [h2, h1]
  constructor <;> (apply MV.ext <;> simp [pga])

/-- C26 with the library's own product: for lines `l * l.inverse()` is right although `line * line`
is not in general (C05), because a line and its inverse are parallel. -/
theorem C26_line_own_product (hw : Hw K) (isa : Isa) (m : Line K) (h : hw.RsqrtAt m.sqNorm)
    (h' : hw.RcpAt m.sqNorm) :
    (m.mulLine (m.invert hw isa)).mv = 1 ∧ ((m.invert hw isa).mulLine m).mv = 1 := by
  have e : m.invert hw isa = _ := Line.invert_eq hw isa m
  obtain ⟨h1, h2⟩ := C26_line hw isa m h h'
  constructor
  · rw [(C05_line_mul_line_iff _ _).2 ?_, h1]
    rw [e]
    generalize rcp1 hw _ = r
    simp only [kln, sse, Line.dualSmul, cond_true]; ring
  · rw [(C05_line_mul_line_iff _ _).2 ?_, h2]
    rw [e]
    generalize rcp1 hw _ = r
    simp only [kln, sse, Line.dualSmul, cond_true]; ring

theorem C26_own_products (hw : Hw K) (isa : Isa) (p : Plane K) (b : Branch K) (m : Motor K)
    (t : Translator K) (hp : hw.RsqrtAt p.sqNorm) (hb : hw.RsqrtAt b.sqNorm) (wb : b.WF)
    (hm : hw.RsqrtAt m.sqNorm) (hm' : hw.RcpAt m.sqNorm) :
    (p.mulPlane (p.invert hw isa)).mv = 1 ∧ (b.mulBranch (b.invert hw isa)).mv = 1 ∧
      (m.mulMotor (m.invert hw isa)).mv = 1 ∧ (t.mulTranslator t.invert).mv = 1 := by
  refine ⟨?_, ?_, ?_, ?_⟩
  · rw [C01_plane_mul_plane, (C26_plane hw isa p hp).1]
  · have wb' : (b.invert hw isa).WF := by
      have e : b.p1.l0 = 0 := wb
      rw [Branch.invert_eq]; simp only [Branch.WF, kln, sse, cond_false, e, zero_mul]
    rw [C03_branch_mul_branch _ _ wb wb', (C26_branch hw isa b hb).1]
  · rw [C06_motor_mul_motor, (C26_motor hw isa m hm hm').1]
  · rw [C06_translator_mul_translator, (C26_translator t).1]

/-- C26: `a / b * b = a`. -/
theorem C26_div_plane (hw : Hw K) (isa : Isa) (a b : Plane K) (h : hw.RsqrtAt b.sqNorm) :
    (a.divPlane hw isa b).mv * b.mv = a.mv := by
  rw [Plane.divPlane, C01_plane_mul_plane, mul_assoc, (C26_plane hw isa b h).2, mul_one]

theorem C26_div_branch (hw : Hw K) (isa : Isa) (a b : Branch K) (wa : a.WF) (wb : b.WF)
    (h : hw.RsqrtAt b.sqNorm) : (a.divBranch hw isa b).mv * b.mv = a.mv := by
  have wb' : (b.invert hw isa).WF := by
    have e : b.p1.l0 = 0 := wb
    rw [Branch.invert_eq]; simp only [Branch.WF, kln, sse, cond_false, e, zero_mul]
  rw [Branch.divBranch, C03_branch_mul_branch _ _ wa wb', mul_assoc, (C26_branch hw isa b h).2,
    mul_one]

theorem C26_div_motor (hw : Hw K) (isa : Isa) (a b : Motor K) (h : hw.RsqrtAt b.sqNorm)
    (h' : hw.RcpAt b.sqNorm) : (a.divMotor hw isa b).mulMotor b = a := by
  rw [← Motor.mv_inj, C06_motor_mul_motor, Motor.divMotor, C06_motor_mul_motor, mul_assoc,
    (C26_motor hw isa b h h').2, mul_one]

theorem C26_div_translator {K : Type} [CommRing K] (a b : Translator K) (hb : b.WF) :
    (a.divTranslator b).mulTranslator b = a := by
  obtain ⟨⟨a0, a1, a2, a3⟩⟩ := a
  obtain ⟨⟨b0, b1, b2, b3⟩⟩ := b
  simp only [Translator.WF] at hb
  subst hb
  simp only [kln, sse, cond_true, cond_false, Translator.mk.injEq, V4.mk.injEq]
  refine ⟨?_, ?_, ?_, ?_⟩ <;> ring

theorem C26_motor_div_translator {K : Type} [CommRing K] (a : Motor K) (b : Translator K)
    (hb : b.WF) : (a.divTranslator b).mulTranslator b = a := by
  have hb' : b.invert.WF := by
    have e : b.p2.l0 = 0 := hb
    simp only [Translator.WF, kln, sse, cond_false, e]
  rw [← Motor.mv_inj, C06_motor_mul_translator _ _ hb, Motor.divTranslator,
    C06_motor_mul_translator _ _ hb', mul_assoc, (C26_translator b).2, mul_one]

/-- C26 for line division, as far as it holds: `a / b` is the algebra's `a b⁻¹` up to the exchange of
the coefficients `e23` and `e12` (C05). -/
theorem C26_div_line_partial (hw : Hw K) (isa : Isa) (a b : Line K) (h : hw.RsqrtAt b.sqNorm)
    (h' : hw.RcpAt b.sqNorm) :
    let m := a.divLine hw isa b
    (Motor.mk8 m.scalar m.e12 m.e31 m.e23 m.e01 m.e02 m.e03 m.e0123).mv * b.mv = a.mv := by
  have := C05_line_mul_line_partial a (b.invert hw isa)
  simp only [Line.divLine]
  simp only at this
  rw [this, mul_assoc, (C26_line hw isa b h h').2, mul_one]

/-- C26 fails for line division: x axis divided by y axis, times the y axis, is not the x axis. -/
theorem C26_div_line_fails : ∃ a b : Line ℚ, a.WF ∧ b.WF ∧ Hw.rat.RsqrtAt b.sqNorm ∧
    Hw.rat.RcpAt b.sqNorm ∧ (a.divLine Hw.rat .sse41 b).mv * b.mv ≠ a.mv := by
  refine ⟨Line.mk6 0 0 0 1 0 0, Line.mk6 0 0 0 0 1 0, by simp [Line.WF, kln], by simp [Line.WF, kln],
    ?_, ?_, ?_⟩
  · simp only [Hw.RsqrtAt, Hw.rat, Line.sqNorm, dot, Line.dir, kln, sse]; norm_num
  · simp only [Hw.RcpAt, Hw.rat, Line.sqNorm, dot, Line.dir, kln, sse]; norm_num
  · intro h
    have := congrArg MV.e23 h
    simp only [pga, kln, sse, Hw.rat, cond_true, cond_false] at this
    norm_num at this

/-! ### C27 -/

/-- C27: `r * r.inverse()` is 1 exactly when the scalar part of `r` is zero. -/
theorem C27_rotor_iff (hw : Hw K) (isa : Isa) (r : Rotor K)
    (h : hw.RsqrtAt (r.sqNorm - r.scalar ^ 2)) :
    (r.mulRotor (r.invert hw isa)).mv = 1 ↔ r.scalar = 0 := by
  rw [C03_rotor_mul_rotor, (C27_rotor_value hw isa r).1]
  have e := sq_exact h
  have e2 : r.sqNorm * rsqrt1 hw (r.sqNorm - r.scalar ^ 2) ^ 2
      = 1 + r.scalar ^ 2 * rsqrt1 hw (r.sqNorm - r.scalar ^ 2) ^ 2 := by
    linear_combination e
  have hs0 : rsqrt1 hw (r.sqNorm - r.scalar ^ 2) ≠ 0 := by
    intro h0; rw [h0] at e; simp at e
  rw [e2]
  constructor
  · intro h1
    have := congrArg MV.s h1
    simp only [pga] at this
    have h2 : r.scalar ^ 2 * rsqrt1 hw (r.sqNorm - r.scalar ^ 2) ^ 2 = 0 := by
      linear_combination this
    rcases mul_eq_zero.1 h2 with h3 | h3
    · exact pow_eq_zero_iff (by norm_num) |>.1 h3
    · exact absurd (pow_eq_zero_iff (by norm_num) |>.1 h3) hs0
  · intro h1
    rw [h1]; simp [scalarMv_one]

/-- C27, the part that holds: half turns.  The full statement (every non-zero rotor) is refuted by
`C27_rotor_fails`. -/
theorem C27_rotor_partial (hw : Hw K) (isa : Isa) (a r : Rotor K) (h : hw.RsqrtAt r.sqNorm)
    (h0 : r.scalar = 0) :
    (r.mulRotor (r.invert hw isa)).mv = 1 ∧ (a.divRotor hw isa r).mulRotor r = a := by
  have h' : hw.RsqrtAt (r.sqNorm - r.scalar ^ 2) := by rw [h0]; simpa using h
  refine ⟨(C27_rotor_iff hw isa r h').2 h0, ?_⟩
  rw [← Rotor.mv_inj, C03_rotor_mul_rotor, Rotor.divRotor, C03_rotor_mul_rotor, mul_assoc,
    (C27_rotor_value hw isa r).2, h0]
  simp only [ne_eq, OfNat.ofNat_ne_zero, not_false_eq_true, zero_pow, sub_zero]
  rw [sq_exact h, scalarMv_one, mul_one]

/-- C27 is violated: the rotor `3 + 4 e12`, of squared norm 25, times its inverse is `25/16`. -/
theorem C27_rotor_fails : ∃ r : Rotor ℚ, r.sqNorm = 25 ∧
    (∀ hw : Hw ℚ, hw.RsqrtAt 16 → ∀ isa,
      (r.mulRotor (r.invert hw isa)).mv = scalarMv (25 / 16) ∧
      (r.mulRotor (r.invert hw isa)).mv ≠ 1) := by
  refine ⟨⟨⟨3, 0, 0, 4⟩⟩, by simp only [Rotor.sqNorm, kln]; norm_num, ?_⟩
  intro hw h isa
  have e : (⟨⟨3, 0, 0, 4⟩⟩ : Rotor ℚ).sqNorm - (⟨⟨3, 0, 0, 4⟩⟩ : Rotor ℚ).scalar ^ 2 = 16 := by
    simp only [Rotor.sqNorm, kln]; norm_num
  have v := (C27_rotor_value hw isa (⟨⟨3, 0, 0, 4⟩⟩ : Rotor ℚ)).1
  rw [← C03_rotor_mul_rotor, e] at v
  have e2 : (⟨⟨3, 0, 0, 4⟩⟩ : Rotor ℚ).sqNorm * rsqrt1 hw 16 ^ 2 = 25 / 16 := by
    have := sq_exact h
    have e3 : (⟨⟨3, 0, 0, 4⟩⟩ : Rotor ℚ).sqNorm = 25 := by
      simp only [Rotor.sqNorm, kln]; norm_num
    rw [e3]; linear_combination 25 / 16 * this
  rw [e2] at v
  refine ⟨v, ?_⟩
  rw [v]
  intro h1
  have := congrArg MV.s h1
  simp only [pga] at this
  norm_num at this

/-- C27, division by a rotor: `(a / r) * r` is `a` times `|r|²/(|r|² - scalar²)`. -/
theorem C27_div_value (hw : Hw K) (isa : Isa) (a r : Rotor K) :
    (a.divRotor hw isa r).mulRotor r
      = a.smul (r.sqNorm * rsqrt1 hw (r.sqNorm - r.scalar ^ 2) ^ 2) := by
  rw [← Rotor.mv_inj, C03_rotor_mul_rotor, Rotor.divRotor, C03_rotor_mul_rotor, mul_assoc,
    (C27_rotor_value hw isa r).2, mul_scalarMv]
  mv_ring

theorem C27_motor_div_value (hw : Hw K) (isa : Isa) (a : Motor K) (r : Rotor K) :
    (a.divRotor hw isa r).mulRotor r
      = a.smul (r.sqNorm * rsqrt1 hw (r.sqNorm - r.scalar ^ 2) ^ 2) := by
  rw [← Motor.mv_inj, C06_motor_mul_rotor, Motor.divRotor, C06_motor_mul_rotor, mul_assoc,
    (C27_rotor_value hw isa r).2, mul_scalarMv]
  mv_ring

/-! ### C28 -/

/-- C28 is violated for every point: the product is -1. -/
theorem C28_point_fails (hw : Hw K) (p : Point K) (h : hw.RcpAt p.w) :
    p.mv * (p.invert hw).mv = -1 ∧ (p.invert hw).mv * p.mv = -1 ∧
      p.mv * (p.invert hw).mv ≠ 1 := by
  obtain ⟨h1, h2⟩ := C28_point_value hw p
  have e : (scalarMv (-(p.w * rcp1 hw p.w) ^ 2) : MV K) = -1 := by
    rw [rcp_exact h]; apply MV.ext <;> simp [pga]
  rw [h1, h2, e]
  refine ⟨rfl, rfl, ?_⟩
  intro hc
  have := congrArg MV.s hc
  simp only [pga] at this
  have h3 : (2 : K) = 0 := by linear_combination -this
  exact two_ne_zero h3

/-- C28, what holds: `point::inverse` is the inverse up to sign, so that the *normalised* product
`point / point` (whose common factor cancels) is still the right translator: see
`C04_point_div_point`. -/
theorem C28_point_inverse_partial {K : Type} [CommRing K] (hw : Hw K) (p : Point K)
    (h : hw.RcpAt p.w) : p.mv * (-(p.invert hw).mv) = 1 ∧ -(p.invert hw).mv * p.mv = 1 := by
  obtain ⟨h1, h2⟩ := C28_point_value hw p
  have e : (scalarMv (-(p.w * rcp1 hw p.w) ^ 2) : MV K) = -1 := by
    rw [rcp_exact h]; apply MV.ext <;> simp [pga]
  rw [mul_neg, neg_mul, h1, h2, e, neg_neg]
  exact ⟨rfl, rfl⟩

example : Hw.rat.RcpAt (⟨⟨2, 1, 3, 5⟩⟩ : Point ℚ).w := by
  simp only [Hw.RcpAt, Hw.rat, kln]; norm_num

end Exact

end Klein
