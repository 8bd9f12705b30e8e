import Verif.Props.Exp

/-!
# C34, C36: logarithms

`log` of a motor computes `u`, `v` with `m = exp ((u + v I) n)`.  The branch for a scalar part below
`1e-6` and the early return for a vanishing Euclidean bivector part are wrong for some normalised
motors; the statements below cover all normalised motors and say what the code returns in each case.
-/

set_option linter.unusedSimpArgs false
set_option linter.unusedSectionVars false

namespace Klein

open PGA PGA.MV Euclid

variable {hw : Hw ℝ} (hx : hw.Exact) (isa : Isa)

/-! ### the motor logarithm in closed form -/

/-- The bivector part of a motor, as a line. -/
def Motor.bivector (m : Motor ℝ) : Line ℝ :=
  ⟨⟨0, m.p1.l1, m.p1.l2, m.p1.l3⟩, ⟨0, m.p2.l1, m.p2.l2, m.p2.l3⟩⟩

/-- `s`: the norm of the Euclidean bivector part. -/
noncomputable def Motor.sPart (m : Motor ℝ) : ℝ := Real.sqrt (dot3 m.bivector.p1 m.bivector.p1)

/-- `t`. -/
noncomputable def Motor.tPart (m : Motor ℝ) : ℝ :=
  -(dot3 m.bivector.p1 m.bivector.p2 / m.sPart)

/-- Every motor with a Euclidean bivector part is `(p + q I) + (s + t I) n`. -/
theorem Motor.eq_cis (m : Motor ℝ) (h : 0 < m.sPart) :
    m = m.bivector.axis.cis ⟨m.scalar, m.sPart⟩ ⟨m.e0123, m.tPart⟩ := by
  have hp : 0 < dot3 m.bivector.p1 m.bivector.p1 := Real.sqrt_pos.1 h
  have e := m.bivector.eq_scr ⟨rfl, rfl⟩ hp
  have e1 := congrArg Line.p1 e
  have e2 := congrArg Line.p2 e
  have a1 := congrArg V4.l1 e1
  have a2 := congrArg V4.l2 e1
  have a3 := congrArg V4.l3 e1
  have b1 := congrArg V4.l1 e2
  have b2 := congrArg V4.l2 e2
  have b3 := congrArg V4.l3 e2
  exact Motor.ext (V4.ext rfl a1 a2 a3) (V4.ext rfl b1 b2 b3)

open Classical in
/-- The angle `u` computed by the code (x86_exp_log.hpp:197-203). -/
noncomputable def Motor.logU (m : Motor ℝ) : ℝ :=
  if |m.scalar| < 1 / 1000000 then Complex.arg ⟨m.tPart, -m.e0123⟩ else Complex.arg ⟨m.scalar, m.sPart⟩

open Classical in
/-- The displacement `v` computed by the code. -/
noncomputable def Motor.logV (m : Motor ℝ) : ℝ :=
  if |m.scalar| < 1 / 1000000 then -m.e0123 / m.sPart else m.tPart / m.scalar

include hx in
/-- `log` of a motor with a Euclidean bivector part. -/
theorem Motor.log_eq (m : Motor ℝ) (h : 0 < m.sPart) :
    m.log hw Libm.real isa = m.bivector.axis.scr m.logU m.logV := by
  have hp : 0 < dot3 m.bivector.p1 m.bivector.p1 := Real.sqrt_pos.1 h
  obtain ⟨⟨b0, b1, b2, b3⟩, ⟨c0, c1, c2, c3⟩⟩ := m
  have ea : mul_ps (set_ps 1 1 1 0) (⟨b0, b1, b2, b3⟩ : V4 ℝ) = ⟨0, b1, b2, b3⟩ := by
    simp [sse]
  have eb : mul_ps (set_ps 1 1 1 0) (⟨c0, c1, c2, c3⟩ : V4 ℝ) = ⟨0, c1, c2, c3⟩ := by
    simp [sse]
  have hne : Libm.real.cmpeq_all (⟨0, b1, b2, b3⟩ : V4 ℝ) setzero_ps = false := by
    rw [← Bool.not_eq_true, cmpeq_all_zero]
    intro hz
    have z1 : b1 = 0 := congrArg V4.l1 hz
    have z2 : b2 = 0 := congrArg V4.l2 hz
    have z3 : b3 = 0 := congrArg V4.l3 hz
    simp [Motor.bivector, dot3, z1, z2, z3] at hp
  have hr0 := h.ne'
  have hsq : dot3 (⟨0, b1, b2, b3⟩ : V4 ℝ) ⟨0, b1, b2, b3⟩ =
      Motor.sPart ⟨⟨b0, b1, b2, b3⟩, ⟨c0, c1, c2, c3⟩⟩ ^ 2 := by
    rw [Motor.sPart, Real.sq_sqrt hp.le]; rfl
  have hr : Motor.sPart ⟨⟨b0, b1, b2, b3⟩, ⟨c0, c1, c2, c3⟩⟩ =
    Real.sqrt (dot3 (⟨0, b1, b2, b3⟩ : V4 ℝ) ⟨0, b1, b2, b3⟩) := rfl
  have e1 : rsqrt1 hw (dot3 (⟨0, b1, b2, b3⟩ : V4 ℝ) ⟨0, b1, b2, b3⟩) =
      (Motor.sPart ⟨⟨b0, b1, b2, b3⟩, ⟨c0, c1, c2, c3⟩⟩)⁻¹ := by
    rw [rsqrt1_eq hx (show 0 < dot3 (⟨0, b1, b2, b3⟩ : V4 ℝ) ⟨0, b1, b2, b3⟩ from hp), hr]
  have e2 : rcp1 hw (dot3 (⟨0, b1, b2, b3⟩ : V4 ℝ) ⟨0, b1, b2, b3⟩) =
      (Motor.sPart ⟨⟨b0, b1, b2, b3⟩, ⟨c0, c1, c2, c3⟩⟩ ^ 2)⁻¹ := by
    rw [rcp1_eq hx (show dot3 (⟨0, b1, b2, b3⟩ : V4 ℝ) ⟨0, b1, b2, b3⟩ ≠ 0 from hp.ne'), hsq]
  have ht : dot3 (⟨0, b1, b2, b3⟩ : V4 ℝ) ⟨0, c1, c2, c3⟩ =
      -(Motor.tPart ⟨⟨b0, b1, b2, b3⟩, ⟨c0, c1, c2, c3⟩⟩ *
        Motor.sPart ⟨⟨b0, b1, b2, b3⟩, ⟨c0, c1, c2, c3⟩⟩) := by
    rw [Motor.tPart, neg_mul, neg_neg, div_mul_cancel₀ _ hr0]; rfl
  simp only [Motor.log, log_kernel, ea, hne, cond_false, log_general, eb, explog_norm, hi_dp_bc_eq,
    rsqrt_set1, rcp_set1, e1, e2]
  have eax : (Motor.bivector ⟨⟨b0, b1, b2, b3⟩, ⟨c0, c1, c2, c3⟩⟩).axis =
      ⟨⟨0, b1 / Motor.sPart ⟨⟨b0, b1, b2, b3⟩, ⟨c0, c1, c2, c3⟩⟩,
          b2 / Motor.sPart ⟨⟨b0, b1, b2, b3⟩, ⟨c0, c1, c2, c3⟩⟩,
          b3 / Motor.sPart ⟨⟨b0, b1, b2, b3⟩, ⟨c0, c1, c2, c3⟩⟩⟩,
       ⟨0, c1 / Motor.sPart ⟨⟨b0, b1, b2, b3⟩, ⟨c0, c1, c2, c3⟩⟩ -
            dot3 (⟨0, b1, b2, b3⟩ : V4 ℝ) ⟨0, c1, c2, c3⟩ /
              Motor.sPart ⟨⟨b0, b1, b2, b3⟩, ⟨c0, c1, c2, c3⟩⟩ ^ 3 * b1,
          c2 / Motor.sPart ⟨⟨b0, b1, b2, b3⟩, ⟨c0, c1, c2, c3⟩⟩ -
            dot3 (⟨0, b1, b2, b3⟩ : V4 ℝ) ⟨0, c1, c2, c3⟩ /
              Motor.sPart ⟨⟨b0, b1, b2, b3⟩, ⟨c0, c1, c2, c3⟩⟩ ^ 3 * b2,
          c3 / Motor.sPart ⟨⟨b0, b1, b2, b3⟩, ⟨c0, c1, c2, c3⟩⟩ -
            dot3 (⟨0, b1, b2, b3⟩ : V4 ℝ) ⟨0, c1, c2, c3⟩ /
              Motor.sPart ⟨⟨b0, b1, b2, b3⟩, ⟨c0, c1, c2, c3⟩⟩ ^ 3 * b3⟩⟩ := rfl
  rw [eax, ht, hsq]
  simp only [Motor.logU, Motor.logV]
  have eq : (⟨⟨b0, b1, b2, b3⟩, ⟨c0, c1, c2, c3⟩⟩ : Motor ℝ).e0123 = c0 := rfl
  have ep : (⟨⟨b0, b1, b2, b3⟩, ⟨c0, c1, c2, c3⟩⟩ : Motor ℝ).scalar = b0 := rfl
  rw [eq, ep]
  generalize Motor.sPart ⟨⟨b0, b1, b2, b3⟩, ⟨c0, c1, c2, c3⟩⟩ = s at *
  generalize Motor.tPart ⟨⟨b0, b1, b2, b3⟩, ⟨c0, c1, c2, c3⟩⟩ = t at *
  have f1 : s ^ 2 * s⁻¹ = s := by field_simp
  have f2 : -(t * s) * s⁻¹ * -1 = t := by field_simp
  by_cases hp0 : |b0| < 1 / 1000000
  · have hd : decide (|b0| < 1 / 1000000) = true := decide_eq_true hp0
    simp only [sse, Libm.real, hd, cond_true, if_pos hp0, f1, f2, Line.scr, Line.mk.injEq, V4.mk.injEq]
    refine ⟨⟨?_, ?_, ?_, ?_⟩, ?_, ?_, ?_, ?_⟩ <;> field_simp <;> ring
  · have hd : decide (|b0| < 1 / 1000000) = false := decide_eq_false hp0
    have hb0 : b0 ≠ 0 := by
      rintro rfl; apply hp0; norm_num
    simp only [sse, Libm.real, hd, cond_false, if_neg hp0, f1, f2, Line.scr, Line.mk.injEq, V4.mk.injEq]
    refine ⟨⟨?_, ?_, ?_, ?_⟩, ?_, ?_, ?_, ?_⟩ <;> field_simp <;> ring

theorem Motor.norm_parts (m : Motor ℝ) (hm : m.mv * PGA.MV.rev m.mv = 1) (h : 0 < m.sPart) :
    m.scalar ^ 2 + m.sPart ^ 2 = 1 ∧ m.scalar * m.e0123 + m.sPart * m.tPart = 0 := by
  have h1 := Motor.sqNorm_eq_one hm
  have hp : 0 < dot3 m.bivector.p1 m.bivector.p1 := Real.sqrt_pos.1 h
  have h2 : m.bc = 0 := by
    have := congrArg MV.e0123 hm
    simp only [Motor.bc]
    simp only [pga] at this
    linarith
  constructor
  · rw [Motor.sPart, Real.sq_sqrt hp.le]
    simp only [Motor.sqNorm, kln, sse, dot3, Motor.bivector] at h1 ⊢
    linear_combination h1
  · have : m.sPart * m.tPart = -dot3 m.bivector.p1 m.bivector.p2 := by
      rw [Motor.tPart]; field_simp
    rw [this]
    simp only [Motor.bc, dot3, Motor.bivector, kln, sse] at h2 ⊢
    linear_combination h2

theorem cos_arg_unit {x y : ℝ} (h : x ^ 2 + y ^ 2 = 1) :
    Real.cos (Complex.arg ⟨x, y⟩) = x ∧ Real.sin (Complex.arg ⟨x, y⟩) = y := by
  have hn : ‖(⟨x, y⟩ : ℂ)‖ = 1 := by
    rw [Complex.norm_def, Complex.normSq_mk, Real.sqrt_eq_one]; linarith
  have h0 : (⟨x, y⟩ : ℂ) ≠ 0 := by
    intro e; rw [e] at hn; simp at hn
  constructor
  · rw [Complex.cos_arg h0, hn, div_one]
  · rw [Complex.sin_arg, hn, div_one]

include hx in
/-- C36 for every normalised motor with a rotation whose scalar part is at least `1e-6` in absolute
value: `exp(log(m)) = m`. -/
theorem C36_generic (m : Motor ℝ) (hm : m.mv * PGA.MV.rev m.mv = 1) (h : 0 < m.sPart)
    (hp : 1 / 1000000 ≤ |m.scalar|) :
    (m.log hw Libm.real isa).exp hw Libm.real isa = m := by
  obtain ⟨n1, n2⟩ := m.norm_parts hm h
  have hu := m.bivector.axis_unit (Real.sqrt_pos.1 h)
  have h0 : m.scalar ≠ 0 := by
    intro e; rw [e] at hp; norm_num at hp
  obtain ⟨c1, c2⟩ := cos_arg_unit n1
  conv_rhs => rw [m.eq_cis h]
  rw [m.log_eq hx isa h, exp_scr hx isa hu, Line.expUV_eq, Motor.logU, Motor.logV,
    if_neg (not_lt.2 hp), if_neg (not_lt.2 hp), c1, c2]
  congr 2
  · field_simp; linear_combination -n2
  · field_simp

include hx in
/-- C36 for a normalised motor with scalar part below `1e-6` whose displacement `v = -q/s` along the
axis is positive. -/
theorem C36_half_turn_pos (m : Motor ℝ) (hm : m.mv * PGA.MV.rev m.mv = 1) (h : 0 < m.sPart)
    (hp : |m.scalar| < 1 / 1000000) (hv : m.e0123 < 0) :
    (m.log hw Libm.real isa).exp hw Libm.real isa = m := by
  obtain ⟨n1, n2⟩ := m.norm_parts hm h
  have hu := m.bivector.axis_unit (Real.sqrt_pos.1 h)
  obtain ⟨c1, c2⟩ := cos_arg_unit n1
  have hs := h.ne'
  have hpos : 0 < -m.e0123 / m.sPart := div_pos (neg_pos.2 hv) h
  have ea : Complex.arg ⟨m.tPart, -m.e0123⟩ = Complex.arg ⟨m.scalar, m.sPart⟩ := by
    rw [← Complex.arg_real_mul ⟨m.scalar, m.sPart⟩ hpos]
    congr 1
    apply Complex.ext <;> simp <;> field_simp
    linear_combination n2
  conv_rhs => rw [m.eq_cis h]
  rw [m.log_eq hx isa h, exp_scr hx isa hu, Line.expUV_eq, Motor.logU, Motor.logV, if_pos hp, if_pos hp,
    ea, c1, c2]
  congr 2
  · field_simp
  · field_simp; linear_combination -n2

/-- The motor with all coefficients negated. -/
def Motor.negAll (m : Motor ℝ) : Motor ℝ :=
  ⟨⟨-m.p1.l0, -m.p1.l1, -m.p1.l2, -m.p1.l3⟩, ⟨-m.p2.l0, -m.p2.l1, -m.p2.l2, -m.p2.l3⟩⟩

include hx in
/-- Scalar part below `1e-6`, negative displacement: the code returns a logarithm of `-m`, which is
the same motion. -/
theorem C36_half_turn_neg (m : Motor ℝ) (hm : m.mv * PGA.MV.rev m.mv = 1) (h : 0 < m.sPart)
    (hp : |m.scalar| < 1 / 1000000) (hv : 0 < m.e0123) :
    (m.log hw Libm.real isa).exp hw Libm.real isa = m.negAll := by
  obtain ⟨n1, n2⟩ := m.norm_parts hm h
  have hu := m.bivector.axis_unit (Real.sqrt_pos.1 h)
  have n1' : (-m.scalar) ^ 2 + (-m.sPart) ^ 2 = 1 := by linear_combination n1
  obtain ⟨c1, c2⟩ := cos_arg_unit n1'
  have hs := h.ne'
  have hpos : 0 < m.e0123 / m.sPart := div_pos hv h
  have ea : Complex.arg ⟨m.tPart, -m.e0123⟩ = Complex.arg ⟨-m.scalar, -m.sPart⟩ := by
    rw [← Complex.arg_real_mul ⟨-m.scalar, -m.sPart⟩ hpos]
    congr 1
    apply Complex.ext <;> simp <;> field_simp
    linear_combination n2
  have e : m.negAll = m.bivector.axis.cis ⟨-m.scalar, -m.sPart⟩ ⟨-m.e0123, -m.tPart⟩ := by
    conv_lhs => rw [m.eq_cis h]
    simp only [Motor.negAll, Line.cis, Motor.mk.injEq, V4.mk.injEq]
    refine ⟨⟨?_, ?_, ?_, ?_⟩, ?_, ?_, ?_, ?_⟩ <;> first | trivial | ring
  rw [e, m.log_eq hx isa h, exp_scr hx isa hu, Line.expUV_eq, Motor.logU, Motor.logV, if_pos hp, if_pos hp,
    ea, c1, c2]
  congr 2
  · field_simp
  · field_simp; linear_combination n2

include hx in
/-- C36 is violated: for every normalised motor with scalar part below `1e-6` and no displacement
along its axis (a half turn about any line), `log` is zero and `exp(log(m))` is the identity. -/
theorem C36_half_turn_fails (m : Motor ℝ) (hm : m.mv * PGA.MV.rev m.mv = 1) (h : 0 < m.sPart)
    (hp : |m.scalar| < 1 / 1000000) (hv : m.e0123 = 0) :
    m.log hw Libm.real isa = ⟨setzero_ps, setzero_ps⟩ ∧
    ((m.log hw Libm.real isa).exp hw Libm.real isa).mv = 1 ∧ m.mv ≠ 1 ∧ m.mv ≠ -1 := by
  obtain ⟨n1, n2⟩ := m.norm_parts hm h
  have hs := h.ne'
  have ht : m.tPart = 0 := by
    rw [hv, mul_zero, zero_add] at n2
    exact (mul_eq_zero.1 n2).resolve_left hs
  have e0 : (⟨0, 0⟩ : ℂ) = 0 := rfl
  have e : m.log hw Libm.real isa = ⟨setzero_ps, setzero_ps⟩ := by
    rw [m.log_eq hx isa h, Motor.logU, Motor.logV, if_pos hp, if_pos hp, hv, ht, neg_zero, e0,
      Complex.arg_zero]
    simp [Line.scr, sse]
  have hsc : m.mv.s = m.scalar := rfl
  refine ⟨e, by rw [e, C35_zero isa], ?_, ?_⟩
  · intro hh
    rw [hh] at hsc
    have h1 : m.scalar = 1 := hsc.symm
    rw [h1] at hp; norm_num at hp
  · intro hh
    rw [hh] at hsc
    have h1 : m.scalar = -1 := hsc.symm
    rw [h1] at hp; norm_num at hp

theorem Motor.log_ideal (m : Motor ℝ) (h : m.bivector.p1 = setzero_ps) :
    m.log hw Libm.real isa = ⟨setzero_ps, m.p2⟩ := by
  have ea : mul_ps (set_ps 1 1 1 0) m.p1 = m.bivector.p1 := by
    simp [sse, Motor.bivector]
  have hne : Libm.real.cmpeq_all (mul_ps (set_ps 1 1 1 0) m.p1) setzero_ps = true := by
    rw [ea]; exact (cmpeq_all_zero _).2 h
  simp only [Motor.log, log_kernel, hne, cond_true]

/-- C36 for a motor without rotation and with scalar part 1 (a translation). -/
theorem C36_translation (m : Motor ℝ) (h : m.bivector.p1 = setzero_ps) (hp : m.scalar = 1) :
    (m.log hw Libm.real isa).exp hw Libm.real isa = m := by
  rw [Motor.log_ideal isa m h, exp_ideal isa _ rfl]
  have h1 : m.p1.l1 = 0 := congrArg V4.l1 h
  have h2 : m.p1.l2 = 0 := congrArg V4.l2 h
  have h3 : m.p1.l3 = 0 := congrArg V4.l3 h
  have h0 : m.p1.l0 = 1 := hp
  apply Motor.ext
  · apply V4.ext <;> simp [sse, h0, h1, h2, h3]
  · rfl

/-- C36 is violated also for the other representative of a translation, with scalar part `-1`: the
result is the translation in the opposite direction. -/
theorem C36_translation_fails (m : Motor ℝ) (h : m.bivector.p1 = setzero_ps) (hp : m.scalar = -1)
    (hq : m.e0123 = 0) (v : Vec3 ℝ) :
    ((m.log hw Libm.real isa).exp hw Libm.real isa).onPoint (Point.at v) =
      Point.at (v - (2 : ℝ) • m.bivector.mom) ∧
    m.onPoint (Point.at v) = Point.at (v + (2 : ℝ) • m.bivector.mom) := by
  rw [Motor.log_ideal isa m h, exp_ideal isa _ rfl]
  have h1 : m.p1.l1 = 0 := congrArg V4.l1 h
  have h2 : m.p1.l2 = 0 := congrArg V4.l2 h
  have h3 : m.p1.l3 = 0 := congrArg V4.l3 h
  have h0 : m.p1.l0 = -1 := hp
  have hq' : m.p2.l0 = 0 := hq
  constructor <;> rw [← Point.mv_inj, C15_motor_on_point] <;> apply MV.ext <;>
    simp only [pga, sse, Motor.bivector, Line.mom, kln, Point.at, h0, h1, h2, h3, hq', sub_x, sub_y, sub_z,
      add_x, add_y, add_z, smul_x, smul_y, smul_z] <;> ring

/-- Every normalised motor is covered by the statements above. -/
theorem C36_cases (m : Motor ℝ) (hm : m.mv * PGA.MV.rev m.mv = 1) :
    (0 < m.sPart ∧ 1 / 1000000 ≤ |m.scalar|) ∨
    (0 < m.sPart ∧ |m.scalar| < 1 / 1000000 ∧ (m.e0123 < 0 ∨ 0 < m.e0123 ∨ m.e0123 = 0)) ∨
    (m.bivector.p1 = setzero_ps ∧ m.e0123 = 0 ∧ (m.scalar = 1 ∨ m.scalar = -1)) := by
  rcases (Real.sqrt_nonneg (dot3 m.bivector.p1 m.bivector.p1)).lt_or_eq with h | h
  · rcases le_or_gt (1 / 1000000) |m.scalar| with hp | hp
    · exact Or.inl ⟨h, hp⟩
    · exact Or.inr (Or.inl ⟨h, hp, by rcases lt_trichotomy m.e0123 0 with a | a | a <;> simp [a]⟩)
  · right; right
    have hz : dot3 m.bivector.p1 m.bivector.p1 = 0 :=
      (Real.sqrt_eq_zero (dot3_self_nonneg _)).1 h.symm
    obtain ⟨z1, z2, z3⟩ := dot3_self_eq_zero hz
    have h1 : m.p1.l1 = 0 := z1
    have h2 : m.p1.l2 = 0 := z2
    have h3 : m.p1.l3 = 0 := z3
    have hn := Motor.sqNorm_eq_one hm
    simp only [Motor.sqNorm, kln, sse, h1, h2, h3, mul_zero, add_zero] at hn
    have hq := congrArg MV.e0123 hm
    simp only [pga, h1, h2, h3] at hq
    have hsc : m.scalar = 1 ∨ m.scalar = -1 := mul_self_eq_one_iff.1 hn
    refine ⟨V4.ext rfl z1 z2 z3, ?_, hsc⟩
    have e1 : m.scalar * m.e0123 = 0 := by simp only [kln, sse]; linarith
    rcases hsc with e | e <;> rw [e] at e1 <;> linarith

/-- The concrete half turn about the z axis, the motor `e12`: its logarithm is zero. -/
example : (⟨⟨0, 0, 0, 1⟩, ⟨0, 0, 0, 0⟩⟩ : Motor ℝ).log Hw.ideal Libm.real .sse41 =
    ⟨setzero_ps, setzero_ps⟩ := by
  have hs : 0 < (⟨⟨0, 0, 0, 1⟩, ⟨0, 0, 0, 0⟩⟩ : Motor ℝ).sPart := by
    simp [Motor.sPart, Motor.bivector, dot3]
  refine (C36_half_turn_fails Hw.ideal_exact .sse41 _ ?_ hs ?_ rfl).1
  · apply MV.ext <;> simp [pga]
  · simp [kln]

include hx in
/-- `log(exp(l)) = l` for `l = (u + v I) n` with `0 < u < π` and `|cos u| ≥ 1e-6`. -/
theorem C36_log_exp {n : Line ℝ} (hn : n.Unit) {u : ℝ} (v : ℝ) (h0 : 0 < u) (h1 : u < Real.pi)
    (hc : 1 / 1000000 ≤ |Real.cos u|) :
    ((n.scr u v).exp hw Libm.real isa).log hw Libm.real isa = n.scr u v := by
  have hs : 0 < Real.sin u := Real.sin_pos_of_pos_of_lt_pi h0 h1
  have hc0 : Real.cos u ≠ 0 := by
    intro e; rw [e] at hc; norm_num at hc
  rw [exp_scr hx isa hn]
  have hb : (n.expUV u v).bivector = n.scr (Real.sin u) (v * Real.cos u) := by
    rw [Line.expUV_eq]; rfl
  have hd : dot3 (n.expUV u v).bivector.p1 (n.expUV u v).bivector.p1 = Real.sin u ^ 2 := by
    have := hn.dir
    rw [hb]; simp only [Line.scr, dot3] at this ⊢; linear_combination Real.sin u ^ 2 * this
  have hd2 : dot3 (n.expUV u v).bivector.p1 (n.expUV u v).bivector.p2 =
      -(Real.sin u * (v * Real.cos u)) := by
    have a := hn.dir
    have b := hn.mom
    rw [hb]; simp only [Line.scr, dot3] at a b ⊢
    linear_combination (-Real.sin u * (v * Real.cos u)) * a + Real.sin u ^ 2 * b
  have hsp : (n.expUV u v).sPart = Real.sin u := by
    rw [Motor.sPart, hd, Real.sqrt_sq hs.le]
  have htp : (n.expUV u v).tPart = v * Real.cos u := by
    rw [Motor.tPart, hd2, hsp]; field_simp
  have hsc : (n.expUV u v).scalar = Real.cos u := by rw [Line.expUV_eq]; rfl
  have hax : ∀ a b, (n.expUV u v).bivector.axis.scr a b = n.scr a b := by
    intro a b
    have e : Real.sqrt (dot3 (n.expUV u v).bivector.p1 (n.expUV u v).bivector.p1) = Real.sin u := by
      rw [hd, Real.sqrt_sq hs.le]
    simp only [Line.axis, e, hd2]
    rw [hb]
    simp only [Line.scr, Line.mk.injEq, V4.mk.injEq]
    refine ⟨⟨?_, ?_, ?_, ?_⟩, ?_, ?_, ?_, ?_⟩ <;> first | trivial | (field_simp <;> ring1) | (field_simp; ring1) | field_simp
  have harg : Complex.arg ⟨Real.cos u, Real.sin u⟩ = u := by
    have e : (⟨Real.cos u, Real.sin u⟩ : ℂ) = Complex.cos u + Complex.sin u * Complex.I := by
      apply Complex.ext <;> simp [Complex.cos_ofReal_re, Complex.sin_ofReal_re, ← Complex.ofReal_cos, ← Complex.ofReal_sin]
    rw [e, Complex.arg_cos_add_sin_mul_I ⟨by linarith [Real.pi_pos], h1.le⟩]
  rw [Motor.log_eq hx isa _ (by rw [hsp]; exact hs), hax, Motor.logU, Motor.logV, hsc,
    if_neg (not_lt.2 hc), if_neg (not_lt.2 hc), hsp, htp, harg, mul_div_assoc, div_self hc0, mul_one]

end Klein
