import Verif.Props.Log

/-!
# C34: exponential of a branch, logarithm of a rotor
-/

set_option linter.unusedSimpArgs false
set_option linter.unusedSectionVars false

namespace Klein

open PGA PGA.MV Euclid

variable {hw : Hw ℝ} (hx : hw.Exact) (isa : Isa)

include hx in
/-- `exp` of a non-zero branch in closed form. -/
theorem Branch.exp_eq (b : Branch ℝ) (wb : b.WF) (h : 0 < dot3 b.p1 b.p1) {r : ℝ}
    (hr : r = Real.sqrt (dot3 b.p1 b.p1)) :
    b.exp hw Libm.real isa = ⟨⟨Real.cos r, Real.sin r / r * b.p1.l1, Real.sin r / r * b.p1.l2,
      Real.sin r / r * b.p1.l3⟩⟩ := by
  have hpos : 0 < r := hr ▸ Real.sqrt_pos.2 h
  have hsq : dot3 b.p1 b.p1 = r ^ 2 := by rw [hr, Real.sq_sqrt h.le]
  have hang : (sqrt_nr1 hw (hi_dp isa b.p1 b.p1)).l0 = r := by
    rw [hi_dp_eq]
    have e : (sqrt_nr1 hw (set_ss (dot3 b.p1 b.p1))).l0 =
        dot3 b.p1 b.p1 * rsqrt1 hw (dot3 b.p1 b.p1) := rfl
    rw [e, rsqrt1_eq hx h, ← hr, hsq]
    field_simp
  have w : b.p1.l0 = 0 := wb
  simp only [Branch.exp, hang]
  simp only [sse, w, Rotor.mk.injEq, V4.mk.injEq, Libm.real, mul_zero, zero_add, add_zero]

include hx in
/-- C34: the exponential of a non-zero branch is a unit rotor. -/
theorem C34_unit (b : Branch ℝ) (wb : b.WF) (h : 0 < dot3 b.p1 b.p1) :
    (b.exp hw Libm.real isa).mv * PGA.MV.rev (b.exp hw Libm.real isa).mv = 1 := by
  have h0 := (Real.sqrt_pos.2 h).ne'
  have hsq := Real.sq_sqrt h.le
  rw [Branch.exp_eq hx isa b wb h rfl]
  generalize Real.sqrt (dot3 b.p1 b.p1) = r at *
  have hc := Real.cos_sq_add_sin_sq r
  simp only [dot3] at hsq
  apply MV.ext <;> simp only [pga] <;> try ring1
  field_simp
  linear_combination r ^ 2 * hc - Real.sin r ^ 2 * hsq

include hx in
/-- C34: the exponential of a branch is the exponential of the same line through the origin. -/
theorem C34_matches_line (b : Branch ℝ) (wb : b.WF) (h : 0 < dot3 b.p1 b.p1) :
    (b.exp hw Libm.real isa).mv = ((⟨b.p1, setzero_ps⟩ : Line ℝ).exp hw Libm.real isa).mv := by
  have hne : Libm.real.cmpeq_all b.p1 setzero_ps = false := by
    rw [← Bool.not_eq_true, cmpeq_all_zero]
    intro hz; rw [hz] at h; simp [dot3, sse] at h
  have h0 := (Real.sqrt_pos.2 h).ne'
  rw [Branch.exp_eq hx isa b wb h rfl]
  simp only [Line.exp, exp_kernel, hne, cond_false]
  rw [exp_general_eq hx isa b.p1 setzero_ps h wb rfl rfl]
  have hz : dot3 b.p1 (setzero_ps : V4 ℝ) = 0 := by simp [dot3, sse]
  generalize Real.sqrt (dot3 b.p1 b.p1) = r at *
  generalize dot3 b.p1 (setzero_ps : V4 ℝ) = k at *
  subst hz
  apply MV.ext <;> simp only [pga, sse] <;> ring

include hx in
/-- C34: one-parameter group (away from the parameter 0, where the code divides 0 by 0). -/
theorem C34_add (b : Branch ℝ) (wb : b.WF) (h : 0 < dot3 b.p1 b.p1) (s t : ℝ) (hs : s ≠ 0)
    (ht : t ≠ 0) (hst : s + t ≠ 0) :
    (b.smul (s + t)).exp hw Libm.real isa =
      ((b.smul s).exp hw Libm.real isa).mulRotor ((b.smul t).exp hw Libm.real isa) := by
  have key : ∀ k : ℝ, k ≠ 0 → 0 < dot3 (b.smul k).p1 (b.smul k).p1 := by
    intro k hk
    have : dot3 (b.smul k).p1 (b.smul k).p1 = k ^ 2 * dot3 b.p1 b.p1 := by
      simp only [dot3, kln, sse]; ring
    rw [this]; positivity
  have w : ∀ k : ℝ, (b.smul k).WF := by
    intro k; simp only [Branch.WF, kln, sse]; rw [show b.p1.l0 = 0 from wb]; ring
  have e := C35_add hx isa ⟨b.p1, setzero_ps⟩ ⟨wb, rfl⟩ s t
  have hz : ∀ k : ℝ, (⟨b.p1, setzero_ps⟩ : Line ℝ).smul k = ⟨(b.smul k).p1, setzero_ps⟩ := by
    intro k; simp [kln, sse]
  rw [hz, hz, hz] at e
  rw [← Rotor.mv_inj, C03_rotor_mul_rotor, C34_matches_line hx isa _ (w _) (key _ hst),
    C34_matches_line hx isa _ (w _) (key _ hs), C34_matches_line hx isa _ (w _) (key _ ht), e,
    C06_motor_mul_motor]

include hx in
/-- `log` of a unit rotor other than `±1` in closed form. -/
theorem Rotor.log_eq (r : Rotor ℝ) (h : r.sqNorm = 1) (h1 : -1 < r.scalar) (h2 : r.scalar < 1) :
    r.log hw Libm.real isa =
      (⟨⟨0, r.p1.l1, r.p1.l2, r.p1.l3⟩⟩ : Branch ℝ).smul
        (Real.arccos r.scalar / Real.sqrt (dot3 r.p1 r.p1)) := by
  have hd : dot3 r.p1 r.p1 = 1 - r.scalar ^ 2 := by
    simp only [Rotor.sqNorm, dot3, kln, sse] at h ⊢; linear_combination h
  have hs : Real.sin (Real.arccos r.scalar) = Real.sqrt (dot3 r.p1 r.p1) := by
    rw [Real.sin_arccos, hd]
  have hpos : 0 < dot3 r.p1 r.p1 := by rw [hd]; nlinarith
  have h0 := (Real.sqrt_pos.2 hpos).ne'
  have e : rcp1 hw (Libm.real.sin (Libm.real.acos r.p1.l0)) = (Real.sqrt (dot3 r.p1 r.p1))⁻¹ := by
    have e' : Libm.real.sin (Libm.real.acos r.p1.l0) = Real.sqrt (dot3 r.p1 r.p1) := hs
    rw [e', rcp1_eq hx h0]
  have e2 : Libm.real.acos r.p1.l0 = Real.arccos r.scalar := rfl
  simp only [Rotor.log, rcp_set1]
  rw [e, e2]
  generalize Real.arccos r.scalar = θ at *
  generalize Real.sqrt (dot3 r.p1 r.p1) = q at *
  cases isa <;>
    simp only [kln, sse, cond_true, cond_false, Branch.mk.injEq, V4.mk.injEq] <;>
    refine ⟨?_, ?_, ?_, ?_⟩ <;> ring

include hx in
/-- C34: `exp(log(r)) = r` for every unit rotor other than `±1`. -/
theorem C34_exp_log (r : Rotor ℝ) (h : r.sqNorm = 1) (h1 : -1 < r.scalar) (h2 : r.scalar < 1) :
    (r.log hw Libm.real isa).exp hw Libm.real isa = r := by
  have hd : dot3 r.p1 r.p1 = 1 - r.scalar ^ 2 := by
    simp only [Rotor.sqNorm, dot3, kln, sse] at h ⊢; linear_combination h
  have hpos : 0 < dot3 r.p1 r.p1 := by rw [hd]; nlinarith
  have hs : Real.sin (Real.arccos r.scalar) = Real.sqrt (dot3 r.p1 r.p1) := by
    rw [Real.sin_arccos, hd]
  have hc : Real.cos (Real.arccos r.scalar) = r.scalar := Real.cos_arccos h1.le h2.le
  have ha : 0 < Real.arccos r.scalar := Real.arccos_pos.2 h2
  have h0 := Real.sqrt_pos.2 hpos
  have hsq := Real.sq_sqrt hpos.le
  rw [Rotor.log_eq hx isa r h h1 h2]
  set q := Real.sqrt (dot3 r.p1 r.p1) with hq
  set θ := Real.arccos r.scalar with hθ
  have hdd : dot3 ((⟨⟨0, r.p1.l1, r.p1.l2, r.p1.l3⟩⟩ : Branch ℝ).smul (θ / q)).p1
      ((⟨⟨0, r.p1.l1, r.p1.l2, r.p1.l3⟩⟩ : Branch ℝ).smul (θ / q)).p1 = θ ^ 2 := by
    have e : dot3 ((⟨⟨0, r.p1.l1, r.p1.l2, r.p1.l3⟩⟩ : Branch ℝ).smul (θ / q)).p1
      ((⟨⟨0, r.p1.l1, r.p1.l2, r.p1.l3⟩⟩ : Branch ℝ).smul (θ / q)).p1 =
        (θ / q) ^ 2 * dot3 r.p1 r.p1 := by simp only [dot3, kln, sse]; ring
    rw [e, ← hsq]; field_simp
  have hw' : ((⟨⟨0, r.p1.l1, r.p1.l2, r.p1.l3⟩⟩ : Branch ℝ).smul (θ / q)).WF := by
    simp [Branch.WF, kln, sse]
  have hθ2 : θ = Real.sqrt (dot3 ((⟨⟨0, r.p1.l1, r.p1.l2, r.p1.l3⟩⟩ : Branch ℝ).smul (θ / q)).p1
      ((⟨⟨0, r.p1.l1, r.p1.l2, r.p1.l3⟩⟩ : Branch ℝ).smul (θ / q)).p1) := by
    rw [hdd, Real.sqrt_sq ha.le]
  rw [Branch.exp_eq hx isa _ hw' (by rw [hdd]; positivity) hθ2, hc, hs]
  apply Rotor.ext
  apply V4.ext <;> simp only [kln, sse]
  all_goals field_simp

include hx in
/-- C34: `log(exp(b)) = b` for every branch with norm between 0 and `π`. -/
theorem C34_log_exp (b : Branch ℝ) (wb : b.WF) (h : 0 < dot3 b.p1 b.p1)
    (hpi : Real.sqrt (dot3 b.p1 b.p1) < Real.pi) :
    (b.exp hw Libm.real isa).log hw Libm.real isa = b := by
  have hu := C34_unit hx isa b wb h
  have hpos := Real.sqrt_pos.2 h
  have hsq := Real.sq_sqrt h.le
  rw [Branch.exp_eq hx isa b wb h rfl] at hu ⊢
  generalize Real.sqrt (dot3 b.p1 b.p1) = r at *
  have hsin : 0 < Real.sin r := Real.sin_pos_of_pos_of_lt_pi hpos hpi
  have hc := Real.cos_sq_add_sin_sq r
  have hn := congrArg MV.s hu
  have hc1 : -1 < Real.cos r := by nlinarith [Real.neg_one_le_cos r]
  have hc2 : Real.cos r < 1 := by nlinarith [Real.cos_le_one r]
  have hd : dot3 (⟨Real.cos r, Real.sin r / r * b.p1.l1, Real.sin r / r * b.p1.l2,
      Real.sin r / r * b.p1.l3⟩ : V4 ℝ) ⟨Real.cos r, Real.sin r / r * b.p1.l1,
      Real.sin r / r * b.p1.l2, Real.sin r / r * b.p1.l3⟩ = Real.sin r ^ 2 := by
    simp only [dot3] at hsq ⊢
    field_simp
    linear_combination -hsq
  rw [Rotor.log_eq hx isa ⟨⟨Real.cos r, Real.sin r / r * b.p1.l1, Real.sin r / r * b.p1.l2,
    Real.sin r / r * b.p1.l3⟩⟩ ?_ hc1 hc2]
  · simp only [hd, Real.sqrt_sq hsin.le]
    have ea : Real.arccos (Rotor.scalar ⟨⟨Real.cos r, Real.sin r / r * b.p1.l1,
        Real.sin r / r * b.p1.l2, Real.sin r / r * b.p1.l3⟩⟩) = r :=
      Real.arccos_cos hpos.le hpi.le
    rw [ea]
    apply Branch.ext
    apply V4.ext <;> simp only [kln, sse]
    · rw [show b.p1.l0 = 0 from wb]; ring
    all_goals field_simp
  · simp only [pga] at hn
    simp only [Rotor.sqNorm, kln, sse]
    linear_combination hn

/-- A half turn: the logarithm of `e12` as a rotor is `π/2 e12`. -/
example : (⟨⟨0, 0, 0, 1⟩⟩ : Rotor ℝ).log Hw.odd Libm.real .sse3 = ⟨⟨0, 0, 0, Real.pi / 2⟩⟩ := by
  rw [Rotor.log_eq Hw.odd_exact _ _ (by simp [Rotor.sqNorm, kln]) (by simp [kln])
    (by simp [kln])]
  simp [kln, sse, dot3]

end Klein
