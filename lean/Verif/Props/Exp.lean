import Verif.Lemmas.Cis
import Verif.Spec.Rodrigues
import Verif.Props.Incidence
import Verif.Props.Actions
import Mathlib.Analysis.Normed.Algebra.Exponential
import Mathlib.Analysis.SpecialFunctions.Exponential
import Mathlib.Analysis.SpecialFunctions.Trigonometric.Deriv

/-!
# C30-C33, C35: constructors from angles, exponential of a line

Everything is stated over the reals with the exact scalar library `Libm.real`, for every estimate
that is exact where the exact value exists (`Hw.Exact`), and for both builds.
-/

set_option linter.unusedSimpArgs false
set_option linter.unusedSectionVars false

namespace Klein

open PGA PGA.MV Euclid

variable {hw : Hw ℝ} (hx : hw.Exact) (isa : Isa)

/-! ### C35 -/

theorem dot3_self_nonneg (a : V4 ℝ) : 0 ≤ dot3 a a := by
  simp only [dot3]; nlinarith [mul_self_nonneg a.l1, mul_self_nonneg a.l2, mul_self_nonneg a.l3]

theorem dot3_self_eq_zero {a : V4 ℝ} (h : dot3 a a = 0) : a.l1 = 0 ∧ a.l2 = 0 ∧ a.l3 = 0 := by
  simp only [dot3] at h
  refine ⟨?_, ?_, ?_⟩ <;> nlinarith [mul_self_nonneg a.l1, mul_self_nonneg a.l2, mul_self_nonneg a.l3]

/-- A well-formed line either has no Euclidean part or is `(u + v I) n` for a unit line `n`. -/
theorem Line.dichotomy (l : Line ℝ) (wl : l.WF) :
    l.p1 = setzero_ps ∨ ∃ (n : Line ℝ) (u v : ℝ), n.Unit ∧ 0 < u ∧ l = n.scr u v := by
  rcases (dot3_self_nonneg l.p1).lt_or_eq with h | h
  · exact Or.inr ⟨l.axis, _, _, l.axis_unit h, Real.sqrt_pos.2 h, l.eq_scr wl h⟩
  · obtain ⟨h1, h2, h3⟩ := dot3_self_eq_zero h.symm
    exact Or.inl (V4.ext wl.1 h1 h2 h3)

/-- `exp` of a line at infinity. -/
theorem exp_ideal (l : Line ℝ) (h : l.p1 = setzero_ps) :
    l.exp hw Libm.real isa = ⟨set_ss 1, l.p2⟩ := by
  have : Libm.real.cmpeq_all l.p1 setzero_ps = true := (cmpeq_all_zero _).2 h
  simp only [Line.exp, exp_kernel, this, cond_true]

/-- C35: `exp(0)` is the identity. -/
theorem C35_zero : ((⟨setzero_ps, setzero_ps⟩ : Line ℝ).exp hw Libm.real isa).mv = 1 := by
  rw [exp_ideal isa _ rfl]; mv_ring

theorem Line.expUV_add {n : Line ℝ} (h : n.Unit) (u v u' v' : ℝ) :
    (n.expUV u v).mulMotor (n.expUV u' v') = n.expUV (u + u') (v + v') := by
  rw [Line.expUV, Line.expUV, Line.expUV, Line.cis_mul h, Complex.ofReal_add, add_mul, Complex.exp_add,
    Complex.ofReal_add]
  congr 1
  ring

include hx in
/-- C35: the exponential is a one-parameter group. -/
theorem C35_add (l : Line ℝ) (wl : l.WF) (s t : ℝ) :
    (l.smul (s + t)).exp hw Libm.real isa =
      ((l.smul s).exp hw Libm.real isa).mulMotor ((l.smul t).exp hw Libm.real isa) := by
  rcases l.dichotomy wl with h | ⟨n, u, v, hn, hu, rfl⟩
  · have hz : ∀ k, (l.smul k).p1 = setzero_ps := by
      intro k; simp [kln, sse, h]
    rw [exp_ideal isa _ (hz _), exp_ideal isa _ (hz _), exp_ideal isa _ (hz _), ← Motor.mv_inj,
      C06_motor_mul_motor]
    have w2 : l.p2.l0 = 0 := wl.2
    apply MV.ext <;> simp only [pga, kln, sse, w2] <;> ring
  · rw [Line.scr_smul, Line.scr_smul, Line.scr_smul, exp_scr hx isa hn, exp_scr hx isa hn,
      exp_scr hx isa hn, Line.expUV_add hn]
    congr 1 <;> ring

include hx in
theorem C35_reverse (l : Line ℝ) (wl : l.WF) :
    (l.smul (-1)).exp hw Libm.real isa = (l.exp hw Libm.real isa).rev := by
  rcases l.dichotomy wl with h | ⟨n, u, v, hn, hu, rfl⟩
  · have hz : (l.smul (-1)).p1 = setzero_ps := by simp [kln, sse, h]
    rw [exp_ideal isa _ hz, exp_ideal isa _ h]
    have w2 : l.p2.l0 = 0 := wl.2
    simp [kln, sse, w2]
  · rw [Line.scr_smul, exp_scr hx isa hn, exp_scr hx isa hn, Line.expUV_eq, Line.expUV_eq,
      Line.cis_rev]
    congr 1 <;> apply Complex.ext <;> simp

theorem Line.expUV_normalised {n : Line ℝ} (h : n.Unit) (u v : ℝ) :
    (n.expUV u v).mv * PGA.MV.rev (n.expUV u v).mv = 1 := by
  have h1 := h.dir
  have h2 := h.mom
  rw [Motor.mul_rev]
  have hc := Real.cos_sq_add_sin_sq u
  rw [Line.expUV_eq]
  simp only [dot3] at h1 h2
  apply MV.ext <;> simp only [Line.cis, Motor.sqNorm, pga, kln, sse] <;> try ring1
  · linear_combination hc + Real.sin u ^ 2 * h1
  · linear_combination (2 * v * Real.sin u * Real.cos u) * h1 - 2 * Real.sin u ^ 2 * h2

include hx in
/-- C35: the exponential of a line is a normalised motor. -/
theorem C35_normalised (l : Line ℝ) (wl : l.WF) :
    (l.exp hw Libm.real isa).mv * PGA.MV.rev (l.exp hw Libm.real isa).mv = 1 := by
  rcases l.dichotomy wl with h | ⟨n, u, v, hn, hu, rfl⟩
  · rw [exp_ideal isa _ h]
    have w2 : l.p2.l0 = 0 := wl.2
    apply MV.ext <;> simp only [pga, kln, sse, w2] <;> ring
  · rw [exp_scr hx isa hn, Line.expUV_normalised hn]

/-- Coefficients of powers of `(u + v I) n`. -/
theorem Line.scr_pow {n : Line ℝ} (h : n.Unit) (u v : ℝ) (k : ℕ) :
    (n.scr u v).mv ^ k =
      (n.cis ((u * Complex.I) ^ k) (k * (u * Complex.I) ^ (k - 1) * (v * Complex.I))).mv := by
  induction k with
  | zero =>
    rw [pow_zero]
    simp only [pow_zero, Nat.cast_zero, zero_mul, Line.cis_one]
    mv_ring
  | succ k ih =>
    have e : (n.scr u v).mv = (n.cis (u * Complex.I) (v * Complex.I)).mv := by
      apply MV.ext <;> simp [pga, Line.cis, Line.scr]
    rw [pow_succ, ih, e, ← C06_motor_mul_motor, Line.cis_mul h]
    congr 2
    rcases k with _ | k
    · simp
    · simp only [Nat.add_sub_cancel, Nat.cast_add, Nat.cast_one]
      ring

theorem _root_.HasSum.congr_fun' {E : Type} [AddCommMonoid E] [TopologicalSpace E] {f g : ℕ → E} {a : E}
    (h : HasSum f a) (e : ∀ k, g k = f k) : HasSum g a := by
  rw [funext e]; exact h

theorem hasSum_cexp (z : ℂ) : HasSum (fun k : ℕ => ((k.factorial : ℝ)⁻¹ : ℝ) • z ^ k) (Complex.exp z) := by
  have := NormedSpace.exp_series_hasSum_exp' (𝕂 := ℝ) z
  rw [Complex.exp_eq_exp_ℂ]
  exact this

theorem hasSum_cexp' (z w : ℂ) : HasSum
    (fun k : ℕ => ((k.factorial : ℝ)⁻¹ : ℝ) • (k * z ^ (k - 1) * w)) (w * Complex.exp z) := by
  rw [← hasSum_nat_add_iff' 1]
  simp only [Finset.range_one, Finset.sum_singleton, Nat.cast_zero, zero_mul, smul_zero, sub_zero,
    Nat.add_sub_cancel]
  have := (hasSum_cexp z).mul_left w
  refine this.congr_fun' (fun k => ?_)
  rw [Nat.factorial_succ]
  simp only [Complex.real_smul]
  push_cast
  have h1 : (k.factorial : ℂ) ≠ 0 := by exact_mod_cast k.factorial_ne_zero
  have h2 : (k : ℂ) + 1 ≠ 0 := by exact_mod_cast k.succ_ne_zero
  field_simp

/-- Convergence of a series of multivectors: every linear functional of the partial sums converges
(equivalently, every coefficient does). -/
def MVHasSum (f : ℕ → MV ℝ) (x : MV ℝ) : Prop :=
  ∀ φ : MV ℝ →ₗ[ℝ] ℝ, HasSum (fun k => φ (f k)) (φ x)

/-- Derivative of a curve of multivectors, in every linear functional. -/
def MVHasDerivAt (f : ℝ → MV ℝ) (f' : MV ℝ) (t : ℝ) : Prop :=
  ∀ φ : MV ℝ →ₗ[ℝ] ℝ, HasDerivAt (fun t => φ (f t)) (φ f') t

theorem Line.cis_apply (n : Line ℝ) (z w : ℂ) (φ : MV ℝ →ₗ[ℝ] ℝ) :
    φ (n.cis z w).mv = z.re * φ 1 + z.im * φ n.mv + w.re * φ (g0 * g1 * g2 * g3) +
      w.im * φ (n.mv * (g0 * g1 * g2 * g3)) := by
  rw [Line.cis_mv, add_mul, smul_mul_assoc, smul_mul_assoc, one_mul]
  simp only [map_add, map_smul, smul_eq_mul]
  ring

theorem Line.expUV_hasSum {n : Line ℝ} (h : n.Unit) (u v : ℝ) :
    MVHasSum (fun k => ((k.factorial : ℝ)⁻¹ : ℝ) • (n.scr u v).mv ^ k) (n.expUV u v).mv := by
  intro φ
  rw [Line.expUV, Line.cis_apply]
  have h1 := hasSum_cexp (u * Complex.I)
  have h2 := hasSum_cexp' (u * Complex.I) (v * Complex.I)
  have a := (Complex.reCLM.hasSum h1).mul_right (φ 1)
  have b := (Complex.imCLM.hasSum h1).mul_right (φ n.mv)
  have c := (Complex.reCLM.hasSum h2).mul_right (φ (g0 * g1 * g2 * g3))
  have d := (Complex.imCLM.hasSum h2).mul_right (φ (n.mv * (g0 * g1 * g2 * g3)))
  have s := ((a.add b).add c).add d
  refine s.congr_fun' (fun k => ?_)
  show φ (((k.factorial : ℝ)⁻¹ : ℝ) • (n.scr u v).mv ^ k) = _
  rw [Line.scr_pow h, map_smul, Line.cis_apply]
  simp only [Function.comp, Complex.reCLM_apply, Complex.imCLM_apply, Complex.smul_re,
    Complex.smul_im, smul_eq_mul]
  ring

include hx in
/-- C35: `exp(l)` is the sum of the power series of the bivector `l` in the algebra. -/
theorem C35_series (l : Line ℝ) (wl : l.WF) :
    MVHasSum (fun k => ((k.factorial : ℝ)⁻¹ : ℝ) • l.mv ^ k) (l.exp hw Libm.real isa).mv := by
  rcases l.dichotomy wl with h | ⟨n, u, v, hn, hu, rfl⟩
  · rw [exp_ideal isa _ h]
    have w2 : l.p2.l0 = 0 := wl.2
    have hsq : l.mv ^ 2 = 0 := by
      rw [pow_two]
      apply MV.ext <;> simp only [pga, h, sse] <;> ring
    have hm : (⟨set_ss 1, l.p2⟩ : Motor ℝ).mv = 1 + l.mv := by
      apply MV.ext <;> simp only [pga, h, w2, sse] <;> ring
    intro φ
    have hs := hasSum_sum_of_ne_finset_zero (L := SummationFilter.unconditional ℕ) (s := Finset.range 2)
      (f := fun k : ℕ => φ (((k.factorial : ℝ)⁻¹ : ℝ) • l.mv ^ k)) (by
        intro k hk
        have hk2 : 2 ≤ k := by simp only [Finset.mem_range, not_lt] at hk; exact hk
        obtain ⟨j, rfl⟩ := Nat.exists_eq_add_of_le hk2
        rw [pow_add, hsq, zero_mul, smul_zero, map_zero])
    convert hs using 1
    rw [hm]
    simp [Finset.sum_range_succ]
  · rw [exp_scr hx isa hn]
    exact Line.expUV_hasSum hn u v

theorem Line.expUV_hasDeriv {n : Line ℝ} (h : n.Unit) (u v t : ℝ) :
    MVHasDerivAt (fun t => (n.expUV (t * u) (t * v)).mv)
      ((n.scr u v).mv * (n.expUV (t * u) (t * v)).mv) t := by
  intro φ
  have e : (n.scr u v).mv = (n.cis (u * Complex.I) (v * Complex.I)).mv := by
    apply MV.ext <;> simp [pga, Line.cis, Line.scr]
  rw [e, ← C06_motor_mul_motor]
  simp only [Line.expUV_eq, Line.cis_mul h, Line.cis_apply, Complex.mul_re, Complex.mul_im,
    Complex.add_re, Complex.add_im, Complex.ofReal_re, Complex.ofReal_im, Complex.I_re, Complex.I_im]
  have hu : HasDerivAt (fun t : ℝ => t * u) u t := by simpa using (hasDerivAt_id t).mul_const u
  have hv : HasDerivAt (fun t : ℝ => t * v) v t := by simpa using (hasDerivAt_id t).mul_const v
  have hc := hu.cos
  have hs := hu.sin
  have d := (((hc.mul_const (φ 1)).add (hs.mul_const (φ n.mv))).add
    ((hv.mul hs).neg.mul_const (φ (g0 * g1 * g2 * g3)))).add
    ((hv.mul hc).mul_const (φ (n.mv * (g0 * g1 * g2 * g3))))
  refine HasDerivAt.congr_deriv (f := fun t => Real.cos (t * u) * φ 1 + Real.sin (t * u) * φ n.mv +
    -(t * v * Real.sin (t * u)) * φ (g0 * g1 * g2 * g3) +
    t * v * Real.cos (t * u) * φ (n.mv * (g0 * g1 * g2 * g3))) d ?_
  ring

include hx in
/-- C35: `d/dt exp(t l) = l exp(t l)`. -/
theorem C35_deriv (l : Line ℝ) (wl : l.WF) (t : ℝ) :
    MVHasDerivAt (fun t => ((l.smul t).exp hw Libm.real isa).mv)
      (l.mv * ((l.smul t).exp hw Libm.real isa).mv) t := by
  rcases l.dichotomy wl with h | ⟨n, u, v, hn, hu, rfl⟩
  · have w2 : l.p2.l0 = 0 := wl.2
    have hm : ∀ t, ((l.smul t).exp hw Libm.real isa).mv = 1 + t • l.mv := by
      intro t
      rw [exp_ideal isa _ (by simp [kln, sse, h])]
      apply MV.ext <;> simp only [pga, kln, h, w2, sse] <;> ring
    have hsq : l.mv * l.mv = 0 := by
      apply MV.ext <;> simp only [pga, h, sse] <;> ring
    intro φ
    simp only [hm, mul_add, mul_one, mul_smul_comm, hsq, smul_zero, add_zero, map_add, map_smul,
      smul_eq_mul]
    simpa using ((hasDerivAt_id t).mul_const (φ l.mv)).const_add (φ 1)
  · simp only [Line.scr_smul, exp_scr hx isa hn]
    exact Line.expUV_hasDeriv hn u v t

/-- A bivector that is not simple, for which all cases above are non-trivial: its exponential at the
parameter `π`. -/
example : ((⟨⟨0, 0, 0, 1⟩, ⟨0, 0, 0, 1⟩⟩ : Line ℝ).smul Real.pi).exp Hw.ideal Libm.real .sse3 =
    ⟨⟨-1, 0, 0, 0⟩, ⟨0, 0, 0, -Real.pi⟩⟩ := by
  have hn : (⟨⟨0, 0, 0, 1⟩, ⟨0, 0, 0, 0⟩⟩ : Line ℝ).Unit := ⟨by simp [dot3], by simp [dot3]⟩
  have e : ((⟨⟨0, 0, 0, 1⟩, ⟨0, 0, 0, 1⟩⟩ : Line ℝ).smul Real.pi) =
      (⟨⟨0, 0, 0, 1⟩, ⟨0, 0, 0, 0⟩⟩ : Line ℝ).scr Real.pi (-Real.pi) := by
    simp [Line.scr, kln, sse]
  rw [e, exp_scr Hw.ideal_exact _ hn, Line.expUV_eq]
  simp [Line.cis]

end Klein
