import Verif.Lemmas.Norm
import Verif.Lemmas.Inj
import Verif.Props.Products
import Verif.Spec.RealLib
import Mathlib.Tactic.FieldSimp

/-!
# The motors around one line

For a unit line `n` (`n * n = -1`) the motors `z + w I`, where the imaginary unit of the complex
numbers `z`, `w` is replaced by `n` and `I = e0123`, are closed under products; `exp` and `log` of the
library are computed inside this copy of the dual complex numbers.
-/

set_option linter.unusedSimpArgs false

namespace Klein

open PGA PGA.MV

/-- `z.re + z.im n + (w.re + w.im n) I`. -/
noncomputable def Line.cis (n : Line ℝ) (z w : ℂ) : Motor ℝ :=
  ⟨⟨z.re, z.im * n.p1.l1, z.im * n.p1.l2, z.im * n.p1.l3⟩,
   ⟨w.re, z.im * n.p2.l1 - w.im * n.p1.l1, z.im * n.p2.l2 - w.im * n.p1.l2,
    z.im * n.p2.l3 - w.im * n.p1.l3⟩⟩

/-- A unit line: its direction is a unit vector and it is simple; equivalently `n * n = -1`. -/
structure Line.Unit (n : Line ℝ) : Prop where
  dir : dot3 n.p1 n.p1 = 1
  mom : dot3 n.p1 n.p2 = 0

theorem Line.unit_iff (n : Line ℝ) : n.Unit ↔ n.mv * n.mv = -1 := by
  have key : n.mv * n.mv = (Dual.mk (-dot3 n.p1 n.p1) (2 * dot3 n.p1 n.p2)).mv := by
    simp only [dot3]; mv_ring
  have key2 : (-1 : MV ℝ) = (Dual.mk (-1 : ℝ) 0).mv := by
    mv_ring
  rw [key, key2]
  constructor
  · intro h; rw [h.dir, h.mom, mul_zero]
  · intro h
    have a := congrArg MV.s h
    have b := congrArg MV.e0123 h
    simp only [Dual.mv] at a b
    exact ⟨by linarith, by linarith⟩

theorem Line.cis_mv (n : Line ℝ) (z w : ℂ) :
    (n.cis z w).mv = z.re • (1 : MV ℝ) + z.im • n.mv +
      (w.re • (1 : MV ℝ) + w.im • n.mv) * (g0 * g1 * g2 * g3) := by
  simp only [Line.cis, g0, g1, g2, g3]; mv_ring

theorem Line.cis_mul {n : Line ℝ} (h : n.Unit) (z w z' w' : ℂ) :
    (n.cis z w).mulMotor (n.cis z' w') = n.cis (z * z') (z * w' + w * z') := by
  have h1 := h.dir
  have h2 := h.mom
  rw [← Motor.mv_inj, C06_motor_mul_motor]
  simp only [dot3] at h1 h2
  apply MV.ext <;> simp only [pga, Line.cis, Complex.add_re, Complex.mul_re, Complex.add_im,
    Complex.mul_im, mul_zero, zero_mul, add_zero, zero_add, sub_zero, zero_sub, neg_zero]
  · linear_combination (-z.im * z'.im) * h1
  · ring
  · ring
  · ring
  · ring
  · ring
  · ring
  · linear_combination (-(z.im * w'.im + w.im * z'.im)) * h1 + (2 * z.im * z'.im) * h2

theorem Line.cis_one (n : Line ℝ) : n.cis 1 0 = ⟨set_ss 1, setzero_ps⟩ := by
  simp [Line.cis, sse]

theorem Line.cis_rev (n : Line ℝ) (z w : ℂ) :
    (n.cis z w).rev = n.cis (starRingEnd ℂ z) (starRingEnd ℂ w) := by
  simp only [Line.cis, kln, sse, Complex.conj_re, Complex.conj_im, cond_true, cond_false,
    Motor.mk.injEq, V4.mk.injEq]
  refine ⟨⟨?_, ?_, ?_, ?_⟩, ?_, ?_, ?_, ?_⟩ <;> first | trivial | ring1

/-- `(u + v I) n`. -/
def Line.scr (n : Line ℝ) (u v : ℝ) : Line ℝ :=
  ⟨⟨0, u * n.p1.l1, u * n.p1.l2, u * n.p1.l3⟩,
   ⟨0, u * n.p2.l1 - v * n.p1.l1, u * n.p2.l2 - v * n.p1.l2, u * n.p2.l3 - v * n.p1.l3⟩⟩

theorem Line.scr_mv (n : Line ℝ) (u v : ℝ) : (n.scr u v).mv = (Dual.mk u v).mv * n.mv := by
  simp only [Line.scr]; mv_ring

theorem Line.scr_smul (n : Line ℝ) (u v t : ℝ) : (n.scr u v).smul t = n.scr (t * u) (t * v) := by
  simp only [Line.scr, kln, sse, Line.mk.injEq, V4.mk.injEq]
  refine ⟨⟨?_, ?_, ?_, ?_⟩, ?_, ?_, ?_, ?_⟩ <;> ring

open Complex in
/-- The dual complex exponential `exp (i (u + v ε)) = (e^{iu}, i v e^{iu})`. -/
noncomputable def Line.expUV (n : Line ℝ) (u v : ℝ) : Motor ℝ :=
  n.cis (Complex.exp (u * I)) (v * I * Complex.exp (u * I))

theorem Line.expUV_eq (n : Line ℝ) (u v : ℝ) : n.expUV u v =
    n.cis ⟨Real.cos u, Real.sin u⟩ ⟨-(v * Real.sin u), v * Real.cos u⟩ := by
  have e1 : Complex.exp (u * Complex.I) = ⟨Real.cos u, Real.sin u⟩ := by
    apply Complex.ext
    · rw [Complex.exp_ofReal_mul_I_re]
    · rw [Complex.exp_ofReal_mul_I_im]
  rw [Line.expUV, e1]
  congr 1
  apply Complex.ext <;> simp

section
variable {hw : Hw ℝ} (hx : hw.Exact) (isa : Isa)

include hx in
theorem rsqrt1_eq {a : ℝ} (ha : 0 < a) : rsqrt1 hw a = (Real.sqrt a)⁻¹ := by
  rw [rsqrt_nr1_exact hw (hx.rsqrtAt ha), hx.rsqrt a ha]

include hx in
theorem rcp1_eq {a : ℝ} (ha : a ≠ 0) : rcp1 hw a = a⁻¹ := by
  rw [rcp_nr1_exact hw (hx.rcpAt ha), hx.rcp a ha]

theorem cmpeq_all_zero (a : V4 ℝ) :
    Libm.real.cmpeq_all a setzero_ps = true ↔ a = setzero_ps := by
  obtain ⟨a0, a1, a2, a3⟩ := a
  simp [Libm.real, sse, and_assoc]

include hx in
/-- The general branch of `exp` on a bivector with non-zero Euclidean part. -/
theorem exp_general_eq (a b : V4 ℝ) (ha : 0 < dot3 a a) (h0 : a.l0 = 0) (hb : b.l0 = 0)
    {r : ℝ} (hr : r = Real.sqrt (dot3 a a)) :
    exp_general hw Libm.real isa a b =
      (⟨Real.cos r, Real.sin r * (a.l1 / r), Real.sin r * (a.l2 / r), Real.sin r * (a.l3 / r)⟩,
       ⟨dot3 a b / r * Real.sin r,
        Real.sin r * (b.l1 / r - a.l1 * dot3 a b / r ^ 3) + dot3 a b / r * Real.cos r * (a.l1 / r),
        Real.sin r * (b.l2 / r - a.l2 * dot3 a b / r ^ 3) + dot3 a b / r * Real.cos r * (a.l2 / r),
        Real.sin r * (b.l3 / r - a.l3 * dot3 a b / r ^ 3) +
          dot3 a b / r * Real.cos r * (a.l3 / r)⟩) := by
  have hpos : 0 < r := hr ▸ Real.sqrt_pos.2 ha
  have hr0 : r ≠ 0 := hpos.ne'
  have hsq : dot3 a a = r ^ 2 := by rw [hr, Real.sq_sqrt ha.le]
  have e1 : rsqrt1 hw (dot3 a a) = r⁻¹ := by rw [rsqrt1_eq hx ha, hr]
  have e2 : rcp1 hw (dot3 a a) = (r ^ 2)⁻¹ := by rw [rcp1_eq hx ha.ne', hsq]
  simp only [exp_general, explog_norm, hi_dp_bc_eq, rsqrt_set1, rcp_set1, e1, e2]
  have hu : r ^ 2 * r⁻¹ = r := by field_simp
  simp only [sse, kln, hsq, h0, hb, Libm.real, hu, Prod.mk.injEq, V4.mk.injEq]
  refine ⟨⟨?_, ?_, ?_, ?_⟩, ?_, ?_, ?_, ?_⟩ <;> field_simp <;> ring

include hx in
/-- `exp` of `(u + v I) n` for a unit line `n`. -/
theorem exp_scr {n : Line ℝ} (h : n.Unit) (u v : ℝ) :
    (n.scr u v).exp hw Libm.real isa = n.expUV u v := by
  have h1 := h.dir
  have h2 := h.mom
  rw [Line.expUV_eq]
  by_cases hu : u = 0
  · subst hu
    have : Libm.real.cmpeq_all (n.scr 0 v).p1 setzero_ps = true := by
      rw [cmpeq_all_zero]; simp [Line.scr, sse]
    simp only [Line.exp, exp_kernel, this, cond_true]
    simp [Line.scr, Line.cis, sse]
  · have hne : Libm.real.cmpeq_all (n.scr u v).p1 setzero_ps = false := by
      rw [← Bool.not_eq_true, cmpeq_all_zero]
      intro hz
      have z1 := congrArg V4.l1 hz
      have z2 := congrArg V4.l2 hz
      have z3 := congrArg V4.l3 hz
      simp only [Line.scr, sse, mul_eq_zero, hu, false_or] at z1 z2 z3
      simp [dot3, z1, z2, z3] at h1
    have ha : dot3 (n.scr u v).p1 (n.scr u v).p1 = u ^ 2 := by
      simp only [Line.scr, dot3] at h1 ⊢; linear_combination u ^ 2 * h1
    have hb : dot3 (n.scr u v).p1 (n.scr u v).p2 = -(u * v) := by
      simp only [Line.scr, dot3] at h1 h2 ⊢; linear_combination (-u * v) * h1 + u ^ 2 * h2
    have hpos : 0 < dot3 (n.scr u v).p1 (n.scr u v).p1 := by rw [ha]; positivity
    have hs : |u| = Real.sqrt (dot3 (n.scr u v).p1 (n.scr u v).p1) := by
      rw [ha, Real.sqrt_sq_eq_abs]
    simp only [Line.exp, exp_kernel, hne, cond_false]
    rw [exp_general_eq hx isa _ _ hpos rfl rfl hs, hb]
    simp only [Line.scr, Line.cis, Motor.mk.injEq, V4.mk.injEq]
    rcases lt_or_gt_of_ne hu with hlt | hgt
    · rw [abs_of_neg hlt, Real.cos_neg, Real.sin_neg]
      refine ⟨⟨?_, ?_, ?_, ?_⟩, ?_, ?_, ?_, ?_⟩ <;> field_simp <;> ring
    · rw [abs_of_pos hgt]
      refine ⟨⟨?_, ?_, ?_, ?_⟩, ?_, ?_, ?_, ?_⟩ <;> field_simp <;> ring

/-- The unit line of a bivector with non-zero Euclidean part. -/
noncomputable def Line.axis (l : Line ℝ) : Line ℝ :=
  let r := Real.sqrt (dot3 l.p1 l.p1)
  let k := dot3 l.p1 l.p2 / r ^ 3
  ⟨⟨0, l.p1.l1 / r, l.p1.l2 / r, l.p1.l3 / r⟩,
   ⟨0, l.p2.l1 / r - k * l.p1.l1, l.p2.l2 / r - k * l.p1.l2, l.p2.l3 / r - k * l.p1.l3⟩⟩

theorem Line.axis_unit (l : Line ℝ) (h : 0 < dot3 l.p1 l.p1) : l.axis.Unit := by
  have hr0 : Real.sqrt (dot3 l.p1 l.p1) ≠ 0 := (Real.sqrt_pos.2 h).ne'
  have hsq : Real.sqrt (dot3 l.p1 l.p1) ^ 2 = dot3 l.p1 l.p1 := Real.sq_sqrt h.le
  constructor
  · rw [Line.axis]
    generalize Real.sqrt (dot3 l.p1 l.p1) = r at *
    simp only [dot3] at hsq ⊢
    field_simp
    linear_combination -hsq
  · rw [Line.axis]
    generalize Real.sqrt (dot3 l.p1 l.p1) = r at *
    simp only [dot3] at hsq ⊢
    field_simp
    linear_combination (l.p1.l1 * l.p2.l1 + l.p1.l2 * l.p2.l2 + l.p1.l3 * l.p2.l3) * hsq

theorem Line.eq_scr (l : Line ℝ) (wl : l.WF) (h : 0 < dot3 l.p1 l.p1) :
    l = l.axis.scr (Real.sqrt (dot3 l.p1 l.p1))
      (-(dot3 l.p1 l.p2 / Real.sqrt (dot3 l.p1 l.p1))) := by
  have hr0 : Real.sqrt (dot3 l.p1 l.p1) ≠ 0 := (Real.sqrt_pos.2 h).ne'
  obtain ⟨w1, w2⟩ := wl
  apply Line.ext <;> simp only [Line.axis, Line.scr] <;> apply V4.ext <;>
    simp only [w1, w2] <;> generalize Real.sqrt (dot3 l.p1 l.p1) = r at * <;> field_simp <;> ring

end

end Klein
