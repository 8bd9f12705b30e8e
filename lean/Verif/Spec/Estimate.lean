import Mathlib.Analysis.SpecialFunctions.Pow.Real
import Mathlib.Analysis.SpecialFunctions.Sqrt
import Verif.Simd

/-!
# Contracts for the hardware estimates

`_mm_rcp_ps` and `_mm_rsqrt_ps` are parameters of the model.  Statements in exact arithmetic assume
that the estimate is exact at the operand in question; the quantitative statements (C23, C24) assume
only a relative error bound.
-/

namespace Klein

variable {K : Type} [CommRing K]

/-- The reciprocal estimate is exact at `a` (in particular `a` is invertible). -/
def Hw.RcpAt (hw : Hw K) (a : K) : Prop := a * hw.rcp a = 1

/-- The reciprocal square root estimate is exact up to sign at `a`. -/
def Hw.RsqrtAt (hw : Hw K) (a : K) : Prop := a * (hw.rsqrt a * hw.rsqrt a) = 1

/-- The relative error of the reciprocal estimate at `a` is `δ`. -/
def Hw.RcpErr (hw : Hw K) (a δ : K) : Prop := a * hw.rcp a = 1 + δ

/-- Exact real estimates. -/
noncomputable def Hw.ideal : Hw ℝ := ⟨fun a => a⁻¹, fun a => (Real.sqrt a)⁻¹⟩

theorem Hw.ideal_rcpAt {a : ℝ} (h : a ≠ 0) : Hw.ideal.RcpAt a := mul_inv_cancel₀ h

theorem Hw.ideal_rsqrtAt {a : ℝ} (h : 0 < a) : Hw.ideal.RsqrtAt a := by
  have h1 : Real.sqrt a * Real.sqrt a = a := Real.mul_self_sqrt h.le
  have h2 : Real.sqrt a ≠ 0 := (Real.sqrt_pos.2 h).ne'
  simp only [Hw.RsqrtAt, Hw.ideal]
  field_simp
  nlinarith

/-- The documented accuracy of the estimate instructions (x86_sse.hpp:84, 98; Intel manual): relative
error at most `1.5 * 2^-12` on non-zero, respectively positive, operands. -/
structure Hw.Contract (hw : Hw ℝ) : Prop where
  rcp : ∀ a, a ≠ 0 → |a * hw.rcp a - 1| ≤ 3 / 2 / 4096
  rsqrt : ∀ a, 0 < a → |Real.sqrt a * hw.rsqrt a - 1| ≤ 3 / 2 / 4096

theorem Hw.ideal_contract : Hw.ideal.Contract where
  rcp a h := by simp only [Hw.ideal, mul_inv_cancel₀ h]; norm_num
  rsqrt a h := by
    simp only [Hw.ideal, mul_inv_cancel₀ (Real.sqrt_pos.2 h).ne']; norm_num

/-- An estimate that is off by the largest admissible error everywhere. -/
noncomputable def Hw.worst : Hw ℝ :=
  ⟨fun a => (1 + 3 / 2 / 4096) * a⁻¹, fun a => (1 + 3 / 2 / 4096) * (Real.sqrt a)⁻¹⟩

theorem Hw.worst_contract : Hw.worst.Contract where
  rcp a h := by
    have : a * ((1 + 3 / 2 / 4096) * a⁻¹) = (1 + 3 / 2 / 4096 : ℝ) := by field_simp
    simp only [Hw.worst, this]; norm_num
  rsqrt a h := by
    have h2 : Real.sqrt a ≠ 0 := (Real.sqrt_pos.2 h).ne'
    have : Real.sqrt a * ((1 + 3 / 2 / 4096) * (Real.sqrt a)⁻¹) = (1 + 3 / 2 / 4096 : ℝ) := by
      field_simp
    simp only [Hw.worst, this]; norm_num

/-- Exact rational estimates, usable in concrete evaluations: the reciprocal is exact everywhere
but at 0, the reciprocal square root at 1, 4, 9, 1/4. -/
def Hw.rat : Hw ℚ :=
  ⟨fun a => a⁻¹, fun a => if a = 1 then 1 else if a = 4 then 1 / 2 else if a = 9 then 1 / 3
    else if a = 1 / 4 then 2 else if a = 25 then 1 / 5 else if a = 49 then 1 / 7 else 0⟩

end Klein
