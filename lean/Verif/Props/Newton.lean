import Verif.Lemmas.Norm

/-!
# C23: the Newton-refined reciprocal and reciprocal square root
-/

set_option linter.unusedSimpArgs false

namespace Klein

section Exact
variable {K : Type} [CommRing K]

/-- C23: if the estimate has relative error `δ` then the refined reciprocal has relative error
exactly `-δ²`, in every lane. -/
theorem C23_rcp (hw : Hw K) (v : V4 K) (i : Fin 4) (δ : K)
    (h : v.get i * hw.rcp (v.get i) = 1 + δ) :
    v.get i * (rcp_nr1 hw v).get i = 1 - δ ^ 2 := by
  rw [rcp_nr1_map]
  have key : ∀ a : K, a * hw.rcp a = 1 + δ → a * rcp1 hw a = 1 - δ ^ 2 := fun a ha => by
    simp only [rcp1]
    linear_combination (1 - δ - a * hw.rcp a) * ha
  fin_cases i <;> exact key _ h

/-- C23: an exact reciprocal estimate is a fixed point. -/
theorem C23_rcp_exact (hw : Hw K) (v : V4 K) (i : Fin 4) (h : v.get i * hw.rcp (v.get i) = 1) :
    (rcp_nr1 hw v).get i = hw.rcp (v.get i) := by
  rw [rcp_nr1_map]
  fin_cases i <;> exact rcp_nr1_exact hw h
end Exact

section Field
variable {K : Type} [Field K] [CharZero K]

/-- C23: if `s² = a` and the estimate of `1/s` has relative error `δ` then the refined value has
relative error exactly `-(3/2) δ² - δ³/2`, in every lane. -/
theorem C23_rsqrt (hw : Hw K) (v : V4 K) (i : Fin 4) (s δ : K) (hs : s * s = v.get i)
    (h : s * hw.rsqrt (v.get i) = 1 + δ) :
    s * (rsqrt_nr1 hw v).get i = 1 - 3 / 2 * δ ^ 2 - δ ^ 3 / 2 := by
  rw [rsqrt_nr1_map]
  have key : ∀ a : K, s * s = a → s * hw.rsqrt a = 1 + δ →
      s * rsqrt1 hw a = 1 - 3 / 2 * δ ^ 2 - δ ^ 3 / 2 := fun a h1 h2 => by
    have e : s * rsqrt1 hw a = 1 / 2 * (s * hw.rsqrt a) * (3 - (s * hw.rsqrt a) ^ 2) := by
      simp only [rsqrt1]; rw [← h1]; ring
    rw [e, h2]; ring
  fin_cases i <;> exact key _ hs h

/-- C23: the refined square root has the same relative error. -/
theorem C23_sqrt (hw : Hw K) (v : V4 K) (i : Fin 4) (s δ : K) (hs : s * s = v.get i)
    (h : s * hw.rsqrt (v.get i) = 1 + δ) :
    (sqrt_nr1 hw v).get i = s * (1 - 3 / 2 * δ ^ 2 - δ ^ 3 / 2) := by
  have e : (sqrt_nr1 hw v).get i = v.get i * (rsqrt_nr1 hw v).get i := by
    fin_cases i <;> rfl
  rw [e, ← C23_rsqrt hw v i s δ hs h, ← hs]; ring

/-- C23: an exact reciprocal square root estimate is a fixed point. -/
theorem C23_rsqrt_exact (hw : Hw K) (v : V4 K) (i : Fin 4) (h : hw.RsqrtAt (v.get i)) :
    (rsqrt_nr1 hw v).get i = hw.rsqrt (v.get i) := by
  rw [rsqrt_nr1_map]
  fin_cases i <;> exact rsqrt_nr1_exact hw h
end Field

section Bounds

/-- C23: with the documented estimate accuracy the refined reciprocal is accurate to `1.4e-7`, and
never too large. -/
theorem C23_rcp_bound (hw : Hw ℝ) (hc : hw.Contract) (v : V4 ℝ) (i : Fin 4) (h : v.get i ≠ 0) :
    1 - 1.4e-7 ≤ v.get i * (rcp_nr1 hw v).get i ∧ v.get i * (rcp_nr1 hw v).get i ≤ 1 := by
  have hb := hc.rcp _ h
  have := C23_rcp hw v i (v.get i * hw.rcp (v.get i) - 1) (by ring)
  rw [this]
  generalize v.get i * hw.rcp (v.get i) - 1 = δ at hb
  obtain ⟨h1, h2⟩ := abs_le.1 hb
  constructor <;> nlinarith

/-- C23: with the documented estimate accuracy the refined reciprocal square root is accurate to
`2.1e-7`, and never too large. -/
theorem C23_rsqrt_bound (hw : Hw ℝ) (hc : hw.Contract) (v : V4 ℝ) (i : Fin 4) (h : 0 < v.get i) :
    1 - 2.1e-7 ≤ Real.sqrt (v.get i) * (rsqrt_nr1 hw v).get i ∧
      Real.sqrt (v.get i) * (rsqrt_nr1 hw v).get i ≤ 1 := by
  have hb := hc.rsqrt _ h
  have := C23_rsqrt hw v i (Real.sqrt (v.get i)) (Real.sqrt (v.get i) * hw.rsqrt (v.get i) - 1)
    (Real.mul_self_sqrt h.le) (by ring)
  rw [this]
  generalize Real.sqrt (v.get i) * hw.rsqrt (v.get i) - 1 = δ at hb
  obtain ⟨h1, h2⟩ := abs_le.1 hb
  have h3 : δ ^ 2 ≤ (3 / 2 / 4096) ^ 2 := by nlinarith
  have h4 : 0 ≤ δ ^ 2 * (3 / 2 / 4096 - δ) := mul_nonneg (sq_nonneg _) (by linarith)
  have h5 : 0 ≤ δ ^ 2 * (3 / 2 / 4096 + δ) := mul_nonneg (sq_nonneg _) (by linarith)
  constructor <;> nlinarith

end Bounds

example : Hw.worst.Contract := Hw.worst_contract
/-- The bound is attained up to the third digit: the refined reciprocal is really inexact. -/
example : (2 : ℝ) * (rcp_nr1 Hw.worst (set1_ps 2)).l0 = 1 - (3 / 2 / 4096) ^ 2 :=
  C23_rcp Hw.worst (set1_ps 2) 0 (3 / 2 / 4096) (by
    show (2 : ℝ) * ((1 + 3 / 2 / 4096) * 2⁻¹) = _; ring)

end Klein
