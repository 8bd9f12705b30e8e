import Verif.Float.Trig
import Mathlib.Analysis.Complex.Exponential
import Mathlib.Analysis.SpecialFunctions.Trigonometric.Bounds
import Mathlib.Analysis.SpecialFunctions.Trigonometric.Inverse
import Mathlib.Analysis.SpecialFunctions.Complex.Arg
import Mathlib.Analysis.Real.Pi.Bounds

/-!
# Accuracy of the reference implementation of `<cmath>`
-/

namespace Klein.F32

open Finset

/-- The Horner form is the series. -/
theorem cosH_sum (y : ℚ) (n k : ℕ) :
    cosH y n k = ∑ j ∈ range (n + 1), (-y) ^ j * (2 * k).factorial / (2 * k + 2 * j).factorial := by
  induction n generalizing k with
  | zero => simp [cosH, Nat.factorial_ne_zero]
  | succ n ih =>
    rw [cosH, ih, sum_range_succ' _ (n + 1), mul_sum, sub_eq_add_neg, ← sum_neg_distrib, add_comm]
    congr 1
    · refine sum_congr rfl fun j _ => ?_
      have e : 2 * (k + 1) + 2 * j = 2 * k + 2 * (j + 1) := by ring
      have f : ((2 * (k + 1)).factorial : ℚ) = (2 * k + 1) * (2 * k + 2) * (2 * k).factorial := by
        rw [show 2 * (k + 1) = 2 * k + 1 + 1 by ring, Nat.factorial_succ, Nat.factorial_succ]; push_cast; ring
      have h0 : ((2 * k + 2 * (j + 1)).factorial : ℚ) ≠ 0 := by exact_mod_cast Nat.factorial_ne_zero _
      have h1 : ((2 * k + 1 : ℚ)) ≠ 0 := by positivity
      have h2 : ((2 * k + 2 : ℚ)) ≠ 0 := by positivity
      rw [e, f]; field_simp; ring
    · simp [Nat.factorial_ne_zero]

theorem sinH_sum (y : ℚ) (n k : ℕ) :
    sinH y n k = ∑ j ∈ range (n + 1), (-y) ^ j * (2 * k + 1).factorial / (2 * k + 2 * j + 1).factorial := by
  induction n generalizing k with
  | zero => simp [sinH, Nat.factorial_ne_zero]
  | succ n ih =>
    rw [sinH, ih, sum_range_succ' _ (n + 1), mul_sum, sub_eq_add_neg, ← sum_neg_distrib, add_comm]
    congr 1
    · refine sum_congr rfl fun j _ => ?_
      have e : 2 * (k + 1) + 2 * j + 1 = 2 * k + 2 * (j + 1) + 1 := by ring
      have f : ((2 * (k + 1) + 1).factorial : ℚ) = (2 * k + 2) * (2 * k + 3) * (2 * k + 1).factorial := by
        rw [show 2 * (k + 1) + 1 = 2 * k + 1 + 1 + 1 by ring, Nat.factorial_succ (2 * k + 1 + 1),
          Nat.factorial_succ (2 * k + 1)]; push_cast; ring
      have h0 : ((2 * k + 2 * (j + 1) + 1).factorial : ℚ) ≠ 0 := by exact_mod_cast Nat.factorial_ne_zero _
      have h1 : ((2 * k + 2 : ℚ)) ≠ 0 := by positivity
      have h2 : ((2 * k + 3 : ℚ)) ≠ 0 := by positivity
      rw [e, f]; field_simp; ring
    · simp [Nat.factorial_ne_zero]

theorem exp_sum (x : ℚ) (n : ℕ) :
    ∑ m ∈ range (2 * (n + 1)), ((x : ℂ) * Complex.I) ^ m / (m.factorial : ℂ) =
      (cosH (x * x) n 0 : ℂ) + ((x * sinH (x * x) n 0 : ℚ) : ℂ) * Complex.I := by
  have key : ∀ n, ∑ m ∈ range (2 * n), ((x : ℂ) * Complex.I) ^ m / (m.factorial : ℂ) =
      (∑ j ∈ range n, (-((x : ℂ) * x)) ^ j / ((2 * j).factorial : ℂ)) +
      (x * ∑ j ∈ range n, (-((x : ℂ) * x)) ^ j / ((2 * j + 1).factorial : ℂ)) * Complex.I := by
    intro n
    induction n with
    | zero => simp
    | succ n ih =>
      rw [show 2 * (n + 1) = 2 * n + 1 + 1 by ring, sum_range_succ, sum_range_succ, ih, sum_range_succ,
        sum_range_succ]
      have h : ((x : ℂ) * Complex.I) ^ (2 * n) = (-((x : ℂ) * x)) ^ n := by
        rw [pow_mul, mul_pow, Complex.I_sq]; ring
      rw [pow_succ, h]; ring
  rw [key, cosH_sum, sinH_sum]
  push_cast
  simp

/-- The series of the exponential gives both error bounds. -/
theorem cosQ_sinQ_err {x : ℚ} (hx : |x| ≤ 4) :
    |(cosQ x : ℝ) - Real.cos x| ≤ |(x : ℝ)| ^ 28 / 2 ^ 96 ∧ |(sinQ x : ℝ) - Real.sin x| ≤ |(x : ℝ)| ^ 28 / 2 ^ 96 := by
  have hx' : |(x : ℝ)| ≤ 4 := by exact_mod_cast hx
  have hn : ‖((x : ℂ) * Complex.I)‖ = |(x : ℝ)| := by
    rw [norm_mul, Complex.norm_I, mul_one]
    rw [show (x : ℂ) = ((x : ℝ) : ℂ) by push_cast; rfl, Complex.norm_real, Real.norm_eq_abs]
  have b := Complex.exp_bound' (x := (x : ℂ) * Complex.I) (n := 28) (by
    rw [hn]; push_cast; rw [div_le_iff₀ (by norm_num)]; linarith)
  rw [hn, show (28 : ℕ) = 2 * (13 + 1) by norm_num, exp_sum] at b
  have e : Complex.exp ((x : ℂ) * Complex.I) = (Real.cos x : ℂ) + (Real.sin x : ℂ) * Complex.I := by
    rw [Complex.exp_mul_I]; push_cast; rfl
  have b2 : |(x : ℝ)| ^ (2 * (13 + 1)) / ((2 * (13 + 1)).factorial : ℝ) * 2 ≤ |(x : ℝ)| ^ 28 / 2 ^ 96 := by
    have f : ((2 * (13 + 1)).factorial : ℝ) = 304888344611713860501504000000 := by
      norm_num [Nat.factorial]
    rw [f, div_mul_eq_mul_div, div_le_div_iff₀ (by norm_num) (by norm_num)]
    have : 0 ≤ |(x : ℝ)| ^ 28 := by positivity
    norm_num
    nlinarith
  have b3 := b.trans b2
  have e2 : Complex.exp ((x : ℂ) * Complex.I) -
      ((cosH (x * x) 13 0 : ℂ) + ((x * sinH (x * x) 13 0 : ℚ) : ℂ) * Complex.I) =
      ((Real.cos x - (cosQ x : ℝ) : ℝ) : ℂ) + ((Real.sin x - (sinQ x : ℝ) : ℝ) : ℂ) * Complex.I := by
    rw [e, cosQ, sinQ]; push_cast; ring
  rw [e2] at b3
  constructor
  · refine le_trans ?_ b3
    refine le_trans (le_of_eq ?_) (Complex.abs_re_le_norm _)
    rw [abs_sub_comm, Complex.add_re, Complex.re_ofReal_mul, Complex.I_re, mul_zero, add_zero, Complex.ofReal_re]
  · refine le_trans ?_ b3
    refine le_trans (le_of_eq ?_) (Complex.abs_im_le_norm _)
    rw [abs_sub_comm, Complex.add_im, Complex.im_ofReal_mul, Complex.I_im, mul_one, Complex.ofReal_im, zero_add]

theorem cosQ_err {x : ℚ} (hx : |x| ≤ 4) : |(cosQ x : ℝ) - Real.cos x| ≤ 1 / 2 ^ 40 := by
  refine (cosQ_sinQ_err hx).1.trans ?_
  have hx' : |(x : ℝ)| ≤ 4 := by exact_mod_cast hx
  have := pow_le_pow_left₀ (abs_nonneg (x : ℝ)) hx' 28
  rw [div_le_div_iff₀ (by norm_num) (by norm_num)]
  norm_num at this ⊢
  linarith

theorem sinQ_err {x : ℚ} (hx : |x| ≤ 4) : |(sinQ x : ℝ) - Real.sin x| ≤ |(x : ℝ)| / 2 ^ 42 := by
  refine (cosQ_sinQ_err hx).2.trans ?_
  have hx' : |(x : ℝ)| ≤ 4 := by exact_mod_cast hx
  have := pow_le_pow_left₀ (abs_nonneg (x : ℝ)) hx' 27
  rw [div_le_div_iff₀ (by norm_num) (by norm_num), pow_succ]
  have h0 := abs_nonneg (x : ℝ)
  norm_num at this ⊢
  nlinarith

theorem piLow_lt : (piLow : ℝ) < Real.pi := by
  have := Real.pi_gt_d20
  unfold piLow; push_cast; linarith

theorem piLow_gt : (3 : ℝ) < piLow := by unfold piLow; norm_num

/-- The accepted arc cosines are accurate. -/
theorem acosQ_err {x t : ℚ} (h : acosQ x = some t) : |(t : ℝ) - Real.arccos x| ≤ 1 / 2 ^ 34 := by
  unfold acosQ at h
  simp only at h
  split at h
  swap
  · simp at h
  rename_i hc
  simp only [Option.some.injEq] at h
  rw [h] at hc
  clear h
  obtain ⟨h1, h2, h3, h4⟩ := hc
  have hp := piLow_lt
  have hpl : piLow < 4 := by unfold piLow; norm_num
  have e1 := cosQ_err (x := t - 1 / 2 ^ 34) (by rw [abs_of_pos h1]; linarith)
  have e2 := cosQ_err (x := t + 1 / 2 ^ 34) (by rw [abs_of_pos (by linarith)]; linarith)
  have h1' : (0 : ℝ) < t - 1 / 2 ^ 34 := by
    have := (Rat.cast_lt (K := ℝ)).2 h1
    push_cast at this; exact this
  have h2' : (t : ℝ) + 1 / 2 ^ 34 < piLow := by
    have := (Rat.cast_lt (K := ℝ)).2 h2
    push_cast at this; exact this
  have h3' : (x : ℝ) + 1 / 2 ^ 40 < cosQ (t - 1 / 2 ^ 34) := by
    have := (Rat.cast_lt (K := ℝ)).2 h3
    push_cast at this; exact this
  have h4' : (cosQ (t + 1 / 2 ^ 34) : ℝ) < x - 1 / 2 ^ 40 := by
    have := (Rat.cast_lt (K := ℝ)).2 h4
    push_cast at this; exact this
  push_cast at e1 e2
  have g1 : (x : ℝ) < Real.cos (t - 1 / 2 ^ 34) := by have := (abs_le.1 e1).2; linarith
  have g2 : Real.cos (t + 1 / 2 ^ 34) < (x : ℝ) := by have := (abs_le.1 e2).1; linarith
  have a1 : (x : ℝ) ≤ 1 := g1.le.trans (Real.cos_le_one _)
  have a2 : -1 ≤ (x : ℝ) := (Real.neg_one_le_cos _).trans g2.le
  have ha := Real.cos_arccos a2 a1
  rw [abs_le]
  constructor
  · by_contra hn
    push Not at hn
    have := Real.cos_le_cos_of_nonneg_of_le_pi (x := t + 1 / 2 ^ 34) (y := Real.arccos x)
      (by linarith) (Real.arccos_le_pi _) (by linarith)
    linarith
  · by_contra hn
    push Not at hn
    have := Real.cos_le_cos_of_nonneg_of_le_pi (x := Real.arccos x) (y := t - 1 / 2 ^ 34)
      (Real.arccos_nonneg _) (by linarith) (by linarith)
    linarith

/-- The accepted arc sines are accurate. -/
theorem asinQ_err {x t : ℚ} (h : asinQ x = some t) : |(t : ℝ) - Real.arcsin x| ≤ 1 / 2 ^ 34 := by
  unfold asinQ at h
  simp only at h
  split at h
  swap
  · simp at h
  rename_i hc
  simp only [Option.some.injEq] at h
  rw [h] at hc
  clear h
  obtain ⟨h1, h2, h3, h4⟩ := hc
  have hp := piLow_lt
  have hpl : piLow < 4 := by unfold piLow; norm_num
  have b1 : |t - 1 / 2 ^ 34| ≤ 2 := abs_le.2 ⟨by linarith, by linarith⟩
  have b2 : |t + 1 / 2 ^ 34| ≤ 2 := abs_le.2 ⟨by linarith, by linarith⟩
  have e1 := sinQ_err (x := t - 1 / 2 ^ 34) (b1.trans (by norm_num))
  have e2 := sinQ_err (x := t + 1 / 2 ^ 34) (b2.trans (by norm_num))
  have b1' : |((t - 1 / 2 ^ 34 : ℚ) : ℝ)| ≤ 2 := by exact_mod_cast b1
  have b2' : |((t + 1 / 2 ^ 34 : ℚ) : ℝ)| ≤ 2 := by exact_mod_cast b2
  have h1' : -((piLow : ℝ) / 2) < t - 1 / 2 ^ 34 := by
    have := (Rat.cast_lt (K := ℝ)).2 h1
    push_cast at this; exact this
  have h2' : (t : ℝ) + 1 / 2 ^ 34 < piLow / 2 := by
    have := (Rat.cast_lt (K := ℝ)).2 h2
    push_cast at this; exact this
  have h3' : (sinQ (t - 1 / 2 ^ 34) : ℝ) < x - 1 / 2 ^ 40 := by
    have := (Rat.cast_lt (K := ℝ)).2 h3
    push_cast at this; exact this
  have h4' : (x : ℝ) + 1 / 2 ^ 40 < sinQ (t + 1 / 2 ^ 34) := by
    have := (Rat.cast_lt (K := ℝ)).2 h4
    push_cast at this; exact this
  have e1' := e1.trans (show _ ≤ (1 : ℝ) / 2 ^ 40 by
    rw [div_le_div_iff₀ (by norm_num) (by norm_num)]; norm_num at b1' ⊢; linarith)
  have e2' := e2.trans (show _ ≤ (1 : ℝ) / 2 ^ 40 by
    rw [div_le_div_iff₀ (by norm_num) (by norm_num)]; norm_num at b2' ⊢; linarith)
  clear e1 e2 b1' b2'
  push_cast at e1' e2'
  have g1 : Real.sin (t - 1 / 2 ^ 34) < (x : ℝ) := by have := (abs_le.1 e1').1; linarith
  have g2 : (x : ℝ) < Real.sin (t + 1 / 2 ^ 34) := by have := (abs_le.1 e2').2; linarith
  have a1 : (x : ℝ) ≤ 1 := g2.le.trans (Real.sin_le_one _)
  have a2 : -1 ≤ (x : ℝ) := (Real.neg_one_le_sin _).trans g1.le
  have ha := Real.sin_arcsin a2 a1
  rw [abs_le]
  constructor
  · by_contra hn
    push Not at hn
    have := Real.sin_le_sin_of_le_of_le_pi_div_two (x := t + 1 / 2 ^ 34) (y := Real.arcsin x)
      (by linarith) (Real.arcsin_le_pi_div_two _) (by linarith)
    linarith
  · by_contra hn
    push Not at hn
    have := Real.sin_le_sin_of_le_of_le_pi_div_two (x := Real.arcsin x) (y := t - 1 / 2 ^ 34)
      (Real.neg_pi_div_two_le_arcsin _) (by linarith) (by linarith)
    linarith

/-- A small tangent and no wrap-around: the difference of two angles is small. -/
theorem small_angle {δ : ℝ} (h2 : |δ| ≤ 2 * Real.pi - 1 / 2 ^ 20)
    (hs : |Real.sin δ| ≤ 1 / 2 ^ 36) (hc : -(1 / 2 ^ 36) ≤ Real.cos δ) : |δ| ≤ 1 / 2 ^ 35 := by
  have hs' : |Real.sin (|δ|)| ≤ 1 / 2 ^ 36 := by
    rcases abs_cases δ with ⟨h, _⟩ | ⟨h, _⟩ <;> rw [h]
    · exact hs
    · rw [Real.sin_neg, abs_neg]; exact hs
  rw [← Real.cos_abs] at hc
  have h0 := abs_nonneg δ
  generalize |δ| = a at *
  have p1 := Real.pi_gt_three
  have p2 := Real.pi_lt_four
  have hs1 := abs_le.1 hs'
  by_contra hn
  push Not at hn
  have quarter : ∀ b : ℝ, 0 ≤ b → b ≤ Real.pi / 2 → b / 2 ≤ Real.sin b := by
    intro b hb0 hb1
    refine le_trans ?_ (Real.mul_le_sin hb0 hb1)
    rw [div_mul_eq_mul_div, div_le_div_iff₀ (by norm_num) (by linarith)]
    nlinarith
  rcases le_or_gt a (Real.pi / 2) with ha | ha
  · have := quarter a h0 ha
    norm_num at *
    linarith
  rcases le_or_gt a (Real.pi + Real.pi / 2) with hb | hb
  · have c1 := Real.cos_nonpos_of_pi_div_two_le_of_le ha.le hb
    have c2 := Real.sin_sq_add_cos_sq a
    have c3 : Real.cos a ^ 2 ≤ (1 / 2 ^ 36) ^ 2 := by
      rw [← sq_abs (Real.cos a)]
      refine pow_le_pow_left₀ (abs_nonneg _) ?_ 2
      rw [abs_of_nonpos c1]; linarith
    have c4 : Real.sin a ^ 2 ≤ (1 / 2 ^ 36) ^ 2 := by
      rw [← sq_abs (Real.sin a)]
      exact pow_le_pow_left₀ (abs_nonneg _) hs' 2
    norm_num at c3 c4
    linarith
  · have := quarter (2 * Real.pi - a) (by linarith [show (0 : ℝ) < 1 / 2 ^ 20 by norm_num]) (by linarith)
    rw [Real.sin_two_pi_sub] at this
    norm_num at *
    linarith

/-- The accepted angles are accurate. -/
theorem angle_err {x y t : ℚ} (h : angle y x = some t) :
    |(t : ℝ) - Complex.arg ⟨x, y⟩| ≤ 1 / 2 ^ 35 := by
  unfold angle at h
  simp only at h
  split at h
  swap
  · simp at h
  rename_i hc
  simp only [Option.some.injEq] at h
  rw [h] at hc
  clear h
  obtain ⟨h1, h2, h3⟩ := hc
  have hp := piLow_lt
  have hpl : piLow < 4 := by unfold piLow; norm_num
  have ht : |t| ≤ 4 := by linarith [show (0 : ℚ) < 1 / 2 ^ 20 by norm_num]
  have ht' : |(t : ℝ)| ≤ 4 := by exact_mod_cast ht
  have e1 := cosQ_err ht
  have e2 : |(sinQ t : ℝ) - Real.sin t| ≤ 1 / 2 ^ 40 := (sinQ_err ht).trans (by
    rw [div_le_div_iff₀ (by norm_num) (by norm_num)]; norm_num; linarith)
  have h1' : |(t : ℝ)| ≤ piLow - 1 / 2 ^ 20 := by
    have := (Rat.cast_le (K := ℝ)).2 h1
    push_cast at this; exact this
  have h2' : (0 : ℝ) < x * cosQ t + y * sinQ t := by exact_mod_cast h2
  have h3' : |(y : ℝ) * cosQ t - x * sinQ t| ≤ 1 / 2 ^ 38 * (x * cosQ t + y * sinQ t) := by
    have := (Rat.cast_le (K := ℝ)).2 h3
    push_cast at this; exact this
  clear h1 h2 h3 ht ht' hpl
  generalize (cosQ t : ℝ) = c at *
  generalize (sinQ t : ℝ) = s at *
  generalize hz : (⟨x, y⟩ : ℂ) = z
  have hzx : (x : ℝ) = ‖z‖ * Real.cos z.arg := by rw [Complex.norm_mul_cos_arg, ← hz]
  have hzy : (y : ℝ) = ‖z‖ * Real.sin z.arg := by rw [Complex.norm_mul_sin_arg, ← hz]
  have hr0 : 0 ≤ ‖z‖ := norm_nonneg z
  have ha1 := Complex.neg_pi_lt_arg z
  have ha2 := Complex.arg_le_pi z
  rw [hzx, hzy] at h2' h3'
  clear hzx hzy hz
  generalize ‖z‖ = ρ at *
  generalize z.arg = α at *
  generalize (t : ℝ) = τ at *
  have hρ : 0 < ρ := by
    rcases hr0.lt_or_eq with h | h
    · exact h
    · rw [← h] at h2'; simp at h2'
  have h2'' : 0 < Real.cos α * c + Real.sin α * s := by
    have : 0 < ρ * (Real.cos α * c + Real.sin α * s) := by linarith
    exact (mul_pos_iff_of_pos_left hρ).1 this
  have h3'' : |Real.sin α * c - Real.cos α * s| ≤ 1 / 2 ^ 38 * (Real.cos α * c + Real.sin α * s) := by
    have : ρ * |Real.sin α * c - Real.cos α * s| ≤ ρ * (1 / 2 ^ 38 * (Real.cos α * c + Real.sin α * s)) := by
      calc ρ * |Real.sin α * c - Real.cos α * s| = |ρ * Real.sin α * c - ρ * Real.cos α * s| := by
            rw [show ρ * Real.sin α * c - ρ * Real.cos α * s = ρ * (Real.sin α * c - Real.cos α * s) by ring,
              abs_mul, abs_of_pos hρ]
        _ ≤ _ := by linarith
    exact le_of_mul_le_mul_left this hρ
  have d1 : Real.cos (τ - α) = Real.cos α * c + Real.sin α * s +
      (Real.cos α * (Real.cos τ - c) + Real.sin α * (Real.sin τ - s)) := by rw [Real.cos_sub]; ring
  have d2 : Real.sin (τ - α) = -(Real.sin α * c - Real.cos α * s) +
      (Real.cos α * (Real.sin τ - s) - Real.sin α * (Real.cos τ - c)) := by rw [Real.sin_sub]; ring
  have bnd : ∀ u v : ℝ, |u| ≤ 1 → |v| ≤ 1 / 2 ^ 40 → |u * v| ≤ 1 / 2 ^ 40 := by
    intro u v hu hv
    rw [abs_mul]
    calc |u| * |v| ≤ 1 * (1 / 2 ^ 40) := mul_le_mul hu hv (abs_nonneg _) (by norm_num)
      _ = _ := one_mul _
  have hcα := Real.abs_cos_le_one α
  have hsα := Real.abs_sin_le_one α
  rw [abs_sub_comm] at e1 e2
  have q1 := abs_le.1 (bnd _ _ hcα e1)
  have q2 := abs_le.1 (bnd _ _ hsα e2)
  have q3 := abs_le.1 (bnd _ _ hcα e2)
  have q4 := abs_le.1 (bnd _ _ hsα e1)
  have hP := Real.cos_le_one (τ - α)
  have k3 := abs_le.1 h3''
  have k1 := abs_le.1 h1'
  refine small_angle ?_ ?_ ?_
  · rw [abs_le]; constructor <;> linarith
  · rw [abs_le, d2]
    norm_num at *
    constructor <;> linarith
  · rw [d1]
    norm_num at *
    linarith

/-- One rounding after an approximation of error `e`. -/
theorem round_near {z : Bool} {q : ℚ} {v e : ℝ} (h4 : |q| ≤ 4) (h : |(q : ℝ) - v| ≤ e) :
    (round z q).isFinite = true ∧ |r (round z q) - v| ≤ |v| / 2 ^ 24 + 2 * e + 1 / 2 ^ 149 := by
  have hf := (round_le_two_pow (z := z) (n := 2) (by norm_num) (by norm_num; exact h4)).1
  refine ⟨hf, ?_⟩
  have h1 : |r (round z q) - (q : ℝ)| ≤ (max minNormal |q| / 2 ^ 24 : ℚ) := by
    have := round_err hf
    unfold r
    exact_mod_cast this
  have h2 : ((max minNormal |q| / 2 ^ 24 : ℚ) : ℝ) ≤ 1 / 2 ^ 150 + |(q : ℝ)| / 2 ^ 24 := by
    have : max minNormal |q| / 2 ^ 24 ≤ 1 / 2 ^ 150 + |q| / 2 ^ 24 := by
      have h0 := abs_nonneg q
      rcases max_cases minNormal |q| with ⟨h, _⟩ | ⟨h, _⟩ <;> rw [h]
      · have : minNormal / 2 ^ 24 = 1 / 2 ^ 150 := by
          unfold minNormal
          rw [div_div, ← pow_add, div_eq_div_iff (by positivity) (by positivity), ← pow_add, one_mul]
        rw [this]
        exact le_add_of_nonneg_right (by positivity)
      · exact le_add_of_nonneg_left (by positivity)
    have := (Rat.cast_le (K := ℝ)).2 this
    push_cast at this
    push_cast
    exact this
  have h3 : |(q : ℝ)| ≤ |v| + e := by
    have := abs_sub_abs_le_abs_sub (q : ℝ) v
    linarith
  have he : 0 ≤ e := (abs_nonneg _).trans h
  have h5 : |(q : ℝ)| / 2 ^ 24 ≤ |v| / 2 ^ 24 + e := by
    rw [div_le_iff₀ (by norm_num), add_mul, div_mul_cancel₀ _ (by norm_num)]
    norm_num
    linarith
  have h6 : (1 : ℝ) / 2 ^ 150 ≤ 1 / 2 ^ 149 := by
    rw [div_le_div_iff₀ (by positivity) (by positivity)]
    exact mul_le_mul_of_nonneg_left (pow_le_pow_right₀ (by norm_num) (by norm_num)) (by norm_num)
  calc |r (round z q) - v| ≤ |r (round z q) - (q : ℝ)| + |(q : ℝ) - v| := abs_sub_le _ _ _
    _ ≤ _ := by linarith

theorem two_pow_149_le : (1 : ℝ) / 2 ^ 149 ≤ 1 / 2 ^ 60 := by
  rw [div_le_div_iff₀ (by positivity) (by positivity)]
  exact mul_le_mul_of_nonneg_left (pow_le_pow_right₀ (by norm_num) (by norm_num)) (by norm_num)

theorem nan_default : defaultNaN.isNaN = true := by decide

theorem sinR_err {x : F32} (h : (sinR x).isNaN = false) :
    |r (sinR x) - Real.sin (r x)| ≤ |Real.sin (r x)| / 2 ^ 24 + 1 / 2 ^ 38 := by
  unfold sinR at h ⊢
  split_ifs at h ⊢ with hc
  · simp only [Bool.and_eq_true, decide_eq_true_eq] at hc
    have hx : |(x.val : ℝ)| ≤ 4 := by exact_mod_cast hc.2
    have e : |(sinQ x.val : ℝ) - Real.sin x.val| ≤ 1 / 2 ^ 40 := (sinQ_err hc.2).trans (by
      rw [div_le_div_iff₀ (by norm_num) (by norm_num)]; norm_num; linarith)
    have e4 : |sinQ x.val| ≤ 4 := by
      have h1 := Real.abs_sin_le_one x.val
      have h2 := abs_sub_abs_le_abs_sub (sinQ x.val : ℝ) (Real.sin x.val)
      have : |(sinQ x.val : ℝ)| ≤ 4 := by
        have : (1 : ℝ) / 2 ^ 40 ≤ 1 := by norm_num
        linarith
      exact_mod_cast this
    have := (round_near (z := x.sign) e4 e).2
    have t := two_pow_149_le
    generalize (1 : ℝ) / 2 ^ 149 = w at *
    unfold r at this ⊢
    norm_num at this t ⊢
    linarith
  · rw [nan_default] at h; cases h

theorem cosR_err {x : F32} (h : (cosR x).isNaN = false) :
    |r (cosR x) - Real.cos (r x)| ≤ |Real.cos (r x)| / 2 ^ 24 + 1 / 2 ^ 38 := by
  unfold cosR at h ⊢
  split_ifs at h ⊢ with hc
  · simp only [Bool.and_eq_true, decide_eq_true_eq] at hc
    have e := cosQ_err hc.2
    have e4 : |cosQ x.val| ≤ 4 := by
      have h1 := Real.abs_cos_le_one x.val
      have h2 := abs_sub_abs_le_abs_sub (cosQ x.val : ℝ) (Real.cos x.val)
      have : |(cosQ x.val : ℝ)| ≤ 4 := by
        have : (1 : ℝ) / 2 ^ 40 ≤ 1 := by norm_num
        linarith
      exact_mod_cast this
    have := (round_near (z := false) e4 e).2
    have t := two_pow_149_le
    generalize (1 : ℝ) / 2 ^ 149 = w at *
    unfold r at this ⊢
    norm_num at this t ⊢
    linarith
  · rw [nan_default] at h; cases h

theorem acosR_err {x : F32} (h : (acosR x).isNaN = false) :
    |r (acosR x) - Real.arccos (r x)| ≤ |Real.arccos (r x)| / 2 ^ 24 + 1 / 2 ^ 32 := by
  unfold acosR at h ⊢
  split_ifs at h ⊢ with hc
  · split at h
    · rename_i t ht
      have e := acosQ_err ht
      have e4 : |t| ≤ 4 := by
        have h1 := Real.arccos_nonneg (x.val : ℝ)
        have h2 := Real.arccos_le_pi (x.val : ℝ)
        have h3 := Real.pi_lt_d2
        have : |(t : ℝ)| ≤ 4 := by
          have : (1 : ℝ) / 2 ^ 34 ≤ 1 / 10 := by norm_num
          have := abs_le.1 e
          rw [abs_le]; constructor <;> linarith
        exact_mod_cast this
      have := (round_near (z := false) e4 e).2
      have t := two_pow_149_le
      generalize (1 : ℝ) / 2 ^ 149 = w at *
      unfold r at this ⊢
      norm_num at this t ⊢
      linarith
    · rw [nan_default] at h; cases h
  · rw [nan_default] at h; cases h

theorem asinR_err {x : F32} (h : (asinR x).isNaN = false) :
    |r (asinR x) - Real.arcsin (r x)| ≤ |Real.arcsin (r x)| / 2 ^ 24 + 1 / 2 ^ 32 := by
  unfold asinR at h ⊢
  split_ifs at h ⊢ with hc
  · split at h
    · rename_i t ht
      have e := asinQ_err ht
      have e4 : |t| ≤ 4 := by
        have h1 := Real.neg_pi_div_two_le_arcsin (x.val : ℝ)
        have h2 := Real.arcsin_le_pi_div_two (x.val : ℝ)
        have h3 := Real.pi_lt_d2
        have : |(t : ℝ)| ≤ 4 := by
          have : (1 : ℝ) / 2 ^ 34 ≤ 1 / 10 := by norm_num
          have := abs_le.1 e
          rw [abs_le]; constructor <;> linarith
        exact_mod_cast this
      have := (round_near (z := x.sign) e4 e).2
      have t := two_pow_149_le
      generalize (1 : ℝ) / 2 ^ 149 = w at *
      unfold r at this ⊢
      norm_num at this t ⊢
      linarith
    · rw [nan_default] at h; cases h
  · rw [nan_default] at h; cases h

theorem atan2R_err {x y : F32} (h : (atan2R y x).isNaN = false) :
    |r (atan2R y x) - Complex.arg ⟨r x, r y⟩| ≤ |Complex.arg ⟨r x, r y⟩| / 2 ^ 24 + 1 / 2 ^ 33 := by
  unfold atan2R at h ⊢
  split_ifs at h ⊢ with hc
  · split at h
    · rename_i t ht
      have e := angle_err ht
      have e4 : |t| ≤ 4 := by
        have h1 := Complex.abs_arg_le_pi ⟨x.val, y.val⟩
        have h3 := Real.pi_lt_d2
        have : |(t : ℝ)| ≤ 4 := by
          have : (1 : ℝ) / 2 ^ 35 ≤ 1 / 10 := by norm_num
          have := abs_sub_abs_le_abs_sub (t : ℝ) (Complex.arg ⟨x.val, y.val⟩)
          linarith
        exact_mod_cast this
      have := (round_near (z := y.sign) e4 e).2
      have t := two_pow_149_le
      generalize (1 : ℝ) / 2 ^ 149 = w at *
      unfold r at this ⊢
      norm_num at this t ⊢
      linarith
    · rw [nan_default] at h; cases h
  · rw [nan_default] at h; cases h

end Klein.F32
