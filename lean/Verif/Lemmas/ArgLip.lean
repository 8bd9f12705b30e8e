import Mathlib.Analysis.SpecialFunctions.Complex.Arg
import Mathlib.Analysis.SpecialFunctions.Trigonometric.Arctan
import Mathlib.Analysis.SpecialFunctions.Trigonometric.Bounds
import Mathlib.Tactic.Linarith
import Mathlib.Tactic.FieldSimp

/-!
# How the angle of a point of the upper half plane depends on its height
-/

namespace Klein

/-- The angle of a point of the upper half plane. -/
theorem arg_upper {x y : ℝ} (hy : 0 < y) : Complex.arg ⟨x, y⟩ = Real.pi / 2 - Real.arctan (x / y) := by
  have h0 : 0 < √(1 + (x / y) ^ 2) := Real.sqrt_pos.2 (by positivity)
  have h1 := Real.arctan_lt_pi_div_two (x / y)
  have h2 := Real.neg_pi_div_two_lt_arctan (x / y)
  have e : (⟨x, y⟩ : ℂ) = ((y * √(1 + (x / y) ^ 2) : ℝ) : ℂ) *
      (Complex.cos ((Real.pi / 2 - Real.arctan (x / y) : ℝ) : ℂ) +
        Complex.sin ((Real.pi / 2 - Real.arctan (x / y) : ℝ) : ℂ) * Complex.I) := by
    rw [← Complex.ofReal_cos, ← Complex.ofReal_sin, Real.cos_pi_div_two_sub, Real.sin_pi_div_two_sub,
      Real.sin_arctan, Real.cos_arctan]
    generalize √(1 + (x / y) ^ 2) = q at *
    apply Complex.ext
    · simp
      field_simp
    · simp
      field_simp
  rw [e]
  exact Complex.arg_mul_cos_add_sin_mul_I (by positivity) ⟨by linarith, by linarith⟩

theorem abs_arctan_le (z : ℝ) : |Real.arctan z| ≤ |z| := by
  have key : ∀ w : ℝ, 0 ≤ w → Real.arctan w ≤ w := fun w hw => by
    have := Real.le_tan (Real.arctan_nonneg.2 hw) (Real.arctan_lt_pi_div_two w)
    rwa [Real.tan_arctan] at this
  rcases le_total 0 z with h | h
  · rw [abs_of_nonneg h, abs_of_nonneg (Real.arctan_nonneg.2 h)]; exact key z h
  · have := key (-z) (by linarith)
    rw [Real.arctan_neg] at this
    rw [abs_of_nonpos h, abs_of_nonpos (by rw [← neg_nonneg, ← Real.arctan_neg]; exact Real.arctan_nonneg.2 (by linarith))]
    exact this

/-- The angle is at least its sine, and so at least the product of sine and cosine. -/
theorem arg_ge {x y : ℝ} (hy : 0 < y) :
    y / √(x * x + y * y) ≤ Complex.arg ⟨x, y⟩ ∧ y * |x| ≤ Complex.arg ⟨x, y⟩ * (x * x + y * y) := by
  have hp : 0 < x * x + y * y := add_pos_of_nonneg_of_pos (mul_self_nonneg x) (mul_pos hy hy)
  have hn : ‖(⟨x, y⟩ : ℂ)‖ = √(x * x + y * y) := by
    rw [Complex.norm_def, Complex.normSq_mk]
  have h0 : 0 < Complex.arg ⟨x, y⟩ := by
    rw [arg_upper hy]; linarith [Real.arctan_lt_pi_div_two (x / y)]
  have h1 : y / √(x * x + y * y) ≤ Complex.arg ⟨x, y⟩ := by
    have := Real.sin_le h0.le
    rw [Complex.sin_arg, hn] at this
    exact this
  refine ⟨h1, ?_⟩
  have hq : 0 < √(x * x + y * y) := Real.sqrt_pos.2 hp
  have h2 : |x| ≤ √(x * x + y * y) := Real.le_sqrt_of_sq_le (by rw [sq_abs]; nlinarith)
  rw [div_le_iff₀ hq] at h1
  calc y * |x| ≤ Complex.arg ⟨x, y⟩ * √(x * x + y * y) * √(x * x + y * y) :=
        mul_le_mul h1 h2 (abs_nonneg _) (mul_nonneg h0.le hq.le)
    _ = _ := by rw [mul_assoc, Real.mul_self_sqrt hp.le]

/-- A relative change of the height changes the angle by no more than that, relatively (up to one part in a hundred). -/
theorem arg_lip_rel {x y y' k : ℝ} (hy : 0 < y) (hk : k ≤ 1 / 1000) (h : |y' - y| ≤ k * y) :
    |Complex.arg ⟨x, y'⟩ - Complex.arg ⟨x, y⟩| ≤ 1.01 * k * Complex.arg ⟨x, y⟩ := by
  have h' := abs_le.1 h
  have hy' : 0 < y' := by nlinarith
  have hg := (arg_ge (x := x) hy).2
  have hθ : 0 ≤ Complex.arg ⟨x, y⟩ := le_trans (by positivity) (arg_ge (x := x) hy).1
  generalize hθe : Complex.arg ⟨x, y⟩ = θ at *
  rw [arg_upper hy] at hθe
  rw [arg_upper hy', ← hθe]
  have e : Real.pi / 2 - Real.arctan (x / y') - (Real.pi / 2 - Real.arctan (x / y)) =
      Real.arctan (x / y) + Real.arctan (-(x / y')) := by rw [Real.arctan_neg]; ring
  have hxy : 0 ≤ x / y * (x / y') := by
    rw [div_mul_div_comm]; exact div_nonneg (mul_self_nonneg x) (mul_pos hy hy').le
  rw [e, Real.arctan_add (by linarith), hθe]
  refine (abs_arctan_le _).trans ?_
  have hp : 0 < y * y' + x * x := add_pos_of_pos_of_nonneg (mul_pos hy hy') (mul_self_nonneg x)
  have e2 : (x / y + -(x / y')) / (1 - x / y * -(x / y')) = (y' - y) * (x / (y * y' + x * x)) := by
    have e3 : 1 - x / y * -(x / y') = (y * y' + x * x) / (y * y') := by field_simp; ring
    have e4 : x / y + -(x / y') = x * (y' - y) / (y * y') := by field_simp; ring
    rw [e3, e4, div_div_div_cancel_right₀ (mul_pos hy hy').ne']
    ring
  rw [e2, abs_mul, abs_div, abs_of_pos hp, mul_div_assoc', div_le_iff₀ hp]
  have hk0 : 0 ≤ k := by
    by_contra hcon
    push Not at hcon
    have := abs_nonneg (y' - y)
    nlinarith
  have h1 := mul_le_mul_of_nonneg_right h (abs_nonneg x)
  have h2 : x * x + y * y ≤ 1.01 * (y * y' + x * x) := by
    have : 0.999 * y ≤ y' := by norm_num; nlinarith
    have := mul_le_mul_of_nonneg_left this hy.le
    norm_num at *
    nlinarith [mul_self_nonneg x, mul_pos hy hy]
  calc |y' - y| * |x| ≤ k * y * |x| := h1
    _ = k * (y * |x|) := by ring
    _ ≤ k * (θ * (x * x + y * y)) := mul_le_mul_of_nonneg_left hg hk0
    _ ≤ k * (θ * (1.01 * (y * y' + x * x))) :=
      mul_le_mul_of_nonneg_left (mul_le_mul_of_nonneg_left h2 hθ) hk0
    _ = _ := by ring

end Klein
