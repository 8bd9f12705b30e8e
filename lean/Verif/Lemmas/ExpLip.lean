import Mathlib.Analysis.Calculus.MeanValue
import Mathlib.Analysis.InnerProductSpace.PiL2
import Mathlib.Analysis.SpecialFunctions.Trigonometric.Deriv
import Mathlib.Analysis.SpecialFunctions.Trigonometric.Bounds

/-!
# How the exponential of a bivector depends on the bivector

For a vector `b` of norm `a > 0`, `(cos a, sin a / a • b)` is the rotor part of the exponential, and the
derivative of that map in a direction `c` is the other part.  Both depend on `b` and `c` in a Lipschitz
way, with constants that do not depend on the size of `b`.
-/

namespace Klein.ExpLip

open Real

/-- `sin x / x`. -/
noncomputable def S (x : ℝ) : ℝ := sin x / x

/-- The derivative of `S`, divided by `x`. -/
noncomputable def G (x : ℝ) : ℝ := (x * cos x - sin x) / x ^ 3

theorem abs_xcos_sub_sin {x : ℝ} (hx : 0 ≤ x) : |x * cos x - sin x| ≤ x ^ 2 := by
  have hd : ∀ y ∈ Set.Icc 0 x, HasDerivWithinAt (fun y => y * cos y - sin y) (-(y * sin y)) (Set.Icc 0 x) y := fun y _ => by
    have h := ((hasDerivAt_id y).mul (hasDerivAt_cos y)).sub (hasDerivAt_sin y)
    refine (h.congr_deriv ?_).hasDerivWithinAt
    simp
  have h := (convex_Icc 0 x).norm_image_sub_le_of_norm_hasDerivWithin_le (C := x) hd (fun y hy => by
    rw [Real.norm_eq_abs, abs_neg, abs_mul, abs_of_nonneg hy.1]
    exact (mul_le_mul hy.2 (abs_sin_le_one _) (abs_nonneg _) hx).trans (mul_one x).le)
    (Set.left_mem_Icc.2 hx) (Set.right_mem_Icc.2 hx)
  simp only [Real.norm_eq_abs, zero_mul, sin_zero, sub_zero, abs_of_nonneg hx] at h
  rwa [sq]

theorem abs_S {x : ℝ} (hx : 0 < x) : |S x| ≤ 1 := by
  rw [S, abs_div, abs_of_pos hx, div_le_one hx]
  exact abs_sin_le_abs.trans (abs_of_pos hx).le

theorem abs_xG {x : ℝ} (hx : 0 < x) : x * |G x| ≤ 1 := by
  rw [G, abs_div, abs_of_pos (pow_pos hx 3), ← mul_div_assoc, div_le_one (pow_pos hx 3)]
  have := mul_le_mul_of_nonneg_left (abs_xcos_sub_sin hx.le) hx.le
  calc _ ≤ _ := this
    _ = _ := by ring

theorem x2G {x : ℝ} (hx : 0 < x) : x ^ 2 * G x = cos x - S x := by
  rw [G, S]; field_simp

theorem abs_x2G {x : ℝ} (hx : 0 < x) : x ^ 2 * |G x| ≤ 2 := by
  have : x ^ 2 * |G x| = |x ^ 2 * G x| := by rw [abs_mul, abs_of_pos (pow_pos hx 2)]
  rw [this, x2G hx]
  have h1 := abs_sub (cos x) (S x)
  linarith [abs_S hx, abs_cos_le_one x]

theorem hasDeriv_S {x : ℝ} (hx : 0 < x) : HasDerivAt S (x * G x) x := by
  refine ((hasDerivAt_sin x).div (hasDerivAt_id x) hx.ne').congr_deriv ?_
  simp only [id, G]; field_simp

theorem hasDeriv_G {x : ℝ} (hx : 0 < x) : HasDerivAt G (-(sin x + 3 * (x * G x)) / x ^ 2) x := by
  have h := ((((hasDerivAt_id x).mul (hasDerivAt_cos x)).sub (hasDerivAt_sin x))).div (hasDerivAt_pow 3 x) (pow_pos hx 3).ne'
  refine h.congr_deriv ?_
  simp [G]; field_simp; ring

/-- The mean value inequality between two positive numbers. -/
theorem mean {f f' : ℝ → ℝ} {K a b : ℝ} (ha : 0 < a) (hab : a ≤ b) (hd : ∀ x, 0 < x → HasDerivAt f (f' x) x)
    (hb : ∀ x, a ≤ x → |f' x| ≤ K) : |f a - f b| ≤ K * |a - b| := by
  have h := (convex_Icc a b).norm_image_sub_le_of_norm_hasDerivWithin_le (C := K)
    (fun x hx => (hd x (lt_of_lt_of_le ha hx.1)).hasDerivWithinAt) (fun x hx => hb x hx.1)
    (Set.right_mem_Icc.2 hab) (Set.left_mem_Icc.2 hab)
  simpa only [Real.norm_eq_abs] using h

theorem S_lip {a b : ℝ} (ha : 0 < a) (hab : a ≤ b) : |S a - S b| ≤ |a - b| := by
  have := mean ha hab (fun x hx => hasDeriv_S hx) (K := 1) fun x hx => by
    have h0 := lt_of_lt_of_le ha hx
    rw [abs_mul, abs_of_pos h0]; exact abs_xG h0
  rwa [one_mul] at this

theorem S_lip' {a b : ℝ} (ha : 0 < a) (hab : a ≤ b) : a * |S a - S b| ≤ 2 * |a - b| := by
  have := mean ha hab (fun x hx => hasDeriv_S hx) (K := 2 / a) fun x hx => by
    have h0 := lt_of_lt_of_le ha hx
    rw [abs_mul, abs_of_pos h0, le_div_iff₀ ha]
    have h1 := abs_x2G h0
    have h2 : x * |G x| * a ≤ x * |G x| * x := mul_le_mul_of_nonneg_left hx (by positivity)
    nlinarith
  calc a * |S a - S b| ≤ a * (2 / a * |a - b|) := mul_le_mul_of_nonneg_left this ha.le
    _ = _ := by field_simp

theorem G_lip {a b : ℝ} (ha : 0 < a) (hab : a ≤ b) : a ^ 2 * |G a - G b| ≤ 4 * |a - b| := by
  have := mean ha hab (fun x hx => hasDeriv_G hx) (K := 4 / a ^ 2) fun x hx => by
    have h0 := lt_of_lt_of_le ha hx
    rw [abs_div, abs_neg, abs_of_pos (pow_pos h0 2)]
    refine div_le_div₀ (by norm_num) ?_ (pow_pos ha 2) (pow_le_pow_left₀ ha.le hx 2)
    have h1 := abs_add_le (sin x) (3 * (x * G x))
    have h2 : |3 * (x * G x)| ≤ 3 := by
      rw [abs_mul, abs_mul, abs_of_pos h0, abs_of_pos (by norm_num : (0 : ℝ) < 3)]
      linarith [abs_xG h0]
    linarith [abs_sin_le_one x]
  calc a ^ 2 * |G a - G b| ≤ a ^ 2 * (4 / a ^ 2 * |a - b|) := mul_le_mul_of_nonneg_left this (by positivity)
    _ = _ := by field_simp

variable {V : Type*} [NormedAddCommGroup V] [InnerProductSpace ℝ V] {b b' c c' : V}

open scoped RealInnerProductSpace

/-- The rotor part of the exponential does not increase distances. -/
theorem rotor_lip (hb : 0 < ‖b‖) (hb' : 0 < ‖b'‖) :
    (cos ‖b‖ - cos ‖b'‖) ^ 2 + ‖S ‖b‖ • b - S ‖b'‖ • b'‖ ^ 2 ≤ ‖b - b'‖ ^ 2 := by
  rw [norm_sub_sq_real, norm_sub_sq_real, norm_smul, norm_smul, real_inner_smul_left, real_inner_smul_right]
  have ht := abs_le.1 (abs_real_inner_le_norm b b')
  generalize ⟪b, b'⟫ = t at *
  generalize ‖b‖ = x at *
  generalize ‖b'‖ = y at *
  have e1 : (‖S x‖ * x) ^ 2 = sin x ^ 2 := by
    rw [mul_pow, Real.norm_eq_abs, sq_abs, S]; field_simp
  have e2 : (‖S y‖ * y) ^ 2 = sin y ^ 2 := by
    rw [mul_pow, Real.norm_eq_abs, sq_abs, S]; field_simp
  obtain ⟨τ, hτ⟩ : ∃ τ, τ = t / (x * y) := ⟨_, rfl⟩
  have et : t = x * y * τ := by rw [hτ]; field_simp
  have h1 : -1 ≤ τ := by rw [hτ, le_div_iff₀ (by positivity)]; linarith [ht.1]
  have h2 : τ ≤ 1 := by rw [hτ, div_le_iff₀ (by positivity)]; linarith [ht.2]
  have e3 : S x * (S y * t) = sin x * sin y * τ := by rw [et, S, S]; field_simp
  rw [e1, e2, e3, et]
  have c1 := one_sub_sq_div_two_le_cos (x := x - y)
  have c2 := one_sub_sq_div_two_le_cos (x := x + y)
  rw [cos_sub] at c1
  rw [cos_add] at c2
  have p1 := mul_nonneg (show 0 ≤ 1 + τ by linarith) (sub_nonneg.2 c1)
  have p2 := mul_nonneg (show 0 ≤ 1 - τ by linarith) (sub_nonneg.2 c2)
  have s1 := sin_sq_add_cos_sq x
  have s2 := sin_sq_add_cos_sq y
  nlinarith

/-- The derivative in the direction `c` does not increase the norm: the vector part. -/
theorem dvec_norm (hb : 0 < ‖b‖) (x : V) : ‖S ‖b‖ • x + (G ‖b‖ * ⟪b, x⟫) • b‖ ≤ ‖x‖ := by
  refine abs_le_of_sq_le_sq' ?_ (norm_nonneg _) |>.2
  rw [norm_add_sq_real, norm_smul, norm_smul, real_inner_smul_left, real_inner_smul_right, mul_pow, mul_pow,
    Real.norm_eq_abs, Real.norm_eq_abs, sq_abs, sq_abs, real_inner_comm b x]
  have ht := abs_real_inner_le_norm b x
  have hG := x2G hb
  have hS := abs_S hb
  have hC := abs_cos_le_one ‖b‖
  generalize ⟪b, x⟫ = t at *
  generalize ‖b‖ = a at *
  generalize ‖x‖ = w at *
  generalize S a = s at *
  generalize cos a = k at *
  generalize G a = g at *
  obtain ⟨τ, hτ⟩ : ∃ τ, τ = t ^ 2 / a ^ 2 := ⟨_, rfl⟩
  have et : t ^ 2 = a ^ 2 * τ := by rw [hτ]; field_simp
  have h0 : 0 ≤ τ := by rw [hτ]; positivity
  have h1 : τ ≤ w ^ 2 := by
    rw [hτ, div_le_iff₀ (by positivity), ← sq_abs t]
    calc |t| ^ 2 ≤ (a * w) ^ 2 := pow_le_pow_left₀ (abs_nonneg _) ht 2
      _ = _ := by ring
  have s1 : s ^ 2 ≤ 1 := by rw [← sq_abs]; exact pow_le_one₀ (abs_nonneg _) hS
  have k1 : k ^ 2 ≤ 1 := by rw [← sq_abs]; exact pow_le_one₀ (abs_nonneg _) hC
  have e : s ^ 2 * w ^ 2 + 2 * (s * (g * t * t)) + (g * t) ^ 2 * a ^ 2 = s ^ 2 * (w ^ 2 - τ) + k ^ 2 * τ := by
    have e1 : s * (g * t * t) = s * ((a ^ 2 * g) * τ) := by linear_combination s * g * et
    have e2 : (g * t) ^ 2 * a ^ 2 = (a ^ 2 * g) ^ 2 * τ := by linear_combination g ^ 2 * a ^ 2 * et
    rw [e1, e2, hG]; ring
  rw [e]
  have := mul_le_mul_of_nonneg_right s1 (sub_nonneg.2 h1)
  have := mul_le_mul_of_nonneg_right k1 h0
  linarith

/-- The scalar part of the derivative. -/
theorem dsc_norm (hb : 0 < ‖b‖) (x : V) : |S ‖b‖ * ⟪b, x⟫| ≤ ‖x‖ := by
  rw [abs_mul]
  have ht := abs_real_inner_le_norm b x
  have e : |S ‖b‖| * ‖b‖ ≤ 1 := by
    have : |S ‖b‖| * ‖b‖ = |sin ‖b‖| := by
      rw [S, abs_div, abs_of_pos hb]; field_simp
    rw [this]; exact abs_sin_le_one _
  calc _ ≤ |S ‖b‖| * (‖b‖ * ‖x‖) := mul_le_mul_of_nonneg_left ht (abs_nonneg _)
    _ = |S ‖b‖| * ‖b‖ * ‖x‖ := by ring
    _ ≤ 1 * ‖x‖ := mul_le_mul_of_nonneg_right e (norm_nonneg _)
    _ = _ := one_mul _

theorem dsc_lip' (hb : 0 < ‖b‖) (hbb : ‖b‖ ≤ ‖b'‖) (x : V) :
    |S ‖b‖ * ⟪b, x⟫ - S ‖b'‖ * ⟪b', x⟫| ≤ 3 * ‖b - b'‖ * ‖x‖ := by
  have e : S ‖b‖ * ⟪b, x⟫ - S ‖b'‖ * ⟪b', x⟫ = (S ‖b‖ - S ‖b'‖) * ⟪b, x⟫ + S ‖b'‖ * ⟪b - b', x⟫ := by
    rw [inner_sub_left]; ring
  rw [e]
  refine (abs_add_le _ _).trans ?_
  rw [abs_mul, abs_mul]
  have h1 := abs_real_inner_le_norm b x
  have h2 := abs_real_inner_le_norm (b - b') x
  have h3 := S_lip' hb hbb
  have h4 := abs_S (lt_of_lt_of_le hb hbb)
  have h5 := abs_norm_sub_norm_le b b'
  have n1 := norm_nonneg x
  have n2 := norm_nonneg (b - b')
  have p1 : |S ‖b‖ - S ‖b'‖| * |⟪b, x⟫| ≤ 2 * ‖b - b'‖ * ‖x‖ := by
    calc _ ≤ |S ‖b‖ - S ‖b'‖| * (‖b‖ * ‖x‖) := mul_le_mul_of_nonneg_left h1 (abs_nonneg _)
      _ = ‖b‖ * |S ‖b‖ - S ‖b'‖| * ‖x‖ := by ring
      _ ≤ 2 * ‖b - b'‖ * ‖x‖ := mul_le_mul_of_nonneg_right (by linarith) n1
  have p2 : |S ‖b'‖| * |⟪b - b', x⟫| ≤ 1 * (‖b - b'‖ * ‖x‖) :=
    mul_le_mul h4 h2 (abs_nonneg _) zero_le_one
  linarith

theorem dvec_lip' (hb : 0 < ‖b‖) (hbb : ‖b‖ ≤ ‖b'‖) (x : V) :
    ‖(S ‖b‖ • x + (G ‖b‖ * ⟪b, x⟫) • b) - (S ‖b'‖ • x + (G ‖b'‖ * ⟪b', x⟫) • b')‖ ≤ 7 * ‖b - b'‖ * ‖x‖ := by
  have e : (S ‖b‖ • x + (G ‖b‖ * ⟪b, x⟫) • b) - (S ‖b'‖ • x + (G ‖b'‖ * ⟪b', x⟫) • b') =
      (S ‖b‖ - S ‖b'‖) • x + ((G ‖b‖ - G ‖b'‖) * ⟪b, x⟫) • b + (G ‖b'‖ * ⟪b - b', x⟫) • b + (G ‖b'‖ * ⟪b', x⟫) • (b - b') := by
    rw [inner_sub_left]; module
  rw [e]
  have hb' := lt_of_lt_of_le hb hbb
  have n1 := norm_nonneg x
  have n2 := norm_nonneg (b - b')
  have h5 := abs_norm_sub_norm_le b b'
  refine (norm_add_le _ _).trans ?_
  refine (add_le_add_left ((norm_add_le _ _).trans (add_le_add_left (norm_add_le _ _) _)) _).trans ?_
  simp only [norm_smul, Real.norm_eq_abs, abs_mul]
  have p1 : |S ‖b‖ - S ‖b'‖| * ‖x‖ ≤ ‖b - b'‖ * ‖x‖ := mul_le_mul_of_nonneg_right ((S_lip hb hbb).trans h5) n1
  have p2 : |G ‖b‖ - G ‖b'‖| * |⟪b, x⟫| * ‖b‖ ≤ 4 * ‖b - b'‖ * ‖x‖ := by
    calc _ ≤ |G ‖b‖ - G ‖b'‖| * (‖b‖ * ‖x‖) * ‖b‖ :=
          mul_le_mul_of_nonneg_right (mul_le_mul_of_nonneg_left (abs_real_inner_le_norm b x) (abs_nonneg _)) hb.le
      _ = ‖b‖ ^ 2 * |G ‖b‖ - G ‖b'‖| * ‖x‖ := by ring
      _ ≤ 4 * ‖b - b'‖ * ‖x‖ := mul_le_mul_of_nonneg_right (by linarith [G_lip hb hbb]) n1
  have hg := abs_xG hb'
  have p3 : |G ‖b'‖| * |⟪b - b', x⟫| * ‖b‖ ≤ ‖b - b'‖ * ‖x‖ := by
    calc _ ≤ |G ‖b'‖| * (‖b - b'‖ * ‖x‖) * ‖b'‖ :=
          mul_le_mul (mul_le_mul_of_nonneg_left (abs_real_inner_le_norm _ x) (abs_nonneg _)) hbb hb.le (by positivity)
      _ = ‖b'‖ * |G ‖b'‖| * (‖b - b'‖ * ‖x‖) := by ring
      _ ≤ 1 * (‖b - b'‖ * ‖x‖) := mul_le_mul_of_nonneg_right hg (by positivity)
      _ = _ := one_mul _
  have p4 : |G ‖b'‖| * |⟪b', x⟫| * ‖b - b'‖ ≤ ‖b - b'‖ * ‖x‖ := by
    calc _ ≤ |G ‖b'‖| * (‖b'‖ * ‖x‖) * ‖b - b'‖ :=
          mul_le_mul_of_nonneg_right (mul_le_mul_of_nonneg_left (abs_real_inner_le_norm _ x) (abs_nonneg _)) n2
      _ = ‖b'‖ * |G ‖b'‖| * (‖b - b'‖ * ‖x‖) := by ring
      _ ≤ 1 * (‖b - b'‖ * ‖x‖) := mul_le_mul_of_nonneg_right hg (by positivity)
      _ = _ := one_mul _
  linarith

/-- The scalar part of the derivative, both arguments changing. -/
theorem dsc_lip (hb : 0 < ‖b‖) (hb' : 0 < ‖b'‖) :
    |S ‖b‖ * ⟪b, c⟫ - S ‖b'‖ * ⟪b', c'⟫| ≤ 7 * ‖b - b'‖ * ‖c‖ + ‖c - c'‖ := by
  have h1 : |S ‖b‖ * ⟪b, c⟫ - S ‖b'‖ * ⟪b', c⟫| ≤ 3 * ‖b - b'‖ * ‖c‖ := by
    rcases le_total ‖b‖ ‖b'‖ with h | h
    · exact dsc_lip' hb h c
    · rw [abs_sub_comm, norm_sub_rev]; exact dsc_lip' hb' h c
  have h2 := dsc_norm hb' (c - c')
  have e : S ‖b‖ * ⟪b, c⟫ - S ‖b'‖ * ⟪b', c'⟫ = (S ‖b‖ * ⟪b, c⟫ - S ‖b'‖ * ⟪b', c⟫) + S ‖b'‖ * ⟪b', c - c'⟫ := by
    rw [inner_sub_right]; ring
  rw [e]
  have := abs_add_le (S ‖b‖ * ⟪b, c⟫ - S ‖b'‖ * ⟪b', c⟫) (S ‖b'‖ * ⟪b', c - c'⟫)
  have := mul_nonneg (norm_nonneg (b - b')) (norm_nonneg c)
  linarith

/-- The vector part. -/
theorem dvec_lip (hb : 0 < ‖b‖) (hb' : 0 < ‖b'‖) :
    ‖(S ‖b‖ • c + (G ‖b‖ * ⟪b, c⟫) • b) - (S ‖b'‖ • c' + (G ‖b'‖ * ⟪b', c'⟫) • b')‖ ≤
      7 * ‖b - b'‖ * ‖c‖ + ‖c - c'‖ := by
  have h1 : ‖(S ‖b‖ • c + (G ‖b‖ * ⟪b, c⟫) • b) - (S ‖b'‖ • c + (G ‖b'‖ * ⟪b', c⟫) • b')‖ ≤ 7 * ‖b - b'‖ * ‖c‖ := by
    rcases le_total ‖b‖ ‖b'‖ with h | h
    · exact dvec_lip' hb h c
    · rw [norm_sub_rev, norm_sub_rev b]; exact dvec_lip' hb' h c
  have h2 := dvec_norm hb' (c - c')
  have e : (S ‖b‖ • c + (G ‖b‖ * ⟪b, c⟫) • b) - (S ‖b'‖ • c' + (G ‖b'‖ * ⟪b', c'⟫) • b') =
      ((S ‖b‖ • c + (G ‖b‖ * ⟪b, c⟫) • b) - (S ‖b'‖ • c + (G ‖b'‖ * ⟪b', c⟫) • b')) +
        (S ‖b'‖ • (c - c') + (G ‖b'‖ * ⟪b', c - c'⟫) • b') := by
    rw [inner_sub_right]; module
  rw [e]
  have := norm_add_le ((S ‖b‖ • c + (G ‖b‖ * ⟪b, c⟫) • b) - (S ‖b'‖ • c + (G ‖b'‖ * ⟪b', c⟫) • b'))
    (S ‖b'‖ • (c - c') + (G ‖b'‖ * ⟪b', c - c'⟫) • b')
  linarith

end Klein.ExpLip
