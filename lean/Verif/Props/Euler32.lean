import Verif.Props.Slerp32
import Verif.Props.HalfTurn32

/-!
# C99: Euler angles in binary32

`as_euler_angles` of a rounded rotor, and the rotor made from the angles it returns.  Roll and yaw are arguments of
complex numbers whose modulus is the cosine of the pitch, so all errors grow with the reciprocal of that cosine.
-/

set_option linter.unusedSimpArgs false

namespace Klein

open F32

/-! ### arguments and arc sines of perturbed numbers -/

/-- The argument of a complex number of modulus `c` moved by `e`, up to full turns. -/
theorem arg_near {x y x' y' c e : ℝ} (hc : 0 < c) (h : x ^ 2 + y ^ 2 = c ^ 2) (he : (x' - x) ^ 2 + (y' - y) ^ 2 ≤ e ^ 2)
    (he0 : 0 ≤ e) (hec : e ≤ c / 50) : ∃ k : ℤ, |Complex.arg ⟨x', y'⟩ - Complex.arg ⟨x, y⟩ - 2 * Real.pi * k| ≤ 1.03 * (e / c) := by
  have hz : (⟨x, y⟩ : ℂ) ≠ 0 := fun hz => by
    have h1 : x = 0 := congrArg Complex.re hz
    have h2 : y = 0 := congrArg Complex.im hz
    rw [h1, h2] at h; nlinarith
  have hcs : ∀ a b : ℝ, a ^ 2 + b ^ 2 = c ^ 2 → |(x' - x) * a + (y' - y) * b| ≤ e * c := fun a b hab => by
    refine abs_le_of_sq_le_sq ?_ (by positivity)
    have : ((x' - x) * a + (y' - y) * b) ^ 2 ≤ ((x' - x) ^ 2 + (y' - y) ^ 2) * (a ^ 2 + b ^ 2) := by
      nlinarith [sq_nonneg ((x' - x) * b - (y' - y) * a)]
    rw [hab] at this
    rw [mul_pow]
    exact this.trans (mul_le_mul_of_nonneg_right he (by positivity))
  have h1 := hcs x y h
  have h2 := hcs (-y) x (by linarith)
  -- the quotient
  have ew : (⟨x', y'⟩ : ℂ) = ⟨x, y⟩ * ⟨(x' * x + y' * y) / c ^ 2, (y' * x - x' * y) / c ^ 2⟩ := by
    have : x ^ 2 = c ^ 2 - y ^ 2 := by linarith
    apply Complex.ext
    · simp only [Complex.mul_re]; field_simp; linear_combination (-x') * h
    · simp only [Complex.mul_im]; field_simp; linear_combination (-y') * h
  have hre : 0.98 ≤ (x' * x + y' * y) / c ^ 2 := by
    rw [le_div_iff₀ (by positivity)]
    have e1 : x' * x + y' * y = c ^ 2 + ((x' - x) * x + (y' - y) * y) := by rw [← h]; ring
    have := (abs_le.1 h1).1
    norm_num; nlinarith
  have him : |(y' * x - x' * y) / c ^ 2| ≤ e / c := by
    rw [abs_div, abs_of_pos (show 0 < c ^ 2 by positivity), div_le_div_iff₀ (by positivity) hc]
    have e1 : y' * x - x' * y = (x' - x) * -y + (y' - y) * x := by ring
    rw [e1]; nlinarith
  obtain ⟨w, hw⟩ : ∃ w : ℂ, w = ⟨(x' * x + y' * y) / c ^ 2, (y' * x - x' * y) / c ^ 2⟩ := ⟨_, rfl⟩
  have hre' : 0.98 ≤ w.re := by rw [hw]; exact hre
  have him' : |w.im| ≤ e / c := by rw [hw]; exact him
  have hre0 : 0 < w.re := lt_of_lt_of_le (by norm_num) hre'
  rw [← hw] at ew
  have hw0 : w ≠ 0 := fun hz => by rw [hz] at hre0; simp at hre0
  have ha := Complex.arg_mul_coe_angle hz hw0
  rw [← ew, ← Real.Angle.coe_add] at ha
  obtain ⟨k, hk⟩ := Real.Angle.angle_eq_iff_two_pi_dvd_sub.1 ha
  refine ⟨k, ?_⟩
  have : Complex.arg ⟨x', y'⟩ - Complex.arg ⟨x, y⟩ - 2 * Real.pi * k = Complex.arg w := by rw [← hk]; ring
  rw [this]
  have hh : |Complex.arg w| < Real.pi / 2 := Complex.abs_arg_lt_pi_div_two_iff.2 (Or.inl hre0)
  rw [← Real.arctan_tan (abs_lt.1 hh).1 (abs_lt.1 hh).2, Complex.tan_arg]
  refine (abs_arctan_le _).trans ?_
  rw [abs_div, abs_of_pos hre0, div_le_iff₀ hre0]
  have : 0 ≤ e / c := by positivity
  norm_num at hre' ⊢
  nlinarith

/-- The arc sine at distance `c ^ 2 = 1 - s ^ 2` from the ends. -/
theorem arcsin_near {s s' c e : ℝ} (hc : 0 < c) (h : s ^ 2 + c ^ 2 = 1) (he : |s' - s| ≤ e) (hec : e ≤ c ^ 2 / 50) :
    |Real.arcsin s' - Real.arcsin s| ≤ 1.03 * (e / c) := by
  have he0 : 0 ≤ e := (abs_nonneg _).trans he
  have hs := abs_le.1 he
  have hc1 : c ^ 2 ≤ 1 := by nlinarith [sq_nonneg s]
  have hs1 : |s| ≤ 1 := abs_le_of_sq_le_sq (by nlinarith [sq_nonneg c]) (by norm_num)
  have hs1' := abs_le.1 hs1
  have key : ∀ x ∈ Set.Icc (s - e) (s + e), 0.95 * c ^ 2 ≤ 1 - x ^ 2 := fun x hx => by
    obtain ⟨d, rfl⟩ : ∃ d, x = s + d := ⟨x - s, by ring⟩
    have d1 : |d| ≤ e := abs_le.2 ⟨by linarith [hx.1], by linarith [hx.2]⟩
    have d2 : d ^ 2 ≤ e ^ 2 := by rw [← sq_abs]; exact pow_le_pow_left₀ (abs_nonneg _) d1 2
    have d3 : s * d ≤ e := (le_abs_self _).trans (by rw [abs_mul]; exact (mul_le_mul hs1 d1 (abs_nonneg _) (by norm_num)).trans (by linarith))
    norm_num at hec ⊢; nlinarith
  have a := (convex_Icc (s - e) (s + e)).norm_image_sub_le_of_norm_hasDerivWithin_le (f := Real.arcsin)
    (f' := fun x => 1 / √(1 - x ^ 2)) (C := 1.03 / c) (x := s) (y := s')
    (fun x hx => by
      have := key x hx
      have p : 0 < 1 - x ^ 2 := lt_of_lt_of_le (by positivity) this
      exact (Real.hasDerivAt_arcsin (by nlinarith) (by nlinarith)).hasDerivWithinAt) (fun x hx => by
      have k := key x hx
      have p : 0 < 1 - x ^ 2 := lt_of_lt_of_le (by positivity) k
      rw [Real.norm_of_nonneg (by positivity), div_le_div_iff₀ (Real.sqrt_pos.2 p) hc]
      have : 0.974 * c ≤ √(1 - x ^ 2) := Real.le_sqrt_of_sq_le (by norm_num at k ⊢; nlinarith)
      norm_num at this ⊢; linarith) ⟨by linarith, by linarith⟩ ⟨by linarith, by linarith⟩
  rw [Real.norm_eq_abs, Real.norm_eq_abs] at a
  refine a.trans ?_
  rw [div_mul_eq_mul_div, mul_div_assoc]
  exact mul_le_mul_of_nonneg_left (div_le_div_of_nonneg_right he hc.le) (by norm_num)

/-! ### the rotor of nearby angles -/

theorem chord (u v : ℝ) : (Real.cos u - Real.cos v) ^ 2 + (Real.sin u - Real.sin v) ^ 2 ≤ (u - v) ^ 2 := by
  have h := Real.one_sub_sq_div_two_le_cos (x := u - v)
  rw [Real.cos_sub] at h
  nlinarith [Real.sin_sq_add_cos_sq u, Real.sin_sq_add_cos_sq v]

theorem lane_sq {v : V4 ℝ} {e : ℝ} (he : 0 ≤ e) (h : dot4 v v ≤ e ^ 2) (i : Fin 4) : |v.get i| ≤ e := by
  refine abs_le_of_sq_le_sq ?_ he
  simp only [dot4] at h
  match i with
  | 0 => simp only [V4.get]; nlinarith [sq_nonneg v.l1, sq_nonneg v.l2, sq_nonneg v.l3]
  | 1 => simp only [V4.get]; nlinarith [sq_nonneg v.l0, sq_nonneg v.l2, sq_nonneg v.l3]
  | 2 => simp only [V4.get]; nlinarith [sq_nonneg v.l1, sq_nonneg v.l0, sq_nonneg v.l3]
  | 3 => simp only [V4.get]; nlinarith [sq_nonneg v.l1, sq_nonneg v.l2, sq_nonneg v.l0]

theorem eulerQuat_lip (a b c a' b' c' : ℝ) (i : Fin 4) :
    |(eulerQuat a b c).get i - (eulerQuat a' b' c').get i| ≤ (|a - a'| + |b - b'| + |c - c'|) / 2 := by
  have sq : ∀ x y : ℝ, (x / 2 - y / 2) ^ 2 = (|x - y| / 2) ^ 2 := fun x y => by rw [div_pow, sq_abs]; ring
  have ha := (chord (a / 2) (a' / 2)).trans_eq (sq a a')
  have hb := (chord (b / 2) (b' / 2)).trans_eq (sq b b')
  have hc := (chord (c / 2) (c' / 2)).trans_eq (sq c c')
  have h1 := Real.cos_sq_add_sin_sq (a' / 2)
  have h2 := Real.cos_sq_add_sin_sq (b / 2)
  have h2' := Real.cos_sq_add_sin_sq (b' / 2)
  have h3 := Real.cos_sq_add_sin_sq (c / 2)
  simp only [eulerQuat]
  generalize Real.cos (a / 2) = x at *
  generalize Real.sin (a / 2) = y at *
  generalize Real.cos (b / 2) = z at *
  generalize Real.sin (b / 2) = w at *
  generalize Real.cos (c / 2) = p at *
  generalize Real.sin (c / 2) = q at *
  generalize Real.cos (a' / 2) = x' at *
  generalize Real.sin (a' / 2) = y' at *
  generalize Real.cos (b' / 2) = z' at *
  generalize Real.sin (b' / 2) = w' at *
  generalize Real.cos (c' / 2) = p' at *
  generalize Real.sin (c' / 2) = q' at *
  -- one angle after the other
  have k1 := lane_sq (v := ⟨(x - x') * z * p + (y - y') * w * q, (y - y') * z * p - (x - x') * w * q,
    (x - x') * w * p + (y - y') * z * q, (x - x') * z * q - (y - y') * w * p⟩) (e := |a - a'| / 2) (by positivity)
    (le_of_eq_of_le (by simp only [dot4]; linear_combination ((x - x') ^ 2 + (y - y') ^ 2) * (h3 * (z ^ 2 + w ^ 2) + h2)) ha) i
  have k2 := lane_sq (v := ⟨x' * (z - z') * p + y' * (w - w') * q, y' * (z - z') * p - x' * (w - w') * q,
    x' * (w - w') * p + y' * (z - z') * q, x' * (z - z') * q - y' * (w - w') * p⟩) (e := |b - b'| / 2) (by positivity)
    (le_of_eq_of_le (by simp only [dot4]; linear_combination ((z - z') ^ 2 + (w - w') ^ 2) * (h3 * (x' ^ 2 + y' ^ 2) + h1)) hb) i
  have k3 := lane_sq (v := ⟨x' * z' * (p - p') + y' * w' * (q - q'), y' * z' * (p - p') - x' * w' * (q - q'),
    x' * w' * (p - p') + y' * z' * (q - q'), x' * z' * (q - q') - y' * w' * (p - p')⟩) (e := |c - c'| / 2) (by positivity)
    (le_of_eq_of_le (by simp only [dot4]; linear_combination ((p - p') ^ 2 + (q - q') ^ 2) * (h1 * (z' ^ 2 + w' ^ 2) + h2')) hc) i
  have k := (abs_add_three _ _ _).trans (add_le_add_three k1 k2 k3)
  rw [show (|a - a'| + |b - b'| + |c - c'|) / 2 = |a - a'| / 2 + |b - b'| / 2 + |c - c'| / 2 by ring]
  refine le_of_eq_of_le (congrArg _ ?_) k
  match i with
  | 0 => simp only [V4.get]; ring
  | 1 => simp only [V4.get]; ring
  | 2 => simp only [V4.get]; ring
  | 3 => simp only [V4.get]; ring

/-- Full turns change at most the sign. -/
theorem eulerQuat_turns (a b c : ℝ) (k l : ℤ) :
    (∀ i : Fin 4, (eulerQuat (a + 2 * Real.pi * k) b (c + 2 * Real.pi * l)).get i = (eulerQuat a b c).get i) ∨
    (∀ i : Fin 4, (eulerQuat (a + 2 * Real.pi * k) b (c + 2 * Real.pi * l)).get i = -(eulerQuat a b c).get i) := by
  have e : ∀ (x : ℝ) (k : ℤ), (x + 2 * Real.pi * k) / 2 = x / 2 + k * Real.pi := fun x k => by ring
  simp only [eulerQuat, e, Real.cos_add_int_mul_pi, Real.sin_add_int_mul_pi]
  rcases Int.even_or_odd k with hk | hk <;> rcases Int.even_or_odd l with hl | hl <;>
    simp only [hk.neg_one_zpow, hl.neg_one_zpow] <;>
    first
    | (left; intro i; match i with
        | 0 => simp only [V4.get]; ring
        | 1 => simp only [V4.get]; ring
        | 2 => simp only [V4.get]; ring
        | 3 => simp only [V4.get]; ring)
    | (right; intro i; match i with
        | 0 => simp only [V4.get]; ring
        | 1 => simp only [V4.get]; ring
        | 2 => simp only [V4.get]; ring
        | 3 => simp only [V4.get]; ring)

/-! ### the library -/

/-- What is assumed of `<cmath>` besides `Libm.Contract32`: the arc sine within two units in the last place on its
domain, the absolute value and the comparison exact. -/
structure Libm.Euler32 (lm : Libm F32) : Prop where
  asin : ∀ x : F32, x.isFinite = true → |r x| ≤ 1 → Ulp2 (lm.asin x) (Real.arcsin (r x))
  abs : ∀ x : F32, x.isFinite = true → (lm.abs x).isFinite = true ∧ r (lm.abs x) = |r x|
  flt : ∀ x y : F32, x.isFinite = true → y.isFinite = true → (lm.flt x y = true ↔ r x < r y)
  pi_2 : Ulp2 lm.pi_2 (Real.pi / 2)

/-- `atan2` anywhere but at the origin, up to a full turn. -/
theorem atan2_turn {lm : Libm F32} (hl : lm.Contract32) (hf : lm.AnnexF) {y x : F32} (hy : y.isFinite = true)
    (hx : x.isFinite = true) (h : r x ≠ 0 ∨ r y ≠ 0) :
    (lm.atan2 y x).isFinite = true ∧ |r (lm.atan2 y x)| ≤ 3.2 ∧
      ∃ k : ℤ, |r (lm.atan2 y x) - Complex.arg ⟨r x, r y⟩ - 2 * Real.pi * k| ≤ 7.6e-7 := by
  have hpi := Real.pi_lt_d2
  have hpi' := Real.pi_gt_three
  have base : ∀ {v : F32} {θ : ℝ}, Ulp2 v θ → |θ| ≤ Real.pi → v.isFinite = true ∧ |r v| ≤ 3.2 ∧ |r v - θ| ≤ 7.6e-7 := by
    intro v θ ⟨h1, h2⟩ h3
    have h4 : 1 / 2 ^ 22 * max (1 / 2 ^ 126) |θ| ≤ 1 / 2 ^ 22 * 3.15 :=
      mul_le_mul_of_nonneg_left (max_le (by norm_num) (by norm_num at hpi ⊢; linarith)) (by norm_num)
    have h5 := abs_sub_abs_le_abs_sub (r v) θ
    have h6 : |r v - θ| ≤ 7.6e-7 := by norm_num at h2 h4 ⊢; linarith
    refine ⟨h1, ?_, h6⟩
    norm_num at h6 hpi ⊢; linarith
  by_cases h0 : r y = 0
  · have ez : y = z y.sign := by
      have hv : y.val = 0 := by have : ((y.val : ℚ) : ℝ) = 0 := h0; exact_mod_cast this
      have hm : magVal y.mag = magVal 0 := by
        rw [magVal_zero]
        rw [val] at hv
        split at hv
        · linarith
        · exact hv
      have := magVal_strictMono.injective hm
      apply F32.ext
      · rfl
      · exact Fin.ext this
    have hx0 : r x ≠ 0 := h.resolve_right (fun hh => hh h0)
    rw [h0]
    rcases lt_or_gt_of_ne hx0 with hn | hp
    · have hs : x.sign = true := by
        have := F32.sign_of_pos (x := -x) (by rw [r_neg]; linarith)
        have e : (-x).sign = !x.sign := rfl
        rw [e] at this; simpa using this
      have ha : Complex.arg ⟨r x, 0⟩ = Real.pi := by
        have : (⟨r x, 0⟩ : ℂ) = ((r x : ℝ) : ℂ) := rfl
        rw [this, Complex.arg_ofReal_of_neg hn]
      have hu := hf.atan2_neg y.sign x hx hs
      rw [← ez] at hu
      rw [ha]
      cases hb : y.sign
      · rw [hb] at hu
        obtain ⟨b1, b2, b3⟩ := base hu (by simp [abs_of_pos Real.pi_pos])
        exact ⟨b1, b2, 0, by simpa using b3⟩
      · rw [hb] at hu
        obtain ⟨b1, b2, b3⟩ := base hu (by simp [abs_of_pos Real.pi_pos])
        refine ⟨b1, b2, -1, ?_⟩
        simp only [if_true] at b3
        refine le_of_eq_of_le (congrArg _ ?_) b3
        push_cast; ring
    · have hs := F32.sign_of_pos hp
      have ha : Complex.arg ⟨r x, 0⟩ = 0 := by
        have : (⟨r x, 0⟩ : ℂ) = ((r x : ℝ) : ℂ) := rfl
        rw [this, Complex.arg_ofReal_of_nonneg hp.le]
      have hu := hf.atan2_pos y.sign x hx hs
      rw [← ez] at hu
      rw [ha, hu]
      exact ⟨hy, by rw [h0]; norm_num, 0, by rw [h0]; norm_num⟩
  · obtain ⟨b1, b2, b3⟩ := base (hl.atan2 y x hy hx h0) (Complex.abs_arg_le_pi _)
    exact ⟨b1, b2, 0, by simpa using b3⟩

/-! ### the quantities computed from the lanes -/

theorem two_ok : (2 : F32).isFinite = true ∧ r 2 = 2 := by
  refine ⟨by decide +kernel, ?_⟩
  rw [r, show (2 : F32).val = 2 by decide +kernel]; norm_num

theorem one_ok : (1 : F32).isFinite = true ∧ r 1 = 1 := by
  refine ⟨by decide +kernel, ?_⟩
  rw [r, one_val]; norm_num

theorem lit_ok : (4999 / 10000 : F32).isFinite = true ∧ r (4999 / 10000) = 16773861 / 33554432 := by
  refine ⟨by decide +kernel, ?_⟩
  rw [r, show (4999 / 10000 : F32).val = 16773861 / 33554432 by decide +kernel]; norm_num

section
variable {a b c d : F32} {A B C D η : ℝ}

/-- A lane of a rounded unit rotor. -/
structure LaneOk (x : F32) (X η : ℝ) : Prop where
  fin : x.isFinite = true
  mag : |X| ≤ 1
  err : |r x - X| ≤ η
  eta : η ≤ 1 / 1000

theorem LaneOk.le (h : LaneOk a A η) : |r a| ≤ 1.001 := by
  have h1 := abs_sub_abs_le_abs_sub (r a) A
  have h2 := h.mag; have h3 := h.err; have h4 := h.eta
  norm_num at h4 ⊢; linarith

theorem LaneOk.ap (h : LaneOk a A η) : Ap a (r a) 1.001 0 0 1 := Ap.input h.fin h.le ⟨by norm_num, by norm_num⟩

theorem LaneOk.prod (ha : LaneOk a A η) (hb : LaneOk b B η) : |r a * r b - A * B| ≤ 2.001 * η := by
  have e : r a * r b - A * B = (r a - A) * r b + A * (r b - B) := by ring
  have h0 : 0 ≤ η := (abs_nonneg _).trans ha.err
  rw [e]
  refine (abs_add_le _ _).trans ?_
  rw [abs_mul, abs_mul]
  have h1 := mul_le_mul ha.err hb.le (abs_nonneg _) h0
  have h2 := mul_le_mul ha.mag hb.err (abs_nonneg _) (by norm_num)
  norm_num at h1 ⊢; linarith

theorem lane_mul (ha : LaneOk a A η) (hb : LaneOk b B η) : Ap (a * b) (r a * r b) (1.001 * 1.001) 6e-8 0 2 :=
  ha.ap.mul hb.ap (by norm_num) (by norm_num) (by norm_num) (by norm_num) (by ap_num)

theorem lane_sum (ha : LaneOk a A η) (hb : LaneOk b B η) (hc : LaneOk c C η) (hd : LaneOk d D η) :
    Ap (a * b + c * d) (r a * r b + r c * r d) (1.001 * 1.001 + 1.001 * 1.001) 1.2e-7 0 3 :=
  (lane_mul ha hb).add (lane_mul hc hd) le_rfl le_rfl (by norm_num) (by norm_num) (by ap_num)

theorem lane_diff (ha : LaneOk a A η) (hb : LaneOk b B η) (hc : LaneOk c C η) (hd : LaneOk d D η) :
    Ap (a * b - c * d) (r a * r b - r c * r d) (1.001 * 1.001 + 1.001 * 1.001) 1.2e-7 0 3 :=
  (lane_mul ha hb).sub (lane_mul hc hd) le_rfl le_rfl (by norm_num) (by norm_num) (by ap_num)

theorem two_ap : Ap 2 2 2 0 0 1 := ⟨two_ok.1, by norm_num, by rw [two_ok.2]; norm_num, ⟨by norm_num, by norm_num⟩⟩
theorem one_ap : Ap 1 1 1 0 0 1 := ⟨one_ok.1, by norm_num, by rw [one_ok.2]; norm_num, ⟨by norm_num, by norm_num⟩⟩

/-- The comparison quantity. -/
theorem lane_test (ha : LaneOk a A η) (hb : LaneOk b B η) (hc : LaneOk c C η) (hd : LaneOk d D η) :
    (a * b + c * d).isFinite = true ∧ |r (a * b + c * d) - (A * B + C * D)| ≤ 2.5e-7 + 4.01 * η := by
  have h := lane_sum ha hb hc hd
  have h1 := h.err
  have h2 := ha.prod hb
  have h3 := hc.prod hd
  have h0 : 0 ≤ η := (abs_nonneg _).trans ha.err
  refine ⟨h.fin, ?_⟩
  rw [abs_le] at *
  norm_num at h1 h2 h3 ⊢
  constructor <;> linarith

theorem lane_twice (ha : LaneOk a A η) (hb : LaneOk b B η) (hc : LaneOk c C η) (hd : LaneOk d D η) :
    (2 * (a * b + c * d)).isFinite = true ∧ |r (2 * (a * b + c * d)) - 2 * (A * B + C * D)| ≤ 7.3e-7 + 8.01 * η := by
  have h := two_ap.mul (lane_sum ha hb hc hd) (k'' := 1.8e-7) (by norm_num) (by norm_num) (by norm_num) (by norm_num) (by ap_num)
  have h1 := h.err
  have h2 := ha.prod hb
  have h3 := hc.prod hd
  have h0 : 0 ≤ η := (abs_nonneg _).trans ha.err
  refine ⟨h.fin, ?_⟩
  rw [abs_le] at *
  norm_num at h1 h2 h3 ⊢
  constructor <;> linarith

theorem lane_twice' (ha : LaneOk a A η) (hb : LaneOk b B η) (hc : LaneOk c C η) (hd : LaneOk d D η) :
    (2 * (a * b - c * d)).isFinite = true ∧ |r (2 * (a * b - c * d)) - 2 * (A * B - C * D)| ≤ 7.3e-7 + 8.01 * η := by
  have h := two_ap.mul (lane_diff ha hb hc hd) (k'' := 1.8e-7) (by norm_num) (by norm_num) (by norm_num) (by norm_num) (by ap_num)
  have h1 := h.err
  have h2 := ha.prod hb
  have h3 := hc.prod hd
  have h0 : 0 ≤ η := (abs_nonneg _).trans ha.err
  refine ⟨h.fin, ?_⟩
  rw [abs_le] at *
  norm_num at h1 h2 h3 ⊢
  constructor <;> linarith

theorem lane_cos (ha : LaneOk a A η) (hb : LaneOk b B η) :
    (1 - 2 * (a * a + b * b)).isFinite = true ∧ |r (1 - 2 * (a * a + b * b)) - (1 - 2 * (A * A + B * B))| ≤ 1.22e-6 + 8.01 * η := by
  have h := one_ap.sub (two_ap.mul (lane_sum ha ha hb hb) (k'' := 1.8e-7) (by norm_num) (by norm_num) (by norm_num) (by norm_num) (by ap_num))
    (K := 1.8e-7) (k'' := 2.4e-7) (by norm_num) le_rfl (by norm_num) (by norm_num) (by ap_num)
  have h1 := h.err
  have h2 := ha.prod ha
  have h3 := hb.prod hb
  have h0 : 0 ≤ η := (abs_nonneg _).trans ha.err
  refine ⟨h.fin, ?_⟩
  rw [abs_le] at *
  norm_num at h1 h2 h3 ⊢
  constructor <;> linarith

end

section
variable {lm : Libm F32} (hl : lm.Contract32) (hf : lm.AnnexF) (he : lm.Euler32)

include hl hf in
/-- One of the two arguments. -/
theorem turn_near {y x : F32} {Y X c η : ℝ} (hη0 : 0 ≤ η) (hη : η ≤ 1 / 2 ^ 21) (hc : 1 / 64 ≤ c) (h : X ^ 2 + Y ^ 2 = c ^ 2)
    (hy : y.isFinite = true ∧ |r y - Y| ≤ 7.3e-7 + 8.01 * η) (hx : x.isFinite = true ∧ |r x - X| ≤ 1.22e-6 + 8.01 * η) :
    (lm.atan2 y x).isFinite = true ∧ |r (lm.atan2 y x)| ≤ 3.2 ∧
      ∃ k : ℤ, |r (lm.atan2 y x) - Complex.arg ⟨X, Y⟩ - 2 * Real.pi * k| ≤ (1.48e-6 + 11.8 * η) / c + 7.6e-7 := by
  have c0 : 0 < c := lt_of_lt_of_le (by norm_num) hc
  have h1 : (r y - Y) ^ 2 ≤ (7.3e-7 + 8.01 * η) ^ 2 := by rw [← sq_abs]; exact pow_le_pow_left₀ (abs_nonneg _) hy.2 2
  have h2 : (r x - X) ^ 2 ≤ (1.22e-6 + 8.01 * η) ^ 2 := by rw [← sq_abs]; exact pow_le_pow_left₀ (abs_nonneg _) hx.2 2
  have h3 : (r x - X) ^ 2 + (r y - Y) ^ 2 ≤ (1.43e-6 + 11.4 * η) ^ 2 := by
    norm_num at h1 h2 ⊢; nlinarith
  have hec : 1.43e-6 + 11.4 * η ≤ c / 50 := by norm_num at hη ⊢; linarith
  obtain ⟨k, hk⟩ := arg_near c0 h h3 (by positivity) hec
  have hne : r x ≠ 0 ∨ r y ≠ 0 := by
    by_contra hcon
    push Not at hcon
    rw [hcon.1, hcon.2] at h3
    have : c ^ 2 ≤ (c / 50) ^ 2 := by
      rw [← h]
      refine le_trans (by linarith) (pow_le_pow_left₀ (by positivity) hec 2)
    nlinarith
  obtain ⟨f1, f2, l, f3⟩ := atan2_turn hl hf hy.1 hx.1 hne
  refine ⟨f1, f2, l + k, ?_⟩
  have := (abs_add_le _ _).trans (add_le_add f3 hk)
  have e : r (lm.atan2 y x) - Complex.arg ⟨r x, r y⟩ - 2 * Real.pi * l + (Complex.arg ⟨r x, r y⟩ - Complex.arg ⟨X, Y⟩ - 2 * Real.pi * k) =
      r (lm.atan2 y x) - Complex.arg ⟨X, Y⟩ - 2 * Real.pi * ((l + k : ℤ) : ℝ) := by push_cast; ring
  rw [e] at this
  refine this.trans ?_
  have : 1.03 * ((1.43e-6 + 11.4 * η) / c) ≤ (1.48e-6 + 11.8 * η) / c := by
    rw [← mul_div_assoc]
    refine div_le_div_of_nonneg_right ?_ c0.le
    norm_num; linarith
  linarith

variable {q : Rotor F32} {Q : Rotor ℝ} {η : ℝ}

/-- The exact angles where the code's gimbal test does not fire. -/
theorem Rotor.euler_real (Q : Rotor ℝ) (hg : |Q.gimbalTest| ≤ 4999 / 10000) (hp : |Q.sinp| ≤ 1) :
    Q.as_euler_angles Libm.real =
      ⟨Complex.arg ⟨1 - 2 * (Q.p1.l1 * Q.p1.l1 + Q.p1.l2 * Q.p1.l2), 2 * (Q.p1.l0 * Q.p1.l1 + Q.p1.l2 * Q.p1.l3)⟩,
       Real.arcsin (2 * (Q.p1.l0 * Q.p1.l2 - Q.p1.l1 * Q.p1.l3)),
       Complex.arg ⟨1 - 2 * (Q.p1.l2 * Q.p1.l2 + Q.p1.l3 * Q.p1.l3), 2 * (Q.p1.l0 * Q.p1.l3 + Q.p1.l1 * Q.p1.l2)⟩⟩ := by
  obtain ⟨⟨b0, b1, b2, b3⟩⟩ := Q
  simp only [Rotor.gimbalTest] at hg
  simp only [Rotor.sinp] at hp
  obtain ⟨hg1, hg2⟩ := abs_le.1 hg
  have t1 : decide ((4999 / 10000 : ℝ) < b1 * b2 + b3 * b0) = false := decide_eq_false (not_lt.2 hg2)
  have t2 : decide (b1 * b2 + b3 * b0 < -(4999 / 10000 : ℝ)) = false := decide_eq_false (not_lt.2 hg1)
  have t3 : decide (1 < |2 * (b0 * b2 - b1 * b3)|) = false := decide_eq_false (not_lt.2 hp)
  simp only [Rotor.as_euler_angles, Libm.real, t1, t2, t3, cond_false]

include hl hf he in
/-- C99: the angles of a rounded rotor.  `c` is the cosine of the pitch; roll and yaw agree up to full turns. -/
theorem C99_angles (hQ : Q.sqNorm = 1) (h : q.Close Q η) (hη : η ≤ 1 / 2 ^ 21) (hg : |Q.gimbalTest| ≤ 0.49989) {c : ℝ}
    (hs : Q.sinp ^ 2 + c ^ 2 = 1) (hc : 1 / 64 ≤ c) :
    ((q.as_euler_angles lm).roll.isFinite = true ∧ |r (q.as_euler_angles lm).roll| ≤ 3.2 ∧
      ∃ k : ℤ, |r (q.as_euler_angles lm).roll - (Q.as_euler_angles Libm.real).roll - 2 * Real.pi * k| ≤ (1.48e-6 + 11.8 * η) / c + 7.6e-7) ∧
    ((q.as_euler_angles lm).pitch.isFinite = true ∧ |r (q.as_euler_angles lm).pitch| ≤ 3.2 ∧
      |r (q.as_euler_angles lm).pitch - (Q.as_euler_angles Libm.real).pitch| ≤ (7.6e-7 + 8.3 * η) / c + 3.8e-7) ∧
    ((q.as_euler_angles lm).yaw.isFinite = true ∧ |r (q.as_euler_angles lm).yaw| ≤ 3.2 ∧
      ∃ k : ℤ, |r (q.as_euler_angles lm).yaw - (Q.as_euler_angles Libm.real).yaw - 2 * Real.pi * k| ≤ (1.48e-6 + 11.8 * η) / c + 7.6e-7) := by
  have hη0 : 0 ≤ η := (abs_nonneg _).trans (h 0).2
  have c0 : 0 < c := lt_of_lt_of_le (by norm_num) hc
  have c1 : c ^ 2 ≤ 1 := by nlinarith [sq_nonneg Q.sinp]
  have c2 : 1 / 4096 ≤ c ^ 2 := by nlinarith
  have hS : |Q.sinp| ≤ 1 - 1.2e-4 := abs_le_of_sq_le_sq (by norm_num; nlinarith) (by norm_num)
  have L : ∀ i : Fin 4, LaneOk (q.p1.get i) (Q.p1.get i) η := fun i =>
    ⟨(h i).1, Rotor.lane_le hQ i, (h i).2, hη.trans (by norm_num)⟩
  have L0 := L 0; have L1 := L 1; have L2 := L 2; have L3 := L 3
  rw [Rotor.euler_real Q (hg.trans (by norm_num)) (hS.trans (by norm_num))]
  obtain ⟨⟨B0, B1, B2, B3⟩⟩ := Q
  obtain ⟨⟨b0, b1, b2, b3⟩⟩ := q
  simp only [V4.get] at L0 L1 L2 L3
  simp only [Rotor.gimbalTest] at hg
  simp only [Rotor.sqNorm, kln] at hQ
  simp only [Rotor.sinp] at hs hS
  obtain ⟨T1, T2⟩ := lane_test L1 L2 L3 L0
  have T3 : |r (b1 * b2 + b3 * b0)| < 0.4999 := by
    have h1 := abs_sub_abs_le_abs_sub (r (b1 * b2 + b3 * b0)) (B1 * B2 + B3 * B0)
    norm_num at hg T2 hη ⊢; linarith
  obtain ⟨T4, T5⟩ := abs_lt.1 T3
  have t1 : lm.flt (4999 / 10000) (b1 * b2 + b3 * b0) = false := by
    rw [← Bool.not_eq_true, he.flt _ _ lit_ok.1 T1, lit_ok.2, not_lt]
    norm_num at T5 ⊢; linarith
  have t2 : lm.flt (b1 * b2 + b3 * b0) (-(4999 / 10000)) = false := by
    rw [← Bool.not_eq_true, he.flt _ _ T1 (by rw [isFinite_neg]; exact lit_ok.1), r_neg, lit_ok.2, not_lt]
    norm_num at T4 ⊢; linarith
  obtain ⟨P1, P2⟩ := lane_twice' L0 L2 L1 L3
  have P3 : |r (2 * (b0 * b2 - b1 * b3))| ≤ 1 := by
    have h1 := abs_sub_abs_le_abs_sub (r (2 * (b0 * b2 - b1 * b3))) (2 * (B0 * B2 - B1 * B3))
    have hS2 : |2 * (B0 * B2 - B1 * B3)| ≤ 24997 / 25000 := hS.trans (by norm_num)
    norm_num at P2 hη ⊢; linarith
  have t3 : lm.flt 1 (lm.abs (2 * (b0 * b2 - b1 * b3))) = false := by
    obtain ⟨a1, a2⟩ := he.abs _ P1
    rw [← Bool.not_eq_true, he.flt _ _ one_ok.1 a1, one_ok.2, a2, not_lt]; exact P3
  simp only [Rotor.as_euler_angles, t1, t2, t3, cond_false]
  refine ⟨turn_near hl hf hη0 hη hc ?_ (lane_twice L0 L1 L2 L3) (lane_cos L1 L2), ?_,
    turn_near hl hf hη0 hη hc ?_ (lane_twice L0 L3 L1 L2) (lane_cos L2 L3)⟩
  · rw [← eq_sub_iff_add_eq'] at hs
    rw [hs]; grobner
  · obtain ⟨a1, a2⟩ := he.asin _ P1 P3
    have hh := abs_le.2 ⟨Real.neg_pi_div_two_le_arcsin (r (2 * (b0 * b2 - b1 * b3))), Real.arcsin_le_pi_div_two (r (2 * (b0 * b2 - b1 * b3)))⟩
    have hpi := Real.pi_lt_d2
    have a3 : 1 / 2 ^ 22 * max (1 / 2 ^ 126) |Real.arcsin (r (2 * (b0 * b2 - b1 * b3)))| ≤ 1 / 2 ^ 22 * 1.575 :=
      mul_le_mul_of_nonneg_left (max_le (by norm_num) (hh.trans (by norm_num at hpi ⊢; linarith))) (by norm_num)
    have a4 : |r (lm.asin (2 * (b0 * b2 - b1 * b3))) - Real.arcsin (r (2 * (b0 * b2 - b1 * b3)))| ≤ 3.8e-7 :=
      (a2.trans a3).trans (by norm_num)
    refine ⟨a1, ?_, ?_⟩
    · have h1 := abs_sub_abs_le_abs_sub (r (lm.asin (2 * (b0 * b2 - b1 * b3)))) (Real.arcsin (r (2 * (b0 * b2 - b1 * b3))))
      norm_num at a4 hpi ⊢; linarith
    · have a5 := arcsin_near c0 hs P2 (by norm_num at hη ⊢; linarith)
      have := (abs_add_le _ _).trans (add_le_add a4 a5)
      rw [sub_add_sub_cancel] at this
      refine this.trans ?_
      have : 1.03 * ((7.3e-7 + 8.01 * η) / c) ≤ (7.6e-7 + 8.3 * η) / c := by
        rw [← mul_div_assoc]
        refine div_le_div_of_nonneg_right ?_ c0.le
        norm_num; linarith
      linarith
  · rw [← eq_sub_iff_add_eq'] at hs
    rw [hs]; grobner

include hl hf he in
/-- C99: the rotor made from the angles of a rounded rotor is the rotor, up to sign. -/
theorem C99_round_trip {hw : Hw F32} (hc : hw.Contract32) (isa : Isa) (hQ : Q.sqNorm = 1) (h : q.Close Q η) (hη : η ≤ 1 / 2 ^ 21)
    (hg : |Q.gimbalTest| ≤ 0.49989) {c : ℝ} (hs : Q.sinp ^ 2 + c ^ 2 = 1) (hc1 : 1 / 64 ≤ c) :
    (Rotor.mkEuler hw lm isa (q.as_euler_angles lm)).Close Q (2.1e-5 + (1.9e-6 + 16 * η) / c) ∨
    (Rotor.mkEuler hw lm isa (q.as_euler_angles lm)).Close ⟨⟨-Q.p1.l0, -Q.p1.l1, -Q.p1.l2, -Q.p1.l3⟩⟩ (2.1e-5 + (1.9e-6 + 16 * η) / c) := by
  obtain ⟨⟨r1, r2, k, r3⟩, ⟨p1, p2, p3⟩, ⟨y1, y2, l, y3⟩⟩ := C99_angles hl hf he hQ h hη hg hs hc1
  have hη0 : 0 ≤ η := (abs_nonneg _).trans (h 0).2
  have c0 : 0 < c := lt_of_lt_of_le (by norm_num) hc1
  have hS1 : |Q.sinp| < 1 := abs_lt_of_sq_lt_sq (by nlinarith) (by norm_num)
  have m := fun i => C79_rotor_mkEuler hc hl Hw.ideal_exact isa isa (q.as_euler_angles lm) ⟨r1, r2.trans (by norm_num)⟩
    ⟨p1, p2.trans (by norm_num)⟩ ⟨y1, y2.trans (by norm_num)⟩ i
  have g := C37_generic_partial Hw.ideal_exact isa Q hQ (hg.trans (by norm_num)) hS1
  rw [Rotor.mkEuler_eq Hw.ideal_exact isa] at g
  have m' : ∀ i : Fin 4, ((Rotor.mkEuler hw lm isa (q.as_euler_angles lm)).p1.get i).isFinite = true ∧
      |r ((Rotor.mkEuler hw lm isa (q.as_euler_angles lm)).p1.get i) -
        (eulerQuat (r (q.as_euler_angles lm).roll) (r (q.as_euler_angles lm).pitch) (r (q.as_euler_angles lm).yaw)).get i| ≤ 2e-5 := fun i => by
    have := m i
    rwa [Rotor.mkEuler_eq Hw.ideal_exact isa] at this
  clear m
  generalize q.as_euler_angles lm = ea at *
  generalize Q.as_euler_angles Libm.real = EA at *
  generalize Rotor.mkEuler hw lm isa ea = R at *
  have lip := eulerQuat_lip (r ea.roll) (r ea.pitch) (r ea.yaw) (EA.roll + 2 * Real.pi * k) EA.pitch (EA.yaw + 2 * Real.pi * l)
  rw [← sub_sub, ← sub_sub] at lip
  have key : ∀ i : Fin 4, (R.p1.get i).isFinite = true ∧
      |r (R.p1.get i) - (eulerQuat (EA.roll + 2 * Real.pi * k) EA.pitch (EA.yaw + 2 * Real.pi * l)).get i| ≤
        2.1e-5 + (1.9e-6 + 16 * η) / c := fun i => by
    obtain ⟨m1, m2⟩ := m' i
    refine ⟨m1, ?_⟩
    have := (abs_add_le _ _).trans (add_le_add m2 (lip i))
    rw [sub_add_sub_cancel] at this
    refine this.trans ?_
    have e : ((1.48e-6 + 11.8 * η) / c + (7.6e-7 + 8.3 * η) / c + (1.48e-6 + 11.8 * η) / c) / 2 ≤ (1.9e-6 + 16 * η) / c := by
      rw [← add_div, ← add_div, div_div, mul_comm c 2, ← div_div]
      refine div_le_div_of_nonneg_right ?_ c0.le
      norm_num; linarith
    norm_num at e r3 p3 y3 ⊢
    linarith
  clear m' lip r3 p3 y3
  have fin : ∀ {V : V4 ℝ} {S : Rotor ℝ}, (∀ i : Fin 4, (eulerQuat (EA.roll + 2 * Real.pi * k) EA.pitch (EA.yaw + 2 * Real.pi * l)).get i = V.get i) →
      V = S.p1 → R.Close S (2.1e-5 + (1.9e-6 + 16 * η) / c) := by
    intro V S h1 h2 i
    have := key i
    rwa [h1, h2] at this
  rcases eulerQuat_turns EA.roll EA.pitch EA.yaw k l with ht | ht <;> rcases g with g | g
  · left; exact fin ht (congrArg Rotor.p1 g)
  · right; exact fin ht (congrArg Rotor.p1 g)
  · right
    have g' := congrArg Rotor.p1 g
    refine fin (V := ⟨-Q.p1.l0, -Q.p1.l1, -Q.p1.l2, -Q.p1.l3⟩) (fun i => ?_) rfl
    rw [ht i, show eulerQuat EA.roll EA.pitch EA.yaw = Q.p1 from g']
    match i with
    | 0 => rfl
    | 1 => rfl
    | 2 => rfl
    | 3 => rfl
  · left
    have g' := congrArg Rotor.p1 g
    refine fin (V := Q.p1) (fun i => ?_) rfl
    rw [ht i, show eulerQuat EA.roll EA.pitch EA.yaw = ⟨-Q.p1.l0, -Q.p1.l1, -Q.p1.l2, -Q.p1.l3⟩ from g']
    match i with
    | 0 => exact neg_neg _
    | 1 => exact neg_neg _
    | 2 => exact neg_neg _
    | 3 => exact neg_neg _

end

/-- The first float above `10⁻⁶`: a float is below it exactly if it is below `10⁻⁶`. -/
def F32.eps6 : F32 := ⟨false, ⟨897988542, by norm_num⟩⟩

theorem F32.lt_eps6 (x : F32) : |r x| < r eps6 ↔ |r x| < 1 / 1000000 := by
  have e1 : r eps6 = ((magVal 897988542 : ℚ) : ℝ) := rfl
  have e2 : |r x| = ((magVal x.mag : ℚ) : ℝ) := by
    rw [← abs_val, Rat.cast_abs]; rfl
  have h1 : (1 : ℚ) / 1000000 ≤ magVal 897988542 := by decide +kernel
  have h2 : magVal 897988541 < (1 : ℚ) / 1000000 := by decide +kernel
  rw [e1, e2, show (1 / 1000000 : ℝ) = ((1 / 1000000 : ℚ) : ℝ) by push_cast; rfl, Rat.cast_lt, Rat.cast_lt]
  refine ⟨fun h => ?_, fun h => h.trans_le h1⟩
  have h3 : x.mag.val < 897988541 + 1 := magVal_strictMono.lt_iff_lt.1 h
  exact (magVal_strictMono.monotone (Nat.lt_succ_iff.1 h3)).trans_lt h2

/-- A library can satisfy all three sets of assumptions. -/
theorem C99_contract_inhabited : ∃ lm : Libm F32, lm.Contract32 ∧ lm.AnnexF ∧ lm.Euler32 := by
  classical
  obtain ⟨lm, h, hf⟩ := C96_annexF_inhabited
  have b : ∀ x : ℝ, |Real.arcsin x| ≤ 2 ^ 70 := fun x =>
    (abs_le.2 ⟨Real.neg_pi_div_two_le_arcsin x, Real.arcsin_le_pi_div_two x⟩).trans
      ((div_le_self Real.pi_pos.le (by norm_num)).trans (Real.pi_le_four.trans (by norm_num)))
  choose f hfa using fun x : ℝ => exists_ulp2 (b x)
  have ha : ∀ x : F32, r x.abs = |r x| := fun x => by
    rw [r, r, ← Rat.cast_abs, abs_val]; rfl
  refine ⟨{ lm with asin := fun x => f (r x), abs := F32.abs, flt := fun x y => decide (r x < r y), eps6 := F32.eps6, pi_2 := f 1 },
    ⟨h.sqrt, h.sin, h.cos, h.acos, h.atan2, h.feq, fun x _ => ?_⟩, ⟨hf.atan2_pos, hf.atan2_neg⟩,
    fun x _ _ => hfa _, fun x hx => ⟨hx, ha x⟩, fun x y _ _ => decide_eq_true_iff, ?_⟩
  · rw [decide_eq_true_iff, ha, F32.lt_eps6]
  · have := hfa 1
    rwa [Real.arcsin_one] at this

/-! ### instances -/

/-- A rotor about a skew axis. -/
noncomputable def skewQ : Rotor ℝ := ⟨⟨4 / 5, 2 / 5, 2 / 5, 1 / 5⟩⟩
def skewq : Rotor F32 := ⟨⟨4 / 5, 2 / 5, 2 / 5, 1 / 5⟩⟩

theorem skew_close : skewq.Close skewQ (1 / 2 ^ 24) := by
  have e0 : (4 / 5 : F32).val = 13421773 / 16777216 := by decide +kernel
  have e1 : (2 / 5 : F32).val = 13421773 / 33554432 := by decide +kernel
  have e3 : (1 / 5 : F32).val = 13421773 / 67108864 := by decide +kernel
  intro i
  match i with
  | 0 => exact ⟨by decide +kernel, by simp only [V4.get, skewq, skewQ, r, e0]; norm_num [abs_of_pos]⟩
  | 1 => exact ⟨by decide +kernel, by simp only [V4.get, skewq, skewQ, r, e1]; norm_num [abs_of_pos]⟩
  | 2 => exact ⟨by decide +kernel, by simp only [V4.get, skewq, skewQ, r, e1]; norm_num [abs_of_pos]⟩
  | 3 => exact ⟨by decide +kernel, by simp only [V4.get, skewq, skewQ, r, e3]; norm_num [abs_of_pos]⟩

/-- C99 on a concrete rotor: the round trip changes each lane by less than 3·10⁻⁵, up to the common sign. -/
theorem C99_example {hw : Hw F32} (hc : hw.Contract32) {lm : Libm F32} (hl : lm.Contract32) (hf : lm.AnnexF) (he : lm.Euler32) (isa : Isa) :
    (Rotor.mkEuler hw lm isa (skewq.as_euler_angles lm)).Close skewQ 3e-5 ∨
    (Rotor.mkEuler hw lm isa (skewq.as_euler_angles lm)).Close ⟨⟨-(4 / 5), -(2 / 5), -(2 / 5), -(1 / 5)⟩⟩ 3e-5 := by
  have hs : skewQ.sinp ^ 2 + √0.7696 ^ 2 = 1 := by
    rw [Real.sq_sqrt (by norm_num)]; simp only [Rotor.sinp, skewQ]; norm_num
  have hc8 : (0.8 : ℝ) ≤ √0.7696 := Real.le_sqrt_of_sq_le (by norm_num)
  have h := C99_round_trip hl hf he hc isa (Q := skewQ) (by simp only [skewQ, Rotor.sqNorm, kln]; norm_num) skew_close (by norm_num)
    (by simp only [skewQ, Rotor.gimbalTest]; norm_num [abs_of_pos]) hs (le_trans (by norm_num) hc8)
  have le : (2.1e-5 + (1.9e-6 + 16 * (1 / 2 ^ 24)) / √0.7696 : ℝ) ≤ 3e-5 := by
    have : ((1.9e-6 + 16 * (1 / 2 ^ 24)) / √0.7696 : ℝ) ≤ (1.9e-6 + 16 * (1 / 2 ^ 24)) / 0.8 :=
      div_le_div_of_nonneg_left (by norm_num) (by norm_num) hc8
    refine (add_le_add_right this _).trans (by norm_num)
  exact h.imp (fun h i => ⟨(h i).1, (h i).2.trans le⟩) (fun h i => ⟨(h i).1, (h i).2.trans le⟩)

/-- The rounded quarter turn about the z axis. -/
def quarterq : Rotor F32 := ⟨⟨⟨false, ⟨1060439283, by norm_num⟩⟩, 0, 0, ⟨false, ⟨1060439283, by norm_num⟩⟩⟩⟩

/-- C99 fails in binary32 for want of the second condition: the pitch of the quarter turn about the z axis is zero, but the
gimbal test fires and the round trip turns it into a quarter turn about the y axis. -/
theorem C99_fails_yaw {hw : Hw F32} (hc : hw.Contract32) {lm : Libm F32} (hl : lm.Contract32) (hf : lm.AnnexF) (he : lm.Euler32) (isa : Isa) :
    quarterq.Close ⟨⟨√2 / 2, 0, 0, √2 / 2⟩⟩ 1e-7 ∧
    (Rotor.mkEuler hw lm isa (quarterq.as_euler_angles lm)).Close ⟨⟨√2 / 2, 0, √2 / 2, 0⟩⟩ 2.1e-5 := by
  have e : (⟨false, ⟨1060439283, by norm_num⟩⟩ : F32).val = 11863283 / 16777216 := by decide +kernel
  have s1 : (1.41421356 : ℝ) ≤ √2 := Real.le_sqrt_of_sq_le (by norm_num)
  have s2 : √2 ≤ (1.41421357 : ℝ) := Real.sqrt_le_iff.2 ⟨by norm_num, by norm_num⟩
  constructor
  · intro i
    match i with
    | 0 => exact ⟨by decide +kernel, by simp only [V4.get, quarterq, r, e]; rw [abs_le]; push_cast; norm_num at s1 s2 ⊢; constructor <;> linarith⟩
    | 1 => exact ⟨by decide +kernel, by simp only [V4.get, quarterq, r_zero]; norm_num⟩
    | 2 => exact ⟨by decide +kernel, by simp only [V4.get, quarterq, r_zero]; norm_num⟩
    | 3 => exact ⟨by decide +kernel, by simp only [V4.get, quarterq, r, e]; rw [abs_le]; push_cast; norm_num at s1 s2 ⊢; constructor <;> linarith⟩
  · have t : lm.flt (4999 / 10000) (0 * 0 + ⟨false, ⟨1060439283, by norm_num⟩⟩ * ⟨false, ⟨1060439283, by norm_num⟩⟩) = true := by
      rw [he.flt _ _ lit_ok.1 (by decide +kernel), lit_ok.2, r]
      have : (1 / 4 + 1 / 4 - 1 / 2 ^ 20 : ℚ) < (0 * 0 + ⟨false, ⟨1060439283, by norm_num⟩⟩ * ⟨false, ⟨1060439283, by norm_num⟩⟩ : F32).val := by decide +kernel
      have : ((1 / 4 + 1 / 4 - 1 / 2 ^ 20 : ℚ) : ℝ) < _ := Rat.cast_lt.2 this
      push_cast at this
      exact lt_trans (by norm_num) this
    have a : quarterq.as_euler_angles lm = ⟨2 * z false, lm.pi_2, 0⟩ := by
      simp only [Rotor.as_euler_angles, quarterq, t, cond_true]
      rw [show (0 : F32) = z false from rfl, hf.atan2_pos _ _ (by decide +kernel) rfl]
    have zz : (2 * z false : F32) = 0 := by decide +kernel
    rw [a, zz]
    obtain ⟨p1, p2⟩ := he.pi_2
    have hpi := Real.pi_lt_d2
    have hpi0 := Real.pi_pos
    have p3 : |r lm.pi_2 - Real.pi / 2| ≤ 4e-7 := by
      rw [abs_of_pos (by positivity : 0 < Real.pi / 2)] at p2
      have : 1 / 2 ^ 22 * max (1 / 2 ^ 126) (Real.pi / 2) ≤ 1 / 2 ^ 22 * 1.575 :=
        mul_le_mul_of_nonneg_left (max_le (by norm_num) (by norm_num at hpi ⊢; linarith)) (by norm_num)
      exact (p2.trans this).trans (by norm_num)
    have p4 : |r lm.pi_2| ≤ 8 := by
      rw [abs_le] at *
      norm_num at p3 hpi ⊢
      constructor <;> linarith [p3.1, p3.2]
    have f0 : (0 : F32).isFinite = true ∧ |r 0| ≤ 8 := ⟨by decide +kernel, by rw [r_zero]; norm_num⟩
    have m := fun i => C79_rotor_mkEuler hc hl Hw.ideal_exact isa isa ⟨0, lm.pi_2, 0⟩ f0 ⟨p1, p4⟩ f0 i
    have lip := eulerQuat_lip 0 (r lm.pi_2) 0 0 (Real.pi / 2) 0
    have ev : eulerQuat 0 (Real.pi / 2) 0 = ⟨√2 / 2, 0, √2 / 2, 0⟩ := by
      have : Real.pi / 2 / 2 = Real.pi / 4 := by ring
      simp [eulerQuat, this, Real.cos_pi_div_four, Real.sin_pi_div_four]
    intro i
    obtain ⟨m1, m2⟩ := m i
    rw [Rotor.mkEuler_eq Hw.ideal_exact isa] at m2
    simp only [r_zero] at m2
    have l := lip i
    rw [ev] at l
    refine ⟨m1, ?_⟩
    have := (abs_add_le _ _).trans (add_le_add m2 l)
    rw [sub_add_sub_cancel] at this
    refine this.trans ?_
    rw [sub_self, abs_zero]
    norm_num at p3 ⊢; linarith

end Klein
