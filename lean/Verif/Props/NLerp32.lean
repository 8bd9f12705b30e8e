import Verif.Props.SlerpMotor32

/-!
# C101: normalised linear interpolation in binary32

`((1 - t) * m1 + t * m2).normalize()` of the documentation, computed in binary32 from motors that are themselves rounded,
against the same expression evaluated exactly for the exact motors.
-/

set_option linter.unusedSimpArgs false

namespace Klein

open F32

/-! ### normalisation as a map of Euclidean spaces -/

namespace NLerp

variable {E : Type} [NormedAddCommGroup E] [InnerProductSpace ℝ E]

theorem unit_lip {x X : E} (hx : x ≠ 0) (hX : X ≠ 0) : ‖‖x‖⁻¹ • x - ‖X‖⁻¹ • X‖ ≤ 2 * ‖x - X‖ / ‖X‖ := by
  have h1 : 0 < ‖x‖ := norm_pos_iff.2 hx
  have h2 : 0 < ‖X‖ := norm_pos_iff.2 hX
  have e : ‖x‖⁻¹ • x - ‖X‖⁻¹ • X = (‖x‖⁻¹ - ‖X‖⁻¹) • x + ‖X‖⁻¹ • (x - X) := by module
  rw [e]
  refine (norm_add_le _ _).trans ?_
  rw [norm_smul, norm_smul, Real.norm_eq_abs, Real.norm_eq_abs, abs_of_pos (inv_pos.2 h2)]
  have e2 : |‖x‖⁻¹ - ‖X‖⁻¹| * ‖x‖ = |‖X‖ - ‖x‖| / ‖X‖ := by
    rw [inv_sub_inv h1.ne' h2.ne', abs_div, abs_of_pos (mul_pos h1 h2)]; field_simp
  rw [e2, inv_mul_eq_div, ← add_div]
  refine div_le_div_of_nonneg_right ?_ h2.le
  have := abs_norm_sub_norm_le x X
  rw [abs_sub_comm] at this
  linarith

/-- The part of `Y` orthogonal to a unit vector is not longer than `Y`. -/
theorem perp_le {e Y : E} (he : ‖e‖ = 1) : ‖Y - inner ℝ e Y • e‖ ≤ ‖Y‖ := by
  refine abs_le_of_sq_le_sq' ?_ (norm_nonneg _) |>.2
  rw [norm_sub_sq_real, inner_smul_right, norm_smul, he, mul_one, Real.norm_eq_abs, sq_abs, real_inner_comm]
  nlinarith [sq_nonneg (inner ℝ e Y)]

theorem unit_norm {x : E} (hx : x ≠ 0) : ‖‖x‖⁻¹ • x‖ = 1 := by
  rw [norm_smul, norm_inv, norm_norm, inv_mul_cancel₀ (norm_ne_zero_iff.2 hx)]

theorem perp_lip {e f Y : E} (he : ‖e‖ = 1) (hf : ‖f‖ = 1) : ‖inner ℝ e Y • e - inner ℝ f Y • f‖ ≤ 2 * ‖e - f‖ * ‖Y‖ := by
  have h : inner ℝ e Y • e - inner ℝ f Y • f = inner ℝ (e - f) Y • e + inner ℝ f Y • (e - f) := by
    rw [inner_sub_left]; module
  rw [h]
  refine (norm_add_le _ _).trans ?_
  rw [norm_smul, norm_smul, he, mul_one, Real.norm_eq_abs, Real.norm_eq_abs]
  have h1 := abs_real_inner_le_norm (e - f) Y
  have h2 := abs_real_inner_le_norm f Y
  rw [hf, one_mul] at h2
  nlinarith [norm_nonneg (e - f), mul_le_mul_of_nonneg_right h2 (norm_nonneg (e - f))]

/-- The moment part of a normalised motor. -/
noncomputable def mom (Z Y : E) : E := ‖Z‖⁻¹ • (Y - inner ℝ (‖Z‖⁻¹ • Z) Y • (‖Z‖⁻¹ • Z))

theorem mom_lip {z Z y Y : E} (hZ : Z ≠ 0) (h : ‖z - Z‖ ≤ ‖Z‖ / 100) :
    ‖mom z y - mom Z Y‖ ≤ 1.02 * ‖y - Y‖ / ‖Z‖ + 5.02 * ‖Y‖ * ‖z - Z‖ / ‖Z‖ ^ 2 := by
  have hN : 0 < ‖Z‖ := norm_pos_iff.2 hZ
  have hn : 0.99 * ‖Z‖ ≤ ‖z‖ := by
    have := norm_sub_norm_le Z z
    rw [norm_sub_rev] at this
    norm_num; linarith
  have hn0 : 0 < ‖z‖ := lt_of_lt_of_le (by positivity) hn
  have hz : z ≠ 0 := norm_pos_iff.1 hn0
  have hl := unit_lip hz hZ
  have e1 := unit_norm hz
  have e2 := unit_norm hZ
  have hinv : ‖z‖⁻¹ ≤ 1.02 / ‖Z‖ := by
    rw [inv_eq_one_div, div_le_div_iff₀ hn0 hN]; norm_num at hn ⊢; linarith
  have hd : |‖z‖⁻¹ - ‖Z‖⁻¹| ≤ 1.02 * ‖z - Z‖ / ‖Z‖ ^ 2 := by
    rw [inv_sub_inv hn0.ne' hN.ne', abs_div, abs_of_pos (mul_pos hn0 hN), div_le_div_iff₀ (mul_pos hn0 hN) (by positivity)]
    have h3 := abs_norm_sub_norm_le z Z
    rw [abs_sub_comm] at h3
    have h4 : ‖Z‖ ^ 2 ≤ 1.02 * (‖z‖ * ‖Z‖) := by
      have := mul_le_mul_of_nonneg_right hn hN.le
      norm_num at this ⊢; nlinarith
    calc |‖Z‖ - ‖z‖| * ‖Z‖ ^ 2 ≤ ‖z - Z‖ * (1.02 * (‖z‖ * ‖Z‖)) := mul_le_mul h3 h4 (by positivity) (norm_nonneg _)
      _ = _ := by ring
  have e : mom z y - mom Z Y = ‖z‖⁻¹ • ((y - Y) - inner ℝ (‖z‖⁻¹ • z) (y - Y) • (‖z‖⁻¹ • z)) +
      ((‖z‖⁻¹ - ‖Z‖⁻¹) • (Y - inner ℝ (‖z‖⁻¹ • z) Y • (‖z‖⁻¹ • z)) -
        ‖Z‖⁻¹ • (inner ℝ (‖z‖⁻¹ • z) Y • (‖z‖⁻¹ • z) - inner ℝ (‖Z‖⁻¹ • Z) Y • (‖Z‖⁻¹ • Z))) := by
    simp only [mom]
    rw [inner_sub_right]
    generalize ‖z‖⁻¹ • z = p
    generalize ‖Z‖⁻¹ • Z = q
    module
  rw [e]
  have t1 : ‖‖z‖⁻¹ • ((y - Y) - inner ℝ (‖z‖⁻¹ • z) (y - Y) • (‖z‖⁻¹ • z))‖ ≤ 1.02 / ‖Z‖ * ‖y - Y‖ := by
    rw [norm_smul, norm_inv, norm_norm]
    exact mul_le_mul hinv (perp_le e1) (norm_nonneg _) (by positivity)
  have t2 : ‖(‖z‖⁻¹ - ‖Z‖⁻¹) • (Y - inner ℝ (‖z‖⁻¹ • z) Y • (‖z‖⁻¹ • z))‖ ≤ 1.02 * ‖z - Z‖ / ‖Z‖ ^ 2 * ‖Y‖ := by
    rw [norm_smul, Real.norm_eq_abs]
    exact mul_le_mul hd (perp_le e1) (norm_nonneg _) (by positivity)
  have t3 : ‖‖Z‖⁻¹ • (inner ℝ (‖z‖⁻¹ • z) Y • (‖z‖⁻¹ • z) - inner ℝ (‖Z‖⁻¹ • Z) Y • (‖Z‖⁻¹ • Z))‖ ≤
      ‖Z‖⁻¹ * (2 * (2 * ‖z - Z‖ / ‖Z‖) * ‖Y‖) := by
    rw [norm_smul, norm_inv, norm_norm]
    refine mul_le_mul_of_nonneg_left ((perp_lip e1 e2).trans ?_) (inv_nonneg.2 hN.le)
    gcongr
  refine (norm_add_le _ _).trans ((add_le_add t1 ((norm_sub_le _ _).trans (add_le_add t2 t3))).trans (le_of_eq ?_))
  field_simp; ring

end NLerp

/-! ### normalisation of rounded motors -/

/-- The sign of the first lane changed. -/
def V4.flip0 (v : V4 ℝ) : V4 ℝ := ⟨-v.l0, v.l1, v.l2, v.l3⟩

theorem V4.flip0_sub (v w : V4 ℝ) : ‖v.flip0.vec4 - w.flip0.vec4‖ = ‖v.vec4 - w.vec4‖ := by
  refine (pow_left_inj₀ (norm_nonneg _) (norm_nonneg _) (n := 2) (by norm_num)).1 ?_
  rw [← V4.vec4_sub, ← V4.vec4_sub, V4.vec4_sq, V4.vec4_sq]
  simp only [dot4, V4.flip0, sse]; ring

theorem V4.flip0_norm (v : V4 ℝ) : ‖v.flip0.vec4‖ = ‖v.vec4‖ := by
  refine (pow_left_inj₀ (norm_nonneg _) (norm_nonneg _) (n := 2) (by norm_num)).1 ?_
  rw [V4.vec4_sq, V4.vec4_sq]
  simp only [dot4, V4.flip0]; ring

theorem V4.dot4_norm (v : V4 ℝ) : √(dot4 v v) = ‖v.vec4‖ := by
  rw [← V4.vec4_sq, Real.sqrt_sq (norm_nonneg _)]

theorem Motor.normalize_vec {hwr : Hw ℝ} (hx : hwr.Exact) (isa : Isa) {m : Motor ℝ} (h : m.p1.vec4 ≠ 0) :
    (m.normalize hwr isa).p1.vec4 = ‖m.p1.vec4‖⁻¹ • m.p1.vec4 ∧
    (m.normalize hwr isa).p2.vec4 = NLerp.mom m.p1.flip0.vec4 m.p2.vec4 := by
  have hn : 0 < ‖m.p1.vec4‖ := norm_pos_iff.2 h
  have hN : 0 < dot4 m.p1 m.p1 := by rw [← V4.vec4_sq]; positivity
  rw [Motor.normalize_eq, exact_rsqrt1 hx hN, exact_rcp1 hx hN.ne', V4.dot4_norm, ← V4.vec4_sq]
  generalize hk : ‖m.p1.vec4‖ = n at *
  constructor
  · ext i; fin_cases i <;> simp [V4.vec4, Motor.dualSmul]
  · have hi : inner ℝ m.p1.flip0.vec4 m.p2.vec4 = -m.bc := by
      simp [V4.vec4, V4.flip0, PiLp.inner_apply, Fin.sum_univ_four, Motor.bc]; ring
    rw [NLerp.mom, V4.flip0_norm, hk, real_inner_smul_left, hi]
    ext i; fin_cases i <;> simp [V4.vec4, V4.flip0, Motor.dualSmul] <;> field_simp

section
variable {hw : Hw F32} (hc : hw.Contract32) {hwr : Hw ℝ} (hx : hwr.Exact) (isa isa' : Isa)

theorem V4.real_sq4 (v : V4 F32) : √v.sq4 = ‖v.real.vec4‖ := by
  rw [← V4.dot4_norm]; simp only [dot4, V4.real, V4.sq4]; congr 1; ring

include hc hx in
/-- C101: normalising a rounded motor, against normalising the exact one. -/
theorem C101_normalize {m : Motor F32} {M : Motor ℝ} {ν C η ζ : ℝ} (h : m.Close M η ζ) (hν : 1 / 2 ^ 20 ≤ ν)
    (h0 : ν ≤ ‖M.p1.vec4‖) (h1 : ‖M.p1.vec4‖ ≤ 1) (h2 : ‖M.p2.vec4‖ ≤ C) (hC1 : 1 ≤ C) (hC2 : C ≤ 2 ^ 17)
    (hη : 200 * η ≤ ν) (hζ : 200 * ζ ≤ C) :
    (m.normalize hw isa).Close (M.normalize hwr isa') (6.9e-7 + 4 * η / ν)
      ((3.9e-6 * C + 2.04 * ζ) / ν + 10.04 * C * η / ν ^ 2) := by
  have hη0 : 0 ≤ η := (abs_nonneg _).trans (h.1 0).2
  have hζ0 : 0 ≤ ζ := (abs_nonneg _).trans (h.2 0).2
  have hν0 : 0 < ν := lt_of_lt_of_le (by norm_num) hν
  have hN0 : 0 < ‖M.p1.vec4‖ := hν0.trans_le h0
  have hX : M.p1.vec4 ≠ 0 := norm_pos_iff.1 hN0
  have c1 := V4.close_vec4 h.1
  have c2 := V4.close_vec4 h.2
  have n1 := norm_sub_norm_le M.p1.vec4 m.p1.real.vec4
  rw [norm_sub_rev] at n1
  have n2 := norm_sub_norm_le m.p1.real.vec4 M.p1.vec4
  have n3 := norm_sub_norm_le m.p2.real.vec4 M.p2.vec4
  have hn : 0.99 * ν ≤ ‖m.p1.real.vec4‖ := by norm_num; linarith
  have hn0 : 0 < ‖m.p1.real.vec4‖ := lt_of_lt_of_le (by positivity) hn
  have hxm : m.real.p1.vec4 ≠ 0 := norm_pos_iff.1 hn0
  have hle : ‖m.p1.real.vec4‖ ≤ 1.01 := by norm_num; linarith
  have hsq : 1 / 2 ^ 60 ≤ m.p1.sq4 := by
    have e : m.p1.sq4 = ‖m.p1.real.vec4‖ ^ 2 := by rw [← V4.real_sq4, Real.sq_sqrt (by unfold V4.sq4; positivity)]
    rw [e]
    have : (1 / 2 ^ 21 : ℝ) ≤ ‖m.p1.real.vec4‖ := by norm_num at hn hν ⊢; linarith
    have := pow_le_pow_left₀ (by norm_num) this 2
    norm_num at this ⊢; linarith
  have hL : m.p1.Le2 30 := fun i _ => by
    refine ⟨(h.1 i).1, ?_⟩
    have := V4.vec4_lane m.p1.real i
    rw [V4.real_get] at this
    have : |r (m.p1.get i)| ≤ 2 ^ 30 := this.trans (hle.trans (by norm_num))
    rw [r] at this
    exact_mod_cast this
  have hS : m.Scale (1.01 * C) := by
    refine ⟨hL, hsq, fun i => (h.2 i).1, ?_, ⟨by norm_num; linarith, by norm_num at hC2 ⊢; linarith⟩⟩
    have e : m.p2.sq4 = ‖m.p2.real.vec4‖ ^ 2 := by rw [← V4.real_sq4, Real.sq_sqrt (by unfold V4.sq4; positivity)]
    rw [e]
    refine pow_le_pow_left₀ (norm_nonneg _) ?_ 2
    norm_num; linarith
  have hinv : 1 / ‖m.p1.real.vec4‖ ≤ 1.02 / ν := by
    rw [div_le_div_iff₀ hn0 hν0]; norm_num at hn ⊢; linarith
  obtain ⟨v1, v2⟩ := Motor.normalize_vec hx isa' hX
  obtain ⟨w1, w2⟩ := Motor.normalize_vec hx isa' hxm
  refine ⟨fun i => ?_, fun i => ?_⟩
  · obtain ⟨f, e⟩ := C70_motor_normalize_p1 hc isa m hL hsq i
    refine ⟨f, ?_⟩
    have k1 : |r (m.p1.get i)| / √m.p1.sq4 ≤ 1 := by
      rw [V4.real_sq4, div_le_one hn0]
      have := V4.vec4_lane m.p1.real i
      rwa [V4.real_get] at this
    have k2 := V4.vec4_lane_sub (m.real.normalize hwr isa').p1 (M.normalize hwr isa').p1 i
    rw [v1, w1] at k2
    have k3 := k2.trans (NLerp.unit_lip hxm hX)
    have k4 : 2 * ‖m.real.p1.vec4 - M.p1.vec4‖ / ‖M.p1.vec4‖ ≤ 4 * η / ν := by
      refine div_le_div₀ (by positivity) ?_ hν0 h0
      have : ‖m.real.p1.vec4 - M.p1.vec4‖ ≤ 2 * η := c1
      linarith
    have k5 : (m.real.normalize hwr isa').p1.get i = r (m.p1.get i) / √m.p1.sq4 := by
      have hN : 0 < m.p1.sq4 := lt_of_lt_of_le (by positivity) hsq
      rw [Motor.normalize_eq, Motor.real_dot4, exact_rsqrt1 hx hN]
      match i with
      | 0 => simp only [Motor.dualSmul, Motor.real, V4.real, V4.get]; ring
      | 1 => simp only [Motor.dualSmul, Motor.real, V4.real, V4.get]; ring
      | 2 => simp only [Motor.dualSmul, Motor.real, V4.real, V4.get]; ring
      | 3 => simp only [Motor.dualSmul, Motor.real, V4.real, V4.get]; ring
    rw [k5] at k3
    have k6 := abs_sub_le (r ((m.normalize hw isa).p1.get i)) (r (m.p1.get i) / √m.p1.sq4) ((M.normalize hwr isa').p1.get i)
    have k8 : (6.8e-7 : ℝ) * (|r (m.p1.get i)| / √m.p1.sq4) + 1 / 2 ^ 150 ≤ 6.9e-7 := by
      refine (add_le_add_left (mul_le_mul_of_nonneg_left k1 (by norm_num)) _).trans (by norm_num)
    refine k6.trans (add_le_add (e.trans (le_trans (le_of_eq ?_) k8)) (k3.trans k4))
    congr 2
  · obtain ⟨f, e⟩ := C70_motor_normalize_p2 hc hx isa isa' hS i
    refine ⟨f, ?_⟩
    have k2 := V4.vec4_lane_sub (m.real.normalize hwr isa').p2 (M.normalize hwr isa').p2 i
    have hZ : M.p1.flip0.vec4 ≠ 0 := norm_pos_iff.1 (by rw [V4.flip0_norm]; exact hN0)
    have hd : ‖m.real.p1.flip0.vec4 - M.p1.flip0.vec4‖ ≤ 2 * η := by rw [V4.flip0_sub]; exact c1
    rw [v2, w2] at k2
    have k3 := k2.trans (NLerp.mom_lip hZ (by rw [V4.flip0_norm]; linarith))
    rw [V4.flip0_norm] at k3
    have k4 : 1.02 * ‖m.real.p2.vec4 - M.p2.vec4‖ / ‖M.p1.vec4‖ ≤ 2.04 * ζ / ν := by
      refine div_le_div₀ (by positivity) ?_ hν0 h0
      have : ‖m.real.p2.vec4 - M.p2.vec4‖ ≤ 2 * ζ := c2
      norm_num; linarith
    have k5 : 5.02 * ‖M.p2.vec4‖ * ‖m.real.p1.flip0.vec4 - M.p1.flip0.vec4‖ / ‖M.p1.vec4‖ ^ 2 ≤ 10.04 * C * η / ν ^ 2 := by
      refine div_le_div₀ (by positivity) ?_ (by positivity) (pow_le_pow_left₀ hν0.le h0 2)
      calc 5.02 * ‖M.p2.vec4‖ * ‖m.real.p1.flip0.vec4 - M.p1.flip0.vec4‖ ≤ 5.02 * C * (2 * η) := by gcongr
        _ = _ := by ring
    have k6 : 3.7e-6 * (1.01 * C / √m.p1.sq4) ≤ 3.9e-6 * C / ν := by
      rw [V4.real_sq4]
      have := mul_le_mul_of_nonneg_left hinv (show (0 : ℝ) ≤ 3.7e-6 * (1.01 * C) by positivity)
      calc 3.7e-6 * (1.01 * C / ‖m.p1.real.vec4‖) = 3.7e-6 * (1.01 * C) * (1 / ‖m.p1.real.vec4‖) := by ring
        _ ≤ 3.7e-6 * (1.01 * C) * (1.02 / ν) := this
        _ = 3.7e-6 * 1.01 * 1.02 * C / ν := by ring
        _ ≤ 3.9e-6 * C / ν := by
          refine div_le_div_of_nonneg_right (mul_le_mul_of_nonneg_right (by norm_num) (by linarith)) hν0.le
    have k7 := abs_sub_le (r ((m.normalize hw isa).p2.get i)) ((m.real.normalize hwr isa').p2.get i) ((M.normalize hwr isa').p2.get i)
    rw [add_div]
    linarith

end

/-! ### linear interpolation -/

theorem lerp_lane {a b t : F32} {A B M δ : ℝ} (hM1 : 1 ≤ M) (hM2 : M ≤ 2 ^ 17) (hδ : δ ≤ 1 / 1000)
    (ha : a.isFinite = true ∧ |r a - A| ≤ δ * M) (hb : b.isFinite = true ∧ |r b - B| ≤ δ * M) (hA : |A| ≤ M) (hB : |B| ≤ M)
    (ht : t.isFinite = true) (ht0 : 0 ≤ r t) (ht1 : r t ≤ 1) :
    (a * (1 - t) + b * t).isFinite = true ∧ |r (a * (1 - t) + b * t) - (A * (1 - r t) + B * r t)| ≤ (1.9e-7 + δ) * M := by
  have hδ0 : 0 ≤ δ := by
    have := (abs_nonneg _).trans ha.2
    by_contra h
    have := mul_neg_of_neg_of_pos (not_le.1 h) (show 0 < M by linarith)
    linarith
  have o : r 1 = 1 := by rw [r, one_val]; norm_num
  have of : (1 : F32).isFinite = true := by decide +kernel
  obtain ⟨s1, s2⟩ := sub_ok of ht (by rw [o, abs_le]; constructor <;> norm_num <;> linarith)
  rw [o, abs_of_nonneg (by linarith : 0 ≤ 1 - r t)] at s2
  generalize (1 : F32) - t = s at *
  have hu : u ≤ 6e-8 := by rw [u]; norm_num
  have hu0 := u_pos
  have s3 : |r s - (1 - r t)| ≤ 6e-8 * (1 - r t) := s2.trans (mul_le_mul_of_nonneg_right hu (by linarith))
  have s4 := abs_le.1 s3
  have ea : |r a| ≤ 1.001 * M := by
    have := abs_sub_abs_le_abs_sub (r a) A
    have := mul_le_mul_of_nonneg_right hδ (show 0 ≤ M by linarith)
    norm_num; linarith [ha.2]
  have eb : |r b| ≤ 1.001 * M := by
    have := abs_sub_abs_le_abs_sub (r b) B
    have := mul_le_mul_of_nonneg_right hδ (show 0 ≤ M by linarith)
    norm_num; linarith [hb.2]
  have hs0 : 0 ≤ r s := by norm_num at s4; linarith
  have pa : |r a * r s| ≤ 1.001 * M * r s := by
    rw [abs_mul, abs_of_nonneg hs0]; exact mul_le_mul_of_nonneg_right ea hs0
  have pb : |r b * r t| ≤ 1.001 * M * r t := by
    rw [abs_mul, abs_of_nonneg ht0]; exact mul_le_mul_of_nonneg_right eb ht0
  have ps : 1.001 * M * r s ≤ 1.001 * M * (1.0000001 * (1 - r t)) := by
    refine mul_le_mul_of_nonneg_left ?_ (by linarith)
    norm_num at s4 ⊢; linarith
  have mt0 : 0 ≤ M * r t := by positivity
  have mt1 : M * r t ≤ M := mul_le_of_le_one_right (by linarith) ht1
  obtain ⟨a1, a2⟩ := mul_ok ha.1 s1 (pa.trans (by norm_num at ps hM2 ⊢; linarith))
  obtain ⟨b1, b2⟩ := mul_ok hb.1 ht (pb.trans (by norm_num at hM2 ⊢; linarith))
  have a3 : |r (a * s) - r a * r s| ≤ 6e-8 * (1e-3 * M + 1.001 * M * (1.0000001 * (1 - r t))) := by
    refine a2.trans (mul_le_mul hu (max_le ?_ ?_) (by positivity) (by norm_num))
    · have : (1 : ℝ) / 2 ^ 126 ≤ 1e-3 := by norm_num
      linarith
    · linarith [pa.trans ps]
  have b3 : |r (b * t) - r b * r t| ≤ 6e-8 * (1e-3 * M + 1.001 * M * r t) := by
    refine b2.trans (mul_le_mul hu (max_le ?_ ?_) (by positivity) (by norm_num))
    · have : (1 : ℝ) / 2 ^ 126 ≤ 1e-3 := by norm_num
      linarith
    · linarith
  have sum : |r (a * s) + r (b * t)| ≤ 1.002 * M := by
    have h1 := abs_add_le (r (a * s)) (r (b * t))
    have h2 := abs_sub_abs_le_abs_sub (r (a * s)) (r a * r s)
    have h3 := abs_sub_abs_le_abs_sub (r (b * t)) (r b * r t)
    linarith
  obtain ⟨c1, c2⟩ := add_ok a1 b1 (sum.trans (by norm_num at hM2 ⊢; linarith))
  refine ⟨c1, ?_⟩
  have c3 : |r (a * s + b * t) - (r (a * s) + r (b * t))| ≤ 6e-8 * (1.002 * M) :=
    c2.trans (mul_le_mul hu sum (abs_nonneg _) (by norm_num))
  have d1 : |r a * r s - A * (1 - r t)| ≤ 1.001 * M * (6e-8 * (1 - r t)) + δ * M * (1 - r t) := by
    have e : r a * r s - A * (1 - r t) = r a * (r s - (1 - r t)) + (r a - A) * (1 - r t) := by ring
    rw [e]
    refine (abs_add_le _ _).trans (add_le_add ?_ ?_)
    · rw [abs_mul]; exact mul_le_mul ea s3 (abs_nonneg _) (by linarith)
    · rw [abs_mul, abs_of_nonneg (by linarith : 0 ≤ 1 - r t)]; exact mul_le_mul_of_nonneg_right ha.2 (by linarith)
  have d2 : |r b * r t - B * r t| ≤ δ * M * r t := by
    rw [← sub_mul, abs_mul, abs_of_nonneg ht0]; exact mul_le_mul_of_nonneg_right hb.2 ht0
  have e : r (a * s + b * t) - (A * (1 - r t) + B * r t) =
      (r (a * s + b * t) - (r (a * s) + r (b * t))) + ((r (a * s) - r a * r s) + (r (b * t) - r b * r t)) +
        ((r a * r s - A * (1 - r t)) + (r b * r t - B * r t)) := by ring
  rw [e]
  have q := abs_add_le ((r (a * s + b * t) - (r (a * s) + r (b * t))) + ((r (a * s) - r a * r s) + (r (b * t) - r b * r t)))
    ((r a * r s - A * (1 - r t)) + (r b * r t - B * r t))
  have q1 := abs_add_le (r (a * s + b * t) - (r (a * s) + r (b * t))) ((r (a * s) - r a * r s) + (r (b * t) - r b * r t))
  have q2 := abs_add_le (r (a * s) - r a * r s) (r (b * t) - r b * r t)
  have q3 := abs_add_le (r a * r s - A * (1 - r t)) (r b * r t - B * r t)
  refine q.trans ?_
  linarith

/-- C101: interpolating rounded motors linearly. -/
theorem C101_lerp {a b : Motor F32} {A B : Motor ℝ} {C δ : ℝ} {t : F32} (hA : A.UnitBy C) (hB : B.UnitBy C)
    (hC1 : 1 ≤ C) (hC2 : C ≤ 2 ^ 17) (hδ : δ ≤ 1 / 1000) (ha : a.Close A δ (δ * C)) (hb : b.Close B δ (δ * C))
    (ht : t.isFinite = true) (ht0 : 0 ≤ r t) (ht1 : r t ≤ 1) :
    (lerp a b t).Close (lerp A B (r t)) (1.9e-7 + δ) ((1.9e-7 + δ) * C) := by
  have k : ∀ {v w : V4 F32} {V W : V4 ℝ} {M : ℝ}, 1 ≤ M → M ≤ 2 ^ 17 → ‖V.vec4‖ ≤ M → ‖W.vec4‖ ≤ M →
      (∀ i : Fin 4, (v.get i).isFinite = true ∧ |r (v.get i) - V.get i| ≤ δ * M) →
      (∀ i : Fin 4, (w.get i).isFinite = true ∧ |r (w.get i) - W.get i| ≤ δ * M) → ∀ i : Fin 4,
      (v.get i * (1 - t) + w.get i * t).isFinite = true ∧
        |r (v.get i * (1 - t) + w.get i * t) - (V.get i * (1 - r t) + W.get i * r t)| ≤ (1.9e-7 + δ) * M :=
    fun h1 h2 hV hW hv hw i => lerp_lane h1 h2 hδ (hv i) (hw i) ((V4.vec4_lane _ i).trans hV) ((V4.vec4_lane _ i).trans hW) ht ht0 ht1
  have k1 := k (M := 1) le_rfl (by norm_num) hA.p1.le hB.p1.le (by simpa using ha.1) (by simpa using hb.1)
  have k2 := k (M := C) hC1 hC2 hA.p2 hB.p2 ha.2 hb.2
  rw [mul_one] at k1
  refine ⟨fun i => ?_, fun i => ?_⟩
  · match i with
    | 0 => exact k1 0
    | 1 => exact k1 1
    | 2 => exact k1 2
    | 3 => exact k1 3
  · match i with
    | 0 => exact k2 0
    | 1 => exact k2 1
    | 2 => exact k2 2
    | 3 => exact k2 3

theorem lerp_vec (A B : Motor ℝ) (t : ℝ) : (lerp A B t).p1.vec4 = (1 - t) • A.p1.vec4 + t • B.p1.vec4 ∧
    (lerp A B t).p2.vec4 = (1 - t) • A.p2.vec4 + t • B.p2.vec4 := by
  constructor <;> ext i <;> fin_cases i <;> simp [lerp, V4.vec4, kln, sse, mul_comm]

theorem lerp_norm {A B : Motor ℝ} {C t : ℝ} (hA : A.UnitBy C) (hB : B.UnitBy C) (ht0 : 0 ≤ t) (ht1 : t ≤ 1) :
    (1 + dot4 A.p1 B.p1) / 2 ≤ ‖(lerp A B t).p1.vec4‖ ^ 2 ∧ ‖(lerp A B t).p1.vec4‖ ≤ 1 ∧ ‖(lerp A B t).p2.vec4‖ ≤ C := by
  obtain ⟨e1, e2⟩ := lerp_vec A B t
  have tri : ∀ x y : EuclideanSpace ℝ (Fin 4), ‖(1 - t) • x + t • y‖ ≤ (1 - t) * ‖x‖ + t * ‖y‖ := fun x y => by
    refine (norm_add_le _ _).trans (le_of_eq ?_)
    rw [norm_smul, norm_smul, Real.norm_of_nonneg ht0, Real.norm_of_nonneg (by linarith)]
  refine ⟨?_, ?_, ?_⟩
  · have h1 : dot4 A.p1 A.p1 = 1 := by rw [← V4.vec4_sq, hA.p1, one_pow]
    have h2 : dot4 B.p1 B.p1 = 1 := by rw [← V4.vec4_sq, hB.p1, one_pow]
    have h3 : dot4 A.p1 B.p1 ≤ 1 := by
      simp only [dot4] at h1 h2 ⊢
      nlinarith [sq_nonneg (A.p1.l0 - B.p1.l0), sq_nonneg (A.p1.l1 - B.p1.l1), sq_nonneg (A.p1.l2 - B.p1.l2), sq_nonneg (A.p1.l3 - B.p1.l3)]
    have e : ‖(lerp A B t).p1.vec4‖ ^ 2 = (1 - t) ^ 2 * dot4 A.p1 A.p1 + t ^ 2 * dot4 B.p1 B.p1 + 2 * (t * (1 - t)) * dot4 A.p1 B.p1 := by
      rw [V4.vec4_sq]; simp only [dot4, lerp, kln, sse]; ring
    rw [e, h1, h2]
    nlinarith [mul_nonneg (sq_nonneg (2 * t - 1)) (sub_nonneg.2 h3)]
  · rw [e1]; refine (tri _ _).trans ?_; rw [hA.p1, hB.p1]; linarith
  · rw [e2]; refine (tri _ _).trans ?_
    nlinarith [mul_le_mul_of_nonneg_left hA.p2 (by linarith : 0 ≤ 1 - t), mul_le_mul_of_nonneg_left hB.p2 ht0]

section
variable {hw : Hw F32} (hc : hw.Contract32) {hwr : Hw ℝ} (hx : hwr.Exact) (isa isa' : Isa)

include hc hx in
/-- C101: `nlerp` in binary32 against `nlerp` over the reals.  `ν` is a lower bound for the length of the chord's midpoint. -/
theorem C101_nlerp {a b : Motor F32} {A B : Motor ℝ} {C δ ν : ℝ} {t : F32} (hA : A.UnitBy C) (hB : B.UnitBy C)
    (hC1 : 1 ≤ C) (hC2 : C ≤ 2 ^ 17) (hν : 200 * (1.9e-7 + δ) ≤ ν) (hd : ν ^ 2 ≤ (1 + dot4 A.p1 B.p1) / 2) (hδ : δ ≤ 1 / 2 ^ 14)
    (ha : a.Close A δ (δ * C)) (hb : b.Close B δ (δ * C)) (ht : t.isFinite = true) (ht0 : 0 ≤ r t) (ht1 : r t ≤ 1) :
    (nlerp hw isa a b t).Close (nlerp hwr isa' A B (r t)) (6.9e-7 + (7.6e-7 + 4 * δ) / ν)
      (C * ((4.3e-6 + 2.04 * δ) / ν + (2e-6 + 10.04 * δ) / ν ^ 2)) := by
  obtain ⟨n1, n2, n3⟩ := lerp_norm hA hB ht0 ht1
  have h := C101_lerp hA hB hC1 hC2 (hδ.trans (by norm_num)) ha hb ht ht0 ht1
  have hδ0 : 0 ≤ δ := (abs_nonneg _).trans (ha.1 0).2
  have hν1 : 1 / 2 ^ 20 ≤ ν := by norm_num at hν ⊢; linarith
  have hν0 : 0 < ν := lt_of_lt_of_le (by norm_num) hν1
  have h' := C101_normalize hc hx isa isa' h hν1 (abs_le_of_sq_le_sq' (hd.trans n1) (norm_nonneg _)).2 n2 n3 hC1 hC2
    hν (by norm_num at hδ ⊢; nlinarith)
  refine ⟨fun i => ⟨(h'.1 i).1, (h'.1 i).2.trans (le_of_eq ?_)⟩, fun i => ⟨(h'.2 i).1, (h'.2 i).2.trans ?_⟩⟩
  · norm_num; ring
  · have e : (3.9e-6 * C + 2.04 * ((1.9e-7 + δ) * C)) / ν + 10.04 * C * (1.9e-7 + δ) / ν ^ 2 =
        C * ((3.9e-6 + 2.04 * 1.9e-7 + 2.04 * δ) / ν + (10.04 * 1.9e-7 + 10.04 * δ) / ν ^ 2) := by
      field_simp; ring
    rw [e]
    refine mul_le_mul_of_nonneg_left (add_le_add (div_le_div_of_nonneg_right ?_ hν0.le)
      (div_le_div_of_nonneg_right ?_ (by positivity))) (by linarith) <;> norm_num

include hc hx in
/-- C101: at most a half turn apart. -/
theorem C101_nlerp_acute {a b : Motor F32} {A B : Motor ℝ} {C δ : ℝ} {t : F32} (hA : A.UnitBy C) (hB : B.UnitBy C)
    (hC1 : 1 ≤ C) (hC2 : C ≤ 2 ^ 17) (hd : 0 ≤ dot4 A.p1 B.p1) (hδ : δ ≤ 1 / 2 ^ 14)
    (ha : a.Close A δ (δ * C)) (hb : b.Close B δ (δ * C)) (ht : t.isFinite = true) (ht0 : 0 ≤ r t) (ht1 : r t ≤ 1) :
    (nlerp hw isa a b t).Close (nlerp hwr isa' A B (r t)) (1.8e-6 + 5.8 * δ) (C * (1.1e-5 + 24 * δ)) := by
  have h := C101_nlerp hc hx isa isa' hA hB hC1 hC2 (ν := 0.7) (by norm_num at hδ ⊢; linarith) (by norm_num; linarith) hδ ha hb ht ht0 ht1
  have hδ0 : 0 ≤ δ := (abs_nonneg _).trans (ha.1 0).2
  refine ⟨fun i => ⟨(h.1 i).1, (h.1 i).2.trans ?_⟩, fun i => ⟨(h.2 i).1, (h.2 i).2.trans ?_⟩⟩
  · norm_num; linarith
  · refine mul_le_mul_of_nonneg_left ?_ (by linarith); norm_num; linarith

include hc in
/-- C101: the two ends. -/
theorem C101_nlerp_ends {a b : Motor F32} {A B : Motor ℝ} {C δ : ℝ} (nA : A.Normed) (nB : B.Normed)
    (hA : ‖A.p2.vec4‖ ≤ C) (hB : ‖B.p2.vec4‖ ≤ C) (hC1 : 1 ≤ C) (hC2 : C ≤ 2 ^ 17) (hd : 0 ≤ dot4 A.p1 B.p1)
    (hδ : δ ≤ 1 / 2 ^ 14) (ha : a.Close A δ (δ * C)) (hb : b.Close B δ (δ * C)) :
    (nlerp hw isa a b 0).Close A (1.8e-6 + 5.8 * δ) (C * (1.1e-5 + 24 * δ)) ∧
    (nlerp hw isa a b 1).Close B (1.8e-6 + 5.8 * δ) (C * (1.1e-5 + 24 * δ)) := by
  have e1 : r (1 : F32) = 1 := by rw [r, one_val]; norm_num
  have h := C74_nlerp_ends Hw.ideal_exact isa nA nB
  have h0 := C101_nlerp_acute hc Hw.ideal_exact isa isa (nA.unitBy hA) (nB.unitBy hB) hC1 hC2 hd hδ ha hb (t := 0) (by rfl)
    (by rw [r_zero]) (by rw [r_zero]; norm_num)
  have h1 := C101_nlerp_acute hc Hw.ideal_exact isa isa (nA.unitBy hA) (nB.unitBy hB) hC1 hC2 hd hδ ha hb (t := 1) (by rfl)
    (by rw [e1]; norm_num) (by rw [e1])
  rw [r_zero, h.1] at h0
  rw [e1, h.2] at h1
  exact ⟨h0, h1⟩

end

/-! ### opposite motors -/

/-- Rounding is odd, the sign of zero included. -/
theorem F32.round_neg (s : Bool) (q : ℚ) : round (!s) (-q) = -(round s q) := by
  by_cases h : q = 0
  · subst h; rw [neg_zero]; cases s <;> decide +kernel
  · rw [round, round, if_neg h, if_neg (neg_ne_zero.2 h), abs_neg]
    have : decide (-q < 0) = !decide (q < 0) := by
      rcases lt_or_gt_of_ne h with h | h
      · simp [h, h.le]
      · simp [h, not_lt.2 h.le]
    rw [this]; rfl

theorem F32.abs_lt {x : F32} (h : x.isFinite = true) : |r x| ≤ 2 ^ 128 := by
  have h1 : x.mag.val < 0x7F800000 := by simpa [isFinite, infMag] using of_decide_eq_true h
  have h2 : magVal x.mag.val ≤ magVal 0x7F7FFFFF := magVal_strictMono.monotone (by omega)
  have h3 : magVal 0x7F7FFFFF ≤ 2 ^ 128 := by decide +kernel
  have h4 : |x.val| ≤ 2 ^ 128 := by
    have := magVal_nonneg x.mag.val
    rw [val]; split
    · rw [abs_neg, abs_of_nonneg this]; exact h2.trans h3
    · rw [abs_of_nonneg this]; exact h2.trans h3
  rw [r]; exact_mod_cast h4

/-- Half of a number and half of its negative make zero. -/
theorem half_cancel {x : F32} (h : x.isFinite = true) : x * (1 - F32.round false (1 / 2)) + (-x) * F32.round false (1 / 2) = 0 := by
  have e : (1 : F32) - F32.round false (1 / 2) = F32.round false (1 / 2) := by decide +kernel
  have e2 : (F32.round false (1 / 2)).val = 1 / 2 ∧ (F32.round false (1 / 2)).isFinite = true ∧ (F32.round false (1 / 2)).sign = false := by
    decide +kernel
  rw [e]
  generalize F32.round false (1 / 2) = k at *
  obtain ⟨k1, k2, k3⟩ := e2
  have hn : (-x).isFinite = true := h
  have m : (-x) * k = -(x * k) := by
    rw [mul_round hn k2, mul_round h k2, val_neg, ← F32.round_neg, neg_mul]
    congr 1
    rw [show (-x).sign = !x.sign from rfl]
    cases x.sign <;> cases k.sign <;> rfl
  have f := (mul_ok h k2 (by
    have := F32.abs_lt h
    rw [abs_mul, r, r, k1]
    norm_num; rw [r] at this; norm_num at this; linarith)).1
  rw [m]
  generalize x * k = y at *
  have fn : (-y).isFinite = true := f
  rw [add_round f fn, val_neg, add_neg_cancel, show (-y).sign = !y.sign from rfl]
  cases y.sign <;> decide +kernel

section
variable {hw : Hw F32} (isa : Isa)

/-- C101: half way between a motor and its negative, which is the same motion, `nlerp` is NaN throughout. -/
theorem C101_opposite_nan (h0 : hw.rsqrt 0 = F32.inf false) {a : Motor F32} (h1 : a.p1.Finite) (h2 : a.p2.Finite) :
    (nlerp hw isa a a.neg (F32.round false (1 / 2))).p1.AllNaN ∧ (nlerp hw isa a a.neg (F32.round false (1 / 2))).p2.AllNaN := by
  have e : lerp a a.neg (F32.round false (1 / 2)) = ⟨⟨0, 0, 0, 0⟩, ⟨0, 0, 0, 0⟩⟩ := by
    have c1 := half_cancel (h1 0)
    have c2 := half_cancel (h1 1)
    have c3 := half_cancel (h1 2)
    have c4 := half_cancel (h1 3)
    have d1 := half_cancel (h2 0)
    have d2 := half_cancel (h2 1)
    have d3 := half_cancel (h2 2)
    have d4 := half_cancel (h2 3)
    simp only [V4.get] at c1 c2 c3 c4 d1 d2 d3 d4
    simp only [lerp, kln, sse, cond_true, c1, c2, c3, c4, d1, d2, d3, d4]
  rw [nlerp, e]
  have hz : dp_bc isa (⟨0, 0, 0, 0⟩ : V4 F32) ⟨0, 0, 0, 0⟩ = ⟨0, 0, 0, 0⟩ := by cases isa <;> decide +kernel
  have n := rsqrt_nr1_zero h0
  simp only [Motor.normalize, hz]
  generalize rsqrt_nr1 hw ⟨0, 0, 0, 0⟩ = v at *
  refine ⟨fun i => ?_, fun i => ?_⟩
  · match i with
    | 0 => exact F32.mul_nan (Or.inr (n 0))
    | 1 => exact F32.mul_nan (Or.inr (n 1))
    | 2 => exact F32.mul_nan (Or.inr (n 2))
    | 3 => exact F32.mul_nan (Or.inr (n 3))
  · match i with
    | 0 => exact sub_nan (Or.inl (F32.mul_nan (Or.inr (n 0))))
    | 1 => exact sub_nan (Or.inl (F32.mul_nan (Or.inr (n 1))))
    | 2 => exact sub_nan (Or.inl (F32.mul_nan (Or.inr (n 2))))
    | 3 => exact sub_nan (Or.inl (F32.mul_nan (Or.inr (n 3))))

/-- C101: the claim without the bound on the angle fails: `moveb` and its negative. -/
theorem C101_nlerp_fails (h0 : hw.rsqrt 0 = F32.inf false) : moveb.Close moveB (1 / 2 ^ 25) (1 / 2 ^ 25 * 3) ∧
    (nlerp hw isa moveb moveb.neg (F32.round false (1 / 2))).p1.AllNaN :=
  ⟨moveb_close, (C101_opposite_nan isa h0 (by intro i; revert i; decide +kernel) (by intro i; revert i; decide +kernel)).1⟩
end

/-- C101: half way from the identity to `(3 + 4 e12) / 5 + e01 + 2 e02`. -/
theorem C101_example {hw : Hw F32} (hc : hw.Contract32) (isa : Isa) :
    (nlerp hw isa ⟨⟨1, 0, 0, 0⟩, ⟨0, 0, 0, 0⟩⟩ moveb (F32.round false (1 / 2))).Close
      (nlerp Hw.ideal .sse3 ⟨⟨1, 0, 0, 0⟩, ⟨0, 0, 0, 0⟩⟩ moveB (1 / 2)) 2e-6 3.6e-5 := by
  have hd : dot4 (⟨1, 0, 0, 0⟩ : V4 ℝ) moveB.p1 = 3 / 5 := by simp only [moveB, dot4]; norm_num
  have n3 : ∀ {v : V4 ℝ}, dot4 v v ≤ 3 ^ 2 → ‖v.vec4‖ ≤ 3 := fun h =>
    abs_le_of_sq_le_sq' (by rw [V4.vec4_sq]; exact h) (by norm_num) |>.2
  have n1 : (⟨⟨1, 0, 0, 0⟩, ⟨0, 0, 0, 0⟩⟩ : Motor ℝ).Normed := by simp only [Motor.Normed]; apply PGA.MV.ext <;> simp [pga, kln, sse]
  have n2 : moveB.Normed := by simp only [Motor.Normed, moveB]; apply PGA.MV.ext <;> norm_num [pga, kln, sse]
  have e2 : (F32.round false (1 / 2)).val = 1 / 2 ∧ (F32.round false (1 / 2)).isFinite = true := by decide +kernel
  have er : r (F32.round false (1 / 2)) = 1 / 2 := by rw [r, e2.1]; norm_num
  have h := C101_nlerp_acute hc Hw.ideal_exact isa .sse3 (n1.unitBy (n3 (by norm_num [dot4]))) (n2.unitBy (n3 (by norm_num [dot4, moveB])))
    (by norm_num) (by norm_num) (by rw [hd]; norm_num) (δ := 1 / 2 ^ 25) (by norm_num) still_close moveb_close e2.2
    (by rw [er]; norm_num) (by rw [er]; norm_num)
  rw [er] at h
  refine ⟨fun i => ⟨(h.1 i).1, (h.1 i).2.trans ?_⟩, fun i => ⟨(h.2 i).1, (h.2 i).2.trans ?_⟩⟩ <;> norm_num

end Klein
