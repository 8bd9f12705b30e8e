import Verif.Float.Approx
import Verif.Float.Order
import Verif.Float.Sqrt
import Verif.Props.Normalize32
import Verif.Lemmas.Norm
import Verif.Spec.RealLib

/-!
# C70, C78: normalisation, inverses, quotients and roots in binary32

The moment lanes of normalised lines and motors, and the inverses, with every operation rounded and
estimates of the specified accuracy, compared with the same functions in exact arithmetic
(`Hw.Exact`).  `C` is any bound on the norm of the moment, between `2^-30` and `2^32`; the error is
proportional to it.
-/

set_option linter.unusedSimpArgs false
set_option linter.unusedTactic false
set_option linter.unreachableTactic false

namespace Klein

open F32

/-- The real numbers four finite lanes stand for. -/
noncomputable def V4.real (v : V4 F32) : V4 ℝ := ⟨r v.l0, r v.l1, r v.l2, r v.l3⟩
noncomputable def Motor.real (m : Motor F32) : Motor ℝ := ⟨m.p1.real, m.p2.real⟩
noncomputable def Line.real (m : Line F32) : Line ℝ := ⟨m.p1.real, m.p2.real⟩
noncomputable def Branch.real (m : Branch F32) : Branch ℝ := ⟨m.p1.real⟩
noncomputable def Plane.real (m : Plane F32) : Plane ℝ := ⟨m.p0.real⟩
noncomputable def Point.real (m : Point F32) : Point ℝ := ⟨m.p3.real⟩
noncomputable def Rotor.real (m : Rotor F32) : Rotor ℝ := ⟨m.p1.real⟩

macro "ap_num" : tactic => `(tactic| (have hu := u_le; norm_num at hu ⊢; linarith))

/-! ### the ingredients -/

section Ingredients

theorem exact_rsqrt1 {hwr : Hw ℝ} (hx : hwr.Exact) {N : ℝ} (hN : 0 < N) : rsqrt1 hwr N = 1 / √N := by
  rw [rsqrt_nr1_exact hwr (hx.rsqrtAt hN), hx.rsqrt N hN, one_div]

theorem exact_rcp1 {hwr : Hw ℝ} (hx : hwr.Exact) {N : ℝ} (hN : N ≠ 0) : rcp1 hwr N = 1 / N := by
  rw [rcp_nr1_exact hwr (hx.rcpAt hN), hx.rcp N hN, one_div]

theorem ap_rsqrt {s : F32} {N : ℝ} (hN : 0 < N) (hS : In2 (√N) 30 32) (hf : s.isFinite = true)
    (h : |r s * √N - 1| ≤ 6.2e-7) : Ap s (1 / √N) (1 / √N) 6.2e-7 32 30 := by
  have hs0 := Real.sqrt_pos.2 hN
  refine ⟨hf, (abs_of_pos (by positivity)).le, ?_, hS.inv⟩
  have e : r s - 1 / √N = (r s * √N - 1) * (1 / √N) := by field_simp
  rw [e, abs_mul, abs_of_pos (show 0 < 1 / √N by positivity)]
  exact mul_le_mul_of_nonneg_right h (by positivity)

theorem ap_rcp {hw : Hw F32} (hc : hw.Contract32) {D : F32} {S : ℝ} (hS : In2 S 30 32) (hf : D.isFinite = true)
    (hD : |r D - S * S| ≤ 3e-7 * (S * S)) : Ap (rcp1 hw D) (1 / S * (1 / S)) (1 / S * (1 / S)) 6.3e-7 64 60 := by
  have hr := hS.mul hS
  have hN := hr.pos
  have hD' := abs_le.1 hD
  have hlo := hr.lo
  have hhi := hr.hi
  obtain ⟨N, eN⟩ : ∃ N, N = S * S := ⟨_, rfl⟩
  have e1 : 1 / S * (1 / S) = 1 / N := by rw [eN, one_div_mul_one_div]
  have hr2 : In2 (1 / N) 64 60 := by rw [eN]; exact hr.inv
  rw [← eN] at hD hN hD' hlo hhi
  have hD0 : 0 < r D := by norm_num at hD'; linarith
  obtain ⟨hz, he⟩ := rcp1_f32 hc hf (by rw [abs_of_pos hD0]; norm_num at *; linarith)
    (by rw [abs_of_pos hD0]; norm_num at *; linarith)
  rw [e1]
  refine ⟨hz, (abs_of_pos (by positivity)).le, ?_, hr2⟩
  obtain ⟨w, ew⟩ : ∃ w, w = r (rcp1 hw D) := ⟨_, rfl⟩
  rw [← ew] at he ⊢
  obtain ⟨t, et⟩ : ∃ t, t = w * N := ⟨_, rfl⟩
  obtain ⟨d, ed⟩ : ∃ d, d = r D / N := ⟨_, rfl⟩
  have hDe : r D = d * N := by rw [ed]; field_simp
  have hd : |d - 1| ≤ 3e-7 := by
    have : d - 1 = (r D - N) / N := by rw [ed]; field_simp
    rw [this, abs_div, abs_of_pos hN, div_le_iff₀ hN]; exact hD
  have hw1 : w * r D = t * d := by rw [et, hDe]; ring
  rw [hw1] at he
  have e : w - 1 / N = (t - 1) * (1 / N) := by rw [et]; field_simp
  rw [e, abs_mul, abs_of_pos (show 0 < 1 / N by positivity)]
  refine mul_le_mul_of_nonneg_right ?_ (by positivity)
  clear * - he hd
  rw [abs_le] at *
  norm_num at *
  have hd1 : (0:ℝ) < d := by linarith
  constructor
  · by_contra hcon
    push Not at hcon
    nlinarith
  · by_contra hcon
    push Not at hcon
    nlinarith

private theorem cs4 {b0 b1 b2 b3 c0 c1 c2 c3 S C : ℝ} (hS : 0 ≤ S) (hC : 0 ≤ C)
    (hb : b0 ^ 2 + b1 ^ 2 + b2 ^ 2 + b3 ^ 2 ≤ S ^ 2) (hc : c0 ^ 2 + c1 ^ 2 + c2 ^ 2 + c3 ^ 2 ≤ C ^ 2) :
    b0 * c0 + b1 * c1 + b2 * c2 + b3 * c3 ≤ S * C := by
  refine abs_le_of_sq_le_sq' ?_ (mul_nonneg hS hC) |>.2
  have h1 : (b0 * c0 + b1 * c1 + b2 * c2 + b3 * c3) ^ 2 ≤
      (b0 ^ 2 + b1 ^ 2 + b2 ^ 2 + b3 ^ 2) * (c0 ^ 2 + c1 ^ 2 + c2 ^ 2 + c3 ^ 2) := by
    nlinarith [sq_nonneg (b0 * c1 - b1 * c0), sq_nonneg (b0 * c2 - b2 * c0), sq_nonneg (b0 * c3 - b3 * c0),
      sq_nonneg (b1 * c2 - b2 * c1), sq_nonneg (b1 * c3 - b3 * c1), sq_nonneg (b2 * c3 - b3 * c2)]
  rw [mul_pow]
  exact h1.trans (mul_le_mul hb hc (by positivity) (by positivity))

/-- Rounded dot products against the product of the norms. -/
theorem gamma_bc {D E M P : ℝ} (h : |D - E| ≤ F32.rounded.γ 4 * M) (hM : M ≤ P + 4 * F32.rounded.tiny)
    (hP : 1 / 2 ^ 60 ≤ P) : |D - E| ≤ 3.1e-7 * P := by
  have hg := C54_f32_gamma (k := 4) (by norm_num)
  have hg0 := Rounded.γ_nonneg (R := F32.rounded) 4
  have ht : F32.rounded.tiny ≤ 1 / 2 ^ 100 := by show (2⁻¹ : ℝ) ^ 126 ≤ _; norm_num
  generalize F32.rounded.tiny = t at *
  generalize F32.rounded.γ 4 = g at *
  have hM2 : M ≤ P * 1.001 := by norm_num at *; linarith
  have hN0 : 0 < P := lt_of_lt_of_le (by positivity) hP
  refine h.trans ?_
  calc g * M ≤ g * (P * 1.001) := by gcongr
    _ ≤ (4 + 1) / 2 ^ 24 * (P * 1.001) := by gcongr; exact_mod_cast hg
    _ ≤ 3.1e-7 * P := by norm_num; linarith

theorem le2_of_abs {x : F32} (hf : x.isFinite = true) {n : ℕ} (h : |r x| ≤ 2 ^ n) : F32.Le2 x n := fun _ => by
  refine ⟨hf, ?_⟩
  have : ((|x.val| : ℚ) : ℝ) ≤ ((2 ^ n : ℚ) : ℝ) := by push_cast; exact h
  exact_mod_cast this

theorem abs_of_le2 {x : F32} {n : ℕ} (h : F32.Le2 x n) (hn : n ≤ 127) : |r x| ≤ 2 ^ n := by
  have := (h hn).2
  have : ((|x.val| : ℚ) : ℝ) ≤ ((2 ^ n : ℚ) : ℝ) := by exact_mod_cast this
  push_cast at this
  exact this

end Ingredients

/-! ### one lane -/

section Lane
variable {b c s q d : F32} {S C D : ℝ}

/-- `t = bc / b2 / |b|` of normalize and invert. -/
theorem lane_t (hS : In2 S 30 32) (hC : In2 C 30 32) (hs : Ap s (1 / S) (1 / S) 6.2e-7 32 30)
    (hq : Ap q (1 / S * (1 / S)) (1 / S * (1 / S)) 6.3e-7 64 60) (hd : Ap d D (S * C) 3.1e-7 60 64) :
    Ap (d * q * s) (D * (1 / S * (1 / S)) * (1 / S)) (C * (1 / S) * (1 / S)) 1.69e-6 94 92 := by
  have h0 := hS.pos
  have h1 := hd.mul hq (by norm_num) (by norm_num) (by norm_num) (by norm_num)
    (show _ ≤ (1.005e-6 : ℝ) by ap_num)
  have h2 : Ap (d * q) (D * (1 / S * (1 / S))) (C * (1 / S)) 1.005e-6 62 62 :=
    h1.le rfl (by field_simp; rfl) (by norm_num) le_rfl (hC.mul hS.inv)
  exact h2.mul hs (by norm_num) (by norm_num) (by norm_num) (by norm_num) (by ap_num)

/-- One moment lane of `normalize`. -/
theorem lane_norm (hS : In2 S 30 32) (hC : In2 C 30 32) (hb : Ap b (r b) S 0 30 32) (hc : Ap c (r c) C 0 30 32)
    (hs : Ap s (1 / S) (1 / S) 6.2e-7 32 30)
    (hq : Ap q (1 / S * (1 / S)) (1 / S * (1 / S)) 6.3e-7 64 60) (hd : Ap d D (S * C) 3.1e-7 60 64) :
    Ap (c * s) (r c * (1 / S)) (C * (1 / S)) 6.81e-7 62 62 ∧
    Ap (b * (d * q * s)) (r b * (D * (1 / S * (1 / S)) * (1 / S))) (C * (1 / S)) 1.76e-6 62 62 := by
  have h0 := hS.pos
  refine ⟨(hc.mul hs (by norm_num) (by norm_num) (by norm_num) (by norm_num) (by ap_num)), ?_⟩
  have h1 := hb.mul (lane_t hS hC hs hq hd) (by norm_num) (by norm_num) (by norm_num) (by norm_num)
    (show _ ≤ (1.76e-6 : ℝ) by ap_num)
  exact h1.le rfl (by field_simp; rfl) (by norm_num) le_rfl (hC.mul hS.inv)

/-- One moment lane of `invert`. -/
theorem lane_inv (hS : In2 S 30 32) (hC : In2 C 30 32) (hb : Ap b (r b) S 0 30 32) (hc : Ap c (r c) C 0 30 32)
    (hs : Ap s (1 / S) (1 / S) 6.2e-7 32 30)
    (hq : Ap q (1 / S * (1 / S)) (1 / S * (1 / S)) 6.3e-7 64 60) (hd : Ap d D (S * C) 3.1e-7 60 64) :
    Ap (c * q) (r c * (1 / S * (1 / S))) (C * (1 / S) * (1 / S)) 6.91e-7 94 92 ∧
    Ap (b * (s * (d * q * s)) + b * (s * (d * q * s)))
      (2 * (r b * (1 / S * (D * (1 / S * (1 / S)) * (1 / S))))) (2 * (C * (1 / S) * (1 / S))) 2.5e-6 94 93 := by
  have h0 := hS.pos
  refine ⟨(hc.mul hq (by norm_num) (by norm_num) (by norm_num) (by norm_num)
    (show _ ≤ (6.91e-7 : ℝ) by ap_num)).le rfl (by rw [mul_assoc]) (by norm_num) le_rfl
      ((hC.mul hS.inv).mul hS.inv), ?_⟩
  have h1 := hs.mul (lane_t hS hC hs hq hd) (by norm_num) (by norm_num) (by norm_num) (by norm_num)
    (show _ ≤ (2.371e-6 : ℝ) by ap_num)
  have h3 : Ap (b * (s * (d * q * s))) (r b * (1 / S * (D * (1 / S * (1 / S)) * (1 / S))))
      (C * (1 / S) * (1 / S)) 2.432e-6 94 92 :=
    hb.mulR h1 (by field_simp) ((hC.mul hS.inv).mul hS.inv) (by norm_num) (by norm_num) (by norm_num)
      (by norm_num) (by ap_num)
  have h4 := h3.add h3 le_rfl le_rfl (by norm_num) (by norm_num) (show _ ≤ (2.5e-6 : ℝ) by ap_num)
  exact h4.eq (by ring) (by ring)

end Lane

/-! ### motors -/

/-- What is assumed of a motor: lanes of the rotor part at most `2^30`, its norm at least `2^-30`, and `C`
a bound on the norm of the other part. -/
structure Motor.Scale (m : Motor F32) (C : ℝ) : Prop where
  p1 : m.p1.Le2 30
  norm : 1 / 2 ^ 60 ≤ m.p1.sq4
  fin : m.p2.Finite
  p2 : m.p2.sq4 ≤ C ^ 2
  rng : In2 C 30 32

theorem sq4_rng {v : V4 F32} (hv : v.Le2 30) (h : 1 / 2 ^ 60 ≤ v.sq4) : In2 (√v.sq4) 30 32 := by
  apply In2.sqrt
  refine ⟨h.trans' (by norm_num), ?_⟩
  have b : ∀ i, r (v.get i) ^ 2 ≤ (2 ^ 30) ^ 2 := fun i => by
    have := abs_le.1 (abs_of_le2 (hv i) (by norm_num))
    exact sq_le_sq' this.1 this.2
  have h0 := b 0; have h1 := b 1; have h2 := b 2; have h3 := b 3
  simp only [V4.get] at h0 h1 h2 h3
  unfold V4.sq4
  norm_num at *
  linarith

theorem sq3_rng {v : V4 F32} (hv : v.Le2 30) (h : 1 / 2 ^ 60 ≤ v.sq3) : In2 (√v.sq3) 30 32 := by
  apply In2.sqrt
  refine ⟨h.trans' (by norm_num), ?_⟩
  have b : ∀ i, r (v.get i) ^ 2 ≤ (2 ^ 30) ^ 2 := fun i => by
    have := abs_le.1 (abs_of_le2 (hv i) (by norm_num))
    exact sq_le_sq' this.1 this.2
  have h1 := b 1; have h2 := b 2; have h3 := b 3
  simp only [V4.get] at h1 h2 h3
  unfold V4.sq3
  norm_num at *
  linarith

theorem lane_le4 {v : V4 F32} {C : ℝ} (hC : 0 ≤ C) (h : v.sq4 ≤ C ^ 2) (i : Fin 4) : |r (v.get i)| ≤ C := by
  refine abs_le_of_sq_le_sq ?_ hC
  unfold V4.sq4 at h
  have := sq_nonneg (r v.l0); have := sq_nonneg (r v.l1); have := sq_nonneg (r v.l2)
  have := sq_nonneg (r v.l3)
  fin_cases i <;> simp only [V4.get] <;> linarith

theorem lane_le3 {v : V4 F32} {C : ℝ} (hC : 0 ≤ C) (h : v.sq3 ≤ C ^ 2) (i : Fin 4) (hi : i ≠ 0) :
    |r (v.get i)| ≤ C := by
  refine abs_le_of_sq_le_sq ?_ hC
  unfold V4.sq3 at h
  have := sq_nonneg (r v.l1); have := sq_nonneg (r v.l2)
  have := sq_nonneg (r v.l3)
  fin_cases i
  · exact absurd rfl hi
  all_goals simp only [V4.get]; linarith

theorem sq4_sqrt (v : V4 F32) : v.sq4 ≤ √v.sq4 ^ 2 := by
  rw [Real.sq_sqrt (by unfold V4.sq4; positivity)]

theorem sq3_sqrt (v : V4 F32) : v.sq3 ≤ √v.sq3 ^ 2 := by
  rw [Real.sq_sqrt (by unfold V4.sq3; positivity)]

/-- The pseudoscalar part, in every lane. -/
theorem Motor.Scale.ap_bc {m : Motor F32} {C : ℝ} (h : m.Scale C) (isa : Isa) (i : Fin 4) :
    Ap ((dp_bc isa (xor_ps m.p1 flip_ss) m.p2).get i) (-(m.real.bc)) (√m.p1.sq4 * C) 3.1e-7 60 64 := by
  have hS := sq4_rng h.p1 h.norm
  have hP := hS.mul h.rng
  have hC0 := h.rng.pos.le
  have hS0 := hS.pos.le
  have b := h.p1
  have c : m.p2.Le2 32 := fun i => le2_of_abs (h.fin i) ((lane_le4 hC0 h.p2 i).trans h.rng.hi)
  have hf : ((dp_bc isa (xor_ps m.p1 flip_ss) m.p2).get i).isFinite = true := by
    le2_get b
    have c0 := c 0; have c1 := c 1; have c2 := c 2; have c3 := c 3
    simp only [V4.get] at c0 c1 c2 c3
    cases isa <;> fin_cases i <;> le2_lane
  have hcs : |r m.p1.l0| * |r m.p2.l0| + |r m.p1.l1| * |r m.p2.l1| + |r m.p1.l2| * |r m.p2.l2| +
      |r m.p1.l3| * |r m.p2.l3| ≤ √m.p1.sq4 * C :=
    cs4 hS0 hC0 (by simp only [sq_abs]; exact sq4_sqrt _) (by simp only [sq_abs]; exact h.p2)
  have hnear : Near F32.rounded 4 ((dp_bc isa (xor_ps m.p1 flip_ss) m.p2).get i) (-(m.real.bc))
      (√m.p1.sq4 * C + 4 * F32.rounded.tiny) := by
    have := F32.rounded.tiny_nonneg
    have e : ∀ x : F32, F32.rounded.val x = r x := fun _ => rfl
    cases isa <;> fin_cases i
    all_goals
      apply Near.le
      · simp only [kln, sse, V4.get, cond_true, cond_false]
        near
      · simp only [e, Motor.bc, Motor.real, V4.real, V4.get]; ring
      · simp only [e, V4.get]; linarith
      · decide
  refine ⟨hf, ?_, gamma_bc (hnear.err hf) le_rfl (hP.lo.trans' (by norm_num)), hP⟩
  refine le_trans ?_ hcs
  rw [abs_neg]
  simp only [Motor.bc, Motor.real, V4.real, ← abs_mul]
  refine (abs_sub _ _).trans (add_le_add_left ?_ _)
  refine (abs_sub _ _).trans (add_le_add_left ?_ _)
  exact abs_sub _ _

section
variable {m : Motor F32} {C : ℝ}

theorem Motor.Scale.ap_b (h : m.Scale C) (i : Fin 4) :
    Ap (m.p1.get i) (r (m.p1.get i)) (√m.p1.sq4) 0 30 32 :=
  Ap.input (h.p1 i (by norm_num)).1 (lane_le4 (Real.sqrt_nonneg _) (sq4_sqrt _) i) (sq4_rng h.p1 h.norm)

theorem Motor.Scale.ap_c (h : m.Scale C) (i : Fin 4) : Ap (m.p2.get i) (r (m.p2.get i)) C 0 30 32 :=
  Ap.input (h.fin i) (lane_le4 h.rng.pos.le h.p2 i) h.rng

theorem Motor.Scale.ap_s (h : m.Scale C) {hw : Hw F32} (hc : hw.Contract32) (isa : Isa) (i : Fin 4) :
    Ap ((rsqrt_nr1 hw (dp_bc isa m.p1 m.p1)).get i) (1 / √m.p1.sq4) (1 / √m.p1.sq4) 6.2e-7 32 30 := by
  obtain ⟨h1, h2⟩ := inv4_f32 hc isa h.p1 h.norm i
  exact ap_rsqrt (lt_of_lt_of_le (by positivity) h.norm) (sq4_rng h.p1 h.norm) h1 h2

theorem Motor.Scale.ap_q (h : m.Scale C) {hw : Hw F32} (hc : hw.Contract32) (isa : Isa) (i : Fin 4) :
    Ap ((rcp_nr1 hw (dp_bc isa m.p1 m.p1)).get i) (1 / √m.p1.sq4 * (1 / √m.p1.sq4))
      (1 / √m.p1.sq4 * (1 / √m.p1.sq4)) 6.3e-7 64 60 := by
  obtain ⟨h1, h2⟩ := sq4_f32 isa h.p1 h.norm i
  have e : (rcp_nr1 hw (dp_bc isa m.p1 m.p1)).get i = rcp1 hw ((dp_bc isa m.p1 m.p1).get i) := by
    rw [rcp_nr1_map]; fin_cases i <;> rfl
  rw [e]
  refine ap_rcp hc (sq4_rng h.p1 h.norm) h1 ?_
  rw [Real.mul_self_sqrt (by unfold V4.sq4; positivity)]; exact h2

theorem Motor.real_dot4 (m : Motor F32) : dot4 m.real.p1 m.real.p1 = m.p1.sq4 := by
  simp only [dot4, Motor.real, V4.real, V4.sq4]; ring

theorem inv_sqrt_sq {N : ℝ} (hN : 0 < N) : 1 / √N * (1 / √N) = 1 / N := by
  rw [one_div_mul_one_div, Real.mul_self_sqrt hN.le]

/-- C70: the moment lanes of a normalised motor, against exact arithmetic. -/
theorem C70_motor_normalize_p2 {hw : Hw F32} (hc : hw.Contract32) {hwr : Hw ℝ} (hx : hwr.Exact) (isa isa' : Isa)
    (h : m.Scale C) (i : Fin 4) :
    ((m.normalize hw isa).p2.get i).isFinite = true ∧
      |r ((m.normalize hw isa).p2.get i) - (m.real.normalize hwr isa').p2.get i| ≤ 3.7e-6 * (C / √m.p1.sq4) := by
  have hN : 0 < m.p1.sq4 := lt_of_lt_of_le (by positivity) h.norm
  have hS := sq4_rng h.p1 h.norm
  have key : ∀ j, _ := fun j => lane_norm hS h.rng (h.ap_b j) (h.ap_c j) (h.ap_s hc isa j) (h.ap_q hc isa j) (h.ap_bc isa j)
  have fin : ∀ {x : F32} {E E' : ℝ} {n : ℕ}, Ap x E (C * (1 / √m.p1.sq4) + C * (1 / √m.p1.sq4)) 1.85e-6 62 n → E = E' →
      x.isFinite = true ∧ |r x - E'| ≤ 3.7e-6 * (C / √m.p1.sq4) := by
    rintro x E E' n hx rfl
    refine ⟨hx.fin, hx.err.trans (le_of_eq ?_)⟩
    ring
  rw [Motor.normalize_eq, Motor.real_dot4, exact_rsqrt1 hx hN, exact_rcp1 hx hN.ne', ← inv_sqrt_sq hN]
  fin_cases i
  · obtain ⟨h1, h2⟩ := key 0
    exact fin (h1.sub h2.neg (by norm_num) le_rfl (by norm_num) (by norm_num) (by ap_num))
      (by simp only [Motor.dualSmul, Motor.real, V4.real, V4.get]; ring)
  · obtain ⟨h1, h2⟩ := key 1
    exact fin (h1.sub h2 (by norm_num) le_rfl (by norm_num) (by norm_num) (by ap_num))
      (by simp only [Motor.dualSmul, Motor.real, V4.real, V4.get]; ring)
  · obtain ⟨h1, h2⟩ := key 2
    exact fin (h1.sub h2 (by norm_num) le_rfl (by norm_num) (by norm_num) (by ap_num))
      (by simp only [Motor.dualSmul, Motor.real, V4.real, V4.get]; ring)
  · obtain ⟨h1, h2⟩ := key 3
    exact fin (h1.sub h2 (by norm_num) le_rfl (by norm_num) (by norm_num) (by ap_num))
      (by simp only [Motor.dualSmul, Motor.real, V4.real, V4.get]; ring)

/-- The accuracy of motor invert p1, with the size of the result. -/
theorem motor_invert_p1_ap {hw : Hw F32} (hc : hw.Contract32) {hwr : Hw ℝ} (hx : hwr.Exact) (isa isa' : Isa)
    (h : m.Scale C) (i : Fin 4) :
    ((m.invert hw isa).p1.get i).isFinite = true ∧ |(m.real.invert hwr isa').p1.get i| ≤ 1 / √m.p1.sq4 ∧
      |r ((m.invert hw isa).p1.get i) - (m.real.invert hwr isa').p1.get i| ≤ 7e-7 / √m.p1.sq4 := by
  have hN : 0 < m.p1.sq4 := lt_of_lt_of_le (by positivity) h.norm
  have hS := sq4_rng h.p1 h.norm
  have hS0 := hS.pos
  have key : ∀ j, _ := fun j => (h.ap_b j).mulR (h.ap_q hc isa j) (show _ = 1 / √m.p1.sq4 by field_simp) hS.inv
    (by norm_num) (by norm_num) (by norm_num) (by norm_num) (show _ ≤ (7e-7 : ℝ) by ap_num)
  have fin : ∀ {x : F32} {E E' : ℝ} {m' n : ℕ}, Ap x E (1 / √m.p1.sq4) 7e-7 m' n → E = E' →
      x.isFinite = true ∧ |E'| ≤ 1 / √m.p1.sq4 ∧ |r x - E'| ≤ 7e-7 / √m.p1.sq4 := by
    rintro x E E' m' n hx rfl
    refine ⟨hx.fin, hx.mag, hx.err.trans (le_of_eq ?_)⟩
    ring
  rw [Motor.invert_eq, Motor.real_dot4, exact_rsqrt1 hx hN, exact_rcp1 hx hN.ne', ← inv_sqrt_sq hN]
  fin_cases i
  · exact fin (key 0) (by simp [Motor.dualSmul, Motor.real, V4.real, V4.get, kln, sse]; ring)
  · exact fin (key 1).neg (by simp [Motor.dualSmul, Motor.real, V4.real, V4.get, kln, sse]; ring)
  · exact fin (key 2).neg (by simp [Motor.dualSmul, Motor.real, V4.real, V4.get, kln, sse]; ring)
  · exact fin (key 3).neg (by simp [Motor.dualSmul, Motor.real, V4.real, V4.get, kln, sse]; ring)

/-- C78: the inverse of a motor in binary32, rotor part. -/
theorem C78_motor_invert_p1 {hw : Hw F32} (hc : hw.Contract32) {hwr : Hw ℝ} (hx : hwr.Exact) (isa isa' : Isa)
    (h : m.Scale C) (i : Fin 4) :
    ((m.invert hw isa).p1.get i).isFinite = true ∧
      |r ((m.invert hw isa).p1.get i) - (m.real.invert hwr isa').p1.get i| ≤ 7e-7 / √m.p1.sq4 := by
  obtain ⟨h1, -, h2⟩ := motor_invert_p1_ap hc hx isa isa' h i
  exact ⟨h1, h2⟩

/-- The accuracy of motor invert p2, with the size of the result. -/
theorem motor_invert_p2_ap {hw : Hw F32} (hc : hw.Contract32) {hwr : Hw ℝ} (hx : hwr.Exact) (isa isa' : Isa)
    (h : m.Scale C) (i : Fin 4) :
    ((m.invert hw isa).p2.get i).isFinite = true ∧ |(m.real.invert hwr isa').p2.get i| ≤ 3 * (C / m.p1.sq4) ∧
      |r ((m.invert hw isa).p2.get i) - (m.real.invert hwr isa').p2.get i| ≤ 7.8e-6 * (C / m.p1.sq4) := by
  have hN : 0 < m.p1.sq4 := lt_of_lt_of_le (by positivity) h.norm
  have hS := sq4_rng h.p1 h.norm
  have hSS := Real.mul_self_sqrt hN.le
  have key : ∀ j, _ := fun j => lane_inv hS h.rng (h.ap_b j) (h.ap_c j) (h.ap_s hc isa j) (h.ap_q hc isa j) (h.ap_bc isa j)
  have fin : ∀ {x : F32} {E E' : ℝ} {n : ℕ}, Ap x E (C * (1 / √m.p1.sq4) * (1 / √m.p1.sq4) +
        2 * (C * (1 / √m.p1.sq4) * (1 / √m.p1.sq4))) 2.6e-6 94 n → E = E' →
      x.isFinite = true ∧ |E'| ≤ 3 * (C / m.p1.sq4) ∧ |r x - E'| ≤ 7.8e-6 * (C / m.p1.sq4) := by
    rintro x E E' n hx rfl
    refine ⟨hx.fin, hx.mag.trans (le_of_eq (by rw [mul_assoc C, inv_sqrt_sq hN]; ring)), hx.err.trans (le_of_eq ?_)⟩
    rw [mul_assoc C, inv_sqrt_sq hN]
    ring
  rw [Motor.invert_eq, Motor.real_dot4, exact_rsqrt1 hx hN, exact_rcp1 hx hN.ne', ← inv_sqrt_sq hN]
  fin_cases i
  · obtain ⟨h1, h2⟩ := key 0
    exact fin (h1.sub h2.neg (by norm_num) le_rfl (by norm_num) (by norm_num) (by ap_num))
      (by simp [Motor.dualSmul, Motor.real, V4.real, V4.get, kln, sse]; ring)
  · obtain ⟨h1, h2⟩ := key 1
    exact fin (h1.sub h2 (by norm_num) le_rfl (by norm_num) (by norm_num) (by ap_num)).neg
      (by simp [Motor.dualSmul, Motor.real, V4.real, V4.get, kln, sse]; ring)
  · obtain ⟨h1, h2⟩ := key 2
    exact fin (h1.sub h2 (by norm_num) le_rfl (by norm_num) (by norm_num) (by ap_num)).neg
      (by simp [Motor.dualSmul, Motor.real, V4.real, V4.get, kln, sse]; ring)
  · obtain ⟨h1, h2⟩ := key 3
    exact fin (h1.sub h2 (by norm_num) le_rfl (by norm_num) (by norm_num) (by ap_num)).neg
      (by simp [Motor.dualSmul, Motor.real, V4.real, V4.get, kln, sse]; ring)

/-- C78: the inverse of a motor in binary32, the other part. -/
theorem C78_motor_invert_p2 {hw : Hw F32} (hc : hw.Contract32) {hwr : Hw ℝ} (hx : hwr.Exact) (isa isa' : Isa)
    (h : m.Scale C) (i : Fin 4) :
    ((m.invert hw isa).p2.get i).isFinite = true ∧
      |r ((m.invert hw isa).p2.get i) - (m.real.invert hwr isa').p2.get i| ≤ 7.8e-6 * (C / m.p1.sq4) := by
  obtain ⟨h1, -, h2⟩ := motor_invert_p2_ap hc hx isa isa' h i
  exact ⟨h1, h2⟩

end

/-! ### lines -/

/-- The same for lines. -/
structure Line.Scale (m : Line F32) (C : ℝ) : Prop where
  p1 : m.p1.Le2 30
  norm : 1 / 2 ^ 60 ≤ m.p1.sq3
  fin : m.p2.Finite
  p2 : m.p2.sq3 ≤ C ^ 2
  rng : In2 C 30 32

section
variable {m : Line F32} {C : ℝ}

theorem Line.Scale.ap_b (h : m.Scale C) (i : Fin 4) (hi : i ≠ 0) :
    Ap (m.p1.get i) (r (m.p1.get i)) (√m.p1.sq3) 0 30 32 :=
  Ap.input (h.p1 i (by norm_num)).1 (lane_le3 (Real.sqrt_nonneg _) (sq3_sqrt _) i hi) (sq3_rng h.p1 h.norm)

theorem Line.Scale.ap_c (h : m.Scale C) (i : Fin 4) (hi : i ≠ 0) : Ap (m.p2.get i) (r (m.p2.get i)) C 0 30 32 :=
  Ap.input (h.fin i) (lane_le3 h.rng.pos.le h.p2 i hi) h.rng

theorem Line.Scale.ap_s (h : m.Scale C) {hw : Hw F32} (hc : hw.Contract32) (isa : Isa) (i : Fin 4) :
    Ap ((rsqrt_nr1 hw (hi_dp_bc isa m.p1 m.p1)).get i) (1 / √m.p1.sq3) (1 / √m.p1.sq3) 6.2e-7 32 30 := by
  obtain ⟨h1, h2⟩ := inv3_f32 hc isa h.p1 h.norm i
  exact ap_rsqrt (lt_of_lt_of_le (by positivity) h.norm) (sq3_rng h.p1 h.norm) h1 h2

theorem Line.Scale.ap_q (h : m.Scale C) {hw : Hw F32} (hc : hw.Contract32) (isa : Isa) (i : Fin 4) :
    Ap ((rcp_nr1 hw (hi_dp_bc isa m.p1 m.p1)).get i) (1 / √m.p1.sq3 * (1 / √m.p1.sq3))
      (1 / √m.p1.sq3 * (1 / √m.p1.sq3)) 6.3e-7 64 60 := by
  obtain ⟨h1, h2⟩ := sq3_f32 isa h.p1 h.norm i
  have e : (rcp_nr1 hw (hi_dp_bc isa m.p1 m.p1)).get i = rcp1 hw ((hi_dp_bc isa m.p1 m.p1).get i) := by
    rw [rcp_nr1_map]; fin_cases i <;> rfl
  rw [e]
  refine ap_rcp hc (sq3_rng h.p1 h.norm) h1 ?_
  rw [Real.mul_self_sqrt (by unfold V4.sq3; positivity)]; exact h2

theorem Line.real_dot3 (m : Line F32) : dot3 m.real.p1 m.real.p1 = m.p1.sq3 := by
  simp only [dot3, Line.real, V4.real, V4.sq3]; ring

/-- The inner product of direction and moment, in every lane. -/
theorem Line.Scale.ap_bc (h : m.Scale C) (isa : Isa) (i : Fin 4) :
    Ap ((hi_dp_bc isa m.p1 m.p2).get i) (dot3 m.real.p1 m.real.p2) (√m.p1.sq3 * C) 3.1e-7 60 64 := by
  have hS := sq3_rng h.p1 h.norm
  have hP := hS.mul h.rng
  have hC0 := h.rng.pos.le
  have hS0 := hS.pos.le
  have b := h.p1
  have c : ∀ i, i ≠ 0 → F32.Le2 (m.p2.get i) 32 := fun i hi => le2_of_abs (h.fin i) ((lane_le3 hC0 h.p2 i hi).trans h.rng.hi)
  have hf : ((hi_dp_bc isa m.p1 m.p2).get i).isFinite = true := by
    le2_get b
    have c1 := c 1 (by decide); have c2 := c 2 (by decide); have c3 := c 3 (by decide)
    simp only [V4.get] at c1 c2 c3
    cases isa <;> fin_cases i <;> le2_lane
  have hcs : 0 * 0 + |r m.p1.l1| * |r m.p2.l1| + |r m.p1.l2| * |r m.p2.l2| +
      |r m.p1.l3| * |r m.p2.l3| ≤ √m.p1.sq3 * C :=
    cs4 hS0 hC0 (by simp only [sq_abs]; have := sq3_sqrt m.p1; unfold V4.sq3 at this ⊢; linarith)
      (by simp only [sq_abs]; have := h.p2; unfold V4.sq3 at this; linarith)
  rw [zero_mul, zero_add] at hcs
  have hnear : Near F32.rounded 4 ((hi_dp_bc isa m.p1 m.p2).get i) (dot3 m.real.p1 m.real.p2)
      (√m.p1.sq3 * C + 4 * F32.rounded.tiny) := by
    have := F32.rounded.tiny_nonneg
    have e : ∀ x : F32, F32.rounded.val x = r x := fun _ => rfl
    cases isa <;> fin_cases i
    all_goals
      apply Near.le
      · simp only [kln, sse, V4.get, cond_true, cond_false]
        near
      · simp only [e, dot3, Line.real, V4.real, V4.get]; ring
      · simp only [e, V4.get]; linarith
      · decide
  refine ⟨hf, ?_, gamma_bc (hnear.err hf) le_rfl (hP.lo.trans' (by norm_num)), hP⟩
  refine le_trans ?_ hcs
  simp only [dot3, Line.real, V4.real, ← abs_mul]
  refine (abs_add_le _ _).trans (add_le_add_left ?_ _)
  exact abs_add_le _ _

/-- C70: the moment lanes of a normalised line, against exact arithmetic. -/
theorem C70_line_normalize_p2 {hw : Hw F32} (hc : hw.Contract32) {hwr : Hw ℝ} (hx : hwr.Exact) (isa isa' : Isa)
    (h : m.Scale C) (i : Fin 4) (hi : i ≠ 0) :
    ((m.normalize hw isa).p2.get i).isFinite = true ∧
      |r ((m.normalize hw isa).p2.get i) - (m.real.normalize hwr isa').p2.get i| ≤ 3.7e-6 * (C / √m.p1.sq3) := by
  have hN : 0 < m.p1.sq3 := lt_of_lt_of_le (by positivity) h.norm
  have hS := sq3_rng h.p1 h.norm
  have key : ∀ j : Fin 4, j ≠ 0 → _ := fun j hj => lane_norm hS h.rng (h.ap_b j hj) (h.ap_c j hj) (h.ap_s hc isa j) (h.ap_q hc isa j) (h.ap_bc isa j)
  have fin : ∀ {x : F32} {E E' : ℝ} {n : ℕ}, Ap x E (C * (1 / √m.p1.sq3) + C * (1 / √m.p1.sq3)) 1.85e-6 62 n → E = E' →
      x.isFinite = true ∧ |r x - E'| ≤ 3.7e-6 * (C / √m.p1.sq3) := by
    rintro x E E' n hx rfl
    refine ⟨hx.fin, hx.err.trans (le_of_eq ?_)⟩
    ring
  rw [Line.normalize_eq, Line.real_dot3, exact_rsqrt1 hx hN, exact_rcp1 hx hN.ne', ← inv_sqrt_sq hN]
  fin_cases i
  · exact absurd rfl hi
  · obtain ⟨h1, h2⟩ := key 1 (by decide)
    exact fin (h1.sub h2 (by norm_num) le_rfl (by norm_num) (by norm_num) (by ap_num))
      (by simp only [Line.dualSmul, Line.real, V4.real, V4.get]; ring)
  · obtain ⟨h1, h2⟩ := key 2 (by decide)
    exact fin (h1.sub h2 (by norm_num) le_rfl (by norm_num) (by norm_num) (by ap_num))
      (by simp only [Line.dualSmul, Line.real, V4.real, V4.get]; ring)
  · obtain ⟨h1, h2⟩ := key 3 (by decide)
    exact fin (h1.sub h2 (by norm_num) le_rfl (by norm_num) (by norm_num) (by ap_num))
      (by simp only [Line.dualSmul, Line.real, V4.real, V4.get]; ring)

/-- The accuracy of line invert p1, with the size of the result. -/
theorem line_invert_p1_ap {hw : Hw F32} (hc : hw.Contract32) {hwr : Hw ℝ} (hx : hwr.Exact) (isa isa' : Isa)
    (h : m.Scale C) (i : Fin 4) (hi : i ≠ 0) :
    ((m.invert hw isa).p1.get i).isFinite = true ∧ |(m.real.invert hwr isa').p1.get i| ≤ 1 / √m.p1.sq3 ∧
      |r ((m.invert hw isa).p1.get i) - (m.real.invert hwr isa').p1.get i| ≤ 7e-7 / √m.p1.sq3 := by
  have hN : 0 < m.p1.sq3 := lt_of_lt_of_le (by positivity) h.norm
  have hS := sq3_rng h.p1 h.norm
  have hS0 := hS.pos
  have key : ∀ j : Fin 4, j ≠ 0 → _ := fun j hj => (h.ap_b j hj).mulR (h.ap_q hc isa j) (show _ = 1 / √m.p1.sq3 by field_simp) hS.inv
    (by norm_num) (by norm_num) (by norm_num) (by norm_num) (show _ ≤ (7e-7 : ℝ) by ap_num)
  have fin : ∀ {x : F32} {E E' : ℝ} {m' n : ℕ}, Ap x E (1 / √m.p1.sq3) 7e-7 m' n → E = E' →
      x.isFinite = true ∧ |E'| ≤ 1 / √m.p1.sq3 ∧ |r x - E'| ≤ 7e-7 / √m.p1.sq3 := by
    rintro x E E' m' n hx rfl
    refine ⟨hx.fin, hx.mag, hx.err.trans (le_of_eq ?_)⟩
    ring
  rw [Line.invert_eq, Line.real_dot3, exact_rsqrt1 hx hN, exact_rcp1 hx hN.ne', ← inv_sqrt_sq hN]
  fin_cases i
  · exact absurd rfl hi
  · exact fin (key 1 (by decide)).neg (by simp [Line.dualSmul, Line.real, V4.real, V4.get, kln, sse]; ring)
  · exact fin (key 2 (by decide)).neg (by simp [Line.dualSmul, Line.real, V4.real, V4.get, kln, sse]; ring)
  · exact fin (key 3 (by decide)).neg (by simp [Line.dualSmul, Line.real, V4.real, V4.get, kln, sse]; ring)

/-- C78: the inverse of a line in binary32, direction. -/
theorem C78_line_invert_p1 {hw : Hw F32} (hc : hw.Contract32) {hwr : Hw ℝ} (hx : hwr.Exact) (isa isa' : Isa)
    (h : m.Scale C) (i : Fin 4) (hi : i ≠ 0) :
    ((m.invert hw isa).p1.get i).isFinite = true ∧
      |r ((m.invert hw isa).p1.get i) - (m.real.invert hwr isa').p1.get i| ≤ 7e-7 / √m.p1.sq3 := by
  obtain ⟨h1, -, h2⟩ := line_invert_p1_ap hc hx isa isa' h i hi
  exact ⟨h1, h2⟩

/-- The accuracy of line invert p2, with the size of the result. -/
theorem line_invert_p2_ap {hw : Hw F32} (hc : hw.Contract32) {hwr : Hw ℝ} (hx : hwr.Exact) (isa isa' : Isa)
    (h : m.Scale C) (i : Fin 4) (hi : i ≠ 0) :
    ((m.invert hw isa).p2.get i).isFinite = true ∧ |(m.real.invert hwr isa').p2.get i| ≤ 3 * (C / m.p1.sq3) ∧
      |r ((m.invert hw isa).p2.get i) - (m.real.invert hwr isa').p2.get i| ≤ 7.8e-6 * (C / m.p1.sq3) := by
  have hN : 0 < m.p1.sq3 := lt_of_lt_of_le (by positivity) h.norm
  have hS := sq3_rng h.p1 h.norm
  have key : ∀ j : Fin 4, j ≠ 0 → _ := fun j hj => lane_inv hS h.rng (h.ap_b j hj) (h.ap_c j hj) (h.ap_s hc isa j) (h.ap_q hc isa j) (h.ap_bc isa j)
  have fin : ∀ {x : F32} {E E' : ℝ} {n : ℕ}, Ap x E (C * (1 / √m.p1.sq3) * (1 / √m.p1.sq3) +
        2 * (C * (1 / √m.p1.sq3) * (1 / √m.p1.sq3))) 2.6e-6 94 n → E = E' →
      x.isFinite = true ∧ |E'| ≤ 3 * (C / m.p1.sq3) ∧ |r x - E'| ≤ 7.8e-6 * (C / m.p1.sq3) := by
    rintro x E E' n hx rfl
    refine ⟨hx.fin, hx.mag.trans (le_of_eq (by rw [mul_assoc C, inv_sqrt_sq hN]; ring)), hx.err.trans (le_of_eq ?_)⟩
    rw [mul_assoc C, inv_sqrt_sq hN]
    ring
  rw [Line.invert_eq, Line.real_dot3, exact_rsqrt1 hx hN, exact_rcp1 hx hN.ne', ← inv_sqrt_sq hN]
  fin_cases i
  · exact absurd rfl hi
  · obtain ⟨h1, h2⟩ := key 1 (by decide)
    exact fin (h1.sub h2 (by norm_num) le_rfl (by norm_num) (by norm_num) (by ap_num)).neg
      (by simp [Line.dualSmul, Line.real, V4.real, V4.get, kln, sse]; ring)
  · obtain ⟨h1, h2⟩ := key 2 (by decide)
    exact fin (h1.sub h2 (by norm_num) le_rfl (by norm_num) (by norm_num) (by ap_num)).neg
      (by simp [Line.dualSmul, Line.real, V4.real, V4.get, kln, sse]; ring)
  · obtain ⟨h1, h2⟩ := key 3 (by decide)
    exact fin (h1.sub h2 (by norm_num) le_rfl (by norm_num) (by norm_num) (by ap_num)).neg
      (by simp [Line.dualSmul, Line.real, V4.real, V4.get, kln, sse]; ring)

/-- C78: the inverse of a line in binary32, moment. -/
theorem C78_line_invert_p2 {hw : Hw F32} (hc : hw.Contract32) {hwr : Hw ℝ} (hx : hwr.Exact) (isa isa' : Isa)
    (h : m.Scale C) (i : Fin 4) (hi : i ≠ 0) :
    ((m.invert hw isa).p2.get i).isFinite = true ∧
      |r ((m.invert hw isa).p2.get i) - (m.real.invert hwr isa').p2.get i| ≤ 7.8e-6 * (C / m.p1.sq3) := by
  obtain ⟨h1, -, h2⟩ := line_invert_p2_ap hc hx isa isa' h i hi
  exact ⟨h1, h2⟩

end

/-! ### branches, planes, points -/

/-- The accuracy of branch invert, with the size of the result. -/
theorem branch_invert_ap {hw : Hw F32} (hc : hw.Contract32) {hwr : Hw ℝ} (hx : hwr.Exact) (isa isa' : Isa)
    (b : Branch F32) (hv : b.p1.Le2 30) (hn : 1 / 2 ^ 60 ≤ b.p1.sq3) (i : Fin 4) (hi : i ≠ 0) :
    ((b.invert hw isa).p1.get i).isFinite = true ∧ |(b.real.invert hwr isa').p1.get i| ≤ 1 / √b.p1.sq3 ∧
      |r ((b.invert hw isa).p1.get i) - (b.real.invert hwr isa').p1.get i| ≤ 1.4e-6 / √b.p1.sq3 := by
  have hN : 0 < b.p1.sq3 := lt_of_lt_of_le (by positivity) hn
  have hS := sq3_rng hv hn
  have hS0 := hS.pos
  have hs := fun j => ap_rsqrt hN hS (inv3_f32 hc isa hv hn j).1 (inv3_f32 hc isa hv hn j).2
  have hb := fun (j : Fin 4) (hj : j ≠ 0) => Ap.input (hv j (by norm_num)).1 (lane_le3 (Real.sqrt_nonneg _) (sq3_sqrt b.p1) j hj) hS
  have key : ∀ j : Fin 4, j ≠ 0 → _ := fun j hj => ((hb j hj).mulR (hs j) (show _ = (1 : ℝ) by field_simp)
      (⟨by norm_num, by norm_num⟩ : In2 1 0 0) (by norm_num) (by norm_num) (by norm_num) (by norm_num)
      (show _ ≤ (6.81e-7 : ℝ) by ap_num)).mulR (hs j) (one_mul _) hS.inv
      (by norm_num) (by norm_num) (by norm_num) (by norm_num) (show _ ≤ (1.4e-6 : ℝ) by ap_num)
  have fin : ∀ {x : F32} {E E' : ℝ} {m' n : ℕ}, Ap x E (1 / √b.p1.sq3) 1.4e-6 m' n → E = E' →
      x.isFinite = true ∧ |E'| ≤ 1 / √b.p1.sq3 ∧ |r x - E'| ≤ 1.4e-6 / √b.p1.sq3 := by
    rintro x E E' m' n hx rfl
    refine ⟨hx.fin, hx.mag, hx.err.trans (le_of_eq ?_)⟩
    ring
  have e3 : dot3 b.real.p1 b.real.p1 = b.p1.sq3 := by
    simp only [dot3, Branch.real, V4.real, V4.sq3]; ring
  rw [Branch.invert_eq, e3, exact_rsqrt1 hx hN]
  fin_cases i
  · exact absurd rfl hi
  · exact fin (key 1 (by decide)).neg (by simp [Branch.real, V4.real, V4.get, kln, sse]; ring)
  · exact fin (key 2 (by decide)).neg (by simp [Branch.real, V4.real, V4.get, kln, sse]; ring)
  · exact fin (key 3 (by decide)).neg (by simp [Branch.real, V4.real, V4.get, kln, sse]; ring)

/-- C78: the inverse of a branch. -/
theorem C78_branch_invert {hw : Hw F32} (hc : hw.Contract32) {hwr : Hw ℝ} (hx : hwr.Exact) (isa isa' : Isa)
    (b : Branch F32) (hv : b.p1.Le2 30) (hn : 1 / 2 ^ 60 ≤ b.p1.sq3) (i : Fin 4) (hi : i ≠ 0) :
    ((b.invert hw isa).p1.get i).isFinite = true ∧
      |r ((b.invert hw isa).p1.get i) - (b.real.invert hwr isa').p1.get i| ≤ 1.4e-6 / √b.p1.sq3 := by
  obtain ⟨h1, -, h2⟩ := branch_invert_ap hc hx isa isa' b hv hn i hi
  exact ⟨h1, h2⟩

/-- The accuracy of plane invert, with the size of the result. -/
theorem plane_invert_ap {hw : Hw F32} (hc : hw.Contract32) {hwr : Hw ℝ} (hx : hwr.Exact) (isa isa' : Isa)
    (p : Plane F32) (hv : p.p0.Le2 30) (hn : 1 / 2 ^ 60 ≤ p.p0.sq3) (i : Fin 4) (hi : i ≠ 0) :
    ((p.invert hw isa).p0.get i).isFinite = true ∧ |(p.real.invert hwr isa').p0.get i| ≤ 1 / √p.p0.sq3 ∧
      |r ((p.invert hw isa).p0.get i) - (p.real.invert hwr isa').p0.get i| ≤ 1.4e-6 / √p.p0.sq3 := by
  have hN : 0 < p.p0.sq3 := lt_of_lt_of_le (by positivity) hn
  have hS := sq3_rng hv hn
  have hS0 := hS.pos
  have hs := fun j => ap_rsqrt hN hS (inv3_f32 hc isa hv hn j).1 (inv3_f32 hc isa hv hn j).2
  have hb := fun (j : Fin 4) (hj : j ≠ 0) => Ap.input (hv j (by norm_num)).1 (lane_le3 (Real.sqrt_nonneg _) (sq3_sqrt p.p0) j hj) hS
  have key : ∀ j : Fin 4, j ≠ 0 → _ := fun j hj => (hs j).mulR ((hs j).mulR (hb j hj) (show _ = (1 : ℝ) by field_simp)
      (⟨by norm_num, by norm_num⟩ : In2 1 0 0) (by norm_num) (by norm_num) (by norm_num) (by norm_num)
      (show _ ≤ (6.81e-7 : ℝ) by ap_num)) (mul_one _) hS.inv
      (by norm_num) (by norm_num) (by norm_num) (by norm_num) (show _ ≤ (1.4e-6 : ℝ) by ap_num)
  have fin : ∀ {x : F32} {E E' : ℝ} {m' n : ℕ}, Ap x E (1 / √p.p0.sq3) 1.4e-6 m' n → E = E' →
      x.isFinite = true ∧ |E'| ≤ 1 / √p.p0.sq3 ∧ |r x - E'| ≤ 1.4e-6 / √p.p0.sq3 := by
    rintro x E E' m' n hx rfl
    refine ⟨hx.fin, hx.mag, hx.err.trans (le_of_eq ?_)⟩
    ring
  have e3 : dot3 p.real.p0 p.real.p0 = p.p0.sq3 := by
    simp only [dot3, Plane.real, V4.real, V4.sq3]; ring
  rw [Plane.invert_eq, e3, exact_rsqrt1 hx hN]
  fin_cases i
  · exact absurd rfl hi
  · exact fin (key 1 (by decide)) (by simp [Plane.real, V4.real, V4.get, kln, sse]; ring)
  · exact fin (key 2 (by decide)) (by simp [Plane.real, V4.real, V4.get, kln, sse]; ring)
  · exact fin (key 3 (by decide)) (by simp [Plane.real, V4.real, V4.get, kln, sse]; ring)

/-- C78: the inverse of a plane, its normal. -/
theorem C78_plane_invert {hw : Hw F32} (hc : hw.Contract32) {hwr : Hw ℝ} (hx : hwr.Exact) (isa isa' : Isa)
    (p : Plane F32) (hv : p.p0.Le2 30) (hn : 1 / 2 ^ 60 ≤ p.p0.sq3) (i : Fin 4) (hi : i ≠ 0) :
    ((p.invert hw isa).p0.get i).isFinite = true ∧
      |r ((p.invert hw isa).p0.get i) - (p.real.invert hwr isa').p0.get i| ≤ 1.4e-6 / √p.p0.sq3 := by
  obtain ⟨h1, -, h2⟩ := plane_invert_ap hc hx isa isa' p hv hn i hi
  exact ⟨h1, h2⟩

/-- C78: the inverse of a plane, its distance lane; `C` bounds the lane. -/
theorem C78_plane_invert_d {hw : Hw F32} (hc : hw.Contract32) {hwr : Hw ℝ} (hx : hwr.Exact) (isa isa' : Isa)
    (p : Plane F32) {C : ℝ} (hv : p.p0.Le2 30) (hn : 1 / 2 ^ 60 ≤ p.p0.sq3) (hC : In2 C 30 32) (hd : |r p.p0.l0| ≤ C) :
    ((p.invert hw isa).p0.l0).isFinite = true ∧
      |r (p.invert hw isa).p0.l0 - (p.real.invert hwr isa').p0.l0| ≤ 1.4e-6 * (C / p.p0.sq3) := by
  have hN : 0 < p.p0.sq3 := lt_of_lt_of_le (by positivity) hn
  have hS := sq3_rng hv hn
  have hS0 := hS.pos
  have hs := ap_rsqrt hN hS (inv3_f32 hc isa hv hn 0).1 (inv3_f32 hc isa hv hn 0).2
  have hb := Ap.input (hv 0 (by norm_num)).1 hd hC
  have key := hs.mulR (hs.mulR hb rfl (hS.inv.mul hC) (by norm_num) (by norm_num) (by norm_num) (by norm_num)
      (show _ ≤ (6.81e-7 : ℝ) by ap_num)) rfl (hS.inv.mul (hS.inv.mul hC))
      (by norm_num) (by norm_num) (by norm_num) (by norm_num) (show _ ≤ (1.4e-6 : ℝ) by ap_num)
  have e3 : dot3 p.real.p0 p.real.p0 = p.p0.sq3 := by
    simp only [dot3, Plane.real, V4.real, V4.sq3]; ring
  rw [Plane.invert_eq, e3, exact_rsqrt1 hx hN]
  refine ⟨key.fin, ?_⟩
  have e : (p.real.smul (1 / √p.p0.sq3 * (1 / √p.p0.sq3))).p0.l0 =
      1 / √p.p0.sq3 * (1 / √p.p0.sq3 * r (p.p0.get 0)) := by
    simp [Plane.real, V4.real, V4.get, kln, sse]; ring
  rw [e]
  refine key.err.trans (le_of_eq ?_)
  rw [← mul_assoc (1 / √p.p0.sq3), inv_sqrt_sq hN]; ring

/-- C70: lane 0 of a normalised plane as the code computes it. The SSE4.1 build keeps it (the code does not
divide it by the norm, C25). -/
theorem C70_plane_normalize_d_sse41 {hw : Hw F32} (p : Plane F32) (hf : p.p0.l0.isFinite = true) :
    r (p.normalize hw .sse41).p0.l0 = r p.p0.l0 := by
  have e : (p.normalize hw .sse41).p0.l0 = 1 * p.p0.l0 := rfl
  rw [e, mul_round (by decide +kernel) hf, one_val, one_mul]
  unfold r
  rw [round_val hf]

/-- C70: the SSE3 build multiplies it by one plus the inverse norm (C25). -/
theorem C70_plane_normalize_d_sse3 {hw : Hw F32} (hc : hw.Contract32) (p : Plane F32) {C : ℝ} (hv : p.p0.Le2 30)
    (hn : 1 / 2 ^ 60 ≤ p.p0.sq3) (hC : In2 C 30 32) (hd : |r p.p0.l0| ≤ C) :
    ((p.normalize hw .sse3).p0.l0).isFinite = true ∧
      |r (p.normalize hw .sse3).p0.l0 - (1 / √p.p0.sq3 + 1) * r p.p0.l0| ≤ 7.5e-7 * ((1 / √p.p0.sq3 + 1) * C) := by
  have hN : 0 < p.p0.sq3 := lt_of_lt_of_le (by positivity) hn
  have hS := sq3_rng hv hn
  have hs := ap_rsqrt hN hS (inv3_f32 hc .sse3 hv hn 0).1 (inv3_f32 hc .sse3 hv hn 0).2
  have h1 : Ap 1 (r 1) 1 0 32 0 := Ap.input (by decide +kernel) (by rw [r_one, abs_one]) ⟨by norm_num, by norm_num⟩
  have key := (hs.add h1 (K := 6.2e-7) (by norm_num) (by norm_num) (by norm_num) (by norm_num)
    (show _ ≤ (6.81e-7 : ℝ) by ap_num)).mul (Ap.input (hv 0 (by norm_num)).1 hd hC) (by norm_num) (by norm_num) (by norm_num)
    (by norm_num) (show _ ≤ (7.5e-7 : ℝ) by ap_num)
  have h := key.err
  rw [r_one] at h
  exact ⟨key.fin, h⟩

/-! ### rotors and points -/

/-- The accuracy of rotor invert, with the size of the result. -/
theorem rotor_invert_ap {hw : Hw F32} (hc : hw.Contract32) {hwr : Hw ℝ} (hx : hwr.Exact) (isa isa' : Isa)
    (b : Rotor F32) {C : ℝ} (hv : b.p1.Le2 30) (hn : 1 / 2 ^ 60 ≤ b.p1.sq3) (hC : In2 C 30 32)
    (hl : ∀ i, |r (b.p1.get i)| ≤ C) (i : Fin 4) :
    ((b.invert hw isa).p1.get i).isFinite = true ∧ |(b.real.invert hwr isa').p1.get i| ≤ C / b.p1.sq3 ∧
      |r ((b.invert hw isa).p1.get i) - (b.real.invert hwr isa').p1.get i| ≤ 1.4e-6 * (C / b.p1.sq3) := by
  have hN : 0 < b.p1.sq3 := lt_of_lt_of_le (by positivity) hn
  have hS := sq3_rng hv hn
  have hs := fun j => ap_rsqrt hN hS (inv3_f32 hc isa hv hn j).1 (inv3_f32 hc isa hv hn j).2
  have key := fun j : Fin 4 => ((Ap.input (hv j (by norm_num)).1 (hl j) hC).mulR (hs j) rfl (hC.mul hS.inv)
      (by norm_num) (by norm_num) (by norm_num) (by norm_num)
      (show _ ≤ (6.81e-7 : ℝ) by ap_num)).mulR (hs j) rfl ((hC.mul hS.inv).mul hS.inv)
      (by norm_num) (by norm_num) (by norm_num) (by norm_num) (show _ ≤ (1.4e-6 : ℝ) by ap_num)
  have fin : ∀ {x : F32} {E E' : ℝ} {m' n : ℕ}, Ap x E (C * (1 / √b.p1.sq3) * (1 / √b.p1.sq3)) 1.4e-6 m' n → E = E' →
      x.isFinite = true ∧ |E'| ≤ C / b.p1.sq3 ∧ |r x - E'| ≤ 1.4e-6 * (C / b.p1.sq3) := by
    rintro x E E' m' n hx rfl
    refine ⟨hx.fin, hx.mag.trans (le_of_eq (by rw [mul_assoc C, inv_sqrt_sq hN]; ring)), hx.err.trans (le_of_eq ?_)⟩
    rw [mul_assoc C, inv_sqrt_sq hN]; ring
  have e3 : dot3 b.real.p1 b.real.p1 = b.p1.sq3 := by
    simp only [dot3, Rotor.real, V4.real, V4.sq3]; ring
  rw [Rotor.invert_eq, e3, exact_rsqrt1 hx hN]
  fin_cases i
  · exact fin (key 0) (by simp [Rotor.real, V4.real, V4.get, kln, sse]; ring)
  · exact fin (key 1).neg (by simp [Rotor.real, V4.real, V4.get, kln, sse]; ring)
  · exact fin (key 2).neg (by simp [Rotor.real, V4.real, V4.get, kln, sse]; ring)
  · exact fin (key 3).neg (by simp [Rotor.real, V4.real, V4.get, kln, sse]; ring)

/-- C78: the inverse of a rotor as the code computes it (it omits the scalar from the norm, C27): the
rounded computation agrees with the exact one. `C` bounds the lanes. -/
theorem C78_rotor_invert {hw : Hw F32} (hc : hw.Contract32) {hwr : Hw ℝ} (hx : hwr.Exact) (isa isa' : Isa)
    (b : Rotor F32) {C : ℝ} (hv : b.p1.Le2 30) (hn : 1 / 2 ^ 60 ≤ b.p1.sq3) (hC : In2 C 30 32)
    (hl : ∀ i, |r (b.p1.get i)| ≤ C) (i : Fin 4) :
    ((b.invert hw isa).p1.get i).isFinite = true ∧
      |r ((b.invert hw isa).p1.get i) - (b.real.invert hwr isa').p1.get i| ≤ 1.4e-6 * (C / b.p1.sq3) := by
  obtain ⟨h1, -, h2⟩ := rotor_invert_ap hc hx isa isa' b hv hn hC hl i
  exact ⟨h1, h2⟩

/-- The reciprocal of a lane. -/
theorem ap_rcp_in {hw : Hw F32} (hc : hw.Contract32) {k : F32} (hf : k.isFinite = true) (hk : In2 |r k| 30 32) :
    Ap (rcp1 hw k) (1 / r k) (1 / |r k|) 3.2e-7 32 30 := by
  have hk0 := hk.pos
  have hk1 : r k ≠ 0 := abs_pos.1 hk0
  have hlo := hk.lo; have hhi := hk.hi
  obtain ⟨h1, h2⟩ := rcp1_f32 hc hf (le_trans (by norm_num) hlo) (hhi.trans (by norm_num))
  refine ⟨h1, by rw [abs_div, abs_one], ?_, hk.inv⟩
  have e : r (rcp1 hw k) - 1 / r k = (r (rcp1 hw k) * r k - 1) * (1 / r k) := by field_simp
  rw [e, abs_mul, abs_div, abs_one]
  exact mul_le_mul_of_nonneg_right h2 (by positivity)

/-- C78: the inverse of a point as the code computes it (lanes over the squared weight; C28). -/
theorem C78_point_invert {hw : Hw F32} (hc : hw.Contract32) {hwr : Hw ℝ} (hx : hwr.Exact)
    (b : Point F32) {C : ℝ} (hv : b.p3.Finite) (hn : In2 |r b.p3.l0| 30 32) (hC : In2 C 30 32)
    (hl : ∀ i, |r (b.p3.get i)| ≤ C) (i : Fin 4) :
    ((b.invert hw).p3.get i).isFinite = true ∧
      |r ((b.invert hw).p3.get i) - (b.real.invert hwr).p3.get i| ≤ 8e-7 * (C / r b.p3.l0 ^ 2) := by
  have hk0 : r b.p3.l0 ≠ 0 := abs_pos.1 hn.pos
  have hs := ap_rcp_in hc (hv 0) hn
  have key := fun j : Fin 4 => hs.mulR (hs.mulR (Ap.input (hv j) (hl j) hC) rfl (hn.inv.mul hC)
      (by norm_num) (by norm_num) (by norm_num) (by norm_num)
      (show _ ≤ (3.8e-7 : ℝ) by ap_num)) rfl (hn.inv.mul (hn.inv.mul hC))
      (by norm_num) (by norm_num) (by norm_num) (by norm_num) (show _ ≤ (8e-7 : ℝ) by ap_num)
  have fin : ∀ {x : F32} {E E' : ℝ} {m' n : ℕ}, Ap x E (1 / |r b.p3.l0| * (1 / |r b.p3.l0| * C)) 8e-7 m' n → E = E' →
      x.isFinite = true ∧ |r x - E'| ≤ 8e-7 * (C / r b.p3.l0 ^ 2) := by
    rintro x E E' m' n hx rfl
    refine ⟨hx.fin, hx.err.trans (le_of_eq ?_)⟩
    rw [← sq_abs (r b.p3.l0)]; have := hn.pos; field_simp
  have e3 : rcp1 hwr b.real.w = 1 / r b.p3.l0 := exact_rcp1 hx hk0
  rw [Point.invert_eq, e3]
  fin_cases i
  · exact fin (key 0) (by simp [Point.real, V4.real, V4.get, kln, sse]; ring)
  · exact fin (key 1) (by simp [Point.real, V4.real, V4.get, kln, sse]; ring)
  · exact fin (key 2) (by simp [Point.real, V4.real, V4.get, kln, sse]; ring)
  · exact fin (key 3) (by simp [Point.real, V4.real, V4.get, kln, sse]; ring)

/-! ### division by a scalar -/

theorem V4.sdiv_f32 {hw : Hw F32} (hc : hw.Contract32) {v : V4 F32} {k : F32} {C : ℝ} (hv : v.Finite)
    (hC : In2 C 30 32) (hl : ∀ i, |r (v.get i)| ≤ C) (hf : k.isFinite = true) (hk : In2 |r k| 30 32) (i : Fin 4) :
    ((mul_ps v (rcp_nr1 hw (set1_ps k))).get i).isFinite = true ∧
      |r ((mul_ps v (rcp_nr1 hw (set1_ps k))).get i) - r (v.get i) / r k| ≤ 3.8e-7 * (C / |r k|) := by
  have e : (mul_ps v (rcp_nr1 hw (set1_ps k))).get i = v.get i * rcp1 hw k := by
    rw [rcp_nr1_map]; fin_cases i <;> rfl
  have key := (Ap.input (hv i) (hl i) hC).mulR (ap_rcp_in hc hf hk) rfl (hC.mul hk.inv)
      (by norm_num) (by norm_num) (by norm_num) (by norm_num) (show _ ≤ (3.8e-7 : ℝ) by ap_num)
  rw [e]
  refine ⟨key.fin, ?_⟩
  have h := key.err
  rw [mul_one_div, mul_one_div] at h
  exact h

/-- C78: plane divided by a scalar. -/
theorem C78_plane_sdiv {hw : Hw F32} (hc : hw.Contract32) (x : Plane F32) {k : F32} {C : ℝ}
    (hp0 : x.p0.Finite) (lp0 : ∀ i, |r (x.p0.get i)| ≤ C)
    (hC : In2 C 30 32) (hf : k.isFinite = true) (hk : In2 |r k| 30 32) (i : Fin 4) :
    (((x.sdiv hw k).p0.get i).isFinite = true ∧ |r ((x.sdiv hw k).p0.get i) - r (x.p0.get i) / r k| ≤ 3.8e-7 * (C / |r k|)) :=
  V4.sdiv_f32 hc hp0 hC lp0 hf hk i

/-- C78: point divided by a scalar. -/
theorem C78_point_sdiv {hw : Hw F32} (hc : hw.Contract32) (x : Point F32) {k : F32} {C : ℝ}
    (hp3 : x.p3.Finite) (lp3 : ∀ i, |r (x.p3.get i)| ≤ C)
    (hC : In2 C 30 32) (hf : k.isFinite = true) (hk : In2 |r k| 30 32) (i : Fin 4) :
    (((x.sdiv hw k).p3.get i).isFinite = true ∧ |r ((x.sdiv hw k).p3.get i) - r (x.p3.get i) / r k| ≤ 3.8e-7 * (C / |r k|)) :=
  V4.sdiv_f32 hc hp3 hC lp3 hf hk i

/-- C78: direction divided by a scalar. -/
theorem C78_direction_sdiv {hw : Hw F32} (hc : hw.Contract32) (x : Direction F32) {k : F32} {C : ℝ}
    (hp3 : x.p3.Finite) (lp3 : ∀ i, |r (x.p3.get i)| ≤ C)
    (hC : In2 C 30 32) (hf : k.isFinite = true) (hk : In2 |r k| 30 32) (i : Fin 4) :
    (((x.sdiv hw k).p3.get i).isFinite = true ∧ |r ((x.sdiv hw k).p3.get i) - r (x.p3.get i) / r k| ≤ 3.8e-7 * (C / |r k|)) :=
  V4.sdiv_f32 hc hp3 hC lp3 hf hk i

/-- C78: ideal line divided by a scalar. -/
theorem C78_ideal_line_sdiv {hw : Hw F32} (hc : hw.Contract32) (x : IdealLine F32) {k : F32} {C : ℝ}
    (hp2 : x.p2.Finite) (lp2 : ∀ i, |r (x.p2.get i)| ≤ C)
    (hC : In2 C 30 32) (hf : k.isFinite = true) (hk : In2 |r k| 30 32) (i : Fin 4) :
    (((x.sdiv hw k).p2.get i).isFinite = true ∧ |r ((x.sdiv hw k).p2.get i) - r (x.p2.get i) / r k| ≤ 3.8e-7 * (C / |r k|)) :=
  V4.sdiv_f32 hc hp2 hC lp2 hf hk i

/-- C78: branch divided by a scalar. -/
theorem C78_branch_sdiv {hw : Hw F32} (hc : hw.Contract32) (x : Branch F32) {k : F32} {C : ℝ}
    (hp1 : x.p1.Finite) (lp1 : ∀ i, |r (x.p1.get i)| ≤ C)
    (hC : In2 C 30 32) (hf : k.isFinite = true) (hk : In2 |r k| 30 32) (i : Fin 4) :
    (((x.sdiv hw k).p1.get i).isFinite = true ∧ |r ((x.sdiv hw k).p1.get i) - r (x.p1.get i) / r k| ≤ 3.8e-7 * (C / |r k|)) :=
  V4.sdiv_f32 hc hp1 hC lp1 hf hk i

/-- C78: line divided by a scalar. -/
theorem C78_line_sdiv {hw : Hw F32} (hc : hw.Contract32) (x : Line F32) {k : F32} {C : ℝ}
    (hp1 : x.p1.Finite) (lp1 : ∀ i, |r (x.p1.get i)| ≤ C) (hp2 : x.p2.Finite) (lp2 : ∀ i, |r (x.p2.get i)| ≤ C)
    (hC : In2 C 30 32) (hf : k.isFinite = true) (hk : In2 |r k| 30 32) (i : Fin 4) :
    (((x.sdiv hw k).p1.get i).isFinite = true ∧ |r ((x.sdiv hw k).p1.get i) - r (x.p1.get i) / r k| ≤ 3.8e-7 * (C / |r k|)) ∧
      (((x.sdiv hw k).p2.get i).isFinite = true ∧ |r ((x.sdiv hw k).p2.get i) - r (x.p2.get i) / r k| ≤ 3.8e-7 * (C / |r k|)) :=
  ⟨V4.sdiv_f32 hc hp1 hC lp1 hf hk i, V4.sdiv_f32 hc hp2 hC lp2 hf hk i⟩

/-- C78: rotor divided by a scalar. -/
theorem C78_rotor_sdiv {hw : Hw F32} (hc : hw.Contract32) (x : Rotor F32) {k : F32} {C : ℝ}
    (hp1 : x.p1.Finite) (lp1 : ∀ i, |r (x.p1.get i)| ≤ C)
    (hC : In2 C 30 32) (hf : k.isFinite = true) (hk : In2 |r k| 30 32) (i : Fin 4) :
    (((x.sdiv hw k).p1.get i).isFinite = true ∧ |r ((x.sdiv hw k).p1.get i) - r (x.p1.get i) / r k| ≤ 3.8e-7 * (C / |r k|)) :=
  V4.sdiv_f32 hc hp1 hC lp1 hf hk i

/-- C78: translator divided by a scalar. -/
theorem C78_translator_sdiv {hw : Hw F32} (hc : hw.Contract32) (x : Translator F32) {k : F32} {C : ℝ}
    (hp2 : x.p2.Finite) (lp2 : ∀ i, |r (x.p2.get i)| ≤ C)
    (hC : In2 C 30 32) (hf : k.isFinite = true) (hk : In2 |r k| 30 32) (i : Fin 4) :
    (((x.sdiv hw k).p2.get i).isFinite = true ∧ |r ((x.sdiv hw k).p2.get i) - r (x.p2.get i) / r k| ≤ 3.8e-7 * (C / |r k|)) :=
  V4.sdiv_f32 hc hp2 hC lp2 hf hk i

/-- C78: motor divided by a scalar. -/
theorem C78_motor_sdiv {hw : Hw F32} (hc : hw.Contract32) (x : Motor F32) {k : F32} {C : ℝ}
    (hp1 : x.p1.Finite) (lp1 : ∀ i, |r (x.p1.get i)| ≤ C) (hp2 : x.p2.Finite) (lp2 : ∀ i, |r (x.p2.get i)| ≤ C)
    (hC : In2 C 30 32) (hf : k.isFinite = true) (hk : In2 |r k| 30 32) (i : Fin 4) :
    (((x.sdiv hw k).p1.get i).isFinite = true ∧ |r ((x.sdiv hw k).p1.get i) - r (x.p1.get i) / r k| ≤ 3.8e-7 * (C / |r k|)) ∧
      (((x.sdiv hw k).p2.get i).isFinite = true ∧ |r ((x.sdiv hw k).p2.get i) - r (x.p2.get i) / r k| ≤ 3.8e-7 * (C / |r k|)) :=
  ⟨V4.sdiv_f32 hc hp1 hC lp1 hf hk i, V4.sdiv_f32 hc hp2 hC lp2 hf hk i⟩

/-! ### norms -/

theorem hi_dp_l0 (isa : Isa) (v : V4 F32) : (hi_dp isa v v).l0 = (hi_dp_bc isa v v).get 0 := by
  cases isa <;> rfl

/-- C78: the squared norms of lines and branches. -/
theorem C78_line_squared_norm (isa : Isa) (x : Line F32) (hv : x.p1.Le2 30) (hn : 1 / 2 ^ 60 ≤ x.p1.sq3) :
    (x.squared_norm isa).isFinite = true ∧ |r (x.squared_norm isa) - x.p1.sq3| ≤ 3e-7 * x.p1.sq3 := by
  have := sq3_f32 isa hv hn 0
  rwa [← hi_dp_l0] at this

theorem C78_branch_squared_norm (isa : Isa) (x : Branch F32) (hv : x.p1.Le2 30) (hn : 1 / 2 ^ 60 ≤ x.p1.sq3) :
    (x.squared_norm isa).isFinite = true ∧ |r (x.squared_norm isa) - x.p1.sq3| ≤ 3e-7 * x.p1.sq3 :=
  C78_line_squared_norm isa ⟨x.p1, x.p1⟩ hv hn

theorem C78_ideal_squared_norm (isa : Isa) (x : IdealLine F32) (hv : x.p2.Le2 30) (hn : 1 / 2 ^ 60 ≤ x.p2.sq3) :
    (x.squared_ideal_norm isa).isFinite = true ∧
      |r (x.squared_ideal_norm isa) - x.p2.sq3| ≤ 3e-7 * x.p2.sq3 :=
  C78_line_squared_norm isa ⟨x.p2, x.p2⟩ hv hn

theorem sqrt_near {D N : ℝ} (hN : 0 < N) (h : |D - N| ≤ 3e-7 * N) : 0 < D ∧ |√D - √N| ≤ 1.6e-7 * √N := by
  have h' := abs_le.1 h
  have hD : 0 < D := by norm_num at h'; linarith
  refine ⟨hD, ?_⟩
  have a := Real.mul_self_sqrt hN.le
  have b := Real.mul_self_sqrt hD.le
  have a0 := Real.sqrt_pos.2 hN
  have b0 := Real.sqrt_pos.2 hD
  generalize √N = n at *
  generalize √D = d at *
  subst a b
  clear h
  rw [abs_le]
  norm_num at *
  constructor <;> by_contra hcon <;> push Not at hcon <;> nlinarith

/-- C78: the norms of lines, branches and ideal lines, which call `std::sqrt`. -/
theorem C78_line_norm (isa : Isa) (x : Line F32) (hv : x.p1.Le2 30) (hn : 1 / 2 ^ 60 ≤ x.p1.sq3) :
    (x.norm isa F32.sqrt).isFinite = true ∧ |r (x.norm isa F32.sqrt) - √x.p1.sq3| ≤ 2.3e-7 * √x.p1.sq3 := by
  obtain ⟨h1, h2⟩ := C78_line_squared_norm isa x hv hn
  have hN : 0 < x.p1.sq3 := lt_of_lt_of_le (by positivity) hn
  obtain ⟨h3, h4⟩ := sqrt_near hN h2
  obtain ⟨h5, h6⟩ := F32.sqrt_err h1 h3
  refine ⟨h5, ?_⟩
  have h7 := abs_add_le (r (F32.sqrt (x.squared_norm isa)) - √(r (x.squared_norm isa))) (√(r (x.squared_norm isa)) - √x.p1.sq3)
  rw [sub_add_sub_cancel] at h7
  have h8 : u + 1 / 2 ^ 100 ≤ 6e-8 := by unfold u; norm_num
  have hs := Real.sqrt_nonneg x.p1.sq3
  have h9 : √(r (x.squared_norm isa)) ≤ 1.1 * √x.p1.sq3 := by
    have := (abs_le.1 h4).2
    norm_num at this ⊢; linarith
  have h10 : (u + 1 / 2 ^ 100) * √(r (x.squared_norm isa)) ≤ 6e-8 * (1.1 * √x.p1.sq3) :=
    mul_le_mul h8 h9 (Real.sqrt_nonneg _) (by norm_num)
  refine h7.trans ((add_le_add (h6.trans h10) h4).trans ?_)
  norm_num; linarith

theorem C78_branch_norm (isa : Isa) (x : Branch F32) (hv : x.p1.Le2 30) (hn : 1 / 2 ^ 60 ≤ x.p1.sq3) :
    (x.norm isa F32.sqrt).isFinite = true ∧ |r (x.norm isa F32.sqrt) - √x.p1.sq3| ≤ 2.3e-7 * √x.p1.sq3 :=
  C78_line_norm isa ⟨x.p1, x.p1⟩ hv hn

theorem C78_ideal_norm (isa : Isa) (x : IdealLine F32) (hv : x.p2.Le2 30) (hn : 1 / 2 ^ 60 ≤ x.p2.sq3) :
    (x.ideal_norm isa F32.sqrt).isFinite = true ∧
      |r (x.ideal_norm isa F32.sqrt) - √x.p2.sq3| ≤ 2.3e-7 * √x.p2.sq3 :=
  C78_line_norm isa ⟨x.p2, x.p2⟩ hv hn

/-- C78: the norm of a plane, which multiplies by the refined estimate of the inverse root. -/
theorem C78_plane_norm {hw : Hw F32} (hc : hw.Contract32) (isa : Isa) (x : Plane F32) (hv : x.p0.Le2 30)
    (hn : 1 / 2 ^ 60 ≤ x.p0.sq3) :
    (x.norm hw isa).isFinite = true ∧ |r (x.norm hw isa) - √x.p0.sq3| ≤ 1e-6 * √x.p0.sq3 := by
  have hN : 0 < x.p0.sq3 := lt_of_lt_of_le (by positivity) hn
  have hS := sq3_rng hv hn
  have hs := ap_rsqrt hN hS (inv3_f32 hc isa hv hn 0).1 (inv3_f32 hc isa hv hn 0).2
  obtain ⟨h1, h2⟩ := sq3_f32 isa hv hn 0
  have hD : Ap ((hi_dp_bc isa x.p0 x.p0).get 0) (√x.p0.sq3 * √x.p0.sq3) (√x.p0.sq3 * √x.p0.sq3) 3e-7 60 64 := by
    refine ⟨h1, (abs_of_pos (hS.mul hS).pos).le, ?_, hS.mul hS⟩
    rw [Real.mul_self_sqrt hN.le]; exact h2
  have h0 := hS.pos
  have key := hD.mulR hs (show _ = √x.p0.sq3 by field_simp) hS
      (by norm_num) (by norm_num) (by norm_num) (by norm_num) (show _ ≤ (1e-6 : ℝ) by ap_num)
  have e : x.norm hw isa = (hi_dp_bc isa x.p0 x.p0).get 0 * (rsqrt_nr1 hw (hi_dp_bc isa x.p0 x.p0)).get 0 := by
    have e0 := hi_dp_l0 isa x.p0
    rw [Plane.norm]
    show (hi_dp isa x.p0 x.p0).l0 * rsqrt1 hw (hi_dp isa x.p0 x.p0).l0 =
      (hi_dp_bc isa x.p0 x.p0).get 0 * rsqrt1 hw ((hi_dp_bc isa x.p0 x.p0).get 0)
    rw [e0]
  rw [e]
  refine ⟨key.fin, ?_⟩
  have h := key.err
  rwa [show √x.p0.sq3 * √x.p0.sq3 * (1 / √x.p0.sq3) = √x.p0.sq3 by field_simp] at h

/-! ### roots -/

theorem sqrt_lane {y : F32} {X' X N' N : ℝ} (hN : 0 < N) (h : Scaled 6.8e-7 y X' N') (hX' : |X'| ≤ √N')
    (hX : |X| ≤ √N) (hd : |X' - X| ≤ u * |X|) (h1 : (1 - u) * √N ≤ √N') (h2 : √N' ≤ (1 + u) * √N) :
    |r y - X * (1 / √N)| ≤ 8.2e-7 := by
  have hs := Real.sqrt_pos.2 hN
  have hu := u_le
  have hu0 := u_pos
  have hs' : 0 < √N' := lt_of_lt_of_le (mul_pos (by norm_num at hu ⊢; linarith) hs) h1
  obtain ⟨-, h3⟩ := h
  obtain ⟨n, en⟩ : ∃ n, n = √N := ⟨_, rfl⟩
  obtain ⟨n', en'⟩ : ∃ n', n' = √N' := ⟨_, rfl⟩
  rw [← en] at hX h1 h2 hs ⊢
  rw [← en'] at h3 hX' h1 h2 hs'
  clear en en'
  have e1 : |X'| / n' ≤ 1 := (div_le_one hs').2 hX'
  have e2 : X' / n' - X * (1 / n) = ((X' - X) * n + X * (n - n')) / (n' * n) := by field_simp; ring
  have e3 : |X' / n' - X * (1 / n)| ≤ 1.2e-7 := by
    rw [e2, abs_div, abs_of_pos (mul_pos hs' hs), div_le_iff₀ (mul_pos hs' hs)]
    refine (abs_add_le _ _).trans ?_
    rw [abs_mul, abs_mul, abs_of_pos hs]
    have a1 : |X' - X| * n ≤ u * n * n := mul_le_mul_of_nonneg_right (hd.trans (mul_le_mul_of_nonneg_left hX hu0.le)) hs.le
    have a2 : |n - n'| ≤ u * n := by rw [abs_le]; constructor <;> linarith
    have a3 : |X| * |n - n'| ≤ n * (u * n) := mul_le_mul hX a2 (abs_nonneg _) hs.le
    have a4 : u * (n * n) ≤ 5.9605e-8 * (n * n) := mul_le_mul_of_nonneg_right hu (by positivity)
    have a5 : (1 - u) * n * n ≤ n' * n := mul_le_mul_of_nonneg_right h1 hs.le
    have a6 : (0:ℝ) < n * n := by positivity
    norm_num at *
    nlinarith
  have h4 := abs_add_le (r y - X' / n') (X' / n' - X * (1 / n))
  rw [sub_add_sub_cancel] at h4
  have : |X'| / n' * 6.8e-7 ≤ 6.8e-7 := by norm_num at e1 ⊢; linarith
  norm_num at *
  linarith

private theorem sqrt_pert {A V e : ℝ} (he : |e| ≤ u) (hV : 0 ≤ V) :
    (1 - u) * √(A ^ 2 + V) ≤ √((A * (1 + e)) ^ 2 + V) ∧ √((A * (1 + e)) ^ 2 + V) ≤ (1 + u) * √(A ^ 2 + V) := by
  have hu := u_le
  have hu0 := u_pos
  have hA := sq_nonneg A
  have he' := abs_le.1 he
  have g1 : (1 - u) ^ 2 ≤ (1 + e) ^ 2 := by
    have : 0 ≤ 1 - u := by norm_num at hu ⊢; linarith
    exact pow_le_pow_left₀ this (by linarith) 2
  have g2 : (1 + e) ^ 2 ≤ (1 + u) ^ 2 := by
    have : 0 ≤ 1 + e := by norm_num at hu ⊢; linarith
    exact pow_le_pow_left₀ this (by linarith) 2
  have g3 : (1 - u) ^ 2 ≤ 1 := by nlinarith
  have g4 : 1 ≤ (1 + u) ^ 2 := by nlinarith
  have s1 : √((1 - u) ^ 2 * (A ^ 2 + V)) = (1 - u) * √(A ^ 2 + V) := by
    rw [Real.sqrt_mul (sq_nonneg _), Real.sqrt_sq (by norm_num at hu ⊢; linarith)]
  have s2 : √((1 + u) ^ 2 * (A ^ 2 + V)) = (1 + u) * √(A ^ 2 + V) := by
    rw [Real.sqrt_mul (sq_nonneg _), Real.sqrt_sq (by linarith)]
  rw [← s1, ← s2, mul_pow]
  constructor <;> apply Real.sqrt_le_sqrt <;> nlinarith

theorem one_add_f32 {x : F32} (hv : F32.Le2 x 29) : ∃ e, |e| ≤ u ∧ r (x + 1) = (r x + 1) * (1 + e) := by
  have l0 := hv (by norm_num)
  have hb := abs_of_le2 hv (by norm_num)
  obtain ⟨-, h2⟩ := add_ok (y := 1) l0.1 (by decide +kernel) (by
    rw [r_one]; refine (abs_add_le _ _).trans ?_
    rw [abs_one]; norm_num at *; linarith)
  rw [r_one] at h2
  by_cases h0 : r x + 1 = 0
  · refine ⟨0, by rw [abs_zero]; exact u_pos.le, ?_⟩
    rw [h0, abs_zero, mul_zero, sub_zero] at h2
    rw [h0, zero_mul]; exact abs_nonpos_iff.1 h2
  · exact factor h0 h2

theorem sqrt_le2 {v : V4 F32} (hv : v.Le2 29) : (⟨v.l0 + 1, v.l1, v.l2, v.l3⟩ : V4 F32).Le2 30 := by
  intro i
  fin_cases i
  · exact ((hv 0).add Le2.one).mono (by norm_num)
  · exact (hv 1).mono (by norm_num)
  · exact (hv 2).mono (by norm_num)
  · exact (hv 3).mono (by norm_num)

theorem sqrt_sq4 {v : V4 F32} {e : ℝ} (hxe : r (v.l0 + 1) = (r v.l0 + 1) * (1 + e)) :
    (⟨v.l0 + 1, v.l1, v.l2, v.l3⟩ : V4 F32).sq4 = ((r v.l0 + 1) * (1 + e)) ^ 2 + v.sq3 := by
  simp only [V4.sq4, V4.sq3, ← hxe]; ring

theorem sqrt_norm {v : V4 F32} {e : ℝ} (he : |e| ≤ u) (hxe : r (v.l0 + 1) = (r v.l0 + 1) * (1 + e))
    (hn : 1 / 2 ^ 59 ≤ (r v.l0 + 1) ^ 2 + v.sq3) : 1 / 2 ^ 60 ≤ (⟨v.l0 + 1, v.l1, v.l2, v.l3⟩ : V4 F32).sq4 := by
  have hV : 0 ≤ v.sq3 := by unfold V4.sq3; positivity
  rw [sqrt_sq4 hxe]
  have hu := u_le
  have hu0 := u_pos
  have he' := abs_le.1 he
  have g : (0.9 : ℝ) ≤ (1 + e) ^ 2 := by
    have := pow_le_pow_left₀ (show (0:ℝ) ≤ 0.99 by norm_num) (show (0.99 : ℝ) ≤ 1 + e by norm_num at hu ⊢; linarith) 2
    norm_num at this ⊢; linarith
  rw [mul_pow]
  have := sq_nonneg (r v.l0 + 1)
  norm_num at hn g ⊢
  nlinarith

/-- C78: the square root of a rotor in binary32: each lane is within `8.2e-7` of the exact root of the rotor
given (not of a normalised one; the exact root is `(1 + r) / |1 + r|`). -/
theorem C78_rotor_sqrt {hw : Hw F32} (hc : hw.Contract32) {hwr : Hw ℝ} (hx : hwr.Exact) (isa isa' : Isa)
    (x : Rotor F32) (hv : x.p1.Le2 29) (hn : 1 / 2 ^ 59 ≤ (r x.p1.l0 + 1) ^ 2 + x.p1.sq3) (i : Fin 4) :
    ((x.sqrt hw isa).p1.get i).isFinite = true ∧
      |r ((x.sqrt hw isa).p1.get i) - (x.real.sqrt hwr isa').p1.get i| ≤ 8.2e-7 := by
  have hV : 0 ≤ x.p1.sq3 := by unfold V4.sq3; positivity
  have hN : 0 < (r x.p1.l0 + 1) ^ 2 + x.p1.sq3 := lt_of_lt_of_le (by positivity) hn
  obtain ⟨e, he, hxe⟩ := one_add_f32 (x := x.p1.l0) (hv 0)
  obtain ⟨p1, p2⟩ := sqrt_pert (A := r x.p1.l0 + 1) he hV
  have hv' := sqrt_le2 hv
  have hsq := sqrt_sq4 (v := x.p1) hxe
  have hs0 := Real.sqrt_pos.2 hN
  have hn' := sqrt_norm he hxe hn
  have hd4 : dot4 (⟨r x.p1.l0 + 1, r x.p1.l1, r x.p1.l2, r x.p1.l3⟩ : V4 ℝ) ⟨r x.p1.l0 + 1, r x.p1.l1, r x.p1.l2, r x.p1.l3⟩ =
      (r x.p1.l0 + 1) ^ 2 + x.p1.sq3 := by simp only [dot4, V4.sq3]; ring
  have eF : x.sqrt hw isa = Rotor.normalize hw isa ⟨⟨x.p1.l0 + 1, x.p1.l1, x.p1.l2, x.p1.l3⟩⟩ := rfl
  have eR : x.real.sqrt hwr isa' = (Rotor.mk ⟨r x.p1.l0 + 1, r x.p1.l1, r x.p1.l2, r x.p1.l3⟩).smul
      (1 / √((r x.p1.l0 + 1) ^ 2 + x.p1.sq3)) := by
    rw [← exact_rsqrt1 hx hN, ← hd4, ← Rotor.normalize_eq hwr isa']; rfl
  rw [eF, eR]
  have key := fun j => C70_rotor_normalize hc isa ⟨⟨x.p1.l0 + 1, x.p1.l1, x.p1.l2, x.p1.l3⟩⟩ hv' hn' j
  have hle' := fun j => lane_le4 (Real.sqrt_nonneg _) (sq4_sqrt (⟨x.p1.l0 + 1, x.p1.l1, x.p1.l2, x.p1.l3⟩ : V4 F32)) j
  simp only [hsq] at key hle'
  have hle := fun (j : Fin 4) (hj : j ≠ 0) => lane_le3 (C := √((r x.p1.l0 + 1) ^ 2 + x.p1.sq3)) (v := x.p1) hs0.le
    (by rw [Real.sq_sqrt hN.le]; have := sq_nonneg (r x.p1.l0 + 1); linarith) j hj
  refine ⟨(key i).1, ?_⟩
  fin_cases i
  · refine sqrt_lane hN (key 0) (hle' 0) (X := r x.p1.l0 + 1) ?_ ?_ p1 p2
    · exact Real.abs_le_sqrt (by linarith)
    · simp only [V4.get]
      rw [hxe, show (r x.p1.l0 + 1) * (1 + e) - (r x.p1.l0 + 1) = e * (r x.p1.l0 + 1) by ring, abs_mul]
      exact mul_le_mul_of_nonneg_right he (abs_nonneg _)
  · exact sqrt_lane hN (key 1) (hle' 1) (X := r x.p1.l1) (hle 1 (by decide))
      (by simp only [V4.get, sub_self, abs_zero]; exact mul_nonneg u_pos.le (abs_nonneg _)) p1 p2
  · exact sqrt_lane hN (key 2) (hle' 2) (X := r x.p1.l2) (hle 2 (by decide))
      (by simp only [V4.get, sub_self, abs_zero]; exact mul_nonneg u_pos.le (abs_nonneg _)) p1 p2
  · exact sqrt_lane hN (key 3) (hle' 3) (X := r x.p1.l3) (hle 3 (by decide))
      (by simp only [V4.get, sub_self, abs_zero]; exact mul_nonneg u_pos.le (abs_nonneg _)) p1 p2

/-- C78: the square root of a branch, the same computation. -/
theorem C78_branch_sqrt {hw : Hw F32} (hc : hw.Contract32) {hwr : Hw ℝ} (hx : hwr.Exact) (isa isa' : Isa)
    (x : Branch F32) (hv : x.p1.Le2 29) (hn : 1 / 2 ^ 59 ≤ (r x.p1.l0 + 1) ^ 2 + x.p1.sq3) (i : Fin 4) :
    ((x.sqrt hw isa).p1.get i).isFinite = true ∧
      |r ((x.sqrt hw isa).p1.get i) - (x.real.sqrt hwr isa').p1.get i| ≤ 8.2e-7 :=
  C78_rotor_sqrt hc hx isa isa' ⟨x.p1⟩ hv hn i

/-- C78: the rotor part of the square root of a motor. -/
theorem C78_motor_sqrt_p1 {hw : Hw F32} (hc : hw.Contract32) {hwr : Hw ℝ} (hx : hwr.Exact) (isa isa' : Isa)
    (x : Motor F32) (hv : x.p1.Le2 29) (hn : 1 / 2 ^ 59 ≤ (r x.p1.l0 + 1) ^ 2 + x.p1.sq3) (i : Fin 4) :
    ((x.sqrt hw isa).p1.get i).isFinite = true ∧
      |r ((x.sqrt hw isa).p1.get i) - (x.real.sqrt hwr isa').p1.get i| ≤ 8.2e-7 :=
  C78_rotor_sqrt hc hx isa isa' ⟨x.p1⟩ hv hn i

/-- Exact quantities that differ by a perturbation of relative size `k`. -/
structure Pt (a' a M k : ℝ) : Prop where
  mag : |a| ≤ M
  err : |a' - a| ≤ k * M

theorem Pt.mul {a' a M k b' b M' k' : ℝ} (h : Pt a' a M k) (h' : Pt b' b M' k') (hk : 0 ≤ k) :
    Pt (a' * b') (a * b) (M * M') ((1 + k) * (1 + k') - 1) where
  mag := by rw [abs_mul]; exact mul_le_mul h.mag h'.mag (abs_nonneg _) ((abs_nonneg _).trans h.mag)
  err := by
    have hM := (abs_nonneg _).trans h.mag
    have hM' := (abs_nonneg _).trans h'.mag
    have hv : |a'| ≤ (1 + k) * M := by
      have := abs_add_le (a' - a) a
      rw [sub_add_cancel] at this
      linarith [h.err, h.mag]
    rw [show a' * b' - a * b = a' * (b' - b) + b * (a' - a) by ring]
    refine (abs_add_le _ _).trans ?_
    rw [abs_mul, abs_mul]
    have e1 := mul_le_mul hv h'.err (abs_nonneg _) (mul_nonneg (by linarith) hM)
    have e2 := mul_le_mul h'.mag h.err (abs_nonneg _) hM'
    linarith

theorem Pt.sub {a' a M k b' b M' : ℝ} (h : Pt a' a M k) (h' : Pt b' b M' k) :
    |a' - b' - (a - b)| ≤ k * (M + M') := by
  rw [show a' - b' - (a - b) = (a' - a) - (b' - b) by ring]
  refine (abs_sub _ _).trans ?_
  linarith [h.err, h'.err]

theorem Pt.mono {a' a M k k' : ℝ} (h : Pt a' a M k) (hk : k ≤ k') : Pt a' a M k' :=
  ⟨h.mag, h.err.trans (mul_le_mul_of_nonneg_right hk ((abs_nonneg _).trans h.mag))⟩

theorem Pt.inv {n' n : ℝ} (hn : 0 < n) (h1 : (1 - u) * n ≤ n') (h2 : n' ≤ (1 + u) * n) : Pt (1 / n') (1 / n) (1 / n) 6e-8 where
  mag := (abs_of_pos (by positivity)).le
  err := by
    have hu := u_le
    have hu0 := u_pos
    have hs' : 0 < n' := lt_of_lt_of_le (mul_pos (by norm_num at hu ⊢; linarith) hn) h1
    rw [show 1 / n' - 1 / n = (n - n') / n' * (1 / n) by field_simp, abs_mul, abs_of_pos (show 0 < 1 / n by positivity)]
    refine mul_le_mul_of_nonneg_right ?_ (by positivity)
    rw [abs_div, abs_of_pos hs', div_le_iff₀ hs', abs_le]
    constructor <;> norm_num at * <;> nlinarith

/-- C78: the moment part of the square root of a motor. -/
theorem C78_motor_sqrt_p2 {hw : Hw F32} (hc : hw.Contract32) {hwr : Hw ℝ} (hx : hwr.Exact) (isa isa' : Isa)
    (x : Motor F32) {C : ℝ} (hv : x.p1.Le2 29) (hn : 1 / 2 ^ 59 ≤ (r x.p1.l0 + 1) ^ 2 + x.p1.sq3)
    (hf : x.p2.Finite) (hC : x.p2.sq4 ≤ C ^ 2) (hr : In2 C 30 32) (i : Fin 4) :
    ((x.sqrt hw isa).p2.get i).isFinite = true ∧
      |r ((x.sqrt hw isa).p2.get i) - (x.real.sqrt hwr isa').p2.get i| ≤
        4.7e-6 * (C / √((r x.p1.l0 + 1) ^ 2 + x.p1.sq3)) := by
  have hV : 0 ≤ x.p1.sq3 := by unfold V4.sq3; positivity
  have hN : 0 < (r x.p1.l0 + 1) ^ 2 + x.p1.sq3 := lt_of_lt_of_le (by positivity) hn
  obtain ⟨e, he, hxe⟩ := one_add_f32 (x := x.p1.l0) (hv 0)
  obtain ⟨p1, p2⟩ := sqrt_pert (A := r x.p1.l0 + 1) he hV
  have hv' := sqrt_le2 hv
  have hsq := sqrt_sq4 (v := x.p1) hxe
  have hs0 := Real.sqrt_pos.2 hN
  have hn' := sqrt_norm he hxe hn
  have hS : Motor.Scale ⟨⟨x.p1.l0 + 1, x.p1.l1, x.p1.l2, x.p1.l3⟩, x.p2⟩ C := ⟨hv', hn', hf, hC, hr⟩
  have key := C70_motor_normalize_p2 hc hx isa isa' hS i
  have eF : x.sqrt hw isa = Motor.normalize hw isa ⟨⟨x.p1.l0 + 1, x.p1.l1, x.p1.l2, x.p1.l3⟩, x.p2⟩ := rfl
  rw [eF]
  refine ⟨key.1, ?_⟩
  have key := key.2
  -- the exact normalisation of the rounded and of the exact argument
  have eR : x.real.sqrt hwr isa' = Motor.normalize hwr isa' ⟨⟨r x.p1.l0 + 1, r x.p1.l1, r x.p1.l2, r x.p1.l3⟩, x.p2.real⟩ := rfl
  have eR' : (Motor.mk ⟨x.p1.l0 + 1, x.p1.l1, x.p1.l2, x.p1.l3⟩ x.p2 : Motor F32).real =
      ⟨⟨(r x.p1.l0 + 1) * (1 + e), r x.p1.l1, r x.p1.l2, r x.p1.l3⟩, x.p2.real⟩ := by
    simp only [Motor.real, V4.real, hxe]
  have hN' : 0 < ((r x.p1.l0 + 1) * (1 + e)) ^ 2 + x.p1.sq3 := by
    rw [← hsq]; exact lt_of_lt_of_le (by positivity) hn'
  have d : ∀ a, dot4 (⟨a, r x.p1.l1, r x.p1.l2, r x.p1.l3⟩ : V4 ℝ) ⟨a, r x.p1.l1, r x.p1.l2, r x.p1.l3⟩ =
      a ^ 2 + x.p1.sq3 := fun a => by simp only [dot4, V4.sq3]; ring
  rw [eR', Motor.normalize_eq, d, exact_rsqrt1 hx hN', exact_rcp1 hx hN'.ne', ← inv_sqrt_sq hN', hsq] at key
  rw [eR, Motor.normalize_eq, d, exact_rsqrt1 hx hN, exact_rcp1 hx hN.ne', ← inv_sqrt_sq hN]
  have hinv := Pt.inv hs0 p1 p2
  have hC0 := hr.pos.le
  have hA : |r x.p1.l0 + 1| ≤ √((r x.p1.l0 + 1) ^ 2 + x.p1.sq3) := Real.abs_le_sqrt (by linarith)
  have hle := fun (j : Fin 4) (hj : j ≠ 0) => lane_le3 (C := √((r x.p1.l0 + 1) ^ 2 + x.p1.sq3)) (v := x.p1) hs0.le
    (by rw [Real.sq_sqrt hN.le]; have := sq_nonneg (r x.p1.l0 + 1); linarith) j hj
  have hcl := fun j : Fin 4 => lane_le4 hC0 hC j
  have hsum : (r x.p1.l0 + 1) ^ 2 + r x.p1.l1 ^ 2 + r x.p1.l2 ^ 2 + r x.p1.l3 ^ 2 ≤ √((r x.p1.l0 + 1) ^ 2 + x.p1.sq3) ^ 2 := by
    rw [Real.sq_sqrt hN.le]; unfold V4.sq3; linarith
  simp only [V4.sq4] at hC
  simp only [V4.real] at key ⊢
  have k1 := hcl 0; have k2 := hcl 1; have k3 := hcl 2; have k4 := hcl 3
  have b1 := hle 1 (by decide); have b2 := hle 2 (by decide); have b3 := hle 3 (by decide)
  simp only [V4.get] at k1 k2 k3 k4 b1 b2 b3
  obtain ⟨A, eA⟩ : ∃ A, A = r x.p1.l0 + 1 := ⟨_, rfl⟩
  rw [← eA] at hN hs0 hinv hA hsum key b1 b2 b3 ⊢
  clear hsq hxe hn hS hv' hn' eR' p1 p2 hle hN' eA eF eR d hv
  have hfin : ∀ {a b c : ℝ}, |a - b| ≤ 3.7e-6 * (C / √((A * (1 + e)) ^ 2 + x.p1.sq3)) →
      |b - c| ≤ 9e-7 * (C / √(A ^ 2 + x.p1.sq3)) → |a - c| ≤ 4.7e-6 * (C / √(A ^ 2 + x.p1.sq3)) := by
    intro a b c h1 h2
    have h3 := abs_add_le (a - b) (b - c)
    rw [sub_add_sub_cancel] at h3
    have h4 := (abs_le.1 hinv.err).2
    have h5 : C / √((A * (1 + e)) ^ 2 + x.p1.sq3) ≤ 1.001 * (C / √(A ^ 2 + x.p1.sq3)) := by
      rw [div_eq_mul_one_div C, div_eq_mul_one_div C (√(A ^ 2 + _)), ← mul_assoc, mul_comm (1.001 : ℝ), mul_assoc]
      refine mul_le_mul_of_nonneg_left ?_ hC0
      have h7 : 0 < 1 / √(A ^ 2 + x.p1.sq3) := by positivity
      generalize 1 / √(A ^ 2 + x.p1.sq3) = q at h4 h7 ⊢
      generalize 1 / √((A * (1 + e)) ^ 2 + x.p1.sq3) = q' at h4 ⊢
      clear * - h4 h7
      norm_num at *; linarith
    have h6 : 0 ≤ C / √(A ^ 2 + x.p1.sq3) := by positivity
    norm_num at *; linarith
  refine hfin key ?_
  clear key hfin
  have hbc : Pt (-Motor.bc ⟨⟨A * (1 + e), r x.p1.l1, r x.p1.l2, r x.p1.l3⟩, ⟨r x.p2.l0, r x.p2.l1, r x.p2.l2, r x.p2.l3⟩⟩)
      (-Motor.bc ⟨⟨A, r x.p1.l1, r x.p1.l2, r x.p1.l3⟩, ⟨r x.p2.l0, r x.p2.l1, r x.p2.l2, r x.p2.l3⟩⟩)
      (√(A ^ 2 + x.p1.sq3) * C) 6e-8 := by
    constructor
    · have hcs : |A| * |r x.p2.l0| + |r x.p1.l1| * |r x.p2.l1| + |r x.p1.l2| * |r x.p2.l2| +
          |r x.p1.l3| * |r x.p2.l3| ≤ √(A ^ 2 + x.p1.sq3) * C :=
        cs4 hs0.le hC0 (by simp only [sq_abs]; exact hsum) (by simp only [sq_abs]; exact hC)
      refine le_trans ?_ hcs
      rw [abs_neg]
      simp only [Motor.bc, ← abs_mul]
      refine (abs_sub _ _).trans (add_le_add_left ?_ _)
      refine (abs_sub _ _).trans (add_le_add_left ?_ _)
      exact abs_sub _ _
    · simp only [Motor.bc]
      rw [show ∀ a b c d : ℝ, -(A * (1 + e) * a - b - c - d) - -(A * a - b - c - d) = -(e * (A * a)) from fun a b c d => by ring,
        abs_neg, abs_mul, abs_mul]
      have h6 : u ≤ 6e-8 := by unfold u; norm_num
      exact mul_le_mul (he.trans h6) (mul_le_mul hA k1 (abs_nonneg _) hs0.le) (by positivity) (by norm_num)
  have ht := (hbc.mul (hinv.mul hinv (by norm_num)) (by norm_num)).mul hinv (by norm_num)
  have hb0 : Pt (A * (1 + e)) A (√(A ^ 2 + x.p1.sq3)) 6e-8 := by
    refine ⟨hA, ?_⟩
    rw [show A * (1 + e) - A = e * A by ring, abs_mul]
    have h6 : u ≤ 6e-8 := by unfold u; norm_num
    exact mul_le_mul (he.trans h6) hA (abs_nonneg _) (by norm_num)
  have same : ∀ {a M : ℝ}, |a| ≤ M → Pt a a M 6e-8 := fun h => ⟨h, by
    rw [sub_self, abs_zero]; exact mul_nonneg (by norm_num) ((abs_nonneg _).trans h)⟩
  have fin2 : ∀ {c b' b : ℝ}, |c| ≤ C → Pt b' b (√(A ^ 2 + x.p1.sq3)) 6e-8 → _ := fun {c b' b} hc hb =>
    ((hinv.mul (same hc) (by norm_num)).mono (k' := 4e-7) (by norm_num)).sub ((ht.mul hb (by norm_num)).mono (by norm_num))
  have hM : 4e-7 * (1 / √(A ^ 2 + x.p1.sq3) * C + √(A ^ 2 + x.p1.sq3) * C *
      (1 / √(A ^ 2 + x.p1.sq3) * (1 / √(A ^ 2 + x.p1.sq3))) * (1 / √(A ^ 2 + x.p1.sq3)) * √(A ^ 2 + x.p1.sq3))
      ≤ 9e-7 * (C / √(A ^ 2 + x.p1.sq3)) := by
    have : √(A ^ 2 + x.p1.sq3) * C *
      (1 / √(A ^ 2 + x.p1.sq3) * (1 / √(A ^ 2 + x.p1.sq3))) * (1 / √(A ^ 2 + x.p1.sq3)) * √(A ^ 2 + x.p1.sq3) =
      C / √(A ^ 2 + x.p1.sq3) := by field_simp
    rw [this, one_div_mul_eq_div]
    have : 0 ≤ C / √(A ^ 2 + x.p1.sq3) := by positivity
    norm_num at *; linarith
  have close : ∀ {v w : ℝ}, v = w → |w| ≤ _ → |v| ≤ 9e-7 * (C / √(A ^ 2 + x.p1.sq3)) := fun h h' => h ▸ (h'.trans hM)
  fin_cases i
  · refine close ?_ (fin2 k1 (b' := -(A * (1 + e))) (b := -A) ⟨by rw [abs_neg]; exact hA, by
      rw [show -(A * (1 + e)) - -A = -(A * (1 + e) - A) by ring, abs_neg]; exact hb0.err⟩)
    simp only [Motor.dualSmul, V4.get]; ring
  · refine close ?_ (fin2 k2 (same b1)); simp only [Motor.dualSmul, V4.get]
  · refine close ?_ (fin2 k3 (same b2)); simp only [Motor.dualSmul, V4.get]
  · refine close ?_ (fin2 k4 (same b3)); simp only [Motor.dualSmul, V4.get]

/-! ### cases -/

section Cases
variable {hw : Hw F32} (hc : hw.Contract32) {hwr : Hw ℝ} (hx : hwr.Exact)

private theorem r_four : r 4 = 4 := by
  have : (4 : F32).val = 4 := by decide +kernel
  simp [r, this]

/-- The norm of the plane with normal `(3, 4, 0)`. -/
example : |r (Plane.norm hw .sse3 ⟨⟨1, 3, 4, 0⟩⟩) - 5| ≤ 5e-6 := by
  have l3 : F32.Le2 3 30 := fun _ => by decide +kernel
  have l4 : F32.Le2 4 30 := fun _ => by decide +kernel
  have hsq : (V4.mk 1 3 4 0 : V4 F32).sq3 = 25 := by simp only [V4.sq3, r_three, r_zero, r_four]; norm_num
  have h := (C78_plane_norm hc .sse3 ⟨⟨1, 3, 4, 0⟩⟩ (fun i => match i with
    | 0 => Le2.one.mono (by norm_num) | 1 => l3 | 2 => l4 | 3 => Le2.zero.mono (by norm_num)) (by rw [hsq]; norm_num)).2
  rw [hsq, show √(25 : ℝ) = 5 by rw [show (25 : ℝ) = 5 ^ 2 by norm_num, Real.sqrt_sq (by norm_num)]] at h
  exact h.trans (by norm_num)

/-- The inverse of the plane with normal `(3, 4, 0)`: its first normal lane is `3/25`. -/
example : |r (Plane.invert hw .sse3 ⟨⟨1, 3, 4, 0⟩⟩).p0.l1 - 3 / 25| ≤ 3e-7 := by
  have l3 : F32.Le2 3 30 := fun _ => by decide +kernel
  have l4 : F32.Le2 4 30 := fun _ => by decide +kernel
  have hsq : (V4.mk 1 3 4 0 : V4 F32).sq3 = 25 := by simp only [V4.sq3, r_three, r_zero, r_four]; norm_num
  have h := (C78_plane_invert hc hx .sse3 .sse3 ⟨⟨1, 3, 4, 0⟩⟩ (fun i => match i with
    | 0 => Le2.one.mono (by norm_num) | 1 => l3 | 2 => l4 | 3 => Le2.zero.mono (by norm_num)) (by rw [hsq]; norm_num)
    1 (by decide)).2
  have hd : dot3 (Plane.real ⟨⟨1, 3, 4, 0⟩⟩).p0 (Plane.real ⟨⟨1, 3, 4, 0⟩⟩).p0 = 25 := by
    simp only [dot3, Plane.real, V4.real, r_three, r_four, r_zero]; norm_num
  rw [hsq, show √(25 : ℝ) = 5 by rw [show (25 : ℝ) = 5 ^ 2 by norm_num, Real.sqrt_sq (by norm_num)], Plane.invert_eq, hd,
    exact_rsqrt1 hx (by norm_num), show √(25 : ℝ) = 5 by rw [show (25 : ℝ) = 5 ^ 2 by norm_num, Real.sqrt_sq (by norm_num)]] at h
  simp only [Plane.real, V4.real, V4.get, kln, sse, r_three] at h
  norm_num at h ⊢
  exact h.trans (by norm_num)

end Cases

end Klein
