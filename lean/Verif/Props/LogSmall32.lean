import Verif.Props.Trans32

/-!
# C79: the logarithm of a motor near a half turn, in binary32

For a scalar below `1e-6` the code takes the angle from the pseudoscalar (x86_exp_log.hpp:193-196).  What this
computes is C36; here it is shown that binary32 computes it accurately, when the pseudoscalar is not small.
-/

set_option linter.unusedSimpArgs false

namespace Klein

open F32

/-- A horizontal displacement changes the angle by at most its ratio to the height. -/
theorem arg_lip_hor {x x' y : ℝ} (hy : y ≠ 0) :
    |Complex.arg ⟨x', y⟩ - Complex.arg ⟨x, y⟩| ≤ |x' - x| / |y| := by
  have key : ∀ {a b h : ℝ}, 0 < h → |Complex.arg ⟨b, h⟩ - Complex.arg ⟨a, h⟩| ≤ |b - a| / h := by
    intro a b h hh
    have lip : LipschitzWith 1 Real.arctan := by
      refine lipschitzWith_of_nnnorm_deriv_le Real.differentiable_arctan fun z => ?_
      rw [← NNReal.coe_le_coe, coe_nnnorm, Real.deriv_arctan, Real.norm_eq_abs, abs_of_pos (by positivity)]
      rw [NNReal.coe_one, div_le_one (by positivity)]
      nlinarith [sq_nonneg z]
    have := lip.dist_le_mul (a / h) (b / h)
    rw [Real.dist_eq, Real.dist_eq, NNReal.coe_one, one_mul, ← sub_div, abs_div, abs_of_pos hh, abs_sub_comm a b] at this
    rw [arg_upper hh, arg_upper hh, sub_sub_sub_cancel_left]
    exact this
  rcases lt_or_gt_of_ne hy with h | h
  · have h1 : ∀ a : ℝ, Complex.arg ⟨a, y⟩ = -Complex.arg ⟨a, -y⟩ := by
      intro a
      have e : (⟨a, y⟩ : ℂ) = (starRingEnd ℂ) ⟨a, -y⟩ := by apply Complex.ext <;> simp
      rw [e, Complex.arg_conj, if_neg]
      intro hc
      have := Complex.arg_eq_pi_iff.1 hc
      simp at this; linarith [this.2]
    rw [h1, h1, abs_of_neg h, show ∀ a b : ℝ, -a - -b = -(a - b) by intros; ring, abs_neg]
    exact key (by linarith)
  · rw [abs_of_pos h]; exact key h

/-- The domain: a scalar below `1e-6` and a pseudoscalar that is not small. -/
structure Motor.LogSmall (m : Motor F32) (C : ℝ) : Prop extends m.LogBase C where
  scalar : |r m.p1.l0| < 1 / 1000000
  pseudo : 1 / 2 ^ 24 ≤ |r m.p2.l0|

section
variable {m : Motor F32} {C : ℝ}

/-- The exact logarithm, lane by lane. -/
theorem Motor.LogSmall.log_real {hwr : Hw ℝ} (hx : hwr.Exact) (isa : Isa) (h : m.LogSmall C) {s D : ℝ}
    (hs : s = √m.p1.sq3) (hD : D = dot3 m.biv32.real.p1 m.biv32.real.p2) :
    m.real.log hwr Libm.real isa =
      (⟨⟨0, r m.p1.l1 / s, r m.p1.l2 / s, r m.p1.l3 / s⟩,
        ⟨0, r m.p2.l1 / s - D / s ^ 3 * r m.p1.l1, r m.p2.l2 / s - D / s ^ 3 * r m.p1.l2,
          r m.p2.l3 / s - D / s ^ 3 * r m.p1.l3⟩⟩ : Line ℝ).scr (Complex.arg ⟨-(D / s), -r m.p2.l0⟩) (-r m.p2.l0 / s) := by
  obtain ⟨e3, h0, e1, e2⟩ := h.toLogBase.parts
  rw [Motor.log_eq hx isa m.real h0]
  rw [← hs] at e3
  rw [← hD] at e2
  have hsc : |m.real.scalar| < 1 / 1000000 := h.scalar
  rw [Motor.logU, Motor.logV, if_pos hsc, if_pos hsc, Motor.tPart, e2, e3, Line.axis, e1, e2, ← hs]
  rfl

theorem Motor.LogBase.small32_eq {hw : Hw F32} {lm : Libm F32} (hl : lm.Contract32) (isa : Isa) (h : m.LogBase C)
    (hsc : |r m.p1.l0| < 1 / 1000000) :
    m.log hw lm isa = (let n := explog_norm hw isa m.biv32.p1 m.biv32.p2
      let u := lm.atan2 (-m.p2.l0) ((mul_ps n.2.1 n.2.2.1).l0 * (-1))
      let v := -m.p2.l0 / (mul_ps n.1 n.2.2.1).l0
      ⟨mul_ps (set1_ps u) n.2.2.2.1, sub_ps (mul_ps (set1_ps u) n.2.2.2.2) (mul_ps (set1_ps v) n.2.2.2.1)⟩) := by
  have hf := h.flat
  have h1 : lm.cmpeq_all (mul_ps (set_ps 1 1 1 0) m.p1) setzero_ps = false := cmpeq_false hl hf.p1 hf.norm
  have h2 : lm.flt (lm.abs m.p1.l0) lm.eps6 = true := by
    rw [hl.lt6 m.p1.l0 (h.p1 0 (by norm_num)).1]
    exact hsc
  simp only [Motor.log, log_kernel, h1, cond_false, log_general, h2]
  rfl

/-- The angle: `k` is the accuracy of `t`. -/
theorem ap_atan2_hor {lm : Libm F32} (hl : lm.Contract32) {y x : F32} {t C : ℝ} (h : Ap x t C 1.07e-6 30 32)
    (hy : y.isFinite = true) (hq : 1 / 2 ^ 24 ≤ |r y|) :
    Ap (lm.atan2 y x) (Complex.arg ⟨t, r y⟩) (3.15 + C / |r y|) 1.1e-6 0 57 := by
  have hC := h.rng.pos
  have hp : 0 < |r y| := lt_of_lt_of_le (by positivity) hq
  obtain ⟨h1, h2⟩ := hl.atan2 y x hy h.fin (abs_pos.1 hp)
  have h3 := arg_lip_hor (x := t) (x' := r x) (abs_pos.1 hp)
  have hpi := Real.pi_lt_d2
  have hC' : 0 < C / |r y| := div_pos hC hp
  have b1 : |Complex.arg ⟨t, r y⟩| ≤ 3.15 := (Complex.abs_arg_le_pi _).trans hpi.le
  have b2 : |Complex.arg ⟨r x, r y⟩| ≤ 3.15 := (Complex.abs_arg_le_pi _).trans hpi.le
  have h4 : |r x - t| / |r y| ≤ 1.07e-6 * (C / |r y|) := by
    rw [mul_div_assoc']; exact div_le_div_of_nonneg_right h.err hp.le
  have hr : In2 (3.15 + C / |r y|) 0 57 := by
    refine ⟨by norm_num; linarith, ?_⟩
    have : C / |r y| ≤ 2 ^ 32 * 2 ^ 24 := by
      rw [div_le_iff₀ hp]
      have := mul_le_mul_of_nonneg_left hq (show (0 : ℝ) ≤ 2 ^ 32 * 2 ^ 24 by positivity)
      refine h.rng.hi.trans (le_trans (le_of_eq ?_) this)
      norm_num
    norm_num at *; linarith
  refine ⟨h1, by linarith, ?_, hr⟩
  have h5 := abs_add_le (r (lm.atan2 y x) - Complex.arg ⟨r x, r y⟩) (Complex.arg ⟨r x, r y⟩ - Complex.arg ⟨t, r y⟩)
  rw [sub_add_sub_cancel] at h5
  have h7 := h2.trans (mul_le_mul_of_nonneg_left (max_le (show _ ≤ (3.15 : ℝ) by norm_num) b2) (by positivity))
  norm_num at *
  linarith

private theorem hone : Ap (-1) (-1) 1 0 0 0 := by
  have e : r (-1) = -1 := by rw [r_neg, r, one_val]; norm_num
  have := Ap.input (x := -1) (M := 1) (m := 0) (n := 0) (by decide +kernel) (by rw [e]; norm_num) ⟨by norm_num, by norm_num⟩
  rwa [e] at this

/-- C79: the direction of the logarithm of a motor near a half turn. -/
theorem C79_motor_log_small_p1 {hw : Hw F32} (hc : hw.Contract32) {lm : Libm F32} (hl : lm.Contract32) {hwr : Hw ℝ}
    (hx : hwr.Exact) (isa isa' : Isa) (h : m.LogSmall C) (i : Fin 4) :
    ((m.log hw lm isa).p1.get i).isFinite = true ∧
      |r ((m.log hw lm isa).p1.get i) - (m.real.log hwr Libm.real isa').p1.get i| ≤
        1.9e-6 * (3.15 + C / |r m.p2.l0|) := by
  have hf := h.flat
  have hS := sq3_rng hf.p1 hf.norm
  have hs : ∀ j : Fin 4, _ := hf.toScale.ap_s hc isa
  have hd : ∀ j : Fin 4, _ := hf.toScale.ap_bc isa
  have hb : ∀ j : Fin 4, _ := hf.ap_b
  have ev : ∀ j : Fin 4, r (m.biv32.p1.get j) = _ := fun j => (mask_lane (by norm_num) h.p1 j).2
  have es : m.biv32.p1.sq3 = m.p1.sq3 := mask_sq3 (by norm_num) h.p1
  rw [h.log_real hx isa' rfl rfl, h.toLogBase.small32_eq hl isa h.scalar]
  simp only [explog_norm]
  generalize rsqrt_nr1 hw (hi_dp_bc isa m.biv32.p1 m.biv32.p1) = R at *
  simp only [es] at hS hs hb hd
  have ht := (lane_v hS h.rng (hs 0) (hd 0)).mulR hone (mul_one C) h.rng (by norm_num) (by norm_num) (by norm_num)
    (by norm_num) (show _ ≤ (1.07e-6 : ℝ) by ap_num)
  have hu := ap_atan2_hor (y := -m.p2.l0) hl ht (by simpa using (h.p2 0 (by norm_num)).1)
    (by rw [r_neg, abs_neg]; exact h.pseudo)
  rw [r_neg, abs_neg] at hu
  have key : ∀ j : Fin 4, _ := fun j => hu.mulR (lane_real hS (hb j) (hs j)) (mul_one _)
    hu.rng (by norm_num) (by norm_num) (by norm_num) (by norm_num) (show _ ≤ (1.9e-6 : ℝ) by ap_num)
  have fin : ∀ {x : F32} {E E' M : ℝ} {m' n : ℕ}, Ap x E M 1.9e-6 m' n → E = E' →
      x.isFinite = true ∧ |r x - E'| ≤ 1.9e-6 * M := by
    rintro x E E' M m' n hx rfl
    exact ⟨hx.fin, hx.err⟩
  have eD : ∀ D : ℝ, D * (1 / √m.p1.sq3) * -1 = -(D / √m.p1.sq3) := fun D => by ring
  simp only [eD] at key
  fin_cases i
  · exact fin (key 0) (by rw [ev, if_pos rfl]; simp only [V4.get, Line.scr]; ring)
  · exact fin (key 1) (by rw [ev, if_neg (by decide)]; simp only [V4.get, Line.scr]; ring)
  · exact fin (key 2) (by rw [ev, if_neg (by decide)]; simp only [V4.get, Line.scr]; ring)
  · exact fin (key 3) (by rw [ev, if_neg (by decide)]; simp only [V4.get, Line.scr]; ring)

/-- C79: its moment. -/
theorem C79_motor_log_small_p2 {hw : Hw F32} (hc : hw.Contract32) {lm : Libm F32} (hl : lm.Contract32) {hwr : Hw ℝ}
    (hx : hwr.Exact) (isa isa' : Isa) (h : m.LogSmall C) (i : Fin 4) :
    ((m.log hw lm isa).p2.get i).isFinite = true ∧
      |r ((m.log hw lm isa).p2.get i) - (m.real.log hwr Libm.real isa').p2.get i| ≤
        6.3e-6 * ((3.15 + C / |r m.p2.l0|) * (C / √m.p1.sq3)) + 3.2e-6 * (|r m.p2.l0| / √m.p1.sq3) := by
  have hf := h.flat
  have hS := sq3_rng hf.p1 hf.norm
  have hA := ap_ang hc isa hf.p1 hf.norm 0
  have hs : ∀ j : Fin 4, _ := hf.toScale.ap_s hc isa
  have hq : ∀ j : Fin 4, _ := hf.toScale.ap_q hc isa
  have hd : ∀ j : Fin 4, _ := hf.toScale.ap_bc isa
  have hb : ∀ j : Fin 4, _ := hf.ap_b
  have hc' : ∀ j : Fin 4, _ := hf.ap_c
  have ev : ∀ j : Fin 4, r (m.biv32.p1.get j) = _ := fun j => (mask_lane (by norm_num) h.p1 j).2
  have ew : ∀ j : Fin 4, r (m.biv32.p2.get j) = _ := fun j => (mask_lane (by norm_num) h.p2 j).2
  have es : m.biv32.p1.sq3 = m.p1.sq3 := mask_sq3 (by norm_num) h.p1
  rw [h.log_real hx isa' rfl rfl, h.toLogBase.small32_eq hl isa h.scalar]
  simp only [explog_norm]
  generalize rsqrt_nr1 hw (hi_dp_bc isa m.biv32.p1 m.biv32.p1) = R at *
  generalize rcp_nr1 hw (hi_dp_bc isa m.biv32.p1 m.biv32.p1) = Q at *
  generalize dot3 m.biv32.real.p1 m.biv32.real.p2 = D at *
  simp only [es] at hS hA hs hb hq hd
  have hC0 := h.rng.pos
  have hS0 := hS.pos
  generalize √m.p1.sq3 = S at *
  have ht := (lane_v hS h.rng (hs 0) (hd 0)).mulR hone (mul_one C) h.rng (by norm_num) (by norm_num) (by norm_num)
    (by norm_num) (show _ ≤ (1.07e-6 : ℝ) by ap_num)
  have hfq : (-m.p2.l0).isFinite = true := by simpa using (h.p2 0 (by norm_num)).1
  have hu := ap_atan2_hor (y := -m.p2.l0) hl ht hfq (by rw [r_neg, abs_neg]; exact h.pseudo)
  rw [r_neg, abs_neg] at hu
  have hp : Ap (-m.p2.l0) (-r m.p2.l0) |r m.p2.l0| 0 24 32 := by
    have := Ap.input (x := -m.p2.l0) (M := |r m.p2.l0|) (m := 24) (n := 32) hfq (by rw [r_neg, abs_neg])
      ⟨h.pseudo, abs_of_le2 (h.p2 0) (by norm_num)⟩
    rwa [r_neg] at this
  have hv := hp.div hA (by norm_num) (by norm_num) (by norm_num) (by norm_num) (show _ ≤ (2.1e-6 : ℝ) by ap_num)
  have key : ∀ j : Fin 4, _ := fun j => (hu.mul (lane_ideal hS h.rng (hb j) (hc' j) (hs j) (hq j) (hd j))
      (by norm_num) (by norm_num) (by norm_num) (by norm_num) (show _ ≤ (3.01e-6 : ℝ) by ap_num)).sub
    (hv.mulR (lane_real hS (hb j) (hs j)) (mul_one _) hv.rng (by norm_num) (by norm_num) (by norm_num) (by norm_num)
      (show _ ≤ (3e-6 : ℝ) by ap_num)) (K := 3.01e-6) le_rfl (by norm_num) (by norm_num) (by norm_num)
    (show _ ≤ (3.1e-6 : ℝ) by ap_num)
  have hθ := hu.rng.pos
  have hv0 := hv.rng.pos
  generalize 3.15 + C / |r m.p2.l0| = T at *
  have fin : ∀ {x : F32} {E E' : ℝ} {m' n : ℕ},
      Ap x E (T * (C * (1 / S) + C * (1 / S)) + |r m.p2.l0| / S) 3.1e-6 m' n → E = E' →
      x.isFinite = true ∧ |r x - E'| ≤ 6.3e-6 * (T * (C / S)) + 3.2e-6 * (|r m.p2.l0| / S) := by
    rintro x E E' m' n hx rfl
    refine ⟨hx.fin, hx.err.trans ?_⟩
    have h1 : 0 < T * (C / S) := mul_pos hθ (by positivity)
    rw [mul_one_div, ← two_mul, ← mul_assoc, mul_comm T 2, mul_assoc]
    norm_num at *; linarith
  have eD : D * (1 / S) * -1 = -(D / S) := by ring
  simp only [eD] at key
  fin_cases i
  · exact fin (key 0) (by rw [ev, ew]; simp [V4.get, Line.scr])
  · exact fin (key 1) (by rw [ev, ew]; simp [V4.get, Line.scr]; ring)
  · exact fin (key 2) (by rw [ev, ew]; simp [V4.get, Line.scr]; ring)
  · exact fin (key 3) (by rw [ev, ew]; simp [V4.get, Line.scr]; ring)

end

end Klein
