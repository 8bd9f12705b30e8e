import Verif.Props.Trans32
import Verif.Props.ContractInv32

/-!
# C117: exponentials and logarithms with fused multiply-adds

The bounds of C79 for compilers that fuse products with the sums they enter.  The calls of the mathematical
library are never fused.
-/

set_option linter.unusedSimpArgs false

namespace Klein

open F32

variable {ω : Compiler}

/-- The mathematical library, lane by lane. -/
def Libm.fl (lm : Libm F32) (ω : Compiler) : Libm (Fl ω) where
  sqrt A := ⟨lm.sqrt A.val, none, .un 3 A.src⟩
  sin A := ⟨lm.sin A.val, none, .un 4 A.src⟩
  cos A := ⟨lm.cos A.val, none, .un 5 A.src⟩
  acos A := ⟨lm.acos A.val, none, .un 6 A.src⟩
  asin A := ⟨lm.asin A.val, none, .un 7 A.src⟩
  atan2 A B := ⟨lm.atan2 A.val B.val, none, .bin 4 A.src B.src⟩
  copysign A B := ⟨lm.copysign A.val B.val, none, .bin 5 A.src B.src⟩
  abs A := ⟨lm.abs A.val, none, .un 8 A.src⟩
  feq A B := lm.feq A.val B.val
  flt A B := lm.flt A.val B.val
  signbit A := lm.signbit A.val
  pi_2 := ⟨lm.pi_2, none, .un 9 (.const 0)⟩
  eps6 := ⟨lm.eps6, none, .un 10 (.const 0)⟩

theorem apF_zero {M : ℝ} {m n : ℕ} (h : In2 M m n) : ApF (0 : Fl ω) 0 M 0 m n := .of_none (ap_zero h) rfl

/-- The angle: squared norm times inverse norm. -/
theorem ap_ang_fl {hw : Hw F32} (hc : hw.Contract32) (isa : Isa) {v : V4 (Fl ω)} (hv : v.f32.Le2 30) (hn : 1 / 2 ^ 60 ≤ v.f32.sq3)
    (i : Fin 4) : Ap ((hi_dp_bc isa v v).get i * (rsqrt_nr1 (hw.fl ω) (hi_dp_bc isa v v)).get i).val (√v.f32.sq3) (√v.f32.sq3) 1e-6 30 32 := by
  have hN : 0 < v.f32.sq3 := lt_of_lt_of_le (by positivity) hn
  have hS := sq3_rng hv hn
  obtain ⟨a1, a2, -⟩ := inv3_fl hc isa hv hn i
  have hs := ap_rsqrt hN hS a1 a2
  obtain ⟨h1, h2⟩ := sq3_fl isa hv hn i
  have hD : Ap ((hi_dp_bc isa v v).get i).val (√v.f32.sq3 * √v.f32.sq3) (√v.f32.sq3 * √v.f32.sq3) 3e-7 60 64 := by
    refine ⟨h1, (abs_of_pos (hS.mul hS).pos).le, ?_, hS.mul hS⟩
    rw [Real.mul_self_sqrt hN.le]; exact h2
  have h0 := hS.pos
  have key := hD.mulR hs (show _ = √v.f32.sq3 by field_simp) hS
      (by norm_num) (by norm_num) (by norm_num) (by norm_num) (show _ ≤ (1e-6 : ℝ) by ap_num)
  rwa [show √v.f32.sq3 * √v.f32.sq3 * (1 / √v.f32.sq3) = √v.f32.sq3 by field_simp] at key

/-! ### exponential of a branch -/

/-- C117: each lane of the exponential of a branch is within `6.7e-6` of the exact exponential. -/
theorem C117_branch_exp {hw : Hw F32} (hc : hw.Contract32) {lm : Libm F32} (hl : lm.Contract32) {hwr : Hw ℝ}
    (hx : hwr.Exact) (isa isa' : Isa) (b : Branch (Fl ω)) (hv : b.p1.f32.Le2 30) (h0 : r b.p1.l0.val = 0)
    (hn : 1 / 2 ^ 60 ≤ b.p1.f32.sq3) (h4 : √b.p1.f32.sq3 ≤ 4) (i : Fin 4) :
    ((b.exp (hw.fl ω) (lm.fl ω) isa).p1.f32.get i).isFinite = true ∧
      |r ((b.exp (hw.fl ω) (lm.fl ω) isa).p1.f32.get i) - (b.f32.real.exp hwr Libm.real isa').p1.get i| ≤ 6.7e-6 := by
  have hN : 0 < b.p1.f32.sq3 := lt_of_lt_of_le (by positivity) hn
  have hS := sq3_rng hv hn
  have hS0 := hS.pos
  have hang := ap_ang_fl hc isa hv hn 0
  have hs := ap_sin hl hang h4
  have hc' := ap_cos hl hang h4
  have hq := hs.div hang (by norm_num) (by norm_num) (by norm_num) (by norm_num) (show _ ≤ (6.4e-6 : ℝ) by ap_num)
  have e3 : dot3 b.f32.real.p1 b.f32.real.p1 = b.p1.f32.sq3 := by
    simp only [dot3, Branch.real, Branch.f32, V4.real, V4.sq3]; ring
  have eF : b.exp (hw.fl ω) (lm.fl ω) isa = ⟨add_ps (mul_ps (set1_ps ((lm.fl ω).sin ((hi_dp_bc isa b.p1 b.p1).get 0 *
        (rsqrt_nr1 (hw.fl ω) (hi_dp_bc isa b.p1 b.p1)).get 0) / ((hi_dp_bc isa b.p1 b.p1).get 0 *
        (rsqrt_nr1 (hw.fl ω) (hi_dp_bc isa b.p1 b.p1)).get 0))) b.p1)
        (set_ps 0 0 0 ((lm.fl ω).cos ((hi_dp_bc isa b.p1 b.p1).get 0 * (rsqrt_nr1 (hw.fl ω) (hi_dp_bc isa b.p1 b.p1)).get 0)))⟩ := by
    have e : (sqrt_nr1 (hw.fl ω) (hi_dp isa b.p1 b.p1)).l0 =
        (hi_dp_bc isa b.p1 b.p1).get 0 * (rsqrt_nr1 (hw.fl ω) (hi_dp_bc isa b.p1 b.p1)).get 0 := by
      show (hi_dp isa b.p1 b.p1).l0 * rsqrt1 (hw.fl ω) (hi_dp isa b.p1 b.p1).l0 =
        (hi_dp_bc isa b.p1 b.p1).get 0 * rsqrt1 (hw.fl ω) ((hi_dp_bc isa b.p1 b.p1).get 0)
      rw [hi_dp_l0_fl]
    rw [Branch.exp, e]
  rw [eF, Branch.exp_eq hx isa' b.f32.real h0 (by rw [e3]; exact hN) rfl, e3]
  have inp {M : ℝ} {m n : ℕ} (j : Fin 4) (h1 : (b.p1.f32.get j).isFinite = true) (h2 : |r (b.p1.f32.get j)| ≤ M) (h3 : In2 M m n) :
      Ap (b.p1.get j).val (r (b.p1.get j).val) M 0 m n := by
    rw [V4.get_val]; exact Ap.input h1 h2 h3
  have key : ∀ j : Fin 4, j ≠ 0 → _ := fun j hj => (ApF.mulR (A := (lm.fl ω).sin _ / _) (B := b.p1.get j) hq (inp j (hv j (by norm_num)).1
      (lane_le3 (Real.sqrt_nonneg _) (sq3_sqrt b.p1.f32) j hj) hS) (show _ = (1 : ℝ) by field_simp)
      (⟨by norm_num, by norm_num⟩ : In2 1 60 0) (by norm_num) (by norm_num) (by norm_num) (by norm_num)
      (show _ ≤ (6.5e-6 : ℝ) by ap_num)).add (apF_zero (M := 1 / 2 ^ 30) (m := 30) (n := 0) ⟨by norm_num, by norm_num⟩)
      (K := 6.5e-6) le_rfl (by norm_num) (by norm_num) (by norm_num) (by norm_num) (by norm_num) (by norm_num) (show _ ≤ (6.6e-6 : ℝ) by ap_num)
  have fin : ∀ {x : Fl ω} {E E' M : ℝ} {m' n : ℕ}, ApF x E M 6.6e-6 m' n → M ≤ 1.01 → E = E' →
      x.val.isFinite = true ∧ |r x.val - E'| ≤ 6.7e-6 := by
    rintro x E E' M m' n hx hM rfl
    refine ⟨hx.val.fin, hx.val.err.trans ?_⟩
    norm_num at *; linarith
  fin_cases i
  · have h := (ApF.mulR (A := (lm.fl ω).sin _ / _) (B := b.p1.get 0) hq (inp (M := √b.p1.f32.sq3 * (1 / 2 ^ 10)) (m := 40) (n := 32) 0 (hv 0 (by norm_num)).1
      (by simp only [V4.get, V4.f32]; rw [h0, abs_zero]; positivity)
      ⟨(hS.mul (⟨le_rfl, by norm_num⟩ : In2 (1 / 2 ^ 10) 10 0)).lo, by have := hS.hi; norm_num at *; linarith⟩)
      (show _ = (1 / 2 ^ 10 : ℝ) by field_simp)
      (⟨by norm_num, by norm_num⟩ : In2 (1 / 2 ^ 10) 10 0) (by norm_num) (by norm_num) (by norm_num) (by norm_num)
      (show _ ≤ (6.5e-6 : ℝ) by ap_num)).add (ApF.of_none (A := (lm.fl ω).cos _) hc' rfl) (K := 6.5e-6) le_rfl (by norm_num) (by norm_num) (by norm_num) (by norm_num) (by norm_num) (by norm_num)
      (show _ ≤ (6.6e-6 : ℝ) by ap_num)
    exact fin h (by norm_num) (by simp only [V4.get]; rw [h0]; ring)
  · exact fin (key 1 (by decide)) (by norm_num) (by simp only [V4.get, Branch.real, Branch.f32, V4.f32, V4.real]; ring)
  · exact fin (key 2 (by decide)) (by norm_num) (by simp only [V4.get, Branch.real, Branch.f32, V4.f32, V4.real]; ring)
  · exact fin (key 3 (by decide)) (by norm_num) (by simp only [V4.get, Branch.real, Branch.f32, V4.f32, V4.real]; ring)

/-! ### exponential of a line -/

section Lane
variable {b c s q d sn cs : Fl ω} {S C D a : ℝ}

/-- One lane of the normalised moment (x86_exp_log.hpp:92-99). -/
theorem lane_ideal_fl (hS : In2 S 30 32) (hC : In2 C 30 32) (hb : Ap b.val (r b.val) S 0 30 32) (hc : Ap c.val (r c.val) C 0 30 32)
    (hs : Ap s.val (1 / S) (1 / S) 6.2e-7 32 30)
    (hq : Ap q.val (1 / S * (1 / S)) (1 / S * (1 / S)) 6.3e-7 64 60) (hd : Ap d.val D (S * C) 3.1e-7 60 64) :
    ApF (c * s - b * (d * (s * q))) (r c.val * (1 / S) - r b.val * (D * (1 / S * (1 / S * (1 / S)))))
      (C * (1 / S) + C * (1 / S)) 1.84e-6 62 63 := by
  have h0 := hS.pos
  have h1 := hs.mul hq (by norm_num) (by norm_num) (by norm_num) (by norm_num) (show _ ≤ (1.32e-6 : ℝ) by ap_num)
  have h2 := hd.mulR h1 (show _ = C * (1 / S * (1 / S)) by field_simp) (hC.mul (hS.inv.mul hS.inv))
    (by norm_num) (by norm_num) (by norm_num) (by norm_num) (show _ ≤ (1.7e-6 : ℝ) by ap_num)
  have h3 := ApF.mulR (A := b) (B := d * (s * q)) hb h2 (show _ = C * (1 / S) by field_simp) (hC.mul hS.inv)
    (by norm_num) (by norm_num) (by norm_num) (by norm_num) (show _ ≤ (1.77e-6 : ℝ) by ap_num)
  have h4 := ApF.mul (A := c) (B := s) hc hs (by norm_num) (by norm_num) (by norm_num) (by norm_num) (show _ ≤ (6.81e-7 : ℝ) by ap_num)
  exact h4.sub h3 (by norm_num) le_rfl (by norm_num) (by norm_num) (by norm_num) (by norm_num) (by norm_num) (by ap_num)

theorem lane_exp_real_fl (hS : In2 S 30 32) (hb : Ap b.val (r b.val) S 0 30 32) (hs : Ap s.val (1 / S) (1 / S) 6.2e-7 32 30)
    (hsn : Ap sn.val (Real.sin a) 1 4.3e-6 0 0) :
    ApF (0 + sn * (b * s)) (0 + Real.sin a * (r b.val * (1 / S))) (1 / 2 ^ 20 + 1) 5.2e-6 20 1 :=
  (apF_zero (M := 1 / 2 ^ 20) (m := 20) (n := 0) ⟨by norm_num, by norm_num⟩).add
    (ApF.mulR (A := sn) (B := b * s) hsn (lane_real hS hb hs) (one_mul 1) ⟨by norm_num, by norm_num⟩ (by norm_num) (by norm_num)
      (m'' := 0) (n'' := 0) (by norm_num) (by norm_num) (show _ ≤ (5.1e-6 : ℝ) by ap_num))
    (by norm_num) le_rfl (by norm_num) (by norm_num) (by norm_num) (by norm_num) (by norm_num) (by ap_num)

/-- One of the last three lanes of the other part. -/
theorem lane_exp_ideal_fl (hS : In2 S 30 32) (hC : In2 C 30 32) (hb : Ap b.val (r b.val) S 0 30 32) (hc : Ap c.val (r c.val) C 0 30 32)
    (hs : Ap s.val (1 / S) (1 / S) 6.2e-7 32 30)
    (hq : Ap q.val (1 / S * (1 / S)) (1 / S * (1 / S)) 6.3e-7 64 60) (hd : Ap d.val D (S * C) 3.1e-7 60 64)
    {E E' Q : ℝ} (hsn : Ap sn.val E S 1.3e-6 30 32) (hcs : Ap cs.val E' Q 4.3e-6 10 0) :
    ApF (sn * (c * s - b * (d * (s * q))) + d * s * cs * (b * s))
      (E * (r c.val * (1 / S) - r b.val * (D * (1 / S * (1 / S * (1 / S))))) + D * (1 / S) * E' * (r b.val * (1 / S)))
      (C + C + C * Q) 6.3e-6 30 34 := by
  have h0 := hS.pos
  have h1 := ApF.mulR (A := sn) (B := c * s - b * (d * (s * q))) hsn (lane_ideal_fl hS hC hb hc hs hq hd).val (show _ = C + C by field_simp) (hC.add hC)
    (by norm_num) (by norm_num) (by norm_num) (by norm_num) (show _ ≤ (6.22e-6 : ℝ) by ap_num)
  have h2 := (lane_v hS hC hs hd).mul hcs (by norm_num) (by norm_num) (by norm_num) (by norm_num)
    (show _ ≤ (5.4e-6 : ℝ) by ap_num)
  have h3 := ApF.mulR (A := d * s * cs) (B := b * s) h2 (lane_real hS hb hs) (mul_one _) h2.rng (by norm_num) (by norm_num) (by norm_num) (by norm_num)
    (show _ ≤ (6.22e-6 : ℝ) by ap_num)
  exact h1.add h3 le_rfl le_rfl (by norm_num) (by norm_num) (by norm_num) (by norm_num) (by norm_num) (by ap_num)

end Lane

section
variable {m : Line (Fl ω)} {C : ℝ}

theorem flat_b_fl (h : m.f32.Flat C) (i : Fin 4) : Ap (m.p1.get i).val (r (m.p1.get i).val) (√m.p1.f32.sq3) 0 30 32 := by
  rw [V4.get_val]; exact h.ap_b i

theorem flat_c_fl (h : m.f32.Flat C) (i : Fin 4) : Ap (m.p2.get i).val (r (m.p2.get i).val) C 0 30 32 := by
  rw [V4.get_val]; exact h.ap_c i

theorem cmpeq_fl (lm : Libm F32) (v : V4 (Fl ω)) : (lm.fl ω).cmpeq_all v setzero_ps = lm.cmpeq_all v.f32 setzero_ps := rfl

/-- C117: the rotor part of the exponential of a line. -/
theorem C117_line_exp_p1 {hw : Hw F32} (hc : hw.Contract32) {lm : Libm F32} (hl : lm.Contract32) {hwr : Hw ℝ}
    (hx : hwr.Exact) (isa isa' : Isa) (h : m.f32.Exp C) (i : Fin 4) :
    ((m.exp (hw.fl ω) (lm.fl ω) isa).p1.f32.get i).isFinite = true ∧
      |r ((m.exp (hw.fl ω) (lm.fl ω) isa).p1.f32.get i) - (m.f32.real.exp hwr Libm.real isa').p1.get i| ≤ 5.3e-6 := by
  have hS : In2 (√m.p1.f32.sq3) 30 32 := sq3_rng h.p1 h.norm
  have hang := ap_ang_fl (v := m.p1) hc isa h.p1 h.norm 0
  have hsn := ap_sin hl hang h.ang
  have hcs := ap_cos hl hang h.ang
  have hs : ∀ j : Fin 4, _ := line_s_fl h.toScale hc isa
  have hb : ∀ j : Fin 4, _ := flat_b_fl h.toFlat
  rw [Line.exp_real hx isa' h (a := √m.p1.f32.sq3) rfl]
  simp only [Line.exp, exp_kernel, cmpeq_fl, show lm.cmpeq_all m.p1.f32 setzero_ps = false from cmpeq_false hl h.p1 h.norm, cond_false, exp_general, explog_norm]
  generalize rsqrt_nr1 (hw.fl ω) (hi_dp_bc isa m.p1 m.p1) = R at *
  have key : ∀ j : Fin 4, _ := fun j => lane_exp_real_fl (sn := (lm.fl ω).sin _) hS (hb j) (hs j) hsn
  have fin : ∀ {x : Fl ω} {E E' M : ℝ} {m' n : ℕ}, ApF x E M 5.2e-6 m' n → M ≤ 1.01 → E = E' →
      x.val.isFinite = true ∧ |r x.val - E'| ≤ 5.3e-6 := by
    rintro x E E' M m' n hx hM rfl
    refine ⟨hx.val.fin, hx.val.err.trans ?_⟩
    norm_num at *; linarith
  fin_cases i
  · have hb0 : Ap (m.p1.get 0).val (r (m.p1.get 0).val) (√m.p1.f32.sq3 * (1 / 2 ^ 10)) 0 40 32 :=
      Ap.input (show (m.p1.get 0).val.isFinite = true from (h.p1 0 (by norm_num)).1) (by
        have := hS.pos
        have := h.p1z
        simp only [Line.f32, V4.f32] at this
        simp only [V4.get]; rw [this, abs_zero]; positivity)
      ⟨(hS.mul (⟨le_rfl, by norm_num⟩ : In2 (1 / 2 ^ 10) 10 0)).lo, by have := hS.hi; norm_num at *; linarith⟩
    have hS0 := hS.pos
    have h1 := hb0.mulR (hs 0) (show _ = (1 / 2 ^ 10 : ℝ) by field_simp)
      (⟨by norm_num, by norm_num⟩ : In2 (1 / 2 ^ 10) 10 0) (by norm_num) (by norm_num) (by norm_num) (by norm_num)
      (show _ ≤ (6.81e-7 : ℝ) by ap_num)
    have h2 := ApF.mulR (A := (lm.fl ω).sin _) (B := m.p1.get 0 * R.get 0) hsn h1 (one_mul _) (⟨by norm_num, by norm_num⟩ : In2 (1 / 2 ^ 10) 10 0) (by norm_num) (by norm_num)
      (by norm_num) (by norm_num) (show _ ≤ (5.1e-6 : ℝ) by ap_num)
    have h3 := (ApF.of_none (A := (lm.fl ω).cos _) hcs rfl).add h2 (K := 5.1e-6) (by norm_num) le_rfl (by norm_num) (by norm_num) (by norm_num) (by norm_num) (by norm_num) (show _ ≤ (5.2e-6 : ℝ) by ap_num)
    exact fin h3 (by norm_num) (by have := h.p1z; simp only [Line.f32, V4.f32] at this; simp only [V4.get]; rw [this]; ring)
  · exact fin (key 1) (by norm_num) (by simp only [V4.get, Line.f32, V4.f32]; ring)
  · exact fin (key 2) (by norm_num) (by simp only [V4.get, Line.f32, V4.f32]; ring)
  · exact fin (key 3) (by norm_num) (by simp only [V4.get, Line.f32, V4.f32]; ring)

/-- C117: the other part; `C` bounds the moment of the line. -/
theorem C117_line_exp_p2 {hw : Hw F32} (hc : hw.Contract32) {lm : Libm F32} (hl : lm.Contract32) {hwr : Hw ℝ}
    (hx : hwr.Exact) (isa isa' : Isa) (h : m.f32.Exp C) (i : Fin 4) :
    ((m.exp (hw.fl ω) (lm.fl ω) isa).p2.f32.get i).isFinite = true ∧
      |r ((m.exp (hw.fl ω) (lm.fl ω) isa).p2.f32.get i) - (m.f32.real.exp hwr Libm.real isa').p2.get i| ≤
        2e-5 * C := by
  have hS : In2 (√m.p1.f32.sq3) 30 32 := sq3_rng h.p1 h.norm
  have hang := ap_ang_fl (v := m.p1) hc isa h.p1 h.norm 0
  have hsn := ap_sin hl hang h.ang
  have hsr := ap_sin_rel hl hang (by norm_num)
  have hcs := ap_cos hl hang h.ang
  have hs : ∀ j : Fin 4, _ := line_s_fl h.toScale hc isa
  have hq : ∀ j : Fin 4, _ := line_q_fl h.toScale hc isa
  have hd : ∀ j : Fin 4, _ := line_bc_fl h.toScale isa
  have hb : ∀ j : Fin 4, _ := flat_b_fl h.toFlat
  have hc' : ∀ j : Fin 4, _ := flat_c_fl h.toFlat
  rw [Line.exp_real hx isa' h (a := √m.p1.f32.sq3) rfl]
  simp only [Line.exp, exp_kernel, cmpeq_fl, show lm.cmpeq_all m.p1.f32 setzero_ps = false from cmpeq_false hl h.p1 h.norm, cond_false, exp_general, explog_norm]
  generalize rsqrt_nr1 (hw.fl ω) (hi_dp_bc isa m.p1 m.p1) = R at *
  generalize rcp_nr1 (hw.fl ω) (hi_dp_bc isa m.p1 m.p1) = Q at *
  have hC0 := h.rng.pos
  have hS0 := hS.pos
  generalize √m.p1.f32.sq3 = S at *
  have hzero : Ap 0 0 (1 / 2 ^ 10) 4.3e-6 10 0 := (ap_zero (M := 1 / 2 ^ 10) (m := 10) (n := 0)
    ⟨by norm_num, by norm_num⟩).le rfl le_rfl le_rfl (by norm_num) ⟨by norm_num, by norm_num⟩
  have hcs' : Ap _ _ 1 4.3e-6 10 0 := hcs.le rfl le_rfl (by norm_num) le_rfl ⟨by norm_num, by norm_num⟩
  have fin : ∀ {x : Fl ω} {E E' M : ℝ} {m' n : ℕ}, ApF x E M 6.4e-6 m' n → M ≤ 3.01 * C → E = E' →
      x.val.isFinite = true ∧ |r x.val - E'| ≤ 2e-5 * C := by
    rintro x E E' M m' n hx hM rfl
    refine ⟨hx.val.fin, hx.val.err.trans ?_⟩
    norm_num at *; linarith
  have key : ∀ j : Fin 4, _ := fun j => ((apF_zero (M := C * (1 / 2 ^ 10)) (h.rng.mul (⟨le_rfl, by norm_num⟩ : In2 (1 / 2 ^ 10) 10 0))).add
      (lane_exp_ideal_fl hS h.rng (hb j) (hc' j) (hs j) (hq j) (hd j) (sn := (lm.fl ω).sin _) (cs := (lm.fl ω).cos _) hsr hcs')
      (K := 6.3e-6) (by norm_num) le_rfl (by norm_num) (by norm_num) (by norm_num) (by norm_num) (by norm_num) (show _ ≤ (6.4e-6 : ℝ) by ap_num))
  have hM : C * (1 / 2 ^ 10) + (C + C + C * 1) ≤ 3.01 * C := by norm_num; linarith
  have hM0 : C + (C + C + C * (1 / 2 ^ 10)) ≤ 3.01 * C := by norm_num; linarith
  fin_cases i
  · have h1 := ApF.mulR (A := (hi_dp_bc isa m.p1 m.p2).get 0 * R.get 0) (B := (lm.fl ω).sin _) (lane_v hS h.rng (hs 0) (hd 0)) hsn (mul_one C) h.rng (by norm_num) (by norm_num) (by norm_num)
      (by norm_num) (show _ ≤ (5.4e-6 : ℝ) by ap_num)
    have h2 := lane_exp_ideal_fl hS h.rng (hb 0) (hc' 0) (hs 0) (hq 0) (hd 0) (sn := (lm.fl ω).sin _) (cs := 0) hsr hzero
    have h3 := h1.add h2 (K := 6.3e-6) (by norm_num) le_rfl (by norm_num) (by norm_num) (by norm_num) (by norm_num) (by norm_num) (show _ ≤ (6.4e-6 : ℝ) by ap_num)
    exact fin h3 hM0 (by
      have h1 := h.p1z
      have h2 := h.p2z
      simp only [Line.f32, V4.f32] at h1 h2
      simp only [V4.get]; rw [h1, h2]; ring)
  · exact fin (key 1) hM (by simp only [V4.get, Line.f32, V4.f32]; field_simp; ring)
  · exact fin (key 2) hM (by simp only [V4.get, Line.f32, V4.f32]; field_simp; ring)
  · exact fin (key 3) hM (by simp only [V4.get, Line.f32, V4.f32]; field_simp; ring)

end

/-! ### logarithm of a motor -/

section
variable {m : Motor (Fl ω)} {C : ℝ}

/-- The masked motor. -/
def Motor.bivF (m : Motor (Fl ω)) : Line (Fl ω) := ⟨mul_ps (set_ps 1 1 1 0) m.p1, mul_ps (set_ps 1 1 1 0) m.p2⟩

theorem bivF_f32 (m : Motor (Fl ω)) : m.bivF.f32 = m.f32.biv32 := rfl

theorem Motor.logF_eq {hw : Hw F32} {lm : Libm F32} (hl : lm.Contract32) (isa : Isa) (h : m.f32.LogDom C) :
    m.log (hw.fl ω) (lm.fl ω) isa = (let n := explog_norm (hw.fl ω) isa m.bivF.p1 m.bivF.p2
      let u := (lm.fl ω).atan2 (mul_ps n.1 n.2.2.1).l0 m.p1.l0
      let v := (mul_ps n.2.1 n.2.2.1).l0 * (-1) / m.p1.l0
      ⟨mul_ps (set1_ps u) n.2.2.2.1, sub_ps (mul_ps (set1_ps u) n.2.2.2.2) (mul_ps (set1_ps v) n.2.2.2.1)⟩) := by
  have hf := h.flat
  have h1 : (lm.fl ω).cmpeq_all (mul_ps (set_ps 1 1 1 0) m.p1) setzero_ps = false := by
    rw [cmpeq_fl]; exact cmpeq_false hl hf.p1 hf.norm
  have h2 : (lm.fl ω).flt ((lm.fl ω).abs m.p1.l0) (lm.fl ω).eps6 = false := by
    show lm.flt (lm.abs m.p1.l0.val) lm.eps6 = false
    rw [← Bool.not_eq_true, hl.lt6 m.p1.l0.val (h.p1 0 (by norm_num)).1]
    exact not_lt.2 h.scalar
  simp only [Motor.log, log_kernel, h1, cond_false, log_general, h2]
  rfl

/-- C117: the direction of the logarithm of a motor. -/
theorem C117_motor_log_p1 {hw : Hw F32} (hc : hw.Contract32) {lm : Libm F32} (hl : lm.Contract32) {hwr : Hw ℝ}
    (hx : hwr.Exact) (isa isa' : Isa) (h : m.f32.LogDom C) (i : Fin 4) :
    ((m.log (hw.fl ω) (lm.fl ω) isa).p1.f32.get i).isFinite = true ∧
      |r ((m.log (hw.fl ω) (lm.fl ω) isa).p1.f32.get i) - (m.f32.real.log hwr Libm.real isa').p1.get i| ≤
        2.1e-6 * Complex.arg ⟨r m.p1.l0.val, √m.p1.f32.sq3⟩ := by
  have hf : m.bivF.f32.Flat C := h.flat
  have hS : In2 (√m.bivF.p1.f32.sq3) 30 32 := sq3_rng hf.p1 hf.norm
  have hu := ap_atan2 hl (ap_ang_fl (v := m.bivF.p1) hc isa hf.p1 hf.norm 0) (h.p1 0)
  have hs : ∀ j : Fin 4, _ := line_s_fl hf.toScale hc isa
  have hb : ∀ j : Fin 4, _ := flat_b_fl hf
  have ev : ∀ j : Fin 4, r (m.bivF.p1.get j).val = if j = 0 then 0 else r (m.p1.f32.get j) := fun j => by
    rw [V4.get_val]; exact (mask_lane (v := m.p1.f32) (by norm_num) h.p1 j).2
  have es : m.bivF.p1.f32.sq3 = m.p1.f32.sq3 := mask_sq3 (v := m.p1.f32) (by norm_num) h.p1
  rw [Motor.log_real hx isa' h (D := dot3 m.bivF.f32.real.p1 m.bivF.f32.real.p2) (s := √m.p1.f32.sq3) rfl rfl, Motor.logF_eq hl isa h]
  simp only [explog_norm]
  generalize rsqrt_nr1 (hw.fl ω) (hi_dp_bc isa m.bivF.p1 m.bivF.p1) = R at *
  simp only [es] at hS hu hs hb
  have key : ∀ j : Fin 4, _ := fun j => ApF.mulR (A := (lm.fl ω).atan2 _ _) (B := m.bivF.p1.get j * R.get j) hu (lane_real hS (hb j) (hs j)) (mul_one _)
    hu.rng (by norm_num) (by norm_num) (by norm_num) (by norm_num) (show _ ≤ (2.1e-6 : ℝ) by ap_num)
  have fin : ∀ {x : Fl ω} {E E' M : ℝ} {m' n : ℕ}, ApF x E M 2.1e-6 m' n → E = E' →
      x.val.isFinite = true ∧ |r x.val - E'| ≤ 2.1e-6 * M := by
    rintro x E E' M m' n hx rfl
    exact ⟨hx.val.fin, hx.val.err⟩
  fin_cases i
  · exact fin (key 0) (by rw [ev, if_pos rfl]; simp only [V4.get, Line.scr, Motor.f32, V4.f32]; ring)
  · exact fin (key 1) (by rw [ev, if_neg (by decide)]; simp only [V4.get, Line.scr, Motor.f32, V4.f32]; ring)
  · exact fin (key 2) (by rw [ev, if_neg (by decide)]; simp only [V4.get, Line.scr, Motor.f32, V4.f32]; ring)
  · exact fin (key 3) (by rw [ev, if_neg (by decide)]; simp only [V4.get, Line.scr, Motor.f32, V4.f32]; ring)

/-- C117: the moment of the logarithm of a motor. -/
theorem C117_motor_log_p2 {hw : Hw F32} (hc : hw.Contract32) {lm : Libm F32} (hl : lm.Contract32) {hwr : Hw ℝ}
    (hx : hwr.Exact) (isa isa' : Isa) (h : m.f32.LogDom C) (i : Fin 4) :
    ((m.log (hw.fl ω) (lm.fl ω) isa).p2.f32.get i).isFinite = true ∧
      |r ((m.log (hw.fl ω) (lm.fl ω) isa).p2.f32.get i) - (m.f32.real.log hwr Libm.real isa').p2.get i| ≤
        7e-6 * (Complex.arg ⟨r m.p1.l0.val, √m.p1.f32.sq3⟩ * (C / √m.p1.f32.sq3)) + 3.5e-6 * (C / |r m.p1.l0.val|) := by
  have hf : m.bivF.f32.Flat C := h.flat
  have hS : In2 (√m.bivF.p1.f32.sq3) 30 32 := sq3_rng hf.p1 hf.norm
  have hu := ap_atan2 hl (ap_ang_fl (v := m.bivF.p1) hc isa hf.p1 hf.norm 0) (h.p1 0)
  have hs : ∀ j : Fin 4, _ := line_s_fl hf.toScale hc isa
  have hq : ∀ j : Fin 4, _ := line_q_fl hf.toScale hc isa
  have hd : ∀ j : Fin 4, _ := line_bc_fl hf.toScale isa
  have hb : ∀ j : Fin 4, _ := flat_b_fl hf
  have hc' : ∀ j : Fin 4, _ := flat_c_fl hf
  have ev : ∀ j : Fin 4, r (m.bivF.p1.get j).val = if j = 0 then 0 else r (m.p1.f32.get j) := fun j => by
    rw [V4.get_val]; exact (mask_lane (v := m.p1.f32) (by norm_num) h.p1 j).2
  have ew : ∀ j : Fin 4, r (m.bivF.p2.get j).val = if j = 0 then 0 else r (m.p2.f32.get j) := fun j => by
    rw [V4.get_val]; exact (mask_lane (v := m.p2.f32) (by norm_num) h.p2 j).2
  have es : m.bivF.p1.f32.sq3 = m.p1.f32.sq3 := mask_sq3 (v := m.p1.f32) (by norm_num) h.p1
  rw [Motor.log_real hx isa' h (D := dot3 m.bivF.f32.real.p1 m.bivF.f32.real.p2) (s := √m.p1.f32.sq3) rfl rfl, Motor.logF_eq hl isa h]
  simp only [explog_norm]
  generalize rsqrt_nr1 (hw.fl ω) (hi_dp_bc isa m.bivF.p1 m.bivF.p1) = R at *
  generalize rcp_nr1 (hw.fl ω) (hi_dp_bc isa m.bivF.p1 m.bivF.p1) = Q at *
  generalize dot3 m.bivF.f32.real.p1 m.bivF.f32.real.p2 = D at *
  simp only [es] at hS hu hs hb hq hd
  have hC0 := h.rng.pos
  have hS0 := hS.pos
  generalize √m.p1.f32.sq3 = S at *
  have hr0 : m.f32.p1.l0 = m.p1.l0.val := rfl
  simp only [V4.get, hr0] at hu ⊢
  have hθ := hu.rng.pos
  generalize Complex.arg ⟨r m.p1.l0.val, S⟩ = θ at *
  have hP : In2 |r m.p1.l0.val| 20 30 := ⟨h.scalar.trans' (by norm_num), abs_of_le2 (h.p1 0) (by norm_num)⟩
  have hp : Ap m.p1.l0.val (r m.p1.l0.val) |r m.p1.l0.val| 0 20 30 := Ap.input (h.p1 0 (by norm_num)).1 le_rfl hP
  have hone : Ap (-1) (-1) 1 0 0 0 := by
    have e : r (-1) = -1 := by rw [r_neg, r, one_val]; norm_num
    have := Ap.input (x := -1) (M := 1) (m := 0) (n := 0) (by decide +kernel) (by rw [e]; norm_num) ⟨by norm_num, by norm_num⟩
    rwa [e] at this
  have hv := ((lane_v hS h.rng (hs 0) (hd 0)).mulR hone (mul_one C) h.rng (by norm_num) (by norm_num) (by norm_num)
    (by norm_num) (show _ ≤ (1.07e-6 : ℝ) by ap_num)).divR hp rfl (by norm_num) (by norm_num) (by norm_num) (by norm_num)
    (show _ ≤ (1.14e-6 : ℝ) by ap_num)
  have key : ∀ j : Fin 4, _ := fun j => (ApF.mul (A := (lm.fl ω).atan2 _ _) (B := m.bivF.p2.get j * R.get j - m.bivF.p1.get j * ((hi_dp_bc isa m.bivF.p1 m.bivF.p2).get j * (R.get j * Q.get j)))
      hu (lane_ideal_fl hS h.rng (hb j) (hc' j) (hs j) (hq j) (hd j)).val
      (by norm_num) (by norm_num) (by norm_num) (by norm_num) (show _ ≤ (3.22e-6 : ℝ) by ap_num)).sub
    (ApF.mulR (A := (hi_dp_bc isa m.bivF.p1 m.bivF.p2).get 0 * R.get 0 * (-1) / m.p1.l0) (B := m.bivF.p1.get j * R.get j) hv (lane_real hS (hb j) (hs j)) (mul_one _) hv.rng (by norm_num) (by norm_num) (by norm_num) (by norm_num)
      (show _ ≤ (1.9e-6 : ℝ) by ap_num)) (K := 3.22e-6) le_rfl (by norm_num) (by norm_num) (by norm_num) (by norm_num) (by norm_num) (by norm_num)
    (show _ ≤ (3.3e-6 : ℝ) by ap_num)
  have fin : ∀ {x : Fl ω} {E E' : ℝ} {m' n : ℕ},
      ApF x E (θ * (C * (1 / S) + C * (1 / S)) + C / |r m.p1.l0.val|) 3.3e-6 m' n → E = E' →
      x.val.isFinite = true ∧ |r x.val - E'| ≤ 7e-6 * (θ * (C / S)) + 3.5e-6 * (C / |r m.p1.l0.val|) := by
    rintro x E E' m' n hx rfl
    refine ⟨hx.val.fin, hx.val.err.trans ?_⟩
    have h1 : 0 < θ * (C / S) := mul_pos hθ (by positivity)
    have h2 : 0 < C / |r m.p1.l0.val| := div_pos hC0 hP.pos
    rw [mul_one_div, ← two_mul, ← mul_assoc, mul_comm θ 2, mul_assoc]
    norm_num at *; linarith
  fin_cases i
  · exact fin (key 0) (by rw [ev, ew]; simp [V4.get, Line.scr, Motor.f32, V4.f32])
  · exact fin (key 1) (by rw [ev, ew]; simp [V4.get, Line.scr, Motor.f32, V4.f32]; ring)
  · exact fin (key 2) (by rw [ev, ew]; simp [V4.get, Line.scr, Motor.f32, V4.f32]; ring)
  · exact fin (key 3) (by rw [ev, ew]; simp [V4.get, Line.scr, Motor.f32, V4.f32]; ring)

end

/-! ### logarithm of a rotor -/

/-- The Newton-refined reciprocal of an approximate value. -/
theorem ap_rcp1_fl {hw : Hw F32} (hc : hw.Contract32) {D : Fl ω} {E k : ℝ} {m n : ℕ} (h : Ap D.val E E k m n)
    (hk : 0 ≤ k ∧ k ≤ 1 / 1000) (hm : m ≤ 99) (hn : n ≤ 99) :
    Ap (rcp1 (hw.fl ω) D).val (1 / E) (1 / E) (3.3e-7 + 1.01 * k) n m := by
  have hE := h.rng.pos
  have hD := abs_le.1 h.err
  have hkE : k * E ≤ E / 1000 := by nlinarith [hk.2]
  have hlo : 1 / 2 ^ 99 ≤ E :=
    le_trans (one_div_le_one_div_of_le (by positivity) (pow_le_pow_right₀ (by norm_num) hm)) h.rng.lo
  have hhi : E ≤ 2 ^ 99 := h.rng.hi.trans (pow_le_pow_right₀ (by norm_num) hn)
  have hD0 : 0 < r D.val := by linarith
  obtain ⟨hz, he⟩ := rcp1_fl (ω := ω) hc h.fin (by rw [abs_of_pos hD0]; norm_num at *; linarith)
    (by rw [abs_of_pos hD0]; norm_num at *; linarith)
  refine ⟨hz, (abs_of_pos (by positivity)).le, ?_, h.rng.inv⟩
  obtain ⟨w, ew⟩ : ∃ w, w = r (rcp1 (hw.fl ω) D).val := ⟨_, rfl⟩
  rw [← ew] at he ⊢
  obtain ⟨t, et⟩ : ∃ t, t = w * E := ⟨_, rfl⟩
  obtain ⟨d, ed⟩ : ∃ d, d = r D.val / E := ⟨_, rfl⟩
  have hDe : r D.val = d * E := by rw [ed]; field_simp
  have hd : |d - 1| ≤ k := by
    have : d - 1 = (r D.val - E) / E := by rw [ed]; field_simp
    rw [this, abs_div, abs_of_pos hE, div_le_iff₀ hE]; exact h.err
  have hw1 : w * r D.val = t * d := by rw [et, hDe]; ring
  rw [hw1] at he
  have e : w - 1 / E = (t - 1) * (1 / E) := by rw [et]; field_simp
  rw [e, abs_mul, abs_of_pos (show 0 < 1 / E by positivity)]
  refine mul_le_mul_of_nonneg_right ?_ (by positivity)
  clear * - he hd hk
  obtain ⟨hk0, hk1⟩ := hk
  rw [abs_le] at *
  norm_num at *
  have hd1 : 999 / 1000 ≤ d := by linarith
  constructor
  · by_contra hcon
    push Not at hcon
    nlinarith
  · by_contra hcon
    push Not at hcon
    nlinarith

section
variable {q : Rotor (Fl ω)}

/-- C117: each lane of the logarithm of a rotor. -/
theorem C117_rotor_log {hw : Hw F32} (hc : hw.Contract32) {lm : Libm F32} (hl : lm.Contract32) {hwr : Hw ℝ}
    (hx : hwr.Exact) (isa isa' : Isa) {K B : ℝ} (h : q.f32.LogDom K B) (i : Fin 4) :
    ((q.log (hw.fl ω) (lm.fl ω) isa).p1.f32.get i).isFinite = true ∧
      |r ((q.log (hw.fl ω) (lm.fl ω) isa).p1.f32.get i) - (q.f32.real.log hwr Libm.real isa').p1.get i| ≤
        (1e-6 + 2.5e-7 * K) * (B * (Real.arccos (r q.p1.l0.val) / √(1 - r q.p1.l0.val ^ 2))) := by
  obtain ⟨h1, h2⟩ := ap_acos (p := q.p1.l0.val) hl (h.fin 0) h.one rfl h.sin h.ang
  have hs0 : 0 < √(1 - r q.p1.l0.val ^ 2) := lt_of_lt_of_le (by positivity) h.sin
  have hθ0 := h1.rng.pos
  have hB := h.rng.pos
  have hθs : √(1 - r q.p1.l0.val ^ 2) ≤ Real.arccos (r q.p1.l0.val) := by
    rw [← Real.sin_arccos]; exact Real.sin_le (Real.arccos_nonneg _)
  have hK1 : 1 ≤ K := by
    by_contra hcon
    push Not at hcon
    have : Real.arccos (r q.p1.l0.val) ≤ K * √(1 - r q.p1.l0.val ^ 2) := h.ang
    nlinarith
  have hKl := h.kle
  have hk : 0 ≤ 2.4e-7 * (K + 1) ∧ 2.4e-7 * (K + 1) ≤ 1 / 1000 := ⟨by norm_num; linarith, by norm_num; linarith⟩
  have hr := ap_rcp1_fl (D := (lm.fl ω).sin ((lm.fl ω).acos q.p1.l0)) hc h2 hk (by norm_num) (by norm_num)
  have e1 : Real.sin (Real.arccos (r q.p1.l0.val)) = √(1 - r q.p1.l0.val ^ 2) := Real.sin_arccos _
  have e2 : q.f32.real = ⟨⟨r q.p1.l0.val, r q.p1.l1.val, r q.p1.l2.val, r q.p1.l3.val⟩⟩ := rfl
  rw [e2, Rotor.log_real hx isa' _ _ _ rfl e1 hs0.ne']
  have ha := h.fin
  have hlane := h.lane
  have hrng := h.rng
  clear h
  generalize Real.arccos (r q.p1.l0.val) = θ at *
  generalize √(1 - r q.p1.l0.val ^ 2) = s at *
  have u1 := u_le
  have u0 := u_pos
  have key : ∀ j : Fin 4, j ≠ 0 → Ap (q.p1.get j * rcp1 (hw.fl ω) ((lm.fl ω).sin ((lm.fl ω).acos q.p1.l0)) * (lm.fl ω).acos q.p1.l0).val
      (r (q.p1.get j).val * (1 / s) * θ) (B * (1 / s) * θ) (1e-6 + 2.5e-7 * K) 50 52 := fun j hj => by
    have a1 := (Ap.input (x := (q.p1.get j).val) (by rw [V4.get_val]; exact ha j) (by rw [V4.get_val]; exact hlane j hj) hrng).mul hr (by norm_num) ⟨by norm_num; linarith, by norm_num; linarith⟩
      (by norm_num) (by norm_num) (show _ ≤ 6.5e-7 + 2.43e-7 * K by norm_num at *; nlinarith)
    exact a1.mul h1 ⟨by norm_num; linarith, by norm_num; linarith⟩ (by norm_num) (by norm_num) (by norm_num)
      (by norm_num at *; nlinarith)
  have fin : ∀ {x : Fl ω} {E E' : ℝ}, Ap x.val E (B * (1 / s) * θ) (1e-6 + 2.5e-7 * K) 50 52 → E = E' →
      x.val.isFinite = true ∧ |r x.val - E'| ≤ (1e-6 + 2.5e-7 * K) * (B * (θ / s)) := by
    rintro x E E' hx rfl
    refine ⟨hx.fin, hx.err.trans (le_of_eq ?_)⟩
    ring
  have e0 : ∀ j : Fin 4, j ≠ 0 → (q.log (hw.fl ω) (lm.fl ω) isa).p1.get j =
      q.p1.get j * rcp1 (hw.fl ω) ((lm.fl ω).sin ((lm.fl ω).acos q.p1.l0)) * (lm.fl ω).acos q.p1.l0 := fun j hj => by
    fin_cases j
    · exact absurd rfl hj
    all_goals cases isa <;> rfl
  fin_cases i
  · have e : (q.log (hw.fl ω) (lm.fl ω) isa).p1.l0 = 0 := by cases isa <;> rfl
    simp only [Fin.zero_eta, V4.get, V4.f32]
    rw [e, show r (0 : Fl ω).val = 0 from r_zero]
    refine ⟨show (0 : F32).isFinite = true by decide +kernel, ?_⟩
    rw [sub_zero, abs_zero]
    exact mul_nonneg (by norm_num; linarith) (by positivity)
  · have k := key 1 (by decide)
    rw [← e0 1 (by decide)] at k
    exact fin k rfl
  · have k := key 2 (by decide)
    rw [← e0 2 (by decide)] at k
    exact fin k rfl
  · have k := key 3 (by decide)
    rw [← e0 3 (by decide)] at k
    exact fin k rfl

end

/-! ### cases -/

/-- Fusing nothing gives the computations of C79. -/
theorem C117_plain (hw : Hw F32) (lm : Libm F32) (isa : Isa) (b : Branch (Fl plainly)) (l : Line (Fl plainly)) (q : Rotor (Fl plainly))
    (m : Motor (Fl plainly)) :
    (b.exp (hw.fl plainly) (lm.fl plainly) isa).f32 = b.f32.exp hw lm isa ∧ (l.exp (hw.fl plainly) (lm.fl plainly) isa).f32 = l.f32.exp hw lm isa ∧
      (q.log (hw.fl plainly) (lm.fl plainly) isa).f32 = q.f32.log hw lm isa ∧
      (m.log (hw.fl plainly) (lm.fl plainly) isa).f32 = m.f32.log hw lm isa := by
  refine ⟨by cases isa <;> rfl, ?_, by cases isa <;> rfl, ?_⟩
  · simp only [Line.exp, exp_kernel, cmpeq_fl, show l.f32.p1 = l.p1.f32 from rfl]
    cases lm.cmpeq_all l.p1.f32 setzero_ps <;> cases isa <;> rfl
  · simp only [Motor.log, log_kernel, cmpeq_fl, log_general, show (mul_ps (set_ps 1 1 1 0) m.p1).f32 = mul_ps (set_ps 1 1 1 0) m.f32.p1 from rfl,
      show (lm.fl plainly).flt ((lm.fl plainly).abs m.p1.l0) (lm.fl plainly).eps6 = lm.flt (lm.abs m.f32.p1.l0) lm.eps6 from rfl]
    cases lm.cmpeq_all (mul_ps (set_ps 1 1 1 0) m.f32.p1) setzero_ps <;> cases lm.flt (lm.abs m.f32.p1.l0) lm.eps6 <;> cases isa <;> rfl

section Cases
variable {hw : Hw F32} (hc : hw.Contract32) {lm : Libm F32} (hl : lm.Contract32)

private theorem r_one' : r 1 = 1 := by rw [r, one_val]; norm_num
private theorem r_two' : r 2 = 2 := by
  have : (2 : F32).val = 2 := by decide +kernel
  simp [r, this]

private theorem l221 : V4.Le2 ⟨0, 2, 2, 1⟩ 30 := fun i => match i with
  | 0 => Le2.zero.mono (by norm_num)
  | 1 => fun _ => by decide +kernel
  | 2 => fun _ => by decide +kernel
  | 3 => Le2.one.mono (by norm_num)

private theorem s221 : (V4.mk 0 2 2 1 : V4 F32).sq3 = 9 := by simp only [V4.sq3, r_two', r_one']; norm_num
private theorem s9 : √(9 : ℝ) = 3 := by rw [show (9 : ℝ) = 3 ^ 2 by norm_num, Real.sqrt_sq (by norm_num)]

include hc hl in
/-- The exponential of `2 e23 + 2 e31 + e12`, of norm 3: the scalar part, whatever the compiler fuses. -/
example (ω : Compiler) : |r (Branch.exp (hw.fl ω) (lm.fl ω) .sse41 ⟨V4.fl ω 0 ⟨0, 2, 2, 1⟩⟩).p1.l0.val - Real.cos 3| ≤ 6.7e-6 := by
  have h := (C117_branch_exp hc hl Hw.ideal_exact .sse41 .sse41 (⟨V4.fl ω 0 ⟨0, 2, 2, 1⟩⟩ : Branch (Fl ω)) l221 r_zero
    (by show _ ≤ (V4.mk 0 2 2 1 : V4 F32).sq3; rw [s221]; norm_num) (by show √(V4.mk 0 2 2 1 : V4 F32).sq3 ≤ 4; rw [s221, s9]; norm_num) 0).2
  have e3 : dot3 (Branch.real ⟨⟨0, 2, 2, 1⟩⟩).p1 (Branch.real ⟨⟨0, 2, 2, 1⟩⟩).p1 = 9 := by
    simp only [dot3, Branch.real, V4.real, r_two', r_one']; norm_num
  rw [show (⟨V4.fl ω 0 ⟨0, 2, 2, 1⟩⟩ : Branch (Fl ω)).f32 = ⟨⟨0, 2, 2, 1⟩⟩ from rfl,
    Branch.exp_eq Hw.ideal_exact .sse41 _ r_zero (by rw [e3]; norm_num) rfl, e3, s9] at h
  exact h

end Cases

end Klein
