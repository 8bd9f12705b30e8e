import Verif.Props.Screw32
import Verif.Props.ContractExp32

/-!
# C120: screw motions and powers of motors with fused multiply-adds

The bounds of C95 for compilers that fuse products with the sums they enter: `motor(ang, d, line)` and
`exp(t * log(m))`.
-/

set_option linter.unusedSimpArgs false

namespace Klein

open F32

variable {ω : Compiler}

/-! ### lanes that are exactly zero -/

theorem fma_zero_ok {x y z : F32} (hx : x.isFinite = true) (hy : y.isFinite = true) (hz : z.isFinite = true)
    (h : r x * r y = 0) (h' : r z = 0) : (fma x y z).isFinite = true ∧ r (fma x y z) = 0 := by
  have ev : x.val * y.val + z.val = 0 := by
    have : ((x.val * y.val + z.val : ℚ) : ℝ) = 0 := by push_cast; rw [show (z.val : ℝ) = 0 from h', add_zero]; exact h
    exact_mod_cast this
  refine ⟨(fma_ok hx hy hz (by rw [h, h', add_zero, abs_zero]; positivity)).1, ?_⟩
  rw [fma_round hx hy hz, ev, r, round_zero_val, Rat.cast_zero]

/-- A lane that is zero, and zero before rounding if it is a product. -/
structure ZeroF (A : Fl ω) : Prop where
  fin : A.val.isFinite = true
  val : r A.val = 0
  prod : ∀ x y s, A.prod = some (x, y, s) → x.isFinite = true ∧ y.isFinite = true ∧ r (sg s x) * r y = 0

theorem ZeroF.mul {A B : Fl ω} (ha : A.val.isFinite = true) (hb : B.val.isFinite = true) (h : r A.val = 0 ∨ r B.val = 0) :
    ZeroF (A * B) :=
  ⟨(mul_zero_ok ha hb h).1, (mul_zero_ok ha hb h).2, fun x y s e => by cases e; exact ⟨ha, hb, mul_eq_zero.2 h⟩⟩

theorem ZeroF.sub {A B : Fl ω} (ha : ZeroF A) (hb : ZeroF B) : ZeroF (A - B) := by
  have k : (A - B).val.isFinite = true ∧ r (A - B).val = 0 := by
    rcases Fl.sub_cases A B with h | ⟨x, y, s, hp, h⟩ | ⟨x, y, s, hp, h⟩
    · rw [h]; exact sub_zero_ok ha.fin hb.fin ha.val hb.val
    · obtain ⟨h1, h2, h3⟩ := ha.prod x y s hp
      rw [h]; exact fma_zero_ok (fin_sg s h1) h2 (by simpa using hb.fin) h3 (by rw [r_neg, hb.val, neg_zero])
    · obtain ⟨h1, h2, h3⟩ := hb.prod x y s hp
      rw [h]; exact fma_zero_ok (fin_sg _ h1) h2 ha.fin (by rw [r_sg_not, neg_mul, h3, neg_zero]) ha.val
  exact ⟨k.1, k.2, fun x y s e => by cases e⟩

/-! ### the exponential of a rounded line -/

section
variable {N : Line (Fl ω)} {n : Line ℝ} {T k₁ k₂ : ℝ} {hw : Hw F32} (hc : hw.Contract32) {lm : Libm F32} (hl : lm.Contract32) {hwr : Hw ℝ}
  (hx : hwr.Exact) (isa isa' : Isa)

include hc hl hx in
/-- The rotor part of the exponential of a rounded line. -/
theorem approx_exp_p1_fl (h : N.f32.Approx n T k₁ k₂) (i : Fin 4) :
    ((N.exp (hw.fl ω) (lm.fl ω) isa).p1.f32.get i).isFinite = true ∧
      |r ((N.exp (hw.fl ω) (lm.fl ω) isa).p1.f32.get i) - (n.exp hwr Libm.real isa').p1.get i| ≤ 5.3e-6 + 1.74 * (k₁ * √(dot3 n.p1 n.p1)) := by
  have he := h.exp
  obtain ⟨h1, h2⟩ := C117_line_exp_p1 hc hl hx isa isa' he i
  refine ⟨h1, ?_⟩
  have hA : 0 < √(dot3 n.p1 n.p1) := lt_of_lt_of_le (by positivity) h.lo
  have h3 := Line.exp_lip_p1 hx isa' h.wf ⟨he.p1z, he.p2z⟩ (Real.sqrt_pos.1 hA)
    (by rw [Line.real_dot3]; exact lt_of_lt_of_le (by positivity) he.norm) i
  have h4 := abs_sub_le (r ((N.exp (hw.fl ω) (lm.fl ω) isa).p1.f32.get i)) ((N.f32.real.exp hwr Libm.real isa').p1.get i)
    ((n.exp hwr Libm.real isa').p1.get i)
  rw [abs_sub_comm] at h3
  linarith [h.d1]

include hc hl hx in
/-- The other part. -/
theorem approx_exp_p2_fl (h : N.f32.Approx n T k₁ k₂) (i : Fin 4) :
    ((N.exp (hw.fl ω) (lm.fl ω) isa).p2.f32.get i).isFinite = true ∧
      |r ((N.exp (hw.fl ω) (lm.fl ω) isa).p2.f32.get i) - (n.exp hwr Libm.real isa').p2.get i| ≤
        (2.01e-5 + 1.74 * k₂ + 12.2 * (k₁ * √(dot3 n.p1 n.p1))) * T := by
  have he := h.exp
  obtain ⟨h1, h2⟩ := C117_line_exp_p2 hc hl hx isa isa' he i
  refine ⟨h1, ?_⟩
  have hA : 0 < √(dot3 n.p1 n.p1) := lt_of_lt_of_le (by positivity) h.lo
  have h3 := Line.exp_lip_p2 hx isa' h.wf ⟨he.p1z, he.p2z⟩ (Real.sqrt_pos.1 hA)
    (by rw [Line.real_dot3]; exact lt_of_lt_of_le (by positivity) he.norm) i
  have h4 := abs_sub_le (r ((N.exp (hw.fl ω) (lm.fl ω) isa).p2.f32.get i)) ((N.f32.real.exp hwr Libm.real isa').p2.get i)
    ((n.exp hwr Libm.real isa').p2.get i)
  rw [abs_sub_comm] at h3
  have hT := h.rng.pos
  have m := h.mom
  rw [← V4.vec_norm] at m
  have h5 := mul_le_mul (mul_le_mul_of_nonneg_left h.d1 (by norm_num : (0 : ℝ) ≤ 7)) m (norm_nonneg _)
    (mul_nonneg (by norm_num) (mul_nonneg (by norm_num) (mul_nonneg h.k1.1 hA.le)))
  have h6 := h.d2
  have h7 := mul_nonneg (mul_nonneg h.k1.1 hA.le) hT.le
  generalize √(dot3 n.p1 n.p1) = A at *
  norm_num at *
  linarith

end

/-! ### `motor(ang, d, line)` -/

/-- The line exponentiated by `motor(ang, d, line)`, as computed. -/
def Line.screwF (l : Line (Fl ω)) (ang d : Fl ω) : Line (Fl ω) :=
  ⟨(gpDL (-ang * (1 / 2)) (d * (1 / 2)) l.p1 l.p2).1, (gpDL (-ang * (1 / 2)) (d * (1 / 2)) l.p1 l.p2).2⟩

section
variable {l : Line (Fl ω)} {ang d : Fl ω} {C W : ℝ}

theorem screw_approx_fl (h : l.f32.Screw ang.val d.val C W) :
    (l.screwF ang d).f32.Approx (l.f32.real.scr (-r ang.val / 2) (r d.val / 2)) (|r ang.val| / 2 * C + W / 2 * √l.p1.f32.sq3) 1.3e-7 2e-7 := by
  have hS : In2 (√l.p1.f32.sq3) 30 32 := sq3_rng h.p1 h.norm
  have hS0 := hS.pos
  have hSq : √l.p1.f32.sq3 ^ 2 = l.p1.f32.sq3 := Real.sq_sqrt (by unfold V4.sq3; positivity)
  have hU : In2 (|r ang.val| / 2) 61 32 := by
    have l1 : 1 / 2 ^ 29 ≤ |r ang.val| / 2 * √l.p1.f32.sq3 := h.lo
    have l2 : |r ang.val| / 2 * √l.p1.f32.sq3 ≤ 3.99 := h.hi
    have l3 := hS.lo; have l4 := hS.hi
    constructor
    · by_contra hcon
      push Not at hcon
      have := mul_lt_mul hcon l4 hS0 (by positivity)
      norm_num at *; linarith
    · by_contra hcon
      push Not at hcon
      have := mul_lt_mul hcon l3 (by positivity) (by positivity)
      norm_num at *; linarith
  have hU0 := hU.pos
  have hA : Ap (-ang.val) (-r ang.val) |r ang.val| 0 60 33 := by
    have := Ap.input (x := -ang.val) (M := |r ang.val|) (m := 60) (n := 33) (by simpa using h.angf) (by rw [r_neg, abs_neg])
      ⟨by have := hU.lo; norm_num at *; linarith, by have := hU.hi; norm_num at *; linarith⟩
    rwa [r_neg] at this
  have hu : Ap (-ang.val * (1 / 2)) (-r ang.val / 2) (|r ang.val| / 2) 6e-8 61 32 :=
    (hA.mulR ap_half (show _ = |r ang.val| / 2 by ring) hU (by norm_num) (by norm_num) (by norm_num) (by norm_num)
      (by ap_num)).eq (by ring) rfl
  have hW : In2 (W / 2) 61 60 := ⟨by have := h.rngW.lo; norm_num at *; linarith, by have := h.rngW.hi; norm_num at *; linarith⟩
  have hv : Ap (d.val * (1 / 2)) (r d.val / 2) (W / 2) 6e-8 61 60 :=
    ((Ap.input h.df h.dist h.rngW).mulR ap_half (show _ = W / 2 by ring) hW (by norm_num) (by norm_num) (by norm_num)
      (by norm_num) (by ap_num)).eq (by ring) rfl
  have hb : ∀ i : Fin 4, i ≠ 0 → Ap (l.p1.f32.get i) (r (l.p1.f32.get i)) (√l.p1.f32.sq3) 0 30 32 := fun i hi =>
    Ap.input (h.p1 i (by norm_num)).1 (lane_le3 hS0.le hSq.ge i hi) hS
  have hc : ∀ i : Fin 4, i ≠ 0 → Ap (l.p2.f32.get i) (r (l.p2.f32.get i)) C 0 30 32 := fun i hi =>
    Ap.input (h.fin i) (lane_le3 h.rngC.pos.le h.mom i hi) h.rngC
  have k1 : ∀ i : Fin 4, i ≠ 0 → Ap ((l.screwF ang d).p1.f32.get i) (-r ang.val / 2 * r (l.p1.f32.get i)) (|r ang.val| / 2 * √l.p1.f32.sq3) 1.3e-7 29 2 :=
    fun i hi => by
    have := hu.mulR (hb i hi) rfl (⟨h.lo, h.hi.trans (by norm_num)⟩ : In2 _ 29 2) (by norm_num) (by norm_num) (by norm_num)
      (by norm_num) (show _ ≤ (1.3e-7 : ℝ) by ap_num)
    fin_cases i
    · exact absurd rfl hi
    all_goals exact this
  have k2 : ∀ i : Fin 4, i ≠ 0 → Ap ((l.screwF ang d).p2.f32.get i)
      (r (l.p2.f32.get i) * (-r ang.val / 2) - r (l.p1.f32.get i) * (r d.val / 2)) (C * (|r ang.val| / 2) + √l.p1.f32.sq3 * (W / 2)) 2e-7 91 93 :=
    fun i hi => by
    have g1 : Ap (l.p1.get i).val (r (l.p1.f32.get i)) (√l.p1.f32.sq3) 0 30 32 := by rw [V4.get_val]; exact hb i hi
    have g2 : Ap (l.p2.get i).val (r (l.p2.f32.get i)) C 0 30 32 := by rw [V4.get_val]; exact hc i hi
    have := ((ApF.mul (A := l.p2.get i) (B := -ang * (1 / 2)) g2 hu (by norm_num) (by norm_num) (by norm_num) (by norm_num)
      (show _ ≤ (1.3e-7 : ℝ) by ap_num)).sub
      (ApF.mul (A := l.p1.get i) (B := d * (1 / 2)) g1 hv (by norm_num) (by norm_num) (by norm_num) (by norm_num)
      (show _ ≤ (1.3e-7 : ℝ) by ap_num)) le_rfl le_rfl (by norm_num) (by norm_num) (by norm_num) (by norm_num) (by norm_num)
      (show _ ≤ (2e-7 : ℝ) by ap_num)).val
    fin_cases i
    · exact absurd rfl hi
    all_goals exact this
  have eu : (-ang * (1 / 2) : Fl ω).val = -ang.val * (1 / 2) := rfl
  have ed : (d * (1 / 2) : Fl ω).val = d.val * (1 / 2) := rfl
  have hz1 := ZeroF.mul (A := -ang * (1 / 2)) (B := l.p1.l0) (by rw [eu]; exact hu.fin) (h.p1 0 (by norm_num)).1 (Or.inr h.p1z)
  have hz4 := (ZeroF.mul (A := l.p2.l0) (B := -ang * (1 / 2)) (h.fin 0) (by rw [eu]; exact hu.fin) (Or.inl h.p2z)).sub
    (ZeroF.mul (A := l.p1.l0) (B := d * (1 / 2)) (h.p1 0 (by norm_num)).1 (by rw [ed]; exact hv.fin) (Or.inl h.p1z))
  have hn : √(dot3 (l.f32.real.scr (-r ang.val / 2) (r d.val / 2)).p1 (l.f32.real.scr (-r ang.val / 2) (r d.val / 2)).p1) =
      |r ang.val| / 2 * √l.p1.f32.sq3 := by
    have e : dot3 (l.f32.real.scr (-r ang.val / 2) (r d.val / 2)).p1 (l.f32.real.scr (-r ang.val / 2) (r d.val / 2)).p1 =
        (|r ang.val| / 2 * √l.p1.f32.sq3) ^ 2 := by
      rw [mul_pow, hSq, div_pow, sq_abs]
      simp only [Line.scr, dot3, Line.real, V4.real, V4.sq3, Line.f32]; ring
    rw [e, Real.sqrt_sq (by positivity)]
  refine ⟨⟨rfl, rfl⟩, fun i => ?_, fun i => ?_, hz1.val, hz4.val, fun i hi => ?_, fun i hi => ?_, ?_, ?_, ?_, h.rng,
    by norm_num, by norm_num⟩
  · by_cases hi : i = 0
    · subst hi; exact hz1.fin
    · exact (k1 i hi).fin
  · by_cases hi : i = 0
    · subst hi; exact hz4.fin
    · exact (k2 i hi).fin
  · rw [hn]
    refine le_trans (le_of_eq ?_) (k1 i hi).err
    congr 2
    fin_cases i
    · exact absurd rfl hi
    all_goals rfl
  · refine le_trans (le_of_eq ?_) ((k2 i hi).err.trans (le_of_eq (by ring)))
    congr 2
    fin_cases i
    · exact absurd rfl hi
    all_goals simp only [Line.scr, V4.get, Line.real, V4.real, Line.f32, V4.f32]; ring
  · rw [hn]; exact h.lo
  · rw [hn]; exact h.hi
  · have e : (l.f32.real.scr (-r ang.val / 2) (r d.val / 2)).p2.vec = (-r ang.val / 2) • l.f32.real.p2.vec - (r d.val / 2) • l.f32.real.p1.vec := by
      ext i; fin_cases i <;> simp [V4.vec, Line.scr]
    rw [← V4.vec_norm, e]
    refine (norm_sub_le _ _).trans ?_
    rw [norm_smul, norm_smul, Line.real, V4.real_vec_norm, V4.real_vec_norm, show l.f32.p1 = l.p1.f32 from rfl, show l.f32.p2 = l.p2.f32 from rfl, Real.norm_eq_abs, Real.norm_eq_abs, abs_div,
      abs_div, abs_neg, abs_two]
    refine add_le_add (mul_le_mul_of_nonneg_left (Real.sqrt_le_iff.2 ⟨h.rngC.pos.le, h.mom⟩) (by positivity))
      (mul_le_mul_of_nonneg_right ?_ hS0.le)
    linarith [h.dist]

variable {hw : Hw F32} (hc : hw.Contract32) {lm : Libm F32} (hl : lm.Contract32) {hwr : Hw ℝ}
  (hx : hwr.Exact) (isa isa' : Isa)

include hc hl hx in
/-- C120: the rotor part of `motor(ang, d, line)`. -/
theorem C120_screw_p1 (h : l.f32.Screw ang.val d.val C W) (i : Fin 4) :
    ((Motor.mkScrew (hw.fl ω) (lm.fl ω) isa ang d l).p1.f32.get i).isFinite = true ∧
      |r ((Motor.mkScrew (hw.fl ω) (lm.fl ω) isa ang d l).p1.f32.get i) -
        (Motor.mkScrew hwr Libm.real isa' (r ang.val) (r d.val) l.f32.real).p1.get i| ≤ 6.3e-6 := by
  have ha := screw_approx_fl h
  obtain ⟨h1, h2⟩ := approx_exp_p1_fl hc hl hx isa isa' ha i
  rw [Motor.mkScrew_eq isa' (r ang.val) (r d.val) l.f32.real ⟨h.p1z, h.p2z⟩]
  refine ⟨h1, h2.trans ?_⟩
  have := ha.hi
  norm_num at *; linarith

include hc hl hx in
/-- C120: the other part, relative to the sum of half the angle times the moment and half the displacement times
the norm of the line. -/
theorem C120_screw_p2 (h : l.f32.Screw ang.val d.val C W) (i : Fin 4) :
    ((Motor.mkScrew (hw.fl ω) (lm.fl ω) isa ang d l).p2.f32.get i).isFinite = true ∧
      |r ((Motor.mkScrew (hw.fl ω) (lm.fl ω) isa ang d l).p2.f32.get i) -
        (Motor.mkScrew hwr Libm.real isa' (r ang.val) (r d.val) l.f32.real).p2.get i| ≤
        2.7e-5 * (|r ang.val| / 2 * C + W / 2 * √l.p1.f32.sq3) := by
  have ha := screw_approx_fl h
  obtain ⟨h1, h2⟩ := approx_exp_p2_fl hc hl hx isa isa' ha i
  rw [Motor.mkScrew_eq isa' (r ang.val) (r d.val) l.f32.real ⟨h.p1z, h.p2z⟩]
  refine ⟨h1, h2.trans (mul_le_mul_of_nonneg_right ?_ h.rng.pos.le)⟩
  have := ha.hi
  norm_num at *; linarith

end

/-! ### `exp(t * log(m))` -/

section
variable {m : Motor (Fl ω)} {C : ℝ}

/-- Lane 0 of the computed logarithm is zero. -/
theorem log_zero_fl {hw : Hw F32} (hc : hw.Contract32) {lm : Libm F32} (hl : lm.Contract32) (isa : Isa)
    (h : m.f32.LogDom C) : r (m.log (hw.fl ω) (lm.fl ω) isa).p1.l0.val = 0 ∧ r (m.log (hw.fl ω) (lm.fl ω) isa).p2.l0.val = 0 := by
  have hf : m.bivF.f32.Flat C := h.flat
  have hS : In2 (√m.bivF.p1.f32.sq3) 30 32 := sq3_rng hf.p1 hf.norm
  have hS0 := hS.pos
  have hu := ap_atan2 hl (ap_ang_fl (v := m.bivF.p1) hc isa hf.p1 hf.norm 0) (h.p1 0)
  have hs := line_s_fl hf.toScale hc isa 0
  have hq := line_q_fl hf.toScale hc isa 0
  have hd := line_bc_fl hf.toScale isa 0
  have fb : (m.bivF.p1.get 0).val.isFinite = true := (hf.p1 0 (by norm_num)).1
  have fc : (m.bivF.p2.get 0).val.isFinite = true := hf.fin 0
  rw [Motor.logF_eq hl isa h]
  simp only [explog_norm]
  have hP : In2 |r m.p1.l0.val| 20 30 := ⟨h.scalar.trans' (by norm_num), abs_of_le2 (h.p1 0) (by norm_num)⟩
  have hp : Ap m.p1.l0.val (r m.p1.l0.val) |r m.p1.l0.val| 0 20 30 := Ap.input (h.p1 0 (by norm_num)).1 le_rfl hP
  have hone : Ap (-1) (-1) 1 0 0 0 := by
    have e : r (-1) = -1 := by rw [r_neg, r, one_val]; norm_num
    have := Ap.input (x := -1) (M := 1) (m := 0) (n := 0) (by decide +kernel) (by rw [e]; norm_num) ⟨by norm_num, by norm_num⟩
    rwa [e] at this
  have hv := ((lane_v hS h.rng hs hd).mulR hone (mul_one C) h.rng (by norm_num) (by norm_num) (by norm_num)
    (by norm_num) (show _ ≤ (1.07e-6 : ℝ) by ap_num)).divR hp rfl (by norm_num) (by norm_num) (by norm_num) (by norm_num)
    (show _ ≤ (1.14e-6 : ℝ) by ap_num)
  have h1 := hs.mul hq (by norm_num) (by norm_num) (by norm_num) (by norm_num) (show _ ≤ (1.32e-6 : ℝ) by ap_num)
  have h2 := hd.mulR h1 (show _ = C * (1 / √m.bivF.p1.f32.sq3 * (1 / √m.bivF.p1.f32.sq3)) by field_simp) (h.rng.mul (hS.inv.mul hS.inv))
    (by norm_num) (by norm_num) (by norm_num) (by norm_num) (show _ ≤ (1.7e-6 : ℝ) by ap_num)
  generalize rsqrt_nr1 (hw.fl ω) (hi_dp_bc isa m.bivF.p1 m.bivF.p1) = R at *
  generalize rcp_nr1 (hw.fl ω) (hi_dp_bc isa m.bivF.p1 m.bivF.p1) = Q at *
  have z1 := ZeroF.mul (A := m.bivF.p1.get 0) (B := R.get 0) fb hs.fin (Or.inl hf.p1z)
  have z2 := ZeroF.mul (A := m.bivF.p2.get 0) (B := R.get 0) fc hs.fin (Or.inl hf.p2z)
  have z3 := ZeroF.mul (A := m.bivF.p1.get 0) (B := (hi_dp_bc isa m.bivF.p1 m.bivF.p2).get 0 * (R.get 0 * Q.get 0)) fb h2.fin (Or.inl hf.p1z)
  have z4 := z2.sub z3
  have z5 := ZeroF.mul (A := (lm.fl ω).atan2 ((hi_dp_bc isa m.bivF.p1 m.bivF.p1).get 0 * R.get 0) m.p1.l0) hu.fin z1.fin (Or.inr z1.val)
  have z6 := ZeroF.mul (A := (lm.fl ω).atan2 ((hi_dp_bc isa m.bivF.p1 m.bivF.p1).get 0 * R.get 0) m.p1.l0) hu.fin z4.fin (Or.inr z4.val)
  have z7 := ZeroF.mul (A := (hi_dp_bc isa m.bivF.p1 m.bivF.p2).get 0 * R.get 0 * (-1) / m.p1.l0) hv.fin z1.fin (Or.inr z1.val)
  exact ⟨z5.val, (z6.sub z7).val⟩

variable {t : Fl ω} {hw : Hw F32} (hc : hw.Contract32) {lm : Libm F32} (hl : lm.Contract32) {hwr : Hw ℝ}
  (hx : hwr.Exact) (isa isa' : Isa)

include hc hl hx in
/-- The lanes of the computed logarithm. -/
theorem ap_log_fl (h : m.f32.LogDom C) : In2 m.f32.ang 63 2 ∧
    (∀ i : Fin 4, i ≠ 0 → Ap ((m.log (hw.fl ω) (lm.fl ω) isa).p1.f32.get i) ((m.f32.real.log hwr Libm.real isa').p1.get i) m.f32.ang 2.1e-6 63 2) ∧
    ∀ i : Fin 4, i ≠ 0 → Ap ((m.log (hw.fl ω) (lm.fl ω) isa).p2.f32.get i) ((m.f32.real.log hwr Libm.real isa').p2.get i) (m.f32.logScale C) 7e-6 125 66 := by
  obtain ⟨w, n1, n2⟩ := h.log_vec hx isa'
  have hS := sq3_rng h.flat.p1 h.flat.norm
  have es : m.f32.biv32.p1.sq3 = m.f32.p1.sq3 := mask_sq3 (by norm_num) h.p1
  rw [es] at hS
  have hθ := (h.ap_log hc hl hx isa isa').1
  have hP : In2 |r m.p1.l0.val| 20 30 := ⟨h.scalar.trans' (by norm_num), abs_of_le2 (h.p1 0) (by norm_num)⟩
  have hθ0 := hθ.pos
  have hC0 := h.rng.pos
  have hS0 := hS.pos
  have hK : In2 (m.f32.logScale C) 125 66 := by
    have a := (hθ.mul (h.rng.mul hS.inv)).add (h.rng.mul hP.inv)
    rw [mul_one_div, mul_one_div] at a
    exact a.mono (by norm_num) (by norm_num)
  have q1 : ∀ i : Fin 4, i ≠ 0 → |(m.f32.real.log hwr Libm.real isa').p1.get i| ≤ m.f32.ang := fun i hi => by
    rw [← n1]
    match i with
    | 0 => exact absurd rfl hi
    | 1 => exact vec_lane (m.f32.real.log hwr Libm.real isa').p1.vec 0
    | 2 => exact vec_lane (m.f32.real.log hwr Libm.real isa').p1.vec 1
    | 3 => exact vec_lane (m.f32.real.log hwr Libm.real isa').p1.vec 2
  have q2 : ∀ i : Fin 4, i ≠ 0 → |(m.f32.real.log hwr Libm.real isa').p2.get i| ≤ m.f32.logScale C := fun i hi => by
    refine le_trans ?_ n2
    match i with
    | 0 => exact absurd rfl hi
    | 1 => exact vec_lane (m.f32.real.log hwr Libm.real isa').p2.vec 0
    | 2 => exact vec_lane (m.f32.real.log hwr Libm.real isa').p2.vec 1
    | 3 => exact vec_lane (m.f32.real.log hwr Libm.real isa').p2.vec 2
  have a1 : ∀ i : Fin 4, i ≠ 0 → Ap ((m.log (hw.fl ω) (lm.fl ω) isa).p1.f32.get i) ((m.f32.real.log hwr Libm.real isa').p1.get i) m.f32.ang 2.1e-6 63 2 :=
    fun i hi => by
    obtain ⟨f, e⟩ := C117_motor_log_p1 hc hl hx isa isa' h i
    exact ⟨f, q1 i hi, e, hθ⟩
  have a2 : ∀ i : Fin 4, i ≠ 0 → Ap ((m.log (hw.fl ω) (lm.fl ω) isa).p2.f32.get i) ((m.f32.real.log hwr Libm.real isa').p2.get i) (m.f32.logScale C) 7e-6 125 66 :=
    fun i hi => by
    obtain ⟨f, e⟩ := C117_motor_log_p2 hc hl hx isa isa' h i
    refine ⟨f, q2 i hi, e.trans ?_, hK⟩
    have : 0 < C / |r m.p1.l0.val| := div_pos hC0 hP.pos
    rw [Motor.logScale, Motor.ang]
    change _ ≤ 7e-6 * (Complex.arg ⟨r m.p1.l0.val, √m.p1.f32.sq3⟩ * (C / √m.p1.f32.sq3) + C / |r m.p1.l0.val|)
    norm_num; linarith
  exact ⟨hθ, a1, a2⟩

include hc hl hx in
theorem power_approx_fl (h : m.f32.Power t.val C) :
    ((m.log (hw.fl ω) (lm.fl ω) isa).mulAssign t).f32.Approx ((m.f32.real.log hwr Libm.real isa').smul (r t.val)) (|r t.val| * m.f32.logScale C)
      2.3e-6 7.2e-6 := by
  obtain ⟨w, n1, n2⟩ := h.toLogDom.log_vec hx isa'
  obtain ⟨z1, z2⟩ := log_zero_fl hc hl isa h.toLogDom
  obtain ⟨hθ, a1, a2⟩ := ap_log_fl hc hl hx isa isa' h.toLogDom
  have hθ0 := hθ.pos
  have ht : In2 |r t.val| 31 65 := by
    have l1 := h.lo; have l2 := h.hi; have l3 := hθ.lo; have l4 := hθ.hi
    constructor
    · by_contra hcon
      push Not at hcon
      have := mul_lt_mul hcon l4 hθ0 (by positivity)
      norm_num at *; linarith
    · by_contra hcon
      push Not at hcon
      have := mul_lt_mul hcon l3 (by positivity) (by positivity)
      norm_num at *; linarith
  have hat : Ap t.val (r t.val) |r t.val| 0 31 65 := Ap.input h.tf le_rfl ht
  have k1 : ∀ i : Fin 4, i ≠ 0 → Ap (((m.log (hw.fl ω) (lm.fl ω) isa).mulAssign t).p1.f32.get i)
      ((m.f32.real.log hwr Libm.real isa').p1.get i * r t.val) (|r t.val| * m.f32.ang) 2.3e-6 29 2 := fun i hi => by
    have := (a1 i hi).mulR hat (mul_comm _ _) (⟨h.lo, h.hi.trans (by norm_num)⟩ : In2 _ 29 2) (by norm_num) (by norm_num) (by norm_num)
      (by norm_num) (show _ ≤ (2.3e-6 : ℝ) by ap_num)
    fin_cases i
    · exact absurd rfl hi
    all_goals exact this
  have k2 : ∀ i : Fin 4, i ≠ 0 → Ap (((m.log (hw.fl ω) (lm.fl ω) isa).mulAssign t).p2.f32.get i)
      ((m.f32.real.log hwr Libm.real isa').p2.get i * r t.val) (|r t.val| * m.f32.logScale C) 7.2e-6 29 31 := fun i hi => by
    have := (a2 i hi).mulR hat (mul_comm _ _) h.mrng (by norm_num) (by norm_num) (by norm_num)
      (by norm_num) (show _ ≤ (7.2e-6 : ℝ) by ap_num)
    fin_cases i
    · exact absurd rfl hi
    all_goals exact this
  have f1 := (C117_motor_log_p1 hc hl hx isa isa' h.toLogDom 0).1
  have f2 := (C117_motor_log_p2 hc hl hx isa isa' h.toLogDom 0).1
  have y1 := mul_zero_ok f1 h.tf (Or.inl z1)
  have y2 := mul_zero_ok f2 h.tf (Or.inl z2)
  have s1 : ((m.f32.real.log hwr Libm.real isa').smul (r t.val)).p1.vec = r t.val • (m.f32.real.log hwr Libm.real isa').p1.vec :=
    (Line.smul_vec _ _).1
  have s2 : ((m.f32.real.log hwr Libm.real isa').smul (r t.val)).p2.vec = r t.val • (m.f32.real.log hwr Libm.real isa').p2.vec :=
    (Line.smul_vec _ _).2
  have hn : √(dot3 ((m.f32.real.log hwr Libm.real isa').smul (r t.val)).p1 ((m.f32.real.log hwr Libm.real isa').smul (r t.val)).p1) =
      |r t.val| * m.f32.ang := by
    rw [← V4.vec_norm, s1, norm_smul, n1, Real.norm_eq_abs]
  refine ⟨w.smul _, fun i => ?_, fun i => ?_, y1.2, y2.2, fun i hi => ?_, fun i hi => ?_, ?_, ?_, ?_, h.mrng,
    by norm_num, by norm_num⟩
  · by_cases hi : i = 0
    · subst hi; exact y1.1
    · exact (k1 i hi).fin
  · by_cases hi : i = 0
    · subst hi; exact y2.1
    · exact (k2 i hi).fin
  · rw [hn]
    refine le_trans (le_of_eq ?_) (k1 i hi).err
    congr 2
    fin_cases i
    · exact absurd rfl hi
    all_goals rfl
  · refine le_trans (le_of_eq ?_) (k2 i hi).err
    congr 2
    fin_cases i
    · exact absurd rfl hi
    all_goals rfl
  · rw [hn]; exact h.lo
  · rw [hn]; exact h.hi
  · rw [← V4.vec_norm, s2, norm_smul, Real.norm_eq_abs]
    exact mul_le_mul_of_nonneg_left n2 (abs_nonneg _)

include hc hl hx in
/-- C120: the rotor part of `exp(t * log(m))`, in terms of the angle `|t| θ`. -/
theorem C120_power_p1 (h : m.f32.Power t.val C) (i : Fin 4) :
    (((m.log (hw.fl ω) (lm.fl ω) isa).mulAssign t |>.exp (hw.fl ω) (lm.fl ω) isa).p1.f32.get i).isFinite = true ∧
      |r ((((m.log (hw.fl ω) (lm.fl ω) isa).mulAssign t).exp (hw.fl ω) (lm.fl ω) isa).p1.f32.get i) -
        ((((m.f32.real.log hwr Libm.real isa').mulAssign (r t.val)).exp hwr Libm.real isa').p1.get i)| ≤
        5.3e-6 + 4.1e-6 * (|r t.val| * m.f32.ang) := by
  have ha := power_approx_fl hc hl hx isa isa' h
  obtain ⟨h1, h2⟩ := approx_exp_p1_fl hc hl hx isa isa' ha i
  refine ⟨h1, h2.trans ?_⟩
  obtain ⟨-, n1, -⟩ := h.toLogDom.log_vec hx isa'
  have s1 : ((m.f32.real.log hwr Libm.real isa').smul (r t.val)).p1.vec = r t.val • (m.f32.real.log hwr Libm.real isa').p1.vec :=
    (Line.smul_vec _ _).1
  rw [← V4.vec_norm, s1, norm_smul, n1, Real.norm_eq_abs]
  have : 0 < |r t.val| * m.f32.ang := lt_of_lt_of_le (by positivity) h.lo
  norm_num at *; linarith

include hc hl hx in
/-- C120: the other part. -/
theorem C120_power_p2 (h : m.f32.Power t.val C) (i : Fin 4) :
    (((m.log (hw.fl ω) (lm.fl ω) isa).mulAssign t |>.exp (hw.fl ω) (lm.fl ω) isa).p2.f32.get i).isFinite = true ∧
      |r ((((m.log (hw.fl ω) (lm.fl ω) isa).mulAssign t).exp (hw.fl ω) (lm.fl ω) isa).p2.f32.get i) -
        ((((m.f32.real.log hwr Libm.real isa').mulAssign (r t.val)).exp hwr Libm.real isa').p2.get i)| ≤
        (3.3e-5 + 2.9e-5 * (|r t.val| * m.f32.ang)) * (|r t.val| * m.f32.logScale C) := by
  have ha := power_approx_fl hc hl hx isa isa' h
  obtain ⟨h1, h2⟩ := approx_exp_p2_fl hc hl hx isa isa' ha i
  refine ⟨h1, h2.trans (mul_le_mul_of_nonneg_right ?_ h.mrng.pos.le)⟩
  obtain ⟨-, n1, -⟩ := h.toLogDom.log_vec hx isa'
  have s1 : ((m.f32.real.log hwr Libm.real isa').smul (r t.val)).p1.vec = r t.val • (m.f32.real.log hwr Libm.real isa').p1.vec :=
    (Line.smul_vec _ _).1
  rw [← V4.vec_norm, s1, norm_smul, n1, Real.norm_eq_abs]
  have : 0 < |r t.val| * m.f32.ang := lt_of_lt_of_le (by positivity) h.lo
  norm_num at *; linarith

end

section
variable {m : Motor (Fl ω)} {C : ℝ} {hw : Hw F32} (hc : hw.Contract32) {lm : Libm F32} (hl : lm.Contract32) {hwr : Hw ℝ}
  (hx : hwr.Exact) (isa isa' : Isa)

include hc hl hx in
theorem round_approx_fl (h : m.f32.Round C) :
    (m.log (hw.fl ω) (lm.fl ω) isa).f32.Approx (m.f32.real.log hwr Libm.real isa') (m.f32.logScale C) 2.1e-6 7e-6 := by
  obtain ⟨w, n1, n2⟩ := h.toLogDom.log_vec hx isa'
  obtain ⟨z1, z2⟩ := log_zero_fl hc hl isa h.toLogDom
  obtain ⟨hθ, a1, a2⟩ := ap_log_fl hc hl hx isa isa' h.toLogDom
  rw [V4.vec_norm] at n1 n2
  have hpi := Real.pi_lt_d2
  have hle : m.f32.ang ≤ Real.pi := Complex.arg_le_pi _
  refine ⟨w, fun i => (C117_motor_log_p1 hc hl hx isa isa' h.toLogDom i).1,
    fun i => (C117_motor_log_p2 hc hl hx isa isa' h.toLogDom i).1, z1, z2, fun i hi => ?_, fun i hi => (a2 i hi).err, ?_, ?_, n2,
    h.mrng, by norm_num, by norm_num⟩
  · rw [n1]; exact (a1 i hi).err
  · rw [n1]; exact h.lo
  · rw [n1]; norm_num at *; linarith

include hc hl in
/-- C120: the rotor part of `exp(log(m))` is that of `m`, normalised. -/
theorem C120_round_p1 (h : m.f32.Round C) (i : Fin 4) :
    (((m.log (hw.fl ω) (lm.fl ω) isa).exp (hw.fl ω) (lm.fl ω) isa).p1.f32.get i).isFinite = true ∧
      |r (((m.log (hw.fl ω) (lm.fl ω) isa).exp (hw.fl ω) (lm.fl ω) isa).p1.f32.get i) - m.f32.real.fix.p1.get i| ≤ 5.3e-6 + 3.7e-6 * m.f32.ang := by
  have ha := round_approx_fl hc hl Hw.ideal_exact isa isa h
  obtain ⟨h1, h2⟩ := approx_exp_p1_fl hc hl Hw.ideal_exact isa isa ha i
  obtain ⟨-, n1, -⟩ := h.toLogDom.log_vec Hw.ideal_exact isa
  have h0 : 0 < m.f32.ang := lt_of_lt_of_le (by positivity) h.lo
  rw [h.exact isa, ← V4.vec_norm, n1] at h2
  refine ⟨h1, h2.trans ?_⟩
  norm_num at *; linarith

include hc hl in
/-- C120: the other part. -/
theorem C120_round_p2 (h : m.f32.Round C) (i : Fin 4) :
    (((m.log (hw.fl ω) (lm.fl ω) isa).exp (hw.fl ω) (lm.fl ω) isa).p2.f32.get i).isFinite = true ∧
      |r (((m.log (hw.fl ω) (lm.fl ω) isa).exp (hw.fl ω) (lm.fl ω) isa).p2.f32.get i) - m.f32.real.fix.p2.get i| ≤
        (3.3e-5 + 2.6e-5 * m.f32.ang) * m.f32.logScale C := by
  have ha := round_approx_fl hc hl Hw.ideal_exact isa isa h
  obtain ⟨h1, h2⟩ := approx_exp_p2_fl hc hl Hw.ideal_exact isa isa ha i
  obtain ⟨-, n1, -⟩ := h.toLogDom.log_vec Hw.ideal_exact isa
  have h0 : 0 < m.f32.ang := lt_of_lt_of_le (by positivity) h.lo
  rw [h.exact isa, ← V4.vec_norm, n1] at h2
  refine ⟨h1, h2.trans (mul_le_mul_of_nonneg_right ?_ h.mrng.pos.le)⟩
  norm_num at *; linarith

end

/-- C120: the compiler that fuses nothing gives the lanes of C95. -/
theorem C120_plain (hw : Hw F32) (lm : Libm F32) (isa : Isa) (m : Motor (Fl plainly)) (l : Line (Fl plainly)) (t ang d : Fl plainly) :
    (Motor.mkScrew (hw.fl plainly) (lm.fl plainly) isa ang d l).f32 = Motor.mkScrew hw lm isa ang.val d.val l.f32 ∧
    (((m.log (hw.fl plainly) (lm.fl plainly) isa).mulAssign t).exp (hw.fl plainly) (lm.fl plainly) isa).f32 =
      ((m.f32.log hw lm isa).mulAssign t.val).exp hw lm isa ∧
    ((m.log (hw.fl plainly) (lm.fl plainly) isa).exp (hw.fl plainly) (lm.fl plainly) isa).f32 = (m.f32.log hw lm isa).exp hw lm isa := by
  have e := fun l : Line (Fl plainly) => (C117_plain hw lm isa ⟨l.p1⟩ l ⟨m.p1⟩ m).2.1
  have g := (C117_plain hw lm isa ⟨m.p1⟩ l ⟨m.p1⟩ m).2.2.2
  refine ⟨e (l.screwF ang d), ?_, ?_⟩
  · rw [e, ← g]; rfl
  · rw [e, ← g]

/-! ### cases -/

section Cases
variable {hw : Hw F32} (hc : hw.Contract32) {lm : Libm F32} (hl : lm.Contract32)

private theorem r_one' : r 1 = 1 := by rw [r, one_val]; norm_num
private theorem r_two' : r 2 = 2 := by
  have : (2 : F32).val = 2 := by decide +kernel
  simp [r, this]
private theorem r_five : r 5 = 5 := by
  have : (5 : F32).val = 5 := by decide +kernel
  simp [r, this]
private theorem s9 : √(9 : ℝ) = 3 := by rw [show (9 : ℝ) = 3 ^ 2 by norm_num, Real.sqrt_sq (by norm_num)]

include hc hl in
/-- `motor(1, 2, l)` with the rotation of the line `l` of norm 3: the scalar is `cos(3/2)`, whatever
the compiler fuses. -/
example (ω : Compiler) : |r (Motor.mkScrew (hw.fl ω) (lm.fl ω) .sse3 (.input 8 1) (.input 9 2)
    ⟨V4.fl ω 0 ⟨0, 2, 2, 1⟩, V4.fl ω 4 ⟨0, 1, 2, 2⟩⟩).p1.l0.val - Real.cos (3 / 2)| ≤ 6.3e-6 := by
  have s1 : (V4.mk 0 2 2 1 : V4 F32).sq3 = 9 := by simp only [V4.sq3, r_two', r_one']; norm_num
  have s2 : (V4.mk 0 1 2 2 : V4 F32).sq3 = 9 := by simp only [V4.sq3, r_two', r_one']; norm_num
  have hd : Line.Screw ⟨⟨0, 2, 2, 1⟩, ⟨0, 1, 2, 2⟩⟩ 1 2 3 2 := by
    refine ⟨?_, ?_, ?_, r_zero, r_zero, ?_, ⟨by norm_num, by norm_num⟩, by decide +kernel, by decide +kernel, ?_,
      ⟨by norm_num, by norm_num⟩, ?_, ?_, ?_⟩
    · exact fun i => match i with
        | 0 => Le2.zero.mono (by norm_num)
        | 1 => fun _ => by decide +kernel
        | 2 => fun _ => by decide +kernel
        | 3 => Le2.one.mono (by norm_num)
    · simp only; rw [s1]; norm_num
    · exact fun i => match i with
        | 0 => by decide +kernel
        | 1 => by decide +kernel
        | 2 => by decide +kernel
        | 3 => by decide +kernel
    · simp only; rw [s2]; norm_num
    · rw [r_two']; norm_num
    · simp only; rw [s1, s9, r_one']; norm_num
    · simp only; rw [s1, s9, r_one']; norm_num
    · simp only; rw [s1, s9, r_one']; constructor <;> norm_num
  have h := (C120_screw_p1 (l := ⟨V4.fl ω 0 ⟨0, 2, 2, 1⟩, V4.fl ω 4 ⟨0, 1, 2, 2⟩⟩) (ang := .input 8 1) (d := .input 9 2) hc hl Hw.ideal_exact .sse3 .sse3 hd 0).2
  have w : (Line.mk ⟨0, 2, 2, 1⟩ ⟨0, 1, 2, 2⟩ : Line F32).real.WF := ⟨r_zero, r_zero⟩
  rw [show (⟨V4.fl ω 0 ⟨0, 2, 2, 1⟩, V4.fl ω 4 ⟨0, 1, 2, 2⟩⟩ : Line (Fl ω)).f32 = ⟨⟨0, 2, 2, 1⟩, ⟨0, 1, 2, 2⟩⟩ from rfl,
    show (Fl.input 8 1 : Fl ω).val = 1 from rfl, show (Fl.input 9 2 : Fl ω).val = 2 from rfl, Motor.mkScrew_eq _ _ _ _ w] at h
  have e3 : dot3 ((Line.mk ⟨0, 2, 2, 1⟩ ⟨0, 1, 2, 2⟩ : Line F32).real.scr (-(r 1) / 2) (r 2 / 2)).p1
      ((Line.mk ⟨0, 2, 2, 1⟩ ⟨0, 1, 2, 2⟩ : Line F32).real.scr (-(r 1) / 2) (r 2 / 2)).p1 = (3 / 2) ^ 2 := by
    simp only [Line.scr, dot3, Line.real, V4.real, r_one', r_two']; norm_num
  have w2 : ((Line.mk ⟨0, 2, 2, 1⟩ ⟨0, 1, 2, 2⟩ : Line F32).real.scr (-(r 1) / 2) (r 2 / 2)).WF := by
    constructor <;> simp [Line.scr]
  have := (Line.exp_vec Hw.ideal_exact .sse3 w2 (by rw [e3]; norm_num)).1
  rw [V4.vec_norm, e3, Real.sqrt_sq (by norm_num)] at this
  simp only [V4.get] at h
  rw [this] at h
  exact h

/-- A motor that is not normalised. -/
private def mq : Motor F32 := ⟨⟨1, 0, 0, 1⟩, ⟨5, 0, 0, 2⟩⟩

private theorem mq_sq : mq.p1.sq3 = 1 := by simp only [mq, V4.sq3, r_zero, r_one']; norm_num
private theorem mq_ang : mq.ang = Real.pi / 4 := by
  rw [Motor.ang, mq_sq, Real.sqrt_one]
  have h2 : (0 : ℝ) < √2 := by positivity
  have hm : √2 * √2 = 2 := Real.mul_self_sqrt (by norm_num)
  have e : (⟨r mq.p1.l0, 1⟩ : ℂ) = (√2 : ℝ) * (Complex.cos (Real.pi / 4 : ℝ) + Complex.sin (Real.pi / 4 : ℝ) * Complex.I) := by
    rw [← Complex.ofReal_cos, ← Complex.ofReal_sin, Real.cos_pi_div_four, Real.sin_pi_div_four]
    apply Complex.ext
    · simp only [mq, r_one']; simp; nlinarith
    · simp; nlinarith
  rw [e, Complex.arg_mul_cos_add_sin_mul_I h2]
  constructor <;> linarith [Real.pi_pos]
private theorem mq_scale : mq.logScale 2 = Real.pi / 2 + 2 := by
  rw [Motor.logScale, mq_ang, mq_sq, Real.sqrt_one]
  simp only [mq, r_one']; norm_num; ring

private theorem mq_dom : mq.LogDom 2 := by
  refine ⟨⟨?_, ?_, ?_, ?_, ⟨by norm_num, by norm_num⟩⟩, ?_⟩
  · exact fun i => match i with
      | 0 => Le2.one.mono (by norm_num)
      | 1 => Le2.zero.mono (by norm_num)
      | 2 => Le2.zero.mono (by norm_num)
      | 3 => Le2.one.mono (by norm_num)
  · rw [mq_sq]; norm_num
  · exact fun i => match i with
      | 0 => fun _ => by decide +kernel
      | 1 => Le2.zero.mono (by norm_num)
      | 2 => Le2.zero.mono (by norm_num)
      | 3 => fun _ => by decide +kernel
  · simp only [mq, V4.sq3, r_zero, r_two']; norm_num
  · simp only [mq, r_one']; norm_num

/-- The same motor as inputs of a compiled program. -/
private def mqF (ω : Compiler) : Motor (Fl ω) := ⟨V4.fl ω 0 mq.p1, V4.fl ω 4 mq.p2⟩

include hc hl in
/-- Doubling a quarter turn: the scalar of `exp(2 log(m))` vanishes, whatever the compiler fuses. -/
example (ω : Compiler) : |r (((((mqF ω).log (hw.fl ω) (lm.fl ω) .sse41).mulAssign (.input 8 2)).exp (hw.fl ω) (lm.fl ω) .sse41).p1.l0.val)| ≤ 1.2e-5 := by
  have hpi := Real.pi_lt_d2
  have hpi' := Real.pi_gt_three
  have hd : mq.Power 2 2 := by
    refine ⟨mq_dom, by decide +kernel, ?_, ?_, ?_⟩
    · rw [mq_ang, r_two']; norm_num; linarith
    · rw [mq_ang, r_two']; norm_num at *; linarith
    · rw [mq_scale, r_two']; constructor <;> norm_num at * <;> linarith
  have h := (C120_power_p1 (m := mqF ω) (t := .input 8 2) hc hl Hw.ideal_exact .sse41 .sse41 hd 0).2
  obtain ⟨w, n1, -⟩ := mq_dom.log_vec Hw.ideal_exact .sse41
  have n2 : ‖((mq.real.log Hw.ideal Libm.real .sse41).smul (r 2)).p1.vec‖ = Real.pi / 2 := by
    rw [(Line.smul_vec _ _).1, norm_smul, n1, mq_ang, r_two']; norm_num; ring
  have h0 : 0 < dot3 ((mq.real.log Hw.ideal Libm.real .sse41).smul (r 2)).p1
      ((mq.real.log Hw.ideal Libm.real .sse41).smul (r 2)).p1 := by
    rw [← Real.sqrt_pos, ← V4.vec_norm, n2]; linarith
  have e := (Line.exp_vec Hw.ideal_exact .sse41 (w.smul (r 2)) h0).1
  rw [n2, Real.cos_pi_div_two, ← Line.mulAssign_eq] at e
  rw [show (mqF ω).f32 = mq from rfl, show (Fl.input 8 2 : Fl ω).val = 2 from rfl] at h
  simp only [V4.get] at h
  rw [e, sub_zero, mq_ang, r_two'] at h
  refine h.trans ?_
  norm_num at *; linarith

end Cases

end Klein
