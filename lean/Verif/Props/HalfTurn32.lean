import Verif.Props.Screw32
import Verif.Props.LogSmall32

/-!
# C96: the logarithm of a half turn in binary32 depends on the sign of a zero

For a half turn without translation the code evaluates `atan2(-q, t)` with `q = 0` and `t = 0`.  Over the reals this
is 0 (C36); in binary32 both arguments are negative zero, and `atan2(-0, -0)` is `-π` by Annex F of the C standard.
The logarithm is then twice as long as it should be and `exp(log(m))` is `-1` instead of the half turn.  With SSE3 and
an axis all of whose lanes are negative the second argument is `+0` and the logarithm vanishes: the two instruction
sets disagree.
-/

set_option linter.unusedSimpArgs false

namespace Klein

open F32

/-! ### signed zeros -/

/-- The zero of a sign. -/
def F32.z (s : Bool) : F32 := ofMag s 0

theorem F32.z_add (s t : Bool) : z s + z t = z (s && t) := by
  cases s <;> cases t <;> decide +kernel

theorem F32.z_val (s : Bool) : (z s).isFinite = true ∧ (z s).val = 0 := by
  cases s <;> exact ⟨by decide +kernel, by decide +kernel⟩

theorem F32.mul_z {x : F32} (h : x.isFinite = true) (s : Bool) : x * z s = z (x.sign != s) := by
  have e := mul_round h (z_val s).1
  rw [(z_val s).2, mul_zero, round, if_pos rfl] at e
  rw [e]; rfl

theorem F32.z_mul {x : F32} (h : x.isFinite = true) (s : Bool) : z s * x = z (s != x.sign) := by
  have e := mul_round (z_val s).1 h
  rw [(z_val s).2, zero_mul, round, if_pos rfl] at e
  rw [e]; rfl

theorem F32.sign_of_pos {x : F32} (h : 0 < r x) : x.sign = false := by
  by_contra hs
  have hs : x.sign = true := by simpa using hs
  have h' : (0 : ℝ) < (x.val : ℝ) := h
  have h' : 0 < x.val := by exact_mod_cast h'
  rw [val, if_pos hs] at h'
  have := magVal_nonneg x.mag.val
  linarith

theorem F32.Ap.val_pos {x : F32} {E k : ℝ} {m n : ℕ} (h : Ap x E E k m n) (hk : k ≤ 1 / 2) : 0 < r x := by
  have h1 := (abs_le.1 h.err).1
  have h2 := h.rng.pos
  have h3 := mul_le_mul_of_nonneg_right hk h2.le
  linarith

theorem F32.sign_one_mul {x : F32} (h : x.isFinite = true) : (1 * x).sign = x.sign := by
  have e := mul_round (x := 1) (by decide +kernel) h
  have o : (1 : F32).sign = false := by decide +kernel
  rw [one_val, one_mul, o] at e
  rw [e, round]
  by_cases h0 : x.val = 0
  · rw [if_pos h0]
    show (false != x.sign) = x.sign
    cases x.sign <;> rfl
  · rw [if_neg h0]
    show decide (x.val < 0) = x.sign
    have hn := magVal_nonneg x.mag.val
    cases hs : x.sign
    · have : x.val = magVal x.mag := by rw [val, hs]; rfl
      rw [decide_eq_false_iff_not, this]; linarith
    · have : x.val = -magVal x.mag := by rw [val, hs]; rfl
      rw [decide_eq_true_iff]
      rcases lt_or_eq_of_le hn with h2 | h2
      · linarith
      · exact absurd (by rw [this, ← h2, neg_zero]) h0

/-- Annex F.10.1.4 of the C standard: `atan2` of a zero is the zero itself if the second argument is positive or `+0`,
and `±π` (rounded) if it is negative or `-0`. -/
structure Libm.AnnexF (lm : Libm F32) : Prop where
  atan2_pos : ∀ (s : Bool) (x : F32), x.isFinite = true → x.sign = false → lm.atan2 (z s) x = z s
  atan2_neg : ∀ (s : Bool) (x : F32), x.isFinite = true → x.sign = true →
    Ulp2 (lm.atan2 (z s) x) (if s then -Real.pi else Real.pi)

/-- A library can satisfy both sets of assumptions. -/
theorem C96_annexF_inhabited : ∃ lm : Libm F32, lm.Contract32 ∧ lm.AnnexF := by
  classical
  obtain ⟨lm, h⟩ := C79_contract_inhabited
  have hpi : |Real.pi| ≤ 2 ^ 70 := by
    rw [abs_of_pos Real.pi_pos]; exact Real.pi_le_four.trans (by norm_num)
  obtain ⟨a, ha⟩ := exists_ulp2 hpi
  obtain ⟨b, hb⟩ := exists_ulp2 (v := -Real.pi) (by rw [abs_neg]; exact hpi)
  refine ⟨{ lm with atan2 := fun y x => if r y = 0 then (if x.sign then (if y.sign then b else a) else y) else lm.atan2 y x },
    ⟨h.sqrt, h.sin, h.cos, h.acos, ?_, h.feq, h.lt6⟩, ?_, ?_⟩
  · intro y x hy hx h0
    simp only [if_neg h0]
    exact h.atan2 y x hy hx h0
  · intro s x _ hs
    have e : r (z s) = 0 := by rw [r, (z_val s).2, Rat.cast_zero]
    simp [e, hs]
  · intro s x _ hs
    have e : r (z s) = 0 := by rw [r, (z_val s).2, Rat.cast_zero]
    have es : (z s).sign = s := rfl
    cases s <;> simp [e, hs, es, ha, hb]

/-! ### half turns -/

/-- A half turn without translation (all zeros positive). -/
structure Motor.HalfTurn (m : Motor F32) : Prop where
  p1 : m.p1.Le2 30
  norm : 1 / 2 ^ 60 ≤ m.p1.sq3
  scalar : |r m.p1.l0| < 1 / 1000000
  p2 : m.p2 = ⟨0, 0, 0, 0⟩

/-- The sign of `ab`. -/
def Motor.abSign (m : Motor F32) : Isa → Bool
  | .sse41 => false
  | .sse3 => m.p1.l1.sign && m.p1.l2.sign && m.p1.l3.sign

section
variable {m : Motor F32}

theorem Motor.HalfTurn.base (h : m.HalfTurn) : m.LogBase 1 where
  p1 := h.p1
  norm := h.norm
  p2 := by
    rw [h.p2]
    exact fun i => match i with
      | 0 => Le2.zero.mono (by norm_num)
      | 1 => Le2.zero.mono (by norm_num)
      | 2 => Le2.zero.mono (by norm_num)
      | 3 => Le2.zero.mono (by norm_num)
  mom := by rw [h.p2]; simp only [V4.sq3, r_zero]; norm_num
  rng := ⟨by norm_num, by norm_num⟩

theorem Motor.HalfTurn.biv (h : m.HalfTurn) : m.biv32.p2 = ⟨z false, z false, z false, z false⟩ := by
  simp only [Motor.biv32, h.p2]
  decide +kernel

theorem Motor.HalfTurn.ab (h : m.HalfTurn) (isa : Isa) :
    hi_dp_bc isa m.biv32.p1 m.biv32.p2 = set1_ps (z (m.abSign isa)) := by
  have f : ∀ j, (m.p1.get j).isFinite = true := fun j => (h.p1 j (by norm_num)).1
  have g : ∀ j, (m.biv32.p1.get j).isFinite = true := fun j => (mask_lane (by norm_num) h.p1 j).1
  have s1 : m.biv32.p1.l1.sign = m.p1.l1.sign := sign_one_mul (f 1)
  have s2 : m.biv32.p1.l2.sign = m.p1.l2.sign := sign_one_mul (f 2)
  have s3 : m.biv32.p1.l3.sign = m.p1.l3.sign := sign_one_mul (f 3)
  have m1 : m.biv32.p1.l1 * z false = z m.p1.l1.sign := by rw [mul_z (x := m.biv32.p1.l1) (g 1), s1, Bool.bne_false]
  have m2 : m.biv32.p1.l2 * z false = z m.p1.l2.sign := by rw [mul_z (x := m.biv32.p1.l2) (g 2), s2, Bool.bne_false]
  have m3 : m.biv32.p1.l3 * z false = z m.p1.l3.sign := by rw [mul_z (x := m.biv32.p1.l3) (g 3), s3, Bool.bne_false]
  rw [h.biv]
  have z0 : (0 : F32) = z false := rfl
  have e1 : m.abSign .sse3 = (m.p1.l3.sign && m.p1.l2.sign && m.p1.l1.sign) := by
    show (m.p1.l1.sign && m.p1.l2.sign && m.p1.l3.sign) = _
    generalize m.p1.l1.sign = a
    generalize m.p1.l2.sign = b
    generalize m.p1.l3.sign = c
    revert a b c; decide
  have e2 : m.abSign .sse41 = false := rfl
  generalize m.biv32.p1 = A at *
  cases isa
  · rw [e1]
    generalize m.p1.l1.sign = a at *
    generalize m.p1.l2.sign = b at *
    generalize m.p1.l3.sign = c at *
    simp only [hi_dp_bc, sse, m1, m2, m3, z_add]
  · rw [e2]
    generalize m.p1.l1.sign = a at *
    generalize m.p1.l2.sign = b at *
    generalize m.p1.l3.sign = c at *
    simp only [hi_dp_bc, sse, m1, m2, m3, cond_true, cond_false]
    rw [z0, z_add, z_add, z_add, Bool.false_and, Bool.false_and]


theorem Motor.HalfTurn.log32 {hw : Hw F32} (hc : hw.Contract32) {lm : Libm F32} (hl : lm.Contract32) (isa : Isa)
    (h : m.HalfTurn) :
    m.log hw lm isa = (let n := explog_norm hw isa m.biv32.p1 m.biv32.p2
      let u := lm.atan2 (z true) (z (!m.abSign isa))
      let v := z true / (mul_ps n.1 n.2.2.1).l0
      ⟨mul_ps (set1_ps u) n.2.2.2.1, sub_ps (mul_ps (set1_ps u) n.2.2.2.2) (mul_ps (set1_ps v) n.2.2.2.1)⟩) := by
  have hf := h.base.flat
  have hR : Ap _ _ _ _ _ _ := hf.toScale.ap_s hc isa 0
  have hR0 : 0 < r (rsqrt_nr1 hw (hi_dp_bc isa m.biv32.p1 m.biv32.p1)).l0 := hR.val_pos (by norm_num)
  rw [h.base.small32_eq hl isa h.scalar]
  have e : -m.p2.l0 = z true := by rw [h.p2]; rfl
  have e2 : (mul_ps (hi_dp_bc isa m.biv32.p1 m.biv32.p2) (rsqrt_nr1 hw (hi_dp_bc isa m.biv32.p1 m.biv32.p1))).l0 * (-1) =
      z (!m.abSign isa) := by
    rw [h.ab isa]
    show z (m.abSign isa) * (rsqrt_nr1 hw (hi_dp_bc isa m.biv32.p1 m.biv32.p1)).l0 * (-1) = _
    rw [z_mul (x := (rsqrt_nr1 hw (hi_dp_bc isa m.biv32.p1 m.biv32.p1)).l0) hR.fin, sign_of_pos hR0, Bool.bne_false,
      z_mul (x := -1) (by decide +kernel)]
    have : (-1 : F32).sign = true := by decide +kernel
    rw [this, Bool.bne_true]
  simp only [explog_norm, e, e2]

/-- The quotient of a zero. -/
theorem z_div {y : F32} (s : Bool) (hy : y.isFinite = true) (h0 : r y ≠ 0) :
    (z s / y).isFinite = true ∧ r (z s / y) = 0 := by
  have hz : y.isZero = false := by
    by_contra hz
    have : r y = 0 := by
      have hz : y.isZero = true := by simpa using hz
      have hm0 : y.mag.val = 0 := by simpa [F32.isZero] using hz
      have hv := abs_val y
      rw [hm0, magVal_zero, abs_eq_zero] at hv
      rw [r, hv, Rat.cast_zero]
    exact h0 this
  have e := div_round (z_val s).1 hy hz
  rw [(z_val s).2, zero_div] at e
  rw [e, r, round_zero_val, Rat.cast_zero]
  refine ⟨?_, rfl⟩
  rw [F32.round, if_pos rfl]
  exact (z_val _).1

theorem Motor.HalfTurn.p2_zero {hw : Hw F32} (hc : hw.Contract32) {lm : Libm F32} (hl : lm.Contract32) (isa : Isa)
    (h : m.HalfTurn) (hu : (lm.atan2 (z true) (z (!m.abSign isa))).isFinite = true) (i : Fin 4) :
    ((m.log hw lm isa).p2.get i).isFinite = true ∧ r ((m.log hw lm isa).p2.get i) = 0 := by
  have hf := h.base.flat
  have hS := sq3_rng hf.p1 hf.norm
  have hA := ap_ang hc isa hf.p1 hf.norm 0
  have hs : ∀ j : Fin 4, _ := hf.toScale.ap_s hc isa
  have hq : ∀ j : Fin 4, _ := hf.toScale.ap_q hc isa
  have hb : ∀ j : Fin 4, _ := hf.ap_b
  rw [h.log32 hc hl isa]
  have hab := h.ab isa
  have hbv := h.biv
  simp only [explog_norm]
  generalize lm.atan2 (z true) (z (!m.abSign isa)) = w at *
  generalize rsqrt_nr1 hw (hi_dp_bc isa m.biv32.p1 m.biv32.p1) = R at *
  generalize rcp_nr1 hw (hi_dp_bc isa m.biv32.p1 m.biv32.p1) = Q at *
  rw [hab, hbv]
  have hz : ∀ s, r (z s) = 0 := fun s => by rw [r, (z_val s).2, Rat.cast_zero]
  have hv : (z true / (mul_ps (hi_dp_bc isa m.biv32.p1 m.biv32.p1) R).l0).isFinite = true ∧
      r (z true / (mul_ps (hi_dp_bc isa m.biv32.p1 m.biv32.p1) R).l0) = 0 :=
    z_div true hA.fin (hA.val_pos (by norm_num)).ne'
  generalize z true / (mul_ps (hi_dp_bc isa m.biv32.p1 m.biv32.p1) R).l0 = V at *
  have key : ∀ j : Fin 4, (w * (z false * R.get j - m.biv32.p1.get j * (z (m.abSign isa) * (R.get j * Q.get j))) -
      V * (m.biv32.p1.get j * R.get j)).isFinite = true ∧
      r (w * (z false * R.get j - m.biv32.p1.get j * (z (m.abSign isa) * (R.get j * Q.get j))) -
      V * (m.biv32.p1.get j * R.get j)) = 0 := by
    intro j
    have k1 := mul_zero_ok (z_val false).1 (hs j).fin (Or.inl (hz false))
    have k2 := ((hs j).mul (hq j) (by norm_num) (by norm_num) (by norm_num) (by norm_num) (show _ ≤ (1.32e-6 : ℝ) by ap_num)).fin
    have k3 := mul_zero_ok (z_val (m.abSign isa)).1 k2 (Or.inl (hz _))
    have k4 := mul_zero_ok (hb j).fin k3.1 (Or.inr k3.2)
    have k5 := sub_zero_ok k1.1 k4.1 k1.2 k4.2
    have k6 := mul_zero_ok hu k5.1 (Or.inr k5.2)
    have k7 := mul_zero_ok hv.1 (lane_real hS (hb j) (hs j)).fin (Or.inl hv.2)
    exact sub_zero_ok k6.1 k7.1 k6.2 k7.2
  exact match i with
    | 0 => key 0
    | 1 => key 1
    | 2 => key 2
    | 3 => key 3

section
variable {hw : Hw F32} (hc : hw.Contract32) {lm : Libm F32} (hl : lm.Contract32) (ha : lm.AnnexF) (isa : Isa)

include hc hl ha in
/-- C96: the logarithm of a half turn has angle `-π` instead of `π/2`. -/
theorem C96_half_turn_log (h : m.HalfTurn) (hs : m.abSign isa = false) (i : Fin 4) :
    ((m.log hw lm isa).p1.get i).isFinite = true ∧
      |r ((m.log hw lm isa).p1.get i) + Real.pi * (if i = 0 then 0 else r (m.p1.get i) / √m.p1.sq3)| ≤ 3.2e-6 := by
  have hf := h.base.flat
  have hS := sq3_rng hf.p1 hf.norm
  have hR : ∀ j : Fin 4, _ := hf.toScale.ap_s hc isa
  have hb : ∀ j : Fin 4, _ := hf.ap_b
  have hpi := Real.pi_lt_d2
  have hpi' := Real.pi_gt_three
  have hu : Ap (lm.atan2 (z true) (z (!m.abSign isa))) (-Real.pi) 3.15 2.4e-7 0 2 := by
    obtain ⟨h1, h2⟩ := ha.atan2_neg true (z (!m.abSign isa)) (z_val _).1 (by rw [hs]; rfl)
    rw [if_pos rfl] at h2
    refine ⟨h1, ?_, ?_, ⟨by norm_num, by norm_num⟩⟩
    · rw [abs_neg, abs_of_pos Real.pi_pos]; exact hpi.le
    · refine h2.trans ?_
      rw [abs_neg, abs_of_pos Real.pi_pos, max_eq_right (by norm_num; linarith)]
      norm_num at *; linarith
  have ev : ∀ j : Fin 4, r (m.biv32.p1.get j) = _ := fun j => (mask_lane (by norm_num) h.p1 j).2
  have es : m.biv32.p1.sq3 = m.p1.sq3 := mask_sq3 (by norm_num) h.p1
  rw [h.log32 hc hl isa]
  simp only [explog_norm]
  generalize rsqrt_nr1 hw (hi_dp_bc isa m.biv32.p1 m.biv32.p1) = R at *
  simp only [es] at hS hR hb
  have key : ∀ j : Fin 4, _ := fun j => hu.mulR (lane_real hS (hb j) (hR j)) (mul_one _)
    hu.rng (by norm_num) (by norm_num) (by norm_num) (by norm_num) (show _ ≤ (1e-6 : ℝ) by ap_num)
  have fin : ∀ {x : F32} {E E' : ℝ} {m' n : ℕ}, Ap x E 3.15 1e-6 m' n → E = -E' →
      x.isFinite = true ∧ |r x + E'| ≤ 3.2e-6 := by
    rintro x E E' m' n hx rfl
    have := hx.err
    rw [sub_neg_eq_add] at this
    exact ⟨hx.fin, this.trans (by norm_num)⟩
  exact match i with
    | 0 => fin (key 0) (by rw [ev]; simp)
    | 1 => fin (key 1) (by rw [ev, if_neg (by decide), if_neg (by decide)]; ring)
    | 2 => fin (key 2) (by rw [ev, if_neg (by decide), if_neg (by decide)]; ring)
    | 3 => fin (key 3) (by rw [ev, if_neg (by decide), if_neg (by decide)]; ring)

include hc hl ha in
/-- C96: with SSE3 and an axis with three negative lanes the logarithm of a half turn is zero. -/
theorem C96_half_turn_log_zero (h : m.HalfTurn) (hs : m.abSign isa = true) (i : Fin 4) :
    ((m.log hw lm isa).p1.get i).isFinite = true ∧ r ((m.log hw lm isa).p1.get i) = 0 := by
  have hf := h.base.flat
  have hS := sq3_rng hf.p1 hf.norm
  have hR : ∀ j : Fin 4, _ := hf.toScale.ap_s hc isa
  have hb : ∀ j : Fin 4, _ := hf.ap_b
  have hu : lm.atan2 (z true) (z (!m.abSign isa)) = z true := ha.atan2_pos true _ (z_val _).1 (by rw [hs]; rfl)
  rw [h.log32 hc hl isa]
  simp only [explog_norm, hu]
  generalize rsqrt_nr1 hw (hi_dp_bc isa m.biv32.p1 m.biv32.p1) = R at *
  have hz : ∀ s, r (z s) = 0 := fun s => by rw [r, (z_val s).2, Rat.cast_zero]
  have key : ∀ j : Fin 4, _ := fun j =>
    mul_zero_ok (z_val true).1 (lane_real hS (hb j) (hR j)).fin (Or.inl (hz true))
  exact match i with
    | 0 => key 0
    | 1 => key 1
    | 2 => key 2
    | 3 => key 3

include hc hl ha in
/-- C96: `exp(log(m))` of a half turn is `-1`, the identity motion. -/
theorem C96_half_turn_fails (h : m.HalfTurn) (hs : m.abSign isa = false) (i : Fin 4) :
    |r (((m.log hw lm isa).exp hw lm isa).p1.get i) - if i = 0 then -1 else 0| ≤ 1.2e-5 := by
  have hN : 0 < m.p1.sq3 := lt_of_lt_of_le (by positivity) h.norm
  have hq : 0 < √m.p1.sq3 := Real.sqrt_pos.2 hN
  have hq2 := Real.mul_self_sqrt hN.le
  have hpi := Real.pi_lt_d2
  have hpi' := Real.pi_gt_three
  obtain ⟨n, hn⟩ : ∃ n : Line ℝ, n = ⟨⟨0, -(Real.pi * (r m.p1.l1 / √m.p1.sq3)), -(Real.pi * (r m.p1.l2 / √m.p1.sq3)),
    -(Real.pi * (r m.p1.l3 / √m.p1.sq3))⟩, ⟨0, 0, 0, 0⟩⟩ := ⟨_, rfl⟩
  have d1 : dot3 n.p1 n.p1 = Real.pi ^ 2 := by
    rw [hn]
    simp only [dot3]
    have e : m.p1.sq3 = r m.p1.l1 ^ 2 + r m.p1.l2 ^ 2 + r m.p1.l3 ^ 2 := rfl
    generalize √m.p1.sq3 = S at *
    field_simp
    rw [sq S, hq2, e]
  have d2 : √(dot3 n.p1 n.p1) = Real.pi := by rw [d1, Real.sqrt_sq Real.pi_pos.le]
  have hu : (lm.atan2 (z true) (z (!m.abSign isa))).isFinite = true :=
    (ha.atan2_neg true _ (z_val _).1 (by rw [hs]; rfl)).1
  have hl1 := C96_half_turn_log hc hl ha isa h hs
  have hp2 := h.p2_zero hc hl isa hu
  have hz : r (m.log hw lm isa).p1.l0 = 0 := by
    have hf := h.base.flat
    have hS := sq3_rng hf.p1 hf.norm
    have hR := hf.toScale.ap_s hc isa 0
    have hz0 := mul_zero_ok (hf.ap_b 0).fin hR.fin (Or.inl hf.p1z)
    rw [h.log32 hc hl isa]
    simp only [explog_norm]
    exact (mul_zero_ok hu hz0.1 (Or.inr hz0.2)).2
  have hap : (m.log hw lm isa).Approx n 1 1.1e-6 0 := by
    refine ⟨by rw [hn]; exact ⟨rfl, rfl⟩, fun i => (hl1 i).1, fun i => (hp2 i).1, hz, (hp2 0).2, ?_, ?_, ?_, ?_, ?_,
      ⟨by norm_num, by norm_num⟩, by norm_num, by norm_num⟩
    · intro j hj
      rw [d2]
      have := (hl1 j).2
      rw [if_neg hj] at this
      have e : n.p1.get j = -(Real.pi * (r (m.p1.get j) / √m.p1.sq3)) := by
        rw [hn]
        fin_cases j
        · exact absurd rfl hj
        · rfl
        · rfl
        · rfl
      rw [e, sub_neg_eq_add]
      refine this.trans ?_
      norm_num at *; linarith
    · intro j hj
      have e : n.p2.get j = 0 := by rw [hn]; fin_cases j <;> rfl
      rw [(hp2 j).2, e]; simp
    · rw [d2]; norm_num; linarith
    · rw [d2]; norm_num at *; linarith
    · rw [hn]; simp [dot3]
  have hx := (hap.exp_p1 hc hl Hw.ideal_exact isa isa i).2
  obtain ⟨v1, v2, -, -⟩ := Line.exp_vec Hw.ideal_exact isa hap.wf (by rw [d1]; positivity)
  rw [V4.vec_norm, d2, Real.cos_pi] at v1
  rw [V4.vec_norm, d2, ExpLip.S, Real.sin_pi, zero_div, zero_smul] at v2
  have w1 := congrFun (congrArg (fun x : EuclideanSpace ℝ (Fin 3) => (x : Fin 3 → ℝ)) v2) 0
  have w2 := congrFun (congrArg (fun x : EuclideanSpace ℝ (Fin 3) => (x : Fin 3 → ℝ)) v2) 1
  have w3 := congrFun (congrArg (fun x : EuclideanSpace ℝ (Fin 3) => (x : Fin 3 → ℝ)) v2) 2
  simp [V4.vec] at w1 w2 w3
  have e : (n.exp Hw.ideal Libm.real isa).p1.get i = if i = 0 then -1 else 0 := by
    fin_cases i
    · exact v1
    · exact w1
    · exact w2
    · exact w3
  rw [e, d2] at hx
  refine hx.trans ?_
  norm_num at *; linarith

end

end

/-! ### Concrete cases -/

section Cases
variable {hw : Hw F32} (hc : hw.Contract32) {lm : Libm F32} (hl : lm.Contract32) (ha : lm.AnnexF)

private theorem r_one' : r 1 = 1 := by rw [r, one_val]; norm_num
private theorem r_two' : r 2 = 2 := by
  have : (2 : F32).val = 2 := by decide +kernel
  simp [r, this]
private theorem s9 : √(9 : ℝ) = 3 := by rw [show (9 : ℝ) = 3 ^ 2 by norm_num, Real.sqrt_sq (by norm_num)]

private theorem ht_x : Motor.HalfTurn ⟨⟨0, 1, 0, 0⟩, ⟨0, 0, 0, 0⟩⟩ where
  p1 := fun i => match i with
    | 0 => Le2.zero.mono (by norm_num)
    | 1 => Le2.one.mono (by norm_num)
    | 2 => Le2.zero.mono (by norm_num)
    | 3 => Le2.zero.mono (by norm_num)
  norm := by simp only [V4.sq3, r_one', r_zero]; norm_num
  scalar := by simp only [r_zero]; norm_num
  p2 := rfl

private theorem ht_neg : Motor.HalfTurn ⟨⟨0, -1, -2, -2⟩, ⟨0, 0, 0, 0⟩⟩ where
  p1 := fun i => match i with
    | 0 => Le2.zero.mono (by norm_num)
    | 1 => fun _ => by decide +kernel
    | 2 => fun _ => by decide +kernel
    | 3 => fun _ => by decide +kernel
  norm := by simp only [V4.sq3, r_neg, r_one', r_two']; norm_num
  scalar := by simp only [r_zero]; norm_num
  p2 := rfl

include hc hl ha in
/-- The half turn about the `x` axis, with either instruction set. -/
example (isa : Isa) : |r ((Motor.log hw lm isa ⟨⟨0, 1, 0, 0⟩, ⟨0, 0, 0, 0⟩⟩).p1.l1) + Real.pi| ≤ 3.2e-6 ∧
    |r (((Motor.log hw lm isa ⟨⟨0, 1, 0, 0⟩, ⟨0, 0, 0, 0⟩⟩).exp hw lm isa).p1.l0) - -1| ≤ 1.2e-5 := by
  have hs : Motor.abSign ⟨⟨0, 1, 0, 0⟩, ⟨0, 0, 0, 0⟩⟩ isa = false := by cases isa <;> decide +kernel
  have h1 := (C96_half_turn_log hc hl ha isa ht_x hs 1).2
  have h2 := C96_half_turn_fails hc hl ha isa ht_x hs 0
  have e : (V4.mk 0 1 0 0 : V4 F32).sq3 = 1 := by simp only [V4.sq3, r_one', r_zero]; norm_num
  simp only [V4.get, e, Real.sqrt_one, r_one', if_neg (show ¬ (1 : Fin 4) = 0 by decide), if_pos rfl, div_one, mul_one] at h1 h2
  exact ⟨h1, h2⟩

include hc hl ha in
/-- C96: builds for SSE3 and for SSE4.1 disagree on the logarithm of a half turn about `(-1, -2, -2)`, by more than 2 in
a lane. -/
theorem C96_isa_fails : 2 < |r ((Motor.log hw lm .sse41 ⟨⟨0, -1, -2, -2⟩, ⟨0, 0, 0, 0⟩⟩).p1.l2) -
    r ((Motor.log hw lm .sse3 ⟨⟨0, -1, -2, -2⟩, ⟨0, 0, 0, 0⟩⟩).p1.l2)| := by
  have h1 := (C96_half_turn_log hc hl ha .sse41 ht_neg rfl 2).2
  have h2 := (C96_half_turn_log_zero hc hl ha .sse3 ht_neg (by decide +kernel) 2).2
  have e : (V4.mk 0 (-1) (-2) (-2) : V4 F32).sq3 = 9 := by simp only [V4.sq3, r_neg, r_one', r_two']; norm_num
  simp only [V4.get, e, s9, r_neg, r_two', if_neg (show ¬ (2 : Fin 4) = 0 by decide)] at h1 h2
  rw [h2, sub_zero]
  have hpi := Real.pi_gt_d2
  have := abs_le.1 h1
  refine lt_of_lt_of_le ?_ (le_abs_self _)
  norm_num at *; linarith

include hc hl in
/-- A half turn with translation: the pseudoscalar is 2 and the angle `-π/2`. -/
example : |r ((Motor.log hw lm .sse3 ⟨⟨0, 1, 0, 0⟩, ⟨2, 0, 0, 0⟩⟩).p1.l1) + Real.pi / 2| ≤ 7e-6 := by
  have hd : Motor.LogSmall ⟨⟨0, 1, 0, 0⟩, ⟨2, 0, 0, 0⟩⟩ 1 := by
    refine ⟨⟨ht_x.p1, ht_x.norm, ?_, ?_, ⟨by norm_num, by norm_num⟩⟩, ht_x.scalar, ?_⟩
    · exact fun i => match i with
        | 0 => fun _ => by decide +kernel
        | 1 => Le2.zero.mono (by norm_num)
        | 2 => Le2.zero.mono (by norm_num)
        | 3 => Le2.zero.mono (by norm_num)
    · simp only [V4.sq3, r_zero]; norm_num
    · simp only [r_two']; norm_num
  have h := (C79_motor_log_small_p1 hc hl Hw.ideal_exact .sse3 .sse3 hd 1).2
  have e : (V4.mk 0 1 0 0 : V4 F32).sq3 = 1 := by simp only [V4.sq3, r_one', r_zero]; norm_num
  have eD : dot3 (Motor.biv32 ⟨⟨0, 1, 0, 0⟩, ⟨2, 0, 0, 0⟩⟩).real.p1 (Motor.biv32 ⟨⟨0, 1, 0, 0⟩, ⟨2, 0, 0, 0⟩⟩).real.p2 = 0 := by
    have a := hd.toLogBase.parts.2.2.2
    rw [← a]
    simp only [Motor.bivector, Motor.real, V4.real, dot3, r_zero]; norm_num
  rw [hd.log_real Hw.ideal_exact .sse3 rfl eD.symm] at h
  have ea : Complex.arg ⟨-((0 : ℝ) / √(V4.mk 0 1 0 0 : V4 F32).sq3), -r 2⟩ = -(Real.pi / 2) := by
    rw [e, Real.sqrt_one, r_two']
    have : (⟨-((0 : ℝ) / 1), -2⟩ : ℂ) = ((2 : ℝ) : ℂ) * (-Complex.I) := by apply Complex.ext <;> simp
    rw [this, Complex.arg_real_mul _ (by norm_num), Complex.arg_neg_I]
  simp only [V4.get, Line.scr, ea] at h
  rw [e, Real.sqrt_one, r_one', r_two'] at h
  have e2 : (-(Real.pi / 2) * (1 / 1) : ℝ) = -(Real.pi / 2) := by ring
  rw [e2, sub_neg_eq_add] at h
  refine h.trans ?_
  norm_num

end Cases

end Klein
