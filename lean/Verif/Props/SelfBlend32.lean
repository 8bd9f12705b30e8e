import Verif.Props.SlerpNear32
import Verif.Props.SlerpMotor32

/-!
# C100: interpolation between equal orientations in binary32

`exp(t * log(b * ~a)) * a` when `a` and `b` have the same rotor part.

* The product of rotors is arranged such that the bivector part of `a * ~a` cancels exactly, for every rotor.  The
  interpolation of a rotor with itself therefore consists of NaNs: always, not only for unlucky roundings.
* The product of motors is arranged differently.  The bivector part cancels exactly if the axis lies in a coordinate
  plane; then the logarithm takes its early exit and the translation is interpolated linearly and accurately.
* Otherwise a rounding error remains.  If its square underflows the result is NaN.
-/

set_option linter.unusedSimpArgs false

namespace Klein

open F32

/-! ### rounding is odd -/

theorem F32.round_val_neg (s t : Bool) (q : ℚ) : (round s (-q)).val = -(round t q).val := by
  by_cases h : q = 0
  · rw [h, neg_zero, round_zero_val, round_zero_val, neg_zero]
  · have e : round s (-q) = -(round t q) := by
      rw [round, round, if_neg h, if_neg (neg_ne_zero.2 h), abs_neg]
      have : decide (-q < 0) = !decide (q < 0) := by
        rcases lt_or_gt_of_ne h with h | h
        · simp [h, h.le]
        · simp [h, h.le, not_lt.2 h.le]
      rw [this]; rfl
    rw [e, val_neg]

theorem F32.round_val_sign (s t : Bool) (q : ℚ) : (round s q).val = (round t q).val := by
  have := round_val_neg s t (-q)
  rw [neg_neg] at this
  rw [this, round_val_neg t t q, neg_neg]

/-- A float of value zero is one of the two zeros. -/
theorem F32.eq_z {x : F32} (h : x.val = 0) : ∃ s, x = z s := by
  refine ⟨x.sign, F32.ext rfl (Fin.ext ?_)⟩
  have h1 : magVal x.mag.val = 0 := by
    rw [val] at h; split at h
    · exact neg_eq_zero.1 h
    · exact h
  by_contra h2
  have h3 : (0 : ℕ) < x.mag.val := Nat.pos_of_ne_zero h2
  have := magVal_strictMono h3
  have := magVal_nonneg 0
  linarith

theorem F32.eq_one {x : F32} (h : r x = 1) : x = 1 := by
  have hv : x.val = 1 := by rw [r] at h; exact_mod_cast h
  have hs := sign_of_pos (x := x) (by rw [h]; norm_num)
  rw [val, hs, if_neg (by decide)] at hv
  have h1 : magVal (1 : F32).mag.val = 1 := by decide +kernel
  refine F32.ext ?_ (Fin.ext (magVal_strictMono.injective (hv.trans h1.symm)))
  rw [hs]; decide +kernel

theorem F32.mul_val {x y : F32} (h : (x * y).isFinite = true) : (x * y).val = (round false (x.val * y.val)).val := by
  obtain ⟨h1, h2, -⟩ := mul_finite h
  rw [mul_round h1 h2]; exact round_val_sign _ _ _
theorem F32.add_val {x y : F32} (h : (x + y).isFinite = true) : (x + y).val = (round false (x.val + y.val)).val := by
  obtain ⟨h1, h2, -⟩ := add_finite h
  rw [add_round h1 h2]; exact round_val_sign _ _ _
theorem F32.sub_val {x y : F32} (h : (x - y).isFinite = true) : (x - y).val = (round false (x.val - y.val)).val := by
  obtain ⟨h1, h2, -⟩ := sub_finite h
  rw [sub_round h1 h2]; exact round_val_sign _ _ _

/-- The pattern of `gp11` for `a * ~a`. -/
theorem F32.gp11_cancel {w x y v : F32} (h : ((w * -x - y * -v) + (x * w + v * -y)).isFinite = true) :
    ((w * -x - y * -v) + (x * w + v * -y)).val = 0 := by
  obtain ⟨h1, h2, -⟩ := add_finite h
  obtain ⟨h3, h4, -⟩ := sub_finite h1
  obtain ⟨h5, h6, -⟩ := add_finite h2
  rw [add_val h, sub_val h1, add_val h2, mul_val h3, mul_val h4, mul_val h5, mul_val h6, val_neg, val_neg, val_neg,
    mul_neg, mul_neg, mul_neg, round_val_neg false false (w.val * x.val), round_val_neg false false (y.val * v.val),
    mul_comm x.val w.val, mul_comm v.val y.val, round_val_neg false false (y.val * v.val)]
  generalize (round false (w.val * x.val)).val = P
  generalize (round false (y.val * v.val)).val = Q
  rw [show -P - -Q = -(P + -Q) by ring, round_val_neg false false]
  rw [neg_add_cancel, round_zero_val]

/-- The pattern of `gpMM`, if one of the two products is zero. -/
theorem F32.gpMM_cancel {w x y v : F32} (h : (w * -x + (v * -y + x * w) - y * -v).isFinite = true)
    (h0 : x.val = 0 ∨ y.val = 0 ∨ v.val = 0) : (w * -x + (v * -y + x * w) - y * -v).val = 0 := by
  obtain ⟨h1, h2, -⟩ := sub_finite h
  obtain ⟨h3, h4, -⟩ := add_finite h1
  obtain ⟨h5, h6, -⟩ := add_finite h4
  rw [sub_val h, add_val h1, add_val h4, mul_val h2, mul_val h3, mul_val h5, mul_val h6, val_neg, val_neg, val_neg,
    mul_neg, mul_neg, mul_neg, round_val_neg false false (w.val * x.val), round_val_neg false false (y.val * v.val),
    mul_comm x.val w.val, mul_comm v.val y.val, round_val_neg false false (y.val * v.val)]
  have eP := round_val h6 false
  have eQ := round_val h5 false
  rw [mul_val h6, mul_comm x.val w.val] at eP
  rw [mul_val h5, val_neg, mul_neg, mul_comm v.val y.val, round_val_neg false false] at eQ
  have z : (w.val * x.val = 0) ∨ (y.val * v.val = 0) := by
    rcases h0 with h0 | h0 | h0 <;> simp [h0]
  rcases z with z | z
  · rw [z, round_zero_val, neg_zero, add_zero, zero_add, eQ, eQ, sub_self, round_zero_val]
  · rw [z, round_zero_val, neg_zero, sub_zero, zero_add, eP, neg_add_cancel, round_zero_val, round_zero_val]

/-! ### rotors -/

theorem V4.tail {P : F32 → Prop} {v : V4 F32} (h1 : P v.l1) (h2 : P v.l2) (h3 : P v.l3) (j : Fin 4) (hj : j ≠ 0) : P (v.get j) := by
  match j with
  | 0 => exact absurd rfl hj
  | 1 => exact h1
  | 2 => exact h2
  | 3 => exact h3

theorem Rotor.mul_rev_eq (a : Rotor F32) : (a.mulRotor a.rev).p1 =
    ⟨(a.mulRotor a.rev).p1.l0,
      (a.p1.l0 * -a.p1.l1 - a.p1.l2 * -a.p1.l3) + (a.p1.l1 * a.p1.l0 + a.p1.l3 * -a.p1.l2),
      (a.p1.l0 * -a.p1.l2 - a.p1.l3 * -a.p1.l1) + (a.p1.l2 * a.p1.l0 + a.p1.l1 * -a.p1.l3),
      (a.p1.l0 * -a.p1.l3 - a.p1.l1 * -a.p1.l2) + (a.p1.l3 * a.p1.l0 + a.p1.l2 * -a.p1.l1)⟩ := by
  simp only [kln, sse, cond_true, cond_false]

theorem Motor.mul_rev_eq (a : Motor F32) : (a.mulMotor a.rev).p1 =
    ⟨(a.mulMotor a.rev).p1.l0,
      a.p1.l0 * -a.p1.l1 + (a.p1.l3 * -a.p1.l2 + a.p1.l1 * a.p1.l0) - a.p1.l2 * -a.p1.l3,
      a.p1.l0 * -a.p1.l2 + (a.p1.l1 * -a.p1.l3 + a.p1.l2 * a.p1.l0) - a.p1.l3 * -a.p1.l1,
      a.p1.l0 * -a.p1.l3 + (a.p1.l2 * -a.p1.l1 + a.p1.l3 * a.p1.l0) - a.p1.l1 * -a.p1.l2⟩ := by
  simp only [kln, sse, cond_true, cond_false]

theorem V4.tail_zero {v : V4 F32} (h1 : v.l1.isFinite = true → v.l1.val = 0) (h2 : v.l2.isFinite = true → v.l2.val = 0)
    (h3 : v.l3.isFinite = true → v.l3.val = 0) (j : Fin 4) (hj : j ≠ 0) (hf : (v.get j).isFinite = true) :
    ∃ s, v.get j = z s := by
  match j with
  | 0 => exact absurd rfl hj
  | 1 => exact eq_z (h1 hf)
  | 2 => exact eq_z (h2 hf)
  | 3 => exact eq_z (h3 hf)

/-- C100: the bivector part of `a * ~a` is exactly zero, for every rotor (unless something overflows). -/
theorem C100_rotor_self (a : Rotor F32) (j : Fin 4) (hj : j ≠ 0) (hf : ((a.mulRotor a.rev).p1.get j).isFinite = true) :
    ∃ s, (a.mulRotor a.rev).p1.get j = z s := by
  have e := a.mul_rev_eq
  generalize (a.mulRotor a.rev).p1 = v at *
  refine V4.tail_zero ?_ ?_ ?_ j hj hf <;> rw [e] <;> exact gp11_cancel

/-- C100: the bivector part of `a * ~a` computed as a product of motors is exactly zero if one of the lanes of the axis is
zero. -/
theorem C100_motor_self {a b : Motor F32} (hab : b.p1 = a.p1)
    (h0 : a.p1.l1.val = 0 ∨ a.p1.l2.val = 0 ∨ a.p1.l3.val = 0) (j : Fin 4) (hj : j ≠ 0)
    (hf : ((b.mulMotor a.rev).p1.get j).isFinite = true) : ∃ s, (b.mulMotor a.rev).p1.get j = z s := by
  have e : (b.mulMotor a.rev).p1 = (a.mulMotor a.rev).p1 := by
    simp only [kln, hab]
  have e' := a.mul_rev_eq
  rw [e] at hf ⊢
  generalize (a.mulMotor a.rev).p1 = v at *
  refine V4.tail_zero ?_ ?_ ?_ j hj hf <;> rw [e'] <;> exact fun h => gpMM_cancel h (by tauto)

section
variable {hw : Hw F32} (hc : hw.Contract32) {lm : Libm F32} (hl : lm.Contract32) (isa : Isa)

include hc hl in
/-- C100: the interpolation of a rotor with itself is NaN throughout, whatever the rotor. -/
theorem C100_slerp_self_fails (h1 : AtOne hw lm) (hd : lm.AcosDomain) {a : Rotor F32} {A : Rotor ℝ} (hA : A.sqNorm = 1)
    {δ : ℝ} (hδ : δ ≤ 1 / 1000) (ha : a.Close A δ) {t : F32} (ht : t.isFinite = true) :
    (slerpRotor hw lm isa a a t).p1.AllNaN := by
  have hAr : A.rev.sqNorm = 1 := by rw [← hA]; simp only [Rotor.sqNorm, kln, sse, cond_true, cond_false]; ring
  have c := Rotor.Close.mul hA hAr ha ha.rev hδ hδ
  have e0 : (A.mulRotor A.rev).p1.l0 = 1 := by
    rw [← hA]; simp only [Rotor.sqNorm, kln, sse, cond_true, cond_false]; ring
  obtain ⟨f0, b0⟩ := c 0
  simp only [V4.get] at f0 b0
  rw [e0] at b0
  have b0' := abs_le.1 b0
  have hz : ∀ j : Fin 4, j ≠ 0 → ∃ s, (a.mulRotor a.rev).p1.get j = z s := fun j hj => C100_rotor_self a j hj (c j).1
  rcases lt_trichotomy (r (a.mulRotor a.rev).p1.l0) 1 with h | h | h
  · exact C97_slerp_zero_nan isa hc hl h1 f0 (by norm_num at b0' hδ ⊢; linarith [b0'.1]) h hz ht
  · exact C97_slerp_one_nan isa h1 (eq_one h) t
  · exact C97_slerp_nan hw isa hd f0 (h.trans_le (le_abs_self _)) t

end

/-! ### motors: the translation is interpolated linearly -/

section
variable {hw : Hw F32} {lm : Libm F32} (hl : lm.Contract32) {hwr : Hw ℝ} (isa isa' : Isa)

theorem V4.zero_mask {lm : Libm F32} (hl : lm.Contract32) {v : V4 F32} (h : ∀ i : Fin 4, ∃ s, v.get i = z s) :
    lm.cmpeq_all v setzero_ps = true := by
  have k : ∀ i : Fin 4, lm.feq (v.get i) 0 = true := fun i => by
    obtain ⟨s, e⟩ := h i
    rw [e]
    refine (hl.feq _ _ (z_val s).1 (by decide +kernel)).2 ?_
    rw [r, (z_val s).2, r_zero, Rat.cast_zero]
  simp only [Libm.cmpeq_all, setzero_ps, Bool.and_eq_true]
  exact ⟨⟨⟨k 0, k 1⟩, k 2⟩, k 3⟩

include hl in
/-- The logarithm of a motor without bivector part is its ideal part. -/
theorem Motor.log_zero {q : Motor F32} (hf : q.p1.l0.isFinite = true) (h : ∀ j : Fin 4, j ≠ 0 → ∃ s, q.p1.get j = z s) :
    q.log hw lm isa = ⟨⟨0, 0, 0, 0⟩, q.p2⟩ := by
  have hm : lm.cmpeq_all (mul_ps (set_ps 1 1 1 0) q.p1) setzero_ps = true := by
    refine V4.zero_mask hl fun i => ?_
    match i with
    | 0 => exact ⟨_, z_mul hf false⟩
    | 1 => obtain ⟨s, e⟩ := h 1 (by decide); exact ⟨_, by simp only [V4.get, mul_ps, set_ps] at e ⊢; rw [e]; exact mul_z (by decide +kernel) s⟩
    | 2 => obtain ⟨s, e⟩ := h 2 (by decide); exact ⟨_, by simp only [V4.get, mul_ps, set_ps] at e ⊢; rw [e]; exact mul_z (by decide +kernel) s⟩
    | 3 => obtain ⟨s, e⟩ := h 3 (by decide); exact ⟨_, by simp only [V4.get, mul_ps, set_ps] at e ⊢; rw [e]; exact mul_z (by decide +kernel) s⟩
  simp only [Motor.log, log_kernel, hm, cond_true]
  rfl

include hl in
/-- The exponential of an ideal line. -/
theorem Line.exp_zero {l : Line F32} (h : ∀ i : Fin 4, ∃ s, l.p1.get i = z s) : l.exp hw lm isa = ⟨⟨1, 0, 0, 0⟩, l.p2⟩ := by
  simp only [Line.exp, exp_kernel, V4.zero_mask hl h, cond_true]
  rfl

/-- The exact interpolation between motors of the same orientation. -/
theorem slerp_same {A B : Motor ℝ} (hAB : B.p1 = A.p1) (t : ℝ) :
    slerp hwr Libm.real isa' A B t =
      Motor.mulMotor ⟨⟨1, 0, 0, 0⟩, mul_ps (B.mulMotor A.rev).p2 (set1_ps t)⟩ A := by
  have e1 : (B.mulMotor A.rev).p1.l1 = 0 := by simp only [kln, sse, hAB, cond_true, cond_false]; ring
  have e2 : (B.mulMotor A.rev).p1.l2 = 0 := by simp only [kln, sse, hAB, cond_true, cond_false]; ring
  have e3 : (B.mulMotor A.rev).p1.l3 = 0 := by simp only [kln, sse, hAB, cond_true, cond_false]; ring
  have eL : (B.mulMotor A.rev).log hwr Libm.real isa' = ⟨⟨0, 0, 0, 0⟩, (B.mulMotor A.rev).p2⟩ := by
    have hm : Libm.real.cmpeq_all (mul_ps (set_ps 1 1 1 0) (B.mulMotor A.rev).p1) setzero_ps = true := by
      simp [Libm.cmpeq_all, setzero_ps, mul_ps, set_ps, Libm.real, e1, e2, e3]
    simp only [Motor.log, log_kernel, hm, cond_true]
    rfl
  have eR : slerp hwr Libm.real isa' A B t =
      ((((B.mulMotor A.rev).log hwr Libm.real isa').mulAssign t).exp hwr Libm.real isa').mulMotor A := rfl
  rw [eR, eL]
  congr 1
  have hm : Libm.real.cmpeq_all (mul_ps ⟨0, 0, 0, 0⟩ (set1_ps t)) setzero_ps = true := by
    simp [Libm.cmpeq_all, setzero_ps, mul_ps, set1_ps, Libm.real]
  simp only [Line.exp, exp_kernel, Line.mulAssign, hm, cond_true]
  rfl

include hl in
/-- C100: interpolation between motors of the same orientation, if the bivector part of `b * ~a` cancels. -/
theorem C100_slerp_same {a b : Motor F32} {A B : Motor ℝ} {C δ : ℝ} (hA : A.UnitBy C) (hB : B.UnitBy C) (hC1 : 1 ≤ C)
    (hC2 : C ≤ 2 ^ 17) (hAB : B.p1 = A.p1) (hδ : δ ≤ 1 / 2 ^ 21)
    (ha : a.Close A δ (δ * C)) (hb : b.Close B δ (δ * C)) {t : F32} (ht : t.isFinite = true) (ht1 : |r t| ≤ 1)
    (hz : ∀ j : Fin 4, j ≠ 0 → ∃ s, (b.mulMotor a.rev).p1.get j = z s) :
    (slerp hw lm isa a b t).Close (slerp hwr Libm.real isa' A B (r t))
      (8.4e-7 + 2 * δ) (C * (4.4e-6 + |r t| * (4.8e-6 + 20.3 * δ) + 2 * δ)) := by
  have hδ0 : 0 ≤ δ := (abs_nonneg _).trans (ha.1 0).2
  have d1 : δ ≤ 1 / 1000 := hδ.trans (by norm_num)
  have dC : δ * C ≤ 1 / 1000 * C := mul_le_mul_of_nonneg_right d1 (by linarith)
  have c1 := Motor.Close.mul (M := C) hB hA.rev hb ha.rev d1 d1 ⟨le_trans (by norm_num) hC1, hC2.trans (by norm_num)⟩
    (by norm_num at dC ⊢; linarith) (by norm_num at dC ⊢; linarith)
  have hU := hB.mul hA.rev
  have dC' : δ * C ≤ 1 / 2 ^ 21 * C := mul_le_mul_of_nonneg_right hδ (by linarith)
  have dC0 : 0 ≤ δ * C := by positivity
  have ddC : δ * (δ * C) ≤ 1 / 1000 * (δ * C) := mul_le_mul_of_nonneg_right d1 dC0
  have T0 : 0 ≤ |r t| := abs_nonneg _
  have eF : slerp hw lm isa a b t =
      ((((b.mulMotor a.rev).log hw lm isa).mulAssign t).exp hw lm isa).mulMotor a := rfl
  rw [slerp_same isa' hAB, eF, Motor.log_zero hl isa (c1.1 0).1 hz, Line.exp_zero hl isa (fun i => by
    match i with
    | 0 => exact ⟨_, z_mul ht false⟩
    | 1 => exact ⟨_, z_mul ht false⟩
    | 2 => exact ⟨_, z_mul ht false⟩
    | 3 => exact ⟨_, z_mul ht false⟩)]
  have hq : ∀ i : Fin 4, ((b.mulMotor a.rev).p2.get i).isFinite = true ∧
      |r ((b.mulMotor a.rev).p2.get i) - (B.mulMotor A.rev).p2.get i| ≤ (2.1e-6 + 8.02 * δ) * C := fun i =>
    ⟨(c1.2 i).1, (c1.2 i).2.trans (by norm_num at ddC ⊢; nlinarith)⟩
  clear hz c1
  have hW : ∀ i : Fin 4, |(B.mulMotor A.rev).p2.get i| ≤ C + C := fun i => (V4.vec4_lane _ i).trans hU.p2
  have hS : Motor.UnitBy (⟨⟨1, 0, 0, 0⟩, mul_ps (B.mulMotor A.rev).p2 (set1_ps (r t))⟩ : Motor ℝ) (|r t| * (C + C)) := by
    refine ⟨?_, ?_⟩
    · refine (pow_left_inj₀ (norm_nonneg _) (by norm_num) (n := 2) (by norm_num)).1 ?_
      rw [V4.vec4_sq]; norm_num [dot4]
    · refine abs_le_of_sq_le_sq' ?_ (by positivity) |>.2
      have h2 := pow_le_pow_left₀ (norm_nonneg _) hU.p2 2
      rw [V4.vec4_sq] at h2 ⊢
      rw [mul_pow, sq_abs]
      have h3 := mul_le_mul_of_nonneg_left h2 (sq_nonneg (r t))
      refine le_trans (le_of_eq ?_) h3
      simp only [dot4, mul_ps, set1_ps]; ring
  generalize b.mulMotor a.rev = q at *
  generalize B.mulMotor A.rev = Q at *
  have hm : ∀ i : Fin 4, (q.p2.get i * t).isFinite = true ∧
      |r (q.p2.get i * t) - Q.p2.get i * r t| ≤ |r t| * ((2.3e-6 + 8.05 * δ) * C) + 1e-9 * C := fun i => by
    obtain ⟨f, e⟩ := hq i
    have h1 : |r (q.p2.get i)| ≤ 2.001 * C := by
      have := abs_sub_abs_le_abs_sub (r (q.p2.get i)) (Q.p2.get i)
      have := hW i
      norm_num at *; linarith
    have h2 : |r (q.p2.get i) * r t| ≤ |r t| * (2.001 * C) := by
      rw [abs_mul, mul_comm]; exact mul_le_mul_of_nonneg_left h1 T0
    have tC : |r t| * (2.001 * C) ≤ 2.001 * C := mul_le_of_le_one_left (by linarith) ht1
    obtain ⟨m1, m2⟩ := mul_ok f ht (h2.trans (tC.trans (by norm_num at hC2 ⊢; linarith)))
    refine ⟨m1, ?_⟩
    have h3 : max (1 / 2 ^ 126) |r (q.p2.get i) * r t| ≤ 1 / 2 ^ 126 + |r t| * (2.001 * C) :=
      max_le (by linarith [mul_nonneg T0 (show (0 : ℝ) ≤ 2.001 * C by linarith)]) (by linarith [show (0 : ℝ) ≤ 1 / 2 ^ 126 by positivity])
    have h4 := m2.trans (mul_le_mul_of_nonneg_left h3 u_pos.le)
    have h5 : |r (q.p2.get i) * r t - Q.p2.get i * r t| ≤ |r t| * ((2.1e-6 + 8.02 * δ) * C) := by
      rw [← sub_mul, abs_mul, mul_comm]; exact mul_le_mul_of_nonneg_left e T0
    refine (abs_sub_le _ _ _).trans ((add_le_add h4 h5).trans ?_)
    have tC0 : 0 ≤ |r t| * C := by positivity
    have tdC0 : 0 ≤ |r t| * (δ * C) := by positivity
    rw [u]
    have : (1 : ℝ) / 2 ^ 24 * (1 / 2 ^ 126) ≤ 1e-9 := by norm_num
    nlinarith
  have c2 : Motor.Close (⟨⟨1, 0, 0, 0⟩, mul_ps q.p2 (set1_ps t)⟩ : Motor F32)
      ⟨⟨1, 0, 0, 0⟩, mul_ps Q.p2 (set1_ps (r t))⟩ 0 (|r t| * ((2.3e-6 + 8.05 * δ) * C) + 1e-9 * C) := by
    refine ⟨fun i => ?_, fun i => ?_⟩
    · match i with
      | 0 => exact ⟨show (1 : F32).isFinite = true by decide +kernel, by simp only [V4.get, r, one_val]; norm_num⟩
      | 1 => exact ⟨show (0 : F32).isFinite = true by decide +kernel, by simp only [V4.get, r_zero]; norm_num⟩
      | 2 => exact ⟨show (0 : F32).isFinite = true by decide +kernel, by simp only [V4.get, r_zero]; norm_num⟩
      | 3 => exact ⟨show (0 : F32).isFinite = true by decide +kernel, by simp only [V4.get, r_zero]; norm_num⟩
    · match i with
      | 0 => exact hm 0
      | 1 => exact hm 1
      | 2 => exact hm 2
      | 3 => exact hm 3
  have tC : |r t| * C ≤ C := mul_le_of_le_one_left (by linarith) ht1
  have tC0 : 0 ≤ |r t| * C := by positivity
  have tdC : |r t| * (δ * C) ≤ δ * C := mul_le_of_le_one_left dC0 ht1
  have tdC0 : 0 ≤ |r t| * (δ * C) := by positivity
  have c3 := Motor.Close.mul (M := 2.01 * C) hS hA c2 ha (by norm_num) d1
    ⟨le_trans (by norm_num) (mul_le_mul_of_nonneg_left hC1 (by norm_num : (0 : ℝ) ≤ 2.01)), by norm_num at hC2 ⊢; linarith⟩
    (by norm_num at dC' ⊢; nlinarith) (by norm_num at dC ⊢; linarith)
  refine ⟨fun i => ⟨(c3.1 i).1, (c3.1 i).2.trans ?_⟩, fun i => ⟨(c3.2 i).1, (c3.2 i).2.trans ?_⟩⟩
  · norm_num
  · norm_num
    ring_nf at tdC tdC0 dC0 ⊢
    nlinarith

/-- The exact interpolation between normalised motors of the same orientation is linear. -/
theorem C100_slerp_linear {A B : Motor ℝ} (nA : A.Normed) (hAB : B.p1 = A.p1) (t : ℝ) :
    slerp hwr Libm.real isa' A B t =
      ⟨A.p1, ⟨A.p2.l0 + t * (B.p2.l0 - A.p2.l0), A.p2.l1 + t * (B.p2.l1 - A.p2.l1),
        A.p2.l2 + t * (B.p2.l2 - A.p2.l2), A.p2.l3 + t * (B.p2.l3 - A.p2.l3)⟩⟩ := by
  have hN : dot4 A.p1 A.p1 = 1 := by
    have := congrArg PGA.MV.s nA
    simp only [pga, kln] at this
    simp only [dot4]; linear_combination this
  have hP : A.p1.l0 * A.p2.l0 - (A.p1.l1 * A.p2.l1 + A.p1.l2 * A.p2.l2 + A.p1.l3 * A.p2.l3) = 0 := by
    have := congrArg PGA.MV.e0123 nA
    simp only [pga, kln] at this
    linear_combination this / 2
  rw [slerp_same isa' hAB]
  obtain ⟨p, q⟩ := A
  obtain ⟨p', q'⟩ := B
  simp only at hAB hN hP
  subst hAB
  simp only [dot4] at hN
  have e : ∀ {m n : Motor ℝ}, m.p1.l0 = n.p1.l0 → m.p1.l1 = n.p1.l1 → m.p1.l2 = n.p1.l2 → m.p1.l3 = n.p1.l3 →
      m.p2.l0 = n.p2.l0 → m.p2.l1 = n.p2.l1 → m.p2.l2 = n.p2.l2 → m.p2.l3 = n.p2.l3 → m = n := by
    rintro ⟨⟨_, _, _, _⟩, ⟨_, _, _, _⟩⟩ ⟨⟨_, _, _, _⟩, ⟨_, _, _, _⟩⟩ h1 h2 h3 h4 h5 h6 h7 h8
    simp only at h1 h2 h3 h4 h5 h6 h7 h8
    rw [h1, h2, h3, h4, h5, h6, h7, h8]
  apply e <;> simp only [kln, sse, cond_true, cond_false]
  · ring
  · ring
  · ring
  · ring
  · linear_combination (t * (q'.l0 - q.l0)) * hN + 2 * t * p'.l0 * hP
  · linear_combination (t * (q'.l1 - q.l1)) * hN - 2 * t * p'.l1 * hP
  · linear_combination (t * (q'.l2 - q.l2)) * hN - 2 * t * p'.l2 * hP
  · linear_combination (t * (q'.l3 - q.l3)) * hN - 2 * t * p'.l3 * hP

include hl in
/-- C100: motors with the same rotor part, rotating about an axis in a coordinate plane, or not at all: the translation
is interpolated linearly. -/
theorem C100_slerp_axis {a b : Motor F32} {A B : Motor ℝ} {C δ : ℝ} (nA : A.Normed) (nB : B.Normed)
    (hA : ‖A.p2.vec4‖ ≤ C) (hB : ‖B.p2.vec4‖ ≤ C) (hC1 : 1 ≤ C)
    (hC2 : C ≤ 2 ^ 17) (hAB : B.p1 = A.p1) (hδ : δ ≤ 1 / 2 ^ 21)
    (ha : a.Close A δ (δ * C)) (hb : b.Close B δ (δ * C)) {t : F32} (ht : t.isFinite = true) (ht1 : |r t| ≤ 1)
    (hab : b.p1 = a.p1) (h0 : a.p1.l1.val = 0 ∨ a.p1.l2.val = 0 ∨ a.p1.l3.val = 0) :
    (slerp hw lm isa a b t).Close
      ⟨A.p1, ⟨A.p2.l0 + r t * (B.p2.l0 - A.p2.l0), A.p2.l1 + r t * (B.p2.l1 - A.p2.l1),
        A.p2.l2 + r t * (B.p2.l2 - A.p2.l2), A.p2.l3 + r t * (B.p2.l3 - A.p2.l3)⟩⟩
      (8.4e-7 + 2 * δ) (C * (4.4e-6 + |r t| * (4.8e-6 + 20.3 * δ) + 2 * δ)) := by
  have d1 : δ ≤ 1 / 1000 := hδ.trans (by norm_num)
  have dC : δ * C ≤ 1 / 1000 * C := mul_le_mul_of_nonneg_right d1 (by linarith)
  have uA := nA.unitBy hA
  have uB := nB.unitBy hB
  have c1 := Motor.Close.mul (M := C) uB uA.rev hb ha.rev d1 d1 ⟨le_trans (by norm_num) hC1, hC2.trans (by norm_num)⟩
    (by norm_num at dC ⊢; linarith) (by norm_num at dC ⊢; linarith)
  rw [← C100_slerp_linear (hwr := Hw.ideal) isa nA hAB]
  exact C100_slerp_same hl isa isa uA uB hC1 hC2 hAB hδ ha hb ht ht1
    fun j hj => C100_motor_self hab h0 j hj (c1.1 j).1

end

/-! ### motors: a remainder whose square underflows -/

section
variable {hw : Hw F32} {lm : Libm F32} (isa : Isa)

/-- If the bivector part is not zero but its square is, the logarithm is NaN throughout. -/
theorem Motor.log_tiny_nan (h0 : hw.rsqrt 0 = F32.inf false) {q : Motor F32}
    (hm : lm.cmpeq_all (mul_ps (set_ps 1 1 1 0) q.p1) setzero_ps = false)
    (h2 : hi_dp_bc isa (mul_ps (set_ps 1 1 1 0) q.p1) (mul_ps (set_ps 1 1 1 0) q.p1) = ⟨0, 0, 0, 0⟩) :
    (q.log hw lm isa).p1.AllNaN ∧ (q.log hw lm isa).p2.AllNaN := by
  have n := rsqrt_nr1_zero h0
  simp only [Motor.log, log_kernel, hm, cond_false, log_general, explog_norm, h2]
  generalize rsqrt_nr1 hw ⟨0, 0, 0, 0⟩ = v at *
  refine ⟨fun i => ?_, fun i => ?_⟩
  · match i with
    | 0 => exact F32.mul_nan (Or.inr (F32.mul_nan (Or.inr (n 0))))
    | 1 => exact F32.mul_nan (Or.inr (F32.mul_nan (Or.inr (n 1))))
    | 2 => exact F32.mul_nan (Or.inr (F32.mul_nan (Or.inr (n 2))))
    | 3 => exact F32.mul_nan (Or.inr (F32.mul_nan (Or.inr (n 3))))
  · match i with
    | 0 => exact sub_nan (Or.inr (F32.mul_nan (Or.inr (F32.mul_nan (Or.inr (n 0))))))
    | 1 => exact sub_nan (Or.inr (F32.mul_nan (Or.inr (F32.mul_nan (Or.inr (n 1))))))
    | 2 => exact sub_nan (Or.inr (F32.mul_nan (Or.inr (F32.mul_nan (Or.inr (n 2))))))
    | 3 => exact sub_nan (Or.inr (F32.mul_nan (Or.inr (F32.mul_nan (Or.inr (n 3))))))

theorem Line.exp_nan (hn : ∀ x y : F32, x.isNaN = true → lm.feq x y = false) {l : Line F32} (h : l.p1.AllNaN) :
    (l.exp hw lm isa).p1.AllNaN ∧ (l.exp hw lm isa).p2.AllNaN := by
  have hm : lm.cmpeq_all l.p1 setzero_ps = false := by
    simp only [Libm.cmpeq_all, hn _ _ (h 0), Bool.false_and, V4.get]
    rw [show l.p1.l0 = l.p1.get 0 from rfl, hn _ _ (h 0)]; rfl
  simp only [Line.exp, exp_kernel, hm, cond_false, exp_general, explog_norm]
  refine ⟨fun i => ?_, fun i => ?_⟩
  · match i with
    | 0 => exact add_nan (Or.inr (F32.mul_nan (Or.inr (F32.mul_nan (Or.inl (h 0))))))
    | 1 => exact add_nan (Or.inr (F32.mul_nan (Or.inr (F32.mul_nan (Or.inl (h 1))))))
    | 2 => exact add_nan (Or.inr (F32.mul_nan (Or.inr (F32.mul_nan (Or.inl (h 2))))))
    | 3 => exact add_nan (Or.inr (F32.mul_nan (Or.inr (F32.mul_nan (Or.inl (h 3))))))
  · match i with
    | 0 => exact add_nan (Or.inr (add_nan (Or.inr (F32.mul_nan (Or.inr (F32.mul_nan (Or.inl (h 0))))))))
    | 1 => exact add_nan (Or.inr (add_nan (Or.inr (F32.mul_nan (Or.inr (F32.mul_nan (Or.inl (h 1))))))))
    | 2 => exact add_nan (Or.inr (add_nan (Or.inr (F32.mul_nan (Or.inr (F32.mul_nan (Or.inl (h 2))))))))
    | 3 => exact add_nan (Or.inr (add_nan (Or.inr (F32.mul_nan (Or.inr (F32.mul_nan (Or.inl (h 3))))))))

theorem Motor.mul_nan {x y : Motor F32} (h : x.p1.AllNaN) : (x.mulMotor y).p1.AllNaN ∧ (x.mulMotor y).p2.AllNaN := by
  refine ⟨fun i => ?_, fun i => ?_⟩
  · match i with
    | 0 => exact sub_nan (Or.inl (add_nan (Or.inl (F32.mul_nan (Or.inl (h 0))))))
    | 1 => exact sub_nan (Or.inl (add_nan (Or.inl (F32.mul_nan (Or.inl (h 0))))))
    | 2 => exact sub_nan (Or.inl (add_nan (Or.inl (F32.mul_nan (Or.inl (h 0))))))
    | 3 => exact sub_nan (Or.inl (add_nan (Or.inl (F32.mul_nan (Or.inl (h 0))))))
  · match i with
    | 0 => exact sub_nan (Or.inl (add_nan (Or.inl (add_nan (Or.inl (add_nan (Or.inl (F32.mul_nan (Or.inl (h 0))))))))))
    | 1 => exact sub_nan (Or.inl (add_nan (Or.inl (add_nan (Or.inl (add_nan (Or.inl (F32.mul_nan (Or.inl (h 0))))))))))
    | 2 => exact sub_nan (Or.inl (add_nan (Or.inl (add_nan (Or.inl (add_nan (Or.inl (F32.mul_nan (Or.inl (h 0))))))))))
    | 3 => exact sub_nan (Or.inl (add_nan (Or.inl (add_nan (Or.inl (add_nan (Or.inl (F32.mul_nan (Or.inl (h 0))))))))))

/-- C100: if the bivector part of `b * ~a` is not zero but its square underflows, nothing is left of the interpolation. -/
theorem C100_slerp_tiny_nan (h0 : hw.rsqrt 0 = F32.inf false) (hn : ∀ x y : F32, x.isNaN = true → lm.feq x y = false)
    {a b : Motor F32} (hm : lm.cmpeq_all (mul_ps (set_ps 1 1 1 0) (b.mulMotor a.rev).p1) setzero_ps = false)
    (h2 : hi_dp_bc isa (mul_ps (set_ps 1 1 1 0) (b.mulMotor a.rev).p1) (mul_ps (set_ps 1 1 1 0) (b.mulMotor a.rev).p1) =
      ⟨0, 0, 0, 0⟩) (t : F32) :
    (slerp hw lm isa a b t).p1.AllNaN ∧ (slerp hw lm isa a b t).p2.AllNaN := by
  refine Motor.mul_nan (Line.exp_nan isa hn fun i => ?_).1
  have n := (Motor.log_tiny_nan isa h0 hm h2).1
  match i with
  | 0 => exact F32.mul_nan (Or.inl (n 0))
  | 1 => exact F32.mul_nan (Or.inl (n 1))
  | 2 => exact F32.mul_nan (Or.inl (n 2))
  | 3 => exact F32.mul_nan (Or.inl (n 3))

end

/-- A rotation about the vertical axis with a translation, `(4 + 3 e31) / 5 + 5 e01`. -/
noncomputable def wobA : Motor ℝ := ⟨⟨4 / 5, 0, 3 / 5, 0⟩, ⟨0, 5, 0, 0⟩⟩
/-- The same, rounded, with two lanes not quite zero. -/
def woba : Motor F32 := ⟨⟨F32.round false (4 / 5), F32.round false (1 / 2 ^ 40), F32.round false (3 / 5), F32.round false (1 / 2 ^ 40)⟩,
  ⟨0, F32.round false 5, 0, 0⟩⟩

/-- C100: a motor whose interpolation with itself is NaN throughout. -/
theorem C100_slerp_motor_self_fails : ∃ (A : Motor ℝ) (a : Motor F32), A.Normed ∧ a.Close A (1 / 2 ^ 25) 0 ∧
    ∀ (hw : Hw F32) (lm : Libm F32) (isa : Isa) (t : F32), lm.Contract32 → hw.rsqrt 0 = F32.inf false →
      (∀ x y : F32, x.isNaN = true → lm.feq x y = false) →
      (slerp hw lm isa a a t).p1.AllNaN ∧ (slerp hw lm isa a a t).p2.AllNaN := by
  refine ⟨wobA, woba, ?_, ?_, fun hw lm isa t hl h0 hn => ?_⟩
  · simp only [Motor.Normed, wobA]; apply PGA.MV.ext <;> norm_num [pga, kln, sse]
  · have hp : |woba.p1.l0.val - 4 / 5| ≤ 1 / 2 ^ 25 ∧ |woba.p1.l1.val| ≤ 1 / 2 ^ 25 ∧
      |woba.p1.l2.val - 3 / 5| ≤ 1 / 2 ^ 25 ∧ |woba.p1.l3.val| ≤ 1 / 2 ^ 25 ∧ woba.p2.l0.val = 0 ∧
      woba.p2.l1.val = 5 ∧ woba.p2.l2.val = 0 ∧ woba.p2.l3.val = 0 ∧ (∀ i, (woba.p1.get i).isFinite = true) ∧
      (∀ i, (woba.p2.get i).isFinite = true) := by decide +kernel
    obtain ⟨g0, g1, g2, g3, k0, k1, k2, k3, gf, kf⟩ := hp
    have cst : ∀ {x y : ℚ}, x ≤ y → (x : ℝ) ≤ (y : ℝ) := fun h => Rat.cast_le.2 h
    have g0' := cst g0
    have g1' := cst g1
    have g2' := cst g2
    have g3' := cst g3
    push_cast at g0' g1' g2' g3'
    refine ⟨fun i => ⟨gf i, ?_⟩, fun i => ⟨kf i, ?_⟩⟩
    · match i with
      | 0 => exact g0'
      | 1 => simp only [V4.get, wobA, sub_zero]; exact g1'
      | 2 => exact g2'
      | 3 => simp only [V4.get, wobA, sub_zero]; exact g3'
    · match i with
      | 0 => simp only [V4.get, r, k0, wobA]; norm_num
      | 1 => simp only [V4.get, r, k1, wobA]; norm_num
      | 2 => simp only [V4.get, r, k2, wobA]; norm_num
      | 3 => simp only [V4.get, r, k3, wobA]; norm_num
  · refine C100_slerp_tiny_nan isa h0 hn ?_ (by cases isa <;> decide +kernel) t
    have hq : (mul_ps (set_ps 1 1 1 0) (woba.mulMotor woba.rev).p1).l2.isFinite = true ∧
      (mul_ps (set_ps 1 1 1 0) (woba.mulMotor woba.rev).p1).l2.val ≠ 0 := by decide +kernel
    have : lm.feq (mul_ps (set_ps 1 1 1 0) (woba.mulMotor woba.rev).p1).l2 0 = false := by
      rw [Bool.eq_false_iff]
      intro h
      have h := (hl.feq _ _ hq.1 (by decide +kernel)).1 h
      rw [r_zero, r, Rat.cast_eq_zero] at h
      exact hq.2 h
    simp only [Libm.cmpeq_all, setzero_ps, this, Bool.and_false, Bool.false_and]

/-! ### concrete cases -/

/-- The assumptions on the hardware and the library can be met together. -/
theorem C100_contract_inhabited : ∃ (hw : Hw F32) (lm : Libm F32), hw.Contract32 ∧ lm.Contract32 ∧ lm.AcosDomain ∧ AtOne hw lm ∧
    ∀ x y : F32, x.isNaN = true → lm.feq x y = false := by
  obtain ⟨hw, lm, hc, hl, hd, h1⟩ := C97_atOne_inhabited
  refine ⟨hw, { lm with feq := F32.feq }, hc, ⟨hl.sqrt, hl.sin, hl.cos, hl.acos, hl.atan2, fun x y hx hy => ?_, hl.lt6⟩, hd,
    ⟨h1.acos, h1.sin, h1.rcp, h1.rsqrt⟩, fun x y hx => feq_nan_left y hx⟩
  exact (feq_iff hx hy).trans (by simp only [r, Rat.cast_inj])

/-- A motor with the orientation of `wobA` and another translation. -/
noncomputable def wobB : Motor ℝ := ⟨⟨4 / 5, 0, 3 / 5, 0⟩, ⟨0, 0, 0, 10⟩⟩
/-- `wobA` rounded. -/
def samea : Motor F32 := ⟨⟨F32.round false (4 / 5), 0, F32.round false (3 / 5), 0⟩, ⟨0, F32.round false 5, 0, 0⟩⟩
/-- `wobB` rounded. -/
def sameb : Motor F32 := ⟨⟨F32.round false (4 / 5), 0, F32.round false (3 / 5), 0⟩, ⟨0, 0, 0, F32.round false 10⟩⟩

theorem same_close : samea.Close wobA (1 / 2 ^ 25) (1 / 2 ^ 25 * 10) ∧ sameb.Close wobB (1 / 2 ^ 25) (1 / 2 ^ 25 * 10) := by
  have hp : (|samea.p1.l0.val - 4 / 5| ≤ 1 / 2 ^ 25 ∧ samea.p1.l1.val = 0 ∧ |samea.p1.l2.val - 3 / 5| ≤ 1 / 2 ^ 25 ∧
    samea.p1.l3.val = 0 ∧ (∀ i, (samea.p1.get i).isFinite = true)) ∧
    (samea.p2.l0.val = 0 ∧ samea.p2.l1.val = 5 ∧ samea.p2.l2.val = 0 ∧ samea.p2.l3.val = 0 ∧ (∀ i, (samea.p2.get i).isFinite = true)) ∧
    (sameb.p2.l0.val = 0 ∧ sameb.p2.l1.val = 0 ∧ sameb.p2.l2.val = 0 ∧ sameb.p2.l3.val = 10 ∧ (∀ i, (sameb.p2.get i).isFinite = true)) := by
    decide +kernel
  obtain ⟨⟨g0, g1, g2, g3, gf⟩, ⟨k0, k1, k2, k3, kf⟩, ⟨m0, m1, m2, m3, mf⟩⟩ := hp
  have cst : ∀ {x y : ℚ}, x ≤ y → (x : ℝ) ≤ (y : ℝ) := fun h => Rat.cast_le.2 h
  have g0' := cst g0
  have g2' := cst g2
  push_cast at g0' g2'
  have c : ∀ i : Fin 4, (samea.p1.get i).isFinite = true ∧ |r (samea.p1.get i) - wobA.p1.get i| ≤ 1 / 2 ^ 25 := fun i => ⟨gf i, by
    match i with
    | 0 => exact g0'
    | 1 => simp only [V4.get, r, g1, wobA]; norm_num
    | 2 => exact g2'
    | 3 => simp only [V4.get, r, g3, wobA]; norm_num⟩
  refine ⟨⟨c, fun i => ⟨kf i, ?_⟩⟩, ⟨c, fun i => ⟨mf i, ?_⟩⟩⟩
  · match i with
    | 0 => simp only [V4.get, r, k0, wobA]; norm_num
    | 1 => simp only [V4.get, r, k1, wobA]; norm_num
    | 2 => simp only [V4.get, r, k2, wobA]; norm_num
    | 3 => simp only [V4.get, r, k3, wobA]; norm_num
  · match i with
    | 0 => simp only [V4.get, r, m0, wobB]; norm_num
    | 1 => simp only [V4.get, r, m1, wobB]; norm_num
    | 2 => simp only [V4.get, r, m2, wobB]; norm_num
    | 3 => simp only [V4.get, r, m3, wobB]; norm_num

/-- C100: half-way between the two motors lies the mean of the translations. -/
theorem C100_example {hw : Hw F32} {lm : Libm F32} (hl : lm.Contract32) (isa : Isa) :
    (slerp hw lm isa samea sameb (1 / 2)).Close ⟨⟨4 / 5, 0, 3 / 5, 0⟩, ⟨0, 5 / 2, 0, 5⟩⟩ 1e-6 1e-4 := by
  have n10 : ∀ {v : V4 ℝ}, dot4 v v ≤ 10 ^ 2 → ‖v.vec4‖ ≤ 10 := fun h =>
    abs_le_of_sq_le_sq' (by rw [V4.vec4_sq]; exact h) (by norm_num) |>.2
  have h := C100_slerp_axis (hw := hw) hl isa (A := wobA) (B := wobB) (C := 10) (δ := 1 / 2 ^ 25)
    (by simp only [Motor.Normed, wobA]; apply PGA.MV.ext <;> norm_num [pga, kln, sse])
    (by simp only [Motor.Normed, wobB]; apply PGA.MV.ext <;> norm_num [pga, kln, sse])
    (n10 (by norm_num [dot4, wobA])) (n10 (by norm_num [dot4, wobB])) (by norm_num) (by norm_num) rfl (by norm_num)
    same_close.1 same_close.2 (t := 1 / 2) r_half.1 (by rw [r_half.2]; norm_num [abs_of_pos]) rfl (by decide +kernel)
  rw [r_half.2] at h
  have e : (⟨wobA.p1, ⟨wobA.p2.l0 + 1 / 2 * (wobB.p2.l0 - wobA.p2.l0), wobA.p2.l1 + 1 / 2 * (wobB.p2.l1 - wobA.p2.l1),
      wobA.p2.l2 + 1 / 2 * (wobB.p2.l2 - wobA.p2.l2), wobA.p2.l3 + 1 / 2 * (wobB.p2.l3 - wobA.p2.l3)⟩⟩ : Motor ℝ) =
      ⟨⟨4 / 5, 0, 3 / 5, 0⟩, ⟨0, 5 / 2, 0, 5⟩⟩ := by
    simp only [wobA, wobB]; norm_num
  rw [e, abs_of_pos (show (0 : ℝ) < 1 / 2 by norm_num)] at h
  refine ⟨fun i => ⟨(h.1 i).1, (h.1 i).2.trans ?_⟩, fun i => ⟨(h.2 i).1, (h.2 i).2.trans ?_⟩⟩ <;> norm_num

end Klein
