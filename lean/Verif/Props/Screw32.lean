import Verif.Lemmas.ExpLip
import Verif.Props.Trans32
import Verif.Props.Interp
import Verif.Props.Ctor

/-!
# C95: screw motions and interpolation in binary32

The exponential computed from a line that is itself a rounded result.  The exact exponential is Lipschitz
(`Lemmas/ExpLip`), so that the error of the line adds to the error of the exponential (C79).  This gives the
accuracy of `motor(ang, d, line)` and of `exp(t * log(m))`.
-/

set_option linter.unusedSimpArgs false

namespace Klein

open F32

/-! ### the exact exponential is Lipschitz -/

/-- Lanes 1 to 3 as a vector. -/
noncomputable def V4.vec (v : V4 ℝ) : EuclideanSpace ℝ (Fin 3) := !₂[v.l1, v.l2, v.l3]

theorem V4.vec_norm (v : V4 ℝ) : ‖v.vec‖ = √(dot3 v v) := by
  rw [EuclideanSpace.norm_eq, Fin.sum_univ_three]
  simp only [V4.vec, dot3, Real.norm_eq_abs, sq_abs]
  congr 1
  simp; ring

theorem V4.vec_inner (v w : V4 ℝ) : inner ℝ v.vec w.vec = dot3 v w := by
  simp only [V4.vec, dot3, PiLp.inner_apply, Fin.sum_univ_three]
  simp; ring

theorem vec_lane (x : EuclideanSpace ℝ (Fin 3)) (i : Fin 3) : |x i| ≤ ‖x‖ := by
  have := PiLp.norm_apply_le x i
  rwa [Real.norm_eq_abs] at this

/-- Three small lanes make a small vector. -/
theorem V4.vec_sub_norm {v w : V4 ℝ} {e : ℝ} (he : 0 ≤ e) (h : ∀ i : Fin 4, i ≠ 0 → |v.get i - w.get i| ≤ e) :
    ‖v.vec - w.vec‖ ≤ 1.74 * e := by
  refine abs_le_of_sq_le_sq' ?_ (by positivity) |>.2
  rw [EuclideanSpace.norm_sq_eq, Fin.sum_univ_three]
  have h1 := h 1 (by decide); have h2 := h 2 (by decide); have h3 := h 3 (by decide)
  simp only [V4.get] at h1 h2 h3
  have q : ∀ {x : ℝ}, |x| ≤ e → ‖x‖ ^ 2 ≤ e ^ 2 := fun {x} hx => by
    rw [Real.norm_eq_abs]; exact pow_le_pow_left₀ (abs_nonneg _) hx 2
  have a1 := q h1; have a2 := q h2; have a3 := q h3
  have b1 : (v.vec - w.vec) 0 = v.l1 - w.l1 := by simp [V4.vec]
  have b2 : (v.vec - w.vec) 1 = v.l2 - w.l2 := by simp [V4.vec]
  have b3 : (v.vec - w.vec) 2 = v.l3 - w.l3 := by simp [V4.vec]
  rw [b1, b2, b3]
  have := sq_nonneg e
  norm_num at *
  nlinarith

section Real
variable {hwr : Hw ℝ} (hx : hwr.Exact) (isa : Isa) {n n' : Line ℝ}

include hx in
/-- The exponential in terms of the functions of `ExpLip`. -/
theorem Line.exp_vec (w : n.WF) (hn : 0 < dot3 n.p1 n.p1) :
    (n.exp hwr Libm.real isa).p1.l0 = Real.cos ‖n.p1.vec‖ ∧
    (n.exp hwr Libm.real isa).p1.vec = ExpLip.S ‖n.p1.vec‖ • n.p1.vec ∧
    (n.exp hwr Libm.real isa).p2.l0 = ExpLip.S ‖n.p1.vec‖ * inner ℝ n.p1.vec n.p2.vec ∧
    (n.exp hwr Libm.real isa).p2.vec = ExpLip.S ‖n.p1.vec‖ • n.p2.vec +
      (ExpLip.G ‖n.p1.vec‖ * inner ℝ n.p1.vec n.p2.vec) • n.p1.vec := by
  obtain ⟨w1, w2⟩ := w
  have hne : Libm.real.cmpeq_all n.p1 setzero_ps = false := by
    rw [← Bool.not_eq_true, cmpeq_all_zero]
    intro hz; rw [hz] at hn; simp [dot3, sse] at hn
  have e : n.exp hwr Libm.real isa = ⟨(exp_general hwr Libm.real isa n.p1 n.p2).1, (exp_general hwr Libm.real isa n.p1 n.p2).2⟩ := by
    simp only [Line.exp, exp_kernel, hne, cond_false]
  rw [e, exp_general_eq hx isa n.p1 n.p2 hn w1 w2 rfl, V4.vec_norm, V4.vec_inner]
  have ha : 0 < √(dot3 n.p1 n.p1) := Real.sqrt_pos.2 hn
  generalize √(dot3 n.p1 n.p1) = a at *
  generalize dot3 n.p1 n.p2 = D
  refine ⟨rfl, ?_, ?_, ?_⟩
  · ext i; fin_cases i <;> simp [V4.vec, ExpLip.S] <;> field_simp
  · simp only [ExpLip.S]; ring
  · ext i; fin_cases i <;> simp [V4.vec, ExpLip.S, ExpLip.G] <;> field_simp <;> ring

include hx in
theorem Line.exp_lip_p1 (w : n.WF) (w' : n'.WF) (hn : 0 < dot3 n.p1 n.p1) (hn' : 0 < dot3 n'.p1 n'.p1) (i : Fin 4) :
    |(n.exp hwr Libm.real isa).p1.get i - (n'.exp hwr Libm.real isa).p1.get i| ≤ ‖n.p1.vec - n'.p1.vec‖ := by
  obtain ⟨a0, a1, -, -⟩ := Line.exp_vec hx isa w hn
  obtain ⟨b0, b1, -, -⟩ := Line.exp_vec hx isa w' hn'
  have h := ExpLip.rotor_lip (b := n.p1.vec) (b' := n'.p1.vec) (by rw [V4.vec_norm]; exact Real.sqrt_pos.2 hn)
    (by rw [V4.vec_norm]; exact Real.sqrt_pos.2 hn')
  rw [← a0, ← b0, ← a1, ← b1] at h
  have hv : ∀ j : Fin 3, |((n.exp hwr Libm.real isa).p1.vec - (n'.exp hwr Libm.real isa).p1.vec) j| ≤ ‖n.p1.vec - n'.p1.vec‖ :=
    fun j => (vec_lane _ j).trans (abs_le_of_sq_le_sq' (by nlinarith [sq_nonneg ((n.exp hwr Libm.real isa).p1.l0 - (n'.exp hwr Libm.real isa).p1.l0)]) (norm_nonneg _)).2
  match i with
  | 0 => exact abs_le_of_sq_le_sq (by
      simp only [V4.get]
      nlinarith [sq_nonneg ‖(n.exp hwr Libm.real isa).p1.vec - (n'.exp hwr Libm.real isa).p1.vec‖]) (norm_nonneg _)
  | 1 => simpa [V4.vec] using hv 0
  | 2 => simpa [V4.vec] using hv 1
  | 3 => simpa [V4.vec] using hv 2

include hx in
theorem Line.exp_lip_p2 (w : n.WF) (w' : n'.WF) (hn : 0 < dot3 n.p1 n.p1) (hn' : 0 < dot3 n'.p1 n'.p1) (i : Fin 4) :
    |(n.exp hwr Libm.real isa).p2.get i - (n'.exp hwr Libm.real isa).p2.get i| ≤
      7 * ‖n.p1.vec - n'.p1.vec‖ * ‖n.p2.vec‖ + ‖n.p2.vec - n'.p2.vec‖ := by
  obtain ⟨-, -, a2, a3⟩ := Line.exp_vec hx isa w hn
  obtain ⟨-, -, b2, b3⟩ := Line.exp_vec hx isa w' hn'
  have p : 0 < ‖n.p1.vec‖ := by rw [V4.vec_norm]; exact Real.sqrt_pos.2 hn
  have p' : 0 < ‖n'.p1.vec‖ := by rw [V4.vec_norm]; exact Real.sqrt_pos.2 hn'
  have h0 := ExpLip.dsc_lip (c := n.p2.vec) (c' := n'.p2.vec) p p'
  have h1 := ExpLip.dvec_lip (c := n.p2.vec) (c' := n'.p2.vec) p p'
  rw [← a2, ← b2] at h0
  rw [← a3, ← b3] at h1
  have hv : ∀ j : Fin 3, _ := fun j => (vec_lane _ j).trans h1
  match i with
  | 0 => exact h0
  | 1 => simpa [V4.vec] using hv 0
  | 2 => simpa [V4.vec] using hv 1
  | 3 => simpa [V4.vec] using hv 2

end Real

/-! ### the exponential of a rounded line -/

/-- `N`, a line in binary32, approximates the exact line `n`: the direction to `k₁` times its norm, the moment to
`k₂` times a scale `T` of the moment. -/
structure Line.Approx (N : Line F32) (n : Line ℝ) (T k₁ k₂ : ℝ) : Prop where
  wf : n.WF
  fin1 : N.p1.Finite
  fin2 : N.p2.Finite
  z1 : r N.p1.l0 = 0
  z2 : r N.p2.l0 = 0
  e1 : ∀ i : Fin 4, i ≠ 0 → |r (N.p1.get i) - n.p1.get i| ≤ k₁ * √(dot3 n.p1 n.p1)
  e2 : ∀ i : Fin 4, i ≠ 0 → |r (N.p2.get i) - n.p2.get i| ≤ k₂ * T
  lo : 1 / 2 ^ 29 ≤ √(dot3 n.p1 n.p1)
  hi : √(dot3 n.p1 n.p1) ≤ 3.99
  mom : √(dot3 n.p2 n.p2) ≤ T
  rng : In2 T 29 31
  k1 : 0 ≤ k₁ ∧ k₁ ≤ 1 / 100000
  k2 : 0 ≤ k₂ ∧ k₂ ≤ 1 / 100000

section
variable {N : Line F32} {n : Line ℝ} {T k₁ k₂ : ℝ}

theorem V4.real_get (v : V4 F32) (i : Fin 4) : v.real.get i = r (v.get i) := by fin_cases i <;> rfl

theorem V4.real_vec_norm (v : V4 F32) : ‖v.real.vec‖ = √v.sq3 := by
  rw [V4.vec_norm]; congr 1; simp only [dot3, V4.real, V4.sq3]; ring

theorem Line.Approx.d1 (h : N.Approx n T k₁ k₂) : ‖n.p1.vec - N.real.p1.vec‖ ≤ 1.74 * (k₁ * √(dot3 n.p1 n.p1)) := by
  rw [norm_sub_rev]
  refine V4.vec_sub_norm (mul_nonneg h.k1.1 (Real.sqrt_nonneg _)) fun i hi => ?_
  rw [Line.real, V4.real_get]; exact h.e1 i hi

theorem Line.Approx.d2 (h : N.Approx n T k₁ k₂) : ‖n.p2.vec - N.real.p2.vec‖ ≤ 1.74 * (k₂ * T) := by
  rw [norm_sub_rev]
  refine V4.vec_sub_norm (mul_nonneg h.k2.1 h.rng.pos.le) fun i hi => ?_
  rw [Line.real, V4.real_get]; exact h.e2 i hi

theorem Line.Approx.exp (h : N.Approx n T k₁ k₂) : N.Exp (1.001 * T) := by
  have d1 := h.d1
  have d2 := h.d2
  have hA : 0 < √(dot3 n.p1 n.p1) := lt_of_lt_of_le (by positivity) h.lo
  have hT := h.rng.pos
  have n1 := abs_le.1 ((abs_norm_sub_norm_le _ _).trans d1)
  have n2 := abs_le.1 ((abs_norm_sub_norm_le _ _).trans d2)
  rw [V4.vec_norm, Line.real, V4.real_vec_norm] at n1 n2
  have q1 := mul_le_mul_of_nonneg_right h.k1.2 hA.le
  have q2 := mul_le_mul_of_nonneg_right h.k2.2 hT.le
  have lo := h.lo
  have hi := h.hi
  have mom := h.mom
  have hlo : 1 / 2 ^ 30 ≤ √N.p1.sq3 := by norm_num at *; linarith
  have hhi : √N.p1.sq3 ≤ 4 := by norm_num at *; linarith
  have s1 : 0 ≤ N.p1.sq3 := by unfold V4.sq3; positivity
  have s2 : 0 ≤ N.p2.sq3 := by unfold V4.sq3; positivity
  refine ⟨⟨⟨fun i => ?_, ?_, h.fin2, ?_, ?_⟩, h.z1, h.z2⟩, hhi⟩
  · refine le2_of_abs (h.fin1 i) ?_
    by_cases hi0 : i = 0
    · subst hi0; show |r N.p1.l0| ≤ _; rw [h.z1, abs_zero]; positivity
    · exact (lane_le3 (Real.sqrt_nonneg _) (Real.sq_sqrt s1).ge i hi0).trans (hhi.trans (by norm_num))
  · have := mul_le_mul hlo hlo (by positivity) (Real.sqrt_nonneg _)
    rw [Real.mul_self_sqrt s1] at this
    refine le_trans (le_of_eq ?_) this; norm_num
  · rw [← Real.sq_sqrt s2]
    refine pow_le_pow_left₀ (Real.sqrt_nonneg _) ?_ 2
    norm_num at *; linarith
  · have l := h.rng.lo
    have g := h.rng.hi
    constructor
    · norm_num at *; linarith
    · norm_num at *; linarith

variable {hw : Hw F32} (hc : hw.Contract32) {lm : Libm F32} (hl : lm.Contract32) {hwr : Hw ℝ}
  (hx : hwr.Exact) (isa isa' : Isa)

include hc hl hx in
/-- The rotor part of the exponential of a rounded line. -/
theorem Line.Approx.exp_p1 (h : N.Approx n T k₁ k₂) (i : Fin 4) :
    ((N.exp hw lm isa).p1.get i).isFinite = true ∧
      |r ((N.exp hw lm isa).p1.get i) - (n.exp hwr Libm.real isa').p1.get i| ≤ 5.3e-6 + 1.74 * (k₁ * √(dot3 n.p1 n.p1)) := by
  have he := h.exp
  obtain ⟨h1, h2⟩ := C79_line_exp_p1 hc hl hx isa isa' he i
  refine ⟨h1, ?_⟩
  have hA : 0 < √(dot3 n.p1 n.p1) := lt_of_lt_of_le (by positivity) h.lo
  have h3 := Line.exp_lip_p1 hx isa' h.wf ⟨he.p1z, he.p2z⟩ (Real.sqrt_pos.1 hA)
    (by rw [Line.real_dot3]; exact lt_of_lt_of_le (by positivity) he.norm) i
  have h4 := abs_sub_le (r ((N.exp hw lm isa).p1.get i)) ((N.real.exp hwr Libm.real isa').p1.get i)
    ((n.exp hwr Libm.real isa').p1.get i)
  rw [abs_sub_comm] at h3
  linarith [h.d1]

include hc hl hx in
/-- The other part. -/
theorem Line.Approx.exp_p2 (h : N.Approx n T k₁ k₂) (i : Fin 4) :
    ((N.exp hw lm isa).p2.get i).isFinite = true ∧
      |r ((N.exp hw lm isa).p2.get i) - (n.exp hwr Libm.real isa').p2.get i| ≤
        (2.01e-5 + 1.74 * k₂ + 12.2 * (k₁ * √(dot3 n.p1 n.p1))) * T := by
  have he := h.exp
  obtain ⟨h1, h2⟩ := C79_line_exp_p2 hc hl hx isa isa' he i
  refine ⟨h1, ?_⟩
  have hA : 0 < √(dot3 n.p1 n.p1) := lt_of_lt_of_le (by positivity) h.lo
  have h3 := Line.exp_lip_p2 hx isa' h.wf ⟨he.p1z, he.p2z⟩ (Real.sqrt_pos.1 hA)
    (by rw [Line.real_dot3]; exact lt_of_lt_of_le (by positivity) he.norm) i
  have h4 := abs_sub_le (r ((N.exp hw lm isa).p2.get i)) ((N.real.exp hwr Libm.real isa').p2.get i)
    ((n.exp hwr Libm.real isa').p2.get i)
  rw [abs_sub_comm] at h3
  have hT := h.rng.pos
  have m := h.mom
  rw [← V4.vec_norm] at m
  have h5 := mul_le_mul (mul_le_mul_of_nonneg_left h.d1 (by norm_num : (0 : ℝ) ≤ 7)) m (norm_nonneg _)
    (mul_nonneg (by norm_num) (mul_nonneg (by norm_num) (mul_nonneg h.k1.1 hA.le)))
  have h6 := h.d2
  have h7 := mul_nonneg (mul_nonneg h.k1.1 hA.le) hT.le
  generalize √(dot3 n.p1 n.p1) = A at *
  norm_num at *
  linarith

end

/-! ### `motor(ang, d, line)` -/

theorem mul_zero_ok {x y : F32} (hx : x.isFinite = true) (hy : y.isFinite = true) (h : r x = 0 ∨ r y = 0) :
    (x * y).isFinite = true ∧ r (x * y) = 0 := by
  have e : r x * r y = 0 := mul_eq_zero.2 h
  have ev : x.val * y.val = 0 := by
    have : ((x.val * y.val : ℚ) : ℝ) = 0 := by push_cast; exact e
    exact_mod_cast this
  refine ⟨(mul_ok hx hy (by rw [e, abs_zero]; positivity)).1, ?_⟩
  rw [mul_round hx hy, ev, r, round_zero_val, Rat.cast_zero]

theorem sub_zero_ok {x y : F32} (hx : x.isFinite = true) (hy : y.isFinite = true) (h : r x = 0) (h' : r y = 0) :
    (x - y).isFinite = true ∧ r (x - y) = 0 := by
  have ev : x.val - y.val = 0 := by
    have : ((x.val - y.val : ℚ) : ℝ) = 0 := by push_cast; rw [show (x.val : ℝ) = 0 from h, show (y.val : ℝ) = 0 from h', sub_zero]
    exact_mod_cast this
  refine ⟨(sub_ok hx hy (by rw [h, h', sub_zero, abs_zero]; positivity)).1, ?_⟩
  rw [sub_round hx hy, ev, r, round_zero_val, Rat.cast_zero]

theorem ap_half : Ap (1 / 2) (1 / 2) (1 / 2) 0 1 0 := by
  have := Ap.input (x := 1 / 2) (M := 1 / 2) (m := 1) (n := 0) r_half.1 (by rw [r_half.2]; norm_num) ⟨by norm_num, by norm_num⟩
  rwa [r_half.2] at this

/-- What is assumed of the arguments of `motor(ang, d, line)`: `C` bounds the moment of the line, `W` the
displacement; the norm of the line and the product of half the angle with it are neither too small nor too large. -/
structure Line.Screw (l : Line F32) (ang d : F32) (C W : ℝ) : Prop where
  p1 : l.p1.Le2 30
  norm : 1 / 2 ^ 60 ≤ l.p1.sq3
  fin : l.p2.Finite
  p1z : r l.p1.l0 = 0
  p2z : r l.p2.l0 = 0
  mom : l.p2.sq3 ≤ C ^ 2
  rngC : In2 C 30 32
  angf : ang.isFinite = true
  df : d.isFinite = true
  dist : |r d| ≤ W
  rngW : In2 W 60 60
  lo : 1 / 2 ^ 29 ≤ |r ang| / 2 * √l.p1.sq3
  hi : |r ang| / 2 * √l.p1.sq3 ≤ 3.99
  rng : In2 (|r ang| / 2 * C + W / 2 * √l.p1.sq3) 29 31

/-- The line exponentiated by `motor(ang, d, line)`, as computed. -/
def Line.screw32 (l : Line F32) (ang d : F32) : Line F32 :=
  ⟨(gpDL (-ang * (1 / 2)) (d * (1 / 2)) l.p1 l.p2).1, (gpDL (-ang * (1 / 2)) (d * (1 / 2)) l.p1 l.p2).2⟩

section
variable {l : Line F32} {ang d : F32} {C W : ℝ}

theorem Line.Screw.approx (h : l.Screw ang d C W) :
    (l.screw32 ang d).Approx (l.real.scr (-r ang / 2) (r d / 2)) (|r ang| / 2 * C + W / 2 * √l.p1.sq3) 1.3e-7 2e-7 := by
  have hS := sq3_rng h.p1 h.norm
  have hS0 := hS.pos
  have hSq : √l.p1.sq3 ^ 2 = l.p1.sq3 := Real.sq_sqrt (by unfold V4.sq3; positivity)
  have hU : In2 (|r ang| / 2) 61 32 := by
    have l1 := h.lo; have l2 := h.hi; have l3 := hS.lo; have l4 := hS.hi
    constructor
    · by_contra hcon
      push Not at hcon
      have := mul_lt_mul hcon l4 hS0 (by positivity)
      norm_num at *; linarith
    · by_contra hcon
      push Not at hcon
      have := mul_lt_mul hcon l3 (by positivity) (by positivity)
      norm_num at *; linarith
  have hU0 := hU.pos
  have hA : Ap (-ang) (-r ang) |r ang| 0 60 33 := by
    have := Ap.input (x := -ang) (M := |r ang|) (m := 60) (n := 33) (by simpa using h.angf) (by rw [r_neg, abs_neg])
      ⟨by have := hU.lo; norm_num at *; linarith, by have := hU.hi; norm_num at *; linarith⟩
    rwa [r_neg] at this
  have hu : Ap (-ang * (1 / 2)) (-r ang / 2) (|r ang| / 2) 6e-8 61 32 :=
    (hA.mulR ap_half (show _ = |r ang| / 2 by ring) hU (by norm_num) (by norm_num) (by norm_num) (by norm_num)
      (by ap_num)).eq (by ring) rfl
  have hW : In2 (W / 2) 61 60 := ⟨by have := h.rngW.lo; norm_num at *; linarith, by have := h.rngW.hi; norm_num at *; linarith⟩
  have hv : Ap (d * (1 / 2)) (r d / 2) (W / 2) 6e-8 61 60 :=
    ((Ap.input h.df h.dist h.rngW).mulR ap_half (show _ = W / 2 by ring) hW (by norm_num) (by norm_num) (by norm_num)
      (by norm_num) (by ap_num)).eq (by ring) rfl
  have hb : ∀ i : Fin 4, i ≠ 0 → Ap (l.p1.get i) (r (l.p1.get i)) (√l.p1.sq3) 0 30 32 := fun i hi =>
    Ap.input (h.p1 i (by norm_num)).1 (lane_le3 hS0.le hSq.ge i hi) hS
  have hc : ∀ i : Fin 4, i ≠ 0 → Ap (l.p2.get i) (r (l.p2.get i)) C 0 30 32 := fun i hi =>
    Ap.input (h.fin i) (lane_le3 h.rngC.pos.le h.mom i hi) h.rngC
  have k1 : ∀ i : Fin 4, i ≠ 0 → Ap ((l.screw32 ang d).p1.get i) (-r ang / 2 * r (l.p1.get i)) (|r ang| / 2 * √l.p1.sq3) 1.3e-7 29 2 :=
    fun i hi => by
    have := hu.mulR (hb i hi) rfl (⟨h.lo, h.hi.trans (by norm_num)⟩ : In2 _ 29 2) (by norm_num) (by norm_num) (by norm_num)
      (by norm_num) (show _ ≤ (1.3e-7 : ℝ) by ap_num)
    fin_cases i
    · exact absurd rfl hi
    all_goals exact this
  have k2 : ∀ i : Fin 4, i ≠ 0 → Ap ((l.screw32 ang d).p2.get i)
      (r (l.p2.get i) * (-r ang / 2) - r (l.p1.get i) * (r d / 2)) (C * (|r ang| / 2) + √l.p1.sq3 * (W / 2)) 2e-7 91 93 :=
    fun i hi => by
    have := (((hc i hi).mul hu (by norm_num) (by norm_num) (by norm_num) (by norm_num) (show _ ≤ (1.3e-7 : ℝ) by ap_num)).sub
      ((hb i hi).mul hv (by norm_num) (by norm_num) (by norm_num) (by norm_num) (show _ ≤ (1.3e-7 : ℝ) by ap_num))
      le_rfl le_rfl (by norm_num) (by norm_num) (show _ ≤ (2e-7 : ℝ) by ap_num))
    fin_cases i
    · exact absurd rfl hi
    all_goals exact this
  have hz1 := mul_zero_ok hu.fin (h.p1 0 (by norm_num)).1 (Or.inr h.p1z)
  have hz2 := mul_zero_ok (h.fin 0) hu.fin (Or.inl h.p2z)
  have hz3 := mul_zero_ok (h.p1 0 (by norm_num)).1 hv.fin (Or.inl h.p1z)
  have hz4 := sub_zero_ok hz2.1 hz3.1 hz2.2 hz3.2
  have hn : √(dot3 (l.real.scr (-r ang / 2) (r d / 2)).p1 (l.real.scr (-r ang / 2) (r d / 2)).p1) =
      |r ang| / 2 * √l.p1.sq3 := by
    have e : dot3 (l.real.scr (-r ang / 2) (r d / 2)).p1 (l.real.scr (-r ang / 2) (r d / 2)).p1 =
        (|r ang| / 2 * √l.p1.sq3) ^ 2 := by
      rw [mul_pow, hSq, div_pow, sq_abs]
      simp only [Line.scr, dot3, Line.real, V4.real, V4.sq3]; ring
    rw [e, Real.sqrt_sq (by positivity)]
  refine ⟨⟨rfl, rfl⟩, fun i => ?_, fun i => ?_, hz1.2, hz4.2, fun i hi => ?_, fun i hi => ?_, ?_, ?_, ?_, h.rng,
    by norm_num, by norm_num⟩
  · by_cases hi : i = 0
    · subst hi; exact hz1.1
    · exact (k1 i hi).fin
  · by_cases hi : i = 0
    · subst hi; exact hz4.1
    · exact (k2 i hi).fin
  · rw [hn]
    refine le_trans (le_of_eq ?_) (k1 i hi).err
    congr 2
    fin_cases i
    · exact absurd rfl hi
    all_goals rfl
  · refine le_trans (le_of_eq ?_) ((k2 i hi).err.trans (le_of_eq (by ring)))
    congr 2
    fin_cases i
    · exact absurd rfl hi
    all_goals simp only [Line.scr, V4.get, Line.real, V4.real]; ring
  · rw [hn]; exact h.lo
  · rw [hn]; exact h.hi
  · have e : (l.real.scr (-r ang / 2) (r d / 2)).p2.vec = (-r ang / 2) • l.real.p2.vec - (r d / 2) • l.real.p1.vec := by
      ext i; fin_cases i <;> simp [V4.vec, Line.scr]
    rw [← V4.vec_norm, e]
    refine (norm_sub_le _ _).trans ?_
    rw [norm_smul, norm_smul, Line.real, V4.real_vec_norm, V4.real_vec_norm, Real.norm_eq_abs, Real.norm_eq_abs, abs_div,
      abs_div, abs_neg, abs_two]
    refine add_le_add (mul_le_mul_of_nonneg_left (Real.sqrt_le_iff.2 ⟨h.rngC.pos.le, h.mom⟩) (by positivity))
      (mul_le_mul_of_nonneg_right ?_ hS0.le)
    linarith [h.dist]

variable {hw : Hw F32} (hc : hw.Contract32) {lm : Libm F32} (hl : lm.Contract32) {hwr : Hw ℝ}
  (hx : hwr.Exact) (isa isa' : Isa)

include hc hl hx in
/-- C95: the rotor part of `motor(ang, d, line)`. -/
theorem C95_screw_p1 (h : l.Screw ang d C W) (i : Fin 4) :
    ((Motor.mkScrew hw lm isa ang d l).p1.get i).isFinite = true ∧
      |r ((Motor.mkScrew hw lm isa ang d l).p1.get i) -
        (Motor.mkScrew hwr Libm.real isa' (r ang) (r d) l.real).p1.get i| ≤ 6.3e-6 := by
  have ha := h.approx
  obtain ⟨h1, h2⟩ := ha.exp_p1 hc hl hx isa isa' i
  rw [Motor.mkScrew_eq isa' (r ang) (r d) l.real ⟨h.p1z, h.p2z⟩]
  refine ⟨h1, h2.trans ?_⟩
  have := ha.hi
  norm_num at *; linarith

include hc hl hx in
/-- C95: the other part, relative to the sum of half the angle times the moment and half the displacement times
the norm of the line. -/
theorem C95_screw_p2 (h : l.Screw ang d C W) (i : Fin 4) :
    ((Motor.mkScrew hw lm isa ang d l).p2.get i).isFinite = true ∧
      |r ((Motor.mkScrew hw lm isa ang d l).p2.get i) -
        (Motor.mkScrew hwr Libm.real isa' (r ang) (r d) l.real).p2.get i| ≤
        2.7e-5 * (|r ang| / 2 * C + W / 2 * √l.p1.sq3) := by
  have ha := h.approx
  obtain ⟨h1, h2⟩ := ha.exp_p2 hc hl hx isa isa' i
  rw [Motor.mkScrew_eq isa' (r ang) (r d) l.real ⟨h.p1z, h.p2z⟩]
  refine ⟨h1, h2.trans (mul_le_mul_of_nonneg_right ?_ h.rng.pos.le)⟩
  have := ha.hi
  norm_num at *; linarith

end

/-! ### `exp(t * log(m))` -/

theorem Line.smul_vec (l : Line ℝ) (t : ℝ) : (l.smul t).p1.vec = t • l.p1.vec ∧ (l.smul t).p2.vec = t • l.p2.vec := by
  constructor
  · ext i; fin_cases i <;> simp [V4.vec, kln, sse, mul_comm]
  · ext i; fin_cases i <;> simp [V4.vec, kln, sse, mul_comm]

section
variable {m : Motor F32} {C : ℝ}

/-- The angle of the rotor part of a motor. -/
noncomputable def Motor.ang (m : Motor F32) : ℝ := Complex.arg ⟨r m.p1.l0, √m.p1.sq3⟩

/-- A scale for the moment of the logarithm. -/
noncomputable def Motor.logScale (m : Motor F32) (C : ℝ) : ℝ := m.ang * (C / √m.p1.sq3) + C / |r m.p1.l0|

/-- Lane 0 of the computed logarithm is zero. -/
theorem Motor.LogDom.log_zero {hw : Hw F32} (hc : hw.Contract32) {lm : Libm F32} (hl : lm.Contract32) (isa : Isa)
    (h : m.LogDom C) : r (m.log hw lm isa).p1.l0 = 0 ∧ r (m.log hw lm isa).p2.l0 = 0 := by
  have hf := h.flat
  have hS := sq3_rng hf.p1 hf.norm
  have hS0 := hS.pos
  have hu := ap_atan2 hl (ap_ang hc isa hf.p1 hf.norm 0) (h.p1 0)
  have hs := hf.toScale.ap_s hc isa 0
  have hq := hf.toScale.ap_q hc isa 0
  have hd := hf.toScale.ap_bc isa 0
  have fb : (m.biv32.p1.get 0).isFinite = true := (hf.p1 0 (by norm_num)).1
  have fc : (m.biv32.p2.get 0).isFinite = true := hf.fin 0
  rw [Motor.log32_eq hl isa h]
  simp only [explog_norm]
  have hP : In2 |r m.p1.l0| 20 30 := ⟨h.scalar.trans' (by norm_num), abs_of_le2 (h.p1 0) (by norm_num)⟩
  have hp : Ap m.p1.l0 (r m.p1.l0) |r m.p1.l0| 0 20 30 := Ap.input (h.p1 0 (by norm_num)).1 le_rfl hP
  have hone : Ap (-1) (-1) 1 0 0 0 := by
    have e : r (-1) = -1 := by rw [r_neg, r, one_val]; norm_num
    have := Ap.input (x := -1) (M := 1) (m := 0) (n := 0) (by decide +kernel) (by rw [e]; norm_num) ⟨by norm_num, by norm_num⟩
    rwa [e] at this
  have hv := ((lane_v hS h.rng hs hd).mulR hone (mul_one C) h.rng (by norm_num) (by norm_num) (by norm_num)
    (by norm_num) (show _ ≤ (1.07e-6 : ℝ) by ap_num)).divR hp rfl (by norm_num) (by norm_num) (by norm_num) (by norm_num)
    (show _ ≤ (1.14e-6 : ℝ) by ap_num)
  have h1 := hs.mul hq (by norm_num) (by norm_num) (by norm_num) (by norm_num) (show _ ≤ (1.32e-6 : ℝ) by ap_num)
  have h2 := hd.mulR h1 (show _ = C * (1 / √m.biv32.p1.sq3 * (1 / √m.biv32.p1.sq3)) by field_simp) (h.rng.mul (hS.inv.mul hS.inv))
    (by norm_num) (by norm_num) (by norm_num) (by norm_num) (show _ ≤ (1.7e-6 : ℝ) by ap_num)
  have z1 := mul_zero_ok fb hs.fin (Or.inl hf.p1z)
  have z2 := mul_zero_ok fc hs.fin (Or.inl hf.p2z)
  have z3 := mul_zero_ok fb h2.fin (Or.inl hf.p1z)
  have z4 := sub_zero_ok z2.1 z3.1 z2.2 z3.2
  have z5 := mul_zero_ok hu.fin z1.1 (Or.inr z1.2)
  have z6 := mul_zero_ok hu.fin z4.1 (Or.inr z4.2)
  have z7 := mul_zero_ok hv.fin z1.1 (Or.inr z1.2)
  exact ⟨z5.2, (sub_zero_ok z6.1 z7.1 z6.2 z7.2).2⟩

/-- The exact logarithm as vectors. -/
theorem Motor.LogDom.log_vec {hwr : Hw ℝ} (hx : hwr.Exact) (isa : Isa) (h : m.LogDom C) :
    (m.real.log hwr Libm.real isa).WF ∧ ‖(m.real.log hwr Libm.real isa).p1.vec‖ = m.ang ∧
      ‖(m.real.log hwr Libm.real isa).p2.vec‖ ≤ m.logScale C := by
  have hN : 0 < m.p1.sq3 := lt_of_lt_of_le (by positivity) h.norm
  have hs : 0 < √m.p1.sq3 := Real.sqrt_pos.2 hN
  have hC := h.rng.pos
  have hθ : 0 ≤ m.ang := le_trans (by positivity) (arg_ge (x := r m.p1.l0) hs).1
  have hp : 0 < |r m.p1.l0| := lt_of_lt_of_le (by norm_num) h.scalar
  rw [Motor.log_real hx isa h rfl rfl]
  have hD : dot3 m.biv32.real.p1 m.biv32.real.p2 = inner ℝ m.p1.real.vec m.p2.real.vec := by
    have a1 := (mask_lane (by norm_num) h.p1 1).2
    have a2 := (mask_lane (by norm_num) h.p1 2).2
    have a3 := (mask_lane (by norm_num) h.p1 3).2
    have b1 := (mask_lane (by norm_num) h.p2 1).2
    have b2 := (mask_lane (by norm_num) h.p2 2).2
    have b3 := (mask_lane (by norm_num) h.p2 3).2
    simp only [V4.get] at a1 a2 a3 b1 b2 b3
    rw [V4.vec_inner]
    simp only [V4.real, dot3, Line.real, Motor.biv32]
    rw [a1, a2, a3, b1, b2, b3]; rfl
  have e1 : ‖m.p1.real.vec‖ = √m.p1.sq3 := V4.real_vec_norm _
  have e2 : ‖m.p2.real.vec‖ ≤ C := by
    rw [V4.real_vec_norm]; exact Real.sqrt_le_iff.2 ⟨hC.le, h.mom⟩
  have hDC : |dot3 m.biv32.real.p1 m.biv32.real.p2| ≤ √m.p1.sq3 * C := by
    rw [hD, ← e1]
    exact (abs_real_inner_le_norm _ _).trans (mul_le_mul_of_nonneg_left e2 (norm_nonneg _))
  generalize hDe : dot3 m.biv32.real.p1 m.biv32.real.p2 = D at *
  rw [Motor.logScale]
  change _ ∧ _ = m.ang ∧ _
  rw [show Complex.arg ⟨r m.p1.l0, √m.p1.sq3⟩ = m.ang from rfl]
  generalize m.ang = θ at *
  generalize √m.p1.sq3 = s at *
  refine ⟨⟨rfl, rfl⟩, ?_, ?_⟩
  · have e : V4.vec (Line.scr (⟨⟨0, r m.p1.l1 / s, r m.p1.l2 / s, r m.p1.l3 / s⟩,
        ⟨0, r m.p2.l1 / s - D / s ^ 3 * r m.p1.l1, r m.p2.l2 / s - D / s ^ 3 * r m.p1.l2,
          r m.p2.l3 / s - D / s ^ 3 * r m.p1.l3⟩⟩ : Line ℝ) θ (-(D / s) / r m.p1.l0)).p1 = (θ / s) • m.p1.real.vec := by
      ext i; fin_cases i <;> simp [V4.vec, Line.scr, V4.real] <;> ring
    rw [e, norm_smul, e1, Real.norm_eq_abs, abs_of_nonneg (by positivity)]
    field_simp
  · have e : V4.vec (Line.scr (⟨⟨0, r m.p1.l1 / s, r m.p1.l2 / s, r m.p1.l3 / s⟩,
        ⟨0, r m.p2.l1 / s - D / s ^ 3 * r m.p1.l1, r m.p2.l2 / s - D / s ^ 3 * r m.p1.l2,
          r m.p2.l3 / s - D / s ^ 3 * r m.p1.l3⟩⟩ : Line ℝ) θ (-(D / s) / r m.p1.l0)).p2 =
        (θ / s) • (m.p2.real.vec - (D / s ^ 2) • m.p1.real.vec) + (D / s / s / r m.p1.l0) • m.p1.real.vec := by
      ext i; fin_cases i <;> simp [V4.vec, Line.scr, V4.real] <;> field_simp <;> ring
    rw [e]
    refine (norm_add_le _ _).trans ?_
    rw [norm_smul, norm_smul, e1, Real.norm_eq_abs, Real.norm_eq_abs, abs_of_nonneg (show 0 ≤ θ / s by positivity)]
    have g1 : ‖m.p2.real.vec - (D / s ^ 2) • m.p1.real.vec‖ ≤ C := by
      refine le_trans ?_ e2
      refine abs_le_of_sq_le_sq' ?_ (norm_nonneg _) |>.2
      rw [norm_sub_sq_real, norm_smul, real_inner_smul_right, real_inner_comm, ← hD, e1, Real.norm_eq_abs, mul_pow, sq_abs]
      have : (D / s ^ 2) ^ 2 * s ^ 2 = D / s ^ 2 * D := by field_simp
      rw [this]
      have : 0 ≤ D / s ^ 2 * D := by rw [div_mul_eq_mul_div]; exact div_nonneg (mul_self_nonneg D) (by positivity)
      linarith
    refine add_le_add ?_ ?_
    · calc θ / s * _ ≤ θ / s * C := mul_le_mul_of_nonneg_left g1 (by positivity)
        _ = _ := by ring
    · rw [abs_div, abs_div, abs_div, abs_of_pos hs, div_mul_eq_mul_div, div_mul_cancel₀ _ hs.ne']
      refine div_le_div_of_nonneg_right ?_ hp.le
      rw [div_le_iff₀ hs]; linarith

variable {t : F32} {hw : Hw F32} (hc : hw.Contract32) {lm : Libm F32} (hl : lm.Contract32) {hwr : Hw ℝ}
  (hx : hwr.Exact) (isa isa' : Isa)

include hc hl hx in
/-- The lanes of the computed logarithm. -/
theorem Motor.LogDom.ap_log (h : m.LogDom C) : In2 m.ang 63 2 ∧
    (∀ i : Fin 4, i ≠ 0 → Ap ((m.log hw lm isa).p1.get i) ((m.real.log hwr Libm.real isa').p1.get i) m.ang 2.1e-6 63 2) ∧
    ∀ i : Fin 4, i ≠ 0 → Ap ((m.log hw lm isa).p2.get i) ((m.real.log hwr Libm.real isa').p2.get i) (m.logScale C) 7e-6 125 66 := by
  obtain ⟨w, n1, n2⟩ := h.log_vec hx isa'
  have hS := sq3_rng h.flat.p1 h.flat.norm
  have es : m.biv32.p1.sq3 = m.p1.sq3 := mask_sq3 (by norm_num) h.p1
  rw [es] at hS
  have hθ := (ap_atan2 hl (ap_ang hc isa h.flat.p1 h.flat.norm 0) (h.p1 0)).rng
  rw [es] at hθ
  change In2 m.ang 63 2 at hθ
  have hP : In2 |r m.p1.l0| 20 30 := ⟨h.scalar.trans' (by norm_num), abs_of_le2 (h.p1 0) (by norm_num)⟩
  have hθ0 := hθ.pos
  have hC0 := h.rng.pos
  have hS0 := hS.pos
  have hK : In2 (m.logScale C) 125 66 := by
    have a := (hθ.mul (h.rng.mul hS.inv)).add (h.rng.mul hP.inv)
    rw [mul_one_div, mul_one_div] at a
    exact a.mono (by norm_num) (by norm_num)
  have q1 : ∀ i : Fin 4, i ≠ 0 → |(m.real.log hwr Libm.real isa').p1.get i| ≤ m.ang := fun i hi => by
    rw [← n1]
    match i with
    | 0 => exact absurd rfl hi
    | 1 => exact vec_lane (m.real.log hwr Libm.real isa').p1.vec 0
    | 2 => exact vec_lane (m.real.log hwr Libm.real isa').p1.vec 1
    | 3 => exact vec_lane (m.real.log hwr Libm.real isa').p1.vec 2
  have q2 : ∀ i : Fin 4, i ≠ 0 → |(m.real.log hwr Libm.real isa').p2.get i| ≤ m.logScale C := fun i hi => by
    refine le_trans ?_ n2
    match i with
    | 0 => exact absurd rfl hi
    | 1 => exact vec_lane (m.real.log hwr Libm.real isa').p2.vec 0
    | 2 => exact vec_lane (m.real.log hwr Libm.real isa').p2.vec 1
    | 3 => exact vec_lane (m.real.log hwr Libm.real isa').p2.vec 2
  have a1 : ∀ i : Fin 4, i ≠ 0 → Ap ((m.log hw lm isa).p1.get i) ((m.real.log hwr Libm.real isa').p1.get i) m.ang 2.1e-6 63 2 :=
    fun i hi => by
    obtain ⟨f, e⟩ := C79_motor_log_p1 hc hl hx isa isa' h i
    exact ⟨f, q1 i hi, e, hθ⟩
  have a2 : ∀ i : Fin 4, i ≠ 0 → Ap ((m.log hw lm isa).p2.get i) ((m.real.log hwr Libm.real isa').p2.get i) (m.logScale C) 7e-6 125 66 :=
    fun i hi => by
    obtain ⟨f, e⟩ := C79_motor_log_p2 hc hl hx isa isa' h i
    refine ⟨f, q2 i hi, e.trans ?_, hK⟩
    have : 0 < C / |r m.p1.l0| := div_pos hC0 hP.pos
    rw [Motor.logScale, Motor.ang]
    norm_num; linarith
  exact ⟨hθ, a1, a2⟩

/-- What is assumed of `m` and `t` when `exp(t * log(m))` is computed: the angle `|t| θ` is neither too small nor too
large, and neither is the moment. -/
structure Motor.Power (m : Motor F32) (t : F32) (C : ℝ) : Prop extends m.LogDom C where
  tf : t.isFinite = true
  lo : 1 / 2 ^ 29 ≤ |r t| * m.ang
  hi : |r t| * m.ang ≤ 3.99
  mrng : In2 (|r t| * m.logScale C) 29 31

include hc hl hx in
theorem Motor.Power.approx (h : m.Power t C) :
    ((m.log hw lm isa).mulAssign t).Approx ((m.real.log hwr Libm.real isa').smul (r t)) (|r t| * m.logScale C)
      2.3e-6 7.2e-6 := by
  obtain ⟨w, n1, n2⟩ := h.toLogDom.log_vec hx isa'
  obtain ⟨z1, z2⟩ := h.toLogDom.log_zero hc hl isa
  obtain ⟨hθ, a1, a2⟩ := h.toLogDom.ap_log hc hl hx isa isa'
  have hθ0 := hθ.pos
  have ht : In2 |r t| 31 65 := by
    have l1 := h.lo; have l2 := h.hi; have l3 := hθ.lo; have l4 := hθ.hi
    constructor
    · by_contra hcon
      push Not at hcon
      have := mul_lt_mul hcon l4 hθ0 (by positivity)
      norm_num at *; linarith
    · by_contra hcon
      push Not at hcon
      have := mul_lt_mul hcon l3 (by positivity) (by positivity)
      norm_num at *; linarith
  have hat : Ap t (r t) |r t| 0 31 65 := Ap.input h.tf le_rfl ht
  have k1 : ∀ i : Fin 4, i ≠ 0 → Ap (((m.log hw lm isa).mulAssign t).p1.get i)
      ((m.real.log hwr Libm.real isa').p1.get i * r t) (|r t| * m.ang) 2.3e-6 29 2 := fun i hi => by
    have := (a1 i hi).mulR hat (mul_comm _ _) (⟨h.lo, h.hi.trans (by norm_num)⟩ : In2 _ 29 2) (by norm_num) (by norm_num) (by norm_num)
      (by norm_num) (show _ ≤ (2.3e-6 : ℝ) by ap_num)
    fin_cases i
    · exact absurd rfl hi
    all_goals exact this
  have k2 : ∀ i : Fin 4, i ≠ 0 → Ap (((m.log hw lm isa).mulAssign t).p2.get i)
      ((m.real.log hwr Libm.real isa').p2.get i * r t) (|r t| * m.logScale C) 7.2e-6 29 31 := fun i hi => by
    have := (a2 i hi).mulR hat (mul_comm _ _) h.mrng (by norm_num) (by norm_num) (by norm_num)
      (by norm_num) (show _ ≤ (7.2e-6 : ℝ) by ap_num)
    fin_cases i
    · exact absurd rfl hi
    all_goals exact this
  have f1 := (C79_motor_log_p1 hc hl hx isa isa' h.toLogDom 0).1
  have f2 := (C79_motor_log_p2 hc hl hx isa isa' h.toLogDom 0).1
  have y1 := mul_zero_ok f1 h.tf (Or.inl z1)
  have y2 := mul_zero_ok f2 h.tf (Or.inl z2)
  have s1 : ((m.real.log hwr Libm.real isa').smul (r t)).p1.vec = r t • (m.real.log hwr Libm.real isa').p1.vec :=
    (Line.smul_vec _ _).1
  have s2 : ((m.real.log hwr Libm.real isa').smul (r t)).p2.vec = r t • (m.real.log hwr Libm.real isa').p2.vec :=
    (Line.smul_vec _ _).2
  have hn : √(dot3 ((m.real.log hwr Libm.real isa').smul (r t)).p1 ((m.real.log hwr Libm.real isa').smul (r t)).p1) =
      |r t| * m.ang := by
    rw [← V4.vec_norm, s1, norm_smul, n1, Real.norm_eq_abs]
  refine ⟨w.smul _, fun i => ?_, fun i => ?_, y1.2, y2.2, fun i hi => ?_, fun i hi => ?_, ?_, ?_, ?_, h.mrng,
    by norm_num, by norm_num⟩
  · by_cases hi : i = 0
    · subst hi; exact y1.1
    · exact (k1 i hi).fin
  · by_cases hi : i = 0
    · subst hi; exact y2.1
    · exact (k2 i hi).fin
  · rw [hn]
    refine le_trans (le_of_eq ?_) (k1 i hi).err
    congr 2
    fin_cases i
    · exact absurd rfl hi
    all_goals rfl
  · refine le_trans (le_of_eq ?_) (k2 i hi).err
    congr 2
    fin_cases i
    · exact absurd rfl hi
    all_goals rfl
  · rw [hn]; exact h.lo
  · rw [hn]; exact h.hi
  · rw [← V4.vec_norm, s2, norm_smul, Real.norm_eq_abs]
    exact mul_le_mul_of_nonneg_left n2 (abs_nonneg _)

include hc hl hx in
/-- C95: the rotor part of `exp(t * log(m))`, in terms of the angle `|t| θ`. -/
theorem C95_power_p1 (h : m.Power t C) (i : Fin 4) :
    (((m.log hw lm isa).mulAssign t |>.exp hw lm isa).p1.get i).isFinite = true ∧
      |r ((((m.log hw lm isa).mulAssign t).exp hw lm isa).p1.get i) -
        ((((m.real.log hwr Libm.real isa').mulAssign (r t)).exp hwr Libm.real isa').p1.get i)| ≤
        5.3e-6 + 4.1e-6 * (|r t| * m.ang) := by
  have ha := h.approx hc hl hx isa isa'
  obtain ⟨h1, h2⟩ := ha.exp_p1 hc hl hx isa isa' i
  refine ⟨h1, h2.trans ?_⟩
  obtain ⟨-, n1, -⟩ := h.toLogDom.log_vec hx isa'
  have s1 : ((m.real.log hwr Libm.real isa').smul (r t)).p1.vec = r t • (m.real.log hwr Libm.real isa').p1.vec :=
    (Line.smul_vec _ _).1
  rw [← V4.vec_norm, s1, norm_smul, n1, Real.norm_eq_abs]
  have : 0 < |r t| * m.ang := lt_of_lt_of_le (by positivity) h.lo
  norm_num at *; linarith

include hc hl hx in
/-- C95: the other part. -/
theorem C95_power_p2 (h : m.Power t C) (i : Fin 4) :
    (((m.log hw lm isa).mulAssign t |>.exp hw lm isa).p2.get i).isFinite = true ∧
      |r ((((m.log hw lm isa).mulAssign t).exp hw lm isa).p2.get i) -
        ((((m.real.log hwr Libm.real isa').mulAssign (r t)).exp hwr Libm.real isa').p2.get i)| ≤
        (3.3e-5 + 2.9e-5 * (|r t| * m.ang)) * (|r t| * m.logScale C) := by
  have ha := h.approx hc hl hx isa isa'
  obtain ⟨h1, h2⟩ := ha.exp_p2 hc hl hx isa isa' i
  refine ⟨h1, h2.trans (mul_le_mul_of_nonneg_right ?_ h.mrng.pos.le)⟩
  obtain ⟨-, n1, -⟩ := h.toLogDom.log_vec hx isa'
  have s1 : ((m.real.log hwr Libm.real isa').smul (r t)).p1.vec = r t • (m.real.log hwr Libm.real isa').p1.vec :=
    (Line.smul_vec _ _).1
  rw [← V4.vec_norm, s1, norm_smul, n1, Real.norm_eq_abs]
  have : 0 < |r t| * m.ang := lt_of_lt_of_le (by positivity) h.lo
  norm_num at *; linarith

end

/-! ### `exp(log(m))` -/

/-- The motor that `exp(log(m))` gives in exact arithmetic: divided by the norm of the rotor part, with the `e0123`
component that makes it a motor. -/
noncomputable def Motor.fix (m : Motor ℝ) : Motor ℝ :=
  let N := √(m.p1.l0 * m.p1.l0 + dot3 m.p1 m.p1)
  ⟨⟨m.p1.l0 / N, m.p1.l1 / N, m.p1.l2 / N, m.p1.l3 / N⟩,
   ⟨dot3 m.p1 m.p2 / m.p1.l0 / N, m.p2.l1 / N, m.p2.l2 / N, m.p2.l3 / N⟩⟩

/-- C95: `exp(log(m))` for every motor with a rotation, normalised or not. -/
theorem C95_exp_log {hwr : Hw ℝ} (hx : hwr.Exact) (isa : Isa) (m : Motor ℝ) (h : 0 < m.sPart)
    (hp : 1 / 1000000 ≤ |m.scalar|) : (m.log hwr Libm.real isa).exp hwr Libm.real isa = m.fix := by
  have hu := m.bivector.axis_unit (Real.sqrt_pos.1 h)
  have h0 : m.scalar ≠ 0 := by
    intro e; rw [e] at hp; norm_num at hp
  have hd : dot3 m.p1 m.p1 = m.sPart * m.sPart := by
    rw [Motor.sPart, Real.mul_self_sqrt (Real.sqrt_pos.1 h).le]; rfl
  have hN : ‖(⟨m.scalar, m.sPart⟩ : ℂ)‖ = √(m.p1.l0 * m.p1.l0 + dot3 m.p1 m.p1) := by
    rw [Complex.norm_def, Complex.normSq_mk, hd]; rfl
  have hz : (⟨m.scalar, m.sPart⟩ : ℂ) ≠ 0 := by
    intro e; exact h0 (congrArg Complex.re e)
  have hN0 : 0 < √(m.p1.l0 * m.p1.l0 + dot3 m.p1 m.p1) := by rw [← hN]; exact norm_pos_iff.2 hz
  have c1 := Complex.cos_arg hz
  have c2 := Complex.sin_arg (⟨m.scalar, m.sPart⟩ : ℂ)
  rw [hN] at c1 c2
  have ht : dot3 m.p1 m.p2 = -(m.sPart * m.tPart) := by
    rw [Motor.tPart]
    have : dot3 m.p1 m.p2 = dot3 m.bivector.p1 m.bivector.p2 := rfl
    rw [this]; field_simp
  have e := m.eq_cis h
  rw [m.log_eq hx isa h, exp_scr hx isa hu, Line.expUV_eq, Motor.logU, Motor.logV,
    if_neg (not_lt.2 hp), if_neg (not_lt.2 hp), c1, c2]
  have e1 := congrArg Motor.p1 e
  have e2 := congrArg Motor.p2 e
  have a1 := congrArg V4.l1 e1; have a2 := congrArg V4.l2 e1; have a3 := congrArg V4.l3 e1
  have b1 := congrArg V4.l1 e2; have b2 := congrArg V4.l2 e2; have b3 := congrArg V4.l3 e2
  simp only [Line.cis] at a1 a2 a3 b1 b2 b3
  simp only [Motor.fix, Line.cis, ht]
  rw [a1, a2, a3, b1, b2, b3]
  have hs : m.p1.l0 = m.scalar := rfl
  rw [hs] at hN0 ⊢
  generalize √(m.scalar * m.scalar + dot3 m.p1 m.p1) = N at *
  have := hN0.ne'
  simp only [Motor.mk.injEq, V4.mk.injEq]
  refine ⟨⟨trivial, ?_, ?_, ?_⟩, ?_, ?_, ?_, ?_⟩ <;> field_simp

/-- C95: it is normalised. -/
theorem C95_fix_normed (m : Motor ℝ) (h0 : m.p1.l0 ≠ 0) : m.fix.mv * PGA.MV.rev m.fix.mv = 1 := by
  have hN : 0 < m.p1.l0 * m.p1.l0 + dot3 m.p1 m.p1 := by
    have : 0 < m.p1.l0 * m.p1.l0 := mul_self_pos.2 h0
    have : 0 ≤ dot3 m.p1 m.p1 := by unfold dot3; nlinarith [mul_self_nonneg m.p1.l1, mul_self_nonneg m.p1.l2, mul_self_nonneg m.p1.l3]
    linarith
  have hs := Real.mul_self_sqrt hN.le
  have hq : √(m.p1.l0 * m.p1.l0 + dot3 m.p1 m.p1) ≠ 0 := (Real.sqrt_pos.2 hN).ne'
  unfold Motor.fix
  generalize √(m.p1.l0 * m.p1.l0 + dot3 m.p1 m.p1) = N at *
  obtain ⟨⟨a, b, c, d⟩, ⟨e, f, g, k⟩⟩ := m
  simp only [dot3] at *
  apply PGA.MV.ext <;> simp only [pga, kln, sse] <;> field_simp <;> ring_nf
  linear_combination -hs

/-- C95: a normalised motor is unchanged. -/
theorem C95_fix_eq (m : Motor ℝ) (hm : m.mv * PGA.MV.rev m.mv = 1) (h : 0 < m.sPart) (h0 : m.p1.l0 ≠ 0) : m.fix = m := by
  obtain ⟨n1, n2⟩ := m.norm_parts hm h
  have hd : dot3 m.p1 m.p1 = m.sPart * m.sPart := by
    rw [Motor.sPart, Real.mul_self_sqrt (Real.sqrt_pos.1 h).le]; rfl
  have ht : dot3 m.p1 m.p2 = -(m.sPart * m.tPart) := by
    rw [Motor.tPart]
    have : dot3 m.p1 m.p2 = dot3 m.bivector.p1 m.bivector.p2 := rfl
    rw [this]; field_simp
  have e : m.p1.l0 * m.p1.l0 + dot3 m.p1 m.p1 = 1 := by
    rw [hd]; have : m.p1.l0 = m.scalar := rfl
    rw [this]; linarith
  have e3 : dot3 m.p1 m.p2 / m.p1.l0 = m.p2.l0 := by
    rw [ht, div_eq_iff h0]
    have h1 : m.p1.l0 = m.scalar := rfl
    have h2 : m.p2.l0 = m.e0123 := rfl
    rw [h1, h2]; linarith
  simp only [Motor.fix, e, Real.sqrt_one, div_one, e3]

/-- What is assumed of `m` when `exp(log(m))` is computed. -/
structure Motor.Round (m : Motor F32) (C : ℝ) : Prop extends m.LogDom C where
  lo : 1 / 2 ^ 29 ≤ m.ang
  mrng : In2 (m.logScale C) 29 31

section
variable {m : Motor F32} {C : ℝ} {hw : Hw F32} (hc : hw.Contract32) {lm : Libm F32} (hl : lm.Contract32) {hwr : Hw ℝ}
  (hx : hwr.Exact) (isa isa' : Isa)

include hc hl hx in
theorem Motor.Round.approx (h : m.Round C) :
    (m.log hw lm isa).Approx (m.real.log hwr Libm.real isa') (m.logScale C) 2.1e-6 7e-6 := by
  obtain ⟨w, n1, n2⟩ := h.toLogDom.log_vec hx isa'
  obtain ⟨z1, z2⟩ := h.toLogDom.log_zero hc hl isa
  obtain ⟨hθ, a1, a2⟩ := h.toLogDom.ap_log hc hl hx isa isa'
  rw [V4.vec_norm] at n1 n2
  have hpi := Real.pi_lt_d2
  have hle : m.ang ≤ Real.pi := Complex.arg_le_pi _
  refine ⟨w, fun i => (C79_motor_log_p1 hc hl hx isa isa' h.toLogDom i).1,
    fun i => (C79_motor_log_p2 hc hl hx isa isa' h.toLogDom i).1, z1, z2, fun i hi => ?_, fun i hi => (a2 i hi).err, ?_, ?_, n2,
    h.mrng, by norm_num, by norm_num⟩
  · rw [n1]; exact (a1 i hi).err
  · rw [n1]; exact h.lo
  · rw [n1]; norm_num at *; linarith

theorem Motor.Round.exact (h : m.Round C) : (m.real.log Hw.ideal Libm.real isa').exp Hw.ideal Libm.real isa' = m.real.fix := by
  refine C95_exp_log Hw.ideal_exact isa' _ ?_ h.scalar
  have : dot3 m.real.bivector.p1 m.real.bivector.p1 = m.p1.sq3 := by
    simp only [Motor.bivector, Motor.real, V4.real, dot3, V4.sq3]; ring
  rw [Motor.sPart, this]
  exact Real.sqrt_pos.2 (lt_of_lt_of_le (by positivity) h.norm)

include hc hl in
/-- C95: the rotor part of `exp(log(m))` is that of `m`, normalised. -/
theorem C95_round_p1 (h : m.Round C) (i : Fin 4) :
    (((m.log hw lm isa).exp hw lm isa).p1.get i).isFinite = true ∧
      |r (((m.log hw lm isa).exp hw lm isa).p1.get i) - m.real.fix.p1.get i| ≤ 5.3e-6 + 3.7e-6 * m.ang := by
  have ha := h.approx hc hl Hw.ideal_exact isa isa
  obtain ⟨h1, h2⟩ := ha.exp_p1 hc hl Hw.ideal_exact isa isa i
  obtain ⟨-, n1, -⟩ := h.toLogDom.log_vec Hw.ideal_exact isa
  have h0 : 0 < m.ang := lt_of_lt_of_le (by positivity) h.lo
  rw [h.exact isa, ← V4.vec_norm, n1] at h2
  refine ⟨h1, h2.trans ?_⟩
  norm_num at *; linarith

include hc hl in
/-- C95: the other part. -/
theorem C95_round_p2 (h : m.Round C) (i : Fin 4) :
    (((m.log hw lm isa).exp hw lm isa).p2.get i).isFinite = true ∧
      |r (((m.log hw lm isa).exp hw lm isa).p2.get i) - m.real.fix.p2.get i| ≤
        (3.3e-5 + 2.6e-5 * m.ang) * m.logScale C := by
  have ha := h.approx hc hl Hw.ideal_exact isa isa
  obtain ⟨h1, h2⟩ := ha.exp_p2 hc hl Hw.ideal_exact isa isa i
  obtain ⟨-, n1, -⟩ := h.toLogDom.log_vec Hw.ideal_exact isa
  have h0 : 0 < m.ang := lt_of_lt_of_le (by positivity) h.lo
  rw [h.exact isa, ← V4.vec_norm, n1] at h2
  refine ⟨h1, h2.trans (mul_le_mul_of_nonneg_right ?_ h.mrng.pos.le)⟩
  norm_num at *; linarith

end

/-! ### Concrete cases -/

section Cases
variable {hw : Hw F32} (hc : hw.Contract32) {lm : Libm F32} (hl : lm.Contract32)

private theorem r_one' : r 1 = 1 := by rw [r, one_val]; norm_num
private theorem r_two' : r 2 = 2 := by
  have : (2 : F32).val = 2 := by decide +kernel
  simp [r, this]
private theorem r_five : r 5 = 5 := by
  have : (5 : F32).val = 5 := by decide +kernel
  simp [r, this]
private theorem s9 : √(9 : ℝ) = 3 := by rw [show (9 : ℝ) = 3 ^ 2 by norm_num, Real.sqrt_sq (by norm_num)]

include hc hl in
/-- `motor(1, 2, l)` with the rotation of the line `l` of norm 3: the scalar is `cos(3/2)`. -/
example : |r ((Motor.mkScrew hw lm .sse3 1 2 ⟨⟨0, 2, 2, 1⟩, ⟨0, 1, 2, 2⟩⟩).p1.l0) - Real.cos (3 / 2)| ≤ 6.3e-6 := by
  have s1 : (V4.mk 0 2 2 1 : V4 F32).sq3 = 9 := by simp only [V4.sq3, r_two', r_one']; norm_num
  have s2 : (V4.mk 0 1 2 2 : V4 F32).sq3 = 9 := by simp only [V4.sq3, r_two', r_one']; norm_num
  have hd : Line.Screw ⟨⟨0, 2, 2, 1⟩, ⟨0, 1, 2, 2⟩⟩ 1 2 3 2 := by
    refine ⟨?_, ?_, ?_, r_zero, r_zero, ?_, ⟨by norm_num, by norm_num⟩, by decide +kernel, by decide +kernel, ?_,
      ⟨by norm_num, by norm_num⟩, ?_, ?_, ?_⟩
    · exact fun i => match i with
        | 0 => Le2.zero.mono (by norm_num)
        | 1 => fun _ => by decide +kernel
        | 2 => fun _ => by decide +kernel
        | 3 => Le2.one.mono (by norm_num)
    · simp only; rw [s1]; norm_num
    · exact fun i => match i with
        | 0 => by decide +kernel
        | 1 => by decide +kernel
        | 2 => by decide +kernel
        | 3 => by decide +kernel
    · simp only; rw [s2]; norm_num
    · rw [r_two']; norm_num
    · simp only; rw [s1, s9, r_one']; norm_num
    · simp only; rw [s1, s9, r_one']; norm_num
    · simp only; rw [s1, s9, r_one']; constructor <;> norm_num
  have h := (C95_screw_p1 hc hl Hw.ideal_exact .sse3 .sse3 hd 0).2
  have w : (Line.mk ⟨0, 2, 2, 1⟩ ⟨0, 1, 2, 2⟩ : Line F32).real.WF := ⟨r_zero, r_zero⟩
  rw [Motor.mkScrew_eq _ _ _ _ w] at h
  have e3 : dot3 ((Line.mk ⟨0, 2, 2, 1⟩ ⟨0, 1, 2, 2⟩ : Line F32).real.scr (-(r 1) / 2) (r 2 / 2)).p1
      ((Line.mk ⟨0, 2, 2, 1⟩ ⟨0, 1, 2, 2⟩ : Line F32).real.scr (-(r 1) / 2) (r 2 / 2)).p1 = (3 / 2) ^ 2 := by
    simp only [Line.scr, dot3, Line.real, V4.real, r_one', r_two']; norm_num
  have w2 : ((Line.mk ⟨0, 2, 2, 1⟩ ⟨0, 1, 2, 2⟩ : Line F32).real.scr (-(r 1) / 2) (r 2 / 2)).WF := by
    constructor <;> simp [Line.scr]
  have := (Line.exp_vec Hw.ideal_exact .sse3 w2 (by rw [e3]; norm_num)).1
  rw [V4.vec_norm, e3, Real.sqrt_sq (by norm_num)] at this
  simp only [V4.get] at h
  rw [this] at h
  exact h

/-- A motor that is not normalised. -/
private def m0 : Motor F32 := ⟨⟨1, 0, 0, 1⟩, ⟨5, 0, 0, 2⟩⟩

private theorem m0_sq : m0.p1.sq3 = 1 := by simp only [m0, V4.sq3, r_zero, r_one']; norm_num
private theorem m0_ang : m0.ang = Real.pi / 4 := by
  rw [Motor.ang, m0_sq, Real.sqrt_one]
  have h2 : (0 : ℝ) < √2 := by positivity
  have hm : √2 * √2 = 2 := Real.mul_self_sqrt (by norm_num)
  have e : (⟨r m0.p1.l0, 1⟩ : ℂ) = (√2 : ℝ) * (Complex.cos (Real.pi / 4 : ℝ) + Complex.sin (Real.pi / 4 : ℝ) * Complex.I) := by
    rw [← Complex.ofReal_cos, ← Complex.ofReal_sin, Real.cos_pi_div_four, Real.sin_pi_div_four]
    apply Complex.ext
    · simp only [m0, r_one']; simp; nlinarith
    · simp; nlinarith
  rw [e, Complex.arg_mul_cos_add_sin_mul_I h2]
  constructor <;> linarith [Real.pi_pos]
private theorem m0_scale : m0.logScale 2 = Real.pi / 2 + 2 := by
  rw [Motor.logScale, m0_ang, m0_sq, Real.sqrt_one]
  simp only [m0, r_one']; norm_num; ring

private theorem m0_dom : m0.LogDom 2 := by
  refine ⟨⟨?_, ?_, ?_, ?_, ⟨by norm_num, by norm_num⟩⟩, ?_⟩
  · exact fun i => match i with
      | 0 => Le2.one.mono (by norm_num)
      | 1 => Le2.zero.mono (by norm_num)
      | 2 => Le2.zero.mono (by norm_num)
      | 3 => Le2.one.mono (by norm_num)
  · rw [m0_sq]; norm_num
  · exact fun i => match i with
      | 0 => fun _ => by decide +kernel
      | 1 => Le2.zero.mono (by norm_num)
      | 2 => Le2.zero.mono (by norm_num)
      | 3 => fun _ => by decide +kernel
  · simp only [m0, V4.sq3, r_zero, r_two']; norm_num
  · simp only [m0, r_one']; norm_num

include hc hl in
/-- Doubling a quarter turn: the scalar of `exp(2 log(m))` vanishes. -/
example : |r ((((m0.log hw lm .sse41).mulAssign 2).exp hw lm .sse41).p1.l0)| ≤ 1.2e-5 := by
  have hpi := Real.pi_lt_d2
  have hpi' := Real.pi_gt_three
  have hd : m0.Power 2 2 := by
    refine ⟨m0_dom, by decide +kernel, ?_, ?_, ?_⟩
    · rw [m0_ang, r_two']; norm_num; linarith
    · rw [m0_ang, r_two']; norm_num at *; linarith
    · rw [m0_scale, r_two']; constructor <;> norm_num at * <;> linarith
  have h := (C95_power_p1 hc hl Hw.ideal_exact .sse41 .sse41 hd 0).2
  obtain ⟨w, n1, -⟩ := m0_dom.log_vec Hw.ideal_exact .sse41
  have n2 : ‖((m0.real.log Hw.ideal Libm.real .sse41).smul (r 2)).p1.vec‖ = Real.pi / 2 := by
    rw [(Line.smul_vec _ _).1, norm_smul, n1, m0_ang, r_two']; norm_num; ring
  have h0 : 0 < dot3 ((m0.real.log Hw.ideal Libm.real .sse41).smul (r 2)).p1
      ((m0.real.log Hw.ideal Libm.real .sse41).smul (r 2)).p1 := by
    rw [← Real.sqrt_pos, ← V4.vec_norm, n2]; linarith
  have e := (Line.exp_vec Hw.ideal_exact .sse41 (w.smul (r 2)) h0).1
  rw [n2, Real.cos_pi_div_two, ← Line.mulAssign_eq] at e
  simp only [V4.get] at h
  rw [e, sub_zero, m0_ang, r_two'] at h
  refine h.trans ?_
  norm_num at *; linarith

include hc hl in
/-- `exp(log(m))`: the scalar becomes `1/√2` and the pseudoscalar, 5 before, becomes `√2`. -/
example : |r (((m0.log hw lm .sse41).exp hw lm .sse41).p1.l0) - 1 / √2| ≤ 9e-6 ∧
    |r (((m0.log hw lm .sse41).exp hw lm .sse41).p2.l0) - 2 / √2| ≤ 2e-4 := by
  have hpi := Real.pi_lt_d2
  have hpi' := Real.pi_gt_three
  have hd : m0.Round 2 := by
    refine ⟨m0_dom, ?_, ?_⟩
    · rw [m0_ang]; norm_num; linarith
    · rw [m0_scale]; constructor <;> norm_num at * <;> linarith
  have h1 := (C95_round_p1 hc hl .sse41 hd 0).2
  have h2 := (C95_round_p2 hc hl .sse41 hd 0).2
  have e : m0.real.p1.l0 * m0.real.p1.l0 + dot3 m0.real.p1 m0.real.p1 = 2 := by
    simp only [m0, Motor.real, V4.real, dot3, r_one', r_zero]; norm_num
  have e2 : dot3 m0.real.p1 m0.real.p2 / m0.real.p1.l0 = 2 := by
    simp only [m0, Motor.real, V4.real, dot3, r_one', r_zero, r_two']; norm_num
  have e0 : m0.real.p1.l0 = 1 := r_one'
  simp only [V4.get, Motor.fix, e, e2] at h1 h2
  rw [e0] at h1
  rw [m0_ang] at h1 h2
  rw [m0_scale] at h2
  refine ⟨h1.trans ?_, h2.trans ?_⟩
  · norm_num at *; linarith
  · norm_num at *; nlinarith

end Cases

end Klein
