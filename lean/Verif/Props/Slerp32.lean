import Verif.Props.Screw32
import Verif.Props.Products32
import Mathlib.Analysis.SpecialFunctions.Trigonometric.InverseDeriv

/-!
# C97: interpolation of rotors in binary32

`exp(t * log(b * ~a)) * a` computed from rounded rotors, against the classical formula for the exact ones.  The
exponential does not expand distances (`Lemmas/ExpLip`), and up to a little over a right angle in four dimensions
(a half turn in space) neither does the logarithm by more than a constant.  Close to `a = b` the scalar part of
`b * ~a` may round to a number above one, and the result is NaN throughout.
-/

set_option linter.unusedSimpArgs false

namespace Klein

open F32

/-! ### angle over sine -/

/-- `arccos p / √(1 - p²)`, by which the logarithm of a rotor scales the bivector part. -/
noncomputable def aos (p : ℝ) : ℝ := Real.arccos p / √(1 - p ^ 2)

theorem aos_dom {p : ℝ} (h0 : -(1 / 4) ≤ p) (h1 : p < 1) : 0 < 1 - p ^ 2 := by nlinarith

theorem aos_ge {p : ℝ} (h0 : -(1 / 4) ≤ p) (h1 : p < 1) : 1 ≤ aos p := by
  rw [aos, one_le_div (Real.sqrt_pos.2 (aos_dom h0 h1)), ← Real.sin_arccos]
  exact Real.sin_le (Real.arccos_nonneg _)

theorem aos_le {p : ℝ} (h0 : -(1 / 4) ≤ p) (h1 : p < 1) : aos p ≤ 2.1 := by
  have hd := aos_dom h0 h1
  have hs := Real.sqrt_pos.2 hd
  have hsq := Real.sq_sqrt hd.le
  have hpi := Real.pi_lt_d2
  rw [aos, div_le_iff₀ hs]
  rcases le_total 0 p with hp | hp
  · have hθ : Real.arccos p ≤ Real.pi / 2 := Real.arccos_le_pi_div_two.2 hp
    have := Real.mul_le_sin (Real.arccos_nonneg p) hθ
    rw [Real.sin_arccos] at this
    have h3 : Real.arccos p ≤ Real.pi / 2 * √(1 - p ^ 2) := by
      have := mul_le_mul_of_nonneg_left this (show 0 ≤ Real.pi / 2 by positivity)
      have e : Real.pi / 2 * (2 / Real.pi * Real.arccos p) = Real.arccos p := by field_simp
      rwa [e] at this
    nlinarith
  · have ha : Real.arccos p ≤ Real.pi / 2 * (5 / 4) := by
      rw [Real.arccos, ← neg_neg p, Real.arcsin_neg]
      have hq1 : -p ≤ 1 / 4 := by linarith
      have h2 : 0 ≤ Real.arcsin (-p) := Real.arcsin_nonneg.2 (by linarith)
      have := Real.mul_le_sin h2 (Real.arcsin_le_pi_div_two _)
      rw [Real.sin_arcsin (by linarith) (by linarith)] at this
      have := mul_le_mul_of_nonneg_left this (show 0 ≤ Real.pi / 2 by positivity)
      have e : Real.pi / 2 * (2 / Real.pi * Real.arcsin (-p)) = Real.arcsin (-p) := by field_simp
      rw [e] at this
      nlinarith [Real.pi_pos]
    have h3 : 0.96 ≤ √(1 - p ^ 2) := Real.le_sqrt_of_sq_le (by norm_num; nlinarith)
    norm_num at *
    nlinarith

theorem aos_deriv {p : ℝ} (h0 : -(1 / 4) ≤ p) (h1 : p < 1) :
    HasDerivAt aos ((p * aos p - 1) / (1 - p ^ 2)) p := by
  have hd := aos_dom h0 h1
  have hs := Real.sqrt_pos.2 hd
  have hsq := Real.sq_sqrt hd.le
  have d1 := Real.hasDerivAt_arccos (x := p) (by linarith) h1.ne
  have d2 : HasDerivAt (fun x : ℝ => √(1 - x ^ 2)) (-(2 * p) / (2 * √(1 - p ^ 2))) p := by
    have : HasDerivAt (fun x : ℝ => 1 - x ^ 2) (-(2 * p)) p := by
      have := (hasDerivAt_pow 2 p).const_sub 1
      simpa using this
    exact this.sqrt hd.ne'
  have := d1.div d2 hs.ne'
  refine this.congr_deriv ?_
  rw [show aos p = Real.arccos p / √(1 - p ^ 2) from rfl]
  have e : 1 - p ^ 2 = √(1 - p ^ 2) ^ 2 := hsq.symm
  generalize √(1 - p ^ 2) = s at *
  rw [e]
  field_simp
  ring

theorem aos_lip {p p' : ℝ} (h0 : -(1 / 4) ≤ p) (h1 : p < 1) (h0' : -(1 / 4) ≤ p') (h1' : p' < 1) :
    |aos p - aos p'| ≤ 2 * |p - p'| := by
  have := (convex_Ico (-(1 / 4) : ℝ) 1).norm_image_sub_le_of_norm_hasDerivWithin_le (f := aos)
    (f' := fun p => (p * aos p - 1) / (1 - p ^ 2)) (C := 2) (x := p') (y := p)
    (fun x hx => (aos_deriv hx.1 hx.2).hasDerivWithinAt) (fun x hx => ?_) ⟨h0', h1'⟩ ⟨h0, h1⟩
  · simpa [Real.norm_eq_abs] using this
  obtain ⟨a, b⟩ := hx
  have hd := aos_dom a b
  have g1 := aos_ge a b
  have g2 := aos_le a b
  rw [Real.norm_eq_abs, abs_div, abs_of_pos hd, div_le_iff₀ hd, abs_le]
  constructor
  · rcases le_total 0 x with hx | hx
    · nlinarith
    · norm_num at *; nlinarith
  · rcases le_total 0 x with hx | hx
    · have hs := Real.sqrt_pos.2 hd
      have : x * aos x ≤ 1 := by
        rw [aos, mul_div_assoc', div_le_one hs]
        have hθ : Real.arccos x ≤ Real.pi / 2 := Real.arccos_le_pi_div_two.2 hx
        rcases eq_or_lt_of_le hx with rfl | hx
        · rw [zero_mul]; exact hs.le
        have hθ' : Real.arccos x < Real.pi / 2 := by rwa [Real.arccos_lt_pi_div_two]
        have ht := Real.le_tan (Real.arccos_nonneg x) hθ'
        rw [Real.tan_arccos, le_div_iff₀ hx] at ht
        linarith
      linarith
    · nlinarith


/-! ### the logarithm of a rounded rotor -/

/-- Every lane of `q` is within `η` of the exact rotor `Q`. -/
def Rotor.Close (q : Rotor F32) (Q : Rotor ℝ) (η : ℝ) : Prop :=
  ∀ i : Fin 4, (q.p1.get i).isFinite = true ∧ |r (q.p1.get i) - Q.p1.get i| ≤ η

theorem Rotor.lane_le {Q : Rotor ℝ} (h : Q.sqNorm = 1) (i : Fin 4) : |Q.p1.get i| ≤ 1 := by
  refine abs_le_of_sq_le_sq ?_ zero_le_one
  simp only [Rotor.sqNorm, kln] at h
  have := sq_nonneg Q.p1.l0; have := sq_nonneg Q.p1.l1; have := sq_nonneg Q.p1.l2; have := sq_nonneg Q.p1.l3
  match i with
  | 0 => simp only [V4.get]; nlinarith
  | 1 => simp only [V4.get]; nlinarith
  | 2 => simp only [V4.get]; nlinarith
  | 3 => simp only [V4.get]; nlinarith

/-- The logarithm over the reals, not assuming a unit rotor. -/
theorem Rotor.log_aos {hwr : Hw ℝ} (hx : hwr.Exact) (isa : Isa) (q : Rotor ℝ) (h0 : -(1 / 4) ≤ q.p1.l0) (h1 : q.p1.l0 < 1) :
    q.log hwr Libm.real isa =
      ⟨⟨0, q.p1.l1 * aos q.p1.l0, q.p1.l2 * aos q.p1.l0, q.p1.l3 * aos q.p1.l0⟩⟩ := by
  have hs := Real.sqrt_pos.2 (aos_dom h0 h1)
  have e : q = ⟨⟨q.p1.l0, q.p1.l1, q.p1.l2, q.p1.l3⟩⟩ := rfl
  rw [e, Rotor.log_real hx isa _ _ _ rfl (Real.sin_arccos _) hs.ne']
  simp only [aos, Branch.mk.injEq, V4.mk.injEq, true_and]
  refine ⟨?_, ?_, ?_⟩ <;> field_simp

/-- A float below one is at least half a unit in the last place below it. -/
theorem F32.lt_one_le {x : F32} (h : r x < 1) : r x ≤ 1 - 1 / 2 ^ 24 := by
  rw [r, show (1 : ℝ) = ((1 : ℚ) : ℝ) by norm_num, Rat.cast_lt] at h
  have key : x.val ≤ 1 - 1 / 2 ^ 24 := by
    cases hs : x.sign
    · have e : x.val = magVal x.mag := by rw [val, hs]; rfl
      rw [e] at h ⊢
      have h1 : magVal 1065353216 = 1 := by decide +kernel
      have h2 : magVal 1065353215 ≤ 1 - 1 / 2 ^ 24 := by decide +kernel
      rw [← h1] at h
      have h3 : x.mag.val < 1065353215 + 1 := magVal_strictMono.lt_iff_lt.1 h
      exact (magVal_strictMono.monotone (Nat.lt_succ_iff.1 h3)).trans h2
    · have e : x.val = -magVal x.mag := by rw [val, hs]; rfl
      rw [e]
      have := magVal_nonneg x.mag.val
      norm_num; linarith
  have : ((x.val : ℚ) : ℝ) ≤ ((1 - 1 / 2 ^ 24 : ℚ) : ℝ) := Rat.cast_le.2 key
  push_cast at this
  exact this

section
variable {hw : Hw F32} (hc : hw.Contract32) {lm : Libm F32} (hl : lm.Contract32) {hwr : Hw ℝ} (hx : hwr.Exact)
  (isa isa' : Isa)
include hc hl hx

/-- C97: the logarithm computed from a rounded rotor, against the logarithm of the exact rotor. -/
theorem C97_rotor_log {q : Rotor F32} {Q : Rotor ℝ} (hQ : Q.sqNorm = 1) (h0 : -(1 / 8) ≤ Q.p1.l0)
    (k1 : Q.p1.l0 < 1) (g1' : r q.p1.l0 < 1) {η : ℝ} (hη : η ≤ 1 / 2 ^ 18) (h : q.Close Q η) (i : Fin 4) :
    ((q.log hw lm isa).p1.get i).isFinite = true ∧
      |r ((q.log hw lm isa).p1.get i) - (Q.log hwr Libm.real isa').p1.get i| ≤ 3.3e-6 + 4.2 * η := by
  have hη0 : 0 ≤ η := (abs_nonneg _).trans (h 0).2
  have a0 := abs_le.1 (h 0).2
  simp only [V4.get] at a0
  have g0 : -(1 / 4) ≤ r q.p1.l0 := by norm_num at *; linarith
  have g1 := lt_one_le g1'
  have k0 : -(1 / 4) ≤ Q.p1.l0 := by norm_num at *; linarith
  have hs := Real.sqrt_pos.2 (aos_dom g0 g1')
  have f1 := aos_ge g0 g1'
  have f2 := aos_le g0 g1'
  have f3 := aos_lip g0 g1' k0 k1
  have f4 := f3.trans (mul_le_mul_of_nonneg_left (h 0).2 (by norm_num))
  have dom : q.LogDom 2.1 1.01 := by
    refine ⟨fun j => (h j).1, abs_le.2 ⟨by linarith, g1'.le⟩, ?_, ?_, by norm_num, fun j _ => ?_, ⟨by norm_num, by norm_num⟩⟩
    · refine Real.le_sqrt_of_sq_le ?_
      norm_num at *; nlinarith
    · rw [aos, div_le_iff₀ hs] at f2; exact f2
    · have := abs_le.1 (h j).2
      have := abs_le.1 (Rotor.lane_le hQ j)
      rw [abs_le]; norm_num at *
      constructor <;> linarith
  obtain ⟨l1, l2⟩ := C79_rotor_log hc hl hx isa isa' dom i
  refine ⟨l1, ?_⟩
  have l3 : |r ((q.log hw lm isa).p1.get i) - (q.real.log hwr Libm.real isa').p1.get i| ≤ 3.3e-6 := by
    refine l2.trans ?_
    have : Real.arccos (r q.p1.l0) / √(1 - r q.p1.l0 ^ 2) = aos (r q.p1.l0) := rfl
    rw [this]; norm_num at *; linarith
  have l4 : |(q.real.log hwr Libm.real isa').p1.get i - (Q.log hwr Libm.real isa').p1.get i| ≤ 4.2 * η := by
    rw [Rotor.log_aos hx isa' Q k0 k1, Rotor.log_aos hx isa' q.real g0 g1']
    have key : ∀ j : Fin 4, |r (q.p1.get j) * aos (r q.p1.l0) - Q.p1.get j * aos Q.p1.l0| ≤ 4.2 * η := fun j => by
      have e : r (q.p1.get j) * aos (r q.p1.l0) - Q.p1.get j * aos Q.p1.l0 =
        (r (q.p1.get j) - Q.p1.get j) * aos (r q.p1.l0) + Q.p1.get j * (aos (r q.p1.l0) - aos Q.p1.l0) := by ring
      rw [e]
      refine (abs_add_le _ _).trans ?_
      rw [abs_mul, abs_mul, abs_of_pos (by linarith : 0 < aos (r q.p1.l0))]
      have m1 := mul_le_mul (h j).2 f2 (by linarith) hη0
      have m2 := mul_le_mul (Rotor.lane_le hQ j) f4 (abs_nonneg _) zero_le_one
      norm_num at *
      linarith
    match i with
    | 0 => simp only [V4.get, sub_zero, abs_zero]; positivity
    | 1 => exact key 1
    | 2 => exact key 2
    | 3 => exact key 3
  have := abs_add_le (r ((q.log hw lm isa).p1.get i) - (q.real.log hwr Libm.real isa').p1.get i)
    ((q.real.log hwr Libm.real isa').p1.get i - (Q.log hwr Libm.real isa').p1.get i)
  rw [sub_add_sub_cancel] at this
  linarith
omit hc hl hx in
theorem V4.real_sq3 (v : V4 F32) : dot3 v.real v.real = v.sq3 := by
  simp only [dot3, V4.real, V4.sq3]; ring

omit hc hl in
/-- The exact exponential of branches does not expand distances. -/
theorem Branch.exp_lip {n n' : Branch ℝ} (w : n.WF) (w' : n'.WF) (hn : 0 < dot3 n.p1 n.p1) (hn' : 0 < dot3 n'.p1 n'.p1)
    (i : Fin 4) :
    |(n.exp hwr Libm.real isa).p1.get i - (n'.exp hwr Libm.real isa').p1.get i| ≤ ‖n.p1.vec - n'.p1.vec‖ := by
  have h := ExpLip.rotor_lip (b := n.p1.vec) (b' := n'.p1.vec) (by rw [V4.vec_norm]; exact Real.sqrt_pos.2 hn)
    (by rw [V4.vec_norm]; exact Real.sqrt_pos.2 hn')
  rw [Branch.exp_eq hx isa n w hn rfl, Branch.exp_eq hx isa' n' w' hn' rfl, ← V4.vec_norm, ← V4.vec_norm]
  have hv : ∀ j : Fin 3, |(ExpLip.S ‖n.p1.vec‖ • n.p1.vec - ExpLip.S ‖n'.p1.vec‖ • n'.p1.vec) j| ≤ ‖n.p1.vec - n'.p1.vec‖ :=
    fun j => (vec_lane _ j).trans (abs_le_of_sq_le_sq' (by nlinarith [sq_nonneg (Real.cos ‖n.p1.vec‖ - Real.cos ‖n'.p1.vec‖)]) (norm_nonneg _)).2
  match i with
  | 0 => exact abs_le_of_sq_le_sq (by
      simp only [V4.get]
      nlinarith [sq_nonneg ‖ExpLip.S ‖n.p1.vec‖ • n.p1.vec - ExpLip.S ‖n'.p1.vec‖ • n'.p1.vec‖]) (norm_nonneg _)
  | 1 => simpa [V4.vec, ExpLip.S] using hv 0
  | 2 => simpa [V4.vec, ExpLip.S] using hv 1
  | 3 => simpa [V4.vec, ExpLip.S] using hv 2

omit hx in
/-- The logarithm is at least about as large as the bivector part. -/
theorem Rotor.log_norm {q : Rotor F32} (hf : q.p1.Finite) (g0 : -(1 / 4) ≤ r q.p1.l0) (g1' : r q.p1.l0 < 1)
    (hB : In2 (√q.p1.sq3) 30 30) : 0.99 * √q.p1.sq3 ≤ ‖(q.log hw lm isa).p1.real.vec‖ := by
  have g1 := lt_one_le g1'
  have hs := Real.sqrt_pos.2 (aos_dom g0 g1')
  have f1 := aos_ge g0 g1'
  have f2 := aos_le g0 g1'
  have hB0 := hB.pos
  have dom : q.LogDom 2.1 √q.p1.sq3 := by
    refine ⟨hf, abs_le.2 ⟨by linarith, g1'.le⟩, ?_, ?_, by norm_num, fun j hj => ?_, hB⟩
    · refine Real.le_sqrt_of_sq_le ?_
      norm_num at *; nlinarith
    · rw [aos, div_le_iff₀ hs] at f2; exact f2
    · exact lane_le3 (Real.sqrt_nonneg _) (sq3_sqrt q.p1) j hj
  have key := fun i => (C79_rotor_log hc hl Hw.ideal_exact isa isa dom i).2
  rw [Rotor.log_aos Hw.ideal_exact isa q.real g0 g1'] at key
  have ea : Real.arccos (r q.p1.l0) / √(1 - r q.p1.l0 ^ 2) = aos (r q.p1.l0) := rfl
  rw [ea] at key
  have e0 : (0 : ℝ) ≤ (1e-6 + 2.5e-7 * 2.1) * (√q.p1.sq3 * aos (r q.p1.l0)) := by positivity
  have hv := V4.vec_sub_norm (v := (q.log hw lm isa).p1.real)
    (w := ⟨0, r q.p1.l1 * aos (r q.p1.l0), r q.p1.l2 * aos (r q.p1.l0), r q.p1.l3 * aos (r q.p1.l0)⟩) e0
    (fun j hj => by
      have := key j
      match j with
      | 0 => exact absurd rfl hj
      | 1 => exact this
      | 2 => exact this
      | 3 => exact this)
  have hw' : ‖(⟨0, r q.p1.l1 * aos (r q.p1.l0), r q.p1.l2 * aos (r q.p1.l0), r q.p1.l3 * aos (r q.p1.l0)⟩ : V4 ℝ).vec‖ =
      aos (r q.p1.l0) * √q.p1.sq3 := by
    rw [V4.vec_norm]
    have : dot3 (⟨0, r q.p1.l1 * aos (r q.p1.l0), r q.p1.l2 * aos (r q.p1.l0), r q.p1.l3 * aos (r q.p1.l0)⟩ : V4 ℝ)
        ⟨0, r q.p1.l1 * aos (r q.p1.l0), r q.p1.l2 * aos (r q.p1.l0), r q.p1.l3 * aos (r q.p1.l0)⟩ = aos (r q.p1.l0) ^ 2 * q.p1.sq3 := by
      simp only [dot3, V4.sq3]; ring
    rw [this, Real.sqrt_mul (sq_nonneg _), Real.sqrt_sq (by linarith)]
  have h3 := norm_sub_norm_le (⟨0, r q.p1.l1 * aos (r q.p1.l0), r q.p1.l2 * aos (r q.p1.l0), r q.p1.l3 * aos (r q.p1.l0)⟩ : V4 ℝ).vec
    (q.log hw lm isa).p1.real.vec
  rw [norm_sub_rev, hw'] at h3
  have h4 : √q.p1.sq3 ≤ aos (r q.p1.l0) * √q.p1.sq3 := le_mul_of_one_le_left hB0.le f1
  norm_num at hv h3 ⊢
  linarith

/-- C97: powers of a rounded rotor, `exp(t * log(q))`. -/
theorem C97_rotor_power {q : Rotor F32} {Q : Rotor ℝ} (hQ : Q.sqNorm = 1) (h0 : -(1 / 8) ≤ Q.p1.l0)
    (k1 : Q.p1.l0 < 1) (hq1 : r q.p1.l0 < 1) {η : ℝ} (hη : η ≤ 1 / 2 ^ 18) (h : q.Close Q η) {t : F32} (ht : t.isFinite = true)
    (ht1 : |r t| ≤ 3 / 2) (hm : 1 / 2 ^ 29 ≤ |r t| * √q.p1.sq3) :
    Rotor.Close (((q.log hw lm isa).mulAssign t).exp hw lm isa) (((Q.log hwr Libm.real isa').smul (r t)).exp hwr Libm.real isa')
      (6.7e-6 + |r t| * (6.1e-6 + 7.4 * η)) := by
  have hη0 : 0 ≤ η := (abs_nonneg _).trans (h 0).2
  have k0 : -(1 / 4) ≤ Q.p1.l0 := by norm_num at *; linarith
  have hlog := C97_rotor_log hc hl hx isa isa' hQ h0 k1 hq1 hη h
  have hS1 : √q.p1.sq3 ≤ 2 := by
    refine Real.sqrt_le_iff.2 ⟨by norm_num, ?_⟩
    have l : ∀ j : Fin 4, r (q.p1.get j) ^ 2 ≤ 1.01 ^ 2 := fun j => by
      rw [← sq_abs]
      refine pow_le_pow_left₀ (abs_nonneg _) ?_ 2
      have := abs_le.1 (h j).2
      have := abs_le.1 (Rotor.lane_le hQ j)
      rw [abs_le]; norm_num at *
      constructor <;> linarith
    have l1 := l 1; have l2 := l 2; have l3 := l 3
    simp only [V4.get] at l1 l2 l3
    unfold V4.sq3; norm_num at *; linarith
  have hS0 : 1 / 2 ^ 30 ≤ √q.p1.sq3 := by
    have := mul_le_mul_of_nonneg_right ht1 (Real.sqrt_nonneg q.p1.sq3)
    norm_num at *; linarith
  have ht0 : 1 / 2 ^ 30 ≤ |r t| := by
    have := mul_le_mul_of_nonneg_left hS1 (abs_nonneg (r t))
    norm_num at *; linarith
  have hnn := Rotor.log_norm hc hl isa (q := q) (fun j => (h j).1) (by
    have := abs_le.1 (h 0).2
    simp only [V4.get] at this
    norm_num at *; linarith) hq1 ⟨hS0, hS1.trans (by norm_num)⟩
  have hd : dot3 Q.p1 Q.p1 = 1 - Q.p1.l0 ^ 2 := by
    simp only [Rotor.sqNorm, kln] at hQ; simp only [dot3]; linarith
  have eN := Rotor.log_aos hx isa' Q k0 k1
  have f1 := aos_ge k0 k1
  have f2 := aos_le k0 k1
  obtain ⟨N, hN⟩ : ∃ N, N = Q.log hwr Libm.real isa' := ⟨_, rfl⟩
  obtain ⟨n, hn⟩ : ∃ n, n = q.log hw lm isa := ⟨_, rfl⟩
  rw [← hN, ← hn]
  rw [← hN, ← hn] at hlog
  rw [← hn] at hnn
  rw [← hN] at eN
  have el : (n.p1.l0) = 0 := by rw [hn]; cases isa <;> rfl
  have hNd : dot3 N.p1 N.p1 = aos Q.p1.l0 ^ 2 * (1 - Q.p1.l0 ^ 2) := by
    rw [← hd, eN]; simp only [dot3]; ring
  have hNl : 0 < dot3 N.p1 N.p1 := by
    rw [hNd]
    have := aos_dom k0 k1
    positivity
  have hNu : dot3 N.p1 N.p1 ≤ 2.1 ^ 2 := by
    rw [hNd]
    have := sq_nonneg Q.p1.l0
    have h2 : aos Q.p1.l0 ^ 2 ≤ 2.1 ^ 2 := pow_le_pow_left₀ (by linarith) f2 2
    nlinarith [sq_nonneg (aos Q.p1.l0)]
  have hN0 : N.p1.l0 = 0 := by rw [eN]
  clear hn hN eN hNd
  have hNl' : ∀ j : Fin 4, j ≠ 0 → |N.p1.get j| ≤ 2.1 := fun j hj => by
    refine abs_le_of_sq_le_sq ?_ (by norm_num)
    simp only [dot3] at hNu
    have := sq_nonneg N.p1.l1; have := sq_nonneg N.p1.l2; have := sq_nonneg N.p1.l3
    match j with
    | 0 => exact absurd rfl hj
    | 1 => simp only [V4.get]; nlinarith
    | 2 => simp only [V4.get]; nlinarith
    | 3 => simp only [V4.get]; nlinarith
  have u1 := u_le
  have u0 := u_pos
  have T0 : 0 < |r t| := lt_of_lt_of_le (by positivity) ht0
  -- the scaled logarithm
  have hX : ∀ j : Fin 4, ((n.mulAssign t).p1.get j).isFinite = true ∧
      (j ≠ 0 → |r ((n.mulAssign t).p1.get j) - (N.smul (r t)).p1.get j| ≤ |r t| * (3.5e-6 + 4.2 * η)) := fun j => by
    have e : (n.mulAssign t).p1.get j = n.p1.get j * t := by
      match j with
      | 0 => rfl
      | 1 => rfl
      | 2 => rfl
      | 3 => rfl
    have e' : (N.smul (r t)).p1.get j = N.p1.get j * r t := by
      match j with
      | 0 => rfl
      | 1 => rfl
      | 2 => rfl
      | 3 => rfl
    rw [e, e']
    by_cases hj : j = 0
    · subst hj
      refine ⟨?_, fun hh => absurd rfl hh⟩
      refine (mul_ok (by simp only [V4.get]; rw [el]; rfl) ht ?_).1
      simp only [V4.get]; rw [el, r_zero, zero_mul, abs_zero]; positivity
    obtain ⟨g1, g2⟩ := hlog j
    have g3 := hNl' j hj
    generalize n.p1.get j = x at *
    generalize N.p1.get j = y at *
    have g4 : |r x| ≤ 2.2 := by
      have := abs_add_le (r x - y) y
      rw [sub_add_cancel] at this
      norm_num at *; linarith
    have g5 : |r x * r t| ≤ 2.2 * |r t| := by rw [abs_mul]; exact mul_le_mul_of_nonneg_right g4 T0.le
    obtain ⟨m1, m2⟩ := mul_ok g1 ht (g5.trans (by norm_num at *; linarith))
    refine ⟨m1, fun _ => ?_⟩
    have g6 : max (1 / 2 ^ 126) |r x * r t| ≤ 2.2 * |r t| := max_le (by norm_num at *; linarith) g5
    have g7 : |r x * r t - y * r t| ≤ (3.3e-6 + 4.2 * η) * |r t| := by
      rw [← sub_mul, abs_mul]; exact mul_le_mul_of_nonneg_right g2 T0.le
    have g8 := abs_add_le (r (x * t) - r x * r t) (r x * r t - y * r t)
    rw [sub_add_sub_cancel] at g8
    have g9 : u * max (1 / 2 ^ 126) |r x * r t| ≤ 6e-8 * (2.2 * |r t|) :=
      mul_le_mul (u1.trans (by norm_num)) g6 (by positivity) (by norm_num)
    have g10 : |r t| * (3.5e-6 + 4.2 * η) = (3.3e-6 + 4.2 * η) * |r t| + 2e-7 * |r t| := by ring
    rw [g10]
    have g11 := m2.trans g9
    clear m2 g9 g6 g10
    norm_num at g7 g11 ⊢
    linarith [T0]
  obtain ⟨X, hXd⟩ : ∃ X, X = n.mulAssign t := ⟨_, rfl⟩
  have hX0 : r X.p1.l0 = 0 := by
    have e : X.p1.l0 = 0 * t := by rw [hXd, ← el]; rfl
    rw [e]
    rw [mul_round rfl ht, show F32.val 0 = 0 from by decide +kernel, zero_mul, r, round_zero_val, Rat.cast_zero]
  rw [← hXd] at hX ⊢
  have hv := V4.vec_sub_norm (v := X.p1.real) (w := (N.smul (r t)).p1) (e := |r t| * (3.5e-6 + 4.2 * η)) (by positivity)
    (fun j hj => by
      have := (hX j).2 hj
      match j with
      | 0 => exact absurd rfl hj
      | 1 => exact this
      | 2 => exact this
      | 3 => exact this)
  have hsm : dot3 (N.smul (r t)).p1 (N.smul (r t)).p1 = |r t| ^ 2 * dot3 N.p1 N.p1 := by
    rw [sq_abs]; simp only [kln, sse, dot3]; ring
  have hsn : ‖(N.smul (r t)).p1.vec‖ = |r t| * √(dot3 N.p1 N.p1) := by
    rw [V4.vec_norm, hsm, Real.sqrt_mul (by positivity), Real.sqrt_sq T0.le]
  have s2 : √(dot3 N.p1 N.p1) ≤ 2.1 := Real.sqrt_le_iff.2 ⟨by norm_num, hNu⟩
  have t1 : |r t| * (3.5e-6 + 4.2 * η) ≤ |r t| * 2e-5 := mul_le_mul_of_nonneg_left (by norm_num at *; linarith) T0.le
  have n1 : ‖X.p1.real.vec‖ ≤ 4 := by
    have := norm_le_norm_sub_add X.p1.real.vec (N.smul (r t)).p1.vec
    rw [hsn] at this
    have : |r t| * √(dot3 N.p1 N.p1) ≤ 3 / 2 * 2.1 := mul_le_mul ht1 s2 (Real.sqrt_nonneg _) (by norm_num)
    norm_num at *; linarith
  have n2 : 1 / 2 ^ 30 ≤ ‖X.p1.real.vec‖ := by
    have hT : 0.99 / 2 ^ 29 ≤ |r t| * ‖n.p1.real.vec‖ := by
      have := mul_le_mul_of_nonneg_left hnn T0.le
      norm_num at hm this ⊢; linarith
    have lane : ∀ j : Fin 4, j ≠ 0 → |r (n.p1.get j)| ≤ ‖n.p1.real.vec‖ := fun j hj => by
      rw [V4.vec_norm, V4.real_sq3]; exact lane_le3 (Real.sqrt_nonneg _) (sq3_sqrt n.p1) j hj
    have hv2 := V4.vec_sub_norm (v := X.p1.real) (w := (n.real.smul (r t)).p1) (e := 6e-8 * (|r t| * ‖n.p1.real.vec‖)) (by positivity)
      (fun j hj => by
        have hj' := lane j hj
        have hj2 : |r (n.p1.get j) * r t| ≤ |r t| * ‖n.p1.real.vec‖ := by
          rw [abs_mul, mul_comm]; exact mul_le_mul_of_nonneg_left hj' T0.le
        have hb2 : |r (n.p1.get j)| ≤ 2.2 := by
          have g3 := hNl' j hj
          have g2 := (hlog j).2
          have := abs_sub_abs_le_abs_sub (r (n.p1.get j)) (N.p1.get j)
          norm_num at *; linarith
        have hb3 : |r (n.p1.get j) * r t| ≤ 2 ^ 100 := by
          rw [abs_mul]
          refine (mul_le_mul hb2 ht1 (abs_nonneg _) (by norm_num)).trans (by norm_num)
        have m2 := (mul_ok (hlog j).1 ht (hb3.trans (by norm_num))).2
        have m3 : u * max (1 / 2 ^ 126) |r (n.p1.get j) * r t| ≤ 6e-8 * (|r t| * ‖n.p1.real.vec‖) :=
          mul_le_mul (u1.trans (by norm_num)) (max_le (le_trans (by norm_num) hT) hj2) (by positivity) (by norm_num)
        have m4 := m2.trans m3
        rw [hXd]
        match j with
        | 0 => exact absurd rfl hj
        | 1 => exact m4
        | 2 => exact m4
        | 3 => exact m4)
    have hsn2 : ‖(n.real.smul (r t)).p1.vec‖ = |r t| * ‖n.p1.real.vec‖ := by
      rw [V4.vec_norm, V4.vec_norm]
      have : dot3 (n.real.smul (r t)).p1 (n.real.smul (r t)).p1 = |r t| ^ 2 * dot3 n.p1.real n.p1.real := by
        rw [sq_abs]; simp only [kln, sse, dot3, Branch.real]; ring
      rw [this, Real.sqrt_mul (by positivity), Real.sqrt_sq T0.le]
    have := norm_sub_norm_le (n.real.smul (r t)).p1.vec X.p1.real.vec
    rw [norm_sub_rev, hsn2] at this
    norm_num at hv2 this hT ⊢; linarith
  rw [V4.vec_norm, V4.real_sq3] at n1 n2
  have n3 : 1 / 2 ^ 60 ≤ X.p1.sq3 := by
    have h1 := Real.sq_sqrt (show 0 ≤ X.p1.sq3 by unfold V4.sq3; positivity)
    have h2 := pow_le_pow_left₀ (by positivity) n2 2
    rw [h1] at h2
    norm_num at *; linarith
  have n0 : 0 < X.p1.sq3 := lt_of_lt_of_le (by positivity) n3
  have hle : X.p1.Le2 30 := fun j => by
    by_cases hj : j = 0
    · subst hj
      refine le2_of_abs (hX 0).1 ?_
      simp only [V4.get]; rw [hX0, abs_zero]; positivity
    · exact le2_of_abs (hX j).1 ((lane_le3 (Real.sqrt_nonneg _) (sq3_sqrt X.p1) j hj).trans (n1.trans (by norm_num)))
  intro i
  obtain ⟨b1, b2⟩ := C79_branch_exp hc hl hx isa isa' X hle hX0 n3 n1 i
  refine ⟨b1, ?_⟩
  have b3 := Branch.exp_lip hx isa' isa' (n := X.real) (n' := N.smul (r t)) hX0 (by
      show N.p1.l0 * r t = 0
      rw [hN0, zero_mul]) (by show 0 < dot3 X.p1.real X.p1.real; rw [V4.real_sq3]; exact n0) (by rw [hsm]; positivity) i
  have b4 := abs_add_le (r ((X.exp hw lm isa).p1.get i) - (X.real.exp hwr Libm.real isa').p1.get i)
    ((X.real.exp hwr Libm.real isa').p1.get i - ((N.smul (r t)).exp hwr Libm.real isa').p1.get i)
  rw [sub_add_sub_cancel] at b4
  have b5 : ‖X.real.p1.vec - (N.smul (r t)).p1.vec‖ ≤ _ := hv
  norm_num at *
  nlinarith
end

/-! ### products of rounded rotors -/

theorem Rotor.mul_lane {x y : Rotor ℝ} {α β : ℝ} (hα : 0 ≤ α) (hβ : 0 ≤ β) (hx : x.sqNorm ≤ α ^ 2) (hy : y.sqNorm ≤ β ^ 2)
    (i : Fin 4) : |(x.mulRotor y).p1.get i| ≤ α * β := by
  have e : (x.mulRotor y).sqNorm = x.sqNorm * y.sqNorm := by
    simp only [Rotor.sqNorm, kln, sse, cond_true, cond_false]; ring
  have h : (x.mulRotor y).sqNorm ≤ (α * β) ^ 2 := by
    rw [e, mul_pow]
    refine mul_le_mul hx hy ?_ (sq_nonneg _)
    simp only [Rotor.sqNorm]; nlinarith [mul_self_nonneg y.scalar, mul_self_nonneg y.e23, mul_self_nonneg y.e31, mul_self_nonneg y.e12]
  refine abs_le_of_sq_le_sq ?_ (mul_nonneg hα hβ)
  generalize x.mulRotor y = z at *
  simp only [Rotor.sqNorm, kln] at h
  have := sq_nonneg z.p1.l0; have := sq_nonneg z.p1.l1; have := sq_nonneg z.p1.l2; have := sq_nonneg z.p1.l3
  match i with
  | 0 => simp only [V4.get]; linarith
  | 1 => simp only [V4.get]; linarith
  | 2 => simp only [V4.get]; linarith
  | 3 => simp only [V4.get]; linarith

theorem Rotor.sq_le {x : Rotor ℝ} {e : ℝ} (h : ∀ i : Fin 4, |x.p1.get i| ≤ e) : x.sqNorm ≤ (2 * e) ^ 2 := by
  have q : ∀ i : Fin 4, x.p1.get i ^ 2 ≤ e ^ 2 := fun i => by
    rw [← sq_abs]; exact pow_le_pow_left₀ (abs_nonneg _) (h i) 2
  have q0 := q 0; have q1 := q 1; have q2 := q 2; have q3 := q 3
  simp only [V4.get] at q0 q1 q2 q3
  simp only [Rotor.sqNorm, kln]
  nlinarith

theorem Rotor.Close.rev {a : Rotor F32} {A : Rotor ℝ} {δ : ℝ} (h : a.Close A δ) : a.rev.Close A.rev δ := by
  have n : ∀ {x : F32} {X : ℝ}, x.isFinite = true ∧ |r x - X| ≤ δ → (-x).isFinite = true ∧ |r (-x) - -X| ≤ δ := by
    rintro x X ⟨h1, h2⟩
    refine ⟨h1, ?_⟩
    rw [r_neg, ← neg_sub', abs_neg]; exact h2
  intro i
  match i with
  | 0 => exact h 0
  | 1 => exact n (h 1)
  | 2 => exact n (h 2)
  | 3 => exact n (h 3)

theorem Rotor.Close.mul {a b : Rotor F32} {A B : Rotor ℝ} {δ ε : ℝ} (hA : A.sqNorm = 1) (hB : B.sqNorm = 1)
    (ha : a.Close A δ) (hb : b.Close B ε) (hδ : δ ≤ 1 / 1000) (hε : ε ≤ 1 / 1000) :
    (a.mulRotor b).Close (A.mulRotor B) (7.8e-7 + 2.01 * δ + 2 * ε) := by
  have hδ0 : 0 ≤ δ := (abs_nonneg _).trans (ha 0).2
  have hε0 : 0 ≤ ε := (abs_nonneg _).trans (hb 0).2
  have w : ∀ {a : Rotor F32} {A : Rotor ℝ} {δ : ℝ}, A.sqNorm = 1 → a.Close A δ → δ ≤ 1 / 1000 → a.Within 1.001 := by
    intro a A δ hA ha hδ
    have k : ∀ i : Fin 4, |r (a.p1.get i)| ≤ 1.001 := fun i => by
      have := abs_le.1 (ha i).2
      have := abs_le.1 (Rotor.lane_le hA i)
      rw [abs_le]; norm_num at *
      constructor <;> linarith
    exact ⟨fun i => (ha i).1, k 0, k 1, k 2, k 3⟩
  have s : ∀ {a : Rotor F32} {A : Rotor ℝ} {δ : ℝ}, a.Close A δ →
      (⟨⟨r a.p1.l0 - A.p1.l0, r a.p1.l1 - A.p1.l1, r a.p1.l2 - A.p1.l2, r a.p1.l3 - A.p1.l3⟩⟩ : Rotor ℝ).sqNorm ≤ (2 * δ) ^ 2 := by
    intro a A δ h
    refine Rotor.sq_le fun i => ?_
    match i with
    | 0 => exact (h 0).2
    | 1 => exact (h 1).2
    | 2 => exact (h 2).2
    | 3 => exact (h 3).2
  have nb : b.real.sqNorm ≤ (1 + 2 * ε) ^ 2 := by
    have h1 := s hb
    simp only [Rotor.sqNorm, kln, Rotor.real, V4.real] at *
    have cs : r b.p1.l0 * B.p1.l0 + r b.p1.l1 * B.p1.l1 + r b.p1.l2 * B.p1.l2 + r b.p1.l3 * B.p1.l3 - 1 ≤ 2 * ε := by
      refine abs_le_of_sq_le_sq' (a := _) ?_ (by positivity) |>.2
      generalize r b.p1.l0 = x0 at *; generalize r b.p1.l1 = x1 at *; generalize r b.p1.l2 = x2 at *; generalize r b.p1.l3 = x3 at *
      generalize B.p1.l0 = y0 at *; generalize B.p1.l1 = y1 at *; generalize B.p1.l2 = y2 at *; generalize B.p1.l3 = y3 at *
      have e : x0 * y0 + x1 * y1 + x2 * y2 + x3 * y3 - 1 = (x0 - y0) * y0 + (x1 - y1) * y1 + (x2 - y2) * y2 + (x3 - y3) * y3 := by
        linear_combination hB
      rw [e]
      generalize x0 - y0 = d0 at *; generalize x1 - y1 = d1 at *; generalize x2 - y2 = d2 at *; generalize x3 - y3 = d3 at *
      have : (d0 * y0 + d1 * y1 + d2 * y2 + d3 * y3) ^ 2 ≤ (d0 * d0 + d1 * d1 + d2 * d2 + d3 * d3) * (y0 * y0 + y1 * y1 + y2 * y2 + y3 * y3) := by
        nlinarith [sq_nonneg (d0 * y1 - d1 * y0), sq_nonneg (d0 * y2 - d2 * y0), sq_nonneg (d0 * y3 - d3 * y0),
          sq_nonneg (d1 * y2 - d2 * y1), sq_nonneg (d1 * y3 - d3 * y1), sq_nonneg (d2 * y3 - d3 * y2)]
      rw [hB, mul_one] at this
      exact this.trans h1
    nlinarith
  have hp := Products32.C90_rotor_mul_rotor (A := 1.001) (B := 1.001) ⟨by norm_num, by norm_num⟩ ⟨by norm_num, by norm_num⟩
    (w hA ha hδ) (w hB hb hε)
  have hp' : ∀ i : Fin 4, ((a.mulRotor b).p1.get i).isFinite = true ∧
      |r ((a.mulRotor b).p1.get i) - (a.real.mulRotor b.real).p1.get i| ≤ 7.8e-7 := fun i => by
    have c : ∀ {x : F32} {E : ℝ}, Near32 x E (13 * (1.001 * 1.001)) → x.isFinite = true ∧ |r x - E| ≤ 7.8e-7 :=
      fun h => ⟨h.1, h.2.trans (by norm_num)⟩
    match i with
    | 0 => exact c hp.1
    | 1 => exact c hp.2.1
    | 2 => exact c hp.2.2.1
    | 3 => exact c hp.2.2.2
  have m1 := Rotor.mul_lane (by positivity) (by positivity) (s ha) nb
  have m2 := Rotor.mul_lane (by positivity) (by positivity) (show A.sqNorm ≤ 1 ^ 2 by rw [hA]; norm_num) (s hb)
  intro i
  refine ⟨(hp' i).1, ?_⟩
  have e : (a.real.mulRotor b.real).p1.get i - (A.mulRotor B).p1.get i =
      ((⟨⟨r a.p1.l0 - A.p1.l0, r a.p1.l1 - A.p1.l1, r a.p1.l2 - A.p1.l2, r a.p1.l3 - A.p1.l3⟩⟩ : Rotor ℝ).mulRotor b.real).p1.get i +
      (A.mulRotor (⟨⟨r b.p1.l0 - B.p1.l0, r b.p1.l1 - B.p1.l1, r b.p1.l2 - B.p1.l2, r b.p1.l3 - B.p1.l3⟩⟩ : Rotor ℝ)).p1.get i := by
    match i with
    | 0 => simp only [V4.get, kln, sse, cond_true, cond_false, Rotor.real, V4.real]; ring
    | 1 => simp only [V4.get, kln, sse, cond_true, cond_false, Rotor.real, V4.real]; ring
    | 2 => simp only [V4.get, kln, sse, cond_true, cond_false, Rotor.real, V4.real]; ring
    | 3 => simp only [V4.get, kln, sse, cond_true, cond_false, Rotor.real, V4.real]; ring
  have h1 := abs_add_le (r ((a.mulRotor b).p1.get i) - (a.real.mulRotor b.real).p1.get i)
    ((a.real.mulRotor b.real).p1.get i - (A.mulRotor B).p1.get i)
  rw [sub_add_sub_cancel] at h1
  have h2 := (abs_add_le _ _).trans (add_le_add (m1 i) (m2 i))
  rw [← e] at h2
  have h3 := (hp' i).2
  clear hp hp' m1 m2 e
  norm_num at h3 h2 h1 hε ⊢
  nlinarith

section
variable {hw : Hw F32} (hc : hw.Contract32) {lm : Libm F32} (hl : lm.Contract32) {hwr : Hw ℝ} (hx : hwr.Exact)
  (isa isa' : Isa)
include hx

theorem Branch.exp_unit (b : Branch ℝ) (wb : b.WF) (h : 0 < dot3 b.p1 b.p1) : (b.exp hwr Libm.real isa).sqNorm = 1 := by
  rw [Branch.exp_eq hx isa b wb h rfl]
  have h1 := Real.sqrt_pos.2 h
  have h2 := Real.sq_sqrt h.le
  have h3 := Real.sin_sq_add_cos_sq √(dot3 b.p1 b.p1)
  simp only [Rotor.sqNorm, kln]
  generalize Real.cos √(dot3 b.p1 b.p1) = c at *
  generalize Real.sin √(dot3 b.p1 b.p1) = s at *
  have e : c * c + s / √(dot3 b.p1 b.p1) * b.p1.l1 * (s / √(dot3 b.p1 b.p1) * b.p1.l1) +
      s / √(dot3 b.p1 b.p1) * b.p1.l2 * (s / √(dot3 b.p1 b.p1) * b.p1.l2) +
      s / √(dot3 b.p1 b.p1) * b.p1.l3 * (s / √(dot3 b.p1 b.p1) * b.p1.l3) =
      c * c + s ^ 2 * (dot3 b.p1 b.p1 / √(dot3 b.p1 b.p1) ^ 2) := by
    field_simp
    simp only [dot3]; ring
  rw [e, h2, div_self h.ne']
  linarith

include hc hl

/-- C97: interpolation of rotors.  `A` and `B` are the exact unit rotors, `a` and `b` what is stored of them; the
result is compared with the classical formula.  The rotors may be arbitrarily close, as long as the scalar part of
`b * ~a` comes out below one and its bivector part is not negligible. -/
theorem C97_slerp_near {a b : Rotor F32} {A B : Rotor ℝ} (hA : A.sqNorm = 1) (hB : B.sqNorm = 1)
    (h0 : -(1 / 8) ≤ dot4 A.p1 B.p1) (k1 : dot4 A.p1 B.p1 < 1) {δ : ℝ} (hδ : δ ≤ 1 / 2 ^ 21)
    (ha : a.Close A δ) (hb : b.Close B δ) {t : F32} (ht : t.isFinite = true) (ht1 : |r t| ≤ 3 / 2)
    (hq1 : r (b.mulRotor a.rev).p1.l0 < 1) (hm : 1 / 2 ^ 29 ≤ |r t| * √(b.mulRotor a.rev).p1.sq3) :
    (slerpRotor hw lm isa a b t).Close
      ((A.smul (Real.sin ((1 - r t) * Real.arccos (dot4 A.p1 B.p1)) / Real.sin (Real.arccos (dot4 A.p1 B.p1)))).add
        (B.smul (Real.sin (r t * Real.arccos (dot4 A.p1 B.p1)) / Real.sin (Real.arccos (dot4 A.p1 B.p1)))))
      (1.43e-5 + |r t| * (2.4e-5 + 60 * δ) + 2 * δ) := by
  have hδ0 : 0 ≤ δ := (abs_nonneg _).trans (ha 0).2
  have T0 : 0 < |r t| := by
    rcases (abs_nonneg (r t)).lt_or_eq with h | h
    · exact h
    · rw [← h, zero_mul] at hm; norm_num at hm
  have tne : r t ≠ 0 := abs_pos.1 T0
  rw [← C74_slerp_rotor (hw := hwr) hx isa A B hA hB (by linarith) k1 tne]
  have eF : slerpRotor hw lm isa a b t =
      ((((b.mulRotor a.rev).log hw lm isa).mulAssign t).exp hw lm isa).mulRotor a := rfl
  have eR : slerpRotor hwr Libm.real isa A B (r t) =
      ((((B.mulRotor A.rev).log hwr Libm.real isa).smul (r t)).exp hwr Libm.real isa).mulRotor A := rfl
  rw [eF, eR]
  have hs : (B.mulRotor A.rev).p1.l0 = dot4 A.p1 B.p1 := by
    simp only [kln, sse, dot4, cond_true, cond_false]; ring
  have hAr : A.rev.sqNorm = 1 := by
    rw [← hA]; simp only [Rotor.sqNorm, kln, sse, cond_true, cond_false]; ring
  have hN : (B.mulRotor A.rev).sqNorm = 1 := by
    have : (B.mulRotor A.rev).sqNorm = B.sqNorm * A.sqNorm := by
      simp only [Rotor.sqNorm, kln, sse, cond_true, cond_false]; ring
    rw [this, hA, hB, one_mul]
  have d1 : δ ≤ 1 / 1000 := hδ.trans (by norm_num)
  have c1 := Rotor.Close.mul hB hAr hb ha.rev d1 d1
  rw [← hs] at h0 k1
  have c2 := C97_rotor_power hc hl hx isa isa hN h0 k1 hq1 (η := 7.8e-7 + 2.01 * δ + 2 * δ) (by norm_num at hδ ⊢; linarith) c1 ht ht1 hm
  have eN := Rotor.log_aos hx isa _ (by linarith : -(1 / 4) ≤ (B.mulRotor A.rev).p1.l0) k1
  have f1 := aos_ge (by linarith : -(1 / 4) ≤ (B.mulRotor A.rev).p1.l0) k1
  have hP : (((B.mulRotor A.rev).log hwr Libm.real isa).smul (r t)).p1.l0 = 0 ∧
      0 < dot3 (((B.mulRotor A.rev).log hwr Libm.real isa).smul (r t)).p1 (((B.mulRotor A.rev).log hwr Libm.real isa).smul (r t)).p1 := by
    rw [eN]
    generalize B.mulRotor A.rev = Q at *
    refine ⟨by simp [kln, sse], ?_⟩
    have e : dot3 (Branch.smul ⟨⟨0, Q.p1.l1 * aos Q.p1.l0, Q.p1.l2 * aos Q.p1.l0, Q.p1.l3 * aos Q.p1.l0⟩⟩ (r t)).p1
        (Branch.smul ⟨⟨0, Q.p1.l1 * aos Q.p1.l0, Q.p1.l2 * aos Q.p1.l0, Q.p1.l3 * aos Q.p1.l0⟩⟩ (r t)).p1 =
        (aos Q.p1.l0 * r t) ^ 2 * (Q.sqNorm - Q.p1.l0 ^ 2) := by
      simp only [Rotor.sqNorm, dot3, kln, sse]; ring
    rw [e, hN]
    have : aos Q.p1.l0 * r t ≠ 0 := mul_ne_zero (by linarith) tne
    have := aos_dom (by linarith : -(1 / 4) ≤ Q.p1.l0) k1
    positivity
  have hE := Branch.exp_unit hx isa _ hP.1 hP.2
  have hpr : |r t| * (6.1e-6 + 7.4 * (7.8e-7 + 2.01 * δ + 2 * δ)) ≤ 3 / 2 * (6.1e-6 + 7.4 * (7.8e-7 + 2.01 * δ + 2 * δ)) :=
    mul_le_mul_of_nonneg_right ht1 (by positivity)
  have c3 := Rotor.Close.mul hE hA c2 ha (by norm_num at hδ hpr ⊢; linarith) d1
  intro i
  refine ⟨(c3 i).1, (c3 i).2.trans ?_⟩
  have := mul_nonneg T0.le hδ0
  norm_num at hδ ⊢
  nlinarith

/-- C97: the same if the exact rotors are not too close, without reference to what is computed. -/
theorem C97_slerp_rotor {a b : Rotor F32} {A B : Rotor ℝ} (hA : A.sqNorm = 1) (hB : B.sqNorm = 1)
    (h0 : -(1 / 8) ≤ dot4 A.p1 B.p1) (h1 : dot4 A.p1 B.p1 ≤ 1 - 1 / 2 ^ 16) {δ : ℝ} (hδ : δ ≤ 1 / 2 ^ 21)
    (ha : a.Close A δ) (hb : b.Close B δ) {t : F32} (ht : t.isFinite = true)
    (ht0 : 1 / 2 ^ 20 ≤ |r t|) (ht1 : |r t| ≤ 3 / 2) :
    (slerpRotor hw lm isa a b t).Close
      ((A.smul (Real.sin ((1 - r t) * Real.arccos (dot4 A.p1 B.p1)) / Real.sin (Real.arccos (dot4 A.p1 B.p1)))).add
        (B.smul (Real.sin (r t * Real.arccos (dot4 A.p1 B.p1)) / Real.sin (Real.arccos (dot4 A.p1 B.p1)))))
      (1.43e-5 + |r t| * (2.4e-5 + 60 * δ) + 2 * δ) := by
  have hs : (B.mulRotor A.rev).p1.l0 = dot4 A.p1 B.p1 := by
    simp only [kln, sse, dot4, cond_true, cond_false]; ring
  have hAr : A.rev.sqNorm = 1 := by
    rw [← hA]; simp only [Rotor.sqNorm, kln, sse, cond_true, cond_false]; ring
  have hN : (B.mulRotor A.rev).sqNorm = 1 := by
    have : (B.mulRotor A.rev).sqNorm = B.sqNorm * A.sqNorm := by
      simp only [Rotor.sqNorm, kln, sse, cond_true, cond_false]; ring
    rw [this, hA, hB, one_mul]
  have d1 : δ ≤ 1 / 1000 := hδ.trans (by norm_num)
  have c1 := Rotor.Close.mul hB hAr hb ha.rev d1 d1
  have hη : 7.8e-7 + 2.01 * δ + 2 * δ ≤ 3e-6 := by norm_num at hδ ⊢; linarith
  refine C97_slerp_near hc hl hx isa hA hB h0 (h1.trans_lt (by norm_num)) hδ ha hb ht ht1 ?_ ?_
  · have := abs_le.1 ((c1 0).2.trans hη)
    simp only [V4.get] at this
    rw [hs] at this
    norm_num at h1 this ⊢; linarith
  · rw [← hs] at h0 h1
    generalize B.mulRotor A.rev = Q at *
    generalize b.mulRotor a.rev = q at *
    have hv := V4.vec_sub_norm (v := q.p1.real) (w := Q.p1) (e := 3e-6) (by norm_num) (fun j hj => by
      have := (c1 j).2.trans hη
      match j with
      | 0 => exact absurd rfl hj
      | 1 => exact this
      | 2 => exact this
      | 3 => exact this)
    have hd : dot3 Q.p1 Q.p1 = 1 - Q.p1.l0 ^ 2 := by
      simp only [Rotor.sqNorm, kln] at hN; simp only [dot3]; linarith
    have h2 : 1 / 2 ^ 8 ≤ ‖Q.p1.vec‖ := by
      rw [V4.vec_norm, hd]
      refine Real.le_sqrt_of_sq_le ?_
      norm_num at *; nlinarith
    have h3 := norm_sub_norm_le Q.p1.vec q.p1.real.vec
    rw [norm_sub_rev, V4.vec_norm q.p1.real, V4.real_sq3] at h3
    have h4 : 0.99 / 2 ^ 8 ≤ √q.p1.sq3 := by norm_num at hv h2 h3 ⊢; linarith
    refine le_trans (by norm_num) (mul_le_mul ht0 h4 (by norm_num) (abs_nonneg _))

end

/-! ### blending a rotor with itself -/

/-- Every lane is a NaN. -/
def V4.AllNaN (v : V4 F32) : Prop := ∀ i : Fin 4, (v.get i).isNaN = true

/-- `acos` of the C standard outside its domain (Annex F.10.1.1). -/
def Libm.AcosDomain (lm : Libm F32) : Prop := ∀ x : F32, x.isFinite = true → 1 < |r x| → (lm.acos x).isNaN = true

/-- A library can satisfy this together with the accuracy assumed above. -/
theorem C97_acos_inhabited : ∃ lm : Libm F32, lm.Contract32 ∧ lm.AcosDomain := by
  classical
  obtain ⟨lm, h⟩ := C79_contract_inhabited
  refine ⟨{ lm with acos := fun x => if 1 < |r x| then defaultNaN else lm.acos x },
    ⟨h.sqrt, h.sin, h.cos, ?_, h.atan2, h.feq, h.lt6⟩, ?_⟩
  · intro x hf h1
    simp only [if_neg (not_lt.2 h1)]
    exact h.acos x hf h1
  · intro x _ h1
    simp only [if_pos h1]; decide

section
variable (hw : Hw F32) {lm : Libm F32} (isa : Isa)

/-- Once the scalar exceeds one the logarithm consists of NaNs. -/
theorem Rotor.log_nan (hd : lm.AcosDomain) {q : Rotor F32} (hf : q.p1.l0.isFinite = true) (h : 1 < |r q.p1.l0|) (j : Fin 4)
    (hj : j ≠ 0) : ((q.log hw lm isa).p1.get j).isNaN = true := by
  have e0 : (q.log hw lm isa).p1.get j =
      q.p1.get j * rcp1 hw (lm.sin (lm.acos q.p1.l0)) * lm.acos q.p1.l0 := by
    fin_cases j
    · exact absurd rfl hj
    all_goals cases isa <;> rfl
  rw [e0]
  exact mul_nan (Or.inr (hd _ hf h))

theorem Branch.exp_nan {b : Branch F32} (h : ∀ j : Fin 4, j ≠ 0 → (b.p1.get j).isNaN = true) : (b.exp hw lm isa).p1.AllNaN := by
  have ha : ((sqrt_nr1 hw (hi_dp isa b.p1 b.p1)).l0).isNaN = true := by
    have h1 := mul_nan (x := b.p1.l1) (y := b.p1.l1) (Or.inl (h 1 (by decide)))
    refine mul_nan (Or.inl ?_)
    cases isa
    · simp only [kln, sse, cond_true, cond_false]
      exact add_nan (Or.inr h1)
    · simp only [kln, sse, cond_true, cond_false]
      exact add_nan (Or.inl (add_nan (Or.inr h1)))
  intro i
  have hs := div_nan (x := lm.sin (sqrt_nr1 hw (hi_dp isa b.p1 b.p1)).l0) (Or.inr ha)
  match i with
  | 0 => exact add_nan (Or.inl (mul_nan (Or.inl hs)))
  | 1 => exact add_nan (Or.inl (mul_nan (Or.inl hs)))
  | 2 => exact add_nan (Or.inl (mul_nan (Or.inl hs)))
  | 3 => exact add_nan (Or.inl (mul_nan (Or.inl hs)))

theorem Rotor.mul_nan {x y : Rotor F32} (h : x.p1.AllNaN) : (x.mulRotor y).p1.AllNaN := by
  intro i
  match i with
  | 0 => exact add_nan (Or.inl (sub_nan (Or.inl (F32.mul_nan (Or.inl (h 0))))))
  | 1 => exact add_nan (Or.inl (sub_nan (Or.inl (F32.mul_nan (Or.inl (h 0))))))
  | 2 => exact add_nan (Or.inl (sub_nan (Or.inl (F32.mul_nan (Or.inl (h 0))))))
  | 3 => exact add_nan (Or.inl (sub_nan (Or.inl (F32.mul_nan (Or.inl (h 0))))))

/-- C97: if the scalar part of `b ~a` rounds to a number above one, nothing is left of the interpolation. -/
theorem C97_slerp_nan (hd : lm.AcosDomain) {a b : Rotor F32} (hf : (b.mulRotor a.rev).p1.l0.isFinite = true)
    (h : 1 < |r (b.mulRotor a.rev).p1.l0|) (t : F32) : (slerpRotor hw lm isa a b t).p1.AllNaN := by
  refine Rotor.mul_nan (Branch.exp_nan hw isa fun j hj => ?_)
  have := Rotor.log_nan hw isa hd hf h j hj
  match j with
  | 0 => exact absurd rfl hj
  | 1 => exact F32.mul_nan (Or.inl this)
  | 2 => exact F32.mul_nan (Or.inl this)
  | 3 => exact F32.mul_nan (Or.inl this)

end

/-- The unit rotor `(247 + 96 e23) / 265`. -/
noncomputable def selfA : Rotor ℝ := ⟨⟨247 / 265, 96 / 265, 0, 0⟩⟩
/-- The same, each lane rounded to the nearest float. -/
def selfa : Rotor F32 := ⟨⟨F32.round false (247 / 265), F32.round false (96 / 265), 0, 0⟩⟩

theorem selfa_val : selfa.p1.l0.val = 122169 / 131072 ∧ selfa.p1.l1.val = 759723 / 2097152 ∧
    selfa.p1.l2.val = 0 ∧ selfa.p1.l3.val = 0 ∧ (∀ i, (selfa.p1.get i).isFinite = true) := by
  decide +kernel

theorem selfa_scalar : (selfa.mulRotor selfa.rev).p1.l0.isFinite = true ∧
    (selfa.mulRotor selfa.rev).p1.l0.val = 1 + 1 / 2 ^ 23 := by
  decide +kernel

theorem selfa_close : selfa.Close selfA (1 / 2 ^ 25) := by
  obtain ⟨h0, h1, h2, h3, hf⟩ := selfa_val
  intro i
  refine ⟨hf i, ?_⟩
  match i with
  | 0 => simp only [V4.get, r, h0, selfA]; norm_num [abs_le]
  | 1 => simp only [V4.get, r, h1, selfA]; norm_num [abs_le]
  | 2 => simp only [V4.get, r, h2, selfA]; norm_num [abs_le]
  | 3 => simp only [V4.get, r, h3, selfA]; norm_num [abs_le]

/-- C97: a unit rotor, each lane rounded to the nearest float, whose interpolation with itself is NaN throughout. -/
theorem C97_slerp_self_fails : ∃ (A : Rotor ℝ) (a : Rotor F32), A.sqNorm = 1 ∧ a.Close A (1 / 2 ^ 25) ∧
    ∀ (hw : Hw F32) (lm : Libm F32) (isa : Isa) (t : F32), lm.AcosDomain → (slerpRotor hw lm isa a a t).p1.AllNaN := by
  refine ⟨selfA, selfa, by simp only [selfA, Rotor.sqNorm, kln]; norm_num, selfa_close, fun hw lm isa t hd => ?_⟩
  refine C97_slerp_nan hw isa hd selfa_scalar.1 ?_ t
  rw [r, selfa_scalar.2]; norm_num [abs_lt, lt_abs]

/-! ### a concrete case -/

/-- The unit rotor `(3 + 4 e12) / 5`. -/
noncomputable def stepB : Rotor ℝ := ⟨⟨3 / 5, 0, 0, 4 / 5⟩⟩
/-- The same, rounded. -/
def stepb : Rotor F32 := ⟨⟨F32.round false (3 / 5), 0, 0, F32.round false (4 / 5)⟩⟩

theorem stepb_close : stepb.Close stepB (1 / 2 ^ 25) := by
  have h : stepb.p1.l0.val = 5033165 / 8388608 ∧ stepb.p1.l1.val = 0 ∧ stepb.p1.l2.val = 0 ∧
    stepb.p1.l3.val = 13421773 / 16777216 ∧ (∀ i, (stepb.p1.get i).isFinite = true) := by decide +kernel
  obtain ⟨h0, h1, h2, h3, hf⟩ := h
  intro i
  refine ⟨hf i, ?_⟩
  match i with
  | 0 => simp only [V4.get, r, h0, stepB]; norm_num [abs_le]
  | 1 => simp only [V4.get, r, h1, stepB]; norm_num [abs_le]
  | 2 => simp only [V4.get, r, h2, stepB]; norm_num [abs_le]
  | 3 => simp only [V4.get, r, h3, stepB]; norm_num [abs_le]

theorem one_close : (⟨⟨1, 0, 0, 0⟩⟩ : Rotor F32).Close ⟨⟨1, 0, 0, 0⟩⟩ (1 / 2 ^ 25) := by
  intro i
  match i with
  | 0 => exact ⟨by decide +kernel, by simp only [V4.get, r, one_val]; norm_num⟩
  | 1 => exact ⟨by decide +kernel, by simp only [V4.get, r_zero]; norm_num⟩
  | 2 => exact ⟨by decide +kernel, by simp only [V4.get, r_zero]; norm_num⟩
  | 3 => exact ⟨by decide +kernel, by simp only [V4.get, r_zero]; norm_num⟩

/-- C97: half-way from the identity to `(3 + 4 e12) / 5` lies `(2 + e12) / √5`. -/
theorem C97_example {hw : Hw F32} (hc : hw.Contract32) {lm : Libm F32} (hl : lm.Contract32) (isa : Isa) :
    (slerpRotor hw lm isa ⟨⟨1, 0, 0, 0⟩⟩ stepb (1 / 2)).Close ⟨⟨2 / √5, 0, 0, 1 / √5⟩⟩ 2.9e-5 := by
  have hB : stepB.sqNorm = 1 := by simp only [stepB, Rotor.sqNorm, kln]; norm_num
  have hd : dot4 (⟨1, 0, 0, 0⟩ : V4 ℝ) stepB.p1 = 3 / 5 := by simp only [stepB, dot4]; norm_num
  have h := C97_slerp_rotor hc hl Hw.ideal_exact isa (A := ⟨⟨1, 0, 0, 0⟩⟩) (by simp [Rotor.sqNorm, kln]) hB
    (by simp only [hd]; norm_num) (by simp only [hd]; norm_num) (by norm_num) one_close stepb_close (t := 1 / 2) r_half.1
    (by rw [r_half.2]; norm_num [abs_of_pos]) (by rw [r_half.2]; norm_num [abs_of_pos])
  simp only [hd, r_half.2] at h
  have ht : (1 - 1 / 2 : ℝ) * Real.arccos (3 / 5) = Real.arccos (3 / 5) / 2 ∧ (1 / 2 : ℝ) * Real.arccos (3 / 5) = Real.arccos (3 / 5) / 2 := by
    constructor <;> ring
  have hs5 : 0 < √(5 : ℝ) := by positivity
  have h5 : √(5 : ℝ) ^ 2 = 5 := Real.sq_sqrt (by norm_num)
  have hsin : Real.sin (Real.arccos (3 / 5)) = 4 / 5 := by
    rw [Real.sin_arccos, show (1 - (3 / 5) ^ 2 : ℝ) = (4 / 5) ^ 2 by norm_num, Real.sqrt_sq (by norm_num)]
  have hhalf : Real.sin (Real.arccos (3 / 5) / 2) = 1 / √5 := by
    rw [Real.sin_half_eq_sqrt (Real.arccos_nonneg _) (by linarith [Real.arccos_le_pi (3 / 5), Real.pi_pos]),
      Real.cos_arccos (by norm_num) (by norm_num), show ((1 - 3 / 5) / 2 : ℝ) = 1 / 5 by norm_num, Real.sqrt_div (by norm_num), Real.sqrt_one]
  rw [ht.1, ht.2, hsin, hhalf] at h
  intro i
  have e : ((((⟨⟨1, 0, 0, 0⟩⟩ : Rotor ℝ).smul (1 / √5 / (4 / 5))).add (stepB.smul (1 / √5 / (4 / 5)))).p1.get i) =
      (⟨⟨2 / √5, 0, 0, 1 / √5⟩⟩ : Rotor ℝ).p1.get i := by
    match i with
    | 0 => simp only [V4.get, kln, sse, stepB]; field_simp; norm_num
    | 1 => simp only [V4.get, kln, sse, stepB]; ring
    | 2 => simp only [V4.get, kln, sse, stepB]; ring
    | 3 => simp only [V4.get, kln, sse, stepB]; field_simp; norm_num
  obtain ⟨h1, h2⟩ := h i
  rw [e] at h2
  refine ⟨h1, h2.trans ?_⟩
  norm_num [abs_of_pos]

end Klein
