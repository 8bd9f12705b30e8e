import Verif.Props.Accuracy32
import Verif.Props.RotorLog
import Verif.Props.Euler
import Verif.Lemmas.ArgLip
import Mathlib.Analysis.SpecialFunctions.Trigonometric.Bounds
import Mathlib.Analysis.Real.Pi.Bounds

/-!
# C79: exponentials and logarithms in binary32

With every operation rounded, estimates of the specified accuracy (`Hw.Contract32`) and `<cmath>`
functions within two units in the last place (`Libm.Contract32`), the exponentials of branches and
lines and the logarithm of rotors are compared with the same functions in exact arithmetic.
-/

set_option linter.unusedSimpArgs false
set_option linter.unusedTactic false
set_option linter.unreachableTactic false

namespace Klein

open F32

/-- Accuracy of a library function: two units in the last place (the subnormal range excepted). -/
def Ulp2 (x : F32) (v : ℝ) : Prop := x.isFinite = true ∧ |r x - v| ≤ 1 / 2 ^ 22 * max (1 / 2 ^ 126) |v|

/-- What is assumed of `<cmath>` in binary32: results within two units in the last place and IEEE
comparison.  `acos` is constrained on its domain only, `atan2` away from the branch cut and from
signed zeros.  The comparison with the `double` literal `1e-6` (x86_exp_log.hpp:197) is the exact one:
no float lies between that literal and the decimal. -/
structure Libm.Contract32 (lm : Libm F32) : Prop where
  sqrt : ∀ x : F32, x.isFinite = true → 0 < r x → Ulp2 (lm.sqrt x) (√(r x))
  sin : ∀ x : F32, x.isFinite = true → Ulp2 (lm.sin x) (Real.sin (r x))
  cos : ∀ x : F32, x.isFinite = true → Ulp2 (lm.cos x) (Real.cos (r x))
  acos : ∀ x : F32, x.isFinite = true → |r x| ≤ 1 → Ulp2 (lm.acos x) (Real.arccos (r x))
  atan2 : ∀ y x : F32, y.isFinite = true → x.isFinite = true → r y ≠ 0 → Ulp2 (lm.atan2 y x) (Complex.arg ⟨r x, r y⟩)
  feq : ∀ x y : F32, x.isFinite = true → y.isFinite = true → (lm.feq x y = true ↔ r x = r y)
  lt6 : ∀ x : F32, x.isFinite = true → (lm.flt (lm.abs x) lm.eps6 = true ↔ |r x| < 1 / 1000000)

/-- Every real of moderate size has a float within the accuracy asked for. -/
theorem exists_ulp2 {v : ℝ} (hv : |v| ≤ 2 ^ 70) : ∃ x : F32, Ulp2 x v := by
  obtain ⟨M, hM⟩ : ∃ M, M = max (1 / 2 ^ 126) |v| := ⟨_, rfl⟩
  have hM0 : 0 < M := by rw [hM]; exact lt_max_of_lt_left (by positivity)
  have hMv : |v| ≤ M := by rw [hM]; exact le_max_right _ _
  have hMl : 1 / 2 ^ 126 ≤ M := by rw [hM]; exact le_max_left _ _
  have hMu : M ≤ 2 ^ 70 := by rw [hM]; exact max_le (by norm_num) hv
  obtain ⟨q, hq1, hq2⟩ := exists_rat_btwn (show v < v + 1 / 2 ^ 24 * M by linarith [mul_pos (show (0 : ℝ) < 1 / 2 ^ 24 by positivity) hM0])
  have hq : |(q : ℝ)| ≤ (1 + 1 / 2 ^ 24) * M := by
    have := abs_le.1 hMv
    rw [abs_le]; constructor <;> linarith [mul_pos (show (0 : ℝ) < 1 / 2 ^ 24 by positivity) hM0]
  have hqu : |q| ≤ 2 ^ 101 := by
    have : ((|q| : ℚ) : ℝ) ≤ ((2 ^ 101 : ℚ) : ℝ) := by
      push_cast
      refine hq.trans ?_
      norm_num at *; linarith
    exact_mod_cast this
  have hf := (round_le_two_pow (z := false) (q := q) (n := 101) (by norm_num) hqu).1
  refine ⟨round false q, hf, ?_⟩
  have he := round_err hf
  have he' : |r (round false q) - q| ≤ (1 + 1 / 2 ^ 24) * M / 2 ^ 24 := by
    have : ((|(round false q).val - q| : ℚ) : ℝ) ≤ ((max minNormal |q| / 2 ^ 24 : ℚ) : ℝ) := by exact_mod_cast he
    push_cast at this
    refine this.trans (div_le_div_of_nonneg_right (max_le ?_ hq) (by positivity))
    rw [minNormal]; push_cast; norm_num at *; linarith
  rw [← hM]
  rw [abs_le] at he' ⊢
  norm_num at *
  constructor <;> linarith

/-- The assumptions on `<cmath>` can be met. -/
theorem C79_contract_inhabited : ∃ lm : Libm F32, lm.Contract32 := by
  classical
  have pick : ∀ v : ℝ, ∃ x : F32, |v| ≤ 2 ^ 70 → Ulp2 x v := fun v => by
    by_cases h : |v| ≤ 2 ^ 70
    · obtain ⟨x, hx⟩ := exists_ulp2 h; exact ⟨x, fun _ => hx⟩
    · exact ⟨0, fun h' => absurd h' h⟩
  choose f hf using pick
  have hpi : Real.pi ≤ 2 ^ 70 := Real.pi_le_four.trans (by norm_num)
  refine ⟨⟨fun x => f √(r x), fun x => f (Real.sin (r x)), fun x => f (Real.cos (r x)), fun x => f (Real.arccos (r x)),
    fun x => f (Real.arcsin (r x)), fun y x => f (Complex.arg ⟨r x, r y⟩), fun x _ => x, F32.abs,
    fun x y => decide (r x = r y), fun x y => decide (|r x| < 1 / 1000000), fun x => x.sign, 0, 0⟩, ?_, ?_, ?_, ?_, ?_, ?_, ?_⟩
  · intro x hx _
    refine hf _ ?_
    rw [abs_of_nonneg (Real.sqrt_nonneg _)]
    refine Real.sqrt_le_iff.2 ⟨by positivity, ?_⟩
    have h := val_lt hx
    have h' : |r x| < 2 ^ 128 := by
      have : ((|x.val| : ℚ) : ℝ) < ((2 ^ 128 : ℚ) : ℝ) := by exact_mod_cast h
      push_cast at this; exact this
    have := (abs_lt.1 h').2
    norm_num at *; linarith
  · exact fun x _ => hf _ ((Real.abs_sin_le_one _).trans (by norm_num))
  · exact fun x _ => hf _ ((Real.abs_cos_le_one _).trans (by norm_num))
  · intro x _ _
    refine hf _ ?_
    rw [abs_of_nonneg (Real.arccos_nonneg _)]
    exact (Real.arccos_le_pi _).trans hpi
  · exact fun y x _ _ _ => hf _ ((Complex.abs_arg_le_pi _).trans hpi)
  · exact fun x y _ _ => decide_eq_true_iff
  · intro x _
    have : |r x.abs| = |r x| := by
      have h : |x.abs.val| = |x.val| := by rw [abs_val, abs_val]; rfl
      have : ((|x.abs.val| : ℚ) : ℝ) = ((|x.val| : ℚ) : ℝ) := by rw [h]
      push_cast at this; exact this
    simp only [decide_eq_true_iff, this]

/-! ### ingredients -/

/-- Division. -/
theorem F32.Ap.divR {x y : F32} {E E' M P k k' k'' : ℝ} {m n m' n' : ℕ} (hx : Ap x E M k m n)
    (hy : Ap y E' P k' m' n') (hP' : |E'| = P) (hk : 0 ≤ k ∧ k ≤ 1) (hk' : 0 ≤ k' ∧ k' ≤ 1 / 2) (hm : m + n' ≤ 126)
    (hn : n + m' ≤ 124) (hk'' : (1 + k) * (1 + 2 * k') * (1 + u) - 1 ≤ k'') :
    Ap (x / y) (E / E') (M / P) k'' (m + n') (n + m') := by
  have hM := hx.rng.pos
  have hP0 := hy.rng.pos
  have hE0 : E' ≠ 0 := by rw [← abs_pos, hP']; exact hP0
  have hr : In2 (M / P) (m + n') (n + m') := by rw [div_eq_mul_one_div]; exact hx.rng.mul hy.rng.inv
  have hP := hr.pos
  have hy1 : (1 - k') * P ≤ |r y| := by
    have := abs_sub_abs_le_abs_sub E' (r y)
    rw [abs_sub_comm] at this
    linarith [hy.err, hP']
  have hy0 : 0 < |r y| := lt_of_lt_of_le (mul_pos (by linarith) hP0) hy1
  have hyn : r y ≠ 0 := abs_pos.1 hy0
  -- the exact quotient of the rounded values
  have h1 : |r x / r y| ≤ (1 + k) * (1 + 2 * k') * (M / P) := by
    rw [abs_div, div_le_iff₀ hy0]
    refine hx.val_le.trans ?_
    have e : (1 + k) * M = (1 + k) * (M / P) * P := by field_simp
    rw [e]
    have a : P ≤ (1 + 2 * k') * |r y| := by
      have a1 := mul_le_mul_of_nonneg_left hy1 (show 0 ≤ 1 + 2 * k' by linarith [hk'.1])
      have a2 := mul_nonneg (mul_nonneg hk'.1 (show 0 ≤ 1 - 2 * k' by linarith [hk'.2])) hP0.le
      linarith
    calc (1 + k) * (M / P) * P ≤ (1 + k) * (M / P) * ((1 + 2 * k') * |r y|) :=
          mul_le_mul_of_nonneg_left a (mul_nonneg (by linarith) hP.le)
      _ = _ := by ring
  have h2 : |r x / r y - E / E'| ≤ ((1 + k) * (1 + 2 * k') - 1) * (M / P) := by
    have e : r x / r y - E / E' = (r x / r y) * ((E' - r y) / E') + (r x - E) / E' := by field_simp; ring
    rw [e]
    refine (abs_add_le _ _).trans ?_
    rw [abs_mul, abs_div (E' - r y), hP', abs_div (r x - E), hP']
    have a1 : |E' - r y| / P ≤ k' := by rw [div_le_iff₀ hP0, abs_sub_comm]; exact hy.err
    have a2 : |r x - E| / P ≤ k * (M / P) := by
      rw [← mul_div_assoc]; exact div_le_div_of_nonneg_right hx.err hP0.le
    -- `|r x / r y| k' ≤ (1 + k) 2 k' (M / P)` because `1 / (1 - k') ≤ 2`
    have a3 : |r x / r y| ≤ (1 + k) * 2 * (M / P) := by
      refine h1.trans ?_
      refine mul_le_mul_of_nonneg_right (mul_le_mul_of_nonneg_left ?_ (by linarith)) hP.le
      linarith
    have a4 := mul_le_mul a3 a1 (by positivity) (mul_nonneg (by linarith) hP.le)
    calc _ ≤ (1 + k) * 2 * (M / P) * k' + k * (M / P) := add_le_add a4 a2
      _ = _ := by ring
  have h4 : (1 + k) * (1 + 2 * k') ≤ 4 := by nlinarith [hk.1, hk.2, hk'.1, hk'.2]
  have h5 : 1 ≤ (1 + k) * (1 + 2 * k') := by nlinarith [hk.1, hk'.1]
  have hhi : M / P ≤ 2 ^ 124 := hr.hi.trans (pow_le_pow_right₀ (by norm_num) hn)
  have hlo : 1 / 2 ^ 126 ≤ M / P :=
    le_trans (one_div_le_one_div_of_le (by positivity) (pow_le_pow_right₀ (by norm_num) hm)) hr.lo
  have hb : |r x / r y| ≤ 2 ^ 126 := h1.trans (by
    have := mul_le_mul h4 hhi hP.le (by norm_num)
    refine this.trans (le_of_eq ?_); norm_num)
  have hz : y.isZero = false := by
    by_contra hz
    have : r y = 0 := by
      have hz : y.isZero = true := by simpa using hz
      have hm0 : y.mag.val = 0 := by simpa [F32.isZero] using hz
      have hv := abs_val y
      rw [hm0, magVal_zero, abs_eq_zero] at hv
      rw [r, hv, Rat.cast_zero]
    exact hyn this
  have hq : |x.val / y.val| ≤ 2 ^ 126 := by
    have : ((|x.val / y.val| : ℚ) : ℝ) ≤ ((2 ^ 126 : ℚ) : ℝ) := by push_cast; exact hb
    exact_mod_cast this
  have hf : (x / y).isFinite = true := by
    rw [div_round hx.fin hy.fin hz]; exact (round_le_two_pow (by norm_num) hq).1
  have he : |r (x / y) - r x / r y| ≤ u * max (1 / 2 ^ 126) |r x / r y| := by
    have h := div_err hf hy.fin
    have h' : ((|(x / y).val - x.val / y.val| : ℚ) : ℝ) ≤ ((max minNormal |x.val / y.val| / 2 ^ 24 : ℚ) : ℝ) := by exact_mod_cast h
    push_cast at h'
    refine h'.trans (le_of_eq ?_)
    rw [minNormal, u]; push_cast
    rw [mul_comm, mul_one_div]; norm_num [r]
  refine ⟨hf, ?_, ?_, hr⟩
  · rw [abs_div, hP']; exact div_le_div_of_nonneg_right hx.mag hP0.le
  · have h6 : max (1 / 2 ^ 126) |r x / r y| ≤ (1 + k) * (1 + 2 * k') * (M / P) :=
      max_le (hlo.trans (le_mul_of_one_le_left hP.le h5)) h1
    have h7 := he.trans (mul_le_mul_of_nonneg_left h6 u_pos.le)
    have h8 := abs_add_le (r (x / y) - r x / r y) (r x / r y - E / E')
    rw [sub_add_sub_cancel] at h8
    have h9 : ((1 + k) * (1 + 2 * k') * (1 + u) - 1) * (M / P) ≤ k'' * (M / P) :=
      mul_le_mul_of_nonneg_right hk'' hP.le
    generalize M / P = T at *
    generalize (1 + k) * (1 + 2 * k') = K at *
    linarith

theorem F32.Ap.div {x y : F32} {E E' M k k' k'' : ℝ} {m n m' n' : ℕ} (hx : Ap x E M k m n)
    (hy : Ap y E' E' k' m' n') (hk : 0 ≤ k ∧ k ≤ 1) (hk' : 0 ≤ k' ∧ k' ≤ 1 / 2) (hm : m + n' ≤ 126) (hn : n + m' ≤ 124)
    (hk'' : (1 + k) * (1 + 2 * k') * (1 + u) - 1 ≤ k'') : Ap (x / y) (E / E') (M / E') k'' (m + n') (n + m') :=
  hx.divR hy (abs_of_pos hy.rng.pos) hk hk' hm hn hk''

/-- Sine and cosine of an angle of at most 4 known to relative accuracy `1e-6`. -/
theorem ap_sin {lm : Libm F32} (hl : lm.Contract32) {x : F32} {a : ℝ} {m n : ℕ} (h : Ap x a a 1e-6 m n) (h4 : a ≤ 4) :
    Ap (lm.sin x) (Real.sin a) 1 4.3e-6 0 0 := by
  obtain ⟨h1, h2⟩ := hl.sin x h.fin
  refine ⟨h1, Real.abs_sin_le_one _, ?_, ⟨by norm_num, by norm_num⟩⟩
  have h3 := abs_add_le (r (lm.sin x) - Real.sin (r x)) (Real.sin (r x) - Real.sin a)
  rw [sub_add_sub_cancel] at h3
  have h5 := (Real.abs_sin_sub_sin_le (r x) a).trans h.err
  have h6 : max (1 / 2 ^ 126) |Real.sin (r x)| ≤ 1 := max_le (by norm_num) (Real.abs_sin_le_one _)
  have h7 := h2.trans (mul_le_mul_of_nonneg_left h6 (by positivity))
  norm_num at *
  linarith

/-- The sine, relative to the angle. -/
theorem ap_sin_rel {lm : Libm F32} (hl : lm.Contract32) {x : F32} {a : ℝ} {m n : ℕ} (h : Ap x a a 1e-6 m n) (hm : m ≤ 126) :
    Ap (lm.sin x) (Real.sin a) a 1.3e-6 m n := by
  obtain ⟨h1, h2⟩ := hl.sin x h.fin
  have ha := h.rng.pos
  refine ⟨h1, Real.abs_sin_le_abs.trans (abs_of_pos ha).le, ?_, h.rng⟩
  have h3 := abs_add_le (r (lm.sin x) - Real.sin (r x)) (Real.sin (r x) - Real.sin a)
  rw [sub_add_sub_cancel] at h3
  have h5 := (Real.abs_sin_sub_sin_le (r x) a).trans h.err
  have h4 : 1 / 2 ^ 126 ≤ a :=
    le_trans (one_div_le_one_div_of_le (by positivity) (pow_le_pow_right₀ (by norm_num) hm)) h.rng.lo
  have h6 : max (1 / 2 ^ 126) |Real.sin (r x)| ≤ (1 + 1e-6) * a :=
    max_le (by norm_num at *; linarith) (Real.abs_sin_le_abs.trans h.val_le)
  have h7 := h2.trans (mul_le_mul_of_nonneg_left h6 (by positivity))
  norm_num at *
  linarith

theorem ap_cos {lm : Libm F32} (hl : lm.Contract32) {x : F32} {a : ℝ} {m n : ℕ} (h : Ap x a a 1e-6 m n) (h4 : a ≤ 4) :
    Ap (lm.cos x) (Real.cos a) 1 4.3e-6 0 0 := by
  obtain ⟨h1, h2⟩ := hl.cos x h.fin
  refine ⟨h1, Real.abs_cos_le_one _, ?_, ⟨by norm_num, by norm_num⟩⟩
  have h3 := abs_add_le (r (lm.cos x) - Real.cos (r x)) (Real.cos (r x) - Real.cos a)
  rw [sub_add_sub_cancel] at h3
  have h5 := (Real.abs_cos_sub_cos_le (r x) a).trans h.err
  have h6 : max (1 / 2 ^ 126) |Real.cos (r x)| ≤ 1 := max_le (by norm_num) (Real.abs_cos_le_one _)
  have h7 := h2.trans (mul_le_mul_of_nonneg_left h6 (by positivity))
  norm_num at *
  linarith

/-- The angle: squared norm times inverse norm. -/
theorem ap_ang {hw : Hw F32} (hc : hw.Contract32) (isa : Isa) {v : V4 F32} (hv : v.Le2 30) (hn : 1 / 2 ^ 60 ≤ v.sq3)
    (i : Fin 4) : Ap ((hi_dp_bc isa v v).get i * (rsqrt_nr1 hw (hi_dp_bc isa v v)).get i) (√v.sq3) (√v.sq3) 1e-6 30 32 := by
  have hN : 0 < v.sq3 := lt_of_lt_of_le (by positivity) hn
  have hS := sq3_rng hv hn
  have hs := ap_rsqrt hN hS (inv3_f32 hc isa hv hn i).1 (inv3_f32 hc isa hv hn i).2
  obtain ⟨h1, h2⟩ := sq3_f32 isa hv hn i
  have hD : Ap ((hi_dp_bc isa v v).get i) (√v.sq3 * √v.sq3) (√v.sq3 * √v.sq3) 3e-7 60 64 := by
    refine ⟨h1, (abs_of_pos (hS.mul hS).pos).le, ?_, hS.mul hS⟩
    rw [Real.mul_self_sqrt hN.le]; exact h2
  have h0 := hS.pos
  have key := hD.mulR hs (show _ = √v.sq3 by field_simp) hS
      (by norm_num) (by norm_num) (by norm_num) (by norm_num) (show _ ≤ (1e-6 : ℝ) by ap_num)
  rwa [show √v.sq3 * √v.sq3 * (1 / √v.sq3) = √v.sq3 by field_simp] at key

theorem ap_zero {M : ℝ} {m n : ℕ} (h : In2 M m n) : Ap 0 0 M 0 m n := by
  have := Ap.input (x := 0) (M := M) (by decide +kernel) (by rw [r_zero, abs_zero]; exact h.pos.le) h
  rwa [r_zero] at this

/-! ### exponential of a branch -/

/-- C79: each lane of the exponential of a branch is within `6.7e-6` of the exact exponential. -/
theorem C79_branch_exp {hw : Hw F32} (hc : hw.Contract32) {lm : Libm F32} (hl : lm.Contract32) {hwr : Hw ℝ}
    (hx : hwr.Exact) (isa isa' : Isa) (b : Branch F32) (hv : b.p1.Le2 30) (h0 : r b.p1.l0 = 0)
    (hn : 1 / 2 ^ 60 ≤ b.p1.sq3) (h4 : √b.p1.sq3 ≤ 4) (i : Fin 4) :
    ((b.exp hw lm isa).p1.get i).isFinite = true ∧
      |r ((b.exp hw lm isa).p1.get i) - (b.real.exp hwr Libm.real isa').p1.get i| ≤ 6.7e-6 := by
  have hN : 0 < b.p1.sq3 := lt_of_lt_of_le (by positivity) hn
  have hS := sq3_rng hv hn
  have hS0 := hS.pos
  have hang := ap_ang hc isa hv hn 0
  have hs := ap_sin hl hang h4
  have hc' := ap_cos hl hang h4
  have hq := hs.div hang (by norm_num) (by norm_num) (by norm_num) (by norm_num) (show _ ≤ (6.4e-6 : ℝ) by ap_num)
  have e3 : dot3 b.real.p1 b.real.p1 = b.p1.sq3 := by
    simp only [dot3, Branch.real, V4.real, V4.sq3]; ring
  have eF : b.exp hw lm isa = ⟨add_ps (mul_ps (set1_ps (lm.sin ((hi_dp_bc isa b.p1 b.p1).get 0 *
        (rsqrt_nr1 hw (hi_dp_bc isa b.p1 b.p1)).get 0) / ((hi_dp_bc isa b.p1 b.p1).get 0 *
        (rsqrt_nr1 hw (hi_dp_bc isa b.p1 b.p1)).get 0))) b.p1)
        (set_ps 0 0 0 (lm.cos ((hi_dp_bc isa b.p1 b.p1).get 0 * (rsqrt_nr1 hw (hi_dp_bc isa b.p1 b.p1)).get 0)))⟩ := by
    have e : (sqrt_nr1 hw (hi_dp isa b.p1 b.p1)).l0 =
        (hi_dp_bc isa b.p1 b.p1).get 0 * (rsqrt_nr1 hw (hi_dp_bc isa b.p1 b.p1)).get 0 := by
      show (hi_dp isa b.p1 b.p1).l0 * rsqrt1 hw (hi_dp isa b.p1 b.p1).l0 =
        (hi_dp_bc isa b.p1 b.p1).get 0 * rsqrt1 hw ((hi_dp_bc isa b.p1 b.p1).get 0)
      rw [hi_dp_l0]
    rw [Branch.exp, e]
  rw [eF, Branch.exp_eq hx isa' b.real h0 (by rw [e3]; exact hN) rfl, e3]
  have key : ∀ j : Fin 4, j ≠ 0 → _ := fun j hj => (hq.mulR (Ap.input (hv j (by norm_num)).1
      (lane_le3 (Real.sqrt_nonneg _) (sq3_sqrt b.p1) j hj) hS) (show _ = (1 : ℝ) by field_simp)
      (⟨by norm_num, by norm_num⟩ : In2 1 60 0) (by norm_num) (by norm_num) (by norm_num) (by norm_num)
      (show _ ≤ (6.5e-6 : ℝ) by ap_num)).add (ap_zero (M := 1 / 2 ^ 30) (m := 30) (n := 0) ⟨by norm_num, by norm_num⟩)
      (K := 6.5e-6) le_rfl (by norm_num) (by norm_num) (by norm_num) (show _ ≤ (6.6e-6 : ℝ) by ap_num)
  have fin : ∀ {x : F32} {E E' M : ℝ} {m' n : ℕ}, Ap x E M 6.6e-6 m' n → M ≤ 1.01 → E = E' →
      x.isFinite = true ∧ |r x - E'| ≤ 6.7e-6 := by
    rintro x E E' M m' n hx hM rfl
    refine ⟨hx.fin, hx.err.trans ?_⟩
    norm_num at *; linarith
  fin_cases i
  · have h := (hq.mulR (Ap.input (M := √b.p1.sq3 * (1 / 2 ^ 10)) (m := 40) (n := 32) (hv 0 (by norm_num)).1
      (by simp only [V4.get]; rw [h0, abs_zero]; positivity)
      ⟨(hS.mul (⟨le_rfl, by norm_num⟩ : In2 (1 / 2 ^ 10) 10 0)).lo, by have := hS.hi; norm_num at *; linarith⟩)
      (show _ = (1 / 2 ^ 10 : ℝ) by field_simp)
      (⟨by norm_num, by norm_num⟩ : In2 (1 / 2 ^ 10) 10 0) (by norm_num) (by norm_num) (by norm_num) (by norm_num)
      (show _ ≤ (6.5e-6 : ℝ) by ap_num)).add hc' (K := 6.5e-6) le_rfl (by norm_num) (by norm_num) (by norm_num)
      (show _ ≤ (6.6e-6 : ℝ) by ap_num)
    exact fin h (by norm_num) (by simp only [V4.get]; rw [h0]; ring)
  · exact fin (key 1 (by decide)) (by norm_num) (by simp only [V4.get, Branch.real, V4.real]; ring)
  · exact fin (key 2 (by decide)) (by norm_num) (by simp only [V4.get, Branch.real, V4.real]; ring)
  · exact fin (key 3 (by decide)) (by norm_num) (by simp only [V4.get, Branch.real, V4.real]; ring)

/-! ### exponential of a line -/

section Lane
variable {b c s q d sn cs : F32} {S C D a : ℝ}

/-- One lane of the normalised moment (x86_exp_log.hpp:92-99). -/
theorem lane_ideal (hS : In2 S 30 32) (hC : In2 C 30 32) (hb : Ap b (r b) S 0 30 32) (hc : Ap c (r c) C 0 30 32)
    (hs : Ap s (1 / S) (1 / S) 6.2e-7 32 30)
    (hq : Ap q (1 / S * (1 / S)) (1 / S * (1 / S)) 6.3e-7 64 60) (hd : Ap d D (S * C) 3.1e-7 60 64) :
    Ap (c * s - b * (d * (s * q))) (r c * (1 / S) - r b * (D * (1 / S * (1 / S * (1 / S)))))
      (C * (1 / S) + C * (1 / S)) 1.84e-6 62 63 := by
  have h0 := hS.pos
  have h1 := hs.mul hq (by norm_num) (by norm_num) (by norm_num) (by norm_num) (show _ ≤ (1.32e-6 : ℝ) by ap_num)
  have h2 := hd.mulR h1 (show _ = C * (1 / S * (1 / S)) by field_simp) (hC.mul (hS.inv.mul hS.inv))
    (by norm_num) (by norm_num) (by norm_num) (by norm_num) (show _ ≤ (1.7e-6 : ℝ) by ap_num)
  have h3 := hb.mulR h2 (show _ = C * (1 / S) by field_simp) (hC.mul hS.inv)
    (by norm_num) (by norm_num) (by norm_num) (by norm_num) (show _ ≤ (1.77e-6 : ℝ) by ap_num)
  have h4 := hc.mul hs (by norm_num) (by norm_num) (by norm_num) (by norm_num) (show _ ≤ (6.81e-7 : ℝ) by ap_num)
  exact h4.sub h3 (by norm_num) le_rfl (by norm_num) (by norm_num) (by ap_num)

theorem lane_real (hS : In2 S 30 32) (hb : Ap b (r b) S 0 30 32) (hs : Ap s (1 / S) (1 / S) 6.2e-7 32 30) :
    Ap (b * s) (r b * (1 / S)) 1 6.81e-7 0 0 := by
  have h0 := hS.pos
  exact hb.mulR hs (by field_simp) ⟨by norm_num, by norm_num⟩ (by norm_num) (by norm_num) (by norm_num) (by norm_num)
    (by ap_num)

theorem lane_v (hS : In2 S 30 32) (hC : In2 C 30 32) (hs : Ap s (1 / S) (1 / S) 6.2e-7 32 30)
    (hd : Ap d D (S * C) 3.1e-7 60 64) : Ap (d * s) (D * (1 / S)) C 1e-6 30 32 := by
  have h0 := hS.pos
  exact hd.mulR hs (by field_simp) hC (by norm_num) (by norm_num) (by norm_num) (by norm_num) (by ap_num)

/-- One lane of the rotor part of `exp`. -/
theorem lane_exp_real (hS : In2 S 30 32) (hb : Ap b (r b) S 0 30 32) (hs : Ap s (1 / S) (1 / S) 6.2e-7 32 30)
    (hsn : Ap sn (Real.sin a) 1 4.3e-6 0 0) :
    Ap (0 + sn * (b * s)) (0 + Real.sin a * (r b * (1 / S))) (1 / 2 ^ 20 + 1) 5.2e-6 20 1 :=
  (ap_zero (M := 1 / 2 ^ 20) (m := 20) (n := 0) ⟨by norm_num, by norm_num⟩).add
    (hsn.mulR (lane_real hS hb hs) (one_mul 1) ⟨by norm_num, by norm_num⟩ (by norm_num) (by norm_num)
      (m'' := 0) (n'' := 0) (by norm_num) (by norm_num) (show _ ≤ (5.1e-6 : ℝ) by ap_num))
    (by norm_num) le_rfl (by norm_num) (by norm_num) (by ap_num)

/-- One of the last three lanes of the other part. -/
theorem lane_exp_ideal (hS : In2 S 30 32) (hC : In2 C 30 32) (hb : Ap b (r b) S 0 30 32) (hc : Ap c (r c) C 0 30 32)
    (hs : Ap s (1 / S) (1 / S) 6.2e-7 32 30)
    (hq : Ap q (1 / S * (1 / S)) (1 / S * (1 / S)) 6.3e-7 64 60) (hd : Ap d D (S * C) 3.1e-7 60 64)
    {E E' Q : ℝ} (hsn : Ap sn E S 1.3e-6 30 32) (hcs : Ap cs E' Q 4.3e-6 10 0) :
    Ap (sn * (c * s - b * (d * (s * q))) + d * s * cs * (b * s))
      (E * (r c * (1 / S) - r b * (D * (1 / S * (1 / S * (1 / S))))) + D * (1 / S) * E' * (r b * (1 / S)))
      (C + C + C * Q) 6.3e-6 30 34 := by
  have h0 := hS.pos
  have h1 := hsn.mulR (lane_ideal hS hC hb hc hs hq hd) (show _ = C + C by field_simp) (hC.add hC)
    (by norm_num) (by norm_num) (by norm_num) (by norm_num) (show _ ≤ (6.22e-6 : ℝ) by ap_num)
  have h2 := (lane_v hS hC hs hd).mul hcs (by norm_num) (by norm_num) (by norm_num) (by norm_num)
    (show _ ≤ (5.4e-6 : ℝ) by ap_num)
  have h3 := h2.mulR (lane_real hS hb hs) (mul_one _) h2.rng (by norm_num) (by norm_num) (by norm_num) (by norm_num)
    (show _ ≤ (6.22e-6 : ℝ) by ap_num)
  exact h1.add h3 le_rfl le_rfl (by norm_num) (by norm_num) (by ap_num)

end Lane

/-- The unused lanes hold zero. -/
structure Line.Flat (m : Line F32) (C : ℝ) : Prop extends m.Scale C where
  p1z : r m.p1.l0 = 0
  p2z : r m.p2.l0 = 0

/-- What is assumed of a line about to be exponentiated. -/
structure Line.Exp (m : Line F32) (C : ℝ) : Prop extends m.Flat C where
  ang : √m.p1.sq3 ≤ 4

section
variable {m : Line F32} {C : ℝ}

theorem Line.Flat.ap_b (h : m.Flat C) (i : Fin 4) : Ap (m.p1.get i) (r (m.p1.get i)) (√m.p1.sq3) 0 30 32 := by
  by_cases hi : i = 0
  · subst hi
    refine Ap.input (h.p1 0 (by norm_num)).1 ?_ (sq3_rng h.p1 h.norm)
    simp only [V4.get]; rw [h.p1z, abs_zero]; exact Real.sqrt_nonneg _
  · exact h.toScale.ap_b i hi

theorem Line.Flat.ap_c (h : m.Flat C) (i : Fin 4) : Ap (m.p2.get i) (r (m.p2.get i)) C 0 30 32 := by
  by_cases hi : i = 0
  · subst hi
    refine Ap.input (h.fin 0) ?_ h.rng
    simp only [V4.get]; rw [h.p2z, abs_zero]; exact h.rng.pos.le
  · exact h.toScale.ap_c i hi

/-- The test for an ideal line fails. -/
theorem cmpeq_false {lm : Libm F32} (hl : lm.Contract32) {v : V4 F32} (hv : v.Le2 30) (hn : 1 / 2 ^ 60 ≤ v.sq3) :
    lm.cmpeq_all v setzero_ps = false := by
  by_contra hcon
  rw [Bool.not_eq_false] at hcon
  simp only [Libm.cmpeq_all, setzero_ps, Bool.and_eq_true] at hcon
  obtain ⟨⟨⟨-, h1⟩, h2⟩, h3⟩ := hcon
  have z : F32.isFinite 0 = true := by decide +kernel
  have e1 := (hl.feq _ _ (hv 1 (by norm_num)).1 z).1 h1
  have e2 := (hl.feq _ _ (hv 2 (by norm_num)).1 z).1 h2
  have e3 := (hl.feq _ _ (hv 3 (by norm_num)).1 z).1 h3
  simp only [V4.get] at e1 e2 e3
  rw [r_zero] at e1 e2 e3
  unfold V4.sq3 at hn
  rw [e1, e2, e3] at hn
  norm_num at hn

theorem Line.exp_real {hwr : Hw ℝ} (hx : hwr.Exact) (isa : Isa) (h : m.Exp C) {a : ℝ} (ha : a = √m.p1.sq3) :
    m.real.exp hwr Libm.real isa =
      ⟨⟨Real.cos a, Real.sin a * (r m.p1.l1 / a), Real.sin a * (r m.p1.l2 / a), Real.sin a * (r m.p1.l3 / a)⟩,
       ⟨dot3 m.real.p1 m.real.p2 / a * Real.sin a,
        Real.sin a * (r m.p2.l1 / a - r m.p1.l1 * dot3 m.real.p1 m.real.p2 / a ^ 3) +
          dot3 m.real.p1 m.real.p2 / a * Real.cos a * (r m.p1.l1 / a),
        Real.sin a * (r m.p2.l2 / a - r m.p1.l2 * dot3 m.real.p1 m.real.p2 / a ^ 3) +
          dot3 m.real.p1 m.real.p2 / a * Real.cos a * (r m.p1.l2 / a),
        Real.sin a * (r m.p2.l3 / a - r m.p1.l3 * dot3 m.real.p1 m.real.p2 / a ^ 3) +
          dot3 m.real.p1 m.real.p2 / a * Real.cos a * (r m.p1.l3 / a)⟩⟩ := by
  have hN : 0 < m.p1.sq3 := lt_of_lt_of_le (by positivity) h.norm
  have e3 := Line.real_dot3 m
  have hne : Libm.real.cmpeq_all m.real.p1 setzero_ps = false := by
    rw [← Bool.not_eq_true, cmpeq_all_zero]
    intro hz; rw [hz] at e3; simp [dot3, sse] at e3; linarith
  simp only [Line.exp, exp_kernel, hne, cond_false]
  rw [exp_general_eq hx isa m.real.p1 m.real.p2 (by rw [e3]; exact hN) h.p1z h.p2z (show a = _ by rw [e3, ha])]
  rfl

/-- C79: the rotor part of the exponential of a line. -/
theorem C79_line_exp_p1 {hw : Hw F32} (hc : hw.Contract32) {lm : Libm F32} (hl : lm.Contract32) {hwr : Hw ℝ}
    (hx : hwr.Exact) (isa isa' : Isa) (h : m.Exp C) (i : Fin 4) :
    ((m.exp hw lm isa).p1.get i).isFinite = true ∧
      |r ((m.exp hw lm isa).p1.get i) - (m.real.exp hwr Libm.real isa').p1.get i| ≤ 5.3e-6 := by
  have hS := sq3_rng h.p1 h.norm
  have hang := ap_ang hc isa h.p1 h.norm 0
  have hsn := ap_sin hl hang h.ang
  have hcs := ap_cos hl hang h.ang
  have hs : ∀ j : Fin 4, _ := h.toScale.ap_s hc isa
  have hb : ∀ j : Fin 4, _ := h.toFlat.ap_b
  rw [Line.exp_real hx isa' h rfl]
  simp only [Line.exp, exp_kernel, cmpeq_false hl h.p1 h.norm, cond_false, exp_general, explog_norm]
  generalize rsqrt_nr1 hw (hi_dp_bc isa m.p1 m.p1) = R at *
  have key : ∀ j : Fin 4, _ := fun j => lane_exp_real hS (hb j) (hs j) hsn
  have fin : ∀ {x : F32} {E E' M : ℝ} {m' n : ℕ}, Ap x E M 5.2e-6 m' n → M ≤ 1.01 → E = E' →
      x.isFinite = true ∧ |r x - E'| ≤ 5.3e-6 := by
    rintro x E E' M m' n hx hM rfl
    refine ⟨hx.fin, hx.err.trans ?_⟩
    norm_num at *; linarith
  fin_cases i
  · have hb0 : Ap (m.p1.get 0) (r (m.p1.get 0)) (√m.p1.sq3 * (1 / 2 ^ 10)) 0 40 32 :=
      Ap.input (h.p1 0 (by norm_num)).1 (by
        have := hS.pos
        simp only [V4.get]; rw [h.p1z, abs_zero]; positivity)
      ⟨(hS.mul (⟨le_rfl, by norm_num⟩ : In2 (1 / 2 ^ 10) 10 0)).lo, by have := hS.hi; norm_num at *; linarith⟩
    have hS0 := hS.pos
    have h1 := hb0.mulR (hs 0) (show _ = (1 / 2 ^ 10 : ℝ) by field_simp)
      (⟨by norm_num, by norm_num⟩ : In2 (1 / 2 ^ 10) 10 0) (by norm_num) (by norm_num) (by norm_num) (by norm_num)
      (show _ ≤ (6.81e-7 : ℝ) by ap_num)
    have h2 := hsn.mulR h1 (one_mul _) (⟨by norm_num, by norm_num⟩ : In2 (1 / 2 ^ 10) 10 0) (by norm_num) (by norm_num)
      (by norm_num) (by norm_num) (show _ ≤ (5.1e-6 : ℝ) by ap_num)
    have h3 := hcs.add h2 (K := 5.1e-6) (by norm_num) le_rfl (by norm_num) (by norm_num) (show _ ≤ (5.2e-6 : ℝ) by ap_num)
    exact fin h3 (by norm_num) (by simp only [V4.get]; rw [h.p1z]; ring)
  · exact fin (key 1) (by norm_num) (by simp only [V4.get]; ring)
  · exact fin (key 2) (by norm_num) (by simp only [V4.get]; ring)
  · exact fin (key 3) (by norm_num) (by simp only [V4.get]; ring)

/-- C79: the other part; `C` bounds the moment of the line. -/
theorem C79_line_exp_p2 {hw : Hw F32} (hc : hw.Contract32) {lm : Libm F32} (hl : lm.Contract32) {hwr : Hw ℝ}
    (hx : hwr.Exact) (isa isa' : Isa) (h : m.Exp C) (i : Fin 4) :
    ((m.exp hw lm isa).p2.get i).isFinite = true ∧
      |r ((m.exp hw lm isa).p2.get i) - (m.real.exp hwr Libm.real isa').p2.get i| ≤
        2e-5 * C := by
  have hS := sq3_rng h.p1 h.norm
  have hang := ap_ang hc isa h.p1 h.norm 0
  have hsn := ap_sin hl hang h.ang
  have hsr := ap_sin_rel hl hang (by norm_num)
  have hcs := ap_cos hl hang h.ang
  have hs : ∀ j : Fin 4, _ := h.toScale.ap_s hc isa
  have hq : ∀ j : Fin 4, _ := h.toScale.ap_q hc isa
  have hd : ∀ j : Fin 4, _ := h.toScale.ap_bc isa
  have hb : ∀ j : Fin 4, _ := h.toFlat.ap_b
  have hc' : ∀ j : Fin 4, _ := h.toFlat.ap_c
  rw [Line.exp_real hx isa' h rfl]
  simp only [Line.exp, exp_kernel, cmpeq_false hl h.p1 h.norm, cond_false, exp_general, explog_norm]
  generalize rsqrt_nr1 hw (hi_dp_bc isa m.p1 m.p1) = R at *
  generalize rcp_nr1 hw (hi_dp_bc isa m.p1 m.p1) = Q at *
  have hC0 := h.rng.pos
  have hS0 := hS.pos
  generalize √m.p1.sq3 = S at *
  have hzero : Ap 0 0 (1 / 2 ^ 10) 4.3e-6 10 0 := (ap_zero (M := 1 / 2 ^ 10) (m := 10) (n := 0)
    ⟨by norm_num, by norm_num⟩).le rfl le_rfl le_rfl (by norm_num) ⟨by norm_num, by norm_num⟩
  have hcs' : Ap _ _ 1 4.3e-6 10 0 := hcs.le rfl le_rfl (by norm_num) le_rfl ⟨by norm_num, by norm_num⟩
  have fin : ∀ {x : F32} {E E' M : ℝ} {m' n : ℕ}, Ap x E M 6.4e-6 m' n → M ≤ 3.01 * C → E = E' →
      x.isFinite = true ∧ |r x - E'| ≤ 2e-5 * C := by
    rintro x E E' M m' n hx hM rfl
    refine ⟨hx.fin, hx.err.trans ?_⟩
    norm_num at *; linarith
  have key : ∀ j : Fin 4, _ := fun j => ((ap_zero (M := C * (1 / 2 ^ 10)) (h.rng.mul (⟨le_rfl, by norm_num⟩ : In2 (1 / 2 ^ 10) 10 0))).add
      (lane_exp_ideal hS h.rng (hb j) (hc' j) (hs j) (hq j) (hd j) hsr hcs')
      (K := 6.3e-6) (by norm_num) le_rfl (by norm_num) (by norm_num) (show _ ≤ (6.4e-6 : ℝ) by ap_num))
  have hM : C * (1 / 2 ^ 10) + (C + C + C * 1) ≤ 3.01 * C := by norm_num; linarith
  have hM0 : C + (C + C + C * (1 / 2 ^ 10)) ≤ 3.01 * C := by norm_num; linarith
  fin_cases i
  · have h1 := (lane_v hS h.rng (hs 0) (hd 0)).mulR hsn (mul_one C) h.rng (by norm_num) (by norm_num) (by norm_num)
      (by norm_num) (show _ ≤ (5.4e-6 : ℝ) by ap_num)
    have h2 := lane_exp_ideal hS h.rng (hb 0) (hc' 0) (hs 0) (hq 0) (hd 0) hsr hzero
    have h3 := h1.add h2 (K := 6.3e-6) (by norm_num) le_rfl (by norm_num) (by norm_num) (show _ ≤ (6.4e-6 : ℝ) by ap_num)
    exact fin h3 hM0 (by simp only [V4.get]; rw [h.p1z, h.p2z]; ring)
  · exact fin (key 1) hM (by simp only [V4.get]; field_simp; ring)
  · exact fin (key 2) hM (by simp only [V4.get]; field_simp; ring)
  · exact fin (key 3) hM (by simp only [V4.get]; field_simp; ring)

end

/-! ### logarithm of a motor -/

theorem r_one_mul {x : F32} (hx : F32.Le2 x 127) : (1 * x).isFinite = true ∧ r (1 * x) = r x := by
  have h1 : F32.isFinite 1 = true := by decide +kernel
  have e : r 1 = 1 := by rw [r, one_val]; norm_num
  refine ⟨(mul_ok h1 (hx le_rfl).1 (by rw [e, one_mul]; exact abs_of_le2 hx le_rfl)).1, ?_⟩
  rw [mul_round h1 (hx le_rfl).1, one_val, one_mul, r, round_val (hx le_rfl).1, r]

theorem r_zero_mul {x : F32} (hx : F32.Le2 x 127) : (0 * x).isFinite = true ∧ r (0 * x) = 0 := by
  have h0 : F32.isFinite 0 = true := by decide +kernel
  have z : (0 : F32).val = 0 := by decide +kernel
  refine ⟨(mul_ok h0 (hx le_rfl).1 (by rw [r_zero, zero_mul, abs_zero]; norm_num)).1, ?_⟩
  rw [mul_round h0 (hx le_rfl).1, z, zero_mul, r, round_zero_val, Rat.cast_zero]

/-- What is assumed of a motor whose logarithm is taken: a bivector that is not zero. -/
structure Motor.LogBase (m : Motor F32) (C : ℝ) : Prop where
  p1 : m.p1.Le2 30
  norm : 1 / 2 ^ 60 ≤ m.p1.sq3
  p2 : m.p2.Le2 32
  mom : m.p2.sq3 ≤ C ^ 2
  rng : In2 C 30 32

/-- The same with a scalar of at least `1e-6` (the code has another branch below, see `LogSmall32`). -/
structure Motor.LogDom (m : Motor F32) (C : ℝ) : Prop extends m.LogBase C where
  scalar : 1 / 1000000 ≤ |r m.p1.l0|

section
variable {m : Motor F32} {C : ℝ}

/-- The bivector part, as computed. -/
def Motor.biv32 (m : Motor F32) : Line F32 := ⟨mul_ps (set_ps 1 1 1 0) m.p1, mul_ps (set_ps 1 1 1 0) m.p2⟩

theorem mask_lane {v : V4 F32} {n : ℕ} (hn : n ≤ 127) (hv : v.Le2 n) (i : Fin 4) :
    ((mul_ps (set_ps 1 1 1 0) v).get i).isFinite = true ∧
      r ((mul_ps (set_ps 1 1 1 0) v).get i) = if i = 0 then 0 else r (v.get i) := by
  have hv' : ∀ j, F32.Le2 (v.get j) 127 := fun j => le2_of_abs (hv j hn).1
    ((abs_of_le2 (hv j) hn).trans (pow_le_pow_right₀ (by norm_num) hn))
  fin_cases i
  · exact r_zero_mul (hv' 0)
  · exact r_one_mul (hv' 1)
  · exact r_one_mul (hv' 2)
  · exact r_one_mul (hv' 3)

theorem mask_sq3 {v : V4 F32} {n : ℕ} (hn : n ≤ 127) (hv : v.Le2 n) :
    (mul_ps (set_ps 1 1 1 0) v).sq3 = v.sq3 := by
  have h1 := (mask_lane hn hv 1).2
  have h2 := (mask_lane hn hv 2).2
  have h3 := (mask_lane hn hv 3).2
  simp only [V4.get] at h1 h2 h3
  unfold V4.sq3
  rw [h1, h2, h3]; simp

theorem Motor.LogBase.flat (h : m.LogBase C) : m.biv32.Flat C where
  p1 i hi := by
    obtain ⟨h1, h2⟩ := mask_lane (by norm_num) h.p1 i
    refine le2_of_abs h1 ?_ hi
    change |r ((mul_ps (set_ps 1 1 1 0) m.p1).get i)| ≤ _
    rw [h2]
    split_ifs
    · rw [abs_zero]; positivity
    · exact abs_of_le2 (h.p1 i) (by norm_num)
  norm := by rw [Motor.biv32, mask_sq3 (by norm_num) h.p1]; exact h.norm
  fin i := (mask_lane (by norm_num) h.p2 i).1
  p2 := by rw [Motor.biv32, mask_sq3 (by norm_num) h.p2]; exact h.mom
  rng := h.rng
  p1z := (mask_lane (by norm_num) h.p1 0).2
  p2z := (mask_lane (by norm_num) h.p2 0).2

/-- The angle computed by `atan2`, to relative accuracy. -/
theorem ap_atan2 {lm : Libm F32} (hl : lm.Contract32) {y x : F32} {s : ℝ} (h : Ap y s s 1e-6 30 32)
    (hx : F32.Le2 x 30) : Ap (lm.atan2 y x) (Complex.arg ⟨r x, s⟩) (Complex.arg ⟨r x, s⟩) 1.3e-6 63 2 := by
  have hs := h.rng.pos
  have hy : 0 < r y := by
    have := abs_le.1 h.err
    norm_num at this; linarith
  obtain ⟨h1, h2⟩ := hl.atan2 y x h.fin (hx (by norm_num)).1 hy.ne'
  have hpi := Real.pi_lt_d2
  obtain ⟨h3, -⟩ := arg_ge (x := r x) hs
  have hlo : 1 / 2 ^ 63 ≤ Complex.arg ⟨r x, s⟩ := by
    refine le_trans ?_ h3
    have hp : 0 < r x * r x + s * s := add_pos_of_nonneg_of_pos (mul_self_nonneg _) (mul_pos hs hs)
    have hq : √(r x * r x + s * s) ≤ 2 ^ 33 := by
      refine Real.sqrt_le_iff.2 ⟨by positivity, ?_⟩
      have a1 := mul_le_mul h.rng.hi h.rng.hi hs.le (by positivity)
      have a2 := abs_of_le2 hx (by norm_num)
      have a3 := mul_le_mul a2 a2 (abs_nonneg _) (by positivity)
      rw [abs_mul_abs_self] at a3
      norm_num at *; linarith
    rw [le_div_iff₀ (Real.sqrt_pos.2 hp)]
    have := h.rng.lo
    norm_num at *; linarith
  have hθ : 0 < Complex.arg ⟨r x, s⟩ := lt_of_lt_of_le (by positivity) hlo
  have h4 := arg_lip_rel (x := r x) hs (by norm_num) h.err
  have hle : Complex.arg ⟨r x, s⟩ ≤ 3.15 := (Complex.arg_le_pi _).trans hpi.le
  refine ⟨h1, (abs_of_pos hθ).le, ?_, ⟨hlo, by norm_num at *; linarith⟩⟩
  generalize Complex.arg ⟨r x, s⟩ = θ at *
  generalize Complex.arg ⟨r x, r y⟩ = θ' at *
  have h5 := abs_add_le (r (lm.atan2 y x) - θ') (θ' - θ)
  rw [sub_add_sub_cancel] at h5
  have h6 : |θ'| ≤ 1.1 * θ := by
    have := abs_add_le (θ' - θ) θ
    rw [sub_add_cancel, abs_of_pos hθ] at this
    norm_num at *; linarith
  have h7 := h2.trans (mul_le_mul_of_nonneg_left (max_le (show _ ≤ 1.1 * θ by norm_num at *; linarith) h6) (by positivity))
  norm_num at *
  linarith

/-- The parts of the exact motor. -/
theorem Motor.LogBase.parts (h : m.LogBase C) : m.real.sPart = √m.p1.sq3 ∧ 0 < m.real.sPart ∧
    dot3 m.real.bivector.p1 m.real.bivector.p1 = m.p1.sq3 ∧
    dot3 m.real.bivector.p1 m.real.bivector.p2 = dot3 m.biv32.real.p1 m.biv32.real.p2 := by
  have hN : 0 < m.p1.sq3 := lt_of_lt_of_le (by positivity) h.norm
  have e1 : dot3 m.real.bivector.p1 m.real.bivector.p1 = m.p1.sq3 := by
    simp only [Motor.bivector, Motor.real, V4.real, dot3, V4.sq3]; ring
  have e3 : m.real.sPart = √m.p1.sq3 := by rw [Motor.sPart, e1]
  refine ⟨e3, by rw [e3]; exact Real.sqrt_pos.2 hN, e1, ?_⟩
  have a1 := (mask_lane (by norm_num) h.p1 1).2
  have a2 := (mask_lane (by norm_num) h.p1 2).2
  have a3 := (mask_lane (by norm_num) h.p1 3).2
  have b1 := (mask_lane (by norm_num) h.p2 1).2
  have b2 := (mask_lane (by norm_num) h.p2 2).2
  have b3 := (mask_lane (by norm_num) h.p2 3).2
  simp only [V4.get] at a1 a2 a3 b1 b2 b3
  simp only [Motor.bivector, Motor.real, V4.real, dot3, Line.real, Motor.biv32]
  rw [a1, a2, a3, b1, b2, b3]; rfl

/-- The exact logarithm, lane by lane. -/
theorem Motor.log_real {hwr : Hw ℝ} (hx : hwr.Exact) (isa : Isa) (h : m.LogDom C) {s D : ℝ} (hs : s = √m.p1.sq3)
    (hD : D = dot3 m.biv32.real.p1 m.biv32.real.p2) :
    m.real.log hwr Libm.real isa =
      (⟨⟨0, r m.p1.l1 / s, r m.p1.l2 / s, r m.p1.l3 / s⟩,
        ⟨0, r m.p2.l1 / s - D / s ^ 3 * r m.p1.l1, r m.p2.l2 / s - D / s ^ 3 * r m.p1.l2,
          r m.p2.l3 / s - D / s ^ 3 * r m.p1.l3⟩⟩ : Line ℝ).scr (Complex.arg ⟨r m.p1.l0, s⟩) (-(D / s) / r m.p1.l0) := by
  obtain ⟨e3, h0, e1, e2⟩ := h.toLogBase.parts
  rw [Motor.log_eq hx isa m.real h0]
  rw [← hs] at e3
  rw [← hD] at e2
  have hsc : ¬ |m.real.scalar| < 1 / 1000000 := not_lt.2 h.scalar
  rw [Motor.logU, Motor.logV, if_neg hsc, if_neg hsc, Motor.tPart, e2, e3, Line.axis, e1, e2, ← hs]
  rfl

theorem Motor.log32_eq {hw : Hw F32} {lm : Libm F32} (hl : lm.Contract32) (isa : Isa) (h : m.LogDom C) :
    m.log hw lm isa = (let n := explog_norm hw isa m.biv32.p1 m.biv32.p2
      let u := lm.atan2 (mul_ps n.1 n.2.2.1).l0 m.p1.l0
      let v := (mul_ps n.2.1 n.2.2.1).l0 * (-1) / m.p1.l0
      ⟨mul_ps (set1_ps u) n.2.2.2.1, sub_ps (mul_ps (set1_ps u) n.2.2.2.2) (mul_ps (set1_ps v) n.2.2.2.1)⟩) := by
  have hf := h.flat
  have h1 : lm.cmpeq_all (mul_ps (set_ps 1 1 1 0) m.p1) setzero_ps = false := cmpeq_false hl hf.p1 hf.norm
  have h2 : lm.flt (lm.abs m.p1.l0) lm.eps6 = false := by
    rw [← Bool.not_eq_true, hl.lt6 m.p1.l0 (h.p1 0 (by norm_num)).1]
    exact not_lt.2 h.scalar
  simp only [Motor.log, log_kernel, h1, cond_false, log_general, h2]
  rfl

/-- C79: the direction of the logarithm of a motor. -/
theorem C79_motor_log_p1 {hw : Hw F32} (hc : hw.Contract32) {lm : Libm F32} (hl : lm.Contract32) {hwr : Hw ℝ}
    (hx : hwr.Exact) (isa isa' : Isa) (h : m.LogDom C) (i : Fin 4) :
    ((m.log hw lm isa).p1.get i).isFinite = true ∧
      |r ((m.log hw lm isa).p1.get i) - (m.real.log hwr Libm.real isa').p1.get i| ≤
        2.1e-6 * Complex.arg ⟨r m.p1.l0, √m.p1.sq3⟩ := by
  have hf := h.flat
  have hS := sq3_rng hf.p1 hf.norm
  have hu := ap_atan2 hl (ap_ang hc isa hf.p1 hf.norm 0) (h.p1 0)
  have hs : ∀ j : Fin 4, _ := hf.toScale.ap_s hc isa
  have hb : ∀ j : Fin 4, _ := hf.ap_b
  have ev : ∀ j : Fin 4, r (m.biv32.p1.get j) = _ := fun j => (mask_lane (by norm_num) h.p1 j).2
  have es : m.biv32.p1.sq3 = m.p1.sq3 := mask_sq3 (by norm_num) h.p1
  rw [Motor.log_real hx isa' h rfl rfl, Motor.log32_eq hl isa h]
  simp only [explog_norm]
  generalize rsqrt_nr1 hw (hi_dp_bc isa m.biv32.p1 m.biv32.p1) = R at *
  simp only [es] at hS hu hs hb
  have key : ∀ j : Fin 4, _ := fun j => hu.mulR (lane_real hS (hb j) (hs j)) (mul_one _)
    hu.rng (by norm_num) (by norm_num) (by norm_num) (by norm_num) (show _ ≤ (2.1e-6 : ℝ) by ap_num)
  have fin : ∀ {x : F32} {E E' M : ℝ} {m' n : ℕ}, Ap x E M 2.1e-6 m' n → E = E' →
      x.isFinite = true ∧ |r x - E'| ≤ 2.1e-6 * M := by
    rintro x E E' M m' n hx rfl
    exact ⟨hx.fin, hx.err⟩
  fin_cases i
  · exact fin (key 0) (by rw [ev, if_pos rfl]; simp only [V4.get, Line.scr]; ring)
  · exact fin (key 1) (by rw [ev, if_neg (by decide)]; simp only [V4.get, Line.scr]; ring)
  · exact fin (key 2) (by rw [ev, if_neg (by decide)]; simp only [V4.get, Line.scr]; ring)
  · exact fin (key 3) (by rw [ev, if_neg (by decide)]; simp only [V4.get, Line.scr]; ring)

/-- C79: the moment of the logarithm of a motor. -/
theorem C79_motor_log_p2 {hw : Hw F32} (hc : hw.Contract32) {lm : Libm F32} (hl : lm.Contract32) {hwr : Hw ℝ}
    (hx : hwr.Exact) (isa isa' : Isa) (h : m.LogDom C) (i : Fin 4) :
    ((m.log hw lm isa).p2.get i).isFinite = true ∧
      |r ((m.log hw lm isa).p2.get i) - (m.real.log hwr Libm.real isa').p2.get i| ≤
        7e-6 * (Complex.arg ⟨r m.p1.l0, √m.p1.sq3⟩ * (C / √m.p1.sq3)) + 3.5e-6 * (C / |r m.p1.l0|) := by
  have hf := h.flat
  have hS := sq3_rng hf.p1 hf.norm
  have hu := ap_atan2 hl (ap_ang hc isa hf.p1 hf.norm 0) (h.p1 0)
  have hs : ∀ j : Fin 4, _ := hf.toScale.ap_s hc isa
  have hq : ∀ j : Fin 4, _ := hf.toScale.ap_q hc isa
  have hd : ∀ j : Fin 4, _ := hf.toScale.ap_bc isa
  have hb : ∀ j : Fin 4, _ := hf.ap_b
  have hc' : ∀ j : Fin 4, _ := hf.ap_c
  have ev : ∀ j : Fin 4, r (m.biv32.p1.get j) = _ := fun j => (mask_lane (by norm_num) h.p1 j).2
  have ew : ∀ j : Fin 4, r (m.biv32.p2.get j) = _ := fun j => (mask_lane (by norm_num) h.p2 j).2
  have es : m.biv32.p1.sq3 = m.p1.sq3 := mask_sq3 (by norm_num) h.p1
  rw [Motor.log_real hx isa' h rfl rfl, Motor.log32_eq hl isa h]
  simp only [explog_norm]
  generalize rsqrt_nr1 hw (hi_dp_bc isa m.biv32.p1 m.biv32.p1) = R at *
  generalize rcp_nr1 hw (hi_dp_bc isa m.biv32.p1 m.biv32.p1) = Q at *
  generalize dot3 m.biv32.real.p1 m.biv32.real.p2 = D at *
  simp only [es] at hS hu hs hb hq hd
  have hC0 := h.rng.pos
  have hS0 := hS.pos
  generalize √m.p1.sq3 = S at *
  simp only [V4.get] at hu
  have hθ := hu.rng.pos
  generalize Complex.arg ⟨r m.p1.l0, S⟩ = θ at *
  have hP : In2 |r m.p1.l0| 20 30 := ⟨h.scalar.trans' (by norm_num), abs_of_le2 (h.p1 0) (by norm_num)⟩
  have hp : Ap m.p1.l0 (r m.p1.l0) |r m.p1.l0| 0 20 30 := Ap.input (h.p1 0 (by norm_num)).1 le_rfl hP
  have hone : Ap (-1) (-1) 1 0 0 0 := by
    have e : r (-1) = -1 := by rw [r_neg, r, one_val]; norm_num
    have := Ap.input (x := -1) (M := 1) (m := 0) (n := 0) (by decide +kernel) (by rw [e]; norm_num) ⟨by norm_num, by norm_num⟩
    rwa [e] at this
  have hv := ((lane_v hS h.rng (hs 0) (hd 0)).mulR hone (mul_one C) h.rng (by norm_num) (by norm_num) (by norm_num)
    (by norm_num) (show _ ≤ (1.07e-6 : ℝ) by ap_num)).divR hp rfl (by norm_num) (by norm_num) (by norm_num) (by norm_num)
    (show _ ≤ (1.14e-6 : ℝ) by ap_num)
  have key : ∀ j : Fin 4, _ := fun j => (hu.mul (lane_ideal hS h.rng (hb j) (hc' j) (hs j) (hq j) (hd j))
      (by norm_num) (by norm_num) (by norm_num) (by norm_num) (show _ ≤ (3.22e-6 : ℝ) by ap_num)).sub
    (hv.mulR (lane_real hS (hb j) (hs j)) (mul_one _) hv.rng (by norm_num) (by norm_num) (by norm_num) (by norm_num)
      (show _ ≤ (1.9e-6 : ℝ) by ap_num)) (K := 3.22e-6) le_rfl (by norm_num) (by norm_num) (by norm_num)
    (show _ ≤ (3.3e-6 : ℝ) by ap_num)
  have fin : ∀ {x : F32} {E E' : ℝ} {m' n : ℕ},
      Ap x E (θ * (C * (1 / S) + C * (1 / S)) + C / |r m.p1.l0|) 3.3e-6 m' n → E = E' →
      x.isFinite = true ∧ |r x - E'| ≤ 7e-6 * (θ * (C / S)) + 3.5e-6 * (C / |r m.p1.l0|) := by
    rintro x E E' m' n hx rfl
    refine ⟨hx.fin, hx.err.trans ?_⟩
    have h1 : 0 < θ * (C / S) := mul_pos hθ (by positivity)
    have h2 : 0 < C / |r m.p1.l0| := div_pos hC0 hP.pos
    rw [mul_one_div, ← two_mul, ← mul_assoc, mul_comm θ 2, mul_assoc]
    norm_num at *; linarith
  fin_cases i
  · exact fin (key 0) (by rw [ev, ew]; simp [V4.get, Line.scr])
  · exact fin (key 1) (by rw [ev, ew]; simp [V4.get, Line.scr]; ring)
  · exact fin (key 2) (by rw [ev, ew]; simp [V4.get, Line.scr]; ring)
  · exact fin (key 3) (by rw [ev, ew]; simp [V4.get, Line.scr]; ring)

end

/-! ### logarithm of a rotor -/

/-- The Newton-refined reciprocal of an approximate value. -/
theorem ap_rcp1 {hw : Hw F32} (hc : hw.Contract32) {D : F32} {E k : ℝ} {m n : ℕ} (h : Ap D E E k m n)
    (hk : 0 ≤ k ∧ k ≤ 1 / 1000) (hm : m ≤ 99) (hn : n ≤ 99) :
    Ap (rcp1 hw D) (1 / E) (1 / E) (3.3e-7 + 1.01 * k) n m := by
  have hE := h.rng.pos
  have hD := abs_le.1 h.err
  have hkE : k * E ≤ E / 1000 := by nlinarith [hk.2]
  have hlo : 1 / 2 ^ 99 ≤ E :=
    le_trans (one_div_le_one_div_of_le (by positivity) (pow_le_pow_right₀ (by norm_num) hm)) h.rng.lo
  have hhi : E ≤ 2 ^ 99 := h.rng.hi.trans (pow_le_pow_right₀ (by norm_num) hn)
  have hD0 : 0 < r D := by linarith
  obtain ⟨hz, he⟩ := rcp1_f32 hc h.fin (by rw [abs_of_pos hD0]; norm_num at *; linarith)
    (by rw [abs_of_pos hD0]; norm_num at *; linarith)
  refine ⟨hz, (abs_of_pos (by positivity)).le, ?_, h.rng.inv⟩
  obtain ⟨w, ew⟩ : ∃ w, w = r (rcp1 hw D) := ⟨_, rfl⟩
  rw [← ew] at he ⊢
  obtain ⟨t, et⟩ : ∃ t, t = w * E := ⟨_, rfl⟩
  obtain ⟨d, ed⟩ : ∃ d, d = r D / E := ⟨_, rfl⟩
  have hDe : r D = d * E := by rw [ed]; field_simp
  have hd : |d - 1| ≤ k := by
    have : d - 1 = (r D - E) / E := by rw [ed]; field_simp
    rw [this, abs_div, abs_of_pos hE, div_le_iff₀ hE]; exact h.err
  have hw1 : w * r D = t * d := by rw [et, hDe]; ring
  rw [hw1] at he
  have e : w - 1 / E = (t - 1) * (1 / E) := by rw [et]; field_simp
  rw [e, abs_mul, abs_of_pos (show 0 < 1 / E by positivity)]
  refine mul_le_mul_of_nonneg_right ?_ (by positivity)
  clear * - he hd hk
  obtain ⟨hk0, hk1⟩ := hk
  rw [abs_le] at *
  norm_num at *
  have hd1 : 999 / 1000 ≤ d := by linarith
  constructor
  · by_contra hcon
    push Not at hcon
    nlinarith
  · by_contra hcon
    push Not at hcon
    nlinarith

/-- The angle and its sine, as `log` of a rotor computes them. -/
theorem ap_acos {lm : Libm F32} (hl : lm.Contract32) {p : F32} (hf : p.isFinite = true) (hp : |r p| ≤ 1) {K s : ℝ}
    (hs : s = √(1 - r p ^ 2)) (h20 : 1 / 2 ^ 20 ≤ s) (hK : Real.arccos (r p) ≤ K * s) :
    Ap (lm.acos p) (Real.arccos (r p)) (Real.arccos (r p)) 2.4e-7 20 2 ∧
    Ap (lm.sin (lm.acos p)) s s (2.4e-7 * (K + 1)) 20 0 := by
  obtain ⟨h1, h2⟩ := hl.acos p hf hp
  have hs' : Real.sin (Real.arccos (r p)) = s := by rw [Real.sin_arccos, hs]
  have hs1 : s ≤ 1 := by rw [← hs']; exact Real.sin_le_one _
  have hs0 : 0 < s := lt_of_lt_of_le (by positivity) h20
  have hθs : s ≤ Real.arccos (r p) := by rw [← hs']; exact Real.sin_le (Real.arccos_nonneg _)
  have hθ4 : Real.arccos (r p) ≤ 4 := (Real.arccos_le_pi _).trans Real.pi_le_four
  generalize Real.arccos (r p) = θ at *
  have hθ0 : 0 < θ := lt_of_lt_of_le hs0 hθs
  rw [abs_of_pos hθ0, max_eq_right (by norm_num at *; linarith)] at h2
  have a1 : Ap (lm.acos p) θ θ 2.4e-7 20 2 := by
    refine ⟨h1, (abs_of_pos hθ0).le, h2.trans (by norm_num; linarith), ⟨h20.trans hθs, by norm_num; linarith⟩⟩
  refine ⟨a1, ?_⟩
  obtain ⟨h3, h4⟩ := hl.sin (lm.acos p) h1
  have h5 := (Real.abs_sin_sub_sin_le (r (lm.acos p)) θ).trans h2
  rw [hs'] at h5
  refine ⟨h3, (abs_of_pos hs0).le, ?_, ⟨h20, by norm_num; linarith⟩⟩
  have h6 : |Real.sin (r (lm.acos p))| ≤ s + 1 / 2 ^ 22 * θ := by
    have := abs_le.1 h5
    rw [abs_le]
    constructor <;> linarith [mul_pos (show (0 : ℝ) < 1 / 2 ^ 22 by positivity) hθ0]
  have h7 := h4.trans (mul_le_mul_of_nonneg_left (max_le (by norm_num at *; linarith) h6) (by positivity))
  have h8 := abs_add_le (r (lm.sin (lm.acos p)) - Real.sin (r (lm.acos p))) (Real.sin (r (lm.acos p)) - s)
  rw [sub_add_sub_cancel] at h8
  refine (h8.trans (add_le_add h7 h5)).trans ?_
  have : 2.4e-7 * (K + 1) * s = 2.4e-7 * (K * s) + 2.4e-7 * s := by ring
  rw [this]
  norm_num at *
  linarith

section
variable {q : Rotor F32}

/-- What is assumed of a rotor whose logarithm is taken: the scalar is a cosine, not too close to one of a
multiple of the half turn; `K` bounds angle over sine, `B` the other lanes. -/
structure Rotor.LogDom (q : Rotor F32) (K B : ℝ) : Prop where
  fin : q.p1.Finite
  one : |r q.p1.l0| ≤ 1
  sin : 1 / 2 ^ 20 ≤ √(1 - r q.p1.l0 ^ 2)
  ang : Real.arccos (r q.p1.l0) ≤ K * √(1 - r q.p1.l0 ^ 2)
  kle : K ≤ 1000
  lane : ∀ i : Fin 4, i ≠ 0 → |r (q.p1.get i)| ≤ B
  rng : In2 B 30 30

theorem Rotor.log_real {hwr : Hw ℝ} (hx : hwr.Exact) (isa : Isa) {p θ s : ℝ} (a b c : ℝ) (hθ : Real.arccos p = θ)
    (hs : Real.sin θ = s) (hs0 : s ≠ 0) :
    (⟨⟨p, a, b, c⟩⟩ : Rotor ℝ).log hwr Libm.real isa = ⟨⟨0, a * (1 / s) * θ, b * (1 / s) * θ, c * (1 / s) * θ⟩⟩ := by
  have e : rcp1 hwr (Libm.real.sin (Libm.real.acos p)) = 1 / s := by
    show rcp1 hwr (Real.sin (Real.arccos p)) = _
    rw [hθ, hs, exact_rcp1 hx hs0]
  have e2 : Libm.real.acos p = θ := hθ
  simp only [Rotor.log, rcp_set1]
  rw [e, e2]
  cases isa <;> rfl

/-- C79: each lane of the logarithm of a rotor. -/
theorem C79_rotor_log {hw : Hw F32} (hc : hw.Contract32) {lm : Libm F32} (hl : lm.Contract32) {hwr : Hw ℝ}
    (hx : hwr.Exact) (isa isa' : Isa) {K B : ℝ} (h : q.LogDom K B) (i : Fin 4) :
    ((q.log hw lm isa).p1.get i).isFinite = true ∧
      |r ((q.log hw lm isa).p1.get i) - (q.real.log hwr Libm.real isa').p1.get i| ≤
        (1e-6 + 2.5e-7 * K) * (B * (Real.arccos (r q.p1.l0) / √(1 - r q.p1.l0 ^ 2))) := by
  obtain ⟨h1, h2⟩ := ap_acos hl (h.fin 0) h.one rfl h.sin h.ang
  have hs0 : 0 < √(1 - r q.p1.l0 ^ 2) := lt_of_lt_of_le (by positivity) h.sin
  have hθ0 := h1.rng.pos
  have hB := h.rng.pos
  have hθs : √(1 - r q.p1.l0 ^ 2) ≤ Real.arccos (r q.p1.l0) := by
    rw [← Real.sin_arccos]; exact Real.sin_le (Real.arccos_nonneg _)
  have hK1 : 1 ≤ K := by
    by_contra hcon
    push Not at hcon
    have := h.ang
    nlinarith
  have hKl := h.kle
  have hk : 0 ≤ 2.4e-7 * (K + 1) ∧ 2.4e-7 * (K + 1) ≤ 1 / 1000 := ⟨by norm_num; linarith, by norm_num; linarith⟩
  have hr := ap_rcp1 hc h2 hk (by norm_num) (by norm_num)
  have e1 : Real.sin (Real.arccos (r q.p1.l0)) = √(1 - r q.p1.l0 ^ 2) := Real.sin_arccos _
  have e2 : q.real = ⟨⟨r q.p1.l0, r q.p1.l1, r q.p1.l2, r q.p1.l3⟩⟩ := rfl
  rw [e2, Rotor.log_real hx isa' _ _ _ rfl e1 hs0.ne']
  simp only [V4.get] at *
  have ha := h.fin
  have hlane := h.lane
  have hrng := h.rng
  clear h
  generalize Real.arccos (r q.p1.l0) = θ at *
  generalize √(1 - r q.p1.l0 ^ 2) = s at *
  have u1 := u_le
  have u0 := u_pos
  have key : ∀ j : Fin 4, j ≠ 0 → Ap (q.p1.get j * rcp1 hw (lm.sin (lm.acos q.p1.l0)) * lm.acos q.p1.l0)
      (r (q.p1.get j) * (1 / s) * θ) (B * (1 / s) * θ) (1e-6 + 2.5e-7 * K) 50 52 := fun j hj => by
    have a1 := (Ap.input (ha j) (hlane j hj) hrng).mul hr (by norm_num) ⟨by norm_num; linarith, by norm_num; linarith⟩
      (by norm_num) (by norm_num) (show _ ≤ 6.5e-7 + 2.43e-7 * K by norm_num at *; nlinarith)
    exact a1.mul h1 ⟨by norm_num; linarith, by norm_num; linarith⟩ (by norm_num) (by norm_num) (by norm_num)
      (by norm_num at *; nlinarith)
  have fin : ∀ {x : F32} {E E' : ℝ}, Ap x E (B * (1 / s) * θ) (1e-6 + 2.5e-7 * K) 50 52 → E = E' →
      x.isFinite = true ∧ |r x - E'| ≤ (1e-6 + 2.5e-7 * K) * (B * (θ / s)) := by
    rintro x E E' hx rfl
    refine ⟨hx.fin, hx.err.trans (le_of_eq ?_)⟩
    ring
  have e0 : ∀ j : Fin 4, j ≠ 0 → (q.log hw lm isa).p1.get j =
      q.p1.get j * rcp1 hw (lm.sin (lm.acos q.p1.l0)) * lm.acos q.p1.l0 := fun j hj => by
    fin_cases j
    · exact absurd rfl hj
    all_goals cases isa <;> rfl
  fin_cases i
  · have e : (q.log hw lm isa).p1.l0 = 0 := by cases isa <;> rfl
    simp only [Fin.zero_eta]
    rw [e, r_zero]
    refine ⟨by decide +kernel, ?_⟩
    rw [sub_zero, abs_zero]
    exact mul_nonneg (by norm_num; linarith) (by positivity)
  · have k := key 1 (by decide)
    rw [← e0 1 (by decide)] at k
    exact fin k rfl
  · have k := key 2 (by decide)
    rw [← e0 2 (by decide)] at k
    exact fin k rfl
  · have k := key 3 (by decide)
    rw [← e0 3 (by decide)] at k
    exact fin k rfl

end

/-! ### constructors from an axis -/

/-- Sine and cosine of an angle known up to an absolute error. -/
theorem ap_sin_abs {lm : Libm F32} (hl : lm.Contract32) {x : F32} {a : ℝ} (hf : x.isFinite = true)
    (h : |r x - a| ≤ 2.4e-7) : Ap (lm.sin x) (Real.sin a) 1 4.8e-7 0 0 := by
  obtain ⟨h1, h2⟩ := hl.sin x hf
  refine ⟨h1, Real.abs_sin_le_one _, ?_, ⟨by norm_num, by norm_num⟩⟩
  have h3 := abs_add_le (r (lm.sin x) - Real.sin (r x)) (Real.sin (r x) - Real.sin a)
  rw [sub_add_sub_cancel] at h3
  have h5 := (Real.abs_sin_sub_sin_le (r x) a).trans h
  have h7 := h2.trans (mul_le_mul_of_nonneg_left (max_le (by norm_num) (Real.abs_sin_le_one _)) (by positivity))
  norm_num at *
  linarith

theorem ap_cos_abs {lm : Libm F32} (hl : lm.Contract32) {x : F32} {a : ℝ} (hf : x.isFinite = true)
    (h : |r x - a| ≤ 2.4e-7) : Ap (lm.cos x) (Real.cos a) 1 4.8e-7 0 0 := by
  obtain ⟨h1, h2⟩ := hl.cos x hf
  refine ⟨h1, Real.abs_cos_le_one _, ?_, ⟨by norm_num, by norm_num⟩⟩
  have h3 := abs_add_le (r (lm.cos x) - Real.cos (r x)) (Real.cos (r x) - Real.cos a)
  rw [sub_add_sub_cancel] at h3
  have h5 := (Real.abs_cos_sub_cos_le (r x) a).trans h
  have h7 := h2.trans (mul_le_mul_of_nonneg_left (max_le (by norm_num) (Real.abs_cos_le_one _)) (by positivity))
  norm_num at *
  linarith

theorem r_half : (1 / 2 : F32).isFinite = true ∧ r (1 / 2) = 1 / 2 := by
  refine ⟨by decide +kernel, ?_⟩
  have : (1 / 2 : F32).val = 1 / 2 := by decide +kernel
  rw [r, this]; norm_num

/-- Half an angle of at most 8. -/
theorem half_ang {a : F32} (hf : a.isFinite = true) (h8 : |r a| ≤ 8) :
    (1 / 2 * a).isFinite = true ∧ |r (1 / 2 * a) - 1 / 2 * r a| ≤ 2.4e-7 ∧
    (a * (1 / 2)).isFinite = true ∧ |r (a * (1 / 2)) - r a * (1 / 2)| ≤ 2.4e-7 := by
  have hb : |1 / 2 * r a| ≤ 4 := by rw [abs_mul, abs_of_pos (by norm_num : (0 : ℝ) < 1 / 2)]; linarith
  have hb' : |r a * (1 / 2)| ≤ 4 := by rw [mul_comm]; exact hb
  have hu := u_le
  have hu0 := u_pos
  obtain ⟨h1, h2⟩ := mul_ok r_half.1 hf (by rw [r_half.2]; exact hb.trans (by norm_num))
  obtain ⟨h3, h4⟩ := mul_ok hf r_half.1 (by rw [r_half.2]; exact hb'.trans (by norm_num))
  rw [r_half.2] at h2 h4
  refine ⟨h1, h2.trans ?_, h3, h4.trans ?_⟩
  · have := mul_le_mul_of_nonneg_left (max_le (by norm_num : (1 / 2 ^ 126 : ℝ) ≤ 4) hb) hu0.le
    refine this.trans ?_
    norm_num at *; linarith
  · have := mul_le_mul_of_nonneg_left (max_le (by norm_num : (1 / 2 ^ 126 : ℝ) ≤ 4) hb') hu0.le
    refine this.trans ?_
    norm_num at *; linarith

/-- What is assumed of an axis. -/
structure AxisDom (x y z : F32) : Prop where
  lx : F32.Le2 x 30
  ly : F32.Le2 y 30
  lz : F32.Le2 z 30
  norm : 1 / 2 ^ 60 ≤ r x ^ 2 + r y ^ 2 + r z ^ 2

theorem AxisDom.rng {x y z : F32} (h : AxisDom x y z) : In2 √(r x ^ 2 + r y ^ 2 + r z ^ 2) 30 32 := by
  have h0 : V4.Le2 ⟨0, x, y, z⟩ 30 := fun i => by
    fin_cases i
    · exact le2_of_abs (show F32.isFinite 0 = true by decide +kernel) (show |r 0| ≤ _ by rw [r_zero, abs_zero]; positivity)
    · exact h.lx
    · exact h.ly
    · exact h.lz
  have h1 := sq3_rng h0 (by unfold V4.sq3; exact h.norm)
  unfold V4.sq3 at h1; exact h1

/-- The inverse of the norm of the axis, by the library's square root and a division. -/
theorem ap_inv_norm {lm : Libm F32} (hl : lm.Contract32) {x y z : F32} (h : AxisDom x y z) :
    Ap (1 / lm.sqrt (x * x + y * y + z * z)) (1 / √(r x ^ 2 + r y ^ 2 + r z ^ 2)) (1 / √(r x ^ 2 + r y ^ 2 + r z ^ 2))
      1.2e-6 32 30 := by
  have hr := h.rng
  have hN : 0 < r x ^ 2 + r y ^ 2 + r z ^ 2 := lt_of_lt_of_le (by positivity) h.norm
  have hf : (x * x + y * y + z * z).isFinite = true := by
    exact ((((h.lx.mul h.lx).add (h.ly.mul h.ly)).add (h.lz.mul h.lz)) (by norm_num)).1
  have hnear : Near F32.rounded 4 (x * x + y * y + z * z) (r x ^ 2 + r y ^ 2 + r z ^ 2)
      (r x ^ 2 + r y ^ 2 + r z ^ 2 + 4 * F32.rounded.tiny) := by
    have := F32.rounded.tiny_nonneg
    have e : ∀ x : F32, F32.rounded.val x = r x := fun _ => rfl
    apply Near.le
    · near
    · simp only [e]; ring
    · simp only [e, abs_mul_abs_self]; linarith
    · decide
  have hD := gamma_bc (hnear.err hf) le_rfl (h.norm.trans' (by norm_num))
  change |r (x * x + y * y + z * z) - _| ≤ _ at hD
  generalize x * x + y * y + z * z = D at *
  have hS := Real.mul_self_sqrt hN.le
  generalize r x ^ 2 + r y ^ 2 + r z ^ 2 = N at *
  have hD0 : 0 < r D := by
    have := abs_le.1 hD
    norm_num at this; linarith
  obtain ⟨h1, h2⟩ := hl.sqrt D hf hD0
  have hS0 := hr.pos
  -- the square root of the rounded sum
  have h3 : |√(r D) - √N| ≤ 3.1e-7 * √N := by
    have e : (√(r D) - √N) * (√(r D) + √N) = r D - N := by
      have := Real.mul_self_sqrt hD0.le
      linear_combination this - hS
    have h4 : √N ≤ √(r D) + √N := by linarith [Real.sqrt_nonneg (r D)]
    have h5 : |√(r D) - √N| * √N ≤ 3.1e-7 * √N * √N := by
      refine (mul_le_mul_of_nonneg_left h4 (abs_nonneg _)).trans ?_
      rw [← abs_of_pos (lt_of_lt_of_le hS0 h4), ← abs_mul, e, mul_assoc, hS]
      exact hD
    exact le_of_mul_le_mul_right h5 hS0
  have hq : Ap (lm.sqrt D) √N √N 5.6e-7 30 32 := by
    refine ⟨h1, (abs_of_pos hS0).le, ?_, hr⟩
    have h6 : |√(r D)| ≤ 1.001 * √N := by
      have := abs_le.1 h3
      rw [abs_of_nonneg (Real.sqrt_nonneg _)]
      norm_num at *; linarith
    have h7 := h2.trans (mul_le_mul_of_nonneg_left (max_le (by
      have := hr.lo
      norm_num at *; linarith) h6) (by positivity))
    have h8 := abs_add_le (r (lm.sqrt D) - √(r D)) (√(r D) - √N)
    rw [sub_add_sub_cancel] at h8
    generalize √N = S at *
    clear * - h8 h3 h7 hS0
    norm_num at *; linarith
  have e1 : r 1 = 1 := by rw [r, one_val]; norm_num
  have h1' : Ap 1 1 1 0 0 0 := by
    have := Ap.input (x := 1) (M := 1) (m := 0) (n := 0) (by decide +kernel) (by rw [e1]; norm_num) ⟨by norm_num, by norm_num⟩
    rwa [e1] at this
  exact h1'.div hq (by norm_num) (by norm_num) (by norm_num) (by norm_num) (by ap_num)

theorem ap_one : Ap 1 1 1 0 0 0 := by
  have e1 : r 1 = 1 := by rw [r, one_val]; norm_num
  have := Ap.input (x := 1) (M := 1) (m := 0) (n := 0) (by decide +kernel) (by rw [e1]; norm_num) ⟨by norm_num, by norm_num⟩
  rwa [e1] at this

/-- C79: the rotor made from an angle and an axis. -/
theorem C79_rotor_mkAxis {lm : Libm F32} (hl : lm.Contract32) {a x y z : F32} (ha : a.isFinite = true) (h8 : |r a| ≤ 8)
    (h : AxisDom x y z) (i : Fin 4) :
    ((Rotor.mkAxis lm a x y z).p1.get i).isFinite = true ∧
      |r ((Rotor.mkAxis lm a x y z).p1.get i) - (Rotor.mkAxis Libm.real (r a) (r x) (r y) (r z)).p1.get i| ≤ 2e-6 := by
  obtain ⟨f1, f2, -, -⟩ := half_ang ha h8
  have hs := ap_sin_abs hl f1 f2
  have hc := ap_cos_abs hl f1 f2
  have hi := ap_inv_norm hl h
  have hr := h.rng
  have hS0 := hr.pos
  have hsc := hs.mulR hi (one_mul _) hi.rng (by norm_num) (by norm_num) (by norm_num) (by norm_num)
    (show _ ≤ (1.75e-6 : ℝ) by ap_num)
  have hc1 := hc.mulR ap_one (one_mul 1) ⟨by norm_num, by norm_num⟩ (m'' := 0) (n'' := 0) (by norm_num) (by norm_num)
    (by norm_num) (by norm_num) (show _ ≤ (1.85e-6 : ℝ) by ap_num)
  have key : ∀ w : F32, F32.Le2 w 30 → |r w| ≤ √(r x ^ 2 + r y ^ 2 + r z ^ 2) → _ := fun w hw hle =>
    (Ap.input (hw (by norm_num)).1 hle hr).mulR hsc (show _ = (1 : ℝ) by field_simp) ⟨by norm_num, by norm_num⟩
      (m'' := 0) (n'' := 0) (by norm_num) (by norm_num) (by norm_num) (by norm_num) (show _ ≤ (1.85e-6 : ℝ) by ap_num)
  have fin : ∀ {x : F32} {E E' : ℝ} {m n : ℕ}, Ap x E 1 1.85e-6 m n → E = E' →
      x.isFinite = true ∧ |r x - E'| ≤ 2e-6 := by
    rintro x E E' m n hx rfl
    refine ⟨hx.fin, hx.err.trans ?_⟩
    norm_num
  have x2 := sq_nonneg (r x); have y2 := sq_nonneg (r y); have z2 := sq_nonneg (r z)
  have e : Rotor.mkAxis Libm.real (r a) (r x) (r y) (r z) =
      ⟨⟨Real.cos (1 / 2 * r a), r x * (Real.sin (1 / 2 * r a) * (1 / √(r x ^ 2 + r y ^ 2 + r z ^ 2))),
        r y * (Real.sin (1 / 2 * r a) * (1 / √(r x ^ 2 + r y ^ 2 + r z ^ 2))),
        r z * (Real.sin (1 / 2 * r a) * (1 / √(r x ^ 2 + r y ^ 2 + r z ^ 2)))⟩⟩ := by
    simp only [Rotor.mkAxis, sse, Libm.real, mul_one, sq]
  rw [e]
  fin_cases i
  · exact fin hc1 (mul_one _)
  · exact fin (key x h.lx (Real.abs_le_sqrt (by linarith))) rfl
  · exact fin (key y h.ly (Real.abs_le_sqrt (by linarith))) rfl
  · exact fin (key z h.lz (Real.abs_le_sqrt (by linarith))) rfl

/-- C79: the translator made from a distance (at most `d`) and an axis. -/
theorem C79_translator_mkAxis {lm : Libm F32} (hl : lm.Contract32) {a x y z : F32} {d : ℝ} (ha : a.isFinite = true)
    (hd : |r a| ≤ 2 * d) (hd' : In2 d 30 30) (h : AxisDom x y z) (i : Fin 4) :
    ((Translator.mkAxis lm a x y z).p2.get i).isFinite = true ∧
      |r ((Translator.mkAxis lm a x y z).p2.get i) - (Translator.mkAxis Libm.real (r a) (r x) (r y) (r z)).p2.get i| ≤
        1.5e-6 * d := by
  have hi := ap_inv_norm hl h
  have hr := h.rng
  have hS0 := hr.pos
  have hd0 := hd'.pos
  have hh : Ap (-(1 / 2)) (-(1 / 2)) (1 / 2) 0 1 0 := by
    have e : r (-(1 / 2)) = -(1 / 2) := by rw [r_neg, r_half.2]
    have := Ap.input (x := -(1 / 2)) (M := 1 / 2) (m := 1) (n := 0) (by decide +kernel) (by rw [e]; norm_num)
      ⟨by norm_num, by norm_num⟩
    rwa [e] at this
  have h2d : In2 (2 * d) 30 31 := ⟨hd'.lo.trans (by linarith), by have := hd'.hi; norm_num at *; linarith⟩
  have h1 := hh.mulR (Ap.input ha hd h2d) (show _ = d by ring) hd' (by norm_num) (by norm_num) (by norm_num) (by norm_num)
    (show _ ≤ (6e-8 : ℝ) by ap_num)
  have key : ∀ w : F32, F32.Le2 w 30 → |r w| ≤ √(r x ^ 2 + r y ^ 2 + r z ^ 2) → _ := fun w hw hle =>
    (h1.mul (Ap.input (hw (by norm_num)).1 hle hr) (by norm_num) (by norm_num) (by norm_num) (by norm_num)
      (show _ ≤ (1.3e-7 : ℝ) by ap_num)).mulR hi (show _ = d by field_simp) hd' (by norm_num) (by norm_num) (by norm_num)
      (by norm_num) (show _ ≤ (1.5e-6 : ℝ) by ap_num)
  have fin : ∀ {x : F32} {E E' : ℝ} {m n : ℕ}, Ap x E d 1.5e-6 m n → E = E' →
      x.isFinite = true ∧ |r x - E'| ≤ 1.5e-6 * d := by
    rintro x E E' m n hx rfl
    exact ⟨hx.fin, hx.err⟩
  have x2 := sq_nonneg (r x); have y2 := sq_nonneg (r y); have z2 := sq_nonneg (r z)
  have e : Translator.mkAxis Libm.real (r a) (r x) (r y) (r z) =
      ⟨⟨0, -(1 / 2) * r a * r x * (1 / √(r x ^ 2 + r y ^ 2 + r z ^ 2)),
        -(1 / 2) * r a * r y * (1 / √(r x ^ 2 + r y ^ 2 + r z ^ 2)),
        -(1 / 2) * r a * r z * (1 / √(r x ^ 2 + r y ^ 2 + r z ^ 2))⟩⟩ := by
    simp only [Translator.mkAxis, sse, Libm.real, mul_zero, sq]
  rw [e]
  have hz := ap_zero hr
  have h0 := (h1.mul hz (by norm_num) (by norm_num) (by norm_num) (by norm_num)
    (show _ ≤ (1.3e-7 : ℝ) by ap_num)).mulR (ap_zero (M := 1 / √(r x ^ 2 + r y ^ 2 + r z ^ 2)) hi.rng)
    (show _ = d by field_simp) hd' (by norm_num) (by norm_num) (by norm_num)
      (by norm_num) (show _ ≤ (1.5e-6 : ℝ) by ap_num)
  fin_cases i
  · exact fin h0 (by simp only [V4.get]; ring)
  · exact fin (key x h.lx (Real.abs_le_sqrt (by linarith))) rfl
  · exact fin (key y h.ly (Real.abs_le_sqrt (by linarith))) rfl
  · exact fin (key z h.lz (Real.abs_le_sqrt (by linarith))) rfl

/-! ### unit norm of the results -/

/-- Lanes close to those of a unit quaternion have a norm close to one. -/
theorem near_unit {x0 x1 x2 x3 y0 y1 y2 y3 e : ℝ} (hx : x0 ^ 2 + x1 ^ 2 + x2 ^ 2 + x3 ^ 2 = 1) (he : e ≤ 1 / 100)
    (h0 : |y0 - x0| ≤ e) (h1 : |y1 - x1| ≤ e) (h2 : |y2 - x2| ≤ e) (h3 : |y3 - x3| ≤ e) :
    |y0 ^ 2 + y1 ^ 2 + y2 ^ 2 + y3 ^ 2 - 1| ≤ 4.1 * e := by
  have e0 : 0 ≤ e := (abs_nonneg _).trans h0
  have hs : |x0| + |x1| + |x2| + |x3| ≤ 2 := by
    refine abs_le_of_sq_le_sq' ?_ (by norm_num) |>.2
    have a0 := sq_abs x0; have a1 := sq_abs x1; have a2 := sq_abs x2; have a3 := sq_abs x3
    nlinarith [sq_nonneg (|x0| - |x1|), sq_nonneg (|x0| - |x2|), sq_nonneg (|x0| - |x3|), sq_nonneg (|x1| - |x2|),
      sq_nonneg (|x1| - |x3|), sq_nonneg (|x2| - |x3|)]
  have key : ∀ x y : ℝ, |y - x| ≤ e → |y ^ 2 - x ^ 2| ≤ 2 * e * |x| + e * e := fun x y h => by
    have : y ^ 2 - x ^ 2 = (y - x) * (2 * x) + (y - x) * (y - x) := by ring
    rw [this]
    refine (abs_add_le _ _).trans ?_
    rw [abs_mul, abs_mul, abs_mul, abs_of_pos (by norm_num : (0 : ℝ) < 2)]
    have b1 := mul_le_mul h h (abs_nonneg _) e0
    have b2 := mul_le_mul_of_nonneg_right h (show 0 ≤ 2 * |x| by positivity)
    linarith
  have k0 := key x0 y0 h0; have k1 := key x1 y1 h1; have k2 := key x2 y2 h2; have k3 := key x3 y3 h3
  have hsum : y0 ^ 2 + y1 ^ 2 + y2 ^ 2 + y3 ^ 2 - 1 =
      (y0 ^ 2 - x0 ^ 2) + (y1 ^ 2 - x1 ^ 2) + (y2 ^ 2 - x2 ^ 2) + (y3 ^ 2 - x3 ^ 2) := by linear_combination hx
  rw [hsum]
  have t1 := abs_add_le (y0 ^ 2 - x0 ^ 2 + (y1 ^ 2 - x1 ^ 2) + (y2 ^ 2 - x2 ^ 2)) (y3 ^ 2 - x3 ^ 2)
  have t2 := abs_add_le (y0 ^ 2 - x0 ^ 2 + (y1 ^ 2 - x1 ^ 2)) (y2 ^ 2 - x2 ^ 2)
  have t3 := abs_add_le (y0 ^ 2 - x0 ^ 2) (y1 ^ 2 - x1 ^ 2)
  have s1 := mul_le_mul_of_nonneg_left hs (show 0 ≤ 2 * e by linarith)
  have s2 : e * e ≤ 1 / 100 * e := mul_le_mul_of_nonneg_right he e0
  norm_num at *
  linarith

/-- C79: the exponential of a branch is a unit rotor up to rounding. -/
theorem C79_branch_exp_unit {hw : Hw F32} (hc : hw.Contract32) {lm : Libm F32} (hl : lm.Contract32)
    (isa : Isa) (b : Branch F32) (hv : b.p1.Le2 30) (h0 : r b.p1.l0 = 0)
    (hn : 1 / 2 ^ 60 ≤ b.p1.sq3) (h4 : √b.p1.sq3 ≤ 4) : |(b.exp hw lm isa).p1.sq4 - 1| ≤ 2.8e-5 := by
  have hN : 0 < b.p1.sq3 := lt_of_lt_of_le (by positivity) hn
  have k : ∀ i, _ := fun i => (C79_branch_exp hc hl Hw.ideal_exact isa isa b hv h0 hn h4 i).2
  have e3 : dot3 b.real.p1 b.real.p1 = b.p1.sq3 := by
    simp only [dot3, Branch.real, V4.real, V4.sq3]; ring
  have hu := C34_unit Hw.ideal_exact isa b.real h0 (by rw [e3]; exact hN)
  have hu' := congrArg PGA.MV.s hu
  have k0 := k 0; have k1 := k 1; have k2 := k 2; have k3 := k 3
  simp only [V4.get] at k0 k1 k2 k3
  generalize (b.real.exp Hw.ideal Libm.real isa) = q at *
  refine (near_unit ?_ (by norm_num) k0 k1 k2 k3).trans (by norm_num)
  simp only [pga] at hu'
  linear_combination hu'

/-- Normalising lanes close to those of a unit quaternion. -/
theorem normalize_near {hw : Hw F32} (hc : hw.Contract32) (isa : Isa) {f0 f1 f2 f3 : F32} {g0 g1 g2 g3 : ℝ}
    (q0 : Ap f0 g0 (1 + 1) 1.64e-6 0 1) (q1 : Ap f1 g1 (1 + 1) 1.64e-6 0 1) (q2 : Ap f2 g2 (1 + 1) 1.64e-6 0 1)
    (q3 : Ap f3 g3 (1 + 1) 1.64e-6 0 1) (hu2 : g0 ^ 2 + g1 ^ 2 + g2 ^ 2 + g3 ^ 2 = 1) (i : Fin 4) :
    (((⟨⟨f0, f1, f2, f3⟩⟩ : Rotor F32).normalize hw isa).p1.get i).isFinite = true ∧
      |r (((⟨⟨f0, f1, f2, f3⟩⟩ : Rotor F32).normalize hw isa).p1.get i) - (⟨g0, g1, g2, g3⟩ : V4 ℝ).get i| ≤ 2e-5 := by
  have fw : ∀ {f : F32} {g : ℝ}, Ap f g (1 + 1) 1.64e-6 0 1 → |r f - g| ≤ 3.28e-6 := fun h =>
    h.err.trans (by norm_num)
  have d0 := fw q0; have d1 := fw q1; have d2 := fw q2; have d3 := fw q3
  have hnu := near_unit hu2 (by norm_num) d0 d1 d2 d3
  have ble : ∀ {f : F32} {g : ℝ}, Ap f g (1 + 1) 1.64e-6 0 1 → F32.Le2 f 30 := fun h =>
    le2_of_abs h.fin (h.val_le.trans (by norm_num))
  have hV : V4.Le2 ⟨f0, f1, f2, f3⟩ 30 := fun j => by
    fin_cases j
    · exact ble q0
    · exact ble q1
    · exact ble q2
    · exact ble q3
  have hS : (⟨f0, f1, f2, f3⟩ : V4 F32).sq4 = r f0 ^ 2 + r f1 ^ 2 + r f2 ^ 2 + r f3 ^ 2 := rfl
  have hN : 1 / 2 ^ 60 ≤ (⟨f0, f1, f2, f3⟩ : V4 F32).sq4 := by
    rw [hS]
    have := abs_le.1 hnu
    norm_num at this ⊢; linarith
  have hsc := C70_rotor_normalize hc isa ⟨⟨f0, f1, f2, f3⟩⟩ hV hN i
  obtain ⟨hf, he⟩ := hsc
  refine ⟨hf, ?_⟩
  obtain ⟨n, en⟩ : ∃ n, n = √(⟨f0, f1, f2, f3⟩ : V4 F32).sq4 := ⟨_, rfl⟩
  have hn2 : n ^ 2 = r f0 ^ 2 + r f1 ^ 2 + r f2 ^ 2 + r f3 ^ 2 := by
    rw [en, Real.sq_sqrt (by rw [hS]; positivity), hS]
  have hn0 : 0 ≤ n := by rw [en]; exact Real.sqrt_nonneg _
  simp only at he
  rw [← en] at he
  rw [← hn2] at hnu
  have hn1 : |n - 1| ≤ 1.35e-5 := by
    have h1 : |n - 1| * 1 ≤ |n - 1| * (n + 1) := mul_le_mul_of_nonneg_left (by linarith) (abs_nonneg _)
    rw [mul_one] at h1
    refine h1.trans ?_
    rw [← abs_of_nonneg (show 0 ≤ n + 1 by linarith), ← abs_mul, show (n - 1) * (n + 1) = n ^ 2 - 1 by ring]
    refine hnu.trans (by norm_num)
  have lane : ∀ (f : F32) (g x : ℝ), |r f - g| ≤ 3.28e-6 → |g| ≤ 1 →
      |x - r f / n| ≤ 6.8e-7 * (|r f| / n) + 1 / 2 ^ 150 → |x - g| ≤ 2e-5 := fun f g x hd hg hx => by
    have hn1' := abs_le.1 hn1
    have hnp : 0.99 ≤ n := by norm_num at *; linarith
    have hn0' : 0 < n := by norm_num at *; linarith
    have e1 : |r f| ≤ 1.001 := by
      have := abs_add_le (r f - g) g
      rw [sub_add_cancel] at this
      norm_num at *; linarith
    have e2 : |r f| / n ≤ 1.02 := by
      rw [div_le_iff₀ hn0']; norm_num at *; linarith
    have e3 : |r f / n - g| ≤ 1.75e-5 := by
      have : r f / n - g = ((r f - g) - g * (n - 1)) / n := by field_simp; ring
      rw [this, abs_div, abs_of_pos hn0', div_le_iff₀ hn0']
      have h1 := abs_sub (r f - g) (g * (n - 1))
      rw [abs_mul] at h1
      have h2 := mul_le_mul hg hn1 (abs_nonneg _) (by norm_num)
      norm_num at *; linarith
    have h3 := abs_add_le (x - r f / n) (r f / n - g)
    rw [sub_add_sub_cancel] at h3
    norm_num at *; linarith
  have gl : |g0| ≤ 1 ∧ |g1| ≤ 1 ∧ |g2| ≤ 1 ∧ |g3| ≤ 1 := by
    refine ⟨?_, ?_, ?_, ?_⟩ <;> refine abs_le_of_sq_le_sq ?_ (by norm_num) <;>
      nlinarith [sq_nonneg g0, sq_nonneg g1, sq_nonneg g2, sq_nonneg g3]
  generalize ((⟨⟨f0, f1, f2, f3⟩⟩ : Rotor F32).normalize hw isa).p1 = v at *
  fin_cases i
  · exact lane f0 g0 _ d0 gl.1 he
  · exact lane f1 g1 _ d1 gl.2.1 he
  · exact lane f2 g2 _ d2 gl.2.2.1 he
  · exact lane f3 g3 _ d3 gl.2.2.2 he

/-- C79: the rotor made from Euler angles. -/
theorem C79_rotor_mkEuler {hw : Hw F32} (hc : hw.Contract32) {lm : Libm F32} (hl : lm.Contract32) {hwr : Hw ℝ}
    (hx : hwr.Exact) (isa isa' : Isa) (ea : EulerAngles F32)
    (hr : ea.roll.isFinite = true ∧ |r ea.roll| ≤ 8) (hp : ea.pitch.isFinite = true ∧ |r ea.pitch| ≤ 8)
    (hy : ea.yaw.isFinite = true ∧ |r ea.yaw| ≤ 8) (i : Fin 4) :
    ((Rotor.mkEuler hw lm isa ea).p1.get i).isFinite = true ∧
      |r ((Rotor.mkEuler hw lm isa ea).p1.get i) -
        (Rotor.mkEuler hwr Libm.real isa' ⟨r ea.roll, r ea.pitch, r ea.yaw⟩).p1.get i| ≤ 2e-5 := by
  obtain ⟨-, -, r1, r2⟩ := half_ang hr.1 hr.2
  obtain ⟨-, -, p1, p2⟩ := half_ang hp.1 hp.2
  obtain ⟨-, -, y1, y2⟩ := half_ang hy.1 hy.2
  have sr := ap_sin_abs hl r1 r2; have cr := ap_cos_abs hl r1 r2
  have sp := ap_sin_abs hl p1 p2; have cp := ap_cos_abs hl p1 p2
  have sy := ap_sin_abs hl y1 y2; have cy := ap_cos_abs hl y1 y2
  rw [Rotor.mkEuler_eq hx]
  have hu := eulerQuat_norm (r ea.roll) (r ea.pitch) (r ea.yaw)
  have I1 : In2 1 0 0 := ⟨by norm_num, by norm_num⟩
  have m3 : ∀ {a b c : F32} {A B D : ℝ}, Ap a A 1 4.8e-7 0 0 → Ap b B 1 4.8e-7 0 0 → Ap c D 1 4.8e-7 0 0 →
      Ap (a * b * c) (A * B * D) 1 1.57e-6 0 0 := fun ha hb hc =>
    (ha.mulR hb (mul_one 1) I1 (by norm_num) (by norm_num) (by norm_num) (by norm_num)
      (show _ ≤ (1.03e-6 : ℝ) by ap_num)).mulR hc (mul_one 1) I1 (by norm_num) (by norm_num) (by norm_num) (by norm_num)
      (by ap_num)
  have ad : ∀ {a b : F32} {A B : ℝ}, Ap a A 1 1.57e-6 0 0 → Ap b B 1 1.57e-6 0 0 →
      Ap (a + b) (A + B) (1 + 1) 1.64e-6 0 1 := fun ha hb => ha.add hb le_rfl le_rfl (by norm_num) (by norm_num) (by ap_num)
  have sb : ∀ {a b : F32} {A B : ℝ}, Ap a A 1 1.57e-6 0 0 → Ap b B 1 1.57e-6 0 0 →
      Ap (a - b) (A - B) (1 + 1) 1.64e-6 0 1 := fun ha hb => ha.sub hb le_rfl le_rfl (by norm_num) (by norm_num) (by ap_num)
  have q0 := ad (m3 cr cp cy) (m3 sr sp sy)
  have q1 := sb (m3 sr cp cy) (m3 cr sp sy)
  have q2 := ad (m3 cr sp cy) (m3 sr cp sy)
  have q3 := sb (m3 cr cp sy) (m3 sr sp cy)
  have eF : Rotor.mkEuler hw lm isa ea = Rotor.normalize hw isa
      ⟨⟨lm.cos (ea.roll * (1 / 2)) * lm.cos (ea.pitch * (1 / 2)) * lm.cos (ea.yaw * (1 / 2)) +
          lm.sin (ea.roll * (1 / 2)) * lm.sin (ea.pitch * (1 / 2)) * lm.sin (ea.yaw * (1 / 2)),
        lm.sin (ea.roll * (1 / 2)) * lm.cos (ea.pitch * (1 / 2)) * lm.cos (ea.yaw * (1 / 2)) -
          lm.cos (ea.roll * (1 / 2)) * lm.sin (ea.pitch * (1 / 2)) * lm.sin (ea.yaw * (1 / 2)),
        lm.cos (ea.roll * (1 / 2)) * lm.sin (ea.pitch * (1 / 2)) * lm.cos (ea.yaw * (1 / 2)) +
          lm.sin (ea.roll * (1 / 2)) * lm.cos (ea.pitch * (1 / 2)) * lm.sin (ea.yaw * (1 / 2)),
        lm.cos (ea.roll * (1 / 2)) * lm.cos (ea.pitch * (1 / 2)) * lm.sin (ea.yaw * (1 / 2)) -
          lm.sin (ea.roll * (1 / 2)) * lm.sin (ea.pitch * (1 / 2)) * lm.cos (ea.yaw * (1 / 2))⟩⟩ := rfl
  rw [eF]
  have w1 : r ea.roll / 2 = r ea.roll * (1 / 2) := by ring
  have w2 : r ea.pitch / 2 = r ea.pitch * (1 / 2) := by ring
  have w3 : r ea.yaw / 2 = r ea.yaw * (1 / 2) := by ring
  simp only [eulerQuat, w1, w2, w3, dot4] at hu ⊢
  clear eF
  exact normalize_near hc isa q0 q1 q2 q3 (by linear_combination hu) i

/-! ### cases -/

section Cases
variable {hw : Hw F32} (hc : hw.Contract32) {lm : Libm F32} (hl : lm.Contract32) {hwr : Hw ℝ} (hx : hwr.Exact)

private theorem r_one' : r 1 = 1 := by rw [r, one_val]; norm_num
private theorem r_two' : r 2 = 2 := by
  have : (2 : F32).val = 2 := by decide +kernel
  simp [r, this]

private theorem l221 : V4.Le2 ⟨0, 2, 2, 1⟩ 30 := fun i => match i with
  | 0 => Le2.zero.mono (by norm_num)
  | 1 => fun _ => by decide +kernel
  | 2 => fun _ => by decide +kernel
  | 3 => Le2.one.mono (by norm_num)

private theorem s221 : (V4.mk 0 2 2 1 : V4 F32).sq3 = 9 := by simp only [V4.sq3, r_two', r_one']; norm_num
private theorem s9 : √(9 : ℝ) = 3 := by rw [show (9 : ℝ) = 3 ^ 2 by norm_num, Real.sqrt_sq (by norm_num)]

include hc hl in
/-- The exponential of `2 e23 + 2 e31 + e12`, of norm 3: scalar part and one bivector lane. -/
example : |r ((Branch.exp hw lm .sse41 ⟨⟨0, 2, 2, 1⟩⟩).p1.l0) - Real.cos 3| ≤ 6.7e-6 ∧
    |r ((Branch.exp hw lm .sse41 ⟨⟨0, 2, 2, 1⟩⟩).p1.l1) - Real.sin 3 / 3 * 2| ≤ 6.7e-6 := by
  have h : ∀ i, _ := fun i => (C79_branch_exp hc hl Hw.ideal_exact .sse41 .sse41 ⟨⟨0, 2, 2, 1⟩⟩ l221 r_zero
    (by rw [s221]; norm_num) (by rw [s221, s9]; norm_num) i).2
  have e3 : dot3 (Branch.real ⟨⟨0, 2, 2, 1⟩⟩).p1 (Branch.real ⟨⟨0, 2, 2, 1⟩⟩).p1 = 9 := by
    simp only [dot3, Branch.real, V4.real, r_two', r_one']; norm_num
  rw [Branch.exp_eq Hw.ideal_exact .sse41 _ r_zero (by rw [e3]; norm_num) rfl, e3, s9] at h
  have h0 := h 0; have h1 := h 1
  simp only [V4.get, Branch.real, V4.real, r_two'] at h0 h1
  exact ⟨h0, h1⟩

include hc hl in
/-- The logarithm of the rotor `(0, 2, 2, 1)` (not normalised) is a quarter turn times the lanes. -/
example : |r ((Rotor.log hw lm .sse3 ⟨⟨0, 2, 2, 1⟩⟩).p1.l3) - Real.pi / 2| ≤ 5e-6 := by
  have e0 : r (V4.mk 0 2 2 1 : V4 F32).l0 = 0 := r_zero
  have es : √(1 - (0 : ℝ) ^ 2) = 1 := by rw [zero_pow (by norm_num), sub_zero, Real.sqrt_one]
  have hp := Real.pi_lt_d2
  have hd : Rotor.LogDom ⟨⟨0, 2, 2, 1⟩⟩ 2 2 := by
    refine ⟨fun i => (l221 i (by norm_num)).1, ?_, ?_, ?_, by norm_num, ?_, ⟨by norm_num, by norm_num⟩⟩
    · simp only; rw [r_zero]; norm_num
    · simp only; rw [r_zero, es]; norm_num
    · simp only; rw [r_zero, es, Real.arccos_zero]; norm_num at hp ⊢; linarith
    · intro i hi
      fin_cases i
      · exact absurd rfl hi
      · simp only [V4.get, Fin.mk_one]; rw [r_two']; norm_num
      · show |r 2| ≤ 2; rw [r_two']; norm_num
      · show |r 1| ≤ 2; rw [r_one']; norm_num
  have h := (C79_rotor_log hc hl Hw.ideal_exact .sse3 .sse3 hd 3).2
  have e2 : (Rotor.real ⟨⟨0, 2, 2, 1⟩⟩) = ⟨⟨0, 2, 2, 1⟩⟩ := by
    simp only [Rotor.real, V4.real, r_zero, r_two', r_one']
  rw [e2, Rotor.log_real Hw.ideal_exact .sse3 _ _ _ Real.arccos_zero Real.sin_pi_div_two one_ne_zero] at h
  simp only [V4.get] at h
  rw [r_zero, es, Real.arccos_zero] at h
  have hv : (1 : ℝ) * (1 / 1) * (Real.pi / 2) = Real.pi / 2 := by ring
  rw [hv] at h
  refine h.trans ?_
  norm_num at hp ⊢; linarith

end Cases

end Klein
