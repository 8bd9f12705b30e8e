import Verif.Float.Basic
import Mathlib.Tactic.Linarith
import Mathlib.Tactic.Positivity
import Mathlib.Tactic.FieldSimp
import Mathlib.Tactic.LinearCombination
import Mathlib.Algebra.Order.Floor.Ring

/-!
# The rounding error of the binary32 operations

`round` is within half a unit in the last place: relative error `2^-24` in the normal range, absolute
error `2^-150` below it, none for sums that small.  All for results that are finite, and a finite
result has finite operands.
-/

namespace Klein.F32

/-! ### rounding half to even -/

theorem rhe_err (q : ℚ) : |(rhe q : ℚ) - q| ≤ 1 / 2 := by
  have h1 := Int.floor_le q
  have h2 := Int.lt_floor_add_one q
  unfold rhe
  simp only
  split_ifs with a b c <;> push_cast <;> rw [abs_le] <;> constructor <;> linarith

theorem rhe_nonneg {q : ℚ} (h : 0 ≤ q) : 0 ≤ rhe q := by
  have h1 : 0 ≤ ⌊q⌋ := Int.floor_nonneg.2 h
  unfold rhe
  simp only
  split_ifs <;> omega

theorem rhe_le {q : ℚ} {n : ℤ} (h : q ≤ n) : rhe q ≤ n := by
  have h1 := abs_le.1 (rhe_err q)
  by_contra hc
  have h3 : n + 1 ≤ rhe q := by omega
  have h4 : (n : ℚ) + 1 ≤ rhe q := by exact_mod_cast h3
  linarith [h1.2]

theorem le_rhe {q : ℚ} {n : ℤ} (h : n ≤ q) : n ≤ rhe q := by
  have h1 := abs_le.1 (rhe_err q)
  by_contra hc
  have h3 : rhe q + 1 ≤ n := by omega
  have h4 : (rhe q : ℚ) + 1 ≤ n := by exact_mod_cast h3
  linarith [h1.1]

theorem rhe_int (n : ℤ) : rhe (n : ℚ) = n := le_antisymm (rhe_le le_rfl) (le_rhe le_rfl)

/-! ### patterns -/

/-- The exponent of the last place used for `r` (in units of the smallest subnormal). -/
def ulp (r : ℚ) : ℕ := Nat.log 2 ⌊r⌋.toNat - 23

theorem ulp_lt {r : ℚ} (hr : 0 ≤ r) : r < 2 ^ (ulp r + 24) := by
  have h1 : r < ⌊r⌋ + 1 := Int.lt_floor_add_one r
  have h0 : 0 ≤ ⌊r⌋ := Int.floor_nonneg.2 hr
  obtain ⟨m, hm⟩ := Int.eq_ofNat_of_zero_le h0
  have h2 : m < 2 ^ (Nat.log 2 m + 1) := Nat.lt_pow_succ_log_self (by decide) m
  have e : ulp r = Nat.log 2 m - 23 := by simp [ulp, hm]
  have h3 : m < 2 ^ (ulp r + 24) := by
    refine h2.trans_le (Nat.pow_le_pow_right (by decide) ?_)
    omega
  have h4 : m + 1 ≤ 2 ^ (ulp r + 24) := h3
  have h5 : (m : ℚ) + 1 ≤ 2 ^ (ulp r + 24) := by exact_mod_cast h4
  rw [hm] at h1
  push_cast at h1
  linarith

theorem ulp_le {r : ℚ} (hr : 0 ≤ r) (hk : 1 ≤ ulp r) : 2 ^ (ulp r + 23) ≤ r := by
  have h1 : (⌊r⌋ : ℚ) ≤ r := Int.floor_le r
  have h0 : 0 ≤ ⌊r⌋ := Int.floor_nonneg.2 hr
  obtain ⟨m, hm⟩ := Int.eq_ofNat_of_zero_le h0
  have e : ulp r = Nat.log 2 m - 23 := by simp [ulp, hm]
  have hm0 : m ≠ 0 := by
    rintro rfl
    simp at e
    omega
  have h2 : 2 ^ Nat.log 2 m ≤ m := Nat.pow_log_le_self 2 hm0
  have e2 : ulp r + 23 = Nat.log 2 m := by omega
  rw [e2]
  have h3 : ((2 ^ Nat.log 2 m : ℕ) : ℚ) ≤ m := by exact_mod_cast h2
  rw [hm] at h1
  push_cast at h1 h3
  linarith

/-- The pattern built by `roundMag` stands for `n * 2^k` units. -/
theorem magVal_pattern {k n : ℕ} (hn : n ≤ 2 ^ 24) (hk : k = 0 ∨ 2 ^ 23 ≤ n) :
    magVal (k * 2 ^ 23 + n) = n * 2 ^ k / 2 ^ 149 := by
  rcases Nat.lt_or_ge n (2 ^ 23) with h | h
  · have hk0 : k = 0 := hk.resolve_right (by omega)
    subst hk0
    have e1 : (0 * 2 ^ 23 + n) / 2 ^ 23 = 0 := by omega
    have e2 : (0 * 2 ^ 23 + n) % 2 ^ 23 = n := by omega
    unfold magVal
    simp only [e1, e2, if_true, pow_zero, mul_one]
  · rcases Nat.lt_or_ge n (2 ^ 24) with h' | h'
    · have e1 : (k * 2 ^ 23 + n) / 2 ^ 23 = k + 1 := by omega
      have e2 : (k * 2 ^ 23 + n) % 2 ^ 23 = n - 2 ^ 23 := by omega
      unfold magVal
      simp only [e1, e2, Nat.succ_ne_zero, if_false, Nat.add_sub_cancel]
      rw [Nat.cast_sub h]
      push_cast
      ring
    · have e0 : n = 2 ^ 24 := by omega
      subst e0
      have e1 : (k * 2 ^ 23 + 2 ^ 24) / 2 ^ 23 = k + 2 := by omega
      have e2 : (k * 2 ^ 23 + 2 ^ 24) % 2 ^ 23 = 0 := by omega
      unfold magVal
      simp only [e1, e2, Nat.succ_ne_zero, if_false]
      have e3 : k + 2 - 1 = k + 1 := by omega
      rw [e3]
      push_cast
      ring

/-- Half a unit in the last place: the error of `roundMag`, absolute `2^-150` or relative `2^-24`. -/
theorem roundMag_err {q : ℚ} (hq : 0 ≤ q) (hf : roundMag q < infMag) :
    |magVal (roundMag q) - q| ≤ max (2 ^ 23 / 2 ^ 149) q / 2 ^ 24 ∧
    (∀ n : ℕ, q * 2 ^ 149 = n → q < 2 ^ 23 / 2 ^ 149 → magVal (roundMag q) = q) := by
  obtain ⟨r, hr⟩ : ∃ r : ℚ, r = q * 2 ^ 149 := ⟨_, rfl⟩
  have hr0 : 0 ≤ r := by rw [hr]; positivity
  have hqr : q = r / 2 ^ 149 := by rw [hr]; field_simp
  obtain ⟨n, hn⟩ : ∃ n : ℕ, n = (rhe (r / 2 ^ ulp r)).toNat := ⟨_, rfl⟩
  have hpos : (0 : ℚ) < 2 ^ ulp r := by positivity
  have hdiv0 : 0 ≤ r / 2 ^ ulp r := by positivity
  have hnz : (n : ℤ) = rhe (r / 2 ^ ulp r) := by rw [hn]; exact Int.toNat_of_nonneg (rhe_nonneg hdiv0)
  have hpat : roundMag q = ulp r * 2 ^ 23 + n := by
    have : roundMag q = min (ulp r * 2 ^ 23 + n) infMag := by rw [hn, hr]; rfl
    rw [this] at hf ⊢
    exact min_eq_left (by omega)
  have hlt := ulp_lt hr0
  have hn24 : n ≤ 2 ^ 24 := by
    have h1 : r / 2 ^ ulp r ≤ ((2 ^ 24 : ℤ) : ℚ) := by
      rw [div_le_iff₀ hpos]
      push_cast
      have h2 : (2 : ℚ) ^ (ulp r + 24) = 2 ^ 24 * 2 ^ ulp r := by rw [pow_add]; ring
      linarith
    have := rhe_le h1
    rw [← hnz] at this
    exact_mod_cast this
  have hk : ulp r = 0 ∨ 2 ^ 23 ≤ n := by
    rcases Nat.eq_zero_or_pos (ulp r) with h | h
    · exact Or.inl h
    · refine Or.inr ?_
      have h1 : ((2 ^ 23 : ℤ) : ℚ) ≤ r / 2 ^ ulp r := by
        rw [le_div_iff₀ hpos]
        push_cast
        have h2 : (2 : ℚ) ^ (ulp r + 23) = 2 ^ 23 * 2 ^ ulp r := by rw [pow_add]; ring
        linarith [ulp_le hr0 h]
      have := le_rhe h1
      rw [← hnz] at this
      exact_mod_cast this
  have hv : magVal (roundMag q) = n * 2 ^ ulp r / 2 ^ 149 := by rw [hpat, magVal_pattern hn24 hk]
  have herr : |(n : ℚ) - r / 2 ^ ulp r| ≤ 1 / 2 := by
    have := rhe_err (r / 2 ^ ulp r)
    rw [← hnz] at this
    exact_mod_cast this
  constructor
  · have e : magVal (roundMag q) - q = (n - r / 2 ^ ulp r) * (2 ^ ulp r / 2 ^ 149) := by
      rw [hv, hqr]; field_simp
    rw [e, abs_mul, abs_of_pos (by positivity : (0 : ℚ) < 2 ^ ulp r / 2 ^ 149)]
    have h1 : |(n : ℚ) - r / 2 ^ ulp r| * (2 ^ ulp r / 2 ^ 149) ≤ 1 / 2 * (2 ^ ulp r / 2 ^ 149) := by gcongr
    refine h1.trans ?_
    rcases Nat.eq_zero_or_pos (ulp r) with h | h
    · have : (2 : ℚ) ^ 23 / 2 ^ 149 ≤ max (2 ^ 23 / 2 ^ 149) q := le_max_left _ _
      rw [h]
      rw [le_div_iff₀ (by positivity)]
      refine le_trans (le_of_eq ?_) this
      norm_num
    · have h2 := ulp_le hr0 h
      have : q ≤ max (2 ^ 23 / 2 ^ 149) q := le_max_right _ _
      rw [le_div_iff₀ (by positivity)]
      refine le_trans ?_ this
      rw [hqr]
      rw [le_div_iff₀ (by positivity)]
      refine le_trans (le_of_eq ?_) h2
      rw [pow_add]
      field_simp
  · intro m hm hlt'
    have hrm : r = m := by rw [hr, hm]
    have hm23 : m < 2 ^ 23 := by
      have : r < 2 ^ 23 := by
        rw [hqr] at hlt'
        exact (div_lt_div_iff_of_pos_right (by positivity)).1 hlt'
      rw [hrm] at this
      exact_mod_cast this
    have hu : ulp r = 0 := by
      rcases Nat.eq_zero_or_pos (ulp r) with h | h
      · exact h
      · exfalso
        have h2 := ulp_le hr0 h
        have h3 : (2 : ℚ) ^ 23 ≤ 2 ^ (ulp r + 23) := pow_le_pow_right₀ (by norm_num) (by omega)
        have h4 : r < 2 ^ 23 := by rw [hrm]; exact_mod_cast hm23
        linarith
    have hnm : n = m := by
      have h5 : rhe (r / 2 ^ ulp r) = m := by
        rw [hu, hrm, pow_zero, div_one]
        exact rhe_int m
      rw [h5] at hnz
      exact_mod_cast hnz
    rw [hv, hu, hnm, hqr, hrm]
    simp

theorem magVal_nonneg (m : ℕ) : 0 ≤ magVal m := by
  unfold magVal
  simp only
  split_ifs <;> positivity

/-- A finite float is a whole number of units `2^-149`. -/
theorem magVal_units (m : ℕ) : ∃ n : ℕ, magVal m * 2 ^ 149 = n := by
  unfold magVal
  simp only
  split_ifs
  · exact ⟨m % 2 ^ 23, by field_simp⟩
  · exact ⟨(2 ^ 23 + m % 2 ^ 23) * 2 ^ (m / 2 ^ 23 - 1), by push_cast; field_simp; norm_num⟩

theorem val_units (x : F32) : ∃ n : ℤ, x.val * 2 ^ 149 = n := by
  obtain ⟨n, hn⟩ := magVal_units x.mag
  unfold val
  split_ifs
  · exact ⟨-n, by push_cast; rw [← hn]; ring⟩
  · exact ⟨n, by push_cast; rw [← hn]⟩

theorem ofMag_mag {s : Bool} {m : ℕ} (h : m < 2 ^ 31) : (ofMag s m).mag.val = m := Nat.mod_eq_of_lt h

theorem roundMag_le (q : ℚ) : roundMag q ≤ infMag := min_le_right _ _

theorem round_mag {z : Bool} {q : ℚ} (h : q ≠ 0) : (round z q).mag.val = roundMag |q| := by
  rw [round, if_neg h]
  exact ofMag_mag ((roundMag_le _).trans_lt (by decide))

theorem round_zero_val (z : Bool) : (round z 0).val = 0 := by
  cases z <;> simp [round, val, ofMag, magVal]

theorem round_zero_finite (z : Bool) : (round z 0).isFinite = true := by
  cases z <;> rfl

/-- Relation of the value of a rounded number to that of its magnitude. -/
theorem round_val_sub {z : Bool} {q : ℚ} (h : q ≠ 0) :
    |(round z q).val - q| = |magVal (roundMag |q|) - (|q|)| := by
  have hm := round_mag (z := z) h
  unfold val
  rw [hm]
  have hs : (round z q).sign = decide (q < 0) := by rw [round, if_neg h]; rfl
  rw [hs]
  rcases lt_or_gt_of_ne h with h' | h'
  · simp only [h', decide_true, if_true, abs_of_neg h']
    rw [← abs_neg]; congr 1; ring
  · simp only [not_lt.2 h'.le, decide_false, Bool.false_eq_true, if_false, abs_of_pos h']

/-- The smallest normal number `2^-126`. -/
def minNormal : ℚ := 2 ^ 23 / 2 ^ 149

/-- Rounding error: at most half a unit in the last place. -/
theorem round_err {z : Bool} {q : ℚ} (hf : (round z q).isFinite = true) :
    |(round z q).val - q| ≤ max minNormal |q| / 2 ^ 24 := by
  by_cases h : q = 0
  · subst h; rw [round_zero_val]; simp [minNormal]; positivity
  · rw [round_val_sub h]
    have hf' : roundMag |q| < infMag := by
      simpa [isFinite, round_mag h] using hf
    exact (roundMag_err (abs_nonneg q) hf').1

/-- No underflow error for whole numbers of units. -/
theorem round_err_units {z : Bool} {q : ℚ} (hf : (round z q).isFinite = true) (n : ℤ)
    (hn : q * 2 ^ 149 = n) : |(round z q).val - q| ≤ |q| / 2 ^ 24 := by
  by_cases h : q = 0
  · subst h; rw [round_zero_val]; simp
  · have hf' : roundMag |q| < infMag := by
      simpa [isFinite, round_mag h] using hf
    have key := roundMag_err (abs_nonneg q) hf'
    rcases le_or_gt (2 ^ 23 / 2 ^ 149) |q| with h1 | h1
    · rw [round_val_sub h]
      have := key.1
      rwa [max_eq_right h1] at this
    · rw [round_val_sub h, key.2 n.natAbs (by
        have e : |q| * 2 ^ 149 = |q * 2 ^ 149| := by rw [abs_mul, abs_of_pos (by positivity : (0 : ℚ) < 2 ^ 149)]
        rw [e, hn, ← Int.cast_abs, Int.abs_eq_natAbs]; simp) h1]
      simp; positivity

/-! ### the operations -/

theorem quiet_not_finite {x : F32} (h : x.isNaN = true) : x.quiet.isFinite = false := by
  have := quiet_isNaN h
  simp only [isNaN, isFinite, decide_eq_true_eq, decide_eq_false_iff_not] at *
  omega

theorem finite_of_not {x : F32} (h1 : x.isNaN = false) (h2 : x.isInf = false) : x.isFinite = true := by
  simp only [isNaN, isInf, isFinite, decide_eq_true_eq, decide_eq_false_iff_not] at *
  omega

theorem inf_not_finite (s : Bool) : (inf s).isFinite = false := by cases s <;> rfl
theorem nan_not_finite : defaultNaN.isFinite = false := rfl

theorem not_finite_of_inf {x : F32} (h : x.isInf = true) : x.isFinite = false := by
  simp only [isInf, isFinite, decide_eq_true_eq, decide_eq_false_iff_not] at *
  omega

/-- A finite sum has finite operands and is their rounded sum. -/
theorem add_finite {x y : F32} (h : (x + y).isFinite = true) : x.isFinite = true ∧ y.isFinite = true ∧
    x + y = round (x.sign && y.sign) (x.val + y.val) := by
  rw [add_def] at *
  unfold add nan2 at *
  by_cases h1 : x.isNaN = true
  · rw [if_pos h1, quiet_not_finite h1] at h; cases h
  by_cases h2 : y.isNaN = true
  · rw [if_neg h1, if_pos h2, quiet_not_finite h2] at h; cases h
  rw [if_neg h1, if_neg h2] at *
  by_cases h3 : x.isInf = true
  · exfalso
    rw [if_pos h3] at h
    split_ifs at h
    · cases h
    · rw [not_finite_of_inf h3] at h; cases h
  by_cases h4 : y.isInf = true
  · rw [if_neg h3, if_pos h4, not_finite_of_inf h4] at h; cases h
  rw [if_neg h3, if_neg h4] at *
  exact ⟨finite_of_not (by simpa using h1) (by simpa using h3),
    finite_of_not (by simpa using h2) (by simpa using h4), rfl⟩

theorem sub_finite {x y : F32} (h : (x - y).isFinite = true) : x.isFinite = true ∧ y.isFinite = true ∧
    x - y = round (x.sign && !y.sign) (x.val - y.val) := by
  rw [sub_def] at *
  unfold sub nan2 at *
  by_cases h1 : x.isNaN = true
  · rw [if_pos h1, quiet_not_finite h1] at h; cases h
  by_cases h2 : y.isNaN = true
  · rw [if_neg h1, if_pos h2, quiet_not_finite h2] at h; cases h
  rw [if_neg h1, if_neg h2] at *
  by_cases h3 : x.isInf = true
  · exfalso
    rw [if_pos h3] at h
    split_ifs at h
    · cases h
    · rw [not_finite_of_inf h3] at h; cases h
  by_cases h4 : y.isInf = true
  · rw [if_neg h3, if_pos h4, ← neg_def, isFinite_neg, not_finite_of_inf h4] at h; cases h
  rw [if_neg h3, if_neg h4] at *
  exact ⟨finite_of_not (by simpa using h1) (by simpa using h3),
    finite_of_not (by simpa using h2) (by simpa using h4), rfl⟩

theorem mul_finite {x y : F32} (h : (x * y).isFinite = true) : x.isFinite = true ∧ y.isFinite = true ∧
    x * y = round (x.sign != y.sign) (x.val * y.val) := by
  rw [mul_def] at *
  unfold mul nan2 at *
  by_cases h1 : x.isNaN = true
  · rw [if_pos h1, quiet_not_finite h1] at h; cases h
  by_cases h2 : y.isNaN = true
  · rw [if_neg h1, if_pos h2, quiet_not_finite h2] at h; cases h
  rw [if_neg h1, if_neg h2] at *
  simp only at *
  by_cases h3 : (x.isInf || y.isInf) = true
  · exfalso
    rw [if_pos h3] at h
    split_ifs at h
    · cases h
    · rw [inf_not_finite] at h; cases h
  rw [if_neg h3] at *
  simp only [Bool.or_eq_true, not_or, Bool.not_eq_true] at h1 h2 h3
  exact ⟨finite_of_not h1 h3.1, finite_of_not h2 h3.2, rfl⟩

/-- A quotient by a finite divisor that is finite: the divisor is not zero. -/
theorem div_finite {x y : F32} (h : (x / y).isFinite = true) (hy : y.isFinite = true) :
    x.isFinite = true ∧ y.isZero = false ∧
    x / y = round (x.sign != y.sign) (x.val / y.val) := by
  rw [div_def] at *
  unfold div nan2 at *
  by_cases h1 : x.isNaN = true
  · rw [if_pos h1, quiet_not_finite h1] at h; cases h
  have h2 : ¬ y.isNaN = true := by rw [isNaN_of_isFinite hy]; simp
  have h4 : ¬ y.isInf = true := by rw [isInf_of_isFinite hy]; simp
  rw [if_neg h1, if_neg h2] at *
  simp only at *
  by_cases h3 : x.isInf = true
  · exfalso
    rw [if_pos h3, if_neg h4, inf_not_finite] at h; cases h
  rw [if_neg h3, if_neg h4] at *
  by_cases h5 : y.isZero = true
  · exfalso
    rw [if_pos h5] at h
    split_ifs at h
    · cases h
    · rw [inf_not_finite] at h; cases h
  rw [if_neg h5] at *
  exact ⟨finite_of_not (by simpa using h1) (by simpa using h3), by simpa using h5, rfl⟩

/-- Addition: relative error `2^-24`, underflow included. -/
theorem add_err {x y : F32} (h : (x + y).isFinite = true) :
    |(x + y).val - (x.val + y.val)| ≤ |x.val + y.val| / 2 ^ 24 := by
  obtain ⟨_, _, e⟩ := add_finite h
  rw [e] at h ⊢
  obtain ⟨m, hm⟩ := val_units x
  obtain ⟨n, hn⟩ := val_units y
  exact round_err_units h (m + n) (by rw [add_mul, hm, hn]; push_cast; ring)

theorem sub_err {x y : F32} (h : (x - y).isFinite = true) :
    |(x - y).val - (x.val - y.val)| ≤ |x.val - y.val| / 2 ^ 24 := by
  obtain ⟨_, _, e⟩ := sub_finite h
  rw [e] at h ⊢
  obtain ⟨m, hm⟩ := val_units x
  obtain ⟨n, hn⟩ := val_units y
  exact round_err_units h (m - n) (by rw [sub_mul, hm, hn]; push_cast; ring)

/-- Multiplication: relative error `2^-24`, or absolute error `2^-150` below the normal range. -/
theorem mul_err {x y : F32} (h : (x * y).isFinite = true) :
    |(x * y).val - x.val * y.val| ≤ max minNormal |x.val * y.val| / 2 ^ 24 := by
  obtain ⟨_, _, e⟩ := mul_finite h
  rw [e] at h ⊢
  exact round_err h

theorem div_err {x y : F32} (h : (x / y).isFinite = true) (hy : y.isFinite = true) :
    |(x / y).val - x.val / y.val| ≤ max minNormal |x.val / y.val| / 2 ^ 24 := by
  obtain ⟨_, _, e⟩ := div_finite h hy
  rw [e] at h ⊢
  exact round_err h

end Klein.F32
