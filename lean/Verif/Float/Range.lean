import Verif.Float.Round
import Mathlib.Tactic.NormNum

/-!
# Absence of overflow in binary32

`Le2 x n`: the float `x` is finite and at most `2^n` in magnitude (void when `2^n` itself is out of
range, `n > 127`, so that the rules below need no side conditions).  Rounding does not lead beyond a
power of two, so the bounds of the exact operations hold for the rounded ones.
-/

namespace Klein.F32

/-- Rounding a number of magnitude at most `2^n` gives a finite number of magnitude at most `2^n`. -/
theorem roundMag_le_two_pow {q : ℚ} (hq : 0 ≤ q) {n : ℕ} (hn : n ≤ 127) (h : q ≤ 2 ^ n) :
    roundMag q < infMag ∧ magVal (roundMag q) ≤ 2 ^ n := by
  obtain ⟨r, hr⟩ : ∃ r : ℚ, r = q * 2 ^ 149 := ⟨_, rfl⟩
  have hr0 : 0 ≤ r := by rw [hr]; positivity
  have hrn : r ≤ 2 ^ (149 + n) := by
    rw [hr, pow_add, mul_comm]
    gcongr
  obtain ⟨k, hk⟩ : ∃ k, k = ulp r := ⟨_, rfl⟩
  obtain ⟨m, hm⟩ : ∃ m : ℕ, m = (rhe (r / 2 ^ k)).toNat := ⟨_, rfl⟩
  have hpos : (0 : ℚ) < 2 ^ k := by positivity
  have hdiv0 : 0 ≤ r / 2 ^ k := by positivity
  have hmz : (m : ℤ) = rhe (r / 2 ^ k) := by rw [hm]; exact Int.toNat_of_nonneg (rhe_nonneg hdiv0)
  have hpat : roundMag q = min (k * 2 ^ 23 + m) infMag := by rw [hm, hk, hr]; rfl
  have hkn : k + 23 ≤ 149 + n := by
    rcases Nat.eq_zero_or_pos k with h0 | h0
    · omega
    · have h1 := ulp_le hr0 (hk ▸ h0)
      rw [← hk] at h1
      exact (pow_le_pow_iff_right₀ (by norm_num : (1 : ℚ) < 2)).1 (h1.trans hrn)
  have hmn : m ≤ 2 ^ (149 + n - k) := by
    have h1 : r / 2 ^ k ≤ ((2 ^ (149 + n - k) : ℤ) : ℚ) := by
      rw [div_le_iff₀ hpos]
      push_cast
      rw [← pow_add]
      have : 149 + n - k + k = 149 + n := by omega
      rw [this]; exact hrn
    have := rhe_le h1
    rw [← hmz] at this
    exact_mod_cast this
  have hm24 : m ≤ 2 ^ 24 := by
    have hlt := ulp_lt hr0
    rw [← hk] at hlt
    have h1 : r / 2 ^ k ≤ ((2 ^ 24 : ℤ) : ℚ) := by
      rw [div_le_iff₀ hpos]
      push_cast
      have h2 : (2 : ℚ) ^ (k + 24) = 2 ^ 24 * 2 ^ k := by rw [pow_add]; ring
      linarith
    have := rhe_le h1
    rw [← hmz] at this
    exact_mod_cast this
  have hk2 : k = 0 ∨ 2 ^ 23 ≤ m := by
    rcases Nat.eq_zero_or_pos k with h0 | h0
    · exact Or.inl h0
    · refine Or.inr ?_
      have h1 : ((2 ^ 23 : ℤ) : ℚ) ≤ r / 2 ^ k := by
        rw [le_div_iff₀ hpos]
        push_cast
        have h2 : (2 : ℚ) ^ (k + 23) = 2 ^ 23 * 2 ^ k := by rw [pow_add]; ring
        have h3 := ulp_le hr0 (hk ▸ h0)
        rw [← hk] at h3
        linarith
      have := le_rhe h1
      rw [← hmz] at this
      exact_mod_cast this
  have hfin : k * 2 ^ 23 + m < infMag := by
    unfold infMag
    rcases Nat.lt_or_ge (k + 23) (149 + n) with h1 | h1
    · omega
    · have e : 149 + n - k = 23 := by omega
      rw [e] at hmn
      omega
  rw [hpat, min_eq_left hfin.le]
  refine ⟨hfin, ?_⟩
  rw [magVal_pattern hm24 hk2, div_le_iff₀ (by positivity)]
  have h3 : (m : ℚ) ≤ 2 ^ (149 + n - k) := by exact_mod_cast hmn
  calc (m : ℚ) * 2 ^ k ≤ 2 ^ (149 + n - k) * 2 ^ k := by gcongr
    _ = 2 ^ n * 2 ^ 149 := by
      rw [← pow_add, ← pow_add]; congr 1; omega

theorem abs_val (x : F32) : |x.val| = magVal x.mag := by
  unfold val
  split_ifs
  · rw [abs_neg, abs_of_nonneg (magVal_nonneg _)]
  · exact abs_of_nonneg (magVal_nonneg _)

theorem round_le_two_pow {z : Bool} {q : ℚ} {n : ℕ} (hn : n ≤ 127) (h : |q| ≤ 2 ^ n) :
    (round z q).isFinite = true ∧ |(round z q).val| ≤ 2 ^ n := by
  by_cases h0 : q = 0
  · subst h0
    exact ⟨round_zero_finite z, by rw [round_zero_val]; simp⟩
  · have := roundMag_le_two_pow (abs_nonneg q) hn h
    rw [isFinite, abs_val, round_mag h0]
    simpa using this

/-- Finite and at most `2^n` in magnitude. -/
def Le2 (x : F32) (n : ℕ) : Prop := n ≤ 127 → x.isFinite = true ∧ |x.val| ≤ 2 ^ n

theorem Le2.mono {x : F32} {n m : ℕ} (h : Le2 x n) (hnm : n ≤ m) : Le2 x m := fun hm =>
  ⟨(h (by omega)).1, (h (by omega)).2.trans (pow_le_pow_right₀ (by norm_num) hnm)⟩

theorem Le2.fin {x : F32} {n : ℕ} (h : Le2 x n) (hn : n ≤ 127) : x.isFinite = true := (h hn).1

/-- Finite operands: the operations are the rounded exact ones. -/
theorem add_round {x y : F32} (hx : x.isFinite = true) (hy : y.isFinite = true) :
    x + y = round (x.sign && y.sign) (x.val + y.val) := by
  rw [add_def, add, nan2, isNaN_of_isFinite hx, isNaN_of_isFinite hy, isInf_of_isFinite hx,
    isInf_of_isFinite hy]; simp

theorem sub_round {x y : F32} (hx : x.isFinite = true) (hy : y.isFinite = true) :
    x - y = round (x.sign && !y.sign) (x.val - y.val) := by
  rw [sub_def, sub, nan2, isNaN_of_isFinite hx, isNaN_of_isFinite hy, isInf_of_isFinite hx,
    isInf_of_isFinite hy]; simp

theorem mul_round {x y : F32} (hx : x.isFinite = true) (hy : y.isFinite = true) :
    x * y = round (x.sign != y.sign) (x.val * y.val) := by
  rw [mul_def, mul, nan2, isNaN_of_isFinite hx, isNaN_of_isFinite hy, isInf_of_isFinite hx,
    isInf_of_isFinite hy]; simp

theorem div_round {x y : F32} (hx : x.isFinite = true) (hy : y.isFinite = true) (h0 : y.isZero = false) :
    x / y = round (x.sign != y.sign) (x.val / y.val) := by
  rw [div_def, div, nan2, isNaN_of_isFinite hx, isNaN_of_isFinite hy, isInf_of_isFinite hx,
    isInf_of_isFinite hy, h0]; simp

theorem Le2.add {x y : F32} {n m : ℕ} (hx : Le2 x n) (hy : Le2 y m) : Le2 (x + y) (max n m + 1) := by
  intro hn
  obtain ⟨fx, bx⟩ := hx.mono (le_max_left n m) (by omega)
  obtain ⟨fy, by'⟩ := hy.mono (le_max_right n m) (by omega)
  rw [add_round fx fy]
  refine round_le_two_pow hn ((abs_add_le _ _).trans ?_)
  rw [pow_succ]; linarith

theorem Le2.sub {x y : F32} {n m : ℕ} (hx : Le2 x n) (hy : Le2 y m) : Le2 (x - y) (max n m + 1) := by
  intro hn
  obtain ⟨fx, bx⟩ := hx.mono (le_max_left n m) (by omega)
  obtain ⟨fy, by'⟩ := hy.mono (le_max_right n m) (by omega)
  rw [sub_round fx fy]
  refine round_le_two_pow hn ((abs_sub _ _).trans ?_)
  rw [pow_succ]; linarith

theorem Le2.mul {x y : F32} {n m : ℕ} (hx : Le2 x n) (hy : Le2 y m) : Le2 (x * y) (n + m) := by
  intro hn
  obtain ⟨fx, bx⟩ := hx (by omega)
  obtain ⟨fy, by'⟩ := hy (by omega)
  rw [mul_round fx fy]
  refine round_le_two_pow hn ?_
  rw [abs_mul, pow_add]
  exact mul_le_mul bx by' (abs_nonneg _) (by positivity)

theorem Le2.neg {x : F32} {n : ℕ} (hx : Le2 x n) : Le2 (-x) n := fun hn =>
  ⟨by simpa using (hx hn).1, by simpa using (hx hn).2⟩

theorem Le2.zero : Le2 0 0 := fun _ => by decide +kernel
theorem Le2.one : Le2 1 0 := fun _ => by decide +kernel
theorem Le2.two : Le2 2 1 := fun _ => by decide +kernel

end Klein.F32
