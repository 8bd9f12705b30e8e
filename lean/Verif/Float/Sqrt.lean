import Verif.Float.Newton32
import Verif.Float.Range

/-!
# `sqrtss`

`std::sqrt(float)` and `sqrtss` are correctly rounded, so unlike the other functions of the C library
the square root is determined.  The radicand is an integer multiple of `2^-400`; the integer square
root, found bit by bit, gives 200 fractional bits, and a last bit records whether it is inexact.
-/

namespace Klein.F32

/-- Integer square root, bits `k-1, ..., 0` still to be decided. -/
def isqrtLoop (N : ℕ) : ℕ → ℕ → ℕ
  | 0, s => s
  | k + 1, s => isqrtLoop N k (if (s + 2 ^ k) * (s + 2 ^ k) ≤ N then s + 2 ^ k else s)

/-- Integer square root of a number below `2^600`. -/
def isqrt (N : ℕ) : ℕ := isqrtLoop N 300 0

theorem isqrtLoop_spec (N : ℕ) (k s : ℕ) (h1 : s * s ≤ N) (h2 : N < (s + 2 ^ k) * (s + 2 ^ k)) :
    isqrtLoop N k s * isqrtLoop N k s ≤ N ∧ N < (isqrtLoop N k s + 1) * (isqrtLoop N k s + 1) := by
  induction k generalizing s with
  | zero => exact ⟨h1, by simpa [isqrtLoop] using h2⟩
  | succ k ih =>
    unfold isqrtLoop
    split
    · rename_i h
      refine ih _ h ?_
      rwa [add_assoc, ← two_mul, ← pow_succ']
    · rename_i h
      exact ih _ h1 (not_le.1 h)

theorem isqrt_spec {N : ℕ} (h : N < 2 ^ 600) :
    isqrt N * isqrt N ≤ N ∧ N < (isqrt N + 1) * (isqrt N + 1) :=
  isqrtLoop_spec N 300 0 (by simp) (by
    rw [zero_add, ← pow_add]; exact h)

/-- A rational with the same rounding as the square root of `q`. -/
def sqrtQ (q : ℚ) : ℚ :=
  let N := ⌊q * 2 ^ 400⌋.toNat
  let s := isqrt N
  if s * s = N then s / 2 ^ 200 else (2 * s + 1) / 2 ^ 201

/-- `sqrtss`: the rounded square root; `±0` is returned as it is, negative numbers are invalid. -/
def sqrt (x : F32) : F32 :=
  if x.isNaN then x.quiet
  else if x.isZero then x
  else if x.sign then defaultNaN
  else if x.isInf then x
  else round false (sqrtQ x.val)

/-- `sqrtf(2) = 0x3FB504F3`, `sqrtf(9) = 3`, the square root of the smallest subnormal,
`sqrtf(-0) = -0`, `sqrtf(-1)` is invalid. -/
theorem sqrt_checks : sqrt 2 = ofMag false 0x3FB504F3 ∧ sqrt 9 = 3 ∧
    sqrt (ofMag false 1) = ofMag false 0x1A3504F3 ∧ sqrt (ofMag true 0) = ofMag true 0 ∧
    sqrt (-1) = defaultNaN ∧ sqrt (ofMag false 0x7F7FFFFF) = ofMag false 0x5F7FFFFF := by decide +kernel

theorem val_lt {x : F32} (h : x.isFinite = true) : |x.val| < 2 ^ 128 := by
  have hm : magVal x.mag.val < 2 ^ 128 := by
    have h : x.mag.val < 0x7F800000 := of_decide_eq_true h
    generalize x.mag.val = m at h
    have hE : m / 2 ^ 23 ≤ 254 := by omega
    have hM : m % 2 ^ 23 < 2 ^ 23 := Nat.mod_lt _ (by norm_num)
    unfold magVal
    simp only
    generalize m / 2 ^ 23 = E at hE
    generalize m % 2 ^ 23 = M at hM
    have hMq : (M : ℚ) < 2 ^ 23 := by exact_mod_cast hM
    split
    · rw [div_lt_iff₀ (by positivity), ← pow_add]
      exact hMq.trans_le (pow_le_pow_right₀ (by norm_num) (by norm_num))
    · rw [div_lt_iff₀ (by positivity), ← pow_add]
      calc ((2 : ℚ) ^ 23 + M) * 2 ^ (E - 1) < 2 ^ 24 * 2 ^ (E - 1) := by
            gcongr; linarith [show (2 : ℚ) ^ 24 = 2 ^ 23 + 2 ^ 23 by norm_num]
        _ = 2 ^ (24 + (E - 1)) := by rw [← pow_add]
        _ ≤ 2 ^ (128 + 149) := pow_le_pow_right₀ (by norm_num) (by omega)
  unfold val
  have h0 := magVal_nonneg x.mag.val
  split
  · rwa [abs_neg, abs_of_nonneg h0]
  · rwa [abs_of_nonneg h0]

theorem sqrtQ_err {q : ℚ} (hq : 1 / 2 ^ 149 ≤ q) (hu : q < 2 ^ 128) (n : ℕ) (hn : q * 2 ^ 149 = n) :
    |(sqrtQ q : ℝ) - √(q : ℝ)| ≤ 1 / 2 ^ 200 := by
  obtain ⟨N, hN⟩ : ∃ N : ℕ, N = n * 2 ^ 251 := ⟨_, rfl⟩
  have hNq : q * 2 ^ 400 = N := by
    rw [hN, Nat.cast_mul, ← hn, mul_assoc, Nat.cast_pow, Nat.cast_ofNat, ← pow_add]
  have hfl : ⌊q * 2 ^ 400⌋.toNat = N := by rw [hNq]; simp
  have hlt : N < 2 ^ 600 := by
    have : (N : ℚ) < ((2 ^ 600 : ℕ) : ℚ) := by
      rw [← hNq]
      calc q * 2 ^ 400 < 2 ^ 128 * 2 ^ 400 := by gcongr
        _ = 2 ^ 528 := by rw [← pow_add]
        _ ≤ ((2 ^ 600 : ℕ) : ℚ) := by
          rw [Nat.cast_pow, Nat.cast_ofNat]; exact pow_le_pow_right₀ (by norm_num) (by norm_num)
    exact_mod_cast this
  have hsp := isqrt_spec hlt
  have hdef : sqrtQ q = if isqrt N * isqrt N = N then (isqrt N : ℚ) / 2 ^ 200
      else (2 * (isqrt N : ℚ) + 1) / 2 ^ 201 := by unfold sqrtQ; simp only [hfl]
  generalize isqrt N = S at hsp hdef
  obtain ⟨h1, h2⟩ := hsp
  clear hlt hfl hN hn
  have hR : (q : ℝ) * 2 ^ 400 = N := by
    have := congrArg (fun t : ℚ => (t : ℝ)) hNq
    simp only [Rat.cast_mul, Rat.cast_pow, Rat.cast_ofNat, Rat.cast_natCast] at this
    exact this
  have hs : √(q : ℝ) * 2 ^ 200 = √(N : ℝ) := by
    have e : (2 : ℝ) ^ 400 = (2 ^ 200) ^ 2 := by rw [← pow_mul]
    have hp : (0 : ℝ) ≤ 2 ^ 200 := by positivity
    rw [← hR, e]
    generalize (2 : ℝ) ^ 200 = P at hp
    rw [Real.sqrt_mul' _ (sq_nonneg P), Real.sqrt_sq hp]
  have l1 : (S : ℝ) ≤ √(N : ℝ) := by
    apply Real.le_sqrt_of_sq_le; rw [sq]; exact_mod_cast h1
  have l2 : √(N : ℝ) < S + 1 := by
    have hS : (0 : ℝ) < S + 1 := by positivity
    rw [Real.sqrt_lt' hS, sq]; exact_mod_cast h2
  have key : |(sqrtQ q : ℝ) * 2 ^ 200 - √(N : ℝ)| ≤ 1 := by
    rw [hdef]
    split
    · push_cast
      rw [div_mul_cancel₀ _ (by positivity), abs_le]
      constructor <;> linarith
    · push_cast
      have : ((2 * (S : ℝ) + 1) / 2 ^ 201) * 2 ^ 200 = S + 1 / 2 := by
        rw [show (2 : ℝ) ^ 201 = 2 ^ 200 * 2 by rw [← pow_succ]]
        generalize hp : (2 : ℝ) ^ 200 = P
        have : P ≠ 0 := by rw [← hp]; positivity
        field_simp
      rw [this, abs_le]
      constructor <;> linarith
  rw [← hs, ← sub_mul, abs_mul, abs_of_pos (by positivity : (0 : ℝ) < 2 ^ 200)] at key
  rwa [le_div_iff₀ (by positivity)]

/-- The rounded square root of a positive float is finite, positive, and has relative error at most
`u = 2^-24` (up to `2^-100`). -/
theorem sqrt_err {x : F32} (hf : x.isFinite = true) (hx : 0 < r x) :
    (sqrt x).isFinite = true ∧ |r (sqrt x) - √(r x)| ≤ (u + 1 / 2 ^ 100) * √(r x) := by
  have hv : 0 < x.val := by unfold r at hx; exact_mod_cast hx
  obtain ⟨n, hn⟩ := val_units x
  have hn0 : 0 < n := by
    have : (0 : ℚ) < n := by rw [← hn]; positivity
    exact_mod_cast this
  have hq1 : 1 / 2 ^ 149 ≤ x.val := by
    rw [div_le_iff₀ (by positivity), hn]; exact_mod_cast hn0
  have hq2 : x.val < 2 ^ 128 := lt_of_abs_lt (val_lt hf)
  have hs : sqrt x = round false (sqrtQ x.val) := by
    have h1 : x.isNaN = false := by
      simp only [isNaN, isFinite, decide_eq_true_eq, decide_eq_false_iff_not] at *; omega
    have h2 : x.isInf = false := by
      simp only [isInf, isFinite, decide_eq_true_eq, decide_eq_false_iff_not] at *; omega
    have h3 : x.sign = false := by
      by_contra h
      have : x.val ≤ 0 := by
        unfold val; rw [if_pos (by simpa using h)]; linarith [magVal_nonneg x.mag.val]
      linarith
    have h4 : x.isZero = false := by
      by_contra h
      have h : x.mag.val = 0 := by simpa [isZero] using h
      have : x.val = 0 := by unfold val; simp [h, magVal]
      linarith
    unfold sqrt
    simp only [h1, h2, h3, h4, Bool.false_eq_true, if_false]
  have key := sqrtQ_err hq1 hq2 n.toNat (by rw [hn]; exact_mod_cast (Int.toNat_of_nonneg hn0.le).symm)
  rw [hs]
  unfold r
  generalize hQ : sqrtQ x.val = Q at key ⊢
  have hX1 : (1 : ℝ) / 2 ^ 149 ≤ (x.val : ℝ) := by
    have := (Rat.cast_le (K := ℝ)).2 hq1
    push_cast at this
    exact this
  have hX2 : (x.val : ℝ) < 2 ^ 128 := by exact_mod_cast (Rat.cast_lt (K := ℝ)).2 hq2
  have y1 : (1 : ℝ) / 2 ^ 75 ≤ √(x.val : ℝ) := by
    apply Real.le_sqrt_of_sq_le
    refine le_trans ?_ hX1
    norm_num
  have y2 : √(x.val : ℝ) < 2 ^ 64 := by
    rw [Real.sqrt_lt' (by positivity)]
    refine hX2.trans_le ?_
    norm_num
  generalize √(x.val : ℝ) = y at key y1 y2 ⊢
  rw [abs_le] at key
  have q1 : (1 : ℝ) / 2 ^ 76 ≤ (Q : ℝ) := by
    have : (1 : ℝ) / 2 ^ 76 + 1 / 2 ^ 200 ≤ 1 / 2 ^ 75 := by norm_num
    linarith
  have q2 : (Q : ℝ) ≤ 2 ^ 65 := by
    have : (2 : ℝ) ^ 64 + 1 / 2 ^ 200 ≤ 2 ^ 65 := by norm_num
    linarith
  have Q1 : (1 : ℚ) / 2 ^ 76 ≤ Q := by
    rw [← Rat.cast_le (K := ℝ)]; push_cast; exact q1
  have Q2 : Q ≤ 2 ^ 65 := by exact_mod_cast q2
  have Q0 : 0 < Q := lt_of_lt_of_le (by positivity) Q1
  have hfin : (round false Q).isFinite = true := by
    have := (roundMag_le_two_pow Q0.le (by norm_num : 65 ≤ 127) Q2).1
    simpa [isFinite, round_mag Q0.ne', abs_of_pos Q0] using this
  refine ⟨hfin, ?_⟩
  have e1 := round_err hfin
  have e2 : max minNormal |Q| = Q := by
    rw [abs_of_pos Q0, max_eq_right]
    refine le_trans ?_ Q1
    unfold minNormal; norm_num
  rw [e2] at e1
  have e3 : |((round false Q).val : ℝ) - Q| ≤ Q / 2 ^ 24 := by exact_mod_cast (Rat.cast_le (K := ℝ)).2 e1
  rw [abs_le] at e3 ⊢
  unfold u
  have t : (1 : ℝ) / 2 ^ 200 * (1 + 1 / 2 ^ 24) ≤ 1 / 2 ^ 100 * (1 / 2 ^ 75) := by norm_num
  have t2 : (1 : ℝ) / 2 ^ 100 * (1 / 2 ^ 75) ≤ 1 / 2 ^ 100 * y := by gcongr
  constructor <;> nlinarith

end Klein.F32
