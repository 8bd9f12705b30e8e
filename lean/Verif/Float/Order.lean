import Verif.Float.Round

/-!
# Binary32: the comparisons and the rounding are those of IEEE 754

`flt` and `feq` compare the numbers; `round` returns the nearest representable number, the one with
even pattern on ties, and infinity exactly from `2^128 - 2^103` on.  These theorems say that the
definitions of `Verif.Float.Binary32` mean what the standard prescribes.
-/

namespace Klein.F32

/-- The default NaN is `0xFFC00000`. -/
theorem defaultNaN_bits : defaultNaN.sign = true ∧ defaultNaN.mag.val = 0x7FC00000 := ⟨rfl, rfl⟩

/-- Every pattern is `k * 2^23 + n`, and stands for `n * 2^k` units. -/
theorem magVal_split (m : ℕ) : ∃ k n : ℕ, m = k * 2 ^ 23 + n ∧ n < 2 ^ 24 ∧ (k = 0 ∨ 2 ^ 23 ≤ n) ∧
    magVal m = n * 2 ^ k / 2 ^ 149 := by
  rcases Nat.eq_zero_or_pos (m / 2 ^ 23) with h | h
  · have h1 : m < 2 ^ 23 := by omega
    refine ⟨0, m, by omega, by omega, Or.inl rfl, ?_⟩
    have := magVal_pattern (k := 0) (n := m) (by omega) (Or.inl rfl)
    rw [← this]; congr 1; omega
  · refine ⟨m / 2 ^ 23 - 1, m % 2 ^ 23 + 2 ^ 23, by omega, by omega, Or.inr (by omega), ?_⟩
    rw [← magVal_pattern (by omega) (Or.inr (by omega))]; congr 1; omega

theorem magVal_lt_succ (m : ℕ) : magVal m < magVal (m + 1) := by
  obtain ⟨k, n, hm, hn, hk, hv⟩ := magVal_split m
  have h1 : magVal (m + 1) = ((n + 1 : ℕ) : ℚ) * 2 ^ k / 2 ^ 149 := by
    rw [← magVal_pattern (k := k) (n := n + 1) (by omega) (hk.imp id fun h => by omega)]
    congr 1; omega
  rw [hv, h1]
  push_cast
  gcongr
  linarith

theorem magVal_strictMono : StrictMono magVal := strictMono_nat_of_lt_succ magVal_lt_succ

theorem magVal_zero : magVal 0 = 0 := by decide +kernel

/-- `cmpltps` compares the numbers. -/
theorem flt_iff {x y : F32} (hx : x.isFinite = true) (hy : y.isFinite = true) :
    flt x y = true ↔ x.val < y.val := by
  have h : flt x y = decide (x.key < y.key) := by
    simp only [flt, isNaN_of_isFinite hx, isNaN_of_isFinite hy, Bool.not_false, Bool.true_and]
  rw [h, decide_eq_true_iff]
  have hs := magVal_strictMono
  have z := magVal_zero
  have nx := magVal_nonneg x.mag.val
  have ny := magVal_nonneg y.mag.val
  have e1 : x.mag.val = 0 ↔ magVal x.mag.val = 0 := by rw [← z, hs.injective.eq_iff]
  have e2 : y.mag.val = 0 ↔ magVal y.mag.val = 0 := by rw [← z, hs.injective.eq_iff]
  unfold key val
  split_ifs
  · rw [neg_lt_neg_iff, neg_lt_neg_iff, hs.lt_iff_lt]; omega
  · constructor
    · intro h
      rcases eq_or_lt_of_le nx with a | a
      · rcases eq_or_lt_of_le ny with b | b
        · have := e1.2 a.symm; have := e2.2 b.symm; omega
        · linarith
      · linarith
    · intro h
      by_contra hc
      have a : x.mag.val = 0 := by omega
      have b : y.mag.val = 0 := by omega
      rw [e1.1 a, e2.1 b] at h
      simp at h
  · constructor
    · intro h; omega
    · intro h; linarith
  · rw [hs.lt_iff_lt]; omega

/-- `cmpeqps` compares the numbers. -/
theorem feq_iff {x y : F32} (hx : x.isFinite = true) (hy : y.isFinite = true) :
    feq x y = true ↔ x.val = y.val := by
  have h : feq x y = (x == y || x.isZero && y.isZero) := by
    simp only [feq, isNaN_of_isFinite hx, isNaN_of_isFinite hy, Bool.not_false, Bool.true_and]
  rw [h, Bool.or_eq_true, Bool.and_eq_true, beq_iff_eq]
  have z := magVal_zero
  have hi := magVal_strictMono.injective
  have nx := magVal_nonneg x.mag.val
  have ny := magVal_nonneg y.mag.val
  have zx : x.isZero = true ↔ magVal x.mag.val = 0 := by rw [← z, hi.eq_iff]; simp [isZero]
  have zy : y.isZero = true ↔ magVal y.mag.val = 0 := by rw [← z, hi.eq_iff]; simp [isZero]
  rw [zx, zy]
  constructor
  · rintro (h | ⟨h1, h2⟩)
    · rw [h]
    · unfold val; rw [h1, h2]; simp
  · intro h
    unfold val at h
    rcases hs : x.sign <;> rcases ht : y.sign <;> simp only [hs, ht, if_true, if_false, Bool.false_eq_true] at h
    · left; ext1
      · rw [hs, ht]
      · exact Fin.ext (hi h)
    · right; constructor <;> linarith
    · right; constructor <;> linarith
    · left; ext1
      · rw [hs, ht]
      · exact Fin.ext (hi (neg_inj.1 h))

/-- With an infinity the order is that of the extended real line. -/
theorem flt_inf {x : F32} (hx : x.isFinite = true) : flt x (inf false) = true ∧ flt (inf true) x = true ∧
    flt (inf false) x = false ∧ flt x (inf true) = false := by
  have h : x.mag.val < 0x7F800000 := of_decide_eq_true hx
  have n := isNaN_of_isFinite hx
  have k1 : (inf false).key = 0x7F800000 := by decide +kernel
  have k2 : (inf true).key = -0x7F800000 := by decide +kernel
  have n1 : (inf false).isNaN = false := by decide +kernel
  have n2 : (inf true).isNaN = false := by decide +kernel
  have hk : -0x7F800000 < x.key ∧ x.key < 0x7F800000 := by
    unfold key; split_ifs <;> constructor <;> omega
  simp only [flt, n, n1, n2, k1, k2, Bool.not_false, Bool.true_and, decide_eq_true_eq,
    decide_eq_false_iff_not]
  exact ⟨hk.2, hk.1, by omega, by omega⟩

/-! ### rounding -/

/-- `rhe` returns a nearest integer, the even one of two. -/
theorem rhe_nearest (q : ℚ) (n : ℤ) : |(rhe q : ℚ) - q| ≤ |(n : ℚ) - q| ∧
    (|(n : ℚ) - q| = |(rhe q : ℚ) - q| → n = rhe q ∨ rhe q % 2 = 0) := by
  have h1 := Int.floor_le q
  have h2 := Int.lt_floor_add_one q
  have hn : n ≤ ⌊q⌋ ∨ ⌊q⌋ + 1 ≤ n := by omega
  have hn' : (n : ℚ) ≤ ⌊q⌋ ∨ (⌊q⌋ : ℚ) + 1 ≤ n := by
    rcases hn with h | h
    · left; exact_mod_cast h
    · right; exact_mod_cast h
  have hq : ∀ m : ℤ, (m : ℚ) = n → m = n := fun m h => by exact_mod_cast h
  unfold rhe
  simp only
  split_ifs with a b c
  · rw [abs_of_nonpos (by linarith : (⌊q⌋ : ℚ) - q ≤ 0)]
    rcases hn' with h | h
    · rw [abs_of_nonpos (by linarith : (n : ℚ) - q ≤ 0)]
      exact ⟨by linarith, fun e => Or.inl (hq _ (by linarith)).symm⟩
    · rw [abs_of_nonneg (by linarith : 0 ≤ (n : ℚ) - q)]
      exact ⟨by linarith, fun e => by exfalso; linarith⟩
  · push_cast
    rw [abs_of_nonneg (by linarith : 0 ≤ (⌊q⌋ : ℚ) + 1 - q)]
    rcases hn' with h | h
    · rw [abs_of_nonpos (by linarith : (n : ℚ) - q ≤ 0)]
      exact ⟨by linarith, fun e => by exfalso; linarith⟩
    · rw [abs_of_nonneg (by linarith : 0 ≤ (n : ℚ) - q)]
      exact ⟨by linarith, fun e => Or.inl (hq _ (by push_cast; linarith)).symm⟩
  · refine ⟨?_, fun _ => Or.inr c⟩
    rw [abs_of_nonpos (by linarith : (⌊q⌋ : ℚ) - q ≤ 0)]
    rcases hn' with h | h
    · rw [abs_of_nonpos (by linarith : (n : ℚ) - q ≤ 0)]; linarith
    · rw [abs_of_nonneg (by linarith : 0 ≤ (n : ℚ) - q)]; linarith
  · refine ⟨?_, fun _ => Or.inr (by omega)⟩
    push_cast
    rw [abs_of_nonneg (by linarith : 0 ≤ (⌊q⌋ : ℚ) + 1 - q)]
    rcases hn' with h | h
    · rw [abs_of_nonpos (by linarith : (n : ℚ) - q ≤ 0)]; linarith
    · rw [abs_of_nonneg (by linarith : 0 ≤ (n : ℚ) - q)]; linarith

/-- What `roundMag` computes. -/
theorem roundMag_form {q : ℚ} (hq : 0 ≤ q) : ∃ k n : ℕ, roundMag q = min (k * 2 ^ 23 + n) infMag ∧
    k = ulp (q * 2 ^ 149) ∧ (n : ℤ) = rhe (q * 2 ^ 149 / 2 ^ k) ∧ n ≤ 2 ^ 24 ∧ (k = 0 ∨ 2 ^ 23 ≤ n) ∧
    q * 2 ^ 149 < 2 ^ (k + 24) ∧ (k = 0 ∨ 2 ^ (k + 23) ≤ q * 2 ^ 149) := by
  obtain ⟨r, hr⟩ : ∃ r : ℚ, r = q * 2 ^ 149 := ⟨_, rfl⟩
  have hr0 : 0 ≤ r := by rw [hr]; positivity
  have hpos : (0 : ℚ) < 2 ^ ulp r := by positivity
  have hdiv0 : 0 ≤ r / 2 ^ ulp r := by positivity
  have hlt := ulp_lt hr0
  have hnz : ((rhe (r / 2 ^ ulp r)).toNat : ℤ) = rhe (r / 2 ^ ulp r) := Int.toNat_of_nonneg (rhe_nonneg hdiv0)
  have hle : ulp r = 0 ∨ 2 ^ (ulp r + 23) ≤ r := by
    rcases Nat.eq_zero_or_pos (ulp r) with h | h
    · exact Or.inl h
    · exact Or.inr (ulp_le hr0 h)
  rw [← hr]
  refine ⟨ulp r, (rhe (r / 2 ^ ulp r)).toNat, by rw [hr]; rfl, rfl, hnz, ?_, ?_, hlt, hle⟩
  · have h1 : r / 2 ^ ulp r ≤ ((2 ^ 24 : ℤ) : ℚ) := by
      rw [div_le_iff₀ hpos]
      push_cast
      have h2 : (2 : ℚ) ^ (ulp r + 24) = 2 ^ 24 * 2 ^ ulp r := by rw [pow_add]; ring
      linarith
    have := rhe_le h1
    rw [← hnz] at this
    exact_mod_cast this
  · refine hle.imp id fun h => ?_
    have h1 : ((2 ^ 23 : ℤ) : ℚ) ≤ r / 2 ^ ulp r := by
      rw [le_div_iff₀ hpos]
      push_cast
      have h2 : (2 : ℚ) ^ (ulp r + 23) = 2 ^ 23 * 2 ^ ulp r := by rw [pow_add]; ring
      linarith
    have := le_rhe h1
    rw [← hnz] at this
    exact_mod_cast this

theorem lt_units {n k k' : ℕ} (hn : n < 2 ^ 24) (h : k' < k) :
    (n : ℚ) * 2 ^ k' / 2 ^ 149 < 2 ^ 23 * (2 ^ k / 2 ^ 149) := by
  have h1 : (n : ℚ) < 2 ^ 24 := by exact_mod_cast hn
  have h2 : (2 : ℚ) ^ (k' + 1) ≤ 2 ^ k := pow_le_pow_right₀ (by norm_num) h
  have h3 : (0 : ℚ) < 2 ^ k' := by positivity
  rw [pow_succ] at h2
  rw [← mul_div_assoc]
  refine div_lt_div_of_pos_right ?_ (by positivity)
  generalize (2 : ℚ) ^ k' = a at *
  generalize (2 : ℚ) ^ k = b at *
  calc (n : ℚ) * a < 2 ^ 24 * a := mul_lt_mul_of_pos_right h1 h3
    _ = 2 ^ 23 * (a * 2) := by ring
    _ ≤ 2 ^ 23 * b := mul_le_mul_of_nonneg_left h2 (by norm_num)

/-- `roundMag` returns a nearest pattern, and an even one if there are two. -/
theorem roundMag_nearest {q : ℚ} (hq : 0 ≤ q) (hf : roundMag q < infMag) (m : ℕ) :
    |magVal (roundMag q) - q| ≤ |magVal m - q| ∧
    (|magVal m - q| = |magVal (roundMag q) - q| → m = roundMag q ∨ roundMag q % 2 = 0) := by
  obtain ⟨k, n, hp, -, hn, hn24, hkn, hlt, hle⟩ := roundMag_form hq
  have hpat : roundMag q = k * 2 ^ 23 + n := by
    rw [hp] at hf ⊢; exact min_eq_left (by omega)
  have hv : magVal (roundMag q) = n * 2 ^ k / 2 ^ 149 := by rw [hpat, magVal_pattern hn24 hkn]
  obtain ⟨s, hs⟩ : ∃ s : ℚ, s = q * 2 ^ 149 / 2 ^ k := ⟨_, rfl⟩
  have hc : (0 : ℚ) < 2 ^ k / 2 ^ 149 := by positivity
  have hqs : q = s * (2 ^ k / 2 ^ 149) := by rw [hs]; field_simp
  have hd : ∀ t : ℚ, |t * (2 ^ k / 2 ^ 149) - q| = |t - s| * (2 ^ k / 2 ^ 149) := fun t => by
    rw [hqs, ← sub_mul, abs_mul, abs_of_pos hc]
  have e1 : magVal (roundMag q) = n * (2 ^ k / 2 ^ 149) := by rw [hv]; ring
  rw [← hs] at hn
  have hnq : (n : ℚ) = (rhe s : ℚ) := by rw [← hn]; norm_cast
  obtain ⟨k', n', hm, hn', hkn', hvm⟩ := magVal_split m
  have heven : rhe s % 2 = 0 → roundMag q % 2 = 0 := fun h => by
    rw [← hn] at h; rw [hpat]; omega
  rcases Nat.lt_or_ge k' k with h | h
  · have hk : 2 ^ (k + 23) ≤ q * 2 ^ 149 := hle.resolve_left (by omega)
    have hs23 : ((2 ^ 23 : ℤ) : ℚ) ≤ s := by
      rw [hs, le_div_iff₀ (by positivity)]
      refine le_trans (le_of_eq ?_) hk
      rw [pow_add]; push_cast; ring
    have hlt' : magVal m < 2 ^ 23 * (2 ^ k / 2 ^ 149) := by
      rw [hvm]
      exact lt_units hn' h
    have h1 := (rhe_nearest s (2 ^ 23)).1
    push_cast at h1 hs23
    have h2 : |magVal (roundMag q) - q| ≤ |2 ^ 23 * (2 ^ k / 2 ^ 149) - q| := by
      rw [e1, hd, hd, hnq]; exact mul_le_mul_of_nonneg_right h1 hc.le
    have h3 : |2 ^ 23 * (2 ^ k / 2 ^ 149) - q| < |magVal m - q| := by
      have : 2 ^ 23 * (2 ^ k / 2 ^ 149) ≤ q := by
        rw [hqs]; exact mul_le_mul_of_nonneg_right hs23 hc.le
      clear h1 h2 hqs hd e1 hvm hv hs hlt hle hk
      generalize (2 : ℚ) ^ 23 * (2 ^ k / 2 ^ 149) = w at *
      rw [abs_of_nonpos (by linarith), abs_of_neg (by linarith)]; linarith
    clear h1 hqs hd e1 hvm hv hs hlt hle hk hlt' hc
    generalize |2 ^ 23 * (2 ^ k / 2 ^ 149) - q| = w at *
    exact ⟨by linarith, fun e => by linarith⟩
  · have e2 : magVal m = ((n' * 2 ^ (k' - k) : ℤ) : ℚ) * (2 ^ k / 2 ^ 149) := by
      rw [hvm]; push_cast
      rw [mul_div_assoc', mul_assoc, ← pow_add, Nat.sub_add_cancel h]
    have h1 := rhe_nearest s (n' * 2 ^ (k' - k))
    rw [e1, e2, hd, hd, hnq]
    refine ⟨mul_le_mul_of_nonneg_right h1.1 hc.le, fun e => ?_⟩
    rcases h1.2 (mul_right_cancel₀ hc.ne' e) with a | a
    · left
      apply magVal_strictMono.injective
      rw [e2, e1, hnq, a]
    · exact Or.inr (heven a)

set_option exponentiation.threshold 300 in
/-- The rounding threshold of overflow, `2^128 - 2^103`. -/
theorem roundMag_inf {q : ℚ} (hq : 0 ≤ q) : roundMag q = infMag ↔ 2 ^ 128 - 2 ^ 103 ≤ q := by
  obtain ⟨k, n, hp, -, hn, hn24, hkn, hlt, hle⟩ := roundMag_form hq
  have e0 : ((2 : ℚ) ^ 128 - 2 ^ 103 ≤ q) ↔ (2 ^ 277 - 2 ^ 252 ≤ q * 2 ^ 149) := by
    rw [show (2 : ℚ) ^ 277 - 2 ^ 252 = (2 ^ 128 - 2 ^ 103) * 2 ^ 149 by norm_num]
    exact (mul_le_mul_iff_of_pos_right (by positivity)).symm
  rw [e0, hp]
  generalize q * 2 ^ 149 = r at *
  have hi : infMag = 255 * 2 ^ 23 := rfl
  rw [hi, min_eq_right_iff]
  rcases Nat.lt_trichotomy k 253 with h | h | h
  · have h1 : (2 : ℚ) ^ (k + 24) ≤ 2 ^ 276 := pow_le_pow_right₀ (by norm_num) (by omega)
    have h2 : (2 : ℚ) ^ 276 < 2 ^ 277 - 2 ^ 252 := by norm_num
    constructor
    · intro h; omega
    · intro h; linarith
  · subst h
    have e1 : ((2 : ℚ) ^ 277 - 2 ^ 252 ≤ r) ↔ (2 ^ 24 - 1 / 2 ≤ r / 2 ^ 253) := by
      rw [le_div_iff₀ (by positivity), show ((2 : ℚ) ^ 24 - 1 / 2) * 2 ^ 253 = 2 ^ 277 - 2 ^ 252 by norm_num]
    rw [e1]
    generalize r / 2 ^ 253 = s at *
    have h3 : (255 * 2 ^ 23 ≤ 253 * 2 ^ 23 + n) ↔ (2 ^ 24 : ℤ) ≤ rhe s := by rw [← hn]; omega
    rw [h3]
    have a := abs_le.1 (rhe_err s)
    constructor
    · intro h
      have : ((2 ^ 24 : ℤ) : ℚ) ≤ rhe s := by exact_mod_cast h
      push_cast at this
      linarith [a.2]
    · intro h
      by_contra hc
      have h5 : rhe s ≤ 2 ^ 24 - 1 := by omega
      have h6 : ((rhe s : ℤ) : ℚ) ≤ ((2 ^ 24 - 1 : ℤ) : ℚ) := by exact_mod_cast h5
      push_cast at h6
      have h7 : s = 2 ^ 24 - 1 / 2 := by linarith [a.1]
      have h8 := (rhe_nearest s (2 ^ 24)).2 (by
        have : rhe s = 2 ^ 24 - 1 := by
          have : ((2 ^ 24 - 1 : ℤ) : ℚ) ≤ rhe s := by push_cast; linarith [a.1]
          have : (2 ^ 24 - 1 : ℤ) ≤ rhe s := by exact_mod_cast this
          omega
        rw [this, h7]; norm_num)
      have h9 : rhe s = 2 ^ 24 - 1 := by
        have : ((2 ^ 24 - 1 : ℤ) : ℚ) ≤ rhe s := by push_cast; linarith [a.1]
        have : (2 ^ 24 - 1 : ℤ) ≤ rhe s := by exact_mod_cast this
        omega
      rcases h8 with b | b <;> omega
  · have h1 : 2 ^ 23 ≤ n := hkn.resolve_left (by omega)
    have h2 : (2 : ℚ) ^ (k + 23) ≤ r := hle.resolve_left (by omega)
    have h3 : (2 : ℚ) ^ 277 ≤ 2 ^ (k + 23) := pow_le_pow_right₀ (by norm_num) (by omega)
    have h4 : (0 : ℚ) < 2 ^ 252 := by positivity
    constructor
    · intro _; linarith
    · intro _; omega

/-- `round` overflows exactly from `2^128 - 2^103` on. -/
theorem round_isFinite (z : Bool) (q : ℚ) : (round z q).isFinite = true ↔ |q| < 2 ^ 128 - 2 ^ 103 := by
  rcases eq_or_ne q 0 with rfl | h
  · simp only [round_zero_finite, true_iff, abs_zero]; norm_num
  · have h1 := round_mag (z := z) h
    have h2 := roundMag_le |q|
    unfold isFinite
    rw [decide_eq_true_iff, h1]
    have h3 := roundMag_inf (abs_nonneg q)
    rw [lt_iff_not_ge, lt_iff_not_ge, ← h3]
    exact not_congr ⟨fun h => le_antisymm h2 h, fun h => h.ge⟩

/-- `round` returns a representable number nearest to `q`, the even one of two. -/
theorem round_nearest {z : Bool} {q : ℚ} (hf : (round z q).isFinite = true) (y : F32) :
    |(round z q).val - q| ≤ |y.val - q| ∧
    (|y.val - q| = |(round z q).val - q| → y.val = (round z q).val ∨ (round z q).mag.val % 2 = 0) := by
  rcases eq_or_ne q 0 with rfl | h
  · rw [round_zero_val]
    simp only [sub_zero, abs_zero]
    exact ⟨abs_nonneg _, fun e => Or.inl (abs_eq_zero.1 e)⟩
  · have hm := round_mag (z := z) h
    have hfin : roundMag |q| < infMag := by rw [← hm]; exact of_decide_eq_true hf
    have hs : (round z q).sign = decide (q < 0) := by unfold round; rw [if_neg h]; rfl
    have hval : (round z q).val = (if q < 0 then -1 else 1) * magVal (roundMag |q|) := by
      unfold val; rw [hs, hm]; by_cases c : q < 0 <;> simp [c]
    have hq : q = (if q < 0 then -1 else 1) * |q| := by
      by_cases c : q < 0
      · simp [c, abs_of_neg c]
      · simp [c, abs_of_nonneg (not_lt.1 c)]
    obtain ⟨ε, hε⟩ : ∃ ε : ℚ, ε = if q < 0 then -1 else 1 := ⟨_, rfl⟩
    have hε1 : |ε| = 1 := by rw [hε]; split_ifs <;> simp
    have hd : ∀ t : ℚ, |ε * t - q| = |t - (|q|)| := fun t => by
      conv_lhs => rw [hq, ← hε]
      rw [← mul_sub, abs_mul, hε1, one_mul]
    rw [← hε] at hval
    rw [hval, hd, hm]
    have hy : (y.val = ε * magVal y.mag) ∨ (y.val = ε * -magVal y.mag) := by
      unfold val; rw [hε]; by_cases c : q < 0 <;> by_cases d : y.sign = true <;> simp [c, d]
    have n1 := roundMag_nearest (abs_nonneg q) hfin
    rcases hy with e | e
    · rw [e, hd]
      refine ⟨(n1 y.mag).1, fun g => ?_⟩
      rcases (n1 y.mag).2 g with a | a
      · left; rw [a]
      · exact Or.inr a
    · rw [e, hd]
      have h0 := (n1 0).1
      have h0' := (n1 0).2
      rw [magVal_zero] at h0 h0'
      have hy0 := magVal_nonneg y.mag.val
      have hqp : 0 < |q| := abs_pos.2 h
      have g1 : |0 - (|q|)| = |q| := by rw [zero_sub, abs_neg, abs_abs]
      have g2 : |-magVal y.mag.val - (|q|)| = magVal y.mag.val + |q| := by
        rw [abs_of_nonpos (by linarith)]; ring
      rw [g1] at h0 h0'
      rw [g2]
      refine ⟨by linarith, fun g => ?_⟩
      have g3 : magVal y.mag.val = 0 := by linarith
      rcases h0' (by linarith) with a | a
      · left; rw [g3, ← a, magVal_zero]; simp
      · exact Or.inr a

/-- A representable number is not changed. -/
theorem round_val {x : F32} (hx : x.isFinite = true) (z : Bool) : (round z x.val).val = x.val := by
  rcases eq_or_ne x.val 0 with h | h
  · rw [h, round_zero_val]
  · have hfin : roundMag |x.val| < infMag ∨ roundMag |x.val| = infMag := lt_or_eq_of_le (roundMag_le _)
    have habs : |x.val| = magVal x.mag.val := by
      have := magVal_nonneg x.mag.val
      unfold val; split_ifs
      · rw [abs_neg, abs_of_nonneg this]
      · rw [abs_of_nonneg this]
    have hlt : x.mag.val < infMag := of_decide_eq_true hx
    have hf : (round z x.val).isFinite = true := by
      rw [round_isFinite, habs]
      have h1 : magVal x.mag.val ≤ magVal (infMag - 1) := magVal_strictMono.monotone (by omega)
      have h2 : magVal (infMag - 1) < 2 ^ 128 - 2 ^ 103 := by decide +kernel
      linarith
    have := (round_nearest hf x).1
    rw [sub_self, abs_zero] at this
    linarith [abs_eq_zero.1 (le_antisymm this (abs_nonneg _))]

/-- Rounding is monotone. -/
theorem round_mono {z z' : Bool} {p q : ℚ} (h : p ≤ q) (hp : (round z p).isFinite = true)
    (hq : (round z' q).isFinite = true) : (round z p).val ≤ (round z' q).val := by
  rcases eq_or_lt_of_le h with rfl | hlt
  · rcases eq_or_ne p 0 with rfl | hne
    · rw [round_zero_val, round_zero_val]
    · unfold round; rw [if_neg hne, if_neg hne]
  by_contra hc
  have hc := not_le.1 hc
  have h1 := round_nearest hp (round z' q)
  have h2 := round_nearest hq (round z p)
  generalize (round z p).val = a at *
  generalize (round z' q).val = b at *
  have e1 : p ≥ (a + b) / 2 := by
    by_contra hh
    have hh := not_le.1 hh
    have : |b - p| < |a - p| := by
      rw [abs_lt, abs_of_pos (by linarith)]; constructor <;> linarith
    linarith [h1.1]
  have e2 : q ≤ (a + b) / 2 := by
    by_contra hh
    have hh := not_le.1 hh
    have : |a - q| < |b - q| := by
      rw [abs_lt, abs_of_neg (by linarith : b - q < 0)]; constructor <;> linarith
    linarith [h2.1]
  linarith

end Klein.F32
