import Verif.Float.Order
import Verif.Sym.Poly

/-!
# Integers as `float` coefficients

The integers of absolute value at most `2^24` are binary32 numbers, and on them the operations of
the processor are exact.
-/

namespace Klein.F32

/-- `static_cast<float>` of an integer. -/
def ofZ (z : ℤ) : F32 := round false z

theorem exists_val (n : ℕ) (hn : n ≤ 2 ^ 24) : ∃ y : F32, y.val = n := by
  have pat : ∀ k m : ℕ, m ≤ 2 ^ 24 → (k = 0 ∨ 2 ^ 23 ≤ m) → k ≤ 200 →
      (ofMag false (k * 2 ^ 23 + m)).val = m * 2 ^ k / 2 ^ 149 := by
    intro k m hm hk hk'
    have e : (ofMag false (k * 2 ^ 23 + m)).mag.val = k * 2 ^ 23 + m := by
      show (k * 2 ^ 23 + m) % 2 ^ 31 = _
      rw [Nat.mod_eq_of_lt]
      omega
    unfold val
    rw [e, magVal_pattern hm hk]
    rfl
  rcases Nat.eq_zero_or_pos n with rfl | hpos
  · exact ⟨ofMag false 0, by decide +kernel⟩
  · rcases Nat.lt_or_ge n (2 ^ 24) with h | h
    · have hj : Nat.log 2 n < 24 := Nat.log_lt_of_lt_pow (by omega) h
      obtain ⟨i, hi⟩ : ∃ i, i + Nat.log 2 n = 23 := ⟨23 - Nat.log 2 n, by omega⟩
      have h1 : 2 ^ Nat.log 2 n ≤ n := Nat.pow_log_le_self 2 (by omega)
      have h2 : n < 2 ^ (Nat.log 2 n + 1) := Nat.lt_pow_succ_log_self (by norm_num) n
      have h3 : n * 2 ^ i ≤ 2 ^ 24 := by
        calc n * 2 ^ i ≤ 2 ^ (Nat.log 2 n + 1) * 2 ^ i := Nat.mul_le_mul_right _ h2.le
          _ = 2 ^ 24 := by rw [← pow_add]; congr 1; omega
      have h4 : 2 ^ 23 ≤ n * 2 ^ i := by
        calc 2 ^ 23 = 2 ^ Nat.log 2 n * 2 ^ i := by rw [← pow_add]; congr 1; omega
          _ ≤ n * 2 ^ i := Nat.mul_le_mul_right _ h1
      refine ⟨_, (pat (149 - i) (n * 2 ^ i) h3 (Or.inr h4) (by omega)).trans ?_⟩
      have h5 : (2 : ℚ) ^ i * 2 ^ (149 - i) = 2 ^ 149 := by rw [← pow_add]; congr 1; omega
      push_cast
      rw [mul_assoc, h5, mul_div_assoc, div_self (by positivity), mul_one]
    · refine ⟨_, (pat 149 n hn (Or.inr (by omega)) (by omega)).trans ?_⟩
      rw [mul_div_assoc, div_self (by positivity), mul_one]

theorem ofZ_fin {z : ℤ} (h : z.natAbs ≤ 2 ^ 24) : (ofZ z).isFinite = true := by
  unfold ofZ
  rw [round_isFinite]
  have : |(z : ℚ)| ≤ 2 ^ 24 := by
    have h1 : |z| ≤ 2 ^ 24 := by rw [Int.abs_eq_natAbs]; exact_mod_cast h
    exact_mod_cast h1
  have h2 : (2 : ℚ) ^ 24 < 2 ^ 128 - 2 ^ 103 := by norm_num
  linarith

/-- Integers up to `2^24` are represented exactly. -/
theorem ofZ_val {z : ℤ} (h : z.natAbs ≤ 2 ^ 24) : (ofZ z).val = z := by
  obtain ⟨y, hy⟩ := exists_val z.natAbs h
  obtain ⟨w, hw⟩ : ∃ w : F32, w.val = z := by
    rcases Int.natAbs_eq z with e | e
    · exact ⟨y, by rw [hy, e]; simp⟩
    · exact ⟨-y, by rw [val_neg, hy]; conv_rhs => rw [e]
                    push_cast; simp⟩
  have := (round_nearest (z := false) (q := (z : ℚ)) (ofZ_fin h) w).1
  rw [hw, sub_self, abs_zero] at this
  have h0 := abs_eq_zero.1 (le_antisymm this (abs_nonneg _))
  unfold ofZ
  linarith

theorem round_ne {b b' : Bool} {q : ℚ} (h : q ≠ 0) : round b q = round b' q := by
  unfold round; rw [if_neg h, if_neg h]

theorem ofZ_sign {z : ℤ} : (ofZ z).sign = decide (z < 0) := by
  unfold ofZ round
  by_cases h : z = 0
  · simp [h, ofMag]
  · rw [if_neg (by exact_mod_cast h)]
    simp [ofMag]

theorem ofZ_zero : ofZ 0 = 0 := by decide +kernel
theorem ofZ_one : ofZ 1 = 1 := by decide +kernel
theorem ofZ_neg_one : ofZ (-1) = -1 := by decide +kernel

theorem ofZ_inj {a b : ℤ} (ha : a.natAbs ≤ 2 ^ 24) (hb : b.natAbs ≤ 2 ^ 24) (h : ofZ a = ofZ b) : a = b := by
  have := congrArg val h
  rw [ofZ_val ha, ofZ_val hb] at this
  exact_mod_cast this

/-- Sums are exact; a zero sum is `+0`. -/
theorem ofZ_add {a b : ℤ} (ha : a.natAbs ≤ 2 ^ 24) (hb : b.natAbs ≤ 2 ^ 24) :
    ofZ a + ofZ b = ofZ (a + b) := by
  have fa := ofZ_fin ha
  have fb := ofZ_fin hb
  rw [add_def, add]
  unfold nan2
  rw [isNaN_of_isFinite fa, isNaN_of_isFinite fb, isInf_of_isFinite fa, isInf_of_isFinite fb]
  simp only [Bool.false_eq_true, if_false]
  rw [ofZ_val ha, ofZ_val hb, ofZ_sign, ofZ_sign]
  unfold ofZ
  push_cast
  by_cases h : (a : ℚ) + b = 0
  · have : a + b = 0 := by exact_mod_cast h
    have e : (decide (a < 0) && decide (b < 0)) = false := by
      rw [← Bool.decide_and, decide_eq_false_iff_not]; omega
    rw [e]
  · exact round_ne h

/-- Products of non-zero integers are the rounded products. -/
theorem ofZ_mul {a b : ℤ} (ha : a.natAbs ≤ 2 ^ 24) (hb : b.natAbs ≤ 2 ^ 24) (ha0 : a ≠ 0) (hb0 : b ≠ 0) :
    ofZ a * ofZ b = ofZ (a * b) := by
  have fa := ofZ_fin ha
  have fb := ofZ_fin hb
  rw [mul_def, mul]
  unfold nan2
  rw [isNaN_of_isFinite fa, isNaN_of_isFinite fb, isInf_of_isFinite fa, isInf_of_isFinite fb]
  simp only [Bool.false_eq_true, if_false, Bool.or_self]
  rw [ofZ_val ha, ofZ_val hb]
  unfold ofZ
  push_cast
  exact round_ne (by exact_mod_cast mul_ne_zero ha0 hb0)

theorem ofZ_neg {a : ℤ} (ha : a.natAbs ≤ 2 ^ 24) (ha0 : a ≠ 0) : ofZ a * -1 = ofZ (a * -1) := by
  rw [← ofZ_neg_one, ofZ_mul ha (by norm_num) ha0 (by norm_num)]

/-! ### the comparison with zero, and signs -/

/-- `x == 0.f` for `float`: both zeros, no NaN. -/
instance : Sym.ZeroTest F32 := ⟨fun x => x.isZero = true, fun _ => inferInstance⟩

theorem isZ_iff_feq (x : F32) : Sym.ZeroTest.IsZ x ↔ feq x 0 = true := by
  show x.isZero = true ↔ _
  unfold feq
  have h0 : (0 : F32).isNaN = false := by decide
  have h1 : (0 : F32).isZero = true := by decide
  rw [h0, h1]
  by_cases h : x.isZero = true
  · have : x.isNaN = false := by
      unfold isZero at h
      unfold isNaN infMag
      simp only [decide_eq_true_eq, decide_eq_false_iff_not] at h ⊢
      omega
    simp [h, this]
  · have : x ≠ 0 := fun e => h (e ▸ h1)
    simp [h, this]

theorem isZ_ofZ {z : ℤ} (h : z.natAbs ≤ 2 ^ 24) : Sym.ZeroTest.IsZ (ofZ z) ↔ z = 0 := by
  rw [isZ_iff_feq, feq_iff (ofZ_fin h) (by decide), ofZ_val h]
  have : (0 : F32).val = 0 := by decide +kernel
  rw [this]
  exact_mod_cast Iff.rfl

theorem mag_inj {x y : F32} (hs : x.sign = y.sign) (hm : x.mag.val = y.mag.val) : x = y := by
  obtain ⟨sx, mx⟩ := x
  obtain ⟨sy, my⟩ := y
  simp only at hs hm
  rw [hs, Fin.ext hm]

/-- A finite number is its own rounding. -/
theorem round_self {x : F32} (hx : x.isFinite = true) : round x.sign x.val = x := by
  have hv := round_val hx x.sign
  by_cases h : x.val = 0
  · have hm : x.mag.val = 0 := by
      have : magVal x.mag.val = 0 := by
        unfold val at h
        split_ifs at h
        · linarith
        · exact h
      exact magVal_strictMono.injective (by rw [this, magVal_zero])
    rw [h]
    unfold round
    rw [if_pos rfl]
    refine mag_inj rfl ?_
    rw [ofMag_mag (by norm_num), hm]
  · have hs : (round x.sign x.val).sign = x.sign := by
      unfold round
      rw [if_neg h]
      show decide (x.val < 0) = x.sign
      have h0 := magVal_nonneg x.mag
      unfold val at h ⊢
      cases hx' : x.sign
      · simp only [hx', Bool.false_eq_true, if_false] at h ⊢
        simp only [decide_eq_false_iff_not]; linarith
      · simp only [hx', if_true] at h ⊢
        simp only [decide_eq_true_eq]
        have : magVal x.mag ≠ 0 := fun e => h (by rw [e]; simp)
        have := lt_of_le_of_ne h0 (Ne.symm this)
        linarith
    refine mag_inj hs (magVal_strictMono.injective ?_)
    generalize round x.sign x.val = y at hs hv ⊢
    unfold val at hv
    rw [hs] at hv
    split_ifs at hv
    · linarith
    · exact hv

theorem mul_neg_one {x : F32} (hx : x.isNaN = false) : x * -1 = -x := by
  have h1 : (-1 : F32).isNaN = false := by decide
  have h2 : (-1 : F32).isInf = false := by decide
  have h3 : (-1 : F32).isZero = false := by decide
  have h4 : (-1 : F32).val = -1 := by decide +kernel
  have h5 : (-1 : F32).sign = true := by decide
  rw [mul_def, mul]
  unfold nan2
  rw [hx, h1, h2, h3, h4, h5]
  simp only [Bool.false_eq_true, if_false, Bool.or_false]
  cases hi : x.isInf
  · have hf := finite_of_not hx hi
    have hf' : (-x).isFinite = true := hf
    have := round_self hf'
    rw [val_neg] at this
    simp only [Bool.false_eq_true, if_false]
    rw [mul_neg, mul_one]
    convert this using 2
    show (x.sign != true) = !x.sign
    cases x.sign <;> rfl
  · simp only [if_true]
    have hz : x.isZero = false := by
      unfold isInf infMag at hi
      unfold isZero
      simp only [decide_eq_true_eq, decide_eq_false_iff_not] at hi ⊢
      omega
    rw [hz]
    simp only [Bool.false_eq_true, if_false]
    refine mag_inj ?_ ?_
    · show (x.sign != true) = !x.sign
      cases x.sign <;> rfl
    · show infMag % 2 ^ 31 = x.mag.val
      unfold isInf at hi
      simp only [decide_eq_true_eq] at hi
      rw [hi]; rfl

/-- Not a signalling NaN. -/
def Quiet (x : F32) : Prop := x.isNaN = true → x.quiet = x

theorem quiet_quiet (x : F32) : x.quiet.quiet = x.quiet := by
  refine mag_inj rfl ?_
  have h : x.mag.val ||| quietBit < 2 ^ 31 := Nat.or_lt_two_pow x.mag.isLt (by decide)
  have e : x.quiet.mag.val = x.mag.val ||| quietBit := ofMag_mag h
  have e2 : x.quiet.quiet.mag.val = (x.quiet.mag.val ||| quietBit) % 2 ^ 31 := rfl
  rw [e2, e, Nat.or_assoc, Nat.or_self, Nat.mod_eq_of_lt h]

theorem quiet_nan2 {x y r : F32} (h : Quiet r) : Quiet (nan2 x y r) := by
  unfold nan2
  split_ifs
  · exact fun _ => quiet_quiet _
  · exact fun _ => quiet_quiet _
  · exact h

theorem quiet_of_not_nan {x : F32} (h : x.isNaN = false) : Quiet x := fun h' => by rw [h] at h'; cases h'

theorem quiet_round (z : Bool) (q : ℚ) : Quiet (round z q) := by
  refine quiet_of_not_nan ?_
  unfold isNaN
  rw [decide_eq_false_iff_not, not_lt]
  by_cases h : q = 0
  · unfold round; rw [if_pos h, ofMag_mag (by norm_num)]; exact Nat.zero_le _
  · rw [round_mag h]; exact roundMag_le _

theorem quiet_defaultNaN : Quiet defaultNaN := fun _ => by decide

theorem quiet_inf {x : F32} (h : x.isInf = true) : Quiet x := by
  refine quiet_of_not_nan ?_
  unfold isInf at h
  unfold isNaN
  simp only [decide_eq_true_eq, decide_eq_false_iff_not] at h ⊢
  omega

theorem quiet_add (x y : F32) : Quiet (x + y) := by
  rw [add_def, add]
  refine quiet_nan2 ?_
  split_ifs with h1 h2 h3
  · exact quiet_defaultNaN
  · exact quiet_inf h1
  · exact quiet_inf h3
  · exact quiet_round _ _

theorem quiet_mul (x y : F32) : Quiet (x * y) := by
  rw [mul_def, mul]
  refine quiet_nan2 ?_
  simp only
  split_ifs
  · exact quiet_defaultNaN
  · exact quiet_inf (by unfold isInf inf; rw [ofMag_mag (by decide)]; simp)
  · exact quiet_round _ _

theorem mul_neg_one_twice {x : F32} (h : Quiet x) : x * -1 * -1 = x := by
  cases hx : x.isNaN
  · rw [mul_neg_one hx, mul_neg_one (show (-x).isNaN = false from hx)]
    show neg (neg x) = x
    unfold neg
    simp
  · have e : x * -1 = x := by
      rw [mul_def, mul]
      unfold nan2
      rw [hx]
      exact h hx
    rw [e, e]

end Klein.F32
