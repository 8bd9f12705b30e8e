import Verif.Float.Binary32
import Mathlib.Tactic.Ring

/-!
# Elementary facts about the binary32 operations
-/

namespace Klein.F32

@[simp] theorem neg_sign (x : F32) : (-x).sign = !x.sign := rfl
@[simp] theorem neg_mag (x : F32) : (-x).mag = x.mag := rfl
@[simp] theorem neg_neg' (x : F32) : -(-x) = x := by
  apply F32.ext <;> simp

@[simp] theorem isNaN_neg (x : F32) : (-x).isNaN = x.isNaN := rfl
@[simp] theorem isInf_neg (x : F32) : (-x).isInf = x.isInf := rfl
@[simp] theorem isZero_neg (x : F32) : (-x).isZero = x.isZero := rfl
@[simp] theorem isFinite_neg (x : F32) : (-x).isFinite = x.isFinite := rfl
@[simp] theorem val_neg (x : F32) : (-x).val = -x.val := by
  unfold val; rw [neg_sign, neg_mag]; cases x.sign <;> simp

theorem mul_def (x y : F32) : x * y = mul x y := rfl
theorem add_def (x y : F32) : x + y = add x y := rfl
theorem sub_def (x y : F32) : x - y = sub x y := rfl
theorem div_def (x y : F32) : x / y = div x y := rfl
theorem neg_def (x : F32) : -x = neg x := rfl
theorem zero_def : (0 : F32) = ofMag false 0 := rfl

/-- Two sign flips cancel in a product, bit for bit, unless a NaN is involved. -/
theorem neg_mul_neg' {x y : F32} (hx : x.isNaN = false) (hy : y.isNaN = false) :
    -x * -y = x * y := by
  simp only [mul_def, mul, nan2, isNaN_neg, isInf_neg, isZero_neg, hx, hy, neg_sign, val_neg,
    Bool.false_eq_true, if_false, neg_mul_neg]
  cases x.sign <;> cases y.sign <;> rfl

/-- With a NaN operand the sign of the result changes. -/
theorem neg_mul_neg_nan : -defaultNaN * -(1 : F32) ≠ defaultNaN * 1 := by decide +kernel

/-- Subtraction is addition of the negated operand (no NaN involved). -/
theorem sub_eq_add_neg' {x y : F32} (hx : x.isNaN = false) (hy : y.isNaN = false) :
    x - y = x + -y := by
  have hs : (x.sign != !y.sign) = (x.sign == y.sign) := by
    cases x.sign <;> cases y.sign <;> rfl
  simp only [sub_def, add_def, sub, add, nan2, isNaN_neg, isInf_neg, hx, hy, neg_sign, val_neg,
    Bool.false_eq_true, if_false, sub_eq_add_neg, show ∀ y, neg y = -y from fun _ => rfl, hs]

/-- Addition is commutative unless both operands are NaN. -/
theorem add_comm' {x y : F32} (h : x.isNaN = false ∨ y.isNaN = false) : x + y = y + x := by
  simp only [add_def, add, nan2, add_comm y.val, Bool.and_comm y.sign]
  rcases h with h | h <;> simp only [h, Bool.false_eq_true, if_false]
  · split
    · rfl
    · by_cases h1 : x.isInf = true <;> by_cases h2 : y.isInf = true <;>
        simp only [h1, h2, if_true, if_false, Bool.true_and, Bool.false_and, Bool.false_eq_true]
      cases hx : x.sign <;> cases hy : y.sign <;> simp [F32.ext_iff, hx, hy]
      · simp only [isInf, decide_eq_true_eq] at h1 h2; exact Fin.ext (h1.trans h2.symm)
      · simp only [isInf, decide_eq_true_eq] at h1 h2; exact Fin.ext (h1.trans h2.symm)
  · split
    · rfl
    · by_cases h1 : x.isInf = true <;> by_cases h2 : y.isInf = true <;>
        simp only [h1, h2, if_true, if_false, Bool.true_and, Bool.false_and, Bool.false_eq_true]
      cases hx : x.sign <;> cases hy : y.sign <;> simp [F32.ext_iff, hx, hy]
      · simp only [isInf, decide_eq_true_eq] at h1 h2; exact Fin.ext (h1.trans h2.symm)
      · simp only [isInf, decide_eq_true_eq] at h1 h2; exact Fin.ext (h1.trans h2.symm)

/-- Multiplication is commutative unless both operands are NaN. -/
theorem mul_comm' {x y : F32} (h : x.isNaN = false ∨ y.isNaN = false) : x * y = y * x := by
  have hs : (y.sign != x.sign) = (x.sign != y.sign) := by cases x.sign <;> cases y.sign <;> rfl
  simp only [mul_def, mul, nan2, mul_comm y.val, Bool.or_comm y.isInf, Bool.or_comm y.isZero, hs]
  rcases h with h | h <;> simp only [h, Bool.false_eq_true, if_false]

/-- The distance does not depend on the order of the operands. -/
theorem abs_sub_comm' {x y : F32} (hx : x.isNaN = false) (hy : y.isNaN = false) :
    abs (x - y) = abs (y - x) := by
  simp only [sub_def, sub, nan2, hx, hy, Bool.false_eq_true, if_false]
  by_cases h1 : x.isInf = true <;> by_cases h2 : y.isInf = true <;>
    simp only [h1, h2, if_true, if_false, Bool.true_and, Bool.false_and, Bool.false_eq_true]
  · simp only [isInf, decide_eq_true_eq] at h1 h2
    have h3 : x.mag = y.mag := Fin.ext (h1.trans h2.symm)
    cases x.sign <;> cases y.sign <;> simp [abs, h3]
  · rfl
  · rfl
  · unfold round abs
    have h3 : y.val - x.val = -(x.val - y.val) := by ring
    rw [h3, abs_neg]
    simp only [neg_eq_zero]
    split <;> rfl

theorem abs_nan (x : F32) : (abs x).isNaN = x.isNaN := rfl

/-- A comparison with a NaN is false. -/
theorem flt_nan_left {x : F32} (y : F32) (h : x.isNaN = true) : flt x y = false := by
  simp [flt, h]
theorem flt_nan_right (x : F32) {y : F32} (h : y.isNaN = true) : flt x y = false := by
  simp [flt, h]
theorem feq_nan_left {x : F32} (y : F32) (h : x.isNaN = true) : feq x y = false := by
  simp [feq, h]
theorem feq_nan_right (x : F32) {y : F32} (h : y.isNaN = true) : feq x y = false := by
  simp [feq, h]

theorem quiet_isNaN {x : F32} (h : x.isNaN = true) : x.quiet.isNaN = true := by
  have h1 : x.mag.val ≤ x.mag.val ||| quietBit := Nat.left_le_or
  simp only [isNaN, decide_eq_true_eq] at h ⊢
  simp only [quiet, ofMag]
  rw [Nat.mod_eq_of_lt (Nat.or_lt_two_pow x.mag.isLt (by decide))]
  omega

/-- A NaN operand makes the result NaN. -/
theorem nan2_isNaN {x y r : F32} (h : x.isNaN = true ∨ y.isNaN = true) :
    (nan2 x y r).isNaN = true := by
  unfold nan2
  by_cases hx : x.isNaN = true
  · rw [if_pos hx]; exact quiet_isNaN hx
  · rw [if_neg hx, if_pos (h.resolve_left hx)]; exact quiet_isNaN (h.resolve_left hx)

theorem add_nan {x y : F32} (h : x.isNaN = true ∨ y.isNaN = true) : (x + y).isNaN = true :=
  nan2_isNaN h
theorem sub_nan {x y : F32} (h : x.isNaN = true ∨ y.isNaN = true) : (x - y).isNaN = true :=
  nan2_isNaN h
theorem mul_nan {x y : F32} (h : x.isNaN = true ∨ y.isNaN = true) : (x * y).isNaN = true :=
  nan2_isNaN h
theorem div_nan {x y : F32} (h : x.isNaN = true ∨ y.isNaN = true) : (x / y).isNaN = true :=
  nan2_isNaN h

theorem isNaN_of_isFinite {x : F32} (h : x.isFinite = true) : x.isNaN = false := by
  simp only [isFinite, isNaN, decide_eq_true_eq, decide_eq_false_iff_not] at *; omega

theorem isInf_of_isFinite {x : F32} (h : x.isFinite = true) : x.isInf = false := by
  simp only [isFinite, isInf, decide_eq_true_eq, decide_eq_false_iff_not] at *; omega

/-- `x - x` is `+0` for a finite `x`. -/
theorem sub_self' {x : F32} (h : x.isFinite = true) : x - x = 0 := by
  have h1 : x.isNaN = false := isNaN_of_isFinite h
  have h2 : x.isInf = false := isInf_of_isFinite h
  simp only [sub_def, sub, nan2, h1, h2, Bool.false_eq_true, if_false, sub_self, round, if_true]
  cases x.sign <;> rfl

end Klein.F32
