import Verif.Float.Round
import Mathlib.Data.Real.Basic
import Mathlib.Data.Real.Archimedean
import Mathlib.Tactic.NormNum

/-!
# Rounded arithmetic and its error calculus

`Rounded F` says what is assumed of a lane arithmetic with rounding: sums and differences have
relative error at most `u`, products too except that below the smallest normal number `tiny` the
error is at most `u * tiny`; results count only when they are finite, and a finite result has finite
operands.  Binary32 with round-to-nearest satisfies it with `u = 2^-24`, `tiny = 2^-126`
(`F32.rounded`), and so does any real rounding function with `|rnd x - x| ≤ u |x|` (`Rnd.rounded`).

`Near R k x E M` says that the float `x`, if finite, is an approximation of the exact value `E`
computed with at most `k` roundings on terms of total magnitude `M`.
-/

namespace Klein

/-- A lane arithmetic with rounding. -/
structure Rounded (F : Type) [Add F] [Sub F] [Mul F] [Neg F] [Zero F] [One F] [NatCast F] where
  /-- the number a finite lane stands for -/
  val : F → ℝ
  /-- neither infinite nor NaN -/
  fin : F → Prop
  /-- unit roundoff -/
  u : ℝ
  /-- the smallest normal number -/
  tiny : ℝ
  u_nonneg : 0 ≤ u
  tiny_nonneg : 0 ≤ tiny
  add : ∀ x y, fin (x + y) → fin x ∧ fin y ∧ |val (x + y) - (val x + val y)| ≤ u * |val x + val y|
  sub : ∀ x y, fin (x - y) → fin x ∧ fin y ∧ |val (x - y) - (val x - val y)| ≤ u * |val x - val y|
  mul : ∀ x y, fin (x * y) → fin x ∧ fin y ∧
    |val (x * y) - val x * val y| ≤ u * max tiny |val x * val y|
  neg : ∀ x, fin (-x) → fin x ∧ val (-x) = -val x
  zero : val 0 = 0
  one : val 1 = 1
  two : val ((2 : ℕ) : F) = 2

/-- Binary32, round to nearest even. -/
noncomputable def F32.rounded : Rounded F32 where
  val x := (x.val : ℝ)
  fin x := x.isFinite = true
  u := 2⁻¹ ^ 24
  tiny := 2⁻¹ ^ 126
  u_nonneg := by positivity
  tiny_nonneg := by positivity
  add x y h := by
    refine ⟨(add_finite h).1, (add_finite h).2.1, ?_⟩
    have := add_err h
    have h2 : ((|(x + y).val - (x.val + y.val)| : ℚ) : ℝ) ≤ ((|x.val + y.val| / 2 ^ 24 : ℚ) : ℝ) := by
      exact_mod_cast this
    push_cast at h2
    refine h2.trans (le_of_eq ?_)
    ring
  sub x y h := by
    refine ⟨(sub_finite h).1, (sub_finite h).2.1, ?_⟩
    have := sub_err h
    have h2 : ((|(x - y).val - (x.val - y.val)| : ℚ) : ℝ) ≤ ((|x.val - y.val| / 2 ^ 24 : ℚ) : ℝ) := by
      exact_mod_cast this
    push_cast at h2
    refine h2.trans (le_of_eq ?_)
    ring
  mul x y h := by
    refine ⟨(mul_finite h).1, (mul_finite h).2.1, ?_⟩
    have := mul_err h
    have h2 : ((|(x * y).val - x.val * y.val| : ℚ) : ℝ) ≤ ((max minNormal |x.val * y.val| / 2 ^ 24 : ℚ) : ℝ) := by
      exact_mod_cast this
    rw [minNormal] at h2
    push_cast at h2
    refine h2.trans (le_of_eq ?_)
    rw [show (2 : ℝ) ^ 23 / 2 ^ 149 = 2⁻¹ ^ 126 by norm_num]
    ring
  neg x h := ⟨by simpa using h, by simp⟩
  zero := by
    have : (0 : F32).val = 0 := by decide +kernel
    rw [this]; simp
  one := by rw [F32.one_val]; simp
  two := by
    have : ((2 : ℕ) : F32).val = 2 := by decide +kernel
    rw [this]; simp

/-! ### arithmetic with any rounding function on the reals -/

/-- Reals with every operation followed by the rounding function `rnd`. -/
structure Rnd (rnd : ℝ → ℝ) where
  x : ℝ

namespace Rnd
variable {rnd : ℝ → ℝ}
noncomputable instance : Add (Rnd rnd) := ⟨fun a b => ⟨rnd (a.x + b.x)⟩⟩
noncomputable instance : Sub (Rnd rnd) := ⟨fun a b => ⟨rnd (a.x - b.x)⟩⟩
noncomputable instance : Mul (Rnd rnd) := ⟨fun a b => ⟨rnd (a.x * b.x)⟩⟩
noncomputable instance : Neg (Rnd rnd) := ⟨fun a => ⟨-a.x⟩⟩
noncomputable instance : Zero (Rnd rnd) := ⟨⟨0⟩⟩
noncomputable instance : One (Rnd rnd) := ⟨⟨1⟩⟩
noncomputable instance : NatCast (Rnd rnd) := ⟨fun n => ⟨n⟩⟩

/-- Unbounded exponent range: no overflow, no underflow. -/
noncomputable def rounded {u : ℝ} (hu : 0 ≤ u) (h : ∀ x, |rnd x - x| ≤ u * |x|) : Rounded (Rnd rnd) where
  val := Rnd.x
  fin _ := True
  u := u
  tiny := 0
  u_nonneg := hu
  tiny_nonneg := le_rfl
  add x y _ := ⟨trivial, trivial, h _⟩
  sub x y _ := ⟨trivial, trivial, h _⟩
  mul x y _ := ⟨trivial, trivial, by rw [max_eq_right (abs_nonneg _)]; exact h _⟩
  neg _ _ := ⟨trivial, rfl⟩
  zero := rfl
  one := rfl
  two := by show ((2 : ℕ) : ℝ) = 2; norm_num
end Rnd

/-! ### the error calculus -/

section Near
variable {F : Type} [Add F] [Sub F] [Mul F] [Neg F] [Zero F] [One F] [NatCast F] (R : Rounded F)

/-- `γ k = (1 + u)^k - 1`, about `k u`. -/
def Rounded.γ (k : ℕ) : ℝ := (1 + R.u) ^ k - 1

/-- `x` approximates `E` with `k` roundings on terms of magnitude `M`. -/
structure Near (k : ℕ) (x : F) (E M : ℝ) : Prop where
  mag : |E| ≤ M
  err : R.fin x → |R.val x - E| ≤ R.γ k * M

variable {R}

theorem Rounded.one_le (k : ℕ) : 1 ≤ (1 + R.u) ^ k := one_le_pow₀ (by linarith [R.u_nonneg])
theorem Rounded.γ_nonneg (k : ℕ) : 0 ≤ R.γ k := by have := R.one_le k; unfold Rounded.γ; linarith
theorem Rounded.γ_mono {k l : ℕ} (h : k ≤ l) : R.γ k ≤ R.γ l := by
  unfold Rounded.γ
  have := pow_le_pow_right₀ (by linarith [R.u_nonneg] : 1 ≤ 1 + R.u) h
  linarith
theorem Rounded.γ_succ (k : ℕ) : R.γ (k + 1) = R.γ k + R.u * (1 + R.γ k) := by
  unfold Rounded.γ; ring
theorem Rounded.γ_add (k l : ℕ) : R.γ (k + l) = R.γ k + R.γ l + R.γ k * R.γ l := by
  unfold Rounded.γ; rw [pow_add]; ring
theorem Rounded.γ_zero : R.γ 0 = 0 := by simp [Rounded.γ]

/-- `γ k` is at most `k u / (1 - k u)`, so for binary32 it is `k * 2^-24` up to a relative `k * 2^-24`. -/
theorem Rounded.γ_le {k : ℕ} (h : k * R.u < 1) : R.γ k ≤ k * R.u / (1 - k * R.u) := by
  have hb : (1 + R.u) ^ k * (1 - k * R.u) ≤ 1 := by
    clear h
    induction k with
    | zero => simp
    | succ k ih =>
      by_cases hk : (1 : ℝ) - k * R.u ≤ 0
      · have : (1 : ℝ) - (k + 1 : ℕ) * R.u ≤ 0 := by push_cast; nlinarith [R.u_nonneg]
        nlinarith [R.one_le (k + 1)]
      · push Not at hk
        have h1 : (1 + R.u) * (1 - (k + 1) * R.u) ≤ 1 - k * R.u := by
          nlinarith [R.u_nonneg, mul_nonneg R.u_nonneg R.u_nonneg, mul_nonneg (mul_nonneg (Nat.cast_nonneg (α := ℝ) k) R.u_nonneg) R.u_nonneg]
        have h2 : 0 ≤ (1 + R.u) ^ k := by linarith [R.one_le k]
        calc (1 + R.u) ^ (k + 1) * (1 - ((k + 1 : ℕ) : ℝ) * R.u)
            = (1 + R.u) ^ k * ((1 + R.u) * (1 - (k + 1) * R.u)) := by push_cast; ring
          _ ≤ (1 + R.u) ^ k * (1 - k * R.u) := by gcongr
          _ ≤ 1 := ih
  rw [le_div_iff₀ (by linarith)]
  unfold Rounded.γ
  linarith

theorem Near.nonneg {k : ℕ} {x : F} {E M : ℝ} (h : Near R k x E M) : 0 ≤ M := (abs_nonneg E).trans h.mag

theorem Near.le {k k' : ℕ} {x : F} {E E' M M' : ℝ} (h : Near R k x E M) (hE : E = E') (hM : M ≤ M')
    (hk : k ≤ k') : Near R k' x E' M' where
  mag := hE ▸ h.mag.trans hM
  err hf := hE ▸ (h.err hf).trans (mul_le_mul (R.γ_mono hk) hM h.nonneg (R.γ_nonneg _))

theorem Near.val_le {k : ℕ} {x : F} {E M : ℝ} (h : Near R k x E M) (hf : R.fin x) :
    |R.val x| ≤ (1 + R.γ k) * M := by
  have h1 := h.err hf
  have h2 := abs_add_le (R.val x - E) E
  rw [sub_add_cancel] at h2
  linarith [h.mag]

/-- An input. -/
theorem Near.input (x : F) : Near R 0 x (R.val x) |R.val x| where
  mag := le_rfl
  err _ := by simp [R.γ_zero]

theorem Near.zero : Near R 0 (0 : F) 0 0 where
  mag := by simp
  err _ := by simp [R.zero]

theorem Near.one : Near R 0 (1 : F) 1 1 where
  mag := by simp
  err _ := by simp [R.one, R.γ_zero]

theorem Near.two : Near R 0 (2 : F) 2 2 where
  mag := by simp
  err _ := by
    have h : R.val (2 : F) = 2 := R.two
    simp [h, R.γ_zero]

theorem Near.neg {k : ℕ} {x : F} {E M : ℝ} (h : Near R k x E M) : Near R k (-x) (-E) M where
  mag := by rw [abs_neg]; exact h.mag
  err hf := by
    obtain ⟨h1, h2⟩ := R.neg x hf
    rw [h2, show -R.val x - -E = -(R.val x - E) by ring, abs_neg]
    exact h.err h1

private theorem add_aux {k l : ℕ} {v vx vy E E' M M' : ℝ} (hx : |vx - E| ≤ R.γ k * M)
    (hy : |vy - E'| ≤ R.γ l * M') (hE : |E| ≤ M) (hE' : |E'| ≤ M') (hv : |v - (vx + vy)| ≤ R.u * |vx + vy|) :
    |v - (E + E')| ≤ R.γ (max k l + 1) * (M + M') := by
  have hM : 0 ≤ M := (abs_nonneg E).trans hE
  have hM' : 0 ≤ M' := (abs_nonneg E').trans hE'
  have hk : R.γ k * M ≤ R.γ (max k l) * M := mul_le_mul_of_nonneg_right (R.γ_mono (le_max_left _ _)) hM
  have hl : R.γ l * M' ≤ R.γ (max k l) * M' := mul_le_mul_of_nonneg_right (R.γ_mono (le_max_right _ _)) hM'
  have h1 : |(vx + vy) - (E + E')| ≤ R.γ (max k l) * (M + M') := by
    have := abs_add_le (vx - E) (vy - E')
    rw [show vx - E + (vy - E') = (vx + vy) - (E + E') by ring] at this
    linarith
  have h2 : |vx + vy| ≤ (1 + R.γ (max k l)) * (M + M') := by
    have := abs_add_le ((vx + vy) - (E + E')) (E + E')
    rw [sub_add_cancel] at this
    have := abs_add_le E E'
    linarith
  have h3 := abs_add_le (v - (vx + vy)) ((vx + vy) - (E + E'))
  rw [show v - (vx + vy) + ((vx + vy) - (E + E')) = v - (E + E') by ring] at h3
  have h4 : R.u * |vx + vy| ≤ R.u * ((1 + R.γ (max k l)) * (M + M')) :=
    mul_le_mul_of_nonneg_left h2 R.u_nonneg
  rw [R.γ_succ]
  linarith

theorem Near.add {k l : ℕ} {x y : F} {E E' M M' : ℝ} (hx : Near R k x E M) (hy : Near R l y E' M') :
    Near R (max k l + 1) (x + y) (E + E') (M + M') where
  mag := (abs_add_le E E').trans (add_le_add hx.mag hy.mag)
  err hf := by
    obtain ⟨f1, f2, h⟩ := R.add x y hf
    exact add_aux (hx.err f1) (hy.err f2) hx.mag hy.mag h

theorem Near.sub {k l : ℕ} {x y : F} {E E' M M' : ℝ} (hx : Near R k x E M) (hy : Near R l y E' M') :
    Near R (max k l + 1) (x - y) (E - E') (M + M') where
  mag := (abs_sub E E').trans (add_le_add hx.mag hy.mag)
  err hf := by
    obtain ⟨f1, f2, h⟩ := R.sub x y hf
    rw [sub_eq_add_neg E]
    refine add_aux (vy := -R.val y) (hx.err f1) ?_ hx.mag (by rw [abs_neg]; exact hy.mag) ?_
    · rw [show -R.val y - -E' = -(R.val y - E') by ring, abs_neg]; exact hy.err f2
    · rw [← sub_eq_add_neg]; exact h

theorem Near.mul {k l : ℕ} {x y : F} {E E' M M' : ℝ} (hx : Near R k x E M) (hy : Near R l y E' M') :
    Near R (k + l + 1) (x * y) (E * E') (M * M' + R.tiny) where
  mag := by
    rw [abs_mul]
    have := mul_le_mul hx.mag hy.mag (abs_nonneg _) hx.nonneg
    linarith [R.tiny_nonneg]
  err hf := by
    obtain ⟨f1, f2, h⟩ := R.mul x y hf
    have hM := hx.nonneg
    have hM' := hy.nonneg
    have a1 := hx.val_le f1
    have a2 := hx.err f1
    have a3 := hy.err f2
    have gk := R.γ_nonneg k
    have gl := R.γ_nonneg l
    have h1 : |R.val x * R.val y - E * E'| ≤ R.γ (k + l) * (M * M') := by
      have e : R.val x * R.val y - E * E' = R.val x * (R.val y - E') + E' * (R.val x - E) := by ring
      rw [e]
      refine (abs_add_le _ _).trans ?_
      rw [abs_mul, abs_mul]
      have b1 : |R.val x| * |R.val y - E'| ≤ ((1 + R.γ k) * M) * (R.γ l * M') :=
        mul_le_mul a1 a3 (abs_nonneg _) (by positivity)
      have b2 : |E'| * |R.val x - E| ≤ M' * (R.γ k * M) :=
        mul_le_mul hy.mag a2 (abs_nonneg _) hM'
      rw [R.γ_add]
      linarith
    have h2 : |R.val x * R.val y| ≤ (1 + R.γ (k + l)) * (M * M') := by
      have := abs_add_le (R.val x * R.val y - E * E') (E * E')
      rw [sub_add_cancel] at this
      have h3 : |E * E'| ≤ M * M' := by rw [abs_mul]; exact mul_le_mul hx.mag hy.mag (abs_nonneg _) hM
      linarith
    have h4 := abs_add_le (R.val (x * y) - R.val x * R.val y) (R.val x * R.val y - E * E')
    rw [show R.val (x * y) - R.val x * R.val y + (R.val x * R.val y - E * E') = R.val (x * y) - E * E' by ring] at h4
    have gkl := R.γ_nonneg (k + l)
    have h5 : max R.tiny |R.val x * R.val y| ≤ R.tiny + (1 + R.γ (k + l)) * (M * M') := by
      apply max_le
      · have : 0 ≤ (1 + R.γ (k + l)) * (M * M') := by positivity
        linarith
      · linarith [R.tiny_nonneg]
    have h6 := h.trans (mul_le_mul_of_nonneg_left h5 R.u_nonneg)
    rw [R.γ_succ]
    have h7 : 0 ≤ R.γ (k + l) * R.tiny := mul_nonneg gkl R.tiny_nonneg
    have h8 : 0 ≤ R.u * R.γ (k + l) * R.tiny := mul_nonneg (mul_nonneg R.u_nonneg gkl) R.tiny_nonneg
    linarith

end Near

end Klein
