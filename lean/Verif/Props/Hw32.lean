import Verif.Props.Normalize32
import Verif.Props.RepoTests

/-!
# The correctly rounded estimates meet the contract

`hw32` (used to run the model on the repository's tests, C71) satisfies `Hw.Contract32`, so the accuracy
theorems C70, C78 and C79 apply to it.  It also refutes point.hpp:123, "`w` is exactly 1 when normalized".
-/

namespace Klein

open F32

namespace F32

theorem isZero_of_val {y : F32} (h : r y ≠ 0) : y.isZero = false := by
  rw [Bool.eq_false_iff]
  intro hz
  apply h
  have hm : y.mag.val = 0 := by simpa [isZero] using hz
  have e : |y.val| = 0 := by rw [abs_val, hm]; decide +kernel
  rw [r, abs_eq_zero.1 e, Rat.cast_zero]

/-- A quotient that does not overflow. -/
theorem div_ok {x y : F32} (hx : x.isFinite = true) (hy : y.isFinite = true) (h0 : r y ≠ 0)
    (h : |r x / r y| ≤ 2 ^ 127) :
    (x / y).isFinite = true ∧ |r (x / y) - r x / r y| ≤ u * max (1 / 2 ^ 126) |r x / r y| := by
  have hq : |x.val / y.val| ≤ 2 ^ 127 := by
    have : ((|x.val / y.val| : ℚ) : ℝ) ≤ ((2 ^ 127 : ℚ) : ℝ) := by push_cast; exact h
    exact_mod_cast this
  have e := div_round hx hy (isZero_of_val h0)
  have hf : (x / y).isFinite = true := by
    rw [e]; exact (round_le_two_pow le_rfl hq).1
  refine ⟨hf, ?_⟩
  rw [e] at hf ⊢
  have he := round_err hf
  have : ((|(round (x.sign != y.sign) (x.val / y.val)).val - x.val / y.val| : ℚ) : ℝ) ≤
    ((max minNormal |x.val / y.val| / 2 ^ 24 : ℚ) : ℝ) := by exact_mod_cast he
  push_cast at this
  refine this.trans (le_of_eq ?_)
  rw [u, minNormal]
  push_cast
  have e2 : (2 ^ 23 / 2 ^ 149 : ℝ) = 1 / 2 ^ 126 := by norm_num
  rw [e2, div_eq_inv_mul, one_div (2 ^ 24)]
  rfl

end F32

/-- C70: the correctly rounded estimates meet the contract. -/
theorem C70_hw32_contract : hw32.Contract32 where
  rcp a ha h1 h2 := by
    have h0 : 0 < |r a| := lt_of_lt_of_le (by positivity) h1
    have hne : r a ≠ 0 := abs_pos.1 h0
    have hq : |r 1 / r a| ≤ 2 ^ 100 := by
      rw [r_one, abs_div, abs_one, div_le_iff₀ h0]
      refine le_trans ?_ (mul_le_mul_of_nonneg_left h1 (by positivity))
      norm_num
    have hl : 1 / 2 ^ 126 ≤ |r 1 / r a| := by
      rw [r_one, abs_div, abs_one, div_le_div_iff₀ (by positivity) h0]
      refine le_trans (mul_le_mul_of_nonneg_left h2 (by norm_num)) ?_
      norm_num
    obtain ⟨hf, he⟩ := div_ok (x := 1) (by decide +kernel) ha hne (hq.trans (by norm_num))
    refine ⟨hf, ?_⟩
    rw [max_eq_right hl] at he
    have e : r (1 / a) * r a - 1 = (r (1 / a) - r 1 / r a) * r a := by
      rw [r_one]; field_simp
    show |r (1 / a) * r a - 1| ≤ _
    rw [e, abs_mul]
    calc _ ≤ u * |r 1 / r a| * |r a| := by gcongr
      _ = u := by rw [r_one, abs_div, abs_one]; field_simp
      _ ≤ _ := by unfold u; norm_num
  rsqrt a ha h1 h2 := by
    have h0 : 0 < r a := lt_of_lt_of_le (by positivity) h1
    obtain ⟨hsf, hse⟩ := sqrt_err ha h0
    have hs1 : 1 / 2 ^ 50 ≤ √(r a) := by
      refine Real.le_sqrt_of_sq_le (le_trans (le_of_eq ?_) h1); norm_num
    have hs2 : √(r a) ≤ 2 ^ 50 := by
      refine Real.sqrt_le_iff.2 ⟨by positivity, h2.trans (le_of_eq ?_)⟩; norm_num
    have hs0 : 0 < √(r a) := Real.sqrt_pos.2 h0
    have hb : |r (F32.sqrt a) - √(r a)| ≤ 1 / 2 ^ 23 * √(r a) := by
      refine hse.trans (mul_le_mul_of_nonneg_right ?_ hs0.le)
      unfold u; norm_num
    obtain ⟨s, es⟩ : ∃ s, s = F32.sqrt a := ⟨_, rfl⟩
    show (1 / F32.sqrt a : F32).isFinite = true ∧ |r (1 / F32.sqrt a) * √(r a) - 1| ≤ _
    rw [← es] at hsf hb ⊢
    generalize √(r a) = t at *
    rw [abs_le] at hb
    have p1 : (1 - 1 / 2 ^ 23) * t ≤ r s := by linarith [hb.1]
    have p2 : r s ≤ (1 + 1 / 2 ^ 23) * t := by linarith [hb.2]
    have ps : 0 < r s := lt_of_lt_of_le (by positivity) p1
    have q1 : 1 / 2 ^ 51 ≤ r s := by
      refine le_trans ?_ p1
      refine le_trans ?_ (mul_le_mul_of_nonneg_left hs1 (by norm_num))
      norm_num
    have q2 : r s ≤ 2 ^ 51 := by
      refine p2.trans ?_
      refine (mul_le_mul_of_nonneg_left hs2 (by norm_num)).trans ?_
      norm_num
    have hq : |r 1 / r s| ≤ 2 ^ 51 := by
      rw [r_one, abs_div, abs_one, abs_of_pos ps, div_le_iff₀ ps]
      refine le_trans ?_ (mul_le_mul_of_nonneg_left q1 (by positivity))
      norm_num
    have hl : 1 / 2 ^ 126 ≤ |r 1 / r s| := by
      rw [r_one, abs_div, abs_one, abs_of_pos ps, div_le_div_iff₀ (by positivity) ps]
      refine le_trans (mul_le_mul_of_nonneg_left q2 (by norm_num)) ?_
      norm_num
    obtain ⟨hf, he⟩ := div_ok (x := 1) (by decide +kernel) hsf ps.ne' (hq.trans (by norm_num))
    refine ⟨hf, ?_⟩
    rw [max_eq_right hl, r_one, abs_of_pos (div_pos one_pos ps)] at he
    generalize r (1 / s) = y at *
    generalize r s = σ at *
    -- `y = (1 + e) / σ` and `t = (1 + e') σ`
    have k1 : |y * σ - 1| ≤ u := by
      have e : y * σ - 1 = (y - 1 / σ) * σ := by field_simp
      rw [e, abs_mul, abs_of_pos ps]
      calc _ ≤ u * (1 / σ) * σ := by gcongr
        _ = u := by field_simp
    have k2 : y ≤ 2 / σ := by
      have := (abs_le.1 k1).2
      rw [le_div_iff₀ ps]
      unfold u at this; norm_num at this ⊢; linarith
    have k3 : 0 ≤ y := by
      have := (abs_le.1 k1).1
      by_contra hn
      push Not at hn
      have : y * σ < 0 := mul_neg_of_neg_of_pos hn ps
      unfold u at *; norm_num at *; linarith
    have e : y * t - 1 = (y * σ - 1) + y * (t - σ) := by ring
    have k4 : |y * (t - σ)| ≤ 1 / 2 ^ 21 := by
      rw [abs_mul, abs_of_nonneg k3]
      have hts : |t - σ| ≤ 1 / 2 ^ 22 * σ := by
        rw [abs_le]
        have hpos := hs0
        clear * - p1 p2 hpos
        norm_num at *
        constructor <;> linarith
      calc y * |t - σ| ≤ 2 / σ * (1 / 2 ^ 22 * σ) := by gcongr
        _ = 1 / 2 ^ 21 := by field_simp
    rw [e]
    refine (abs_add_le _ _).trans ?_
    have : u ≤ 1 / 2 ^ 24 := by unfold u; norm_num
    clear * - k1 k4 this
    norm_num at *
    linarith

/-- point.hpp:123 says that "the homogeneous coordinate `w` is exactly 1 when normalized".  With the
correctly rounded estimate and one Newton step, a point of weight 41 is normalised to weight
`1 - 2^-24`. -/
theorem C70_point_w_fails :
    hw32.Contract32 ∧
    ((⟨⟨41, 1, 2, 3⟩⟩ : Point F32).normalize hw32).w = ofMag false 0x3F7FFFFF ∧
    ((⟨⟨41, 1, 2, 3⟩⟩ : Point F32).normalize hw32).w ≠ 1 := by
  refine ⟨C70_hw32_contract, ?_, ?_⟩ <;> decide +kernel

end Klein
