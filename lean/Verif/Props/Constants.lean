import Verif.Api.Util
import Verif.Float.Sqrt
import Mathlib.Analysis.Real.Pi.Bounds
import Mathlib.Analysis.Complex.ExponentialBounds

/-!
# C89: the constants of util.hpp
-/

namespace Klein

open F32 Util

/-- A float between the midpoints to its neighbours is the closest one. -/
theorem closest {m : ℕ} (hm : m + 1 < infMag) {c : ℝ}
    (h1 : ((magVal m + magVal (m + 1) : ℚ) : ℝ) < 2 * c)
    (h2 : 2 * c < ((magVal (m + 1) + magVal (m + 2) : ℚ) : ℝ)) (y : F32) :
    |r (ofMag false (m + 1)) - c| < |r y - c| ∨ y = ofMag false (m + 1) := by
  have hmag : (ofMag false (m + 1)).mag.val = m + 1 := ofMag_mag (by unfold infMag at hm; omega)
  have hv : (ofMag false (m + 1)).val = magVal (m + 1) := by
    unfold val
    rw [hmag]; rfl
  have l1 : ((magVal m : ℚ) : ℝ) < ((magVal (m + 1) : ℚ) : ℝ) := by exact_mod_cast magVal_lt_succ m
  have l2 : ((magVal (m + 1) : ℚ) : ℝ) < ((magVal (m + 2) : ℚ) : ℝ) := by exact_mod_cast magVal_lt_succ (m + 1)
  have l0 : (0 : ℝ) ≤ ((magVal m : ℚ) : ℝ) := by exact_mod_cast magVal_nonneg m
  push_cast at h1 h2
  have key : |r (ofMag false (m + 1)) - c| < c - ((magVal m : ℚ) : ℝ) ∧
      |r (ofMag false (m + 1)) - c| < ((magVal (m + 2) : ℚ) : ℝ) - c := by
    unfold r
    rw [hv]
    constructor <;> rw [abs_lt] <;> constructor <;> linarith
  have below : ((y.val : ℚ) : ℝ) ≤ ((magVal m : ℚ) : ℝ) → |r (ofMag false (m + 1)) - c| < |r y - c| := by
    intro h
    have : |r y - c| = c - r y := by
      rw [abs_sub_comm, abs_of_nonneg]
      unfold r; linarith
    rw [this]
    refine key.1.trans_le ?_
    unfold r; linarith
  have above : ((magVal (m + 2) : ℚ) : ℝ) ≤ ((y.val : ℚ) : ℝ) → |r (ofMag false (m + 1)) - c| < |r y - c| := by
    intro h
    have : |r y - c| = r y - c := by
      rw [abs_of_nonneg]
      unfold r; linarith
    rw [this]
    refine key.2.trans_le ?_
    unfold r; linarith
  cases hs : y.sign with
  | true =>
    left; apply below
    have : y.val = -magVal y.mag := by simp [val, hs]
    rw [this]
    have := magVal_nonneg y.mag
    have : ((-magVal y.mag : ℚ) : ℝ) ≤ 0 := by exact_mod_cast neg_nonpos.2 this
    linarith
  | false =>
    have hy : y.val = magVal y.mag := by simp [val, hs]
    rcases lt_trichotomy y.mag.val (m + 1) with h | h | h
    · left; apply below
      rw [hy]
      exact_mod_cast magVal_strictMono.monotone (by omega)
    · right
      have : y = ⟨y.sign, y.mag⟩ := rfl
      rw [this, hs]
      unfold ofMag
      congr 1
      ext
      rw [h]
      exact hmag.symm
    · left; apply above
      rw [hy]
      exact_mod_cast magVal_strictMono.monotone (by omega)

/-- The literals are correct in every digit that can matter (to `1e-18`). -/
theorem C89_literals : |(piLit : ℝ) - Real.pi| < 1 / 10 ^ 19 ∧ |(pi2Lit : ℝ) - Real.pi / 2| < 1 / 10 ^ 19 ∧
    |(pi4Lit : ℝ) - Real.pi / 4| < 1 / 10 ^ 19 ∧ |(tauLit : ℝ) - 2 * Real.pi| < 1 / 10 ^ 19 ∧
    |(eLit : ℝ) - Real.exp 1| < 1 / 10 ^ 19 ∧ |(sqrt2Lit : ℝ) - √2| < 1 / 10 ^ 35 ∧
    |(sqrt22Lit : ℝ) - √2 / 2| < 1 / 10 ^ 35 := by
  have p1 := Real.pi_gt_d20
  have p2 := Real.pi_lt_d20
  have e1 := abs_le.1 Real.exp_one_near_20
  have s1 : (1.4142135623730950488016887242096980785 : ℝ) < √2 := by
    rw [Real.lt_sqrt (by norm_num)]; norm_num
  have s2 : √2 < (1.4142135623730950488016887242096980786 : ℝ) := by
    rw [Real.sqrt_lt' (by norm_num)]; norm_num
  refine ⟨?_, ?_, ?_, ?_, ?_, ?_, ?_⟩ <;>
    simp only [piLit, pi2Lit, pi4Lit, tauLit, eLit, sqrt2Lit, sqrt22Lit] <;> push_cast <;> rw [abs_lt] <;>
    constructor
  all_goals first | (norm_num at p1 p2 ⊢; linarith) | skip
  all_goals first | (norm_num at e1 ⊢; linarith [e1.1, e1.2]) | skip
  all_goals (norm_num at s1 s2 ⊢; linarith)

/-- The bits of the constants, for each precision of `long double`. -/
theorem C89_bits : ∀ p ∈ precisions, constant p piLit = ofMag false 0x40490FDB ∧
    constant p pi2Lit = ofMag false 0x3FC90FDB ∧ constant p pi4Lit = ofMag false 0x3F490FDB ∧
    constant p tauLit = ofMag false 0x40C90FDB ∧ constant p eLit = ofMag false 0x402DF854 ∧
    constant p sqrt2Lit = ofMag false 0x3FB504F3 ∧ constant p sqrt22Lit = ofMag false 0x3F3504F3 := by
  decide +kernel

/-- C89: each constant is the float closest to the real number it stands for, on every platform: no
other float is as close.  (`r` of an infinity or a NaN is a number beyond the largest float.) -/
theorem C89_closest (p : ℤ) (hp : p ∈ precisions) (y : F32) :
    (|r (constant p piLit) - Real.pi| < |r y - Real.pi| ∨ y = constant p piLit) ∧
    (|r (constant p pi2Lit) - Real.pi / 2| < |r y - Real.pi / 2| ∨ y = constant p pi2Lit) ∧
    (|r (constant p pi4Lit) - Real.pi / 4| < |r y - Real.pi / 4| ∨ y = constant p pi4Lit) ∧
    (|r (constant p tauLit) - 2 * Real.pi| < |r y - 2 * Real.pi| ∨ y = constant p tauLit) ∧
    (|r (constant p eLit) - Real.exp 1| < |r y - Real.exp 1| ∨ y = constant p eLit) ∧
    (|r (constant p sqrt2Lit) - √2| < |r y - √2| ∨ y = constant p sqrt2Lit) ∧
    (|r (constant p sqrt22Lit) - √2 / 2| < |r y - √2 / 2| ∨ y = constant p sqrt22Lit) := by
  obtain ⟨b1, b2, b3, b4, b5, b6, b7⟩ := C89_bits p hp
  rw [b1, b2, b3, b4, b5, b6, b7]
  have p1 := Real.pi_gt_d20
  have p2 := Real.pi_lt_d20
  have e1 := abs_le.1 Real.exp_one_near_20
  have s1 : (1.41421356237309504880 : ℝ) < √2 := by
    rw [Real.lt_sqrt (by norm_num)]; norm_num
  have s2 : √2 < (1.41421356237309504881 : ℝ) := by
    rw [Real.sqrt_lt' (by norm_num)]; norm_num
  have v : ∀ m : ℕ, ∀ a b c : ℚ, magVal m = a → magVal (m + 1) = b → magVal (m + 2) = c → ∀ x : ℝ,
      m + 1 < infMag → ((a + b : ℚ) : ℝ) < 2 * x → 2 * x < ((b + c : ℚ) : ℝ) →
      |r (ofMag false (m + 1)) - x| < |r y - x| ∨ y = ofMag false (m + 1) := by
    intro m a b c ha hb hc x hm h1 h2
    exact closest hm (by rw [ha, hb]; exact h1) (by rw [hb, hc]; exact h2) y
  refine ⟨?_, ?_, ?_, ?_, ?_, ?_, ?_⟩
  · refine v 0x40490FDA (13176794 / 2 ^ 22) (13176795 / 2 ^ 22) (13176796 / 2 ^ 22) (by decide +kernel)
      (by decide +kernel) (by decide +kernel) _ (by decide) ?_ ?_ <;> push_cast <;> norm_num at p1 p2 ⊢ <;> linarith
  · refine v 0x3FC90FDA (13176794 / 2 ^ 23) (13176795 / 2 ^ 23) (13176796 / 2 ^ 23) (by decide +kernel)
      (by decide +kernel) (by decide +kernel) _ (by decide) ?_ ?_ <;> push_cast <;> norm_num at p1 p2 ⊢ <;> linarith
  · refine v 0x3F490FDA (13176794 / 2 ^ 24) (13176795 / 2 ^ 24) (13176796 / 2 ^ 24) (by decide +kernel)
      (by decide +kernel) (by decide +kernel) _ (by decide) ?_ ?_ <;> push_cast <;> norm_num at p1 p2 ⊢ <;> linarith
  · refine v 0x40C90FDA (13176794 / 2 ^ 21) (13176795 / 2 ^ 21) (13176796 / 2 ^ 21) (by decide +kernel)
      (by decide +kernel) (by decide +kernel) _ (by decide) ?_ ?_ <;> push_cast <;> norm_num at p1 p2 ⊢ <;> linarith
  · refine v 0x402DF853 (11401299 / 2 ^ 22) (11401300 / 2 ^ 22) (11401301 / 2 ^ 22) (by decide +kernel)
      (by decide +kernel) (by decide +kernel) _ (by decide) ?_ ?_ <;> push_cast <;> norm_num at e1 ⊢ <;> linarith [e1.1, e1.2]
  · refine v 0x3FB504F2 (11863282 / 2 ^ 23) (11863283 / 2 ^ 23) (11863284 / 2 ^ 23) (by decide +kernel)
      (by decide +kernel) (by decide +kernel) _ (by decide) ?_ ?_ <;> push_cast <;> norm_num at s1 s2 ⊢ <;> linarith
  · refine v 0x3F3504F2 (11863282 / 2 ^ 24) (11863283 / 2 ^ 24) (11863284 / 2 ^ 24) (by decide +kernel)
      (by decide +kernel) (by decide +kernel) _ (by decide) ?_ ?_ <;> push_cast <;> norm_num at s1 s2 ⊢ <;> linarith

/-- C89: the relations between the constants hold exactly in binary32. -/
theorem C89_relations (p : ℤ) (hp : p ∈ precisions) :
    2 * constant p pi4Lit = constant p pi2Lit ∧ 2 * constant p pi2Lit = constant p piLit ∧
    2 * constant p piLit = constant p tauLit ∧ constant p sqrt2Lit / 2 = constant p sqrt22Lit ∧
    F32.sqrt 2 = constant p sqrt2Lit := by
  obtain ⟨b1, b2, b3, b4, b5, b6, b7⟩ := C89_bits p hp
  rw [b1, b2, b3, b4, b6, b7]
  decide +kernel

/-- C89: the constant `pi` is above the number, and its sine is negative. -/
theorem C89_pi_above (p : ℤ) (hp : p ∈ precisions) : Real.pi < r (constant p piLit) ∧
    r (constant p piLit) < Real.pi + 1 / 10 ^ 7 ∧ Real.sin (r (constant p piLit)) < 0 := by
  rw [(C89_bits p hp).1]
  have hv : r (ofMag false 0x40490FDB) = 13176795 / 2 ^ 22 := by
    have : (ofMag false 0x40490FDB).val = 13176795 / 2 ^ 22 := by decide +kernel
    unfold r; rw [this]; push_cast; rfl
  have p1 := Real.pi_gt_d20
  have p2 := Real.pi_lt_d20
  have h1 : Real.pi < r (ofMag false 0x40490FDB) := by rw [hv]; norm_num at p2 ⊢; linarith
  have h2 : r (ofMag false 0x40490FDB) < Real.pi + 1 / 10 ^ 7 := by rw [hv]; norm_num at p1 ⊢; linarith
  refine ⟨h1, h2, ?_⟩
  have : Real.sin (r (ofMag false 0x40490FDB)) = -Real.sin (r (ofMag false 0x40490FDB) - Real.pi) := by
    rw [Real.sin_sub_pi, neg_neg]
  rw [this, neg_lt_zero]
  exact Real.sin_pos_of_pos_of_lt_pi (by linarith) (by linarith [Real.pi_gt_three])

/-- One bit more or less is not the closest. -/
example : constant 64 piLit ≠ ofMag false 0x40490FDA ∧ constant 64 sqrt2Lit * constant 64 sqrt2Lit ≠ 2 := by
  decide +kernel

end Klein
