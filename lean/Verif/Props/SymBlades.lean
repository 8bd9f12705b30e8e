import Verif.Sym.BladeLemmas
import Mathlib.LinearAlgebra.CliffordAlgebra.Contraction
import Mathlib.Data.Rat.Defs
import Mathlib.Tactic.NormNum

/-!
# C55, C56: the blade operations of the symbolic engine

Against Mathlib's Clifford algebra of the diagonal form of signature `(p, q, r)` in the ordering of
the source (degenerate generators first, then positive, then negative), for every signature.
-/

namespace Klein.Sym

open Spec

variable {R : Type*} [CommRing R] {A : Type*} [Ring A] [Algebra R A]

/-- ga.hpp:13-16: the squares of the generators. -/
def metric (R : Type*) [CommRing R] (a : Alg) (i : ℕ) : R :=
  if i < a.r then 0 else if i < a.p + a.r then 1 else -1

/-- The Clifford algebra of signature `(p, q, r)`. -/
abbrev Cl (R : Type*) [CommRing R] (a : Alg) : Type _ :=
  CliffordAlgebra (diag fun i : Fin a.dim => metric R a i)

/-- Its basis blade with bit field `S`. -/
noncomputable def B (R : Type*) [CommRing R] (a : Alg) (S : ℕ) : Cl R a :=
  blade (gen fun i : Fin a.dim => metric R a i) a.dim S

/-- What an encoded result denotes. -/
noncomputable def dec (R : Type*) [CommRing R] (a : Alg) (z : ℤ) : Cl R a :=
  if z = 0 then 0 else if z < 0 then -B R a (z.natAbs - 1) else B R a (z.natAbs - 1)

/-! ### machine arithmetic -/

theorem land_bit (x k : ℕ) : (x &&& 2 ^ k > 0) ↔ x.testBit k = true := by
  rw [Nat.and_two_pow]
  cases x.testBit k <;> simp

theorem land_one (x : ℕ) : (x &&& 1 > 0) ↔ x % 2 = 1 := by
  rw [Nat.and_one_is_mod]; omega

theorem pop_mod (m k x : ℕ) (h : k ≤ m) : pop m (x % 2 ^ k) = pop k x := by
  induction m with
  | zero => obtain rfl : k = 0 := by omega
            rfl
  | succ m ih =>
    rcases Nat.lt_or_ge m k with hk | hk
    · obtain rfl : k = m + 1 := by omega
      apply pop_congr
      intro i hi
      rw [Nat.testBit_mod_two_pow]; simp [hi]
    · rw [pop_succ, ih hk, Nat.testBit_mod_two_pow]
      simp [show ¬ m < k by omega]

theorem popcnt_below (x k : ℕ) (h : k ≤ 32) : popcnt (x &&& (2 ^ k - 1)) = pop k x := by
  rw [Nat.and_two_pow_sub_one_eq_mod, popcnt, pop_mod _ _ _ h]

/-- `±1`. -/
def sgn (R : Type*) [CommRing R] (neg : Bool) : R := if neg then -1 else 1

theorem pow_neg_one (x : ℕ) (neg : Bool) :
    sgn R (if x &&& 1 > 0 then !neg else neg) = sgn R neg * (-1) ^ x := by
  rcases Nat.even_or_odd x with h | h
  · rw [if_neg (by rw [land_one]; have := Nat.even_iff.1 h; omega), h.neg_one_pow, mul_one]
  · rw [if_pos ((land_one x).2 (Nat.odd_iff.1 h)), h.neg_one_pow]
    cases neg <;> simp [sgn]

theorem ret_eq (neg : Bool) (u : ℕ) (h : u + 1 < 2 ^ 31) :
    ret neg u = if neg then -((u : ℤ) + 1) else (u : ℤ) + 1 := by
  cases neg
  · simp only [ret, toInt32, Bool.false_eq_true, if_false, one_mul]
    rw [Nat.mod_eq_of_lt (by omega), if_pos h]; push_cast; rfl
  · simp only [ret, toInt32, if_true]
    have : (2 ^ 32 - 1) * (u + 1) % 2 ^ 32 = 2 ^ 32 - (u + 1) := by omega
    rw [this, if_neg (by omega)]
    omega

/-- The loop of `mul` accumulates the coefficient. -/
theorem mulLoop_spec (a : Alg) (L T : ℕ) :
    ∀ k ≤ 8, ∀ neg,
      match a.mulLoop L T k neg with
      | none => coef (metric R a) L T k = 0
      | some s => sgn R neg * coef (metric R a) L T k = sgn R s
  | 0, _, neg => by simp [Alg.mulLoop, coef]
  | k + 1, hk, neg => by
    have h1 : k % 256 = k := by omega
    have h2 : 2 ^ k % 256 = 2 ^ k :=
      Nat.mod_eq_of_lt (lt_of_le_of_lt (Nat.pow_le_pow_right (by norm_num) (show k ≤ 7 by omega))
        (by norm_num))
    have h3 := popcnt_below T k (by omega)
    have ih := fun neg => mulLoop_spec a L T k (by omega) neg
    simp only [Alg.mulLoop, h1, h2, h3, coef, decide_eq_true_eq, land_bit]
    by_cases hL : L.testBit k = true
    · simp only [hL, if_true]
      by_cases hT : T.testBit k = true
      · simp only [hT, if_true]
        by_cases hr : a.r > 0 ∧ k < a.r
        · rw [if_pos hr]
          simp [metric, hr.2]
        · rw [if_neg hr]
          have hr' : ¬ k < a.r := fun h => hr ⟨by omega, h⟩
          by_cases hp : k ≥ a.p + a.r
          · rw [if_pos hp]
            have hm : metric R a k = -1 := by simp [metric, hr', show ¬ k < a.p + a.r by omega]
            have := ih (!(if pop k T &&& 1 > 0 then !neg else neg))
            revert this
            cases a.mulLoop L T k (!(if pop k T &&& 1 > 0 then !neg else neg)) with
            | none => intro h; simp only at h ⊢; rw [h, mul_zero]
            | some s =>
              intro h; simp only at h ⊢; rw [← h, hm]
              have : ∀ b, sgn R (!b) = -sgn R b := by intro b; cases b <;> simp [sgn]
              rw [this, pow_neg_one]; ring
          · rw [if_neg hp]
            have hm : metric R a k = 1 := by simp [metric, hr', show k < a.p + a.r by omega]
            have := ih (if pop k T &&& 1 > 0 then !neg else neg)
            revert this
            cases a.mulLoop L T k (if pop k T &&& 1 > 0 then !neg else neg) with
            | none => intro h; simp only at h ⊢; rw [h, mul_zero]
            | some s => intro h; simp only at h ⊢; rw [← h, hm, pow_neg_one]; ring
      · simp only [hT]
        have := ih (if pop k T &&& 1 > 0 then !neg else neg)
        revert this
        simp only [Bool.false_eq_true, if_false]
        cases a.mulLoop L T k (if pop k T &&& 1 > 0 then !neg else neg) with
        | none => intro h; simp only at h ⊢; rw [h, mul_zero]
        | some s => intro h; simp only at h ⊢; rw [← h, pow_neg_one]; ring
    · simp only [hL]
      simpa using ih neg

theorem dec_ret (a : Alg) (neg : Bool) (u : ℕ) (h : u + 1 < 2 ^ 31) :
    dec R a (ret neg u) = sgn R neg • B R a u := by
  rw [ret_eq neg u h]
  cases neg
  · simp only [dec, sgn, Bool.false_eq_true, if_false, one_smul]
    rw [if_neg (by omega), if_neg (by omega)]
    congr 1
  · simp only [dec, sgn, if_true, neg_smul, one_smul]
    rw [if_neg (by omega), if_pos (by omega)]
    congr 2

/-- C55, up to eight dimensions: `mul` is the product of the two basis blades. -/
theorem C55_mul_partial (a : Alg) (hd : a.dim ≤ 8) (L T : ℕ) (hL : L < 2 ^ a.dim)
    (hT : T < 2 ^ a.dim) : B R a L * B R a T = dec R a (a.mul L T) := by
  have hpow : 2 ^ a.dim ≤ 2 ^ 8 := Nat.pow_le_pow_right (by norm_num) hd
  have hg := gens (n := a.dim) (metric R a)
  have hX : L ^^^ T < 2 ^ a.dim := Nat.xor_lt_two_pow hL hT
  have one : B R a 0 = 1 := blade_none _ _
  have low : ∀ u, u < 2 ^ a.dim → dec R a (toInt32 (u + 1)) = B R a u := by
    intro u hu
    have h := dec_ret (R := R) a false u (by omega)
    simpa [sgn, ret] using h
  unfold Alg.mul
  split_ifs with h1 h2 h3
  · obtain ⟨rfl, rfl⟩ := h1
    simp [one, dec]
  · subst h2; rw [one, one_mul, low T hT]
  · subst h3; rw [one, mul_one, low L hL]
  · rw [B, B, blade_mul_blade hg hL]
    have := mulLoop_spec (R := R) a L T a.dim hd false
    revert this
    cases a.mulLoop L T a.dim false with
    | none => intro h; simp only at h ⊢; rw [h]; simp [dec]
    | some s =>
      intro h; simp only at h ⊢
      rw [dec_ret a s _ (by omega), ← h]
      simp [sgn, B]

/-- The algebra the shell uses. -/
example : (⟨3, 0, 1⟩ : Alg).mul 0b0110 0b1010 = -(0b1100 + 1) ∧
    (⟨3, 0, 1⟩ : Alg).mul 0b0011 0b0001 = 0 := by decide

/-- Two distinct generators of square one do not commute. -/
theorem swap_ne {A : Type*} [Ring A] [Algebra ℚ A] [Nontrivial A] {n : ℕ} {w : ℕ → ℚ} {e : ℕ → A}
    (g : Gens n w e) {i j : ℕ} (hi : i < n) (hj : j < n) (hij : i ≠ j) (wi : w i = 1)
    (wj : w j = 1) : -(e i * e j) ≠ e i * e j := by
  intro h
  have sx := g.sq i hi
  have sy := g.sq j hj
  rw [wi, map_one] at sx
  rw [wj, map_one] at sy
  have h2 : e i * e j + e i * e j = 0 := by
    nth_rewrite 1 [← h]; exact neg_add_cancel _
  have h3 : (e i * e j + e i * e j) * (e j * e i) = 1 + 1 := by
    rw [add_mul, mul_assoc, ← mul_assoc (e j), sy, one_mul, sx]
  rw [h2, zero_mul] at h3
  have h4 : algebraMap ℚ A (1 / 2) * (1 + 1) = 1 := by
    rw [show (1 + 1 : A) = algebraMap ℚ A 2 by rw [map_ofNat]; norm_num, ← map_mul]; norm_num
  rw [← h3, mul_zero] at h4
  exact zero_ne_one h4

/-- C55 beyond eight dimensions: the truncation of `1 << index` to eight bits hides generators
`e8`, `e9`, …; the product `e8 * e0` is returned with the wrong sign. -/
theorem C55_mul_fails :
    ∃ (a : Alg) (L T : ℕ), a.dim < 32 ∧ L < 2 ^ a.dim ∧ T < 2 ^ a.dim ∧
      B ℚ a L * B ℚ a T ≠ dec ℚ a (a.mul L T) := by
  refine ⟨⟨9, 0, 0⟩, 2 ^ 8, 1, by decide, by decide, by decide, ?_⟩
  have hm : (⟨9, 0, 0⟩ : Alg).mul (2 ^ 8) 1 = 258 := by decide
  have f1 : (List.range 9).filter (fun i => (2 ^ 8).testBit i) = [8] := by decide
  have f2 : (List.range 9).filter (fun i => (1).testBit i) = [0] := by decide
  have f3 : (List.range 9).filter (fun i => (257).testBit i) = [0, 8] := by decide
  have hd : dec ℚ ⟨9, 0, 0⟩ 258 = B ℚ ⟨9, 0, 0⟩ 257 := by simp [dec]
  have hg := gens (n := 9) (metric ℚ ⟨9, 0, 0⟩)
  rw [hm, hd]
  change blade (gen fun i : Fin 9 => metric ℚ ⟨9, 0, 0⟩ i) 9 (2 ^ 8)
    * blade (gen fun i : Fin 9 => metric ℚ ⟨9, 0, 0⟩ i) 9 1
    ≠ blade (gen fun i : Fin 9 => metric ℚ ⟨9, 0, 0⟩ i) 9 257
  unfold blade
  rw [f1, f2, f3]
  simp only [List.map_cons, List.map_nil, List.prod_cons, List.prod_nil, mul_one]
  rw [hg.anti 8 (by norm_num) 0 (by norm_num) (by norm_num)]
  haveI : Invertible (2 : ℚ) := invertibleOfNonzero two_ne_zero
  exact swap_ne hg (by norm_num) (by norm_num) (by norm_num) (by simp [metric]) (by simp [metric])

end Klein.Sym
