import Verif.Sym.Algebra
import Verif.Spec.Blade
import Mathlib.Tactic.Ring
import Mathlib.Tactic.NoncommRing

/-!
# Lemmas about products of basis blades
-/

namespace Klein.Sym

open Spec

variable {R : Type*} [CommRing R] {A : Type*} [Ring A] [Algebra R A]

@[simp] theorem pop_zero (x : ℕ) : pop 0 x = 0 := rfl

theorem pop_succ (m x : ℕ) : pop (m + 1) x = pop m x + if x.testBit m then 1 else 0 := by
  unfold pop
  rw [List.range_succ, List.filter_append, List.length_append]
  congr 1
  cases h : x.testBit m <;> simp [h]

theorem pop_congr {m x y : ℕ} (h : ∀ i < m, x.testBit i = y.testBit i) : pop m x = pop m y := by
  unfold pop
  rw [List.filter_congr]
  intro i hi
  exact h i (List.mem_range.1 hi)

@[simp] theorem blade_zero (e : ℕ → A) (S : ℕ) : blade e 0 S = 1 := by simp [blade]

theorem blade_succ (e : ℕ → A) (n S : ℕ) :
    blade e (n + 1) S = blade e n S * if S.testBit n then e n else 1 := by
  unfold blade
  rw [List.range_succ, List.filter_append, List.map_append, List.prod_append]
  congr 1
  cases h : S.testBit n <;> simp [h]

theorem blade_congr (e : ℕ → A) {n S T : ℕ} (h : ∀ i < n, S.testBit i = T.testBit i) :
    blade e n S = blade e n T := by
  unfold blade
  rw [List.filter_congr]
  intro i hi
  exact h i (List.mem_range.1 hi)

@[simp] theorem blade_none (e : ℕ → A) (n : ℕ) : blade e n 0 = 1 := by
  simp [blade]

variable {n : ℕ} {w : ℕ → R} {e : ℕ → A}

/-- A generator moves past a blade of lower generators. -/
theorem gen_comm (g : Gens n w e) (S : ℕ) {k : ℕ} (hk : k < n) :
    ∀ m ≤ k, e k * blade e m S = (-1 : R) ^ pop m S • (blade e m S * e k)
  | 0, _ => by simp
  | m + 1, hm => by
    have ih := gen_comm g S hk m (by omega)
    rw [blade_succ, ← mul_assoc, ih, pop_succ]
    cases h : S.testBit m
    · simp
    · have := g.anti k hk m (by omega) (by omega)
      simp only [if_true, smul_mul_assoc, mul_assoc, this, pow_succ, mul_neg, mul_one, neg_smul,
        smul_neg]

/-- Multiplying a blade by a generator from the left toggles its bit. -/
theorem gen_mul (g : Gens n w e) (S : ℕ) {k : ℕ} :
    ∀ m, k < m → m ≤ n → e k * blade e m S
      = ((-1 : R) ^ pop k S * if S.testBit k then w k else 1) • blade e m (S ^^^ 2 ^ k)
  | 0, h, _ => absurd h (by omega)
  | m + 1, h, hm => by
    rcases Nat.lt_or_ge k m with hk | hk
    · have ih := gen_mul g S m hk (by omega)
      have e1 : (S ^^^ 2 ^ k).testBit m = S.testBit m := by
        rw [Nat.testBit_xor, Nat.testBit_two_pow]; simp [show k ≠ m by omega]
      rw [blade_succ, ← mul_assoc, ih, blade_succ, e1, smul_mul_assoc]
    · obtain rfl : k = m := by omega
      have e1 : (S ^^^ 2 ^ k).testBit k = !S.testBit k := by
        rw [Nat.testBit_xor, Nat.testBit_two_pow]; simp
      have e2 : blade e k (S ^^^ 2 ^ k) = blade e k S := by
        apply blade_congr
        intro i hi
        rw [Nat.testBit_xor, Nat.testBit_two_pow]; simp [show k ≠ i by omega]
      rw [blade_succ, ← mul_assoc, gen_comm g S (by omega) k le_rfl, blade_succ, e1, e2]
      cases hS : S.testBit k
      · simp
      · simp only [if_true, Bool.not_true, Bool.false_eq_true, if_false, mul_one, smul_mul_assoc,
          mul_assoc, g.sq k (by omega)]
        rw [mul_smul, ← Algebra.commutes, ← Algebra.smul_def]

/-- The sign and weight collected when the factors of `L` below `k` are moved into `R`. -/
def coef (w : ℕ → R) (L T : ℕ) : ℕ → R
  | 0 => 1
  | k + 1 => (if L.testBit k then (-1 : R) ^ pop k T * (if T.testBit k then w k else 1) else 1)
      * coef w L T k

/-- The product of two blades. -/
theorem blade_mul (g : Gens n w e) (L T : ℕ) :
    ∀ k ≤ n, ∀ T', (∀ i < k, T'.testBit i = T.testBit i) →
      blade e k L * blade e n T' = coef w L T k • blade e n (T' ^^^ (L % 2 ^ k))
  | 0, _, T', _ => by simp [coef, Nat.mod_one]
  | k + 1, hk, T', hT => by
    have hmod : ∀ U, U ^^^ (L % 2 ^ (k + 1))
        = (if L.testBit k then U ^^^ 2 ^ k else U) ^^^ (L % 2 ^ k) := by
      intro U
      apply Nat.eq_of_testBit_eq
      intro i
      rw [Nat.testBit_xor, Nat.testBit_mod_two_pow, Nat.testBit_xor, Nat.testBit_mod_two_pow]
      cases hL : L.testBit k
      · simp only [Bool.false_eq_true, if_false]
        rcases Nat.lt_trichotomy i k with h | h | h
        · simp [h, show i < k + 1 by omega]
        · subst h; simp [hL]
        · simp [show ¬ i < k by omega, show ¬ i < k + 1 by omega]
      · simp only [if_true, Nat.testBit_xor, Nat.testBit_two_pow]
        rcases Nat.lt_trichotomy i k with h | h | h
        · simp [h, show i < k + 1 by omega, show k ≠ i by omega]
        · subst h; simp [hL]
        · simp [show ¬ i < k by omega, show ¬ i < k + 1 by omega, show k ≠ i by omega]
    rw [blade_succ, hmod, coef]
    cases hL : L.testBit k
    · simp only [Bool.false_eq_true, if_false, mul_one, one_mul]
      exact blade_mul g L T k (by omega) T' fun i hi => hT i (by omega)
    · simp only [if_true]
      rw [mul_assoc, gen_mul g T' n (by omega) le_rfl, mul_smul_comm,
        blade_mul g L T k (by omega) (T' ^^^ 2 ^ k) (by
          intro i hi
          rw [Nat.testBit_xor, Nat.testBit_two_pow, hT i (by omega)]
          simp [show k ≠ i by omega]), smul_smul, pop_congr fun i hi => hT i (by omega),
        hT k (by omega)]

/-- The product of two blades of the algebra. -/
theorem blade_mul_blade (g : Gens n w e) {L T : ℕ} (hL : L < 2 ^ n) :
    blade e n L * blade e n T = coef w L T n • blade e n (L ^^^ T) := by
  rw [blade_mul g L T n le_rfl T fun _ _ => rfl, Nat.mod_eq_of_lt hL, Nat.xor_comm]

/-- Multiplying a blade by a missing generator from the right. -/
theorem mul_gen (g : Gens n w e) (S : ℕ) {k : ℕ} (hS : S.testBit k = false) :
    ∀ m, k < m → m ≤ n → blade e m S * e k
      = (-1 : R) ^ (pop m S - pop (k + 1) S) • blade e m (S ||| 2 ^ k)
  | 0, h, _ => absurd h (by omega)
  | m + 1, h, hm => by
    have e1 : ∀ i, k ≠ i → (S ||| 2 ^ k).testBit i = S.testBit i := by
      intro i hi
      rw [Nat.testBit_or, Nat.testBit_two_pow]; simp [hi]
    rcases Nat.lt_or_ge k m with hk | hk
    · have ih := mul_gen g S hS m hk (by omega)
      have hle : pop (k + 1) S ≤ pop m S := by
        have : ∀ d, pop (k + 1) S ≤ pop (k + 1 + d) S := by
          intro d
          induction d with
          | zero => simp
          | succ d ih => rw [← Nat.add_assoc, pop_succ (k + 1 + d)]; omega
        have := this (m - (k + 1))
        rwa [show k + 1 + (m - (k + 1)) = m by omega] at this
      rw [blade_succ, blade_succ, e1 m (by omega), pop_succ]
      cases h : S.testBit m
      · simpa using ih
      · simp only [if_true]
        rw [mul_assoc, g.anti m (by omega) k (by omega) (by omega), mul_neg, ← mul_assoc, ih,
          show pop m S + 1 - pop (k + 1) S = (pop m S - pop (k + 1) S) + 1 by omega, pow_succ]
        simp
    · obtain rfl : k = m := by omega
      have e2 : blade e k (S ||| 2 ^ k) = blade e k S := by
        apply blade_congr
        intro i hi
        exact e1 i (by omega)
      rw [blade_succ, blade_succ, e2, hS, Nat.testBit_or, Nat.testBit_two_pow]
      simp

end Klein.Sym
