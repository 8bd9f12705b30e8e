import Verif.Props.SymBlades
import Verif.Spec.PGA

/-!
# C56: exterior, inner and regressive products, reversion and duality of basis blades

`ext` is compared with the product of the Grassmann algebra of the same dimension (the Clifford
algebra of the zero form) and, for blades without a common factor, with the geometric product of the
algebra itself; `dot` with the geometric product; `rev` with Mathlib's reversion of the Clifford
algebra; `dual` and `reg` with the duality of `Verif/Spec/PGA.lean`.
-/

namespace Klein.Sym

open Spec

variable {R : Type*} [CommRing R] {A : Type*} [Ring A] [Algebra R A]

/-! ### counting bits -/

theorem pop_mono {k m : ℕ} (x : ℕ) (h : k ≤ m) : pop k x ≤ pop m x := by
  induction m with
  | zero => obtain rfl : k = 0 := by omega
            simp
  | succ m ih =>
    rcases Nat.lt_or_ge m k with hk | hk
    · obtain rfl : k = m + 1 := by omega
      exact le_rfl
    · have := ih hk
      rw [pop_succ]; omega

theorem pop_sub_congr {k m x y : ℕ} (h : k ≤ m)
    (hb : ∀ i, k ≤ i → i < m → x.testBit i = y.testBit i) :
    pop m x - pop k x = pop m y - pop k y := by
  induction m with
  | zero => obtain rfl : k = 0 := by omega
            simp
  | succ m ih =>
    rcases Nat.lt_or_ge m k with hk | hk
    · obtain rfl : k = m + 1 := by omega
      simp
    · have := ih hk fun i h1 h2 => hb i h1 (by omega)
      have h1 := pop_mono x hk
      have h2 := pop_mono y hk
      rw [pop_succ m, pop_succ m, hb m hk (by omega)]; omega

theorem pop_high {k m : ℕ} (x : ℕ) (h : k ≤ m) (hx : x < 2 ^ k) : pop m x = pop k x := by
  have := pop_mod m k x h
  rwa [Nat.mod_eq_of_lt hx] at this

/-- Masking away the low bits. -/
theorem popcnt_above (x k : ℕ) (h : k ≤ 32) :
    popcnt (x &&& (2 ^ 32 - 1 - (2 ^ k - 1))) = pop 32 x - pop k x := by
  have hm : ∀ i, (2 ^ 32 - 1 - (2 ^ k - 1)).testBit i = (decide (i < 32) && !decide (i < k)) := by
    intro i
    have h1 : 2 ^ k ≤ 2 ^ 32 := Nat.pow_le_pow_right (by norm_num) h
    have h2 : 0 < 2 ^ k := by positivity
    rw [show 2 ^ 32 - 1 - (2 ^ k - 1) = 2 ^ 32 - ((2 ^ k - 1) + 1) by omega,
      Nat.testBit_two_pow_sub_succ (by omega), Nat.testBit_two_pow_sub_one]
  have e1 : pop k (x &&& (2 ^ 32 - 1 - (2 ^ k - 1))) = 0 := by
    rw [pop_congr (y := 0)]
    · simp [pop]
    · intro i hi
      rw [Nat.testBit_and, hm]; simp [hi]
  have e2 := pop_sub_congr (x := x &&& (2 ^ 32 - 1 - (2 ^ k - 1))) (y := x) h fun i h1 h2 => by
    rw [Nat.testBit_and, hm]; simp [h2, show ¬ i < k by omega]
  rw [e1] at e2
  simpa [popcnt] using e2

/-! ### the exterior product -/

theorem or_mod_succ (L T i : ℕ) :
    L ||| T % 2 ^ (i + 1) = if T.testBit i then (L ||| T % 2 ^ i) ||| 2 ^ i else L ||| T % 2 ^ i := by
  apply Nat.eq_of_testBit_eq
  intro j
  cases hT : T.testBit i
  · simp only [Bool.false_eq_true, if_false, Nat.testBit_or, Nat.testBit_mod_two_pow]
    rcases Nat.lt_trichotomy j i with h | h | h
    · simp [h, show j < i + 1 by omega]
    · subst h; simp [hT]
    · simp [show ¬ j < i by omega, show ¬ j < i + 1 by omega]
  · simp only [if_true, Nat.testBit_or, Nat.testBit_mod_two_pow, Nat.testBit_two_pow]
    rcases Nat.lt_trichotomy j i with h | h | h
    · simp [h, show j < i + 1 by omega, show i ≠ j by omega]
    · subst h; simp [hT]
    · simp [show ¬ j < i by omega, show ¬ j < i + 1 by omega, show i ≠ j by omega]

/-- The loop of `ext` on disjoint blades, for any generators whatever their squares. -/
theorem extLoop_spec {n : ℕ} {w : ℕ → R} {e : ℕ → A} (g : Gens n w e) (hn : n ≤ 30) (L T : ℕ)
    (hL : L < 2 ^ n) (hd : L &&& T = 0) :
    ∀ k ≤ n, ∀ neg, blade e n L * blade e (n - k) T = sgn R neg • blade e n (L ||| T % 2 ^ (n - k)) →
      ∃ s, Alg.extLoop L T n k neg = some s ∧
        blade e n L * blade e n T = sgn R s • blade e n (L ||| T % 2 ^ n)
  | 0, _, neg, h => ⟨neg, rfl, by simpa using h⟩
  | k + 1, hk, neg, h => by
    obtain ⟨i, hi⟩ : ∃ i, n - (k + 1) = i := ⟨_, rfl⟩
    have hi' : n - k = i + 1 := by omega
    have ih := extLoop_spec g hn L T hL hd k (by omega)
    rw [hi'] at ih
    rw [hi] at h
    simp only [Alg.extLoop, hi, land_bit]
    have hd' : ∀ j, (L.testBit j && T.testBit j) = false := by
      intro j; rw [← Nat.testBit_and, hd, Nat.zero_testBit]
    by_cases hT : T.testBit i = true
    · rw [if_pos hT, if_neg (by omega)]
      apply ih
      have hLi : L.testBit i = false := by have := hd' i; simpa [hT] using this
      have hS : (L ||| T % 2 ^ i).testBit i = false := by
        rw [Nat.testBit_or, Nat.testBit_mod_two_pow, hLi]; simp
      rw [blade_succ, if_pos hT, ← mul_assoc, h, smul_mul_assoc, mul_gen g _ hS n (by omega) le_rfl,
        smul_smul, pow_neg_one, popcnt_above L (i + 1) (by omega), or_mod_succ, if_pos hT,
        pop_high (m := 32) L (by omega) hL]
      congr 3
      apply pop_sub_congr (by omega)
      intro j h1 h2
      rw [Nat.testBit_or, Nat.testBit_mod_two_pow]; simp [show ¬ j < i by omega]
    · rw [if_neg hT]
      apply ih
      rw [blade_succ, if_neg hT, mul_one, h, or_mod_succ, if_neg hT]

/-- A generator of square zero annihilates the blades that contain it. -/
theorem blade_mul_zero {n : ℕ} {e : ℕ → A} (g : Gens n (fun _ => (0 : R)) e) {L T : ℕ}
    (hL : L < 2 ^ n) (hd : L &&& T ≠ 0) : blade e n L * blade e n T = 0 := by
  obtain ⟨i, hi⟩ : ∃ i, (L &&& T).testBit i = true := by
    by_contra h
    push Not at h
    exact hd (Nat.eq_of_testBit_eq fun i => by simpa using h i)
  rw [Nat.testBit_and, Bool.and_eq_true] at hi
  have hin : i < n := by
    by_contra h
    have := Nat.testBit_lt_two_pow (lt_of_lt_of_le hL (Nat.pow_le_pow_right (n := 2) (by norm_num)
      (show n ≤ i by omega)))
    rw [this] at hi; simp at hi
  rw [blade_mul_blade g hL]
  have : ∀ k, i < k → coef (fun _ => (0 : R)) L T k = 0 := by
    intro k hk
    induction k with
    | zero => omega
    | succ k ih =>
      rw [coef]
      rcases Nat.lt_or_ge i k with h | h
      · rw [ih h, mul_zero]
      · obtain rfl : i = k := by omega
        simp [hi.1, hi.2]
  rw [this n hin, zero_smul]

/-- The Grassmann algebra on as many generators as `a` has. -/
def Alg.grassmann (a : Alg) : Alg := ⟨0, 0, a.dim⟩

theorem ext_disjoint (a : Alg) {n : ℕ} (hn : a.dim = n) (hd : n ≤ 30) (L T : ℕ) (hL : L < 2 ^ n)
    (hT : T < 2 ^ n) (h : L &&& T = 0) {w : ℕ → R} {e : ℕ → A} (g : Gens n w e) :
    ∃ s, a.ext L T = some (ret s (L ||| T)) ∧
        blade e n L * blade e n T = sgn R s • blade e n (L ||| T) := by
  have := extLoop_spec g hd L T hL h n le_rfl false (by simp [sgn, Nat.mod_one])
  rw [Nat.mod_eq_of_lt hT] at this
  obtain ⟨s, hs, he⟩ := this
  exact ⟨s, by simp [Alg.ext, h, hn, hs], he⟩

/-- C56, exterior product: no undefined behaviour up to 30 dimensions, and the result is the
product of the Grassmann algebra. -/
theorem C56_ext_partial (a : Alg) (hd : a.dim ≤ 30) (L T : ℕ) (hL : L < 2 ^ a.dim)
    (hT : T < 2 ^ a.dim) :
    ∃ z, a.ext L T = some z ∧
      B R a.grassmann L * B R a.grassmann T = dec R a.grassmann z := by
  have hdim : a.grassmann.dim = a.dim := by simp [Alg.grassmann, Alg.dim]
  have hpow : 2 ^ a.dim ≤ 2 ^ 30 := Nat.pow_le_pow_right (by norm_num) hd
  have hg : Gens a.grassmann.dim (fun _ => (0 : R))
      (gen fun i : Fin a.grassmann.dim => metric R a.grassmann i) := by
    have := gens (n := a.grassmann.dim) (metric R a.grassmann)
    refine ⟨fun i hi => ?_, this.anti⟩
    rw [this.sq i hi, metric, if_pos (by rw [hdim] at hi; exact hi)]
  have hL' := hL
  have hT' := hT
  rw [← hdim] at hL' hT'
  by_cases h : L &&& T = 0
  · obtain ⟨s, hs, he⟩ := ext_disjoint a hdim.symm (hdim ▸ hd) L T hL' hT' h hg
    refine ⟨_, hs, ?_⟩
    have hlt := Nat.or_lt_two_pow hL hT
    rw [dec_ret _ _ _ (by omega)]
    exact he
  · refine ⟨0, by simp [Alg.ext, Nat.pos_of_ne_zero h], ?_⟩
    have := blade_mul_zero hg hL' h
    simpa [dec, B] using this

/-- C56: on blades without a common factor `ext` is the geometric product; otherwise it is zero. -/
theorem C56_ext_disjoint_partial (a : Alg) (hd : a.dim ≤ 30) (L T : ℕ) (hL : L < 2 ^ a.dim)
    (hT : T < 2 ^ a.dim) :
    ∃ z, a.ext L T = some z ∧
      dec R a z = if L &&& T = 0 then B R a L * B R a T else 0 := by
  have hpow : 2 ^ a.dim ≤ 2 ^ 30 := Nat.pow_le_pow_right (by norm_num) hd
  by_cases h : L &&& T = 0
  · obtain ⟨s, hs, he⟩ := ext_disjoint a rfl hd L T hL hT h (gens (n := a.dim) (metric R a))
    have hlt := Nat.or_lt_two_pow hL hT
    refine ⟨_, hs, ?_⟩
    rw [dec_ret _ _ _ (by omega), if_pos h]
    exact he.symm
  · exact ⟨0, by simp [Alg.ext, Nat.pos_of_ne_zero h], by simp [dec, h]⟩

/-- With 31 dimensions, which the constructor accepts, `ext` executes undefined behaviour whenever
the right operand contains `e30`. -/
theorem C56_ext_fails :
    ∃ (a : Alg) (L T : ℕ), a.dim < 32 ∧ L < 2 ^ a.dim ∧ T < 2 ^ a.dim ∧ a.ext L T = none :=
  ⟨⟨31, 0, 0⟩, 1, 2 ^ 30, by decide, by decide, by decide, by decide +kernel⟩

/-- With 31 dimensions the code `blade + 1` of the pseudoscalar is `2^31`, which an `int32_t` cannot
hold: both signs collapse to `INT_MIN`. -/
theorem C56_ext_encoding_fails :
    ∃ (a : Alg), a.dim < 32 ∧ a.ext (2 ^ 31 - 2) 1 = some (-2 ^ 31)
      ∧ a.ext (2 ^ 31 - 3) 2 = some (-2 ^ 31) :=
  ⟨⟨31, 0, 0⟩, by decide, by decide +kernel, by decide +kernel⟩

/-- A concrete case: `e12 ∧ e0 = e012`, `e2 ∧ e1 = -e12`. -/
example : (⟨3, 0, 1⟩ : Alg).ext 0b0110 0b0001 = some (0b0111 + 1) ∧
    (⟨3, 0, 1⟩ : Alg).ext 0b0100 0b0010 = some (-(0b0110 + 1)) ∧
    (⟨3, 0, 1⟩ : Alg).ext 0b0110 0b0010 = some 0 := by decide +kernel

/-! ### the inner product -/

/-- The grade of the product equals the difference of the grades exactly for nested blades. -/
theorem pop_xor_eq (m L T : ℕ) :
    pop m (L ^^^ T) + 2 * pop m (L &&& T) = pop m L + pop m T := by
  induction m with
  | zero => rfl
  | succ m ih =>
    rw [pop_succ, pop_succ, pop_succ, pop_succ, Nat.testBit_xor, Nat.testBit_and]
    cases L.testBit m <;> cases T.testBit m <;> simp <;> omega

theorem pop_and_le (m L T : ℕ) : pop m (L &&& T) ≤ pop m L := by
  induction m with
  | zero => rfl
  | succ m ih =>
    rw [pop_succ, pop_succ, Nat.testBit_and]
    cases L.testBit m <;> cases T.testBit m <;> simp <;> omega

theorem pop_and_eq (m L T : ℕ) (hL : L < 2 ^ m) : pop m (L &&& T) = pop m L ↔ L &&& T = L := by
  refine ⟨fun h => ?_, fun h => by rw [h]⟩
  have key : ∀ k, pop k (L &&& T) = pop k L → ∀ i < k, (L &&& T).testBit i = L.testBit i := by
    intro k
    induction k with
    | zero => intro _ i hi; omega
    | succ k ih =>
      intro h i hi
      have h1 := pop_and_le k L T
      rw [pop_succ, pop_succ, Nat.testBit_and] at h
      have h2 : pop k (L &&& T) = pop k L ∧ (L &&& T).testBit k = L.testBit k := by
        rw [Nat.testBit_and]
        cases hLk : L.testBit k <;> cases hTk : T.testBit k <;> simp [hLk, hTk] at h ⊢ <;> omega
      rcases Nat.lt_or_ge i k with hk | hk
      · exact ih h2.1 i hk
      · obtain rfl : i = k := by omega
        exact h2.2
  apply Nat.eq_of_testBit_eq
  intro i
  rcases Nat.lt_or_ge i m with hi | hi
  · exact key m h i hi
  · have : L.testBit i = false :=
      Nat.testBit_lt_two_pow (lt_of_lt_of_le hL (Nat.pow_le_pow_right (by norm_num) hi))
    rw [Nat.testBit_and, this]; rfl

/-- The grade test of `dot` is containment of one blade in the other. -/
theorem dot_test (L T : ℕ) (hL : L < 2 ^ 32) (hT : T < 2 ^ 32) :
    popcnt (L ^^^ T) = ((popcnt L : ℤ) - (popcnt T : ℤ)).natAbs ↔ L &&& T = L ∨ L &&& T = T := by
  have h1 := pop_xor_eq 32 L T
  have h2 := pop_and_le 32 L T
  have h3 := pop_and_le 32 T L
  have h4 := pop_and_eq 32 L T hL
  have h5 := pop_and_eq 32 T L hT
  rw [Nat.and_comm T L] at h3 h5
  rw [← h4, ← h5]
  unfold popcnt
  omega

/-- C56, inner product, up to eight dimensions: the geometric product when both blades are not
scalars and one contains the other, and zero otherwise. -/
theorem C56_dot_partial (a : Alg) (hd : a.dim ≤ 8) (L T : ℕ) (hL : L < 2 ^ a.dim)
    (hT : T < 2 ^ a.dim) :
    dec R a (a.dot L T)
      = if L ≠ 0 ∧ T ≠ 0 ∧ (L &&& T = L ∨ L &&& T = T) then B R a L * B R a T else 0 := by
  have hpow : 2 ^ a.dim ≤ 2 ^ 8 := Nat.pow_le_pow_right (by norm_num) hd
  have hX : L ^^^ T < 2 ^ a.dim := Nat.xor_lt_two_pow hL hT
  have hmul := C55_mul_partial (R := R) a hd L T hL hT
  unfold Alg.dot
  by_cases h0 : L = 0 ∨ T = 0
  · rw [if_pos h0, if_neg (by tauto)]; simp [dec]
  · rw [if_neg h0]
    rw [not_or] at h0
    simp only
    by_cases hg : a.mul L T = 0
    · rw [if_pos hg, hmul, hg]; simp [dec]
    · rw [if_neg hg]
      have hX' : (a.mul L T).natAbs - 1 = L ^^^ T := by
        revert hg
        unfold Alg.mul
        rw [if_neg (by tauto), if_neg h0.1, if_neg h0.2]
        cases a.mulLoop L T a.dim false with
        | none => intro h; simp at h
        | some s =>
          intro _
          simp only
          rw [ret_eq s _ (by omega)]
          cases s
          · simp only [Bool.false_eq_true, if_false]; omega
          · simp only [if_true]; omega
      rw [hX']
      by_cases ht : popcnt (L ^^^ T) = ((popcnt L : ℤ) - (popcnt T : ℤ)).natAbs
      · rw [if_pos ht, if_pos ⟨h0.1, h0.2, (dot_test L T (by omega) (by omega)).1 ht⟩, hmul]
      · rw [if_neg ht, if_neg fun h => ht ((dot_test L T (by omega) (by omega)).2 h.2.2)]
        simp [dec]

/-- `e1 · e12 = e2`, `e1 · e2 = 0`, `e12 · e13 = 0`. -/
example : (⟨3, 0, 1⟩ : Alg).dot 0b0010 0b0110 = 0b0100 + 1 ∧
    (⟨3, 0, 1⟩ : Alg).dot 0b0010 0b0100 = 0 ∧
    (⟨3, 0, 1⟩ : Alg).dot 0b0110 0b1010 = 0 := by decide +kernel

/-! ### reversion -/

theorem sgn_rev : ∀ k : ℕ, sgn R (decide (k &&& 0b10 > 0)) = (-1) ^ k.choose 2
  | 0 => by simp [sgn]
  | 1 => by simp [sgn]
  | k + 2 => by
    have ih := sgn_rev k
    have h1 : ∀ x : ℕ, decide (x &&& 0b10 > 0) = x.testBit 1 := by
      intro x
      rw [Bool.eq_iff_iff, decide_eq_true_eq]
      exact land_bit x 1
    have h2 : (k + 2).testBit 1 = !k.testBit 1 := by
      rw [Nat.testBit_succ, Nat.testBit_succ, Nat.testBit_zero, Nat.testBit_zero,
        show (k + 2) / 2 = k / 2 + 1 by omega]
      rcases Nat.mod_two_eq_zero_or_one (k / 2) with h | h
      · rw [h, show (k / 2 + 1) % 2 = 1 by omega]; rfl
      · rw [h, show (k / 2 + 1) % 2 = 0 by omega]; rfl
    rw [h1] at ih ⊢
    rw [h2, show (k + 2).choose 2 = k.choose 2 + k + (k + 1) by
      rw [Nat.choose_succ_succ' (k + 1) 1, Nat.choose_succ_succ' k 1, Nat.choose_one_right,
        Nat.choose_one_right, show 1 + 1 = 2 from rfl]; omega, pow_add, pow_add, ← ih]
    have h3 : (-1 : R) ^ k * (-1) ^ (k + 1) = -1 := by
      rw [← pow_add, show k + (k + 1) = 2 * k + 1 by omega, pow_succ, pow_mul]; simp
    rw [mul_assoc, h3]
    cases k.testBit 1 <;> simp [sgn]

/-- Reversion of a blade. -/
theorem reverse_blade {n : ℕ} (w : ℕ → R) (S : ℕ) :
    ∀ m ≤ n, CliffordAlgebra.reverse (blade (gen fun i : Fin n => w i) m S)
      = (-1 : R) ^ (pop m S).choose 2 • blade (gen fun i : Fin n => w i) m S
  | 0, _ => by simp
  | m + 1, hm => by
    have ih : CliffordAlgebra.reverse (blade (gen fun i : Fin n => w i) m S) = _ :=
      reverse_blade w S m (by omega)
    have hg := gens (n := n) w
    rw [blade_succ, pop_succ]
    cases h : S.testBit m
    · simpa using ih
    · simp only [if_true]
      rw [CliffordAlgebra.reverse.map_mul, ih]
      have hr : CliffordAlgebra.reverse (gen (fun i : Fin n => w i) m) = gen (fun i : Fin n => w i) m := by
        rw [gen, dif_pos (by omega : m < n), CliffordAlgebra.reverse_ι]
      rw [hr, mul_smul_comm, gen_comm hg S (show m < n by omega) m le_rfl, smul_smul,
        Nat.choose_succ_succ' (pop m S) 1, Nat.choose_one_right, pow_add, mul_comm]

/-- C56: `rev` gives the sign by which reversion changes a blade, in every algebra. -/
theorem C56_rev (a : Alg) (hd : a.dim ≤ 32) (S : ℕ) (hS : S < 2 ^ a.dim) :
    CliffordAlgebra.reverse (B R a S) = sgn R (Alg.rev S) • B R a S := by
  rw [B, reverse_blade (metric R a) S a.dim le_rfl, Alg.rev, sgn_rev, popcnt, pop_high S hd hS]

example : Alg.rev 0b0110 = true ∧ Alg.rev 0b0111 = true ∧ Alg.rev 0b1111 = false ∧
    Alg.rev 0b0001 = false := by decide +kernel

/-! ### duality and the regressive product -/

/-- The basis blade of the specification of Cl(3,0,1) with bit field `S`, scaled. -/
def mvBlade (c : ℤ) (S : ℕ) : PGA.MV ℤ :=
  let f := fun i => if S = i then c else 0
  ⟨f 0, f 1, f 2, f 3, f 4, f 5, f 6, f 7, f 8, f 9, f 10, f 11, f 12, f 13, f 14, f 15⟩

/-- What an encoded result denotes in the specification of Cl(3,0,1). -/
def mvDec (z : ℤ) : PGA.MV ℤ :=
  if z = 0 then 0 else mvBlade (if z < 0 then -1 else 1) (z.natAbs - 1)

/-- C56: `dual` is the documented Poincaré dual of Cl(3,0,1). -/
theorem C56_dual : ∀ S < 16, mvDec (Alg.dual S) = PGA.MV.J (mvBlade 1 S) := by decide +kernel

/-- C56: `dual` applied to the dual gives the blade back up to the sign `mvDec` carries; the
composite is the identity, as for J in the specification. -/
theorem C56_dual_dual : ∀ S < 16,
    (if Alg.dual S < 0 then -1 else 1) * Alg.dual ((Alg.dual S).natAbs - 1) = (S : ℤ) + 1 := by
  decide +kernel

/-- The exterior product of the specification over the integers, coefficient by coefficient,
for evaluation. -/
def wedgeZ (a b : PGA.MV ℤ) : PGA.MV ℤ :=
  { s := a.s * b.s
    e0 := a.s * b.e0 + a.e0 * b.s
    e1 := a.s * b.e1 + a.e1 * b.s
    e01 := a.s * b.e01 + a.e0 * b.e1 - a.e1 * b.e0 + a.e01 * b.s
    e2 := a.s * b.e2 + a.e2 * b.s
    e02 := a.s * b.e02 + a.e0 * b.e2 - a.e2 * b.e0 + a.e02 * b.s
    e12 := a.s * b.e12 + a.e1 * b.e2 - a.e2 * b.e1 + a.e12 * b.s
    e012 := a.s * b.e012 + a.e0 * b.e12 - a.e1 * b.e02 + a.e01 * b.e2 + a.e2 * b.e01 - a.e02 * b.e1 + a.e12 * b.e0 + a.e012 * b.s
    e3 := a.s * b.e3 + a.e3 * b.s
    e03 := a.s * b.e03 + a.e0 * b.e3 - a.e3 * b.e0 + a.e03 * b.s
    e13 := a.s * b.e13 + a.e1 * b.e3 - a.e3 * b.e1 + a.e13 * b.s
    e013 := a.s * b.e013 + a.e0 * b.e13 - a.e1 * b.e03 + a.e01 * b.e3 + a.e3 * b.e01 - a.e03 * b.e1 + a.e13 * b.e0 + a.e013 * b.s
    e23 := a.s * b.e23 + a.e2 * b.e3 - a.e3 * b.e2 + a.e23 * b.s
    e023 := a.s * b.e023 + a.e0 * b.e23 - a.e2 * b.e03 + a.e02 * b.e3 + a.e3 * b.e02 - a.e03 * b.e2 + a.e23 * b.e0 + a.e023 * b.s
    e123 := a.s * b.e123 + a.e1 * b.e23 - a.e2 * b.e13 + a.e12 * b.e3 + a.e3 * b.e12 - a.e13 * b.e2 + a.e23 * b.e1 + a.e123 * b.s
    e0123 := a.s * b.e0123 + a.e0 * b.e123 - a.e1 * b.e023 + a.e01 * b.e23 + a.e2 * b.e013 - a.e02 * b.e13 + a.e12 * b.e03 + a.e012 * b.e3 - a.e3 * b.e012 + a.e03 * b.e12 - a.e13 * b.e02 - a.e013 * b.e2 + a.e23 * b.e01 + a.e023 * b.e1 - a.e123 * b.e0 + a.e0123 * b.s }

theorem wedgeZ_eq (a b : PGA.MV ℤ) : PGA.MV.wedge a b = wedgeZ a b := by
  apply PGA.MV.ext <;> simp only [pga] <;> rfl

/-- The symmetric inner product of the specification over the integers, coefficient by coefficient,
for evaluation. -/
def innerZ (a b : PGA.MV ℤ) : PGA.MV ℤ :=
  { s := a.e1 * b.e1 + a.e2 * b.e2 - a.e12 * b.e12 + a.e3 * b.e3 - a.e13 * b.e13 - a.e23 * b.e23 - a.e123 * b.e123
    e0 := -a.e1 * b.e01 + a.e01 * b.e1 - a.e2 * b.e02 + a.e02 * b.e2 - a.e12 * b.e012 - a.e012 * b.e12 - a.e3 * b.e03 + a.e03 * b.e3 - a.e13 * b.e013 - a.e013 * b.e13 - a.e23 * b.e023 - a.e023 * b.e23 + a.e123 * b.e0123 - a.e0123 * b.e123
    e1 := -a.e2 * b.e12 + a.e12 * b.e2 - a.e3 * b.e13 + a.e13 * b.e3 - a.e23 * b.e123 - a.e123 * b.e23
    e01 := a.e2 * b.e012 + a.e012 * b.e2 + a.e3 * b.e013 + a.e013 * b.e3 - a.e23 * b.e0123 - a.e0123 * b.e23
    e2 := a.e1 * b.e12 - a.e12 * b.e1 - a.e3 * b.e23 + a.e13 * b.e123 + a.e23 * b.e3 + a.e123 * b.e13
    e02 := -a.e1 * b.e012 - a.e012 * b.e1 + a.e3 * b.e023 + a.e13 * b.e0123 + a.e023 * b.e3 + a.e0123 * b.e13
    e12 := a.e3 * b.e123 + a.e123 * b.e3
    e012 := -a.e3 * b.e0123 + a.e0123 * b.e3
    e3 := a.e1 * b.e13 + a.e2 * b.e23 - a.e12 * b.e123 - a.e13 * b.e1 - a.e23 * b.e2 - a.e123 * b.e12
    e03 := -a.e1 * b.e013 - a.e2 * b.e023 - a.e12 * b.e0123 - a.e013 * b.e1 - a.e023 * b.e2 - a.e0123 * b.e12
    e13 := -a.e2 * b.e123 - a.e123 * b.e2
    e013 := a.e2 * b.e0123 - a.e0123 * b.e2
    e23 := a.e1 * b.e123 + a.e123 * b.e1
    e023 := -a.e1 * b.e0123 + a.e0123 * b.e1
    e123 := 0
    e0123 := 0 }

theorem innerZ_eq (a b : PGA.MV ℤ) : PGA.MV.inner a b = innerZ a b := by
  apply PGA.MV.ext <;> simp only [pga] <;> rfl

/-- C56: `reg` is the regressive product J(J(a) ∧ J(b)) of Cl(3,0,1). -/
theorem C56_reg : ∀ L < 16, ∀ T < 16,
    ((⟨3, 0, 1⟩ : Alg).reg L T).map mvDec = some (PGA.MV.vee (mvBlade 1 L) (mvBlade 1 T)) := by
  simp only [PGA.MV.vee, wedgeZ_eq]
  decide +kernel

/-- C56: in Cl(3,0,1), `mul` is also the geometric product of the 16-coefficient specification. -/
theorem C56_pga_mul : ∀ L < 16, ∀ T < 16,
    mvDec ((⟨3, 0, 1⟩ : Alg).mul L T) = mvBlade 1 L * mvBlade 1 T := by
  decide +kernel

end Klein.Sym
