import Verif.Props.Products32
import Verif.Props.DualQuat
import Mathlib.Analysis.Quaternion

/-!
# C91: long products of motors in binary32

The product of `n` motors, multiplied one after the other in binary32 without normalisation, compared
with the exact product.  Motors are measured as pairs of quaternions (C81) in the norm of Mathlib.
`p n` is off by at most `g n = (1 + 28 u)^n - 1` times its size, less than `1.9e-6 n`.
-/

set_option linter.unusedSimpArgs false
set_option linter.unusedSectionVars false

namespace Klein

open F32 Products32
open scoped Quaternion

/-- The point as a quaternion without scalar part. -/
def Point.pure (p : Point ℝ) : ℍ[ℝ] := ⟨0, p.p3.l1, p.p3.l2, p.p3.l3⟩

section
variable (p : Point ℝ)
theorem Point.pure_re : p.pure.re = 0 := rfl
theorem Point.pure_imI : p.pure.imI = p.p3.l1 := rfl
theorem Point.pure_imJ : p.pure.imJ = p.p3.l2 := rfl
theorem Point.pure_imK : p.pure.imK = p.p3.l3 := rfl
end

/-- C81: the action of a motor on a point, in quaternions. -/
theorem C81_point_quat (m : Motor ℝ) (p : Point ℝ) :
    (m.onPoint p).pure = m.toDQ.1 * p.pure * star m.toDQ.1 +
      p.p3.l0 • (m.toDQ.1 * star m.toDQ.2 - m.toDQ.2 * star m.toDQ.1) ∧
    (m.onPoint p).p3.l0 = ‖m.toDQ.1‖ ^ 2 * p.p3.l0 := by
  constructor
  · ext
    all_goals simp only [Quaternion.re_mul, Quaternion.imI_mul, Quaternion.imJ_mul, Quaternion.imK_mul,
      Quaternion.re_star, Quaternion.imI_star, Quaternion.imJ_star, Quaternion.imK_star,
      Quaternion.re_add, Quaternion.imI_add, Quaternion.imJ_add, Quaternion.imK_add,
      Quaternion.re_sub, Quaternion.imI_sub, Quaternion.imJ_sub, Quaternion.imK_sub,
      Quaternion.re_smul, Quaternion.imI_smul, Quaternion.imJ_smul, Quaternion.imK_smul, smul_eq_mul,
      Motor.re_toDQ, Motor.imI_toDQ, Motor.imJ_toDQ, Motor.imK_toDQ, Motor.re_toDQ2, Motor.imI_toDQ2,
      Motor.imJ_toDQ2, Motor.imK_toDQ2, Point.pure_re, Point.pure_imI, Point.pure_imJ, Point.pure_imK,
      kln, sse, cond_true, cond_false]
    all_goals ring
  · rw [sq, ← Quaternion.normSq_eq_norm_mul_self, Quaternion.normSq_def']
    simp only [Motor.re_toDQ, Motor.imI_toDQ, Motor.imJ_toDQ, Motor.imK_toDQ, kln, sse, cond_true, cond_false]
    ring

namespace Drift32

theorem norm_le {q : ℍ[ℝ]} {e : ℝ} (he : 0 ≤ e) (h0 : |q.re| ≤ e) (h1 : |q.imI| ≤ e) (h2 : |q.imJ| ≤ e) (h3 : |q.imK| ≤ e) :
    ‖q‖ ≤ 2 * e := by
  have h : ‖q‖ * ‖q‖ ≤ (2 * e) * (2 * e) := by
    rw [← Quaternion.normSq_eq_norm_mul_self, Quaternion.normSq_def']
    have k0 := sq_le_sq' (abs_le.1 h0).1 (abs_le.1 h0).2
    have k1 := sq_le_sq' (abs_le.1 h1).1 (abs_le.1 h1).2
    have k2 := sq_le_sq' (abs_le.1 h2).1 (abs_le.1 h2).2
    have k3 := sq_le_sq' (abs_le.1 h3).1 (abs_le.1 h3).2
    nlinarith
  exact abs_le_of_sq_le_sq' (by nlinarith) (by positivity) |>.2

theorem le_norm (q : ℍ[ℝ]) : |q.re| ≤ ‖q‖ ∧ |q.imI| ≤ ‖q‖ ∧ |q.imJ| ≤ ‖q‖ ∧ |q.imK| ≤ ‖q‖ := by
  have h : ‖q‖ ^ 2 = q.re ^ 2 + q.imI ^ 2 + q.imJ ^ 2 + q.imK ^ 2 := by
    rw [sq, ← Quaternion.normSq_eq_norm_mul_self, Quaternion.normSq_def']
  have h0 := norm_nonneg q
  refine ⟨?_, ?_, ?_, ?_⟩ <;> refine abs_le_of_sq_le_sq ?_ h0 <;> rw [h] <;> nlinarith [sq_nonneg q.re, sq_nonneg q.imI, sq_nonneg q.imJ, sq_nonneg q.imK]

/-- The two quaternions of a motor. -/
noncomputable def q1 (m : Motor F32) : ℍ[ℝ] := m.real.toDQ.1
noncomputable def q2 (m : Motor F32) : ℍ[ℝ] := m.real.toDQ.2

/-- All lanes are finite. -/
def Fin (m : Motor F32) : Prop := (∀ i, (m.p1.get i).isFinite = true) ∧ ∀ i, (m.p2.get i).isFinite = true

theorem within {m : Motor F32} {A C : ℝ} (hf : Fin m) (h1 : ‖q1 m‖ ≤ A) (h2 : ‖q2 m‖ ≤ A * C) : m.Within A C := by
  obtain ⟨a0, a1, a2, a3⟩ := le_norm (q1 m)
  obtain ⟨b0, b1, b2, b3⟩ := le_norm (q2 m)
  have n1 : ∀ x : ℝ, |-x| ≤ ‖q1 m‖ → |x| ≤ A := fun x hx => by rw [abs_neg] at hx; exact hx.trans h1
  exact ⟨⟨hf.1, a0.trans h1, n1 _ a1, n1 _ a2, n1 _ a3⟩, hf.2, b0.trans h2, b1.trans h2, b2.trans h2, b3.trans h2⟩

/-- One product, rounded. -/
theorem step {x y : Motor F32} {C : ℝ} (hx : Fin x) (hy : Fin y) (hA : In2 ‖q1 x‖ 24 24) (hB : In2 ‖q1 y‖ 24 24)
    (hC : In2 C 20 20) (h1 : ‖q2 x‖ ≤ ‖q1 x‖ * C) (h2 : ‖q2 y‖ ≤ ‖q1 y‖ * C) :
    Fin (x.mulMotor y) ∧ ‖q1 (x.mulMotor y) - q1 x * q1 y‖ ≤ 28 * u * (‖q1 x‖ * ‖q1 y‖) ∧
    ‖q2 (x.mulMotor y) - (q1 x * q2 y + q2 x * q1 y)‖ ≤ 70 * u * (‖q1 x‖ * ‖q1 y‖ * C) := by
  obtain ⟨n1, n2⟩ := C90_motor_mul_motor hA hB hC (within hx le_rfl h1) (within hy le_rfl h2)
  obtain ⟨⟨f0, e0⟩, ⟨f1, e1⟩, ⟨f2, e2⟩, f3, e3⟩ := n1
  obtain ⟨⟨g0, d0⟩, ⟨g1, d1⟩, ⟨g2, d2⟩, g3, d3⟩ := n2
  have hA0 := hA.pos
  have hB0 := hB.pos
  have hC0 := hC.pos
  have r1 : (x.real.mulMotor y.real).toDQ.1 = q1 x * q1 y := congrArg Prod.fst (C81_motor_mul x.real y.real)
  have r2 : (x.real.mulMotor y.real).toDQ.2 = q1 x * q2 y + q2 x * q1 y := congrArg Prod.snd (C81_motor_mul x.real y.real)
  refine ⟨⟨fun i => match i with | 0 => f0 | 1 => f1 | 2 => f2 | 3 => f3,
    fun i => match i with | 0 => g0 | 1 => g1 | 2 => g2 | 3 => g3⟩, ?_, ?_⟩
  · rw [← r1]
    have neg : ∀ a b e : ℝ, |a - b| ≤ e → |-a - -b| ≤ e := fun a b e h => by
      rw [show -a - -b = -(a - b) by ring, abs_neg]; exact h
    refine (norm_le (e := 14 * (‖q1 x‖ * ‖q1 y‖) / 2 ^ 24) (by positivity) e0 (neg _ _ _ e1) (neg _ _ _ e2) (neg _ _ _ e3)).trans (le_of_eq ?_)
    unfold u; ring
  · rw [← r2]
    refine (norm_le (e := 35 * (‖q1 x‖ * ‖q1 y‖ * C) / 2 ^ 24) (by positivity) d0 d1 d2 d3).trans (le_of_eq ?_)
    unfold u; ring

/-- The product `m 0 * m 1 * ... * m n`, computed from left to right. -/
def prod {F : Type} [Add F] [Sub F] [Mul F] [Neg F] [Zero F] [One F] [NatCast F] (m : ℕ → Motor F) : ℕ → Motor F
  | 0 => m 0
  | n + 1 => (prod m n).mulMotor (m (n + 1))

/-- The exact product. -/
noncomputable def exact (m : ℕ → Motor F32) (n : ℕ) : Motor ℝ := prod (fun i => (m i).real) n

/-- The size of the exact product. -/
noncomputable def size (m : ℕ → Motor F32) (n : ℕ) : ℝ := ∏ i ∈ Finset.range (n + 1), ‖q1 (m i)‖

/-- The relative error after `n` products. -/
noncomputable def g (n : ℕ) : ℝ := (1 + 28 * u) ^ n - 1

theorem g_zero : g 0 = 0 := by simp [g]
theorem g_succ (n : ℕ) : g (n + 1) = g n + 28 * u * (1 + g n) := by unfold g; rw [pow_succ]; ring
theorem g_nonneg (n : ℕ) : 0 ≤ g n := by
  have := one_le_pow₀ (n := n) (show (1 : ℝ) ≤ 1 + 28 * u by linarith [u_pos])
  unfold g; linarith

theorem g_le {n : ℕ} (hn : n ≤ 65536) : g n ≤ 1.9e-6 * n := by
  have hn' : (n : ℝ) ≤ 65536 := by exact_mod_cast hn
  have h0 : (0 : ℝ) ≤ n := Nat.cast_nonneg n
  have h1 : (1 + 28 * u) ^ n ≤ Real.exp (n * (28 * u)) := by
    rw [Real.exp_nat_mul]
    refine pow_le_pow_left₀ (by linarith [u_pos]) ?_ n
    linarith [Real.add_one_le_exp (28 * u)]
  have hx0 : 0 ≤ n * (28 * u) := by have := u_pos; positivity
  have hx1 : n * (28 * u) ≤ 0.11 := by unfold u; norm_num; linarith
  have h2 := Real.abs_exp_sub_one_sub_id_le (x := n * (28 * u)) (by rw [abs_of_nonneg hx0]; linarith)
  have h3 := (abs_le.1 h2).2
  have h4 : (n * (28 * u)) ^ 2 ≤ 0.11 * (n * (28 * u)) := by nlinarith
  have h5 : n * (28 * u) * 1.11 ≤ 1.9e-6 * n := by unfold u; norm_num; linarith
  unfold g
  linarith

theorem g_le' {n : ℕ} (hn : n ≤ 65536) : g n ≤ 1 / 8 := by
  have hn' : (n : ℝ) ≤ 65536 := by exact_mod_cast hn
  exact (g_le hn).trans (by norm_num; linarith)

/-- What the analysis asks of the factors: finite lanes, sizes neither tiny nor huge, and a length `C`
of at least twice the sum of the half translations `t i`. -/
structure Chain (m : ℕ → Motor F32) (t : ℕ → ℝ) (C : ℝ) (N : ℕ) : Prop where
  fin : ∀ i ≤ N, Fin (m i)
  size_i : ∀ i ≤ N, In2 ‖q1 (m i)‖ 24 24
  size : ∀ i ≤ N, In2 (size m i) 20 20
  len : In2 C 20 20
  t_nonneg : ∀ i, 0 ≤ t i
  trans : ∀ i ≤ N, ‖q2 (m i)‖ ≤ ‖q1 (m i)‖ * t i
  sum : 2 * ∑ i ∈ Finset.range (N + 1), t i ≤ C

section
variable {m : ℕ → Motor F32} {t : ℕ → ℝ} {C : ℝ} {N : ℕ}

theorem Chain.partial_sum (h : Chain m t C N) {n : ℕ} (hn : n ≤ N) : 2 * ∑ i ∈ Finset.range (n + 1), t i ≤ C := by
  have := Finset.sum_le_sum_of_subset_of_nonneg (Finset.range_subset_range.2 (Nat.succ_le_succ hn)) (f := t) fun i _ _ => h.t_nonneg i
  exact (by linarith : _ ≤ _).trans h.sum

theorem size_zero : size m 0 = ‖q1 (m 0)‖ := by simp [size]
theorem size_succ (n : ℕ) : size m (n + 1) = size m n * ‖q1 (m (n + 1))‖ := Finset.prod_range_succ _ _

theorem exact_succ1 (n : ℕ) : (exact m (n + 1)).toDQ.1 = (exact m n).toDQ.1 * q1 (m (n + 1)) :=
  congrArg Prod.fst (C81_motor_mul (exact m n) (m (n + 1)).real)
theorem exact_succ2 (n : ℕ) : (exact m (n + 1)).toDQ.2 = (exact m n).toDQ.1 * q2 (m (n + 1)) + (exact m n).toDQ.2 * q1 (m (n + 1)) :=
  congrArg Prod.snd (C81_motor_mul (exact m n) (m (n + 1)).real)

/-- The exact product has the size `size m n`. -/
theorem exact_norm1 (n : ℕ) : ‖(exact m n).toDQ.1‖ = size m n := by
  induction n with
  | zero => rw [size_zero]; rfl
  | succ n ih => rw [exact_succ1, norm_mul, ih, size_succ]

theorem exact_norm2 (h : Chain m t C N) {n : ℕ} (hn : n ≤ N) :
    ‖(exact m n).toDQ.2‖ ≤ size m n * ∑ i ∈ Finset.range (n + 1), t i := by
  induction n with
  | zero =>
    rw [size_zero, Finset.sum_range_one]
    exact h.trans 0 hn
  | succ n ih =>
    have ih := ih (Nat.le_of_succ_le hn)
    have ht := h.trans (n + 1) hn
    have hs := (h.size n (Nat.le_of_succ_le hn)).pos
    rw [exact_succ2, Finset.sum_range_succ, size_succ]
    refine (norm_add_le _ _).trans ?_
    rw [norm_mul, norm_mul, exact_norm1]
    have k1 := mul_le_mul_of_nonneg_left ht hs.le
    have k2 := mul_le_mul_of_nonneg_right ih (norm_nonneg (q1 (m (n + 1))))
    nlinarith

private theorem num1 {C G S T : ℝ} (hG' : G ≤ 1 / 8) (hT : 0 ≤ T) (h : 2 * T ≤ C) (hS : 0 < S) :
    (2.5 * C + T) * G * S + S * T ≤ (1 - G) * S * C := by
  have k : T + (2.5 * C + T) * G ≤ (1 - G) * C := by nlinarith
  nlinarith

private theorem num2 {d e A B G S : ℝ} (h1 : d ≤ 28 * u * (A * B)) (h2 : e ≤ G * S) (hA : A ≤ (1 + G) * S) (hB : 0 ≤ B) :
    d + e * B ≤ (G + 28 * u * (1 + G)) * (S * B) := by
  have hu := u_pos
  have k1 : 28 * u * (A * B) ≤ 28 * u * ((1 + G) * S * B) := by gcongr
  have k2 : e * B ≤ G * S * B := by gcongr
  linarith

private theorem num3 {d e f A B C G S T t b : ℝ} (h1 : d ≤ 70 * u * (A * B * C)) (h2 : e ≤ G * S) (h3 : f ≤ (2.5 * C + T) * G * S)
    (hA : A ≤ (1 + G) * S) (hb : b ≤ B * t) (hB : 0 ≤ B) (hC : 0 ≤ C) (hS : 0 ≤ S) (hG : 0 ≤ G) (hT : 0 ≤ T) (ht : 0 ≤ t)
    (he : 0 ≤ e) : d + (e * b + f * B) ≤ (2.5 * C + (T + t)) * (G + 28 * u * (1 + G)) * (S * B) := by
  have hu := u_pos
  have k1 : 70 * u * (A * B * C) ≤ 70 * u * ((1 + G) * S * B * C) := by gcongr
  have k2 : f * B ≤ (2.5 * C + T) * G * S * B := by gcongr
  have k3 : e * b ≤ G * S * (B * t) := by
    refine (mul_le_mul_of_nonneg_left hb he).trans ?_
    gcongr
  have k4 : 0 ≤ (T + t) * (28 * u * (1 + G)) * (S * B) := by positivity
  nlinarith

/-- The invariant of the chain. -/
theorem invariant (h : Chain m t C N) {n : ℕ} (hn : n ≤ N) (hN : n ≤ 65536) :
    Fin (prod m n) ∧ ‖q1 (prod m n) - (exact m n).toDQ.1‖ ≤ g n * size m n ∧
    ‖q2 (prod m n) - (exact m n).toDQ.2‖ ≤ (2.5 * C + ∑ i ∈ Finset.range (n + 1), t i) * g n * size m n := by
  induction n with
  | zero =>
    refine ⟨h.fin 0 hn, ?_, ?_⟩
    · show ‖q1 (m 0) - q1 (m 0)‖ ≤ _
      rw [sub_self, norm_zero, g_zero, zero_mul]
    · show ‖q2 (m 0) - q2 (m 0)‖ ≤ _
      rw [sub_self, norm_zero, g_zero, mul_zero, zero_mul]
  | succ n ih =>
    have hn' := Nat.le_of_succ_le hn
    obtain ⟨hf, e1, e2⟩ := ih hn' (Nat.le_of_succ_le hN)
    have hS := h.size n hn'
    have hS0 := hS.pos
    have hC0 := h.len.pos
    have hg := g_le' (Nat.le_of_succ_le hN)
    have hg0 := g_nonneg n
    have ps := h.partial_sum hn
    have ps' := h.partial_sum hn'
    have hT0 : 0 ≤ ∑ i ∈ Finset.range (n + 1), t i := Finset.sum_nonneg fun i _ => h.t_nonneg i
    have x2 := exact_norm2 h hn'
    have x1 : ‖(exact m n).toDQ.1‖ = size m n := exact_norm1 n
    have hm := h.trans (n + 1) hn
    have ht := h.t_nonneg (n + 1)
    rw [Finset.sum_range_succ] at ps ⊢
    rw [size_succ, g_succ, exact_succ1, exact_succ2]
    have hB := h.size_i (n + 1) hn
    have hB0 := hB.pos
    -- the sizes of the rounded product
    have a1 : ‖q1 (prod m n)‖ ≤ (1 + g n) * size m n := by
      have := norm_add_le (q1 (prod m n) - (exact m n).toDQ.1) (exact m n).toDQ.1
      rw [sub_add_cancel, x1] at this
      linarith
    have a2 : (1 - g n) * size m n ≤ ‖q1 (prod m n)‖ := by
      have := norm_sub_norm_le (exact m n).toDQ.1 (q1 (prod m n))
      rw [norm_sub_rev, x1] at this
      linarith
    have a3 : ‖q2 (prod m n)‖ ≤ ‖q1 (prod m n)‖ * C := by
      have := norm_add_le (q2 (prod m n) - (exact m n).toDQ.2) (exact m n).toDQ.2
      rw [sub_add_cancel] at this
      exact (this.trans (add_le_add e2 x2)).trans
        ((num1 hg hT0 ps' hS0).trans (mul_le_mul_of_nonneg_right a2 hC0.le))
    have hA : In2 ‖q1 (prod m n)‖ 24 24 := by
      refine ⟨?_, ?_⟩
      · have := hS.lo
        refine le_trans ?_ a2
        have : (1 : ℝ) / 2 ^ 24 ≤ 7 / 8 * (1 / 2 ^ 20) := by norm_num
        nlinarith
      · have := hS.hi
        refine a1.trans ?_
        have : (9 : ℝ) / 8 * 2 ^ 20 ≤ 2 ^ 24 := by norm_num
        nlinarith
    obtain ⟨f, d1, d2⟩ := step hf (h.fin (n + 1) hn) hA hB h.len a3
      (hm.trans (mul_le_mul_of_nonneg_left (by linarith) hB0.le))
    refine ⟨f, ?_, ?_⟩
    · show ‖q1 ((prod m n).mulMotor (m (n + 1))) - _‖ ≤ _
      have k : q1 ((prod m n).mulMotor (m (n + 1))) - (exact m n).toDQ.1 * q1 (m (n + 1)) =
          (q1 ((prod m n).mulMotor (m (n + 1))) - q1 (prod m n) * q1 (m (n + 1))) +
            (q1 (prod m n) - (exact m n).toDQ.1) * q1 (m (n + 1)) := by
        rw [sub_mul]; abel
      rw [k]
      refine (norm_add_le _ _).trans ?_
      rw [norm_mul]
      exact num2 d1 e1 a1 hB0.le
    · show ‖q2 ((prod m n).mulMotor (m (n + 1))) - _‖ ≤ _
      have k : q2 ((prod m n).mulMotor (m (n + 1))) - ((exact m n).toDQ.1 * q2 (m (n + 1)) + (exact m n).toDQ.2 * q1 (m (n + 1))) =
          (q2 ((prod m n).mulMotor (m (n + 1))) - (q1 (prod m n) * q2 (m (n + 1)) + q2 (prod m n) * q1 (m (n + 1)))) +
            ((q1 (prod m n) - (exact m n).toDQ.1) * q2 (m (n + 1)) + (q2 (prod m n) - (exact m n).toDQ.2) * q1 (m (n + 1))) := by
        rw [sub_mul, sub_mul]; abel
      rw [k]
      refine (norm_add_le _ _).trans ((add_le_add_right (norm_add_le _ _) _).trans ?_)
      rw [norm_mul, norm_mul]
      exact num3 d2 e1 e2 a1 hm hB0.le hC0.le hS0.le hg0 hT0 ht (norm_nonneg _)
/-- C91: the product of `n + 1` motors in binary32 is finite and within `1.9e-6 n` of the exact product,
relative to its size, and the moment within `5.7e-6 n` of the length `C`. -/
theorem C91_chain (h : Chain m t C N) {n : ℕ} (hn : n ≤ N) (hN : n ≤ 65536) :
    Fin (prod m n) ∧ ‖q1 (prod m n) - (exact m n).toDQ.1‖ ≤ 1.9e-6 * n * size m n ∧
    ‖q2 (prod m n) - (exact m n).toDQ.2‖ ≤ 5.7e-6 * n * (size m n * C) := by
  obtain ⟨hf, e1, e2⟩ := invariant h hn hN
  have hS0 := (h.size n hn).pos
  have hC0 := h.len.pos
  have ps := h.partial_sum hn
  have hg := g_le hN
  have hg0 := g_nonneg n
  have hn0 : (0 : ℝ) ≤ n := Nat.cast_nonneg n
  refine ⟨hf, e1.trans (mul_le_mul_of_nonneg_right hg hS0.le), e2.trans ?_⟩
  calc _ ≤ (3 * C) * (1.9e-6 * n) * size m n := by
        refine mul_le_mul_of_nonneg_right (mul_le_mul (by linarith) hg hg0 (by positivity)) hS0.le
    _ = _ := by ring

/-- The size of a product of factors normalised to within the accuracy of `normalize`. -/
theorem size_unit (hu : ∀ i ≤ N, |‖q1 (m i)‖ ^ 2 - 1| ≤ 1.5e-6) {n : ℕ} (hn : n ≤ N) (hN : n < 65536) :
    1 - 7.6e-7 * (n + 1) ≤ size m n ∧ size m n ≤ 1 + 8e-7 * (n + 1) := by
  have hn0 : (0 : ℝ) ≤ n := Nat.cast_nonneg n
  have hN' : (n : ℝ) + 1 ≤ 65536 := by exact_mod_cast hN
  have a : ∀ i ≤ N, 1 - 7.6e-7 ≤ ‖q1 (m i)‖ ∧ ‖q1 (m i)‖ ≤ 1 + 7.6e-7 := by
    intro i hi
    have h1 := abs_le.1 (hu i hi)
    have h2 := norm_nonneg (q1 (m i))
    norm_num at h1 ⊢
    constructor <;> nlinarith
  have up : ∀ k ≤ N, size m k ≤ (1 + 7.6e-7) ^ (k + 1) := by
    intro k hk
    have := Finset.prod_le_prod (s := Finset.range (k + 1)) (f := fun i => ‖q1 (m i)‖) (g := fun _ => (1 + 7.6e-7 : ℝ))
      (fun i _ => norm_nonneg _) (fun i hi => (a i (by have := Finset.mem_range.1 hi; omega)).2)
    rwa [Finset.prod_const, Finset.card_range] at this
  have lo : ∀ k ≤ N, (1 - 7.6e-7 : ℝ) ^ (k + 1) ≤ size m k := by
    intro k hk
    have := Finset.prod_le_prod (s := Finset.range (k + 1)) (f := fun _ => (1 - 7.6e-7 : ℝ)) (g := fun i => ‖q1 (m i)‖)
      (fun i _ => by norm_num) (fun i hi => (a i (by have := Finset.mem_range.1 hi; omega)).1)
    rwa [Finset.prod_const, Finset.card_range] at this
  have up1 : size m n ≤ 1 + 8e-7 * (n + 1) := by
    refine (up n hn).trans ?_
    have h1 : (1 + 7.6e-7 : ℝ) ^ (n + 1) ≤ Real.exp ((n + 1 : ℕ) * 7.6e-7) := by
      rw [Real.exp_nat_mul]
      refine pow_le_pow_left₀ (by norm_num) ?_ _
      linarith [Real.add_one_le_exp (7.6e-7 : ℝ)]
    push_cast at h1
    obtain ⟨x, hx⟩ : ∃ x : ℝ, x = (n + 1) * 7.6e-7 := ⟨_, rfl⟩
    have hx0 : 0 ≤ x := by rw [hx]; positivity
    have hx1 : x ≤ 0.05 := by rw [hx]; norm_num; linarith
    rw [← hx] at h1
    have h2 := (abs_le.1 (Real.abs_exp_sub_one_sub_id_le (x := x) (by rw [abs_of_nonneg hx0]; linarith))).2
    have h3 : x ^ 2 ≤ 0.05 * x := by nlinarith
    have h4 : 1.05 * x ≤ 8e-7 * (n + 1) := by rw [hx]; norm_num; linarith
    linarith
  have lo1 : 1 - 7.6e-7 * (n + 1) ≤ size m n := by
    refine le_trans ?_ (lo n hn)
    have := one_add_mul_le_pow (a := (-7.6e-7 : ℝ)) (by norm_num) (n + 1)
    push_cast at this
    rw [show (1 : ℝ) + -7.6e-7 = 1 - 7.6e-7 by ring] at this
    linarith
  exact ⟨lo1, up1⟩

/-- Factors normalised to within the accuracy of `normalize` form a chain, as long as there are at most
65536 of them. -/
theorem Chain.of_unit (hf : ∀ i ≤ N, Fin (m i)) (hu : ∀ i ≤ N, |‖q1 (m i)‖ ^ 2 - 1| ≤ 1.5e-6) (hC : In2 C 20 20) (ht : ∀ i, 0 ≤ t i)
    (h2 : ∀ i ≤ N, ‖q2 (m i)‖ ≤ ‖q1 (m i)‖ * t i) (hs : 2 * ∑ i ∈ Finset.range (N + 1), t i ≤ C) (hN : N < 65536) :
    Chain m t C N := by
  refine ⟨hf, fun i hi => ?_, fun i hi => ?_, hC, ht, h2, hs⟩
  · have h1 := abs_le.1 (hu i hi)
    have h2 := norm_nonneg (q1 (m i))
    norm_num at h1
    constructor <;> norm_num <;> nlinarith
  · obtain ⟨h1, h2⟩ := size_unit hu hi (lt_of_le_of_lt hi hN)
    have hN' : (i : ℝ) + 1 ≤ 65536 := by exact_mod_cast lt_of_le_of_lt hi hN
    norm_num at h1 h2
    constructor <;> norm_num <;> linarith

/-- C91: if every factor is normalised to within the accuracy of `normalize` (C70), the norm of the
product drifts by at most `3e-6` per factor. -/
theorem C91_unit (h : Chain m t C N) (hu : ∀ i ≤ N, |‖q1 (m i)‖ ^ 2 - 1| ≤ 1.5e-6) {n : ℕ} (hn : n ≤ N) (hN : n < 65536) :
    |‖q1 (prod m n)‖ - 1| ≤ 3e-6 * (n + 1) := by
  obtain ⟨-, e1, -⟩ := invariant h hn hN.le
  have hS0 := (h.size n hn).pos
  have hg := g_le hN.le
  have hg1 := g_le' hN.le
  have hg0 := g_nonneg n
  have hn0 : (0 : ℝ) ≤ n := Nat.cast_nonneg n
  have hN' : (n : ℝ) + 1 ≤ 65536 := by exact_mod_cast hN
  have x1 : ‖(exact m n).toDQ.1‖ = size m n := exact_norm1 n
  have e := abs_le.1 ((abs_norm_sub_norm_le (q1 (prod m n)) (exact m n).toDQ.1).trans e1)
  rw [x1] at e
  obtain ⟨lo1, up1⟩ := size_unit hu hn hN
  have hS1 : size m n ≤ 1.06 := by norm_num at up1 ⊢; linarith
  have k1 : g n * size m n ≤ 1.9e-6 * n * 1.06 := mul_le_mul hg hS1 hS0.le (by positivity)
  rw [abs_le]
  norm_num at e k1 up1 lo1 ⊢
  constructor <;> linarith

/-- The action on a point depends continuously on the motor. -/
theorem point_lip (a b A B V : ℍ[ℝ]) (w : ℝ) :
    ‖(a * V * star a + w • (a * star b - b * star a)) - (A * V * star A + w • (A * star B - B * star A))‖ ≤
      (‖a‖ + ‖A‖) * ‖a - A‖ * ‖V‖ + |w| * (2 * (‖a‖ * ‖b - B‖ + ‖a - A‖ * ‖B‖)) := by
  have k : (a * V * star a + w • (a * star b - b * star a)) - (A * V * star A + w • (A * star B - B * star A)) =
      ((a - A) * V * star a + A * V * star (a - A)) +
      w • ((a * star (b - B) + (a - A) * star B) - ((b - B) * star a + B * star (a - A))) := by
    rw [star_sub, star_sub, show a * V * star a = a * V * star a - A * V * star a + A * V * star a by abel]
    simp only [mul_sub, sub_mul, smul_sub, smul_add]
    abel
  rw [k]
  have s1 : ‖(a - A) * V * star a + A * V * star (a - A)‖ ≤ (‖a‖ + ‖A‖) * ‖a - A‖ * ‖V‖ := by
    refine (norm_add_le _ _).trans (le_of_eq ?_)
    simp only [norm_mul, norm_star]
    ring
  have s2 : ‖(a * star (b - B) + (a - A) * star B) - ((b - B) * star a + B * star (a - A))‖ ≤ 2 * (‖a‖ * ‖b - B‖ + ‖a - A‖ * ‖B‖) := by
    refine (norm_sub_le _ _).trans ?_
    refine (add_le_add (norm_add_le _ _) (norm_add_le _ _)).trans (le_of_eq ?_)
    simp only [norm_mul, norm_star]
    ring
  refine (norm_add_le _ _).trans (add_le_add s1 ?_)
  rw [norm_smul, Real.norm_eq_abs]
  exact mul_le_mul_of_nonneg_left s2 (abs_nonneg _)

private theorem num4 {a d1 d2 V w n1 G S B C T P : ℝ} (h1 : d1 ≤ G * S) (h2 : d2 ≤ 3 * C * G * S) (ha : a ≤ (1 + G) * S)
    (hV : V ≤ B * C) (hw : w ≤ B) (hn : n1 ≤ 266 * u * (((1 + G) * S) ^ 2 * B * C)) (hT : T ≤ S * (C / 2)) (hG : 0 ≤ G) (hG' : G ≤ 1 / 8)
    (hGn : G ≤ 1.9e-6 * P)
    (hS : 0 < S) (hB : 0 < B) (hC : 0 < C) (a0 : 0 ≤ a) (d10 : 0 ≤ d1) (d20 : 0 ≤ d2) (V0 : 0 ≤ V) (T0 : 0 ≤ T) :
    n1 + ((a + S) * d1 * V + w * (2 * (a * d2 + d1 * T))) ≤ 2.1e-5 * (P + 1) * (S ^ 2 * B * C) := by
  have k1 : (a + S) * d1 * V ≤ ((1 + G) * S + S) * (G * S) * (B * C) := by gcongr
  have k2 : w * (2 * (a * d2 + d1 * T)) ≤ B * (2 * (((1 + G) * S) * (3 * C * G * S) + (G * S) * (S * (C / 2)))) := by gcongr
  have e1 : (1 + G) ^ 2 ≤ 1.27 := by nlinarith
  have e2 : (2 + G) * G + 2 * (1 + G) * 3 * G + G ≤ 9.875 * (1.9e-6 * P) := by
    have : (2 + G) * G + 2 * (1 + G) * 3 * G + G ≤ 9.875 * G := by nlinarith
    linarith
  have e3 : 266 * u * (1 + G) ^ 2 ≤ 2.1e-5 := by
    have : 266 * u * (1 + G) ^ 2 ≤ 266 * u * 1.27 := mul_le_mul_of_nonneg_left e1 (by linarith [u_pos])
    refine this.trans ?_
    unfold u; norm_num
  have X : 0 < S ^ 2 * B * C := by positivity
  have k3 := mul_le_mul_of_nonneg_right (add_le_add e3 e2) X.le
  have k4 : (2.1e-5 + 9.875 * (1.9e-6 * P)) * (S ^ 2 * B * C) ≤ 2.1e-5 * (P + 1) * (S ^ 2 * B * C) := by
    refine mul_le_mul_of_nonneg_right ?_ X.le
    norm_num; linarith
  refine le_trans (add_le_add hn (add_le_add k1 k2)) (le_trans (le_of_eq ?_) (k3.trans k4))
  ring

/-- C91: moving a point by the product of `n + 1` motors, everything in binary32, is within
`2.1e-5 (n + 1)` of the exact image, relative to the sizes.  `B` bounds the weight of the point and
`B C` its coordinates. -/
theorem C91_point (h : Chain m t C N) {n : ℕ} (hn : n ≤ N) (hN : n ≤ 65536) {v : Point F32} {B : ℝ} (hB : In2 B 24 24)
    (hv : ∀ i, (v.p3.get i).isFinite = true) (hw : |v.real.p3.l0| ≤ B) (hp : ‖v.real.pure‖ ≤ B * C) :
    ‖((prod m n).onPoint v).real.pure - ((exact m n).onPoint v.real).pure‖ ≤
      2.1e-5 * (n + 1) * (size m n ^ 2 * B * C) := by
  obtain ⟨hf, e1, e2⟩ := invariant h hn hN
  have hS := h.size n hn
  have hS0 := hS.pos
  have hC0 := h.len.pos
  have hB0 := hB.pos
  have ps := h.partial_sum hn
  have hg := g_le' hN
  have hg0 := g_nonneg n
  have x1 : ‖(exact m n).toDQ.1‖ = size m n := exact_norm1 n
  have x2 := exact_norm2 h hn
  have T0 : 0 ≤ ∑ i ∈ Finset.range (n + 1), t i := Finset.sum_nonneg fun i _ => h.t_nonneg i
  have e2' : ‖q2 (prod m n) - (exact m n).toDQ.2‖ ≤ 3 * C * g n * size m n := by
    refine e2.trans ?_
    have : 2.5 * C + ∑ i ∈ Finset.range (n + 1), t i ≤ 3 * C := by linarith
    gcongr
  have x2' : ‖(exact m n).toDQ.2‖ ≤ size m n * (C / 2) := x2.trans (mul_le_mul_of_nonneg_left (by linarith) hS0.le)
  have b1 : ‖q1 (prod m n)‖ ≤ (1 + g n) * size m n := by
    have := norm_le_norm_add_norm_sub (exact m n).toDQ.1 (q1 (prod m n))
    rw [x1] at this
    rw [norm_sub_rev] at e1
    linarith
  have b2 : ‖q2 (prod m n)‖ ≤ (1 + g n) * size m n * C := by
    have := norm_le_norm_add_norm_sub (exact m n).toDQ.2 (q2 (prod m n))
    rw [norm_sub_rev] at e2
    have k : size m n * ∑ i ∈ Finset.range (n + 1), t i + (2.5 * C + ∑ i ∈ Finset.range (n + 1), t i) * g n * size m n ≤
        (1 + g n) * size m n * C := by
      have := num1 hg T0 ps hS0
      have h0 : 0 ≤ g n * size m n * C := by positivity
      nlinarith
    linarith
  have hA : In2 ((1 + g n) * size m n) 24 24 := by
    constructor
    · have := hS.1
      have h0 : 0 ≤ g n * size m n := by positivity
      norm_num at this ⊢
      linarith
    · have := hS.2
      have h0 : g n * size m n ≤ 1 / 8 * size m n := by gcongr
      norm_num at this ⊢
      linarith
  obtain ⟨a0, a1, a2, a3⟩ := le_norm v.real.pure
  have hvW : v.Within B C := ⟨hv, hw, a1.trans hp, a2.trans hp, a3.trans hp⟩
  obtain ⟨-, ⟨-, d1⟩, ⟨-, d2⟩, -, d3⟩ := C90_motor_on_point hA hB h.len (within hf b1 b2) hvW
  have n1 : ‖((prod m n).onPoint v).real.pure - ((prod m n).real.onPoint v.real).pure‖ ≤
      266 * u * (((1 + g n) * size m n) ^ 2 * B * C) := by
    refine (norm_le (e := 133 * (((1 + g n) * size m n) ^ 2 * B * C) / 2 ^ 24) (by positivity) ?_ d1 d2 d3).trans (le_of_eq ?_)
    · rw [Quaternion.re_sub, Point.pure_re, Point.pure_re, sub_self, abs_zero]; positivity
    · unfold u; ring
  have n2 := point_lip (q1 (prod m n)) (q2 (prod m n)) (exact m n).toDQ.1 (exact m n).toDQ.2 v.real.pure v.real.p3.l0
  have f1 : ((prod m n).real.onPoint v.real).pure = _ := (C81_point_quat (prod m n).real v.real).1
  have f2 := (C81_point_quat (exact m n) v.real).1
  have n3 := norm_sub_le_norm_sub_add_norm_sub ((prod m n).onPoint v).real.pure ((prod m n).real.onPoint v.real).pure ((exact m n).onPoint v.real).pure
  rw [← f2] at n2
  replace n2 : ‖((prod m n).real.onPoint v.real).pure - ((exact m n).onPoint v.real).pure‖ ≤ _ := f1 ▸ n2
  rw [x1] at n2
  exact n3.trans ((add_le_add le_rfl n2).trans (num4 e1 e2' b1 hp hw n1 x2' hg0 hg (g_le hN) hS0 hB0 hC0
    (norm_nonneg _) (norm_nonneg _) (norm_nonneg _) (norm_nonneg _) (norm_nonneg _)))

/-- The exact product scales distances by the square of its size. -/
theorem exact_distance (n : ℕ) (v w : Point ℝ) (hw : v.p3.l0 = w.p3.l0) :
    ‖((exact m n).onPoint v).pure - ((exact m n).onPoint w).pure‖ = size m n ^ 2 * ‖v.pure - w.pure‖ := by
  rw [(C81_point_quat (exact m n) v).1, (C81_point_quat (exact m n) w).1, hw, add_sub_add_right_eq_sub, ← sub_mul, ← mul_sub,
    norm_mul, norm_mul, norm_star, exact_norm1]
  ring

/-- C91: distances between points of the same weight survive a long product of motors in binary32. -/
theorem C91_distance (h : Chain m t C N) {n : ℕ} (hn : n ≤ N) (hN : n ≤ 65536) {v w : Point F32} {B : ℝ} (hB : In2 B 24 24)
    (hv : ∀ i, (v.p3.get i).isFinite = true) (hv1 : |v.real.p3.l0| ≤ B) (hv2 : ‖v.real.pure‖ ≤ B * C)
    (hw : ∀ i, (w.p3.get i).isFinite = true) (hw2 : ‖w.real.pure‖ ≤ B * C) (he : v.real.p3.l0 = w.real.p3.l0) :
    |‖((prod m n).onPoint v).real.pure - ((prod m n).onPoint w).real.pure‖ - size m n ^ 2 * ‖v.real.pure - w.real.pure‖| ≤
      4.2e-5 * (n + 1) * (size m n ^ 2 * B * C) := by
  have k1 := C91_point h hn hN hB hv hv1 hv2
  have k2 := C91_point h hn hN hB hw (he ▸ hv1) hw2
  rw [← exact_distance n v.real w.real he]
  refine (abs_norm_sub_norm_le _ _).trans ?_
  rw [sub_sub_sub_comm]
  refine (norm_sub_le _ _).trans ((add_le_add k1 k2).trans (le_of_eq ?_))
  ring

/-! ### a concrete chain -/

/-- A rotation with cosine 0.8 and sine 0.6, both rounded, and a shift. -/
def sample : Motor F32 := ⟨⟨ofMag false 0x3f4ccccd, ofMag false 0x3f19999a, 0, 0⟩, ⟨0, ofMag false 0x3f000000, 0, 0⟩⟩

theorem normSq_sample : ‖q1 sample‖ ^ 2 =
    ((sample.p1.l0.val ^ 2 + sample.p1.l1.val ^ 2 + sample.p1.l2.val ^ 2 + sample.p1.l3.val ^ 2 : ℚ) : ℝ) := by
  rw [sq, ← Quaternion.normSq_eq_norm_mul_self, Quaternion.normSq_def']
  have e0 : (q1 sample).re = r sample.p1.l0 := rfl
  have e1 : (q1 sample).imI = -r sample.p1.l1 := rfl
  have e2 : (q1 sample).imJ = -r sample.p1.l2 := rfl
  have e3 : (q1 sample).imK = -r sample.p1.l3 := rfl
  rw [e0, e1, e2, e3]
  unfold r
  push_cast
  ring

theorem unit_sample : |‖q1 sample‖ ^ 2 - 1| ≤ 1.5e-6 := by
  rw [normSq_sample]
  have h : |(sample.p1.l0.val ^ 2 + sample.p1.l1.val ^ 2 + sample.p1.l2.val ^ 2 + sample.p1.l3.val ^ 2 : ℚ) - 1| ≤ 1.5e-6 := by
    decide +kernel
  have := (Rat.cast_le (K := ℝ)).2 h
  push_cast at this ⊢
  exact this

theorem fin_sample : Fin sample := by unfold Fin; decide +kernel

/-- It is not a unit: the roundings show. -/
example : (sample.p1.l0.val ^ 2 + sample.p1.l1.val ^ 2 : ℚ) ≠ 1 := by decide +kernel

theorem trans_sample : ‖q2 sample‖ ≤ ‖q1 sample‖ * 1.01 := by
  have h2 : ‖q2 sample‖ ≤ 2 * (1 / 2) := by
    have f : sample.p2.Fits 0 (1 / 2) := by
      refine ⟨by decide +kernel, ?_, ?_, ?_, ?_⟩
      · rw [show r sample.p2.l0 = ((0 : ℚ) : ℝ) from congrArg (Rat.cast (K := ℝ)) (show sample.p2.l0.val = 0 by decide +kernel)]; norm_num
      · rw [show r sample.p2.l1 = ((1 / 2 : ℚ) : ℝ) from congrArg (Rat.cast (K := ℝ)) (show sample.p2.l1.val = 1 / 2 by decide +kernel)]; norm_num
      · rw [show r sample.p2.l2 = ((0 : ℚ) : ℝ) from congrArg (Rat.cast (K := ℝ)) (show sample.p2.l2.val = 0 by decide +kernel)]; norm_num
      · rw [show r sample.p2.l3 = ((0 : ℚ) : ℝ) from congrArg (Rat.cast (K := ℝ)) (show sample.p2.l3.val = 0 by decide +kernel)]; norm_num
    exact norm_le (by norm_num) (f.2.1.trans (by norm_num)) f.2.2.1 f.2.2.2.1 f.2.2.2.2
  have h1 := abs_le.1 unit_sample
  have h0 := norm_nonneg (q1 sample)
  norm_num at h1 ⊢
  nlinarith

/-- Ten thousand copies of it, multiplied in binary32. -/
theorem chain_sample : Chain (fun _ => sample) (fun _ => 1.01) 20200 9999 := by
  refine Chain.of_unit (fun _ _ => fin_sample) (fun _ _ => unit_sample) ⟨by norm_num, by norm_num⟩ (fun _ => by norm_num)
    (fun _ _ => trans_sample) ?_ (by norm_num)
  rw [Finset.sum_const, Finset.card_range]
  norm_num

/-- Their product is a unit to within three per cent. -/
example : |‖q1 (prod (fun _ => sample) 9999)‖ - 1| ≤ 0.03 := by
  have := C91_unit chain_sample (fun _ _ => unit_sample) (n := 9999) (by norm_num) (by norm_num)
  norm_num at this ⊢
  exact this

end

end Drift32
end Klein
