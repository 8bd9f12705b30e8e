import Verif.Float.Contracted
import Verif.Props.Contract32
import Verif.Props.ContractInv32
import Verif.Props.Kinematics32

/-!
# C114: chains of motors and moving points with fused multiply-adds

The bounds of C91, C107 and C111 for compilers that fuse products with the sums they enter.  Every product of
motors and every motion of a point may be compiled differently (`Ex.Can`).  The whole computation run on the
lanes of one compiler (`Fl ω`, C113) is a case of this, because the inputs of these operations are multiplied
before anything is added, so that nothing is fused across the steps.
-/

namespace Klein

open F32 Products32 Contract32 Ex
open scoped Quaternion

variable {ω : Compiler}

/-! ### lanes of one compiler are among the possible values -/

namespace Ex

/-- An input or its negative. -/
def bare : Ex → Bool
  | v _ => true
  | neg a => bare a
  | _ => false

/-- No input is an operand of a sum or difference. -/
def inner : Ex → Bool
  | add a b => (inner a && inner b) && (!bare a && !bare b)
  | sub a b => (inner a && inner b) && (!bare a && !bare b)
  | mul a b => inner a && inner b
  | neg a => inner a
  | _ => true

def inner4 (v : V4 Ex) : Bool := (inner v.l0 && inner v.l1) && (inner v.l2 && inner v.l3)

/-- What a compiler computes for an expression that adds no inputs is a value the expression may take, even if the
inputs are products. -/
theorem can_fl (A : ℕ → Fl ω) (e : Ex) (he : inner e = true) :
    Can (fun n => (A n).val) e (eval A e).val ∧
      (bare e = false → ∀ x y s, (eval A e).prod = some (x, y, s) →
        ∃ a b, IsProd e a b s ∧ Can (fun n => (A n).val) a x ∧ Can (fun n => (A n).val) b y) := by
  induction e with
  | v n => exact ⟨.v n, fun h => by cases h⟩
  | zero => exact ⟨.zero, fun _ x y s h => by cases h⟩
  | one => exact ⟨.one, fun _ x y s h => by cases h⟩
  | nat n => exact ⟨.nat n, fun _ x y s h => by cases h⟩
  | add a b ha hb =>
    simp only [inner, Bool.and_eq_true, Bool.not_eq_true'] at he
    obtain ⟨⟨ia, ib⟩, na, nb⟩ := he
    replace ha := ha ia
    replace hb := hb ib
    refine ⟨?_, fun _ x y s h => by cases h⟩
    show Can _ (add a b) (eval A a + eval A b).val
    rcases Fl.add_cases (eval A a) (eval A b) with h | ⟨x, y, s, hp, h⟩ | ⟨x, y, s, hp, h⟩ <;> rw [h]
    · exact .add ha.1 hb.1
    · obtain ⟨_, _, h1, h2, h3⟩ := ha.2 na x y s hp
      exact .addL h1 h2 h3 hb.1
    · obtain ⟨_, _, h1, h2, h3⟩ := hb.2 nb x y s hp
      exact .addR h1 h2 h3 ha.1
  | sub a b ha hb =>
    simp only [inner, Bool.and_eq_true, Bool.not_eq_true'] at he
    obtain ⟨⟨ia, ib⟩, na, nb⟩ := he
    replace ha := ha ia
    replace hb := hb ib
    refine ⟨?_, fun _ x y s h => by cases h⟩
    show Can _ (sub a b) (eval A a - eval A b).val
    rcases Fl.sub_cases (eval A a) (eval A b) with h | ⟨x, y, s, hp, h⟩ | ⟨x, y, s, hp, h⟩ <;> rw [h]
    · exact .sub ha.1 hb.1
    · obtain ⟨_, _, h1, h2, h3⟩ := ha.2 na x y s hp
      exact .subL h1 h2 h3 hb.1
    · obtain ⟨_, _, h1, h2, h3⟩ := hb.2 nb x y s hp
      exact .subR h1 h2 h3 ha.1
  | mul a b ha hb =>
    simp only [inner, Bool.and_eq_true] at he
    replace ha := ha he.1
    replace hb := hb he.2
    refine ⟨.mul ha.1 hb.1, fun _ x y s h => ?_⟩
    cases h
    exact ⟨a, b, .mul a b, ha.1, hb.1⟩
  | neg a ha =>
    replace ha := ha he
    refine ⟨.neg ha.1, fun hn x y s h => ?_⟩
    change (eval A a).prod.map (fun p => (p.1, p.2.1, !p.2.2)) = some (x, y, s) at h
    rcases hp : (eval A a).prod with _ | ⟨x', y', s'⟩ <;> rw [hp] at h
    · cases h
    · cases h
      obtain ⟨c, d, h1, h2, h3⟩ := ha.2 hn x' y' s' hp
      exact ⟨c, d, .neg h1, h2, h3⟩

end Ex

namespace ContractChain32

/-- `z` is a motor a contracting compiler may compute for `x * y`. -/
def MulRun (x y z : Motor F32) : Prop :=
  CanV (env x.p1 x.p2 y.p1 y.p2) ((Motor.mk X X').mulMotor (Motor.mk Y Y')).p1 z.p1 ∧
  CanV (env x.p1 x.p2 y.p1 y.p2) ((Motor.mk X X').mulMotor (Motor.mk Y Y')).p2 z.p2

/-- `q` is a point a contracting compiler may compute for `m(p)`. -/
def PointRun (m : Motor F32) (p q : Point F32) : Prop :=
  CanV (env m.p1 m.p2 p.p3 p.p3) ((Motor.mk X X').onPoint (Point.mk Y)).p3 q.p3

/-! ### products -/

section Chain
open Drift32

/-- One product, contracted. -/
theorem step {x y z : Motor F32} {C : ℝ} (hz : MulRun x y z) (hx : Fin x) (hy : Fin y) (hA : In2 ‖q1 x‖ 24 24) (hB : In2 ‖q1 y‖ 24 24)
    (hC : In2 C 20 20) (h1 : ‖q2 x‖ ≤ ‖q1 x‖ * C) (h2 : ‖q2 y‖ ≤ ‖q1 y‖ * C) :
    Fin z ∧ ‖q1 z - q1 x * q1 y‖ ≤ 28 * u * (‖q1 x‖ * ‖q1 y‖) ∧
    ‖q2 z - (q1 x * q2 y + q2 x * q1 y)‖ ≤ 70 * u * (‖q1 x‖ * ‖q1 y‖ * C) := by
  obtain ⟨n1, n2⟩ := C94_motor_mul_motor hA hB hC (within hx le_rfl h1) (within hy le_rfl h2) hz.1 hz.2
  obtain ⟨⟨f0, e0⟩, ⟨f1, e1⟩, ⟨f2, e2⟩, f3, e3⟩ := n1
  obtain ⟨⟨g0, d0⟩, ⟨g1, d1⟩, ⟨g2, d2⟩, g3, d3⟩ := n2
  have hA0 := hA.pos
  have hB0 := hB.pos
  have hC0 := hC.pos
  have r1 : (x.real.mulMotor y.real).toDQ.1 = q1 x * q1 y := congrArg Prod.fst (C81_motor_mul x.real y.real)
  have r2 : (x.real.mulMotor y.real).toDQ.2 = q1 x * q2 y + q2 x * q1 y := congrArg Prod.snd (C81_motor_mul x.real y.real)
  refine ⟨⟨fun i => match i with | 0 => f0 | 1 => f1 | 2 => f2 | 3 => f3,
    fun i => match i with | 0 => g0 | 1 => g1 | 2 => g2 | 3 => g3⟩, ?_, ?_⟩
  · rw [← r1]
    have neg : ∀ a b e : ℝ, |a - b| ≤ e → |-a - -b| ≤ e := fun a b e h => by
      rw [show -a - -b = -(a - b) by ring, abs_neg]; exact h
    refine (norm_le (e := 14 * (‖q1 x‖ * ‖q1 y‖) / 2 ^ 24) (by positivity) e0 (neg _ _ _ e1) (neg _ _ _ e2) (neg _ _ _ e3)).trans (le_of_eq ?_)
    unfold u; ring
  · rw [← r2]
    refine (norm_le (e := 35 * (‖q1 x‖ * ‖q1 y‖ * C) / 2 ^ 24) (by positivity) d0 d1 d2 d3).trans (le_of_eq ?_)
    unfold u; ring

variable {m : ℕ → Motor F32} {P : ℕ → Motor F32} {t : ℕ → ℝ} {C : ℝ} {N : ℕ}

/-- `P n` is a value of the product `m 0 * m 1 * ... * m n`, each product being compiled in some way. -/
structure Chained (m P : ℕ → Motor F32) (N : ℕ) : Prop where
  zero : P 0 = m 0
  succ : ∀ n < N, MulRun (P n) (m (n + 1)) (P (n + 1))

private theorem num1 {C G S T : ℝ} (hG' : G ≤ 1 / 8) (hT : 0 ≤ T) (h : 2 * T ≤ C) (hS : 0 < S) :
    (2.5 * C + T) * G * S + S * T ≤ (1 - G) * S * C := by
  have k : T + (2.5 * C + T) * G ≤ (1 - G) * C := by nlinarith
  nlinarith

private theorem num2 {d e A B G S : ℝ} (h1 : d ≤ 28 * u * (A * B)) (h2 : e ≤ G * S) (hA : A ≤ (1 + G) * S) (hB : 0 ≤ B) :
    d + e * B ≤ (G + 28 * u * (1 + G)) * (S * B) := by
  have hu := u_pos
  have k1 : 28 * u * (A * B) ≤ 28 * u * ((1 + G) * S * B) := by gcongr
  have k2 : e * B ≤ G * S * B := by gcongr
  linarith

private theorem num3 {d e f A B C G S T t b : ℝ} (h1 : d ≤ 70 * u * (A * B * C)) (h2 : e ≤ G * S) (h3 : f ≤ (2.5 * C + T) * G * S)
    (hA : A ≤ (1 + G) * S) (hb : b ≤ B * t) (hB : 0 ≤ B) (hC : 0 ≤ C) (hS : 0 ≤ S) (hG : 0 ≤ G) (hT : 0 ≤ T) (ht : 0 ≤ t)
    (he : 0 ≤ e) : d + (e * b + f * B) ≤ (2.5 * C + (T + t)) * (G + 28 * u * (1 + G)) * (S * B) := by
  have hu := u_pos
  have k1 : 70 * u * (A * B * C) ≤ 70 * u * ((1 + G) * S * B * C) := by gcongr
  have k2 : f * B ≤ (2.5 * C + T) * G * S * B := by gcongr
  have k3 : e * b ≤ G * S * (B * t) := by
    refine (mul_le_mul_of_nonneg_left hb he).trans ?_
    gcongr
  have k4 : 0 ≤ (T + t) * (28 * u * (1 + G)) * (S * B) := by positivity
  nlinarith

/-- The invariant of the chain. -/
theorem invariant (hP : Chained m P N) (h : Chain m t C N) {n : ℕ} (hn : n ≤ N) (hN : n ≤ 65536) :
    Fin (P n) ∧ ‖q1 (P n) - (exact m n).toDQ.1‖ ≤ g n * size m n ∧
    ‖q2 (P n) - (exact m n).toDQ.2‖ ≤ (2.5 * C + ∑ i ∈ Finset.range (n + 1), t i) * g n * size m n := by
  induction n with
  | zero =>
    rw [hP.zero]
    refine ⟨h.fin 0 hn, ?_, ?_⟩
    · show ‖q1 (m 0) - q1 (m 0)‖ ≤ _
      rw [sub_self, norm_zero, g_zero, zero_mul]
    · show ‖q2 (m 0) - q2 (m 0)‖ ≤ _
      rw [sub_self, norm_zero, g_zero, mul_zero, zero_mul]
  | succ n ih =>
    have hn' := Nat.le_of_succ_le hn
    obtain ⟨hf, e1, e2⟩ := ih hn' (Nat.le_of_succ_le hN)
    have hS := h.size n hn'
    have hS0 := hS.pos
    have hC0 := h.len.pos
    have hg := g_le' (Nat.le_of_succ_le hN)
    have hg0 := g_nonneg n
    have ps := h.partial_sum hn
    have ps' := h.partial_sum hn'
    have hT0 : 0 ≤ ∑ i ∈ Finset.range (n + 1), t i := Finset.sum_nonneg fun i _ => h.t_nonneg i
    have x2 := exact_norm2 h hn'
    have x1 : ‖(exact m n).toDQ.1‖ = size m n := exact_norm1 n
    have hm := h.trans (n + 1) hn
    have ht := h.t_nonneg (n + 1)
    rw [Finset.sum_range_succ] at ps ⊢
    rw [size_succ, g_succ, exact_succ1, exact_succ2]
    have hB := h.size_i (n + 1) hn
    have hB0 := hB.pos
    -- the sizes of the rounded product
    have a1 : ‖q1 (P n)‖ ≤ (1 + g n) * size m n := by
      have := norm_add_le (q1 (P n) - (exact m n).toDQ.1) (exact m n).toDQ.1
      rw [sub_add_cancel, x1] at this
      linarith
    have a2 : (1 - g n) * size m n ≤ ‖q1 (P n)‖ := by
      have := norm_sub_norm_le (exact m n).toDQ.1 (q1 (P n))
      rw [norm_sub_rev, x1] at this
      linarith
    have a3 : ‖q2 (P n)‖ ≤ ‖q1 (P n)‖ * C := by
      have := norm_add_le (q2 (P n) - (exact m n).toDQ.2) (exact m n).toDQ.2
      rw [sub_add_cancel] at this
      exact (this.trans (add_le_add e2 x2)).trans
        ((num1 hg hT0 ps' hS0).trans (mul_le_mul_of_nonneg_right a2 hC0.le))
    have hA : In2 ‖q1 (P n)‖ 24 24 := by
      refine ⟨?_, ?_⟩
      · have := hS.lo
        refine le_trans ?_ a2
        have : (1 : ℝ) / 2 ^ 24 ≤ 7 / 8 * (1 / 2 ^ 20) := by norm_num
        nlinarith
      · have := hS.hi
        refine a1.trans ?_
        have : (9 : ℝ) / 8 * 2 ^ 20 ≤ 2 ^ 24 := by norm_num
        nlinarith
    obtain ⟨f, d1, d2⟩ := step (hP.succ n hn) hf (h.fin (n + 1) hn) hA hB h.len a3
      (hm.trans (mul_le_mul_of_nonneg_left (by linarith) hB0.le))
    refine ⟨f, ?_, ?_⟩
    · show ‖q1 (P (n + 1)) - _‖ ≤ _
      have k : q1 (P (n + 1)) - (exact m n).toDQ.1 * q1 (m (n + 1)) =
          (q1 (P (n + 1)) - q1 (P n) * q1 (m (n + 1))) +
            (q1 (P n) - (exact m n).toDQ.1) * q1 (m (n + 1)) := by
        rw [sub_mul]; abel
      rw [k]
      refine (norm_add_le _ _).trans ?_
      rw [norm_mul]
      exact num2 d1 e1 a1 hB0.le
    · show ‖q2 (P (n + 1)) - _‖ ≤ _
      have k : q2 (P (n + 1)) - ((exact m n).toDQ.1 * q2 (m (n + 1)) + (exact m n).toDQ.2 * q1 (m (n + 1))) =
          (q2 (P (n + 1)) - (q1 (P n) * q2 (m (n + 1)) + q2 (P n) * q1 (m (n + 1)))) +
            ((q1 (P n) - (exact m n).toDQ.1) * q2 (m (n + 1)) + (q2 (P n) - (exact m n).toDQ.2) * q1 (m (n + 1))) := by
        rw [sub_mul, sub_mul]; abel
      rw [k]
      refine (norm_add_le _ _).trans ((add_le_add_right (norm_add_le _ _) _).trans ?_)
      rw [norm_mul, norm_mul]
      exact num3 d2 e1 e2 a1 hm hB0.le hC0.le hS0.le hg0 hT0 ht (norm_nonneg _)
/-- C114: the product of `n + 1` motors in binary32 is finite and within `1.9e-6 n` of the exact product,
relative to its size, and the moment within `5.7e-6 n` of the length `C`. -/
theorem C114_chain (hP : Chained m P N) (h : Chain m t C N) {n : ℕ} (hn : n ≤ N) (hN : n ≤ 65536) :
    Fin (P n) ∧ ‖q1 (P n) - (exact m n).toDQ.1‖ ≤ 1.9e-6 * n * size m n ∧
    ‖q2 (P n) - (exact m n).toDQ.2‖ ≤ 5.7e-6 * n * (size m n * C) := by
  obtain ⟨hf, e1, e2⟩ := invariant hP h hn hN
  have hS0 := (h.size n hn).pos
  have hC0 := h.len.pos
  have ps := h.partial_sum hn
  have hg := g_le hN
  have hg0 := g_nonneg n
  have hn0 : (0 : ℝ) ≤ n := Nat.cast_nonneg n
  refine ⟨hf, e1.trans (mul_le_mul_of_nonneg_right hg hS0.le), e2.trans ?_⟩
  calc _ ≤ (3 * C) * (1.9e-6 * n) * size m n := by
        refine mul_le_mul_of_nonneg_right (mul_le_mul (by linarith) hg hg0 (by positivity)) hS0.le
    _ = _ := by ring

/-- C114: if every factor is normalised to within the accuracy of `normalize` (C70), the norm of the
product drifts by at most `3e-6` per factor. -/
theorem C114_unit (hP : Chained m P N) (h : Chain m t C N) (hu : ∀ i ≤ N, |‖q1 (m i)‖ ^ 2 - 1| ≤ 1.5e-6) {n : ℕ} (hn : n ≤ N) (hN : n < 65536) :
    |‖q1 (P n)‖ - 1| ≤ 3e-6 * (n + 1) := by
  obtain ⟨-, e1, -⟩ := invariant hP h hn hN.le
  have hS0 := (h.size n hn).pos
  have hg := g_le hN.le
  have hg1 := g_le' hN.le
  have hg0 := g_nonneg n
  have hn0 : (0 : ℝ) ≤ n := Nat.cast_nonneg n
  have hN' : (n : ℝ) + 1 ≤ 65536 := by exact_mod_cast hN
  have x1 : ‖(exact m n).toDQ.1‖ = size m n := exact_norm1 n
  have e := abs_le.1 ((abs_norm_sub_norm_le (q1 (P n)) (exact m n).toDQ.1).trans e1)
  rw [x1] at e
  obtain ⟨lo1, up1⟩ := size_unit hu hn hN
  have hS1 : size m n ≤ 1.06 := by norm_num at up1 ⊢; linarith
  have k1 : g n * size m n ≤ 1.9e-6 * n * 1.06 := mul_le_mul hg hS1 hS0.le (by positivity)
  rw [abs_le]
  norm_num at e k1 up1 lo1 ⊢
  constructor <;> linarith

private theorem num4 {a d1 d2 V w n1 G S B C T P : ℝ} (h1 : d1 ≤ G * S) (h2 : d2 ≤ 3 * C * G * S) (ha : a ≤ (1 + G) * S)
    (hV : V ≤ B * C) (hw : w ≤ B) (hn : n1 ≤ 266 * u * (((1 + G) * S) ^ 2 * B * C)) (hT : T ≤ S * (C / 2)) (hG : 0 ≤ G) (hG' : G ≤ 1 / 8)
    (hGn : G ≤ 1.9e-6 * P)
    (hS : 0 < S) (hB : 0 < B) (hC : 0 < C) (a0 : 0 ≤ a) (d10 : 0 ≤ d1) (d20 : 0 ≤ d2) (V0 : 0 ≤ V) (T0 : 0 ≤ T) :
    n1 + ((a + S) * d1 * V + w * (2 * (a * d2 + d1 * T))) ≤ 2.1e-5 * (P + 1) * (S ^ 2 * B * C) := by
  have k1 : (a + S) * d1 * V ≤ ((1 + G) * S + S) * (G * S) * (B * C) := by gcongr
  have k2 : w * (2 * (a * d2 + d1 * T)) ≤ B * (2 * (((1 + G) * S) * (3 * C * G * S) + (G * S) * (S * (C / 2)))) := by gcongr
  have e1 : (1 + G) ^ 2 ≤ 1.27 := by nlinarith
  have e2 : (2 + G) * G + 2 * (1 + G) * 3 * G + G ≤ 9.875 * (1.9e-6 * P) := by
    have : (2 + G) * G + 2 * (1 + G) * 3 * G + G ≤ 9.875 * G := by nlinarith
    linarith
  have e3 : 266 * u * (1 + G) ^ 2 ≤ 2.1e-5 := by
    have : 266 * u * (1 + G) ^ 2 ≤ 266 * u * 1.27 := mul_le_mul_of_nonneg_left e1 (by linarith [u_pos])
    refine this.trans ?_
    unfold u; norm_num
  have X : 0 < S ^ 2 * B * C := by positivity
  have k3 := mul_le_mul_of_nonneg_right (add_le_add e3 e2) X.le
  have k4 : (2.1e-5 + 9.875 * (1.9e-6 * P)) * (S ^ 2 * B * C) ≤ 2.1e-5 * (P + 1) * (S ^ 2 * B * C) := by
    refine mul_le_mul_of_nonneg_right ?_ X.le
    norm_num; linarith
  refine le_trans (add_le_add hn (add_le_add k1 k2)) (le_trans (le_of_eq ?_) (k3.trans k4))
  ring

/-- C114: moving a point by the product of `n + 1` motors, everything in binary32, is within
`2.1e-5 (n + 1)` of the exact image, relative to the sizes.  `B` bounds the weight of the point and
`B C` its coordinates. -/
theorem C114_point (hP : Chained m P N) (h : Chain m t C N) {n : ℕ} (hn : n ≤ N) (hN : n ≤ 65536) {v : Point F32} {B : ℝ} (hB : In2 B 24 24)
    (hv : ∀ i, (v.p3.get i).isFinite = true) (hw : |v.real.p3.l0| ≤ B) (hp : ‖v.real.pure‖ ≤ B * C)
    {q : Point F32} (hq : PointRun (P n) v q) :
    ‖q.real.pure - ((exact m n).onPoint v.real).pure‖ ≤
      2.1e-5 * (n + 1) * (size m n ^ 2 * B * C) := by
  obtain ⟨hf, e1, e2⟩ := invariant hP h hn hN
  have hS := h.size n hn
  have hS0 := hS.pos
  have hC0 := h.len.pos
  have hB0 := hB.pos
  have ps := h.partial_sum hn
  have hg := g_le' hN
  have hg0 := g_nonneg n
  have x1 : ‖(exact m n).toDQ.1‖ = size m n := exact_norm1 n
  have x2 := exact_norm2 h hn
  have T0 : 0 ≤ ∑ i ∈ Finset.range (n + 1), t i := Finset.sum_nonneg fun i _ => h.t_nonneg i
  have e2' : ‖q2 (P n) - (exact m n).toDQ.2‖ ≤ 3 * C * g n * size m n := by
    refine e2.trans ?_
    have : 2.5 * C + ∑ i ∈ Finset.range (n + 1), t i ≤ 3 * C := by linarith
    gcongr
  have x2' : ‖(exact m n).toDQ.2‖ ≤ size m n * (C / 2) := x2.trans (mul_le_mul_of_nonneg_left (by linarith) hS0.le)
  have b1 : ‖q1 (P n)‖ ≤ (1 + g n) * size m n := by
    have := norm_le_norm_add_norm_sub (exact m n).toDQ.1 (q1 (P n))
    rw [x1] at this
    rw [norm_sub_rev] at e1
    linarith
  have b2 : ‖q2 (P n)‖ ≤ (1 + g n) * size m n * C := by
    have := norm_le_norm_add_norm_sub (exact m n).toDQ.2 (q2 (P n))
    rw [norm_sub_rev] at e2
    have k : size m n * ∑ i ∈ Finset.range (n + 1), t i + (2.5 * C + ∑ i ∈ Finset.range (n + 1), t i) * g n * size m n ≤
        (1 + g n) * size m n * C := by
      have := num1 hg T0 ps hS0
      have h0 : 0 ≤ g n * size m n * C := by positivity
      nlinarith
    linarith
  have hA : In2 ((1 + g n) * size m n) 24 24 := by
    constructor
    · have := hS.1
      have h0 : 0 ≤ g n * size m n := by positivity
      norm_num at this ⊢
      linarith
    · have := hS.2
      have h0 : g n * size m n ≤ 1 / 8 * size m n := by gcongr
      norm_num at this ⊢
      linarith
  obtain ⟨a0, a1, a2, a3⟩ := le_norm v.real.pure
  have hvW : v.Within B C := ⟨hv, hw, a1.trans hp, a2.trans hp, a3.trans hp⟩
  obtain ⟨-, ⟨-, d1⟩, ⟨-, d2⟩, -, d3⟩ := C94_motor_on_point hA hB h.len (within hf b1 b2) hvW hq
  have n1 : ‖q.real.pure - ((P n).real.onPoint v.real).pure‖ ≤
      266 * u * (((1 + g n) * size m n) ^ 2 * B * C) := by
    refine (norm_le (e := 133 * (((1 + g n) * size m n) ^ 2 * B * C) / 2 ^ 24) (by positivity) ?_ d1 d2 d3).trans (le_of_eq ?_)
    · rw [Quaternion.re_sub, Point.pure_re, Point.pure_re, sub_self, abs_zero]; positivity
    · unfold u; ring
  have n2 := point_lip (q1 (P n)) (q2 (P n)) (exact m n).toDQ.1 (exact m n).toDQ.2 v.real.pure v.real.p3.l0
  have f1 : ((P n).real.onPoint v.real).pure = _ := (C81_point_quat (P n).real v.real).1
  have f2 := (C81_point_quat (exact m n) v.real).1
  have n3 := norm_sub_le_norm_sub_add_norm_sub q.real.pure ((P n).real.onPoint v.real).pure ((exact m n).onPoint v.real).pure
  rw [← f2] at n2
  replace n2 : ‖((P n).real.onPoint v.real).pure - ((exact m n).onPoint v.real).pure‖ ≤ _ := f1 ▸ n2
  rw [x1] at n2
  exact n3.trans ((add_le_add le_rfl n2).trans (num4 e1 e2' b1 hp hw n1 x2' hg0 hg (g_le hN) hS0 hB0 hC0
    (norm_nonneg _) (norm_nonneg _) (norm_nonneg _) (norm_nonneg _) (norm_nonneg _)))

end Chain

/-! ### moving points -/

section Orbit
open Drift32 Orbit32

variable {m : ℕ → Motor F32} {t : ℕ → ℝ} {v w : Point F32} {L : ℝ} {N : ℕ} {Q R : ℕ → Point F32}

/-- `Q n` is a value of the point `v` moved by `m 0`, ..., `m (n - 1)`, each motion being compiled in some way. -/
structure Moved (m : ℕ → Motor F32) (v : Point F32) (Q : ℕ → Point F32) (N : ℕ) : Prop where
  zero : Q 0 = v
  succ : ∀ n < N, PointRun (m n) (Q n) (Q (n + 1))

private theorem num1Q {p S b L T G e x : ℝ} (hb : 0 < b) (hS : 0 < S) (hL : 0 < L) (hG : 0 ≤ G) (hG' : G ≤ 1 / 32)
    (h : 2 * (p + 2 * b * T) ≤ b * L) (hp : 0 ≤ p) (hx : x ≤ S * (p + 2 * b * T)) (he : e ≤ S * b * ((9.5 * L + 2 * T) * G)) :
    e + x ≤ S * b * (1 + G) * L := by
  have k1 : 4 * T ≤ L := by
    by_contra hn
    push Not at hn
    nlinarith
  have k2 : (9.5 * L + 2 * T) * G ≤ 10 * L * (1 / 32) := mul_le_mul (by linarith) hG' hG (by positivity)
  have k3 : S * b * ((9.5 * L + 2 * T) * G) ≤ S * b * (10 * L * (1 / 32)) := by gcongr
  have k4 : S * (p + 2 * b * T) ≤ S * (b * L / 2) := by gcongr; linarith
  have k5 : S * b * L ≤ S * b * (1 + G) * L := by
    have : 0 ≤ S * b * G * L := by positivity
    linarith
  have k6 : 0 ≤ S * b * L := by positivity
  linarith

/-- The invariant of the motion. -/
theorem invariantQ (hQ : Moved m v Q N) (h : Orbit m t v L N) {n : ℕ} (hn : n ≤ N) (hN : n ≤ 16384) :
    (∀ i, ((Q n).p3.get i).isFinite = true) ∧
    |(Q n).real.p3.l0 - (Orbit32.exact m v n).p3.l0| ≤ scale m n * weight v * g n ∧
    ‖(Q n).real.pure - (Orbit32.exact m v n).pure‖ ≤
      scale m n * weight v * ((9.5 * L + 2 * ∑ i ∈ Finset.range n, t i) * g n) := by
  induction n with
  | zero =>
    rw [hQ.zero]
    refine ⟨h.finv, ?_, ?_⟩
    · show |v.real.p3.l0 - v.real.p3.l0| ≤ _
      rw [sub_self, abs_zero, g_zero, mul_zero]
    · show ‖v.real.pure - v.real.pure‖ ≤ _
      rw [sub_self, norm_zero, g_zero, mul_zero, mul_zero]
  | succ n ih =>
    have hn' := Nat.le_of_succ_le hn
    obtain ⟨hf, e1, e2⟩ := ih hn' (Nat.le_of_succ_le hN)
    have hS := h.size n hn'
    have hS0 := h.scale_pos hn'
    have hb0 := h.weight_pos
    have hL0 := h.len.pos
    have hg := g_small (Nat.le_of_succ_le hN)
    have hg0 := g_nonneg n
    have ps := h.partial_sum hn'
    have T0 : 0 ≤ ∑ i ∈ Finset.range n, t i := Finset.sum_nonneg fun i _ => h.t_nonneg i
    have hm := h.trans n hn
    have ht := h.t_nonneg n
    have hA := h.size_i n hn
    have hA0 := hA.pos
    have xw := exact_weight (m := m) (v := v) n
    have x2 := Orbit32.exact_norm h hn'
    -- the sizes of the rounded point
    have hB : In2 (scale m n * weight v * (1 + g n)) 24 24 := by
      have k0 : 0 ≤ scale m n * weight v * g n := by positivity
      have k1 : scale m n * weight v * g n ≤ scale m n * weight v * (1 / 32) := by gcongr
      have := hS.1
      have := hS.2
      constructor
      · have : (1 : ℝ) / 2 ^ 24 ≤ 1 / 2 ^ 20 := by norm_num
        linarith
      · have : (33 : ℝ) / 32 * 2 ^ 20 ≤ 2 ^ 24 := by norm_num
        linarith
    have b1 : |(Q n).real.p3.l0| ≤ scale m n * weight v * (1 + g n) := by
      have := abs_add_le ((Q n).real.p3.l0 - (Orbit32.exact m v n).p3.l0) (Orbit32.exact m v n).p3.l0
      rw [sub_add_cancel] at this
      have k : |(Orbit32.exact m v n).p3.l0| = scale m n * weight v := by rw [xw, abs_mul, abs_of_pos hS0]; rfl
      linarith
    have b2 : ‖(Q n).real.pure‖ ≤ scale m n * weight v * (1 + g n) * L := by
      have := norm_add_le ((Q n).real.pure - (Orbit32.exact m v n).pure) (Orbit32.exact m v n).pure
      rw [sub_add_cancel] at this
      exact this.trans (num1Q hb0 hS0 hL0 hg0 hg ps (norm_nonneg _) x2 e2)
    have tL : t n ≤ L := by
      have ps' := h.partial_sum hn
      rw [Finset.sum_range_succ] at ps'
      have := norm_nonneg v.real.pure
      by_contra hc
      push Not at hc
      nlinarith
    obtain ⟨a0, a1, a2, a3⟩ := le_norm (Q n).real.pure
    have hvW : (Q n).Within (scale m n * weight v * (1 + g n)) L :=
      ⟨hf, b1, a1.trans b2, a2.trans b2, a3.trans b2⟩
    obtain ⟨⟨f0, d0⟩, ⟨f1, d1⟩, ⟨f2, d2⟩, f3, d3⟩ := C94_motor_on_point hA hB h.len
      (within (h.fin n hn) le_rfl (hm.trans (mul_le_mul_of_nonneg_left tL hA0.le))) hvW (hQ.succ n hn)
    refine ⟨fun i => match i with | 0 => f0 | 1 => f1 | 2 => f2 | 3 => f3, ?_, ?_⟩
    · have q := (C81_point_quat (m n).real (Q n).real).2
      have q' := (C81_point_quat (m n).real (Orbit32.exact m v n)).2
      have k := abs_add_le ((Q (n + 1)).real.p3.l0 - ((m n).real.onPoint (Q n).real).p3.l0)
        (((m n).real.onPoint (Q n).real).p3.l0 - (Orbit32.exact m v (n + 1)).p3.l0)
      rw [sub_add_sub_cancel] at k
      refine k.trans ?_
      rw [Orbit32.exact_succ, q, q', ← mul_sub, abs_mul, abs_of_nonneg (sq_nonneg ‖(m n).real.toDQ.1‖), scale_succ, g_succ]
      change |r (Q (n + 1)).p3.l0 - _| + ‖q1 (m n)‖ ^ 2 * _ ≤ _
      rw [q] at d0
      have k1 := mul_le_mul_of_nonneg_left e1 (sq_nonneg ‖q1 (m n)‖)
      have k2 : 17 * (‖q1 (m n)‖ ^ 2 * (scale m n * weight v * (1 + g n))) / 2 ^ 24 ≤
          scale m n * ‖q1 (m n)‖ ^ 2 * weight v * (28 * u * (1 + g n)) := by
        have : 0 ≤ ‖q1 (m n)‖ ^ 2 * (scale m n * weight v * (1 + g n)) := by positivity
        unfold u
        linarith
      linarith [d0.trans k2]
    · have q := (C81_point_quat (m n).real (Q n).real).1
      have q' := (C81_point_quat (m n).real (Orbit32.exact m v n)).1
      have n1 : ‖(Q (n + 1)).real.pure - ((m n).real.onPoint (Q n).real).pure‖ ≤
          266 * u * (‖q1 (m n)‖ ^ 2 * (scale m n * weight v * (1 + g n)) * L) := by
        refine (norm_le (e := 133 * (‖q1 (m n)‖ ^ 2 * (scale m n * weight v * (1 + g n)) * L) / 2 ^ 24) (by positivity) ?_ d1 d2 d3).trans (le_of_eq ?_)
        · rw [Quaternion.re_sub, Point.pure_re, Point.pure_re, sub_self, abs_zero]; positivity
        · unfold u; ring
      have n2 : ‖((m n).real.onPoint (Q n).real).pure - (Orbit32.exact m v (n + 1)).pure‖ ≤
          ‖q1 (m n)‖ ^ 2 * ‖(Q n).real.pure - (Orbit32.exact m v n).pure‖ +
          2 * |(Q n).real.p3.l0 - (Orbit32.exact m v n).p3.l0| * (‖q1 (m n)‖ * ‖q2 (m n)‖) := by
        rw [Orbit32.exact_succ, q, q', add_sub_add_comm, ← sub_mul, ← mul_sub, ← sub_smul]
        refine (norm_add_le _ _).trans (add_le_add (le_of_eq ?_) (shift_le _ _ _))
        rw [norm_mul, norm_mul, norm_star]
        show ‖q1 (m n)‖ * _ * ‖q1 (m n)‖ = _
        ring
      have n3 := norm_sub_le_norm_sub_add_norm_sub (Q (n + 1)).real.pure
        ((m n).real.onPoint (Q n).real).pure (Orbit32.exact m v (n + 1)).pure
      refine n3.trans ((add_le_add n1 n2).trans ?_)
      rw [scale_succ, g_succ, Finset.sum_range_succ]
      have hu := u_pos
      have k1 := mul_le_mul_of_nonneg_left e2 (sq_nonneg ‖q1 (m n)‖)
      have k2 : 2 * |(Q n).real.p3.l0 - (Orbit32.exact m v n).p3.l0| * (‖q1 (m n)‖ * ‖q2 (m n)‖) ≤
          2 * (scale m n * weight v * g n) * (‖q1 (m n)‖ * (‖q1 (m n)‖ * t n)) := by gcongr
      have k3 : 0 ≤ scale m n * weight v * ‖q1 (m n)‖ ^ 2 * (2 * (∑ i ∈ Finset.range n, t i + t n) * (28 * u * (1 + g n))) := by
        positivity
      generalize ‖q1 (m n)‖ = A at *
      generalize ∑ i ∈ Finset.range n, t i = T at *
      have id1 : scale m n * A ^ 2 * weight v * ((9.5 * L + 2 * (T + t n)) * (g n + 28 * u * (1 + g n))) =
          266 * u * (A ^ 2 * (scale m n * weight v * (1 + g n)) * L) +
          A ^ 2 * (scale m n * weight v * ((9.5 * L + 2 * T) * g n)) +
          2 * (scale m n * weight v * g n) * (A * (A * t n)) +
          scale m n * weight v * A ^ 2 * (2 * (T + t n) * (28 * u * (1 + g n))) := by ring
      linarith

/-- C114: after `n` steps in binary32 the lanes are finite, the weight is within `1.9e-6 n` of the exact
weight and the coordinates within `1.9e-5 n` of the exact ones, relative to the weight and to `L`. -/
theorem C114_orbit (hQ : Moved m v Q N) (h : Orbit m t v L N) {n : ℕ} (hn : n ≤ N) (hN : n ≤ 16384) :
    (∀ i, ((Q n).p3.get i).isFinite = true) ∧
    |(Q n).real.p3.l0 - (Orbit32.exact m v n).p3.l0| ≤ 1.9e-6 * n * |(Orbit32.exact m v n).p3.l0| ∧
    ‖(Q n).real.pure - (Orbit32.exact m v n).pure‖ ≤ 1.9e-5 * n * (|(Orbit32.exact m v n).p3.l0| * L) := by
  obtain ⟨hf, e1, e2⟩ := invariantQ hQ h hn hN
  have hS0 := h.scale_pos hn
  have hb0 := h.weight_pos
  have hL0 := h.len.pos
  have hg := g_le (hN.trans (by norm_num))
  have hg0 := g_nonneg n
  have ps := h.partial_sum hn
  have xw : |(Orbit32.exact m v n).p3.l0| = scale m n * weight v := by rw [exact_weight, abs_mul, abs_of_pos hS0]; rfl
  have T0 : 4 * ∑ i ∈ Finset.range n, t i ≤ L := by
    have := norm_nonneg v.real.pure
    by_contra hc
    push Not at hc
    nlinarith
  rw [xw]
  refine ⟨hf, e1.trans ?_, e2.trans ?_⟩
  · rw [mul_comm (1.9e-6 * (n : ℝ))]
    gcongr
  · have T1 : 0 ≤ ∑ i ∈ Finset.range n, t i := Finset.sum_nonneg fun i _ => h.t_nonneg i
    have k : (9.5 * L + 2 * ∑ i ∈ Finset.range n, t i) * g n ≤ 10 * L * (1.9e-6 * n) :=
      mul_le_mul (by linarith) hg hg0 (by positivity)
    calc _ ≤ scale m n * weight v * (10 * L * (1.9e-6 * n)) := by gcongr
      _ = _ := by ring

/-- C114: the position after `n` steps in binary32 is within `2.1e-5 n L` of the exact one, whatever the
sizes of the motors. -/
theorem C114_position (hQ : Moved m v Q N) (h : Orbit m t v L N) {n : ℕ} (hn : n ≤ N) (hN : n ≤ 16384) :
    ‖(Q n).real.position - (Orbit32.exact m v n).position‖ ≤ 2.1e-5 * n * L := by
  obtain ⟨-, e1, e2⟩ := C114_orbit hQ h hn hN
  have hS0 := h.scale_pos hn
  have hb0 := h.weight_pos
  have hL0 := h.len.pos
  have xw : |(Orbit32.exact m v n).p3.l0| = scale m n * weight v := by rw [exact_weight, abs_mul, abs_of_pos hS0]; rfl
  have hW : 0 < |(Orbit32.exact m v n).p3.l0| := by rw [xw]; positivity
  have hn' : (n : ℝ) ≤ 16384 := by exact_mod_cast hN
  have hp : ‖(Orbit32.exact m v n).pure‖ ≤ |(Orbit32.exact m v n).p3.l0| * L / 2 := by
    rw [xw]
    refine (Orbit32.exact_norm h hn).trans ?_
    have := mul_le_mul_of_nonneg_left (h.partial_sum hn) hS0.le
    linarith
  have hw : (Q n).real.p3.l0 ≠ 0 := by
    intro h0
    rw [h0, zero_sub, abs_neg] at e1
    have : 1.9e-6 * (n : ℝ) ≤ 1 / 32 := by norm_num; linarith
    nlinarith
  have key := quot_le (p := (Q n).real.pure) (q := (Orbit32.exact m v n).pure) hw (abs_pos.1 hW)
  -- the weights have the same sign
  have hs : abs (|(Q n).real.p3.l0| - |(Orbit32.exact m v n).p3.l0|) ≤ |(Q n).real.p3.l0 - (Orbit32.exact m v n).p3.l0| :=
    abs_abs_sub_abs_le _ _
  have k2 : 1.9e-6 * (n : ℝ) ≤ 1 / 32 := by norm_num; linarith
  have hw1 : 31 / 32 * |(Orbit32.exact m v n).p3.l0| ≤ |(Q n).real.p3.l0| := by
    nlinarith [(abs_le.1 (hs.trans e1)).1]
  refine key.trans ?_
  rw [div_le_iff₀ (by linarith)]
  have k3 : |(Orbit32.exact m v n).p3.l0 - (Q n).real.p3.l0| / |(Orbit32.exact m v n).p3.l0| ≤ 1.9e-6 * n := by
    rw [div_le_iff₀ hW, abs_sub_comm]; exact e1
  have k4 := mul_le_mul k3 hp (norm_nonneg _) (by positivity)
  have k5 : 2.1e-5 * n * L * (31 / 32 * |(Orbit32.exact m v n).p3.l0|) ≤ 2.1e-5 * n * L * |(Q n).real.p3.l0| := by gcongr
  have k6 : 0 ≤ n * (|(Orbit32.exact m v n).p3.l0| * L) := by positivity
  nlinarith

/-- C114: the distance of two points moved by the same `n` motors in binary32 stays what it was to within
`4.2e-5 n L`. -/
theorem C114_distance (hQ : Moved m v Q N) (h : Orbit m t v L N) (hR : Moved m w R N) (h' : Orbit m t w L N) {n : ℕ} (hn : n ≤ N) (hN : n ≤ 16384) :
    |‖(Q n).real.position - (R n).real.position‖ - ‖v.real.position - w.real.position‖| ≤ 4.2e-5 * n * L := by
  have k1 := C114_position hQ h hn hN
  have k2 := C114_position hR h' hn hN
  rw [← exact_distance (m := m) (abs_pos.1 h.weight_pos) (abs_pos.1 h'.weight_pos) (h.scale_pos hn).ne']
  refine (abs_norm_sub_norm_le _ _).trans ?_
  rw [sub_sub_sub_comm]
  refine (norm_sub_le _ _).trans ((add_le_add k1 k2).trans (le_of_eq ?_))
  ring

end Orbit

/-! ### one compiler -/

section Compiled
open Drift32 Orbit32 Kinematics32

theorem env_val (a b c d : V4 (Fl ω)) : (fun n => (env a b c d n).val) = env a.f32 b.f32 c.f32 d.f32 := by
  funext n
  unfold env
  split <;> rfl

theorem canV_fl (a b c d : V4 (Fl ω)) (v : V4 Ex) (h : inner4 v = true) :
    CanV (env a.f32 b.f32 c.f32 d.f32) v (evalV (env a b c d) v).f32 := by
  simp only [inner4, Bool.and_eq_true] at h
  have key := fun e he => (can_fl (env a b c d) e he).1
  rw [env_val] at key
  exact ⟨key _ h.1.1, key _ h.1.2, key _ h.2.1, key _ h.2.2⟩

/-- What a compiler computes for a product of motors is among the possible values. -/
theorem mulRun_fl (x y : Motor (Fl ω)) : MulRun x.f32 y.f32 (x.mulMotor y).f32 := by
  refine ⟨?_, ?_⟩
  · show CanV _ _ (x.mulMotor y).p1.f32
    rw [motor_mul_motor_p1_ex]
    exact canV_fl _ _ _ _ _ (by decide +kernel)
  · show CanV _ _ (x.mulMotor y).p2.f32
    rw [motor_mul_motor_p2_ex]
    exact canV_fl _ _ _ _ _ (by decide +kernel)

theorem pointRun_fl (x : Motor (Fl ω)) (p : Point (Fl ω)) : PointRun x.f32 p.f32 (x.onPoint p).f32 := by
  show CanV _ _ (x.onPoint p).p3.f32
  rw [motor_on_point_p3_ex]
  exact canV_fl _ _ _ _ _ (by decide +kernel)

variable {m : ℕ → Motor (Fl ω)} {v w : Point (Fl ω)} {t : ℕ → ℝ} {C L : ℝ} {N : ℕ}

theorem chained_fl (m : ℕ → Motor (Fl ω)) (N : ℕ) : Chained (fun i => (m i).f32) (fun n => (prod m n).f32) N :=
  ⟨rfl, fun _ _ => mulRun_fl _ _⟩

theorem moved_fl (m : ℕ → Motor (Fl ω)) (v : Point (Fl ω)) (N : ℕ) : Moved (fun i => (m i).f32) v.f32 (fun n => (orbit m v n).f32) N :=
  ⟨rfl, fun _ _ => pointRun_fl _ _⟩

/-- C114: the product of `n + 1` motors as any one compiler computes it. -/
theorem C114_compiled_chain (h : Chain (fun i => (m i).f32) t C N) {n : ℕ} (hn : n ≤ N) (hN : n ≤ 65536) :
    Fin (prod m n).f32 ∧
    ‖q1 (prod m n).f32 - (Drift32.exact (fun i => (m i).f32) n).toDQ.1‖ ≤ 1.9e-6 * n * size (fun i => (m i).f32) n ∧
    ‖q2 (prod m n).f32 - (Drift32.exact (fun i => (m i).f32) n).toDQ.2‖ ≤ 5.7e-6 * n * (size (fun i => (m i).f32) n * C) :=
  C114_chain (chained_fl m N) h hn hN

/-- C114: a point moved by a product of motors as any one compiler computes it. -/
theorem C114_compiled_point (h : Chain (fun i => (m i).f32) t C N) {n : ℕ} (hn : n ≤ N)
    (hN : n ≤ 65536) {B : ℝ} (hB : In2 B 24 24) (hv : ∀ i, (v.f32.p3.get i).isFinite = true) (hw : |v.f32.real.p3.l0| ≤ B)
    (hp : ‖v.f32.real.pure‖ ≤ B * C) :
    ‖((prod m n).onPoint v).f32.real.pure - ((Drift32.exact (fun i => (m i).f32) n).onPoint v.f32.real).pure‖ ≤
      2.1e-5 * (n + 1) * (size (fun i => (m i).f32) n ^ 2 * B * C) :=
  C114_point (chained_fl m N) h hn hN hB hv hw hp (pointRun_fl (prod m n) v)

/-- C114: the position after `n` motions as any one compiler computes it. -/
theorem C114_compiled_position (h : Orbit (fun i => (m i).f32) t v.f32 L N) {n : ℕ}
    (hn : n ≤ N) (hN : n ≤ 16384) :
    ‖(orbit m v n).f32.real.position - (Orbit32.exact (fun i => (m i).f32) v.f32 n).position‖ ≤ 2.1e-5 * n * L :=
  C114_position (moved_fl m v N) h hn hN

/-- C114: the distance of two points after `n` motions as any one compiler computes them. -/
theorem C114_compiled_distance (h : Orbit (fun i => (m i).f32) t v.f32 L N)
    (h' : Orbit (fun i => (m i).f32) t w.f32 L N) {n : ℕ} (hn : n ≤ N) (hN : n ≤ 16384) :
    |‖(orbit m v n).f32.real.position - (orbit m w n).f32.real.position‖ - ‖v.f32.real.position - w.f32.real.position‖| ≤
      4.2e-5 * n * L :=
  C114_distance (moved_fl m v N) h (moved_fl m w N) h' hn hN

/-! ### forward kinematics -/

variable {s : Skel}

private theorem place_any (h : Rig s (fun i => (m i).f32) t v.f32 L) {k : ℕ} (hk : k < s.size)
    {l : List ℕ} (hl : l.Perm (path s k)) :
    (∀ i, ((l.foldl (fun p i => (m i).onPoint p) v).f32.p3.get i).isFinite = true) ∧
    ‖(l.foldl (fun p i => (m i).onPoint p) v).f32.real.position -
      (l.foldl (fun p i => (m i).f32.real.onPoint p) v.f32.real).position‖ ≤ 2.1e-5 * depth s k * L := by
  have ho := h.orbit hk hl
  have hn : l.length = depth s k := hl.length_eq
  have hN : l.length ≤ 16384 := hn.trans_le (h.deep k hk)
  have hQ : Moved (fun i => (m (l.getD i 0)).f32) v.f32 (fun n => (orbit (fun i => m (l.getD i 0)) v n).f32) l.length :=
    moved_fl (fun i => m (l.getD i 0)) v _
  rw [foldl_orbit, foldl_orbit (fun i => (m i).f32.real), ← hn]
  exact ⟨(C114_orbit hQ ho le_rfl hN).1, C114_position hQ ho le_rfl hN⟩

/-- C114: the joints of the case study (C111) in the order of the document, as any one compiler computes them. -/
theorem C114_joint (h : Rig s (fun i => (m i).f32) t v.f32 L) {k : ℕ} (hk : k < s.size) :
    (∀ i, ((animate s v m k).f32.p3.get i).isFinite = true) ∧
    ‖(animate s v m k).f32.real.position - (animate s v.f32.real (fun i => (m i).f32.real) k).position‖ ≤ 2.1e-5 * depth s k * L := by
  rw [animate, animate, foldl_applyGroup, foldl_applyGroup]
  exact place_any h hk (List.Perm.refl _)

/-- C114: the same in the opposite order. -/
theorem C114_joint_reverse (h : Rig s (fun i => (m i).f32) t v.f32 L) {k : ℕ} (hk : k < s.size) :
    (∀ i, ((animateReverse s v m k).f32.p3.get i).isFinite = true) ∧
    ‖(animateReverse s v m k).f32.real.position - (animateReverse s v.f32.real (fun i => (m i).f32.real) k).position‖ ≤
      2.1e-5 * depth s k * L := by
  rw [animateReverse, animateReverse, foldl_applyGroup, foldl_applyGroup, List.filter_reverse]
  exact place_any h hk (List.reverse_perm _)

/-- C114: visiting the joints from the last to the first, the computed joints are close to where the documented
world poses put the world location. -/
theorem C114_world (h : Rig s (fun i => (m i).f32) t v.f32 L) (wf : s.WF)
    {W : ℕ → Motor ℝ} (hW0 : W 0 = (m 0).f32.real) (hW : ∀ k < s.size, k ≠ 0 → W k = (W (s.parent k)).mulMotor (m k).f32.real)
    {k : ℕ} (hk : k < s.size) :
    ‖(animateReverse s v m k).f32.real.position - ((W k).onPoint v.f32.real).position‖ ≤ 2.1e-5 * depth s k * L := by
  rw [← C77_reverse_partial s wf v.f32.real (fun i => (m i).f32.real) W hW0 hW k hk]
  exact (C114_joint_reverse h hk).2

/-- C114: the length of a bone as any one compiler computes it. -/
theorem C114_bone (h : Rig s (fun i => (m i).f32) t v.f32 L) (wf : s.WF) {k : ℕ}
    (hk : k < s.size) (h0 : k ≠ 0) :
    |‖(animateReverse s v m k).f32.real.position - (animateReverse s v m (s.parent k)).f32.real.position‖ -
      ‖((m k).f32.real.onPoint v.f32.real).position - v.f32.real.position‖| ≤ 4.2e-5 * depth s k * L := by
  have hp := wf.parent k hk h0
  have k1 := (C114_joint_reverse h hk).2
  have k2 := (C114_joint_reverse h (hp.trans hk)).2
  rw [← bone_exact h wf hk h0]
  refine (abs_norm_sub_norm_le _ _).trans ?_
  rw [sub_sub_sub_comm]
  refine (norm_sub_le _ _).trans ((add_le_add k1 k2).trans ?_)
  have hd : (depth s (s.parent k) : ℝ) ≤ depth s k := by
    rw [depth_step wf hk h0]; push_cast; linarith
  have := mul_le_mul_of_nonneg_right hd h.len.pos.le
  norm_num
  linarith

/-- Fusing nothing gives the computations of C91, C107 and C111. -/
theorem C114_plain (x y : Motor (Fl plainly)) (p : Point (Fl plainly)) :
    (x.mulMotor y).f32 = x.f32.mulMotor y.f32 ∧ (x.onPoint p).f32 = x.f32.onPoint p.f32 := ⟨rfl, rfl⟩

/-! ### concrete chains -/

/-- The motor and the point of C107 as inputs. -/
def sampleFl (ω : Compiler) : Motor (Fl ω) := ⟨V4.fl ω 0 sample.p1, V4.fl ω 4 sample.p2⟩
def startFl (ω : Compiler) : Point (Fl ω) := ⟨V4.fl ω 8 start.p3⟩

/-- Fusing changes the square of the motor. -/
theorem C114_contraction_matters :
    ((sampleFl eagerly).mulMotor (sampleFl eagerly)).f32.p1.l0 ≠ ((sampleFl plainly).mulMotor (sampleFl plainly)).f32.p1.l0 := by
  decide +kernel

/-- A hundred motions, whatever the compiler fuses. -/
example (ω : Compiler) : ‖(orbit (fun _ => sampleFl ω) (startFl ω) 100).f32.real.position -
    (Orbit32.exact (fun _ => sample) start 100).position‖ ≤ 0.87 := by
  have k := C114_compiled_position (m := fun _ => sampleFl ω) (v := startFl ω)
    orbit_sample le_rfl (by norm_num)
  norm_num at k ⊢
  exact k.trans (by norm_num)

/-- The norm of a product of ten thousand motors, whatever the compiler fuses. -/
example (ω : Compiler) : |‖q1 (prod (fun _ => sampleFl ω) 9999).f32‖ - 1| ≤ 0.03 := by
  have k := C114_unit (chained_fl (fun _ => sampleFl ω) _) chain_sample (fun _ _ => unit_sample) le_rfl
    (by norm_num)
  norm_num at k ⊢
  exact k.trans (by norm_num)

/-- The tip of the longer limb of the tree of C111, whatever the compiler fuses. -/
example (ω : Compiler) : ‖(animateReverse tree (startFl ω) (fun _ => sampleFl ω) 2).f32.real.position -
      (animateReverse tree start.real (fun _ => sample.real) 2).position‖ ≤ 1.1e-3 := by
  have k := (C114_joint_reverse (m := fun _ => sampleFl ω) (v := startFl ω) rig_tree
    (k := 2) (by decide)).2
  rw [show depth tree 2 = 3 by decide] at k
  norm_num at k ⊢
  exact k.trans (by norm_num)

end Compiled

end ContractChain32
end Klein
