import Verif.Props.Composition
import Verif.Props.Drift32

/-!
# C107: moving a point step by step in binary32

A point moved by one motor after the other, `p = m(p)`, in binary32 and without normalisation,
compared with the exact motion.  The position is the quotient of the coordinates and the weight, so
that motors of any size are admitted.
-/

namespace Klein

open F32 Products32 Drift32
open scoped Quaternion

/-- The place of a point: its coordinates over its weight. -/
noncomputable def Point.position (p : Point ℝ) : ℍ[ℝ] := p.p3.l0⁻¹ • p.pure

namespace Orbit32

/-- The point after `n` steps, `m (n-1) (... (m 1 (m 0 v)))`. -/
def orbit {F : Type} [Add F] [Sub F] [Mul F] [Neg F] [Zero F] [One F] [NatCast F] (m : ℕ → Motor F) (v : Point F) : ℕ → Point F
  | 0 => v
  | n + 1 => (m n).onPoint (orbit m v n)

/-- The exact motion. -/
noncomputable def exact (m : ℕ → Motor F32) (v : Point F32) (n : ℕ) : Point ℝ := orbit (fun i => (m i).real) v.real n

/-- The factor by which the weight has grown. -/
noncomputable def scale (m : ℕ → Motor F32) (n : ℕ) : ℝ := ∏ i ∈ Finset.range n, ‖q1 (m i)‖ ^ 2

/-- The weight of the point. -/
noncomputable def weight (v : Point F32) : ℝ := |v.real.p3.l0|

/-- What the analysis asks: finite lanes, sizes neither tiny nor huge, and a length `L` of at least
twice the distance of the point plus four times the sum of the half translations `t i`. -/
structure Orbit (m : ℕ → Motor F32) (t : ℕ → ℝ) (v : Point F32) (L : ℝ) (N : ℕ) : Prop where
  fin : ∀ i < N, Fin (m i)
  finv : ∀ i, (v.p3.get i).isFinite = true
  size_i : ∀ i < N, In2 ‖q1 (m i)‖ 24 24
  size : ∀ i ≤ N, In2 (scale m i * weight v) 20 20
  len : In2 L 20 20
  t_nonneg : ∀ i, 0 ≤ t i
  trans : ∀ i < N, ‖q2 (m i)‖ ≤ ‖q1 (m i)‖ * t i
  sum : 2 * (‖v.real.pure‖ + 2 * weight v * ∑ i ∈ Finset.range N, t i) ≤ weight v * L

section
variable {m : ℕ → Motor F32} {t : ℕ → ℝ} {v w : Point F32} {L : ℝ} {N : ℕ}

theorem scale_zero : scale m 0 = 1 := by simp [scale]
theorem scale_succ (n : ℕ) : scale m (n + 1) = scale m n * ‖q1 (m n)‖ ^ 2 := Finset.prod_range_succ _ _
theorem scale_nonneg (n : ℕ) : 0 ≤ scale m n := Finset.prod_nonneg fun _ _ => sq_nonneg _

theorem exact_succ (n : ℕ) : exact m v (n + 1) = (m n).real.onPoint (exact m v n) := rfl

theorem exact_weight (n : ℕ) : (exact m v n).p3.l0 = scale m n * v.real.p3.l0 := by
  induction n with
  | zero => rw [scale_zero, one_mul]; rfl
  | succ n ih =>
    rw [exact_succ, (C81_point_quat _ _).2, ih, scale_succ]
    show ‖q1 (m n)‖ ^ 2 * _ = _
    ring

/-- A weight times the translation part. -/
theorem shift_le (a b : ℍ[ℝ]) (c : ℝ) : ‖c • (a * star b - b * star a)‖ ≤ 2 * |c| * (‖a‖ * ‖b‖) := by
  rw [norm_smul, Real.norm_eq_abs]
  have h := norm_sub_le (a * star b) (b * star a)
  rw [norm_mul, norm_mul, norm_star, norm_star] at h
  have := mul_le_mul_of_nonneg_left h (abs_nonneg c)
  linarith

theorem exact_norm (h : Orbit m t v L N) {n : ℕ} (hn : n ≤ N) :
    ‖(exact m v n).pure‖ ≤ scale m n * (‖v.real.pure‖ + 2 * weight v * ∑ i ∈ Finset.range n, t i) := by
  induction n with
  | zero => rw [scale_zero, Finset.sum_range_zero, mul_zero, add_zero, one_mul]; rfl
  | succ n ih =>
    have ih := ih (Nat.le_of_succ_le hn)
    have ht := h.trans n hn
    have hs := scale_nonneg (m := m) n
    rw [exact_succ, (C81_point_quat _ _).1, exact_weight, Finset.sum_range_succ, scale_succ]
    refine (norm_add_le _ _).trans ((add_le_add le_rfl (shift_le _ _ _)).trans ?_)
    rw [norm_mul, norm_mul, norm_star, abs_mul, abs_of_nonneg hs]
    change ‖q1 (m n)‖ * _ * ‖q1 (m n)‖ + 2 * (scale m n * weight v) * (‖q1 (m n)‖ * ‖q2 (m n)‖) ≤ _
    have hw : 0 ≤ weight v := abs_nonneg _
    have k1 := mul_le_mul_of_nonneg_left ih (sq_nonneg ‖q1 (m n)‖)
    have k2 := mul_le_mul_of_nonneg_left ht (mul_nonneg (mul_nonneg hs hw) (norm_nonneg (q1 (m n))))
    nlinarith

theorem Orbit.partial_sum (h : Orbit m t v L N) {n : ℕ} (hn : n ≤ N) :
    2 * (‖v.real.pure‖ + 2 * weight v * ∑ i ∈ Finset.range n, t i) ≤ weight v * L := by
  have := Finset.sum_le_sum_of_subset_of_nonneg (Finset.range_subset_range.2 hn) (f := t) fun i _ _ => h.t_nonneg i
  have hw : 0 ≤ weight v := abs_nonneg _
  have := mul_le_mul_of_nonneg_left this hw
  linarith [h.sum]

theorem Orbit.weight_pos (h : Orbit m t v L N) : 0 < weight v := by
  have := (h.size 0 (Nat.zero_le _)).pos
  rwa [scale_zero, one_mul] at this

theorem Orbit.scale_pos (h : Orbit m t v L N) {n : ℕ} (hn : n ≤ N) : 0 < scale m n :=
  pos_of_mul_pos_left (h.size n hn).pos h.weight_pos.le

theorem g_small {n : ℕ} (hn : n ≤ 16384) : g n ≤ 1 / 32 := by
  have hn' : (n : ℝ) ≤ 16384 := by exact_mod_cast hn
  exact (g_le (hn.trans (by norm_num))).trans (by norm_num; linarith)

private theorem num1 {p S b L T G e x : ℝ} (hb : 0 < b) (hS : 0 < S) (hL : 0 < L) (hG : 0 ≤ G) (hG' : G ≤ 1 / 32)
    (h : 2 * (p + 2 * b * T) ≤ b * L) (hp : 0 ≤ p) (hx : x ≤ S * (p + 2 * b * T)) (he : e ≤ S * b * ((9.5 * L + 2 * T) * G)) :
    e + x ≤ S * b * (1 + G) * L := by
  have k1 : 4 * T ≤ L := by
    by_contra hn
    push Not at hn
    nlinarith
  have k2 : (9.5 * L + 2 * T) * G ≤ 10 * L * (1 / 32) := mul_le_mul (by linarith) hG' hG (by positivity)
  have k3 : S * b * ((9.5 * L + 2 * T) * G) ≤ S * b * (10 * L * (1 / 32)) := by gcongr
  have k4 : S * (p + 2 * b * T) ≤ S * (b * L / 2) := by gcongr; linarith
  have k5 : S * b * L ≤ S * b * (1 + G) * L := by
    have : 0 ≤ S * b * G * L := by positivity
    linarith
  have k6 : 0 ≤ S * b * L := by positivity
  linarith

/-- The invariant of the motion. -/
theorem invariant (h : Orbit m t v L N) {n : ℕ} (hn : n ≤ N) (hN : n ≤ 16384) :
    (∀ i, ((orbit m v n).p3.get i).isFinite = true) ∧
    |(orbit m v n).real.p3.l0 - (exact m v n).p3.l0| ≤ scale m n * weight v * g n ∧
    ‖(orbit m v n).real.pure - (exact m v n).pure‖ ≤
      scale m n * weight v * ((9.5 * L + 2 * ∑ i ∈ Finset.range n, t i) * g n) := by
  induction n with
  | zero =>
    refine ⟨h.finv, ?_, ?_⟩
    · show |v.real.p3.l0 - v.real.p3.l0| ≤ _
      rw [sub_self, abs_zero, g_zero, mul_zero]
    · show ‖v.real.pure - v.real.pure‖ ≤ _
      rw [sub_self, norm_zero, g_zero, mul_zero, mul_zero]
  | succ n ih =>
    have hn' := Nat.le_of_succ_le hn
    obtain ⟨hf, e1, e2⟩ := ih hn' (Nat.le_of_succ_le hN)
    have hS := h.size n hn'
    have hS0 := h.scale_pos hn'
    have hb0 := h.weight_pos
    have hL0 := h.len.pos
    have hg := g_small (Nat.le_of_succ_le hN)
    have hg0 := g_nonneg n
    have ps := h.partial_sum hn'
    have T0 : 0 ≤ ∑ i ∈ Finset.range n, t i := Finset.sum_nonneg fun i _ => h.t_nonneg i
    have hm := h.trans n hn
    have ht := h.t_nonneg n
    have hA := h.size_i n hn
    have hA0 := hA.pos
    have xw := exact_weight (m := m) (v := v) n
    have x2 := exact_norm h hn'
    -- the sizes of the rounded point
    have hB : In2 (scale m n * weight v * (1 + g n)) 24 24 := by
      have k0 : 0 ≤ scale m n * weight v * g n := by positivity
      have k1 : scale m n * weight v * g n ≤ scale m n * weight v * (1 / 32) := by gcongr
      have := hS.1
      have := hS.2
      constructor
      · have : (1 : ℝ) / 2 ^ 24 ≤ 1 / 2 ^ 20 := by norm_num
        linarith
      · have : (33 : ℝ) / 32 * 2 ^ 20 ≤ 2 ^ 24 := by norm_num
        linarith
    have b1 : |(orbit m v n).real.p3.l0| ≤ scale m n * weight v * (1 + g n) := by
      have := abs_add_le ((orbit m v n).real.p3.l0 - (exact m v n).p3.l0) (exact m v n).p3.l0
      rw [sub_add_cancel] at this
      have k : |(exact m v n).p3.l0| = scale m n * weight v := by rw [xw, abs_mul, abs_of_pos hS0]; rfl
      linarith
    have b2 : ‖(orbit m v n).real.pure‖ ≤ scale m n * weight v * (1 + g n) * L := by
      have := norm_add_le ((orbit m v n).real.pure - (exact m v n).pure) (exact m v n).pure
      rw [sub_add_cancel] at this
      exact this.trans (num1 hb0 hS0 hL0 hg0 hg ps (norm_nonneg _) x2 e2)
    have tL : t n ≤ L := by
      have ps' := h.partial_sum hn
      rw [Finset.sum_range_succ] at ps'
      have := norm_nonneg v.real.pure
      by_contra hc
      push Not at hc
      nlinarith
    obtain ⟨a0, a1, a2, a3⟩ := le_norm (orbit m v n).real.pure
    have hvW : (orbit m v n).Within (scale m n * weight v * (1 + g n)) L :=
      ⟨hf, b1, a1.trans b2, a2.trans b2, a3.trans b2⟩
    obtain ⟨⟨f0, d0⟩, ⟨f1, d1⟩, ⟨f2, d2⟩, f3, d3⟩ := C90_motor_on_point hA hB h.len
      (within (h.fin n hn) le_rfl (hm.trans (mul_le_mul_of_nonneg_left tL hA0.le))) hvW
    refine ⟨fun i => match i with | 0 => f0 | 1 => f1 | 2 => f2 | 3 => f3, ?_, ?_⟩
    · have q := (C81_point_quat (m n).real (orbit m v n).real).2
      have q' := (C81_point_quat (m n).real (exact m v n)).2
      have k := abs_add_le ((orbit m v (n + 1)).real.p3.l0 - ((m n).real.onPoint (orbit m v n).real).p3.l0)
        (((m n).real.onPoint (orbit m v n).real).p3.l0 - (exact m v (n + 1)).p3.l0)
      rw [sub_add_sub_cancel] at k
      refine k.trans ?_
      rw [exact_succ, q, q', ← mul_sub, abs_mul, abs_of_nonneg (sq_nonneg ‖(m n).real.toDQ.1‖), scale_succ, g_succ]
      change |r ((m n).onPoint (orbit m v n)).p3.l0 - _| + ‖q1 (m n)‖ ^ 2 * _ ≤ _
      rw [q] at d0
      have k1 := mul_le_mul_of_nonneg_left e1 (sq_nonneg ‖q1 (m n)‖)
      have k2 : 17 * (‖q1 (m n)‖ ^ 2 * (scale m n * weight v * (1 + g n))) / 2 ^ 24 ≤
          scale m n * ‖q1 (m n)‖ ^ 2 * weight v * (28 * u * (1 + g n)) := by
        have : 0 ≤ ‖q1 (m n)‖ ^ 2 * (scale m n * weight v * (1 + g n)) := by positivity
        unfold u
        linarith
      linarith [d0.trans k2]
    · have q := (C81_point_quat (m n).real (orbit m v n).real).1
      have q' := (C81_point_quat (m n).real (exact m v n)).1
      have n1 : ‖((m n).onPoint (orbit m v n)).real.pure - ((m n).real.onPoint (orbit m v n).real).pure‖ ≤
          266 * u * (‖q1 (m n)‖ ^ 2 * (scale m n * weight v * (1 + g n)) * L) := by
        refine (norm_le (e := 133 * (‖q1 (m n)‖ ^ 2 * (scale m n * weight v * (1 + g n)) * L) / 2 ^ 24) (by positivity) ?_ d1 d2 d3).trans (le_of_eq ?_)
        · rw [Quaternion.re_sub, Point.pure_re, Point.pure_re, sub_self, abs_zero]; positivity
        · unfold u; ring
      have n2 : ‖((m n).real.onPoint (orbit m v n).real).pure - (exact m v (n + 1)).pure‖ ≤
          ‖q1 (m n)‖ ^ 2 * ‖(orbit m v n).real.pure - (exact m v n).pure‖ +
          2 * |(orbit m v n).real.p3.l0 - (exact m v n).p3.l0| * (‖q1 (m n)‖ * ‖q2 (m n)‖) := by
        rw [exact_succ, q, q', add_sub_add_comm, ← sub_mul, ← mul_sub, ← sub_smul]
        refine (norm_add_le _ _).trans (add_le_add (le_of_eq ?_) (shift_le _ _ _))
        rw [norm_mul, norm_mul, norm_star]
        show ‖q1 (m n)‖ * _ * ‖q1 (m n)‖ = _
        ring
      have n3 := norm_sub_le_norm_sub_add_norm_sub ((m n).onPoint (orbit m v n)).real.pure
        ((m n).real.onPoint (orbit m v n).real).pure (exact m v (n + 1)).pure
      refine n3.trans ((add_le_add n1 n2).trans ?_)
      rw [scale_succ, g_succ, Finset.sum_range_succ]
      have hu := u_pos
      have k1 := mul_le_mul_of_nonneg_left e2 (sq_nonneg ‖q1 (m n)‖)
      have k2 : 2 * |(orbit m v n).real.p3.l0 - (exact m v n).p3.l0| * (‖q1 (m n)‖ * ‖q2 (m n)‖) ≤
          2 * (scale m n * weight v * g n) * (‖q1 (m n)‖ * (‖q1 (m n)‖ * t n)) := by gcongr
      have k3 : 0 ≤ scale m n * weight v * ‖q1 (m n)‖ ^ 2 * (2 * (∑ i ∈ Finset.range n, t i + t n) * (28 * u * (1 + g n))) := by
        positivity
      generalize ‖q1 (m n)‖ = A at *
      generalize ∑ i ∈ Finset.range n, t i = T at *
      have id1 : scale m n * A ^ 2 * weight v * ((9.5 * L + 2 * (T + t n)) * (g n + 28 * u * (1 + g n))) =
          266 * u * (A ^ 2 * (scale m n * weight v * (1 + g n)) * L) +
          A ^ 2 * (scale m n * weight v * ((9.5 * L + 2 * T) * g n)) +
          2 * (scale m n * weight v * g n) * (A * (A * t n)) +
          scale m n * weight v * A ^ 2 * (2 * (T + t n) * (28 * u * (1 + g n))) := by ring
      linarith

/-- C107: after `n` steps in binary32 the lanes are finite, the weight is within `1.9e-6 n` of the exact
weight and the coordinates within `1.9e-5 n` of the exact ones, relative to the weight and to `L`. -/
theorem C107_orbit (h : Orbit m t v L N) {n : ℕ} (hn : n ≤ N) (hN : n ≤ 16384) :
    (∀ i, ((orbit m v n).p3.get i).isFinite = true) ∧
    |(orbit m v n).real.p3.l0 - (exact m v n).p3.l0| ≤ 1.9e-6 * n * |(exact m v n).p3.l0| ∧
    ‖(orbit m v n).real.pure - (exact m v n).pure‖ ≤ 1.9e-5 * n * (|(exact m v n).p3.l0| * L) := by
  obtain ⟨hf, e1, e2⟩ := invariant h hn hN
  have hS0 := h.scale_pos hn
  have hb0 := h.weight_pos
  have hL0 := h.len.pos
  have hg := g_le (hN.trans (by norm_num))
  have hg0 := g_nonneg n
  have ps := h.partial_sum hn
  have xw : |(exact m v n).p3.l0| = scale m n * weight v := by rw [exact_weight, abs_mul, abs_of_pos hS0]; rfl
  have T0 : 4 * ∑ i ∈ Finset.range n, t i ≤ L := by
    have := norm_nonneg v.real.pure
    by_contra hc
    push Not at hc
    nlinarith
  rw [xw]
  refine ⟨hf, e1.trans ?_, e2.trans ?_⟩
  · rw [mul_comm (1.9e-6 * (n : ℝ))]
    gcongr
  · have T1 : 0 ≤ ∑ i ∈ Finset.range n, t i := Finset.sum_nonneg fun i _ => h.t_nonneg i
    have k : (9.5 * L + 2 * ∑ i ∈ Finset.range n, t i) * g n ≤ 10 * L * (1.9e-6 * n) :=
      mul_le_mul (by linarith) hg hg0 (by positivity)
    calc _ ≤ scale m n * weight v * (10 * L * (1.9e-6 * n)) := by gcongr
      _ = _ := by ring

/-- Quotients of nearby pairs. -/
theorem quot_le {p q : ℍ[ℝ]} {w W : ℝ} (hw : w ≠ 0) (hW : W ≠ 0) :
    ‖w⁻¹ • p - W⁻¹ • q‖ ≤ (‖p - q‖ + |W - w| / |W| * ‖q‖) / |w| := by
  have k : w⁻¹ • p - W⁻¹ • q = w⁻¹ • ((p - q) + ((W - w) / W) • q) := by
    rw [smul_add, smul_sub, smul_smul, sub_add, ← sub_smul, ← mul_one_sub]
    congr 2
    field_simp
    ring
  rw [k, norm_smul, norm_inv, Real.norm_eq_abs, inv_mul_eq_div]
  gcongr
  refine (norm_add_le _ _).trans ?_
  rw [norm_smul, Real.norm_eq_abs, abs_div]

/-- C107: the position after `n` steps in binary32 is within `2.1e-5 n L` of the exact one, whatever the
sizes of the motors. -/
theorem C107_position (h : Orbit m t v L N) {n : ℕ} (hn : n ≤ N) (hN : n ≤ 16384) :
    ‖(orbit m v n).real.position - (exact m v n).position‖ ≤ 2.1e-5 * n * L := by
  obtain ⟨-, e1, e2⟩ := C107_orbit h hn hN
  have hS0 := h.scale_pos hn
  have hb0 := h.weight_pos
  have hL0 := h.len.pos
  have xw : |(exact m v n).p3.l0| = scale m n * weight v := by rw [exact_weight, abs_mul, abs_of_pos hS0]; rfl
  have hW : 0 < |(exact m v n).p3.l0| := by rw [xw]; positivity
  have hn' : (n : ℝ) ≤ 16384 := by exact_mod_cast hN
  have hp : ‖(exact m v n).pure‖ ≤ |(exact m v n).p3.l0| * L / 2 := by
    rw [xw]
    refine (exact_norm h hn).trans ?_
    have := mul_le_mul_of_nonneg_left (h.partial_sum hn) hS0.le
    linarith
  have hw : (orbit m v n).real.p3.l0 ≠ 0 := by
    intro h0
    rw [h0, zero_sub, abs_neg] at e1
    have : 1.9e-6 * (n : ℝ) ≤ 1 / 32 := by norm_num; linarith
    nlinarith
  have key := quot_le (p := (orbit m v n).real.pure) (q := (exact m v n).pure) hw (abs_pos.1 hW)
  -- the weights have the same sign
  have hs : abs (|(orbit m v n).real.p3.l0| - |(exact m v n).p3.l0|) ≤ |(orbit m v n).real.p3.l0 - (exact m v n).p3.l0| :=
    abs_abs_sub_abs_le _ _
  have k2 : 1.9e-6 * (n : ℝ) ≤ 1 / 32 := by norm_num; linarith
  have hw1 : 31 / 32 * |(exact m v n).p3.l0| ≤ |(orbit m v n).real.p3.l0| := by
    nlinarith [(abs_le.1 (hs.trans e1)).1]
  refine key.trans ?_
  rw [div_le_iff₀ (by linarith)]
  have k3 : |(exact m v n).p3.l0 - (orbit m v n).real.p3.l0| / |(exact m v n).p3.l0| ≤ 1.9e-6 * n := by
    rw [div_le_iff₀ hW, abs_sub_comm]; exact e1
  have k4 := mul_le_mul k3 hp (norm_nonneg _) (by positivity)
  have k5 : 2.1e-5 * n * L * (31 / 32 * |(exact m v n).p3.l0|) ≤ 2.1e-5 * n * L * |(orbit m v n).real.p3.l0| := by gcongr
  have k6 : 0 ≤ n * (|(exact m v n).p3.l0| * L) := by positivity
  nlinarith

/-- The exact motion of positions keeps distances. -/
theorem exact_distance (hv : v.real.p3.l0 ≠ 0) (hw : w.real.p3.l0 ≠ 0) {n : ℕ} (hS : scale m n ≠ 0) :
    ‖(exact m v n).position - (exact m w n).position‖ = ‖v.real.position - w.real.position‖ := by
  induction n with
  | zero => rfl
  | succ n ih =>
    rw [scale_succ, mul_ne_zero_iff] at hS
    rw [← ih hS.1]
    have hq : ‖q1 (m n)‖ ^ 2 ≠ 0 := hS.2
    have key : ∀ x : Point F32, x.real.p3.l0 ≠ 0 → (exact m x (n + 1)).position =
        (‖q1 (m n)‖ ^ 2)⁻¹ • (q1 (m n) * (exact m x n).position * star (q1 (m n)) +
          (q1 (m n) * star (q2 (m n)) - q2 (m n) * star (q1 (m n)))) := by
      intro x hx
      have h0 : (exact m x n).p3.l0 ≠ 0 := by rw [exact_weight]; exact mul_ne_zero hS.1 hx
      unfold Point.position
      rw [exact_succ, (C81_point_quat _ _).1, (C81_point_quat _ _).2]
      change (‖q1 (m n)‖ ^ 2 * _)⁻¹ • (q1 (m n) * _ * star (q1 (m n)) + _ • (q1 (m n) * star (q2 (m n)) - q2 (m n) * star (q1 (m n)))) = _
      rw [mul_inv, mul_smul, smul_add, smul_smul, inv_mul_cancel₀ h0, one_smul, mul_smul_comm, smul_mul_assoc]
    rw [key v hv, key w hw, ← smul_sub, add_sub_add_right_eq_sub, ← sub_mul, ← mul_sub, norm_smul, norm_mul, norm_mul, norm_star,
      norm_inv, norm_pow, norm_norm]
    have hq' : ‖q1 (m n)‖ ≠ 0 := fun h => hq (by rw [h]; norm_num)
    field_simp

/-- C107: the distance of two points moved by the same `n` motors in binary32 stays what it was to within
`4.2e-5 n L`. -/
theorem C107_distance (h : Orbit m t v L N) (h' : Orbit m t w L N) {n : ℕ} (hn : n ≤ N) (hN : n ≤ 16384) :
    |‖(orbit m v n).real.position - (orbit m w n).real.position‖ - ‖v.real.position - w.real.position‖| ≤ 4.2e-5 * n * L := by
  have k1 := C107_position h hn hN
  have k2 := C107_position h' hn hN
  rw [← exact_distance (m := m) (abs_pos.1 h.weight_pos) (abs_pos.1 h'.weight_pos) (h.scale_pos hn).ne']
  refine (abs_norm_sub_norm_le _ _).trans ?_
  rw [sub_sub_sub_comm]
  refine (norm_sub_le _ _).trans ((add_le_add k1 k2).trans (le_of_eq ?_))
  ring

/-! ### composing first -/

/-- The first step can be taken out. -/
theorem orbit_shift {F : Type} [Add F] [Sub F] [Mul F] [Neg F] [Zero F] [One F] [NatCast F] (m : ℕ → Motor F) (v : Point F) (n : ℕ) :
    orbit m v (n + 1) = orbit (fun i => m (i + 1)) ((m 0).onPoint v) n := by
  induction n with
  | zero => rfl
  | succ n ih =>
    show (m (n + 1)).onPoint (orbit m v (n + 1)) = (m (n + 1)).onPoint (orbit (fun i => m (i + 1)) ((m 0).onPoint v) n)
    rw [ih]

/-- In exact arithmetic the product `m 0 * ... * m n` moves a point as `m n` first and `m 0` last. -/
theorem prod_onPoint (m : ℕ → Motor ℝ) (v : Point ℝ) (n : ℕ) :
    (prod m n).onPoint v = orbit (fun i => m (n - i)) v (n + 1) := by
  induction n generalizing v with
  | zero => rfl
  | succ n ih =>
    have h : (fun i => m (n + 1 - (i + 1))) = fun i => m (n - i) := by
      funext i; rw [Nat.add_sub_add_right]
    rw [orbit_shift, h, Nat.sub_zero, ← ih]
    exact C16_motor_motor_point (prod m n) (m (n + 1)) v

theorem scale_rev (n : ℕ) : scale (fun i => m (n - i)) (n + 1) = Drift32.size m n ^ 2 := by
  unfold scale Drift32.size
  rw [Finset.prod_pow]
  congr 1
  exact Finset.prod_range_reflect (fun i => ‖q1 (m i)‖) (n + 1)

/-- C107: in binary32, multiplying `n + 1` motors and moving a point by the product, or moving the point by
the last motor first and so on, gives the same coordinates to within `(n + 1) (1.9e-5 L + 2.1e-5 C)`,
relative to the weight. -/
theorem C107_composed {C : ℝ} {n : ℕ} (hc : Chain m t C n) (ho : Orbit (fun i => m (n - i)) (fun i => t (n - i)) v L (n + 1))
    (hN : n < 16384) (hB : In2 (weight v) 24 24) (hp : ‖v.real.pure‖ ≤ weight v * C) :
    ‖((prod m n).onPoint v).real.pure - (orbit (fun i => m (n - i)) v (n + 1)).real.pure‖ ≤
      (n + 1) * (1.9e-5 * L + 2.1e-5 * C) * (Drift32.size m n ^ 2 * weight v) := by
  have k1 := C91_point hc le_rfl (by omega) hB ho.finv le_rfl hp
  have k2 := (C107_orbit ho le_rfl hN).2.2
  have e : exact (fun i => m (n - i)) v (n + 1) = (Drift32.exact m n).onPoint v.real :=
    (prod_onPoint (fun i => (m i).real) v.real n).symm
  have xw : |(exact (fun i => m (n - i)) v (n + 1)).p3.l0| = Drift32.size m n ^ 2 * weight v := by
    rw [exact_weight, abs_mul, scale_rev, abs_of_nonneg (sq_nonneg _)]; rfl
  rw [xw, e, norm_sub_rev] at k2
  refine (norm_sub_le_norm_sub_add_norm_sub _ _ _).trans ((add_le_add k1 k2).trans (le_of_eq ?_))
  push_cast
  ring

/-! ### motors normalised by the library -/

theorem scale_unit {n : ℕ} (hu : ∀ i < n, |‖q1 (m i)‖ ^ 2 - 1| ≤ 1.5e-6) (hN : n ≤ 16384) : |scale m n - 1| ≤ g n := by
  induction n with
  | zero => rw [scale_zero, sub_self, abs_zero, g_zero]
  | succ n ih =>
    have ih := abs_le.1 (ih (fun i hi => hu i (Nat.lt_succ_of_lt hi)) (Nat.le_of_succ_le hN))
    have h1 := abs_le.1 ((hu n (Nat.lt_succ_self n)).trans (show (1.5e-6 : ℝ) ≤ 28 * u by unfold u; norm_num))
    have hg := g_small (Nat.le_of_succ_le hN)
    have hg0 := g_nonneg n
    have hu0 : 0 < 28 * u := by linarith [u_pos]
    rw [scale_succ, g_succ, abs_le]
    generalize 28 * u = e at *
    have hs := scale_nonneg (m := m) n
    have k1 : scale m n * ‖q1 (m n)‖ ^ 2 ≤ (1 + g n) * (1 + e) := mul_le_mul (by linarith) (by linarith) (sq_nonneg _) (by linarith)
    have k2 : scale m n * (1 - e) ≤ scale m n * ‖q1 (m n)‖ ^ 2 := mul_le_mul_of_nonneg_left (by linarith) hs
    have k3 : scale m n * e ≤ (1 + g n) * e := mul_le_mul_of_nonneg_right (by linarith) hu0.le
    constructor <;> linarith

/-- Motors normalised to within the accuracy of `normalize` (C70) may be used for up to 16384 steps. -/
theorem Orbit.of_unit (hf : ∀ i < N, Fin (m i)) (hv : ∀ i, (v.p3.get i).isFinite = true)
    (hu : ∀ i < N, |‖q1 (m i)‖ ^ 2 - 1| ≤ 1.5e-6) (hw : In2 (weight v) 19 19) (hL : In2 L 20 20) (ht : ∀ i, 0 ≤ t i)
    (h2 : ∀ i < N, ‖q2 (m i)‖ ≤ ‖q1 (m i)‖ * t i)
    (hs : 2 * (‖v.real.pure‖ + 2 * weight v * ∑ i ∈ Finset.range N, t i) ≤ weight v * L) (hN : N ≤ 16384) : Orbit m t v L N := by
  refine ⟨hf, hv, fun i hi => ?_, fun i hi => ?_, hL, ht, h2, hs⟩
  · have h1 := abs_le.1 (hu i hi)
    have h2 := norm_nonneg (q1 (m i))
    norm_num at h1
    constructor <;> norm_num <;> nlinarith
  · have h1 := abs_le.1 (scale_unit (fun j hj => hu j (lt_of_lt_of_le hj hi)) (hi.trans hN))
    have hg := g_small (hi.trans hN)
    have h0 := hw.pos
    have k1 : scale m i * weight v ≤ 33 / 32 * weight v := mul_le_mul_of_nonneg_right (by linarith) h0.le
    have k2 : 31 / 32 * weight v ≤ scale m i * weight v := mul_le_mul_of_nonneg_right (by linarith) h0.le
    have := hw.1
    have := hw.2
    constructor
    · refine le_trans ?_ k2
      norm_num at *; linarith
    · refine k1.trans ?_
      norm_num at *; linarith

/-! ### a concrete motion -/

/-- The point `(1, 0, 0)`. -/
def start : Point F32 := Point.mk3 1 0 0

theorem start_real : start.real.p3 = ⟨1, 1, 0, 0⟩ := by
  have h1 : r (1 : F32) = 1 := by unfold r; rw [F32.one_val]; norm_num
  have h0 : r (0 : F32) = 0 := by unfold r; rw [show (0 : F32).val = 0 by decide +kernel]; norm_num
  show (⟨r 1, r 1, r 0, r 0⟩ : V4 ℝ) = _
  rw [h1, h0]

theorem start_weight : weight start = 1 := by unfold weight; rw [start_real, abs_one]

theorem start_norm : ‖start.real.pure‖ ≤ 2 :=
  (norm_le (e := 1) (by norm_num) (by rw [Point.pure_re]; norm_num) (by rw [Point.pure_imI, start_real]; norm_num)
    (by rw [Point.pure_imJ, start_real]; norm_num) (by rw [Point.pure_imK, start_real]; norm_num)).trans (by norm_num)

/-- A hundred steps of the motor of C91. -/
theorem orbit_sample : Orbit (fun _ => sample) (fun _ => 1.01) start 410 100 := by
  refine Orbit.of_unit (fun _ _ => fin_sample) (by decide +kernel) (fun _ _ => unit_sample) ?_ ⟨by norm_num, by norm_num⟩ (fun _ => by norm_num)
    (fun _ _ => trans_sample) ?_ (by norm_num)
  · rw [start_weight]; constructor <;> norm_num
  · rw [start_weight, Finset.sum_const, Finset.card_range]
    have := start_norm
    norm_num
    linarith

/-- The position after a hundred steps. -/
example : ‖(orbit (fun _ => sample) start 100).real.position - (exact (fun _ => sample) start 100).position‖ ≤ 0.87 := by
  have := C107_position orbit_sample (n := 100) le_rfl (by norm_num)
  norm_num at this ⊢
  exact this.trans (by norm_num)

/-- A hundred and one factors multiplied first, or applied one after the other. -/
example : ‖((prod (fun _ => sample) 100).onPoint start).real.pure - (orbit (fun _ => sample) start 101).real.pure‖ ≤
    2 * Drift32.size (fun _ => sample) 100 ^ 2 := by
  have hc : Chain (fun _ => sample) (fun _ => 1.01) 410 100 := by
    refine Chain.of_unit (fun _ _ => fin_sample) (fun _ _ => unit_sample) ⟨by norm_num, by norm_num⟩ (fun _ => by norm_num)
      (fun _ _ => trans_sample) ?_ (by norm_num)
    rw [Finset.sum_const, Finset.card_range]
    norm_num
  have ho : Orbit (fun _ => sample) (fun _ => 1.01) start 413 101 := by
    refine Orbit.of_unit (fun _ _ => fin_sample) (by decide +kernel) (fun _ _ => unit_sample) ?_ ⟨by norm_num, by norm_num⟩
      (fun _ => by norm_num) (fun _ _ => trans_sample) ?_ (by norm_num)
    · rw [start_weight]; constructor <;> norm_num
    · rw [start_weight, Finset.sum_const, Finset.card_range]
      have := start_norm
      norm_num
      linarith
  have := C107_composed (v := start) hc ho (by norm_num) (by rw [start_weight]; constructor <;> norm_num)
    (by rw [start_weight]; linarith [start_norm])
  refine this.trans ?_
  rw [start_weight, mul_one]
  gcongr
  norm_num

end
end Orbit32
end Klein
