import Verif.Props.ContractChain32
import Verif.Props.Flats32

/-!
# C115: moving planes and lines with fused multiply-adds

The bounds of C112 for compilers that fuse products with the sums they enter, as in C114.
-/

namespace Klein

open F32 Products32 Contract32 Ex Drift32 Flats32
open scoped Quaternion

variable {ω : Compiler}

namespace ContractChain32

open Orbit32 (scale scale_zero scale_succ scale_nonneg)

section
variable {isa : Isa} {m : ℕ → Motor F32} {t : ℕ → ℝ} {v : Plane F32} {L : ℝ} {N : ℕ} {Q : ℕ → Plane F32}

/-- `Q n` is a value of the plane `v` moved by `m 0`, ..., `m (n - 1)`, each motion being compiled in some way. -/
structure PlaneMoved (isa : Isa) (m : ℕ → Motor F32) (v : Plane F32) (Q : ℕ → Plane F32) (N : ℕ) : Prop where
  zero : Q 0 = v
  succ : ∀ n < N, CanV (env (m n).p1 (m n).p2 (Q n).p0 (Q n).p0) ((Motor.mk X X').onPlane isa (Plane.mk Y)).p0 (Q (n + 1)).p0

theorem plane_track (hQ : PlaneMoved isa m v Q N) (h : PlanePath m t v L N) : Track m ‖v.real.qnormal‖ |v.real.p0.l0| L 1.75 N
    (fun n => (planeExact isa m v n).qnormal) (fun n => ((planeExact isa m v n).p0.l0 : ℍ[ℝ]))
    (fun n => (Q n).real.qnormal) (fun n => ((Q n).real.p0.l0 : ℍ[ℝ]))
    (fun n => ∀ i, ((Q n).p0.get i).isFinite = true) := by
  obtain ⟨hp, hf⟩ := h
  refine ⟨hQ.zero ▸ hf, congrArg (fun p : Plane F32 => p.real.qnormal) hQ.zero, congrArg (fun p : Plane F32 => (p.real.p0.l0 : ℍ[ℝ])) hQ.zero, rfl, ?_, fun n hn => ?_, fun n hn => ?_, fun n hn B hB ok hx hy => ?_⟩
  · rw [Quaternion.norm_coe]; exact le_rfl
  · show ‖((m n).real.onPlane isa (planeExact isa m v n)).qnormal‖ = _
    rw [(C81_plane_quat isa _ _).1, turn_norm]; rfl
  · show ‖((((m n).real.onPlane isa (planeExact isa m v n)).p0.l0 : ℝ) : ℍ[ℝ])‖ ≤ _
    rw [(C81_plane_quat isa _ _).2, Quaternion.norm_coe, Quaternion.norm_coe]
    refine (abs_sub _ _).trans (add_le_add ?_ (shift_re _ _ _))
    rw [abs_mul, abs_of_nonneg (sq_nonneg _)]; exact le_rfl
  · rw [Quaternion.norm_coe] at hy
    obtain ⟨c0, c1, c2, c3⟩ := le_norm (Q n).real.qnormal
    have hw : (Q n).Within B L := ⟨ok, hy, c1.trans hx, c2.trans hx, c3.trans hx⟩
    have tL : t n ≤ L := by
      have := hp.sum_le hn
      rw [Finset.sum_range_succ] at this
      have := Finset.sum_nonneg (s := Finset.range n) fun i _ => hp.t_nonneg i
      have := hp.t_nonneg n
      linarith
    have hA := hp.size_i n hn
    have hB0 := hB.pos
    have hL0 := hp.len.pos
    obtain ⟨⟨f0, d0⟩, ⟨f1, d1⟩, ⟨f2, d2⟩, f3, d3⟩ := C94_motor_on_plane hA hB hp.len isa
      (within (hp.fin n hn) le_rfl ((hp.trans n hn).trans (mul_le_mul_of_nonneg_left tL hA.pos.le))) hw (hQ.succ n hn)
    obtain ⟨q, q0⟩ := C81_plane_quat isa (m n).real (Q n).real
    obtain ⟨s, s0⟩ := C81_plane_quat isa (m n).real (planeExact isa m v n)
    refine ⟨fun i => match i with | 0 => f0 | 1 => f1 | 2 => f2 | 3 => f3, ?_, ?_⟩
    · have n1 : ‖(Q (n + 1)).real.qnormal - ((m n).real.onPlane isa (Q n).real).qnormal‖ ≤
          142 * u * (‖q1 (m n)‖ ^ 2 * B) := by
        refine (norm_le (e := 71 * (‖q1 (m n)‖ ^ 2 * B) / 2 ^ 24) (by positivity) ?_ d1 d2 d3).trans (le_of_eq ?_)
        · rw [Quaternion.re_sub, Plane.qnormal_re, Plane.qnormal_re, sub_self, abs_zero]; positivity
        · unfold u; ring
      have n2 : ‖((m n).real.onPlane isa (Q n).real).qnormal - (planeExact isa m v (n + 1)).qnormal‖ =
          ‖q1 (m n)‖ ^ 2 * ‖(Q n).real.qnormal - (planeExact isa m v n).qnormal‖ := by
        show ‖_ - ((m n).real.onPlane isa (planeExact isa m v n)).qnormal‖ = _
        rw [q, s, ← sub_mul, ← mul_sub, turn_norm]; rfl
      have n3 := norm_sub_le_norm_sub_add_norm_sub (Q (n + 1)).real.qnormal
        ((m n).real.onPlane isa (Q n).real).qnormal (planeExact isa m v (n + 1)).qnormal
      refine n3.trans ?_
      rw [n2]
      linarith
    · rw [← Quaternion.coe_sub, ← Quaternion.coe_sub, Quaternion.norm_coe, Quaternion.norm_coe, Real.norm_eq_abs, Real.norm_eq_abs]
      have n2 : |((m n).real.onPlane isa (Q n).real).p0.l0 - (planeExact isa m v (n + 1)).p0.l0| ≤
          ‖q1 (m n)‖ ^ 2 * |(Q n).real.p0.l0 - (planeExact isa m v n).p0.l0| +
          2 * (‖q1 (m n)‖ * ‖q2 (m n)‖) * ‖(Q n).real.qnormal - (planeExact isa m v n).qnormal‖ := by
        show |_ - ((m n).real.onPlane isa (planeExact isa m v n)).p0.l0| ≤ _
        rw [q0, s0, sub_sub_sub_comm, ← mul_sub, ← Quaternion.re_sub, ← sub_mul]
        refine (abs_sub _ _).trans (add_le_add ?_ (shift_re _ _ _))
        rw [abs_mul, abs_of_nonneg (sq_nonneg _)]; exact le_rfl
      have n3 := abs_sub_le (r (Q (n + 1)).p0.l0)
        ((m n).real.onPlane isa (Q n).real).p0.l0 (planeExact isa m v (n + 1)).p0.l0
      have k : 248 * (‖q1 (m n)‖ ^ 2 * B * L) / 2 ^ 24 ≤ 142 * 1.75 * u * (‖q1 (m n)‖ ^ 2 * B * L) := by
        have : 0 ≤ ‖q1 (m n)‖ ^ 2 * B * L := by positivity
        unfold u
        norm_num
        linarith
      refine n3.trans ?_
      linarith [d0.trans k]

/-- C115: after `n` steps in binary32 the lanes of a plane are finite, the normal is within `8.8e-6 n` of the exact normal
and the offset within `2e-5 n` of the exact one, relative to the length of the normal and to `L`. -/
theorem C115_plane (hQ : PlaneMoved isa m v Q N) (h : PlanePath m t v L N) {n : ℕ} (hn : n ≤ N) (hN : n ≤ 4096) :
    (∀ i, ((Q n).p0.get i).isFinite = true) ∧
    ‖(Q n).real.qnormal - (planeExact isa m v n).qnormal‖ ≤ 8.8e-6 * n * ‖(planeExact isa m v n).qnormal‖ ∧
    |(Q n).real.p0.l0 - (planeExact isa m v n).p0.l0| ≤ 2e-5 * n * (‖(planeExact isa m v n).qnormal‖ * L) := by
  obtain ⟨o, e1, e2, x1, -⟩ := (plane_track hQ h).error h.1 (by norm_num) (by norm_num) hn hN
  refine ⟨o, e1, ?_⟩
  rw [← Quaternion.coe_sub, Quaternion.norm_coe] at e2
  have := h.1.len.pos
  have : 0 ≤ n * (‖(planeExact isa m v n).qnormal‖ * L) := by positivity
  refine e2.trans ?_
  norm_num
  linarith

end

/-! ### lines -/

section
variable {m : ℕ → Motor F32} {t : ℕ → ℝ} {v : Line F32} {L : ℝ} {N : ℕ} {Q : ℕ → Line F32}

/-- `Q n` is a value of the line `v` moved by `m 0`, ..., `m (n - 1)`, each motion being compiled in some way. -/
structure LineMoved (m : ℕ → Motor F32) (v : Line F32) (Q : ℕ → Line F32) (N : ℕ) : Prop where
  zero : Q 0 = v
  succ : ∀ n < N, CanV (env (m n).p1 (m n).p2 (Q n).p1 (Q n).p2) ((Motor.mk X X').onLine (Line.mk Y Y')).p1 (Q (n + 1)).p1 ∧
    CanV (env (m n).p1 (m n).p2 (Q n).p1 (Q n).p2) ((Motor.mk X X').onLine (Line.mk Y Y')).p2 (Q (n + 1)).p2

theorem line_track (hQ : LineMoved m v Q N) (h : LinePath m t v L N) : Track m ‖v.real.qdir‖ ‖v.real.qmom‖ L 4 N
    (fun n => (lineExact m v n).qdir) (fun n => (lineExact m v n).qmom)
    (fun n => (Q n).real.qdir) (fun n => (Q n).real.qmom)
    (fun n => LineOk (Q n)) := by
  obtain ⟨hp, hf⟩ := h
  refine ⟨hQ.zero ▸ hf, congrArg (fun p : Line F32 => p.real.qdir) hQ.zero, congrArg (fun p : Line F32 => p.real.qmom) hQ.zero, rfl, le_rfl, fun n hn => ?_, fun n hn => ?_, fun n hn B hB ok hx hy => ?_⟩
  · show ‖((m n).real.onLine (lineExact m v n)).qdir‖ = _
    rw [(C81_line_quat _ _).1, turn_norm]; rfl
  · show ‖((m n).real.onLine (lineExact m v n)).qmom‖ ≤ _
    rw [(C81_line_quat _ _).2]
    refine (norm_sub_le _ _).trans (add_le_add ?_ (shift_mom _ _ _))
    rw [turn_norm]; exact le_rfl
  · obtain ⟨o1, o2, z1, z2⟩ := ok
    obtain ⟨-, c1, c2, c3⟩ := le_norm (Q n).real.qdir
    obtain ⟨-, c1', c2', c3'⟩ := le_norm (Q n).real.qmom
    have hw : (Q n).Within B L := ⟨⟨o1, by rw [z1, abs_zero], c1.trans hx, c2.trans hx, c3.trans hx⟩,
      o2, by rw [z2, abs_zero], c1'.trans hy, c2'.trans hy, c3'.trans hy⟩
    have tL : t n ≤ L := by
      have := hp.sum_le hn
      rw [Finset.sum_range_succ] at this
      have := Finset.sum_nonneg (s := Finset.range n) fun i _ => hp.t_nonneg i
      have := hp.t_nonneg n
      linarith
    have hA := hp.size_i n hn
    have hB0 := hB.pos
    have hL0 := hp.len.pos
    obtain ⟨⟨⟨f0, d0⟩, ⟨f1, d1⟩, ⟨f2, d2⟩, f3, d3⟩, ⟨g0, b0⟩, ⟨g1, b1⟩, ⟨g2, b2⟩, g3, b3⟩ := C94_motor_on_line hA hB hp.len
      (within (hp.fin n hn) le_rfl ((hp.trans n hn).trans (mul_le_mul_of_nonneg_left tL hA.pos.le))) hw (hQ.succ n hn).1 (hQ.succ n hn).2
    obtain ⟨q, q0⟩ := C81_line_quat (m n).real (Q n).real
    obtain ⟨s, s0⟩ := C81_line_quat (m n).real (lineExact m v n)
    obtain ⟨w1, w2⟩ := line_l0 (m n).real (Q n).real z1 z2
    rw [w1, zero_div, sub_zero] at d0
    rw [w2, zero_div, sub_zero] at b0
    refine ⟨⟨fun i => match i with | 0 => f0 | 1 => f1 | 2 => f2 | 3 => f3, fun i => match i with | 0 => g0 | 1 => g1 | 2 => g2 | 3 => g3,
      abs_nonpos_iff.1 d0, abs_nonpos_iff.1 b0⟩, ?_, ?_⟩
    · have n1 : ‖(Q (n + 1)).real.qdir - ((m n).real.onLine (Q n).real).qdir‖ ≤
          142 * u * (‖q1 (m n)‖ ^ 2 * B) := by
        have h0 : 0 ≤ ‖q1 (m n)‖ ^ 2 * B := by positivity
        refine (norm_le (e := 70 * (‖q1 (m n)‖ ^ 2 * B) / 2 ^ 24) (by positivity) ?_ d1 d2 d3).trans ?_
        · rw [Quaternion.re_sub, Line.qdir_re, Line.qdir_re, sub_self, abs_zero]; positivity
        · unfold u; linarith
      have n2 : ‖((m n).real.onLine (Q n).real).qdir - (lineExact m v (n + 1)).qdir‖ =
          ‖q1 (m n)‖ ^ 2 * ‖(Q n).real.qdir - (lineExact m v n).qdir‖ := by
        show ‖_ - ((m n).real.onLine (lineExact m v n)).qdir‖ = _
        rw [q, s, ← sub_mul, ← mul_sub, turn_norm]; rfl
      have n3 := norm_sub_le_norm_sub_add_norm_sub (Q (n + 1)).real.qdir
        ((m n).real.onLine (Q n).real).qdir (lineExact m v (n + 1)).qdir
      refine n3.trans ?_
      rw [n2]
      linarith
    · have n1 : ‖(Q (n + 1)).real.qmom - ((m n).real.onLine (Q n).real).qmom‖ ≤
          142 * 4 * u * (‖q1 (m n)‖ ^ 2 * B * L) := by
        have h0 : 0 ≤ ‖q1 (m n)‖ ^ 2 * B * L := by positivity
        refine (norm_le (e := 283 * (‖q1 (m n)‖ ^ 2 * B * L) / 2 ^ 24) (by positivity) ?_ b1 b2 b3).trans ?_
        · rw [Quaternion.re_sub, Line.qmom_re, Line.qmom_re, sub_self, abs_zero]; positivity
        · unfold u; linarith
      have n2 : ‖((m n).real.onLine (Q n).real).qmom - (lineExact m v (n + 1)).qmom‖ ≤
          ‖q1 (m n)‖ ^ 2 * ‖(Q n).real.qmom - (lineExact m v n).qmom‖ +
          2 * (‖q1 (m n)‖ * ‖q2 (m n)‖) * ‖(Q n).real.qdir - (lineExact m v n).qdir‖ := by
        show ‖_ - ((m n).real.onLine (lineExact m v n)).qmom‖ ≤ _
        rw [q0, s0, sub_sub_sub_comm, ← sub_mul, ← mul_sub, add_sub_add_comm, ← sub_mul, ← sub_mul, ← mul_sub, ← mul_sub]
        refine (norm_sub_le _ _).trans (add_le_add ?_ (shift_mom _ _ _))
        rw [turn_norm]; exact le_rfl
      have n3 := norm_sub_le_norm_sub_add_norm_sub (Q (n + 1)).real.qmom
        ((m n).real.onLine (Q n).real).qmom (lineExact m v (n + 1)).qmom
      refine n3.trans ?_
      linarith

/-- C115: after `n` steps in binary32 the lanes of a line are finite, the direction is within `8.8e-6 n` of the exact
direction and the moment within `4e-5 n` of the exact one, relative to the length of the direction and to `L`. -/
theorem C115_line (hQ : LineMoved m v Q N) (h : LinePath m t v L N) {n : ℕ} (hn : n ≤ N) (hN : n ≤ 4096) :
    LineOk (Q n) ∧
    ‖(Q n).real.qdir - (lineExact m v n).qdir‖ ≤ 8.8e-6 * n * ‖(lineExact m v n).qdir‖ ∧
    ‖(Q n).real.qmom - (lineExact m v n).qmom‖ ≤ 4e-5 * n * (‖(lineExact m v n).qdir‖ * L) := by
  obtain ⟨o, e1, e2, x1, -⟩ := (line_track hQ h).error h.1 (by norm_num) le_rfl hn hN
  refine ⟨o, e1, e2.trans ?_⟩
  have := h.1.len.pos
  have : 0 ≤ n * (‖(lineExact m v n).qdir‖ * L) := by positivity
  norm_num
  linarith

end

/-! ### the distance of a point from a plane -/

section
variable {isa : Isa} {m : ℕ → Motor F32} {t : ℕ → ℝ} {v : Plane F32} {w : Point F32} {L : ℝ} {N : ℕ} {Q : ℕ → Plane F32} {R : ℕ → Point F32}

private theorem quot {a b A B : ℝ} (hA : 0 < A) (hB : 0 < B) : |a / A - b / B| ≤ (|a - b| + |A - B| * (|b| / B)) / A := by
  have k : a / A - b / B = ((a - b) - (A - B) * (b / B)) / A := by field_simp; ring
  rw [k, abs_div, abs_of_pos hA]
  refine div_le_div_of_nonneg_right ((abs_sub _ _).trans ?_) hA.le
  rw [abs_mul (A - B), abs_div, abs_of_pos hB]

private theorem close {A B L k e1 e2 e3 e4 : ℝ} (hB : 0 < B) (hL : 0 < L) (hk : 0 ≤ k) (hk' : k ≤ 4096) (hA : |A - B| ≤ 8.8e-6 * k * B) (h1 : e1 ≤ 2e-5 * k * (B * L))
    (h2 : e2 ≤ A * (2.1e-5 * k * L)) (h3 : e3 ≤ 8.8e-6 * k * B * (L / 2)) (h4 : e4 ≤ |A - B| * L) :
    0 < A ∧ (e1 + e2 + e3 + e4) / A ≤ 6e-5 * k * L := by
  have h0 := abs_le.1 hA
  have k1 : 8.8e-6 * k * B ≤ 1 / 27 * B := mul_le_mul_of_nonneg_right (by norm_num; linarith) hB.le
  have hA' : 26 / 27 * B ≤ A := by linarith
  have hA0 : 0 < A := by linarith
  refine ⟨hA0, (div_le_iff₀ hA0).2 ?_⟩
  have k2 := mul_le_mul_of_nonneg_right hA hL.le
  have k3 : (26 / 27 * B) * (k * L) ≤ A * (k * L) := mul_le_mul_of_nonneg_right hA' (by positivity)
  have k4 : 0 ≤ B * (k * L) := by positivity
  norm_num at *
  linarith

/-- C115: the signed distance of a point from a plane, both moved by the same `n` motors in binary32, stays what it was to
within `6e-5 n L`. -/
theorem C115_distance (hQ : PlaneMoved isa m v Q N) (h : PlanePath m t v L N) (hR : Moved m w R N) (h' : Orbit32.Orbit m t w L N) {n : ℕ} (hn : n ≤ N) (hN : n ≤ 4096) :
    |height (Q n).real (R n).real - height v.real w.real| ≤ 6e-5 * n * L := by
  obtain ⟨-, e1, e2⟩ := C115_plane hQ h hn hN
  obtain ⟨-, -, -, x1, x2⟩ := (plane_track hQ h).error h.1 (by norm_num) (by norm_num) hn hN
  have e3 := C114_position hR h' hn (hN.trans (by norm_num))
  have hL := h.1.len.pos
  have hS := h'.scale_pos hn
  have hb := h'.weight_pos
  have n0 : (0 : ℝ) ≤ n := Nat.cast_nonneg n
  have n1 : (n : ℝ) ≤ 4096 := by exact_mod_cast hN
  have x3 : ‖(Orbit32.exact m w n).position‖ ≤ L / 2 := by
    have hW : |(Orbit32.exact m w n).p3.l0| = scale m n * Orbit32.weight w := by rw [Orbit32.exact_weight, abs_mul, abs_of_pos hS]; rfl
    rw [Point.position, norm_smul, norm_inv, Real.norm_eq_abs, hW, inv_mul_eq_div, div_le_iff₀ (mul_pos hS hb)]
    refine (Orbit32.exact_norm h' hn).trans ?_
    have := mul_le_mul_of_nonneg_left (h'.partial_sum hn) hS.le
    linarith
  rw [← exact_height isa (m := m) (n := n) (v := v) (abs_pos.1 hb) hS.ne']
  unfold height
  rw [Quaternion.norm_coe, Real.norm_eq_abs] at x2
  generalize (Q n).real.p0.l0 = d, (Q n).real.qnormal = A, (R n).real.position = x,
    (planeExact isa m v n).p0.l0 = D, (planeExact isa m v n).qnormal = B, (Orbit32.exact m w n).position = X at *
  have hA := (abs_norm_sub_norm_le A B).trans e1
  have c1 : |(B * X).re| ≤ ‖B‖ * (L / 2) := by
    refine (le_norm _).1.trans ?_
    rw [norm_mul]
    exact mul_le_mul_of_nonneg_left x3 x1.le
  have c2 : |D - (B * X).re| / ‖B‖ ≤ L := by
    rw [div_le_iff₀ x1]
    have := abs_sub D (B * X).re
    linarith
  have c3 : |(d - (A * x).re) - (D - (B * X).re)| ≤ |d - D| + ‖A‖ * ‖x - X‖ + ‖A - B‖ * ‖X‖ := by
    have k : (d - (A * x).re) - (D - (B * X).re) = (d - D) - ((A * (x - X)).re + ((A - B) * X).re) := by
      rw [mul_sub, sub_mul, Quaternion.re_sub, Quaternion.re_sub]; ring
    rw [k]
    have k1 := abs_sub (d - D) ((A * (x - X)).re + ((A - B) * X).re)
    have k2 := abs_add_le (A * (x - X)).re ((A - B) * X).re
    have k3 := (le_norm (A * (x - X))).1
    have k4 := (le_norm ((A - B) * X)).1
    rw [norm_mul] at k3 k4
    linarith
  obtain ⟨A0, c4⟩ := close (e4 := |‖A‖ - ‖B‖| * (|D - (B * X).re| / ‖B‖)) x1 hL n0 n1 hA e2
    (mul_le_mul_of_nonneg_left e3 (norm_nonneg A)) (mul_le_mul e1 x3 (norm_nonneg X) (by positivity)) (mul_le_mul_of_nonneg_left c2 (abs_nonneg _))
  exact (quot A0 x1).trans ((div_le_div_of_nonneg_right (by linarith) A0.le).trans c4)

end

/-! ### one compiler -/

section Compiled

variable {isa : Isa} {m : ℕ → Motor (Fl ω)} {v : Plane (Fl ω)} {l : Line (Fl ω)} {w : Point (Fl ω)} {t : ℕ → ℝ} {L : ℝ} {N : ℕ}

theorem planeMoved_fl (isa : Isa) (m : ℕ → Motor (Fl ω)) (v : Plane (Fl ω)) (N : ℕ) :
    PlaneMoved isa (fun i => (m i).f32) v.f32 (fun n => (planeOrbit isa m v n).f32) N := by
  refine ⟨rfl, fun n _ => ?_⟩
  show CanV _ _ ((m n).onPlane isa (planeOrbit isa m v n)).p0.f32
  rw [motor_on_plane_p0_ex isa (m n)]
  exact canV_fl _ _ _ _ _ (by cases isa <;> decide +kernel)

theorem lineMoved_fl (m : ℕ → Motor (Fl ω)) (l : Line (Fl ω)) (N : ℕ) :
    LineMoved (fun i => (m i).f32) l.f32 (fun n => (lineOrbit m l n).f32) N := by
  refine ⟨rfl, fun n _ => ?_⟩
  constructor
  · show CanV _ _ ((m n).onLine (lineOrbit m l n)).p1.f32
    rw [motor_on_line_p1_ex]
    exact canV_fl _ _ _ _ _ (by decide +kernel)
  · show CanV _ _ ((m n).onLine (lineOrbit m l n)).p2.f32
    rw [motor_on_line_p2_ex]
    exact canV_fl _ _ _ _ _ (by decide +kernel)

/-- C115: a plane after `n` motions as any one compiler computes it. -/
theorem C115_compiled_plane (isa : Isa) (h : PlanePath (fun i => (m i).f32) t v.f32 L N) {n : ℕ}
    (hn : n ≤ N) (hN : n ≤ 4096) :
    (∀ i, ((planeOrbit isa m v n).f32.p0.get i).isFinite = true) ∧
    ‖(planeOrbit isa m v n).f32.real.qnormal - (planeExact isa (fun i => (m i).f32) v.f32 n).qnormal‖ ≤
      8.8e-6 * n * ‖(planeExact isa (fun i => (m i).f32) v.f32 n).qnormal‖ ∧
    |(planeOrbit isa m v n).f32.real.p0.l0 - (planeExact isa (fun i => (m i).f32) v.f32 n).p0.l0| ≤
      2e-5 * n * (‖(planeExact isa (fun i => (m i).f32) v.f32 n).qnormal‖ * L) :=
  C115_plane (planeMoved_fl isa m v N) h hn hN

/-- C115: a line after `n` motions as any one compiler computes it. -/
theorem C115_compiled_line (h : LinePath (fun i => (m i).f32) t l.f32 L N) {n : ℕ}
    (hn : n ≤ N) (hN : n ≤ 4096) :
    LineOk (lineOrbit m l n).f32 ∧
    ‖(lineOrbit m l n).f32.real.qdir - (lineExact (fun i => (m i).f32) l.f32 n).qdir‖ ≤
      8.8e-6 * n * ‖(lineExact (fun i => (m i).f32) l.f32 n).qdir‖ ∧
    ‖(lineOrbit m l n).f32.real.qmom - (lineExact (fun i => (m i).f32) l.f32 n).qmom‖ ≤
      4e-5 * n * (‖(lineExact (fun i => (m i).f32) l.f32 n).qdir‖ * L) :=
  C115_line (lineMoved_fl m l N) h hn hN

/-- C115: the signed distance of a point from a plane after `n` motions as any one compiler computes them. -/
theorem C115_compiled_distance (isa : Isa) (h : PlanePath (fun i => (m i).f32) t v.f32 L N)
    (h' : Orbit32.Orbit (fun i => (m i).f32) t w.f32 L N) {n : ℕ} (hn : n ≤ N) (hN : n ≤ 4096) :
    |height (planeOrbit isa m v n).f32.real (Orbit32.orbit m w n).f32.real - height v.f32.real w.f32.real| ≤ 6e-5 * n * L :=
  C115_distance (planeMoved_fl isa m v N) h (moved_fl m w N) h' hn hN

/-- Fusing nothing gives the computations of C112. -/
theorem C115_plain (isa : Isa) (x : Motor (Fl plainly)) (p : Plane (Fl plainly)) (k : Line (Fl plainly)) :
    (x.onPlane isa p).f32 = x.f32.onPlane isa p.f32 ∧ (x.onLine k).f32 = x.f32.onLine k.f32 := by
  cases isa <;> exact ⟨rfl, rfl⟩

/-- Ten steps change the distance 2 of `(1, 0, 0)` from the plane `x + 1 = 0` by less than 0.25, whatever the compiler fuses. -/
example (isa : Isa) (ω : Compiler) : |height (planeOrbit isa (fun _ => sampleFl ω) ⟨V4.fl ω 12 wall.p0⟩ 10).f32.real
    (Orbit32.orbit (fun _ => sampleFl ω) (startFl ω) 10).f32.real - 2| ≤ 0.25 := by
  have k := C115_compiled_distance isa (m := fun _ => sampleFl ω) (v := ⟨V4.fl ω 12 wall.p0⟩) (w := startFl ω) wall_path
    Orbit32.orbit_sample (n := 10) (by norm_num) (by norm_num)
  rw [← wall_start]
  exact k.trans (by norm_num)

/-- A hundred motions of the line along `x`, whatever the compiler fuses. -/
example (ω : Compiler) : LineOk (lineOrbit (fun _ => sampleFl ω) ⟨V4.fl ω 12 axis.p1, V4.fl ω 16 axis.p2⟩ 100).f32 :=
  (C115_compiled_line (m := fun _ => sampleFl ω) (l := ⟨V4.fl ω 12 axis.p1, V4.fl ω 16 axis.p2⟩) axis_path (n := 100) le_rfl (by norm_num)).1

end Compiled

end ContractChain32
end Klein
