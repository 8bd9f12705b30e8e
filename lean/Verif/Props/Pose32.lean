import Verif.Props.Renorm32
import Verif.Props.Orbit32

/-!
# C109: points placed by a motion that is normalised at every step, in binary32

The loop `x = (d * x).normalized()` of C108 keeps the pose of a body, and `x(p)` places its points.
-/

set_option linter.unusedSimpArgs false

namespace Klein

open F32 Products32
open scoped Quaternion

namespace Renorm32

open Drift32 (q1 q2)

/-- Where a unit dual quaternion places the point at `v`. -/
noncomputable def place (E : DualNumber ℍ[ℝ]) (v : ℍ[ℝ]) : ℍ[ℝ] := E.1 * v * star E.1 + (E.1 * star E.2 - E.2 * star E.1)

/-- The position of a moved point only depends on the normalised motor. -/
theorem position_place {m : Motor ℝ} {p : Point ℝ} (hm : m.toDQ.1 ≠ 0) (hp : p.p3.l0 ≠ 0) :
    (m.onPoint p).position = place (nrm m.toDQ) p.position := by
  obtain ⟨h1, h2⟩ := C81_point_quat m p
  rw [Point.position, h1, h2]
  show _ = unit m.toDQ.1 * (p.p3.l0⁻¹ • p.pure) * star (unit m.toDQ.1) +
    (unit m.toDQ.1 * star (NLerp.mom m.toDQ.1 m.toDQ.2) - NLerp.mom m.toDQ.1 m.toDQ.2 * star (unit m.toDQ.1))
  generalize m.toDQ.1 = a at *
  generalize m.toDQ.2 = b
  generalize p.p3.l0 = w at *
  have ha := norm_ne_zero_iff.2 hm
  simp only [NLerp.mom, unit, Quaternion.star_smul, star_sub, smul_mul_assoc, mul_smul_comm, smul_smul, smul_sub, mul_sub, sub_mul,
    smul_add, mul_assoc]
  match_scalars <;> (field_simp; try ring)

theorem place_le {E F : DualNumber ℍ[ℝ]} (hE : ‖E.1‖ = 1) (hF : ‖F.1‖ = 1) (v : ℍ[ℝ]) :
    ‖place E v - place F v‖ ≤ 2 * ‖E.1 - F.1‖ * (‖v‖ + ‖F.2‖) + 2 * ‖E.2 - F.2‖ := by
  have e : place E v - place F v = (E.1 * v * star E.1 - F.1 * v * star F.1) +
      ((E.1 * star (E.2 - F.2) - (E.2 - F.2) * star E.1) + ((E.1 - F.1) * star F.2 - F.2 * star (E.1 - F.1))) := by
    simp only [place, star_sub]; noncomm_ring
  rw [e]
  have k1 := turn_le (v := v) hE hF
  have k2 := norm_sub_le (E.1 * star (E.2 - F.2)) ((E.2 - F.2) * star E.1)
  have k3 := norm_sub_le ((E.1 - F.1) * star F.2) (F.2 * star (E.1 - F.1))
  rw [norm_mul, norm_mul, norm_star, norm_star, hE] at k2
  rw [norm_mul, norm_mul, norm_star, norm_star] at k3
  refine (norm_add_le _ _).trans ((add_le_add k1 ((norm_add_le _ _).trans (add_le_add k2 k3))).trans (le_of_eq ?_))
  ring

theorem place_distance {E : DualNumber ℍ[ℝ]} (hE : ‖E.1‖ = 1) (v w : ℍ[ℝ]) : ‖place E v - place E w‖ = ‖v - w‖ := by
  have e : place E v - place E w = E.1 * (v - w) * star E.1 := by
    simp only [place]; noncomm_ring
  rw [e, norm_mul, norm_mul, norm_star, hE]; ring

section
variable {hw : Hw F32} (hc : hw.Contract32) (isa : Isa) {x : Motor F32} {d : ℕ → Motor F32} {s : ℝ} {t : ℕ → ℝ} {C R : ℝ} {N : ℕ}
variable {v w : Point F32}

/-- A finite point with a weight neither tiny nor huge, at a distance of at most `R` from the origin. -/
structure Near (v : Point F32) (R : ℝ) : Prop where
  fin : ∀ i, (v.p3.get i).isFinite = true
  weight : In2 (Orbit32.weight v) 10 10
  dist : ‖v.real.pure‖ ≤ Orbit32.weight v * R
  R_le : R ≤ 2 ^ 14

theorem Near.nonneg (h : Near v R) : 0 ≤ R := by
  by_contra hn
  have := mul_neg_of_pos_of_neg h.weight.pos (not_le.1 hn)
  linarith [norm_nonneg v.real.pure, h.dist]

theorem Near.ne (h : Near v R) : v.real.p3.l0 ≠ 0 := abs_pos.1 h.weight.pos

theorem Near.position (h : Near v R) : ‖v.real.position‖ ≤ R := by
  rw [Point.position, norm_smul, norm_inv, inv_mul_eq_div, div_le_iff₀ (by exact h.weight.pos), mul_comm]
  exact h.dist

include hc in
/-- C109: a point placed by the motor after `n` steps is within `(9.6e-6 R + 5.9e-5 C) n + 4.2e-5 R + 8.4e-5 C`
of its exact place. -/
theorem C109_place (h : Loop x d s t C N) (hv : Near v R) {n : ℕ} (hn : n ≤ N) (hN : n ≤ 8192) :
    ‖((trackM hw isa x d n).onPoint v).real.position - place (exactM x d n) v.real.position‖ ≤
      (9.6e-6 * R + 5.9e-5 * C) * n + (4.2e-5 * R + 8.4e-5 * C) := by
  obtain ⟨f, sz, h2, -, -, -⟩ := trackM_ok hc isa h hn hN
  obtain ⟨e1, e2⟩ := C108_motor_motion hc isa h hn hN
  obtain ⟨x1, x2⟩ := exactM_norm h hn
  have hC0 := h.len.pos
  have hR := hv.nonneg
  have hw0 := hv.weight.pos
  have hsum : ∑ i ∈ Finset.range n, t i ≤ ∑ i ∈ Finset.range N, t i :=
    Finset.sum_le_sum_of_subset_of_nonneg (Finset.range_subset_range.2 hn) fun i _ _ => h.t_nonneg i
  have hs := h.sum
  have hs0 := h.s_nonneg
  have hS0 : 0 ≤ ∑ i ∈ Finset.range n, t i := Finset.sum_nonneg fun i _ => h.t_nonneg i
  have x3 : ‖(exactM x d n).2‖ ≤ C / 2 := x2.trans (by linarith)
  generalize trackM hw isa x d n = y at *
  have sz0 := sz.pos
  have hy : y.real.toDQ.1 ≠ 0 := norm_pos_iff.1 sz0
  have ho : Orbit32.Orbit (fun _ => y) (fun _ => 0.8 * C) v (2 * R + 4 * C) 1 := by
    refine ⟨fun _ _ => f, hv.fin, fun _ _ => sz.mono (by norm_num) (by norm_num), fun i hi => ?_, ?_, fun _ => by positivity,
      fun _ _ => h2.trans (mul_le_mul_of_nonneg_left (by norm_num; linarith) sz0.le), ?_⟩
    · have h3 := hv.weight.lo
      have h4 := hv.weight.hi
      interval_cases i
      · rw [Orbit32.scale_zero, one_mul]
        exact hv.weight.mono (by norm_num) (by norm_num)
      · rw [Orbit32.scale_succ, Orbit32.scale_zero, one_mul, sq]
        exact ((sz.mul sz).mul hv.weight).mono (by norm_num) (by norm_num)
    · have h3 := h.len.lo
      have h4 := h.len.hi
      have h5 := hv.R_le
      norm_num at h3 h4 h5
      exact ⟨by norm_num; linarith, by norm_num; linarith⟩
    · rw [Finset.sum_range_one]
      have := hv.dist
      have : 0 ≤ Orbit32.weight v * C := by positivity
      norm_num
      nlinarith
  have p1 := Orbit32.C107_position ho (n := 1) le_rfl (by norm_num)
  have p2 : (Orbit32.exact (fun _ => y) v 1).position = place (nrm y.real.toDQ) v.real.position := position_place hy hv.ne
  have p3 := place_le (E := nrm y.real.toDQ) (F := exactM x d n) (norm_unit hy) x1 v.real.position
  rw [p2] at p1
  have p4 := norm_sub_le_norm_sub_add_norm_sub (y.onPoint v).real.position (place (nrm y.real.toDQ) v.real.position)
    (place (exactM x d n) v.real.position)
  have p5 : ‖(y.onPoint v).real.position - place (nrm y.real.toDQ) v.real.position‖ ≤ 4.2e-5 * R + 8.4e-5 * C := by
    refine (show _ ≤ _ from p1).trans (le_of_eq ?_)
    push_cast; ring
  have n0 : (0 : ℝ) ≤ n := Nat.cast_nonneg n
  have k : 2 * ‖(nrm y.real.toDQ).1 - (exactM x d n).1‖ * (‖v.real.position‖ + ‖(exactM x d n).2‖) ≤
      2 * (4.8e-6 * n) * (R + C / 2) :=
    mul_le_mul (by linarith) (add_le_add hv.position x3) (by positivity) (by positivity)
  have k2 : 0 ≤ (n : ℝ) * C := by positivity
  norm_num at *
  nlinarith

include hc in
/-- C109: two points of the body keep their distance. -/
theorem C109_distance (h : Loop x d s t C N) (hv : Near v R) (hw' : Near w R) {n : ℕ} (hn : n ≤ N) (hN : n ≤ 8192) :
    abs (‖((trackM hw isa x d n).onPoint v).real.position - ((trackM hw isa x d n).onPoint w).real.position‖ -
      ‖v.real.position - w.real.position‖) ≤ 2 * ((9.6e-6 * R + 5.9e-5 * C) * n + (4.2e-5 * R + 8.4e-5 * C)) := by
  have k1 := C109_place hc isa h hv hn hN
  have k2 := C109_place hc isa h hw' hn hN
  obtain ⟨x1, -⟩ := exactM_norm h hn
  rw [← place_distance x1 v.real.position w.real.position]
  refine (abs_norm_sub_norm_le _ _).trans ?_
  rw [sub_sub_sub_comm]
  refine (norm_sub_le _ _).trans ?_
  linarith

theorem loop_ten : Loop Drift32.sample (fun _ => Drift32.sample) 1.01 (fun _ => 1.01) 23 10 := by
  obtain ⟨h1, h2, h3, h4, -, h5, h6, h7, h8, -⟩ := loop_sample
  refine ⟨h1, fun i hi => h2 i (by omega), h3, fun i hi => h4 i (by omega), ⟨by norm_num, by norm_num⟩, h5, h6, h7, fun i hi => h8 i (by omega), ?_⟩
  rw [Finset.sum_const, Finset.card_range]
  norm_num

include hc in
/-- Ten steps of the motor of C91, which advance by ten units, and the point at one. -/
example : ‖((trackM hw isa Drift32.sample (fun _ => Drift32.sample) 10).onPoint Orbit32.start).real.position -
    place (exactM Drift32.sample (fun _ => Drift32.sample) 10) Orbit32.start.real.position‖ ≤ 0.016 := by
  refine (C109_place hc isa loop_ten (v := Orbit32.start) (R := 2) ⟨by decide +kernel, ?_, ?_, by norm_num⟩ (n := 10) le_rfl (by norm_num)).trans ?_
  · rw [Orbit32.start_weight]; exact ⟨by norm_num, by norm_num⟩
  · rw [Orbit32.start_weight, one_mul]; exact Orbit32.start_norm
  · norm_num

end
end Renorm32
end Klein
