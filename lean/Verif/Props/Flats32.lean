import Verif.Props.Pose32

/-!
# C112: moving planes and lines step by step in binary32

As C107, for planes and lines.  A plane has a normal and an offset, a line a direction and a moment; both pairs
move by the same kind of recursion (`Track`): the first of the two is turned and scaled, and the second is
turned and scaled and takes up a translation times the first.
-/

set_option linter.unusedSimpArgs false

namespace Klein

open F32 Products32 Drift32
open scoped Quaternion

/-- The normal of a plane as a quaternion. -/
def Plane.qnormal (p : Plane ℝ) : ℍ[ℝ] := ⟨0, p.p0.l1, p.p0.l2, p.p0.l3⟩
/-- The direction of a line as a quaternion. -/
def Line.qdir (l : Line ℝ) : ℍ[ℝ] := ⟨0, l.p1.l1, l.p1.l2, l.p1.l3⟩
/-- The moment of a line as a quaternion. -/
def Line.qmom (l : Line ℝ) : ℍ[ℝ] := ⟨0, l.p2.l1, l.p2.l2, l.p2.l3⟩

theorem Plane.qnormal_re (p : Plane ℝ) : p.qnormal.re = 0 := rfl
theorem Plane.qnormal_imI (p : Plane ℝ) : p.qnormal.imI = p.p0.l1 := rfl
theorem Plane.qnormal_imJ (p : Plane ℝ) : p.qnormal.imJ = p.p0.l2 := rfl
theorem Plane.qnormal_imK (p : Plane ℝ) : p.qnormal.imK = p.p0.l3 := rfl
theorem Line.qdir_re (p : Line ℝ) : p.qdir.re = 0 := rfl
theorem Line.qdir_imI (p : Line ℝ) : p.qdir.imI = p.p1.l1 := rfl
theorem Line.qdir_imJ (p : Line ℝ) : p.qdir.imJ = p.p1.l2 := rfl
theorem Line.qdir_imK (p : Line ℝ) : p.qdir.imK = p.p1.l3 := rfl
theorem Line.qmom_re (p : Line ℝ) : p.qmom.re = 0 := rfl
theorem Line.qmom_imI (p : Line ℝ) : p.qmom.imI = p.p2.l1 := rfl
theorem Line.qmom_imJ (p : Line ℝ) : p.qmom.imJ = p.p2.l2 := rfl
theorem Line.qmom_imK (p : Line ℝ) : p.qmom.imK = p.p2.l3 := rfl

/-- C81: the action of a motor on a plane, in quaternions. -/
theorem C81_plane_quat (isa : Isa) (m : Motor ℝ) (p : Plane ℝ) :
    (m.onPlane isa p).qnormal = m.toDQ.1 * p.qnormal * star m.toDQ.1 ∧
    (m.onPlane isa p).p0.l0 = ‖m.toDQ.1‖ ^ 2 * p.p0.l0 - (p.qnormal * (star m.toDQ.1 * m.toDQ.2 - star m.toDQ.2 * m.toDQ.1)).re := by
  constructor
  · cases isa <;> ext
    all_goals simp only [Quaternion.re_mul, Quaternion.imI_mul, Quaternion.imJ_mul, Quaternion.imK_mul,
      Quaternion.re_star, Quaternion.imI_star, Quaternion.imJ_star, Quaternion.imK_star,
      Motor.re_toDQ, Motor.imI_toDQ, Motor.imJ_toDQ, Motor.imK_toDQ, Plane.qnormal_re, Plane.qnormal_imI, Plane.qnormal_imJ, Plane.qnormal_imK,
      kln, sse, cond_true, cond_false]
    all_goals ring
  · rw [sq, ← Quaternion.normSq_eq_norm_mul_self, Quaternion.normSq_def']
    cases isa
    all_goals simp only [Quaternion.re_mul, Quaternion.imI_mul, Quaternion.imJ_mul, Quaternion.imK_mul,
      Quaternion.re_star, Quaternion.imI_star, Quaternion.imJ_star, Quaternion.imK_star,
      Quaternion.re_sub, Quaternion.imI_sub, Quaternion.imJ_sub, Quaternion.imK_sub,
      Motor.re_toDQ, Motor.imI_toDQ, Motor.imJ_toDQ, Motor.imK_toDQ, Motor.re_toDQ2, Motor.imI_toDQ2,
      Motor.imJ_toDQ2, Motor.imK_toDQ2, Plane.qnormal_re, Plane.qnormal_imI, Plane.qnormal_imJ, Plane.qnormal_imK, kln, sse, cond_true, cond_false]
    all_goals ring

/-- C81: the action of a motor on a line, in quaternions. -/
theorem C81_line_quat (m : Motor ℝ) (l : Line ℝ) :
    (m.onLine l).qdir = m.toDQ.1 * l.qdir * star m.toDQ.1 ∧
    (m.onLine l).qmom = m.toDQ.1 * l.qmom * star m.toDQ.1 - (m.toDQ.1 * l.qdir * star m.toDQ.2 + m.toDQ.2 * l.qdir * star m.toDQ.1) := by
  constructor
  · ext
    all_goals simp only [Quaternion.re_mul, Quaternion.imI_mul, Quaternion.imJ_mul, Quaternion.imK_mul,
      Quaternion.re_star, Quaternion.imI_star, Quaternion.imJ_star, Quaternion.imK_star,
      Motor.re_toDQ, Motor.imI_toDQ, Motor.imJ_toDQ, Motor.imK_toDQ, Line.qdir_re, Line.qdir_imI, Line.qdir_imJ, Line.qdir_imK,
      kln, sse, cond_true, cond_false]
    all_goals ring
  · ext
    all_goals simp only [Quaternion.re_mul, Quaternion.imI_mul, Quaternion.imJ_mul, Quaternion.imK_mul,
      Quaternion.re_star, Quaternion.imI_star, Quaternion.imJ_star, Quaternion.imK_star,
      Quaternion.re_add, Quaternion.imI_add, Quaternion.imJ_add, Quaternion.imK_add,
      Quaternion.re_sub, Quaternion.imI_sub, Quaternion.imJ_sub, Quaternion.imK_sub,
      Motor.re_toDQ, Motor.imI_toDQ, Motor.imJ_toDQ, Motor.imK_toDQ, Motor.re_toDQ2, Motor.imI_toDQ2,
      Motor.imJ_toDQ2, Motor.imK_toDQ2, Line.qdir_re, Line.qdir_imI, Line.qdir_imJ, Line.qdir_imK, Line.qmom_re, Line.qmom_imI, Line.qmom_imJ, Line.qmom_imK, kln, sse, cond_true, cond_false]
    all_goals ring

theorem line_l0 (m : Motor ℝ) (l : Line ℝ) (h1 : l.p1.l0 = 0) (h2 : l.p2.l0 = 0) :
    (m.onLine l).p1.l0 = 0 ∧ (m.onLine l).p2.l0 = 0 := by
  constructor <;> simp only [kln, sse, cond_true, cond_false, h1, h2] <;> ring

namespace Flats32

open Orbit32 (scale scale_zero scale_succ scale_nonneg)

/-- The relative error of the first part after `n` steps. -/
noncomputable def G (n : ℕ) : ℝ := (1 + 142 * u) ^ n - 1

theorem G_zero : G 0 = 0 := by simp [G]
theorem G_succ (n : ℕ) : G (n + 1) = G n + 142 * u * (1 + G n) := by unfold G; rw [pow_succ]; ring
theorem G_nonneg (n : ℕ) : 0 ≤ G n := by
  unfold G
  have := one_le_pow₀ (n := n) (show (1 : ℝ) ≤ 1 + 142 * u by linarith [u_pos])
  linarith

theorem G_le {n : ℕ} (hn : n ≤ 4096) : G n ≤ 8.8e-6 * n := by
  induction n with
  | zero => rw [G_zero]; norm_num
  | succ n ih =>
    have ih := ih (Nat.le_of_succ_le hn)
    have hn' : (n : ℝ) ≤ 4096 := by exact_mod_cast Nat.le_of_succ_le hn
    have h1 : 1 + G n ≤ 1.037 := by norm_num at ih ⊢; linarith
    have h2 : 142 * u * (1 + G n) ≤ 142 * u * 1.037 := mul_le_mul_of_nonneg_left h1 (by linarith [u_pos])
    have h3 : 142 * u * 1.037 ≤ 8.8e-6 := by unfold u; norm_num
    rw [G_succ]
    push_cast
    linarith

theorem G_small {n : ℕ} (hn : n ≤ 4096) : G n ≤ 1 / 27 := by
  have hn' : (n : ℝ) ≤ 4096 := by exact_mod_cast hn
  exact (G_le hn).trans (by norm_num; linarith)

/-- A sequence of motors whose translations stay within the length `L`. -/
structure Path (m : ℕ → Motor F32) (t : ℕ → ℝ) (b p L : ℝ) (N : ℕ) : Prop where
  fin : ∀ i < N, Fin (m i)
  size_i : ∀ i < N, In2 ‖q1 (m i)‖ 24 24
  size : ∀ i ≤ N, In2 (scale m i * b) 20 20
  len : In2 L 20 20
  t_nonneg : ∀ i, 0 ≤ t i
  trans : ∀ i < N, ‖q2 (m i)‖ ≤ ‖q1 (m i)‖ * t i
  p_nonneg : 0 ≤ p
  sum : 2 * (p + 2 * b * ∑ i ∈ Finset.range N, t i) ≤ b * L

/-- The recursion, exact in `X` and `Y` and rounded in `x` and `y`. -/
structure Track (m : ℕ → Motor F32) (b p L α : ℝ) (N : ℕ) (X Y x y : ℕ → ℍ[ℝ]) (Ok : ℕ → Prop) : Prop where
  ok0 : Ok 0
  x0 : x 0 = X 0
  y0 : y 0 = Y 0
  nX0 : ‖X 0‖ = b
  nY0 : ‖Y 0‖ ≤ p
  nX : ∀ n < N, ‖X (n + 1)‖ = ‖q1 (m n)‖ ^ 2 * ‖X n‖
  nY : ∀ n < N, ‖Y (n + 1)‖ ≤ ‖q1 (m n)‖ ^ 2 * ‖Y n‖ + 2 * (‖q1 (m n)‖ * ‖q2 (m n)‖) * ‖X n‖
  step : ∀ n < N, ∀ B, In2 B 24 24 → Ok n → ‖x n‖ ≤ B → ‖y n‖ ≤ B * L → Ok (n + 1) ∧
    ‖x (n + 1) - X (n + 1)‖ ≤ ‖q1 (m n)‖ ^ 2 * ‖x n - X n‖ + 142 * u * (‖q1 (m n)‖ ^ 2 * B) ∧
    ‖y (n + 1) - Y (n + 1)‖ ≤ ‖q1 (m n)‖ ^ 2 * ‖y n - Y n‖ + 2 * (‖q1 (m n)‖ * ‖q2 (m n)‖) * ‖x n - X n‖ +
      142 * α * u * (‖q1 (m n)‖ ^ 2 * B * L)

section
variable {m : ℕ → Motor F32} {t : ℕ → ℝ} {b p L α : ℝ} {N : ℕ} {X Y x y : ℕ → ℍ[ℝ]} {Ok : ℕ → Prop}

theorem Path.pos (h : Path m t b p L N) : 0 < b := by
  have := (h.size 0 (Nat.zero_le _)).pos
  rwa [scale_zero, one_mul] at this

theorem Path.scale_pos (h : Path m t b p L N) {n : ℕ} (hn : n ≤ N) : 0 < scale m n :=
  pos_of_mul_pos_left (h.size n hn).pos h.pos.le

theorem Path.partial_sum (h : Path m t b p L N) {n : ℕ} (hn : n ≤ N) :
    2 * (p + 2 * b * ∑ i ∈ Finset.range n, t i) ≤ b * L := by
  have := Finset.sum_le_sum_of_subset_of_nonneg (Finset.range_subset_range.2 hn) (f := t) fun i _ _ => h.t_nonneg i
  have := mul_le_mul_of_nonneg_left this h.pos.le
  linarith [h.sum]

theorem Path.sum_le (h : Path m t b p L N) {n : ℕ} (hn : n ≤ N) : 4 * ∑ i ∈ Finset.range n, t i ≤ L := by
  have h1 := h.partial_sum hn
  have h2 := h.p_nonneg
  refine le_of_mul_le_mul_left ?_ h.pos
  linarith

theorem Track.norm (hp : Path m t b p L N) (h : Track m b p L α N X Y x y Ok) {n : ℕ} (hn : n ≤ N) :
    ‖X n‖ = scale m n * b ∧ ‖Y n‖ ≤ scale m n * (p + 2 * b * ∑ i ∈ Finset.range n, t i) := by
  induction n with
  | zero => rw [scale_zero, one_mul, one_mul, Finset.sum_range_zero, mul_zero, add_zero]; exact ⟨h.nX0, h.nY0⟩
  | succ n ih =>
    obtain ⟨h1, h2⟩ := ih (Nat.le_of_succ_le hn)
    refine ⟨by rw [h.nX n hn, h1, scale_succ]; ring, (h.nY n hn).trans ?_⟩
    have ht := mul_le_mul_of_nonneg_left (hp.trans n hn) (norm_nonneg (q1 (m n)))
    have hs := mul_nonneg (scale_nonneg (m := m) n) hp.pos.le
    have k1 := mul_le_mul_of_nonneg_left h2 (sq_nonneg ‖q1 (m n)‖)
    have k2 := mul_le_mul_of_nonneg_right ht hs
    rw [h1, scale_succ, Finset.sum_range_succ]
    linarith

private theorem num {S T g e x : ℝ} (hb : 0 < b) (hS : 0 < S) (hL : 0 < L) (hg : 0 ≤ g) (hg' : g ≤ 1 / 27) (hα : α ≤ 4)
    (hT : 4 * T ≤ L) (h : 2 * (p + 2 * b * T) ≤ b * L) (hx : x ≤ S * (p + 2 * b * T)) (he : e ≤ S * b * ((α * L + 2 * T) * g)) :
    e + x ≤ S * b * (1 + g) * L := by
  have k0 : α * L ≤ 4 * L := mul_le_mul_of_nonneg_right hα hL.le
  have k1 : (α * L + 2 * T) * g ≤ 5 * L * g := mul_le_mul_of_nonneg_right (by linarith) hg
  have k2 : 5 * L * g ≤ 5 * L * (1 / 27) := mul_le_mul_of_nonneg_left hg' (by positivity)
  have k3 := mul_le_mul_of_nonneg_left (k1.trans k2) (mul_pos hS hb).le
  have k4 := mul_le_mul_of_nonneg_left h hS.le
  have k5 : 0 ≤ S * b * g * L := by positivity
  have k6 : 0 ≤ S * b * L := by positivity
  linarith

private theorem add_x {S g a e e' : ℝ} (he : e ≤ S * b * g) (h : e' ≤ a ^ 2 * e + 142 * u * (a ^ 2 * (S * b * (1 + g)))) :
    e' ≤ S * a ^ 2 * b * (g + 142 * u * (1 + g)) := by
  have := mul_le_mul_of_nonneg_left he (sq_nonneg a)
  linarith

private theorem add_y {S g a c e f e' T τ : ℝ} (hS : 0 ≤ S * b) (hg : 0 ≤ g) (hT : 0 ≤ T) (ht : 0 ≤ τ) (hf0 : 0 ≤ f) (ha : 0 ≤ a)
    (hc : c ≤ a * τ) (hf : f ≤ S * b * g) (he : e ≤ S * b * ((α * L + 2 * T) * g))
    (h : e' ≤ a ^ 2 * e + 2 * (a * c) * f + 142 * α * u * (a ^ 2 * (S * b * (1 + g)) * L)) :
    e' ≤ S * a ^ 2 * b * ((α * L + 2 * (T + τ)) * (g + 142 * u * (1 + g))) := by
  have hu := u_pos
  have k1 := mul_le_mul_of_nonneg_left he (sq_nonneg a)
  have k2 : 2 * (a * c) * f ≤ 2 * (a * (a * τ)) * (S * b * g) := by gcongr
  have k3 : 0 ≤ S * b * a ^ 2 * (2 * (T + τ) * (142 * u * (1 + g))) := by positivity
  linarith

/-- The invariant of the motion. -/
theorem Track.invariant (hp : Path m t b p L N) (h : Track m b p L α N X Y x y Ok) (hα : α ≤ 4) {n : ℕ} (hn : n ≤ N) (hN : n ≤ 4096) :
    Ok n ∧ ‖x n - X n‖ ≤ scale m n * b * G n ∧
    ‖y n - Y n‖ ≤ scale m n * b * ((α * L + 2 * ∑ i ∈ Finset.range n, t i) * G n) := by
  induction n with
  | zero =>
    rw [h.x0, h.y0, sub_self, sub_self, norm_zero, G_zero, mul_zero, mul_zero, mul_zero]
    exact ⟨h.ok0, le_rfl, le_rfl⟩
  | succ n ih =>
    have hn' := Nat.le_of_succ_le hn
    obtain ⟨ho, e1, e2⟩ := ih hn' (Nat.le_of_succ_le hN)
    obtain ⟨x1, x2⟩ := h.norm hp hn'
    have hS := hp.size n hn'
    have hg := G_small (Nat.le_of_succ_le hN)
    have hg0 := G_nonneg n
    have T0 : 0 ≤ ∑ i ∈ Finset.range n, t i := Finset.sum_nonneg fun i _ => hp.t_nonneg i
    have hB : In2 (scale m n * b * (1 + G n)) 24 24 := by
      have k0 := mul_nonneg hS.pos.le hg0
      have k1 := mul_le_mul_of_nonneg_left hg hS.pos.le
      have := hS.1
      have := hS.2
      constructor
      · have : (1 : ℝ) / 2 ^ 24 ≤ 1 / 2 ^ 20 := by norm_num
        linarith
      · have : (28 : ℝ) / 27 * 2 ^ 20 ≤ 2 ^ 24 := by norm_num
        linarith
    have b1 : ‖x n‖ ≤ scale m n * b * (1 + G n) := by
      have := norm_add_le (x n - X n) (X n)
      rw [sub_add_cancel] at this
      linarith
    have b2 : ‖y n‖ ≤ scale m n * b * (1 + G n) * L := by
      have := norm_add_le (y n - Y n) (Y n)
      rw [sub_add_cancel] at this
      exact this.trans (num hp.pos (hp.scale_pos hn') hp.len.pos hg0 hg hα (hp.sum_le hn') (hp.partial_sum hn') x2 e2)
    obtain ⟨o, n1, n2⟩ := h.step n hn _ hB ho b1 b2
    rw [scale_succ, G_succ, Finset.sum_range_succ]
    exact ⟨o, add_x e1 n1, add_y hS.pos.le hg0 T0 (hp.t_nonneg n) (norm_nonneg _) (norm_nonneg _) (hp.trans n hn) e1 e2 n2⟩

/-- The errors relative to the size of the first part. -/
theorem Track.error (hp : Path m t b p L N) (h : Track m b p L α N X Y x y Ok) (hα0 : 0 ≤ α) (hα : α ≤ 4) {n : ℕ} (hn : n ≤ N) (hN : n ≤ 4096) :
    Ok n ∧ ‖x n - X n‖ ≤ 8.8e-6 * n * ‖X n‖ ∧ ‖y n - Y n‖ ≤ (α + 1 / 2) * (8.8e-6 * n) * (‖X n‖ * L) ∧
    0 < ‖X n‖ ∧ ‖Y n‖ ≤ ‖X n‖ * L / 2 := by
  obtain ⟨o, e1, e2⟩ := h.invariant hp hα hn hN
  obtain ⟨x1, x2⟩ := h.norm hp hn
  have hS := (hp.size n hn).pos
  have hg := G_le hN
  have hg0 := G_nonneg n
  have hL := hp.len.pos
  have hT := hp.sum_le hn
  rw [← x1] at e1 e2 hS
  refine ⟨o, e1.trans ?_, e2.trans ?_, hS, x2.trans ?_⟩
  · have := mul_le_mul_of_nonneg_left hg hS.le
    linarith
  · have k1 : (α * L + 2 * ∑ i ∈ Finset.range n, t i) * G n ≤ ((α + 1 / 2) * L) * (8.8e-6 * n) :=
      mul_le_mul (by linarith) hg hg0 (by positivity)
    have := mul_le_mul_of_nonneg_left k1 hS.le
    linarith
  · have := mul_le_mul_of_nonneg_left (hp.partial_sum hn) (hp.scale_pos hn).le
    rw [x1]
    linarith

end

/-! ### planes -/

/-- The plane after `n` steps, `m (n-1) (... (m 1 (m 0 v)))`. -/
def planeOrbit {F : Type} [Add F] [Sub F] [Mul F] [Neg F] [Zero F] [One F] [NatCast F] (isa : Isa) (m : ℕ → Motor F) (v : Plane F) : ℕ → Plane F
  | 0 => v
  | n + 1 => (m n).onPlane isa (planeOrbit isa m v n)

/-- The exact motion. -/
noncomputable def planeExact (isa : Isa) (m : ℕ → Motor F32) (v : Plane F32) (n : ℕ) : Plane ℝ :=
  planeOrbit isa (fun i => (m i).real) v.real n

theorem turn_norm (a v : ℍ[ℝ]) : ‖a * v * star a‖ = ‖a‖ ^ 2 * ‖v‖ := by rw [norm_mul, norm_mul, norm_star]; ring

theorem shift_re (v a c : ℍ[ℝ]) : |(v * (star a * c - star c * a)).re| ≤ 2 * (‖a‖ * ‖c‖) * ‖v‖ := by
  refine (le_norm _).1.trans ?_
  rw [norm_mul]
  have h := norm_sub_le (star a * c) (star c * a)
  rw [norm_mul, norm_mul, norm_star, norm_star] at h
  have := mul_le_mul_of_nonneg_left h (norm_nonneg v)
  linarith

theorem shift_mom (v a c : ℍ[ℝ]) : ‖a * v * star c + c * v * star a‖ ≤ 2 * (‖a‖ * ‖c‖) * ‖v‖ := by
  have h := norm_add_le (a * v * star c) (c * v * star a)
  rw [norm_mul, norm_mul, norm_mul, norm_mul, norm_star, norm_star] at h
  linarith

section
variable {m : ℕ → Motor F32} {t : ℕ → ℝ} {v : Plane F32} {L : ℝ} {N : ℕ}

/-- What the analysis asks of a plane: finite lanes, sizes neither tiny nor huge, and a length `L` of at least twice
the distance of the plane plus four times the sum of the half translations `t i`. -/
def PlanePath (m : ℕ → Motor F32) (t : ℕ → ℝ) (v : Plane F32) (L : ℝ) (N : ℕ) : Prop :=
  Path m t ‖v.real.qnormal‖ |v.real.p0.l0| L N ∧ ∀ i, (v.p0.get i).isFinite = true

theorem plane_track (isa : Isa) (h : PlanePath m t v L N) : Track m ‖v.real.qnormal‖ |v.real.p0.l0| L 1.7 N
    (fun n => (planeExact isa m v n).qnormal) (fun n => ((planeExact isa m v n).p0.l0 : ℍ[ℝ]))
    (fun n => (planeOrbit isa m v n).real.qnormal) (fun n => ((planeOrbit isa m v n).real.p0.l0 : ℍ[ℝ]))
    (fun n => ∀ i, ((planeOrbit isa m v n).p0.get i).isFinite = true) := by
  obtain ⟨hp, hf⟩ := h
  refine ⟨hf, rfl, rfl, rfl, ?_, fun n hn => ?_, fun n hn => ?_, fun n hn B hB ok hx hy => ?_⟩
  · rw [Quaternion.norm_coe]; exact le_rfl
  · show ‖((m n).real.onPlane isa (planeExact isa m v n)).qnormal‖ = _
    rw [(C81_plane_quat isa _ _).1, turn_norm]; rfl
  · show ‖((((m n).real.onPlane isa (planeExact isa m v n)).p0.l0 : ℝ) : ℍ[ℝ])‖ ≤ _
    rw [(C81_plane_quat isa _ _).2, Quaternion.norm_coe, Quaternion.norm_coe]
    refine (abs_sub _ _).trans (add_le_add ?_ (shift_re _ _ _))
    rw [abs_mul, abs_of_nonneg (sq_nonneg _)]; exact le_rfl
  · rw [Quaternion.norm_coe] at hy
    obtain ⟨c0, c1, c2, c3⟩ := le_norm (planeOrbit isa m v n).real.qnormal
    have hw : (planeOrbit isa m v n).Within B L := ⟨ok, hy, c1.trans hx, c2.trans hx, c3.trans hx⟩
    have tL : t n ≤ L := by
      have := hp.sum_le hn
      rw [Finset.sum_range_succ] at this
      have := Finset.sum_nonneg (s := Finset.range n) fun i _ => hp.t_nonneg i
      have := hp.t_nonneg n
      linarith
    have hA := hp.size_i n hn
    have hB0 := hB.pos
    have hL0 := hp.len.pos
    obtain ⟨⟨f0, d0⟩, ⟨f1, d1⟩, ⟨f2, d2⟩, f3, d3⟩ := C90_motor_on_plane hA hB hp.len isa
      (within (hp.fin n hn) le_rfl ((hp.trans n hn).trans (mul_le_mul_of_nonneg_left tL hA.pos.le))) hw
    obtain ⟨q, q0⟩ := C81_plane_quat isa (m n).real (planeOrbit isa m v n).real
    obtain ⟨s, s0⟩ := C81_plane_quat isa (m n).real (planeExact isa m v n)
    refine ⟨fun i => match i with | 0 => f0 | 1 => f1 | 2 => f2 | 3 => f3, ?_, ?_⟩
    · have n1 : ‖((m n).onPlane isa (planeOrbit isa m v n)).real.qnormal - ((m n).real.onPlane isa (planeOrbit isa m v n).real).qnormal‖ ≤
          142 * u * (‖q1 (m n)‖ ^ 2 * B) := by
        refine (norm_le (e := 71 * (‖q1 (m n)‖ ^ 2 * B) / 2 ^ 24) (by positivity) ?_ d1 d2 d3).trans (le_of_eq ?_)
        · rw [Quaternion.re_sub, Plane.qnormal_re, Plane.qnormal_re, sub_self, abs_zero]; positivity
        · unfold u; ring
      have n2 : ‖((m n).real.onPlane isa (planeOrbit isa m v n).real).qnormal - (planeExact isa m v (n + 1)).qnormal‖ =
          ‖q1 (m n)‖ ^ 2 * ‖(planeOrbit isa m v n).real.qnormal - (planeExact isa m v n).qnormal‖ := by
        show ‖_ - ((m n).real.onPlane isa (planeExact isa m v n)).qnormal‖ = _
        rw [q, s, ← sub_mul, ← mul_sub, turn_norm]; rfl
      have n3 := norm_sub_le_norm_sub_add_norm_sub ((m n).onPlane isa (planeOrbit isa m v n)).real.qnormal
        ((m n).real.onPlane isa (planeOrbit isa m v n).real).qnormal (planeExact isa m v (n + 1)).qnormal
      refine n3.trans ?_
      rw [n2]
      linarith
    · rw [← Quaternion.coe_sub, ← Quaternion.coe_sub, Quaternion.norm_coe, Quaternion.norm_coe, Real.norm_eq_abs, Real.norm_eq_abs]
      have n2 : |((m n).real.onPlane isa (planeOrbit isa m v n).real).p0.l0 - (planeExact isa m v (n + 1)).p0.l0| ≤
          ‖q1 (m n)‖ ^ 2 * |(planeOrbit isa m v n).real.p0.l0 - (planeExact isa m v n).p0.l0| +
          2 * (‖q1 (m n)‖ * ‖q2 (m n)‖) * ‖(planeOrbit isa m v n).real.qnormal - (planeExact isa m v n).qnormal‖ := by
        show |_ - ((m n).real.onPlane isa (planeExact isa m v n)).p0.l0| ≤ _
        rw [q0, s0, sub_sub_sub_comm, ← mul_sub, ← Quaternion.re_sub, ← sub_mul]
        refine (abs_sub _ _).trans (add_le_add ?_ (shift_re _ _ _))
        rw [abs_mul, abs_of_nonneg (sq_nonneg _)]; exact le_rfl
      have n3 := abs_sub_le (r ((m n).onPlane isa (planeOrbit isa m v n)).p0.l0)
        ((m n).real.onPlane isa (planeOrbit isa m v n).real).p0.l0 (planeExact isa m v (n + 1)).p0.l0
      have k : 233 * (‖q1 (m n)‖ ^ 2 * B * L) / 2 ^ 24 ≤ 142 * 1.7 * u * (‖q1 (m n)‖ ^ 2 * B * L) := by
        have : 0 ≤ ‖q1 (m n)‖ ^ 2 * B * L := by positivity
        unfold u
        norm_num
        linarith
      refine n3.trans ?_
      linarith [d0.trans k]

/-- C112: after `n` steps in binary32 the lanes of a plane are finite, the normal is within `8.8e-6 n` of the exact normal
and the offset within `2e-5 n` of the exact one, relative to the length of the normal and to `L`. -/
theorem C112_plane (isa : Isa) (h : PlanePath m t v L N) {n : ℕ} (hn : n ≤ N) (hN : n ≤ 4096) :
    (∀ i, ((planeOrbit isa m v n).p0.get i).isFinite = true) ∧
    ‖(planeOrbit isa m v n).real.qnormal - (planeExact isa m v n).qnormal‖ ≤ 8.8e-6 * n * ‖(planeExact isa m v n).qnormal‖ ∧
    |(planeOrbit isa m v n).real.p0.l0 - (planeExact isa m v n).p0.l0| ≤ 2e-5 * n * (‖(planeExact isa m v n).qnormal‖ * L) := by
  obtain ⟨o, e1, e2, x1, -⟩ := (plane_track isa h).error h.1 (by norm_num) (by norm_num) hn hN
  refine ⟨o, e1, ?_⟩
  rw [← Quaternion.coe_sub, Quaternion.norm_coe] at e2
  have := h.1.len.pos
  have : 0 ≤ n * (‖(planeExact isa m v n).qnormal‖ * L) := by positivity
  refine e2.trans ?_
  norm_num
  linarith

end

/-! ### lines -/

/-- The line after `n` steps. -/
def lineOrbit {F : Type} [Add F] [Sub F] [Mul F] [Neg F] [Zero F] [One F] [NatCast F] (m : ℕ → Motor F) (v : Line F) : ℕ → Line F
  | 0 => v
  | n + 1 => (m n).onLine (lineOrbit m v n)

/-- The exact motion. -/
noncomputable def lineExact (m : ℕ → Motor F32) (v : Line F32) (n : ℕ) : Line ℝ := lineOrbit (fun i => (m i).real) v.real n

section
variable {m : ℕ → Motor F32} {t : ℕ → ℝ} {v : Line F32} {L : ℝ} {N : ℕ}

/-- Finite lanes, the unused ones zero. -/
def LineOk (v : Line F32) : Prop :=
  (∀ i, (v.p1.get i).isFinite = true) ∧ (∀ i, (v.p2.get i).isFinite = true) ∧ r v.p1.l0 = 0 ∧ r v.p2.l0 = 0

/-- What the analysis asks of a line. -/
def LinePath (m : ℕ → Motor F32) (t : ℕ → ℝ) (v : Line F32) (L : ℝ) (N : ℕ) : Prop :=
  Path m t ‖v.real.qdir‖ ‖v.real.qmom‖ L N ∧ LineOk v

theorem line_track (h : LinePath m t v L N) : Track m ‖v.real.qdir‖ ‖v.real.qmom‖ L 4 N
    (fun n => (lineExact m v n).qdir) (fun n => (lineExact m v n).qmom)
    (fun n => (lineOrbit m v n).real.qdir) (fun n => (lineOrbit m v n).real.qmom)
    (fun n => LineOk (lineOrbit m v n)) := by
  obtain ⟨hp, hf⟩ := h
  refine ⟨hf, rfl, rfl, rfl, le_rfl, fun n hn => ?_, fun n hn => ?_, fun n hn B hB ok hx hy => ?_⟩
  · show ‖((m n).real.onLine (lineExact m v n)).qdir‖ = _
    rw [(C81_line_quat _ _).1, turn_norm]; rfl
  · show ‖((m n).real.onLine (lineExact m v n)).qmom‖ ≤ _
    rw [(C81_line_quat _ _).2]
    refine (norm_sub_le _ _).trans (add_le_add ?_ (shift_mom _ _ _))
    rw [turn_norm]; exact le_rfl
  · obtain ⟨o1, o2, z1, z2⟩ := ok
    obtain ⟨-, c1, c2, c3⟩ := le_norm (lineOrbit m v n).real.qdir
    obtain ⟨-, c1', c2', c3'⟩ := le_norm (lineOrbit m v n).real.qmom
    have hw : (lineOrbit m v n).Within B L := ⟨⟨o1, by rw [z1, abs_zero], c1.trans hx, c2.trans hx, c3.trans hx⟩,
      o2, by rw [z2, abs_zero], c1'.trans hy, c2'.trans hy, c3'.trans hy⟩
    have tL : t n ≤ L := by
      have := hp.sum_le hn
      rw [Finset.sum_range_succ] at this
      have := Finset.sum_nonneg (s := Finset.range n) fun i _ => hp.t_nonneg i
      have := hp.t_nonneg n
      linarith
    have hA := hp.size_i n hn
    have hB0 := hB.pos
    have hL0 := hp.len.pos
    obtain ⟨⟨⟨f0, d0⟩, ⟨f1, d1⟩, ⟨f2, d2⟩, f3, d3⟩, ⟨g0, b0⟩, ⟨g1, b1⟩, ⟨g2, b2⟩, g3, b3⟩ := C90_motor_on_line hA hB hp.len
      (within (hp.fin n hn) le_rfl ((hp.trans n hn).trans (mul_le_mul_of_nonneg_left tL hA.pos.le))) hw
    obtain ⟨q, q0⟩ := C81_line_quat (m n).real (lineOrbit m v n).real
    obtain ⟨s, s0⟩ := C81_line_quat (m n).real (lineExact m v n)
    obtain ⟨w1, w2⟩ := line_l0 (m n).real (lineOrbit m v n).real z1 z2
    rw [w1, zero_div, sub_zero] at d0
    rw [w2, zero_div, sub_zero] at b0
    refine ⟨⟨fun i => match i with | 0 => f0 | 1 => f1 | 2 => f2 | 3 => f3, fun i => match i with | 0 => g0 | 1 => g1 | 2 => g2 | 3 => g3,
      abs_nonpos_iff.1 d0, abs_nonpos_iff.1 b0⟩, ?_, ?_⟩
    · have n1 : ‖((m n).onLine (lineOrbit m v n)).real.qdir - ((m n).real.onLine (lineOrbit m v n).real).qdir‖ ≤
          142 * u * (‖q1 (m n)‖ ^ 2 * B) := by
        have h0 : 0 ≤ ‖q1 (m n)‖ ^ 2 * B := by positivity
        refine (norm_le (e := 70 * (‖q1 (m n)‖ ^ 2 * B) / 2 ^ 24) (by positivity) ?_ d1 d2 d3).trans ?_
        · rw [Quaternion.re_sub, Line.qdir_re, Line.qdir_re, sub_self, abs_zero]; positivity
        · unfold u; linarith
      have n2 : ‖((m n).real.onLine (lineOrbit m v n).real).qdir - (lineExact m v (n + 1)).qdir‖ =
          ‖q1 (m n)‖ ^ 2 * ‖(lineOrbit m v n).real.qdir - (lineExact m v n).qdir‖ := by
        show ‖_ - ((m n).real.onLine (lineExact m v n)).qdir‖ = _
        rw [q, s, ← sub_mul, ← mul_sub, turn_norm]; rfl
      have n3 := norm_sub_le_norm_sub_add_norm_sub ((m n).onLine (lineOrbit m v n)).real.qdir
        ((m n).real.onLine (lineOrbit m v n).real).qdir (lineExact m v (n + 1)).qdir
      refine n3.trans ?_
      rw [n2]
      linarith
    · have n1 : ‖((m n).onLine (lineOrbit m v n)).real.qmom - ((m n).real.onLine (lineOrbit m v n).real).qmom‖ ≤
          142 * 4 * u * (‖q1 (m n)‖ ^ 2 * B * L) := by
        have h0 : 0 ≤ ‖q1 (m n)‖ ^ 2 * B * L := by positivity
        refine (norm_le (e := 283 * (‖q1 (m n)‖ ^ 2 * B * L) / 2 ^ 24) (by positivity) ?_ b1 b2 b3).trans ?_
        · rw [Quaternion.re_sub, Line.qmom_re, Line.qmom_re, sub_self, abs_zero]; positivity
        · unfold u; linarith
      have n2 : ‖((m n).real.onLine (lineOrbit m v n).real).qmom - (lineExact m v (n + 1)).qmom‖ ≤
          ‖q1 (m n)‖ ^ 2 * ‖(lineOrbit m v n).real.qmom - (lineExact m v n).qmom‖ +
          2 * (‖q1 (m n)‖ * ‖q2 (m n)‖) * ‖(lineOrbit m v n).real.qdir - (lineExact m v n).qdir‖ := by
        show ‖_ - ((m n).real.onLine (lineExact m v n)).qmom‖ ≤ _
        rw [q0, s0, sub_sub_sub_comm, ← sub_mul, ← mul_sub, add_sub_add_comm, ← sub_mul, ← sub_mul, ← mul_sub, ← mul_sub]
        refine (norm_sub_le _ _).trans (add_le_add ?_ (shift_mom _ _ _))
        rw [turn_norm]; exact le_rfl
      have n3 := norm_sub_le_norm_sub_add_norm_sub ((m n).onLine (lineOrbit m v n)).real.qmom
        ((m n).real.onLine (lineOrbit m v n).real).qmom (lineExact m v (n + 1)).qmom
      refine n3.trans ?_
      linarith

/-- C112: after `n` steps in binary32 the lanes of a line are finite, the direction is within `8.8e-6 n` of the exact
direction and the moment within `4e-5 n` of the exact one, relative to the length of the direction and to `L`. -/
theorem C112_line (h : LinePath m t v L N) {n : ℕ} (hn : n ≤ N) (hN : n ≤ 4096) :
    LineOk (lineOrbit m v n) ∧
    ‖(lineOrbit m v n).real.qdir - (lineExact m v n).qdir‖ ≤ 8.8e-6 * n * ‖(lineExact m v n).qdir‖ ∧
    ‖(lineOrbit m v n).real.qmom - (lineExact m v n).qmom‖ ≤ 4e-5 * n * (‖(lineExact m v n).qdir‖ * L) := by
  obtain ⟨o, e1, e2, x1, -⟩ := (line_track h).error h.1 (by norm_num) le_rfl hn hN
  refine ⟨o, e1, e2.trans ?_⟩
  have := h.1.len.pos
  have : 0 ≤ n * (‖(lineExact m v n).qdir‖ * L) := by positivity
  norm_num
  linarith

end
/-! ### the distance of a point from a plane -/

/-- `d w - (n p).re`: the incidence of a plane and a point, zero when the point lies on the plane. -/
noncomputable def meet (v : Plane ℝ) (x : Point ℝ) : ℝ := v.p0.l0 * x.p3.l0 - (v.qnormal * x.pure).re

/-- The signed distance of a point from a plane. -/
noncomputable def height (v : Plane ℝ) (x : Point ℝ) : ℝ := (v.p0.l0 - (v.qnormal * x.position).re) / ‖v.qnormal‖

/-- In coordinates, `(a x + b y + c z + d) / sqrt (a² + b² + c²)`. -/
theorem height_eq (v : Plane ℝ) (x : Point ℝ) (hx : x.p3.l0 = 1) : height v x =
    (v.p0.l1 * x.p3.l1 + v.p0.l2 * x.p3.l2 + v.p0.l3 * x.p3.l3 + v.p0.l0) / Real.sqrt (v.p0.l1 ^ 2 + v.p0.l2 ^ 2 + v.p0.l3 ^ 2) := by
  have h : ‖v.qnormal‖ = Real.sqrt (v.p0.l1 ^ 2 + v.p0.l2 ^ 2 + v.p0.l3 ^ 2) := by
    rw [← Real.sqrt_sq (norm_nonneg v.qnormal), sq, ← Quaternion.normSq_eq_norm_mul_self, Quaternion.normSq_def', Plane.qnormal_re,
      Plane.qnormal_imI, Plane.qnormal_imJ, Plane.qnormal_imK]
    congr 1
    ring
  unfold height
  rw [h]
  congr 1
  unfold Point.position
  rw [hx, inv_one, one_smul, Quaternion.re_mul, Plane.qnormal_re, Plane.qnormal_imI, Plane.qnormal_imJ, Plane.qnormal_imK,
    Point.pure_re, Point.pure_imI, Point.pure_imJ, Point.pure_imK]
  ring

theorem height_meet (v : Plane ℝ) (x : Point ℝ) (hx : x.p3.l0 ≠ 0) : height v x = meet v x / (‖v.qnormal‖ * x.p3.l0) := by
  unfold height meet Point.position
  rw [mul_smul_comm, Quaternion.re_smul, smul_eq_mul]
  field_simp

theorem meet_quat (a c n p : ℍ[ℝ]) (d w : ℝ) :
    (‖a‖ ^ 2 * d - (n * (star a * c - star c * a)).re) * (‖a‖ ^ 2 * w) -
      (a * n * star a * (a * p * star a + w • (a * star c - c * star a))).re = ‖a‖ ^ 4 * (d * w - (n * p).re) := by
  have h : ‖a‖ ^ 4 = (‖a‖ ^ 2) ^ 2 := by ring
  rw [h, sq ‖a‖, ← Quaternion.normSq_eq_norm_mul_self, Quaternion.normSq_def']
  simp only [Quaternion.re_mul, Quaternion.imI_mul, Quaternion.imJ_mul, Quaternion.imK_mul,
    Quaternion.re_star, Quaternion.imI_star, Quaternion.imJ_star, Quaternion.imK_star,
    Quaternion.re_add, Quaternion.imI_add, Quaternion.imJ_add, Quaternion.imK_add,
    Quaternion.re_sub, Quaternion.imI_sub, Quaternion.imJ_sub, Quaternion.imK_sub,
    Quaternion.re_smul, Quaternion.imI_smul, Quaternion.imJ_smul, Quaternion.imK_smul, smul_eq_mul]
  ring

/-- C81: a motor moves points and planes together. -/
theorem C81_meet (isa : Isa) (m : Motor ℝ) (v : Plane ℝ) (x : Point ℝ) :
    meet (m.onPlane isa v) (m.onPoint x) = ‖m.toDQ.1‖ ^ 4 * meet v x := by
  unfold meet
  rw [(C81_plane_quat isa m v).1, (C81_plane_quat isa m v).2, (C81_point_quat m x).1, (C81_point_quat m x).2]
  exact meet_quat _ _ _ _ _ _

theorem height_move (isa : Isa) {m : Motor ℝ} {v : Plane ℝ} {x : Point ℝ} (hm : ‖m.toDQ.1‖ ≠ 0) (hx : x.p3.l0 ≠ 0) :
    height (m.onPlane isa v) (m.onPoint x) = height v x := by
  rw [height_meet _ _ hx, height_meet, C81_meet, (C81_plane_quat isa m v).1, turn_norm, (C81_point_quat m x).2]
  · rw [show ‖m.toDQ.1‖ ^ 2 * ‖v.qnormal‖ * (‖m.toDQ.1‖ ^ 2 * x.p3.l0) = ‖m.toDQ.1‖ ^ 4 * (‖v.qnormal‖ * x.p3.l0) by ring]
    exact mul_div_mul_left _ _ (pow_ne_zero 4 hm)
  · rw [(C81_point_quat m x).2]; exact mul_ne_zero (pow_ne_zero 2 hm) hx

section
variable {m : ℕ → Motor F32} {t : ℕ → ℝ} {v : Plane F32} {w : Point F32} {L : ℝ} {N : ℕ}

theorem exact_height (isa : Isa) (hw : w.real.p3.l0 ≠ 0) {n : ℕ} (hS : scale m n ≠ 0) :
    height (planeExact isa m v n) (Orbit32.exact m w n) = height v.real w.real := by
  induction n with
  | zero => rfl
  | succ n ih =>
    rw [scale_succ, mul_ne_zero_iff] at hS
    rw [← ih hS.1]
    refine height_move isa (m := (m n).real) (fun h => hS.2 ?_) ?_
    · show ‖(m n).real.toDQ.1‖ ^ 2 = 0
      rw [h]; norm_num
    · show (Orbit32.exact m w n).p3.l0 ≠ 0
      rw [Orbit32.exact_weight]; exact mul_ne_zero hS.1 hw

private theorem quot {a b A B : ℝ} (hA : 0 < A) (hB : 0 < B) : |a / A - b / B| ≤ (|a - b| + |A - B| * (|b| / B)) / A := by
  have k : a / A - b / B = ((a - b) - (A - B) * (b / B)) / A := by field_simp; ring
  rw [k, abs_div, abs_of_pos hA]
  refine div_le_div_of_nonneg_right ((abs_sub _ _).trans ?_) hA.le
  rw [abs_mul (A - B), abs_div, abs_of_pos hB]

private theorem close {A B L k e1 e2 e3 e4 : ℝ} (hB : 0 < B) (hL : 0 < L) (hk : 0 ≤ k) (hk' : k ≤ 4096) (hA : |A - B| ≤ 8.8e-6 * k * B) (h1 : e1 ≤ 2e-5 * k * (B * L))
    (h2 : e2 ≤ A * (2.1e-5 * k * L)) (h3 : e3 ≤ 8.8e-6 * k * B * (L / 2)) (h4 : e4 ≤ |A - B| * L) :
    0 < A ∧ (e1 + e2 + e3 + e4) / A ≤ 6e-5 * k * L := by
  have h0 := abs_le.1 hA
  have k1 : 8.8e-6 * k * B ≤ 1 / 27 * B := mul_le_mul_of_nonneg_right (by norm_num; linarith) hB.le
  have hA' : 26 / 27 * B ≤ A := by linarith
  have hA0 : 0 < A := by linarith
  refine ⟨hA0, (div_le_iff₀ hA0).2 ?_⟩
  have k2 := mul_le_mul_of_nonneg_right hA hL.le
  have k3 : (26 / 27 * B) * (k * L) ≤ A * (k * L) := mul_le_mul_of_nonneg_right hA' (by positivity)
  have k4 : 0 ≤ B * (k * L) := by positivity
  norm_num at *
  linarith

/-- C112: the signed distance of a point from a plane, both moved by the same `n` motors in binary32, stays what it was to
within `6e-5 n L`. -/
theorem C112_distance (isa : Isa) (h : PlanePath m t v L N) (h' : Orbit32.Orbit m t w L N) {n : ℕ} (hn : n ≤ N) (hN : n ≤ 4096) :
    |height (planeOrbit isa m v n).real (Orbit32.orbit m w n).real - height v.real w.real| ≤ 6e-5 * n * L := by
  obtain ⟨-, e1, e2⟩ := C112_plane isa h hn hN
  obtain ⟨-, -, -, x1, x2⟩ := (plane_track isa h).error h.1 (by norm_num) (by norm_num) hn hN
  have e3 := Orbit32.C107_position h' hn (hN.trans (by norm_num))
  have hL := h.1.len.pos
  have hS := h'.scale_pos hn
  have hb := h'.weight_pos
  have n0 : (0 : ℝ) ≤ n := Nat.cast_nonneg n
  have n1 : (n : ℝ) ≤ 4096 := by exact_mod_cast hN
  have x3 : ‖(Orbit32.exact m w n).position‖ ≤ L / 2 := by
    have hW : |(Orbit32.exact m w n).p3.l0| = scale m n * Orbit32.weight w := by rw [Orbit32.exact_weight, abs_mul, abs_of_pos hS]; rfl
    rw [Point.position, norm_smul, norm_inv, Real.norm_eq_abs, hW, inv_mul_eq_div, div_le_iff₀ (mul_pos hS hb)]
    refine (Orbit32.exact_norm h' hn).trans ?_
    have := mul_le_mul_of_nonneg_left (h'.partial_sum hn) hS.le
    linarith
  rw [← exact_height isa (m := m) (n := n) (v := v) (abs_pos.1 hb) hS.ne']
  unfold height
  rw [Quaternion.norm_coe, Real.norm_eq_abs] at x2
  generalize (planeOrbit isa m v n).real.p0.l0 = d, (planeOrbit isa m v n).real.qnormal = A, (Orbit32.orbit m w n).real.position = x,
    (planeExact isa m v n).p0.l0 = D, (planeExact isa m v n).qnormal = B, (Orbit32.exact m w n).position = X at *
  have hA := (abs_norm_sub_norm_le A B).trans e1
  have c1 : |(B * X).re| ≤ ‖B‖ * (L / 2) := by
    refine (le_norm _).1.trans ?_
    rw [norm_mul]
    exact mul_le_mul_of_nonneg_left x3 x1.le
  have c2 : |D - (B * X).re| / ‖B‖ ≤ L := by
    rw [div_le_iff₀ x1]
    have := abs_sub D (B * X).re
    linarith
  have c3 : |(d - (A * x).re) - (D - (B * X).re)| ≤ |d - D| + ‖A‖ * ‖x - X‖ + ‖A - B‖ * ‖X‖ := by
    have k : (d - (A * x).re) - (D - (B * X).re) = (d - D) - ((A * (x - X)).re + ((A - B) * X).re) := by
      rw [mul_sub, sub_mul, Quaternion.re_sub, Quaternion.re_sub]; ring
    rw [k]
    have k1 := abs_sub (d - D) ((A * (x - X)).re + ((A - B) * X).re)
    have k2 := abs_add_le (A * (x - X)).re ((A - B) * X).re
    have k3 := (le_norm (A * (x - X))).1
    have k4 := (le_norm ((A - B) * X)).1
    rw [norm_mul] at k3 k4
    linarith
  obtain ⟨A0, c4⟩ := close (e4 := |‖A‖ - ‖B‖| * (|D - (B * X).re| / ‖B‖)) x1 hL n0 n1 hA e2
    (mul_le_mul_of_nonneg_left e3 (norm_nonneg A)) (mul_le_mul e1 x3 (norm_nonneg X) (by positivity)) (mul_le_mul_of_nonneg_left c2 (abs_nonneg _))
  exact (quot A0 x1).trans ((div_le_div_of_nonneg_right (by linarith) A0.le).trans c4)

end

/-! ### concrete motions -/

section
variable {m : ℕ → Motor F32} {t : ℕ → ℝ} {b p L : ℝ} {N : ℕ}

/-- Motors normalised to within the accuracy of `normalize` (C70). -/
theorem Path.of_unit (hf : ∀ i < N, Fin (m i)) (hu : ∀ i < N, |‖q1 (m i)‖ ^ 2 - 1| ≤ 1.5e-6) (hb : In2 b 19 19) (hL : In2 L 20 20)
    (ht : ∀ i, 0 ≤ t i) (h2 : ∀ i < N, ‖q2 (m i)‖ ≤ ‖q1 (m i)‖ * t i) (hp : 0 ≤ p)
    (hs : 2 * (p + 2 * b * ∑ i ∈ Finset.range N, t i) ≤ b * L) (hN : N ≤ 16384) : Path m t b p L N := by
  refine ⟨hf, fun i hi => ?_, fun i hi => ?_, hL, ht, h2, hp, hs⟩
  · have h1 := abs_le.1 (hu i hi)
    have h2 := norm_nonneg (q1 (m i))
    norm_num at h1
    constructor <;> norm_num <;> nlinarith
  · have h1 := abs_le.1 (Orbit32.scale_unit (fun j hj => hu j (lt_of_lt_of_le hj hi)) (hi.trans hN))
    have hg := Orbit32.g_small (hi.trans hN)
    have h0 := hb.pos
    have k1 : scale m i * b ≤ 33 / 32 * b := mul_le_mul_of_nonneg_right (by linarith) h0.le
    have k2 : 31 / 32 * b ≤ scale m i * b := mul_le_mul_of_nonneg_right (by linarith) h0.le
    have := hb.1
    have := hb.2
    constructor
    · refine le_trans ?_ k2
      norm_num at *; linarith
    · refine k1.trans ?_
      norm_num at *; linarith

end

theorem r_one : r (1 : F32) = 1 := by unfold r; rw [F32.one_val]; norm_num
theorem r_zero : r (0 : F32) = 0 := by unfold r; rw [show (0 : F32).val = 0 by decide +kernel]; norm_num
/-- The unit vector along `x`. -/
def unitX : ℍ[ℝ] := ⟨0, 1, 0, 0⟩

theorem imI_norm : ‖unitX‖ = 1 := by
  rw [← Real.sqrt_sq (norm_nonneg _), sq, ← Quaternion.normSq_eq_norm_mul_self, Quaternion.normSq_def']
  show Real.sqrt (0 ^ 2 + 1 ^ 2 + 0 ^ 2 + 0 ^ 2) = 1
  norm_num

/-- The plane `x + 1 = 0`. -/
def wall : Plane F32 := Plane.mk4 1 0 0 1

theorem wall_real : wall.real.p0 = ⟨1, 1, 0, 0⟩ := by
  show (⟨r 1, r 1, r 0, r 0⟩ : V4 ℝ) = _
  rw [r_one, r_zero]

theorem wall_normal : wall.real.qnormal = unitX := by
  unfold Plane.qnormal; rw [wall_real]; rfl

/-- A hundred steps of the motor of C91. -/
theorem wall_path : PlanePath (fun _ => sample) (fun _ => 1.01) wall 410 100 := by
  refine ⟨?_, by decide +kernel⟩
  rw [wall_normal, imI_norm, wall_real]
  refine Path.of_unit (fun _ _ => fin_sample) (fun _ _ => unit_sample) ⟨by norm_num, by norm_num⟩ ⟨by norm_num, by norm_num⟩ (fun _ => by norm_num)
    (fun _ _ => trans_sample) (abs_nonneg _) ?_ (by norm_num)
  rw [Finset.sum_const, Finset.card_range]
  norm_num

theorem wall_start : height wall.real Orbit32.start.real = 2 := by
  rw [height_eq, wall_real, Orbit32.start_real]
  · norm_num
  · rw [Orbit32.start_real]

/-- Ten rounded steps change the distance 2 of `(1, 0, 0)` from the plane by less than 0.25, in a space of size 410. -/
example (isa : Isa) : |height (planeOrbit isa (fun _ => sample) wall 10).real (Orbit32.orbit (fun _ => sample) Orbit32.start 10).real - 2| ≤ 0.25 := by
  have := C112_distance isa wall_path Orbit32.orbit_sample (n := 10) (by norm_num) (by norm_num)
  rw [wall_start] at this
  exact this.trans (by norm_num)

/-- The line along `x` through `(0, 0, 0)`. -/
def axis : Line F32 := Line.mk6 0 0 0 1 0 0

theorem axis_real : axis.real.p1 = ⟨0, 1, 0, 0⟩ ∧ axis.real.p2 = ⟨0, 0, 0, 0⟩ := by
  constructor
  · show (⟨r 0, r 1, r 0, r 0⟩ : V4 ℝ) = _
    rw [r_one, r_zero]
  · show (⟨r 0, r 0, r 0, r 0⟩ : V4 ℝ) = _
    rw [r_zero]

theorem axis_path : LinePath (fun _ => sample) (fun _ => 1.01) axis 410 100 := by
  have h1 : axis.real.qdir = unitX := by unfold Line.qdir; rw [axis_real.1]; rfl
  have h2 : axis.real.qmom = 0 := by unfold Line.qmom; rw [axis_real.2]; rfl
  refine ⟨?_, by decide +kernel, by decide +kernel, r_zero, r_zero⟩
  rw [h1, h2, imI_norm, norm_zero]
  refine Path.of_unit (fun _ _ => fin_sample) (fun _ _ => unit_sample) ⟨by norm_num, by norm_num⟩ ⟨by norm_num, by norm_num⟩ (fun _ => by norm_num)
    (fun _ _ => trans_sample) le_rfl ?_ (by norm_num)
  rw [Finset.sum_const, Finset.card_range]
  norm_num

example : LineOk (lineOrbit (fun _ => sample) axis 100) := (C112_line axis_path (n := 100) le_rfl (by norm_num)).1

end Flats32
end Klein
