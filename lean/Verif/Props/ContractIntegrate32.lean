import Verif.Props.Integrate32
import Verif.Props.ContractExp32
import Verif.Props.ContractRenorm32

/-!
# C118: integrating a velocity with fused multiply-adds

The loop of C110 for compilers that fuse products with the sums they enter.
-/

set_option linter.unusedSimpArgs false

namespace Klein

open F32 Products32
open scoped Quaternion

namespace ContractChain32

open Renorm32 Integrate32
open Drift32 (q1 q2)

variable {ω : Compiler} {hw : Hw F32} (hc : hw.Contract32) {lm : Libm F32} (hl : lm.Contract32) (isa : Isa)

/-! ### turning -/

section
variable {x : Rotor (Fl ω)} {w : ℕ → Branch (Fl ω)}

include hc hl in
theorem turn_exp {w : Branch (Fl ω)} (h : Turn w.f32) :
    FinR (w.exp (hw.fl ω) (lm.fl ω) isa).f32 ∧ ‖qr (w.exp (hw.fl ω) (lm.fl ω) isa).f32 - eq w.f32.real‖ ≤ 1.34e-5 := by
  have k : ∀ i, _ := C117_branch_exp hc hl Hw.ideal_exact isa .sse3 w h.fin h.zero h.norm h.ang
  refine ⟨fun i => (k i).1, ?_⟩
  have neg : ∀ a b e : ℝ, |a - b| ≤ e → |-a - -b| ≤ e := fun a b e h => by
    rw [show -a - -b = -(a - b) by ring, abs_neg]; exact h
  refine (Drift32.norm_le (e := 6.7e-6) (by norm_num) (k 0).2 (neg _ _ _ (k 1).2) (neg _ _ _ (k 2).2) (neg _ _ _ (k 3).2)).trans (le_of_eq ?_)
  norm_num

include hc hl in
/-- C118: the rotor stays normalised, for any number of steps. -/
theorem C118_norm (hx : FinR x.f32) (hx2 : In2 ‖qr x.f32‖ 8 8) (hw' : ∀ i, Turn (w i).f32) (n : ℕ) :
    FinR (spin (hw.fl ω) (lm.fl ω) isa x w (n + 1)).f32 ∧ |(spin (hw.fl ω) (lm.fl ω) isa x w (n + 1)).f32.p1.sq4 - 1| ≤ 1.4e-6 := by
  rw [spin_eq]
  refine C116_norm hc isa (trackRun_fl hw isa x _ (n + 1)) hx hx2 (fun i => (turn_exp hc hl isa (hw' i)).1) (fun i => ?_) le_rfl
  exact (Integrate32.near_unit (hw' i).unit (by norm_num) (turn_exp hc hl isa (hw' i)).2).1.mono (by norm_num) (by norm_num)

include hc hl in
/-- C118: the orientation is within `3.2e-5 n` of the exact solution. -/
theorem C118_orientation (hx : FinR x.f32) (hx2 : In2 ‖qr x.f32‖ 8 8) (hw' : ∀ i, Turn (w i).f32) (n : ℕ) :
    ‖unit (qr (spin (hw.fl ω) (lm.fl ω) isa x w n).f32) - spun x.f32 (fun i => (w i).f32) n‖ ≤ 3.2e-5 * n := by
  have hd : ∀ i, _ := fun i => turn_exp hc hl isa (hw' i)
  have hn : ∀ i, _ := fun i => Integrate32.near_unit (hw' i).unit (by norm_num) (hd i).2
  have h1 := C116_orientation hc isa (trackRun_fl hw isa x _ n) hx hx2 (fun i => (hd i).1) (fun i => (hn i).1.mono (by norm_num) (by norm_num)) le_rfl
  simp only [← spin_eq] at h1
  have h2 : ‖Renorm32.exact x.f32 (fun i => ((w i).exp (hw.fl ω) (lm.fl ω) isa).f32) n - spun x.f32 (fun i => (w i).f32) n‖ ≤ 2.68e-5 * n := by
    clear h1
    induction n with
    | zero => simp [Renorm32.exact, spun]
    | succ n ih =>
      rw [show Renorm32.exact x.f32 (fun i => ((w i).exp (hw.fl ω) (lm.fl ω) isa).f32) (n + 1) =
        unit (qr ((w n).exp (hw.fl ω) (lm.fl ω) isa).f32) * Renorm32.exact x.f32 (fun i => ((w i).exp (hw.fl ω) (lm.fl ω) isa).f32) n from rfl, spun]
      have e := (hn n).2
      have s := spun_norm (w := (fun i => (w i).f32)) hx2 hw' n
      have g := norm_unit (norm_pos_iff.1 (hn n).1.pos)
      generalize unit (qr ((w n).exp (hw.fl ω) (lm.fl ω) isa).f32) = a at *
      generalize Renorm32.exact x.f32 (fun i => ((w i).exp (hw.fl ω) (lm.fl ω) isa).f32) n = b at *
      generalize spun x.f32 (fun i => (w i).f32) n = c at *
      have k : a * b - eq (w n).f32.real * c = a * (b - c) + (a - eq (w n).f32.real) * c := by noncomm_ring
      rw [k]
      refine (norm_add_le _ _).trans ?_
      rw [norm_mul, norm_mul, g, s, one_mul, mul_one]
      push_cast
      norm_num at e ih ⊢
      linarith
  have k := norm_add_le (unit (qr (spin (hw.fl ω) (lm.fl ω) isa x w n).f32) - Renorm32.exact x.f32 (fun i => ((w i).exp (hw.fl ω) (lm.fl ω) isa).f32) n)
    (Renorm32.exact x.f32 (fun i => ((w i).exp (hw.fl ω) (lm.fl ω) isa).f32) n - spun x.f32 (fun i => (w i).f32) n)
  rw [sub_add_sub_cancel] at k
  have n0 : (0 : ℝ) ≤ n := Nat.cast_nonneg n
  norm_num at h1 h2 ⊢
  linarith

include hc hl in
/-- C118: under a constant angular velocity the orientation is within `3.2e-5 n` of `exp(n w) * x`. -/
theorem C118_uniform {b : Branch (Fl ω)} (hx : FinR x.f32) (hx2 : In2 ‖qr x.f32‖ 8 8) (hb : Turn b.f32) (n : ℕ) :
    ‖unit (qr (spin (hw.fl ω) (lm.fl ω) isa x (fun _ => b) (n + 1)).f32) - eq (b.f32.real.smul ((n : ℝ) + 1)) * unit (qr x.f32)‖ ≤ 3.2e-5 * (n + 1) := by
  rw [← spun_const (x := x.f32) hb]
  have := C118_orientation hc hl isa hx hx2 (w := fun _ => b) (fun _ => hb) (n + 1)
  push_cast at this
  exact this

end

/-! ### screw motions -/

section
variable {m : Line (Fl ω)} {c : ℝ}

include hc hl in
/-- The exponential of one step, contracted. -/
theorem exp_near (h : m.f32.Exp c) :
    Drift32.Fin (m.exp (hw.fl ω) (lm.fl ω) isa).f32 ∧ ‖q1 (m.exp (hw.fl ω) (lm.fl ω) isa).f32 - (edq m.f32.real).1‖ ≤ 1.06e-5 ∧
      ‖q2 (m.exp (hw.fl ω) (lm.fl ω) isa).f32 - (edq m.f32.real).2‖ ≤ 4e-5 * c := by
  have k1 : ∀ i, _ := C117_line_exp_p1 hc hl Hw.ideal_exact isa .sse3 h
  have k2 : ∀ i, _ := C117_line_exp_p2 hc hl Hw.ideal_exact isa .sse3 h
  have hc0 := h.rng.pos
  have neg : ∀ a b e : ℝ, |a - b| ≤ e → |-a - -b| ≤ e := fun a b e h => by
    rw [show -a - -b = -(a - b) by ring, abs_neg]; exact h
  refine ⟨⟨fun i => (k1 i).1, fun i => (k2 i).1⟩, ?_, ?_⟩
  · refine (Drift32.norm_le (e := 5.3e-6) (by norm_num) (k1 0).2 (neg _ _ _ (k1 1).2) (neg _ _ _ (k1 2).2) (neg _ _ _ (k1 3).2)).trans (le_of_eq ?_)
    norm_num
  · refine (Drift32.norm_le (e := 2e-5 * c) (by positivity) (k2 0).2 (k2 1).2 (k2 2).2 (k2 3).2).trans (le_of_eq ?_)
    ring

include hc hl in
/-- The same after normalisation. -/
theorem exp_nrm (h : m.f32.Exp c) :
    In2 ‖q1 (m.exp (hw.fl ω) (lm.fl ω) isa).f32‖ 1 1 ∧ ‖q2 (m.exp (hw.fl ω) (lm.fl ω) isa).f32‖ ≤ ‖q1 (m.exp (hw.fl ω) (lm.fl ω) isa).f32‖ * (1.0001 * c) ∧
      ‖unit (q1 (m.exp (hw.fl ω) (lm.fl ω) isa).f32) - (edq m.f32.real).1‖ ≤ 2.12e-5 ∧
      ‖NLerp.mom (q1 (m.exp (hw.fl ω) (lm.fl ω) isa).f32) (q2 (m.exp (hw.fl ω) (lm.fl ω) isa).f32) - (edq m.f32.real).2‖ ≤ 9.5e-5 * c := by
  obtain ⟨-, k1, k2⟩ := exp_near hc hl isa h
  obtain ⟨n1, -⟩ := edq_normed (Line.Exp.wf h)
  have hM := edq_moment h
  have hN : NLerp.mom (edq m.f32.real).1 (edq m.f32.real).2 = (edq m.f32.real).2 := congrArg Prod.snd (nrm_edq (Line.Exp.wf h))
  have hc0 := h.rng.pos
  generalize q1 (m.exp (hw.fl ω) (lm.fl ω) isa).f32 = a at *
  generalize q2 (m.exp (hw.fl ω) (lm.fl ω) isa).f32 = b at *
  generalize (edq m.f32.real).1 = A at *
  generalize (edq m.f32.real).2 = B at *
  obtain ⟨s1, s2⟩ := Integrate32.near_unit n1 (by norm_num) k1
  have g1 := norm_sub_norm_le A a
  have g2 := norm_sub_norm_le b B
  rw [norm_sub_rev, n1] at g1
  have hA : A ≠ 0 := norm_pos_iff.1 (by rw [n1]; exact one_pos)
  refine ⟨s1, ?_, s2.trans (by norm_num), ?_⟩
  · have : (0.99998 : ℝ) * (1.0001 * c) ≤ ‖a‖ * (1.0001 * c) := by
      refine mul_le_mul_of_nonneg_right (by norm_num at k1 ⊢; linarith) (by positivity)
    norm_num at *
    linarith
  · have := NLerp.mom_lip (z := a) (y := b) (Y := B) hA (by rw [n1]; exact k1.trans (by norm_num))
    rw [hN, n1, div_one, one_pow, div_one] at this
    refine this.trans ?_
    have k : 5.02 * ‖B‖ * ‖a - A‖ ≤ 5.02 * c * 1.06e-5 := by gcongr
    norm_num at k k2 ⊢
    linarith

end

section
variable {x : Motor (Fl ω)} {l : ℕ → Line (Fl ω)} {s : ℝ} {c : ℕ → ℝ} {C R : ℝ} {N : ℕ} {v : Point (Fl ω)}

include hc hl in
theorem drive_loop (h : Drive x.f32 (fun i => (l i).f32) s c C N) : Loop x.f32 (fun i => ((l i).exp (hw.fl ω) (lm.fl ω) isa).f32) s (fun i => 1.0001 * c i) C N where
  finx := h.finx
  fin i hi := (exp_near hc hl isa (m := l i) (h.step i hi)).1
  sizex := h.sizex
  size i hi := (exp_nrm hc hl isa (m := l i) (h.step i hi)).1.mono (by norm_num) (by norm_num)
  len := h.len
  s_nonneg := h.s_nonneg
  t_nonneg i := mul_nonneg (by norm_num) (h.c_nonneg i)
  transx := h.transx
  trans i hi := (exp_nrm hc hl isa (m := l i) (h.step i hi)).2.1
  sum := by rw [← Finset.mul_sum]; exact h.sum

include hc hl in
/-- The product of the rounded exponentials against the product of the exact ones. -/
theorem exact_moved (h : Drive x.f32 (fun i => (l i).f32) s c C N) {n : ℕ} (hn : n ≤ N) :
    ‖(exactM x.f32 (fun i => ((l i).exp (hw.fl ω) (lm.fl ω) isa).f32) n).1 - (moved x.f32 (fun i => (l i).f32) n).1‖ ≤ 2.12e-5 * n ∧
      ‖(exactM x.f32 (fun i => ((l i).exp (hw.fl ω) (lm.fl ω) isa).f32) n).2 - (moved x.f32 (fun i => (l i).f32) n).2‖ ≤
        2.12e-5 * n * (C / 2) + (9.5e-5 + 2.12e-5 * n) * ∑ i ∈ Finset.range n, c i := by
  induction n with
  | zero => simp [exactM, moved]
  | succ n ih =>
    obtain ⟨i1, i2⟩ := ih (Nat.le_of_succ_le hn)
    obtain ⟨m1, m2⟩ := moved_norm h (Nat.le_of_succ_le hn)
    obtain ⟨x1, -⟩ := exactM_norm (drive_loop hc hl isa h) (Nat.le_of_succ_le hn)
    obtain ⟨s1, -, k1, k2⟩ := exp_nrm hc hl isa (m := l n) (h.step n hn)
    obtain ⟨n1, -⟩ := edq_normed (Line.Exp.wf (h.step n hn))
    have hM := edq_moment (h.step n hn)
    have hu := norm_unit (norm_pos_iff.1 s1.pos)
    have e1 : (moved x.f32 (fun i => (l i).f32) (n + 1)).1 = (edq (l n).f32.real).1 * (moved x.f32 (fun i => (l i).f32) n).1 := rfl
    have e2 : (moved x.f32 (fun i => (l i).f32) (n + 1)).2 = (edq (l n).f32.real).1 * (moved x.f32 (fun i => (l i).f32) n).2 + (edq (l n).f32.real).2 * (moved x.f32 (fun i => (l i).f32) n).1 :=
      TrivSqZeroExt.snd_mul (edq (l n).f32.real) (moved x.f32 (fun i => (l i).f32) n)
    have E1 : (exactM x.f32 (fun i => ((l i).exp (hw.fl ω) (lm.fl ω) isa).f32) (n + 1)).1 =
        unit (q1 ((l n).exp (hw.fl ω) (lm.fl ω) isa).f32) * (exactM x.f32 (fun i => ((l i).exp (hw.fl ω) (lm.fl ω) isa).f32) n).1 := rfl
    have E2 : (exactM x.f32 (fun i => ((l i).exp (hw.fl ω) (lm.fl ω) isa).f32) (n + 1)).2 =
        unit (q1 ((l n).exp (hw.fl ω) (lm.fl ω) isa).f32) * (exactM x.f32 (fun i => ((l i).exp (hw.fl ω) (lm.fl ω) isa).f32) n).2 +
        NLerp.mom (q1 ((l n).exp (hw.fl ω) (lm.fl ω) isa).f32) (q2 ((l n).exp (hw.fl ω) (lm.fl ω) isa).f32) * (exactM x.f32 (fun i => ((l i).exp (hw.fl ω) (lm.fl ω) isa).f32) n).1 :=
      TrivSqZeroExt.snd_mul (nrm ((l n).exp (hw.fl ω) (lm.fl ω) isa).f32.real.toDQ) (exactM x.f32 (fun i => ((l i).exp (hw.fl ω) (lm.fl ω) isa).f32) n)
    rw [e1, e2, E1, E2, Finset.sum_range_succ]
    have hsum : ∑ i ∈ Finset.range n, c i ≤ ∑ i ∈ Finset.range N, c i :=
      Finset.sum_le_sum_of_subset_of_nonneg (Finset.range_subset_range.2 (Nat.le_of_succ_le hn)) fun i _ _ => h.c_nonneg i
    have hS0 : 0 ≤ ∑ i ∈ Finset.range n, c i := Finset.sum_nonneg fun i _ => h.c_nonneg i
    have hs := h.sum
    have hcn := h.c_nonneg n
    clear e1 e2 E1 E2
    generalize (exactM x.f32 (fun i => ((l i).exp (hw.fl ω) (lm.fl ω) isa).f32) n).1 = A1 at *
    generalize (exactM x.f32 (fun i => ((l i).exp (hw.fl ω) (lm.fl ω) isa).f32) n).2 = A2 at *
    generalize (moved x.f32 (fun i => (l i).f32) n).1 = B1 at *
    generalize (moved x.f32 (fun i => (l i).f32) n).2 = B2 at *
    generalize NLerp.mom (q1 ((l n).exp (hw.fl ω) (lm.fl ω) isa).f32) (q2 ((l n).exp (hw.fl ω) (lm.fl ω) isa).f32) = D2 at *
    generalize unit (q1 ((l n).exp (hw.fl ω) (lm.fl ω) isa).f32) = D1 at *
    generalize (edq (l n).f32.real).1 = F1 at *
    generalize (edq (l n).f32.real).2 = F2 at *
    generalize ∑ i ∈ Finset.range n, c i = S at *
    generalize ∑ i ∈ Finset.range N, c i = T at *
    have n0 : (0 : ℝ) ≤ n := Nat.cast_nonneg n
    have b2 : ‖B2‖ ≤ C / 2 := by norm_num at hs ⊢; linarith
    constructor
    · have k : D1 * A1 - F1 * B1 = D1 * (A1 - B1) + (D1 - F1) * B1 := by noncomm_ring
      rw [k]
      refine (norm_add_le _ _).trans ?_
      rw [norm_mul, norm_mul, hu, m1, one_mul, mul_one]
      push_cast
      linarith
    · have k : D1 * A2 + D2 * A1 - (F1 * B2 + F2 * B1) =
          (D1 * (A2 - B2) + (D1 - F1) * B2) + ((D2 - F2) * A1 + F2 * (A1 - B1)) := by noncomm_ring
      rw [k]
      refine (norm_add_le _ _).trans ((add_le_add (norm_add_le _ _) (norm_add_le _ _)).trans ?_)
      rw [norm_mul, norm_mul, norm_mul, norm_mul, hu, x1, one_mul, mul_one]
      have g1 : ‖D1 - F1‖ * ‖B2‖ ≤ 2.12e-5 * (C / 2) := mul_le_mul k1 b2 (norm_nonneg _) (by norm_num)
      have g2 : ‖F2‖ * ‖A1 - B1‖ ≤ c n * (2.12e-5 * n) := mul_le_mul hM i1 (norm_nonneg _) hcn
      push_cast
      linarith

include hc hl in
/-- C118: the motion is within `2.6e-5 n` of the exact one in the rotation, and in the moment within
`4.9e-5 n + 4.8e-5` of the length `C`. -/
theorem C118_motion (h : Drive x.f32 (fun i => (l i).f32) s c C N) {n : ℕ} (hn : n ≤ N) (hN : n ≤ 8192) :
    ‖(nrm (screw (hw.fl ω) (lm.fl ω) isa x l n).f32.real.toDQ).1 - (moved x.f32 (fun i => (l i).f32) n).1‖ ≤ 2.6e-5 * n ∧
      ‖(nrm (screw (hw.fl ω) (lm.fl ω) isa x l n).f32.real.toDQ).2 - (moved x.f32 (fun i => (l i).f32) n).2‖ ≤ (4.9e-5 * n + 4.8e-5) * C := by
  obtain ⟨a1, a2⟩ := C116_motor_motion hc isa (loopRun_fl hw isa x _ N) (drive_loop hc hl isa h) hn hN
  obtain ⟨b1, b2⟩ := exact_moved hc hl isa h hn
  simp only [← screw_eq] at a1 a2
  have hC0 := h.len.pos
  have hsum : ∑ i ∈ Finset.range n, c i ≤ ∑ i ∈ Finset.range N, c i :=
    Finset.sum_le_sum_of_subset_of_nonneg (Finset.range_subset_range.2 hn) fun i _ _ => h.c_nonneg i
  have hS0 : 0 ≤ ∑ i ∈ Finset.range n, c i := Finset.sum_nonneg fun i _ => h.c_nonneg i
  have hs := h.sum
  have hs0 := h.s_nonneg
  have n0 : (0 : ℝ) ≤ n := Nat.cast_nonneg n
  generalize nrm (screw (hw.fl ω) (lm.fl ω) isa x l n).f32.real.toDQ = P at *
  generalize exactM x.f32 (fun i => ((l i).exp (hw.fl ω) (lm.fl ω) isa).f32) n = Q at *
  generalize moved x.f32 (fun i => (l i).f32) n = R at *
  generalize ∑ i ∈ Finset.range n, c i = S at *
  generalize ∑ i ∈ Finset.range N, c i = T at *
  have hS : S ≤ C / 2 := by norm_num at hs ⊢; linarith
  have k1 := norm_sub_le_norm_sub_add_norm_sub P.1 Q.1 R.1
  have k2 := norm_sub_le_norm_sub_add_norm_sub P.2 Q.2 R.2
  refine ⟨by norm_num at a1 b1 ⊢; linarith, ?_⟩
  have k3 : (9.5e-5 + 2.12e-5 * n) * S ≤ (9.5e-5 + 2.12e-5 * n) * (C / 2) := mul_le_mul_of_nonneg_left hS (by positivity)
  have k4 : 0 ≤ (n : ℝ) * C := by positivity
  norm_num at a2 b2 k3 ⊢
  linarith

include hc hl in
/-- C118: the motor stays normalised. -/
theorem C118_motor_norm (h : Drive x.f32 (fun i => (l i).f32) s c C N) {n : ℕ} (hn : n + 1 ≤ N) (hN : n + 1 ≤ 8192) :
    Drift32.Fin (screw (hw.fl ω) (lm.fl ω) isa x l (n + 1)).f32 ∧ |(screw (hw.fl ω) (lm.fl ω) isa x l (n + 1)).f32.p1.sq4 - 1| ≤ 1.4e-6 := by
  rw [screw_eq]
  obtain ⟨h1, h2, -⟩ := C116_motor_norm hc isa (loopRun_fl hw isa x _ N) (drive_loop hc hl isa h) hn hN
  exact ⟨h1, h2⟩

include hc hl in
/-- C118: a point placed by the state after `n` steps, against its exact place. -/
theorem C118_place (h : Drive x.f32 (fun i => (l i).f32) s c C N) (hv : Renorm32.Near v.f32 R) {n : ℕ} (hn : n ≤ N) (hN : n ≤ 8192) :
    ‖((screw (hw.fl ω) (lm.fl ω) isa x l n).onPoint v).f32.real.position - place (moved x.f32 (fun i => (l i).f32) n) v.f32.real.position‖ ≤
      (5.3e-5 * R + 1.3e-4 * C) * n + (4.2e-5 * R + 1.9e-4 * C) := by
  have a := C116_place hc isa (loopRun_fl hw isa x (fun i => (l i).exp (hw.fl ω) (lm.fl ω) isa) N) (drive_loop hc hl isa h) hv hn hN (pointRun_fl _ v)
  simp only [← screw_eq] at a
  obtain ⟨b1, b2⟩ := exact_moved hc hl isa h hn
  obtain ⟨x1, -⟩ := exactM_norm (drive_loop hc hl isa h) hn
  obtain ⟨m1, m2⟩ := moved_norm h hn
  have hC0 := h.len.pos
  have hR := hv.nonneg
  have hp := hv.position
  have hsum : ∑ i ∈ Finset.range n, c i ≤ ∑ i ∈ Finset.range N, c i :=
    Finset.sum_le_sum_of_subset_of_nonneg (Finset.range_subset_range.2 hn) fun i _ _ => h.c_nonneg i
  have hS0 : 0 ≤ ∑ i ∈ Finset.range n, c i := Finset.sum_nonneg fun i _ => h.c_nonneg i
  have hs := h.sum
  have hs0 := h.s_nonneg
  have n0 : (0 : ℝ) ≤ n := Nat.cast_nonneg n
  have p := place_le (E := exactM x.f32 (fun i => ((l i).exp (hw.fl ω) (lm.fl ω) isa).f32) n) (F := moved x.f32 (fun i => (l i).f32) n) x1 m1 v.f32.real.position
  have q := norm_sub_le_norm_sub_add_norm_sub ((screw (hw.fl ω) (lm.fl ω) isa x l n).onPoint v).f32.real.position
    (place (exactM x.f32 (fun i => ((l i).exp (hw.fl ω) (lm.fl ω) isa).f32) n) v.f32.real.position) (place (moved x.f32 (fun i => (l i).f32) n) v.f32.real.position)
  generalize ((screw (hw.fl ω) (lm.fl ω) isa x l n).onPoint v).f32.real.position = X at *
  generalize place (exactM x.f32 (fun i => ((l i).exp (hw.fl ω) (lm.fl ω) isa).f32) n) v.f32.real.position = Y at *
  generalize place (moved x.f32 (fun i => (l i).f32) n) v.f32.real.position = Z at *
  generalize exactM x.f32 (fun i => ((l i).exp (hw.fl ω) (lm.fl ω) isa).f32) n = Q at *
  generalize moved x.f32 (fun i => (l i).f32) n = W at *
  generalize ∑ i ∈ Finset.range n, c i = S at *
  generalize ∑ i ∈ Finset.range N, c i = T at *
  have hS : S ≤ C / 2 := by norm_num at hs ⊢; linarith
  have hW : ‖W.2‖ ≤ C / 2 := by norm_num at hs ⊢; linarith
  have k1 : 2 * ‖Q.1 - W.1‖ * (‖v.f32.real.position‖ + ‖W.2‖) ≤ 2 * (2.12e-5 * n) * (R + C / 2) :=
    mul_le_mul (by linarith) (add_le_add hp hW) (by positivity) (by positivity)
  have k3 : (9.5e-5 + 2.12e-5 * n) * S ≤ (9.5e-5 + 2.12e-5 * n) * (C / 2) := mul_le_mul_of_nonneg_left hS (by positivity)
  have k4 : 0 ≤ (n : ℝ) * C := by positivity
  have k5 : 0 ≤ (n : ℝ) * R := by positivity
  norm_num at a b2 k1 k3 ⊢
  linarith

include hc hl in
/-- C118: under a constant screw velocity, a point placed by the state after `n` steps is near the point
moved by the exact `exp(n l) * x`. -/
theorem C118_uniform_place {b : Line (Fl ω)} (h : Drive x.f32 (fun _ => b.f32) s c C N) (hv : Renorm32.Near v.f32 R) {n : ℕ} (h0 : 0 < N) (hn : n ≤ N) (hN : n ≤ 8192) :
    ‖((screw (hw.fl ω) (lm.fl ω) isa x (fun _ => b) n).onPoint v).f32.real.position -
      ((((b.f32.real.smul n).exp Hw.ideal Libm.real .sse3).mulMotor x.f32.real).onPoint v.f32.real).position‖ ≤
      (5.3e-5 * R + 1.3e-4 * C) * n + (4.2e-5 * R + 1.9e-4 * C) := by
  rw [← place_const (Line.Exp.wf (h.step 0 h0)) (norm_pos_iff.1 h.sizex.pos) hv.ne n]
  exact C118_place hc hl isa (l := fun _ => b) h hv hn hN


end

/-! ### concrete motions -/

/-- The slow turn and the screw motion of C110 as inputs. -/
def slowFl (ω : Compiler) : Branch (Fl ω) := ⟨V4.fl ω 12 slow.p1⟩
def creepFl (ω : Compiler) : Line (Fl ω) := ⟨V4.fl ω 12 creep.p1, V4.fl ω 16 creep.p2⟩

include hc hl in
/-- A thousand steps, more than two full turns, whatever the compiler fuses. -/
example (ω : Compiler) : ‖unit (qr (spin (hw.fl ω) (lm.fl ω) isa ⟨V4.fl ω 0 turn34.p1⟩ (fun _ => slowFl ω) 1000).f32) -
    eq (slow.real.smul 1000) * unit (qr turn34)‖ ≤ 0.033 := by
  have := C118_uniform hc hl isa (x := ⟨V4.fl ω 0 turn34.p1⟩) (b := slowFl ω) turn34_fin
    (show In2 ‖qr turn34‖ 8 8 by rw [turn34_norm]; exact ⟨by norm_num, by norm_num⟩) turn_slow 999
  rw [show (slowFl ω).f32 = slow from rfl, show (⟨V4.fl ω 0 turn34.p1⟩ : Rotor (Fl ω)).f32 = turn34 from rfl] at this
  norm_num at this ⊢
  linarith

include hc hl in
/-- A hundred steps along a screw, whatever the compiler fuses. -/
example (ω : Compiler) : ‖((screw (hw.fl ω) (lm.fl ω) isa (sampleFl ω) (fun _ => creepFl ω) 100).onPoint (startFl ω)).f32.real.position -
    ((((creep.real.smul (100 : ℕ)).exp Hw.ideal Libm.real .sse3).mulMotor Drift32.sample.real).onPoint Orbit32.start.real).position‖ ≤ 0.1 := by
  refine (C118_uniform_place hc hl isa (x := sampleFl ω) (b := creepFl ω) (v := startFl ω) drive_creep (R := 2)
    ⟨show ∀ i, (Orbit32.start.p3.get i).isFinite = true by decide +kernel, ?_, ?_, by norm_num⟩ (by norm_num) (n := 100) le_rfl (by norm_num)).trans ?_
  · show In2 (Orbit32.weight Orbit32.start) 10 10
    rw [Orbit32.start_weight]; exact ⟨by norm_num, by norm_num⟩
  · show ‖Orbit32.start.real.pure‖ ≤ Orbit32.weight Orbit32.start * 2
    rw [Orbit32.start_weight, one_mul]; exact Orbit32.start_norm
  · norm_num

end ContractChain32
end Klein
