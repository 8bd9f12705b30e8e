import Verif.Props.Pose32
import Verif.Props.Trans32
import Verif.Props.Screw

/-!
# C110: integrating a velocity, in binary32

The loop `x = (exp(w) * x).normalized()`, where `w` is the turn of one step (a branch) or its screw motion
(a line).  The state stays near the exact solution, which for a constant velocity is `exp(n w) * x`.
-/

set_option linter.unusedSimpArgs false

namespace Klein

open F32 Products32
open scoped Quaternion

namespace Integrate32

open Renorm32
open Drift32 (q1 q2)

/-! ### turning -/

/-- What is assumed of the turn of one step: finite, neither tiny nor above four radians. -/
structure Turn (w : Branch F32) : Prop where
  fin : w.p1.Le2 30
  zero : r w.p1.l0 = 0
  norm : 1 / 2 ^ 60 ≤ w.p1.sq3
  ang : √w.p1.sq3 ≤ 4

/-- The state after `n` steps. -/
def spin {F : Type} [Add F] [Sub F] [Mul F] [Neg F] [Div F] [Zero F] [One F] [NatCast F] (hw : Hw F) (lm : Libm F) (isa : Isa)
    (x : Rotor F) (w : ℕ → Branch F) : ℕ → Rotor F
  | 0 => x
  | n + 1 => (((w n).exp hw lm isa).mulRotor (spin hw lm isa x w n)).normalize hw isa

theorem spin_eq {F : Type} [Add F] [Sub F] [Mul F] [Neg F] [Div F] [Zero F] [One F] [NatCast F] (hw : Hw F) (lm : Libm F) (isa : Isa)
    (x : Rotor F) (w : ℕ → Branch F) (n : ℕ) : spin hw lm isa x w n = track hw isa x (fun i => (w i).exp hw lm isa) n := by
  induction n with
  | zero => rfl
  | succ n ih => rw [spin, track, ih]

/-- The quaternion of the exact exponential. -/
noncomputable def eq (w : Branch ℝ) : ℍ[ℝ] := (w.exp Hw.ideal Libm.real .sse3).toQuat

/-- The exact orientation. -/
noncomputable def spun (x : Rotor F32) (w : ℕ → Branch F32) : ℕ → ℍ[ℝ]
  | 0 => unit (qr x)
  | n + 1 => eq (w n).real * spun x w n

theorem norm_toQuat {m : Rotor ℝ} (h : m.mv * PGA.MV.rev m.mv = 1) : ‖m.toQuat‖ = 1 := by
  have h' := congrArg PGA.MV.s h
  simp only [pga, kln, sse] at h'
  have k : ‖m.toQuat‖ ^ 2 = 1 ^ 2 := by
    rw [sq, ← Quaternion.normSq_eq_norm_mul_self, Quaternion.normSq_def', Rotor.re_toQuat, Rotor.imI_toQuat, Rotor.imJ_toQuat,
      Rotor.imK_toQuat]
    linarith
  exact (pow_left_inj₀ (norm_nonneg _) (by norm_num) (by norm_num)).1 k

theorem Turn.dot {w : Branch F32} (h : Turn w) : 0 < dot3 w.real.p1 w.real.p1 := by
  have e3 : dot3 w.real.p1 w.real.p1 = w.p1.sq3 := by
    simp only [dot3, Branch.real, V4.real, V4.sq3]; ring
  rw [e3]
  exact lt_of_lt_of_le (by positivity) h.norm

theorem Turn.unit {w : Branch F32} (h : Turn w) : ‖eq w.real‖ = 1 :=
  norm_toQuat (C34_unit Hw.ideal_exact .sse3 w.real h.zero h.dot)

section
variable {hw : Hw F32} (hc : hw.Contract32) {lm : Libm F32} (hl : lm.Contract32) (isa : Isa) {x : Rotor F32} {w : ℕ → Branch F32}

include hc hl in
theorem Turn.exp {w : Branch F32} (h : Turn w) :
    FinR (w.exp hw lm isa) ∧ ‖qr (w.exp hw lm isa) - eq w.real‖ ≤ 1.34e-5 := by
  have k : ∀ i, _ := C79_branch_exp hc hl Hw.ideal_exact isa .sse3 w h.fin h.zero h.norm h.ang
  refine ⟨fun i => (k i).1, ?_⟩
  have neg : ∀ a b e : ℝ, |a - b| ≤ e → |-a - -b| ≤ e := fun a b e h => by
    rw [show -a - -b = -(a - b) by ring, abs_neg]; exact h
  refine (Drift32.norm_le (e := 6.7e-6) (by norm_num) (k 0).2 (neg _ _ _ (k 1).2) (neg _ _ _ (k 2).2) (neg _ _ _ (k 3).2)).trans (le_of_eq ?_)
  norm_num

theorem near_unit {a b : ℍ[ℝ]} {e : ℝ} (hb : ‖b‖ = 1) (he : e ≤ 1 / 2) (h : ‖a - b‖ ≤ e) :
    In2 ‖a‖ 1 1 ∧ ‖unit a - b‖ ≤ 2 * e := by
  have k1 := norm_sub_norm_le b a
  have k2 := norm_sub_norm_le a b
  rw [norm_sub_rev] at k1
  have hs : In2 ‖a‖ 1 1 := ⟨by norm_num; linarith, by norm_num; linarith⟩
  refine ⟨hs, ?_⟩
  have hb0 : b ≠ 0 := norm_pos_iff.1 (by rw [hb]; exact one_pos)
  have := NLerp.unit_lip (norm_pos_iff.1 hs.pos) hb0
  rw [hb, inv_one, one_smul, div_one] at this
  exact this.trans (by linarith)

theorem spun_norm (hx2 : In2 ‖qr x‖ 8 8) (hw' : ∀ i, Turn (w i)) (n : ℕ) : ‖spun x w n‖ = 1 := by
  induction n with
  | zero => exact norm_unit (norm_pos_iff.1 hx2.pos)
  | succ n ih => rw [spun, norm_mul, ih, (hw' n).unit, one_mul]

include hc hl in
/-- C110: the rotor stays normalised, for any number of steps. -/
theorem C110_norm (hx : FinR x) (hx2 : In2 ‖qr x‖ 8 8) (hw' : ∀ i, Turn (w i)) (n : ℕ) :
    FinR (spin hw lm isa x w (n + 1)) ∧ |(spin hw lm isa x w (n + 1)).p1.sq4 - 1| ≤ 1.4e-6 := by
  rw [spin_eq]
  refine C108_norm hc isa hx hx2 (fun i => ((hw' i).exp hc hl isa).1) (fun i => ?_) n
  exact (near_unit (hw' i).unit (by norm_num) ((hw' i).exp hc hl isa).2).1.mono (by norm_num) (by norm_num)

include hc hl in
/-- C110: the orientation is within `3.2e-5 n` of the exact solution. -/
theorem C110_orientation (hx : FinR x) (hx2 : In2 ‖qr x‖ 8 8) (hw' : ∀ i, Turn (w i)) (n : ℕ) :
    ‖unit (qr (spin hw lm isa x w n)) - spun x w n‖ ≤ 3.2e-5 * n := by
  have hd : ∀ i, _ := fun i => (hw' i).exp hc hl isa
  have hn : ∀ i, _ := fun i => near_unit (hw' i).unit (by norm_num) (hd i).2
  have h1 := C108_orientation hc isa hx hx2 (fun i => (hd i).1) (fun i => (hn i).1.mono (by norm_num) (by norm_num)) n
  rw [← spin_eq] at h1
  have h2 : ‖Renorm32.exact x (fun i => (w i).exp hw lm isa) n - spun x w n‖ ≤ 2.68e-5 * n := by
    clear h1
    induction n with
    | zero => simp [Renorm32.exact, spun]
    | succ n ih =>
      rw [show Renorm32.exact x (fun i => (w i).exp hw lm isa) (n + 1) =
        unit (qr ((w n).exp hw lm isa)) * Renorm32.exact x (fun i => (w i).exp hw lm isa) n from rfl, spun]
      have e := (hn n).2
      have s := spun_norm hx2 hw' n
      have g := norm_unit (norm_pos_iff.1 (hn n).1.pos)
      generalize unit (qr ((w n).exp hw lm isa)) = a at *
      generalize Renorm32.exact x (fun i => (w i).exp hw lm isa) n = b at *
      generalize spun x w n = c at *
      have k : a * b - eq (w n).real * c = a * (b - c) + (a - eq (w n).real) * c := by noncomm_ring
      rw [k]
      refine (norm_add_le _ _).trans ?_
      rw [norm_mul, norm_mul, g, s, one_mul, mul_one]
      push_cast
      norm_num at e ih ⊢
      linarith
  have k := norm_add_le (unit (qr (spin hw lm isa x w n)) - Renorm32.exact x (fun i => (w i).exp hw lm isa) n)
    (Renorm32.exact x (fun i => (w i).exp hw lm isa) n - spun x w n)
  rw [sub_add_sub_cancel] at k
  have n0 : (0 : ℝ) ≤ n := Nat.cast_nonneg n
  norm_num at h1 h2 ⊢
  linarith

theorem npow1_toQuat (m : Rotor ℝ) (n : ℕ) : (m.npow1 n).toQuat = m.toQuat ^ (n + 1) := by
  induction n with
  | zero => rw [Rotor.npow1, zero_add, pow_one]
  | succ n ih => rw [Rotor.npow1, C81_rotor_mul, ih, ← pow_succ]

/-- For a constant velocity the exact orientation is `exp(n w) * x`. -/
theorem spun_const {b : Branch F32} (hb : Turn b) (n : ℕ) :
    spun x (fun _ => b) (n + 1) = eq (b.real.smul ((n : ℝ) + 1)) * unit (qr x) := by
  have h : ∀ n, spun x (fun _ => b) n = eq b.real ^ n * unit (qr x) := fun n => by
    induction n with
    | zero => rw [spun, pow_zero, one_mul]
    | succ n ih => rw [spun, ih, pow_succ', mul_assoc]
  rw [h, eq, eq, C82_branch_exp_smul Hw.ideal_exact .sse3 b.real hb.zero hb.dot n, npow1_toQuat]

include hc hl in
/-- C110: under a constant angular velocity the orientation is within `3.2e-5 n` of `exp(n w) * x`. -/
theorem C110_uniform {b : Branch F32} (hx : FinR x) (hx2 : In2 ‖qr x‖ 8 8) (hb : Turn b) (n : ℕ) :
    ‖unit (qr (spin hw lm isa x (fun _ => b) (n + 1))) - eq (b.real.smul ((n : ℝ) + 1)) * unit (qr x)‖ ≤ 3.2e-5 * (n + 1) := by
  rw [← spun_const hb]
  have := C110_orientation hc hl isa hx hx2 (w := fun _ => b) (fun _ => hb) (n + 1)
  push_cast at this
  exact this

end

/-! ### screw motions -/

/-- The state after `n` steps. -/
def screw {F : Type} [Add F] [Sub F] [Mul F] [Neg F] [Div F] [Zero F] [One F] [NatCast F] (hw : Hw F) (lm : Libm F) (isa : Isa)
    (x : Motor F) (l : ℕ → Line F) : ℕ → Motor F
  | 0 => x
  | n + 1 => (((l n).exp hw lm isa).mulMotor (screw hw lm isa x l n)).normalize hw isa

theorem screw_eq {F : Type} [Add F] [Sub F] [Mul F] [Neg F] [Div F] [Zero F] [One F] [NatCast F] (hw : Hw F) (lm : Libm F) (isa : Isa)
    (x : Motor F) (l : ℕ → Line F) (n : ℕ) : screw hw lm isa x l n = trackM hw isa x (fun i => (l i).exp hw lm isa) n := by
  induction n with
  | zero => rfl
  | succ n ih => rw [screw, trackM, ih]

/-- The dual quaternion of the exact exponential. -/
noncomputable def edq (l : Line ℝ) : DualNumber ℍ[ℝ] := (l.exp Hw.ideal Libm.real .sse3).toDQ

/-- The exact motion. -/
noncomputable def moved (x : Motor F32) (l : ℕ → Line F32) : ℕ → DualNumber ℍ[ℝ]
  | 0 => nrm x.real.toDQ
  | n + 1 => edq (l n).real * moved x l n

section
variable {m : Line F32} {c : ℝ}

/-- The exponential is a unit dual quaternion. -/
theorem edq_normed {l : Line ℝ} (wl : l.WF) : ‖(edq l).1‖ = 1 ∧ inner ℝ (edq l).1 (edq l).2 = (0 : ℝ) := by
  have h := C35_normalised Hw.ideal_exact .sse3 l wl
  have hs := congrArg PGA.MV.s h
  have hI := congrArg PGA.MV.e0123 h
  unfold edq
  generalize l.exp Hw.ideal Libm.real .sse3 = m at *
  simp only [pga, kln, sse] at hs hI
  have k : ‖m.toDQ.1‖ ^ 2 = 1 ^ 2 := by
    rw [sq, ← Quaternion.normSq_eq_norm_mul_self, Quaternion.normSq_def', Motor.re_toDQ, Motor.imI_toDQ, Motor.imJ_toDQ,
      Motor.imK_toDQ]
    linarith
  refine ⟨(pow_left_inj₀ (norm_nonneg _) (by norm_num) (by norm_num)).1 k, ?_⟩
  rw [inner_eq]
  simp only [Motor.re_toDQ, Motor.imI_toDQ, Motor.imJ_toDQ, Motor.imK_toDQ, Motor.re_toDQ2, Motor.imI_toDQ2, Motor.imJ_toDQ2,
    Motor.imK_toDQ2]
  linarith

theorem nrm_edq {l : Line ℝ} (wl : l.WF) : nrm (edq l) = edq l := by
  obtain ⟨h1, h2⟩ := edq_normed wl
  refine Prod.ext ?_ ?_
  · show unit (edq l).1 = _
    rw [unit, h1, inv_one, one_smul]
  · show NLerp.mom (edq l).1 (edq l).2 = _
    rw [NLerp.mom, h1, inv_one, one_smul, one_smul, h2, zero_smul, sub_zero]

/-- The moment of the exponential is no longer than that of the line. -/
theorem edq_moment (h : m.Exp c) : ‖(edq m.real).2‖ ≤ c := by
  have hN : 0 < m.p1.sq3 := lt_of_lt_of_le (by positivity) h.norm
  have hc := h.rng.pos
  have ha : 0 < √m.p1.sq3 := Real.sqrt_pos.2 hN
  have ha2 := Real.sq_sqrt hN.le
  have hC : m.p2.sq3 ≤ c ^ 2 := h.p2
  refine abs_le_of_sq_le_sq' ?_ hc.le |>.2
  rw [edq, sq, ← Quaternion.normSq_eq_norm_mul_self, Quaternion.normSq_def', Line.exp_real Hw.ideal_exact .sse3 h rfl]
  simp only [Motor.re_toDQ2, Motor.imI_toDQ2, Motor.imJ_toDQ2, Motor.imK_toDQ2]
  have hs : Real.sin √m.p1.sq3 ^ 2 ≤ √m.p1.sq3 ^ 2 := by
    rw [sq_le_sq]; exact Real.abs_sin_le_abs
  have hcs := Real.sin_sq_add_cos_sq √m.p1.sq3
  generalize √m.p1.sq3 = a at *
  generalize Real.sin a = s at *
  generalize Real.cos a = k at *
  refine le_trans ?_ hC
  simp only [V4.sq3, dot3, Line.real, V4.real] at ha2 ⊢
  generalize r m.p1.l1 = b1 at *
  generalize r m.p1.l2 = b2 at *
  generalize r m.p1.l3 = b3 at *
  generalize r m.p2.l1 = c1 at *
  generalize r m.p2.l2 = c2 at *
  generalize r m.p2.l3 = c3 at *
  have ha0 := ha.ne'
  obtain ⟨n1, rfl⟩ : ∃ n, b1 = a * n := ⟨b1 / a, by field_simp⟩
  obtain ⟨n2, rfl⟩ : ∃ n, b2 = a * n := ⟨b2 / a, by field_simp⟩
  obtain ⟨n3, rfl⟩ : ∃ n, b3 = a * n := ⟨b3 / a, by field_simp⟩
  obtain ⟨g, rfl⟩ : ∃ g, s = a * g := ⟨s / a, by field_simp⟩
  have hn : n1 ^ 2 + n2 ^ 2 + n3 ^ 2 = 1 := by
    have : a ^ 2 * (n1 ^ 2 + n2 ^ 2 + n3 ^ 2) = a ^ 2 * 1 := by linear_combination -ha2
    exact mul_left_cancel₀ (pow_ne_zero 2 ha0) this
  have hg : g ^ 2 ≤ 1 := by
    rw [mul_pow] at hs
    exact le_of_mul_le_mul_left (by linarith) (pow_pos ha 2)
  obtain ⟨v, hv⟩ : ∃ v, v = n1 * c1 + n2 * c2 + n3 * c3 := ⟨_, rfl⟩
  have hD : a * n1 * c1 + a * n2 * c2 + a * n3 * c3 = a * v := by rw [hv]; ring
  rw [hD]
  have e1 : a * v / a * (a * g) = v * (a * g) := by field_simp
  have e2 : ∀ n y : ℝ, a * g * (y / a - a * n * (a * v) / a ^ 3) + a * v / a * k * (a * n / a) = g * (y - n * v) + v * k * n := fun n y => by
    field_simp
  rw [e1, e2, e2, e2]
  have key : (v * (a * g)) ^ 2 + (g * (c1 - n1 * v) + v * k * n1) ^ 2 + (g * (c2 - n2 * v) + v * k * n2) ^ 2 +
      (g * (c3 - n3 * v) + v * k * n3) ^ 2 = v ^ 2 + g ^ 2 * (c1 ^ 2 + c2 ^ 2 + c3 ^ 2 - v ^ 2) := by
    linear_combination v ^ 2 * hcs + (g ^ 2 * v ^ 2 - 2 * g * v ^ 2 * k + v ^ 2 * k ^ 2) * hn + (2 * g ^ 2 * v - 2 * g * v * k) * hv
  rw [key]
  have hcv : v ^ 2 ≤ c1 ^ 2 + c2 ^ 2 + c3 ^ 2 := by
    have : c1 ^ 2 + c2 ^ 2 + c3 ^ 2 - v ^ 2 = (c1 - n1 * v) ^ 2 + (c2 - n2 * v) ^ 2 + (c3 - n3 * v) ^ 2 := by
      linear_combination -v ^ 2 * hn - 2 * v * hv
    linarith [sq_nonneg (c1 - n1 * v), sq_nonneg (c2 - n2 * v), sq_nonneg (c3 - n3 * v)]
  linarith [mul_nonneg (sub_nonneg.2 hg) (sub_nonneg.2 hcv)]

theorem Line.Exp.wf (h : m.Exp c) : m.real.WF := ⟨h.p1z, h.p2z⟩

section
variable {hw : Hw F32} (hc : hw.Contract32) {lm : Libm F32} (hl : lm.Contract32) (isa : Isa)

include hc hl in
/-- The exponential of one step, rounded. -/
theorem exp_near (h : m.Exp c) :
    Drift32.Fin (m.exp hw lm isa) ∧ ‖q1 (m.exp hw lm isa) - (edq m.real).1‖ ≤ 1.06e-5 ∧
      ‖q2 (m.exp hw lm isa) - (edq m.real).2‖ ≤ 4e-5 * c := by
  have k1 : ∀ i, _ := C79_line_exp_p1 hc hl Hw.ideal_exact isa .sse3 h
  have k2 : ∀ i, _ := C79_line_exp_p2 hc hl Hw.ideal_exact isa .sse3 h
  have hc0 := h.rng.pos
  have neg : ∀ a b e : ℝ, |a - b| ≤ e → |-a - -b| ≤ e := fun a b e h => by
    rw [show -a - -b = -(a - b) by ring, abs_neg]; exact h
  refine ⟨⟨fun i => (k1 i).1, fun i => (k2 i).1⟩, ?_, ?_⟩
  · refine (Drift32.norm_le (e := 5.3e-6) (by norm_num) (k1 0).2 (neg _ _ _ (k1 1).2) (neg _ _ _ (k1 2).2) (neg _ _ _ (k1 3).2)).trans (le_of_eq ?_)
    norm_num
  · refine (Drift32.norm_le (e := 2e-5 * c) (by positivity) (k2 0).2 (k2 1).2 (k2 2).2 (k2 3).2).trans (le_of_eq ?_)
    ring

include hc hl in
/-- The same after normalisation. -/
theorem exp_nrm (h : m.Exp c) :
    In2 ‖q1 (m.exp hw lm isa)‖ 1 1 ∧ ‖q2 (m.exp hw lm isa)‖ ≤ ‖q1 (m.exp hw lm isa)‖ * (1.0001 * c) ∧
      ‖unit (q1 (m.exp hw lm isa)) - (edq m.real).1‖ ≤ 2.12e-5 ∧
      ‖NLerp.mom (q1 (m.exp hw lm isa)) (q2 (m.exp hw lm isa)) - (edq m.real).2‖ ≤ 9.5e-5 * c := by
  obtain ⟨-, k1, k2⟩ := exp_near hc hl isa h
  obtain ⟨n1, -⟩ := edq_normed (Line.Exp.wf h)
  have hM := edq_moment h
  have hN : NLerp.mom (edq m.real).1 (edq m.real).2 = (edq m.real).2 := congrArg Prod.snd (nrm_edq (Line.Exp.wf h))
  have hc0 := h.rng.pos
  generalize q1 (m.exp hw lm isa) = a at *
  generalize q2 (m.exp hw lm isa) = b at *
  generalize (edq m.real).1 = A at *
  generalize (edq m.real).2 = B at *
  obtain ⟨s1, s2⟩ := near_unit n1 (by norm_num) k1
  have g1 := norm_sub_norm_le A a
  have g2 := norm_sub_norm_le b B
  rw [norm_sub_rev, n1] at g1
  have hA : A ≠ 0 := norm_pos_iff.1 (by rw [n1]; exact one_pos)
  refine ⟨s1, ?_, s2.trans (by norm_num), ?_⟩
  · have : (0.99998 : ℝ) * (1.0001 * c) ≤ ‖a‖ * (1.0001 * c) := by
      refine mul_le_mul_of_nonneg_right (by norm_num at k1 ⊢; linarith) (by positivity)
    norm_num at *
    linarith
  · have := NLerp.mom_lip (z := a) (y := b) (Y := B) hA (by rw [n1]; exact k1.trans (by norm_num))
    rw [hN, n1, div_one, one_pow, div_one] at this
    refine this.trans ?_
    have k : 5.02 * ‖B‖ * ‖a - A‖ ≤ 5.02 * c * 1.06e-5 := by gcongr
    norm_num at k k2 ⊢
    linarith

end
end

/-- What the analysis asks: the first motor finite and of ordinary size, the screw motion of each step in
the domain of C79 with a moment of at most `c i`, and a length `C` of at least twice the sum of the
moments, with `s` for the first motor. -/
structure Drive (x : Motor F32) (l : ℕ → Line F32) (s : ℝ) (c : ℕ → ℝ) (C : ℝ) (N : ℕ) : Prop where
  finx : Drift32.Fin x
  sizex : In2 ‖q1 x‖ 4 4
  transx : ‖q2 x‖ ≤ ‖q1 x‖ * s
  s_nonneg : 0 ≤ s
  len : In2 C 14 14
  c_nonneg : ∀ i, 0 ≤ c i
  step : ∀ i < N, (l i).Exp (c i)
  sum : 2 * (s + 1.0001 * ∑ i ∈ Finset.range N, c i) ≤ C

section
variable {hw : Hw F32} (hc : hw.Contract32) {lm : Libm F32} (hl : lm.Contract32) (isa : Isa)
variable {x : Motor F32} {l : ℕ → Line F32} {s : ℝ} {c : ℕ → ℝ} {C : ℝ} {N : ℕ}

include hc hl in
theorem Drive.loop (h : Drive x l s c C N) : Loop x (fun i => (l i).exp hw lm isa) s (fun i => 1.0001 * c i) C N where
  finx := h.finx
  fin i hi := (exp_near hc hl isa (h.step i hi)).1
  sizex := h.sizex
  size i hi := (exp_nrm hc hl isa (h.step i hi)).1.mono (by norm_num) (by norm_num)
  len := h.len
  s_nonneg := h.s_nonneg
  t_nonneg i := mul_nonneg (by norm_num) (h.c_nonneg i)
  transx := h.transx
  trans i hi := (exp_nrm hc hl isa (h.step i hi)).2.1
  sum := by rw [← Finset.mul_sum]; exact h.sum

theorem moved_norm (h : Drive x l s c C N) {n : ℕ} (hn : n ≤ N) :
    ‖(moved x l n).1‖ = 1 ∧ ‖(moved x l n).2‖ ≤ s + ∑ i ∈ Finset.range n, c i := by
  induction n with
  | zero =>
    have h0 : q1 x ≠ 0 := norm_pos_iff.1 h.sizex.pos
    refine ⟨norm_unit h0, ?_⟩
    rw [Finset.sum_range_zero, add_zero]
    refine (mom_le h0 (q2 x)).trans ?_
    rw [div_le_iff₀ h.sizex.pos, mul_comm]
    exact h.transx
  | succ n ih =>
    obtain ⟨i1, i2⟩ := ih (Nat.le_of_succ_le hn)
    obtain ⟨n1, -⟩ := edq_normed (Line.Exp.wf (h.step n hn))
    have hM := edq_moment (h.step n hn)
    have e1 : (moved x l (n + 1)).1 = (edq (l n).real).1 * (moved x l n).1 := rfl
    have e2 : (moved x l (n + 1)).2 = (edq (l n).real).1 * (moved x l n).2 + (edq (l n).real).2 * (moved x l n).1 :=
      TrivSqZeroExt.snd_mul (edq (l n).real) (moved x l n)
    rw [e1, e2, norm_mul, i1, n1, one_mul, Finset.sum_range_succ]
    refine ⟨rfl, (norm_add_le _ _).trans ?_⟩
    rw [norm_mul, norm_mul, i1, n1, one_mul, mul_one]
    linarith

include hc hl in
/-- The product of the rounded exponentials against the product of the exact ones. -/
theorem exact_moved (h : Drive x l s c C N) {n : ℕ} (hn : n ≤ N) :
    ‖(exactM x (fun i => (l i).exp hw lm isa) n).1 - (moved x l n).1‖ ≤ 2.12e-5 * n ∧
      ‖(exactM x (fun i => (l i).exp hw lm isa) n).2 - (moved x l n).2‖ ≤
        2.12e-5 * n * (C / 2) + (9.5e-5 + 2.12e-5 * n) * ∑ i ∈ Finset.range n, c i := by
  induction n with
  | zero => simp [exactM, moved]
  | succ n ih =>
    obtain ⟨i1, i2⟩ := ih (Nat.le_of_succ_le hn)
    obtain ⟨m1, m2⟩ := moved_norm h (Nat.le_of_succ_le hn)
    obtain ⟨x1, -⟩ := exactM_norm (h.loop hc hl isa) (Nat.le_of_succ_le hn)
    obtain ⟨s1, -, k1, k2⟩ := exp_nrm hc hl isa (h.step n hn)
    obtain ⟨n1, -⟩ := edq_normed (Line.Exp.wf (h.step n hn))
    have hM := edq_moment (h.step n hn)
    have hu := norm_unit (norm_pos_iff.1 s1.pos)
    have e1 : (moved x l (n + 1)).1 = (edq (l n).real).1 * (moved x l n).1 := rfl
    have e2 : (moved x l (n + 1)).2 = (edq (l n).real).1 * (moved x l n).2 + (edq (l n).real).2 * (moved x l n).1 :=
      TrivSqZeroExt.snd_mul (edq (l n).real) (moved x l n)
    have E1 : (exactM x (fun i => (l i).exp hw lm isa) (n + 1)).1 =
        unit (q1 ((l n).exp hw lm isa)) * (exactM x (fun i => (l i).exp hw lm isa) n).1 := rfl
    have E2 : (exactM x (fun i => (l i).exp hw lm isa) (n + 1)).2 =
        unit (q1 ((l n).exp hw lm isa)) * (exactM x (fun i => (l i).exp hw lm isa) n).2 +
        NLerp.mom (q1 ((l n).exp hw lm isa)) (q2 ((l n).exp hw lm isa)) * (exactM x (fun i => (l i).exp hw lm isa) n).1 :=
      TrivSqZeroExt.snd_mul (nrm ((l n).exp hw lm isa).real.toDQ) (exactM x (fun i => (l i).exp hw lm isa) n)
    rw [e1, e2, E1, E2, Finset.sum_range_succ]
    have hsum : ∑ i ∈ Finset.range n, c i ≤ ∑ i ∈ Finset.range N, c i :=
      Finset.sum_le_sum_of_subset_of_nonneg (Finset.range_subset_range.2 (Nat.le_of_succ_le hn)) fun i _ _ => h.c_nonneg i
    have hS0 : 0 ≤ ∑ i ∈ Finset.range n, c i := Finset.sum_nonneg fun i _ => h.c_nonneg i
    have hs := h.sum
    have hcn := h.c_nonneg n
    clear e1 e2 E1 E2
    generalize (exactM x (fun i => (l i).exp hw lm isa) n).1 = A1 at *
    generalize (exactM x (fun i => (l i).exp hw lm isa) n).2 = A2 at *
    generalize (moved x l n).1 = B1 at *
    generalize (moved x l n).2 = B2 at *
    generalize NLerp.mom (q1 ((l n).exp hw lm isa)) (q2 ((l n).exp hw lm isa)) = D2 at *
    generalize unit (q1 ((l n).exp hw lm isa)) = D1 at *
    generalize (edq (l n).real).1 = F1 at *
    generalize (edq (l n).real).2 = F2 at *
    generalize ∑ i ∈ Finset.range n, c i = S at *
    generalize ∑ i ∈ Finset.range N, c i = T at *
    have n0 : (0 : ℝ) ≤ n := Nat.cast_nonneg n
    have b2 : ‖B2‖ ≤ C / 2 := by norm_num at hs ⊢; linarith
    constructor
    · have k : D1 * A1 - F1 * B1 = D1 * (A1 - B1) + (D1 - F1) * B1 := by noncomm_ring
      rw [k]
      refine (norm_add_le _ _).trans ?_
      rw [norm_mul, norm_mul, hu, m1, one_mul, mul_one]
      push_cast
      linarith
    · have k : D1 * A2 + D2 * A1 - (F1 * B2 + F2 * B1) =
          (D1 * (A2 - B2) + (D1 - F1) * B2) + ((D2 - F2) * A1 + F2 * (A1 - B1)) := by noncomm_ring
      rw [k]
      refine (norm_add_le _ _).trans ((add_le_add (norm_add_le _ _) (norm_add_le _ _)).trans ?_)
      rw [norm_mul, norm_mul, norm_mul, norm_mul, hu, x1, one_mul, mul_one]
      have g1 : ‖D1 - F1‖ * ‖B2‖ ≤ 2.12e-5 * (C / 2) := mul_le_mul k1 b2 (norm_nonneg _) (by norm_num)
      have g2 : ‖F2‖ * ‖A1 - B1‖ ≤ c n * (2.12e-5 * n) := mul_le_mul hM i1 (norm_nonneg _) hcn
      push_cast
      linarith

include hc hl in
/-- C110: the motion is within `2.6e-5 n` of the exact one in the rotation, and in the moment within
`4.9e-5 n + 4.8e-5` of the length `C`. -/
theorem C110_motion (h : Drive x l s c C N) {n : ℕ} (hn : n ≤ N) (hN : n ≤ 8192) :
    ‖(nrm (screw hw lm isa x l n).real.toDQ).1 - (moved x l n).1‖ ≤ 2.6e-5 * n ∧
      ‖(nrm (screw hw lm isa x l n).real.toDQ).2 - (moved x l n).2‖ ≤ (4.9e-5 * n + 4.8e-5) * C := by
  obtain ⟨a1, a2⟩ := C108_motor_motion hc isa (h.loop hc hl isa) hn hN
  obtain ⟨b1, b2⟩ := exact_moved hc hl isa h hn
  rw [← screw_eq] at a1 a2
  have hC0 := h.len.pos
  have hsum : ∑ i ∈ Finset.range n, c i ≤ ∑ i ∈ Finset.range N, c i :=
    Finset.sum_le_sum_of_subset_of_nonneg (Finset.range_subset_range.2 hn) fun i _ _ => h.c_nonneg i
  have hS0 : 0 ≤ ∑ i ∈ Finset.range n, c i := Finset.sum_nonneg fun i _ => h.c_nonneg i
  have hs := h.sum
  have hs0 := h.s_nonneg
  have n0 : (0 : ℝ) ≤ n := Nat.cast_nonneg n
  generalize nrm (screw hw lm isa x l n).real.toDQ = P at *
  generalize exactM x (fun i => (l i).exp hw lm isa) n = Q at *
  generalize moved x l n = R at *
  generalize ∑ i ∈ Finset.range n, c i = S at *
  generalize ∑ i ∈ Finset.range N, c i = T at *
  have hS : S ≤ C / 2 := by norm_num at hs ⊢; linarith
  have k1 := norm_sub_le_norm_sub_add_norm_sub P.1 Q.1 R.1
  have k2 := norm_sub_le_norm_sub_add_norm_sub P.2 Q.2 R.2
  refine ⟨by norm_num at a1 b1 ⊢; linarith, ?_⟩
  have k3 : (9.5e-5 + 2.12e-5 * n) * S ≤ (9.5e-5 + 2.12e-5 * n) * (C / 2) := mul_le_mul_of_nonneg_left hS (by positivity)
  have k4 : 0 ≤ (n : ℝ) * C := by positivity
  norm_num at a2 b2 k3 ⊢
  linarith

include hc hl in
/-- C110: the motor stays normalised. -/
theorem C110_motor_norm (h : Drive x l s c C N) {n : ℕ} (hn : n + 1 ≤ N) (hN : n + 1 ≤ 8192) :
    Drift32.Fin (screw hw lm isa x l (n + 1)) ∧ |(screw hw lm isa x l (n + 1)).p1.sq4 - 1| ≤ 1.4e-6 := by
  rw [screw_eq]
  obtain ⟨h1, h2, -⟩ := C108_motor_norm hc isa (h.loop hc hl isa) hn hN
  exact ⟨h1, h2⟩

/-- For a constant velocity the exact motion is `exp(n l) * x`. -/
theorem moved_const {b : Line F32} (wb : b.real.WF) (n : ℕ) : moved x (fun _ => b) n = edq (b.real.smul n) * nrm x.real.toDQ := by
  have h1 : ∀ n, moved x (fun _ => b) n = edq b.real ^ n * nrm x.real.toDQ := fun n => by
    induction n with
    | zero => rw [moved, pow_zero, one_mul]
    | succ n ih => rw [moved, ih, pow_succ', mul_assoc]
  have h2 : ∀ (m : Motor ℝ) (n : ℕ), (m.npow n).toDQ = m.toDQ ^ n := fun m n => by
    induction n with
    | zero =>
      rw [pow_zero, Motor.npow]
      refine Prod.ext ?_ ?_
      · show _ = (1 : ℍ[ℝ])
        ext <;> simp [sse, Motor.toDQ]
      · show _ = (0 : ℍ[ℝ])
        ext <;> simp [sse, Motor.toDQ]
    | succ n ih => rw [Motor.npow, C81_motor_mul, ih, pow_succ]
  rw [h1, edq, edq, C82_exp_smul Hw.ideal_exact .sse3 b.real wb n, h2]

variable {R : ℝ} {v : Point F32}

include hc hl in
/-- C110: a point placed by the state after `n` steps, against its exact place. -/
theorem C110_place (h : Drive x l s c C N) (hv : Renorm32.Near v R) {n : ℕ} (hn : n ≤ N) (hN : n ≤ 8192) :
    ‖((screw hw lm isa x l n).onPoint v).real.position - place (moved x l n) v.real.position‖ ≤
      (5.3e-5 * R + 1.3e-4 * C) * n + (4.2e-5 * R + 1.9e-4 * C) := by
  have a := C109_place hc isa (h.loop hc hl isa) hv hn hN
  rw [← screw_eq] at a
  obtain ⟨b1, b2⟩ := exact_moved hc hl isa h hn
  obtain ⟨x1, -⟩ := exactM_norm (h.loop hc hl isa) hn
  obtain ⟨m1, m2⟩ := moved_norm h hn
  have hC0 := h.len.pos
  have hR := hv.nonneg
  have hp := hv.position
  have hsum : ∑ i ∈ Finset.range n, c i ≤ ∑ i ∈ Finset.range N, c i :=
    Finset.sum_le_sum_of_subset_of_nonneg (Finset.range_subset_range.2 hn) fun i _ _ => h.c_nonneg i
  have hS0 : 0 ≤ ∑ i ∈ Finset.range n, c i := Finset.sum_nonneg fun i _ => h.c_nonneg i
  have hs := h.sum
  have hs0 := h.s_nonneg
  have n0 : (0 : ℝ) ≤ n := Nat.cast_nonneg n
  have p := place_le (E := exactM x (fun i => (l i).exp hw lm isa) n) (F := moved x l n) x1 m1 v.real.position
  have q := norm_sub_le_norm_sub_add_norm_sub ((screw hw lm isa x l n).onPoint v).real.position
    (place (exactM x (fun i => (l i).exp hw lm isa) n) v.real.position) (place (moved x l n) v.real.position)
  generalize ((screw hw lm isa x l n).onPoint v).real.position = X at *
  generalize place (exactM x (fun i => (l i).exp hw lm isa) n) v.real.position = Y at *
  generalize place (moved x l n) v.real.position = Z at *
  generalize exactM x (fun i => (l i).exp hw lm isa) n = Q at *
  generalize moved x l n = W at *
  generalize ∑ i ∈ Finset.range n, c i = S at *
  generalize ∑ i ∈ Finset.range N, c i = T at *
  have hS : S ≤ C / 2 := by norm_num at hs ⊢; linarith
  have hW : ‖W.2‖ ≤ C / 2 := by norm_num at hs ⊢; linarith
  have k1 : 2 * ‖Q.1 - W.1‖ * (‖v.real.position‖ + ‖W.2‖) ≤ 2 * (2.12e-5 * n) * (R + C / 2) :=
    mul_le_mul (by linarith) (add_le_add hp hW) (by positivity) (by positivity)
  have k3 : (9.5e-5 + 2.12e-5 * n) * S ≤ (9.5e-5 + 2.12e-5 * n) * (C / 2) := mul_le_mul_of_nonneg_left hS (by positivity)
  have k4 : 0 ≤ (n : ℝ) * C := by positivity
  have k5 : 0 ≤ (n : ℝ) * R := by positivity
  norm_num at a b2 k1 k3 ⊢
  linarith

/-- The exact place under a constant velocity is where the motor `exp(n l) * x` puts the point. -/
theorem place_const {b : Line F32} (wb : b.real.WF) (hx : x.real.toDQ.1 ≠ 0) (hv : v.real.p3.l0 ≠ 0) (n : ℕ) :
    place (moved x (fun _ => b) n) v.real.position =
      ((((b.real.smul n).exp Hw.ideal Libm.real .sse3).mulMotor x.real).onPoint v.real).position := by
  have wn : (b.real.smul n).WF := by
    obtain ⟨h1, h2⟩ := wb
    exact ⟨by simp [kln, sse, h1], by simp [kln, sse, h2]⟩
  obtain ⟨n1, -⟩ := edq_normed wn
  have h0 : (edq (b.real.smul n)).1 ≠ 0 := norm_pos_iff.1 (by rw [n1]; exact one_pos)
  have e : (((b.real.smul n).exp Hw.ideal Libm.real .sse3).mulMotor x.real).toDQ = edq (b.real.smul n) * x.real.toDQ :=
    C81_motor_mul _ _
  rw [position_place (by rw [e]; exact mul_ne_zero h0 hx) hv, e, nrm_mul h0 hx, nrm_edq wn, moved_const wb]

include hc hl in
/-- C110: under a constant screw velocity, a point placed by the state after `n` steps is near the point
moved by the exact `exp(n l) * x`. -/
theorem C110_uniform_place {b : Line F32} (h : Drive x (fun _ => b) s c C N) (hv : Renorm32.Near v R) {n : ℕ} (h0 : 0 < N) (hn : n ≤ N) (hN : n ≤ 8192) :
    ‖((screw hw lm isa x (fun _ => b) n).onPoint v).real.position -
      ((((b.real.smul n).exp Hw.ideal Libm.real .sse3).mulMotor x.real).onPoint v.real).position‖ ≤
      (5.3e-5 * R + 1.3e-4 * C) * n + (4.2e-5 * R + 1.9e-4 * C) := by
  rw [← place_const (Line.Exp.wf (h.step 0 h0)) (norm_pos_iff.1 h.sizex.pos) hv.ne n]
  exact C110_place hc hl isa h hv hn hN


/-! ### concrete motions -/

/-- A turn of 1/64 per step. -/
def slow : Branch F32 := ⟨⟨0, 0, 0, ((1 : ℕ) : F32) / ((64 : ℕ) : F32)⟩⟩

theorem r_slow : r (((1 : ℕ) : F32) / ((64 : ℕ) : F32)) = 1 / 64 := by
  unfold r; rw [show (((1 : ℕ) : F32) / ((64 : ℕ) : F32)).val = 1 / 64 by decide +kernel]; norm_num

theorem r_0 : r (0 : F32) = 0 := by unfold r; rw [show (0 : F32).val = 0 by decide +kernel]; norm_num

theorem turn_slow : Turn slow := by
  have e : slow.p1.sq3 = (1 / 64) ^ 2 := by
    simp only [V4.sq3, slow, r_slow, r_0]; norm_num
  refine ⟨fun i _ => by revert i; decide +kernel, r_0, by rw [e]; norm_num, ?_⟩
  rw [e, Real.sqrt_sq (by norm_num)]; norm_num

include hc hl in
/-- A thousand steps, more than two full turns, end within 0.033 of the exact orientation. -/
example : ‖unit (qr (spin hw lm isa turn34 (fun _ => slow) 1000)) - eq (slow.real.smul 1000) * unit (qr turn34)‖ ≤ 0.033 := by
  have := C110_uniform hc hl isa turn34_fin (by rw [turn34_norm]; exact ⟨by norm_num, by norm_num⟩) turn_slow 999
  norm_num at this ⊢
  linarith

/-- A screw motion of 1/64 per step along the same axis. -/
def creep : Line F32 := ⟨slow.p1, slow.p1⟩

theorem exp_creep : creep.Exp (1 / 64) := by
  obtain ⟨h1, h2, h3, h4⟩ := turn_slow
  refine ⟨⟨⟨h1, h3, by unfold V4.Finite; decide +kernel, ?_, ⟨by norm_num, by norm_num⟩⟩, h2, h2⟩, h4⟩
  simp only [V4.sq3, creep, slow, r_slow, r_0]; norm_num

theorem drive_creep : Drive Drift32.sample (fun _ => creep) 1.01 (fun _ => 1 / 64) 6 100 := by
  obtain ⟨h1, -, h3, -, -, h5, -, h7, -⟩ := loop_sample
  refine ⟨h1, h3, h7, h5, ⟨by norm_num, by norm_num⟩, fun _ => by norm_num, fun _ _ => exp_creep, ?_⟩
  rw [Finset.sum_const, Finset.card_range]
  norm_num

include hc hl in
/-- A hundred steps along a screw. -/
example : ‖((screw hw lm isa Drift32.sample (fun _ => creep) 100).onPoint Orbit32.start).real.position -
    ((((creep.real.smul (100 : ℕ)).exp Hw.ideal Libm.real .sse3).mulMotor Drift32.sample.real).onPoint Orbit32.start.real).position‖ ≤ 0.1 := by
  refine (C110_uniform_place hc hl isa drive_creep (v := Orbit32.start) (R := 2) ⟨by decide +kernel, ?_, ?_, by norm_num⟩ (by norm_num)
    (n := 100) le_rfl (by norm_num)).trans ?_
  · rw [Orbit32.start_weight]; exact ⟨by norm_num, by norm_num⟩
  · rw [Orbit32.start_weight, one_mul]; exact Orbit32.start_norm
  · norm_num

end
end Integrate32
end Klein
