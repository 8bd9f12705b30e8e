import Verif.Props.ContractChain32
import Verif.Props.Pose32

/-!
# C116: motions normalised at every step with fused multiply-adds

The loops of C108 and C109 for compilers that fuse products with the sums they enter.  Every product, every
normalisation and every motion of a point may be compiled differently.
-/

set_option linter.unusedSimpArgs false

namespace Klein

open F32 Products32 Contract32 Ex Renorm32
open scoped Quaternion

variable {ω : Compiler}

namespace ContractChain32

/-- `z` is a rotor a contracting compiler may compute for `x * y`. -/
def RotorRun (x y z : Rotor F32) : Prop :=
  CanV (env x.p1 x.p1 y.p1 y.p1) ((Rotor.mk X).mulRotor (Rotor.mk Y)).p1 z.p1

/-- `z` is what some compiler computes for the normalised `y`. -/
def NormRunR (hw : Hw F32) (isa : Isa) (y z : Rotor F32) : Prop :=
  ∃ (ω : Compiler) (y' : Rotor (Fl ω)), y'.f32 = y ∧ (y'.normalize (hw.fl ω) isa).f32 = z

def NormRun (hw : Hw F32) (isa : Isa) (y z : Motor F32) : Prop :=
  ∃ (ω : Compiler) (y' : Motor (Fl ω)), y'.f32 = y ∧ (y'.normalize (hw.fl ω) isa).f32 = z

/-- `Q n` is a value of the orientation after `n` steps of the loop `x = (d * x).normalized()`. -/
structure TrackRun (hw : Hw F32) (isa : Isa) (x : Rotor F32) (d Q : ℕ → Rotor F32) (N : ℕ) : Prop where
  zero : Q 0 = x
  succ : ∀ n < N, ∃ y, RotorRun (d n) (Q n) y ∧ NormRunR hw isa y (Q (n + 1))

/-- `Q n` is a value of the motor after `n` steps of the loop `x = (d * x).normalized()`. -/
structure LoopRun (hw : Hw F32) (isa : Isa) (x : Motor F32) (d Q : ℕ → Motor F32) (N : ℕ) : Prop where
  zero : Q 0 = x
  succ : ∀ n < N, ∃ y, MulRun (d n) (Q n) y ∧ NormRun hw isa y (Q (n + 1))

/-! ### rotors -/

/-- One product of rotors, contracted. -/
theorem stepR {x y z : Rotor F32} (hz : RotorRun x y z) (hx : FinR x) (hy : FinR y) (hA : In2 ‖qr x‖ 24 24) (hB : In2 ‖qr y‖ 24 24) :
    FinR z ∧ ‖qr z - qr x * qr y‖ ≤ 26 * u * (‖qr x‖ * ‖qr y‖) := by
  obtain ⟨⟨f0, e0⟩, ⟨f1, e1⟩, ⟨f2, e2⟩, f3, e3⟩ := C94_rotor_mul_rotor hA hB (withinR hx) (withinR hy) hz
  have hA0 := hA.pos
  have hB0 := hB.pos
  have r1 : (x.real.mulRotor y.real).toQuat = qr x * qr y := C81_rotor_mul x.real y.real
  refine ⟨fun i => match i with | 0 => f0 | 1 => f1 | 2 => f2 | 3 => f3, ?_⟩
  rw [← r1]
  have neg : ∀ a b e : ℝ, |a - b| ≤ e → |-a - -b| ≤ e := fun a b e h => by
    rw [show -a - -b = -(a - b) by ring, abs_neg]; exact h
  refine (Drift32.norm_le (e := 13 * (‖qr x‖ * ‖qr y‖) / 2 ^ 24) (by positivity) e0 (neg _ _ _ e1) (neg _ _ _ e2)
    (neg _ _ _ e3)).trans (le_of_eq ?_)
  unfold u; ring

/-- One normalisation, contracted. -/
theorem normR_fl {hw : Hw F32} (hc : hw.Contract32) (isa : Isa) {x : Rotor (Fl ω)} (hx : FinR x.f32) (h : In2 ‖qr x.f32‖ 30 30) :
    FinR (x.normalize (hw.fl ω) isa).f32 ∧ ‖qr (x.normalize (hw.fl ω) isa).f32 - unit (qr x.f32)‖ ≤ 6.9e-7 ∧
      |‖qr (x.normalize (hw.fl ω) isa).f32‖ ^ 2 - 1| ≤ 1.4e-6 := by
  have h0 := h.pos
  have sq : ‖qr x.f32‖ ^ 2 = x.p1.f32.sq4 := qr_sq x.f32
  have hN : 1 / 2 ^ 60 ≤ x.p1.f32.sq4 := by
    rw [← sq]
    refine le_trans (le_of_eq ?_) (pow_le_pow_left₀ (by positivity) h.lo 2)
    norm_num
  have hs : √x.p1.f32.sq4 = ‖qr x.f32‖ := by rw [← sq, Real.sqrt_sq h0.le]
  have hL : x.p1.f32.Le2 30 := fun i _ => by
    refine ⟨hx i, ?_⟩
    obtain ⟨-, a0, a1, a2, a3⟩ := withinR hx
    have : |r (x.p1.f32.get i)| ≤ ‖qr x.f32‖ := match i with | 0 => a0 | 1 => a1 | 2 => a2 | 3 => a3
    have : |r (x.p1.f32.get i)| ≤ 2 ^ 30 := this.trans h.hi
    rw [r] at this
    exact_mod_cast this
  have key := C113_rotor_normalize hc isa x hL hN
  refine ⟨fun i => (key i).1, ?_, ?_⟩
  · have e : ∀ i, |r ((x.normalize (hw.fl ω) isa).p1.f32.get i) - ‖qr x.f32‖⁻¹ * r (x.p1.f32.get i)| ≤
        6.8e-7 * |‖qr x.f32‖⁻¹ * r (x.p1.f32.get i)| + 1 / 2 ^ 150 := fun i => by
      have := (key i).2
      rw [hs] at this
      rwa [abs_mul, abs_of_pos (inv_pos.2 h0), inv_mul_eq_div, inv_mul_eq_div]
    have en : ∀ i, |-r ((x.normalize (hw.fl ω) isa).p1.f32.get i) - ‖qr x.f32‖⁻¹ * -r (x.p1.f32.get i)| ≤
        6.8e-7 * |‖qr x.f32‖⁻¹ * -r (x.p1.f32.get i)| + 1 / 2 ^ 150 := fun i => by
      have := e i
      rw [mul_neg, abs_neg (‖qr x.f32‖⁻¹ * _), ← neg_sub', abs_neg]
      exact this
    refine (norm_le_rel (w := unit (qr x.f32)) (by norm_num) (by norm_num) (e 0) (en 1) (en 2) (en 3)).trans ?_
    rw [norm_unit (norm_pos_iff.1 h0)]
    norm_num
  · rw [qr_sq]; exact C113_rotor_normalize_unit hc isa x hL hN

theorem normR {hw : Hw F32} (hc : hw.Contract32) (isa : Isa) {y z : Rotor F32} (hz : NormRunR hw isa y z) (hy : FinR y) (h : In2 ‖qr y‖ 30 30) :
    FinR z ∧ ‖qr z - unit (qr y)‖ ≤ 6.9e-7 ∧ |‖qr z‖ ^ 2 - 1| ≤ 1.4e-6 := by
  obtain ⟨ω, y, rfl, rfl⟩ := hz
  exact normR_fl hc isa hy h

section
variable {hw : Hw F32} (hc : hw.Contract32) (isa : Isa) {x : Rotor F32} {d Q : ℕ → Rotor F32} {N : ℕ}

include hc in
/-- The invariant of the loop. -/
theorem track_ok (hQ : TrackRun hw isa x d Q N) (hx : FinR x) (hx2 : In2 ‖qr x‖ 8 8)
    (hd : ∀ i, FinR (d i)) (hd2 : ∀ i, In2 ‖qr (d i)‖ 20 20) {n : ℕ}
    (hn : n ≤ N) :
    FinR (Q n) ∧ In2 ‖qr (Q n)‖ 8 8 ∧
      (n ≠ 0 → |‖qr (Q n)‖ ^ 2 - 1| ≤ 1.4e-6) ∧
      ‖unit (qr (Q n)) - exact x d n‖ ≤ 4.5e-6 * n := by
  induction n with
  | zero => rw [hQ.zero]; exact ⟨hx, hx2, fun h => absurd rfl h, by simp [exact]⟩
  | succ n ih =>
    obtain ⟨f, s, -, e⟩ := ih (Nat.le_of_succ_le hn)
    obtain ⟨y, hy, hz⟩ := hQ.succ n hn
    rw [show exact x d (n + 1) = unit (qr (d n)) * exact x d n from rfl]
    generalize Q n = t at *
    obtain ⟨f1, e1⟩ := stepR hy (hd n) f ((hd2 n).mono (by norm_num) (by norm_num)) (s.mono (by norm_num) (by norm_num))
    have hm := (hd2 n).mul s
    have hm0 := hm.pos
    have hsz : In2 ‖qr y‖ 30 30 := by
      have hu : 26 * u ≤ 1 / 2 := by unfold u; norm_num
      have k := mul_le_mul_of_nonneg_right hu hm0.le
      have a1 := norm_sub_norm_le (qr (d n) * qr t) (qr y)
      have a2 := norm_sub_norm_le (qr y) (qr (d n) * qr t)
      rw [norm_sub_rev, norm_mul] at a1
      rw [norm_mul] at a2
      have h1 := hm.lo
      have h2 := hm.hi
      norm_num at h1 h2
      exact ⟨by norm_num; linarith, by norm_num; linarith⟩
    obtain ⟨f2, e2, e3⟩ := normR hc isa hz f1 hsz
    have hd0 : qr (d n) ≠ 0 := norm_pos_iff.1 (hd2 n).pos
    have ht0 : qr t ≠ 0 := norm_pos_iff.1 s.pos
    obtain ⟨-, -, e4⟩ := unit_step hd0 ht0 (by unfold u; norm_num) (by norm_num) e1 e2
    generalize Q (n + 1) = z at *
    refine ⟨f2, ?_, fun _ => e3, ?_⟩
    · have := abs_le.1 (near_one (norm_nonneg _) e3)
      norm_num at this
      exact ⟨by norm_num; linarith, by norm_num; linarith⟩
    · have k := norm_add_le (unit (qr z) - unit (qr (d n)) * unit (qr t))
        (unit (qr (d n)) * (unit (qr t) - exact x d n))
      rw [mul_sub, sub_add_sub_cancel, ← mul_sub, norm_mul, norm_unit hd0, one_mul] at k
      refine k.trans ((add_le_add e4 e).trans ?_)
      unfold u
      push_cast
      norm_num
      linarith

include hc in
/-- C116: a rotor multiplied by a factor of any size and normalised, at every step, has a norm within
`1.4e-6` of one after any number of steps. -/
theorem C116_norm (hQ : TrackRun hw isa x d Q N) (hx : FinR x) (hx2 : In2 ‖qr x‖ 8 8)
    (hd : ∀ i, FinR (d i)) (hd2 : ∀ i, In2 ‖qr (d i)‖ 20 20) {n : ℕ}
    (hn : n + 1 ≤ N) :
    FinR (Q (n + 1)) ∧ |(Q (n + 1)).p1.sq4 - 1| ≤ 1.4e-6 := by
  obtain ⟨h1, -, h2, -⟩ := track_ok hc isa hQ hx hx2 hd hd2 hn
  rw [← qr_sq]
  exact ⟨h1, h2 (Nat.succ_ne_zero n)⟩

include hc in
/-- C116: the orientation is within `4.5e-6 n` of the exact one. -/
theorem C116_orientation (hQ : TrackRun hw isa x d Q N) (hx : FinR x) (hx2 : In2 ‖qr x‖ 8 8)
    (hd : ∀ i, FinR (d i)) (hd2 : ∀ i, In2 ‖qr (d i)‖ 20 20) {n : ℕ}
    (hn : n ≤ N) :
    ‖unit (qr (Q n)) - exact x d n‖ ≤ 4.5e-6 * n :=
  (track_ok hc isa hQ hx hx2 hd hd2 hn).2.2.2

include hc in
/-- C116: a vector turned by the orientation is within `9e-6 n` of its length of where the exact
orientation turns it. -/
theorem C116_turn (hQ : TrackRun hw isa x d Q N) (hx : FinR x) (hx2 : In2 ‖qr x‖ 8 8)
    (hd : ∀ i, FinR (d i)) (hd2 : ∀ i, In2 ‖qr (d i)‖ 20 20) {n : ℕ} (hn : n ≤ N)
    (v : ℍ[ℝ]) :
    ‖unit (qr (Q n)) * v * star (unit (qr (Q n))) - exact x d n * v * star (exact x d n)‖ ≤
      9e-6 * n * ‖v‖ := by
  obtain ⟨-, s, -, e⟩ := track_ok hc isa hQ hx hx2 hd hd2 hn
  refine (turn_le (norm_unit (norm_pos_iff.1 s.pos)) (exact_norm hx2 hd2 n)).trans ?_
  refine mul_le_mul_of_nonneg_right ?_ (norm_nonneg _)
  linarith

end

/-! ### motors -/

open Drift32 (q1 q2)

/-- One normalisation of a motor, contracted. -/
theorem normM_fl {hw : Hw F32} (hc : hw.Contract32) (isa : Isa) {x : Motor (Fl ω)} {K : ℝ} (hx : Drift32.Fin x.f32)
    (h : In2 ‖q1 x.f32‖ 30 30) (hK : In2 K 30 30) (h2 : ‖q2 x.f32‖ ≤ K) :
    Drift32.Fin (x.normalize (hw.fl ω) isa).f32 ∧ ‖q1 (x.normalize (hw.fl ω) isa).f32 - unit (q1 x.f32)‖ ≤ 6.9e-7 ∧
      |‖q1 (x.normalize (hw.fl ω) isa).f32‖ ^ 2 - 1| ≤ 1.4e-6 ∧
      ‖q2 (x.normalize (hw.fl ω) isa).f32 - NLerp.mom (q1 x.f32) (q2 x.f32)‖ ≤ 7.4e-6 * (K / ‖q1 x.f32‖) := by
  have h0 := h.pos
  obtain ⟨f1, e1, e2⟩ := normR_fl hc isa (x := ⟨x.p1⟩) hx.1 h
  have hs : √x.p1.f32.sq4 = ‖q1 x.f32‖ := by
    rw [← qr_sq ⟨x.p1.f32⟩, Real.sqrt_sq (norm_nonneg _)]; rfl
  have hN : 1 / 2 ^ 60 ≤ x.p1.f32.sq4 := by
    rw [← qr_sq ⟨x.p1.f32⟩]
    refine le_trans (le_of_eq ?_) (pow_le_pow_left₀ (by positivity) h.lo 2)
    norm_num
  have hL : x.p1.f32.Le2 30 := fun i _ => by
    refine ⟨hx.1 i, ?_⟩
    obtain ⟨-, a0, a1, a2, a3⟩ := withinR (x := ⟨x.p1.f32⟩) hx.1
    have : |r (x.p1.f32.get i)| ≤ ‖q1 x.f32‖ := match i with | 0 => a0 | 1 => a1 | 2 => a2 | 3 => a3
    have : |r (x.p1.f32.get i)| ≤ 2 ^ 30 := this.trans h.hi
    rw [r] at this
    exact_mod_cast this
  have hS : x.f32.Scale K := ⟨hL, hN, hx.2, by rw [← q2_sq]; exact pow_le_pow_left₀ (norm_nonneg _) h2 2, hK.mono (by norm_num) (by norm_num)⟩
  have key := C113_motor_normalize_p2 hc Hw.ideal_exact isa isa hS
  rw [hs] at key
  have hd := normalize_dq Hw.ideal_exact isa (m := x.f32.real) (norm_pos_iff.1 h0)
  have hd2 : (x.f32.real.normalize Hw.ideal isa).toDQ.2 = NLerp.mom (q1 x.f32) (q2 x.f32) := congrArg Prod.snd hd
  refine ⟨⟨f1, fun i => (key i).1⟩, e1, e2, ?_⟩
  rw [← hd2]
  have hK0 := hK.pos
  refine (Drift32.norm_le (e := 3.7e-6 * (K / ‖q1 x.f32‖)) (by positivity) (key 0).2 (key 1).2 (key 2).2 (key 3).2).trans (le_of_eq ?_)
  ring

theorem normM {hw : Hw F32} (hc : hw.Contract32) (isa : Isa) {y z : Motor F32} (hz : NormRun hw isa y z) {K : ℝ} (hy : Drift32.Fin y)
    (h : In2 ‖q1 y‖ 30 30) (hK : In2 K 30 30) (h2 : ‖q2 y‖ ≤ K) :
    Drift32.Fin z ∧ ‖q1 z - unit (q1 y)‖ ≤ 6.9e-7 ∧ |‖q1 z‖ ^ 2 - 1| ≤ 1.4e-6 ∧ ‖q2 z - NLerp.mom (q1 y) (q2 y)‖ ≤ 7.4e-6 * (K / ‖q1 y‖) := by
  obtain ⟨ω, y, rfl, rfl⟩ := hz
  exact normM_fl hc isa hy h hK h2

/-- One step of the loop. -/
theorem stepM {hw : Hw F32} (hc : hw.Contract32) (isa : Isa) {x d : Motor F32} {a t C : ℝ} (hx : Drift32.Fin x) (hd : Drift32.Fin d)
    (sx : In2 ‖q1 x‖ 4 4) (sd : In2 ‖q1 d‖ 10 10) (hC : In2 C 14 14) (ha : 0 ≤ a) (ht : 0 ≤ t) (hat : a + t ≤ C)
    (hx2 : ‖q2 x‖ ≤ ‖q1 x‖ * a) (hd2 : ‖q2 d‖ ≤ ‖q1 d‖ * t) {y z : Motor F32}
    (hy : MulRun d x y) (hz : NormRun hw isa y z) :
    Drift32.Fin z ∧ |‖q1 z‖ ^ 2 - 1| ≤ 1.4e-6 ∧ ‖unit (q1 z) - unit (q1 d) * unit (q1 x)‖ ≤ 4.8e-6 ∧
      ‖NLerp.mom (q1 z) (q2 z) - (nrm (d.real.toDQ) * nrm (x.real.toDQ)).2‖ ≤ 2.4e-5 * C ∧
      ‖q2 z - NLerp.mom (q1 z) (q2 z)‖ ≤ 2e-5 * C := by
  have hC0 := hC.pos
  have hd0 : q1 d ≠ 0 := norm_pos_iff.1 sd.pos
  have hx0 : q1 x ≠ 0 := norm_pos_iff.1 sx.pos
  have sd0 := sd.pos
  have sx0 := sx.pos
  obtain ⟨f, e1, e2⟩ := step hy hd hx (sd.mono (by norm_num) (by norm_num)) (sx.mono (by norm_num) (by norm_num))
    (hC.mono (by norm_num) (by norm_num)) (hd2.trans (mul_le_mul_of_nonneg_left (by linarith) sd0.le))
    (hx2.trans (mul_le_mul_of_nonneg_left (by linarith) sx0.le))
  rw [← nrm_mul hd0 hx0, ← C81_motor_mul]
  have r1 : (d.real.mulMotor x.real).toDQ.1 = q1 d * q1 x := congrArg Prod.fst (C81_motor_mul d.real x.real)
  have r2 : (d.real.mulMotor x.real).toDQ.2 = q1 d * q2 x + q2 d * q1 x := congrArg Prod.snd (C81_motor_mul d.real x.real)
  show _ ∧ _ ∧ _ ∧ ‖_ - NLerp.mom (d.real.mulMotor x.real).toDQ.1 (d.real.mulMotor x.real).toDQ.2‖ ≤ _ ∧ _
  rw [r1, r2]
  have hP0 : q1 d * q1 x ≠ 0 := mul_ne_zero hd0 hx0
  have hP := sd.mul sx
  have nP : ‖q1 d * q1 x‖ = ‖q1 d‖ * ‖q1 x‖ := norm_mul _ _
  have hQ : ‖q1 d * q2 x + q2 d * q1 x‖ ≤ ‖q1 d‖ * ‖q1 x‖ * C := by
    refine (norm_add_le _ _).trans ?_
    rw [norm_mul, norm_mul]
    calc ‖q1 d‖ * ‖q2 x‖ + ‖q2 d‖ * ‖q1 x‖ ≤ ‖q1 d‖ * (‖q1 x‖ * a) + ‖q1 d‖ * t * ‖q1 x‖ := by gcongr
      _ = ‖q1 d‖ * ‖q1 x‖ * (a + t) := by ring
      _ ≤ _ := by gcongr
  rw [← nP] at e1 e2 hQ hP
  generalize q1 d * q2 x + q2 d * q1 x = Q at *
  have hp := hP.pos
  have hu : 28 * u ≤ 1.7e-6 := by unfold u; norm_num
  have hu2 : 70 * u ≤ 4.2e-6 := by unfold u; norm_num
  have y1 : ‖q1 y - q1 d * q1 x‖ ≤ 1.7e-6 * ‖q1 d * q1 x‖ := e1.trans (mul_le_mul_of_nonneg_right hu hp.le)
  have y2 : ‖q2 y - Q‖ ≤ 4.2e-6 * (‖q1 d * q1 x‖ * C) := e2.trans (mul_le_mul_of_nonneg_right hu2 (by positivity))
  have b1 := norm_sub_norm_le (q1 d * q1 x) (q1 y)
  have b2 := norm_sub_norm_le (q1 y) (q1 d * q1 x)
  have b3 := norm_sub_norm_le (q2 y) Q
  rw [norm_sub_rev] at b1
  generalize hp' : ‖q1 d * q1 x‖ = P at *
  have lo : 0.999998 * P ≤ ‖q1 y‖ := by norm_num at y1 ⊢; linarith
  have hi : ‖q1 y‖ ≤ 1.000002 * P := by norm_num at y1 ⊢; linarith
  have y3 : ‖q2 y‖ ≤ 1.001 * (P * C) := by norm_num at y2 ⊢; nlinarith
  have lo0 : 0 < ‖q1 y‖ := lt_of_lt_of_le (by positivity) lo
  have hy0 : q1 y ≠ 0 := norm_pos_iff.1 lo0
  have hPlo := hP.lo
  have hPhi := hP.hi
  have hPC := hP.mul hC
  have hKi : In2 (1.001 * (P * C)) 30 30 := by
    have k1 := hPC.lo
    have k2 := hPC.hi
    norm_num at k1 k2
    exact ⟨by norm_num; linarith, by norm_num; linarith⟩
  obtain ⟨g, z1, z3, z2⟩ := normM hc isa hz f (K := 1.001 * (P * C)) ⟨by norm_num at hPlo lo ⊢; linarith, by norm_num at hPhi hi ⊢; linarith⟩ hKi y3
  have q : 1.001 * (P * C) / ‖q1 y‖ ≤ 1.002 * C := by
    rw [div_le_iff₀ lo0]
    have := mul_le_mul_of_nonneg_left lo (show 0 ≤ 1.002 * C by positivity)
    have : 0 ≤ P * C := by positivity
    norm_num at *
    nlinarith
  have z4 : ‖q2 z - NLerp.mom (q1 y) (q2 y)‖ ≤ 7.42e-6 * C := by
    refine z2.trans ((mul_le_mul_of_nonneg_left q (by norm_num)).trans ?_)
    norm_num; linarith
  have m1 : ‖NLerp.mom (q1 y) (q2 y)‖ ≤ 1.002 * C :=
    (mom_le hy0 _).trans ((div_le_div_of_nonneg_right y3 lo0.le).trans q)
  have m2 : ‖NLerp.mom (q1 y) (q2 y) - NLerp.mom (q1 d * q1 x) Q‖ ≤ 1.29e-5 * C := by
    refine (NLerp.mom_lip hP0 (by rw [hp']; norm_num at y1 ⊢; linarith)).trans ?_
    rw [hp']
    have k1 : 1.02 * ‖q2 y - Q‖ / P ≤ 4.3e-6 * C := by
      rw [div_le_iff₀ hp]; norm_num at y2 ⊢; nlinarith
    have k2 : 5.02 * ‖Q‖ * ‖q1 y - q1 d * q1 x‖ / P ^ 2 ≤ 8.6e-6 * C := by
      rw [div_le_iff₀ (by positivity)]
      calc 5.02 * ‖Q‖ * ‖q1 y - q1 d * q1 x‖ ≤ 5.02 * (P * C) * (1.7e-6 * P) := by gcongr
        _ ≤ _ := by have : 0 ≤ P ^ 2 * C := by positivity
                    norm_num; nlinarith
    linarith
  have uy := norm_unit hy0
  have uy0 : unit (q1 y) ≠ 0 := norm_pos_iff.1 (by rw [uy]; exact one_pos)
  have idem : NLerp.mom (unit (q1 y)) (NLerp.mom (q1 y) (q2 y)) = NLerp.mom (q1 y) (q2 y) :=
    congrArg Prod.snd (nrm_nrm (p := y.real.toDQ) hy0)
  have m3 : ‖NLerp.mom (q1 z) (q2 z) - NLerp.mom (q1 y) (q2 y)‖ ≤ 1.11e-5 * C := by
    have := NLerp.mom_lip (z := q1 z) (y := q2 z) (Y := NLerp.mom (q1 y) (q2 y)) uy0 (by rw [uy]; exact z1.trans (by norm_num))
    rw [idem, uy, div_one, one_pow, div_one] at this
    refine this.trans ?_
    have k : 5.02 * ‖NLerp.mom (q1 y) (q2 y)‖ * ‖q1 z - unit (q1 y)‖ ≤ 5.02 * (1.002 * C) * 6.9e-7 := by gcongr
    norm_num at k z4 ⊢
    linarith
  refine ⟨g, z3, ?_, ?_, ?_⟩
  · obtain ⟨-, -, k⟩ := unit_step (κ := 1.7e-6) hd0 hx0 (by norm_num) (by norm_num) (y := q1 y) (by rw [← nP, ← hp']; exact (hp'.symm ▸ y1)) z1
    refine k.trans (by norm_num)
  · have := norm_add_le (NLerp.mom (q1 z) (q2 z) - NLerp.mom (q1 y) (q2 y)) (NLerp.mom (q1 y) (q2 y) - NLerp.mom (q1 d * q1 x) Q)
    rw [sub_add_sub_cancel] at this
    linarith
  · have := norm_sub_le (q2 z - NLerp.mom (q1 y) (q2 y)) (NLerp.mom (q1 z) (q2 z) - NLerp.mom (q1 y) (q2 y))
    rw [sub_sub_sub_cancel_right] at this
    linarith

section
variable {hw : Hw F32} (hc : hw.Contract32) (isa : Isa) {x : Motor F32} {d Q : ℕ → Motor F32} {s : ℝ} {t : ℕ → ℝ} {C R : ℝ} {N : ℕ}
variable {v w : Point F32}

include hc in
/-- The invariant of the loop. -/
theorem trackM_ok (hQ : LoopRun hw isa x d Q N) (h : Loop x d s t C N) {n : ℕ} (hn : n ≤ N) (hN : n ≤ 8192) :
    Drift32.Fin (Q n) ∧ In2 ‖q1 (Q n)‖ 4 4 ∧
      ‖q2 (Q n)‖ ≤ ‖q1 (Q n)‖ * (s + ∑ i ∈ Finset.range n, t i + 0.3 * C) ∧
      (n ≠ 0 → |‖q1 (Q n)‖ ^ 2 - 1| ≤ 1.4e-6 ∧
        ‖q2 (Q n) - NLerp.mom (q1 (Q n)) (q2 (Q n))‖ ≤ 2e-5 * C) ∧
      ‖unit (q1 (Q n)) - (exactM x d n).1‖ ≤ 4.8e-6 * n ∧
      ‖NLerp.mom (q1 (Q n)) (q2 (Q n)) - (exactM x d n).2‖ ≤
        n * (2.4e-5 * C) + 4.8e-6 * n * ∑ i ∈ Finset.range n, t i := by
  have hC0 := h.len.pos
  induction n with
  | zero =>
    rw [hQ.zero]
    refine ⟨h.finx, h.sizex, ?_, fun h => absurd rfl h, ?_, ?_⟩
    · rw [Finset.sum_range_zero, add_zero]
      exact h.transx.trans (mul_le_mul_of_nonneg_left (by linarith) (norm_nonneg _))
    · show ‖unit (q1 x) - unit (q1 x)‖ ≤ _
      simp
    · show ‖NLerp.mom (q1 x) (q2 x) - NLerp.mom (q1 x) (q2 x)‖ ≤ _
      simp
  | succ n ih =>
    obtain ⟨f, sz, h2, -, e1, e2⟩ := ih (Nat.le_of_succ_le hn) (Nat.le_of_succ_le hN)
    obtain ⟨-, xn⟩ := exactM_norm h hn
    obtain ⟨x1, -⟩ := exactM_norm h (Nat.le_of_succ_le hn)
    have h0 : q1 (d n) ≠ 0 := norm_pos_iff.1 (h.size n hn).pos
    have hsum : ∑ i ∈ Finset.range (n + 1), t i ≤ ∑ i ∈ Finset.range N, t i :=
      Finset.sum_le_sum_of_subset_of_nonneg (Finset.range_subset_range.2 hn) fun i _ _ => h.t_nonneg i
    have hs := h.sum
    have ht := h.t_nonneg n
    have hS0 : 0 ≤ ∑ i ∈ Finset.range n, t i := Finset.sum_nonneg fun i _ => h.t_nonneg i
    have hs0 := h.s_nonneg
    have htr := h.trans n hn
    have E1 : (exactM x d (n + 1)).1 = unit (q1 (d n)) * (exactM x d n).1 := rfl
    have E2 : (exactM x d (n + 1)).2 = unit (q1 (d n)) * (exactM x d n).2 + NLerp.mom (q1 (d n)) (q2 (d n)) * (exactM x d n).1 :=
      TrivSqZeroExt.snd_mul (nrm (d n).real.toDQ) (exactM x d n)
    have mk : ‖NLerp.mom (q1 (d n)) (q2 (d n))‖ ≤ t n := by
      refine (mom_le h0 _).trans ?_
      rw [div_le_iff₀ (h.size n hn).pos, mul_comm]
      exact htr
    rw [Finset.sum_range_succ] at hsum xn ⊢
    obtain ⟨b, hb, hz'⟩ := hQ.succ n hn
    generalize Q (n + 1) = z at *
    generalize Q n = y at *
    obtain ⟨F, z1, z2, z3, z4⟩ := stepM hc isa f (h.fin n hn) sz (h.size n hn) h.len
      (a := s + ∑ i ∈ Finset.range n, t i + 0.3 * C) (by positivity) ht (by norm_num; linarith) h2 htr hb hz'
    have S2 : (nrm (d n).real.toDQ * nrm y.real.toDQ).2 =
        unit (q1 (d n)) * NLerp.mom (q1 y) (q2 y) + NLerp.mom (q1 (d n)) (q2 (d n)) * unit (q1 y) :=
      TrivSqZeroExt.snd_mul (nrm (d n).real.toDQ) (nrm y.real.toDQ)
    rw [S2] at z3
    rw [E2] at xn
    rw [E1, E2]
    clear hb hz' E1 E2 S2
    generalize (exactM x d n).1 = a1 at *
    generalize (exactM x d n).2 = a2 at *
    generalize ∑ i ∈ Finset.range n, t i = S at *
    have hn' : (n : ℝ) + 1 ≤ 8192 := by exact_mod_cast hN
    have hn0 : (0 : ℝ) ≤ n := Nat.cast_nonneg n
    have r1 : ‖unit (q1 z) - unit (q1 (d n)) * a1‖ ≤ 4.8e-6 * (n + 1 : ℕ) := by
      have k := norm_add_le (unit (q1 z) - unit (q1 (d n)) * unit (q1 y)) (unit (q1 (d n)) * (unit (q1 y) - a1))
      rw [mul_sub, sub_add_sub_cancel, ← mul_sub, norm_mul, norm_unit h0, one_mul] at k
      push_cast
      linarith
    have r2 : ‖NLerp.mom (q1 z) (q2 z) - (unit (q1 (d n)) * a2 + NLerp.mom (q1 (d n)) (q2 (d n)) * a1)‖ ≤
        (n + 1 : ℕ) * (2.4e-5 * C) + 4.8e-6 * (n + 1 : ℕ) * (S + t n) := by
      have k : NLerp.mom (q1 z) (q2 z) - (unit (q1 (d n)) * a2 + NLerp.mom (q1 (d n)) (q2 (d n)) * a1) =
          (NLerp.mom (q1 z) (q2 z) - (unit (q1 (d n)) * NLerp.mom (q1 y) (q2 y) + NLerp.mom (q1 (d n)) (q2 (d n)) * unit (q1 y))) +
          (unit (q1 (d n)) * (NLerp.mom (q1 y) (q2 y) - a2) + NLerp.mom (q1 (d n)) (q2 (d n)) * (unit (q1 y) - a1)) := by
        rw [mul_sub, mul_sub]; abel
      rw [k]
      refine (norm_add_le _ _).trans ((add_le_add z3 (norm_add_le _ _)).trans ?_)
      rw [norm_mul, norm_mul, norm_unit h0, one_mul]
      have k2 : ‖NLerp.mom (q1 (d n)) (q2 (d n))‖ * ‖unit (q1 y) - a1‖ ≤ t n * (4.8e-6 * n) :=
        mul_le_mul mk e1 (norm_nonneg _) ht
      push_cast
      nlinarith
    have nz := abs_le.1 (near_one (norm_nonneg _) z1)
    norm_num at nz
    refine ⟨F, ⟨by norm_num; linarith, by norm_num; linarith⟩, ?_, fun _ => ⟨z1, z4⟩, r1, r2⟩
    have k1 := norm_sub_norm_le (q2 z) (NLerp.mom (q1 z) (q2 z))
    have k2 := norm_sub_norm_le (NLerp.mom (q1 z) (q2 z)) (unit (q1 (d n)) * a2 + NLerp.mom (q1 (d n)) (q2 (d n)) * a1)
    have hT : S + t n ≤ C / 2 := by linarith
    have m1 : (n + 1 : ℕ) * (2.4e-5 * C) + 4.8e-6 * (n + 1 : ℕ) * (S + t n) ≤ 0.22 * C := by
      push_cast
      have a1 : ((n : ℝ) + 1) * (2.4e-5 * C) ≤ 8192 * (2.4e-5 * C) := by gcongr
      have a2 : 4.8e-6 * ((n : ℝ) + 1) * (S + t n) ≤ 4.8e-6 * 8192 * (C / 2) := by gcongr
      norm_num at a1 a2 ⊢
      linarith
    have m3 := r2.trans m1
    have m2 : ‖q2 z‖ ≤ s + (S + t n) + 0.23 * C := by norm_num at m3 z4 ⊢; linarith
    refine m2.trans ?_
    have : (0.999 : ℝ) * (s + (S + t n) + 0.3 * C) ≤ ‖q1 z‖ * (s + (S + t n) + 0.3 * C) := by
      refine mul_le_mul_of_nonneg_right (by norm_num; linarith) (by positivity)
    refine le_trans ?_ this
    norm_num
    linarith

include hc in
/-- C116: a motor multiplied by a factor and normalised, at every step, stays normalised. -/
theorem C116_motor_norm (hQ : LoopRun hw isa x d Q N) (h : Loop x d s t C N) {n : ℕ} (hn : n + 1 ≤ N) (hN : n + 1 ≤ 8192) :
    Drift32.Fin (Q (n + 1)) ∧ |(Q (n + 1)).p1.sq4 - 1| ≤ 1.4e-6 ∧
      ‖q2 (Q (n + 1)) - NLerp.mom (q1 (Q (n + 1))) (q2 (Q (n + 1)))‖ ≤ 2e-5 * C := by
  obtain ⟨h1, -, -, h2, -⟩ := trackM_ok hc isa hQ h hn hN
  obtain ⟨h3, h4⟩ := h2 (Nat.succ_ne_zero n)
  refine ⟨h1, ?_, h4⟩
  rw [← qr_sq ⟨(Q (n + 1)).p1⟩]
  exact h3

include hc in
/-- C116: the motion is within `4.8e-6 n` of the exact one in the rotation, and in the moment within
`2.7e-5 n` of the length `C`. -/
theorem C116_motor_motion (hQ : LoopRun hw isa x d Q N) (h : Loop x d s t C N) {n : ℕ} (hn : n ≤ N) (hN : n ≤ 8192) :
    ‖(nrm (Q n).real.toDQ).1 - (exactM x d n).1‖ ≤ 4.8e-6 * n ∧
      ‖(nrm (Q n).real.toDQ).2 - (exactM x d n).2‖ ≤ 2.7e-5 * n * C := by
  obtain ⟨-, -, -, -, h1, h2⟩ := trackM_ok hc isa hQ h hn hN
  refine ⟨h1, h2.trans ?_⟩
  have hsum : ∑ i ∈ Finset.range n, t i ≤ ∑ i ∈ Finset.range N, t i :=
    Finset.sum_le_sum_of_subset_of_nonneg (Finset.range_subset_range.2 hn) fun i _ _ => h.t_nonneg i
  have hs := h.sum
  have hs0 := h.s_nonneg
  have hT : ∑ i ∈ Finset.range n, t i ≤ C / 2 := by linarith
  have k := mul_le_mul_of_nonneg_left hT (show (0 : ℝ) ≤ 4.8e-6 * n by positivity)
  have k2 : 0 ≤ (n : ℝ) * C := mul_nonneg (Nat.cast_nonneg n) h.len.pos.le
  norm_num at k ⊢
  nlinarith

include hc in
/-- C116: a point placed by the motor after `n` steps is within `(9.6e-6 R + 5.9e-5 C) n + 4.2e-5 R + 8.4e-5 C`
of its exact place. -/
theorem C116_place (hQ : LoopRun hw isa x d Q N) (h : Loop x d s t C N) (hv : Renorm32.Near v R) {n : ℕ} (hn : n ≤ N) (hN : n ≤ 8192)
    {p : Point F32} (hp : PointRun (Q n) v p) :
    ‖p.real.position - place (exactM x d n) v.real.position‖ ≤
      (9.6e-6 * R + 5.9e-5 * C) * n + (4.2e-5 * R + 8.4e-5 * C) := by
  obtain ⟨f, sz, h2, -, -, -⟩ := trackM_ok hc isa hQ h hn hN
  obtain ⟨e1, e2⟩ := C116_motor_motion hc isa hQ h hn hN
  obtain ⟨x1, x2⟩ := exactM_norm h hn
  have hC0 := h.len.pos
  have hR := hv.nonneg
  have hw0 := hv.weight.pos
  have hsum : ∑ i ∈ Finset.range n, t i ≤ ∑ i ∈ Finset.range N, t i :=
    Finset.sum_le_sum_of_subset_of_nonneg (Finset.range_subset_range.2 hn) fun i _ _ => h.t_nonneg i
  have hs := h.sum
  have hs0 := h.s_nonneg
  have hS0 : 0 ≤ ∑ i ∈ Finset.range n, t i := Finset.sum_nonneg fun i _ => h.t_nonneg i
  have x3 : ‖(exactM x d n).2‖ ≤ C / 2 := x2.trans (by linarith)
  generalize Q n = y at *
  have sz0 := sz.pos
  have hy : y.real.toDQ.1 ≠ 0 := norm_pos_iff.1 sz0
  have ho : Orbit32.Orbit (fun _ => y) (fun _ => 0.8 * C) v (2 * R + 4 * C) 1 := by
    refine ⟨fun _ _ => f, hv.fin, fun _ _ => sz.mono (by norm_num) (by norm_num), fun i hi => ?_, ?_, fun _ => by positivity,
      fun _ _ => h2.trans (mul_le_mul_of_nonneg_left (by norm_num; linarith) sz0.le), ?_⟩
    · have h3 := hv.weight.lo
      have h4 := hv.weight.hi
      interval_cases i
      · rw [Orbit32.scale_zero, one_mul]
        exact hv.weight.mono (by norm_num) (by norm_num)
      · rw [Orbit32.scale_succ, Orbit32.scale_zero, one_mul, sq]
        exact ((sz.mul sz).mul hv.weight).mono (by norm_num) (by norm_num)
    · have h3 := h.len.lo
      have h4 := h.len.hi
      have h5 := hv.R_le
      norm_num at h3 h4 h5
      exact ⟨by norm_num; linarith, by norm_num; linarith⟩
    · rw [Finset.sum_range_one]
      have := hv.dist
      have : 0 ≤ Orbit32.weight v * C := by positivity
      norm_num
      nlinarith
  have hQ1 : Moved (fun _ => y) v (fun n => if n = 0 then v else p) 1 := ⟨rfl, fun n hn => by
    interval_cases n
    exact hp⟩
  have p1 := C114_position hQ1 ho (n := 1) le_rfl (by norm_num)
  have p2 : (Orbit32.exact (fun _ => y) v 1).position = place (nrm y.real.toDQ) v.real.position := position_place hy hv.ne
  have p3 := place_le (E := nrm y.real.toDQ) (F := exactM x d n) (norm_unit hy) x1 v.real.position
  rw [p2] at p1
  have p4 := norm_sub_le_norm_sub_add_norm_sub p.real.position (place (nrm y.real.toDQ) v.real.position)
    (place (exactM x d n) v.real.position)
  have p5 : ‖p.real.position - place (nrm y.real.toDQ) v.real.position‖ ≤ 4.2e-5 * R + 8.4e-5 * C := by
    refine (show _ ≤ _ from p1).trans (le_of_eq ?_)
    push_cast; ring
  have n0 : (0 : ℝ) ≤ n := Nat.cast_nonneg n
  have k : 2 * ‖(nrm y.real.toDQ).1 - (exactM x d n).1‖ * (‖v.real.position‖ + ‖(exactM x d n).2‖) ≤
      2 * (4.8e-6 * n) * (R + C / 2) :=
    mul_le_mul (by linarith) (add_le_add hv.position x3) (by positivity) (by positivity)
  have k2 : 0 ≤ (n : ℝ) * C := by positivity
  norm_num at *
  nlinarith

include hc in
/-- C116: two points of the body keep their distance. -/
theorem C116_distance (hQ : LoopRun hw isa x d Q N) (h : Loop x d s t C N) (hv : Renorm32.Near v R) (hw' : Renorm32.Near w R)
    {n : ℕ} (hn : n ≤ N) (hN : n ≤ 8192)
    {p q : Point F32} (hp : PointRun (Q n) v p) (hq : PointRun (Q n) w q) :
    abs (‖p.real.position - q.real.position‖ -
      ‖v.real.position - w.real.position‖) ≤ 2 * ((9.6e-6 * R + 5.9e-5 * C) * n + (4.2e-5 * R + 8.4e-5 * C)) := by
  have k1 := C116_place hc isa hQ h hv hn hN hp
  have k2 := C116_place hc isa hQ h hw' hn hN hq
  obtain ⟨x1, -⟩ := exactM_norm h hn
  rw [← place_distance x1 v.real.position w.real.position]
  refine (abs_norm_sub_norm_le _ _).trans ?_
  rw [sub_sub_sub_comm]
  refine (norm_sub_le _ _).trans ?_
  linarith

end

/-! ### one compiler -/

section
variable {hw : Hw F32} (hc : hw.Contract32) (isa : Isa)

theorem rotorRun_fl (x y : Rotor (Fl ω)) : RotorRun x.f32 y.f32 (x.mulRotor y).f32 := by
  show CanV _ _ (x.mulRotor y).p1.f32
  rw [rotor_mul_rotor_p1_ex]
  exact canV_fl _ _ _ _ _ (by decide +kernel)

theorem trackRun_fl (hw : Hw F32) (isa : Isa) (x : Rotor (Fl ω)) (d : ℕ → Rotor (Fl ω)) (N : ℕ) :
    TrackRun hw isa x.f32 (fun i => (d i).f32) (fun n => (track (hw.fl ω) isa x d n).f32) N :=
  ⟨rfl, fun n _ => ⟨_, rotorRun_fl (d n) _, ω, _, rfl, rfl⟩⟩

theorem loopRun_fl (hw : Hw F32) (isa : Isa) (x : Motor (Fl ω)) (d : ℕ → Motor (Fl ω)) (N : ℕ) :
    LoopRun hw isa x.f32 (fun i => (d i).f32) (fun n => (trackM (hw.fl ω) isa x d n).f32) N :=
  ⟨rfl, fun n _ => ⟨_, mulRun_fl (d n) _, ω, _, rfl, rfl⟩⟩

include hc in
/-- C116: the orientation of the loop as any one compiler computes it. -/
theorem C116_compiled_orientation {x : Rotor (Fl ω)} {d : ℕ → Rotor (Fl ω)} (hx : FinR x.f32) (hx2 : In2 ‖qr x.f32‖ 8 8)
    (hd : ∀ i, FinR (d i).f32) (hd2 : ∀ i, In2 ‖qr (d i).f32‖ 20 20) (n : ℕ) :
    FinR (track (hw.fl ω) isa x d n).f32 ∧
      ‖unit (qr (track (hw.fl ω) isa x d n).f32) - exact x.f32 (fun i => (d i).f32) n‖ ≤ 4.5e-6 * n ∧
      (n ≠ 0 → |‖qr (track (hw.fl ω) isa x d n).f32‖ ^ 2 - 1| ≤ 1.4e-6) := by
  obtain ⟨h1, -, h2, h3⟩ := track_ok hc isa (trackRun_fl hw isa x d n) hx hx2 hd hd2 le_rfl
  exact ⟨h1, h3, h2⟩

include hc in
/-- C116: the motion of the loop as any one compiler computes it. -/
theorem C116_compiled_motion {x : Motor (Fl ω)} {d : ℕ → Motor (Fl ω)} {s : ℝ} {t : ℕ → ℝ} {C : ℝ} {N : ℕ}
    (h : Loop x.f32 (fun i => (d i).f32) s t C N) {n : ℕ} (hn : n ≤ N) (hN : n ≤ 8192) :
    ‖(nrm (trackM (hw.fl ω) isa x d n).f32.real.toDQ).1 - (exactM x.f32 (fun i => (d i).f32) n).1‖ ≤ 4.8e-6 * n ∧
      ‖(nrm (trackM (hw.fl ω) isa x d n).f32.real.toDQ).2 - (exactM x.f32 (fun i => (d i).f32) n).2‖ ≤ 2.7e-5 * n * C :=
  C116_motor_motion hc isa (loopRun_fl hw isa x d N) h hn hN

include hc in
/-- C116: a point placed by the motor of the loop as any one compiler computes it. -/
theorem C116_compiled_place {x : Motor (Fl ω)} {d : ℕ → Motor (Fl ω)} {v : Point (Fl ω)} {s : ℝ} {t : ℕ → ℝ} {C R : ℝ} {N : ℕ}
    (h : Loop x.f32 (fun i => (d i).f32) s t C N) (hv : Renorm32.Near v.f32 R) {n : ℕ} (hn : n ≤ N) (hN : n ≤ 8192) :
    ‖((trackM (hw.fl ω) isa x d n).onPoint v).f32.real.position - place (exactM x.f32 (fun i => (d i).f32) n) v.f32.real.position‖ ≤
      (9.6e-6 * R + 5.9e-5 * C) * n + (4.2e-5 * R + 8.4e-5 * C) :=
  C116_place hc isa (loopRun_fl hw isa x d N) h hv hn hN (pointRun_fl _ _)

/-- Fusing nothing gives the loops of C108. -/
theorem C116_plain (hw : Hw F32) (isa : Isa) (x : Rotor (Fl plainly)) (d : ℕ → Rotor (Fl plainly)) (y : Motor (Fl plainly)) (e : ℕ → Motor (Fl plainly))
    (n : ℕ) : (track (hw.fl plainly) isa x d n).f32 = track hw isa x.f32 (fun i => (d i).f32) n ∧
      (trackM (hw.fl plainly) isa y e n).f32 = trackM hw isa y.f32 (fun i => (e i).f32) n := by
  induction n with
  | zero => exact ⟨rfl, rfl⟩
  | succ n ih =>
    have k (q : Rotor (Fl plainly)) : (q.normalize (hw.fl plainly) isa).f32 = q.f32.normalize hw isa := by cases isa <;> rfl
    rw [track, track, trackM, trackM, k, (C113_plain hw isa _ ⟨e n |>.p1, e n |>.p2⟩).1, (C114_plain _ _ ⟨(e n).p1⟩).1, ih.2, ← ih.1]
    exact ⟨rfl, rfl⟩

include hc in
/-- A million steps with factors of norm five, whatever the compiler fuses. -/
example (ω : Compiler) : |‖qr (track (hw.fl ω) isa ⟨V4.fl ω 0 turn34.p1⟩ (fun _ => ⟨V4.fl ω 4 turn34.p1⟩) 1000000).f32‖ ^ 2 - 1| ≤ 1.4e-6 :=
  (C116_compiled_orientation hc isa (x := ⟨V4.fl ω 0 turn34.p1⟩) (d := fun _ => ⟨V4.fl ω 4 turn34.p1⟩) turn34_fin
    (show In2 ‖qr turn34‖ 8 8 by rw [turn34_norm]; exact ⟨by norm_num, by norm_num⟩) (fun _ => turn34_fin)
    (fun _ => show In2 ‖qr turn34‖ 20 20 by rw [turn34_norm]; exact ⟨by norm_num, by norm_num⟩) 1000000).2.2 (by norm_num)

include hc in
/-- Ten steps of the motor of C91 and the point at one, whatever the compiler fuses. -/
example (ω : Compiler) : ‖((trackM (hw.fl ω) isa (sampleFl ω) (fun _ => sampleFl ω) 10).onPoint (startFl ω)).f32.real.position -
    place (exactM Drift32.sample (fun _ => Drift32.sample) 10) Orbit32.start.real.position‖ ≤ 0.016 := by
  refine (C116_compiled_place hc isa (x := sampleFl ω) (d := fun _ => sampleFl ω) (v := startFl ω) loop_ten (R := 2)
    ⟨show ∀ i, (Orbit32.start.p3.get i).isFinite = true by decide +kernel, ?_, ?_, by norm_num⟩ (n := 10) le_rfl (by norm_num)).trans ?_
  · show In2 (Orbit32.weight Orbit32.start) 10 10
    rw [Orbit32.start_weight]; exact ⟨by norm_num, by norm_num⟩
  · show ‖Orbit32.start.real.pure‖ ≤ Orbit32.weight Orbit32.start * 2
    rw [Orbit32.start_weight, one_mul]; exact Orbit32.start_norm
  · norm_num

end

end ContractChain32
end Klein
