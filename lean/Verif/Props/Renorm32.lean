import Verif.Props.NLerp32
import Verif.Props.Drift32

/-!
# C108: orientations normalised at every step, in binary32

The loop `x = (d * x).normalized()`, with a new factor `d` at every step.  The rotors stay normalised for
any number of steps, whatever the sizes of the factors, and the orientation drifts from the exact one by
at most `4.8e-6` per step.
-/

set_option linter.unusedSimpArgs false

namespace Klein

open F32 Products32
open scoped Quaternion

namespace Renorm32

/-! ### unit quaternions -/

/-- The unit quaternion in the direction of `q`. -/
noncomputable def unit (q : ℍ[ℝ]) : ℍ[ℝ] := ‖q‖⁻¹ • q

theorem unit_mul (p q : ℍ[ℝ]) : unit (p * q) = unit p * unit q := by
  simp only [unit, norm_mul, mul_inv, smul_mul_smul_comm]

theorem norm_unit {q : ℍ[ℝ]} (h : q ≠ 0) : ‖unit q‖ = 1 := NLerp.unit_norm h

theorem unit_unit {q : ℍ[ℝ]} (h : q ≠ 0) : unit (unit q) = unit q := by
  rw [unit, norm_unit h, inv_one, one_smul]

/-- A product with relative error `κ`, normalised with error `η`. -/
theorem unit_step {y d x z : ℍ[ℝ]} {κ η : ℝ} (hd : d ≠ 0) (hx : x ≠ 0) (hκ : κ ≤ 1 / 2) (hη : η ≤ 1 / 2)
    (h1 : ‖y - d * x‖ ≤ κ * (‖d‖ * ‖x‖)) (h2 : ‖z - unit y‖ ≤ η) :
    y ≠ 0 ∧ z ≠ 0 ∧ ‖unit z - unit d * unit x‖ ≤ 2 * κ + 2 * η := by
  have hD := norm_pos_iff.2 hd
  have hX := norm_pos_iff.2 hx
  have hP : d * x ≠ 0 := mul_ne_zero hd hx
  have hy : y ≠ 0 := by
    rintro rfl
    rw [zero_sub, norm_neg, norm_mul] at h1
    nlinarith [mul_pos hD hX]
  have hu := norm_unit hy
  have hu0 : unit y ≠ 0 := norm_pos_iff.1 (by rw [hu]; exact one_pos)
  have hz : z ≠ 0 := by
    rintro rfl
    rw [zero_sub, norm_neg, hu] at h2
    linarith
  refine ⟨hy, hz, ?_⟩
  have k1 : ‖unit y - unit (d * x)‖ ≤ 2 * κ := by
    refine (NLerp.unit_lip hy hP).trans ?_
    rw [norm_mul, div_le_iff₀ (mul_pos hD hX)]; linarith
  have k2 : ‖unit z - unit (unit y)‖ ≤ 2 * η := by
    refine (NLerp.unit_lip hz hu0).trans ?_
    rw [hu, div_one]; linarith
  rw [unit_unit hy] at k2
  rw [← unit_mul]
  have := norm_add_le (unit z - unit y) (unit y - unit (d * x))
  rw [sub_add_sub_cancel] at this
  linarith

/-- An error relative to each component. -/
theorem norm_le_rel {q w : ℍ[ℝ]} {k e : ℝ} (hk : 0 ≤ k) (he : 0 ≤ e) (h0 : |q.re| ≤ k * |w.re| + e)
    (h1 : |q.imI| ≤ k * |w.imI| + e) (h2 : |q.imJ| ≤ k * |w.imJ| + e) (h3 : |q.imK| ≤ k * |w.imK| + e) :
    ‖q‖ ≤ k * ‖w‖ + 2 * e := by
  have hq : ‖q‖ ^ 2 = q.re ^ 2 + q.imI ^ 2 + q.imJ ^ 2 + q.imK ^ 2 := by
    rw [sq, ← Quaternion.normSq_eq_norm_mul_self, Quaternion.normSq_def']
  have hw : ‖w‖ ^ 2 = |w.re| ^ 2 + |w.imI| ^ 2 + |w.imJ| ^ 2 + |w.imK| ^ 2 := by
    rw [sq, ← Quaternion.normSq_eq_norm_mul_self, Quaternion.normSq_def']; simp only [sq_abs]
  have hn := norm_nonneg w
  refine abs_le_of_sq_le_sq' ?_ (by positivity) |>.2
  have sqs : ∀ {a b : ℝ}, |a| ≤ b → a ^ 2 ≤ b ^ 2 := fun h => sq_le_sq' (abs_le.1 h).1 (abs_le.1 h).2
  have k0 := sqs h0
  have k1 := sqs h1
  have k2 := sqs h2
  have k3 := sqs h3
  generalize |w.re| = a at *
  generalize |w.imI| = b at *
  generalize |w.imJ| = c at *
  generalize |w.imK| = d at *
  have hs : a + b + c + d ≤ 2 * ‖w‖ := by
    refine abs_le_of_sq_le_sq' ?_ (by positivity) |>.2
    rw [mul_pow, hw]
    nlinarith [sq_nonneg (a - b), sq_nonneg (a - c), sq_nonneg (a - d), sq_nonneg (b - c), sq_nonneg (b - d), sq_nonneg (c - d)]
  have hke := mul_le_mul_of_nonneg_left hs (mul_nonneg hk he)
  rw [hq]
  have : (k * ‖w‖ + 2 * e) ^ 2 = k ^ 2 * ‖w‖ ^ 2 + 4 * (k * e) * ‖w‖ + 4 * e ^ 2 := by ring
  rw [this, hw]
  linarith

/-! ### one step -/

/-- The quaternion of a rotor in binary32. -/
noncomputable def qr (x : Rotor F32) : ℍ[ℝ] := x.real.toQuat

/-- All lanes are finite. -/
def FinR (x : Rotor F32) : Prop := ∀ i, (x.p1.get i).isFinite = true

theorem qr_sq (x : Rotor F32) : ‖qr x‖ ^ 2 = x.p1.sq4 := by
  rw [sq, ← Quaternion.normSq_eq_norm_mul_self, Quaternion.normSq_def']
  show r x.p1.l0 ^ 2 + (-r x.p1.l1) ^ 2 + (-r x.p1.l2) ^ 2 + (-r x.p1.l3) ^ 2 = _
  simp only [V4.sq4]; ring

theorem withinR {x : Rotor F32} (hf : FinR x) : x.Within ‖qr x‖ := by
  obtain ⟨a0, a1, a2, a3⟩ := Drift32.le_norm (qr x)
  have n1 : ∀ y : ℝ, |-y| ≤ ‖qr x‖ → |y| ≤ ‖qr x‖ := fun y hy => by rwa [abs_neg] at hy
  exact ⟨hf, a0, n1 _ a1, n1 _ a2, n1 _ a3⟩

/-- One product of rotors, rounded. -/
theorem stepR {x y : Rotor F32} (hx : FinR x) (hy : FinR y) (hA : In2 ‖qr x‖ 24 24) (hB : In2 ‖qr y‖ 24 24) :
    FinR (x.mulRotor y) ∧ ‖qr (x.mulRotor y) - qr x * qr y‖ ≤ 26 * u * (‖qr x‖ * ‖qr y‖) := by
  obtain ⟨⟨f0, e0⟩, ⟨f1, e1⟩, ⟨f2, e2⟩, f3, e3⟩ := C90_rotor_mul_rotor hA hB (withinR hx) (withinR hy)
  have hA0 := hA.pos
  have hB0 := hB.pos
  have r1 : (x.real.mulRotor y.real).toQuat = qr x * qr y := C81_rotor_mul x.real y.real
  refine ⟨fun i => match i with | 0 => f0 | 1 => f1 | 2 => f2 | 3 => f3, ?_⟩
  rw [← r1]
  have neg : ∀ a b e : ℝ, |a - b| ≤ e → |-a - -b| ≤ e := fun a b e h => by
    rw [show -a - -b = -(a - b) by ring, abs_neg]; exact h
  refine (Drift32.norm_le (e := 13 * (‖qr x‖ * ‖qr y‖) / 2 ^ 24) (by positivity) e0 (neg _ _ _ e1) (neg _ _ _ e2)
    (neg _ _ _ e3)).trans (le_of_eq ?_)
  unfold u; ring

/-- One normalisation, rounded. -/
theorem normR {hw : Hw F32} (hc : hw.Contract32) (isa : Isa) {x : Rotor F32} (hx : FinR x) (h : In2 ‖qr x‖ 30 30) :
    FinR (x.normalize hw isa) ∧ ‖qr (x.normalize hw isa) - unit (qr x)‖ ≤ 6.9e-7 ∧
      |‖qr (x.normalize hw isa)‖ ^ 2 - 1| ≤ 1.4e-6 := by
  have h0 := h.pos
  have hN : 1 / 2 ^ 60 ≤ x.p1.sq4 := by
    rw [← qr_sq]
    refine le_trans (le_of_eq ?_) (pow_le_pow_left₀ (by positivity) h.lo 2)
    norm_num
  have hs : √x.p1.sq4 = ‖qr x‖ := by rw [← qr_sq, Real.sqrt_sq h0.le]
  have hL : x.p1.Le2 30 := fun i _ => by
    refine ⟨hx i, ?_⟩
    obtain ⟨-, a0, a1, a2, a3⟩ := withinR hx
    have : |r (x.p1.get i)| ≤ ‖qr x‖ := match i with | 0 => a0 | 1 => a1 | 2 => a2 | 3 => a3
    have : |r (x.p1.get i)| ≤ 2 ^ 30 := this.trans h.hi
    rw [r] at this
    exact_mod_cast this
  have key := C70_rotor_normalize hc isa x hL hN
  refine ⟨fun i => (key i).1, ?_, ?_⟩
  · have e : ∀ i, |r ((x.normalize hw isa).p1.get i) - ‖qr x‖⁻¹ * r (x.p1.get i)| ≤
        6.8e-7 * |‖qr x‖⁻¹ * r (x.p1.get i)| + 1 / 2 ^ 150 := fun i => by
      have := (key i).2
      rw [hs] at this
      rwa [abs_mul, abs_of_pos (inv_pos.2 h0), inv_mul_eq_div, inv_mul_eq_div]
    have en : ∀ i, |-r ((x.normalize hw isa).p1.get i) - ‖qr x‖⁻¹ * -r (x.p1.get i)| ≤
        6.8e-7 * |‖qr x‖⁻¹ * -r (x.p1.get i)| + 1 / 2 ^ 150 := fun i => by
      have := e i
      rw [mul_neg, abs_neg (‖qr x‖⁻¹ * _), ← neg_sub', abs_neg]
      exact this
    refine (norm_le_rel (w := unit (qr x)) (by norm_num) (by norm_num) (e 0) (en 1) (en 2) (en 3)).trans ?_
    rw [norm_unit (norm_pos_iff.1 h0)]
    norm_num
  · rw [qr_sq]; exact C70_rotor_normalize_unit hc isa x hL hN

/-! ### any number of steps -/

/-- The orientation after `n` steps. -/
def track {F : Type} [Add F] [Sub F] [Mul F] [Neg F] [Div F] [Zero F] [One F] [NatCast F] (hw : Hw F) (isa : Isa)
    (x : Rotor F) (d : ℕ → Rotor F) : ℕ → Rotor F
  | 0 => x
  | n + 1 => ((d n).mulRotor (track hw isa x d n)).normalize hw isa

/-- The exact orientation, the product of the directions of the factors. -/
noncomputable def exact (x : Rotor F32) (d : ℕ → Rotor F32) : ℕ → ℍ[ℝ]
  | 0 => unit (qr x)
  | n + 1 => unit (qr (d n)) * exact x d n

/-- The exact orientation is the direction of the exact product. -/
theorem exact_eq (x : Rotor F32) (d : ℕ → Rotor F32) (n : ℕ) :
    exact x d n = unit ((List.range n).foldl (fun q i => qr (d i) * q) (qr x)) := by
  induction n with
  | zero => rfl
  | succ n ih => rw [List.range_succ, List.foldl_append, List.foldl_cons, List.foldl_nil, unit_mul, ← ih]; rfl

section
variable {hw : Hw F32} (hc : hw.Contract32) (isa : Isa) {x : Rotor F32} {d : ℕ → Rotor F32}

theorem near_one' {a : ℝ} (ha : 0 ≤ a) (h : |a ^ 2 - 1| ≤ 1.5e-6) : |a - 1| ≤ 1.5e-6 := by
  have e : a ^ 2 - 1 = (a - 1) * (a + 1) := by ring
  rw [e, abs_mul, abs_of_pos (by linarith : 0 < a + 1)] at h
  nlinarith [abs_nonneg (a - 1)]

theorem near_one {a : ℝ} (ha : 0 ≤ a) (h : |a ^ 2 - 1| ≤ 1.4e-6) : |a - 1| ≤ 1.4e-6 := by
  have e : a ^ 2 - 1 = (a - 1) * (a + 1) := by ring
  rw [e, abs_mul, abs_of_pos (by linarith : 0 < a + 1)] at h
  nlinarith [abs_nonneg (a - 1)]

include hc in
/-- The invariant of the loop. -/
theorem track_ok (hx : FinR x) (hx2 : In2 ‖qr x‖ 8 8) (hd : ∀ i, FinR (d i)) (hd2 : ∀ i, In2 ‖qr (d i)‖ 20 20) (n : ℕ) :
    FinR (track hw isa x d n) ∧ In2 ‖qr (track hw isa x d n)‖ 8 8 ∧
      (n ≠ 0 → |‖qr (track hw isa x d n)‖ ^ 2 - 1| ≤ 1.4e-6) ∧
      ‖unit (qr (track hw isa x d n)) - exact x d n‖ ≤ 4.5e-6 * n := by
  induction n with
  | zero => exact ⟨hx, hx2, fun h => absurd rfl h, by simp [track, exact]⟩
  | succ n ih =>
    obtain ⟨f, s, -, e⟩ := ih
    rw [show track hw isa x d (n + 1) = ((d n).mulRotor (track hw isa x d n)).normalize hw isa from rfl,
      show exact x d (n + 1) = unit (qr (d n)) * exact x d n from rfl]
    generalize track hw isa x d n = t at *
    obtain ⟨f1, e1⟩ := stepR (hd n) f ((hd2 n).mono (by norm_num) (by norm_num)) (s.mono (by norm_num) (by norm_num))
    have hm := (hd2 n).mul s
    have hm0 := hm.pos
    have hsz : In2 ‖qr ((d n).mulRotor t)‖ 30 30 := by
      have hu : 26 * u ≤ 1 / 2 := by unfold u; norm_num
      have k := mul_le_mul_of_nonneg_right hu hm0.le
      have a1 := norm_sub_norm_le (qr (d n) * qr t) (qr ((d n).mulRotor t))
      have a2 := norm_sub_norm_le (qr ((d n).mulRotor t)) (qr (d n) * qr t)
      rw [norm_sub_rev, norm_mul] at a1
      rw [norm_mul] at a2
      have h1 := hm.lo
      have h2 := hm.hi
      norm_num at h1 h2
      exact ⟨by norm_num; linarith, by norm_num; linarith⟩
    obtain ⟨f2, e2, e3⟩ := normR hc isa f1 hsz
    have hd0 : qr (d n) ≠ 0 := norm_pos_iff.1 (hd2 n).pos
    have ht0 : qr t ≠ 0 := norm_pos_iff.1 s.pos
    obtain ⟨-, -, e4⟩ := unit_step hd0 ht0 (by unfold u; norm_num) (by norm_num) e1 e2
    generalize ((d n).mulRotor t).normalize hw isa = z at *
    refine ⟨f2, ?_, fun _ => e3, ?_⟩
    · have := abs_le.1 (near_one (norm_nonneg _) e3)
      norm_num at this
      exact ⟨by norm_num; linarith, by norm_num; linarith⟩
    · have k := norm_add_le (unit (qr z) - unit (qr (d n)) * unit (qr t))
        (unit (qr (d n)) * (unit (qr t) - exact x d n))
      rw [mul_sub, sub_add_sub_cancel, ← mul_sub, norm_mul, norm_unit hd0, one_mul] at k
      refine k.trans ((add_le_add e4 e).trans ?_)
      unfold u
      push_cast
      norm_num
      linarith

include hc in
/-- C108: a rotor multiplied by a factor of any size and normalised, at every step, has a norm within
`1.4e-6` of one after any number of steps. -/
theorem C108_norm (hx : FinR x) (hx2 : In2 ‖qr x‖ 8 8) (hd : ∀ i, FinR (d i)) (hd2 : ∀ i, In2 ‖qr (d i)‖ 20 20) (n : ℕ) :
    FinR (track hw isa x d (n + 1)) ∧ |(track hw isa x d (n + 1)).p1.sq4 - 1| ≤ 1.4e-6 := by
  obtain ⟨h1, -, h2, -⟩ := track_ok hc isa hx hx2 hd hd2 (n + 1)
  rw [← qr_sq]
  exact ⟨h1, h2 (Nat.succ_ne_zero n)⟩

include hc in
/-- C108: the orientation is within `4.5e-6 n` of the exact one. -/
theorem C108_orientation (hx : FinR x) (hx2 : In2 ‖qr x‖ 8 8) (hd : ∀ i, FinR (d i)) (hd2 : ∀ i, In2 ‖qr (d i)‖ 20 20) (n : ℕ) :
    ‖unit (qr (track hw isa x d n)) - exact x d n‖ ≤ 4.5e-6 * n :=
  (track_ok hc isa hx hx2 hd hd2 n).2.2.2

theorem exact_norm (hx2 : In2 ‖qr x‖ 8 8) (hd2 : ∀ i, In2 ‖qr (d i)‖ 20 20) (n : ℕ) : ‖exact x d n‖ = 1 := by
  induction n with
  | zero => exact norm_unit (norm_pos_iff.1 hx2.pos)
  | succ n ih =>
    show ‖unit (qr (d n)) * exact x d n‖ = 1
    rw [norm_mul, ih, norm_unit (norm_pos_iff.1 (hd2 n).pos), one_mul]

/-- Two unit quaternions turn a vector to places that are not far apart. -/
theorem turn_le {p q v : ℍ[ℝ]} (hp : ‖p‖ = 1) (hq : ‖q‖ = 1) : ‖p * v * star p - q * v * star q‖ ≤ 2 * ‖p - q‖ * ‖v‖ := by
  have e : p * v * star p - q * v * star q = (p - q) * v * star p + q * v * star (p - q) := by
    rw [star_sub]; noncomm_ring
  rw [e]
  refine (norm_add_le _ _).trans (le_of_eq ?_)
  rw [norm_mul, norm_mul, norm_mul, norm_mul, norm_star, norm_star, hp, hq]
  ring

include hc in
/-- C108: a vector turned by the orientation is within `9e-6 n` of its length of where the exact
orientation turns it. -/
theorem C108_turn (hx : FinR x) (hx2 : In2 ‖qr x‖ 8 8) (hd : ∀ i, FinR (d i)) (hd2 : ∀ i, In2 ‖qr (d i)‖ 20 20) (n : ℕ)
    (v : ℍ[ℝ]) :
    ‖unit (qr (track hw isa x d n)) * v * star (unit (qr (track hw isa x d n))) - exact x d n * v * star (exact x d n)‖ ≤
      9e-6 * n * ‖v‖ := by
  obtain ⟨-, s, -, e⟩ := track_ok hc isa hx hx2 hd hd2 n
  refine (turn_le (norm_unit (norm_pos_iff.1 s.pos)) (exact_norm hx2 hd2 n)).trans ?_
  refine mul_le_mul_of_nonneg_right ?_ (norm_nonneg _)
  linarith

end

/-! ### motors -/

open Drift32 (q1 q2)

/-- The exact normalisation of a dual quaternion. -/
noncomputable def nrm (q : DualNumber ℍ[ℝ]) : DualNumber ℍ[ℝ] := (unit q.1, NLerp.mom q.1 q.2)

theorem inner_eq (p q : ℍ[ℝ]) : inner ℝ p q = p.re * q.re + p.imI * q.imI + p.imJ * q.imJ + p.imK * q.imK := by
  rw [Quaternion.inner_def, Quaternion.re_mul, Quaternion.re_star, Quaternion.imI_star, Quaternion.imJ_star, Quaternion.imK_star]
  ring

theorem inner_mul_left' (a b y : ℍ[ℝ]) : inner ℝ (a * b) (a * y) = ‖a‖ ^ 2 * inner ℝ b y := by
  rw [sq, ← Quaternion.normSq_eq_norm_mul_self, Quaternion.normSq_def', inner_eq, inner_eq]
  simp only [Quaternion.re_mul, Quaternion.imI_mul, Quaternion.imJ_mul, Quaternion.imK_mul]
  ring

theorem inner_mul_right' (a b x : ℍ[ℝ]) : inner ℝ (a * b) (x * b) = ‖b‖ ^ 2 * inner ℝ a x := by
  rw [sq, ← Quaternion.normSq_eq_norm_mul_self, Quaternion.normSq_def', inner_eq, inner_eq]
  simp only [Quaternion.re_mul, Quaternion.imI_mul, Quaternion.imJ_mul, Quaternion.imK_mul]
  ring

/-- Normalisation is a homomorphism. -/
theorem nrm_mul {p q : DualNumber ℍ[ℝ]} (hp : p.1 ≠ 0) (hq : q.1 ≠ 0) : nrm (p * q) = nrm p * nrm q := by
  have e1 : (p * q).1 = p.1 * q.1 := rfl
  have e2 : (p * q).2 = p.1 * q.2 + p.2 * q.1 := TrivSqZeroExt.snd_mul p q
  have f2 : (nrm p * nrm q).2 = unit p.1 * NLerp.mom q.1 q.2 + NLerp.mom p.1 p.2 * unit q.1 := TrivSqZeroExt.snd_mul _ _
  refine Prod.ext (unit_mul p.1 q.1) ?_
  rw [f2]
  show NLerp.mom (p * q).1 (p * q).2 = _
  rw [e1, e2]
  generalize p.1 = a at *
  generalize p.2 = x
  generalize q.1 = b at *
  generalize q.2 = y
  have ha := norm_ne_zero_iff.2 hp
  have hb := norm_ne_zero_iff.2 hq
  simp only [NLerp.mom, unit, norm_mul, real_inner_smul_left, inner_add_right, inner_mul_left', inner_mul_right', mul_sub, sub_mul,
    smul_mul_assoc, mul_smul_comm, smul_sub, smul_add, smul_smul]
  match_scalars <;> (field_simp; try ring)

theorem nrm_nrm {p : DualNumber ℍ[ℝ]} (hp : p.1 ≠ 0) : nrm (nrm p) = nrm p := by
  refine Prod.ext (unit_unit hp) ?_
  have h1 : ‖unit p.1‖ = 1 := norm_unit hp
  have hs : inner ℝ (unit p.1) (unit p.1) = (1 : ℝ) := by rw [real_inner_self_eq_norm_sq, h1]; norm_num
  show NLerp.mom (unit p.1) (NLerp.mom p.1 p.2) = NLerp.mom p.1 p.2
  have e : NLerp.mom p.1 p.2 = ‖p.1‖⁻¹ • (p.2 - inner ℝ (unit p.1) p.2 • unit p.1) := rfl
  rw [NLerp.mom, h1, inv_one, one_smul, one_smul, e, inner_smul_right, inner_sub_right, inner_smul_right, hs]
  simp

/-- The exact normalisation of a motor. -/
theorem normalize_dq {hwr : Hw ℝ} (hx : hwr.Exact) (isa : Isa) {m : Motor ℝ} (h : m.toDQ.1 ≠ 0) :
    (m.normalize hwr isa).toDQ = nrm m.toDQ := by
  have hn : 0 < ‖m.toDQ.1‖ := norm_pos_iff.2 h
  have hs : dot4 m.p1 m.p1 = ‖m.toDQ.1‖ ^ 2 := by
    rw [sq, ← Quaternion.normSq_eq_norm_mul_self, Quaternion.normSq_def']
    simp only [Motor.re_toDQ, Motor.imI_toDQ, Motor.imJ_toDQ, Motor.imK_toDQ, dot4]; ring
  have hN : 0 < dot4 m.p1 m.p1 := by rw [hs]; positivity
  have hi : inner ℝ m.toDQ.1 m.toDQ.2 = m.bc := by
    rw [inner_eq]
    simp only [Motor.re_toDQ, Motor.imI_toDQ, Motor.imJ_toDQ, Motor.imK_toDQ, Motor.re_toDQ2, Motor.imI_toDQ2, Motor.imJ_toDQ2,
      Motor.imK_toDQ2, Motor.bc]
    ring
  rw [Motor.normalize_eq, exact_rsqrt1 hx hN, exact_rcp1 hx hN.ne', hs, Real.sqrt_sq hn.le]
  refine Prod.ext ?_ ?_
  · show _ = unit m.toDQ.1
    rw [unit]
    generalize ‖m.toDQ.1‖ = k
    ext <;> simp only [Quaternion.re_smul, Quaternion.imI_smul, Quaternion.imJ_smul, Quaternion.imK_smul, smul_eq_mul,
      Motor.re_toDQ, Motor.imI_toDQ, Motor.imJ_toDQ, Motor.imK_toDQ, Motor.dualSmul] <;> ring
  · show _ = NLerp.mom m.toDQ.1 m.toDQ.2
    rw [NLerp.mom, real_inner_smul_left, hi]
    generalize ‖m.toDQ.1‖ = k at *
    ext <;> simp only [Quaternion.re_smul, Quaternion.imI_smul, Quaternion.imJ_smul, Quaternion.imK_smul, smul_eq_mul,
      Quaternion.re_sub, Quaternion.imI_sub, Quaternion.imJ_sub, Quaternion.imK_sub,
      Motor.re_toDQ, Motor.imI_toDQ, Motor.imJ_toDQ, Motor.imK_toDQ, Motor.re_toDQ2, Motor.imI_toDQ2, Motor.imJ_toDQ2,
      Motor.imK_toDQ2, Motor.dualSmul] <;> (field_simp; try ring)

theorem mom_le {Z : ℍ[ℝ]} (hZ : Z ≠ 0) (Y : ℍ[ℝ]) : ‖NLerp.mom Z Y‖ ≤ ‖Y‖ / ‖Z‖ := by
  rw [NLerp.mom, norm_smul, norm_inv, norm_norm, inv_mul_eq_div]
  exact div_le_div_of_nonneg_right (NLerp.perp_le (NLerp.unit_norm hZ)) (norm_nonneg _)

theorem q2_sq (x : Motor F32) : ‖q2 x‖ ^ 2 = x.p2.sq4 := by
  rw [sq, ← Quaternion.normSq_eq_norm_mul_self, Quaternion.normSq_def']
  rfl

/-- One normalisation of a motor, rounded. -/
theorem normM {hw : Hw F32} (hc : hw.Contract32) (isa : Isa) {x : Motor F32} {K : ℝ} (hx : Drift32.Fin x)
    (h : In2 ‖q1 x‖ 30 30) (hK : In2 K 30 30) (h2 : ‖q2 x‖ ≤ K) :
    Drift32.Fin (x.normalize hw isa) ∧ ‖q1 (x.normalize hw isa) - unit (q1 x)‖ ≤ 6.9e-7 ∧
      |‖q1 (x.normalize hw isa)‖ ^ 2 - 1| ≤ 1.4e-6 ∧
      ‖q2 (x.normalize hw isa) - NLerp.mom (q1 x) (q2 x)‖ ≤ 7.4e-6 * (K / ‖q1 x‖) := by
  have h0 := h.pos
  obtain ⟨f1, e1, e2⟩ := normR hc isa (x := ⟨x.p1⟩) hx.1 h
  have hs : √x.p1.sq4 = ‖q1 x‖ := by
    rw [← qr_sq ⟨x.p1⟩, Real.sqrt_sq (norm_nonneg _)]; rfl
  have hN : 1 / 2 ^ 60 ≤ x.p1.sq4 := by
    rw [← qr_sq ⟨x.p1⟩]
    refine le_trans (le_of_eq ?_) (pow_le_pow_left₀ (by positivity) h.lo 2)
    norm_num
  have hL : x.p1.Le2 30 := fun i _ => by
    refine ⟨hx.1 i, ?_⟩
    obtain ⟨-, a0, a1, a2, a3⟩ := withinR (x := ⟨x.p1⟩) hx.1
    have : |r (x.p1.get i)| ≤ ‖q1 x‖ := match i with | 0 => a0 | 1 => a1 | 2 => a2 | 3 => a3
    have : |r (x.p1.get i)| ≤ 2 ^ 30 := this.trans h.hi
    rw [r] at this
    exact_mod_cast this
  have hS : x.Scale K := ⟨hL, hN, hx.2, by rw [← q2_sq]; exact pow_le_pow_left₀ (norm_nonneg _) h2 2, hK.mono (by norm_num) (by norm_num)⟩
  have key := C70_motor_normalize_p2 hc Hw.ideal_exact isa isa hS
  rw [hs] at key
  have hd := normalize_dq Hw.ideal_exact isa (m := x.real) (norm_pos_iff.1 h0)
  have hd2 : (x.real.normalize Hw.ideal isa).toDQ.2 = NLerp.mom (q1 x) (q2 x) := congrArg Prod.snd hd
  refine ⟨⟨f1, fun i => (key i).1⟩, e1, e2, ?_⟩
  rw [← hd2]
  have hK0 := hK.pos
  refine (Drift32.norm_le (e := 3.7e-6 * (K / ‖q1 x‖)) (by positivity) (key 0).2 (key 1).2 (key 2).2 (key 3).2).trans (le_of_eq ?_)
  ring

/-- One step of the loop. -/
theorem stepM {hw : Hw F32} (hc : hw.Contract32) (isa : Isa) {x d : Motor F32} {a t C : ℝ} (hx : Drift32.Fin x) (hd : Drift32.Fin d)
    (sx : In2 ‖q1 x‖ 4 4) (sd : In2 ‖q1 d‖ 10 10) (hC : In2 C 14 14) (ha : 0 ≤ a) (ht : 0 ≤ t) (hat : a + t ≤ C)
    (hx2 : ‖q2 x‖ ≤ ‖q1 x‖ * a) (hd2 : ‖q2 d‖ ≤ ‖q1 d‖ * t) {z : Motor F32} (hz : z = (d.mulMotor x).normalize hw isa) :
    Drift32.Fin z ∧ |‖q1 z‖ ^ 2 - 1| ≤ 1.4e-6 ∧ ‖unit (q1 z) - unit (q1 d) * unit (q1 x)‖ ≤ 4.8e-6 ∧
      ‖NLerp.mom (q1 z) (q2 z) - (nrm (d.real.toDQ) * nrm (x.real.toDQ)).2‖ ≤ 2.4e-5 * C ∧
      ‖q2 z - NLerp.mom (q1 z) (q2 z)‖ ≤ 2e-5 * C := by
  have hC0 := hC.pos
  have hd0 : q1 d ≠ 0 := norm_pos_iff.1 sd.pos
  have hx0 : q1 x ≠ 0 := norm_pos_iff.1 sx.pos
  have sd0 := sd.pos
  have sx0 := sx.pos
  obtain ⟨f, e1, e2⟩ := Drift32.step hd hx (sd.mono (by norm_num) (by norm_num)) (sx.mono (by norm_num) (by norm_num))
    (hC.mono (by norm_num) (by norm_num)) (hd2.trans (mul_le_mul_of_nonneg_left (by linarith) sd0.le))
    (hx2.trans (mul_le_mul_of_nonneg_left (by linarith) sx0.le))
  rw [← nrm_mul hd0 hx0, ← C81_motor_mul]
  have r1 : (d.real.mulMotor x.real).toDQ.1 = q1 d * q1 x := congrArg Prod.fst (C81_motor_mul d.real x.real)
  have r2 : (d.real.mulMotor x.real).toDQ.2 = q1 d * q2 x + q2 d * q1 x := congrArg Prod.snd (C81_motor_mul d.real x.real)
  show _ ∧ _ ∧ _ ∧ ‖_ - NLerp.mom (d.real.mulMotor x.real).toDQ.1 (d.real.mulMotor x.real).toDQ.2‖ ≤ _ ∧ _
  rw [r1, r2]
  have hP0 : q1 d * q1 x ≠ 0 := mul_ne_zero hd0 hx0
  have hP := sd.mul sx
  have nP : ‖q1 d * q1 x‖ = ‖q1 d‖ * ‖q1 x‖ := norm_mul _ _
  have hQ : ‖q1 d * q2 x + q2 d * q1 x‖ ≤ ‖q1 d‖ * ‖q1 x‖ * C := by
    refine (norm_add_le _ _).trans ?_
    rw [norm_mul, norm_mul]
    calc ‖q1 d‖ * ‖q2 x‖ + ‖q2 d‖ * ‖q1 x‖ ≤ ‖q1 d‖ * (‖q1 x‖ * a) + ‖q1 d‖ * t * ‖q1 x‖ := by gcongr
      _ = ‖q1 d‖ * ‖q1 x‖ * (a + t) := by ring
      _ ≤ _ := by gcongr
  rw [← nP] at e1 e2 hQ hP
  generalize q1 d * q2 x + q2 d * q1 x = Q at *
  obtain ⟨y, hy⟩ : ∃ y, y = d.mulMotor x := ⟨_, rfl⟩
  rw [← hy] at e1 e2 f hz
  have hp := hP.pos
  have hu : 28 * u ≤ 1.7e-6 := by unfold u; norm_num
  have hu2 : 70 * u ≤ 4.2e-6 := by unfold u; norm_num
  have y1 : ‖q1 y - q1 d * q1 x‖ ≤ 1.7e-6 * ‖q1 d * q1 x‖ := e1.trans (mul_le_mul_of_nonneg_right hu hp.le)
  have y2 : ‖q2 y - Q‖ ≤ 4.2e-6 * (‖q1 d * q1 x‖ * C) := e2.trans (mul_le_mul_of_nonneg_right hu2 (by positivity))
  have b1 := norm_sub_norm_le (q1 d * q1 x) (q1 y)
  have b2 := norm_sub_norm_le (q1 y) (q1 d * q1 x)
  have b3 := norm_sub_norm_le (q2 y) Q
  rw [norm_sub_rev] at b1
  generalize hp' : ‖q1 d * q1 x‖ = P at *
  have lo : 0.999998 * P ≤ ‖q1 y‖ := by norm_num at y1 ⊢; linarith
  have hi : ‖q1 y‖ ≤ 1.000002 * P := by norm_num at y1 ⊢; linarith
  have y3 : ‖q2 y‖ ≤ 1.001 * (P * C) := by norm_num at y2 ⊢; nlinarith
  have lo0 : 0 < ‖q1 y‖ := lt_of_lt_of_le (by positivity) lo
  have hy0 : q1 y ≠ 0 := norm_pos_iff.1 lo0
  have hPlo := hP.lo
  have hPhi := hP.hi
  have hPC := hP.mul hC
  have hKi : In2 (1.001 * (P * C)) 30 30 := by
    have k1 := hPC.lo
    have k2 := hPC.hi
    norm_num at k1 k2
    exact ⟨by norm_num; linarith, by norm_num; linarith⟩
  obtain ⟨g, z1, z3, z2⟩ := normM hc isa f (K := 1.001 * (P * C)) ⟨by norm_num at hPlo lo ⊢; linarith, by norm_num at hPhi hi ⊢; linarith⟩ hKi y3
  rw [← hz] at g z1 z2 z3
  have q : 1.001 * (P * C) / ‖q1 y‖ ≤ 1.002 * C := by
    rw [div_le_iff₀ lo0]
    have := mul_le_mul_of_nonneg_left lo (show 0 ≤ 1.002 * C by positivity)
    have : 0 ≤ P * C := by positivity
    norm_num at *
    nlinarith
  have z4 : ‖q2 z - NLerp.mom (q1 y) (q2 y)‖ ≤ 7.42e-6 * C := by
    refine z2.trans ((mul_le_mul_of_nonneg_left q (by norm_num)).trans ?_)
    norm_num; linarith
  have m1 : ‖NLerp.mom (q1 y) (q2 y)‖ ≤ 1.002 * C :=
    (mom_le hy0 _).trans ((div_le_div_of_nonneg_right y3 lo0.le).trans q)
  have m2 : ‖NLerp.mom (q1 y) (q2 y) - NLerp.mom (q1 d * q1 x) Q‖ ≤ 1.29e-5 * C := by
    refine (NLerp.mom_lip hP0 (by rw [hp']; norm_num at y1 ⊢; linarith)).trans ?_
    rw [hp']
    have k1 : 1.02 * ‖q2 y - Q‖ / P ≤ 4.3e-6 * C := by
      rw [div_le_iff₀ hp]; norm_num at y2 ⊢; nlinarith
    have k2 : 5.02 * ‖Q‖ * ‖q1 y - q1 d * q1 x‖ / P ^ 2 ≤ 8.6e-6 * C := by
      rw [div_le_iff₀ (by positivity)]
      calc 5.02 * ‖Q‖ * ‖q1 y - q1 d * q1 x‖ ≤ 5.02 * (P * C) * (1.7e-6 * P) := by gcongr
        _ ≤ _ := by have : 0 ≤ P ^ 2 * C := by positivity
                    norm_num; nlinarith
    linarith
  have uy := norm_unit hy0
  have uy0 : unit (q1 y) ≠ 0 := norm_pos_iff.1 (by rw [uy]; exact one_pos)
  have idem : NLerp.mom (unit (q1 y)) (NLerp.mom (q1 y) (q2 y)) = NLerp.mom (q1 y) (q2 y) :=
    congrArg Prod.snd (nrm_nrm (p := y.real.toDQ) hy0)
  have m3 : ‖NLerp.mom (q1 z) (q2 z) - NLerp.mom (q1 y) (q2 y)‖ ≤ 1.11e-5 * C := by
    have := NLerp.mom_lip (z := q1 z) (y := q2 z) (Y := NLerp.mom (q1 y) (q2 y)) uy0 (by rw [uy]; exact z1.trans (by norm_num))
    rw [idem, uy, div_one, one_pow, div_one] at this
    refine this.trans ?_
    have k : 5.02 * ‖NLerp.mom (q1 y) (q2 y)‖ * ‖q1 z - unit (q1 y)‖ ≤ 5.02 * (1.002 * C) * 6.9e-7 := by gcongr
    norm_num at k z4 ⊢
    linarith
  refine ⟨g, z3, ?_, ?_, ?_⟩
  · obtain ⟨-, -, k⟩ := unit_step (κ := 1.7e-6) hd0 hx0 (by norm_num) (by norm_num) (y := q1 y) (by rw [← nP, ← hp']; exact (hp'.symm ▸ y1)) z1
    refine k.trans (by norm_num)
  · have := norm_add_le (NLerp.mom (q1 z) (q2 z) - NLerp.mom (q1 y) (q2 y)) (NLerp.mom (q1 y) (q2 y) - NLerp.mom (q1 d * q1 x) Q)
    rw [sub_add_sub_cancel] at this
    linarith
  · have := norm_sub_le (q2 z - NLerp.mom (q1 y) (q2 y)) (NLerp.mom (q1 z) (q2 z) - NLerp.mom (q1 y) (q2 y))
    rw [sub_sub_sub_cancel_right] at this
    linarith

/-- The motor after `n` steps. -/
def trackM {F : Type} [Add F] [Sub F] [Mul F] [Neg F] [Div F] [Zero F] [One F] [NatCast F] (hw : Hw F) (isa : Isa)
    (x : Motor F) (d : ℕ → Motor F) : ℕ → Motor F
  | 0 => x
  | n + 1 => ((d n).mulMotor (trackM hw isa x d n)).normalize hw isa

/-- The exact motion, the product of the normalised motors. -/
noncomputable def exactM (x : Motor F32) (d : ℕ → Motor F32) : ℕ → DualNumber ℍ[ℝ]
  | 0 => nrm x.real.toDQ
  | n + 1 => nrm (d n).real.toDQ * exactM x d n

/-- What the analysis asks: finite lanes, sizes neither tiny nor huge, and a length `C` of at least
twice the sum of the half translations, `t i` of the factors and `s` of the first motor. -/
structure Loop (x : Motor F32) (d : ℕ → Motor F32) (s : ℝ) (t : ℕ → ℝ) (C : ℝ) (N : ℕ) : Prop where
  finx : Drift32.Fin x
  fin : ∀ i < N, Drift32.Fin (d i)
  sizex : In2 ‖q1 x‖ 4 4
  size : ∀ i < N, In2 ‖q1 (d i)‖ 10 10
  len : In2 C 14 14
  s_nonneg : 0 ≤ s
  t_nonneg : ∀ i, 0 ≤ t i
  transx : ‖q2 x‖ ≤ ‖q1 x‖ * s
  trans : ∀ i < N, ‖q2 (d i)‖ ≤ ‖q1 (d i)‖ * t i
  sum : 2 * (s + ∑ i ∈ Finset.range N, t i) ≤ C

section
variable {hw : Hw F32} (hc : hw.Contract32) (isa : Isa) {x : Motor F32} {d : ℕ → Motor F32} {s : ℝ} {t : ℕ → ℝ} {C : ℝ} {N : ℕ}

theorem exactM_norm (h : Loop x d s t C N) {n : ℕ} (hn : n ≤ N) :
    ‖(exactM x d n).1‖ = 1 ∧ ‖(exactM x d n).2‖ ≤ s + ∑ i ∈ Finset.range n, t i := by
  induction n with
  | zero =>
    have h0 : q1 x ≠ 0 := norm_pos_iff.1 h.sizex.pos
    refine ⟨norm_unit h0, ?_⟩
    rw [Finset.sum_range_zero, add_zero]
    refine (mom_le h0 (q2 x)).trans ?_
    rw [div_le_iff₀ h.sizex.pos, mul_comm]
    exact h.transx
  | succ n ih =>
    obtain ⟨i1, i2⟩ := ih (Nat.le_of_succ_le hn)
    have h0 : q1 (d n) ≠ 0 := norm_pos_iff.1 (h.size n hn).pos
    have e1 : (exactM x d (n + 1)).1 = unit (q1 (d n)) * (exactM x d n).1 := rfl
    have e2 : (exactM x d (n + 1)).2 = unit (q1 (d n)) * (exactM x d n).2 + NLerp.mom (q1 (d n)) (q2 (d n)) * (exactM x d n).1 :=
      TrivSqZeroExt.snd_mul (nrm (d n).real.toDQ) (exactM x d n)
    rw [e1, e2, norm_mul, i1, norm_unit h0, one_mul, Finset.sum_range_succ]
    refine ⟨rfl, (norm_add_le _ _).trans ?_⟩
    rw [norm_mul, norm_mul, i1, norm_unit h0, one_mul, mul_one]
    have := mom_le h0 (q2 (d n))
    have k : ‖q2 (d n)‖ / ‖q1 (d n)‖ ≤ t n := by
      rw [div_le_iff₀ (h.size n hn).pos, mul_comm]
      exact h.trans n hn
    linarith

include hc in
/-- The invariant of the loop. -/
theorem trackM_ok (h : Loop x d s t C N) {n : ℕ} (hn : n ≤ N) (hN : n ≤ 8192) :
    Drift32.Fin (trackM hw isa x d n) ∧ In2 ‖q1 (trackM hw isa x d n)‖ 4 4 ∧
      ‖q2 (trackM hw isa x d n)‖ ≤ ‖q1 (trackM hw isa x d n)‖ * (s + ∑ i ∈ Finset.range n, t i + 0.3 * C) ∧
      (n ≠ 0 → |‖q1 (trackM hw isa x d n)‖ ^ 2 - 1| ≤ 1.4e-6 ∧
        ‖q2 (trackM hw isa x d n) - NLerp.mom (q1 (trackM hw isa x d n)) (q2 (trackM hw isa x d n))‖ ≤ 2e-5 * C) ∧
      ‖unit (q1 (trackM hw isa x d n)) - (exactM x d n).1‖ ≤ 4.8e-6 * n ∧
      ‖NLerp.mom (q1 (trackM hw isa x d n)) (q2 (trackM hw isa x d n)) - (exactM x d n).2‖ ≤
        n * (2.4e-5 * C) + 4.8e-6 * n * ∑ i ∈ Finset.range n, t i := by
  have hC0 := h.len.pos
  induction n with
  | zero =>
    refine ⟨h.finx, h.sizex, ?_, fun h => absurd rfl h, ?_, ?_⟩
    · rw [Finset.sum_range_zero, add_zero]
      exact h.transx.trans (mul_le_mul_of_nonneg_left (by linarith) (norm_nonneg _))
    · show ‖unit (q1 x) - unit (q1 x)‖ ≤ _
      simp
    · show ‖NLerp.mom (q1 x) (q2 x) - NLerp.mom (q1 x) (q2 x)‖ ≤ _
      simp
  | succ n ih =>
    obtain ⟨f, sz, h2, -, e1, e2⟩ := ih (Nat.le_of_succ_le hn) (Nat.le_of_succ_le hN)
    obtain ⟨-, xn⟩ := exactM_norm h hn
    obtain ⟨x1, -⟩ := exactM_norm h (Nat.le_of_succ_le hn)
    have h0 : q1 (d n) ≠ 0 := norm_pos_iff.1 (h.size n hn).pos
    have hsum : ∑ i ∈ Finset.range (n + 1), t i ≤ ∑ i ∈ Finset.range N, t i :=
      Finset.sum_le_sum_of_subset_of_nonneg (Finset.range_subset_range.2 hn) fun i _ _ => h.t_nonneg i
    have hs := h.sum
    have ht := h.t_nonneg n
    have hS0 : 0 ≤ ∑ i ∈ Finset.range n, t i := Finset.sum_nonneg fun i _ => h.t_nonneg i
    have hs0 := h.s_nonneg
    have htr := h.trans n hn
    have E1 : (exactM x d (n + 1)).1 = unit (q1 (d n)) * (exactM x d n).1 := rfl
    have E2 : (exactM x d (n + 1)).2 = unit (q1 (d n)) * (exactM x d n).2 + NLerp.mom (q1 (d n)) (q2 (d n)) * (exactM x d n).1 :=
      TrivSqZeroExt.snd_mul (nrm (d n).real.toDQ) (exactM x d n)
    have mk : ‖NLerp.mom (q1 (d n)) (q2 (d n))‖ ≤ t n := by
      refine (mom_le h0 _).trans ?_
      rw [div_le_iff₀ (h.size n hn).pos, mul_comm]
      exact htr
    rw [Finset.sum_range_succ] at hsum xn ⊢
    obtain ⟨z, hz⟩ : ∃ z, z = trackM hw isa x d (n + 1) := ⟨_, rfl⟩
    rw [← hz]
    have hz' : z = ((d n).mulMotor (trackM hw isa x d n)).normalize hw isa := hz
    clear hz
    generalize trackM hw isa x d n = y at *
    obtain ⟨F, z1, z2, z3, z4⟩ := stepM hc isa f (h.fin n hn) sz (h.size n hn) h.len
      (a := s + ∑ i ∈ Finset.range n, t i + 0.3 * C) (by positivity) ht (by norm_num; linarith) h2 htr hz'
    have S2 : (nrm (d n).real.toDQ * nrm y.real.toDQ).2 =
        unit (q1 (d n)) * NLerp.mom (q1 y) (q2 y) + NLerp.mom (q1 (d n)) (q2 (d n)) * unit (q1 y) :=
      TrivSqZeroExt.snd_mul (nrm (d n).real.toDQ) (nrm y.real.toDQ)
    rw [S2] at z3
    rw [E2] at xn
    rw [E1, E2]
    clear hz' E1 E2 S2
    generalize (exactM x d n).1 = a1 at *
    generalize (exactM x d n).2 = a2 at *
    generalize ∑ i ∈ Finset.range n, t i = S at *
    have hn' : (n : ℝ) + 1 ≤ 8192 := by exact_mod_cast hN
    have hn0 : (0 : ℝ) ≤ n := Nat.cast_nonneg n
    have r1 : ‖unit (q1 z) - unit (q1 (d n)) * a1‖ ≤ 4.8e-6 * (n + 1 : ℕ) := by
      have k := norm_add_le (unit (q1 z) - unit (q1 (d n)) * unit (q1 y)) (unit (q1 (d n)) * (unit (q1 y) - a1))
      rw [mul_sub, sub_add_sub_cancel, ← mul_sub, norm_mul, norm_unit h0, one_mul] at k
      push_cast
      linarith
    have r2 : ‖NLerp.mom (q1 z) (q2 z) - (unit (q1 (d n)) * a2 + NLerp.mom (q1 (d n)) (q2 (d n)) * a1)‖ ≤
        (n + 1 : ℕ) * (2.4e-5 * C) + 4.8e-6 * (n + 1 : ℕ) * (S + t n) := by
      have k : NLerp.mom (q1 z) (q2 z) - (unit (q1 (d n)) * a2 + NLerp.mom (q1 (d n)) (q2 (d n)) * a1) =
          (NLerp.mom (q1 z) (q2 z) - (unit (q1 (d n)) * NLerp.mom (q1 y) (q2 y) + NLerp.mom (q1 (d n)) (q2 (d n)) * unit (q1 y))) +
          (unit (q1 (d n)) * (NLerp.mom (q1 y) (q2 y) - a2) + NLerp.mom (q1 (d n)) (q2 (d n)) * (unit (q1 y) - a1)) := by
        rw [mul_sub, mul_sub]; abel
      rw [k]
      refine (norm_add_le _ _).trans ((add_le_add z3 (norm_add_le _ _)).trans ?_)
      rw [norm_mul, norm_mul, norm_unit h0, one_mul]
      have k2 : ‖NLerp.mom (q1 (d n)) (q2 (d n))‖ * ‖unit (q1 y) - a1‖ ≤ t n * (4.8e-6 * n) :=
        mul_le_mul mk e1 (norm_nonneg _) ht
      push_cast
      nlinarith
    have nz := abs_le.1 (near_one (norm_nonneg _) z1)
    norm_num at nz
    refine ⟨F, ⟨by norm_num; linarith, by norm_num; linarith⟩, ?_, fun _ => ⟨z1, z4⟩, r1, r2⟩
    have k1 := norm_sub_norm_le (q2 z) (NLerp.mom (q1 z) (q2 z))
    have k2 := norm_sub_norm_le (NLerp.mom (q1 z) (q2 z)) (unit (q1 (d n)) * a2 + NLerp.mom (q1 (d n)) (q2 (d n)) * a1)
    have hT : S + t n ≤ C / 2 := by linarith
    have m1 : (n + 1 : ℕ) * (2.4e-5 * C) + 4.8e-6 * (n + 1 : ℕ) * (S + t n) ≤ 0.22 * C := by
      push_cast
      have a1 : ((n : ℝ) + 1) * (2.4e-5 * C) ≤ 8192 * (2.4e-5 * C) := by gcongr
      have a2 : 4.8e-6 * ((n : ℝ) + 1) * (S + t n) ≤ 4.8e-6 * 8192 * (C / 2) := by gcongr
      norm_num at a1 a2 ⊢
      linarith
    have m3 := r2.trans m1
    have m2 : ‖q2 z‖ ≤ s + (S + t n) + 0.23 * C := by norm_num at m3 z4 ⊢; linarith
    refine m2.trans ?_
    have : (0.999 : ℝ) * (s + (S + t n) + 0.3 * C) ≤ ‖q1 z‖ * (s + (S + t n) + 0.3 * C) := by
      refine mul_le_mul_of_nonneg_right (by norm_num; linarith) (by positivity)
    refine le_trans ?_ this
    norm_num
    linarith

include hc in
/-- C108: a motor multiplied by a factor and normalised, at every step, stays normalised. -/
theorem C108_motor_norm (h : Loop x d s t C N) {n : ℕ} (hn : n + 1 ≤ N) (hN : n + 1 ≤ 8192) :
    Drift32.Fin (trackM hw isa x d (n + 1)) ∧ |(trackM hw isa x d (n + 1)).p1.sq4 - 1| ≤ 1.4e-6 ∧
      ‖q2 (trackM hw isa x d (n + 1)) - NLerp.mom (q1 (trackM hw isa x d (n + 1))) (q2 (trackM hw isa x d (n + 1)))‖ ≤ 2e-5 * C := by
  obtain ⟨h1, -, -, h2, -⟩ := trackM_ok hc isa h hn hN
  obtain ⟨h3, h4⟩ := h2 (Nat.succ_ne_zero n)
  refine ⟨h1, ?_, h4⟩
  rw [← qr_sq ⟨(trackM hw isa x d (n + 1)).p1⟩]
  exact h3

include hc in
/-- C108: the motion is within `4.8e-6 n` of the exact one in the rotation, and in the moment within
`2.7e-5 n` of the length `C`. -/
theorem C108_motor_motion (h : Loop x d s t C N) {n : ℕ} (hn : n ≤ N) (hN : n ≤ 8192) :
    ‖(nrm (trackM hw isa x d n).real.toDQ).1 - (exactM x d n).1‖ ≤ 4.8e-6 * n ∧
      ‖(nrm (trackM hw isa x d n).real.toDQ).2 - (exactM x d n).2‖ ≤ 2.7e-5 * n * C := by
  obtain ⟨-, -, -, -, h1, h2⟩ := trackM_ok hc isa h hn hN
  refine ⟨h1, h2.trans ?_⟩
  have hsum : ∑ i ∈ Finset.range n, t i ≤ ∑ i ∈ Finset.range N, t i :=
    Finset.sum_le_sum_of_subset_of_nonneg (Finset.range_subset_range.2 hn) fun i _ _ => h.t_nonneg i
  have hs := h.sum
  have hs0 := h.s_nonneg
  have hT : ∑ i ∈ Finset.range n, t i ≤ C / 2 := by linarith
  have k := mul_le_mul_of_nonneg_left hT (show (0 : ℝ) ≤ 4.8e-6 * n by positivity)
  have k2 : 0 ≤ (n : ℝ) * C := mul_nonneg (Nat.cast_nonneg n) h.len.pos.le
  norm_num at k ⊢
  nlinarith

end

/-! ### concrete loops -/

/-- A factor that is not normalised: three plus four `e23`. -/
def turn34 : Rotor F32 := ⟨⟨((3 : ℕ) : F32), ((4 : ℕ) : F32), 0, 0⟩⟩

theorem turn34_norm : ‖qr turn34‖ = 5 := by
  have h : ‖qr turn34‖ ^ 2 = 5 ^ 2 := by
    have h3 : r ((3 : ℕ) : F32) = 3 := by unfold r; rw [show (((3 : ℕ) : F32)).val = 3 by decide +kernel]; norm_num
    have h4 : r ((4 : ℕ) : F32) = 4 := by unfold r; rw [show (((4 : ℕ) : F32)).val = 4 by decide +kernel]; norm_num
    have h0 : r (0 : F32) = 0 := by unfold r; rw [show (0 : F32).val = 0 by decide +kernel]; norm_num
    rw [qr_sq]
    simp only [V4.sq4, turn34, h3, h4, h0]
    norm_num
  exact (pow_left_inj₀ (norm_nonneg _) (by norm_num) (by norm_num)).1 h

theorem turn34_fin : FinR turn34 := by unfold FinR; decide +kernel

/-- A million steps with factors of norm five. -/
example {hw : Hw F32} (hc : hw.Contract32) (isa : Isa) :
    |(track hw isa turn34 (fun _ => turn34) 1000000).p1.sq4 - 1| ≤ 1.4e-6 :=
  (C108_norm hc isa (x := turn34) (d := fun _ => turn34) turn34_fin
    (by rw [turn34_norm]; exact ⟨by norm_num, by norm_num⟩) (fun _ => turn34_fin)
    (fun _ => by rw [turn34_norm]; exact ⟨by norm_num, by norm_num⟩) 999999).2

/-- Without the normalisation the size is five to the power of the number of steps. -/
example : ‖qr (turn34.mulRotor (turn34.mulRotor turn34))‖ = 125 := by
  have h : ‖qr (turn34.mulRotor (turn34.mulRotor turn34))‖ ^ 2 = 125 ^ 2 := by
    rw [qr_sq]
    have e : turn34.mulRotor (turn34.mulRotor turn34) = ⟨⟨-((117 : ℕ) : F32), ((44 : ℕ) : F32), 0, 0⟩⟩ := by decide +kernel
    rw [e]
    have h3 : r (-((117 : ℕ) : F32)) = -117 := by unfold r; rw [show (-((117 : ℕ) : F32)).val = -117 by decide +kernel]; norm_num
    have h4 : r ((44 : ℕ) : F32) = 44 := by unfold r; rw [show (((44 : ℕ) : F32)).val = 44 by decide +kernel]; norm_num
    have h0 : r (0 : F32) = 0 := by unfold r; rw [show (0 : F32).val = 0 by decide +kernel]; norm_num
    simp only [V4.sq4, h3, h4, h0]
    norm_num
  exact (pow_left_inj₀ (norm_nonneg _) (by norm_num) (by norm_num)).1 h

/-- A thousand steps with the motor of C91, which advances by one unit and turns by 74 degrees. -/
theorem loop_sample : Loop Drift32.sample (fun _ => Drift32.sample) 1.01 (fun _ => 1.01) 2100 1000 := by
  have hn := near_one' (norm_nonneg _) Drift32.unit_sample
  have k := abs_le.1 hn
  norm_num at k
  refine ⟨Drift32.fin_sample, fun _ _ => Drift32.fin_sample, ⟨by norm_num; linarith, by norm_num; linarith⟩,
    fun _ _ => ⟨by norm_num; linarith, by norm_num; linarith⟩, ⟨by norm_num, by norm_num⟩, by norm_num, fun _ => by norm_num,
    Drift32.trans_sample, fun _ _ => Drift32.trans_sample, ?_⟩
  rw [Finset.sum_const, Finset.card_range]
  norm_num

example {hw : Hw F32} (hc : hw.Contract32) (isa : Isa) :
    ‖(nrm (trackM hw isa Drift32.sample (fun _ => Drift32.sample) 1000).real.toDQ).1 -
      (exactM Drift32.sample (fun _ => Drift32.sample) 1000).1‖ ≤ 0.0048 := by
  refine (C108_motor_motion hc isa loop_sample (n := 1000) le_rfl (by norm_num)).1.trans ?_
  norm_num

end Renorm32
end Klein
