import Verif.Props.SlerpMotor32

/-!
# C98: interpolation of motors far apart in binary32

As `SlerpMotor32`, with a scalar part of `b * ~a` of at least `1/k`, for any `k` from two to eight: rotations of up to
165 degrees.  The bounds grow with the powers of `k`, because the logarithm divides by the scalar part.
-/

set_option linter.unusedSimpArgs false

namespace Klein

open F32

/-! ### arithmetic -/

namespace SlerpWide

section
variable {k η ζ W δ C t : ℝ}

theorem powers (h : 2 ≤ k) : 2 * k ≤ k ^ 2 ∧ 2 * k ^ 2 ≤ k ^ 3 ∧ 2 * k ^ 3 ≤ k ^ 4 := by
  have k0 : 0 < k := by linarith
  refine ⟨?_, ?_, ?_⟩
  · nlinarith
  · nlinarith [pow_pos k0 2]
  · nlinarith [pow_pos k0 3]

theorem log1 (h : 2 ≤ k) (hη : 0 ≤ η) : 1.74 * η * (1.0011 * k) + 1 * (1.87 * η * (1.0011 * k) ^ 2) ≤ 2.8 * k ^ 2 * η := by
  obtain ⟨s1, -, -⟩ := powers h
  have := mul_le_mul_of_nonneg_right s1 hη
  have t : 0 ≤ k ^ 2 * η := by positivity
  norm_num; ring_nf at this t ⊢; linarith

theorem log2 (h : 2 ≤ k) (hη : 0 ≤ η) (hζ : 0 ≤ ζ) (hW : 0 ≤ W) :
    1.74 * ζ * (1.0011 * k) + W * (1.87 * η * (1.0011 * k) ^ 2) + 1 ^ 2 * W * (1.87 * η * (1.0011 * k) ^ 4) +
      (1 * (1.74 * η * W + 1.001 * (1.74 * ζ)) + 1.001 * (1.001 * W) * (1.74 * η)) * (1.0011 * k) ^ 3 / 3 ≤
      3 * k ^ 4 * η * W + 1.03 * k ^ 3 * ζ := by
  obtain ⟨s1, s2, s3⟩ := powers h
  have k0 : 0 < k := by linarith
  have hw : 0 ≤ η * W := by positivity
  have t1 := mul_le_mul_of_nonneg_right s1 hζ
  have t2 := mul_le_mul_of_nonneg_right s2 hζ
  have t3 := mul_le_mul_of_nonneg_right s2 hw
  have t4 := mul_le_mul_of_nonneg_right s3 hw
  have t5 : 0 ≤ k ^ 3 * ζ := by positivity
  have t6 : 0 ≤ k ^ 4 * (η * W) := by positivity
  norm_num; ring_nf at t1 t2 t3 t4 t5 t6 ⊢; linarith

theorem mono {a b e f n m u v w i j A E U V : ℝ} (ha : a ≤ A) (a0 : 0 ≤ a) (hu : u ≤ U) (u0 : 0 ≤ u) (he : e ≤ E) (e0 : 0 ≤ e)
    (hv : v ≤ V) (v0 : 0 ≤ v) (hf : f ≤ 1) (f0 : 0 ≤ f) (hn : n ≤ m) (n0 : 0 ≤ n) (hw : w ≤ b) (w0 : 0 ≤ w) (hi : i ≤ j) (i0 : 0 ≤ i) :
    (a * i + f * (e * i ^ 2) ≤ A * j + 1 * (E * j ^ 2)) ∧
    u * i + v * (e * i ^ 2) + f ^ 2 * v * (e * i ^ 4) + (f * (a * v + n * u) + n * w * a) * i ^ 3 / 3 ≤
      U * j + V * (E * j ^ 2) + 1 ^ 2 * V * (E * j ^ 4) + (1 * (A * V + m * U) + m * b * A) * j ^ 3 / 3 := by
  have A0 := a0.trans ha
  have U0 := u0.trans hu
  have E0 := e0.trans he
  have V0 := v0.trans hv
  have m0 := n0.trans hn
  have b0 := w0.trans hw
  have j0 := i0.trans hi
  constructor <;> gcongr

theorem pow1 (h : 2 ≤ k) (hδ : 0 ≤ δ) : 6.5e-6 + 2.8 * k ^ 2 * (8.4e-7 + 4.01 * δ) ≤ (4e-6 + 11.3 * δ) * k ^ 2 := by
  obtain ⟨s1, -, -⟩ := powers h
  have : 0 ≤ δ * k ^ 2 := by positivity
  norm_num; ring_nf at this ⊢; linarith

theorem pow2 (h : 2 ≤ k) (hδ : 0 ≤ δ) (hC : 0 ≤ C) :
    (1.6e-4 * k + 13 * k ^ 4 * (8.4e-7 + 4.01 * δ)) * (C + C) + 1.03 * k ^ 3 * ((2.1e-6 + 8.02 * δ) * C) ≤
      (6.3e-5 + 109 * δ) * k ^ 4 * C := by
  obtain ⟨s1, s2, s3⟩ := powers h
  have k0 : 0 < k := by linarith
  have j1 : 1.6e-4 * k ≤ 2e-5 * k ^ 4 := by norm_num; linarith
  have j2 : k ^ 3 * δ ≤ k ^ 4 * δ / 2 := by
    have := mul_le_mul_of_nonneg_right s3 hδ; linarith
  have j3 : 0 ≤ k ^ 4 * δ := by positivity
  have j4 : 0 < k ^ 4 := by positivity
  have : (1.6e-4 * k + 13 * k ^ 4 * (8.4e-7 + 4.01 * δ)) * 2 + 1.03 * k ^ 3 * (2.1e-6 + 8.02 * δ) ≤ (6.3e-5 + 109 * δ) * k ^ 4 := by
    norm_num at j1 ⊢; ring_nf at j1 j2 j3 j4 s3 ⊢; linarith
  have := mul_le_mul_of_nonneg_right this hC
  linarith

theorem err1 (h8 : k ≤ 8) (h : 2 ≤ k) (hδ : δ ≤ 1 / 2 ^ 21) : (4e-6 + 11.3 * δ) * k ^ 2 ≤ 6.2e-4 := by
  have u2 : k ^ 2 ≤ 64 := (pow_le_pow_left₀ (by linarith) h8 2).trans (by norm_num)
  have d : 4e-6 + 11.3 * δ ≤ 9.5e-6 := by norm_num at hδ ⊢; linarith
  calc (4e-6 + 11.3 * δ) * k ^ 2 ≤ 9.5e-6 * k ^ 2 := mul_le_mul_of_nonneg_right d (sq_nonneg k)
    _ ≤ 6.2e-4 := by norm_num; linarith

theorem err2 (h8 : k ≤ 8) (h : 2 ≤ k) (hδ : δ ≤ 1 / 2 ^ 21) : (6.3e-5 + 109 * δ) * k ^ 4 ≤ 0.06 * k := by
  have k0 : 0 < k := by linarith
  have u3 : k ^ 3 ≤ 512 := (pow_le_pow_left₀ (by linarith) h8 3).trans (by norm_num)
  have u4 : k ^ 4 ≤ 512 * k := by
    have := mul_le_mul_of_nonneg_right u3 k0.le
    linarith
  have d : 6.3e-5 + 109 * δ ≤ 1.15e-4 := by norm_num at hδ ⊢; linarith
  calc (6.3e-5 + 109 * δ) * k ^ 4 ≤ 1.15e-4 * k ^ 4 := mul_le_mul_of_nonneg_right d (by positivity)
    _ ≤ 0.06 * k := by norm_num; linarith

theorem out1 (ht : 0 ≤ t) (hδ : 0 ≤ δ) :
    8.4e-7 + 2.01 * (5.3e-6 + t * ((4e-6 + 11.3 * δ) * k ^ 2)) + 2 * δ ≤ 1.15e-5 + t * ((8.1e-6 + 22.8 * δ) * k ^ 2) + 2 * δ := by
  have : 2.01 * ((4e-6 + 11.3 * δ) * k ^ 2) ≤ (8.1e-6 + 22.8 * δ) * k ^ 2 := by
    have a : 0 ≤ δ * k ^ 2 := by positivity
    have b : 0 ≤ k ^ 2 := by positivity
    norm_num; ring_nf at *; linarith
  have := mul_le_mul_of_nonneg_left this ht
  norm_num at this ⊢; linarith

theorem out2 (h : 2 ≤ k) (ht : 0 ≤ t) (hδ : 0 ≤ δ) (hδ' : δ ≤ 1 / 2 ^ 21) (hC : 0 ≤ C) :
    2.1e-6 * (2.1 * (k * C)) + (2 * (5.3e-6 + t * ((4e-6 + 11.3 * δ) * k ^ 2)) * (C + 2 * (δ * C)) + 2 * (δ * C)) +
      (2.01 * (t * ((6.3e-5 + 109 * δ) * k ^ 4 * C)) + 2 * δ * (t * (2 * k * C))) ≤
      C * (1e-5 * k + t * ((1.3e-4 + 226 * δ) * k ^ 4) + 2.1 * δ) := by
  obtain ⟨s1, s2, s3⟩ := powers h
  have k0 : 0 < k := by linarith
  obtain ⟨e1, he1⟩ : ∃ e, e = (4e-6 + 11.3 * δ) * k ^ 2 := ⟨_, rfl⟩
  obtain ⟨e2, he2⟩ : ∃ e, e = (6.3e-5 + 109 * δ) * k ^ 4 := ⟨_, rfl⟩
  have e10 : 0 ≤ e1 := by rw [he1]; positivity
  have g1 : 2.002 * (t * e1) + 4 * (t * δ) * k + 2.01 * (t * e2) ≤ t * ((1.3e-4 + 226 * δ) * k ^ 4) := by
    have : 2.002 * e1 + 4 * δ * k + 2.01 * e2 ≤ (1.3e-4 + 226 * δ) * k ^ 4 := by
      rw [he1, he2]
      have j1 : δ * k ≤ δ * k ^ 4 / 8 := by
        have := mul_le_mul_of_nonneg_left (show k ≤ k ^ 4 / 8 by linarith) hδ; linarith
      have j2 : δ * k ^ 2 ≤ δ * k ^ 4 / 4 := by
        have := mul_le_mul_of_nonneg_left (show k ^ 2 ≤ k ^ 4 / 4 by linarith) hδ; linarith
      have j3 : 0 ≤ δ * k ^ 4 := by positivity
      norm_num; ring_nf at j1 j2 j3 s2 s3 ⊢; linarith
    have := mul_le_mul_of_nonneg_left this ht
    linarith
  rw [← he1, ← he2]
  have g2 : 2.1e-6 * (2.1 * k) + 2.002 * 5.3e-6 + 2 * δ ≤ 1e-5 * k + 2 * δ := by norm_num; linarith
  have g3 : (5.3e-6 + t * e1) * (1 + 2 * δ) ≤ (5.3e-6 + t * e1) * 1.001 :=
    mul_le_mul_of_nonneg_left (by norm_num at hδ' ⊢; linarith) (by positivity)
  have : 2.1e-6 * (2.1 * k) + (2 * ((5.3e-6 + t * e1) * (1 + 2 * δ)) + 2 * δ) + (2.01 * (t * e2) + 2 * δ * (t * (2 * k))) ≤
      1e-5 * k + t * ((1.3e-4 + 226 * δ) * k ^ 4) + 2.1 * δ := by
    norm_num at g1 g2 g3 ⊢; linarith
  have := mul_le_mul_of_nonneg_left this hC
  refine le_trans (le_of_eq ?_) this
  ring

end
end SlerpWide

/-! ### the power -/

/-- The exact and the rounded motor, with the sizes used below. -/
structure Motor.NearK (q : Motor F32) (Q : Motor ℝ) (k W η ζ : ℝ) : Prop where
  two : 2 ≤ k
  eight : k ≤ 8
  unit : Q.UnitBy W
  one : 1 ≤ W
  top : W ≤ 2 ^ 22
  lo : 1 / k ≤ Q.p1.l0
  hi : Q.p1.l0 < 1
  turn : 1 / 2 ^ 29 ≤ √q.p1.sq3
  eta : η ≤ 1 / 2 ^ 18
  zeta : ζ ≤ W / 2 ^ 18
  close : q.Close Q η ζ

section
variable {q : Motor F32} {Q : Motor ℝ} {k W η ζ : ℝ}

/-- The lower bound on both scalar parts. -/
theorem Motor.NearK.pos (h : q.NearK Q k W η ζ) : 0 < 0.999 / k ∧ 0.999 / k ≤ Q.p1.l0 ∧ 1 / 8 ≤ Q.p1.l0 ∧ 1 / (0.999 / k) ≤ 1.0011 * k := by
  have h2 := h.two
  have h8 := h.eight
  have k0 : 0 < k := by linarith
  have hl := h.lo
  refine ⟨by positivity, le_trans (div_le_div_of_nonneg_right (by norm_num) k0.le) hl,
    le_trans (one_div_le_one_div_of_le k0 h8) hl, ?_⟩
  rw [one_div_div, div_le_iff₀ (by norm_num)]
  norm_num; linarith

theorem Motor.NearK.size (h : q.NearK Q k W η ζ) : (0 ≤ η ∧ 0 ≤ ζ) ∧
    (0 < ‖Q.p1.vec‖ ∧ ‖Q.p1.vec‖ ≤ 1) ∧ (1 / 2 ^ 29 ≤ ‖q.real.p1.vec‖ ∧ ‖q.real.p1.vec‖ ≤ 1.001) ∧
    (|Q.p1.l0 - q.real.p1.l0| ≤ η ∧ 0.999 / k ≤ q.real.p1.l0 ∧ q.real.p1.l0 ≤ 1.00001) ∧
    (‖Q.p2.vec‖ ≤ W ∧ ‖q.real.p2.vec‖ ≤ 1.001 * W) ∧
    ‖Q.p1.vec - q.real.p1.vec‖ ≤ 1.74 * η ∧ ‖Q.p2.vec - q.real.p2.vec‖ ≤ 1.74 * ζ := by
  have hη0 : 0 ≤ η := (abs_nonneg _).trans (h.close.1 0).2
  have hζ0 : 0 ≤ ζ := (abs_nonneg _).trans (h.close.2 0).2
  have hη := h.eta
  have hζ := h.zeta
  have d1 : ‖Q.p1.vec - q.real.p1.vec‖ ≤ 1.74 * η := V4.vec_sub_norm hη0 fun i _ => by
    rw [abs_sub_comm]; exact (congrArg (fun x => |x - Q.p1.get i|) (V4.real_get q.p1 i)).trans_le (h.close.1 i).2
  have d2 : ‖Q.p2.vec - q.real.p2.vec‖ ≤ 1.74 * ζ := V4.vec_sub_norm hζ0 fun i _ => by
    rw [abs_sub_comm]; exact (congrArg (fun x => |x - Q.p2.get i|) (V4.real_get q.p2 i)).trans_le (h.close.2 i).2
  have d0 : |Q.p1.l0 - q.real.p1.l0| ≤ η := by rw [abs_sub_comm]; exact (h.close.1 0).2
  have hs := V4.vec4_split Q.p1
  rw [h.unit.p1] at hs
  obtain ⟨-, -, h0, -⟩ := h.pos
  have h1 := h.hi
  have w1 := h.one
  have s0 : 0 < ‖Q.p1.vec‖ := by
    refine (norm_nonneg _).lt_of_ne fun h' => ?_
    rw [← h'] at hs; nlinarith
  have s1 : ‖Q.p1.vec‖ ≤ 1 := abs_le_of_sq_le_sq' (a := ‖Q.p1.vec‖) (by norm_num; nlinarith) (by norm_num) |>.2
  have t2 := norm_sub_norm_le q.real.p1.vec Q.p1.vec
  have t3 := norm_sub_norm_le q.real.p2.vec Q.p2.vec
  rw [norm_sub_rev] at t2 t3
  have p2 := (V4.vec_le_vec4 Q.p2).trans h.unit.p2
  have d0' := abs_le.1 d0
  refine ⟨⟨hη0, hζ0⟩, ⟨s0, s1⟩, ⟨?_, ?_⟩, ⟨d0, ?_, ?_⟩, ⟨p2, ?_⟩, d1, d2⟩
  · exact h.turn.trans_eq (V4.real_vec_norm q.p1).symm
  · norm_num at s1 d1 hη ⊢; linarith
  · have e : 0.999 / k = 1 / k - 0.001 * (1 / k) := by ring
    have e2 : 1 / 8 ≤ 1 / k := one_div_le_one_div_of_le (by linarith [h.two]) h.eight
    have := h.lo
    rw [e]
    norm_num at hη e2 this ⊢; linarith
  · norm_num at hη h1 ⊢; linarith
  · norm_num at d2 hζ ⊢; linarith

end

section
variable {hw : Hw F32} (hc : hw.Contract32) {lm : Libm F32} (hl : lm.Contract32) {hwr : Hw ℝ} (hx : hwr.Exact)
  (isa isa' : Isa)

section
variable {q : Motor F32} {Q : Motor ℝ} {k W η ζ : ℝ}

include hx in
/-- The logarithms of the exact and of the rounded motor, both taken exactly. -/
theorem Motor.NearK.log (h : q.NearK Q k W η ζ) :
    ((Q.log hwr Libm.real isa').WF ∧ 0 < ‖(Q.log hwr Libm.real isa').p1.vec‖ ∧ ‖(Q.log hwr Libm.real isa').p2.vec‖ ≤ k * W) ∧
    ((q.real.log hwr Libm.real isa').WF ∧ 0 < ‖(q.real.log hwr Libm.real isa').p1.vec‖) ∧
    ‖(Q.log hwr Libm.real isa').p1.vec - (q.real.log hwr Libm.real isa').p1.vec‖ ≤ 2.8 * k ^ 2 * η ∧
    ‖(Q.log hwr Libm.real isa').p2.vec - (q.real.log hwr Libm.real isa').p2.vec‖ ≤ 3 * k ^ 4 * η * W + 1.03 * k ^ 3 * ζ := by
  obtain ⟨⟨hη, hζ⟩, ⟨a0, a1⟩, ⟨b0, b1⟩, ⟨c0, c1, c2⟩, ⟨e0, e1⟩, d1, d2⟩ := h.size
  obtain ⟨P0, hP, h8, hk⟩ := h.pos
  have A0 : 0 < ‖Q.p1.vec‖ := a0
  have B0 : 0 < ‖q.real.p1.vec‖ := lt_of_lt_of_le (by norm_num) b0
  have w1 := h.one
  have k2 := h.two
  have hl := h.lo
  have c8 : 0.999 / 8 ≤ q.real.p1.l0 := le_trans (div_le_div_of_nonneg_left (by norm_num) (by linarith) h.eight) c1
  obtain ⟨m1, m2, m3⟩ := Motor.log_form hx isa' Q (le_trans (by norm_num) h8) A0
  obtain ⟨n1, n2, n3⟩ := Motor.log_form hx isa' q.real (le_trans (by norm_num) c8) B0
  have l1 := LogLip.dir_lip P0 hP c1 A0 B0
  have l2 := LogLip.mom_lip (w := Q.p2.vec) (w' := q.real.p2.vec) P0 hP c1 A0 B0
  have l3 := LogLip.mom_le (w := Q.p2.vec) (lt_of_lt_of_le P0 hP) A0
  rw [← m2, ← n2] at l1
  rw [← m3, ← n3] at l2
  rw [← m3] at l3
  have pos : ∀ {p : ℝ} {v : EuclideanSpace ℝ (Fin 3)}, 0.999 / k ≤ p → 0 < ‖v‖ → 0 < ‖LogLip.phi p ‖v‖ • v‖ := by
    intro p v hp hv
    have hp0 := lt_of_lt_of_le P0 hp
    have : 0 < LogLip.phi p ‖v‖ := div_pos (Real.arctan_pos.2 (by positivity)) hv
    rw [norm_smul, Real.norm_of_nonneg this.le]; positivity
  have k0 : 0 < k := by linarith
  have i1 : ∀ {x : ℝ}, x / (0.999 / k) = x * (1 / (0.999 / k)) := fun {x} => by ring
  have i2 : ∀ {x : ℝ}, x / (0.999 / k) ^ 2 = x * (1 / (0.999 / k)) ^ 2 := fun {x} => by field_simp
  have i4 : ∀ {x : ℝ}, x / (0.999 / k) ^ 4 = x * (1 / (0.999 / k)) ^ 4 := fun {x} => by field_simp
  have i3 : ∀ {x : ℝ}, x / (3 * (0.999 / k) ^ 3) = x * (1 / (0.999 / k)) ^ 3 / 3 := fun {x} => by field_simp
  rw [i1, i2] at l1
  rw [i1, i2, i3, i4] at l2
  have hp0 : 0 ≤ 1 / (0.999 / k) := by positivity
  have k1 : |Q.p1.l0 - q.real.p1.l0| + ‖Q.p1.vec - q.real.p1.vec‖ / 2 ≤ 1.87 * η := by norm_num at d1 ⊢; linarith
  have hm := SlerpWide.mono d1 (norm_nonneg _) d2 (norm_nonneg _) k1 (add_nonneg (abs_nonneg _) (div_nonneg (norm_nonneg _) zero_le_two))
    e0 (norm_nonneg _) a1 (norm_nonneg _) b1 (norm_nonneg _) e1 (norm_nonneg _) hk hp0
  refine ⟨⟨m1, by rw [m2]; exact pos hP A0, ?_⟩, ⟨n1, by rw [n2]; exact pos c1 B0⟩, ?_, ?_⟩
  · refine l3.trans ?_
    rw [div_le_iff₀ (lt_of_lt_of_le P0 hP)]
    have : 1 ≤ k * Q.p1.l0 := by rw [div_le_iff₀ k0] at hl; linarith
    calc ‖Q.p2.vec‖ ≤ W * 1 := by linarith
      _ ≤ W * (k * Q.p1.l0) := mul_le_mul_of_nonneg_left this (by linarith)
      _ = k * W * Q.p1.l0 := by ring
  · refine l1.trans ?_
    exact hm.1.trans (SlerpWide.log1 k2 hη)
  · refine l2.trans ?_
    exact hm.2.trans (SlerpWide.log2 k2 hη hζ (by linarith))

theorem Motor.NearK.ang (h : q.NearK Q k W η ζ) : 0.49 * √q.p1.sq3 ≤ q.ang ∧ q.ang ≤ 1.571 ∧
    W ≤ q.logScale (1.001 * W) ∧ q.logScale (1.001 * W) ≤ 2.01 * k * W := by
  obtain ⟨⟨hη, hζ⟩, ⟨a0, a1⟩, ⟨b0, b1⟩, ⟨c0, c1, c2⟩, ⟨e0, e1⟩, d1, d2⟩ := h.size
  obtain ⟨P0, hP, h8, hk⟩ := h.pos
  have w1 := h.one
  have k2 := h.two
  have B0 : 0 < ‖q.real.p1.vec‖ := lt_of_lt_of_le (by norm_num) b0
  have C0 : 0 < q.real.p1.l0 := lt_of_lt_of_le P0 c1
  have es : √q.p1.sq3 = ‖q.real.p1.vec‖ := (V4.real_vec_norm q.p1).symm
  have ea : q.ang = Real.arctan (‖q.real.p1.vec‖ / q.real.p1.l0) := by
    rw [Motor.ang, es]
    have h1 : |Complex.arg ⟨r q.p1.l0, ‖q.real.p1.vec‖⟩| < Real.pi / 2 := Complex.abs_arg_lt_pi_div_two_iff.2 (Or.inl C0)
    rw [← Real.arctan_tan (abs_lt.1 h1).1 (abs_lt.1 h1).2, Complex.tan_arg]
    rfl
  have hphi := LogLip.phi_le C0 B0
  have el : q.logScale (1.001 * W) = LogLip.phi q.real.p1.l0 ‖q.real.p1.vec‖ * (1.001 * W) + 1.001 * W / q.real.p1.l0 := by
    rw [Motor.logScale, ea, es, LogLip.phi, show r q.p1.l0 = q.real.p1.l0 from rfl, abs_of_pos C0]; ring
  have h1 : 1 / q.real.p1.l0 ≤ 1.0011 * k := (one_div_le_one_div_of_le P0 c1).trans hk
  have h2 : 0.9999 ≤ 1 / q.real.p1.l0 := by rw [le_div_iff₀ C0]; norm_num at c2 ⊢; linarith
  have h3 := LogLip.phi_nonneg C0 B0
  have e3 : 1.001 * W / q.real.p1.l0 = 1.001 * W * (1 / q.real.p1.l0) := by ring
  refine ⟨?_, ?_, ?_, ?_⟩
  · rw [ea, es]
    have hge := LogLip.arctan_ge' (x := 0.9999 * ‖q.real.p1.vec‖) (by positivity)
    have hmono : Real.arctan (0.9999 * ‖q.real.p1.vec‖) ≤ Real.arctan (‖q.real.p1.vec‖ / q.real.p1.l0) :=
      Real.arctan_strictMono.monotone (by
        rw [div_eq_mul_one_div, mul_comm]; exact mul_le_mul_of_nonneg_left h2 B0.le)
    refine le_trans ?_ (hge.trans hmono)
    rw [le_div_iff₀ (by positivity)]
    have : ‖q.real.p1.vec‖ ^ 2 ≤ 1.003 := (pow_le_pow_left₀ B0.le b1 2).trans (by norm_num)
    have : ‖q.real.p1.vec‖ * ‖q.real.p1.vec‖ ^ 2 ≤ ‖q.real.p1.vec‖ * 1.003 := mul_le_mul_of_nonneg_left this B0.le
    norm_num at this ⊢
    ring_nf at this ⊢
    linarith
  · rw [ea]
    have := Real.arctan_lt_pi_div_two (‖q.real.p1.vec‖ / q.real.p1.l0)
    have := Real.pi_lt_d4
    norm_num at this ⊢; linarith
  · rw [el, e3]
    have : 0 ≤ LogLip.phi q.real.p1.l0 ‖q.real.p1.vec‖ * (1.001 * W) := by positivity
    have k : 1.001 * W * 0.9999 ≤ 1.001 * W * (1 / q.real.p1.l0) :=
      mul_le_mul_of_nonneg_left h2 (by positivity)
    norm_num at k this ⊢; linarith
  · rw [el, e3]
    have k1 : LogLip.phi q.real.p1.l0 ‖q.real.p1.vec‖ * (1.001 * W) ≤ 1.0011 * k * (1.001 * W) :=
      mul_le_mul_of_nonneg_right (hphi.trans h1) (by positivity)
    have k2 : 1.001 * W * (1 / q.real.p1.l0) ≤ 1.001 * W * (1.0011 * k) := mul_le_mul_of_nonneg_left h1 (by positivity)
    refine (add_le_add k1 k2).trans ?_
    have : 0 ≤ k * W := by positivity
    norm_num; ring_nf at this ⊢; linarith

theorem Motor.NearK.power (h : q.NearK Q k W η ζ) {t : F32} (ht : t.isFinite = true) (ht1 : |r t| ≤ 1)
    (hm : 1 / 2 ^ 27 ≤ |r t| * √q.p1.sq3) : q.Power t (1.001 * W) := by
  obtain ⟨⟨hη, hζ⟩, ⟨a0, a1⟩, ⟨b0, b1⟩, ⟨c0, c1, c2⟩, ⟨e0, e1⟩, d1, d2⟩ := h.size
  obtain ⟨P0, hP, h8, hk⟩ := h.pos
  obtain ⟨g1, g2, g3, g4⟩ := h.ang
  have w1 := h.one
  have w2 := h.top
  have k2 := h.two
  have C0 : 0 < q.real.p1.l0 := lt_of_lt_of_le P0 c1
  have c8 : 0.999 / 8 ≤ q.real.p1.l0 := le_trans (div_le_div_of_nonneg_left (by norm_num) (by linarith) h.eight) c1
  have B0 : 0 < ‖q.real.p1.vec‖ := lt_of_lt_of_le (by norm_num) b0
  have es : q.p1.sq3 = ‖q.real.p1.vec‖ ^ 2 := by
    rw [show q.real.p1 = q.p1.real from rfl, V4.real_vec_norm, Real.sq_sqrt (by rw [V4.sq3]; positivity)]
  have es2 : q.p2.sq3 = ‖q.real.p2.vec‖ ^ 2 := by
    rw [show q.real.p2 = q.p2.real from rfl, V4.real_vec_norm, Real.sq_sqrt (by rw [V4.sq3]; positivity)]
  have es3 : √q.p1.sq3 = ‖q.real.p1.vec‖ := (V4.real_vec_norm q.p1).symm
  rw [es3] at hm g1
  have ht0 : 1 / 2 ^ 28 ≤ |r t| := by
    have := mul_le_mul_of_nonneg_left b1 (abs_nonneg (r t))
    norm_num at this hm ⊢; linarith [abs_nonneg (r t)]
  have T0 : 0 < |r t| := lt_of_lt_of_le (by positivity) ht0
  have k1 : ∀ i : Fin 4, |r (q.p1.get i)| ≤ 2 := fun i => by
    have h1 := abs_sub_abs_le_abs_sub (r (q.p1.get i)) (Q.p1.get i)
    have h2 := V4.vec4_lane Q.p1 i
    rw [h.unit.p1] at h2
    have h3 := (h.close.1 i).2
    have h4 : η ≤ 1 := h.eta.trans (by norm_num)
    linarith
  have k' : ∀ i : Fin 4, |r (q.p2.get i)| ≤ 2 * W := fun i => by
    have h1 := abs_sub_abs_le_abs_sub (r (q.p2.get i)) (Q.p2.get i)
    have h2 := (V4.vec4_lane Q.p2 i).trans h.unit.p2
    have h3 := (h.close.2 i).2
    have h4 : ζ ≤ W := h.zeta.trans (div_le_self (by linarith) (by norm_num))
    linarith
  refine ⟨⟨⟨fun i => le2_of_abs (h.close.1 i).1 ((k1 i).trans (by norm_num)), ?_,
    fun i => le2_of_abs (h.close.2 i).1 ((k' i).trans ?_), ?_, ⟨?_, ?_⟩⟩, ?_⟩, ht, ?_, ?_, ⟨?_, ?_⟩⟩
  · rw [es]
    refine le_trans ?_ (pow_le_pow_left₀ (by positivity) b0 2)
    norm_num
  · norm_num at w2 ⊢; linarith
  · rw [es2]; exact pow_le_pow_left₀ (norm_nonneg _) e1 2
  · norm_num; linarith
  · norm_num at w2 ⊢; linarith
  · rw [show r q.p1.l0 = q.real.p1.l0 from rfl, abs_of_pos C0]; exact le_trans (by norm_num) c8
  · have := mul_le_mul_of_nonneg_left g1 T0.le
    norm_num at hm this ⊢; linarith
  · calc |r t| * q.ang ≤ 1 * 1.571 := mul_le_mul ht1 g2 (le_trans (by positivity) g1) (by norm_num)
      _ ≤ 3.99 := by norm_num
  · calc (1 : ℝ) / 2 ^ 29 ≤ 1 / 2 ^ 28 * 1 := by norm_num
      _ ≤ |r t| * q.logScale (1.001 * W) := mul_le_mul ht0 (w1.trans g3) (by norm_num) T0.le
  · have h9 := h.eight
    calc |r t| * q.logScale (1.001 * W) ≤ 1 * (2.01 * k * W) := mul_le_mul ht1 g4 (by linarith) (by norm_num)
      _ ≤ 1 * (2.01 * 8 * W) := by gcongr
      _ ≤ 2 ^ 31 := by norm_num at w2 ⊢; linarith

include hc hl hx in
/-- C98: `exp(t * log(q))` of a rounded motor with a scalar part of at least `1/k`. -/
theorem C98_power_wide (h : q.NearK Q k W η ζ) {t : F32} (ht : t.isFinite = true) (ht1 : |r t| ≤ 1)
    (hm : 1 / 2 ^ 27 ≤ |r t| * √q.p1.sq3) :
    Motor.Close (((q.log hw lm isa).mulAssign t).exp hw lm isa) (((Q.log hwr Libm.real isa').smul (r t)).exp hwr Libm.real isa')
      (5.3e-6 + |r t| * (6.5e-6 + 2.8 * k ^ 2 * η)) (|r t| * ((1.6e-4 * k + 13 * k ^ 4 * η) * W + 1.03 * k ^ 3 * ζ)) := by
  have hP := h.power ht ht1 hm
  obtain ⟨⟨m1, m2, m3⟩, ⟨n1, n2⟩, l1, l2⟩ := h.log hx isa'
  obtain ⟨g1, g2, g3, g4⟩ := h.ang
  obtain ⟨⟨hη, hζ⟩, -⟩ := h.size
  have w1 := h.one
  have k2 := h.two
  have k0 : 0 < k := by linarith
  have T0 : 0 < |r t| := pos_of_turn hm
  have wf : ∀ {l : Line ℝ}, l.WF → (l.smul (r t)).WF := fun w => by
    obtain ⟨w1, w2⟩ := w
    refine ⟨?_, ?_⟩
    · simp only [kln, sse, w1, zero_mul]
    · simp only [kln, sse, w2, zero_mul]
  obtain ⟨sm1, sm2⟩ := Line.smul_vec (Q.log hwr Libm.real isa') (r t)
  obtain ⟨sn1, sn2⟩ := Line.smul_vec (q.real.log hwr Libm.real isa') (r t)
  have pos : ∀ {l : Line ℝ}, 0 < ‖l.p1.vec‖ → 0 < dot3 (l.smul (r t)).p1 (l.smul (r t)).p1 := fun {l} hl => by
    refine Real.sqrt_pos.1 ?_
    rw [← V4.vec_norm, (Line.smul_vec l (r t)).1, norm_smul, Real.norm_eq_abs]
    positivity
  have x1 : ‖((Q.log hwr Libm.real isa').smul (r t)).p1.vec - ((q.real.log hwr Libm.real isa').smul (r t)).p1.vec‖ ≤
      |r t| * (2.8 * k ^ 2 * η) := by
    rw [sm1, sn1, ← smul_sub, norm_smul, Real.norm_eq_abs]
    exact mul_le_mul_of_nonneg_left l1 T0.le
  have x2 : ‖((Q.log hwr Libm.real isa').smul (r t)).p2.vec - ((q.real.log hwr Libm.real isa').smul (r t)).p2.vec‖ ≤
      |r t| * (3 * k ^ 4 * η * W + 1.03 * k ^ 3 * ζ) := by
    rw [sm2, sn2, ← smul_sub, norm_smul, Real.norm_eq_abs]
    exact mul_le_mul_of_nonneg_left l2 T0.le
  have x3 : ‖((Q.log hwr Libm.real isa').smul (r t)).p2.vec‖ ≤ |r t| * (k * W) := by
    rw [sm2, norm_smul, Real.norm_eq_abs]
    exact mul_le_mul_of_nonneg_left m3 T0.le
  have hang : |r t| * q.ang ≤ |r t| * 1.571 := mul_le_mul_of_nonneg_left g2 T0.le
  refine ⟨fun i => ?_, fun i => ?_⟩
  · obtain ⟨f1, f2⟩ := C95_power_p1 hc hl hx isa isa' hP i
    refine ⟨f1, ?_⟩
    have f3 := Line.exp_lip_p1 hx isa' (wf m1) (wf n1) (pos m2) (pos n2) i
    rw [abs_sub_comm] at f3
    have := abs_add_le (r ((((q.log hw lm isa).mulAssign t).exp hw lm isa).p1.get i) -
        ((((q.real.log hwr Libm.real isa').mulAssign (r t)).exp hwr Libm.real isa').p1.get i))
      ((((q.real.log hwr Libm.real isa').smul (r t)).exp hwr Libm.real isa').p1.get i -
        (((Q.log hwr Libm.real isa').smul (r t)).exp hwr Libm.real isa').p1.get i)
    rw [show (q.real.log hwr Libm.real isa').mulAssign (r t) = (q.real.log hwr Libm.real isa').smul (r t) from rfl] at this f2
    rw [sub_add_sub_cancel] at this
    refine this.trans ((add_le_add f2 (f3.trans x1)).trans ?_)
    have : 4.1e-6 * (|r t| * q.ang) ≤ 4.1e-6 * (|r t| * 1.571) := mul_le_mul_of_nonneg_left hang (by norm_num)
    norm_num at this ⊢; linarith
  · obtain ⟨f1, f2⟩ := C95_power_p2 hc hl hx isa isa' hP i
    refine ⟨f1, ?_⟩
    have f3 := Line.exp_lip_p2 hx isa' (wf m1) (wf n1) (pos m2) (pos n2) i
    rw [abs_sub_comm] at f3
    have := abs_add_le (r ((((q.log hw lm isa).mulAssign t).exp hw lm isa).p2.get i) -
        ((((q.real.log hwr Libm.real isa').mulAssign (r t)).exp hwr Libm.real isa').p2.get i))
      ((((q.real.log hwr Libm.real isa').smul (r t)).exp hwr Libm.real isa').p2.get i -
        (((Q.log hwr Libm.real isa').smul (r t)).exp hwr Libm.real isa').p2.get i)
    rw [show (q.real.log hwr Libm.real isa').mulAssign (r t) = (q.real.log hwr Libm.real isa').smul (r t) from rfl] at this f2
    rw [sub_add_sub_cancel] at this
    have y1 : (3.3e-5 + 2.9e-5 * (|r t| * q.ang)) * (|r t| * q.logScale (1.001 * W)) ≤
        (3.3e-5 + 2.9e-5 * (1 * 1.571)) * (|r t| * (2.01 * k * W)) := by
      have : 0 ≤ q.ang := le_trans (by positivity) g1
      have : 0 ≤ q.logScale (1.001 * W) := by linarith
      have : |r t| * q.ang ≤ 1 * 1.571 := by gcongr
      gcongr
    have y2 : 7 * ‖((Q.log hwr Libm.real isa').smul (r t)).p1.vec - ((q.real.log hwr Libm.real isa').smul (r t)).p1.vec‖ *
        ‖((Q.log hwr Libm.real isa').smul (r t)).p2.vec‖ ≤ 7 * (1 * (2.8 * k ^ 2 * η)) * (|r t| * (k * W)) := by
      gcongr
      exact x1.trans (mul_le_mul_of_nonneg_right ht1 (by positivity))
    refine this.trans ((add_le_add (f2.trans y1) (f3.trans (add_le_add y2 x2))).trans ?_)
    have z1 : 0 ≤ |r t| * W * k := by positivity
    have z2 : 2 * k ^ 3 * (|r t| * W * η) ≤ k ^ 4 * (|r t| * W * η) :=
      mul_le_mul_of_nonneg_right (SlerpWide.powers k2).2.2 (by positivity)
    have z3 : 0 ≤ k ^ 4 * (|r t| * W * η) := by positivity
    norm_num
    ring_nf at z1 z2 z3 ⊢
    linarith

include hc hl hx in
/-- C98: interpolation of motors that are up to 165 degrees apart. -/
theorem C98_slerp_wide_near {a b : Motor F32} {A B : Motor ℝ} {k C δ : ℝ} (hk2 : 2 ≤ k) (hk8 : k ≤ 8) (hA : A.UnitBy C)
    (hB : B.UnitBy C) (hC1 : 1 ≤ C) (hC2 : C ≤ 2 ^ 15) (h0 : 1 / k ≤ dot4 A.p1 B.p1) (h1 : dot4 A.p1 B.p1 < 1) (hδ : δ ≤ 1 / 2 ^ 21)
    (ha : a.Close A δ (δ * C)) (hb : b.Close B δ (δ * C)) {t : F32} (ht : t.isFinite = true) (ht1 : |r t| ≤ 1)
    (hm : 1 / 2 ^ 27 ≤ |r t| * √(b.mulMotor a.rev).p1.sq3) :
    (slerp hw lm isa a b t).Close (slerp hwr Libm.real isa' A B (r t))
      (1.15e-5 + |r t| * ((8.1e-6 + 22.8 * δ) * k ^ 2) + 2 * δ) (C * (1e-5 * k + |r t| * ((1.3e-4 + 226 * δ) * k ^ 4) + 2.1 * δ)) := by
  have hδ0 : 0 ≤ δ := (abs_nonneg _).trans (ha.1 0).2
  have k0 : 0 < k := by linarith
  have T0 : 0 < |r t| := pos_of_turn hm
  have hturn : 1 / 2 ^ 29 ≤ √(b.mulMotor a.rev).p1.sq3 := by
    refine le_trans (le_trans (by norm_num) hm) (mul_le_of_le_one_left (Real.sqrt_nonneg _) ht1)
  have d1 : δ ≤ 1 / 1000 := hδ.trans (by norm_num)
  have dC : δ * C ≤ 1 / 1000 * C := mul_le_mul_of_nonneg_right d1 (by linarith)
  have c1 := Motor.Close.mul (M := C) hB hA.rev hb ha.rev d1 d1 ⟨le_trans (by norm_num) hC1, hC2.trans (by norm_num)⟩
    (by norm_num at dC ⊢; linarith) (by norm_num at dC ⊢; linarith)
  have hU := hB.mul hA.rev
  have hs : (B.mulMotor A.rev).p1.l0 = dot4 A.p1 B.p1 := by
    simp only [kln, sse, dot4, cond_true, cond_false]; ring
  rw [← hs] at h0 h1
  have dC' : δ * C ≤ 1 / 2 ^ 21 * C := mul_le_mul_of_nonneg_right hδ (by linarith)
  have dC0 : 0 ≤ δ * C := by positivity
  have ddC : δ * (δ * C) ≤ 1 / 1000 * (δ * C) := mul_le_mul_of_nonneg_right d1 dC0
  have hN : (b.mulMotor a.rev).NearK (B.mulMotor A.rev) k (C + C) (8.4e-7 + 4.01 * δ) ((2.1e-6 + 8.02 * δ) * C) := by
    refine ⟨hk2, hk8, hU, by linarith, by norm_num at hC2 ⊢; linarith, h0, h1, hturn, ?_, ?_, ?_⟩
    · norm_num at hδ ⊢; linarith
    · norm_num at dC' ⊢; linarith
    · refine ⟨fun i => ⟨(c1.1 i).1, (c1.1 i).2.trans ?_⟩, fun i => ⟨(c1.2 i).1, (c1.2 i).2.trans ?_⟩⟩
      · norm_num; linarith
      · norm_num at ddC ⊢; nlinarith
  have c2 := C98_power_wide hc hl hx isa isa' hN ht ht1 hm
  obtain ⟨⟨m1, m2, m3⟩, -, -, -⟩ := hN.log hx isa'
  have eF : slerp hw lm isa a b t =
      ((((b.mulMotor a.rev).log hw lm isa).mulAssign t).exp hw lm isa).mulMotor a := rfl
  have eR : slerp hwr Libm.real isa' A B (r t) =
      ((((B.mulMotor A.rev).log hwr Libm.real isa').smul (r t)).exp hwr Libm.real isa').mulMotor A := rfl
  rw [eF, eR]
  obtain ⟨sm1, sm2⟩ := Line.smul_vec ((B.mulMotor A.rev).log hwr Libm.real isa') (r t)
  have hE : ((((B.mulMotor A.rev).log hwr Libm.real isa').smul (r t)).exp hwr Libm.real isa').UnitBy (|r t| * (2 * k * C)) := by
    have hw : (((B.mulMotor A.rev).log hwr Libm.real isa').smul (r t)).WF := by
      obtain ⟨w1, w2⟩ := m1
      refine ⟨?_, ?_⟩
      · simp only [Line.smul, sse, w1, zero_mul]
      · simp only [Line.smul, sse, w2, zero_mul]
    have := Line.exp_unitBy hx isa' hw (by rw [sm1, norm_smul, Real.norm_eq_abs]; positivity)
    refine ⟨this.p1, this.p2.trans ?_⟩
    rw [sm2, norm_smul, Real.norm_eq_abs]
    exact mul_le_mul_of_nonneg_left (m3.trans (by linarith)) T0.le
  have C0 : 0 ≤ C := by linarith
  have v1 := SlerpWide.pow1 hk2 hδ0
  have v2 := SlerpWide.pow2 hk2 hδ0 C0
  have e1s := SlerpWide.err1 hk8 hk2 hδ
  have e2s := SlerpWide.err2 hk8 hk2 hδ
  have o1 := SlerpWide.out1 (k := k) T0.le hδ0
  have o2 := SlerpWide.out2 hk2 T0.le hδ0 hδ C0
  have e10 : 0 ≤ (4e-6 + 11.3 * δ) * k ^ 2 := by positivity
  have e20 : 0 ≤ (6.3e-5 + 109 * δ) * k ^ 4 := by positivity
  generalize (4e-6 + 11.3 * δ) * k ^ 2 = e1 at *
  generalize (6.3e-5 + 109 * δ) * k ^ 4 = e2 at *
  have w1 : |r t| * e1 ≤ e1 := mul_le_of_le_one_left e10 ht1
  have w2 : |r t| * (e2 * C) ≤ e2 * C := mul_le_of_le_one_left (by positivity) ht1
  have c2' : Motor.Close ((((b.mulMotor a.rev).log hw lm isa).mulAssign t).exp hw lm isa)
      ((((B.mulMotor A.rev).log hwr Libm.real isa').smul (r t)).exp hwr Libm.real isa')
      (5.3e-6 + |r t| * e1) (|r t| * (e2 * C)) :=
    ⟨fun i => ⟨(c2.1 i).1, (c2.1 i).2.trans (by linarith [mul_le_mul_of_nonneg_left v1 T0.le])⟩,
      fun i => ⟨(c2.2 i).1, (c2.2 i).2.trans (mul_le_mul_of_nonneg_left v2 T0.le)⟩⟩
  have kC : 2 * C ≤ k * C := mul_le_mul_of_nonneg_right hk2 C0
  have kC8 : k * C ≤ 8 * C := mul_le_mul_of_nonneg_right hk8 C0
  have tC : |r t| * (2 * k * C) ≤ 2 * k * C := mul_le_of_le_one_left (by positivity) ht1
  have e2C : e2 * C ≤ 0.06 * (k * C) := by
    have := mul_le_mul_of_nonneg_right e2s (show 0 ≤ C by linarith); linarith
  have c3 := Motor.Close.mul (M := 2.1 * (k * C)) hE hA c2' ha (by norm_num at e1s ⊢; linarith) d1
    ⟨by norm_num; linarith, by norm_num at hC2 ⊢; linarith⟩
    (by norm_num at e2C ⊢; linarith) (by norm_num at dC ⊢; linarith)
  exact ⟨fun i => ⟨(c3.1 i).1, (c3.1 i).2.trans o1⟩, fun i => ⟨(c3.2 i).1, (c3.2 i).2.trans o2⟩⟩

include hc hl hx in
/-- C98: the same if the orientations are not too close, without reference to what is computed. -/
theorem C98_slerp_wide {a b : Motor F32} {A B : Motor ℝ} {k C δ : ℝ} (hk2 : 2 ≤ k) (hk8 : k ≤ 8) (hA : A.UnitBy C)
    (hB : B.UnitBy C) (hC1 : 1 ≤ C) (hC2 : C ≤ 2 ^ 15) (h0 : 1 / k ≤ dot4 A.p1 B.p1) (h1 : dot4 A.p1 B.p1 ≤ 1 - 1 / 2 ^ 16)
    (hδ : δ ≤ 1 / 2 ^ 21) (ha : a.Close A δ (δ * C)) (hb : b.Close B δ (δ * C)) {t : F32} (ht : t.isFinite = true)
    (ht0 : 1 / 2 ^ 18 ≤ |r t|) (ht1 : |r t| ≤ 1) :
    (slerp hw lm isa a b t).Close (slerp hwr Libm.real isa' A B (r t))
      (1.15e-5 + |r t| * ((8.1e-6 + 22.8 * δ) * k ^ 2) + 2 * δ) (C * (1e-5 * k + |r t| * ((1.3e-4 + 226 * δ) * k ^ 4) + 2.1 * δ)) := by
  refine C98_slerp_wide_near hc hl hx isa isa' hk2 hk8 hA hB hC1 hC2 h0 (h1.trans_lt (by norm_num)) hδ ha hb ht ht1 ?_
  have d1 : δ ≤ 1 / 1000 := hδ.trans (by norm_num)
  have dC : δ * C ≤ 1 / 1000 * C := mul_le_mul_of_nonneg_right d1 (by linarith)
  have c1 := (Motor.Close.mul (M := C) hB hA.rev hb ha.rev d1 d1 ⟨le_trans (by norm_num) hC1, hC2.trans (by norm_num)⟩
    (by norm_num at dC ⊢; linarith) (by norm_num at dC ⊢; linarith)).1
  have hU := (hB.mul hA.rev).p1
  have hs : (B.mulMotor A.rev).p1.l0 = dot4 A.p1 B.p1 := by
    simp only [kln, sse, dot4, cond_true, cond_false]; ring
  have hp : 0 < dot4 A.p1 B.p1 := lt_of_lt_of_le (one_div_pos.2 (by linarith)) h0
  rw [← hs] at hp h1
  generalize B.mulMotor A.rev = Q at *
  generalize b.mulMotor a.rev = q at *
  have hη : 8.4e-7 + 2.01 * δ + 2 * δ ≤ 3e-6 := by norm_num at hδ ⊢; linarith
  have hv := V4.vec_sub_norm (v := Q.p1) (w := q.p1.real) (e := 3e-6) (by norm_num) (fun i _ => by
    rw [abs_sub_comm, V4.real_get]; exact (c1 i).2.trans hη)
  have h3 := V4.vec4_split Q.p1
  rw [hU] at h3
  have s0 : 0.0055 ≤ ‖Q.p1.vec‖ := by
    refine abs_le_of_sq_le_sq' (a := (0.0055 : ℝ)) ?_ (norm_nonneg _) |>.2
    have : Q.p1.l0 ^ 2 ≤ (1 - 1 / 2 ^ 16) ^ 2 := pow_le_pow_left₀ hp.le h1 2
    norm_num at this ⊢; linarith
  have t1 := norm_sub_norm_le Q.p1.vec q.p1.real.vec
  rw [V4.real_vec_norm q.p1] at t1
  have s1 : 0.0054 ≤ √q.p1.sq3 := by norm_num at s0 t1 hv ⊢; linarith
  exact le_trans (by norm_num) (mul_le_mul ht0 s1 (by norm_num) (abs_nonneg _))

end

include hc hl in
/-- C98: the computed blend of normalised motors ends close to the second one. -/
theorem C98_slerp_wide_end {a b : Motor F32} {A B : Motor ℝ} {k C δ : ℝ} (hk2 : 2 ≤ k) (hk8 : k ≤ 8) (nA : A.Normed) (nB : B.Normed)
    (hA : ‖A.p2.vec4‖ ≤ C) (hB : ‖B.p2.vec4‖ ≤ C) (hC1 : 1 ≤ C)
    (hC2 : C ≤ 2 ^ 15) (h0 : 1 / k ≤ dot4 A.p1 B.p1) (h1 : dot4 A.p1 B.p1 ≤ 1 - 1 / 2 ^ 16) (hδ : δ ≤ 1 / 2 ^ 21)
    (ha : a.Close A δ (δ * C)) (hb : b.Close B δ (δ * C)) :
    (slerp hw lm isa a b 1).Close B (1.15e-5 + (8.1e-6 + 22.8 * δ) * k ^ 2 + 2 * δ)
      (C * (1e-5 * k + (1.3e-4 + 226 * δ) * k ^ 4 + 2.1 * δ)) := by
  have e1 : r (1 : F32) = 1 := by rw [r, one_val]; norm_num
  have h := C98_slerp_wide hc hl Hw.ideal_exact isa isa hk2 hk8 (nA.unitBy hA) (nB.unitBy hB) hC1 hC2 h0 h1 hδ ha hb (t := 1) (by rfl)
    (by rw [e1]; norm_num) (by rw [e1]; norm_num)
  have hs : (B.mulMotor A.rev).p1.l0 = dot4 A.p1 B.p1 := by
    simp only [kln, sse, dot4, cond_true, cond_false]; ring
  have h8 : 1 / 8 ≤ dot4 A.p1 B.p1 := le_trans (one_div_le_one_div_of_le (by linarith) hk8) h0
  have hP : (B.mulMotor A.rev).Principal := by
    refine Or.inl ⟨?_, Or.inl ?_⟩
    · have hU := ((nB.unitBy hB).mul (nA.unitBy hA).rev).p1
      have h2 := V4.vec4_split (B.mulMotor A.rev).p1
      rw [hU, hs] at h2
      have h5 : dot4 A.p1 B.p1 ^ 2 ≤ (1 - 1 / 2 ^ 16) ^ 2 := pow_le_pow_left₀ (by linarith) h1 2
      have h3 : 0 < ‖(B.mulMotor A.rev).p1.vec‖ ^ 2 := by norm_num at h5; linarith
      have h4 : 0 < ‖(B.mulMotor A.rev).p1.vec‖ := lt_of_le_of_ne (norm_nonneg _) fun hz => by
        rw [← hz] at h3; norm_num at h3
      rw [V4.vec_norm] at h4
      exact h4
    · rw [show (B.mulMotor A.rev).scalar = (B.mulMotor A.rev).p1.l0 from rfl, hs, abs_of_nonneg (by linarith)]
      exact le_trans (by norm_num) h8
  rw [e1, C74_slerp_one_partial Hw.ideal_exact isa nA nB hP, abs_one, one_mul, one_mul] at h
  exact h

end

/-! ### a concrete case -/

/-- A turn by 147 degrees about a vertical axis away from the origin: `(7 + 24 e12) / 25 + e01 + 2 e02`. -/
noncomputable def wideB : Motor ℝ := ⟨⟨7 / 25, 0, 0, 24 / 25⟩, ⟨0, 1, 2, 0⟩⟩
/-- The same, rounded. -/
def wideb : Motor F32 := ⟨⟨F32.round false (7 / 25), 0, 0, F32.round false (24 / 25)⟩, ⟨0, 1, 2, 0⟩⟩

theorem wideb_close : wideb.Close wideB (1 / 2 ^ 25) (1 / 2 ^ 25 * 3) := by
  refine ⟨?_, moveb_close.2⟩
  have h : |wideb.p1.l0.val - 7 / 25| ≤ 1 / 2 ^ 25 ∧ wideb.p1.l1.val = 0 ∧ wideb.p1.l2.val = 0 ∧ |wideb.p1.l3.val - 24 / 25| ≤ 1 / 2 ^ 25 ∧
    (∀ i, (wideb.p1.get i).isFinite = true) := by decide +kernel
  obtain ⟨h0, h1, h2, h3, hf⟩ := h
  intro i
  refine ⟨hf i, ?_⟩
  match i with
  | 0 =>
    have := (Rat.cast_le (K := ℝ)).2 h0
    push_cast at this
    exact this
  | 1 => simp only [V4.get, r, h1, wideB]; norm_num
  | 2 => simp only [V4.get, r, h2, wideB]; norm_num
  | 3 =>
    have := (Rat.cast_le (K := ℝ)).2 h3
    push_cast at this
    exact this

/-- C98: the computed blend from the identity to `(7 + 24 e12) / 25 + e01 + 2 e02` ends there. -/
theorem C98_wide_example {hw : Hw F32} (hc : hw.Contract32) {lm : Libm F32} (hl : lm.Contract32) (isa : Isa) :
    (slerp hw lm isa ⟨⟨1, 0, 0, 0⟩, ⟨0, 0, 0, 0⟩⟩ wideb 1).Close wideB 1.6e-4 0.11 := by
  have hd : dot4 (⟨1, 0, 0, 0⟩ : V4 ℝ) wideB.p1 = 7 / 25 := by simp only [wideB, dot4]; norm_num
  have n3 : ∀ {v : V4 ℝ}, dot4 v v ≤ 3 ^ 2 → ‖v.vec4‖ ≤ 3 := fun h =>
    abs_le_of_sq_le_sq' (by rw [V4.vec4_sq]; exact h) (by norm_num) |>.2
  have h := C98_slerp_wide_end hc hl isa (A := ⟨⟨1, 0, 0, 0⟩, ⟨0, 0, 0, 0⟩⟩) (B := wideB) (k := 4) (C := 3) (δ := 1 / 2 ^ 25)
    (by norm_num) (by norm_num)
    (by simp only [Motor.Normed]; apply PGA.MV.ext <;> simp [pga, kln, sse])
    (by simp only [Motor.Normed, wideB]; apply PGA.MV.ext <;> norm_num [pga, kln, sse])
    (n3 (by norm_num [dot4])) (n3 (by norm_num [dot4, wideB])) (by norm_num) (by norm_num)
    (by rw [hd]; norm_num) (by rw [hd]; norm_num) (by norm_num) still_close wideb_close
  refine ⟨fun i => ⟨(h.1 i).1, (h.1 i).2.trans ?_⟩, fun i => ⟨(h.2 i).1, (h.2 i).2.trans ?_⟩⟩ <;> norm_num

end Klein
