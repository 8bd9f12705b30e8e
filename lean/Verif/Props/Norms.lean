import Verif.Props.Newton
import Verif.Props.Products
import Verif.Props.Rigid

/-!
# C24: normalisation gives unit norm; C25: normalisation does not move the entity

The first theorem of each group is unconditional: it gives the norm of the result in terms of the
refined estimates `s ≈ 1/√N`, `ρ ≈ 1/N`.  The exact and the quantitative statements follow.
-/

set_option linter.unusedSimpArgs false
set_option linter.unusedSectionVars false

namespace Klein

open PGA PGA.MV Euclid

section Ring
variable {K : Type} [CommRing K] [Div K]

/-- Squared norm of a rotor. -/
def Rotor.sqNorm {K : Type} [CommRing K] (r : Rotor K) : K :=
  r.scalar * r.scalar + r.e23 * r.e23 + r.e31 * r.e31 + r.e12 * r.e12

/-- Squared norm of a branch. -/
def Branch.sqNorm {K : Type} [CommRing K] (b : Branch K) : K :=
  b.e23 * b.e23 + b.e31 * b.e31 + b.e12 * b.e12

/-- Squared norm of the direction of a line. -/
def Line.sqNorm {K : Type} [CommRing K] (l : Line K) : K := dot l.dir l.dir

/-- Squared norm of a direction. -/
def Direction.sqNorm {K : Type} [CommRing K] (d : Direction K) : K := dot d.vec d.vec

/-! ### what `normalize` computes -/

theorem C24_plane_value (hw : Hw K) (isa : Isa) (p : Plane K) :
    (p.normalize hw isa).sqNorm = p.sqNorm * rsqrt1 hw p.sqNorm ^ 2 := by
  rw [Plane.normalize_eq]
  have : dot3 p.p0 p.p0 = p.sqNorm := rfl
  rw [this]
  simp only [Plane.sqNorm, dot, Plane.normal, kln]
  ring

theorem C24_direction_value (hw : Hw K) (isa : Isa) (p : Direction K) :
    (p.normalize hw isa).sqNorm = p.sqNorm * rsqrt1 hw p.sqNorm ^ 2 := by
  rw [Direction.normalize_eq]
  have : dot3 p.p3 p.p3 = p.sqNorm := rfl
  rw [this]
  simp only [Direction.sqNorm, dot, Direction.vec, kln, sse]
  ring

theorem C24_branch_value (hw : Hw K) (isa : Isa) (p : Branch K) :
    (p.normalize hw isa).sqNorm = p.sqNorm * rsqrt1 hw p.sqNorm ^ 2 := by
  rw [Branch.normalize_eq]
  have : dot3 p.p1 p.p1 = p.sqNorm := rfl
  rw [this]
  simp only [Branch.sqNorm, kln, sse]
  ring

theorem C24_rotor_value (hw : Hw K) (isa : Isa) (p : Rotor K) :
    (p.normalize hw isa).mv * PGA.MV.rev (p.normalize hw isa).mv
      = scalarMv (p.sqNorm * rsqrt1 hw p.sqNorm ^ 2) := by
  rw [Rotor.normalize_eq]
  have : dot4 p.p1 p.p1 = p.sqNorm := rfl
  rw [this]
  generalize rsqrt1 hw p.sqNorm = s
  simp only [Rotor.sqNorm]
  mv_ring

theorem C24_point_value {K : Type} [CommRing K] (hw : Hw K) (p : Point K) :
    (p.normalize hw).w = p.w * rcp1 hw p.w := rfl

/-- `m ~m` for the normalised motor. -/
theorem C24_motor_value (hw : Hw K) (isa : Isa) (m : Motor K) :
    (m.normalize hw isa).mv * PGA.MV.rev (m.normalize hw isa).mv = { (0 : MV K) with
      s := m.sqNorm * rsqrt1 hw m.sqNorm ^ 2
      e0123 := 2 * (m.scalar * m.e0123 - m.e23 * m.e01 - m.e31 * m.e02 - m.e12 * m.e03)
        * rsqrt1 hw m.sqNorm ^ 2 * (1 - m.sqNorm * rcp1 hw m.sqNorm) } := by
  rw [Motor.normalize_eq]
  have : dot4 m.p1 m.p1 = m.sqNorm := rfl
  rw [this]
  generalize rsqrt1 hw m.sqNorm = s
  generalize rcp1 hw m.sqNorm = r
  simp only [Motor.sqNorm, Motor.dualSmul, Motor.bc]
  mv_ring

/-- `l²` for the normalised line. -/
theorem C24_line_value (hw : Hw K) (isa : Isa) (l : Line K) :
    (l.normalize hw isa).mv * (l.normalize hw isa).mv = { (0 : MV K) with
      s := -(l.sqNorm * rsqrt1 hw l.sqNorm ^ 2)
      e0123 := 2 * dot l.dir l.mom
        * rsqrt1 hw l.sqNorm ^ 2 * (1 - l.sqNorm * rcp1 hw l.sqNorm) } := by
  rw [Line.normalize_eq]
  have : dot3 l.p1 l.p1 = l.sqNorm := rfl
  rw [this]
  generalize rsqrt1 hw l.sqNorm = s
  generalize rcp1 hw l.sqNorm = r
  simp only [Line.sqNorm, Line.dualSmul, dot, Line.dir, Line.mom, dot3]
  mv_ring

end Ring

/-! ### exact arithmetic -/
section Exact
variable {K : Type} [Field K] [CharZero K]

theorem sq_exact {hw : Hw K} {a : K} (h : hw.RsqrtAt a) : a * rsqrt1 hw a ^ 2 = 1 := by
  rw [rsqrt_nr1_exact hw h, pow_two]; exact h

theorem rcp_exact {K : Type} [CommRing K] {hw : Hw K} {a : K} (h : hw.RcpAt a) :
    a * rcp1 hw a = 1 := by
  rw [rcp_nr1_exact hw h]; exact h

/-- C24: unit norm after `normalize`, exact estimates. -/
theorem C24_plane (hw : Hw K) (isa : Isa) (p : Plane K) (h : hw.RsqrtAt p.sqNorm) :
    (p.normalize hw isa).sqNorm = 1 := by rw [C24_plane_value, sq_exact h]

theorem C24_direction (hw : Hw K) (isa : Isa) (p : Direction K) (h : hw.RsqrtAt p.sqNorm) :
    (p.normalize hw isa).sqNorm = 1 := by rw [C24_direction_value, sq_exact h]

theorem C24_branch (hw : Hw K) (isa : Isa) (p : Branch K) (h : hw.RsqrtAt p.sqNorm) :
    (p.normalize hw isa).sqNorm = 1 := by rw [C24_branch_value, sq_exact h]

theorem C24_rotor (hw : Hw K) (isa : Isa) (p : Rotor K) (h : hw.RsqrtAt p.sqNorm) :
    (p.normalize hw isa).mv * PGA.MV.rev (p.normalize hw isa).mv = 1 := by
  rw [C24_rotor_value, sq_exact h]; rfl

theorem C24_point {K : Type} [CommRing K] (hw : Hw K) (p : Point K) (h : hw.RcpAt p.w) :
    (p.normalize hw).w = 1 := by
  rw [C24_point_value, rcp_exact h]

theorem C24_motor (hw : Hw K) (isa : Isa) (m : Motor K) (h : hw.RsqrtAt m.sqNorm)
    (h' : hw.RcpAt m.sqNorm) :
    (m.normalize hw isa).mv * PGA.MV.rev (m.normalize hw isa).mv = 1 := by
  rw [C24_motor_value, sq_exact h, rcp_exact h']
  apply MV.ext <;> simp [pga]

theorem C24_line (hw : Hw K) (isa : Isa) (l : Line K) (h : hw.RsqrtAt l.sqNorm)
    (h' : hw.RcpAt l.sqNorm) :
    (l.normalize hw isa).mv * (l.normalize hw isa).mv = -1 := by
  rw [C24_line_value, sq_exact h, rcp_exact h']
  apply MV.ext <;> simp [pga]

example : Hw.rat.RsqrtAt (Motor.mk8 0 0 2 0 1 3 0 5 : Motor ℚ).sqNorm ∧
    Hw.rat.RcpAt (Motor.mk8 0 0 2 0 1 3 0 5 : Motor ℚ).sqNorm ∧
    (Motor.mk8 0 0 2 0 1 3 0 5 : Motor ℚ).normalize Hw.rat .sse3
      = Motor.mk8 0 0 1 0 (1 / 2) 0 0 (5 / 2) := by
  simp only [Hw.RsqrtAt, Hw.RcpAt, Motor.sqNorm, kln, sse, Hw.rat, cond_true, cond_false]
  norm_num

end Exact

/-! ### estimates meeting the hardware contract -/
section Bounds

theorem sq_bound {hw : Hw ℝ} (hc : hw.Contract) {a : ℝ} (h : 0 < a) :
    1 - 4.2e-7 ≤ a * rsqrt1 hw a ^ 2 ∧ a * rsqrt1 hw a ^ 2 ≤ 1 := by
  obtain ⟨h1, h2⟩ := C23_rsqrt_bound hw hc (set1_ps a) 0 h
  have e : a * rsqrt1 hw a ^ 2 = (Real.sqrt a * rsqrt1 hw a) ^ 2 := by
    rw [mul_pow, Real.sq_sqrt h.le]
  rw [e]
  change 1 - 2.1e-7 ≤ Real.sqrt a * rsqrt1 hw a at h1
  change Real.sqrt a * rsqrt1 hw a ≤ 1 at h2
  generalize Real.sqrt a * rsqrt1 hw a = x at h1 h2
  constructor <;> nlinarith

theorem rcp_bound {hw : Hw ℝ} (hc : hw.Contract) {a : ℝ} (h : a ≠ 0) :
    1 - 1.4e-7 ≤ a * rcp1 hw a ∧ a * rcp1 hw a ≤ 1 := C23_rcp_bound hw hc (set1_ps a) 0 h

/-- C24: squared norm within `4.2e-7` of 1 (and never above) for every estimate within the
documented accuracy. -/
theorem C24_plane_bound (hw : Hw ℝ) (hc : hw.Contract) (isa : Isa) (p : Plane ℝ)
    (h : 0 < p.sqNorm) :
    1 - 4.2e-7 ≤ (p.normalize hw isa).sqNorm ∧ (p.normalize hw isa).sqNorm ≤ 1 := by
  rw [C24_plane_value]; exact sq_bound hc h

theorem C24_direction_bound (hw : Hw ℝ) (hc : hw.Contract) (isa : Isa) (p : Direction ℝ)
    (h : 0 < p.sqNorm) :
    1 - 4.2e-7 ≤ (p.normalize hw isa).sqNorm ∧ (p.normalize hw isa).sqNorm ≤ 1 := by
  rw [C24_direction_value]; exact sq_bound hc h

theorem C24_branch_bound (hw : Hw ℝ) (hc : hw.Contract) (isa : Isa) (p : Branch ℝ)
    (h : 0 < p.sqNorm) :
    1 - 4.2e-7 ≤ (p.normalize hw isa).sqNorm ∧ (p.normalize hw isa).sqNorm ≤ 1 := by
  rw [C24_branch_value]; exact sq_bound hc h

theorem C24_rotor_bound (hw : Hw ℝ) (hc : hw.Contract) (isa : Isa) (p : Rotor ℝ)
    (h : 0 < p.sqNorm) : ∃ x : ℝ,
    (p.normalize hw isa).mv * PGA.MV.rev (p.normalize hw isa).mv = scalarMv x ∧
      1 - 4.2e-7 ≤ x ∧ x ≤ 1 :=
  ⟨_, C24_rotor_value hw isa p, sq_bound hc h⟩

theorem C24_point_bound (hw : Hw ℝ) (hc : hw.Contract) (p : Point ℝ) (h : p.w ≠ 0) :
    1 - 1.4e-7 ≤ (p.normalize hw).w ∧ (p.normalize hw).w ≤ 1 := rcp_bound hc h

/-- C24: the pseudoscalar part of `m ~m` is at most `2.8e-7` times its size relative to the squared
norm before. -/
theorem C24_motor_bound (hw : Hw ℝ) (hc : hw.Contract) (isa : Isa) (m : Motor ℝ)
    (h : 0 < m.sqNorm) : ∃ x y : ℝ,
    (m.normalize hw isa).mv * PGA.MV.rev (m.normalize hw isa).mv
        = { (0 : MV ℝ) with s := x, e0123 := y } ∧
      1 - 4.2e-7 ≤ x ∧ x ≤ 1 ∧
      |y| ≤ 2.8e-7 * (|m.scalar * m.e0123 - m.e23 * m.e01 - m.e31 * m.e02 - m.e12 * m.e03|
        / m.sqNorm) := by
  obtain ⟨h1, h2⟩ := sq_bound hc h
  obtain ⟨h3, h4⟩ := rcp_bound hc h.ne'
  refine ⟨_, _, C24_motor_value hw isa m, h1, h2, ?_⟩
  generalize m.scalar * m.e0123 - m.e23 * m.e01 - m.e31 * m.e02 - m.e12 * m.e03 = q
  have h5 : rsqrt1 hw m.sqNorm ^ 2 ≤ 1 / m.sqNorm := by
    rw [le_div_iff₀ h]; linarith
  rw [abs_mul, abs_mul, abs_mul, abs_of_nonneg (sq_nonneg (rsqrt1 hw m.sqNorm)),
    abs_of_nonneg (by linarith : (0 : ℝ) ≤ 1 - m.sqNorm * rcp1 hw m.sqNorm)]
  have h6 : |q| * rsqrt1 hw m.sqNorm ^ 2 ≤ |q| / m.sqNorm := by
    rw [div_eq_mul_one_div]; exact mul_le_mul_of_nonneg_left h5 (abs_nonneg _)
  have h7 : 0 ≤ |q| * rsqrt1 hw m.sqNorm ^ 2 := mul_nonneg (abs_nonneg _) (sq_nonneg _)
  rw [abs_of_pos (by norm_num : (0 : ℝ) < 2), mul_assoc 2 |q|]
  generalize |q| * rsqrt1 hw m.sqNorm ^ 2 = z at h6 h7
  nlinarith

theorem C24_line_bound (hw : Hw ℝ) (hc : hw.Contract) (isa : Isa) (l : Line ℝ)
    (h : 0 < l.sqNorm) : ∃ x y : ℝ,
    (l.normalize hw isa).mv * (l.normalize hw isa).mv
        = { (0 : MV ℝ) with s := -x, e0123 := y } ∧
      1 - 4.2e-7 ≤ x ∧ x ≤ 1 ∧ |y| ≤ 2.8e-7 * (|dot l.dir l.mom| / l.sqNorm) := by
  obtain ⟨h1, h2⟩ := sq_bound hc h
  obtain ⟨h3, h4⟩ := rcp_bound hc h.ne'
  refine ⟨_, _, C24_line_value hw isa l, h1, h2, ?_⟩
  generalize dot l.dir l.mom = q
  have h5 : rsqrt1 hw l.sqNorm ^ 2 ≤ 1 / l.sqNorm := by
    rw [le_div_iff₀ h]; linarith
  rw [abs_mul, abs_mul, abs_mul, abs_of_nonneg (sq_nonneg (rsqrt1 hw l.sqNorm)),
    abs_of_nonneg (by linarith : (0 : ℝ) ≤ 1 - l.sqNorm * rcp1 hw l.sqNorm)]
  have h6 : |q| * rsqrt1 hw l.sqNorm ^ 2 ≤ |q| / l.sqNorm := by
    rw [div_eq_mul_one_div]; exact mul_le_mul_of_nonneg_left h5 (abs_nonneg _)
  have h7 : 0 ≤ |q| * rsqrt1 hw l.sqNorm ^ 2 := mul_nonneg (abs_nonneg _) (sq_nonneg _)
  rw [abs_of_pos (by norm_num : (0 : ℝ) < 2), mul_assoc 2 |q|]
  generalize |q| * rsqrt1 hw l.sqNorm ^ 2 = z at h6 h7
  nlinarith

end Bounds

/-! ### C25 -/
section Move
variable {K : Type} [Field K] [CharZero K]

/-- C25: `point::normalize` only rescales, for any estimate. -/
theorem C25_point_scale {K : Type} [CommRing K] (hw : Hw K) (p : Point K) :
    ∃ k, p.normalize hw = p.smul k := ⟨_, Point.normalize_eq hw p⟩

/-- C25: the normalised point is the weight-1 point at the same Euclidean position. -/
theorem C25_point (hw : Hw K) (p : Point K) (h : hw.RcpAt p.w) :
    p.normalize hw = Point.at ((p.w)⁻¹ • p.pos) := by
  have hk : rcp1 hw p.w = (p.w)⁻¹ := by
    rw [rcp_nr1_exact hw h]; exact eq_inv_of_mul_eq_one_right h
  rw [Point.normalize_eq, hk]
  apply Point.ext_pos
  · rw [Point.smul_w, Point.at_w, mul_inv_cancel₀]
    intro h0; simp [Hw.RcpAt, h0] at h
  · rw [Point.smul_pos, Point.at_pos]

/-- C25: a normalised rotor acts like the original, up to the weight of the result. -/
theorem C25_rotor (hw : Hw K) (isa : Isa) (r : Rotor K) (x : Point K) :
    (r.normalize hw isa).onPoint isa x = (r.onPoint isa x).smul (rsqrt1 hw r.sqNorm ^ 2) := by
  rw [Rotor.normalize_eq]
  have : dot4 r.p1 r.p1 = r.sqNorm := rfl
  rw [this]
  generalize rsqrt1 hw r.sqNorm = s
  apply Point.ext
  cases isa <;> apply V4.ext <;> simp only [kln, sse, cond_true, cond_false] <;> ring

/-- C25: a normalised motor acts like the original, up to the weight of the result (for any
estimate, and also when the motor does not satisfy the Study condition). -/
theorem C25_motor (hw : Hw K) (isa : Isa) (m : Motor K) (x : Point K) :
    (m.normalize hw isa).onPoint x = (m.onPoint x).smul (rsqrt1 hw m.sqNorm ^ 2) := by
  rw [Motor.normalize_eq]
  have : dot4 m.p1 m.p1 = m.sqNorm := rfl
  rw [this]
  generalize rsqrt1 hw m.sqNorm = s
  generalize rcp1 hw m.sqNorm = r
  apply Point.ext
  apply V4.ext <;> simp only [kln, sse, Motor.dualSmul, Motor.bc, cond_true, cond_false] <;> ring

/-- C25: a line (a bivector with `dir · mom = 0`) is only rescaled. -/
theorem C25_line (hw : Hw K) (isa : Isa) (l : Line K) (h : dot l.dir l.mom = 0) :
    l.normalize hw isa = l.smul (rsqrt1 hw l.sqNorm) := by
  rw [Line.normalize_eq]
  have e : dot3 l.p1 l.p2 = 0 := h
  have : dot3 l.p1 l.p1 = l.sqNorm := rfl
  rw [this, e]
  simp only [Line.dualSmul, kln, sse, Line.mk.injEq, V4.mk.injEq]
  refine ⟨⟨?_, ?_, ?_, ?_⟩, ?_, ?_, ?_, ?_⟩ <;> ring

/-- The factor `plane::normalize` applies to `d`, against `1/√N` applied to the normal. -/
def normalizeDFactor (isa : Isa) (s : K) : K := match isa with
  | .sse41 => 1
  | .sse3 => s + 1

/-- C25 fails for planes: the normalised plane contains the same points as the original exactly when
the two factors agree or the plane passes through the origin. -/
theorem C25_plane_iff (hw : Hw K) (isa : Isa) (p : Plane K) (h : hw.RsqrtAt p.sqNorm) :
    (∀ v, (p.normalize hw isa).Has v ↔ p.Has v) ↔
      (p.d = 0 ∨ normalizeDFactor isa (hw.rsqrt p.sqNorm) = hw.rsqrt p.sqNorm) := by
  have hs : rsqrt1 hw (dot3 p.p0 p.p0) = hw.rsqrt p.sqNorm := rsqrt_nr1_exact hw h
  have hN : p.sqNorm ≠ 0 := by
    intro h0; simp [Hw.RsqrtAt, h0] at h
  have hs0 : hw.rsqrt p.sqNorm ≠ 0 := by
    intro h0; simp [Hw.RsqrtAt, h0] at h
  have key : ∀ v, (p.normalize hw isa).Has v ↔
      hw.rsqrt p.sqNorm * (p.x * v.x + p.y * v.y + p.z * v.z)
        + normalizeDFactor isa (hw.rsqrt p.sqNorm) * p.d = 0 := by
    intro v
    rw [Plane.normalize_eq, hs]
    simp only [Plane.Has, OnPlane, dot, Plane.normal, kln, normalizeDFactor]
    generalize hw.rsqrt p.sqNorm = s
    cases isa <;> (apply Eq.congr _ rfl; simp only; ring)
  have key2 : ∀ v, p.Has v ↔ p.x * v.x + p.y * v.y + p.z * v.z + p.d = 0 := fun v => Iff.rfl
  have hN' : p.x * p.x + p.y * p.y + p.z * p.z = p.sqNorm := rfl
  simp only [key, key2]
  generalize hw.rsqrt p.sqNorm = s at *
  constructor
  · intro hv
    have := (hv ⟨-p.d / p.sqNorm * p.x, -p.d / p.sqNorm * p.y, -p.d / p.sqNorm * p.z⟩).2 (by
      have : p.x * (-p.d / p.sqNorm * p.x) + p.y * (-p.d / p.sqNorm * p.y)
          + p.z * (-p.d / p.sqNorm * p.z)
          = -p.d / p.sqNorm * (p.x * p.x + p.y * p.y + p.z * p.z) := by ring
      simp only [this, hN', div_mul_cancel₀ _ hN]; ring)
    have e : p.x * (-p.d / p.sqNorm * p.x) + p.y * (-p.d / p.sqNorm * p.y)
        + p.z * (-p.d / p.sqNorm * p.z) = -p.d := by
      have : p.x * (-p.d / p.sqNorm * p.x) + p.y * (-p.d / p.sqNorm * p.y)
          + p.z * (-p.d / p.sqNorm * p.z)
          = -p.d / p.sqNorm * (p.x * p.x + p.y * p.y + p.z * p.z) := by ring
      rw [this, hN', div_mul_cancel₀ _ hN]
    simp only [e] at this
    have : p.d * (normalizeDFactor isa s - s) = 0 := by linear_combination this
    rcases mul_eq_zero.1 this with h1 | h1
    · exact Or.inl h1
    · exact Or.inr (sub_eq_zero.1 h1)
  · intro hv v
    have e : normalizeDFactor isa s * p.d = s * p.d := by
      rcases hv with h1 | h1 <;> rw [h1]; ring
    rw [e, ← mul_add, mul_eq_zero]
    simp [hs0]

/-- C25, the part that holds for planes: planes through the origin do not move. -/
theorem C25_plane_partial (hw : Hw K) (isa : Isa) (p : Plane K) (h : hw.RsqrtAt p.sqNorm)
    (hd : p.d = 0) (v : Vec3 K) : (p.normalize hw isa).Has v ↔ p.Has v :=
  (C25_plane_iff hw isa p h).2 (Or.inl hd) v

/-- C25 fails for planes in the SSE3 build even for planes that are already normalised. -/
theorem C25_plane_fails_sse3 (hw : Hw K) (p : Plane K) (h : hw.RsqrtAt p.sqNorm)
    (hd : p.d ≠ 0) : ∃ v, ¬((p.normalize hw .sse3).Has v ↔ p.Has v) := by
  by_contra hc
  push Not at hc
  rcases (C25_plane_iff hw .sse3 p h).1 hc with h1 | h1
  · exact hd h1
  · simp [normalizeDFactor] at h1

/-- C25 fails for planes in the SSE4.1 build: the plane `2z = 4` becomes `z = 4`. -/
theorem C25_plane_fails_sse41 (hw : Hw ℚ) (h : hw.RsqrtAt 4) :
    let p : Plane ℚ := Plane.mk4 0 0 2 (-4)
    p.Has ⟨0, 0, 2⟩ ∧ ¬ (p.normalize hw .sse41).Has ⟨0, 0, 2⟩ := by
  intro p
  have hN : p.sqNorm = 4 := by
    simp only [p, Plane.sqNorm, dot, Plane.normal, kln, sse]; norm_num
  refine ⟨by simp only [p, Plane.Has, OnPlane, dot, Plane.normal, kln, sse]; norm_num, ?_⟩
  have hs : rsqrt1 hw (dot3 p.p0 p.p0) = hw.rsqrt p.sqNorm := rsqrt_nr1_exact hw (by
    change hw.RsqrtAt p.sqNorm; rw [hN]; exact h)
  rw [Plane.normalize_eq, hs, hN]
  simp only [p, Plane.Has, OnPlane, dot, Plane.normal, kln, sse]
  simp only [Hw.RsqrtAt] at h
  intro hc
  have : hw.rsqrt 4 = 1 := by linarith
  rw [this] at h
  norm_num at h

example : Hw.rat.RsqrtAt 4 := by simp only [Hw.RsqrtAt, Hw.rat]; norm_num

end Move

end Klein
