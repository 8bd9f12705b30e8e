import Verif.Props.Products32
import Verif.Props.Matrices
import Verif.Props.Glsl

/-!
# C92: matrices and shaders are accurate in binary32

The matrices of motors and rotors, their products with points, and the functions of the shader library,
with every operation rounded to nearest, compared with the exact action of the motor or rotor.  Scales
and units are those of C90.  For the shader this presumes that `+`, `-` and `*` round to nearest; C94
allows them to be contracted.
-/

namespace Klein

open F32 Ex Products32

/-- Four lanes, the last within `e'` units, the others within `e`. -/
def V4.NearXyzw (v : V4 F32) (w : V4 ℝ) (e e' : ℝ) : Prop :=
  Klein.Near32 v.l0 w.l0 e ∧ Klein.Near32 v.l1 w.l1 e ∧ Klein.Near32 v.l2 w.l2 e ∧ Klein.Near32 v.l3 w.l3 e'

/-- A matrix in binary32 against one of real numbers: the rotation part within `e` units, the fourth
column within `e'` units (and `f` in its last entry), the last row of the other columns exact. -/
def Mat4.Near32 (M : Mat4 F32) (N : Mat4 ℝ) (e e' f : ℝ) : Prop :=
  M.c0.NearXyzw N.c0 e 0 ∧ M.c1.NearXyzw N.c1 e 0 ∧ M.c2.NearXyzw N.c2 e 0 ∧ M.c3.NearXyzw N.c3 e' f

namespace Matrix32

variable {F : Type} [Add F] [Sub F] [Mul F] [Neg F] [Zero F] [One F] [NatCast F]
variable {A B C : ℝ}

/-- The four columns of a matrix of expressions. -/
def evalM (f : ℕ → F) (m : Mat4 Ex) : Mat4 F := ⟨evalV f m.c0, evalV f m.c1, evalV f m.c2, evalV f m.c3⟩

theorem mat4x4_ex (isa : Isa) (x : Motor F) (mem : V4 F) :
    x.as_mat4x4 isa mem = evalM (env x.p1 x.p2 x.p1 x.p1) ((Motor.mk X X').as_mat4x4 isa X) := by
  cases isa <;> rfl

theorem mat3x4_ex (isa : Isa) (x : Motor F) (mem : V4 F) :
    x.as_mat3x4 isa mem = evalM (env x.p1 x.p2 x.p1 x.p1) ((Motor.mk X X').as_mat3x4 isa X) := by
  cases isa <;> rfl

/-- The bounds of the lanes of a motor and a point. -/
abbrev gm : ℕ → Bd := grade (some (1, 0, 0), some (1, 0, 0)) (some (1, 0, 1), some (1, 0, 1))
  (some (0, 1, 0), some (0, 1, 1)) (some (0, 1, 0), some (0, 1, 1))

theorem tr_motor {x : Motor F32} (hx : x.Within A C) (n : ℕ) :
    Tr (env x.p1 x.p2 x.p1 x.p1 n) (env x.p1.real x.p2.real x.p1.real x.p1.real n) ⟨A, B, C⟩
      (grade (some (1, 0, 0), some (1, 0, 0)) (some (1, 0, 1), some (1, 0, 1))
        (some (1, 0, 0), some (1, 0, 0)) (some (1, 0, 0), some (1, 0, 0)) n) :=
  tr_env (by decide) (by decide) (by decide) (by decide) (hx.1.eq (by deg) (by deg)) (hx.2.eq (by deg) (by deg))
    (hx.1.eq (by deg) (by deg)) (hx.1.eq (by deg) (by deg)) n

theorem tr_motor_point {x : Motor F32} {y : Point F32} (hx : x.Within A C) (hy : y.Within B C) (n : ℕ) :
    Tr (env x.p1 x.p2 y.p3 y.p3 n) (env x.p1.real x.p2.real y.p3.real y.p3.real n) ⟨A, B, C⟩ (gm n) :=
  tr_env (by decide) (by decide) (by decide) (by decide) (hx.1.eq (by deg) (by deg)) (hx.2.eq (by deg) (by deg))
    (V4.Fits.eq hy (by deg) (by deg)) (V4.Fits.eq hy (by deg) (by deg)) n

theorem tr_motor_plane {x : Motor F32} {y : Plane F32} (hx : x.Within A C) (hy : y.Within B C) (n : ℕ) :
    Tr (env x.p1 x.p2 y.p0 y.p0 n) (env x.p1.real x.p2.real y.p0.real y.p0.real n) ⟨A, B, C⟩
      (grade (some (1, 0, 0), some (1, 0, 0)) (some (1, 0, 1), some (1, 0, 1))
        (some (0, 1, 1), some (0, 1, 0)) (some (0, 1, 1), some (0, 1, 0)) n) :=
  tr_env (by decide) (by decide) (by decide) (by decide) (hx.1.eq (by deg) (by deg)) (hx.2.eq (by deg) (by deg))
    (V4.Fits.eq hy (by deg) (by deg)) (V4.Fits.eq hy (by deg) (by deg)) n

/-- The bounds of the lanes of a motor alone. -/
abbrev gM : ℕ → Bd := grade (some (1, 0, 0), some (1, 0, 0)) (some (1, 0, 1), some (1, 0, 1))
  (some (1, 0, 0), some (1, 0, 0)) (some (1, 0, 0), some (1, 0, 0))

/-- Bounds for lanes 0 to 2 and for lane 3. -/
def okX (g : ℕ → Bd) (K : ℕ) (D : ℕ × ℕ × ℕ) (K' : ℕ) (D' : ℕ × ℕ × ℕ) (v : V4 Ex) : Bool :=
  ok g K D v.l0 && ok g K D v.l1 && ok g K D v.l2 && ok g K' D' v.l3

theorem nearX {s : Scales} (hs : s.Ok) {f : ℕ → F32} {E : ℕ → ℝ} {g : ℕ → Bd} (t : ∀ n, Tr (f n) (E n) s (g n))
    {K K' : ℕ} {D D' : ℕ × ℕ × ℕ} (hD : okDeg D.1 D.2.1 D.2.2) (hD' : okDeg D'.1 D'.2.1 D'.2.2) {v : V4 Ex}
    (h : okX g K D K' D' v = true) :
    (evalV f v).NearXyzw (evalV E v) (K * s.sc D.1 D.2.1 D.2.2) (K' * s.sc D'.1 D'.2.1 D'.2.2) := by
  simp only [okX, Bool.and_eq_true] at h
  obtain ⟨⟨⟨h0, h1⟩, h2⟩, h3⟩ := h
  exact ⟨near_ok hs t hD h0, near_ok hs t hD h1, near_ok hs t hD h2, near_ok hs t hD' h3⟩

theorem _root_.Klein.V4.NearXyzw.eq {v : V4 F32} {w : V4 ℝ} {e e' d d' : ℝ} (h : v.NearXyzw w e d) (he : e = e') (hd : d = d') :
    v.NearXyzw w e' d' := he ▸ hd ▸ h

/-- The check of a matrix. -/
def okM (K : ℕ) (D : ℕ × ℕ × ℕ) (M : Mat4 Ex) : Bool :=
  okX gM 15 (2, 0, 0) 0 (0, 0, 0) M.c0 && okX gM 15 (2, 0, 0) 0 (0, 0, 0) M.c1 && okX gM 15 (2, 0, 0) 0 (0, 0, 0) M.c2 &&
    okX gM 35 (2, 0, 1) K D M.c3

theorem nearM {f : ℕ → F32} {E : ℕ → ℝ} (hs : Scales.Ok ⟨A, B, C⟩) (t : ∀ n, Tr (f n) (E n) ⟨A, B, C⟩ (gM n))
    {K : ℕ} {D : ℕ × ℕ × ℕ} (hD : okDeg D.1 D.2.1 D.2.2) {M : Mat4 Ex} (h : okM K D M = true) :
    (evalM f M).Near32 (evalM E M) (15 * A ^ 2) (35 * (A ^ 2 * C)) (K * Scales.sc ⟨A, B, C⟩ D.1 D.2.1 D.2.2) := by
  simp only [okM, Bool.and_eq_true] at h
  obtain ⟨⟨⟨h0, h1⟩, h2⟩, h3⟩ := h
  exact ⟨(nearX hs t (by decide) (by decide) h0).eq (by units) (by units), (nearX hs t (by decide) (by decide) h1).eq (by units) (by units),
    (nearX hs t (by decide) (by decide) h2).eq (by units) (by units), (nearX hs t (by decide) hD h3).eq (by units) rfl⟩

/-- C92: the 4x4 matrix of a motor. -/
theorem C92_mat4x4 (isa : Isa) (hA : In2 A 24 24) (hC : In2 C 20 20) {x : Motor F32} (hx : x.Within A C) (mem : V4 F32) (mem' : V4 ℝ) :
    (x.as_mat4x4 isa mem).Near32 (x.real.as_mat4x4 isa mem') (15 * A ^ 2) (35 * (A ^ 2 * C)) (14 * A ^ 2) := by
  rw [mat4x4_ex isa x, mat4x4_ex isa x.real]
  have h := nearM (B := 1) ⟨hA, one_A, hC⟩ (tr_motor hx) (K := 14) (D := (2, 0, 0)) (by decide)
    (M := (Motor.mk X X').as_mat4x4 isa X) (by cases isa <;> decide +kernel)
  rwa [show ((14 : ℕ) : ℝ) * Scales.sc ⟨A, 1, C⟩ (2, 0, 0).1 (2, 0, 0).2.1 (2, 0, 0).2.2 = 14 * A ^ 2 by units] at h

/-- C92: the 3x4 matrix of a motor; the last entry is an exact one. -/
theorem C92_mat3x4 (isa : Isa) (hA : In2 A 24 24) (hC : In2 C 20 20) {x : Motor F32} (hx : x.Within A C) (mem : V4 F32) (mem' : V4 ℝ) :
    (x.as_mat3x4 isa mem).Near32 (x.real.as_mat3x4 isa mem') (15 * A ^ 2) (35 * (A ^ 2 * C)) 0 := by
  rw [mat3x4_ex isa x, mat3x4_ex isa x.real]
  have h := nearM (B := 1) ⟨hA, one_A, hC⟩ (tr_motor hx) (K := 0) (D := (0, 0, 0)) (by decide)
    (M := (Motor.mk X X').as_mat3x4 isa X) (by cases isa <;> decide +kernel)
  rwa [show ((0 : ℕ) : ℝ) * Scales.sc ⟨A, 1, C⟩ (0, 0, 0).1 (0, 0, 0).2.1 (0, 0, 0).2.2 = 0 by units] at h

/-- The exact entries of the last rows. -/
theorem C92_last_row (isa : Isa) (x : Motor ℝ) (mem : V4 ℝ) :
    ((x.as_mat4x4 isa mem).c0.l3 = 0 ∧ (x.as_mat4x4 isa mem).c1.l3 = 0 ∧ (x.as_mat4x4 isa mem).c2.l3 = 0) ∧
    ((x.as_mat3x4 isa mem).c0.l3 = 0 ∧ (x.as_mat3x4 isa mem).c1.l3 = 0 ∧ (x.as_mat3x4 isa mem).c2.l3 = 0 ∧
      (x.as_mat3x4 isa mem).c3.l3 = 1) := by
  cases isa <;> simp only [kln, sse, cond_true, cond_false] <;> norm_num

/-- The matrix applied to a point. -/
theorem apply4_ex (isa : Isa) (x : Motor F) (y : Point F) (mem : V4 F) :
    (x.as_mat4x4 isa mem).apply y.xyzw =
      evalV (env x.p1 x.p2 y.p3 y.p3) (((Motor.mk X X').as_mat4x4 isa X).apply (Point.mk Y).xyzw) := by
  cases isa <;> rfl

theorem apply3_ex (isa : Isa) (x : Motor F) (y : Point F) (mem : V4 F) :
    (x.as_mat3x4 isa mem).apply y.xyzw =
      evalV (env x.p1 x.p2 y.p3 y.p3) (((Motor.mk X X').as_mat3x4 isa X).apply (Point.mk Y).xyzw) := by
  cases isa <;> rfl

/-- C92: a point multiplied by the 4x4 matrix of a motor, everything rounded, against the exact image
under the motor. -/
theorem C92_mat4x4_apply (isa : Isa) (hA : In2 A 24 24) (hB : In2 B 24 24) (hC : In2 C 20 20) {x : Motor F32} {y : Point F32}
    (hx : x.Within A C) (hy : y.Within B C) (mem : V4 F32) :
    ((x.as_mat4x4 isa mem).apply y.xyzw).NearXyzw (x.real.onPoint y.real).xyzw (135 * (A ^ 2 * B * C)) (18 * (A ^ 2 * B)) := by
  rw [← C38_mat4x4 isa x.real x.real.p1 y.real, apply4_ex isa x y mem, apply4_ex isa x.real y.real x.real.p1]
  exact (nearX (s := ⟨A, B, C⟩) ⟨hA, hB, hC⟩ (tr_motor_point hx hy) (K := 135) (D := (2, 1, 1)) (K' := 18) (D' := (2, 1, 0))
    (by decide) (by decide) (v := ((Motor.mk X X').as_mat4x4 isa X).apply (Point.mk Y).xyzw)
    (by cases isa <;> decide +kernel)).eq (by units) (by units)

/-- What the 3x4 matrix of any motor does to a point: it leaves the weight alone. -/
theorem mat3x4_apply_real (isa : Isa) (x : Motor ℝ) (y : Point ℝ) (mem : V4 ℝ) :
    (x.as_mat3x4 isa mem).apply y.xyzw = ⟨(x.onPoint y).p3.l1, (x.onPoint y).p3.l2, (x.onPoint y).p3.l3, y.p3.l0⟩ := by
  cases isa <;> simp only [kln, sse, Point.xyzw, cond_true, cond_false, V4.mk.injEq] <;>
    refine ⟨?_, ?_, ?_, ?_⟩ <;> ring

/-- C92: the same for the 3x4 matrix. -/
theorem C92_mat3x4_apply (isa : Isa) (hA : In2 A 24 24) (hB : In2 B 24 24) (hC : In2 C 20 20) {x : Motor F32} {y : Point F32}
    (hx : x.Within A C) (hy : y.Within B C) (mem : V4 F32) :
    ((x.as_mat3x4 isa mem).apply y.xyzw).NearXyzw
      ⟨(x.real.onPoint y.real).p3.l1, (x.real.onPoint y.real).p3.l2, (x.real.onPoint y.real).p3.l3, r y.p3.l0⟩
      (135 * (A ^ 2 * B * C)) (2 * B) := by
  have k := mat3x4_apply_real isa x.real y.real x.real.p1
  rw [apply3_ex isa x.real y.real] at k
  rw [apply3_ex isa x y]
  have h := (nearX (s := ⟨A, B, C⟩) ⟨hA, hB, hC⟩ (tr_motor_point hx hy) (K := 135) (D := (2, 1, 1)) (K' := 2) (D' := (0, 1, 0))
    (by decide) (by decide) (v := ((Motor.mk X X').as_mat3x4 isa X).apply (Point.mk Y).xyzw)
    (by cases isa <;> decide +kernel)).eq (e' := 135 * (A ^ 2 * B * C)) (d' := 2 * B) (by units) (by units)
  rw [show evalV (env x.p1.real x.p2.real y.p3.real y.p3.real) _ = _ from k] at h
  exact h

/-! ### the shader library -/

theorem C92_glsl_motor_point (hA : In2 A 24 24) (hB : In2 B 24 24) (hC : In2 C 20 20) {x : Motor F32} {y : Point F32}
    (hx : x.Within A C) (hy : y.Within B C) :
    (Glsl.applyMotorPoint x.p1 x.p2 y.p3).Near32 (x.real.onPoint y.real).p3 (19 * (A ^ 2 * B)) (135 * (A ^ 2 * B * C)) := by
  rw [← C50_apply_motor_point]
  exact (near4 (s := ⟨A, B, C⟩) ⟨hA, hB, hC⟩
    (ga := (some (1, 0, 0), some (1, 0, 0))) (gb := (some (1, 0, 1), some (1, 0, 1))) (gc := (some (0, 1, 0), some (0, 1, 1))) (gd := (some (0, 1, 0), some (0, 1, 1)))
    (hx.1.eq (by deg) (by deg)) (hx.2.eq (by deg) (by deg)) (V4.Fits.eq hy (by deg) (by deg)) (V4.Fits.eq hy (by deg) (by deg))
    (K := 19) (D := (2, 1, 0)) (K' := 135) (D' := (2, 1, 1)) (v := Glsl.applyMotorPoint X X' Y) (h := (by decide +kernel))).eq (by units) (by units)

theorem C92_glsl_motor_plane (isa : Isa) (hA : In2 A 24 24) (hB : In2 B 24 24) (hC : In2 C 20 20) {x : Motor F32} {y : Plane F32}
    (hx : x.Within A C) (hy : y.Within B C) :
    (Glsl.applyMotorPlane x.p1 x.p2 y.p0).Near32 (x.real.onPlane isa y.real).p0 (234 * (A ^ 2 * B * C)) (73 * (A ^ 2 * B)) := by
  rw [← C50_apply_motor_plane]
  exact (near4 (s := ⟨A, B, C⟩) ⟨hA, hB, hC⟩
    (ga := (some (1, 0, 0), some (1, 0, 0))) (gb := (some (1, 0, 1), some (1, 0, 1))) (gc := (some (0, 1, 1), some (0, 1, 0))) (gd := (some (0, 1, 1), some (0, 1, 0)))
    (hx.1.eq (by deg) (by deg)) (hx.2.eq (by deg) (by deg)) (V4.Fits.eq hy (by deg) (by deg)) (V4.Fits.eq hy (by deg) (by deg))
    (K := 234) (D := (2, 1, 1)) (K' := 73) (D' := (2, 1, 0)) (v := Glsl.applyMotorPlane X X' Y) (h := (by decide +kernel))).eq (by units) (by units)

theorem C92_glsl_rotor_point (isa : Isa) (hA : In2 A 24 24) (hB : In2 B 24 24) (hC : In2 C 20 20) {x : Rotor F32} {y : Point F32}
    (hx : x.Within A) (hy : y.Within B C) :
    (Glsl.applyRotorPoint x.p1 y.p3).Near32 (x.real.onPoint isa y.real).p3 (19 * (A ^ 2 * B)) (72 * (A ^ 2 * B * C)) := by
  rw [← C50_apply_rotor_point]
  exact (near4 (s := ⟨A, B, C⟩) ⟨hA, hB, hC⟩
    (ga := (some (1, 0, 0), some (1, 0, 0))) (gb := (some (1, 0, 0), some (1, 0, 0))) (gc := (some (0, 1, 0), some (0, 1, 1))) (gd := (some (0, 1, 0), some (0, 1, 1)))
    (V4.Fits.eq hx (by deg) (by deg)) (V4.Fits.eq hx (by deg) (by deg)) (V4.Fits.eq hy (by deg) (by deg)) (V4.Fits.eq hy (by deg) (by deg))
    (K := 19) (D := (2, 1, 0)) (K' := 72) (D' := (2, 1, 1)) (v := Glsl.applyRotorPoint X Y) (h := (by decide +kernel))).eq (by units) (by units)

theorem C92_glsl_rotor_plane (isa : Isa) (hA : In2 A 24 24) (hB : In2 B 24 24) (hC : In2 C 20 20) {x : Rotor F32} {y : Plane F32}
    (hx : x.Within A) (hy : y.Within B C) :
    (Glsl.applyRotorPlane x.p1 y.p0).Near32 (x.real.onPlane isa y.real).p0 (35 * (A ^ 2 * B * C)) (73 * (A ^ 2 * B)) := by
  rw [← C50_apply_rotor_plane]
  exact (near4 (s := ⟨A, B, C⟩) ⟨hA, hB, hC⟩
    (ga := (some (1, 0, 0), some (1, 0, 0))) (gb := (some (1, 0, 0), some (1, 0, 0))) (gc := (some (0, 1, 1), some (0, 1, 0))) (gd := (some (0, 1, 1), some (0, 1, 0)))
    (V4.Fits.eq hx (by deg) (by deg)) (V4.Fits.eq hx (by deg) (by deg)) (V4.Fits.eq hy (by deg) (by deg)) (V4.Fits.eq hy (by deg) (by deg))
    (K := 35) (D := (2, 1, 1)) (K' := 73) (D' := (2, 1, 0)) (v := Glsl.applyRotorPlane X Y) (h := (by decide +kernel))).eq (by units) (by units)

theorem C92_glsl_motor_origin (hA : In2 A 24 24) (hC : In2 C 20 20) {x : Motor F32} (hx : x.Within A C) :
    (Glsl.applyMotorOrigin x.p1 x.p2).Near32 x.real.onOrigin.p3 0 (35 * (A ^ 2 * C)) := by
  rw [← C50_apply_motor_origin]
  exact (near4 (s := ⟨A, 1, C⟩) ⟨hA, one_A, hC⟩
    (ga := (some (1, 0, 0), some (1, 0, 0))) (gb := (some (1, 0, 1), some (1, 0, 1))) (gc := (some (1, 0, 0), some (1, 0, 0))) (gd := (some (1, 0, 0), some (1, 0, 0)))
    (hx.1.eq (by deg) (by deg)) (hx.2.eq (by deg) (by deg)) (hx.1.eq (by deg) (by deg)) (hx.1.eq (by deg) (by deg))
    (K := 0) (D := (0, 0, 0)) (K' := 35) (D' := (2, 0, 1)) (v := Glsl.applyMotorOrigin X X') (h := (by decide +kernel))).eq (by units) (by units)

/-- C92: the shader products are those of the library, bit for bit. -/
theorem C92_glsl_products (a b : Motor F32) (c d : Rotor F32) :
    (⟨(Glsl.mulMotor a.p1 a.p2 b.p1 b.p2).1, (Glsl.mulMotor a.p1 a.p2 b.p1 b.p2).2⟩ : Motor F32) = a.mulMotor b ∧
    (⟨Glsl.mulRotor c.p1 d.p1⟩ : Rotor F32) = c.mulRotor d := ⟨C50_mul_motor a b, C50_mul_rotor c d⟩

/-- Two results near the same number are near each other. -/
theorem Near32.sub {x y : F32} {E e f : ℝ} (h : Near32 x E e) (k : Near32 y E f) : |r x - r y| ≤ (e + f) / 2 ^ 24 := by
  have := abs_sub_le (r x) E (r y)
  rw [abs_sub_comm E] at this
  have h2 := h.2
  have k2 := k.2
  rw [add_div]
  linarith

/-- C92: the matrix, the shader and the call operator move a point to the same place, to within a few
hundred units. -/
theorem C92_three_ways (isa : Isa) (hA : In2 A 24 24) (hB : In2 B 24 24) (hC : In2 C 20 20) {x : Motor F32} {y : Point F32}
    (hx : x.Within A C) (hy : y.Within B C) (mem : V4 F32) :
    |r ((x.as_mat4x4 isa mem).apply y.xyzw).l0 - r (x.onPoint y).p3.l1| ≤ 268 * (A ^ 2 * B * C) / 2 ^ 24 ∧
    |r ((x.as_mat4x4 isa mem).apply y.xyzw).l1 - r (x.onPoint y).p3.l2| ≤ 268 * (A ^ 2 * B * C) / 2 ^ 24 ∧
    |r ((x.as_mat4x4 isa mem).apply y.xyzw).l2 - r (x.onPoint y).p3.l3| ≤ 268 * (A ^ 2 * B * C) / 2 ^ 24 ∧
    |r (Glsl.applyMotorPoint x.p1 x.p2 y.p3).l1 - r (x.onPoint y).p3.l1| ≤ 268 * (A ^ 2 * B * C) / 2 ^ 24 ∧
    |r (Glsl.applyMotorPoint x.p1 x.p2 y.p3).l2 - r (x.onPoint y).p3.l2| ≤ 268 * (A ^ 2 * B * C) / 2 ^ 24 ∧
    |r (Glsl.applyMotorPoint x.p1 x.p2 y.p3).l3 - r (x.onPoint y).p3.l3| ≤ 268 * (A ^ 2 * B * C) / 2 ^ 24 := by
  obtain ⟨a0, a1, a2, -⟩ := C92_mat4x4_apply isa hA hB hC hx hy mem
  obtain ⟨-, b1, b2, b3⟩ := C92_glsl_motor_point hA hB hC hx hy
  obtain ⟨-, c1, c2, c3⟩ := C90_motor_on_point hA hB hC hx hy
  have e : 135 * (A ^ 2 * B * C) + 133 * (A ^ 2 * B * C) = 268 * (A ^ 2 * B * C) := by ring
  exact ⟨e ▸ Near32.sub a0 c1, e ▸ Near32.sub a1 c2, e ▸ Near32.sub a2 c3, e ▸ Near32.sub b1 c1, e ▸ Near32.sub b2 c2, e ▸ Near32.sub b3 c3⟩

/-- C92: the first three columns of the matrix of a rotor; the fourth is not initialised (C39). -/
theorem C92_rotor_columns (isa : Isa) (hA : In2 A 24 24) {x : Rotor F32} (hx : x.Within A) (mem : V4 F32) (mem' : V4 ℝ) :
    (x.as_mat4x4 isa mem).c0.NearXyzw (x.real.as_mat4x4 isa mem').c0 (15 * A ^ 2) 0 ∧
    (x.as_mat4x4 isa mem).c1.NearXyzw (x.real.as_mat4x4 isa mem').c1 (15 * A ^ 2) 0 ∧
    (x.as_mat4x4 isa mem).c2.NearXyzw (x.real.as_mat4x4 isa mem').c2 (15 * A ^ 2) 0 := by
  have h := C92_mat4x4 isa (C := 1) hA one_C (x := ⟨x.p1, x.p1⟩) ⟨hx, V4.Fits.eq hx (mul_one A).symm (mul_one A).symm⟩ mem mem'
  exact ⟨h.1, h.2.1, h.2.2.1⟩

/-! ### examples -/

/-- A concrete motor and point, three ways; the exact image is (31, 4, 9) up to rounding. -/
example : ((Motor.as_mat4x4 .sse41 ⟨⟨1, 0, 0, 0⟩, ⟨0, -10, 0, -3⟩⟩ ⟨7, 7, 7, 7⟩ : Mat4 F32).apply ⟨11, 4, 3, 1⟩) = ⟨31, 4, 9, 1⟩ ∧
    Glsl.applyMotorPoint (F := F32) ⟨1, 0, 0, 0⟩ ⟨0, -10, 0, -3⟩ ⟨1, 11, 4, 3⟩ = ⟨1, 31, 4, 9⟩ := by
  decide +kernel

/-- With rounding the ways differ in the last bits. -/
example : ((Motor.as_mat4x4 .sse41 ⟨⟨ofMag false 0x3f4ccccd, ofMag false 0x3eb33333, ofMag false 0x3e99999a, ofMag false 0x3e19999a⟩, ⟨0, 0, 0, 0⟩⟩ ⟨0, 0, 0, 0⟩ : Mat4 F32).apply
      ⟨ofMag false 0x3f8ccccd, 2, 3, 1⟩).l2.val ≠
    (Motor.onPoint (F := F32) ⟨⟨ofMag false 0x3f4ccccd, ofMag false 0x3eb33333, ofMag false 0x3e99999a, ofMag false 0x3e19999a⟩, ⟨0, 0, 0, 0⟩⟩
      ⟨⟨1, ofMag false 0x3f8ccccd, 2, 3⟩⟩).p3.l3.val := by
  decide +kernel

/-- The hypotheses hold of it. -/
example (mem : V4 F32) (mem' : V4 ℝ) :
    (Motor.as_mat4x4 .sse41 ⟨⟨1, 0, 0, 0⟩, ⟨0, -10, 0, -3⟩⟩ mem : Mat4 F32).Near32
      (Motor.as_mat4x4 .sse41 (Motor.real ⟨⟨1, 0, 0, 0⟩, ⟨0, -10, 0, -3⟩⟩) mem') (15 * 1 ^ 2) (35 * (1 ^ 2 * 10)) (14 * 1 ^ 2) :=
  C92_mat4x4 .sse41 one_A ⟨by norm_num, by norm_num⟩
    ⟨V4.Fits.eq (fits_of_val (m := 1) (n := 1) (by decide +kernel)) (by norm_num) (by norm_num),
      V4.Fits.eq (fits_of_val (m := 10) (n := 10) (by decide +kernel)) (by norm_num) (by norm_num)⟩ mem mem'

end Matrix32
end Klein
