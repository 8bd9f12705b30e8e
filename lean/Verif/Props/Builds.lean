import Verif.Api.Ops
import Verif.Api.Trans
import Verif.Api.Embed
import Mathlib.Tactic.Ring
import Mathlib.Tactic.NormNum
import Mathlib.Tactic.LinearCombination

/-!
# C42: the SSE3 and the SSE4.1 build compute the same results

Every function whose source contains (directly or through a helper) an `#ifdef KLEIN_SSE_4_1`
alternative is compared with itself, over an arbitrary commutative ring of lanes (the two builds add
in different orders, so this is a statement in exact arithmetic).  The functions that differ are
`plane::normalize`, and, on operands with a non-zero unused lane only, `point | line` and
`translator(plane)`; for each of them the exact condition for agreement is proved.
-/

namespace Klein

/-! ### alternatives that agree bit for bit (no arithmetic law) -/
section LawFree
variable {F : Type} [Add F] [Sub F] [Mul F] [Neg F] [Zero F] [One F] [NatCast F]

/-- `plane | point`. -/
theorem C42_dot03 (a b : V4 F) : dot03 .sse3 a b = dot03 .sse41 a b := by
  simp only [dot03, sse, cond_true, cond_false]

/-- `point * point`. -/
theorem C42_gp33 (hw : Hw F) (a b : V4 F) : gp33 hw .sse3 a b = gp33 hw .sse41 a b := by
  simp only [gp33, sse, cond_true, cond_false]

theorem C42_point_mul_point (hw : Hw F) (a b : Point F) :
    a.mulPoint hw .sse3 b = a.mulPoint hw .sse41 b := by
  simp only [Point.mulPoint, C42_gp33]

theorem C42_point_div_point (hw : Hw F) (a b : Point F) :
    a.divPoint hw .sse3 b = a.divPoint hw .sse41 b := by
  simp only [Point.divPoint, C42_point_mul_point]

theorem C42_plane_dot_point (a : Plane F) (b : Point F) :
    a.dotPoint .sse3 b = a.dotPoint .sse41 b := by
  simp only [Plane.dotPoint, C42_dot03]

theorem C42_rotor_log (hw : Hw F) (lm : Libm F) (r : Rotor F) :
    r.log hw lm .sse3 = r.log hw lm .sse41 := by
  simp only [Rotor.log, sse, cond_true, cond_false]

/-- A rotor's action contains no alternative at all. -/
theorem C42_rotor_on_plane (s : Rotor F) (p : Plane F) : s.onPlane .sse3 p = s.onPlane .sse41 p := rfl
theorem C42_rotor_on_point (s : Rotor F) (p : Point F) : s.onPoint .sse3 p = s.onPoint .sse41 p := rfl
theorem C42_rotor_on_direction (s : Rotor F) (d : Direction F) :
    s.onDirection .sse3 d = s.onDirection .sse41 d := rfl

end LawFree

variable {K : Type} [CommRing K]

/-! ### helpers of x86_sse.hpp -/
theorem C42_hi_dp (a b : V4 K) : hi_dp .sse3 a b = hi_dp .sse41 a b := by
  simp only [kln, sse, cond_true, cond_false, V4.mk.injEq]
  refine ⟨?_, ?_, ?_, ?_⟩ <;> first | trivial | ring1
theorem C42_hi_dp_bc (a b : V4 K) : hi_dp_bc .sse3 a b = hi_dp_bc .sse41 a b := by
  simp only [kln, sse, cond_true, cond_false, V4.mk.injEq]
  refine ⟨?_, ?_, ?_, ?_⟩ <;> first | trivial | ring1
theorem C42_dp (a b : V4 K) : dp .sse3 a b = dp .sse41 a b := by
  simp only [kln, sse, cond_true, cond_false, V4.mk.injEq]
  refine ⟨?_, ?_, ?_, ?_⟩ <;> first | trivial | ring1
theorem C42_dp_bc (a b : V4 K) : dp_bc .sse3 a b = dp_bc .sse41 a b := by
  simp only [kln, sse, cond_true, cond_false, V4.mk.injEq]
  refine ⟨?_, ?_, ?_, ?_⟩ <;> first | trivial | ring1

/-! ### products -/
theorem C42_gp03 (flip : Bool) (a b : V4 K) : gp03 flip .sse3 a b = gp03 flip .sse41 a b := by
  cases flip <;> simp only [gp03, C42_dp, sse, cond_true, cond_false]

theorem C42_plane_mul_point (a : Plane K) (b : Point K) :
    a.mulPoint .sse3 b = a.mulPoint .sse41 b := by simp only [Plane.mulPoint, C42_gp03]
theorem C42_point_mul_plane (b : Point K) (a : Plane K) :
    b.mulPlane .sse3 a = b.mulPlane .sse41 a := by simp only [Point.mulPlane, C42_gp03]

theorem C42_plane_meet_branch (a : Plane K) (b : Branch K) :
    a.meetBranch .sse3 b = a.meetBranch .sse41 b := by
  simp only [Plane.meetBranch, extPB, C42_hi_dp]
theorem C42_branch_meet_plane (b : Branch K) (a : Plane K) :
    b.meetPlane .sse3 a = b.meetPlane .sse41 a := C42_plane_meet_branch a b
theorem C42_plane_meet_line (a : Plane K) (b : Line K) :
    a.meetLine .sse3 b = a.meetLine .sse41 b := by
  simp only [Plane.meetLine, extPB, C42_hi_dp]
theorem C42_line_meet_plane (b : Line K) (a : Plane K) :
    b.meetPlane .sse3 a = b.meetPlane .sse41 a := C42_plane_meet_line a b
theorem C42_plane_meet_point (a : Plane K) (b : Point K) :
    a.meetPoint .sse3 b = a.meetPoint .sse41 b := by
  simp only [Plane.meetPoint, ext03, C42_dp]
theorem C42_point_meet_plane (b : Point K) (a : Plane K) :
    b.meetPlane .sse3 a = b.meetPlane .sse41 a := by
  simp only [Point.meetPlane, ext03, C42_dp]
theorem C42_point_join_line (a : Point K) (b : Line K) :
    a.joinLine .sse3 b = a.joinLine .sse41 b := by
  simp only [Point.joinLine, C42_plane_meet_line]
theorem C42_line_join_point (b : Line K) (a : Point K) :
    b.joinPoint .sse3 a = b.joinPoint .sse41 a := C42_point_join_line a b
theorem C42_point_join_ideal_line (a : Point K) (b : IdealLine K) :
    a.joinIdealLine .sse3 b = a.joinIdealLine .sse41 b := by
  simp only [Point.joinIdealLine, C42_plane_meet_branch]
theorem C42_ideal_line_join_point (b : IdealLine K) (a : Point K) :
    b.joinPoint .sse3 a = b.joinPoint .sse41 a := C42_point_join_ideal_line a b
theorem C42_plane_join_point (a : Plane K) (b : Point K) :
    a.joinPoint .sse3 b = a.joinPoint .sse41 b := by
  simp only [Plane.joinPoint, C42_point_meet_plane]
theorem C42_point_join_plane (a : Point K) (b : Plane K) :
    a.joinPlane .sse3 b = a.joinPlane .sse41 b := by
  simp only [Point.joinPlane, C42_plane_meet_point]

theorem C42_plane_dot_plane (a b : Plane K) : a.dotPlane .sse3 b = a.dotPlane .sse41 b := by
  simp only [Plane.dotPlane, dot00, C42_hi_dp]
theorem C42_plane_dot_ideal_line (a : Plane K) (b : IdealLine K) :
    a.dotIdealLine .sse3 b = a.dotIdealLine .sse41 b := by
  simp only [Plane.dotIdealLine, dotPIL, C42_hi_dp]
theorem C42_ideal_line_dot_plane (b : IdealLine K) (a : Plane K) :
    b.dotPlane .sse3 a = b.dotPlane .sse41 a := by
  simp only [IdealLine.dotPlane, dotPIL, C42_hi_dp]

/-- `point | line`: the builds agree exactly when the product of the two lanes 0 vanishes. -/
theorem C42_point_dot_line_iff (a : Point K) (b : Line K) :
    a.dotLine .sse3 b = a.dotLine .sse41 b ↔ a.p3.l0 * b.p1.l0 = 0 := by
  simp only [Point.dotLine, dotPTL, kln, sse, cond_true, cond_false, Plane.mk.injEq, V4.mk.injEq,
    and_true]
  constructor
  · intro h; linear_combination h
  · intro h; linear_combination h

theorem C42_point_dot_line (a : Point K) (b : Line K) (hb : b.WF) :
    a.dotLine .sse3 b = a.dotLine .sse41 b :=
  (C42_point_dot_line_iff a b).2 (by rw [hb.1, mul_zero])
theorem C42_line_dot_point (b : Line K) (a : Point K) (hb : b.WF) :
    b.dotPoint .sse3 a = b.dotPoint .sse41 a := C42_point_dot_line a b hb

/-! ### projections -/
theorem C42_point_project_line (a : Point K) (b : Line K) (hb : b.WF) :
    a.projectLine .sse3 b = a.projectLine .sse41 b := by
  simp only [Point.projectLine, C42_point_dot_line a b hb, C42_plane_meet_line]
theorem C42_point_project_plane (a : Point K) (b : Plane K) :
    a.projectPlane .sse3 b = a.projectPlane .sse41 b := by
  simp only [Point.projectPlane, Point.dotPlane, C42_plane_dot_point, C42_line_meet_plane]
theorem C42_line_project_point (a : Line K) (b : Point K) (ha : a.WF) :
    a.projectPoint .sse3 b = a.projectPoint .sse41 b := by
  simp only [Line.projectPoint, C42_line_dot_point a b ha, C42_plane_dot_point]
theorem C42_plane_project_point (a : Plane K) (b : Point K) :
    a.projectPoint .sse3 b = a.projectPoint .sse41 b := by
  simp only [Plane.projectPoint, C42_plane_dot_point]
  apply C42_line_dot_point
  constructor <;> simp only [kln, sse, cond_true, cond_false, Line.WF] <;> ring1

/-! ### actions -/
theorem C42_sw012 (b : V4 K) (c : Option (V4 K)) (a : V4 K) :
    sw012 .sse3 b c a = sw012 .sse41 b c a := by
  cases c <;> simp only [sw012, sw012_pt, C42_hi_dp]
theorem C42_motor_on_plane (s : Motor K) (p : Plane K) :
    s.onPlane .sse3 p = s.onPlane .sse41 p := by
  simp only [Motor.onPlane, C42_sw012]

theorem C42_translator_on_plane (hw : Hw K) (t : Translator K) (p : Plane K) (ht : t.WF) :
    t.onPlane hw .sse3 p = t.onPlane hw .sse41 p := by
  have h0 : t.p2.l0 = 0 := ht
  have e : add_ps t.p2 (set_ss 1) = blend_ps t.p2 (set_ss 1) false false false true := by
    simp only [sse, h0, cond_true, cond_false, V4.mk.injEq, add_zero, zero_add, and_self]
  simp only [Translator.onPlane, e, sw02, C42_hi_dp]

/-! ### matrices -/
theorem C42_motor_as_mat4x4 (m : Motor K) (mem : V4 K) :
    m.as_mat4x4 .sse3 mem = m.as_mat4x4 .sse41 mem := by
  simp only [Motor.as_mat4x4, mat4x4_12, mat_c3t, mat_c3u, sse, cond_true, cond_false, Mat4.mk.injEq,
    V4.mk.injEq, true_and]
  refine ⟨?_, ?_, ?_, ?_⟩ <;> ring1
theorem C42_motor_as_mat3x4 (m : Motor K) (mem : V4 K) :
    m.as_mat3x4 .sse3 mem = m.as_mat3x4 .sse41 mem := by
  simp only [Motor.as_mat3x4, mat4x4_12, mat_c3t, mat_c3n, sse, cond_true, cond_false, Mat4.mk.injEq,
    V4.mk.injEq, true_and]
  refine ⟨?_, ?_, ?_, ?_⟩ <;> ring1
/-- For rotors the builds agree exactly when the indeterminate fourth element is zero (see C39). -/
theorem C42_rotor_as_mat4x4_iff (r : Rotor K) (mem : V4 K) :
    r.as_mat4x4 .sse3 mem = r.as_mat4x4 .sse41 mem ↔ mem.l3 = 0 := by
  simp only [Rotor.as_mat4x4, mat4x4_12, mat_c3u, sse, cond_true, cond_false, Mat4.mk.injEq,
    V4.mk.injEq, true_and, add_zero, add_eq_right]
theorem C42_rotor_as_mat3x4_iff (r : Rotor K) (mem : V4 K) :
    r.as_mat3x4 .sse3 mem = r.as_mat3x4 .sse41 mem ↔ mem.l3 = 0 := by
  simp only [Rotor.as_mat3x4, mat4x4_12, mat_c3n, sse, cond_true, cond_false, Mat4.mk.injEq,
    V4.mk.injEq, true_and, add_zero, add_eq_right]

/-! ### norms -/
theorem C42_ideal_line_squared_ideal_norm (s : IdealLine K) :
    s.squared_ideal_norm .sse3 = s.squared_ideal_norm .sse41 := by
  simp only [IdealLine.squared_ideal_norm, C42_hi_dp]
theorem C42_branch_squared_norm (s : Branch K) : s.squared_norm .sse3 = s.squared_norm .sse41 := by
  simp only [Branch.squared_norm, C42_hi_dp]
theorem C42_line_squared_norm (s : Line K) : s.squared_norm .sse3 = s.squared_norm .sse41 := by
  simp only [Line.squared_norm, C42_hi_dp]

section Field
variable {k : Type} [Field k]

theorem C42_plane_norm (hw : Hw k) (s : Plane k) : s.norm hw .sse3 = s.norm hw .sse41 := by
  simp only [Plane.norm, C42_hi_dp]
theorem C42_plane_invert (hw : Hw k) (s : Plane k) : s.invert hw .sse3 = s.invert hw .sse41 := by
  simp only [Plane.invert, C42_hi_dp_bc]
theorem C42_direction_normalize (hw : Hw k) (s : Direction k) :
    s.normalize hw .sse3 = s.normalize hw .sse41 := by
  simp only [Direction.normalize, C42_hi_dp_bc]
theorem C42_direction_mk3 (hw : Hw k) (x y z : k) :
    Direction.mk3 hw .sse3 x y z = Direction.mk3 hw .sse41 x y z := by
  simp only [Direction.mk3, C42_direction_normalize]
theorem C42_branch_normalize (hw : Hw k) (s : Branch k) :
    s.normalize hw .sse3 = s.normalize hw .sse41 := by
  simp only [Branch.normalize, C42_hi_dp_bc]
theorem C42_branch_invert (hw : Hw k) (s : Branch k) : s.invert hw .sse3 = s.invert hw .sse41 := by
  simp only [Branch.invert, C42_hi_dp_bc]
theorem C42_line_normalize (hw : Hw k) (s : Line k) :
    s.normalize hw .sse3 = s.normalize hw .sse41 := by
  simp only [Line.normalize, C42_hi_dp_bc]
theorem C42_line_invert (hw : Hw k) (s : Line k) : s.invert hw .sse3 = s.invert hw .sse41 := by
  simp only [Line.invert, C42_hi_dp_bc]
theorem C42_rotor_normalize (hw : Hw k) (s : Rotor k) :
    s.normalize hw .sse3 = s.normalize hw .sse41 := by
  simp only [Rotor.normalize, C42_dp_bc]
theorem C42_rotor_invert (hw : Hw k) (s : Rotor k) : s.invert hw .sse3 = s.invert hw .sse41 := by
  simp only [Rotor.invert, C42_hi_dp_bc]
theorem C42_motor_normalize (hw : Hw k) (s : Motor k) :
    s.normalize hw .sse3 = s.normalize hw .sse41 := by
  simp only [Motor.normalize, C42_dp_bc]
theorem C42_motor_invert (hw : Hw k) (s : Motor k) : s.invert hw .sse3 = s.invert hw .sse41 := by
  simp only [Motor.invert, C42_dp_bc]

theorem C42_plane_div_plane (hw : Hw k) (a b : Plane k) :
    a.divPlane hw .sse3 b = a.divPlane hw .sse41 b := by
  simp only [Plane.divPlane, C42_plane_invert]
theorem C42_branch_div_branch (hw : Hw k) (a b : Branch k) :
    a.divBranch hw .sse3 b = a.divBranch hw .sse41 b := by
  simp only [Branch.divBranch, C42_branch_invert]
theorem C42_rotor_div_rotor (hw : Hw k) (a b : Rotor k) :
    a.divRotor hw .sse3 b = a.divRotor hw .sse41 b := by
  simp only [Rotor.divRotor, C42_rotor_invert]
theorem C42_line_div_line (hw : Hw k) (a b : Line k) :
    a.divLine hw .sse3 b = a.divLine hw .sse41 b := by
  simp only [Line.divLine, C42_line_invert]
theorem C42_motor_div_rotor (hw : Hw k) (a : Motor k) (b : Rotor k) :
    a.divRotor hw .sse3 b = a.divRotor hw .sse41 b := by
  simp only [Motor.divRotor, C42_rotor_invert]
theorem C42_motor_div_motor (hw : Hw k) (a b : Motor k) :
    a.divMotor hw .sse3 b = a.divMotor hw .sse41 b := by
  simp only [Motor.divMotor, C42_motor_invert]

/-! ### exponentials, logarithms, square roots, Euler angles, screws -/
theorem C42_explog_norm (hw : Hw k) (a b : V4 k) :
    explog_norm hw .sse3 a b = explog_norm hw .sse41 a b := by
  simp only [explog_norm, C42_hi_dp_bc]
theorem C42_exp_kernel (hw : Hw k) (lm : Libm k) (a b : V4 k) :
    exp_kernel hw lm .sse3 a b = exp_kernel hw lm .sse41 a b := by
  simp only [exp_kernel, exp_general, C42_explog_norm]
theorem C42_log_kernel (hw : Hw k) (lm : Libm k) (a b : V4 k) :
    log_kernel hw lm .sse3 a b = log_kernel hw lm .sse41 a b := by
  simp only [log_kernel, log_general, C42_explog_norm]
theorem C42_line_exp (hw : Hw k) (lm : Libm k) (l : Line k) :
    l.exp hw lm .sse3 = l.exp hw lm .sse41 := by simp only [Line.exp, C42_exp_kernel]
theorem C42_motor_log (hw : Hw k) (lm : Libm k) (m : Motor k) :
    m.log hw lm .sse3 = m.log hw lm .sse41 := by simp only [Motor.log, C42_log_kernel]
theorem C42_motor_mkScrew (hw : Hw k) (lm : Libm k) (ang d : k) (l : Line k) :
    Motor.mkScrew hw lm .sse3 ang d l = Motor.mkScrew hw lm .sse41 ang d l := by
  simp only [Motor.mkScrew, C42_exp_kernel]
theorem C42_branch_exp (hw : Hw k) (lm : Libm k) (b : Branch k) :
    b.exp hw lm .sse3 = b.exp hw lm .sse41 := by simp only [Branch.exp, C42_hi_dp]
theorem C42_rotor_sqrt (hw : Hw k) (r : Rotor k) : r.sqrt hw .sse3 = r.sqrt hw .sse41 := by
  simp only [Rotor.sqrt, C42_rotor_normalize]
theorem C42_branch_sqrt (hw : Hw k) (b : Branch k) : b.sqrt hw .sse3 = b.sqrt hw .sse41 := by
  simp only [Branch.sqrt, C42_rotor_normalize]
theorem C42_motor_sqrt (hw : Hw k) (m : Motor k) : m.sqrt hw .sse3 = m.sqrt hw .sse41 := by
  simp only [Motor.sqrt, C42_motor_normalize]
theorem C42_rotor_mkEuler (hw : Hw k) (lm : Libm k) (ea : EulerAngles k) :
    Rotor.mkEuler hw lm .sse3 ea = Rotor.mkEuler hw lm .sse41 ea := by
  simp only [Rotor.mkEuler, C42_rotor_normalize]

/-! ### the violation -/

/-- `plane::normalize` scales `d` by `1 + 1/√N` in the SSE3 build and not at all in the SSE4.1
build: unless the computed `1/√N` is zero, the two builds agree exactly on the planes
through the origin. -/
theorem C42_plane_normalize_iff (hw : Hw k) (s : Plane k)
    (h : (rsqrt_nr1 hw (hi_dp_bc .sse41 s.p0 s.p0)).l0 ≠ 0) :
    s.normalize hw .sse3 = s.normalize hw .sse41 ↔ s.p0.l0 = 0 := by
  simp only [Plane.normalize, C42_hi_dp_bc]
  generalize rsqrt_nr1 hw (hi_dp_bc .sse41 s.p0 s.p0) = v at h ⊢
  obtain ⟨⟨d, a, b, c⟩⟩ := s
  simp only [sse, cond_true, cond_false, Plane.mk.injEq, V4.mk.injEq, add_zero, one_mul, and_true]
  constructor
  · intro h'
    have : v.l0 * d = 0 := by linear_combination h'
    exact (mul_eq_zero.1 this).resolve_left h
  · intro h'; subst h'; ring1

/-- C42 is violated: the plane `z + 1 = 0` is normalised to `z + 2 = 0` by the SSE3 build and left
unchanged by the SSE4.1 build. -/
theorem C42_plane_normalize_fails (hw : Hw ℚ) (h : hw.rsqrt 1 = 1) :
    (Plane.mk4 (0 : ℚ) 0 1 1).normalize hw .sse3 = Plane.mk4 0 0 1 2 ∧
    (Plane.mk4 (0 : ℚ) 0 1 1).normalize hw .sse41 = Plane.mk4 0 0 1 1 := by
  constructor <;> simp [kln, sse, h] <;> norm_num

/-- The remaining two alternatives do differ on operands that violate the representation
invariant, so the `WF` hypotheses above are needed. -/
theorem C42_needs_wf :
    (Point.mk (⟨1, 0, 0, 0⟩ : V4 ℚ)).dotLine .sse3 ⟨⟨1, 0, 0, 0⟩, ⟨0, 0, 0, 0⟩⟩ ≠
      (Point.mk (⟨1, 0, 0, 0⟩ : V4 ℚ)).dotLine .sse41 ⟨⟨1, 0, 0, 0⟩, ⟨0, 0, 0, 0⟩⟩ := by
  rw [Ne, C42_point_dot_line_iff]; norm_num

end Field

/-- A well-formed line and translator, neither zero, to which the conditional theorems apply. -/
example : (Point.mk3 (1 : ℚ) 2 3).dotLine .sse3 (Line.mk6 1 2 3 4 5 6) =
    (Point.mk3 (1 : ℚ) 2 3).dotLine .sse41 (Line.mk6 1 2 3 4 5 6) :=
  C42_point_dot_line _ _ ⟨rfl, rfl⟩

end Klein
