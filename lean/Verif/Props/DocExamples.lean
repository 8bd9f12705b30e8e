import Verif.Props.Norms
import Verif.Props.NormValues
import Verif.Props.Metric
import Verif.Lemmas.Inj
import Verif.Api.Coords
import Verif.Lemmas.Cis
import Verif.Spec.RealLib
import Mathlib.Analysis.SpecialFunctions.Trigonometric.Inverse

/-!
# C75: the worked examples of docs/geometry-potpourri.md

Every calculation of the workbook that has a Klein counterpart, in the specification and in the model
of the code.  The numbers are integers; the instruction set is arbitrary.
-/

set_option linter.unusedSimpArgs false
set_option linter.unusedSectionVars false

namespace Klein.Doc

open PGA PGA.MV Euclid

/-! ### the algebra (geometry-potpourri.md:101-287) -/

/-- `4 e1 - 2 e32`. -/
def x : MV ℤ := { (0 : MV ℤ) with e1 := 4, e23 := 2 }
/-- `3 e012 + e10`. -/
def y : MV ℤ := { (0 : MV ℤ) with e012 := 3, e01 := -1 }

/-- C75, geometry-potpourri.md:133-138, `e013` being `MV.e013`. -/
theorem C75_product : x * y = { (0 : MV ℤ) with e0 := 4, e02 := -12, e013 := -6, e0123 := -2 } := by
  apply MV.ext <;> norm_num [pga, x, y]

/-- C75, geometry-potpourri.md:180-185. -/
theorem C75_inner : inner x y = { (0 : MV ℤ) with e0 := 4, e02 := -12 } := by
  apply MV.ext <;> norm_num [pga, x, y]

/-- C75, geometry-potpourri.md:213-218. -/
theorem C75_wedge : wedge x y = { (0 : MV ℤ) with e0123 := -2 } := by
  apply MV.ext <;> norm_num [pga, x, y]

/-- C75, geometry-potpourri.md:279-286. -/
theorem C75_vee : vee x y = { (0 : MV ℤ) with s := -2, e2 := -6 } := by decide +kernel

/-! ### planes, lines, points (geometry-potpourri.md:303-560) -/

/-- C75, geometry-potpourri.md:319-334: `p5 = p1 + 3 p2 - p3 / 3` is `x + 3 y - z = 0`. -/
theorem C75_plane_sum (hw : Hw ℚ) (h : hw.RcpAt 3) :
    (((Plane.mk4 1 0 0 0).add ((Plane.mk4 0 1 0 0).smul 3)).sub ((Plane.mk4 0 0 3 0).sdiv hw 3) : Plane ℚ) =
      Plane.mk4 1 3 (-1) 0 := by
  have e : 3 * rcp1 hw 3 = 1 := rcp_exact h
  have e' : hw.rcp 3 * (2 - 3 * hw.rcp 3) = 1 / 3 := by
    have : rcp1 hw 3 = hw.rcp 3 * (2 - 3 * hw.rcp 3) := by simp [rcp1, kln, sse]
    rw [← this]; linarith
  simp only [Plane.sdiv, rcp_nr1, kln, sse, Plane.mk.injEq, V4.mk.injEq]
  norm_num [e']

/-- `p1 = 3 e0 + e1 + e3`. -/
def p1 : Plane ℤ := Plane.mk4 1 0 1 3
/-- `p2 = e0 + e3`. -/
def p2 : Plane ℤ := Plane.mk4 0 0 1 1

/-- C75, geometry-potpourri.md:357-359: the document reads `3 e0 + e1 + e3` as `x + z - 3 = 0`; the
points `(0, y, 3)` and `(3, y, 0)` it names are not on it.  The later reading `0 = 3 + x + z`
(line 429) is the right one. -/
theorem C75_reading_fails (t : ℤ) : ¬ p1.Has ⟨0, t, 3⟩ ∧ ¬ p1.Has ⟨3, t, 0⟩ ∧
    ∀ v : Vec3 ℤ, p1.Has v ↔ 3 + v.x + v.z = 0 := by
  refine ⟨?_, ?_, fun v => ?_⟩
  · norm_num [Plane.Has, OnPlane, dot, Plane.normal, p1, kln, sse]
  · norm_num [Plane.Has, OnPlane, dot, Plane.normal, p1, kln, sse]
  · simp only [Plane.Has, OnPlane, dot, Plane.normal, p1, kln, sse]
    constructor <;> intro h <;> linarith

/-- C75, geometry-potpourri.md:419-424, 461-468: the meet of the two planes and its Plücker
coordinates. -/
theorem C75_meet_planes : p1.meetPlane p2 = Line.mk6 (-1) 0 2 0 (-1) 0 ∧
    (p1.meetPlane p2).dir = ⟨0, -1, 0⟩ ∧ (p1.meetPlane p2).mom = ⟨-1, 0, 2⟩ ∧
    cross p1.normal p2.normal = ⟨0, -1, 0⟩ := by decide +kernel

/-- C75, geometry-potpourri.md:446: parallel planes meet in an ideal line. -/
theorem C75_meet_parallel : ((Plane.mk4 2 0 0 (-2) : Plane ℤ).meetPlane (Plane.mk4 1 0 0 0)) =
    Line.mk6 (-2) 0 0 0 0 0 := by decide +kernel

/-- C75, geometry-potpourri.md:492-499 and the exercise after it: the line meets `x + y = 0` at
`(-2, 2, -1)`, in either order. -/
theorem C75_meet_line (isa : Isa) :
    ((Line.mk6 (-1) 0 2 0 (-1) 0 : Line ℤ).meetPlane isa (Plane.mk4 1 1 0 0)) =
      (Point.mk3 (-2) 2 (-1)).smul (-1) ∧
    ((Plane.mk4 1 1 0 0 : Plane ℤ).meetLine isa (Line.mk6 (-1) 0 2 0 (-1) 0)) =
      (Point.mk3 (-2) 2 (-1)).smul (-1) := by cases isa <;> decide +kernel

/-- C75, geometry-potpourri.md:537-541: the code beside it uses the plane `{0, 1, 1, 0}`, which is
`y + z = 0`, and computes another point. -/
theorem C75_meet_line_fails (isa : Isa) :
    ((Line.mk6 (-1) 0 2 0 (-1) 0 : Line ℤ).meetPlane isa (Plane.mk4 0 1 1 0)) =
      (Point.mk3 (-2) 1 (-1)).smul (-1) := by cases isa <;> decide +kernel

/-- C75, geometry-potpourri.md:566-576: `p1 & p2 & p3`, for the points on the three axes. -/
theorem C75_join (isa : Isa) :
    ((Point.mk3 1 0 0 : Point ℤ).joinPoint (Point.mk3 0 1 0)).joinPoint isa (Point.mk3 0 0 1) =
      Plane.mk4 (-1) (-1) (-1) 1 := by cases isa <;> decide +kernel

/-! ### projections and distances (geometry-potpourri.md:600-800) -/

/-- `P = e123 + 2 e032 + e013`, the point `(2, 1, 0)`. -/
def P : Point ℤ := Point.mk3 2 1 0
/-- `p = 3 e0 + e1`. -/
def p : Plane ℤ := Plane.mk4 1 0 0 3

/-- C75, geometry-potpourri.md:605-609, 629-633: `P . p = p . P = e23 - e03`. -/
theorem C75_dot (isa : Isa) : P.dotPlane isa p = Line.mk6 0 0 (-1) 1 0 0 ∧
    p.dotPoint isa P = Line.mk6 0 0 (-1) 1 0 0 := by cases isa <;> decide +kernel

/-- C75, geometry-potpourri.md:653-668, 684: `P ^ p = -5 e0123`, `P v p = 5`, and the two ways of
computing the distance in Klein. -/
theorem C75_distance (isa : Isa) : wedge P.mv p.mv = { (0 : MV ℤ) with e0123 := -5 } ∧
    vee P.mv p.mv = { (0 : MV ℤ) with s := 5 } ∧
    |(p.meetPoint isa P).q| = 5 ∧ |(p.joinPoint isa P).p| = 5 ∧ sqDist P.pos ⟨-3, 1, 0⟩ = 5 ^ 2 ∧
    p.Has ⟨-3, 1, 0⟩ := by
  refine ⟨?_, ?_, ?_, ?_, ?_, ?_⟩
  · decide +kernel
  · decide +kernel
  · cases isa <;> decide +kernel
  · cases isa <;> decide +kernel
  · decide +kernel
  · norm_num [Plane.Has, OnPlane, dot, Plane.normal, p, kln, sse]

/-- C75, geometry-potpourri.md:697-705: the projection of `(2, 1, 0)`. -/
theorem C75_project (isa : Isa) : (p.dotPoint isa P).meetPlane isa p = Point.mk3 (-3) 1 0 ∧
    P.projectPlane isa p = Point.mk3 (-3) 1 0 ∧
    (inner p.mv P.mv) * p.mv = (Point.mk3 (-3) 1 0 : Point ℤ).mv := by cases isa <;> decide +kernel

/-- C75, geometry-potpourri.md:697: the formula `(p . P) P` as printed (the calculation below it uses
`(p . P) p`) is not a point at all. -/
theorem C75_project_formula_fails : (inner p.mv P.mv) * P.mv =
    { (0 : MV ℤ) with e0 := 2, e1 := -1 } := by decide +kernel

/-- C75, geometry-potpourri.md:712-716: the code uses the point `(2, 0, 1)`. -/
theorem C75_project_code (isa : Isa) :
    (p.dotPoint isa (Point.mk3 2 0 1)).meetPlane isa p = Point.mk3 (-3) 0 1 := by
  cases isa <;> decide +kernel

/-- C75, geometry-potpourri.md:736-741: projecting the line `e32 + e13` onto `p`. -/
theorem C75_project_line :
    (p.dotLine (Line.mk6 0 0 0 (-1) (-1) 0)).mulPlane p = ⟨⟨0, 0, 1, 0⟩, ⟨0, 0, 0, -3⟩⟩ ∧
    ((Line.mk6 0 0 0 (-1) (-1) 0).dotPlane p).mulPlane p = ⟨⟨0, 0, -1, 0⟩, ⟨0, 0, 0, 3⟩⟩ ∧
    (Line.mk6 0 0 0 (-1) (-1) 0 : Line ℤ).projectPlane p = Line.mk6 0 0 3 0 (-1) 0 := by
  decide +kernel

/-- `l = e02 + e23`. -/
def l : Line ℤ := Line.mk6 0 1 0 1 0 0
/-- `P = e123 + e013 + e021`. -/
def Q : Point ℤ := Point.mk3 0 1 1

/-- C75, geometry-potpourri.md:770-779, 786: the join is `e0 - e3` and the line is the meet of
`e0 - e3` and `e2`. -/
theorem C75_point_line (isa : Isa) : l.joinPoint isa Q = Plane.mk4 0 0 (-1) 1 ∧
    vee Q.mv l.mv = (Plane.mk4 0 0 (-1) 1 : Plane ℤ).mv ∧
    (Plane.mk4 0 0 (-1) 1 : Plane ℤ).meetPlane (Plane.mk4 0 1 0 0) = l := by
  cases isa <;> decide +kernel

/-- C75, geometry-potpourri.md:798-808: the projection of `(0, 1, 1)` onto the line, by the formula
`(P . l) l` of line 757; the snippet, `(p | l) * p`, is not a point. -/
theorem C75_point_line_project (isa : Isa) : (Q.dotLine isa l).meetLine isa l = (Point.mk3 0 0 1).smul (-1) ∧
    Q.projectLine isa l = (Point.mk3 0 0 1).smul (-1) ∧
    ((Q.dotLine isa l).mulPoint isa Q).mv ≠ (Point.mk3 0 0 1 : Point ℤ).mv := by
  cases isa <;> decide +kernel

/-! ### the angle between planes (geometry-potpourri.md:355-395) -/

/-- geometry-potpourri.md:388-394 `plane_angle_rad` (the `.scalar()` there is superfluous: `operator|`
of two planes returns a float). -/
noncomputable def planeAngleRad (hw : Hw ℝ) (isa : Isa) (a b : Plane ℝ) : ℝ :=
  Libm.real.acos ((a.normalize hw isa).dotPlane isa (b.normalize hw isa))

/-- C75: the snippet computes the angle of the normals, for all planes that have one. -/
theorem C75_plane_angle {hw : Hw ℝ} (hx : hw.Exact) (isa : Isa) (a b : Plane ℝ)
    (ha : 0 < a.sqNorm) (hb : 0 < b.sqNorm) :
    planeAngleRad hw isa a b = InnerProductGeometry.angle a.normal.toE b.normal.toE := by
  have key : ∀ p : Plane ℝ, 0 < p.sqNorm → (p.normalize hw isa).normal =
      (Real.sqrt p.sqNorm)⁻¹ • p.normal ∧ ‖(p.normalize hw isa).normal.toE‖ = 1 := by
    intro p hp
    have e1 : (p.normalize hw isa).normal = (Real.sqrt p.sqNorm)⁻¹ • p.normal := by
      rw [Plane.normalize_eq]
      have : dot3 p.p0 p.p0 = p.sqNorm := rfl
      rw [this, rsqrt1_eq hx hp]
      cases isa <;> apply Vec3.ext <;> simp [Plane.normal, smul_x, smul_y, smul_z, kln, sse, mul_comm]
    refine ⟨e1, ?_⟩
    rw [norm_toE, e1, Real.sqrt_eq_one]
    have hs := Real.sq_sqrt hp.le
    have h0 := (Real.sqrt_pos.2 hp).ne'
    have : dot p.normal p.normal = p.sqNorm := rfl
    have e2 : dot ((Real.sqrt p.sqNorm)⁻¹ • p.normal) ((Real.sqrt p.sqNorm)⁻¹ • p.normal) =
        (Real.sqrt p.sqNorm)⁻¹ ^ 2 * dot p.normal p.normal := by
      simp only [dot, smul_x, smul_y, smul_z]; ring
    rw [e2, this, inv_pow, hs]; exact inv_mul_cancel₀ hp.ne'
  obtain ⟨na, ua⟩ := key a ha
  obtain ⟨nb, ub⟩ := key b hb
  have e : planeAngleRad hw isa a b =
      Real.arccos ((a.normalize hw isa).dotPlane isa (b.normalize hw isa)) := rfl
  rw [e, C22_plane_angle isa _ _ ua ub, Real.arccos_cos (InnerProductGeometry.angle_nonneg _ _)
    (InnerProductGeometry.angle_le_pi _ _), na, nb]
  have hsm : ∀ (k : ℝ) (v : Vec3 ℝ), (k • v).toE = k • v.toE := by
    intro k v
    ext i
    fin_cases i <;> simp [Vec3.toE, smul_x, smul_y, smul_z]
  rw [hsm, hsm, InnerProductGeometry.angle_smul_left_of_pos _ _ (inv_pos.2 (Real.sqrt_pos.2 ha)),
    InnerProductGeometry.angle_smul_right_of_pos _ _ (inv_pos.2 (Real.sqrt_pos.2 hb))]

/-- C75, geometry-potpourri.md:361-384: the two planes of the text are at 45 degrees. -/
theorem C75_plane_angle_example {hw : Hw ℝ} (hx : hw.Exact) (isa : Isa) :
    planeAngleRad hw isa (Plane.mk4 1 0 1 3) (Plane.mk4 0 0 1 1) = Real.pi / 4 := by
  rw [C75_plane_angle hx isa _ _ (by norm_num [Plane.sqNorm, dot, Plane.normal, kln, sse])
    (by norm_num [Plane.sqNorm, dot, Plane.normal, kln, sse]), InnerProductGeometry.angle, inner_toE, norm_toE, norm_toE]
  have e : dot (Plane.mk4 1 0 1 3 : Plane ℝ).normal (Plane.mk4 0 0 1 1 : Plane ℝ).normal /
      (Real.sqrt (dot (Plane.mk4 1 0 1 3 : Plane ℝ).normal (Plane.mk4 1 0 1 3 : Plane ℝ).normal) *
        Real.sqrt (dot (Plane.mk4 0 0 1 1 : Plane ℝ).normal (Plane.mk4 0 0 1 1 : Plane ℝ).normal)) =
      Real.cos (Real.pi / 4) := by
    have h2 : Real.sqrt 2 * Real.sqrt 2 = 2 := Real.mul_self_sqrt (by norm_num)
    rw [Real.cos_pi_div_four]
    norm_num [dot, Plane.normal, kln, sse]
    rw [inv_eq_one_div, div_eq_div_iff (by positivity) (by norm_num)]
    linarith
  rw [e, Real.arccos_cos (by positivity) (by linarith [Real.pi_pos])]

/-! ### a motor applied to a point (ga_skeletal_animation.md:167-207) -/

/-- C75: the expanded conjugation, with `a3` the weight of `e032`. -/
theorem C75_conjugation {K : Type} [CommRing K] (a0 a1 a2 a3 b0 b1 b2 b3 c0 c1 c2 c3 : K) :
    (⟨⟨b0, b3, b2, b1⟩, ⟨c0, c1, c2, c3⟩⟩ : Motor K).onPoint ⟨⟨a0, a3, a2, a1⟩⟩ =
      ⟨⟨a0 * (b0 ^ 2 + b1 ^ 2 + b2 ^ 2 + b3 ^ 2),
        2 * a0 * (b2 * c3 - b0 * c1 - b1 * c2 - b3 * c0) + 2 * a1 * (b1 * b3 - b0 * b2) +
          2 * a2 * (b0 * b1 + b2 * b3) + a3 * (b0 ^ 2 + b3 ^ 2 - b1 ^ 2 - b2 ^ 2),
        2 * a0 * (b1 * c1 - b0 * c2 - b3 * c3 - b2 * c0) + 2 * a3 * (b2 * b3 - b0 * b1) +
          2 * a1 * (b0 * b3 + b1 * b2) + a2 * (b0 ^ 2 + b2 ^ 2 - b1 ^ 2 - b3 ^ 2),
        2 * a0 * (b3 * c2 - b0 * c3 - b2 * c1 - b1 * c0) + 2 * a2 * (b1 * b2 - b0 * b3) +
          2 * a3 * (b0 * b2 + b1 * b3) + a1 * (b0 ^ 2 + b1 ^ 2 - b2 ^ 2 - b3 ^ 2)⟩⟩ := by
  simp only [kln, sse, cond_true, cond_false, Point.mk.injEq, V4.mk.injEq]
  refine ⟨?_, ?_, ?_, ?_⟩ <;> ring

end Klein.Doc
