import Verif.Props.Metric

/-!
# C67: the values of the norm functions
-/

namespace Klein

open PGA PGA.MV Euclid

section Alg
variable {K : Type} [CommRing K]

/-- C67: `line::squared_norm` is the scalar part of `l ~l`. -/
theorem C67_line_squared (isa : Isa) (l : Line K) : l.squared_norm isa = (l.mv * rev l.mv).s := by
  cases isa <;> simp only [Line.mv, kln, sse, pga, cond_true, cond_false] <;> ring

/-- C67: `branch::squared_norm` likewise; the whole product is that scalar. -/
theorem C67_branch_squared (isa : Isa) (b : Branch K) :
    b.mv * rev b.mv = (b.squared_norm isa) • (1 : MV K) := by
  cases isa <;> apply PGA.MV.ext <;> simp only [Branch.mv, kln, sse, pga, cond_true, cond_false] <;> ring

/-- C67: `ideal_line::squared_ideal_norm` is the squared length of its three components, which is the
squared norm of the branch dual to it. -/
theorem C67_ideal_squared (isa : Isa) (l : IdealLine K) :
    l.squared_ideal_norm isa = l.e01 * l.e01 + l.e02 * l.e02 + l.e03 * l.e03 ∧
    l.squared_ideal_norm isa = (J l.mv * rev (J l.mv)).s := by
  constructor <;> cases isa <;> simp only [IdealLine.mv, kln, sse, pga, cond_true, cond_false] <;> ring

/-- C67: the squared norm of an ideal line is 0 as a multivector: its ideal norm is not its norm. -/
theorem C67_ideal_null (l : IdealLine K) : l.mv * rev l.mv = 0 := by
  apply PGA.MV.ext <;> simp only [IdealLine.mv, kln, sse, pga, cond_true, cond_false] <;> ring

end Alg

/-- C67: `line::norm` is the length of the direction of the line. -/
theorem C67_line (isa : Isa) (l : Line ℝ) : l.norm isa Real.sqrt = ‖l.dir.toE‖ := by
  rw [norm_toE, Line.norm]
  congr 1
  cases isa <;> simp only [dot, Line.dir, kln, sse, cond_true, cond_false] <;> ring

/-- C67: `branch::norm` is the length of the direction of the branch. -/
theorem C67_branch (isa : Isa) (b : Branch ℝ) :
    b.norm isa Real.sqrt = ‖(⟨b.e23, b.e31, b.e12⟩ : Vec3 ℝ).toE‖ := by
  rw [norm_toE, Branch.norm]
  congr 1
  cases isa <;> simp only [dot, kln, sse, cond_true, cond_false] <;> ring

/-- C67: `ideal_line::ideal_norm` is the length of its three components. -/
theorem C67_ideal (isa : Isa) (l : IdealLine ℝ) :
    l.ideal_norm isa Real.sqrt = ‖(⟨l.e01, l.e02, l.e03⟩ : Vec3 ℝ).toE‖ := by
  rw [norm_toE, IdealLine.ideal_norm]
  congr 1
  cases isa <;> simp only [dot, kln, sse, cond_true, cond_false] <;> ring

/-- C67: `plane::norm` is the length of the normal, up to the accuracy of the refined reciprocal
square root, for planes other than the ideal plane. -/
theorem C67_plane (hw : Hw ℝ) (hc : hw.Contract) (isa : Isa) (p : Plane ℝ) (h : p.normal.toE ≠ 0) :
    (1 - 2.1e-7) * ‖p.normal.toE‖ ≤ p.norm hw isa ∧ p.norm hw isa ≤ ‖p.normal.toE‖ := by
  have hpos : 0 < ‖p.normal.toE‖ := norm_pos_iff.2 h
  rw [norm_toE] at hpos ⊢
  have hd : 0 < dot p.normal p.normal := Real.sqrt_pos.1 hpos
  have e : p.norm hw isa = Real.sqrt (dot p.normal p.normal)
      * (Real.sqrt (dot p.normal p.normal) * rsqrt1 hw (dot p.normal p.normal)) := by
    rw [Plane.norm, hi_dp_eq]
    have h1 : dot3 p.p0 p.p0 = dot p.normal p.normal := rfl
    rw [h1]
    have h2 : (sqrt_nr1 hw (set_ss (dot p.normal p.normal))).l0
      = dot p.normal p.normal * rsqrt1 hw (dot p.normal p.normal) := rfl
    rw [h2, ← mul_assoc, Real.mul_self_sqrt hd.le]
  have hb := C23_rsqrt_bound hw hc ⟨dot p.normal p.normal, 0, 0, 0⟩ 0 hd
  have e2 : (rsqrt_nr1 hw (⟨dot p.normal p.normal, 0, 0, 0⟩ : V4 ℝ)).get 0
    = rsqrt1 hw (dot p.normal p.normal) := rfl
  have e3 : (⟨dot p.normal p.normal, 0, 0, 0⟩ : V4 ℝ).get 0 = dot p.normal p.normal := rfl
  rw [e2, e3] at hb
  rw [e]
  constructor
  · nlinarith [hb.1]
  · nlinarith [hb.2]

/-- The plane 3x + 4y + 7 = 0 has norm 5 with exact estimates, the line through (0,0,1) along
(2, 3, 6) has norm 7. -/
example : (Plane.mk4 3 4 0 7 : Plane ℝ).normal.toE ≠ 0 ∧
    (Line.mk6 3 (-2) 0 2 3 6 : Line ℤ).squared_norm .sse3 = 49 := by
  constructor
  · intro h
    have := congrArg (fun v => v 0) h
    norm_num [Plane.normal, Vec3.toE, kln] at this
  · decide

end Klein
