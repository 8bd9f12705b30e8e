import Verif.Props.Incidence
import Mathlib.Geometry.Euclidean.Angle.Unoriented.Basic
import Mathlib.Analysis.InnerProductSpace.PiL2

/-!
# C21: projections; C22: norms and inner products are Euclidean measurements
-/

set_option linter.unusedSimpArgs false
set_option linter.unusedSectionVars false

namespace Klein

open Euclid

section Lemmas
variable {K : Type} [CommRing K]

theorem pythagoras (a x v : Vec3 K) (h : dot (a - x) (v - x) = 0) :
    sqDist a v = sqDist a x + sqDist x v := by
  simp only [sqDist, dot, sub_x, sub_y, sub_z] at *
  linear_combination (-2) * h

theorem sqDist_nonneg {K : Type} [Field K] [LinearOrder K] [IsStrictOrderedRing K] (a b : Vec3 K) :
    0 ≤ sqDist a b := by
  simp only [sqDist, dot]
  nlinarith [mul_self_nonneg (a - b).x, mul_self_nonneg (a - b).y, mul_self_nonneg (a - b).z]

/-- Two points of a line differ by a multiple of its direction. -/
theorem Line.Has.diff {K : Type} [Field K] {l : Line K} (hd : dot l.dir l.dir ≠ 0) {u v : Vec3 K}
    (hu : l.Has u) (hv : l.Has v) : ∃ t : K, v - u = t • l.dir := by
  apply cross_eq_zero_parallel hd
  simp only [Line.Has, Vec3.ext_iff, cross] at hu hv
  obtain ⟨u1, u2, u3⟩ := hu
  obtain ⟨v1, v2, v3⟩ := hv
  apply Vec3.ext <;> simp only [cross, sub_x, sub_y, sub_z, zero_x, zero_y, zero_z]
  · linear_combination u1 - v1
  · linear_combination u2 - v2
  · linear_combination u3 - v3

end Lemmas

/-! ### C21 -/
section Project
variable {K : Type} [Field K]

theorem C21_point_line_coords {K : Type} [CommRing K] (isa : Isa) (P : Point K) (l : Line K)
    (wl : l.WF) :
    (P.projectLine isa l).w = -(P.w * dot l.dir l.dir) ∧
    (P.projectLine isa l).pos = -(dot P.pos l.dir • l.dir + P.w • cross l.dir l.mom) := by
  obtain ⟨⟨b0, b1, b2, b3⟩, c⟩ := l
  obtain ⟨hb, -⟩ := wl
  simp only at hb
  subst hb
  refine ⟨?_, ?_⟩
  · cases isa <;> simp only [dot, Line.dir, Plane.normal, kln, sse, cond_true, cond_false] <;> ring
  · cases isa <;> apply Vec3.ext <;> simp only [Point.pos, cross, dot, Line.dir, Line.mom, Plane.normal,
      kln, sse, cond_true, cond_false, add_x, add_y, add_z, neg_x, neg_y, neg_z, smul_x, smul_y,
      smul_z] <;> ring

/-- C21: `project(P, l)` is on the line and the connecting vector is orthogonal to the line. -/
theorem C21_point_line (isa : Isa) (P : Point K) (l : Line K) (wl : l.WF) (hP : P.w ≠ 0)
    (hs : l.Simple) (hd : dot l.dir l.dir ≠ 0) :
    (P.projectLine isa l).w ≠ 0 ∧ l.Has (P.projectLine isa l).eucl ∧
      dot (P.eucl - (P.projectLine isa l).eucl) l.dir = 0 := by
  obtain ⟨hw, hpos⟩ := C21_point_line_coords isa P l wl
  have hw0 : (P.projectLine isa l).w ≠ 0 := by
    rw [hw]; exact neg_ne_zero.2 (mul_ne_zero hP hd)
  refine ⟨hw0, ?_, ?_⟩
  · rw [Line.has_eucl _ _ hw0, hw, hpos]
    simp only [Line.Simple, dot] at hs
    apply Vec3.ext <;> simp only [cross, dot, neg_x, neg_y, neg_z, add_x, add_y, add_z, smul_x,
      smul_y, smul_z]
    · linear_combination P.w * l.dir.x * hs
    · linear_combination P.w * l.dir.y * hs
    · linear_combination P.w * l.dir.z * hs
  · simp only [Point.eucl, hw, hpos]
    have e : dot (P.w⁻¹ • P.pos - (-(P.w * dot l.dir l.dir))⁻¹ •
        -(dot P.pos l.dir • l.dir + P.w • cross l.dir l.mom)) l.dir
        = P.w⁻¹ * dot P.pos l.dir - (P.w * dot l.dir l.dir)⁻¹ * (dot P.pos l.dir * dot l.dir l.dir) := by
      have hc : dot (cross l.dir l.mom) l.dir = 0 := by simp only [dot, cross]; ring
      have h1 : ∀ (a b : Vec3 K) (k m : K), dot (k • a - m • b) l.dir = k * dot a l.dir - m * dot b l.dir := by
        intro a b k m; simp only [dot, sub_x, sub_y, sub_z, smul_x, smul_y, smul_z]; ring
      have h2 : ∀ (a b : Vec3 K) (k m : K), dot (-(k • a + m • b)) l.dir
          = -(k * dot a l.dir + m * dot b l.dir) := by
        intro a b k m
        simp only [dot, add_x, add_y, add_z, neg_x, neg_y, neg_z, smul_x, smul_y, smul_z]; ring
      rw [h1, h2, hc, inv_neg]; ring
    rw [e]
    field_simp
    ring

/-- C21: it is the closest point of the line. -/
theorem C21_point_line_closest {K : Type} [Field K] [LinearOrder K] [IsStrictOrderedRing K]
    (isa : Isa) (P : Point K) (l : Line K) (wl : l.WF) (hP : P.w ≠ 0)
    (hs : l.Simple) (hd : dot l.dir l.dir ≠ 0) (v : Vec3 K) (hv : l.Has v) :
    sqDist P.eucl (P.projectLine isa l).eucl ≤ sqDist P.eucl v := by
  obtain ⟨-, hon, horth⟩ := C21_point_line isa P l wl hP hs hd
  obtain ⟨t, ht⟩ := Line.Has.diff hd hon hv
  rw [pythagoras P.eucl (P.projectLine isa l).eucl v]
  · linarith [sqDist_nonneg (P.projectLine isa l).eucl v]
  · rw [ht]
    have : dot (P.eucl - (P.projectLine isa l).eucl) (t • l.dir)
        = t * dot (P.eucl - (P.projectLine isa l).eucl) l.dir := by
      simp only [dot, smul_x, smul_y, smul_z]; ring
    rw [this, horth, mul_zero]

theorem C21_point_plane_coords {K : Type} [CommRing K] (isa : Isa) (P : Point K) (p : Plane K) :
    (P.projectPlane isa p).w = P.w * dot p.normal p.normal ∧
    (P.projectPlane isa p).pos
      = dot p.normal p.normal • P.pos - (dot p.normal P.pos + p.d * P.w) • p.normal := by
  refine ⟨?_, ?_⟩
  · cases isa <;> simp only [dot, Line.dir, Plane.normal, kln, sse, cond_true, cond_false] <;> ring
  · cases isa <;> apply Vec3.ext <;> simp only [Point.pos, cross, dot, Line.dir, Line.mom, Plane.normal,
      kln, sse, cond_true, cond_false, sub_x, sub_y, sub_z, smul_x, smul_y,
      smul_z] <;> ring

/-- C21: `project(P, p)` is on the plane and the connecting vector is a multiple of the normal. -/
theorem C21_point_plane (isa : Isa) (P : Point K) (p : Plane K) (hP : P.w ≠ 0)
    (hn : dot p.normal p.normal ≠ 0) :
    (P.projectPlane isa p).w ≠ 0 ∧ p.Has (P.projectPlane isa p).eucl ∧
      P.eucl - (P.projectPlane isa p).eucl
        = ((dot p.normal P.eucl + p.d) / dot p.normal p.normal) • p.normal := by
  obtain ⟨hw, hpos⟩ := C21_point_plane_coords isa P p
  have hw0 : (P.projectPlane isa p).w ≠ 0 := by rw [hw]; exact mul_ne_zero hP hn
  refine ⟨hw0, ?_, ?_⟩
  · rw [Plane.has_eucl _ _ hw0, hw, hpos]
    simp only [dot, sub_x, sub_y, sub_z, smul_x, smul_y, smul_z]; ring
  · have e : dot p.normal P.pos + p.d * P.w = P.w * (dot p.normal P.eucl + p.d) := by
      simp only [dot, Point.eucl, smul_x, smul_y, smul_z]
      field_simp
    rw [e] at hpos
    generalize dot p.normal P.eucl + p.d = k at *
    apply Vec3.ext <;> simp only [Point.eucl, hw, hpos, sub_x, sub_y, sub_z, smul_x, smul_y, smul_z] <;>
      field_simp <;> ring

/-- C21: it is the closest point of the plane. -/
theorem C21_point_plane_closest {K : Type} [Field K] [LinearOrder K] [IsStrictOrderedRing K]
    (isa : Isa) (P : Point K) (p : Plane K) (hP : P.w ≠ 0)
    (hn : dot p.normal p.normal ≠ 0) (v : Vec3 K) (hv : p.Has v) :
    sqDist P.eucl (P.projectPlane isa p).eucl ≤ sqDist P.eucl v := by
  obtain ⟨-, hon, horth⟩ := C21_point_plane isa P p hP hn
  rw [pythagoras P.eucl (P.projectPlane isa p).eucl v]
  · linarith [sqDist_nonneg (P.projectPlane isa p).eucl v]
  · rw [horth]
    generalize (P.projectPlane isa p).eucl = x at *
    simp only [Plane.Has, OnPlane] at hon hv
    generalize (dot p.normal P.eucl + p.d) / dot p.normal p.normal = k
    simp only [dot, smul_x, smul_y, smul_z, sub_x, sub_y, sub_z] at *
    linear_combination k * hv - k * hon

/-- C21: `project(l, p)` consists of points of `p` (unless it has no direction, which happens exactly
for lines orthogonal to the plane), and contains the orthogonal projection of every point of
`l`. -/
theorem C21_line_plane (isa : Isa) (l : Line K) (p : Plane K)
    (hn : dot p.normal p.normal ≠ 0) :
    ((l.projectPlane p).dir ≠ 0 → ∀ v, (l.projectPlane p).Has v → p.Has v) ∧
    (∀ P : Point K, P.w ≠ 0 → l.Has P.eucl → (l.projectPlane p).Has (P.projectPlane isa p).eucl) ∧
    ((l.projectPlane p).dir = 0 ↔ ∃ t : K, l.dir = t • p.normal) := by
  have hdir : (l.projectPlane p).dir
      = dot p.normal p.normal • l.dir - dot p.normal l.dir • p.normal := by
    apply Vec3.ext <;> simp only [Line.dir, Plane.normal, dot, kln, sse, cond_true, cond_false, sub_x, sub_y, sub_z, smul_x,
      smul_y, smul_z] <;> ring
  have hmom : (l.projectPlane p).mom
      = dot p.normal l.mom • p.normal - p.d • cross p.normal l.dir := by
    apply Vec3.ext <;> simp only [Line.dir, Line.mom, Plane.normal, dot, cross, kln, sse, cond_true, cond_false, sub_x, sub_y, sub_z, smul_x,
      smul_y, smul_z] <;> ring
  refine ⟨?_, ?_, ?_⟩
  · intro hne v hv
    have e : l.projectPlane p = (l.dotPlane p).meetPlane p := rfl
    rw [e] at hv hne
    rw [(C20_meet_coords _ _).1] at hne
    exact ((C20_plane_meet_plane _ _ hne v).1 hv).2
  · intro P hP hl
    obtain ⟨hw, hpos⟩ := C21_point_plane_coords isa P p
    have hw0 : (P.projectPlane isa p).w ≠ 0 := by rw [hw]; exact mul_ne_zero hP hn
    rw [Line.has_eucl _ _ hw0, hw, hpos, hdir, hmom]
    rw [Line.has_eucl _ _ hP] at hl
    generalize l.dir = d at *
    generalize l.mom = m at *
    generalize p.normal = n at *
    generalize P.pos = x at *
    simp only [Vec3.ext_iff, cross, smul_x, smul_y, smul_z] at hl
    obtain ⟨h1, h2, h3⟩ := hl
    apply Vec3.ext <;> simp only [dot, cross, sub_x, sub_y, sub_z, smul_x, smul_y, smul_z]
    · linear_combination (n.x * n.x + n.y * n.y + n.z * n.z) * n.x * (n.x * h1 + n.y * h2 + n.z * h3)
    · linear_combination (n.x * n.x + n.y * n.y + n.z * n.z) * n.y * (n.x * h1 + n.y * h2 + n.z * h3)
    · linear_combination (n.x * n.x + n.y * n.y + n.z * n.z) * n.z * (n.x * h1 + n.y * h2 + n.z * h3)
  · rw [hdir]
    constructor
    · intro h
      refine ⟨dot p.normal l.dir / dot p.normal p.normal, ?_⟩
      simp only [Vec3.ext_iff, sub_x, sub_y, sub_z, smul_x, smul_y, smul_z, zero_x, zero_y, zero_z] at h
      apply Vec3.ext <;> simp only [smul_x, smul_y, smul_z] <;> field_simp
      · linear_combination h.1
      · linear_combination h.2.1
      · linear_combination h.2.2
    · rintro ⟨t, ht⟩
      rw [ht]
      apply Vec3.ext <;> simp only [dot, sub_x, sub_y, sub_z, smul_x, smul_y, smul_z, zero_x, zero_y, zero_z] <;> ring

/-- C21: `project(l, P)` is the line through `P` parallel to `l`. -/
theorem C21_line_point (isa : Isa) (l : Line K) (P : Point K) (wl : l.WF) (hP : P.w ≠ 0) :
    (l.projectPoint isa P).Has P.eucl ∧
    (l.projectPoint isa P).dir = -(P.w * P.w) • l.dir := by
  obtain ⟨⟨b0, b1, b2, b3⟩, c⟩ := l
  obtain ⟨hb, -⟩ := wl
  simp only at hb
  subst hb
  refine ⟨?_, ?_⟩
  · rw [Line.has_eucl _ _ hP]
    cases isa <;> apply Vec3.ext <;> simp only [Point.pos, cross, dot, Line.dir, Line.mom, Plane.normal,
      kln, sse, cond_true, cond_false, sub_x, sub_y, sub_z, smul_x, smul_y, smul_z] <;> ring
  · cases isa <;> apply Vec3.ext <;> simp only [Line.dir, kln, sse, cond_true, cond_false, smul_x,
      smul_y, smul_z] <;> ring

/-- C21: `project(p, P)` is the plane through `P` parallel to `p`. -/
theorem C21_plane_point (isa : Isa) (p : Plane K) (P : Point K) (hP : P.w ≠ 0) :
    (p.projectPoint isa P).Has P.eucl ∧
    (p.projectPoint isa P).normal = -(P.w * P.w) • p.normal := by
  refine ⟨?_, ?_⟩
  · rw [Plane.has_eucl _ _ hP]
    cases isa <;> simp only [Point.pos, dot, Plane.normal, kln, sse, cond_true, cond_false] <;> ring
  · cases isa <;> apply Vec3.ext <;> simp only [Plane.normal, kln, sse, cond_true, cond_false, smul_x,
      smul_y, smul_z] <;> ring

/-- C21: `project(p, l)` contains `l`, and its normal is, up to the factor `-|d|²`, the part of the
normal of `p` orthogonal to `l`. -/
theorem C21_plane_line (p : Plane K) (l : Line K) :
    (∀ v, l.Has v → (p.projectLine l).Has v) ∧
    (p.projectLine l).normal = dot p.normal l.dir • l.dir - dot l.dir l.dir • p.normal := by
  have hn : (p.projectLine l).normal
      = dot p.normal l.dir • l.dir - dot l.dir l.dir • p.normal := by
    apply Vec3.ext <;> simp only [Line.dir, Plane.normal, dot, kln, sse, cond_true, cond_false, sub_x, sub_y, sub_z, smul_x,
      smul_y, smul_z] <;> ring
  have hd : (p.projectLine l).d = dot l.mom (cross p.normal l.dir) := by
    simp only [Line.dir, Line.mom, cross, Plane.normal, dot, kln, sse, cond_true, cond_false]; ring
  refine ⟨?_, hn⟩
  intro v hv
  simp only [Line.Has] at hv
  rw [Plane.Has, OnPlane, hn, hd, ← hv]
  simp only [dot, cross, sub_x, sub_y, sub_z, smul_x, smul_y, smul_z]; ring

/-- Witness: the projection of (1, 2, 3) to the plane z = 1 is (1, 2, 1), to the x axis (1, 0, 0). -/
example : ((Point.mk3 1 2 3 : Point ℚ).projectPlane .sse3 (Plane.mk4 0 0 1 (-1))).eucl = ⟨1, 2, 1⟩ ∧
    ((Point.mk3 1 2 3 : Point ℚ).projectLine .sse41 (Line.mk6 0 0 0 1 0 0)).eucl = ⟨1, 0, 0⟩ := by
  refine ⟨?_, ?_⟩ <;> apply Vec3.ext <;>
    simp only [Point.eucl, Point.pos, kln, sse, cond_true, cond_false, smul_x, smul_y, smul_z] <;> norm_num

end Project

/-! ### C22 -/
section Metric

/-- The position as a vector of Mathlib's Euclidean space. -/
noncomputable def _root_.Euclid.Vec3.toE (v : Vec3 ℝ) : EuclideanSpace ℝ (Fin 3) :=
  WithLp.toLp 2 ![v.x, v.y, v.z]

theorem dist_toE (a b : Vec3 ℝ) : dist a.toE b.toE = Real.sqrt (sqDist a b) := by
  rw [EuclideanSpace.dist_eq, Fin.sum_univ_three]
  congr 1
  simp only [Vec3.toE, Real.dist_eq, sq_abs, sqDist, dot, sub_x, sub_y, sub_z, Matrix.cons_val_zero,
    Matrix.cons_val_one, Matrix.cons_val]
  ring

theorem inner_toE (a b : Vec3 ℝ) : Inner.inner ℝ a.toE b.toE = dot a b := by
  simp only [Vec3.toE, PiLp.inner_apply, Fin.sum_univ_three, dot, Matrix.cons_val_zero,
    Matrix.cons_val_one, Matrix.cons_val, RCLike.inner_apply, conj_trivial]
  ring

theorem norm_toE (a : Vec3 ℝ) : ‖a.toE‖ = Real.sqrt (dot a a) := by
  rw [← inner_toE, norm_eq_sqrt_real_inner]

/-- C22, algebraically: squared norm of the join of two points of weight 1. -/
theorem C22_join_points_sq {K : Type} [CommRing K] (isa : Isa) (p q : Vec3 K) :
    ((Point.at p).joinPoint (Point.at q)).squared_norm isa = sqDist p q := by
  cases isa <;> simp only [sqDist, dot, Point.at, kln, sse, cond_true, cond_false, sub_x, sub_y, sub_z] <;> ring

/-- C22: the norm of the join of two normalised points is their Euclidean distance. -/
theorem C22_join_points (isa : Isa) (p q : Vec3 ℝ) :
    ((Point.at p).joinPoint (Point.at q)).norm isa Real.sqrt = dist p.toE q.toE := by
  rw [Line.norm, C22_join_points_sq, dist_toE]

/-- C22: the inner product of unit planes is the cosine of the angle of their normals. -/
theorem C22_plane_angle (isa : Isa) (a b : Plane ℝ) (ha : ‖a.normal.toE‖ = 1)
    (hb : ‖b.normal.toE‖ = 1) :
    a.dotPlane isa b = Real.cos (InnerProductGeometry.angle a.normal.toE b.normal.toE) := by
  rw [InnerProductGeometry.cos_angle, ha, hb, inner_toE]
  cases isa <;> simp only [dot, Plane.normal, kln, sse, cond_true, cond_false] <;> ring

/-- C22: the inner product of unit lines is minus the cosine of the angle of their directions. -/
theorem C22_line_angle (a b : Line ℝ) (ha : ‖a.dir.toE‖ = 1) (hb : ‖b.dir.toE‖ = 1) :
    a.dotLine b = -Real.cos (InnerProductGeometry.angle a.dir.toE b.dir.toE) := by
  rw [InnerProductGeometry.cos_angle, ha, hb, inner_toE]
  simp only [dot, Line.dir, kln, sse, cond_true, cond_false]; ring

theorem joinPlane_value {K : Type} [CommRing K] (isa : Isa) (v : Vec3 K) (p : Plane K) :
    ((Point.at v).joinPlane isa p).p = dot p.normal v + p.d ∧
    (p.joinPoint isa (Point.at v)).p = -(dot p.normal v + p.d) := by
  constructor <;> cases isa <;>
    simp only [dot, Plane.normal, Point.at, kln, sse, cond_true, cond_false] <;> ring

/-- C22: the join of a normalised point and a unit plane is, up to sign, the distance to the plane:
no point of the plane is closer, and one is at that distance. -/
theorem C22_join_point_plane (isa : Isa) (v : Vec3 ℝ) (p : Plane ℝ) (hn : ‖p.normal.toE‖ = 1) :
    (∀ u, p.Has u → |((Point.at v).joinPlane isa p).p| ≤ dist v.toE u.toE) ∧
    (∃ u, p.Has u ∧ |((Point.at v).joinPlane isa p).p| = dist v.toE u.toE) ∧
    (p.joinPoint isa (Point.at v)).p = -((Point.at v).joinPlane isa p).p := by
  obtain ⟨e1, e2⟩ := joinPlane_value isa v p
  have hn1 : dot p.normal p.normal = 1 := by
    rw [norm_toE] at hn
    have := Real.sqrt_eq_one.1 hn
    exact this
  have hn0 : dot p.normal p.normal ≠ 0 := by rw [hn1]; exact one_ne_zero
  have hw : (Point.at v).w ≠ 0 := by rw [Point.at_w]; exact one_ne_zero
  have hv : (Point.at v).eucl = v := by
    apply Vec3.ext <;> simp [Point.eucl]
  obtain ⟨-, hon, hdiff⟩ := C21_point_plane isa (Point.at v) p hw hn0
  have hd : |((Point.at v).joinPlane isa p).p|
      = dist v.toE ((Point.at v).projectPlane isa p).eucl.toE := by
    rw [dist_toE, e1, ← Real.sqrt_sq_eq_abs, sqDist]
    rw [hv] at hdiff
    rw [hdiff, hn1]
    congr 1
    have : ∀ k : ℝ, dot (k • p.normal) (k • p.normal) = k ^ 2 * dot p.normal p.normal := by
      intro k; simp only [dot, smul_x, smul_y, smul_z]; ring
    rw [this, hn1]; ring
  refine ⟨?_, ⟨_, hon, hd⟩, by rw [e1, e2]⟩
  intro u hu
  rw [hd, dist_toE, dist_toE]
  apply Real.sqrt_le_sqrt
  have := C21_point_plane_closest isa (Point.at v) p hw hn0 u hu
  rwa [hv] at this

/-- C22: the squared norm of the plane through a normalised point and a unit line is the squared
distance from the point to its projection on the line. -/
theorem C22_join_point_line_sq (isa isa' : Isa) (v : Vec3 ℝ) (l : Line ℝ) (wl : l.WF)
    (hs : l.Simple) (hd : dot l.dir l.dir = 1) :
    ((Point.at v).joinLine isa l).sqNorm
      = sqDist v ((Point.at v).projectLine isa' l).eucl := by
  have hd0 : dot l.dir l.dir ≠ 0 := by rw [hd]; exact one_ne_zero
  obtain ⟨hn, -, -⟩ := C19_join_line_coords isa (Point.at v) l
  obtain ⟨hw, hpos⟩ := C21_point_line_coords isa' (Point.at v) l wl
  rw [Plane.sqNorm, hn]
  have e : ((Point.at v).projectLine isa' l).eucl = dot v l.dir • l.dir + cross l.dir l.mom := by
    rw [Point.eucl, hw, hpos, hd, Point.at_w, Point.at_pos]
    apply Vec3.ext <;> simp
  rw [e, Point.at_w, Point.at_pos]
  simp only [Line.Simple] at hs
  generalize l.dir = d at *
  generalize l.mom = m at *
  simp only [sqDist, dot, cross, sub_x, sub_y, sub_z, add_x, add_y, add_z, smul_x, smul_y, smul_z, one_mul] at *
  linear_combination ((v.x ^ 2 + v.y ^ 2 + v.z ^ 2) - (v.x * d.x + v.y * d.y + v.z * d.z) ^ 2
    - (m.x ^ 2 + m.y ^ 2 + m.z ^ 2)) * hd + (m.x * d.x + m.y * d.y + m.z * d.z) * hs

/-- C22: the norm of the plane through a normalised point and a unit line is the distance from the
point to the line, up to the accuracy of the refined reciprocal square root (C23): it is within
`2.1e-7` relative of the least distance `δ` to a point of the line. -/
theorem C22_join_point_line (hw : Hw ℝ) (hc : hw.Contract) (isa : Isa) (v : Vec3 ℝ) (l : Line ℝ)
    (wl : l.WF) (hs : l.Simple) (hd : ‖l.dir.toE‖ = 1) (hv : ¬ l.Has v) :
    ∃ δ : ℝ, 0 < δ ∧ (∀ u, l.Has u → δ ≤ dist v.toE u.toE) ∧ (∃ u, l.Has u ∧ dist v.toE u.toE = δ) ∧
      (1 - 2.1e-7) * δ ≤ ((Point.at v).joinLine isa l).norm hw isa ∧
      ((Point.at v).joinLine isa l).norm hw isa ≤ δ := by
  have hd1 : dot l.dir l.dir = 1 := by
    rw [norm_toE] at hd
    exact Real.sqrt_eq_one.1 hd
  have hd0 : dot l.dir l.dir ≠ 0 := by rw [hd1]; exact one_ne_zero
  have hw1 : (Point.at v).w ≠ 0 := by rw [Point.at_w]; exact one_ne_zero
  have hve : (Point.at v).eucl = v := by
    apply Vec3.ext <;> simp [Point.eucl]
  obtain ⟨-, hon, -⟩ := C21_point_line isa (Point.at v) l wl hw1 hs hd0
  have hcl := C21_point_line_closest isa (Point.at v) l wl hw1 hs hd0
  have hsq := C22_join_point_line_sq isa isa v l wl hs hd1
  rw [hve] at hcl
  generalize ((Point.at v).projectLine isa l).eucl = x at *
  have hpos : 0 < sqDist v x := by
    rcases (sqDist_nonneg v x).lt_or_eq with h | h
    · exact h
    · exfalso
      apply hv
      have hx : v = x := by
        simp only [sqDist, dot] at h
        have h1 : (v - x).x = 0 := by nlinarith [mul_self_nonneg (v - x).x, mul_self_nonneg (v - x).y, mul_self_nonneg (v - x).z]
        have h2 : (v - x).y = 0 := by nlinarith [mul_self_nonneg (v - x).x, mul_self_nonneg (v - x).y, mul_self_nonneg (v - x).z]
        have h3 : (v - x).z = 0 := by nlinarith [mul_self_nonneg (v - x).x, mul_self_nonneg (v - x).y, mul_self_nonneg (v - x).z]
        simp only [sub_x, sub_y, sub_z, sub_eq_zero] at h1 h2 h3
        exact Vec3.ext h1 h2 h3
      rw [hx]; exact hon
  have hδ : 0 < Real.sqrt (sqDist v x) := Real.sqrt_pos.2 hpos
  refine ⟨Real.sqrt (sqDist v x), hδ, ?_, ⟨x, hon, dist_toE _ _⟩, ?_⟩
  · intro u hu
    rw [dist_toE]
    exact Real.sqrt_le_sqrt (hcl u hu)
  · have e : ((Point.at v).joinLine isa l).norm hw isa
        = Real.sqrt (sqDist v x) * (Real.sqrt (sqDist v x) * rsqrt1 hw (sqDist v x)) := by
      rw [Plane.norm, hi_dp_eq]
      have : dot3 ((Point.at v).joinLine isa l).p0 ((Point.at v).joinLine isa l).p0 = sqDist v x := by
        rw [← hsq]; rfl
      rw [this]
      have h2 : (sqrt_nr1 hw (set_ss (sqDist v x))).l0 = sqDist v x * rsqrt1 hw (sqDist v x) := rfl
      rw [h2, ← mul_assoc, Real.mul_self_sqrt hpos.le]
    have hb := C23_rsqrt_bound hw hc ⟨sqDist v x, 0, 0, 0⟩ 0 hpos
    have e2 : (rsqrt_nr1 hw (⟨sqDist v x, 0, 0, 0⟩ : V4 ℝ)).get 0 = rsqrt1 hw (sqDist v x) := rfl
    rw [e2] at hb
    have e3 : (⟨sqDist v x, 0, 0, 0⟩ : V4 ℝ).get 0 = sqDist v x := rfl
    rw [e3] at hb
    rw [e]
    constructor
    · nlinarith [hb.1]
    · nlinarith [hb.2]

/-- The hypotheses are met by the point (0, 3, 4) and the x axis. -/
example : let l : Line ℝ := Line.mk6 0 0 0 1 0 0
    l.WF ∧ l.Simple ∧ ‖l.dir.toE‖ = 1 ∧ ¬ l.Has ⟨0, 3, 4⟩ := by
  refine ⟨by simp [Line.WF, kln], by simp [Line.Simple, dot, Line.dir, Line.mom, kln], ?_, ?_⟩
  · rw [norm_toE]; simp [dot, Line.dir, kln]
  · intro h
    have := congrArg Vec3.y h
    simp [cross, Line.dir, Line.mom, kln] at this

example : ‖(Plane.mk4 0 0 1 5 : Plane ℝ).normal.toE‖ = 1 := by
  rw [norm_toE]; simp [dot, Plane.normal, kln]

end Metric

end Klein
