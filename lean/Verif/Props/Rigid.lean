import Verif.Props.Actions
import Verif.Api.Coords
import Verif.Lemmas.Inj

/-!
# C17: normalised motors are orientation-preserving rigid motions; C12: reflections
-/

set_option linter.unusedSimpArgs false

namespace Klein

open PGA PGA.MV Euclid

variable {K : Type} [CommRing K]

/-- Squared norm of the rotation part of a motor. -/
def Motor.sqNorm (m : Motor K) : K :=
  m.scalar * m.scalar + m.e23 * m.e23 + m.e31 * m.e31 + m.e12 * m.e12

theorem Motor.mul_rev (m : Motor K) :
    m.mv * PGA.MV.rev m.mv = { (0 : MV K) with
      s := m.sqNorm
      e0123 := 2 * (m.scalar * m.e0123 - m.e23 * m.e01 - m.e31 * m.e02 - m.e12 * m.e03) } := by
  apply MV.ext <;> simp only [pga, sse, kln, Motor.sqNorm, mul_zero, zero_mul, add_zero,
    zero_add, mul_one, one_mul, sub_zero, zero_sub, neg_zero, neg_neg] <;> ring

theorem Motor.sqNorm_eq_one {m : Motor K} (h : m.mv * PGA.MV.rev m.mv = 1) : m.sqNorm = 1 := by
  have := congrArg MV.s h
  rw [Motor.mul_rev] at this
  simpa using this

/-- C17: any motor multiplies the weight of a point by its squared norm. -/
theorem C17_weight (m : Motor K) (p : Point K) : (m.onPoint p).w = m.sqNorm * p.w := by
  simp only [kln, sse, Motor.sqNorm, cond_true, cond_false]; ring

/-- C17: any motor scales squared distances of weight-1 points by the square of its squared norm
(the images have weight `m.sqNorm`). -/
theorem C17_sqDist (m : Motor K) (a b : Vec3 K) :
    sqDist (m.onPoint (Point.at a)).pos (m.onPoint (Point.at b)).pos
      = m.sqNorm ^ 2 * sqDist a b := by
  simp only [kln, sse, Motor.sqNorm, cond_true, cond_false, sqDist, dot, Point.pos, Point.at,
    sub_x, sub_y, sub_z]
  ring

/-- C17: any motor scales signed volumes by the cube of its squared norm. -/
theorem C17_vol (m : Motor K) (a b c d : Vec3 K) :
    vol (m.onPoint (Point.at a)).pos (m.onPoint (Point.at b)).pos (m.onPoint (Point.at c)).pos
      (m.onPoint (Point.at d)).pos = m.sqNorm ^ 3 * vol a b c d := by
  simp only [kln, sse, Motor.sqNorm, cond_true, cond_false, vol, dot, cross, Point.pos, Point.at,
    sub_x, sub_y, sub_z]
  ring

/-- C17: a normalised motor keeps weights, distances and orientation. -/
theorem C17_rigid (m : Motor K) (h : m.mv * PGA.MV.rev m.mv = 1) (p : Point K)
    (a b c d : Vec3 K) :
    (m.onPoint p).w = p.w ∧
    sqDist (m.onPoint (Point.at a)).pos (m.onPoint (Point.at b)).pos = sqDist a b ∧
    vol (m.onPoint (Point.at a)).pos (m.onPoint (Point.at b)).pos (m.onPoint (Point.at c)).pos
      (m.onPoint (Point.at d)).pos = vol a b c d := by
  have h1 := Motor.sqNorm_eq_one h
  refine ⟨?_, ?_, ?_⟩
  · rw [C17_weight, h1, one_mul]
  · rw [C17_sqDist, h1, one_pow, one_mul]
  · rw [C17_vol, h1, one_pow, one_mul]

example : let m : Motor ℤ := Motor.mk8 0 0 0 1 3 2 0 0
    m.mv * PGA.MV.rev m.mv = 1 ∧ (m.onPoint (Point.mk3 1 2 3)).pos = ⟨-5, 4, 3⟩ := by decide

/-! ### C12: reflection in a plane -/

/-- Squared norm of the normal of a plane. -/
def Plane.sqNorm (p : Plane K) : K := dot p.normal p.normal

/-- C12: for every plane, the image of a point under the call operator; `N` is the squared norm of
the normal. -/
theorem C12_point_coords (p : Plane K) (x : Point K) :
    (p.onPoint x).w = p.sqNorm * x.w ∧
    (p.onPoint x).pos = p.sqNorm • x.pos - (2 * (dot p.normal x.pos + p.d * x.w)) • p.normal := by
  constructor
  · simp only [kln, sse, Plane.sqNorm, dot, Plane.normal, cond_true, cond_false]; ring
  · apply Vec3.ext <;> simp only [kln, sse, dot, Point.pos, Plane.normal, Plane.sqNorm, cond_true,
      cond_false, sub_x, sub_y, sub_z, smul_x, smul_y, smul_z] <;> ring

/-- C12: reflecting a point in a plane with unit normal gives the mirror image
`x - 2 (n·x + d) n`. -/
theorem C12_mirror (p : Plane K) (h : p.sqNorm = 1) (v : Vec3 K) :
    p.onPoint (Point.at v) = Point.at (v - (2 * (dot p.normal v + p.d)) • p.normal) := by
  obtain ⟨h0, h1⟩ := C12_point_coords p (Point.at v)
  apply Point.ext_pos
  · rw [h0, h, one_mul]; rfl
  · rw [h1, h, Point.at_pos, Point.at_w, mul_one]
    apply Vec3.ext <;> simp

/-- C12: points of the plane are only rescaled. -/
theorem C12_fixes_plane (p : Plane K) (v : Vec3 K) (hv : p.Has v) :
    p.onPoint (Point.at v) = (Point.at v).smul p.sqNorm := by
  obtain ⟨h0, h1⟩ := C12_point_coords p (Point.at v)
  have e : dot p.normal v + p.d = 0 := hv
  apply Point.ext_pos
  · rw [h0, Point.smul_w, mul_comm]
  · rw [h1, Point.smul_pos, Point.at_pos, Point.at_w, mul_one, e]
    apply Vec3.ext <;> simp

/-- C12: a reflection is an involution on planes, lines and points. -/
theorem C12_involution (p : Plane K) (h : p.sqNorm = 1) (x : Point K) (q : Plane K) (l : Line K) :
    p.onPoint (p.onPoint x) = x ∧ p.onPlane (p.onPlane q) = q ∧
      (p.onLine (p.onLine l)).mv = l.mv := by
  have hp : p.mv * p.mv = 1 := by
    apply MV.ext <;> simp only [pga, mul_zero, zero_mul, add_zero, zero_add, sub_zero, zero_sub,
      neg_zero, neg_neg]
    · simpa [Plane.sqNorm, dot, Plane.normal, kln] using h
    all_goals ring
  have hs : ∀ a : MV K, p.mv * (p.mv * a * p.mv) * p.mv = a := fun a => by
    have : p.mv * (p.mv * a * p.mv) * p.mv = (p.mv * p.mv) * a * (p.mv * p.mv) := by
      simp only [mul_assoc]
    rw [this, hp, one_mul, mul_one]
  refine ⟨?_, ?_, ?_⟩
  · rw [← Point.mv_inj, C12_plane_on_point, C12_plane_on_point, hs]
  · rw [← Plane.mv_inj, C12_plane_on_plane, C12_plane_on_plane, hs]
  · rw [C12_plane_on_line, C12_plane_on_line, hs]

/-- C12: a reflection preserves distances and reverses orientation. -/
theorem C12_isometry (p : Plane K) (h : p.sqNorm = 1) (a b c d : Vec3 K) :
    sqDist (p.onPoint (Point.at a)).pos (p.onPoint (Point.at b)).pos = sqDist a b ∧
    vol (p.onPoint (Point.at a)).pos (p.onPoint (Point.at b)).pos (p.onPoint (Point.at c)).pos
      (p.onPoint (Point.at d)).pos = -vol a b c d := by
  have e : ∀ v : Vec3 K, (p.onPoint (Point.at v)).pos
      = v - (2 * (dot p.normal v + p.d)) • p.normal := fun v => by
    rw [C12_mirror p h]; rfl
  simp only [e]
  simp only [Plane.sqNorm, dot] at h
  constructor
  · simp only [sqDist, dot, sub_x, sub_y, sub_z, smul_x, smul_y, smul_z]
    linear_combination (4 * (p.normal.x * (a.x - b.x) + p.normal.y * (a.y - b.y)
      + p.normal.z * (a.z - b.z)) ^ 2) * h
  · linear_combination (norm := skip) (-2 * vol a b c d) * h
    simp only [vol, dot, cross, sub_x, sub_y, sub_z, smul_x, smul_y, smul_z]
    ring

example : (Plane.mk4 0 0 1 (-2) : Plane ℤ).sqNorm = 1 ∧
    (Plane.mk4 0 0 1 (-2) : Plane ℤ).onPoint (Point.mk3 1 2 5) = Point.mk3 1 2 (-1) := by decide

end Klein
