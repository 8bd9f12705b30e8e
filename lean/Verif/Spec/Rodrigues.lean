import Verif.Spec.Euclid
import Mathlib.Analysis.SpecialFunctions.Trigonometric.Basic

/-!
# Specification: rotation of 3-space about an axis

Rodrigues' formula, independent of the algebra: the right-handed rotation by the angle `θ` about the
unit vector `k`.
-/

namespace Euclid

/-- Right-handed rotation of `v` by `θ` about the unit vector `k`. -/
noncomputable def rodrigues (k : Vec3 ℝ) (θ : ℝ) (v : Vec3 ℝ) : Vec3 ℝ :=
  Real.cos θ • v + Real.sin θ • cross k v + ((1 - Real.cos θ) * dot k v) • k

/-- The rotation fixes its axis. -/
theorem rodrigues_axis (k : Vec3 ℝ) (hk : dot k k = 1) (θ t : ℝ) :
    rodrigues k θ (t • k) = t • k := by
  simp only [dot] at hk
  apply Vec3.ext <;> simp only [rodrigues, cross, dot, add_x, add_y, add_z, smul_x, smul_y, smul_z]
  · linear_combination (1 - Real.cos θ) * t * k.x * hk
  · linear_combination (1 - Real.cos θ) * t * k.y * hk
  · linear_combination (1 - Real.cos θ) * t * k.z * hk

/-- A vector orthogonal to the axis turns by `θ` in its plane: its image has inner product
`cos θ |v|²` with `v` and `sin θ |v|²` with the quarter turn `k × v`. -/
theorem rodrigues_angle (k : Vec3 ℝ) (hk : dot k k = 1) (θ : ℝ) (v : Vec3 ℝ) (hv : dot k v = 0) :
    dot (rodrigues k θ v) v = Real.cos θ * dot v v ∧
    dot (rodrigues k θ v) (cross k v) = Real.sin θ * dot v v ∧ dot k (rodrigues k θ v) = 0 := by
  simp only [dot] at hk hv
  simp only [rodrigues, cross, dot, add_x, add_y, add_z, smul_x, smul_y, smul_z, hv, mul_zero,
    zero_mul, add_zero]
  refine ⟨by ring, ?_, ?_⟩
  · linear_combination Real.sin θ * (v.x ^ 2 + v.y ^ 2 + v.z ^ 2) * hk
      - Real.sin θ * (k.x * v.x + k.y * v.y + k.z * v.z) * hv
  · linear_combination Real.cos θ * hv

/-- Quarter turn about the z axis: x goes to y. -/
theorem rodrigues_example : rodrigues ⟨0, 0, 1⟩ (Real.pi / 2) ⟨1, 0, 0⟩ = ⟨0, 1, 0⟩ := by
  apply Vec3.ext <;> simp [rodrigues, cross, dot]

end Euclid
