import Verif.Spec.Exterior
import Verif.Props.Products
import Verif.Props.Actions
import Verif.Props.MeetJoin

/-!
# C68: the products in Mathlib's Clifford and exterior algebras

`PGA.equiv` is the isomorphism of the specification with `CliffordAlgebra (x1² + x2² + x3²)` and
`PGA.Gr.equiv` that of its exterior product with `ExteriorAlgebra K (Fin 4 → K)`.  Planes are the
vectors of both algebras.
-/

namespace Klein

open PGA

variable {K : Type} [Field K]

/-- The vector of a plane. -/
def Plane.vec (p : Plane K) : Fin 4 → K := p.p0.get

/-- The element of the Clifford algebra. -/
noncomputable def cl (a : MV K) : CliffordAlgebra (Q K) := PGA.equiv a
/-- The element of the exterior algebra. -/
noncomputable def gr (a : MV K) : ExteriorAlgebra K (Fin 4 → K) := Gr.equiv ⟨a⟩

local notation "ιC" => CliffordAlgebra.ι (Q K)
local notation "ιE" => ExteriorAlgebra.ι K (M := Fin 4 → K)

theorem Plane.mv_vec (p : Plane K) : p.mv = PGA.vec p.vec := by
  ext <;> simp [Plane.mv, Plane.vec, PGA.vec, V4.get]

theorem gr_wedge (a b : MV K) : gr (MV.wedge a b) = gr a * gr b := by
  have h : (⟨MV.wedge a b⟩ : Gr K) = ⟨a⟩ * ⟨b⟩ := by ext1; rw [Gr.mul_mv]
  rw [gr, h, map_mul, gr, gr]

/-- Planes are the vectors. -/
theorem C68_plane (p : Plane K) : cl p.mv = ιC p.vec ∧ gr p.mv = ιE p.vec := by
  rw [Plane.mv_vec]; exact ⟨equiv_vec _, Gr.equiv_vec _⟩

/-- The isomorphism loses nothing. -/
theorem C68_injective (a b : MV K) : (cl a = cl b ↔ a = b) ∧ (gr a = gr b ↔ a = b) :=
  ⟨PGA.equiv.injective.eq_iff, Gr.equiv.injective.eq_iff.trans (by simp)⟩

/-- `plane * plane` is the product of two vectors. -/
theorem C68_plane_mul_plane (a b : Plane K) : cl (a.mulPlane b).mv = ιC a.vec * ιC b.vec := by
  rw [C01_plane_mul_plane, cl, map_mul, ← (C68_plane a).1, ← (C68_plane b).1]; rfl

/-- `motor * motor`. -/
theorem C68_motor_mul_motor (a b : Motor K) : cl (a.mulMotor b).mv = cl a.mv * cl b.mv := by
  rw [C06_motor_mul_motor, cl, map_mul]; rfl

/-- `rotor * rotor`. -/
theorem C68_rotor_mul_rotor (a b : Rotor K) : cl (a.mulRotor b).mv = cl a.mv * cl b.mv := by
  rw [C03_rotor_mul_rotor, cl, map_mul]; rfl

/-- `plane(plane)` reflects a vector in a vector. -/
theorem C68_plane_on_plane (p q : Plane K) : cl (p.onPlane q).mv = ιC p.vec * ιC q.vec * ιC p.vec := by
  rw [C12_plane_on_plane, cl, map_mul, map_mul, ← (C68_plane p).1, ← (C68_plane q).1]; rfl

/-- `motor(plane)` is the sandwich product with `CliffordAlgebra.reverse`, ... -/
theorem C68_motor_on_plane (isa : Isa) (m : Motor K) (x : Plane K) :
    cl (m.onPlane isa x).mv = cl m.mv * ιC x.vec * CliffordAlgebra.reverse (cl m.mv) := by
  rw [C15_motor_on_plane, cl, map_mul, map_mul, equiv_rev, ← (C68_plane x).1]; rfl

/-- ... `motor(line)` ... -/
theorem C68_motor_on_line (m : Motor K) (x : Line K) :
    cl (m.onLine x).mv = cl m.mv * cl x.mv * CliffordAlgebra.reverse (cl m.mv) := by
  rw [C15_motor_on_line, cl, map_mul, map_mul, equiv_rev]; rfl

/-- ... and `motor(point)`. -/
theorem C68_motor_on_point (m : Motor K) (x : Point K) :
    cl (m.onPoint x).mv = cl m.mv * cl x.mv * CliffordAlgebra.reverse (cl m.mv) := by
  rw [C15_motor_on_point, cl, map_mul, map_mul, equiv_rev]; rfl

/-- The product of two planes acts as the two reflections do. -/
theorem C68_two_reflections (isa : Isa) (a b x : Plane K) :
    cl ((a.mulPlane b).onPlane isa x).mv = ιC a.vec * (ιC b.vec * ιC x.vec * ιC b.vec) * ιC a.vec := by
  rw [C68_motor_on_plane, C68_plane_mul_plane, CliffordAlgebra.reverse.map_mul,
    CliffordAlgebra.reverse_ι, CliffordAlgebra.reverse_ι]
  simp only [mul_assoc]

/-- `plane ^ plane` is the product of two vectors of the exterior algebra, ... -/
theorem C68_plane_meet_plane (a b : Plane K) : gr (a.meetPlane b).mv = ιE a.vec * ιE b.vec := by
  rw [C08_plane_meet_plane, gr_wedge, ← (C68_plane a).2, ← (C68_plane b).2]

/-- ... the intersection of three planes is the product of three, ... -/
theorem C68_three_planes (isa : Isa) (a b c : Plane K) :
    gr (a.meetLine isa (b.meetPlane c)).mv = ιE a.vec * (ιE b.vec * ιE c.vec) := by
  rw [C08_plane_meet_line, gr_wedge, C68_plane_meet_plane, (C68_plane a).2]

/-- ... and four planes meet in a multiple of the pseudoscalar, the product of four. -/
theorem C68_four_planes (isa : Isa) (a b c d : Plane K) :
    gr (a.meetPoint isa (b.meetLine isa (c.meetPlane d))).mv
      = ιE a.vec * (ιE b.vec * (ιE c.vec * ιE d.vec)) := by
  rw [C08_plane_meet_point, gr_wedge, C68_three_planes, (C68_plane a).2]

/-- `point & point & point` is, up to Poincaré duality, the product of the dual vectors. -/
theorem C68_point_join_point (a b : Point K) :
    gr (MV.J (a.joinPoint b).mv) = ιE a.dual.vec * ιE b.dual.vec := by
  rw [C09_point_join_point, ← (C68_plane a.dual).2, ← (C68_plane b.dual).2, C11_point_dual, C11_point_dual,
    ← gr_wedge]
  congr 1
  ext <;> simp [MV.vee, pga]

/-- Parallel planes `x = 1`, `x = 2` meet in an ideal line, not in zero. -/
example : gr ((Plane.mk4 1 0 0 (-1) : Plane ℚ).meetPlane (Plane.mk4 1 0 0 (-2))).mv ≠ 0 := by
  intro h
  have h0 : gr (0 : MV ℚ) = 0 := map_zero Gr.equiv
  have := ((C68_injective _ _).2).1 (h.trans h0.symm)
  have := congrArg MV.e01 this
  revert this
  decide +kernel

end Klein
