import Verif.Api.Trans
import Verif.Api.Coords
import Verif.Lemmas.Newton

/-!
# Lane forms of the dot products, normalisations and inverses

Over a commutative ring the dot product helpers of both builds reduce to the sum of products; the
normalisations and inverses are expressed with the refined estimates `rsqrt1`, `rcp1`.
-/

set_option linter.unusedSimpArgs false

namespace Klein

section Ring
variable {K : Type} [CommRing K]

/-- `a1 b1 + a2 b2 + a3 b3`. -/
def dot3 (a b : V4 K) : K := a.l1 * b.l1 + a.l2 * b.l2 + a.l3 * b.l3

/-- `a0 b0 + a1 b1 + a2 b2 + a3 b3`. -/
def dot4 (a b : V4 K) : K := a.l0 * b.l0 + a.l1 * b.l1 + a.l2 * b.l2 + a.l3 * b.l3

theorem hi_dp_bc_eq (isa : Isa) (a b : V4 K) : hi_dp_bc isa a b = set1_ps (dot3 a b) := by
  cases isa <;> simp only [kln, sse, dot3, cond_true, cond_false, V4.mk.injEq] <;>
    refine ⟨?_, ?_, ?_, ?_⟩ <;> ring

theorem dp_bc_eq (isa : Isa) (a b : V4 K) : dp_bc isa a b = set1_ps (dot4 a b) := by
  cases isa <;> simp only [kln, sse, dot4, cond_true, cond_false, V4.mk.injEq] <;>
    refine ⟨?_, ?_, ?_, ?_⟩ <;> ring

theorem hi_dp_eq (isa : Isa) (a b : V4 K) : hi_dp isa a b = set_ss (dot3 a b) := by
  cases isa <;> simp only [kln, sse, dot3, cond_true, cond_false, V4.mk.injEq] <;>
    refine ⟨?_, ?_, ?_, ?_⟩ <;> first | trivial | ring1

theorem rcp_set1 (hw : Hw K) (a : K) : rcp_nr1 hw (set1_ps a) = set1_ps (rcp1 hw a) := rfl

variable [Div K]

theorem rsqrt_set1 (hw : Hw K) (a : K) : rsqrt_nr1 hw (set1_ps a) = set1_ps (rsqrt1 hw a) := rfl

theorem Plane.normalize_eq (hw : Hw K) (isa : Isa) (p : Plane K) :
    p.normalize hw isa = ⟨⟨(match isa with | .sse41 => 1 | .sse3 => rsqrt1 hw (dot3 p.p0 p.p0) + 1)
        * p.p0.l0, rsqrt1 hw (dot3 p.p0 p.p0) * p.p0.l1, rsqrt1 hw (dot3 p.p0 p.p0) * p.p0.l2,
        rsqrt1 hw (dot3 p.p0 p.p0) * p.p0.l3⟩⟩ := by
  cases isa <;> rw [Plane.normalize, hi_dp_bc_eq, rsqrt_set1] <;> simp only [sse, cond_true, cond_false, add_zero]

theorem Plane.invert_eq (hw : Hw K) (isa : Isa) (p : Plane K) :
    p.invert hw isa = p.smul (rsqrt1 hw (dot3 p.p0 p.p0) * rsqrt1 hw (dot3 p.p0 p.p0)) := by
  rw [Plane.invert, hi_dp_bc_eq, rsqrt_set1]
  simp only [sse, kln, Plane.mk.injEq, V4.mk.injEq]
  refine ⟨?_, ?_, ?_, ?_⟩ <;> ring

omit [Div K] in
theorem Point.normalize_eq (hw : Hw K) (p : Point K) : p.normalize hw = p.smul (rcp1 hw p.w) := rfl

omit [Div K] in
theorem Point.invert_eq (hw : Hw K) (p : Point K) :
    p.invert hw = p.smul (rcp1 hw p.w * rcp1 hw p.w) := by
  rw [Point.invert, rcp_nr1_map]
  simp only [sse, kln, Point.mk.injEq, V4.mk.injEq]
  refine ⟨?_, ?_, ?_, ?_⟩ <;> ring

theorem Direction.normalize_eq (hw : Hw K) (isa : Isa) (d : Direction K) :
    d.normalize hw isa = d.smul (rsqrt1 hw (dot3 d.p3 d.p3)) := by
  rw [Direction.normalize, hi_dp_bc_eq, rsqrt_set1]
  rfl

theorem Branch.normalize_eq (hw : Hw K) (isa : Isa) (b : Branch K) :
    b.normalize hw isa = b.smul (rsqrt1 hw (dot3 b.p1 b.p1)) := by
  rw [Branch.normalize, hi_dp_bc_eq, rsqrt_set1]
  rfl

theorem Rotor.normalize_eq (hw : Hw K) (isa : Isa) (r : Rotor K) :
    r.normalize hw isa = r.smul (rsqrt1 hw (dot4 r.p1 r.p1)) := by
  rw [Rotor.normalize, dp_bc_eq, rsqrt_set1]
  rfl

theorem Branch.invert_eq (hw : Hw K) (isa : Isa) (b : Branch K) :
    b.invert hw isa = (b.smul (rsqrt1 hw (dot3 b.p1 b.p1) * rsqrt1 hw (dot3 b.p1 b.p1))).rev := by
  rw [Branch.invert, hi_dp_bc_eq, rsqrt_set1]
  simp only [sse, kln, Branch.mk.injEq, V4.mk.injEq, cond_true, cond_false]
  refine ⟨?_, ?_, ?_, ?_⟩ <;> ring

theorem Rotor.invert_eq (hw : Hw K) (isa : Isa) (b : Rotor K) :
    b.invert hw isa = (b.smul (rsqrt1 hw (dot3 b.p1 b.p1) * rsqrt1 hw (dot3 b.p1 b.p1))).rev := by
  rw [Rotor.invert, hi_dp_bc_eq, rsqrt_set1]
  simp only [sse, kln, Rotor.mk.injEq, V4.mk.injEq, cond_true, cond_false]
  refine ⟨?_, ?_, ?_, ?_⟩ <;> ring

/-- Scaling by the dual number `s + t e0123`. -/
def Motor.dualSmul (m : Motor K) (s t : K) : Motor K :=
  ⟨⟨s * m.p1.l0, s * m.p1.l1, s * m.p1.l2, s * m.p1.l3⟩,
   ⟨s * m.p2.l0 + t * m.p1.l0, s * m.p2.l1 - t * m.p1.l1, s * m.p2.l2 - t * m.p1.l2,
    s * m.p2.l3 - t * m.p1.l3⟩⟩

/-- Scaling by the dual number `s + t e0123`. -/
def Line.dualSmul (m : Line K) (s t : K) : Line K :=
  ⟨⟨s * m.p1.l0, s * m.p1.l1, s * m.p1.l2, s * m.p1.l3⟩,
   ⟨s * m.p2.l0 - t * m.p1.l0, s * m.p2.l1 - t * m.p1.l1, s * m.p2.l2 - t * m.p1.l2,
    s * m.p2.l3 - t * m.p1.l3⟩⟩

omit [Div K] in
theorem Motor.dualSmul_mv (m : Motor K) (s t : K) :
    (m.dualSmul s t).mv = (Dual.mk s t).mv * m.mv := by
  simp only [Motor.dualSmul]
  mv_ring

omit [Div K] in
theorem Line.dualSmul_mv (m : Line K) (s t : K) :
    (m.dualSmul s t).mv = (Dual.mk s t).mv * m.mv := by
  simp only [Line.dualSmul]
  mv_ring

/-- `b0 c0 - b1 c1 - b2 c2 - b3 c3`, half the pseudoscalar part of `m ~m`. -/
def Motor.bc (m : Motor K) : K :=
  m.p1.l0 * m.p2.l0 - m.p1.l1 * m.p2.l1 - m.p1.l2 * m.p2.l2 - m.p1.l3 * m.p2.l3

theorem Motor.normalize_eq (hw : Hw K) (isa : Isa) (m : Motor K) :
    m.normalize hw isa = m.dualSmul (rsqrt1 hw (dot4 m.p1 m.p1))
      (-m.bc * rcp1 hw (dot4 m.p1 m.p1) * rsqrt1 hw (dot4 m.p1 m.p1)) := by
  rw [Motor.normalize, dp_bc_eq, rsqrt_set1, rcp_set1, dp_bc_eq]
  simp only [sse, kln, Motor.mk.injEq, V4.mk.injEq, cond_true, cond_false, dot4, Motor.bc,
    Motor.dualSmul]
  refine ⟨⟨?_, ?_, ?_, ?_⟩, ?_, ?_, ?_, ?_⟩ <;> ring

/-- The inverse computed by the code: reverse of `(b2⁻¹ + 2 s t e0123) m`. -/
theorem Motor.invert_eq (hw : Hw K) (isa : Isa) (m : Motor K) :
    m.invert hw isa = (m.dualSmul (rcp1 hw (dot4 m.p1 m.p1))
      (-(2 * (rsqrt1 hw (dot4 m.p1 m.p1) * rsqrt1 hw (dot4 m.p1 m.p1)) *
        (m.bc * rcp1 hw (dot4 m.p1 m.p1))))).rev := by
  rw [Motor.invert, dp_bc_eq, rsqrt_set1, rcp_set1, dp_bc_eq]
  simp only [sse, kln, Motor.mk.injEq, V4.mk.injEq, cond_true, cond_false, dot4, Motor.bc,
    Motor.dualSmul]
  refine ⟨⟨?_, ?_, ?_, ?_⟩, ?_, ?_, ?_, ?_⟩ <;> ring

theorem Line.normalize_eq (hw : Hw K) (isa : Isa) (m : Line K) :
    m.normalize hw isa = m.dualSmul (rsqrt1 hw (dot3 m.p1 m.p1))
      (dot3 m.p1 m.p2 * rcp1 hw (dot3 m.p1 m.p1) * rsqrt1 hw (dot3 m.p1 m.p1)) := by
  rw [Line.normalize, hi_dp_bc_eq, rsqrt_set1, rcp_set1, hi_dp_bc_eq]
  simp only [sse, kln, Line.mk.injEq, V4.mk.injEq, cond_true, cond_false, Line.dualSmul]
  refine ⟨⟨?_, ?_, ?_, ?_⟩, ?_, ?_, ?_, ?_⟩ <;> ring

theorem Line.invert_eq (hw : Hw K) (isa : Isa) (m : Line K) :
    m.invert hw isa = (m.dualSmul (rcp1 hw (dot3 m.p1 m.p1))
      (2 * (rsqrt1 hw (dot3 m.p1 m.p1) * rsqrt1 hw (dot3 m.p1 m.p1)) *
        (dot3 m.p1 m.p2 * rcp1 hw (dot3 m.p1 m.p1)))).rev := by
  rw [Line.invert, hi_dp_bc_eq, rsqrt_set1, rcp_set1, hi_dp_bc_eq]
  simp only [sse, kln, Line.mk.injEq, V4.mk.injEq, cond_true, cond_false, Line.dualSmul]
  refine ⟨⟨?_, ?_, ?_, ?_⟩, ?_, ?_, ?_, ?_⟩ <;> ring

end Ring

end Klein
