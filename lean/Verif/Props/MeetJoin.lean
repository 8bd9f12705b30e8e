import Verif.Api.Embed
import Mathlib.Tactic.NormNum

/-!
# C08 - C11: `^` is the exterior product, `&` the regressive product, `|` the symmetric inner
product and `!` the Poincaré dual
-/

set_option linter.unusedSimpArgs false

namespace Klein

open PGA PGA.MV

variable {K : Type} [CommRing K]

/-! ### C08: meet -/

theorem C08_plane_meet_plane (a b : Plane K) : (a.meetPlane b).mv = wedge a.mv b.mv := by
  mv_ring

theorem C08_plane_meet_branch (isa : Isa) (a : Plane K) (b : Branch K) :
    (a.meetBranch isa b).mv = wedge a.mv b.mv := by
  cases isa <;> mv_ring

theorem C08_branch_meet_plane (isa : Isa) (a : Plane K) (b : Branch K) :
    (b.meetPlane isa a).mv = wedge b.mv a.mv := by
  cases isa <;> mv_ring

theorem C08_plane_meet_ideal_line (a : Plane K) (b : IdealLine K) :
    (a.meetIdealLine b).mv = wedge a.mv b.mv := by
  mv_ring

theorem C08_ideal_line_meet_plane (a : Plane K) (b : IdealLine K) :
    (b.meetPlane a).mv = wedge b.mv a.mv := by
  mv_ring

theorem C08_plane_meet_line (isa : Isa) (a : Plane K) (b : Line K) :
    (a.meetLine isa b).mv = wedge a.mv b.mv := by
  cases isa <;> mv_ring

theorem C08_line_meet_plane (isa : Isa) (a : Plane K) (b : Line K) :
    (b.meetPlane isa a).mv = wedge b.mv a.mv := by
  cases isa <;> mv_ring

theorem C08_plane_meet_point (isa : Isa) (a : Plane K) (b : Point K) :
    (a.meetPoint isa b).mv = wedge a.mv b.mv := by
  cases isa <;> mv_ring

theorem C08_point_meet_plane (isa : Isa) (a : Plane K) (b : Point K) :
    (b.meetPlane isa a).mv = wedge b.mv a.mv := by
  cases isa <;> mv_ring

theorem C08_branch_meet_ideal_line (a : Branch K) (b : IdealLine K) :
    (a.meetIdealLine b).mv = wedge a.mv b.mv := by
  mv_ring

theorem C08_ideal_line_meet_branch (a : Branch K) (b : IdealLine K) :
    (b.meetBranch a).mv = wedge b.mv a.mv := by
  mv_ring

theorem C08_line_meet_line (a b : Line K) : (a.meetLine b).mv = wedge a.mv b.mv := by
  mv_ring

theorem C08_line_meet_ideal_line (a : Line K) (b : IdealLine K) :
    (a.meetIdealLine b).mv = wedge a.mv b.mv := by
  mv_ring

theorem C08_ideal_line_meet_line (a : Line K) (b : IdealLine K) :
    (b.meetLine a).mv = wedge b.mv a.mv := by
  mv_ring

theorem C08_line_meet_branch (a : Line K) (b : Branch K) :
    (a.meetBranch b).mv = wedge a.mv b.mv := by
  mv_ring

theorem C08_branch_meet_line (a : Line K) (b : Branch K) :
    (b.meetLine a).mv = wedge b.mv a.mv := by
  mv_ring

/-- test/test_ep.cpp "plane^plane", "plane^line", "plane^point". -/
example : (Plane.mk4 1 2 3 4 : Plane ℤ).meetPlane (Plane.mk4 2 3 (-1) (-2))
    = Line.mk6 10 16 2 (-11) 7 (-1) := by decide
example : (Plane.mk4 1 2 3 4 : Plane ℤ).meetLine .sse3 (Line.mk6 0 0 1 4 1 (-2))
    = ⟨⟨0, -14, -5, 8⟩⟩ := by decide
example : (Plane.mk4 1 2 3 4 : Plane ℤ).meetPoint .sse41 (Point.mk3 (-2) 1 4) = ⟨0, 16⟩ := by decide

/-! ### C11: the dual -/

theorem C11_plane_dual (a : Plane K) : a.dual.mv = J a.mv := by mv_ring
theorem C11_point_dual (a : Point K) : a.dual.mv = J a.mv := by mv_ring
theorem C11_line_dual (a : Line K) : a.dual.mv = J a.mv := by mv_ring
theorem C11_ideal_line_dual (a : IdealLine K) : a.dual.mv = J a.mv := by mv_ring
theorem C11_branch_dual (a : Branch K) : a.dual.mv = J a.mv := by mv_ring
theorem C11_dual_dual (a : Dual K) : a.dual.mv = J a.mv := by mv_ring

/-- C11: `!!x` is `x` bit for bit, for any lane type. -/
theorem C11_involution {F : Type} [Add F] [Sub F] [Mul F] [Neg F] [Zero F] [One F] [NatCast F]
    (a : Plane F) (b : Point F) (c : Line F) (d : IdealLine F) (e : Branch F) (f : Dual F) :
    a.dual.dual = a ∧ b.dual.dual = b ∧ c.dual.dual = c ∧ d.dual.dual = d ∧ e.dual.dual = e ∧
      f.dual.dual = f :=
  ⟨rfl, rfl, rfl, rfl, rfl, rfl⟩

/-- C11: `!` maps a point to a plane with the same four coefficients and so on. -/
example : (Plane.mk4 1 2 3 4 : Plane ℤ).dual.mv = J (Plane.mk4 1 2 3 4 : Plane ℤ).mv ∧
    (Plane.mk4 1 2 3 4 : Plane ℤ).dual = ⟨⟨4, 1, 2, 3⟩⟩ := by decide

/-! ### C09: join -/

theorem C09_point_join_point (a b : Point K) : (a.joinPoint b).mv = vee a.mv b.mv := by
  rw [Point.joinPoint, C11_line_dual, C08_plane_meet_plane, C11_point_dual, C11_point_dual, vee]

theorem C09_point_join_line (isa : Isa) (a : Point K) (b : Line K) :
    (a.joinLine isa b).mv = vee a.mv b.mv := by
  rw [Point.joinLine, C11_point_dual, C08_plane_meet_line, C11_point_dual, C11_line_dual, vee]

theorem C09_line_join_point (isa : Isa) (a : Point K) (b : Line K) :
    (b.joinPoint isa a).mv = vee b.mv a.mv := by
  rw [Line.joinPoint, Point.joinLine, C11_point_dual, ← Line.meetPlane, C08_line_meet_plane,
    C11_point_dual, C11_line_dual, vee]

theorem C09_point_join_branch (a : Point K) (b : Branch K) :
    (a.joinBranch b).mv = vee a.mv b.mv := by
  rw [Point.joinBranch, C11_point_dual, C08_plane_meet_ideal_line, C11_point_dual,
    C11_branch_dual, vee]

theorem C09_branch_join_point (a : Point K) (b : Branch K) :
    (b.joinPoint a).mv = vee b.mv a.mv := by
  rw [Branch.joinPoint, Point.joinBranch, C11_point_dual, ← IdealLine.meetPlane,
    C08_ideal_line_meet_plane, C11_point_dual, C11_branch_dual, vee]

theorem C09_point_join_ideal_line (isa : Isa) (a : Point K) (b : IdealLine K) :
    (a.joinIdealLine isa b).mv = vee a.mv b.mv := by
  rw [Point.joinIdealLine, C11_point_dual, C08_plane_meet_branch, C11_point_dual,
    C11_ideal_line_dual, vee]

theorem C09_ideal_line_join_point (isa : Isa) (a : Point K) (b : IdealLine K) :
    (b.joinPoint isa a).mv = vee b.mv a.mv := by
  rw [IdealLine.joinPoint, Point.joinIdealLine, C11_point_dual, ← Branch.meetPlane,
    C08_branch_meet_plane, C11_point_dual, C11_ideal_line_dual, vee]

theorem C09_plane_join_point (isa : Isa) (a : Plane K) (b : Point K) :
    (a.joinPoint isa b).mv = vee a.mv b.mv := by
  rw [Plane.joinPoint, C11_dual_dual, C08_point_meet_plane, C11_plane_dual, C11_point_dual, vee]

theorem C09_point_join_plane (isa : Isa) (a : Point K) (b : Plane K) :
    (a.joinPlane isa b).mv = vee a.mv b.mv := by
  rw [Point.joinPlane, C11_dual_dual, C08_plane_meet_point, C11_plane_dual, C11_point_dual, vee]

/-- test/test_rp.cpp: joining (1,2,3) and (-2,1,4). -/
example : (Point.mk3 1 2 3 : Point ℤ).joinPoint (Point.mk3 (-2) 1 4)
    = Line.mk6 5 (-10) 5 (-3) (-1) 1 := by decide

/-! ### C10: inner product -/

theorem C10_plane_dot_plane (isa : Isa) (a b : Plane K) :
    scalarMv (a.dotPlane isa b) = inner a.mv b.mv := by
  cases isa <;> mv_ring

theorem C10_plane_dot_line (a : Plane K) (b : Line K) : (a.dotLine b).mv = inner a.mv b.mv := by
  mv_ring

theorem C10_line_dot_plane (a : Plane K) (b : Line K) : (b.dotPlane a).mv = inner b.mv a.mv := by
  mv_ring

theorem C10_plane_dot_ideal_line (isa : Isa) (a : Plane K) (b : IdealLine K) :
    (a.dotIdealLine isa b).mv = inner a.mv b.mv := by
  cases isa <;> mv_ring

theorem C10_ideal_line_dot_plane (isa : Isa) (a : Plane K) (b : IdealLine K) :
    (b.dotPlane isa a).mv = inner b.mv a.mv := by
  cases isa <;> mv_ring

theorem C10_plane_dot_point (isa : Isa) (a : Plane K) (b : Point K) :
    (a.dotPoint isa b).mv = inner a.mv b.mv := by
  cases isa <;> mv_ring

theorem C10_point_dot_plane (isa : Isa) (a : Plane K) (b : Point K) :
    (b.dotPlane isa a).mv = inner b.mv a.mv := by
  cases isa <;> mv_ring

theorem C10_line_dot_line (a b : Line K) : scalarMv (a.dotLine b) = inner a.mv b.mv := by
  mv_ring

theorem C10_point_dot_line (isa : Isa) (a : Point K) (b : Line K) (hb : b.WF) :
    (a.dotLine isa b).mv = inner a.mv b.mv := by
  obtain ⟨⟨b0, b1, b2, b3⟩, c⟩ := b
  obtain ⟨rfl, -⟩ := hb
  cases isa <;> mv_ring

theorem C10_line_dot_point (isa : Isa) (a : Point K) (b : Line K) (hb : b.WF) :
    (b.dotPoint isa a).mv = inner b.mv a.mv := by
  obtain ⟨⟨b0, b1, b2, b3⟩, c⟩ := b
  obtain ⟨rfl, -⟩ := hb
  cases isa <;> mv_ring

theorem C10_point_dot_point (a b : Point K) : scalarMv (a.dotPoint b) = inner a.mv b.mv := by
  mv_ring

/-- test/test_ip.cpp. -/
example : (Plane.mk4 1 2 3 4 : Plane ℤ).dotPlane .sse41 (Plane.mk4 2 3 (-1) (-2)) = 5 := by decide
example : (Plane.mk4 1 2 3 4 : Plane ℤ).dotLine (Line.mk6 0 0 1 4 1 (-2))
    = Plane.mk4 7 (-14) 7 (-3) := by decide
example : (Plane.mk4 1 2 3 4 : Plane ℤ).dotPoint .sse3 (Point.mk3 (-2) 1 4)
    = Line.mk6 (-5) 10 (-5) 1 2 3 := by decide
example : (Point.mk3 (-2) 1 4 : Point ℤ).dotLine .sse3 (Line.mk6 0 0 1 3 2 1)
    = Plane.mk4 (-3) (-2) (-1) 0 := by decide

end Klein
