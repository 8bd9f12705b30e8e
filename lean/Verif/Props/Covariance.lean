import Verif.Lemmas.Conj
import Verif.Props.MeetJoin

/-!
# C18: a normalised motor commutes with meet, join and inner product
-/

set_option linter.unusedSimpArgs false

namespace Klein

open PGA PGA.MV

section Meet
variable {K : Type} [CommRing K] (isa : Isa) (m : Motor K) (h : m.mv * PGA.MV.rev m.mv = 1)
include h

theorem conj_dual_mv (d : Dual K) : conj m.mv d.mv = d.mv := by
  have := Motor.conj_dual m d.p d.q
  rw [h, mul_one] at this
  exact this

theorem conj_scalarMv (k : K) : conj m.mv (scalarMv k) = scalarMv k := conj_dual_mv m h ⟨k, 0⟩

theorem C18_plane_meet_plane (a b : Plane K) :
    ((m.onPlane isa a).meetPlane (m.onPlane isa b)).mv = (m.onLine (a.meetPlane b)).mv := by
  simp only [C08_plane_meet_plane, C15_motor_on_plane, C15_motor_on_line]
  exact Motor.wedge_conj m h _ _

theorem C18_plane_meet_line (a : Plane K) (b : Line K) :
    (m.onPlane isa a).meetLine isa (m.onLine b) = m.onPoint (a.meetLine isa b) := by
  rw [← Point.mv_inj]
  simp only [C08_plane_meet_line, C15_motor_on_plane, C15_motor_on_line, C15_motor_on_point]
  exact Motor.wedge_conj m h _ _

theorem C18_line_meet_plane (a : Line K) (b : Plane K) :
    (m.onLine a).meetPlane isa (m.onPlane isa b) = m.onPoint (a.meetPlane isa b) := by
  rw [← Point.mv_inj]
  simp only [C08_line_meet_plane, C15_motor_on_plane, C15_motor_on_line, C15_motor_on_point]
  exact Motor.wedge_conj m h _ _

theorem C18_plane_meet_point (a : Plane K) (b : Point K) :
    (m.onPlane isa a).meetPoint isa (m.onPoint b) = a.meetPoint isa b := by
  rw [← Dual.mv_inj, ← conj_dual_mv m h (a.meetPoint isa b)]
  simp only [C08_plane_meet_point, C15_motor_on_plane, C15_motor_on_point]
  exact Motor.wedge_conj m h _ _

theorem C18_point_meet_plane (a : Point K) (b : Plane K) :
    (m.onPoint a).meetPlane isa (m.onPlane isa b) = a.meetPlane isa b := by
  rw [← Dual.mv_inj, ← conj_dual_mv m h (a.meetPlane isa b)]
  simp only [C08_point_meet_plane, C15_motor_on_plane, C15_motor_on_point]
  exact Motor.wedge_conj m h _ _

theorem C18_line_meet_line (a b : Line K) :
    (m.onLine a).meetLine (m.onLine b) = a.meetLine b := by
  rw [← Dual.mv_inj, ← conj_dual_mv m h (a.meetLine b)]
  simp only [C08_line_meet_line, C15_motor_on_line]
  exact Motor.wedge_conj m h _ _

theorem C18_plane_dot_plane (a b : Plane K) :
    (m.onPlane isa a).dotPlane isa (m.onPlane isa b) = a.dotPlane isa b := by
  have := Motor.inner_conj m h a.mv b.mv
  simp only [conj, ← C15_motor_on_plane isa, ← C10_plane_dot_plane isa] at this
  rw [← conj, conj_scalarMv m h] at this
  exact congrArg MV.s this

theorem C18_plane_dot_line (a : Plane K) (b : Line K) :
    (m.onPlane isa a).dotLine (m.onLine b) = m.onPlane isa (a.dotLine b) := by
  rw [← Plane.mv_inj]
  simp only [C10_plane_dot_line, C15_motor_on_plane, C15_motor_on_line]
  exact Motor.inner_conj m h _ _

theorem C18_line_dot_plane (a : Line K) (b : Plane K) :
    (m.onLine a).dotPlane (m.onPlane isa b) = m.onPlane isa (a.dotPlane b) := by
  rw [← Plane.mv_inj]
  simp only [C10_line_dot_plane, C15_motor_on_plane, C15_motor_on_line]
  exact Motor.inner_conj m h _ _

theorem C18_plane_dot_point (a : Plane K) (b : Point K) :
    ((m.onPlane isa a).dotPoint isa (m.onPoint b)).mv = (m.onLine (a.dotPoint isa b)).mv := by
  simp only [C10_plane_dot_point, C15_motor_on_plane, C15_motor_on_line, C15_motor_on_point]
  exact Motor.inner_conj m h _ _

theorem C18_line_dot_line (a b : Line K) :
    (m.onLine a).dotLine (m.onLine b) = a.dotLine b := by
  have := Motor.inner_conj m h a.mv b.mv
  simp only [conj, ← C15_motor_on_line, ← C10_line_dot_line] at this
  rw [← conj, conj_scalarMv m h] at this
  exact congrArg MV.s this

theorem C18_point_dot_line (a : Point K) (b : Line K) (hb : b.WF) :
    (m.onPoint a).dotLine isa (m.onLine b) = m.onPlane isa (a.dotLine isa b) := by
  rw [← Plane.mv_inj]
  simp only [C10_point_dot_line isa _ _ hb, C10_point_dot_line isa _ _ (C49_motor_on_line m b hb), C15_motor_on_point,
    C15_motor_on_plane, C15_motor_on_line]
  exact Motor.inner_conj m h _ _

theorem C18_point_dot_point (a b : Point K) :
    (m.onPoint a).dotPoint (m.onPoint b) = a.dotPoint b := by
  have := Motor.inner_conj m h a.mv b.mv
  simp only [conj, ← C15_motor_on_point, ← C10_point_dot_point] at this
  rw [← conj, conj_scalarMv m h] at this
  exact congrArg MV.s this

end Meet

section Join
variable {K : Type} [Field K] [CharZero K] (isa : Isa) (m : Motor K)
  (h : m.mv * PGA.MV.rev m.mv = 1)
include h

theorem C18_point_join_point (a b : Point K) :
    ((m.onPoint a).joinPoint (m.onPoint b)).mv = (m.onLine (a.joinPoint b)).mv := by
  simp only [C09_point_join_point, C15_motor_on_point, C15_motor_on_line]
  exact Motor.vee_conj m h _ _

theorem C18_point_join_line (a : Point K) (b : Line K) :
    (m.onPoint a).joinLine isa (m.onLine b) = m.onPlane isa (a.joinLine isa b) := by
  rw [← Plane.mv_inj]
  simp only [C09_point_join_line, C15_motor_on_plane, C15_motor_on_point, C15_motor_on_line]
  exact Motor.vee_conj m h _ _

theorem C18_line_join_point (a : Line K) (b : Point K) :
    (m.onLine a).joinPoint isa (m.onPoint b) = m.onPlane isa (a.joinPoint isa b) := by
  rw [← Plane.mv_inj]
  simp only [C09_line_join_point, C15_motor_on_plane, C15_motor_on_point, C15_motor_on_line]
  exact Motor.vee_conj m h _ _

theorem C18_plane_join_point (a : Plane K) (b : Point K) :
    (m.onPlane isa a).joinPoint isa (m.onPoint b) = a.joinPoint isa b := by
  rw [← Dual.mv_inj, ← conj_dual_mv m h (a.joinPoint isa b)]
  simp only [C09_plane_join_point, C15_motor_on_plane, C15_motor_on_point]
  exact Motor.vee_conj m h _ _

theorem C18_point_join_plane (a : Point K) (b : Plane K) :
    (m.onPoint a).joinPlane isa (m.onPlane isa b) = a.joinPlane isa b := by
  rw [← Dual.mv_inj, ← conj_dual_mv m h (a.joinPlane isa b)]
  simp only [C09_point_join_plane, C15_motor_on_plane, C15_motor_on_point]
  exact Motor.vee_conj m h _ _

end Join

/-- The hypothesis is met by a half turn about a line together with a displacement, and the theorem
says something non-trivial there: the two planes do move. -/
example : let m : Motor ℤ := Motor.mk8 0 0 0 1 3 2 0 0
    m.mv * PGA.MV.rev m.mv = 1 ∧
    m.onPlane .sse41 (Plane.mk4 1 2 3 4) ≠ Plane.mk4 1 2 3 4 ∧
    (m.onPlane .sse41 (Plane.mk4 1 2 3 4)).dotPlane .sse41 (m.onPlane .sse41 (Plane.mk4 2 0 1 1)) = 5 := by
  decide

/-- Normalisation is needed: with the motor `2` the inner product of two planes is multiplied by 16. -/
theorem C18_needs_normalised : ∃ (m : Motor ℤ) (a b : Plane ℤ),
    (m.onPlane .sse41 a).dotPlane .sse41 (m.onPlane .sse41 b) ≠ a.dotPlane .sse41 b :=
  ⟨Motor.mk8 2 0 0 0 0 0 0 0, Plane.mk4 1 0 0 0, Plane.mk4 1 0 0 0, by decide⟩

end Klein
