import Verif.Glsl.Klein
import Verif.Api.Embed
import Verif.Props.Rigid
import Verif.Props.Actions

/-!
# C50: the shader library computes what the C++ library computes

Every function of `klein.glsl` against the C++ operator it corresponds to, for all operands, in any
commutative ring.  The statements against the specification (Clifford product, sandwich) follow.
-/

set_option linter.unusedSimpArgs false
set_option linter.unusedVariables false

namespace Klein

open Glsl PGA

variable {K : Type} [CommRing K]

/-- Unfold both sides and compare lane by lane. -/
macro "glsl_ring" : tactic =>
  `(tactic| (simp only [kln, sse, cond_true, cond_false, Rotor.mk.injEq, Motor.mk.injEq,
      Plane.mk.injEq, Point.mk.injEq, Translator.mk.injEq, V4.mk.injEq, Nat.cast_ofNat]
             refine ⟨?_, ?_, ?_, ?_⟩ <;> first | trivial | ring))

section Exact
variable {F : Type} [Add F] [Sub F] [Mul F] [Neg F] [Zero F] [One F] [NatCast F]

/-- Products of rotors: the same operations in the same order, so no law of arithmetic is used. -/
theorem C50_mul_rotor (a b : Rotor F) : (⟨mulRotor a.p1 b.p1⟩ : Rotor F) = a.mulRotor b := by
  simp only [kln, sse, cond_true, cond_false, Rotor.mk.injEq, V4.mk.injEq]

theorem C50_mul_translator (a b : Translator F) :
    (⟨Glsl.mulTranslator a.p2 b.p2⟩ : Translator F) = a.mulTranslator b := rfl

/-- Products of motors: likewise. -/
theorem C50_mul_motor (a b : Motor F) :
    (⟨(mulMotor a.p1 a.p2 b.p1 b.p2).1, (mulMotor a.p1 a.p2 b.p1 b.p2).2⟩ : Motor F)
      = a.mulMotor b := by
  simp only [kln, sse, cond_true, cond_false, Motor.mk.injEq, V4.mk.injEq]

end Exact

theorem C50_apply_rotor_plane (isa : Isa) (r : Rotor K) (p : Plane K) :
    (⟨applyRotorPlane r.p1 p.p0⟩ : Plane K) = r.onPlane isa p := by
  cases isa <;> glsl_ring

theorem C50_apply_rotor_point (isa : Isa) (r : Rotor K) (p : Point K) :
    (⟨applyRotorPoint r.p1 p.p3⟩ : Point K) = r.onPoint isa p := by
  cases isa <;> glsl_ring

theorem C50_apply_motor_plane (isa : Isa) (m : Motor K) (p : Plane K) :
    (⟨applyMotorPlane m.p1 m.p2 p.p0⟩ : Plane K) = m.onPlane isa p := by
  cases isa <;> glsl_ring

theorem C50_apply_motor_point (m : Motor K) (p : Point K) :
    (⟨applyMotorPoint m.p1 m.p2 p.p3⟩ : Point K) = m.onPoint p := by
  glsl_ring

theorem C50_apply_motor_origin (m : Motor K) :
    (⟨applyMotorOrigin m.p1 m.p2⟩ : Point K) = m.onOrigin := by
  glsl_ring

/-! Against the specification. -/

theorem C50_mul_motor_spec (a b : Motor K) :
    (⟨(mulMotor a.p1 a.p2 b.p1 b.p2).1, (mulMotor a.p1 a.p2 b.p1 b.p2).2⟩ : Motor K).mv
      = a.mv * b.mv := by
  mv_ring

theorem C50_mul_rotor_spec (a b : Rotor K) :
    (⟨mulRotor a.p1 b.p1⟩ : Rotor K).mv = a.mv * b.mv := by
  mv_ring

theorem C50_apply_spec (r : Rotor K) (m : Motor K) (p : Plane K) (x : Point K) :
    (⟨applyRotorPlane r.p1 p.p0⟩ : Plane K).mv = r.mv * p.mv * PGA.MV.rev r.mv ∧
    (⟨applyRotorPoint r.p1 x.p3⟩ : Point K).mv = r.mv * x.mv * PGA.MV.rev r.mv ∧
    (⟨applyMotorPlane m.p1 m.p2 p.p0⟩ : Plane K).mv = m.mv * p.mv * PGA.MV.rev m.mv ∧
    (⟨applyMotorPoint m.p1 m.p2 x.p3⟩ : Point K).mv = m.mv * x.mv * PGA.MV.rev m.mv := by
  rw [C50_apply_rotor_plane .sse3, C50_apply_rotor_point .sse3, C50_apply_motor_plane .sse3,
    C50_apply_motor_point]
  exact ⟨C13_rotor_on_plane _ _ _, C13_rotor_on_point _ _ _, C15_motor_on_plane _ _ _,
    C15_motor_on_point _ _⟩

/-- For a normalised motor the three-line variant is the image of the origin. -/
theorem C50_apply_motor_origin_spec (m : Motor K) (h : m.mv * PGA.MV.rev m.mv = 1) :
    (⟨applyMotorOrigin m.p1 m.p2⟩ : Point K) =
      ⟨applyMotorPoint m.p1 m.p2 (Point.mk3 0 0 0).p3⟩ := by
  have hn := Motor.sqNorm_eq_one h
  simp only [kln, Motor.sqNorm] at hn
  simp only [kln, sse, Point.mk.injEq, V4.mk.injEq, Nat.cast_ofNat]
  refine ⟨?_, ?_, ?_, ?_⟩
  · linear_combination -hn
  all_goals ring

example : mulRotor (F := ℤ) ⟨1, 2, 3, 4⟩ ⟨5, 6, 7, 8⟩ = ⟨-60, 20, 14, 32⟩ := by decide
example : applyMotorPoint (F := ℤ) ⟨1, 2, 3, 4⟩ ⟨5, 6, 7, 8⟩ ⟨1, 2, 3, 4⟩
    = ⟨30, 20, 62, 56⟩ := by decide

end Klein
