import Verif.Api.Embed
import Verif.Spec.Estimate
import Verif.Lemmas.Newton
import Mathlib.Tactic.LinearCombination
import Mathlib.Tactic.NormNum

/-!
# C12 - C15: the call operators are sandwich products
-/

set_option linter.unusedSimpArgs false

namespace Klein

open PGA PGA.MV

variable {K : Type} [CommRing K]

/-! ### C12: reflection in a plane -/

theorem C12_plane_on_plane (p q : Plane K) : (p.onPlane q).mv = p.mv * q.mv * p.mv := by
  mv_ring

theorem C12_plane_on_line (p : Plane K) (l : Line K) : (p.onLine l).mv = p.mv * l.mv * p.mv := by
  mv_ring

theorem C12_plane_on_point (p : Plane K) (x : Point K) :
    (p.onPoint x).mv = p.mv * x.mv * p.mv := by
  mv_ring

/-! ### C13: rotors -/

theorem C13_rotor_on_plane (isa : Isa) (r : Rotor K) (x : Plane K) :
    (r.onPlane isa x).mv = r.mv * x.mv * rev r.mv := by
  cases isa <;> mv_ring

theorem C13_rotor_on_branch (r : Rotor K) (x : Branch K) :
    (r.onBranch x).mv = r.mv * x.mv * rev r.mv := by
  mv_ring

theorem C13_rotor_on_line (r : Rotor K) (x : Line K) :
    (r.onLine x).mv = r.mv * x.mv * rev r.mv := by
  mv_ring

theorem C13_rotor_on_point (isa : Isa) (r : Rotor K) (x : Point K) :
    (r.onPoint isa x).mv = r.mv * x.mv * rev r.mv := by
  cases isa <;> mv_ring

theorem C13_rotor_on_direction (isa : Isa) (r : Rotor K) (x : Direction K) :
    (r.onDirection isa x).mv = r.mv * x.mv * rev r.mv := by
  cases isa <;> mv_ring

/-! ### C14: translators -/

/-- C14 for planes.  The code divides by the scalar part of the translator, which is 1; the only
assumption on the hardware is that the reciprocal estimate of 1 is 1. -/
theorem C14_translator_on_plane (hw : Hw K) (isa : Isa) (t : Translator K) (x : Plane K)
    (ht : t.WF) (h : hw.RcpAt 1) :
    (t.onPlane hw isa x).mv = t.mv * x.mv * rev t.mv := by
  obtain ⟨⟨t0, t1, t2, t3⟩⟩ := t
  simp only [Translator.WF] at ht
  subst ht
  have h1 : hw.rcp 1 = 1 := by simpa [Hw.RcpAt] using h
  have h2 : rcp1 hw (1 : K) = 1 := by rw [rcp_nr1_exact hw h, h1]
  cases isa <;> simp only [Translator.onPlane, sw02, rcp_nr1_map, sse, cond_true, cond_false,
    zero_add, add_zero, h2] <;> mv_ring

theorem C14_translator_on_line (t : Translator K) (x : Line K) (ht : t.WF) :
    (t.onLine x).mv = t.mv * x.mv * rev t.mv := by
  obtain ⟨⟨t0, t1, t2, t3⟩⟩ := t
  simp only [Translator.WF] at ht
  subst ht
  mv_ring

theorem C14_translator_on_point (t : Translator K) (x : Point K) :
    (t.onPoint x).mv = t.mv * x.mv * rev t.mv := by
  mv_ring

/-- C14: the translator `1 + a e01 + b e02 + c e03` moves a point of weight `w` by
`-2 w (a, b, c)` and keeps the weight. -/
theorem C14_translator_point_coords (t : Translator K) (x : Point K) :
    t.onPoint x = ⟨⟨x.w, x.x - 2 * x.w * t.e01, x.y - 2 * x.w * t.e02, x.z - 2 * x.w * t.e03⟩⟩ := by
  simp only [kln, sse]
  congr 2 <;> ring

/-- C14: a translator keeps the normal of every plane. -/
theorem C14_translator_plane_normal (hw : Hw K) (isa : Isa) (t : Translator K) (x : Plane K) :
    (t.onPlane hw isa x).x = x.x ∧ (t.onPlane hw isa x).y = x.y ∧ (t.onPlane hw isa x).z = x.z := by
  cases isa <;> simp [kln]

/-- C14: a translator keeps the direction of every line. -/
theorem C14_translator_line_direction (t : Translator K) (x : Line K) : (t.onLine x).p1 = x.p1 :=
  rfl

/-- test/test_sw.cpp: moving (1, 0, 0) up by 1 with `-1/2 e03`. -/
example : (⟨⟨0, 0, 0, -1 / 2⟩⟩ : Translator ℚ).onPoint (Point.mk3 1 0 0) = Point.mk3 1 0 1 := by
  simp only [kln, sse]; norm_num

example : (⟨⟨0, 3, 0, -1⟩⟩ : Translator ℚ).WF ∧ Hw.rat.RcpAt 1 ∧
    (⟨⟨0, 3, 0, -1⟩⟩ : Translator ℚ).onPlane Hw.rat .sse3 (Plane.mk4 1 2 3 4)
      = Plane.mk4 1 2 3 4 := by
  refine ⟨rfl, by simp [Hw.RcpAt, Hw.rat], ?_⟩
  simp only [kln, sse, Hw.rat, cond_true, cond_false]; norm_num

example : (⟨⟨0, 3, 0, -1⟩⟩ : Translator ℚ).onPlane Hw.rat .sse41 (Plane.mk4 1 2 4 4)
      = Plane.mk4 1 2 4 2 := by
  simp only [kln, sse, Hw.rat, cond_true, cond_false]; norm_num

/-! ### C15: motors -/

theorem C15_motor_on_plane (isa : Isa) (m : Motor K) (x : Plane K) :
    (m.onPlane isa x).mv = m.mv * x.mv * rev m.mv := by
  cases isa <;> mv_ring

theorem C15_motor_on_line (m : Motor K) (x : Line K) :
    (m.onLine x).mv = m.mv * x.mv * rev m.mv := by
  mv_ring

theorem C15_motor_on_point (m : Motor K) (x : Point K) :
    (m.onPoint x).mv = m.mv * x.mv * rev m.mv := by
  mv_ring

theorem C15_motor_on_direction (m : Motor K) (x : Direction K) :
    (m.onDirection x).mv = m.mv * x.mv * rev m.mv := by
  mv_ring

/-- C15 for the origin `e123`: the optimised form omits the weight, hence needs a normalised
motor. -/
theorem C15_motor_on_origin (m : Motor K) (h : m.mv * rev m.mv = 1) :
    m.onOrigin.mv = m.mv * (Point.origin : Point K).mv * rev m.mv := by
  have h0 := congrArg MV.s h
  have h1 := congrArg MV.e0123 h
  simp only [pga, mul_zero, zero_mul, add_zero, zero_add, mul_one, one_mul, sub_zero, zero_sub,
    neg_zero, neg_neg] at h0 h1
  apply MV.ext <;> simp only [pga, sse, kln, V4.get, cond_true, cond_false, mul_zero, zero_mul,
    add_zero, zero_add, mul_one, one_mul, sub_zero, zero_sub, neg_zero, neg_neg] <;>
    first
    | ring1
    | linear_combination -h0

/-- The general point operator agrees with the special one on the origin. -/
theorem C15_motor_on_origin_eq (m : Motor K) (h : m.mv * rev m.mv = 1) :
    m.onOrigin = m.onPoint Point.origin := by
  have e : m.onOrigin.mv = (m.onPoint Point.origin).mv := by
    rw [C15_motor_on_origin m h, C15_motor_on_point]
  have e0 := congrArg MV.e123 e
  have e1 := congrArg MV.e023 e
  have e2 := congrArg MV.e013 e
  have e3 := congrArg MV.e012 e
  simp only [pga, neg_inj] at e0 e1 e2 e3
  apply Point.ext
  apply V4.ext <;> assumption

/-- A normalised motor (a quarter turn with a translation, up to the factor sqrt 2 avoided by a
half turn): `e12 + 2 e0123 ...` maps the origin off itself. -/
example : let m : Motor ℤ := Motor.mk8 0 0 0 1 3 2 0 0
    m.mv * rev m.mv = 1 ∧ m.onOrigin = Point.mk3 (-4) 6 0 := by decide

/-- test/test_sw.cpp "motor-point" for a motor that is not normalised. -/
example : (Motor.mk8 1 4 3 2 5 6 7 8 : Motor ℤ).onPoint (Point.mk3 (-1) 1 2)
    = ⟨⟨30, -12, -86, -86⟩⟩ := by decide

/-- test/test_sw.cpp "motor-plane", "motor-line". -/
example : (Motor.mk8 1 4 3 2 5 6 7 8 : Motor ℤ).onPlane .sse3 (Plane.mk4 3 2 1 (-1))
    = Plane.mk4 78 60 54 358 := by decide

/-- The origin form is wrong for a motor that is not normalised: the precondition is needed. -/
theorem C15_motor_on_origin_needs_norm :
    ∃ m : Motor ℤ, m.onOrigin ≠ m.onPoint Point.origin := ⟨Motor.mk8 2 0 0 0 0 0 0 0, by decide⟩

end Klein
