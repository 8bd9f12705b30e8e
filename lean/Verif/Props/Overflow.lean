import Verif.Float.Range
import Verif.Props.Rounding

/-!
# C69: no overflow in binary32

With lanes of magnitude at most `2^a`, ... every lane of the result is finite, as long as the sum of
the exponents leaves room for the additions.  The error bounds of C54 then hold without their
hypothesis that the result is finite.
-/

set_option linter.unusedSimpArgs false
set_option linter.unusedTactic false
set_option linter.unreachableTactic false

namespace Klein

open F32

/-- Four finite lanes of magnitude at most `2^n`. -/
def V4.Le2 (v : V4 F32) (n : ℕ) : Prop := ∀ i, F32.Le2 (v.get i) n

/-- Four finite lanes. -/
def V4.Finite (v : V4 F32) : Prop := ∀ i, (v.get i).isFinite = true

macro "le2" : tactic => `(tactic| repeat' (first
  | with_reducible assumption
  | with_reducible exact Le2.zero | with_reducible exact Le2.one | with_reducible exact Le2.two
  | with_reducible apply Le2.add | with_reducible apply Le2.sub | with_reducible apply Le2.mul
  | with_reducible apply Le2.neg))

macro "le2_lane" : tactic => `(tactic| (
  apply Le2.fin
  · simp only [kln, sse, V4.get, cond_true, cond_false]
    le2
  · omega))

variable {a b : ℕ}

macro "le2_get" h:ident : tactic => `(tactic| (
  have h0 := $h 0; have h1 := $h 1; have h2 := $h 2; have h3 := $h 3
  simp only [V4.get] at h0 h1 h2 h3))

theorem C69_plane_mul_plane {x : Plane F32} {y : Plane F32} (hx0 : x.p0.Le2 a) (hy0 : y.p0.Le2 b)
    (h : a + b + 4 ≤ 127) :
    (x.mulPlane y).p1.Finite ∧ (x.mulPlane y).p2.Finite := by
  le2_get hx0
  le2_get hy0
  constructor <;>
  · intro i
    fin_cases i <;> le2_lane

theorem C69_plane_mul_point (isa : Isa) {x : Plane F32} {y : Point F32} (hx0 : x.p0.Le2 a) (hy3 : y.p3.Le2 b)
    (h : a + b + 4 ≤ 127) :
    (x.mulPoint isa y).p1.Finite ∧ (x.mulPoint isa y).p2.Finite := by
  le2_get hx0
  le2_get hy3
  cases isa
  all_goals
    constructor <;>
    · intro i
      fin_cases i <;> le2_lane

theorem C69_point_mul_plane (isa : Isa) {x : Point F32} {y : Plane F32} (hx3 : x.p3.Le2 a) (hy0 : y.p0.Le2 b)
    (h : a + b + 4 ≤ 127) :
    (x.mulPlane isa y).p1.Finite ∧ (x.mulPlane isa y).p2.Finite := by
  le2_get hx3
  le2_get hy0
  cases isa
  all_goals
    constructor <;>
    · intro i
      fin_cases i <;> le2_lane

theorem C69_branch_mul_branch {x : Branch F32} {y : Branch F32} (hx1 : x.p1.Le2 a) (hy1 : y.p1.Le2 b)
    (h : a + b + 4 ≤ 127) :
    (x.mulBranch y).p1.Finite := by
  le2_get hx1
  le2_get hy1
  intro i
  fin_cases i <;> le2_lane

theorem C69_line_mul_line {x : Line F32} {y : Line F32} (hx1 : x.p1.Le2 a) (hx2 : x.p2.Le2 a) (hy1 : y.p1.Le2 b) (hy2 : y.p2.Le2 b)
    (h : a + b + 5 ≤ 127) :
    (x.mulLine y).p1.Finite ∧ (x.mulLine y).p2.Finite := by
  le2_get hx1
  le2_get hx2
  le2_get hy1
  le2_get hy2
  constructor <;>
  · intro i
    fin_cases i <;> le2_lane

theorem C69_rotor_mul_rotor {x : Rotor F32} {y : Rotor F32} (hx1 : x.p1.Le2 a) (hy1 : y.p1.Le2 b)
    (h : a + b + 4 ≤ 127) :
    (x.mulRotor y).p1.Finite := by
  le2_get hx1
  le2_get hy1
  intro i
  fin_cases i <;> le2_lane

theorem C69_rotor_mul_translator {x : Rotor F32} {y : Translator F32} (hx1 : x.p1.Le2 a) (hy2 : y.p2.Le2 b)
    (h : a + b + 4 ≤ 127) :
    (x.mulTranslator y).p1.Finite ∧ (x.mulTranslator y).p2.Finite := by
  le2_get hx1
  le2_get hy2
  constructor <;>
  · intro i
    fin_cases i <;> le2_lane

theorem C69_translator_mul_rotor {x : Translator F32} {y : Rotor F32} (hx2 : x.p2.Le2 a) (hy1 : y.p1.Le2 b)
    (h : a + b + 4 ≤ 127) :
    (x.mulRotor y).p1.Finite ∧ (x.mulRotor y).p2.Finite := by
  le2_get hx2
  le2_get hy1
  constructor <;>
  · intro i
    fin_cases i <;> le2_lane

theorem C69_translator_mul_translator {x : Translator F32} {y : Translator F32} (hx2 : x.p2.Le2 a) (hy2 : y.p2.Le2 b)
    (h : a + b + 1 ≤ 127) :
    (x.mulTranslator y).p2.Finite := by
  le2_get hx2
  le2_get hy2
  intro i
  fin_cases i <;> le2_lane

theorem C69_rotor_mul_motor {x : Rotor F32} {y : Motor F32} (hx1 : x.p1.Le2 a) (hy1 : y.p1.Le2 b) (hy2 : y.p2.Le2 b)
    (h : a + b + 5 ≤ 127) :
    (x.mulMotor y).p1.Finite ∧ (x.mulMotor y).p2.Finite := by
  le2_get hx1
  le2_get hy1
  le2_get hy2
  constructor <;>
  · intro i
    fin_cases i <;> le2_lane

theorem C69_motor_mul_rotor {x : Motor F32} {y : Rotor F32} (hx1 : x.p1.Le2 a) (hx2 : x.p2.Le2 a) (hy1 : y.p1.Le2 b)
    (h : a + b + 5 ≤ 127) :
    (x.mulRotor y).p1.Finite ∧ (x.mulRotor y).p2.Finite := by
  le2_get hx1
  le2_get hx2
  le2_get hy1
  constructor <;>
  · intro i
    fin_cases i <;> le2_lane

theorem C69_translator_mul_motor {x : Translator F32} {y : Motor F32} (hx2 : x.p2.Le2 a) (hy1 : y.p1.Le2 b) (hy2 : y.p2.Le2 b)
    (h : a + b + 5 ≤ 127) :
    (x.mulMotor y).p1.Finite ∧ (x.mulMotor y).p2.Finite := by
  le2_get hx2
  le2_get hy1
  le2_get hy2
  constructor <;>
  · intro i
    fin_cases i <;> le2_lane

theorem C69_motor_mul_translator {x : Motor F32} {y : Translator F32} (hx1 : x.p1.Le2 a) (hx2 : x.p2.Le2 a) (hy2 : y.p2.Le2 b)
    (h : a + b + 5 ≤ 127) :
    (x.mulTranslator y).p1.Finite ∧ (x.mulTranslator y).p2.Finite := by
  le2_get hx1
  le2_get hx2
  le2_get hy2
  constructor <;>
  · intro i
    fin_cases i <;> le2_lane

theorem C69_motor_mul_motor {x : Motor F32} {y : Motor F32} (hx1 : x.p1.Le2 a) (hx2 : x.p2.Le2 a) (hy1 : y.p1.Le2 b) (hy2 : y.p2.Le2 b)
    (h : a + b + 6 ≤ 127) :
    (x.mulMotor y).p1.Finite ∧ (x.mulMotor y).p2.Finite := by
  le2_get hx1
  le2_get hx2
  le2_get hy1
  le2_get hy2
  constructor <;>
  · intro i
    fin_cases i <;> le2_lane

theorem C69_plane_meet_plane {x : Plane F32} {y : Plane F32} (hx0 : x.p0.Le2 a) (hy0 : y.p0.Le2 b)
    (h : a + b + 2 ≤ 127) :
    (x.meetPlane y).p1.Finite ∧ (x.meetPlane y).p2.Finite := by
  le2_get hx0
  le2_get hy0
  constructor <;>
  · intro i
    fin_cases i <;> le2_lane

theorem C69_plane_meet_branch (isa : Isa) {x : Plane F32} {y : Branch F32} (hx0 : x.p0.Le2 a) (hy1 : y.p1.Le2 b)
    (h : a + b + 3 ≤ 127) :
    (x.meetBranch isa y).p3.Finite := by
  le2_get hx0
  le2_get hy1
  cases isa
  all_goals
    intro i
    fin_cases i <;> le2_lane

theorem C69_plane_meet_ideal_line {x : Plane F32} {y : IdealLine F32} (hx0 : x.p0.Le2 a) (hy2 : y.p2.Le2 b)
    (h : a + b + 3 ≤ 127) :
    (x.meetIdealLine y).p3.Finite := by
  le2_get hx0
  le2_get hy2
  intro i
  fin_cases i <;> le2_lane

theorem C69_plane_meet_line (isa : Isa) {x : Plane F32} {y : Line F32} (hx0 : x.p0.Le2 a) (hy1 : y.p1.Le2 b) (hy2 : y.p2.Le2 b)
    (h : a + b + 4 ≤ 127) :
    (x.meetLine isa y).p3.Finite := by
  le2_get hx0
  le2_get hy1
  le2_get hy2
  cases isa
  all_goals
    intro i
    fin_cases i <;> le2_lane

theorem C69_point_join_point {x : Point F32} {y : Point F32} (hx3 : x.p3.Le2 a) (hy3 : y.p3.Le2 b)
    (h : a + b + 2 ≤ 127) :
    (x.joinPoint y).p1.Finite ∧ (x.joinPoint y).p2.Finite := by
  le2_get hx3
  le2_get hy3
  constructor <;>
  · intro i
    fin_cases i <;> le2_lane

theorem C69_point_join_line (isa : Isa) {x : Point F32} {y : Line F32} (hx3 : x.p3.Le2 a) (hy1 : y.p1.Le2 b) (hy2 : y.p2.Le2 b)
    (h : a + b + 4 ≤ 127) :
    (x.joinLine isa y).p0.Finite := by
  le2_get hx3
  le2_get hy1
  le2_get hy2
  cases isa
  all_goals
    intro i
    fin_cases i <;> le2_lane

theorem C69_point_join_branch {x : Point F32} {y : Branch F32} (hx3 : x.p3.Le2 a) (hy1 : y.p1.Le2 b)
    (h : a + b + 3 ≤ 127) :
    (x.joinBranch y).p0.Finite := by
  le2_get hx3
  le2_get hy1
  intro i
  fin_cases i <;> le2_lane

theorem C69_point_join_ideal_line (isa : Isa) {x : Point F32} {y : IdealLine F32} (hx3 : x.p3.Le2 a) (hy2 : y.p2.Le2 b)
    (h : a + b + 3 ≤ 127) :
    (x.joinIdealLine isa y).p0.Finite := by
  le2_get hx3
  le2_get hy2
  cases isa
  all_goals
    intro i
    fin_cases i <;> le2_lane

theorem C69_plane_dot_line {x : Plane F32} {y : Line F32} (hx0 : x.p0.Le2 a) (hy1 : y.p1.Le2 b) (hy2 : y.p2.Le2 b)
    (h : a + b + 4 ≤ 127) :
    (x.dotLine y).p0.Finite := by
  le2_get hx0
  le2_get hy1
  le2_get hy2
  intro i
  fin_cases i <;> le2_lane

theorem C69_line_dot_plane {x : Line F32} {y : Plane F32} (hx1 : x.p1.Le2 a) (hx2 : x.p2.Le2 a) (hy0 : y.p0.Le2 b)
    (h : a + b + 4 ≤ 127) :
    (x.dotPlane y).p0.Finite := by
  le2_get hx1
  le2_get hx2
  le2_get hy0
  intro i
  fin_cases i <;> le2_lane

theorem C69_plane_dot_ideal_line (isa : Isa) {x : Plane F32} {y : IdealLine F32} (hx0 : x.p0.Le2 a) (hy2 : y.p2.Le2 b)
    (h : a + b + 4 ≤ 127) :
    (x.dotIdealLine isa y).p0.Finite := by
  le2_get hx0
  le2_get hy2
  cases isa
  all_goals
    intro i
    fin_cases i <;> le2_lane

theorem C69_ideal_line_dot_plane (isa : Isa) {x : IdealLine F32} {y : Plane F32} (hx2 : x.p2.Le2 a) (hy0 : y.p0.Le2 b)
    (h : a + b + 4 ≤ 127) :
    (x.dotPlane isa y).p0.Finite := by
  le2_get hx2
  le2_get hy0
  cases isa
  all_goals
    intro i
    fin_cases i <;> le2_lane

theorem C69_plane_dot_point (isa : Isa) {x : Plane F32} {y : Point F32} (hx0 : x.p0.Le2 a) (hy3 : y.p3.Le2 b)
    (h : a + b + 4 ≤ 127) :
    (x.dotPoint isa y).p1.Finite ∧ (x.dotPoint isa y).p2.Finite := by
  le2_get hx0
  le2_get hy3
  cases isa
  all_goals
    constructor <;>
    · intro i
      fin_cases i <;> le2_lane

theorem C69_point_dot_line (isa : Isa) {x : Point F32} {y : Line F32} (hx3 : x.p3.Le2 a) (hy1 : y.p1.Le2 b) (hy2 : y.p2.Le2 b)
    (h : a + b + 4 ≤ 127) :
    (x.dotLine isa y).p0.Finite := by
  le2_get hx3
  le2_get hy1
  le2_get hy2
  cases isa
  all_goals
    intro i
    fin_cases i <;> le2_lane

theorem C69_point_project_line (isa : Isa) {x : Point F32} {y : Line F32} (hx3 : x.p3.Le2 a) (hy1 : y.p1.Le2 b) (hy2 : y.p2.Le2 b)
    (h : a + 2 * b + 8 ≤ 127) :
    (x.projectLine isa y).p3.Finite := by
  le2_get hx3
  le2_get hy1
  le2_get hy2
  cases isa
  all_goals
    intro i
    fin_cases i <;> le2_lane

theorem C69_point_project_plane (isa : Isa) {x : Point F32} {y : Plane F32} (hx3 : x.p3.Le2 a) (hy0 : y.p0.Le2 b)
    (h : a + 2 * b + 8 ≤ 127) :
    (x.projectPlane isa y).p3.Finite := by
  le2_get hx3
  le2_get hy0
  cases isa
  all_goals
    intro i
    fin_cases i <;> le2_lane

theorem C69_line_project_plane {x : Line F32} {y : Plane F32} (hx1 : x.p1.Le2 a) (hx2 : x.p2.Le2 a) (hy0 : y.p0.Le2 b)
    (h : a + 2 * b + 8 ≤ 127) :
    (x.projectPlane y).p1.Finite ∧ (x.projectPlane y).p2.Finite := by
  le2_get hx1
  le2_get hx2
  le2_get hy0
  constructor <;>
  · intro i
    fin_cases i <;> le2_lane

theorem C69_plane_project_point (isa : Isa) {x : Plane F32} {y : Point F32} (hx0 : x.p0.Le2 a) (hy3 : y.p3.Le2 b)
    (h : a + 2 * b + 8 ≤ 127) :
    (x.projectPoint isa y).p0.Finite := by
  le2_get hx0
  le2_get hy3
  cases isa
  all_goals
    intro i
    fin_cases i <;> le2_lane

theorem C69_line_project_point (isa : Isa) {x : Line F32} {y : Point F32} (hx1 : x.p1.Le2 a) (hx2 : x.p2.Le2 a) (hy3 : y.p3.Le2 b)
    (h : a + 2 * b + 8 ≤ 127) :
    (x.projectPoint isa y).p1.Finite ∧ (x.projectPoint isa y).p2.Finite := by
  le2_get hx1
  le2_get hx2
  le2_get hy3
  cases isa
  all_goals
    constructor <;>
    · intro i
      fin_cases i <;> le2_lane

theorem C69_plane_project_line {x : Plane F32} {y : Line F32} (hx0 : x.p0.Le2 a) (hy1 : y.p1.Le2 b) (hy2 : y.p2.Le2 b)
    (h : a + 2 * b + 8 ≤ 127) :
    (x.projectLine y).p0.Finite := by
  le2_get hx0
  le2_get hy1
  le2_get hy2
  intro i
  fin_cases i <;> le2_lane

theorem C69_plane_on_plane {x : Plane F32} {y : Plane F32} (hx0 : x.p0.Le2 a) (hy0 : y.p0.Le2 b)
    (h : 2 * a + b + 6 ≤ 127) :
    (x.onPlane y).p0.Finite := by
  le2_get hx0
  le2_get hy0
  intro i
  fin_cases i <;> le2_lane

theorem C69_plane_on_line {x : Plane F32} {y : Line F32} (hx0 : x.p0.Le2 a) (hy1 : y.p1.Le2 b) (hy2 : y.p2.Le2 b)
    (h : 2 * a + b + 8 ≤ 127) :
    (x.onLine y).p1.Finite ∧ (x.onLine y).p2.Finite := by
  le2_get hx0
  le2_get hy1
  le2_get hy2
  constructor <;>
  · intro i
    fin_cases i <;> le2_lane

theorem C69_plane_on_point {x : Plane F32} {y : Point F32} (hx0 : x.p0.Le2 a) (hy3 : y.p3.Le2 b)
    (h : 2 * a + b + 6 ≤ 127) :
    (x.onPoint y).p3.Finite := by
  le2_get hx0
  le2_get hy3
  intro i
  fin_cases i <;> le2_lane

theorem C69_rotor_on_plane (isa : Isa) {x : Rotor F32} {y : Plane F32} (hx1 : x.p1.Le2 a) (hy0 : y.p0.Le2 b)
    (h : 2 * a + b + 8 ≤ 127) :
    (x.onPlane isa y).p0.Finite := by
  le2_get hx1
  le2_get hy0
  cases isa
  all_goals
    intro i
    fin_cases i <;> le2_lane

theorem C69_rotor_on_branch {x : Rotor F32} {y : Branch F32} (hx1 : x.p1.Le2 a) (hy1 : y.p1.Le2 b)
    (h : 2 * a + b + 8 ≤ 127) :
    (x.onBranch y).p1.Finite := by
  le2_get hx1
  le2_get hy1
  intro i
  fin_cases i <;> le2_lane

theorem C69_rotor_on_line {x : Rotor F32} {y : Line F32} (hx1 : x.p1.Le2 a) (hy1 : y.p1.Le2 b) (hy2 : y.p2.Le2 b)
    (h : 2 * a + b + 8 ≤ 127) :
    (x.onLine y).p1.Finite ∧ (x.onLine y).p2.Finite := by
  le2_get hx1
  le2_get hy1
  le2_get hy2
  constructor <;>
  · intro i
    fin_cases i <;> le2_lane

theorem C69_rotor_on_point (isa : Isa) {x : Rotor F32} {y : Point F32} (hx1 : x.p1.Le2 a) (hy3 : y.p3.Le2 b)
    (h : 2 * a + b + 8 ≤ 127) :
    (x.onPoint isa y).p3.Finite := by
  le2_get hx1
  le2_get hy3
  cases isa
  all_goals
    intro i
    fin_cases i <;> le2_lane

theorem C69_rotor_on_direction (isa : Isa) {x : Rotor F32} {y : Direction F32} (hx1 : x.p1.Le2 a) (hy3 : y.p3.Le2 b)
    (h : 2 * a + b + 8 ≤ 127) :
    (x.onDirection isa y).p3.Finite := by
  le2_get hx1
  le2_get hy3
  cases isa
  all_goals
    intro i
    fin_cases i <;> le2_lane

theorem C69_translator_on_line {x : Translator F32} {y : Line F32} (hx2 : x.p2.Le2 a) (hy1 : y.p1.Le2 b) (hy2 : y.p2.Le2 b)
    (h : a + b + 5 ≤ 127) :
    (x.onLine y).p1.Finite ∧ (x.onLine y).p2.Finite := by
  le2_get hx2
  le2_get hy1
  le2_get hy2
  constructor <;>
  · intro i
    fin_cases i <;> le2_lane

theorem C69_translator_on_point {x : Translator F32} {y : Point F32} (hx2 : x.p2.Le2 a) (hy3 : y.p3.Le2 b)
    (h : a + b + 3 ≤ 127) :
    (x.onPoint y).p3.Finite := by
  le2_get hx2
  le2_get hy3
  intro i
  fin_cases i <;> le2_lane

theorem C69_motor_on_plane (isa : Isa) {x : Motor F32} {y : Plane F32} (hx1 : x.p1.Le2 a) (hx2 : x.p2.Le2 a) (hy0 : y.p0.Le2 b)
    (h : 2 * a + b + 9 ≤ 127) :
    (x.onPlane isa y).p0.Finite := by
  le2_get hx1
  le2_get hx2
  le2_get hy0
  cases isa
  all_goals
    intro i
    fin_cases i <;> le2_lane

theorem C69_motor_on_line {x : Motor F32} {y : Line F32} (hx1 : x.p1.Le2 a) (hx2 : x.p2.Le2 a) (hy1 : y.p1.Le2 b) (hy2 : y.p2.Le2 b)
    (h : 2 * a + b + 9 ≤ 127) :
    (x.onLine y).p1.Finite ∧ (x.onLine y).p2.Finite := by
  le2_get hx1
  le2_get hx2
  le2_get hy1
  le2_get hy2
  constructor <;>
  · intro i
    fin_cases i <;> le2_lane

theorem C69_motor_on_point {x : Motor F32} {y : Point F32} (hx1 : x.p1.Le2 a) (hx2 : x.p2.Le2 a) (hy3 : y.p3.Le2 b)
    (h : 2 * a + b + 8 ≤ 127) :
    (x.onPoint y).p3.Finite := by
  le2_get hx1
  le2_get hx2
  le2_get hy3
  intro i
  fin_cases i <;> le2_lane

theorem C69_motor_on_direction {x : Motor F32} {y : Direction F32} (hx1 : x.p1.Le2 a) (hx2 : x.p2.Le2 a) (hy3 : y.p3.Le2 b)
    (h : 2 * a + b + 8 ≤ 127) :
    (x.onDirection y).p3.Finite := by
  le2_get hx1
  le2_get hx2
  le2_get hy3
  intro i
  fin_cases i <;> le2_lane

theorem C69_plane_dot_plane (isa : Isa) {x : Plane F32} {y : Plane F32} (hx0 : x.p0.Le2 a) (hy0 : y.p0.Le2 b)
    (h : a + b + 2 ≤ 127) :
    (x.dotPlane isa y).isFinite = true := by
  le2_get hx0
  le2_get hy0
  cases isa
  all_goals
    le2_lane

theorem C69_line_dot_line {x : Line F32} {y : Line F32} (hx1 : x.p1.Le2 a) (hx2 : x.p2.Le2 a) (hy1 : y.p1.Le2 b) (hy2 : y.p2.Le2 b)
    (h : a + b + 2 ≤ 127) :
    (x.dotLine y).isFinite = true := by
  le2_get hx1
  le2_get hx2
  le2_get hy1
  le2_get hy2
  le2_lane

theorem C69_point_dot_point {x : Point F32} {y : Point F32} (hx3 : x.p3.Le2 a) (hy3 : y.p3.Le2 b)
    (h : a + b + 2 ≤ 127) :
    (x.dotPoint y).isFinite = true := by
  le2_get hx3
  le2_get hy3
  le2_lane

theorem C69_plane_meet_point (isa : Isa) {x : Plane F32} {y : Point F32} (hx0 : x.p0.Le2 a) (hy3 : y.p3.Le2 b)
    (h : a + b + 3 ≤ 127) :
    (x.meetPoint isa y).q.isFinite = true := by
  le2_get hx0
  le2_get hy3
  cases isa
  all_goals
    le2_lane

theorem C69_point_meet_plane (isa : Isa) {x : Point F32} {y : Plane F32} (hx3 : x.p3.Le2 a) (hy0 : y.p0.Le2 b)
    (h : a + b + 3 ≤ 127) :
    (x.meetPlane isa y).q.isFinite = true := by
  le2_get hx3
  le2_get hy0
  cases isa
  all_goals
    le2_lane

theorem C69_line_meet_line {x : Line F32} {y : Line F32} (hx1 : x.p1.Le2 a) (hx2 : x.p2.Le2 a) (hy1 : y.p1.Le2 b) (hy2 : y.p2.Le2 b)
    (h : a + b + 4 ≤ 127) :
    (x.meetLine y).q.isFinite = true := by
  le2_get hx1
  le2_get hx2
  le2_get hy1
  le2_get hy2
  le2_lane

theorem C69_branch_meet_ideal_line {x : Branch F32} {y : IdealLine F32} (hx1 : x.p1.Le2 a) (hy2 : y.p2.Le2 b)
    (h : a + b + 3 ≤ 127) :
    (x.meetIdealLine y).q.isFinite = true := by
  le2_get hx1
  le2_get hy2
  le2_lane

theorem C69_plane_join_point (isa : Isa) {x : Plane F32} {y : Point F32} (hx0 : x.p0.Le2 a) (hy3 : y.p3.Le2 b)
    (h : a + b + 3 ≤ 127) :
    (x.joinPoint isa y).p.isFinite = true := by
  le2_get hx0
  le2_get hy3
  cases isa
  all_goals
    le2_lane

theorem C69_point_join_plane (isa : Isa) {x : Point F32} {y : Plane F32} (hx3 : x.p3.Le2 a) (hy0 : y.p0.Le2 b)
    (h : a + b + 3 ≤ 127) :
    (x.joinPlane isa y).p.isFinite = true := by
  le2_get hx3
  le2_get hy0
  cases isa
  all_goals
    le2_lane

/-- With the lanes at most one in magnitude the error bound of C54 needs no further hypothesis. -/
theorem C69_f32_motor_point_error (m : Motor F32) (p : Point F32) (h1 : m.p1.Le2 0) (h2 : m.p2.Le2 0)
    (h3 : p.p3.Le2 0) (i : Fin 4) :
    ((m.onPoint p).p3.get i).isFinite = true ∧
    |((((m.onPoint p).p3.get i).val : ℚ) : ℝ) -
      ((m.vals F32.rounded).onPoint (p.vals F32.rounded)).p3.get i| ≤ 1.3e-5 := by
  have hf := C69_motor_on_point h1 h2 h3 (by norm_num) i
  have cv : ∀ {v : V4 F32}, v.Le2 0 → ∀ j, v.mag F32.rounded j ≤ 1 := by
    intro v hv j
    have := (hv j (by norm_num)).2
    have : ((|(v.get j).val| : ℚ) : ℝ) ≤ ((2 ^ 0 : ℚ) : ℝ) := by exact_mod_cast this
    push_cast at this
    rw [pow_zero] at this
    exact this
  exact ⟨hf, C54_f32_motor_point m p (cv h1) (cv h2) (cv h3) i hf⟩

/-- The limit is needed: with lanes `2^64` the product of two rotors overflows. -/
theorem C69_overflows :
    (((Rotor.mk ⟨F32.ofMag false 0x5F800000, 0, 0, 0⟩ : Rotor F32).mulRotor
      (Rotor.mk ⟨F32.ofMag false 0x5F800000, 0, 0, 0⟩)).p1.l0).isFinite = false ∧
    (F32.ofMag false 0x5F800000).val = 2 ^ 64 := by decide +kernel

/-- A case: lanes up to `2^39` may be transformed by motors with lanes up to `2^39`. -/
example {m : Motor F32} {p : Point F32} (h1 : m.p1.Le2 39) (h2 : m.p2.Le2 39) (h3 : p.p3.Le2 39) :
    (m.onPoint p).p3.Finite := C69_motor_on_point h1 h2 h3 (by norm_num)

end Klein
