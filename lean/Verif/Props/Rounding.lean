import Verif.Float.Rounded
import Verif.Api.Embed
import Mathlib.Data.Fin.VecNotation
import Mathlib.Algebra.BigOperators.Fin
import Mathlib.Tactic.FinCases

/-!
# C54: the error of rounded arithmetic

`R : Rounded F` is any lane arithmetic with unit roundoff `R.u` (binary32: `F32.rounded`; reals with
any rounding function: `Rnd.rounded`).  `x.vals R` are the numbers the lanes of `x` stand for, and the
operation applied to them is the exact result (the algebraic product, by C01 - C18).  Only results that
are finite are spoken about; nothing is assumed about the inputs, underflow included: `R.tiny` is the
smallest normal number.
-/

set_option linter.unusedSimpArgs false
set_option linter.unusedTactic false
set_option linter.unreachableTactic false

namespace Klein

section
variable {F : Type} [Add F] [Sub F] [Mul F] [Neg F] [Zero F] [One F] [NatCast F] (R : Rounded F)

/-- The numbers four lanes stand for. -/
def V4.vals (v : V4 F) : V4 ℝ := ⟨R.val v.l0, R.val v.l1, R.val v.l2, R.val v.l3⟩
def Plane.vals (a : Plane F) : Plane ℝ := ⟨a.p0.vals R⟩
def Point.vals (a : Point F) : Point ℝ := ⟨a.p3.vals R⟩
def Line.vals (a : Line F) : Line ℝ := ⟨a.p1.vals R, a.p2.vals R⟩
def Rotor.vals (a : Rotor F) : Rotor ℝ := ⟨a.p1.vals R⟩
def Translator.vals (a : Translator F) : Translator ℝ := ⟨a.p2.vals R⟩
def Motor.vals (a : Motor F) : Motor ℝ := ⟨a.p1.vals R, a.p2.vals R⟩

/-- The magnitude of lane `i`. -/
def V4.mag (v : V4 F) (i : Fin 4) : ℝ := |R.val (v.get i)|

variable {R} in
theorem Near.input_le {x : F} {A : ℝ} (h : |R.val x| ≤ A) : Near R 0 x (R.val x) A :=
  (Near.input x).le rfl h le_rfl

/-- Bound one lane of a kernel by structural induction on the expression it computes. -/
macro "near" : tactic => `(tactic| repeat' (first
  | exact Near.zero | exact Near.one | exact Near.two
  | apply Near.add | apply Near.sub | apply Near.mul | apply Near.neg
  | exact Near.input_le (by assumption) | exact Near.input _))

macro "near_lane" hf:ident : tactic => `(tactic| (
  refine Near.err ?_ $hf
  apply Near.le
  · simp only [kln, sse, V4.get, cond_true, cond_false]
    near
  · simp only [Plane.vals, Point.vals, Line.vals, Rotor.vals, Translator.vals, Motor.vals, V4.vals, kln,
      sse, V4.get, cond_true, cond_false]))

variable {R}

theorem V4.mag_nonneg (v : V4 F) (i : Fin 4) : 0 ≤ v.mag R i := abs_nonneg _

/-! ### inner products and norms -/

/-- `plane | plane`. -/
theorem C54_plane_dot (isa : Isa) (a b : Plane F) (hf : R.fin (a.dotPlane isa b)) :
    |R.val (a.dotPlane isa b) - (a.vals R).dotPlane isa (b.vals R)| ≤
      R.γ 4 * (a.p0.mag R 1 * b.p0.mag R 1 + a.p0.mag R 2 * b.p0.mag R 2 + a.p0.mag R 3 * b.p0.mag R 3
        + 3 * R.tiny) := by
  cases isa
  all_goals
    near_lane hf
    · simp [V4.get, V4.mag]; linarith
    · decide

/-- `line | line`. -/
theorem C54_line_dot (a b : Line F) (hf : R.fin (a.dotLine b)) :
    |R.val (a.dotLine b) - (a.vals R).dotLine (b.vals R)| ≤
      R.γ 4 * (a.p1.mag R 1 * b.p1.mag R 1 + a.p1.mag R 2 * b.p1.mag R 2 + a.p1.mag R 3 * b.p1.mag R 3
        + 3 * R.tiny) := by
  near_lane hf
  · simp [V4.get, V4.mag]; linarith
  · decide

/-! ### products of versors: lane `i` is a sum of products of lanes `j` and `i xor j` -/

/-- `rotor * rotor`. -/
theorem C54_rotor_mul (a b : Rotor F) (i : Fin 4) (hf : R.fin ((a.mulRotor b).p1.get i)) :
    |R.val ((a.mulRotor b).p1.get i) - ((a.vals R).mulRotor (b.vals R)).p1.get i| ≤
      R.γ 4 * (∑ j : Fin 4, a.p1.mag R j * b.p1.mag R (i ^^^ j) + 4 * R.tiny) := by
  rw [Fin.sum_univ_four]
  fin_cases i
  all_goals
    near_lane hf
    · simp [V4.get, V4.mag]; linarith
    · decide

/-- `motor * motor`, the rotor part. -/
theorem C54_motor_mul_p1 (a b : Motor F) (i : Fin 4) (hf : R.fin ((a.mulMotor b).p1.get i)) :
    |R.val ((a.mulMotor b).p1.get i) - ((a.vals R).mulMotor (b.vals R)).p1.get i| ≤
      R.γ 4 * (∑ j : Fin 4, a.p1.mag R j * b.p1.mag R (i ^^^ j) + 4 * R.tiny) := by
  rw [Fin.sum_univ_four]
  fin_cases i
  all_goals
    near_lane hf
    · simp [V4.get, V4.mag]; linarith
    · decide

/-- `motor * motor`, the translation part. -/
theorem C54_motor_mul_p2 (a b : Motor F) (i : Fin 4) (hf : R.fin ((a.mulMotor b).p2.get i)) :
    |R.val ((a.mulMotor b).p2.get i) - ((a.vals R).mulMotor (b.vals R)).p2.get i| ≤
      R.γ 6 * (∑ j : Fin 4, (a.p1.mag R j * b.p2.mag R (i ^^^ j) + a.p2.mag R j * b.p1.mag R (i ^^^ j))
        + 8 * R.tiny) := by
  rw [Fin.sum_univ_four]
  fin_cases i
  all_goals
    near_lane hf
    · simp [V4.get, V4.mag]; linarith
    · decide

/-- `rotor * translator` and `translator * rotor`, the translation part (the rotor part is copied). -/
theorem C54_rotor_mul_translator (a : Rotor F) (b : Translator F) (i : Fin 4)
    (hf : R.fin ((a.mulTranslator b).p2.get i)) :
    |R.val ((a.mulTranslator b).p2.get i) - ((a.vals R).mulTranslator (b.vals R)).p2.get i| ≤
      R.γ 4 * (∑ j : Fin 4, a.p1.mag R j * b.p2.mag R (i ^^^ j) + 3 * R.tiny) := by
  rw [Fin.sum_univ_four]
  have := fun j k => mul_nonneg (a.p1.mag_nonneg (R := R) j) (b.p2.mag_nonneg (R := R) k)
  have h0 := this 0 0
  have h1 := this 1 0
  have h2 := this 2 0
  have h3 := this 3 0
  simp only [V4.get, V4.mag] at h0 h1 h2 h3
  fin_cases i
  all_goals
    near_lane hf
    · simp [V4.get, V4.mag]; linarith
    · decide

theorem C54_translator_mul_rotor (a : Rotor F) (b : Translator F) (i : Fin 4)
    (hf : R.fin ((b.mulRotor a).p2.get i)) :
    |R.val ((b.mulRotor a).p2.get i) - ((b.vals R).mulRotor (a.vals R)).p2.get i| ≤
      R.γ 4 * (∑ j : Fin 4, a.p1.mag R j * b.p2.mag R (i ^^^ j) + 3 * R.tiny) := by
  rw [Fin.sum_univ_four]
  have := fun j k => mul_nonneg (a.p1.mag_nonneg (R := R) j) (b.p2.mag_nonneg (R := R) k)
  have h0 := this 0 0
  have h1 := this 1 0
  have h2 := this 2 0
  have h3 := this 3 0
  simp only [V4.get, V4.mag] at h0 h1 h2 h3
  fin_cases i
  all_goals
    near_lane hf
    · simp [V4.get, V4.mag]; linarith
    · decide

/-- `plane * plane`: the rotor part, ... -/
theorem C54_plane_mul_p1 (a b : Plane F) (i : Fin 4) (hf : R.fin ((a.mulPlane b).p1.get i)) :
    |R.val ((a.mulPlane b).p1.get i) - ((a.vals R).mulPlane (b.vals R)).p1.get i| ≤
      R.γ 4 * (![a.p0.mag R 1 * b.p0.mag R 1 + a.p0.mag R 2 * b.p0.mag R 2 + a.p0.mag R 3 * b.p0.mag R 3,
        a.p0.mag R 2 * b.p0.mag R 3 + a.p0.mag R 3 * b.p0.mag R 2,
        a.p0.mag R 3 * b.p0.mag R 1 + a.p0.mag R 1 * b.p0.mag R 3,
        a.p0.mag R 1 * b.p0.mag R 2 + a.p0.mag R 2 * b.p0.mag R 1] i + 3 * R.tiny) := by
  have := R.tiny_nonneg
  fin_cases i
  all_goals
    near_lane hf
    · simp [V4.get, V4.mag]; linarith
    · decide

/-- ... and the translation part. -/
theorem C54_plane_mul_p2 (a b : Plane F) (i : Fin 4) (hf : R.fin ((a.mulPlane b).p2.get i)) :
    |R.val ((a.mulPlane b).p2.get i) - ((a.vals R).mulPlane (b.vals R)).p2.get i| ≤
      R.γ 3 * (![2 * a.p0.mag R 0 * b.p0.mag R 0, a.p0.mag R 0 * b.p0.mag R 1 + a.p0.mag R 1 * b.p0.mag R 0,
        a.p0.mag R 0 * b.p0.mag R 2 + a.p0.mag R 2 * b.p0.mag R 0,
        a.p0.mag R 0 * b.p0.mag R 3 + a.p0.mag R 3 * b.p0.mag R 0] i + 2 * R.tiny) := by
  have := R.tiny_nonneg
  fin_cases i
  all_goals
    near_lane hf
    · simp [V4.get, V4.mag]; linarith
    · decide

/-! ### meets and joins -/

/-- `plane ^ plane`: the direction, ... -/
theorem C54_meet_p1 (a b : Plane F) (i : Fin 4) (hi : i ≠ 0) (hf : R.fin ((a.meetPlane b).p1.get i)) :
    |R.val ((a.meetPlane b).p1.get i) - ((a.vals R).meetPlane (b.vals R)).p1.get i| ≤
      R.γ 2 * (![0, a.p0.mag R 2 * b.p0.mag R 3 + a.p0.mag R 3 * b.p0.mag R 2,
        a.p0.mag R 3 * b.p0.mag R 1 + a.p0.mag R 1 * b.p0.mag R 3,
        a.p0.mag R 1 * b.p0.mag R 2 + a.p0.mag R 2 * b.p0.mag R 1] i + 2 * R.tiny) := by
  fin_cases i
  · exact absurd rfl hi
  all_goals
    near_lane hf
    · simp [V4.get, V4.mag]; linarith
    · decide

/-- ... and the moment. -/
theorem C54_meet_p2 (a b : Plane F) (i : Fin 4) (hi : i ≠ 0) (hf : R.fin ((a.meetPlane b).p2.get i)) :
    |R.val ((a.meetPlane b).p2.get i) - ((a.vals R).meetPlane (b.vals R)).p2.get i| ≤
      R.γ 2 * (a.p0.mag R 0 * b.p0.mag R i + a.p0.mag R i * b.p0.mag R 0 + 2 * R.tiny) := by
  fin_cases i
  · exact absurd rfl hi
  all_goals
    near_lane hf
    · simp [V4.get, V4.mag]; linarith
    · decide

/-- `point & point`: the moment, ... -/
theorem C54_join_p2 (a b : Point F) (i : Fin 4) (hi : i ≠ 0) (hf : R.fin ((a.joinPoint b).p2.get i)) :
    |R.val ((a.joinPoint b).p2.get i) - ((a.vals R).joinPoint (b.vals R)).p2.get i| ≤
      R.γ 2 * (![0, a.p3.mag R 2 * b.p3.mag R 3 + a.p3.mag R 3 * b.p3.mag R 2,
        a.p3.mag R 3 * b.p3.mag R 1 + a.p3.mag R 1 * b.p3.mag R 3,
        a.p3.mag R 1 * b.p3.mag R 2 + a.p3.mag R 2 * b.p3.mag R 1] i + 2 * R.tiny) := by
  fin_cases i
  · exact absurd rfl hi
  all_goals
    near_lane hf
    · simp [V4.get, V4.mag]; linarith
    · decide

/-- ... and the direction. -/
theorem C54_join_p1 (a b : Point F) (i : Fin 4) (hi : i ≠ 0) (hf : R.fin ((a.joinPoint b).p1.get i)) :
    |R.val ((a.joinPoint b).p1.get i) - ((a.vals R).joinPoint (b.vals R)).p1.get i| ≤
      R.γ 2 * (a.p3.mag R 0 * b.p3.mag R i + a.p3.mag R i * b.p3.mag R 0 + 2 * R.tiny) := by
  fin_cases i
  · exact absurd rfl hi
  all_goals
    near_lane hf
    · simp [V4.get, V4.mag]; linarith
    · decide

/-- `plane ^ line`: the homogeneous coordinate of the point of intersection. -/
theorem C54_meet_line_w (isa : Isa) (a : Plane F) (l : Line F)
    (hf : R.fin ((a.meetLine isa l).p3.get 0)) :
    |R.val ((a.meetLine isa l).p3.get 0) - ((a.vals R).meetLine isa (l.vals R)).p3.get 0| ≤
      R.γ 6 * (2 * a.p0.mag R 0 * l.p2.mag R 0 + a.p0.mag R 1 * l.p1.mag R 1
        + a.p0.mag R 2 * l.p1.mag R 2 + a.p0.mag R 3 * l.p1.mag R 3 + 8 * R.tiny) := by
  have := R.tiny_nonneg
  cases isa
  all_goals
    near_lane hf
    · simp [V4.get, V4.mag]; linarith
    · decide

/-- `point & point & plane`-style incidence: the join of a point and a line is a plane whose lanes
are three- or two-term sums of products. -/
theorem C54_point_join_line (isa : Isa) (a : Point F) (l : Line F) {A B : ℝ}
    (hA : ∀ j, a.p3.mag R j ≤ A) (hB : ∀ j, l.p1.mag R j ≤ B) (hC : ∀ j, l.p2.mag R j ≤ B) (i : Fin 4)
    (hf : R.fin ((a.joinLine isa l).p0.get i)) :
    |R.val ((a.joinLine isa l).p0.get i) - ((a.vals R).joinLine isa (l.vals R)).p0.get i| ≤
      R.γ 6 * (6 * A * B + 8 * R.tiny) := by
  have a0 := hA 0; have a1 := hA 1; have a2 := hA 2; have a3 := hA 3
  have b0 := hB 0; have b1 := hB 1; have b2 := hB 2; have b3 := hB 3
  have c0 := hC 0; have c1 := hC 1; have c2 := hC 2; have c3 := hC 3
  simp only [V4.mag, V4.get] at a0 a1 a2 a3 b0 b1 b2 b3 c0 c1 c2 c3
  have pA : 0 ≤ A := (abs_nonneg _).trans a0
  have pB : 0 ≤ B := (abs_nonneg _).trans b0
  have r0 : 0 ≤ A * B := by positivity
  have q0 := R.tiny_nonneg
  cases isa <;> fin_cases i
  all_goals
    near_lane hf
    · linarith
    · decide

/-! ### actions, for lanes bounded by `A`, `T` (versor) and `B`, `C` (operand) -/

/-- `motor(point)`. -/
theorem C54_motor_point (m : Motor F) (p : Point F) {A T B : ℝ} (hA : ∀ j, m.p1.mag R j ≤ A) (hT : ∀ j, m.p2.mag R j ≤ T) (hB : ∀ j, p.p3.mag R j ≤ B) (i : Fin 4)
    (hf : R.fin ((m.onPoint p).p3.get i)) :
    |R.val ((m.onPoint p).p3.get i) - ((m.vals R).onPoint (p.vals R)).p3.get i| ≤
      R.γ 9 * (12 * A ^ 2 * B + 8 * A * T * B + R.tiny * (23 * B + 4)) := by
  have a0 := hA 0; have a1 := hA 1; have a2 := hA 2; have a3 := hA 3
  have t0 := hT 0; have t1 := hT 1; have t2 := hT 2; have t3 := hT 3
  have b0 := hB 0; have b1 := hB 1; have b2 := hB 2; have b3 := hB 3
  simp only [V4.mag, V4.get] at a0 a1 a2 a3 t0 t1 t2 t3 b0 b1 b2 b3
  have pA : 0 ≤ A := (abs_nonneg _).trans a0
  have pT : 0 ≤ T := (abs_nonneg _).trans t0
  have pB : 0 ≤ B := (abs_nonneg _).trans b0
  have q0 := R.tiny_nonneg
  have r0 : 0 ≤ A ^ 2 * B := by positivity
  have r1 : 0 ≤ A * T * B := by positivity
  have r2 : 0 ≤ R.tiny * B := by positivity
  fin_cases i
  all_goals
    near_lane hf
    · linarith
    · decide

/-- `rotor(point)`. -/
theorem C54_rotor_point (isa : Isa) (m : Rotor F) (p : Point F) {A B : ℝ} (hA : ∀ j, m.p1.mag R j ≤ A) (hB : ∀ j, p.p3.mag R j ≤ B) (i : Fin 4)
    (hf : R.fin ((m.onPoint isa p).p3.get i)) :
    |R.val ((m.onPoint isa p).p3.get i) - ((m.vals R).onPoint isa (p.vals R)).p3.get i| ≤
      R.γ 8 * (12 * A ^ 2 * B + R.tiny * (14 * B + 4)) := by
  have a0 := hA 0; have a1 := hA 1; have a2 := hA 2; have a3 := hA 3
  have b0 := hB 0; have b1 := hB 1; have b2 := hB 2; have b3 := hB 3
  simp only [V4.mag, V4.get] at a0 a1 a2 a3 b0 b1 b2 b3
  have pA : 0 ≤ A := (abs_nonneg _).trans a0
  have pB : 0 ≤ B := (abs_nonneg _).trans b0
  have q0 := R.tiny_nonneg
  have r0 : 0 ≤ A ^ 2 * B := by positivity
  have r1 : 0 ≤ R.tiny * B := by positivity
  cases isa <;> fin_cases i
  all_goals
    near_lane hf
    · linarith
    · decide

/-- `motor(plane)`. -/
theorem C54_motor_plane (isa : Isa) (m : Motor F) (p : Plane F) {A T B : ℝ} (hA : ∀ j, m.p1.mag R j ≤ A) (hT : ∀ j, m.p2.mag R j ≤ T) (hB : ∀ j, p.p0.mag R j ≤ B) (i : Fin 4)
    (hf : R.fin ((m.onPlane isa p).p0.get i)) :
    |R.val ((m.onPlane isa p).p0.get i) - ((m.vals R).onPlane isa (p.vals R)).p0.get i| ≤
      R.γ 14 * (12 * A ^ 2 * B + 24 * A * T * B + R.tiny * (40 * B + 8)) := by
  have a0 := hA 0; have a1 := hA 1; have a2 := hA 2; have a3 := hA 3
  have t0 := hT 0; have t1 := hT 1; have t2 := hT 2; have t3 := hT 3
  have b0 := hB 0; have b1 := hB 1; have b2 := hB 2; have b3 := hB 3
  simp only [V4.mag, V4.get] at a0 a1 a2 a3 t0 t1 t2 t3 b0 b1 b2 b3
  have pA : 0 ≤ A := (abs_nonneg _).trans a0
  have pT : 0 ≤ T := (abs_nonneg _).trans t0
  have pB : 0 ≤ B := (abs_nonneg _).trans b0
  have q0 := R.tiny_nonneg
  have r0 : 0 ≤ A ^ 2 * B := by positivity
  have r1 : 0 ≤ A * T * B := by positivity
  have r2 : 0 ≤ R.tiny * B := by positivity
  cases isa <;> fin_cases i
  all_goals
    near_lane hf
    · linarith
    · decide

/-- `motor(line)`: the direction, ... -/
theorem C54_motor_line_p1 (m : Motor F) (l : Line F) {A B : ℝ} (hA : ∀ j, m.p1.mag R j ≤ A) (hB : ∀ j, l.p1.mag R j ≤ B) (i : Fin 4)
    (hf : R.fin ((m.onLine l).p1.get i)) :
    |R.val ((m.onLine l).p1.get i) - ((m.vals R).onLine (l.vals R)).p1.get i| ≤
      R.γ 9 * (12 * A ^ 2 * B + R.tiny * (14 * B + 4)) := by
  have a0 := hA 0; have a1 := hA 1; have a2 := hA 2; have a3 := hA 3
  have b0 := hB 0; have b1 := hB 1; have b2 := hB 2; have b3 := hB 3
  simp only [V4.mag, V4.get] at a0 a1 a2 a3 b0 b1 b2 b3
  have pA : 0 ≤ A := (abs_nonneg _).trans a0
  have pB : 0 ≤ B := (abs_nonneg _).trans b0
  have q0 := R.tiny_nonneg
  have r0 : 0 ≤ A ^ 2 * B := by positivity
  have r1 : 0 ≤ R.tiny * B := by positivity
  fin_cases i
  all_goals
    near_lane hf
    · linarith
    · decide

/-- ... and the moment. -/
theorem C54_motor_line_p2 (m : Motor F) (l : Line F) {A T B C : ℝ} (hA : ∀ j, m.p1.mag R j ≤ A) (hT : ∀ j, m.p2.mag R j ≤ T) (hB : ∀ j, l.p1.mag R j ≤ B) (hC : ∀ j, l.p2.mag R j ≤ C) (i : Fin 4)
    (hf : R.fin ((m.onLine l).p2.get i)) :
    |R.val ((m.onLine l).p2.get i) - ((m.vals R).onLine (l.vals R)).p2.get i| ≤
      R.γ 14 * (12 * A ^ 2 * C + 24 * A * T * B + R.tiny * (40 * B + 14 * C + 8)) := by
  have a0 := hA 0; have a1 := hA 1; have a2 := hA 2; have a3 := hA 3
  have t0 := hT 0; have t1 := hT 1; have t2 := hT 2; have t3 := hT 3
  have b0 := hB 0; have b1 := hB 1; have b2 := hB 2; have b3 := hB 3
  have c0 := hC 0; have c1 := hC 1; have c2 := hC 2; have c3 := hC 3
  simp only [V4.mag, V4.get] at a0 a1 a2 a3 t0 t1 t2 t3 b0 b1 b2 b3 c0 c1 c2 c3
  have pA : 0 ≤ A := (abs_nonneg _).trans a0
  have pT : 0 ≤ T := (abs_nonneg _).trans t0
  have pB : 0 ≤ B := (abs_nonneg _).trans b0
  have pC : 0 ≤ C := (abs_nonneg _).trans c0
  have q0 := R.tiny_nonneg
  have r0 : 0 ≤ A ^ 2 * C := by positivity
  have r1 : 0 ≤ A * T * B := by positivity
  have r2 : 0 ≤ R.tiny * B := by positivity
  have r3 : 0 ≤ R.tiny * C := by positivity
  fin_cases i
  all_goals
    near_lane hf
    · linarith
    · decide

end

/-! ### binary32 -/

/-- In binary32 `γ k` is below `(k + 1) * 2^-24` (so nine roundings cost less than `6e-7`). -/
theorem C54_f32_gamma {k : ℕ} (h : k ≤ 4000) : F32.rounded.γ k ≤ (k + 1) / 2 ^ 24 := by
  have hk : (k : ℝ) ≤ 4000 := by exact_mod_cast h
  have hu : F32.rounded.u = 1 / 2 ^ 24 := by show (2⁻¹ : ℝ) ^ 24 = _; norm_num
  have h0 : (0 : ℝ) ≤ k := Nat.cast_nonneg k
  have := Rounded.γ_le (R := F32.rounded) (k := k) (by rw [hu]; norm_num; linarith)
  refine this.trans ?_
  rw [hu, div_le_div_iff₀ (by norm_num; linarith) (by norm_num)]
  norm_num
  nlinarith

/-- What C54 says of the bits a point is moved to: with versor and point lanes at most one in
magnitude, every finite lane is within `1.3e-5` of exact arithmetic. -/
theorem C54_f32_motor_point (m : Motor F32) (p : Point F32)
    (h1 : ∀ j, m.p1.mag F32.rounded j ≤ 1) (h2 : ∀ j, m.p2.mag F32.rounded j ≤ 1)
    (hp : ∀ j, p.p3.mag F32.rounded j ≤ 1) (i : Fin 4) (hf : ((m.onPoint p).p3.get i).isFinite = true) :
    |((((m.onPoint p).p3.get i).val : ℚ) : ℝ) -
      ((m.vals F32.rounded).onPoint (p.vals F32.rounded)).p3.get i| ≤ 1.3e-5 := by
  refine (C54_motor_point (R := F32.rounded) m p h1 h2 hp i hf).trans ?_
  have hg := C54_f32_gamma (k := 9) (by norm_num)
  have ht : F32.rounded.tiny ≤ 1 / 2 ^ 100 := by show (2⁻¹ : ℝ) ^ 126 ≤ _; norm_num
  have hb : 12 * (1 : ℝ) ^ 2 * 1 + 8 * 1 * 1 * 1 + F32.rounded.tiny * (23 * 1 + 4) ≤ 21 := by
    norm_num at ht ⊢; linarith
  have h0 := F32.rounded.tiny_nonneg
  have hg0 := F32.rounded.γ_nonneg 9
  generalize F32.rounded.γ 9 = g at *
  generalize F32.rounded.tiny = t at *
  have : g ≤ 10 / 2 ^ 24 := hg.trans (by norm_num)
  refine (mul_le_mul this hb (by positivity) (by norm_num)).trans ?_
  norm_num

/-- Rounding does happen: `(2^24 + 1) - 2^24`, the third lane of `plane | plane` swallowed. -/
example : (Plane.dotPlane .sse41 ⟨⟨0, ((16777216 : ℕ) : F32), 1, 0⟩⟩ ⟨⟨0, 1, 1, 0⟩⟩ : F32).val = 16777216 ∧
    (Plane.dotPlane .sse41 ⟨⟨0, 16777216, 1, 0⟩⟩ ⟨⟨0, 1, 1, 0⟩⟩ : ℚ) = 16777217 := by
  constructor <;> decide +kernel

/-- Finiteness of the result has to be assumed: a plane with finite lanes and an infinite squared norm. -/
theorem C54_overflow :
    let a : Plane F32 := ⟨⟨0, ((100000000000000000000 : ℕ) : F32), 0, 0⟩⟩
    (∀ i, (a.p0.get i).isFinite = true) ∧ (a.dotPlane .sse41 a).isFinite = false := by
  decide +kernel

end Klein
