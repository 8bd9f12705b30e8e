import Verif.Api.Trans
import Verif.Spec.RealLib
import Mathlib.Analysis.SpecialFunctions.Trigonometric.Inverse
import Mathlib.Analysis.SpecialFunctions.Complex.Arg

/-!
# Lanes with a non-finite value

`Fp` is `ℝ` with one extra value `bad`, standing for the infinities and NaN: every operation with a
`bad` operand is `bad`, and so are division by zero, the reciprocal of zero, the reciprocal square
root of a number that is not positive, `sqrt` of a negative number, `acos` and `asin` outside
`[-1, 1]`.  Comparisons with `bad` are false.  (An infinity can become finite again in the hardware
only by dividing by it; the library divides only by quantities whose finiteness is stated here.)
-/

namespace Klein

/-- A real number, or the outcome of an undefined operation. -/
inductive Fp where
  | fin (x : ℝ)
  | bad

namespace Fp

/-- The value is a number. -/
def isFin : Fp → Prop
  | fin _ => True
  | bad => False

@[simp] theorem isFin_fin (x : ℝ) : (fin x).isFin := trivial
@[simp] theorem isFin_bad : ¬ bad.isFin := id

/-- Apply a function to two numbers. -/
def lift2 (f : ℝ → ℝ → ℝ) : Fp → Fp → Fp
  | fin x, fin y => fin (f x y)
  | _, _ => bad

/-- Apply a function to a number. -/
def lift1 (f : ℝ → ℝ) : Fp → Fp
  | fin x => fin (f x)
  | bad => bad

open Classical in
noncomputable def div : Fp → Fp → Fp
  | fin x, fin y => if y = 0 then bad else fin (x / y)
  | _, _ => bad

noncomputable instance : Add Fp := ⟨lift2 (· + ·)⟩
noncomputable instance : Sub Fp := ⟨lift2 (· - ·)⟩
noncomputable instance : Mul Fp := ⟨lift2 (· * ·)⟩
noncomputable instance : Neg Fp := ⟨lift1 (-·)⟩
noncomputable instance : Div Fp := ⟨div⟩
noncomputable instance : Zero Fp := ⟨fin 0⟩
noncomputable instance : One Fp := ⟨fin 1⟩
noncomputable instance : NatCast Fp := ⟨fun n => fin n⟩

theorem add_fin (x y : ℝ) : fin x + fin y = fin (x + y) := rfl
theorem sub_fin (x y : ℝ) : fin x - fin y = fin (x - y) := rfl
theorem mul_fin (x y : ℝ) : fin x * fin y = fin (x * y) := rfl
theorem neg_fin (x : ℝ) : -fin x = fin (-x) := rfl
theorem zero_fin : (0 : Fp) = fin 0 := rfl
theorem one_fin : (1 : Fp) = fin 1 := rfl
theorem two_fin : (2 : Fp) = fin 2 := by show fin ((2 : ℕ) : ℝ) = fin 2; norm_num
theorem three_fin : (3 : Fp) = fin 3 := by show fin ((3 : ℕ) : ℝ) = fin 3; norm_num
theorem div_fin {x y : ℝ} (h : y ≠ 0) : fin x / fin y = fin (x / y) := by
  show div _ _ = _; simp [div, h]
theorem div_zero (x : Fp) : x / fin 0 = bad := by
  show div _ _ = _; cases x <;> simp [div]
theorem half_fin : (1 / 2 : Fp) = fin (1 / 2) := by rw [one_fin, two_fin, div_fin (by norm_num)]

@[simp] theorem bad_mul (x : Fp) : bad * x = bad := rfl
@[simp] theorem mul_bad (x : Fp) : x * bad = bad := by cases x <;> rfl
@[simp] theorem bad_add (x : Fp) : bad + x = bad := rfl
@[simp] theorem add_bad (x : Fp) : x + bad = bad := by cases x <;> rfl
@[simp] theorem bad_sub (x : Fp) : bad - x = bad := rfl
@[simp] theorem sub_bad (x : Fp) : x - bad = bad := by cases x <;> rfl
@[simp] theorem neg_bad : -bad = bad := rfl
@[simp] theorem bad_div (x : Fp) : bad / x = bad := by cases x <;> rfl
@[simp] theorem div_bad (x : Fp) : x / bad = bad := by cases x <;> rfl

end Fp

/-- The reciprocal estimates `hw` return what `hw'` says where the exact function is defined, and no
number elsewhere. -/
structure Hw.Est (hw : Hw Fp) (hw' : Hw ℝ) : Prop where
  rcp_zero : hw.rcp (.fin 0) = .bad
  rcp_bad : hw.rcp .bad = .bad
  rcp : ∀ a : ℝ, a ≠ 0 → hw.rcp (.fin a) = .fin (hw'.rcp a)
  rsqrt_npos : ∀ a : ℝ, a ≤ 0 → hw.rsqrt (.fin a) = .bad
  rsqrt_bad : hw.rsqrt .bad = .bad
  rsqrt : ∀ a : ℝ, 0 < a → hw.rsqrt (.fin a) = .fin (hw'.rsqrt a)

open Classical in
/-- Estimates that are `bad` exactly where the function is undefined. -/
noncomputable def Hw.partial (hw' : Hw ℝ) : Hw Fp where
  rcp x := match x with | .fin a => if a = 0 then .bad else .fin (hw'.rcp a) | .bad => .bad
  rsqrt x := match x with | .fin a => if 0 < a then .fin (hw'.rsqrt a) else .bad | .bad => .bad

theorem Hw.partial_est (hw' : Hw ℝ) : (Hw.partial hw').Est hw' where
  rcp_zero := by simp [Hw.partial]
  rcp_bad := rfl
  rcp a ha := by simp [Hw.partial, ha]
  rsqrt_npos a ha := by simp [Hw.partial, not_lt.2 ha]
  rsqrt_bad := rfl
  rsqrt a ha := by simp [Hw.partial, ha]

open Classical in
/-- The C library with its domain errors. -/
noncomputable def Libm.partial : Libm Fp where
  sqrt x := match x with | .fin a => if 0 ≤ a then .fin √a else .bad | .bad => .bad
  sin := Fp.lift1 Real.sin
  cos := Fp.lift1 Real.cos
  acos x := match x with | .fin a => if |a| ≤ 1 then .fin (Real.arccos a) else .bad | .bad => .bad
  asin x := match x with | .fin a => if |a| ≤ 1 then .fin (Real.arcsin a) else .bad | .bad => .bad
  atan2 := Fp.lift2 fun y x => Complex.arg ⟨x, y⟩
  copysign := Fp.lift2 fun x y => if y < 0 then -|x| else |x|
  abs := Fp.lift1 fun x => |x|
  feq x y := match x, y with | .fin a, .fin b => decide (a = b) | _, _ => false
  flt x y := match x, y with | .fin a, .fin b => decide (a < b) | _, _ => false
  signbit x := match x with | .fin a => decide (a < 0) | .bad => false
  pi_2 := .fin (Real.pi / 2)
  eps6 := .fin (1 / 1000000)

/-! ### entities of numbers, and finite entities -/

/-- Four numbers as lanes. -/
def V4.fp (v : V4 ℝ) : V4 Fp := ⟨.fin v.l0, .fin v.l1, .fin v.l2, .fin v.l3⟩
/-- All four lanes are numbers. -/
def V4.isFin (v : V4 Fp) : Prop := v.l0.isFin ∧ v.l1.isFin ∧ v.l2.isFin ∧ v.l3.isFin

def Plane.fp (a : Plane ℝ) : Plane Fp := ⟨a.p0.fp⟩
def Point.fp (a : Point ℝ) : Point Fp := ⟨a.p3.fp⟩
def Direction.fp (a : Direction ℝ) : Direction Fp := ⟨a.p3.fp⟩
def Branch.fp (a : Branch ℝ) : Branch Fp := ⟨a.p1.fp⟩
def IdealLine.fp (a : IdealLine ℝ) : IdealLine Fp := ⟨a.p2.fp⟩
def Line.fp (a : Line ℝ) : Line Fp := ⟨a.p1.fp, a.p2.fp⟩
def Rotor.fp (a : Rotor ℝ) : Rotor Fp := ⟨a.p1.fp⟩
def Translator.fp (a : Translator ℝ) : Translator Fp := ⟨a.p2.fp⟩
def Motor.fp (a : Motor ℝ) : Motor Fp := ⟨a.p1.fp, a.p2.fp⟩

def Plane.isFin (a : Plane Fp) : Prop := a.p0.isFin
def Point.isFin (a : Point Fp) : Prop := a.p3.isFin
def Direction.isFin (a : Direction Fp) : Prop := a.p3.isFin
def Branch.isFin (a : Branch Fp) : Prop := a.p1.isFin
def IdealLine.isFin (a : IdealLine Fp) : Prop := a.p2.isFin
def Line.isFin (a : Line Fp) : Prop := a.p1.isFin ∧ a.p2.isFin
def Rotor.isFin (a : Rotor Fp) : Prop := a.p1.isFin
def Translator.isFin (a : Translator Fp) : Prop := a.p2.isFin
def Motor.isFin (a : Motor Fp) : Prop := a.p1.isFin ∧ a.p2.isFin

end Klein
