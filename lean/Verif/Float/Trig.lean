import Verif.Float.Sqrt
import Verif.Kernels.ExpLog

/-!
# A reference implementation of the `<cmath>` functions in binary32

Used to run the repository's tests that need trigonometric functions.  The functions are evaluated in
rational arithmetic and rounded once; `Verif/Props/TrigTests.lean` bounds their error.  Arguments
outside the range needed give a NaN.
-/

namespace Klein.F32

/-- `Σ_{j ≤ n} (-y)^j (2k)! / (2k+2j)!`. -/
def cosH (y : ℚ) : ℕ → ℕ → ℚ
  | 0, _ => 1
  | n + 1, k => 1 - y / ((2 * k + 1) * (2 * k + 2)) * cosH y n (k + 1)

/-- `Σ_{j ≤ n} (-y)^j (2k+1)! / (2k+2j+1)!`. -/
def sinH (y : ℚ) : ℕ → ℕ → ℚ
  | 0, _ => 1
  | n + 1, k => 1 - y / ((2 * k + 2) * (2 * k + 3)) * sinH y n (k + 1)

/-- Fourteen terms of the cosine series. -/
def cosQ (x : ℚ) : ℚ := cosH (x * x) 13 0

/-- Fourteen terms of the sine series. -/
def sinQ (x : ℚ) : ℚ := x * sinH (x * x) 13 0

/-- Rounds a rational argument to 60 binary places. -/
def trunc (x : ℚ) : ℚ := ⌊x * 2 ^ 60⌋ / 2 ^ 60

/-- Cosine for arguments of magnitude at most 4. -/
def cosR (x : F32) : F32 := if x.isFinite && decide (|x.val| ≤ 4) then round false (cosQ x.val) else defaultNaN

/-- Sine for arguments of magnitude at most 4; the sine of a zero is that zero. -/
def sinR (x : F32) : F32 := if x.isFinite && decide (|x.val| ≤ 4) then round x.sign (sinQ x.val) else defaultNaN

/-- A rational below `π`. -/
def piLow : ℚ := 3.14159265358979323846

/-- Newton's iteration for the angle of `(x, y)`: the tangent of the difference is added. -/
def angleStep (y x t : ℚ) : ℚ :=
  let c := cosQ t
  let s := sinQ t
  trunc (t + (y * c - x * s) / (x * c + y * s))

/-- A first guess at the angle of `(x, y)`. -/
def angleGuess (y x : ℚ) : ℚ :=
  if |y| ≤ |x| then
    if 0 ≤ x then y / x else if 0 ≤ y then piLow + y / x else y / x - piLow
  else if 0 ≤ y then piLow / 2 - x / y else -piLow / 2 - x / y

/-- The angle of `(x, y)`, `y ≠ 0`, with a check of the result. -/
def angle (y x : ℚ) : Option ℚ :=
  let t := angleStep y x (angleStep y x (angleStep y x (trunc (angleGuess y x))))
  let c := cosQ t
  let s := sinQ t
  if |t| ≤ piLow - 1 / 2 ^ 20 ∧ 0 < x * c + y * s ∧ |y * c - x * s| ≤ 1 / 2 ^ 38 * (x * c + y * s)
  then some t else none

/-- `atan2`, away from the negative half axis. -/
def atan2R (y x : F32) : F32 :=
  if y.isFinite && x.isFinite then
    match angle y.val x.val with
    | some t => round y.sign t
    | none => defaultNaN
  else defaultNaN

/-- Newton's iteration for the arc cosine. -/
def acosStep (x t : ℚ) : ℚ := trunc (t + (cosQ t - x) / sinQ t)

/-- The arc cosine of `x`, away from `1` and `-1`, with a check of the result. -/
def acosQ (x : ℚ) : Option ℚ :=
  let t := acosStep x (acosStep x (acosStep x (acosStep x (acosStep x (piLow / 2)))))
  let d : ℚ := 1 / 2 ^ 34
  if 0 < t - d ∧ t + d < piLow ∧ x + 1 / 2 ^ 40 < cosQ (t - d) ∧ cosQ (t + d) < x - 1 / 2 ^ 40
  then some t else none

/-- `acos`, away from `1` and `-1`. -/
def acosR (x : F32) : F32 :=
  if x.isFinite then
    match acosQ x.val with
    | some t => round false t
    | none => defaultNaN
  else defaultNaN

/-- Newton's iteration for the arc sine. -/
def asinStep (x t : ℚ) : ℚ := trunc (t - (sinQ t - x) / cosQ t)

/-- The arc sine of `x`, away from `1` and `-1`, with a check of the result. -/
def asinQ (x : ℚ) : Option ℚ :=
  let t := asinStep x (asinStep x (asinStep x (asinStep x (asinStep x (trunc x)))))
  let d : ℚ := 1 / 2 ^ 34
  if -(piLow / 2) < t - d ∧ t + d < piLow / 2 ∧ sinQ (t - d) < x - 1 / 2 ^ 40 ∧ x + 1 / 2 ^ 40 < sinQ (t + d)
  then some t else none

/-- `asin`, away from `1` and `-1`. -/
def asinR (x : F32) : F32 :=
  if x.isFinite then
    match asinQ x.val with
    | some t => round x.sign t
    | none => defaultNaN
  else defaultNaN

/-- The reference library.  A float is below the `double` literal `1e-6` exactly if it is below the
float `eps6`. -/
def lmR : Libm F32 := Libm.f32
  { sqrt := F32.sqrt, sin := sinR, cos := cosR, acos := acosR, asin := asinR, atan2 := atan2R,
    abs := id, copysign := fun x _ => x, feq := fun _ _ => false, flt := fun _ _ => false,
    signbit := fun _ => false, pi_2 := ofMag false 0x3FC90FDB, eps6 := ofMag false 0x358637BE }

end Klein.F32
