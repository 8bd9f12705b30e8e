import Verif.Float.Order
import Mathlib.Data.Int.Log

/-!
# public/klein/util.hpp: constants

The literals are of type `long double`, whose precision depends on the platform: 53 bits (as `double`),
64 bits (x87) or 113 bits.  The literal is rounded to that precision, and then to `float`.
-/

namespace Klein.Util

/-- A positive literal of type `long double` with `p` bits of precision. -/
def longDouble (p : ℤ) (q : ℚ) : ℚ :=
  F32.rhe (q * 2 ^ (p - 1 - Int.log 2 q)) / 2 ^ (p - 1 - Int.log 2 q)

/-- `constexpr float` initialised with a `long double` literal. -/
def constant (p : ℤ) (q : ℚ) : F32 := F32.round false (longDouble p q)

/-- util.hpp:15 -/
def piLit : ℚ := 3.141592653589793238462643383279502884
/-- util.hpp:20 -/
def pi2Lit : ℚ := 1.570796326794896619231321691639751442
/-- util.hpp:25 -/
def pi4Lit : ℚ := 0.785398163397448309615660845819875721
/-- util.hpp:31 -/
def tauLit : ℚ := 6.28318530717958647692528676655900577
/-- util.hpp:36 -/
def eLit : ℚ := 2.718281828459045235360287471352662498
/-- util.hpp:41 -/
def sqrt2Lit : ℚ := 1.414213562373095048801688724209698079
/-- util.hpp:47 -/
def sqrt22Lit : ℚ := 0.707106781186547524400844362104849039

/-- The precisions of `long double`. -/
def precisions : List ℤ := [53, 64, 113]

end Klein.Util
