import Verif.Api.Trans
import Verif.Spec.Estimate
import Mathlib.Analysis.SpecialFunctions.Trigonometric.Basic
import Mathlib.Analysis.SpecialFunctions.Trigonometric.Inverse
import Mathlib.Analysis.SpecialFunctions.Complex.Arg

/-!
# The scalar library over the reals

`Libm.real` is the exact real meaning of the `<cmath>` functions used by the library.  `atan2 y x`
is the argument of `x + i y` (and 0 at the origin, the value IEEE prescribes for `atan2(+0, +0)`).

`Hw.Exact` says that the two estimate instructions return the exact value wherever that value
exists; nothing is said about the operand 0 and about square roots of negative numbers.
-/

namespace Klein

open Classical in
/-- The functions of `<cmath>` in exact real arithmetic. -/
noncomputable def Libm.real : Libm ℝ where
  sqrt := Real.sqrt
  sin := Real.sin
  cos := Real.cos
  acos := Real.arccos
  asin := Real.arcsin
  atan2 y x := Complex.arg ⟨x, y⟩
  copysign m s := if s < 0 then -|m| else |m|
  abs := fun x => |x|
  feq a b := decide (a = b)
  flt a b := decide (a < b)
  signbit a := decide (a < 0)
  pi_2 := Real.pi / 2
  eps6 := 1 / 1000000

/-- Exact estimates wherever the exact value exists. -/
structure Hw.Exact (hw : Hw ℝ) : Prop where
  rcp : ∀ a, a ≠ 0 → hw.rcp a = a⁻¹
  rsqrt : ∀ a, 0 < a → hw.rsqrt a = (Real.sqrt a)⁻¹

theorem Hw.ideal_exact : Hw.ideal.Exact := ⟨fun _ _ => rfl, fun _ _ => rfl⟩

/-- An exact estimate whose values at 0 and at negative numbers are arbitrary nonsense: what is
proved for all exact estimates does not depend on them. -/
noncomputable def Hw.odd : Hw ℝ :=
  ⟨fun a => if a = 0 then 17 else a⁻¹, fun a => if 0 < a then (Real.sqrt a)⁻¹ else 23⟩

theorem Hw.odd_exact : Hw.odd.Exact where
  rcp a h := by simp [Hw.odd, h]
  rsqrt a h := by simp [Hw.odd, h]

theorem Hw.Exact.rcpAt {hw : Hw ℝ} (h : hw.Exact) {a : ℝ} (ha : a ≠ 0) : hw.RcpAt a := by
  rw [Hw.RcpAt, h.rcp a ha, mul_inv_cancel₀ ha]

theorem Hw.Exact.rsqrtAt {hw : Hw ℝ} (h : hw.Exact) {a : ℝ} (ha : 0 < a) : hw.RsqrtAt a := by
  have := Hw.ideal_rsqrtAt ha
  rw [Hw.RsqrtAt, h.rsqrt a ha]
  exact this

end Klein
