import Verif.Kernels.ExpLog
import Mathlib.Data.Rat.Floor
import Mathlib.Data.Nat.Log

/-!
# IEEE 754 binary32 as bit patterns

A `float` is a sign bit and 31 further bits `mag` (8 exponent bits, 23 fraction bits).  Arithmetic
is the one of the SSE instructions with the default `MXCSR` (round to nearest even, no
flush-to-zero, exceptions masked): the exact rational result is rounded once; invalid operations
return the default NaN `0xFFC00000`; a NaN operand is returned quieted, the first one if both are
NaN.

`F32` carries every raw operation the kernels use, so each kernel of `Verif.Kernels` can be
instantiated at it; no algebraic law holds for it beyond what is proved.
-/

namespace Klein

/-- A binary32 bit pattern. -/
@[ext] structure F32 where
  sign : Bool
  mag : Fin (2 ^ 31)
  deriving DecidableEq, Repr

namespace F32

/-- The 31-bit pattern of infinity, `0x7F800000`. -/
def infMag : ℕ := 0x7F800000

/-- The quiet bit `0x00400000`. -/
def quietBit : ℕ := 0x00400000

def isNaN (x : F32) : Bool := infMag < x.mag.val
def isInf (x : F32) : Bool := x.mag.val = infMag
def isFinite (x : F32) : Bool := x.mag.val < infMag
def isZero (x : F32) : Bool := x.mag.val = 0

/-- Build a float from a sign and at most 31 bits. -/
def ofMag (s : Bool) (m : ℕ) : F32 := ⟨s, ⟨m % 2 ^ 31, Nat.mod_lt _ (by decide)⟩⟩

def inf (s : Bool) : F32 := ofMag s infMag
/-- The default NaN of SSE, `0xFFC00000`. -/
def defaultNaN : F32 := ofMag true (infMag + quietBit)
/-- A NaN operand is returned with its quiet bit set. -/
def quiet (x : F32) : F32 := ofMag x.sign (x.mag.val ||| quietBit)

/-- Absolute value of a finite pattern: fraction bits `M`, exponent bits `E`. -/
def magVal (m : ℕ) : ℚ :=
  let E : ℕ := m / 2 ^ 23
  let M : ℕ := m % 2 ^ 23
  if E = 0 then M / 2 ^ 149 else (2 ^ 23 + M) * 2 ^ (E - 1) / 2 ^ 149

/-- The number a finite pattern stands for. -/
def val (x : F32) : ℚ := if x.sign then -magVal x.mag else magVal x.mag

/-- Round half to even. -/
def rhe (q : ℚ) : ℤ :=
  let f := ⌊q⌋
  let d := q - f
  if d < 1 / 2 then f else if 1 / 2 < d then f + 1 else if f % 2 = 0 then f else f + 1

/-- The pattern nearest to a non-negative rational (infinity on overflow): `r = q * 2^149` is in
units of the smallest subnormal, `k` is the exponent of the last place, and the pattern of
`n * 2^k` units is `k * 2^23 + n` for subnormals and normals alike. -/
def roundMag (q : ℚ) : ℕ :=
  let r := q * 2 ^ 149
  let k := Nat.log 2 ⌊r⌋.toNat - 23
  let n := (rhe (r / 2 ^ k)).toNat
  min (k * 2 ^ 23 + n) infMag

/-- Round a rational; an exact zero gets the sign `z`. -/
def round (z : Bool) (q : ℚ) : F32 :=
  if q = 0 then ofMag z 0 else ofMag (decide (q < 0)) (roundMag |q|)

/-- NaN propagation for a binary operation. -/
def nan2 (x y : F32) (r : F32) : F32 :=
  if x.isNaN then x.quiet else if y.isNaN then y.quiet else r

/-- `addps`, one lane. -/
def add (x y : F32) : F32 :=
  nan2 x y <|
    if x.isInf then (if y.isInf && x.sign != y.sign then defaultNaN else x)
    else if y.isInf then y
    else round (x.sign && y.sign) (x.val + y.val)

/-- Flip the sign bit. -/
def neg (x : F32) : F32 := ⟨!x.sign, x.mag⟩

/-- `subps`, one lane. -/
def sub (x y : F32) : F32 :=
  nan2 x y <|
    if x.isInf then (if y.isInf && x.sign == y.sign then defaultNaN else x)
    else if y.isInf then neg y
    else round (x.sign && !y.sign) (x.val - y.val)

/-- `mulps`, one lane. -/
def mul (x y : F32) : F32 :=
  nan2 x y <|
    let s := x.sign != y.sign
    if x.isInf || y.isInf then (if x.isZero || y.isZero then defaultNaN else inf s)
    else round s (x.val * y.val)

/-- `divss`. -/
def div (x y : F32) : F32 :=
  nan2 x y <|
    let s := x.sign != y.sign
    if x.isInf then (if y.isInf then defaultNaN else inf s)
    else if y.isInf then ofMag s 0
    else if y.isZero then (if x.isZero then defaultNaN else inf s)
    else round s (x.val / y.val)

instance : Add F32 := ⟨add⟩
instance : Sub F32 := ⟨sub⟩
instance : Mul F32 := ⟨mul⟩
instance : Div F32 := ⟨div⟩
instance : Neg F32 := ⟨neg⟩
instance : Zero F32 := ⟨ofMag false 0⟩
instance : One F32 := ⟨ofMag false 0x3F800000⟩
/-- `static_cast<float>` of a natural number. -/
instance : NatCast F32 := ⟨fun n => round false n⟩

/-- `cmpeqps`, one lane: false on NaN, `+0 == -0`. -/
def feq (x y : F32) : Bool :=
  !x.isNaN && !y.isNaN && (x == y || x.isZero && y.isZero)

/-- The order of the extended real line as an integer key (both zeros get 0). -/
def key (x : F32) : ℤ := if x.sign then -(x.mag.val : ℤ) else x.mag.val

/-- `cmpltps`, one lane: false on NaN. -/
def flt (x y : F32) : Bool := !x.isNaN && !y.isNaN && decide (x.key < y.key)

/-- `andnot` with `-0.f`: clear the sign bit. -/
def abs (x : F32) : F32 := ⟨false, x.mag⟩

/-- `std::copysign`. -/
def copysign (x y : F32) : F32 := ⟨y.sign, x.mag⟩

end F32

/-- The scalar library at binary32: comparisons, sign bit, `abs` and `copysign` are the IEEE ones;
the elementary functions, whose rounding the C standard does not fix, are those of `base`. -/
def Libm.f32 (base : Libm F32) : Libm F32 :=
  { base with
    copysign := F32.copysign
    abs := F32.abs
    feq := F32.feq
    flt := F32.flt
    signbit := F32.sign }

namespace F32

/-! ### sanity checks -/

theorem one_val : (1 : F32).val = 1 := by decide +kernel
theorem two_eq : (1 : F32) + 1 = ((2 : ℕ) : F32) := by decide +kernel
/-- `0.1f + 0.2f` is `0x3E99999A`, which is `0.3f` rounded to nearest. -/
theorem point_one : ofMag false 0x3DCCCCCD + ofMag false 0x3E4CCCCD = ofMag false 0x3E99999A := by
  decide +kernel
/-- `1.f / 3.f` is `0x3EAAAAAB`. -/
theorem third : (1 : F32) / ((3 : ℕ) : F32) = ofMag false 0x3EAAAAAB := by decide +kernel
/-- The largest float plus one stays, doubled it overflows to infinity. -/
theorem max_add : ofMag false 0x7F7FFFFF + 1 = ofMag false 0x7F7FFFFF ∧
    ofMag false 0x7F7FFFFF + ofMag false 0x7F7FFFFF = inf false := by decide +kernel
/-- Rounding to even: `1 + 2^-24 = 1`, `1 + 3 * 2^-24 = 1 + 2^-22`. -/
theorem ties : (1 : F32) + ofMag false 0x33800000 = 1 ∧
    (1 : F32) + ofMag false 0x34400000 = ofMag false 0x3F800002 := by decide +kernel
/-- Addition is not associative. -/
theorem add_not_assoc : ∃ a b c : F32, a + b + c ≠ a + (b + c) :=
  ⟨1, ofMag false 0x33800000, ofMag false 0x33800000, by decide +kernel⟩
/-- The smallest subnormal halves to zero. -/
theorem underflow : ofMag false 1 / ((2 : ℕ) : F32) = 0 ∧
    ofMag true 1 / ((2 : ℕ) : F32) = ofMag true 0 := by decide +kernel
/-- `inf - inf` and `0 * inf` are the default NaN. -/
theorem invalid : inf false - inf false = defaultNaN ∧ (0 : F32) * inf true = defaultNaN ∧
    (0 : F32) / 0 = defaultNaN := by decide +kernel

end F32

end Klein
