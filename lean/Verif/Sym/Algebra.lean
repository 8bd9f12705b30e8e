import Mathlib.Data.Nat.Bitwise

/-!
# `sym/ga.cpp`: basis blades of a Clifford algebra of signature (p, q, r)

A basis blade is a bit field (bit `i` set: `e_i` is a factor).  Results are encoded as in the
source: `0` for zero, otherwise `±(blade + 1)`.  Machine integers: `uint32_t` values are naturals
below `2^32`; `int32_t` results go through `toInt32`; the `uint8_t` truncations of `mul` are kept;
signed overflow in `ext` (undefined behaviour) is the outcome `none`.
-/

namespace Klein.Sym

/-- The number of set bits of `x` below position `m`. -/
def pop (m x : ℕ) : ℕ := ((List.range m).filter fun i => x.testBit i).length

/-- ga.cpp:6-9 `popcnt`, `_mm_popcnt_u32`. -/
def popcnt (x : ℕ) : ℕ := pop 32 x

/-- Conversion of an unsigned value to `int32_t` (modulo `2^32`, two's complement). -/
def toInt32 (u : ℕ) : ℤ :=
  let v : ℕ := u % 2 ^ 32
  if v < 2 ^ 31 then (v : ℤ) else (v : ℤ) - 2 ^ 32

/-- `factor * (u + 1)` with `int factor = ±1` (`neg`) and `uint32_t u`, returned as `int32_t`. -/
def ret (neg : Bool) (u : ℕ) : ℤ :=
  toInt32 ((if neg then 2 ^ 32 - 1 else 1) * (u + 1))

/-- ga.hpp:46-50, ga.cpp:11-19: the signature.  The constructor asserts `p + q + r < 32`. -/
structure Alg where
  p : ℕ
  q : ℕ
  r : ℕ
  deriving DecidableEq, Repr

namespace Alg

/-- ga.cpp:15 `dim_`. -/
def dim (a : Alg) : ℕ := a.p + a.q + a.r

/-- ga.cpp:43-71, the loop of `mul`; the argument counts the iterations left (`dim_ - i`), so the
`index` of the source is its predecessor.  `none` is the early `return 0`. -/
def mulLoop (a : Alg) (lhs rhs : ℕ) : ℕ → Bool → Option Bool
  | 0, neg => some neg
  | k + 1, neg =>
    let index := k % 256
    let bit := 2 ^ index % 256
    let lhs_e := decide (lhs &&& bit > 0)
    let rhs_e := decide (rhs &&& bit > 0)
    if lhs_e then
      let neg := if popcnt (rhs &&& (bit - 1)) &&& 1 > 0 then !neg else neg
      if rhs_e then
        if a.r > 0 ∧ index < a.r then none
        else if index ≥ a.p + a.r then mulLoop a lhs rhs k (!neg)
        else mulLoop a lhs rhs k neg
      else mulLoop a lhs rhs k neg
    else mulLoop a lhs rhs k neg

/-- ga.cpp:26-74 `mul`. -/
def mul (a : Alg) (lhs rhs : ℕ) : ℤ :=
  if lhs = 0 ∧ rhs = 0 then 1
  else if lhs = 0 then toInt32 (rhs + 1)
  else if rhs = 0 then toInt32 (lhs + 1)
  else match mulLoop a lhs rhs a.dim false with
    | none => 0
    | some neg => ret neg (lhs ^^^ rhs)

/-- ga.cpp:86-96, the loop of `ext`.  `(1 << (i + 1)) - 1` overflows `int` when `i = 30`
(`1 << 31` is `INT_MIN`): undefined behaviour, `none`. -/
def extLoop (lhs rhs n : ℕ) : ℕ → Bool → Option Bool
  | 0, neg => some neg
  | k + 1, neg =>
    let i := n - (k + 1)
    if rhs &&& 2 ^ i > 0 then
      if i + 1 ≥ 31 then none
      else
        let swaps := popcnt (lhs &&& (2 ^ 32 - 1 - (2 ^ (i + 1) - 1)))
        extLoop lhs rhs n k (if swaps &&& 1 > 0 then !neg else neg)
    else extLoop lhs rhs n k neg

/-- ga.cpp:76-99 `ext`. -/
def ext (a : Alg) (lhs rhs : ℕ) : Option ℤ :=
  if lhs &&& rhs > 0 then some 0
  else (extLoop lhs rhs a.dim a.dim false).map fun neg => ret neg (lhs ||| rhs)

/-- ga.cpp:101-149 `dual`, for the algebra (3, 0, 1) only (the assertions). -/
def dual (x : ℕ) : ℤ :=
  match x with
  | 0 => 0b1111 + 1
  | 1 => 0b1110 + 1
  | 0b10 => -(0b1101 + 1)
  | 0b100 => 0b1011 + 1
  | 0b1000 => -(0b111 + 1)
  | 0b11 => 0b1100 + 1
  | 0b101 => -(0b1010 + 1)
  | 0b1001 => 0b110 + 1
  | 0b110 => 0b1001 + 1
  | 0b1010 => -(0b101 + 1)
  | 0b1100 => 0b11 + 1
  | 0b111 => -(0b1000 + 1)
  | 0b1011 => 0b100 + 1
  | 0b1101 => -(0b10 + 1)
  | 0b1110 => 0b1 + 1
  | _ => 1

/-- ga.cpp:151-174 `reg`. -/
def reg (a : Alg) (lhs rhs : ℕ) : Option ℤ :=
  let lhs_j := dual lhs
  let rhs_j := dual rhs
  let factor : ℤ := if lhs_j < 0 then -1 else 1
  let factor := if rhs_j < 0 then factor * -1 else factor
  (a.ext (lhs_j.natAbs - 1) (rhs_j.natAbs - 1)).map fun ext_j =>
    if ext_j = 0 then 0
    else
      let factor := if ext_j < 0 then factor * -1 else factor
      factor * dual (ext_j.natAbs - 1)

/-- ga.cpp:178-203 `dot`. -/
def dot (a : Alg) (lhs rhs : ℕ) : ℤ :=
  if lhs = 0 ∨ rhs = 0 then 0
  else
    let g := a.mul lhs rhs
    if g = 0 then 0
    else
      let target := ((popcnt lhs : ℤ) - (popcnt rhs : ℤ)).natAbs
      if popcnt (g.natAbs - 1) = target then g else 0

/-- ga.cpp:205-209 `rev`. -/
def rev (x : ℕ) : Bool := decide (popcnt x &&& 0b10 > 0)

end Alg
end Klein.Sym
