import Verif.Simd

/-!
Helpers of `/repo/public/klein/detail/x86/x86_sse.hpp`, statement by statement.
-/

set_option linter.unusedVariables false

namespace Klein

variable {F : Type}
variable [Add F] [Sub F] [Mul F] [Neg F] [Zero F] [One F] [NatCast F]

/-- x86_sse.hpp:61-78 `hi_dp_ss`: `a1 b1 + a2 b2 + a3 b3` in lane 0, other lanes meaningless. -/
@[kln] def hi_dp_ss (a b : V4 F) : V4 F :=
  let out := mul_ps a b
  let hi := movehdup_ps out
  let sum := add_ps hi out
  let out := add_ps sum (unpacklo_ps out out)
  movehl_ps out out

/-- x86_sse.hpp:81-92 `rcp_nr1`: reciprocal estimate with one Newton-Raphson step. -/
@[kln] def rcp_nr1 (hw : Hw F) (a : V4 F) : V4 F :=
  let xn := rcp_ps hw a
  let axn := mul_ps a xn
  mul_ps xn (sub_ps (set1_ps 2) axn)

/-- x86_sse.hpp:95-111 `rsqrt_nr1`. -/
@[kln] def rsqrt_nr1 [Div F] (hw : Hw F) (a : V4 F) : V4 F :=
  let xn := rsqrt_ps hw a
  let axn2 := mul_ps xn xn
  let axn2 := mul_ps a axn2
  let xn3 := sub_ps (set1_ps 3) axn2
  mul_ps (mul_ps (set1_ps (1 / 2)) xn) xn3

/-- x86_sse.hpp:114-117 `sqrt_nr1`. -/
@[kln] def sqrt_nr1 [Div F] (hw : Hw F) (a : V4 F) : V4 F :=
  mul_ps a (rsqrt_nr1 hw a)

/-- x86_sse.hpp:120-123 (SSE4.1) and 141-160 (SSE3) `hi_dp`. -/
@[kln] def hi_dp (isa : Isa) (a b : V4 F) : V4 F :=
  match isa with
  | .sse41 =>
    dp_ps a b true true true false false false false true
  | .sse3 =>
    let out := mul_ps a b
    let hi := movehdup_ps out
    let sum := add_ps hi out
    let out := add_ps sum (unpacklo_ps out out)
    let out := movehl_ps out out
    and_ps out ⟨true, false, false, false⟩

/-- x86_sse.hpp:125-128 (SSE4.1) and 162-177 (SSE3) `hi_dp_bc`. -/
@[kln] def hi_dp_bc (isa : Isa) (a b : V4 F) : V4 F :=
  match isa with
  | .sse41 =>
    dp_ps a b true true true false true true true true
  | .sse3 =>
    let out := mul_ps a b
    let hi := movehdup_ps out
    let sum := add_ps hi out
    let out := add_ps sum (unpacklo_ps out out)
    swz out 2 2 2 2

/-- x86_sse.hpp:130-133 (SSE4.1) and 179-189 (SSE3) `dp`. -/
@[kln] def dp (isa : Isa) (a b : V4 F) : V4 F :=
  match isa with
  | .sse41 =>
    dp_ps a b true true true true false false false true
  | .sse3 =>
    let out := mul_ps a b
    let hi := movehdup_ps out
    let out := add_ps hi out
    let out := add_ss out (movehl_ps hi out)
    and_ps out ⟨true, false, false, false⟩

/-- x86_sse.hpp:135-138 (SSE4.1) and 191-201 (SSE3) `dp_bc`. -/
@[kln] def dp_bc (isa : Isa) (a b : V4 F) : V4 F :=
  match isa with
  | .sse41 =>
    dp_ps a b true true true true true true true true
  | .sse3 =>
    let out := mul_ps a b
    let hi := movehdup_ps out
    let out := add_ps hi out
    let out := add_ss out (movehl_ps hi out)
    swz out 0 0 0 0

end Klein
