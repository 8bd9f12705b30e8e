import Verif.Kernels.Sse

/-!
`/repo/public/klein/detail/x86/x86_inner_product.hpp`, statement by statement.
-/

set_option linter.unusedVariables false

namespace Klein

variable {F : Type}
variable [Add F] [Sub F] [Mul F] [Neg F] [Zero F] [One F] [NatCast F]

/-- x86_inner_product.hpp:16-20 `dot00` (plane | plane). -/
@[kln] def dot00 (isa : Isa) (a b : V4 F) : V4 F :=
  let p1_out := hi_dp isa a b
  p1_out

/-- x86_inner_product.hpp:23-50 `dot03` (plane | point). -/
@[kln] def dot03 (isa : Isa) (a b : V4 F) : V4 F × V4 F :=
  let p1_out := mul_ps a (swz b 0 0 0 0)
  let p1_out := match isa with
    | .sse41 => blend_ps p1_out setzero_ps false false false true
    | .sse3 => and_ps p1_out ⟨false, true, true, true⟩
  let p2_out := swz (sub_ps (mul_ps (swz a 1 3 2 0) b) (mul_ps a (swz b 1 3 2 0))) 1 3 2 0
  (p1_out, p2_out)

/-- x86_inner_product.hpp:52-55 `dot11` (line | line). -/
@[kln] def dot11 (a b : V4 F) : V4 F :=
  let p1_out := xor_ps (hi_dp_ss a b) flip_ss
  p1_out

/-- x86_inner_product.hpp:57-61 `dot33` (point | point). -/
@[kln] def dot33 (a b : V4 F) : V4 F :=
  let p1_out := mul_ps (set_ss (-1)) (mul_ss a b)
  p1_out

/-- x86_inner_product.hpp:64-79 `dotPTL` (point | line). -/
@[kln] def dotPTL (isa : Isa) (a b : V4 F) : V4 F :=
  let dp_ := hi_dp_ss a b
  let p0 := mul_ps (swz a 0 0 0 0) b
  let p0 := xor_ps p0 ⟨false, true, true, true⟩
  let p0 := match isa with
    | .sse41 => blend_ps p0 dp_ false false false true
    | .sse3 => add_ss p0 dp_
  p0

/-- x86_inner_product.hpp:82-93 `dotPIL<Flip>` (plane | ideal line; `Flip` swaps the operands). -/
@[kln] def dotPIL (flip : Bool) (isa : Isa) (a c : V4 F) : V4 F :=
  match flip with
  | true =>
    let p0 := hi_dp isa a c
    p0
  | false =>
    let p0 := hi_dp isa a c
    let p0 := xor_ps p0 flip_ss
    p0

/-- x86_inner_product.hpp:96-121 `dotPL<Flip>` (plane | line; `Flip` swaps the operands). -/
@[kln] def dotPL (flip : Bool) (a b c : V4 F) : V4 F :=
  match flip with
  | false =>
    let p0 := mul_ps (swz a 1 3 2 0) b
    let p0 := sub_ps p0 (mul_ps a (swz b 1 3 2 0))
    let p0 := sub_ss (swz p0 1 3 2 0) (hi_dp_ss a c)
    p0
  | true =>
    let p0 := mul_ps a (swz b 1 3 2 0)
    let p0 := sub_ps p0 (mul_ps (swz a 1 3 2 0) b)
    let p0 := add_ss (swz p0 1 3 2 0) (hi_dp_ss a c)
    p0

end Klein
