import Verif.Kernels.Sse

/-!
`/repo/public/klein/detail/x86/x86_exterior_product.hpp`, statement by statement.
-/

set_option linter.unusedVariables false

namespace Klein

variable {F : Type}
variable [Add F] [Sub F] [Mul F] [Neg F] [Zero F] [One F] [NatCast F]

/-- x86_exterior_product.hpp:16-42 `ext00` (plane ^ plane). -/
@[kln] def ext00 (a b : V4 F) : V4 F × V4 F :=
  let p1_out := mul_ps a (swz b 1 3 2 0)
  let p1_out := swz (sub_ps p1_out (mul_ps (swz a 1 3 2 0) b)) 1 3 2 0
  let p2_out := mul_ps (swz a 0 0 0 0) b
  let p2_out := sub_ps p2_out (mul_ps a (swz b 0 0 0 0))
  (p1_out, p2_out)

/-- x86_exterior_product.hpp:45-55 `extPB` (plane ^ branch). -/
@[kln] def extPB (isa : Isa) (a b : V4 F) : V4 F :=
  let p3_out := mul_ps (mul_ps (swz a 0 0 0 1) b) (set_ps (-1) (-1) (-1) 0)
  let p3_out := add_ss p3_out (hi_dp isa a b)
  p3_out

/-- x86_exterior_product.hpp:58-71 `ext02` (plane ^ ideal line). -/
@[kln] def ext02 (a b : V4 F) : V4 F :=
  let p3_out := mul_ps a (swz b 1 3 2 0)
  let p3_out := swz (sub_ps p3_out (mul_ps (swz a 1 3 2 0) b)) 1 3 2 0
  p3_out

/-- x86_exterior_product.hpp:73-86 `ext03<Flip>` (plane ^ point; `Flip` swaps the operands). -/
@[kln] def ext03 (flip : Bool) (isa : Isa) (a b : V4 F) : V4 F :=
  match flip with
  | false =>
    let p2 := dp isa a b
    p2
  | true =>
    let p2 := dp isa a b
    let p2 := xor_ps p2 flip_ss
    p2

end Klein
