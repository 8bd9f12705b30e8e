import Verif.Kernels.Sse

/-!
`/repo/public/klein/detail/x86/x86_geometric_product.hpp`, statement by statement.
-/

set_option linter.unusedVariables false

namespace Klein

variable {F : Type}
variable [Add F] [Sub F] [Mul F] [Neg F] [Zero F] [One F] [NatCast F]

/-- x86_geometric_product.hpp:27-60 `gp00` (plane * plane). -/
@[kln] def gp00 (a b : V4 F) : V4 F × V4 F :=
  let p1_out := mul_ps (swz a 1 3 2 1) (swz b 2 1 3 1)
  let p1_out := sub_ps p1_out (xor_ps (mul_ps (swz a 2 1 3 2) (swz b 1 3 2 2)) flip_ss)
  let p1_out := add_ss p1_out (mul_ps (swz a 0 0 0 3) (swz b 0 0 0 3))
  let p2_out := mul_ps (swz a 0 0 0 0) b
  let p2_out := sub_ps p2_out (mul_ps a (swz b 0 0 0 0))
  (p1_out, p2_out)

/-- x86_geometric_product.hpp:66-135 `gp03<Flip>` (plane * point; `Flip` swaps the operands). -/
@[kln] def gp03 (flip : Bool) (isa : Isa) (a b : V4 F) : V4 F × V4 F :=
  match flip with
  | true =>
    let p1 := mul_ps a (swz b 0 0 0 0)
    let p1 := match isa with
      | .sse41 => blend_ps p1 setzero_ps false false false true
      | .sse3 => and_ps p1 ⟨false, true, true, true⟩
    let p2 := mul_ps (swz a 2 1 3 0) (swz b 1 3 2 0)
    let p2 := sub_ps p2 (mul_ps (swz a 1 3 2 0) (swz b 2 1 3 0))
    let tmp := dp isa a b
    let tmp := xor_ps tmp flip_ss
    let p2 := add_ps p2 tmp
    (p1, p2)
  | false =>
    let p1 := mul_ps a (swz b 0 0 0 0)
    let p1 := match isa with
      | .sse41 => blend_ps p1 setzero_ps false false false true
      | .sse3 => and_ps p1 ⟨false, true, true, true⟩
    let p2 := mul_ps (swz a 2 1 3 0) (swz b 1 3 2 0)
    let p2 := sub_ps p2 (mul_ps (swz a 1 3 2 0) (swz b 2 1 3 0))
    let tmp := dp isa a b
    let p2 := add_ps p2 tmp
    (p1, p2)

/-- x86_geometric_product.hpp:138-166 `gp11` (rotor * rotor). -/
@[kln] def gp11 (a b : V4 F) : V4 F :=
  let p1_out := mul_ps (swz a 0 0 0 0) b
  let p1_out := sub_ps p1_out (mul_ps (swz a 1 3 2 1) (swz b 2 1 3 1))
  let tmp1 := mul_ps (swz a 3 2 1 2) (swz b 0 0 0 2)
  let tmp2 := mul_ps (swz a 2 1 3 3) (swz b 1 3 2 3)
  let tmp := xor_ps (add_ps tmp1 tmp2) flip_ss
  let p1_out := add_ps p1_out tmp
  p1_out

/-- x86_geometric_product.hpp:170-193 `gp33` (point * point, divided by its scalar part). -/
@[kln] def gp33 (hw : Hw F) (isa : Isa) (a b : V4 F) : V4 F :=
  let tmp := mul_ps (swz a 0 0 0 0) b
  let tmp := mul_ps tmp (set_ps (-1) (-1) (-1) (-2))
  let tmp := add_ps tmp (mul_ps a (swz b 0 0 0 0))
  let ss := moveldup_ps tmp
  let ss := movelh_ps ss ss
  let tmp := mul_ps tmp (rcp_nr1 hw ss)
  let p2 := match isa with
    | .sse41 => blend_ps tmp setzero_ps false false false true
    | .sse3 => and_ps tmp ⟨false, true, true, true⟩
  p2

/-- x86_geometric_product.hpp:195-213 `gpDL` (dual * line). -/
@[kln] def gpDL (u v : F) (b c : V4 F) : V4 F × V4 F :=
  let u_vec := set1_ps u
  let v_vec := set1_ps v
  let p1 := mul_ps u_vec b
  let p2 := mul_ps c u_vec
  let p2 := sub_ps p2 (mul_ps b v_vec)
  (p1, p2)

/-- x86_geometric_product.hpp:215-249 `gpRT<Flip>` (rotor * translator; `Flip` swaps the operands). -/
@[kln] def gpRT (flip : Bool) (a b : V4 F) : V4 F :=
  match flip with
  | true =>
    let p2 := mul_ps (swz a 0 0 0 1) (swz b 3 2 1 1)
    let p2 := add_ps p2 (mul_ps (swz a 1 3 2 2) (swz b 2 1 3 2))
    let p2 := sub_ps p2 (xor_ps (mul_ps (swz a 2 1 3 3) (swz b 1 3 2 3)) flip_ss)
    p2
  | false =>
    let p2 := mul_ps (swz a 0 0 0 1) (swz b 3 2 1 1)
    let p2 := add_ps p2 (mul_ps (swz a 2 1 3 2) (swz b 1 3 2 2))
    let p2 := sub_ps p2 (xor_ps (mul_ps (swz a 1 3 2 3) (swz b 2 1 3 3)) flip_ss)
    p2

/-- x86_geometric_product.hpp:251-258 `gp12<Flip>` (rotor * p2; `Flip` swaps the operands). -/
@[kln] def gp12 (flip : Bool) (a b : V4 F) : V4 F :=
  let p2 := gpRT flip a b
  let p2 := sub_ps p2 (xor_ps (mul_ps a (swz b 0 0 0 0)) flip_ss)
  p2

/-- x86_geometric_product.hpp:261-308 `gpLL` (line * line).  `a, d` are the two halves of the first
line (read through `&l1` and `&l1 + 1`), `b, c` those of the second. -/
@[kln] def gpLL (a d b c : V4 F) : V4 F × V4 F :=
  let flip : SMask := flip_ss
  let p1 := mul_ps (swz a 3 1 2 1) (swz b 2 3 1 1)
  let p1 := xor_ps p1 flip
  let p1 := sub_ps p1 (mul_ps (swz a 2 3 1 3) (swz b 3 1 2 3))
  let a2 := unpackhi_ps a a
  let b2 := unpackhi_ps b b
  let p1 := sub_ss p1 (mul_ss a2 b2)
  let p2 := mul_ps (swz a 2 1 3 1) (swz c 1 3 2 1)
  let p2 := sub_ps p2 (xor_ps (mul_ps (swz a 1 3 2 3) (swz c 2 1 3 3)) flip)
  let p2 := add_ps p2 (mul_ps (swz b 1 3 2 1) (swz d 2 1 3 1))
  let p2 := sub_ps p2 (xor_ps (mul_ps (swz b 2 1 3 3) (swz d 1 3 2 3)) flip)
  let c2 := unpackhi_ps c c
  let d2 := unpackhi_ps d d
  let p2 := add_ss p2 (mul_ss a2 c2)
  let p2 := add_ss p2 (mul_ss b2 d2)
  (p1, p2)

/-- x86_geometric_product.hpp:311-363 `gpMM` (motor * motor), halves `a, b` and `c, d`. -/
@[kln] def gpMM (a b c d : V4 F) : V4 F × V4 F :=
  let a_xxxx := swz a 0 0 0 0
  let a_zyzw := swz a 3 2 1 2
  let a_ywyz := swz a 2 1 3 1
  let a_wzwy := swz a 1 3 2 3
  let c_wwyz := swz c 2 1 3 3
  let c_yzwy := swz c 1 3 2 1
  let s_flip : SMask := flip_ss
  let e := mul_ps a_xxxx c
  let t := mul_ps a_ywyz c_yzwy
  let t := add_ps t (mul_ps a_zyzw (swz c 0 0 0 2))
  let t := xor_ps t s_flip
  let e := add_ps e t
  let e := sub_ps e (mul_ps a_wzwy c_wwyz)
  let f := mul_ps a_xxxx d
  let f := add_ps f (mul_ps b (swz c 0 0 0 0))
  let f := add_ps f (mul_ps a_ywyz (swz d 1 3 2 1))
  let f := add_ps f (mul_ps (swz b 2 1 3 1) c_yzwy)
  let t := mul_ps a_zyzw (swz d 0 0 0 2)
  let t := add_ps t (mul_ps a_wzwy (swz d 2 1 3 3))
  let t := add_ps t (mul_ps (swz b 0 0 0 2) (swz c 3 2 1 2))
  let t := add_ps t (mul_ps (swz b 1 3 2 3) c_wwyz)
  let t := xor_ps t s_flip
  let f := sub_ps f t
  (e, f)

end Klein
