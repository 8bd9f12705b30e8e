import Verif.Kernels.Sse

/-!
`/repo/public/klein/detail/x86/x86_matrix.hpp`, statement by statement.
-/

set_option linter.unusedVariables false

namespace Klein

variable {F : Type}
variable [Add F] [Sub F] [Mul F] [Neg F] [Zero F] [One F] [NatCast F]

/-- Four columns of a column-major 4x4 matrix (mat4x4.hpp:20, `__m128 cols[4]`). -/
@[ext] structure Mat4 (F : Type) where
  c0 : V4 F
  c1 : V4 F
  c2 : V4 F
  c3 : V4 F

/-- x86_matrix.hpp:67-73, first column. -/
@[kln] def mat_c0 (b : V4 F) : V4 F :=
  let buf := mul_ps b b
  let b0_2 := buf.l0
  let b1_2 := buf.l1
  let b2_2 := buf.l2
  let b3_2 := buf.l3
  let c0 := mul_ps b (swz b 0 0 2 0)
  let tmp := mul_ps (swz b 0 1 3 1) (swz b 0 3 0 1)
  let tmp := xor_ps tmp ⟨false, true, false, false⟩
  let c0 := mul_ps (set_ps 0 2 2 1) (add_ps c0 tmp)
  let c0 := sub_ps c0 (set_ss (b3_2 + b2_2))
  c0

/-- x86_matrix.hpp:81-86, second column. -/
@[kln] def mat_c1 (b : V4 F) : V4 F :=
  let buf := mul_ps b b
  let b0_2 := buf.l0
  let b1_2 := buf.l1
  let b2_2 := buf.l2
  let b3_2 := buf.l3
  let c1 := mul_ps b (swz b 0 3 1 3)
  let tmp := mul_ps (swz b 0 0 3 2) (swz b 0 1 3 1)
  let tmp := xor_ps tmp ⟨false, false, true, false⟩
  let c1 := mul_ps (set_ps 0 2 (-1) 2) (add_ps c1 tmp)
  let c1 := add_ps c1 (set_ps 0 0 (b0_2 + b2_2) 0)
  c1

/-- x86_matrix.hpp:94-100, third column. -/
@[kln] def mat_c2 (b : V4 F) : V4 F :=
  let buf := mul_ps b b
  let b0_2 := buf.l0
  let b1_2 := buf.l1
  let b2_2 := buf.l2
  let b3_2 := buf.l3
  let c2 := xor_ps (mul_ps b (swz b 0 2 0 2)) ⟨true, false, true, false⟩
  let c2 := add_ps c2 (mul_ps (swz b 0 0 2 1) (swz b 0 0 3 3))
  let c2 := mul_ps c2 (set_ps 0 1 2 2)
  let c2 := add_ps c2 (set_ps 0 (b3_2 - b1_2) 0 0)
  c2

/-- x86_matrix.hpp:109-120 (`Translate`), fourth column before the `w` fix-up. -/
@[kln] def mat_c3t (b c : V4 F) : V4 F :=
  let c3 := mul_ps b (swz c 0 1 3 1)
  let c3 := add_ps c3 (mul_ps (swz b 0 0 0 3) (swz c 0 3 2 2))
  let c3 := add_ps c3 (mul_ps (swz b 0 3 2 1) (swz c 0 0 0 0))
  let tmp := mul_ps (swz b 0 1 3 2) (swz c 0 2 1 3)
  let c3 := mul_ps (set_ps 0 2 2 2) (sub_ps tmp c3)
  c3

/-- x86_matrix.hpp:121-128 (`Normalized`). -/
@[kln] def mat_c3n (isa : Isa) (c3 : V4 F) : V4 F :=
  let c3 := match isa with
    | .sse41 => blend_ps c3 (set_ps 1 0 0 0) true false false false
    | .sse3 => add_ps c3 (set_ps 1 0 0 0)
  c3

/-- x86_matrix.hpp:129-137 (not `Normalized`). -/
@[kln] def mat_c3u (isa : Isa) (b c3 : V4 F) : V4 F :=
  let buf := mul_ps b b
  let b0_2 := buf.l0
  let b1_2 := buf.l1
  let b2_2 := buf.l2
  let b3_2 := buf.l3
  let c3 := match isa with
    | .sse41 => blend_ps c3 (set_ps (((b0_2 + b1_2) + b2_2) + b3_2) 0 0 0) true false false false
    | .sse3 => add_ps c3 (set_ps (((b0_2 + b1_2) + b2_2) + b3_2) 0 0 0)
  c3

/-- x86_matrix.hpp:24-138 `mat4x4_12<Translate, Normalized>`.  `c = none` is `Translate = false`.
`c3_init` is the content of `out[3]` on entry: with `Translate = false` the code reads it without
having written it (lines 121-137), and every caller passes an uninitialised matrix. -/
@[kln] def mat4x4_12 (isa : Isa) (normalized : Bool) (b : V4 F) (c : Option (V4 F))
    (c3_init : V4 F) : Mat4 F :=
  let c3 := match c with
    | some c => mat_c3t b c
    | none => c3_init
  let c3 := match normalized with
    | true => mat_c3n isa c3
    | false => mat_c3u isa b c3
  ⟨mat_c0 b, mat_c1 b, mat_c2 b, c3⟩

end Klein
