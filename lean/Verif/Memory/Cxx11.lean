import Verif.Memory.Arrays
import Verif.Kernels.Matrix

/-!
The template specialisations used before C++17: `/repo/public/klein/detail/x86/x86_sandwich_cxx11.inl`
and `x86_matrix_cxx11.inl`, statement by statement (written by tools/gen_cxx11.py).

Addresses and memory actions are those of `Verif.Memory.Basic`.  `*c` (and `b`, which `swMM` takes
by reference) are read once on entry instead of at each use: no statement before the loop writes
memory, and the statements of the loop do not mention them.
-/

set_option linter.unusedVariables false

namespace Klein

open Mem

variable {F : Type}
variable [Add F] [Sub F] [Mul F] [Neg F] [Zero F] [One F] [NatCast F]

/-- x86_sandwich_cxx11.inl:10-90 `swMM<true, true, true>`. -/
def swMM_cxx11_t_t_t (a : ℕ) (b : ℕ) (c out : ℕ) (count : ℕ) : M F Unit := do
  let bv ← rd b
  let cv ← rd c
  let b_xwyz := swz bv 2 1 3 0
  let b_xzwy := swz bv 1 3 2 0
  let b_yxxx := swz bv 0 0 0 1
  let b_yxxx_2 := mul_ps b_yxxx b_yxxx
  let tmp := mul_ps bv bv
  let tmp := add_ps tmp b_yxxx_2
  let b_tmp := swz bv 2 1 3 2
  let tmp2 := mul_ps b_tmp b_tmp
  let b_tmp := swz bv 1 3 2 3
  let tmp2 := add_ps tmp2 (mul_ps b_tmp b_tmp)
  let tmp := sub_ps tmp (xor_ps tmp2 flip_ss)
  let b_xxxx := swz bv 0 0 0 0
  let scale := set_ps 2 2 2 0
  let tmp2 := mul_ps b_xxxx b_xwyz
  let tmp2 := add_ps tmp2 (mul_ps bv b_xzwy)
  let tmp2 := mul_ps tmp2 scale
  let tmp3 := mul_ps bv b_xwyz
  let tmp3 := sub_ps tmp3 (mul_ps b_xxxx b_xzwy)
  let tmp3 := mul_ps tmp3 scale
  let czero := swz cv 0 0 0 0
  let c_xzwy := swz cv 1 3 2 0
  let c_xwyz := swz cv 2 1 3 0
  let tmp4 := mul_ps bv cv
  let tmp4 := sub_ps tmp4 (mul_ps b_yxxx (swz cv 0 0 0 1))
  let tmp4 := sub_ps tmp4 (mul_ps (swz bv 1 3 3 2) (swz cv 1 3 3 2))
  let tmp4 := sub_ps tmp4 (mul_ps (swz bv 2 1 2 3) (swz cv 2 1 2 3))
  let tmp4 := add_ps tmp4 tmp4
  let tmp5 := mul_ps bv c_xwyz
  let tmp5 := add_ps tmp5 (mul_ps b_xzwy czero)
  let tmp5 := add_ps tmp5 (mul_ps b_xwyz cv)
  let tmp5 := sub_ps tmp5 (mul_ps b_xxxx c_xzwy)
  let tmp5 := mul_ps tmp5 scale
  let tmp6 := mul_ps bv c_xzwy
  let tmp6 := add_ps tmp6 (mul_ps b_xxxx c_xwyz)
  let tmp6 := add_ps tmp6 (mul_ps b_xzwy cv)
  let tmp6 := sub_ps tmp6 (mul_ps b_xwyz czero)
  let tmp6 := mul_ps tmp6 scale
  loop (fun i => do
    let p1_in_xzwy := swz (← rd (a + 2 * i)) 1 3 2 0
    let p1_in_xwyz := swz (← rd (a + 2 * i)) 2 1 3 0
    wr (out + 2 * i) (mul_ps tmp (← rd (a + 2 * i)))
    wr (out + 2 * i) (add_ps (← ld (out + 2 * i)) (mul_ps tmp2 p1_in_xzwy))
    wr (out + 2 * i) (add_ps (← ld (out + 2 * i)) (mul_ps tmp3 p1_in_xwyz))
    wr (out + (2 * i + 1)) (mul_ps tmp (← rd (a + (2 * i + 1))))
    wr (out + (2 * i + 1)) (add_ps (← ld (out + (2 * i + 1))) (mul_ps tmp2 (swz (← rd (a + (2 * i + 1))) 1 3 2 0)))
    wr (out + (2 * i + 1)) (add_ps (← ld (out + (2 * i + 1))) (mul_ps tmp3 (swz (← rd (a + (2 * i + 1))) 2 1 3 0)))
    wr (out + (2 * i + 1)) (add_ps (← ld (out + (2 * i + 1))) (mul_ps tmp4 (← rd (a + 2 * i))))
    wr (out + (2 * i + 1)) (add_ps (← ld (out + (2 * i + 1))) (mul_ps tmp5 p1_in_xwyz))
    wr (out + (2 * i + 1)) (add_ps (← ld (out + (2 * i + 1))) (mul_ps tmp6 p1_in_xzwy))) count

/-- x86_sandwich_cxx11.inl:92-165 `swMM<true, true, false>`. -/
def swMM_cxx11_t_t_f (a : ℕ) (b : ℕ) (c out : ℕ) (count : ℕ) : M F Unit := do
  let bv ← rd b
  let cv ← rd c
  let b_xwyz := swz bv 2 1 3 0
  let b_xzwy := swz bv 1 3 2 0
  let b_yxxx := swz bv 0 0 0 1
  let b_yxxx_2 := mul_ps b_yxxx b_yxxx
  let tmp := mul_ps bv bv
  let tmp := add_ps tmp b_yxxx_2
  let b_tmp := swz bv 2 1 3 2
  let tmp2 := mul_ps b_tmp b_tmp
  let b_tmp := swz bv 1 3 2 3
  let tmp2 := add_ps tmp2 (mul_ps b_tmp b_tmp)
  let tmp := sub_ps tmp (xor_ps tmp2 flip_ss)
  let b_xxxx := swz bv 0 0 0 0
  let scale := set_ps 2 2 2 0
  let tmp2 := mul_ps b_xxxx b_xwyz
  let tmp2 := add_ps tmp2 (mul_ps bv b_xzwy)
  let tmp2 := mul_ps tmp2 scale
  let tmp3 := mul_ps bv b_xwyz
  let tmp3 := sub_ps tmp3 (mul_ps b_xxxx b_xzwy)
  let tmp3 := mul_ps tmp3 scale
  let czero := swz cv 0 0 0 0
  let c_xzwy := swz cv 1 3 2 0
  let c_xwyz := swz cv 2 1 3 0
  let tmp4 := mul_ps bv cv
  let tmp4 := sub_ps tmp4 (mul_ps b_yxxx (swz cv 0 0 0 1))
  let tmp4 := sub_ps tmp4 (mul_ps (swz bv 1 3 3 2) (swz cv 1 3 3 2))
  let tmp4 := sub_ps tmp4 (mul_ps (swz bv 2 1 2 3) (swz cv 2 1 2 3))
  let tmp4 := add_ps tmp4 tmp4
  let tmp5 := mul_ps bv c_xwyz
  let tmp5 := add_ps tmp5 (mul_ps b_xzwy czero)
  let tmp5 := add_ps tmp5 (mul_ps b_xwyz cv)
  let tmp5 := sub_ps tmp5 (mul_ps b_xxxx c_xzwy)
  let tmp5 := mul_ps tmp5 scale
  let tmp6 := mul_ps bv c_xzwy
  let tmp6 := add_ps tmp6 (mul_ps b_xxxx c_xwyz)
  let tmp6 := add_ps tmp6 (mul_ps b_xzwy cv)
  let tmp6 := sub_ps tmp6 (mul_ps b_xwyz czero)
  let tmp6 := mul_ps tmp6 scale
  loop (fun i => do
    let p1_in_xzwy := swz (← rd (a + i)) 1 3 2 0
    let p1_in_xwyz := swz (← rd (a + i)) 2 1 3 0
    wr (out + i) (mul_ps tmp (← rd (a + i)))
    wr (out + i) (add_ps (← ld (out + i)) (mul_ps tmp2 p1_in_xzwy))
    wr (out + i) (add_ps (← ld (out + i)) (mul_ps tmp3 p1_in_xwyz))
    wr (out + (2 * i + 1)) (add_ps (← ld (out + (2 * i + 1))) (mul_ps tmp4 (← rd (a + i))))
    wr (out + (2 * i + 1)) (add_ps (← ld (out + (2 * i + 1))) (mul_ps tmp5 p1_in_xwyz))
    wr (out + (2 * i + 1)) (add_ps (← ld (out + (2 * i + 1))) (mul_ps tmp6 p1_in_xzwy))) count

/-- x86_sandwich_cxx11.inl:167-217 `swMM<true, false, true>`. -/
def swMM_cxx11_t_f_t (a : ℕ) (b : ℕ) (c out : ℕ) (count : ℕ) : M F Unit := do
  let bv ← rd b
  let b_xwyz := swz bv 2 1 3 0
  let b_xzwy := swz bv 1 3 2 0
  let b_yxxx := swz bv 0 0 0 1
  let b_yxxx_2 := mul_ps b_yxxx b_yxxx
  let tmp := mul_ps bv bv
  let tmp := add_ps tmp b_yxxx_2
  let b_tmp := swz bv 2 1 3 2
  let tmp2 := mul_ps b_tmp b_tmp
  let b_tmp := swz bv 1 3 2 3
  let tmp2 := add_ps tmp2 (mul_ps b_tmp b_tmp)
  let tmp := sub_ps tmp (xor_ps tmp2 flip_ss)
  let b_xxxx := swz bv 0 0 0 0
  let scale := set_ps 2 2 2 0
  let tmp2 := mul_ps b_xxxx b_xwyz
  let tmp2 := add_ps tmp2 (mul_ps bv b_xzwy)
  let tmp2 := mul_ps tmp2 scale
  let tmp3 := mul_ps bv b_xwyz
  let tmp3 := sub_ps tmp3 (mul_ps b_xxxx b_xzwy)
  let tmp3 := mul_ps tmp3 scale
  loop (fun i => do
    let p1_in_xzwy := swz (← rd (a + 2 * i)) 1 3 2 0
    let p1_in_xwyz := swz (← rd (a + 2 * i)) 2 1 3 0
    wr (out + 2 * i) (mul_ps tmp (← rd (a + 2 * i)))
    wr (out + 2 * i) (add_ps (← ld (out + 2 * i)) (mul_ps tmp2 p1_in_xzwy))
    wr (out + 2 * i) (add_ps (← ld (out + 2 * i)) (mul_ps tmp3 p1_in_xwyz))
    wr (out + (2 * i + 1)) (mul_ps tmp (← rd (a + (2 * i + 1))))
    wr (out + (2 * i + 1)) (add_ps (← ld (out + (2 * i + 1))) (mul_ps tmp2 (swz (← rd (a + (2 * i + 1))) 1 3 2 0)))
    wr (out + (2 * i + 1)) (add_ps (← ld (out + (2 * i + 1))) (mul_ps tmp3 (swz (← rd (a + (2 * i + 1))) 2 1 3 0)))) count

/-- x86_sandwich_cxx11.inl:219-262 `swMM<true, false, false>`. -/
def swMM_cxx11_t_f_f (a : ℕ) (b : ℕ) (c out : ℕ) (count : ℕ) : M F Unit := do
  let bv ← rd b
  let b_xwyz := swz bv 2 1 3 0
  let b_xzwy := swz bv 1 3 2 0
  let b_yxxx := swz bv 0 0 0 1
  let b_yxxx_2 := mul_ps b_yxxx b_yxxx
  let tmp := mul_ps bv bv
  let tmp := add_ps tmp b_yxxx_2
  let b_tmp := swz bv 2 1 3 2
  let tmp2 := mul_ps b_tmp b_tmp
  let b_tmp := swz bv 1 3 2 3
  let tmp2 := add_ps tmp2 (mul_ps b_tmp b_tmp)
  let tmp := sub_ps tmp (xor_ps tmp2 flip_ss)
  let b_xxxx := swz bv 0 0 0 0
  let scale := set_ps 2 2 2 0
  let tmp2 := mul_ps b_xxxx b_xwyz
  let tmp2 := add_ps tmp2 (mul_ps bv b_xzwy)
  let tmp2 := mul_ps tmp2 scale
  let tmp3 := mul_ps bv b_xwyz
  let tmp3 := sub_ps tmp3 (mul_ps b_xxxx b_xzwy)
  let tmp3 := mul_ps tmp3 scale
  loop (fun i => do
    let p1_in_xzwy := swz (← rd (a + i)) 1 3 2 0
    let p1_in_xwyz := swz (← rd (a + i)) 2 1 3 0
    wr (out + i) (mul_ps tmp (← rd (a + i)))
    wr (out + i) (add_ps (← ld (out + i)) (mul_ps tmp2 p1_in_xzwy))
    wr (out + i) (add_ps (← ld (out + i)) (mul_ps tmp3 p1_in_xwyz))) count

/-- x86_sandwich_cxx11.inl:264-339 `swMM<false, true, true>`. -/
def swMM_cxx11_f_t_t (a : ℕ) (b : ℕ) (c out : ℕ) (count : ℕ) : M F Unit := do
  let bv ← rd b
  let cv ← rd c
  let b_xwyz := swz bv 2 1 3 0
  let b_xzwy := swz bv 1 3 2 0
  let b_yxxx := swz bv 0 0 0 1
  let b_yxxx_2 := mul_ps b_yxxx b_yxxx
  let tmp := mul_ps bv bv
  let tmp := add_ps tmp b_yxxx_2
  let b_tmp := swz bv 2 1 3 2
  let tmp2 := mul_ps b_tmp b_tmp
  let b_tmp := swz bv 1 3 2 3
  let tmp2 := add_ps tmp2 (mul_ps b_tmp b_tmp)
  let tmp := sub_ps tmp (xor_ps tmp2 flip_ss)
  let b_xxxx := swz bv 0 0 0 0
  let scale := set_ps 2 2 2 0
  let tmp2 := mul_ps b_xxxx b_xwyz
  let tmp2 := add_ps tmp2 (mul_ps bv b_xzwy)
  let tmp2 := mul_ps tmp2 scale
  let tmp3 := mul_ps bv b_xwyz
  let tmp3 := sub_ps tmp3 (mul_ps b_xxxx b_xzwy)
  let tmp3 := mul_ps tmp3 scale
  let czero := swz cv 0 0 0 0
  let c_xzwy := swz cv 1 3 2 0
  let c_xwyz := swz cv 2 1 3 0
  let tmp4 := mul_ps bv cv
  let tmp4 := sub_ps tmp4 (mul_ps b_yxxx (swz cv 0 0 0 1))
  let tmp4 := sub_ps tmp4 (mul_ps (swz bv 1 3 3 2) (swz cv 1 3 3 2))
  let tmp4 := sub_ps tmp4 (mul_ps (swz bv 2 1 2 3) (swz cv 2 1 2 3))
  let tmp4 := add_ps tmp4 tmp4
  let tmp5 := mul_ps bv c_xwyz
  let tmp5 := add_ps tmp5 (mul_ps b_xzwy czero)
  let tmp5 := add_ps tmp5 (mul_ps b_xwyz cv)
  let tmp5 := sub_ps tmp5 (mul_ps b_xxxx c_xzwy)
  let tmp5 := mul_ps tmp5 scale
  let tmp6 := mul_ps bv c_xzwy
  let tmp6 := add_ps tmp6 (mul_ps b_xxxx c_xwyz)
  let tmp6 := add_ps tmp6 (mul_ps b_xzwy cv)
  let tmp6 := sub_ps tmp6 (mul_ps b_xwyz czero)
  let tmp6 := mul_ps tmp6 scale
  let p1_in_xzwy := swz (← rd (a)) 1 3 2 0
  let p1_in_xwyz := swz (← rd (a)) 2 1 3 0
  wr (out) (mul_ps tmp (← rd (a)))
  wr (out) (add_ps (← ld (out)) (mul_ps tmp2 p1_in_xzwy))
  wr (out) (add_ps (← ld (out)) (mul_ps tmp3 p1_in_xwyz))
  wr (out + 1) (mul_ps tmp (← rd (a + 1)))
  wr (out + 1) (add_ps (← ld (out + 1)) (mul_ps tmp2 (swz (← rd (a + 1)) 1 3 2 0)))
  wr (out + 1) (add_ps (← ld (out + 1)) (mul_ps tmp3 (swz (← rd (a + 1)) 2 1 3 0)))
  wr (out + 1) (add_ps (← ld (out + 1)) (mul_ps tmp4 (← rd (a))))
  wr (out + 1) (add_ps (← ld (out + 1)) (mul_ps tmp5 p1_in_xwyz))
  wr (out + 1) (add_ps (← ld (out + 1)) (mul_ps tmp6 p1_in_xzwy))

/-- x86_sandwich_cxx11.inl:341-412 `swMM<false, true, false>`. -/
def swMM_cxx11_f_t_f (a : ℕ) (b : ℕ) (c out : ℕ) (count : ℕ) : M F Unit := do
  let bv ← rd b
  let cv ← rd c
  let b_xwyz := swz bv 2 1 3 0
  let b_xzwy := swz bv 1 3 2 0
  let b_yxxx := swz bv 0 0 0 1
  let b_yxxx_2 := mul_ps b_yxxx b_yxxx
  let tmp := mul_ps bv bv
  let tmp := add_ps tmp b_yxxx_2
  let b_tmp := swz bv 2 1 3 2
  let tmp2 := mul_ps b_tmp b_tmp
  let b_tmp := swz bv 1 3 2 3
  let tmp2 := add_ps tmp2 (mul_ps b_tmp b_tmp)
  let tmp := sub_ps tmp (xor_ps tmp2 flip_ss)
  let b_xxxx := swz bv 0 0 0 0
  let scale := set_ps 2 2 2 0
  let tmp2 := mul_ps b_xxxx b_xwyz
  let tmp2 := add_ps tmp2 (mul_ps bv b_xzwy)
  let tmp2 := mul_ps tmp2 scale
  let tmp3 := mul_ps bv b_xwyz
  let tmp3 := sub_ps tmp3 (mul_ps b_xxxx b_xzwy)
  let tmp3 := mul_ps tmp3 scale
  let czero := swz cv 0 0 0 0
  let c_xzwy := swz cv 1 3 2 0
  let c_xwyz := swz cv 2 1 3 0
  let tmp4 := mul_ps bv cv
  let tmp4 := sub_ps tmp4 (mul_ps b_yxxx (swz cv 0 0 0 1))
  let tmp4 := sub_ps tmp4 (mul_ps (swz bv 1 3 3 2) (swz cv 1 3 3 2))
  let tmp4 := sub_ps tmp4 (mul_ps (swz bv 2 1 2 3) (swz cv 2 1 2 3))
  let tmp4 := add_ps tmp4 tmp4
  let tmp5 := mul_ps bv c_xwyz
  let tmp5 := add_ps tmp5 (mul_ps b_xzwy czero)
  let tmp5 := add_ps tmp5 (mul_ps b_xwyz cv)
  let tmp5 := sub_ps tmp5 (mul_ps b_xxxx c_xzwy)
  let tmp5 := mul_ps tmp5 scale
  let tmp6 := mul_ps bv c_xzwy
  let tmp6 := add_ps tmp6 (mul_ps b_xxxx c_xwyz)
  let tmp6 := add_ps tmp6 (mul_ps b_xzwy cv)
  let tmp6 := sub_ps tmp6 (mul_ps b_xwyz czero)
  let tmp6 := mul_ps tmp6 scale
  let p1_in_xzwy := swz (← rd (a)) 1 3 2 0
  let p1_in_xwyz := swz (← rd (a)) 2 1 3 0
  wr (out) (mul_ps tmp (← rd (a)))
  wr (out) (add_ps (← ld (out)) (mul_ps tmp2 p1_in_xzwy))
  wr (out) (add_ps (← ld (out)) (mul_ps tmp3 p1_in_xwyz))
  wr (out + 1) (add_ps (← ld (out + 1)) (mul_ps tmp4 (← rd (a))))
  wr (out + 1) (add_ps (← ld (out + 1)) (mul_ps tmp5 p1_in_xwyz))
  wr (out + 1) (add_ps (← ld (out + 1)) (mul_ps tmp6 p1_in_xzwy))

/-- x86_sandwich_cxx11.inl:414-460 `swMM<false, false, true>`. -/
def swMM_cxx11_f_f_t (a : ℕ) (b : ℕ) (c out : ℕ) (count : ℕ) : M F Unit := do
  let bv ← rd b
  let b_xwyz := swz bv 2 1 3 0
  let b_xzwy := swz bv 1 3 2 0
  let b_yxxx := swz bv 0 0 0 1
  let b_yxxx_2 := mul_ps b_yxxx b_yxxx
  let tmp := mul_ps bv bv
  let tmp := add_ps tmp b_yxxx_2
  let b_tmp := swz bv 2 1 3 2
  let tmp2 := mul_ps b_tmp b_tmp
  let b_tmp := swz bv 1 3 2 3
  let tmp2 := add_ps tmp2 (mul_ps b_tmp b_tmp)
  let tmp := sub_ps tmp (xor_ps tmp2 flip_ss)
  let b_xxxx := swz bv 0 0 0 0
  let scale := set_ps 2 2 2 0
  let tmp2 := mul_ps b_xxxx b_xwyz
  let tmp2 := add_ps tmp2 (mul_ps bv b_xzwy)
  let tmp2 := mul_ps tmp2 scale
  let tmp3 := mul_ps bv b_xwyz
  let tmp3 := sub_ps tmp3 (mul_ps b_xxxx b_xzwy)
  let tmp3 := mul_ps tmp3 scale
  let p1_in_xzwy := swz (← rd (a)) 1 3 2 0
  let p1_in_xwyz := swz (← rd (a)) 2 1 3 0
  wr (out) (mul_ps tmp (← rd (a)))
  wr (out) (add_ps (← ld (out)) (mul_ps tmp2 p1_in_xzwy))
  wr (out) (add_ps (← ld (out)) (mul_ps tmp3 p1_in_xwyz))
  wr (out + 1) (mul_ps tmp (← rd (a + 1)))
  wr (out + 1) (add_ps (← ld (out + 1)) (mul_ps tmp2 (swz (← rd (a + 1)) 1 3 2 0)))
  wr (out + 1) (add_ps (← ld (out + 1)) (mul_ps tmp3 (swz (← rd (a + 1)) 2 1 3 0)))

/-- x86_sandwich_cxx11.inl:462-502 `swMM<false, false, false>`. -/
def swMM_cxx11_f_f_f (a : ℕ) (b : ℕ) (c out : ℕ) (count : ℕ) : M F Unit := do
  let bv ← rd b
  let b_xwyz := swz bv 2 1 3 0
  let b_xzwy := swz bv 1 3 2 0
  let b_yxxx := swz bv 0 0 0 1
  let b_yxxx_2 := mul_ps b_yxxx b_yxxx
  let tmp := mul_ps bv bv
  let tmp := add_ps tmp b_yxxx_2
  let b_tmp := swz bv 2 1 3 2
  let tmp2 := mul_ps b_tmp b_tmp
  let b_tmp := swz bv 1 3 2 3
  let tmp2 := add_ps tmp2 (mul_ps b_tmp b_tmp)
  let tmp := sub_ps tmp (xor_ps tmp2 flip_ss)
  let b_xxxx := swz bv 0 0 0 0
  let scale := set_ps 2 2 2 0
  let tmp2 := mul_ps b_xxxx b_xwyz
  let tmp2 := add_ps tmp2 (mul_ps bv b_xzwy)
  let tmp2 := mul_ps tmp2 scale
  let tmp3 := mul_ps bv b_xwyz
  let tmp3 := sub_ps tmp3 (mul_ps b_xxxx b_xzwy)
  let tmp3 := mul_ps tmp3 scale
  let p1_in_xzwy := swz (← rd (a)) 1 3 2 0
  let p1_in_xwyz := swz (← rd (a)) 2 1 3 0
  wr (out) (mul_ps tmp (← rd (a)))
  wr (out) (add_ps (← ld (out)) (mul_ps tmp2 p1_in_xzwy))
  wr (out) (add_ps (← ld (out)) (mul_ps tmp3 p1_in_xwyz))

/-- x86_sandwich_cxx11.inl:511-559 `sw012<true, true>`. -/
def sw012_cxx11_t_t (isa : Isa) (a : ℕ) (bv : V4 F) (c out : ℕ) (count : ℕ) : M F Unit := do
  let cv ← rd c
  let dc_scale := set_ps 2 2 2 1
  let b_xwyz := swz bv 2 1 3 0
  let b_xzwy := swz bv 1 3 2 0
  let b_xxxx := swz bv 0 0 0 0
  let tmp1 := mul_ps (swz bv 0 0 0 2) (swz bv 2 1 3 2)
  let tmp1 := add_ps tmp1 (mul_ps (swz bv 1 3 2 1) (swz bv 3 2 1 1))
  let tmp1 := mul_ps tmp1 dc_scale
  let tmp2 := mul_ps bv b_xwyz
  let tmp2 := sub_ps tmp2 (xor_ps (mul_ps (swz bv 0 0 0 3) (swz bv 1 3 2 3)) flip_ss)
  let tmp2 := mul_ps tmp2 dc_scale
  let tmp3 := mul_ps bv bv
  let tmp3 := sub_ps tmp3 (mul_ps b_xwyz b_xwyz)
  let tmp3 := add_ps tmp3 (mul_ps b_xxxx b_xxxx)
  let tmp3 := sub_ps tmp3 (mul_ps b_xzwy b_xzwy)
  let tmp4 := mul_ps b_xxxx cv
  let tmp4 := add_ps tmp4 (mul_ps b_xzwy (swz cv 2 1 3 0))
  let tmp4 := add_ps tmp4 (mul_ps bv (swz cv 0 0 0 0))
  let tmp4 := sub_ps tmp4 (mul_ps b_xwyz (swz cv 1 3 2 0))
  let tmp4 := mul_ps tmp4 dc_scale
  loop (fun i => do
    wr (out + i) (mul_ps tmp1 (swz (← rd (a + i)) 1 3 2 0))
    wr (out + i) (add_ps (← ld (out + i)) (mul_ps tmp2 (swz (← rd (a + i)) 2 1 3 0)))
    wr (out + i) (add_ps (← ld (out + i)) (mul_ps tmp3 (← rd (a + i))))
    let tmp5 := hi_dp isa tmp4 (← rd (a + i))
    wr (out + i) (add_ps (← ld (out + i)) tmp5)) count

/-- x86_sandwich_cxx11.inl:561-600 `sw012<true, false>`. -/
def sw012_cxx11_t_f (isa : Isa) (a : ℕ) (bv : V4 F) (c out : ℕ) (count : ℕ) : M F Unit := do
  let dc_scale := set_ps 2 2 2 1
  let b_xwyz := swz bv 2 1 3 0
  let b_xzwy := swz bv 1 3 2 0
  let b_xxxx := swz bv 0 0 0 0
  let tmp1 := mul_ps (swz bv 0 0 0 2) (swz bv 2 1 3 2)
  let tmp1 := add_ps tmp1 (mul_ps (swz bv 1 3 2 1) (swz bv 3 2 1 1))
  let tmp1 := mul_ps tmp1 dc_scale
  let tmp2 := mul_ps bv b_xwyz
  let tmp2 := sub_ps tmp2 (xor_ps (mul_ps (swz bv 0 0 0 3) (swz bv 1 3 2 3)) flip_ss)
  let tmp2 := mul_ps tmp2 dc_scale
  let tmp3 := mul_ps bv bv
  let tmp3 := sub_ps tmp3 (mul_ps b_xwyz b_xwyz)
  let tmp3 := add_ps tmp3 (mul_ps b_xxxx b_xxxx)
  let tmp3 := sub_ps tmp3 (mul_ps b_xzwy b_xzwy)
  loop (fun i => do
    wr (out + i) (mul_ps tmp1 (swz (← rd (a + i)) 1 3 2 0))
    wr (out + i) (add_ps (← ld (out + i)) (mul_ps tmp2 (swz (← rd (a + i)) 2 1 3 0)))
    wr (out + i) (add_ps (← ld (out + i)) (mul_ps tmp3 (← rd (a + i))))) count

/-- x86_sandwich_cxx11.inl:602-647 `sw012<false, true>`. -/
def sw012_cxx11_f_t (isa : Isa) (a : ℕ) (bv : V4 F) (c out : ℕ) (count : ℕ) : M F Unit := do
  let cv ← rd c
  let dc_scale := set_ps 2 2 2 1
  let b_xwyz := swz bv 2 1 3 0
  let b_xzwy := swz bv 1 3 2 0
  let b_xxxx := swz bv 0 0 0 0
  let tmp1 := mul_ps (swz bv 0 0 0 2) (swz bv 2 1 3 2)
  let tmp1 := add_ps tmp1 (mul_ps (swz bv 1 3 2 1) (swz bv 3 2 1 1))
  let tmp1 := mul_ps tmp1 dc_scale
  let tmp2 := mul_ps bv b_xwyz
  let tmp2 := sub_ps tmp2 (xor_ps (mul_ps (swz bv 0 0 0 3) (swz bv 1 3 2 3)) flip_ss)
  let tmp2 := mul_ps tmp2 dc_scale
  let tmp3 := mul_ps bv bv
  let tmp3 := sub_ps tmp3 (mul_ps b_xwyz b_xwyz)
  let tmp3 := add_ps tmp3 (mul_ps b_xxxx b_xxxx)
  let tmp3 := sub_ps tmp3 (mul_ps b_xzwy b_xzwy)
  let tmp4 := mul_ps b_xxxx cv
  let tmp4 := add_ps tmp4 (mul_ps b_xzwy (swz cv 2 1 3 0))
  let tmp4 := add_ps tmp4 (mul_ps bv (swz cv 0 0 0 0))
  let tmp4 := sub_ps tmp4 (mul_ps b_xwyz (swz cv 1 3 2 0))
  let tmp4 := mul_ps tmp4 dc_scale
  wr (out) (mul_ps tmp1 (swz (← rd (a)) 1 3 2 0))
  wr (out) (add_ps (← ld (out)) (mul_ps tmp2 (swz (← rd (a)) 2 1 3 0)))
  wr (out) (add_ps (← ld (out)) (mul_ps tmp3 (← rd (a))))
  let tmp5 := hi_dp isa tmp4 (← rd (a))
  wr (out) (add_ps (← ld (out)) tmp5)

/-- x86_sandwich_cxx11.inl:649-685 `sw012<false, false>`. -/
def sw012_cxx11_f_f (isa : Isa) (a : ℕ) (bv : V4 F) (c out : ℕ) (count : ℕ) : M F Unit := do
  let dc_scale := set_ps 2 2 2 1
  let b_xwyz := swz bv 2 1 3 0
  let b_xzwy := swz bv 1 3 2 0
  let b_xxxx := swz bv 0 0 0 0
  let tmp1 := mul_ps (swz bv 0 0 0 2) (swz bv 2 1 3 2)
  let tmp1 := add_ps tmp1 (mul_ps (swz bv 1 3 2 1) (swz bv 3 2 1 1))
  let tmp1 := mul_ps tmp1 dc_scale
  let tmp2 := mul_ps bv b_xwyz
  let tmp2 := sub_ps tmp2 (xor_ps (mul_ps (swz bv 0 0 0 3) (swz bv 1 3 2 3)) flip_ss)
  let tmp2 := mul_ps tmp2 dc_scale
  let tmp3 := mul_ps bv bv
  let tmp3 := sub_ps tmp3 (mul_ps b_xwyz b_xwyz)
  let tmp3 := add_ps tmp3 (mul_ps b_xxxx b_xxxx)
  let tmp3 := sub_ps tmp3 (mul_ps b_xzwy b_xzwy)
  wr (out) (mul_ps tmp1 (swz (← rd (a)) 1 3 2 0))
  wr (out) (add_ps (← ld (out)) (mul_ps tmp2 (swz (← rd (a)) 2 1 3 0)))
  wr (out) (add_ps (← ld (out)) (mul_ps tmp3 (← rd (a))))

/-- x86_sandwich_cxx11.inl:694-738 `sw312<true, true>`. -/
def sw312_cxx11_t_t (a : ℕ) (bv : V4 F) (c out : ℕ) (count : ℕ) : M F Unit := do
  let cv ← rd c
  let two := set_ps 2 2 2 0
  let b_xxxx := swz bv 0 0 0 0
  let b_xwyz := swz bv 2 1 3 0
  let b_xzwy := swz bv 1 3 2 0
  let tmp1 := mul_ps bv b_xwyz
  let tmp1 := sub_ps tmp1 (mul_ps b_xxxx b_xzwy)
  let tmp1 := mul_ps tmp1 two
  let tmp2 := mul_ps b_xxxx b_xwyz
  let tmp2 := add_ps tmp2 (mul_ps b_xzwy bv)
  let tmp2 := mul_ps tmp2 two
  let tmp3 := mul_ps bv bv
  let b_tmp := swz bv 0 0 0 1
  let tmp3 := add_ps tmp3 (mul_ps b_tmp b_tmp)
  let b_tmp := swz bv 2 1 3 2
  let tmp4 := mul_ps b_tmp b_tmp
  let b_tmp := swz bv 1 3 2 3
  let tmp4 := add_ps tmp4 (mul_ps b_tmp b_tmp)
  let tmp3 := sub_ps tmp3 (xor_ps tmp4 flip_ss)
  let tmp4 := mul_ps b_xzwy (swz cv 2 1 3 0)
  let tmp4 := sub_ps tmp4 (mul_ps b_xxxx cv)
  let tmp4 := sub_ps tmp4 (mul_ps b_xwyz (swz cv 1 3 2 0))
  let tmp4 := sub_ps tmp4 (mul_ps bv (swz cv 0 0 0 0))
  let tmp4 := mul_ps tmp4 two
  loop (fun i => do
    wr (out + i) (mul_ps tmp1 (swz (← rd (a + i)) 2 1 3 0))
    wr (out + i) (add_ps (← ld (out + i)) (mul_ps tmp2 (swz (← rd (a + i)) 1 3 2 0)))
    wr (out + i) (add_ps (← ld (out + i)) (mul_ps tmp3 (← rd (a + i))))
    wr (out + i) (add_ps (← ld (out + i)) (mul_ps tmp4 (swz (← rd (a + i)) 0 0 0 0)))) count

/-- x86_sandwich_cxx11.inl:740-776 `sw312<true, false>`. -/
def sw312_cxx11_t_f (a : ℕ) (bv : V4 F) (c out : ℕ) (count : ℕ) : M F Unit := do
  let two := set_ps 2 2 2 0
  let b_xxxx := swz bv 0 0 0 0
  let b_xwyz := swz bv 2 1 3 0
  let b_xzwy := swz bv 1 3 2 0
  let tmp1 := mul_ps bv b_xwyz
  let tmp1 := sub_ps tmp1 (mul_ps b_xxxx b_xzwy)
  let tmp1 := mul_ps tmp1 two
  let tmp2 := mul_ps b_xxxx b_xwyz
  let tmp2 := add_ps tmp2 (mul_ps b_xzwy bv)
  let tmp2 := mul_ps tmp2 two
  let tmp3 := mul_ps bv bv
  let b_tmp := swz bv 0 0 0 1
  let tmp3 := add_ps tmp3 (mul_ps b_tmp b_tmp)
  let b_tmp := swz bv 2 1 3 2
  let tmp4 := mul_ps b_tmp b_tmp
  let b_tmp := swz bv 1 3 2 3
  let tmp4 := add_ps tmp4 (mul_ps b_tmp b_tmp)
  let tmp3 := sub_ps tmp3 (xor_ps tmp4 flip_ss)
  loop (fun i => do
    wr (out + i) (mul_ps tmp1 (swz (← rd (a + i)) 2 1 3 0))
    wr (out + i) (add_ps (← ld (out + i)) (mul_ps tmp2 (swz (← rd (a + i)) 1 3 2 0)))
    wr (out + i) (add_ps (← ld (out + i)) (mul_ps tmp3 (← rd (a + i))))) count

/-- x86_sandwich_cxx11.inl:778-820 `sw312<false, true>`. -/
def sw312_cxx11_f_t (a : ℕ) (bv : V4 F) (c out : ℕ) (count : ℕ) : M F Unit := do
  let cv ← rd c
  let two := set_ps 2 2 2 0
  let b_xxxx := swz bv 0 0 0 0
  let b_xwyz := swz bv 2 1 3 0
  let b_xzwy := swz bv 1 3 2 0
  let tmp1 := mul_ps bv b_xwyz
  let tmp1 := sub_ps tmp1 (mul_ps b_xxxx b_xzwy)
  let tmp1 := mul_ps tmp1 two
  let tmp2 := mul_ps b_xxxx b_xwyz
  let tmp2 := add_ps tmp2 (mul_ps b_xzwy bv)
  let tmp2 := mul_ps tmp2 two
  let tmp3 := mul_ps bv bv
  let b_tmp := swz bv 0 0 0 1
  let tmp3 := add_ps tmp3 (mul_ps b_tmp b_tmp)
  let b_tmp := swz bv 2 1 3 2
  let tmp4 := mul_ps b_tmp b_tmp
  let b_tmp := swz bv 1 3 2 3
  let tmp4 := add_ps tmp4 (mul_ps b_tmp b_tmp)
  let tmp3 := sub_ps tmp3 (xor_ps tmp4 flip_ss)
  let tmp4 := mul_ps b_xzwy (swz cv 2 1 3 0)
  let tmp4 := sub_ps tmp4 (mul_ps b_xxxx cv)
  let tmp4 := sub_ps tmp4 (mul_ps b_xwyz (swz cv 1 3 2 0))
  let tmp4 := sub_ps tmp4 (mul_ps bv (swz cv 0 0 0 0))
  let tmp4 := mul_ps tmp4 two
  wr (out) (mul_ps tmp1 (swz (← rd (a)) 2 1 3 0))
  wr (out) (add_ps (← ld (out)) (mul_ps tmp2 (swz (← rd (a)) 1 3 2 0)))
  wr (out) (add_ps (← ld (out)) (mul_ps tmp3 (← rd (a))))
  wr (out) (add_ps (← ld (out)) (mul_ps tmp4 (swz (← rd (a)) 0 0 0 0)))

/-- x86_sandwich_cxx11.inl:822-854 `sw312<false, false>`. -/
def sw312_cxx11_f_f (a : ℕ) (bv : V4 F) (c out : ℕ) (count : ℕ) : M F Unit := do
  let two := set_ps 2 2 2 0
  let b_xxxx := swz bv 0 0 0 0
  let b_xwyz := swz bv 2 1 3 0
  let b_xzwy := swz bv 1 3 2 0
  let tmp1 := mul_ps bv b_xwyz
  let tmp1 := sub_ps tmp1 (mul_ps b_xxxx b_xzwy)
  let tmp1 := mul_ps tmp1 two
  let tmp2 := mul_ps b_xxxx b_xwyz
  let tmp2 := add_ps tmp2 (mul_ps b_xzwy bv)
  let tmp2 := mul_ps tmp2 two
  let tmp3 := mul_ps bv bv
  let b_tmp := swz bv 0 0 0 1
  let tmp3 := add_ps tmp3 (mul_ps b_tmp b_tmp)
  let b_tmp := swz bv 2 1 3 2
  let tmp4 := mul_ps b_tmp b_tmp
  let b_tmp := swz bv 1 3 2 3
  let tmp4 := add_ps tmp4 (mul_ps b_tmp b_tmp)
  let tmp3 := sub_ps tmp3 (xor_ps tmp4 flip_ss)
  wr (out) (mul_ps tmp1 (swz (← rd (a)) 2 1 3 0))
  wr (out) (add_ps (← ld (out)) (mul_ps tmp2 (swz (← rd (a)) 1 3 2 0)))
  wr (out) (add_ps (← ld (out)) (mul_ps tmp3 (← rd (a))))

/-- x86_matrix_cxx11.inl:8-57 `mat4x4_12<true, true>`; `c3_init` is the content
of `out[3]` on entry. -/
@[kln] def mat4x4_12_cxx11_t_t (isa : Isa) (b : V4 F) (c : V4 F) (c3_init : V4 F) : Mat4 F :=
  let buf := mul_ps b b
  let b0_2 := buf.l0
  let b1_2 := buf.l1
  let b2_2 := buf.l2
  let b3_2 := buf.l3
  let c0 := mul_ps b (swz b 0 0 2 0)
  let tmp := mul_ps (swz b 0 1 3 1) (swz b 0 3 0 1)
  let tmp := xor_ps tmp ⟨false, true, false, false⟩
  let c0 := mul_ps (set_ps 0 2 2 1) (add_ps c0 tmp)
  let c0 := sub_ps c0 (set_ss (b3_2 + b2_2))
  let c1 := mul_ps b (swz b 0 3 1 3)
  let tmp := mul_ps (swz b 0 0 3 2) (swz b 0 1 3 1)
  let tmp := xor_ps tmp ⟨false, false, true, false⟩
  let c1 := mul_ps (set_ps 0 2 (-1) 2) (add_ps c1 tmp)
  let c1 := add_ps c1 (set_ps 0 0 (b0_2 + b2_2) 0)
  let c2 := xor_ps (mul_ps b (swz b 0 2 0 2)) ⟨true, false, true, false⟩
  let c2 := add_ps c2 (mul_ps (swz b 0 0 2 1) (swz b 0 0 3 3))
  let c2 := mul_ps c2 (set_ps 0 1 2 2)
  let c2 := add_ps c2 (set_ps 0 (b3_2 - b1_2) 0 0)
  let c3 := mul_ps b (swz c 0 1 3 1)
  let c3 := add_ps c3 (mul_ps (swz b 0 0 0 3) (swz c 0 3 2 2))
  let c3 := add_ps c3 (mul_ps (swz b 0 3 2 1) (swz c 0 0 0 0))
  let tmp := mul_ps (swz b 0 1 3 2) (swz c 0 2 1 3)
  let c3 := mul_ps (set_ps 0 2 2 2) (sub_ps tmp c3)
  let c3 := match isa with
    | .sse41 => blend_ps c3 (set_ps 1 0 0 0) true false false false
    | .sse3 => add_ps c3 (set_ps 1 0 0 0)
  ⟨c0, c1, c2, c3⟩

/-- x86_matrix_cxx11.inl:59-109 `mat4x4_12<true, false>`; `c3_init` is the content
of `out[3]` on entry. -/
@[kln] def mat4x4_12_cxx11_t_f (isa : Isa) (b : V4 F) (c : V4 F) (c3_init : V4 F) : Mat4 F :=
  let buf := mul_ps b b
  let b0_2 := buf.l0
  let b1_2 := buf.l1
  let b2_2 := buf.l2
  let b3_2 := buf.l3
  let c0 := mul_ps b (swz b 0 0 2 0)
  let tmp := mul_ps (swz b 0 1 3 1) (swz b 0 3 0 1)
  let tmp := xor_ps tmp ⟨false, true, false, false⟩
  let c0 := mul_ps (set_ps 0 2 2 1) (add_ps c0 tmp)
  let c0 := sub_ps c0 (set_ss (b3_2 + b2_2))
  let c1 := mul_ps b (swz b 0 3 1 3)
  let tmp := mul_ps (swz b 0 0 3 2) (swz b 0 1 3 1)
  let tmp := xor_ps tmp ⟨false, false, true, false⟩
  let c1 := mul_ps (set_ps 0 2 (-1) 2) (add_ps c1 tmp)
  let c1 := add_ps c1 (set_ps 0 0 (b0_2 + b2_2) 0)
  let c2 := xor_ps (mul_ps b (swz b 0 2 0 2)) ⟨true, false, true, false⟩
  let c2 := add_ps c2 (mul_ps (swz b 0 0 2 1) (swz b 0 0 3 3))
  let c2 := mul_ps c2 (set_ps 0 1 2 2)
  let c2 := add_ps c2 (set_ps 0 (b3_2 - b1_2) 0 0)
  let c3 := mul_ps b (swz c 0 1 3 1)
  let c3 := add_ps c3 (mul_ps (swz b 0 0 0 3) (swz c 0 3 2 2))
  let c3 := add_ps c3 (mul_ps (swz b 0 3 2 1) (swz c 0 0 0 0))
  let tmp := mul_ps (swz b 0 1 3 2) (swz c 0 2 1 3)
  let c3 := mul_ps (set_ps 0 2 2 2) (sub_ps tmp c3)
  let c3 := match isa with
    | .sse41 => blend_ps c3 (set_ps (((b0_2 + b1_2) + b2_2) + b3_2) 0 0 0) true false false false
    | .sse3 => add_ps c3 (set_ps (((b0_2 + b1_2) + b2_2) + b3_2) 0 0 0)
  ⟨c0, c1, c2, c3⟩

/-- x86_matrix_cxx11.inl:111-152 `mat4x4_12<false, true>`; `c3_init` is the content
of `out[3]` on entry. -/
@[kln] def mat4x4_12_cxx11_f_t (isa : Isa) (b : V4 F) (c3_init : V4 F) : Mat4 F :=
  let c3 := c3_init
  let buf := mul_ps b b
  let b0_2 := buf.l0
  let b1_2 := buf.l1
  let b2_2 := buf.l2
  let b3_2 := buf.l3
  let c0 := mul_ps b (swz b 0 0 2 0)
  let tmp := mul_ps (swz b 0 1 3 1) (swz b 0 3 0 1)
  let tmp := xor_ps tmp ⟨false, true, false, false⟩
  let c0 := mul_ps (set_ps 0 2 2 1) (add_ps c0 tmp)
  let c0 := sub_ps c0 (set_ss (b3_2 + b2_2))
  let c1 := mul_ps b (swz b 0 3 1 3)
  let tmp := mul_ps (swz b 0 0 3 2) (swz b 0 1 3 1)
  let tmp := xor_ps tmp ⟨false, false, true, false⟩
  let c1 := mul_ps (set_ps 0 2 (-1) 2) (add_ps c1 tmp)
  let c1 := add_ps c1 (set_ps 0 0 (b0_2 + b2_2) 0)
  let c2 := xor_ps (mul_ps b (swz b 0 2 0 2)) ⟨true, false, true, false⟩
  let c2 := add_ps c2 (mul_ps (swz b 0 0 2 1) (swz b 0 0 3 3))
  let c2 := mul_ps c2 (set_ps 0 1 2 2)
  let c2 := add_ps c2 (set_ps 0 (b3_2 - b1_2) 0 0)
  let c3 := match isa with
    | .sse41 => blend_ps c3 (set_ps 1 0 0 0) true false false false
    | .sse3 => add_ps c3 (set_ps 1 0 0 0)
  ⟨c0, c1, c2, c3⟩

/-- x86_matrix_cxx11.inl:154-196 `mat4x4_12<false, false>`; `c3_init` is the content
of `out[3]` on entry. -/
@[kln] def mat4x4_12_cxx11_f_f (isa : Isa) (b : V4 F) (c3_init : V4 F) : Mat4 F :=
  let c3 := c3_init
  let buf := mul_ps b b
  let b0_2 := buf.l0
  let b1_2 := buf.l1
  let b2_2 := buf.l2
  let b3_2 := buf.l3
  let c0 := mul_ps b (swz b 0 0 2 0)
  let tmp := mul_ps (swz b 0 1 3 1) (swz b 0 3 0 1)
  let tmp := xor_ps tmp ⟨false, true, false, false⟩
  let c0 := mul_ps (set_ps 0 2 2 1) (add_ps c0 tmp)
  let c0 := sub_ps c0 (set_ss (b3_2 + b2_2))
  let c1 := mul_ps b (swz b 0 3 1 3)
  let tmp := mul_ps (swz b 0 0 3 2) (swz b 0 1 3 1)
  let tmp := xor_ps tmp ⟨false, false, true, false⟩
  let c1 := mul_ps (set_ps 0 2 (-1) 2) (add_ps c1 tmp)
  let c1 := add_ps c1 (set_ps 0 0 (b0_2 + b2_2) 0)
  let c2 := xor_ps (mul_ps b (swz b 0 2 0 2)) ⟨true, false, true, false⟩
  let c2 := add_ps c2 (mul_ps (swz b 0 0 2 1) (swz b 0 0 3 3))
  let c2 := mul_ps c2 (set_ps 0 1 2 2)
  let c2 := add_ps c2 (set_ps 0 (b3_2 - b1_2) 0 0)
  let c3 := match isa with
    | .sse41 => blend_ps c3 (set_ps (((b0_2 + b1_2) + b2_2) + b3_2) 0 0 0) true false false false
    | .sse3 => add_ps c3 (set_ps (((b0_2 + b1_2) + b2_2) + b3_2) 0 0 0)
  ⟨c0, c1, c2, c3⟩

end Klein
