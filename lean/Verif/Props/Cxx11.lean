import Verif.Memory.Cxx11

/-!
# C43: the C++11 and the C++17 code paths are the same program

For every template instantiation the C++11 specialisation and the C++17 `if constexpr` version are
equal as programs: same value in every final memory slot, same set of accesses, for every memory,
every aliasing of the arguments and every (law-free) lane arithmetic.
-/

namespace Klein

open Mem

variable {F : Type}
variable [Add F] [Sub F] [Mul F] [Neg F] [Zero F] [One F] [NatCast F]

theorem C43_sw012_array_translate (isa : Isa) (a : ℕ) (b : V4 F) (c out count : ℕ) :
    sw012_cxx11_t_t isa a b c out count = sw012_mem isa true a b c out count := rfl
theorem C43_sw012_array (isa : Isa) (a : ℕ) (b : V4 F) (c out count : ℕ) :
    sw012_cxx11_t_f isa a b c out count = sw012_mem isa false a b c out count := rfl
theorem C43_sw012_single_translate (isa : Isa) (a : ℕ) (b : V4 F) (c out count : ℕ) :
    sw012_cxx11_f_t isa a b c out count = sw012_mem isa true a b c out 1 := rfl
theorem C43_sw012_single (isa : Isa) (a : ℕ) (b : V4 F) (c out count : ℕ) :
    sw012_cxx11_f_f isa a b c out count = sw012_mem isa false a b c out 1 := rfl

theorem C43_sw312_array_translate (a : ℕ) (b : V4 F) (c out count : ℕ) :
    sw312_cxx11_t_t a b c out count = sw312_mem true a b c out count := rfl
theorem C43_sw312_array (a : ℕ) (b : V4 F) (c out count : ℕ) :
    sw312_cxx11_t_f a b c out count = sw312_mem false a b c out count := rfl
theorem C43_sw312_single_translate (a : ℕ) (b : V4 F) (c out count : ℕ) :
    sw312_cxx11_f_t a b c out count = sw312_mem true a b c out 1 := rfl
theorem C43_sw312_single (a : ℕ) (b : V4 F) (c out count : ℕ) :
    sw312_cxx11_f_f a b c out count = sw312_mem false a b c out 1 := rfl

theorem C43_swMM_array_translate_line (a b c out count : ℕ) :
    (swMM_cxx11_t_t_t a b c out count : M F Unit) = swMM_mem true true a b c out count := rfl
theorem C43_swMM_array_line (a b c out count : ℕ) :
    (swMM_cxx11_t_f_t a b c out count : M F Unit) = swMM_mem false true a b c out count := rfl
theorem C43_swMM_single_translate_line (a b c out count : ℕ) :
    (swMM_cxx11_f_t_t a b c out count : M F Unit) = swMM_mem true true a b c out 1 := rfl
theorem C43_swMM_single_line (a b c out count : ℕ) :
    (swMM_cxx11_f_f_t a b c out count : M F Unit) = swMM_mem false true a b c out 1 := rfl

/-- The instantiations with one partition per element: `1 * i` in the C++17 text is `i` in the
C++11 text. -/
theorem C43_swMM_array_branch (a b c out count : ℕ) :
    (swMM_cxx11_t_f_f a b c out count : M F Unit) = swMM_mem false false a b c out count := by
  unfold swMM_cxx11_t_f_f swMM_mem swMM_body
  simp only [Nat.one_mul]
  rfl
theorem C43_swMM_single_branch (a b c out count : ℕ) :
    (swMM_cxx11_f_f_f a b c out count : M F Unit) = swMM_mem false false a b c out 1 := rfl
theorem C43_swMM_array_translate_branch (a b c out count : ℕ) :
    (swMM_cxx11_t_t_f a b c out count : M F Unit) = swMM_mem true false a b c out count := by
  unfold swMM_cxx11_t_t_f swMM_mem swMM_body
  simp only [Nat.one_mul]
  rfl
theorem C43_swMM_single_translate_branch (a b c out count : ℕ) :
    (swMM_cxx11_f_t_f a b c out count : M F Unit) = swMM_mem true false a b c out 1 := rfl

/-! ### matrices -/
theorem C43_mat4x4_translate_normalized (isa : Isa) (b c m : V4 F) :
    mat4x4_12_cxx11_t_t isa b c m = mat4x4_12 isa true b (some c) m := by cases isa <;> rfl
theorem C43_mat4x4_translate (isa : Isa) (b c m : V4 F) :
    mat4x4_12_cxx11_t_f isa b c m = mat4x4_12 isa false b (some c) m := by cases isa <;> rfl
theorem C43_mat4x4_normalized (isa : Isa) (b m : V4 F) :
    mat4x4_12_cxx11_f_t isa b m = mat4x4_12 isa true b none m := by cases isa <;> rfl
theorem C43_mat4x4 (isa : Isa) (b m : V4 F) :
    mat4x4_12_cxx11_f_f isa b m = mat4x4_12 isa false b none m := by cases isa <;> rfl

end Klein
