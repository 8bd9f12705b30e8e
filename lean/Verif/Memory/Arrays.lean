import Verif.Memory.Basic
import Verif.Kernels.Sandwich
import Verif.Api.Entities

/-!
# The array overloads (C++17 build)

`sw012`, `sw312`, `swMM` of `/repo/public/klein/detail/x86/x86_sandwich.hpp` as programs on memory,
one action per C++ statement of the loop, and the public overloads of `rotor.hpp` and `motor.hpp`
that call them.  The statements before the loop only read `b` and `*c` and are the pure functions
`sw012_rot`, ... of `Verif.Kernels.Sandwich`; `*c` (and `b` in `swMM`, a reference) is read once on
entry instead of at each use, which no statement before the loop can distinguish.

`size_t` is modelled by `ℕ`: an array of `2^64` elements does not fit in memory.
-/

set_option linter.unusedVariables false

namespace Klein

open Mem

variable {F : Type}
variable [Add F] [Sub F] [Mul F] [Neg F] [Zero F] [One F] [NatCast F]

/-- x86_sandwich.hpp:496-509, body of the loop of `sw012`; `tmp4 = none` is `Translate = false`. -/
def sw012_body (isa : Isa) (t : SwRot F) (tmp4 : Option (V4 F)) (a out i : ℕ) : M F Unit := do
  wr (out + i) (mul_ps t.tmp1 (swz (← rd (a + i)) 1 3 2 0))
  wr (out + i) (add_ps (← ld (out + i)) (mul_ps t.tmp2 (swz (← rd (a + i)) 2 1 3 0)))
  wr (out + i) (add_ps (← ld (out + i)) (mul_ps t.tmp3 (← rd (a + i))))
  match tmp4 with
  | none => pure ()
  | some tmp4 => do
    let tmp5 := hi_dp isa tmp4 (← rd (a + i))
    wr (out + i) (add_ps (← ld (out + i)) tmp5)

/-- x86_sandwich.hpp:406-511 `sw012<Variadic, Translate>`; `limit` is `Variadic ? count : 1`. -/
def sw012_mem (isa : Isa) (translate : Bool) (a : ℕ) (b : V4 F) (c out limit : ℕ) : M F Unit := do
  let t := sw012_rot b
  let tmp4 ← match translate with
    | true => do let cv ← rd c; pure (some (sw012_trans b cv))
    | false => pure none
  loop (sw012_body isa t tmp4 a out) limit

/-- x86_sandwich.hpp:583-597, body of the loop of `sw312`. -/
def sw312_body (t : SwRot F) (tmp4 : Option (V4 F)) (a out i : ℕ) : M F Unit := do
  wr (out + i) (mul_ps t.tmp1 (swz (← rd (a + i)) 2 1 3 0))
  wr (out + i) (add_ps (← ld (out + i)) (mul_ps t.tmp2 (swz (← rd (a + i)) 1 3 2 0)))
  wr (out + i) (add_ps (← ld (out + i)) (mul_ps t.tmp3 (← rd (a + i))))
  match tmp4 with
  | none => pure ()
  | some tmp4 => do
    wr (out + i) (add_ps (← ld (out + i)) (mul_ps tmp4 (swz (← rd (a + i)) 0 0 0 0)))

/-- x86_sandwich.hpp:514-598 `sw312<Variadic, Translate>`; `limit` is `Variadic ? count : 1`. -/
def sw312_mem (translate : Bool) (a : ℕ) (b : V4 F) (c out limit : ℕ) : M F Unit := do
  let t := sw312_rot b
  let tmp4 ← match translate with
    | true => do let cv ← rd c; pure (some (sw312_trans b cv))
    | false => pure none
  loop (sw312_body t tmp4 a out) limit

/-- x86_sandwich.hpp:363-397, body of the loop of `swMM`; `p1_in`, `p2_in` are references into the
input array, `p1_in_xzwy` and `p1_in_xwyz` are copies. -/
def swMM_body (inputP2 : Bool) (t : SwMMRot F) (u : Option (SwMMTrans F)) (a out i : ℕ) :
    M F Unit := do
  let stride := match inputP2 with | true => 2 | false => 1
  let p1_in_xzwy := swz (← rd (a + stride * i)) 1 3 2 0
  let p1_in_xwyz := swz (← rd (a + stride * i)) 2 1 3 0
  wr (out + stride * i) (mul_ps t.tmp (← rd (a + stride * i)))
  wr (out + stride * i) (add_ps (← ld (out + stride * i)) (mul_ps t.tmp2 p1_in_xzwy))
  wr (out + stride * i) (add_ps (← ld (out + stride * i)) (mul_ps t.tmp3 p1_in_xwyz))
  match inputP2 with
  | false => pure ()
  | true => do
    wr (out + (2 * i + 1)) (mul_ps t.tmp (← rd (a + (2 * i + 1))))
    wr (out + (2 * i + 1)) (add_ps (← ld (out + (2 * i + 1)))
      (mul_ps t.tmp2 (swz (← rd (a + (2 * i + 1))) 1 3 2 0)))
    wr (out + (2 * i + 1)) (add_ps (← ld (out + (2 * i + 1)))
      (mul_ps t.tmp3 (swz (← rd (a + (2 * i + 1))) 2 1 3 0)))
  match u with
  | none => pure ()
  | some u => do
    wr (out + (2 * i + 1)) (add_ps (← ld (out + (2 * i + 1)))
      (mul_ps u.tmp4 (← rd (a + stride * i))))
    wr (out + (2 * i + 1)) (add_ps (← ld (out + (2 * i + 1))) (mul_ps u.tmp5 p1_in_xwyz))
    wr (out + (2 * i + 1)) (add_ps (← ld (out + (2 * i + 1))) (mul_ps u.tmp6 p1_in_xzwy))

/-- x86_sandwich.hpp:253-398 `swMM<Variadic, Translate, InputP2>`; `limit` is
`Variadic ? count : 1`; `b` is the address of the rotor part (passed by `__restrict` reference). -/
def swMM_mem (translate inputP2 : Bool) (a b c out limit : ℕ) : M F Unit := do
  let bv ← rd b
  let t := swMM_rot bv
  let u ← match translate with
    | true => do let cv ← rd c; pure (some (swMM_trans bv cv))
    | false => pure none
  loop (swMM_body inputP2 t u a out) limit

/-! ### public overloads; `this`, `in`, `out` are addresses -/

/-- rotor.hpp:263-266. -/
def Rotor.onPlanes (isa : Isa) (this inp out count : ℕ) : M F Unit := do
  sw012_mem isa false inp (← ld this) 0 out count
/-- rotor.hpp:293-296. -/
def Rotor.onLines (this inp out count : ℕ) : M F Unit := swMM_mem false true inp this 0 out count
/-- rotor.hpp:317-321. -/
def Rotor.onPoints (isa : Isa) (this inp out count : ℕ) : M F Unit := do
  sw012_mem isa false inp (← ld this) 0 out count
/-- rotor.hpp:342-348. -/
def Rotor.onDirections (isa : Isa) (this inp out count : ℕ) : M F Unit := do
  sw012_mem isa false inp (← ld this) 0 out count
/-- motor.hpp:295-298. -/
def Motor.onPlanes (isa : Isa) (this inp out count : ℕ) : M F Unit := do
  sw012_mem isa true inp (← ld this) (this + 1) out count
/-- motor.hpp:318-321. -/
def Motor.onLines (this inp out count : ℕ) : M F Unit :=
  swMM_mem true true inp this (this + 1) out count
/-- motor.hpp:341-344. -/
def Motor.onPoints (this inp out count : ℕ) : M F Unit := do
  sw312_mem true inp (← ld this) (this + 1) out count
/-- motor.hpp:379-384. -/
def Motor.onDirections (this inp out count : ℕ) : M F Unit := do
  sw312_mem false inp (← ld this) 0 out count

end Klein
