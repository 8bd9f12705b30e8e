import Verif.Simd
import Mathlib.Data.Int.Notation

/-!
# The instructions of docs/perf.md

docs/perf.md prints the code compilers make of two operations of the library and of the corresponding
operations of two other libraries.  This file is a model of the instructions that occur there: sixteen
`xmm` registers, `eax`, `rax`, the two arguments (`rdi`, `rsi`), the stack below `rsp` and the constants
(`.LCPI…(%rip)`, whose values the page does not show).  The operands are in AT&T order, source first.

As in `Verif.Simd` the lanes are of any type with raw operations.  A register holds four lanes or a sign
mask; an operation on anything else, or a read of something not written before, is `none`.
-/

namespace Klein.Asm

/-- What an `xmm` register or a constant holds. -/
inductive XV (F : Type)
  | flt (v : V4 F)
  | mask (m : SMask)

/-- The base registers. -/
inductive Base
  | rdi | rsi | rsp
  deriving DecidableEq

/-- Source operands: a register, memory, a constant. -/
inductive Src
  | x (i : ℕ)
  | m (b : Base) (off : ℤ)
  | c (n : ℕ)

/-- The instructions. -/
inductive Ins
  /-- `movaps src, %xmm d`. -/
  | movaps (s : Src) (d : ℕ)
  /-- `movaps %xmm s, off(%rsp)`. -/
  | movapsTo (s : ℕ) (off : ℤ)
  /-- `movss off(base), %xmm d`. -/
  | movss (s : Src) (d : ℕ)
  /-- `movss %xmm s, off(%rsp)`. -/
  | movssTo (s : ℕ) (off : ℤ)
  /-- `shufps $imm, %xmm s, %xmm d`. -/
  | shufps (imm : ℕ) (s d : ℕ)
  | mulps (s : Src) (d : ℕ)
  | addps (s : Src) (d : ℕ)
  | subps (s : Src) (d : ℕ)
  /-- `xorps` and `pxor`. -/
  | xorps (s : Src) (d : ℕ)
  | mulss (s : Src) (d : ℕ)
  | addss (s : Src) (d : ℕ)
  | subss (s : Src) (d : ℕ)
  | divss (s : Src) (d : ℕ)
  | unpcklps (s d : ℕ)
  | movlhps (s d : ℕ)
  /-- `movl $imm, %eax`. -/
  | movl (imm : ℤ)
  /-- `movd %eax, %xmm d`. -/
  | movd (d : ℕ)
  /-- `movq off(%rsp), %rax`. -/
  | movqRax (off : ℤ)
  /-- `movq off(%rsp), %xmm d`. -/
  | movqX (off : ℤ) (d : ℕ)
  /-- `movq %rax, %xmm d`. -/
  | movqRaxX (d : ℕ)
  /-- `movq %rax, off(%rsp)`. -/
  | movqRaxTo (off : ℤ)

/-- The state.  Memory is addressed in bytes and read in floats. -/
structure State (F : Type) where
  xmm : ℕ → Option (XV F)
  mem : Base → ℤ → Option F
  const : ℕ → Option (XV F)
  eax : Option ℤ
  rax : Option (F × F)

variable {F : Type}

namespace State

/-- Writes a register. -/
def setX (s : State F) (d : ℕ) (v : XV F) : State F :=
  { s with xmm := fun i => if i = d then some v else s.xmm i }

/-- Writes a float below the stack pointer. -/
def setM (s : State F) (off : ℤ) (v : F) : State F :=
  { s with mem := fun b o => if b = .rsp ∧ o = off then some v else s.mem b o }

/-- Four floats at an address. -/
def load4 (s : State F) (b : Base) (off : ℤ) : Option (V4 F) :=
  (s.mem b off).bind fun a0 => (s.mem b (off + 4)).bind fun a1 =>
    (s.mem b (off + 8)).bind fun a2 => (s.mem b (off + 12)).bind fun a3 => some ⟨a0, a1, a2, a3⟩

/-- A 16-byte operand. -/
def get16 (s : State F) : Src → Option (XV F)
  | .x i => s.xmm i
  | .m b off => (s.load4 b off).map .flt
  | .c n => s.const n

/-- A 16-byte operand with float lanes. -/
def getV (s : State F) (a : Src) : Option (V4 F) :=
  (s.get16 a).bind fun v => match v with
    | .flt v => some v
    | .mask _ => none

/-- A 4-byte operand. -/
def get4 (s : State F) : Src → Option F
  | .m b off => s.mem b off
  | a => (s.getV a).map V4.l0

end State

/-- `xorps` of lanes and a sign mask. -/
def xorX [Neg F] : XV F → XV F → Option (XV F)
  | .flt v, .mask m => some (.flt (xor_ps v m))
  | .mask m, .flt v => some (.flt (xor_ps v m))
  | _, _ => none

/-- Two bits of an immediate. -/
def sel (imm k : ℕ) (v : V4 F) : F :=
  match imm / 4 ^ k % 4 with
  | 0 => v.l0
  | 1 => v.l1
  | 2 => v.l2
  | _ => v.l3

variable [Add F] [Sub F] [Mul F] [Neg F] [Div F] [Zero F]

/-- A packed operation, destination first. -/
def packed (s : State F) (f : V4 F → V4 F → V4 F) (a : Src) (d : ℕ) : Option (State F) :=
  (s.getV (.x d)).bind fun x => (s.getV a).bind fun y => some (s.setX d (.flt (f x y)))

/-- An operation on lane 0, destination first. -/
def scalar (s : State F) (f : F → F → F) (a : Src) (d : ℕ) : Option (State F) :=
  (s.getV (.x d)).bind fun x => (s.get4 a).bind fun y =>
    some (s.setX d (.flt ⟨f x.l0 y, x.l1, x.l2, x.l3⟩))

/-- One instruction. -/
def exec (s : State F) : Ins → Option (State F)
  | .movaps a d => (s.get16 a).map fun v => s.setX d v
  | .movapsTo i off => (s.getV (.x i)).map fun v =>
    (((s.setM off v.l0).setM (off + 4) v.l1).setM (off + 8) v.l2).setM (off + 12) v.l3
  | .movss a d => (s.get4 a).map fun v => s.setX d (.flt ⟨v, 0, 0, 0⟩)
  | .movssTo i off => (s.getV (.x i)).map fun v => s.setM off v.l0
  | .shufps imm i d => (s.getV (.x d)).bind fun x => (s.getV (.x i)).bind fun y =>
    some (s.setX d (.flt ⟨sel imm 0 x, sel imm 1 x, sel imm 2 y, sel imm 3 y⟩))
  | .mulps a d => packed s mul_ps a d
  | .addps a d => packed s add_ps a d
  | .subps a d => packed s sub_ps a d
  | .xorps a d => (s.xmm d).bind fun x => (s.get16 a).bind fun y => (xorX x y).map fun v => s.setX d v
  | .mulss a d => scalar s (· * ·) a d
  | .addss a d => scalar s (· + ·) a d
  | .subss a d => scalar s (· - ·) a d
  | .divss a d => scalar s (· / ·) a d
  | .unpcklps i d => packed s unpacklo_ps (.x i) d
  | .movlhps i d => packed s movelh_ps (.x i) d
  | .movl imm => some { s with eax := some imm }
  | .movd d => s.eax.bind fun e =>
    if e = -2147483648 then some (s.setX d (.mask ⟨true, false, false, false⟩)) else none
  | .movqRax off => (s.mem .rsp off).bind fun a => (s.mem .rsp (off + 4)).map fun b =>
    { s with rax := some (a, b) }
  | .movqX off d => (s.mem .rsp off).bind fun a => (s.mem .rsp (off + 4)).map fun b =>
    s.setX d (.flt ⟨a, b, 0, 0⟩)
  | .movqRaxX d => s.rax.map fun ab => s.setX d (.flt ⟨ab.1, ab.2, 0, 0⟩)
  | .movqRaxTo off => s.rax.map fun ab => (s.setM off ab.1).setM (off + 4) ab.2

/-- A listing. -/
def run : List Ins → State F → Option (State F)
  | [], s => some s
  | i :: is, s => (exec s i).bind (run is)

/-- The floats of an argument, at increasing addresses. -/
def args (l : List F) (off : ℤ) : Option F :=
  if 0 ≤ off ∧ off % 4 = 0 then l[(off / 4).toNat]? else none

/-- The state at the call of a function of two references, with constants. -/
def call (a b : List F) (k : List (XV F)) : State F where
  xmm := fun _ => none
  mem := fun r => match r with
    | .rdi => args a
    | .rsi => args b
    | .rsp => fun _ => none
  const := fun n => k[n]?
  eax := none
  rax := none

/-- A result of class `__m128`: returned in `xmm0`. -/
def ret1 (is : List Ins) (s : State F) : Option (V4 F) := (run is s).bind fun t => t.getV (.x 0)

/-- A result of four floats (System V ABI): two in `xmm0` and two in `xmm1`. -/
def ret2 (is : List Ins) (s : State F) : Option (V4 F) := (run is s).bind fun t =>
  (t.getV (.x 0)).bind fun x => (t.getV (.x 1)).map fun y => ⟨x.l0, x.l1, y.l0, y.l1⟩

end Klein.Asm
