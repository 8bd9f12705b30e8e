import Mathlib.Data.Nat.Cast.Defs
import Verif.Attr

/-!
# SSE registers and intrinsics

An `__m128` is four lanes.  Lane 0 is the least significant one.  The lane type `F` is arbitrary
and only carries raw operations: no algebraic law is assumed here, so every definition below also
makes sense for IEEE binary32 lanes (with NaN and rounding).

The semantics of each intrinsic is the one of the Intel Intrinsics Guide; the set modelled is
exactly the set used by `/repo/public/klein`.
-/

namespace Klein

/-- An SSE register of four lanes, `l0` least significant. -/
@[ext] structure V4 (F : Type) where
  l0 : F
  l1 : F
  l2 : F
  l3 : F
  deriving DecidableEq, Repr

/-- Which build: `KLEIN_SSE_4_1` undefined (`sse3`) or defined (`sse41`). -/
inductive Isa
  | sse3
  | sse41
  deriving DecidableEq, Repr

/-- The two hardware estimate instructions `rcpps` and `rsqrtps`, lane-wise.  Their exact values
are vendor specific, so they are parameters of the model. -/
structure Hw (F : Type) where
  rcp : F → F
  rsqrt : F → F

namespace V4
variable {F : Type}

/-- Lane selection by index (the two selector bits of a shuffle immediate). -/
@[simp, sse] def get (a : V4 F) : Fin 4 → F
  | 0 => a.l0
  | 1 => a.l1
  | 2 => a.l2
  | 3 => a.l3

@[simp, sse] def map (f : F → F) (a : V4 F) : V4 F := ⟨f a.l0, f a.l1, f a.l2, f a.l3⟩

@[simp, sse] def map₂ (f : F → F → F) (a b : V4 F) : V4 F :=
  ⟨f a.l0 b.l0, f a.l1 b.l1, f a.l2 b.l2, f a.l3 b.l3⟩

end V4

variable {F : Type}

/-- `_mm_set_ps(d, c, b, a)`: the *last* argument goes to lane 0. -/
@[simp, sse] def set_ps (d c b a : F) : V4 F := ⟨a, b, c, d⟩

/-- `_mm_set1_ps`. -/
@[simp, sse] def set1_ps (a : F) : V4 F := ⟨a, a, a, a⟩

/-- `_mm_set_ss`: value in lane 0, zero elsewhere. -/
@[simp, sse] def set_ss [Zero F] (a : F) : V4 F := ⟨a, 0, 0, 0⟩

/-- `_mm_setzero_ps`. -/
@[simp, sse] def setzero_ps [Zero F] : V4 F := ⟨0, 0, 0, 0⟩

/-- `_mm_mul_ps`. -/
@[simp, sse] def mul_ps [Mul F] (a b : V4 F) : V4 F :=
  ⟨a.l0 * b.l0, a.l1 * b.l1, a.l2 * b.l2, a.l3 * b.l3⟩

/-- `_mm_add_ps`. -/
@[simp, sse] def add_ps [Add F] (a b : V4 F) : V4 F :=
  ⟨a.l0 + b.l0, a.l1 + b.l1, a.l2 + b.l2, a.l3 + b.l3⟩

/-- `_mm_sub_ps`. -/
@[simp, sse] def sub_ps [Sub F] (a b : V4 F) : V4 F :=
  ⟨a.l0 - b.l0, a.l1 - b.l1, a.l2 - b.l2, a.l3 - b.l3⟩

/-- `_mm_add_ss`: lane 0 only, the rest comes from the first operand. -/
@[simp, sse] def add_ss [Add F] (a b : V4 F) : V4 F := ⟨a.l0 + b.l0, a.l1, a.l2, a.l3⟩

/-- `_mm_sub_ss`. -/
@[simp, sse] def sub_ss [Sub F] (a b : V4 F) : V4 F := ⟨a.l0 - b.l0, a.l1, a.l2, a.l3⟩

/-- `_mm_mul_ss`. -/
@[simp, sse] def mul_ss [Mul F] (a b : V4 F) : V4 F := ⟨a.l0 * b.l0, a.l1, a.l2, a.l3⟩

/-- `KLN_SWIZZLE(reg, x, y, z, w)` = `_mm_shuffle_ps(reg, reg, _MM_SHUFFLE(x, y, z, w))`
(x86_sse.hpp:29-32): lane 0 is `reg[w]`, lane 1 `reg[z]`, lane 2 `reg[y]`, lane 3 `reg[x]`. -/
@[simp, sse] def swz (a : V4 F) (x y z w : Fin 4) : V4 F := ⟨a.get w, a.get z, a.get y, a.get x⟩

/-- `_mm_movehdup_ps`: `(1, 1, 3, 3)`. -/
@[simp, sse] def movehdup_ps (a : V4 F) : V4 F := ⟨a.l1, a.l1, a.l3, a.l3⟩

/-- `_mm_moveldup_ps`: `(0, 0, 2, 2)`. -/
@[simp, sse] def moveldup_ps (a : V4 F) : V4 F := ⟨a.l0, a.l0, a.l2, a.l2⟩

/-- `_mm_unpacklo_ps`. -/
@[simp, sse] def unpacklo_ps (a b : V4 F) : V4 F := ⟨a.l0, b.l0, a.l1, b.l1⟩

/-- `_mm_unpackhi_ps`. -/
@[simp, sse] def unpackhi_ps (a b : V4 F) : V4 F := ⟨a.l2, b.l2, a.l3, b.l3⟩

/-- `_mm_movehl_ps(a, b)`: upper half of `b` to the low half, upper half of `a` stays. -/
@[simp, sse] def movehl_ps (a b : V4 F) : V4 F := ⟨b.l2, b.l3, a.l2, a.l3⟩

/-- `_mm_movelh_ps(a, b)`: low half of `a`, then low half of `b`. -/
@[simp, sse] def movelh_ps (a b : V4 F) : V4 F := ⟨a.l0, a.l1, b.l0, b.l1⟩

/-- A sign mask such as `_mm_set_ps(-0.f, 0.f, ...)`: `true` where the lane is `-0.f`. -/
abbrev SMask := V4 Bool

/-- `_mm_xor_ps` with a sign mask: flips the sign bit of the selected lanes. -/
@[simp, sse] def xor_ps [Neg F] (a : V4 F) (m : SMask) : V4 F :=
  ⟨bif m.l0 then -a.l0 else a.l0, bif m.l1 then -a.l1 else a.l1,
   bif m.l2 then -a.l2 else a.l2, bif m.l3 then -a.l3 else a.l3⟩

/-- `_mm_set_ss(-0.f)` used as a mask. -/
@[simp, sse] def flip_ss : SMask := ⟨true, false, false, false⟩

/-- `_mm_and_ps` with an all-ones/all-zeros lane mask (`_mm_set_epi32(d, c, b, a)` of `-1`/`0`). -/
@[simp, sse] def and_ps [Zero F] (a : V4 F) (m : V4 Bool) : V4 F :=
  ⟨bif m.l0 then a.l0 else 0, bif m.l1 then a.l1 else 0,
   bif m.l2 then a.l2 else 0, bif m.l3 then a.l3 else 0⟩

/-- `_mm_blend_ps(a, b, imm)`: bit `i` of `imm` selects `b`; the immediate is given bit by bit,
most significant first (`0b1000` is `true false false false`). -/
@[simp, sse] def blend_ps (a b : V4 F) (i3 i2 i1 i0 : Bool) : V4 F :=
  ⟨bif i0 then b.l0 else a.l0, bif i1 then b.l1 else a.l1,
   bif i2 then b.l2 else a.l2, bif i3 then b.l3 else a.l3⟩

/-- `_mm_dp_ps(a, b, imm)`: products of the lanes selected by the high nibble (zero otherwise),
summed as `(p0 + p1) + (p2 + p3)`, broadcast to the lanes selected by the low nibble.
The immediate is given bit by bit, most significant first. -/
@[simp, sse] def dp_ps [Add F] [Mul F] [Zero F] (a b : V4 F)
    (i7 i6 i5 i4 i3 i2 i1 i0 : Bool) : V4 F :=
  let p0 := bif i4 then a.l0 * b.l0 else 0
  let p1 := bif i5 then a.l1 * b.l1 else 0
  let p2 := bif i6 then a.l2 * b.l2 else 0
  let p3 := bif i7 then a.l3 * b.l3 else 0
  let s := (p0 + p1) + (p2 + p3)
  ⟨bif i0 then s else 0, bif i1 then s else 0, bif i2 then s else 0, bif i3 then s else 0⟩

/-- `_mm_rcp_ps`. -/
@[simp, sse] def rcp_ps (hw : Hw F) (a : V4 F) : V4 F := a.map hw.rcp

/-- `_mm_rsqrt_ps`. -/
@[simp, sse] def rsqrt_ps (hw : Hw F) (a : V4 F) : V4 F := a.map hw.rsqrt

end Klein
