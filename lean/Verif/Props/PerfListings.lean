import Verif.Asm.X86
import Verif.Props.DualQuat
import Verif.Float.Basic

/-!
# C105: the compiled code of docs/perf.md

docs/perf.md compares the product of rotors with "semantically identical code" of RTM and with GLM, and the
application of a motor to a point with the application of a dual quaternion by GLM, by printing the code a
compiler makes of each.  The listings are transcribed into the instructions of
`Verif.Asm.X86` and run.

* The listings of the library compute the modelled kernels with some operands of commutative operations
  exchanged: the same values in every commutative ring, and in binary32 the same bits unless both are NaN.
* The quaternion products of RTM and GLM are the product of rotors, in opposite orders.
* The GLM listing that is set against the application of a motor to a point is another function: it turns
  the first three coordinates by the inverse rotation, moves nothing, and returns the product with the
  translation in the fourth.
-/

set_option linter.unusedSimpArgs false
set_option linter.unusedSectionVars false

namespace Klein.Asm

/-- docs/perf.md:48-71: `a * b` of rotors, compiled. -/
def kleinRotor : List Ins := [
  .movaps (.m .rdi 0) 0, .movaps (.m .rsi 0) 1, .movaps (.x 0) 2, .shufps 0 0 2, .mulps (.x 1) 2,
  .movaps (.x 0) 3, .shufps 121 0 3, .movaps (.x 1) 4, .shufps 157 1 4, .mulps (.x 3) 4, .subps (.x 4) 2,
  .movaps (.x 0) 3, .shufps 230 0 3, .movaps (.x 1) 4, .shufps 2 1 4, .mulps (.x 3) 4, .shufps 159 0 0,
  .shufps 123 1 1, .mulps (.x 0) 1, .addps (.x 4) 1, .movl (-2147483648), .movd 0, .xorps (.x 1) 0,
  .addps (.x 2) 0]

/-- docs/perf.md:152-174: `rtm::quat_mul(a, b)`, compiled. -/
def rtmQuat : List Ins := [
  .movaps (.m .rdi 0) 0, .movaps (.m .rsi 0) 2, .movaps (.x 2) 1, .shufps 0 2 1, .movaps (.x 2) 3,
  .shufps 85 2 3, .movaps (.x 2) 4, .shufps 170 2 4, .shufps 255 2 2, .mulps (.x 0) 2, .movaps (.x 0) 5,
  .shufps 27 0 5, .mulps (.x 5) 1, .shufps 177 5 5, .mulps (.x 3) 5, .xorps (.c 0) 1, .shufps 177 0 0,
  .mulps (.x 4) 0, .xorps (.c 1) 5, .xorps (.c 2) 0, .addps (.x 2) 1, .addps (.x 5) 0, .addps (.x 1) 0]

/-- docs/perf.md:254-310: `a * b` of `glm::quat`, compiled. -/
def glmQuat : List Ins := [
  .movss (.m .rdi 0) 4, .movss (.m .rdi 4) 3, .movss (.m .rdi 8) 2, .movss (.m .rdi 12) 0,
  .movss (.m .rsi 0) 9, .movss (.m .rsi 4) 8, .movss (.m .rsi 8) 7, .movss (.m .rsi 12) 10,
  .movaps (.x 0) 5, .movaps (.x 4) 1, .movaps (.x 0) 6, .mulss (.x 10) 1, .movaps (.x 2) 11,
  .mulss (.x 9) 5, .mulss (.x 8) 6, .mulss (.x 10) 11, .addss (.x 1) 5, .movaps (.x 3) 1, .mulss (.x 7) 1,
  .addss (.x 1) 5, .movaps (.x 2) 1, .mulss (.x 8) 1, .subss (.x 1) 5, .movaps (.x 3) 1, .mulss (.x 10) 1,
  .addss (.x 1) 6, .movaps (.x 2) 1, .mulss (.x 9) 1, .mulss (.x 7) 2, .addss (.x 1) 6, .movaps (.x 4) 1,
  .mulss (.x 7) 1, .subss (.x 1) 6, .movaps (.x 0) 1, .mulss (.x 7) 1, .mulss (.x 10) 0, .unpcklps 6 5,
  .movaps (.x 5) 7, .addss (.x 11) 1, .movaps (.x 4) 11, .mulss (.x 8) 11, .mulss (.x 9) 4,
  .addss (.x 11) 1, .movaps (.x 3) 11, .mulss (.x 8) 3, .subss (.x 4) 0, .mulss (.x 9) 11, .subss (.x 3) 0,
  .subss (.x 11) 1, .subss (.x 2) 0, .unpcklps 0 1, .movlhps 1 7, .movapsTo 7 (-40), .movqRax (-32),
  .movqX (-40) 0, .movqRaxX 1, .movqRaxTo (-16)]

/-- docs/perf.md:423-481: `m(p)` of a motor and a point, compiled. -/
def kleinPoint : List Ins := [
  .movaps (.m .rdi 0) 3, .movaps (.m .rdi 16) 6, .movaps (.x 3) 12, .shufps 0 3 12, .movaps (.x 3) 11,
  .movaps (.x 3) 10, .movaps (.x 12) 8, .movaps (.x 12) 9, .movaps (.x 3) 4, .movaps (.x 3) 1,
  .movaps (.x 6) 7, .mulps (.x 6) 12, .movaps (.x 6) 0, .shufps 0 6 6, .mulps (.x 3) 6, .shufps 156 3 3,
  .mulps (.x 3) 11, .shufps 120 10 10, .mulps (.x 10) 8, .subps (.x 8) 11, .mulps (.x 3) 9,
  .mulps (.x 10) 4, .addps (.x 9) 4, .mulps (.x 1) 1, .movaps (.x 1) 5, .shufps 1 1 5, .addps (.x 1) 5,
  .movaps (.x 1) 2, .shufps 158 1 2, .shufps 123 1 1, .addps (.x 2) 1, .movl (-2147483648), .movd 2,
  .xorps (.x 1) 2, .movaps (.c 0) 1, .mulps (.x 1) 11, .mulps (.x 1) 4, .subps (.x 2) 5, .shufps 156 7 7,
  .mulps (.x 10) 7, .subps (.x 12) 7, .shufps 120 0 0, .mulps (.x 3) 0, .subps (.x 0) 7, .subps (.x 6) 7,
  .mulps (.x 1) 7, .movaps (.m .rsi 0) 0, .movaps (.x 0) 1, .shufps 156 0 1, .mulps (.x 11) 1,
  .movaps (.x 0) 2, .shufps 120 0 2, .mulps (.x 4) 2, .addps (.x 1) 2, .mulps (.x 0) 5, .addps (.x 2) 5,
  .shufps 0 0 0, .mulps (.x 7) 0, .addps (.x 5) 0]

/-- docs/perf.md:594-734: `glm::mat3x4_cast(a) * b`, compiled. -/
def glmDual : List Ins := [
  .movss (.m .rdi 4) 1, .movss (.m .rdi 0) 2, .movss (.m .rdi 8) 15, .movss (.m .rdi 12) 7,
  .movaps (.x 2) 3, .movaps (.x 1) 0, .movaps (.x 1) 6, .movss (.m .rsi 0) 10, .mulss (.x 1) 0,
  .movaps (.x 7) 5, .movaps (.x 2) 4, .movss (.m .rsi 4) 9, .mulss (.x 2) 3, .movaps (.x 15) 14,
  .movaps (.x 2) 11, .movss (.m .rsi 8) 8, .movaps (.x 15) 12, .movaps (.x 15) 13, .addss (.x 0) 3,
  .movaps (.x 15) 0, .mulss (.x 15) 0, .addss (.x 0) 3, .movaps (.x 7) 0, .mulss (.x 7) 0, .addss (.x 0) 3,
  .movaps (.x 15) 0, .divss (.x 3) 5, .divss (.x 3) 6, .divss (.x 3) 4, .divss (.x 3) 14, .movaps (.x 5) 3,
  .movaps (.x 1) 5, .mulss (.x 6) 5, .addss (.x 6) 6, .mulss (.x 3) 7, .addss (.x 3) 3, .mulss (.x 4) 11,
  .addss (.x 4) 4, .mulss (.x 6) 13, .movssTo 5 (-56), .mulss (.x 3) 2, .movaps (.x 1) 5, .mulss (.x 3) 1,
  .mulss (.x 4) 12, .movssTo 11 (-40), .mulss (.x 4) 5, .movss (.m .rdi 24) 11, .movssTo 13 (-16),
  .mulss (.x 3) 15, .movss (.m .rdi 16) 13, .movssTo 2 (-24), .movssTo 1 (-20), .movss (.m .rdi 28) 1,
  .movssTo 12 (-28), .movss (.m .rdi 20) 12, .movssTo 1 (-12), .mulss (.x 14) 0, .addss (.x 14) 14,
  .movss (.m .rsp (-40)) 1, .movaps (.x 5) 2, .subss (.x 15) 5, .addss (.x 15) 2,
  .movss (.m .rsp (-16)) 15, .addss (.x 7) 1, .subss (.m .rsp (-56)) 1, .mulss (.x 10) 5, .mulss (.x 9) 2,
  .subss (.x 0) 1, .mulss (.x 10) 1, .addss (.x 2) 1, .movss (.m .rsp (-28)) 2, .subss (.m .rsp (-20)) 2,
  .mulss (.x 8) 2, .addss (.x 2) 1, .movss (.m .rsp (-56)) 2, .addss (.x 7) 2, .subss (.m .rsp (-40)) 2,
  .subss (.x 0) 2, .addss (.x 7) 0, .movaps (.x 3) 7, .subss (.m .rsp (-40)) 0, .subss (.m .rsp (-56)) 0,
  .mulss (.x 13) 7, .mulss (.x 9) 2, .addss (.x 5) 2, .movss (.m .rsp (-24)) 5, .addss (.x 15) 5,
  .subss (.m .rsp (-24)) 15, .mulss (.x 8) 5, .mulss (.x 9) 15, .addss (.x 5) 2, .movss (.m .rsp (-28)) 5,
  .addss (.m .rsp (-20)) 5, .mulss (.x 10) 5, .unpcklps 2 1, .addss (.x 15) 5, .movaps (.x 0) 15,
  .mulss (.x 8) 15, .addss (.x 15) 5, .movss (.m .rsp (-12)) 15, .movaps (.x 15) 0, .mulss (.x 4) 0,
  .subss (.x 7) 0, .movaps (.x 14) 7, .mulss (.x 12) 7, .addss (.x 7) 0, .movaps (.x 6) 7,
  .mulss (.x 11) 7, .subss (.x 7) 0, .movaps (.x 14) 7, .mulss (.x 13) 7, .mulss (.x 15) 14,
  .mulss (.x 0) 10, .movaps (.x 15) 0, .mulss (.x 6) 0, .mulss (.x 13) 6, .subss (.x 7) 0,
  .movaps (.x 3) 7, .mulss (.x 12) 7, .addss (.x 6) 14, .movaps (.x 1) 6, .mulss (.x 11) 3,
  .subss (.x 7) 0, .movaps (.x 4) 7, .mulss (.x 12) 4, .mulss (.x 11) 7, .subss (.x 4) 14, .addss (.x 7) 0,
  .xorps (.c 0) 0, .subss (.x 3) 14, .mulss (.x 0) 9, .mulss (.x 14) 8, .subss (.x 10) 9, .subss (.x 8) 9,
  .unpcklps 9 5, .movlhps 5 6, .movapsTo 6 (-56), .movqRax (-48), .movqX (-56) 0, .movqRaxX 1,
  .movqRaxTo (-40)]

set_option maxRecDepth 10000 in
/-- docs/perf.md:29, 133, 235, 404, 575: the numbers of instructions of a hundred iterations. -/
theorem C105_lengths : kleinRotor.length * 100 = 2400 ∧ rtmQuat.length * 100 = 2300 ∧
    glmQuat.length * 100 = 5700 ∧ kleinPoint.length * 100 = 5900 ∧ glmDual.length * 100 = 14100 :=
  ⟨rfl, rfl, rfl, rfl, rfl⟩

/-- The floats of a register in memory. -/
def lanes {F : Type} (v : V4 F) : List F := [v.l0, v.l1, v.l2, v.l3]

/-! ## The listings of the library -/

/-- A congruence for which sums and products commute. -/
structure Commutes {F : Type} [Add F] [Sub F] [Mul F] [Neg F] (E : F → F → Prop) : Prop where
  refl : ∀ x, E x x
  add : ∀ {x x' y y'}, E x x' → E y y' → E (x + y) (x' + y')
  add' : ∀ {x x' y y'}, E x x' → E y y' → E (x + y) (y' + x')
  mul : ∀ {x x' y y'}, E x x' → E y y' → E (x * y) (x' * y')
  mul' : ∀ {x x' y y'}, E x x' → E y y' → E (x * y) (y' * x')
  sub : ∀ {x x' y y'}, E x x' → E y y' → E (x - y) (x' - y')
  neg : ∀ {x x'}, E x x' → E (-x) (-x')

/-- Compares two expressions up to the order of sums and products. -/
syntax "commutes " ident : tactic
macro_rules
  | `(tactic| commutes $h) => `(tactic| first
    | with_reducible exact ($h).refl _
    | (with_reducible refine ($h).neg ?_; commutes $h)
    | (with_reducible refine ($h).sub ?_ ?_ <;> commutes $h)
    | (with_reducible refine ($h).add ?_ ?_ <;> commutes $h)
    | (with_reducible refine ($h).add' ?_ ?_ <;> commutes $h)
    | (with_reducible refine ($h).mul ?_ ?_ <;> commutes $h)
    | (with_reducible refine ($h).mul' ?_ ?_ <;> commutes $h))

/-- Lane by lane. -/
def Lanes {F : Type} (E : F → F → Prop) (a b : V4 F) : Prop :=
  E a.l0 b.l0 ∧ E a.l1 b.l1 ∧ E a.l2 b.l2 ∧ E a.l3 b.l3

section
variable {F : Type} [Add F] [Sub F] [Mul F] [Neg F] [Div F] [Zero F] [One F] [NatCast F]

set_option maxRecDepth 10000 in
/-- What the listing of the rotor product computes, operation by operation. -/
theorem kleinRotor_ret (a b : V4 F) : ret1 kleinRotor (call (lanes a) (lanes b) []) =
    some (add_ps
      (xor_ps (add_ps (mul_ps (swz b 1 3 2 3) (swz a 2 1 3 3)) (mul_ps (swz b 0 0 0 2) (swz a 3 2 1 2)))
        flip_ss)
      (sub_ps (mul_ps (swz a 0 0 0 0) b) (mul_ps (swz b 2 1 3 1) (swz a 1 3 2 1)))) := rfl

/-- C105: the listing of `a * b` computes `gp11`, up to the order of operands. -/
theorem C105_rotor {E : F → F → Prop} (h : Commutes E) (a b : Rotor F) :
    ∃ v, ret1 kleinRotor (call (lanes a.p1) (lanes b.p1) []) = some v ∧ Lanes E v (a.mulRotor b).p1 := by
  refine ⟨_, kleinRotor_ret _ _, ?_, ?_, ?_, ?_⟩ <;>
    simp only [kln, sse, cond_true, cond_false] <;>
    commutes h


set_option maxRecDepth 10000 in
theorem kleinPoint_ret (a c b k : V4 F) :
    ret1 kleinPoint (call (lanes a ++ lanes c) (lanes b) [.flt k]) =
    some (
      let xxxx := swz a 0 0 0 0
      let xwyz := swz a 2 1 3 0
      let xzwy := swz a 1 3 2 0
      let sq := mul_ps a a
      let tmp1 := mul_ps (sub_ps (mul_ps a xwyz) (mul_ps xxxx xzwy)) k
      let tmp2 := mul_ps (add_ps (mul_ps a xzwy) (mul_ps xxxx xwyz)) k
      let tmp3 := sub_ps (add_ps (swz sq 0 0 0 1) sq)
        (xor_ps (add_ps (swz sq 1 3 2 3) (swz sq 2 1 3 2)) flip_ss)
      let tmp4 := sub_ps (mul_ps (swz c 2 1 3 0) xzwy) (mul_ps xxxx c)
      let tmp4 := sub_ps tmp4 (mul_ps (swz c 1 3 2 0) xwyz)
      let tmp4 := mul_ps (sub_ps tmp4 (mul_ps (swz c 0 0 0 0) a)) k
      let p := add_ps (mul_ps (swz b 1 3 2 0) tmp2) (mul_ps (swz b 2 1 3 0) tmp1)
      let p := add_ps (mul_ps tmp3 b) p
      add_ps (mul_ps (swz b 0 0 0 0) tmp4) p) := rfl

/-- C105: the listing of `m(p)` computes `sw312` of the motor, up to the order of operands. -/
theorem C105_point {E : F → F → Prop} (h : Commutes E) (m : Motor F) (p : Point F) :
    ∃ v, ret1 kleinPoint (call (lanes m.p1 ++ lanes m.p2) (lanes p.p3) [.flt (set_ps 2 2 2 0)]) = some v ∧
      Lanes E v (m.onPoint p).p3 := by
  refine ⟨_, kleinPoint_ret _ _ _ _, ?_, ?_, ?_, ?_⟩ <;>
    simp only [kln, sse, cond_true, cond_false] <;>
    commutes h

end

theorem Commutes.eq {K : Type} [CommRing K] : Commutes (F := K) Eq where
  refl _ := rfl
  add h k := by rw [h, k]
  add' h k := by rw [h, k, add_comm]
  mul h k := by rw [h, k]
  mul' h k := by rw [h, k, mul_comm]
  sub h k := by rw [h, k]
  neg h := by rw [h]

theorem Lanes.eq {F : Type} {a b : V4 F} (h : Lanes Eq a b) : a = b := by
  obtain ⟨h0, h1, h2, h3⟩ := h
  obtain ⟨_, _, _, _⟩ := a
  obtain ⟨_, _, _, _⟩ := b
  simp_all

/-- The same bits, or both NaN. -/
def Same (x y : F32) : Prop := x = y ∨ x.isNaN = true ∧ y.isNaN = true

/-- C105: sums and products of floats commute up to the payload of a NaN. -/
theorem Commutes.same : Commutes Same := by
  have key : ∀ {f g : F32 → F32 → F32},
      (∀ {x y}, x.isNaN = true ∨ y.isNaN = true → (f x y).isNaN = true) →
      (∀ {x y}, x.isNaN = true ∨ y.isNaN = true → (g x y).isNaN = true) →
      (∀ {x y}, x.isNaN = false → y.isNaN = false → f x y = g x y) →
      ∀ {x x' y y'}, Same x x' → Same y y' → Same (f x y) (g x' y') := by
    intro f g hf hg hfg x x' y y' h k
    rcases h with rfl | ⟨h, h'⟩
    · rcases k with rfl | ⟨k, k'⟩
      · cases hx : x.isNaN
        · cases hy : y.isNaN
          · exact .inl (hfg hx hy)
          · exact .inr ⟨hf (.inr hy), hg (.inr hy)⟩
        · exact .inr ⟨hf (.inl hx), hg (.inl hx)⟩
      · exact .inr ⟨hf (.inr k), hg (.inr k')⟩
    · exact .inr ⟨hf (.inl h), hg (.inl h')⟩
  refine ⟨fun _ => .inl rfl, ?_, ?_, ?_, ?_, ?_, ?_⟩
  · exact key F32.add_nan F32.add_nan fun _ _ => rfl
  · exact key (g := fun x y => y + x) F32.add_nan (fun h => F32.add_nan h.symm)
      fun h _ => F32.add_comm' (.inl h)
  · exact key F32.mul_nan F32.mul_nan fun _ _ => rfl
  · exact key (g := fun x y => y * x) F32.mul_nan (fun h => F32.mul_nan h.symm)
      fun h _ => F32.mul_comm' (.inl h)
  · exact key F32.sub_nan F32.sub_nan fun _ _ => rfl
  · rintro x x' (rfl | ⟨h, h'⟩)
    · exact .inl rfl
    · exact .inr ⟨h, h'⟩

/-- C105: in exact arithmetic the listing of `a * b` returns the product of the rotors. -/
theorem C105_rotor_exact {K : Type} [CommRing K] [Div K] (a b : Rotor K) :
    ret1 kleinRotor (call (lanes a.p1) (lanes b.p1) []) = some (a.mulRotor b).p1 := by
  obtain ⟨v, h, e⟩ := C105_rotor Commutes.eq a b
  rw [h, e.eq]

/-- C105: in exact arithmetic the listing of `m(p)` returns the application of the motor. -/
theorem C105_point_exact {K : Type} [CommRing K] [Div K] (m : Motor K) (p : Point K) :
    ret1 kleinPoint (call (lanes m.p1 ++ lanes m.p2) (lanes p.p3) [.flt (set_ps 2 2 2 0)]) =
      some (m.onPoint p).p3 := by
  obtain ⟨v, h, e⟩ := C105_point Commutes.eq m p
  rw [h, e.eq]

/-- C105: in binary32 the listing of `a * b` returns the bits of the kernel, except for the payload of
NaNs. -/
theorem C105_rotor_bits (a b : Rotor F32) :
    ∃ v, ret1 kleinRotor (call (lanes a.p1) (lanes b.p1) []) = some v ∧ Lanes Same v (a.mulRotor b).p1 :=
  C105_rotor Commutes.same a b

/-- C105: in binary32 the listing of `m(p)` returns the bits of the kernel, except for the payload of
NaNs. -/
theorem C105_point_bits (m : Motor F32) (p : Point F32) :
    ∃ v, ret1 kleinPoint (call (lanes m.p1 ++ lanes m.p2) (lanes p.p3) [.flt (set_ps 2 2 2 0)]) = some v ∧
      Lanes Same v (m.onPoint p).p3 :=
  C105_point Commutes.same m p

/-- C105: the payload of a NaN does depend on the order of the operands. -/
theorem C105_payload_fails : ∃ a b : Rotor F32, ∃ v,
    ret1 kleinRotor (call (lanes a.p1) (lanes b.p1) []) = some v ∧ v ≠ (a.mulRotor b).p1 :=
  ⟨⟨⟨0, .ofMag false 0x7FC00001, 0, 0⟩⟩, ⟨⟨0, 0, .ofMag false 0x7FC00002, 0⟩⟩, _,
    kleinRotor_ret _ _, by decide +kernel⟩

/-- C105: the page does not show the constant of the second listing; only `(0, 2, 2, 2)` makes it the
application of a motor. -/
theorem C105_point_const (k : V4 ℚ) :
    (∀ (m : Motor ℚ) (p : Point ℚ), ret1 kleinPoint (call (lanes m.p1 ++ lanes m.p2) (lanes p.p3) [.flt k]) =
      some (m.onPoint p).p3) ↔ k = set_ps 2 2 2 0 := by
  constructor
  · intro h
    have h1 := h ⟨⟨1, 0, 0, 0⟩, ⟨0, 1, 1, 1⟩⟩ ⟨⟨1, 0, 0, 0⟩⟩
    rw [kleinPoint_ret] at h1
    simp only [kln, sse, cond_true, cond_false, Option.some.injEq, V4.mk.injEq] at h1
    obtain ⟨a, b, c, d⟩ := k
    simp only [sse, V4.mk.injEq]
    obtain ⟨h0, h1, h2, h3⟩ := h1
    refine ⟨?_, ?_, ?_, ?_⟩ <;> push_cast at * <;> linarith
  · rintro rfl m p
    exact C105_point_exact m p

/-- C105, an instance: a quarter turn about the z axis followed by another. -/
example : ret1 kleinRotor (call [(3 : ℚ), 0, 0, 4] [3, 0, 4, 0] []) = some ⟨9, 16, 12, 12⟩ := by
  decide +kernel

/-! ## The quaternions of RTM and GLM -/

section
variable {K : Type} [CommRing K]

/-- A quaternion in the memory of RTM and GLM: `x`, `y`, `z`, `w`. -/
def mem (q : Quaternion K) : List K := [q.imI, q.imJ, q.imK, q.re]

/-- The quaternion of four floats. -/
def ofMem (v : V4 K) : Quaternion K := ⟨v.l3, v.l0, v.l1, v.l2⟩

/-- A quaternion by its coefficients. -/
def quat (w x y z : K) : Quaternion K := ⟨w, x, y, z⟩

section
variable (w x y z : K)
theorem re_quat : (quat w x y z).re = w := rfl
theorem imI_quat : (quat w x y z).imI = x := rfl
theorem imJ_quat : (quat w x y z).imJ = y := rfl
theorem imK_quat : (quat w x y z).imK = z := rfl
end

/-- The sign masks of `rtm::quat_mul`, which docs/perf.md does not show. -/
def rtmMasks : List (XV K) :=
  [.mask ⟨false, true, false, true⟩, .mask ⟨false, false, true, true⟩, .mask ⟨true, false, false, true⟩]

end

section
variable {F : Type} [Add F] [Sub F] [Mul F] [Neg F] [Div F] [Zero F]

set_option maxRecDepth 10000 in
/-- What the RTM listing computes, operation by operation, with any three masks. -/
theorem rtmQuat_ret (a b : V4 F) (m0 m1 m2 : SMask) :
    ret1 rtmQuat (call (lanes a) (lanes b) [.mask m0, .mask m1, .mask m2]) =
    some (add_ps
      (add_ps (xor_ps (mul_ps (swz a 2 3 0 1) (swz b 2 2 2 2)) m2)
        (xor_ps (mul_ps (swz a 1 0 3 2) (swz b 1 1 1 1)) m1))
      (add_ps (xor_ps (mul_ps (swz b 0 0 0 0) (swz a 0 1 2 3)) m0) (mul_ps (swz b 3 3 3 3) a))) := rfl

set_option maxRecDepth 10000 in
/-- What the GLM product computes, operation by operation. -/
theorem glmQuat_ret (ax ay az aw bx b_y bz bw : F) :
    ret2 glmQuat (call [ax, ay, az, aw] [bx, b_y, bz, bw] []) =
    some ⟨aw * bx + ax * bw + ay * bz - az * b_y, aw * b_y + ay * bw + az * bx - ax * bz,
      aw * bz + az * bw + ax * b_y - ay * bx, aw * bw - ax * bx - ay * b_y - az * bz⟩ := rfl

set_option maxRecDepth 10000 in
/-- What the GLM listing for dual quaternions computes, operation by operation: `x y z w` and
`dx dy dz dw` are the two quaternions. -/
theorem glmDual_ret (x y z w dx dy dz dw bx b_y bz bw : F) (s1 s2 s3 : Bool) :
    ret2 glmDual (call [x, y, z, w, dx, dy, dz, dw] [bx, b_y, bz, bw] [.mask ⟨true, s1, s2, s3⟩]) =
    some (
      let n := x * x + y * y + z * z + w * w
      let rx := x / n
      let ry := y / n
      let rz := z / n
      let rw := w / n
      ⟨(x * rx + w * rw - y * ry - z * rz) * bx + (y * (rx + rx) + z * (rw + rw)) * b_y +
          (z * (rx + rx) - y * (rw + rw)) * bz,
        (y * ry + w * rw - x * rx - z * rz) * b_y + (y * (rx + rx) - z * (rw + rw)) * bx +
          (x * (rw + rw) + z * (ry + ry)) * bz,
        (z * (rx + rx) + y * (rw + rw)) * bx + (z * (ry + ry) - x * (rw + rw)) * b_y +
          (z * rz + w * rw - x * rx - y * ry) * bz,
        b_y * -(dw * (ry + ry) - (rz + rz) * dx - (rw + rw) * dy + (rx + rx) * dz) -
          bx * (dw * (rx + rx) - (rw + rw) * dx + (rz + rz) * dy - (ry + ry) * dz) -
          bz * ((rz + rz) * dw + (ry + ry) * dx - (rx + rx) * dy - (rw + rw) * dz)⟩) := rfl

end

section
variable {K : Type} [CommRing K] [Div K]

/-- C105: `rtm::quat_mul(a, b)` is the product of quaternions in the other order, `b * a`. -/
theorem C105_rtm (p q : Quaternion K) :
    (ret1 rtmQuat (call (mem p) (mem q) rtmMasks)).map ofMem = some (q * p) := by
  have h := rtmQuat_ret (F := K) ⟨p.imI, p.imJ, p.imK, p.re⟩ ⟨q.imI, q.imJ, q.imK, q.re⟩
    ⟨false, true, false, true⟩ ⟨false, false, true, true⟩ ⟨true, false, false, true⟩
  refine (congrArg (Option.map ofMem) h).trans (congrArg some ?_)
  simp only [ofMem]
  quat_ring

/-- C105: `a * b` of `glm::quat` is the product of quaternions. -/
theorem C105_glm (p q : Quaternion K) :
    (ret2 glmQuat (call (mem p) (mem q) [])).map ofMem = some (p * q) := by
  refine (congrArg (Option.map ofMem) (glmQuat_ret ..)).trans (congrArg some ?_)
  simp only [ofMem]
  quat_ring

/-- C105: the three listings agree on the quaternions of rotors (`C81_rotor_mul`), RTM with its arguments
exchanged. -/
theorem C105_same_product (a b : Rotor K) :
    (ret1 kleinRotor (call (lanes a.p1) (lanes b.p1) [])).map (fun v => (⟨v⟩ : Rotor K).toQuat) =
      some (a.toQuat * b.toQuat) ∧
    (ret2 glmQuat (call (mem a.toQuat) (mem b.toQuat) [])).map ofMem = some (a.toQuat * b.toQuat) ∧
    (ret1 rtmQuat (call (mem b.toQuat) (mem a.toQuat) rtmMasks)).map ofMem = some (a.toQuat * b.toQuat) :=
  ⟨by rw [C105_rotor_exact, ← C81_rotor_mul]; rfl, C105_glm _ _, C105_rtm _ _⟩

/-- C105: with the coefficients of the rotors taken as they are (`i` for `e23`) it is RTM that agrees as
the page writes it, and GLM with its arguments exchanged. -/
theorem C105_same_coefficients (a b : Rotor K) :
    (ret1 rtmQuat (call (mem (star a.toQuat)) (mem (star b.toQuat)) rtmMasks)).map ofMem =
      some (star (a.mulRotor b).toQuat) ∧
    (ret2 glmQuat (call (mem (star b.toQuat)) (mem (star a.toQuat)) [])).map ofMem =
      some (star (a.mulRotor b).toQuat) := by
  rw [C105_rtm, C105_glm, C81_rotor_mul, star_mul]
  exact ⟨rfl, rfl⟩

end

/-- C105: as the page calls them, the listings of RTM and GLM are not the same function. -/
theorem C105_order_fails : ∃ p q : Quaternion ℚ,
    (ret1 rtmQuat (call (mem p) (mem q) rtmMasks)).map ofMem ≠
      (ret2 glmQuat (call (mem p) (mem q) [])).map ofMem := by
  let p : Quaternion ℚ := quat 0 1 0 0
  let q : Quaternion ℚ := quat 0 0 1 0
  refine ⟨p, q, fun h => ?_⟩
  have := congrArg QuaternionAlgebra.imK (Option.some.inj ((C105_rtm p q).symm.trans (h.trans (C105_glm p q))))
  simp only [Quaternion.imK_mul, p, q, re_quat, imI_quat, imJ_quat, imK_quat] at this
  norm_num at this

/-- C105: only those masks make the RTM listing a product of quaternions. -/
theorem C105_rtm_masks (m0 m1 m2 : SMask) :
    (∀ p q : Quaternion ℚ,
      (ret1 rtmQuat (call (mem p) (mem q) [.mask m0, .mask m1, .mask m2])).map ofMem = some (q * p)) ↔
    m0 = ⟨false, true, false, true⟩ ∧ m1 = ⟨false, false, true, true⟩ ∧ m2 = ⟨true, false, false, true⟩ := by
  constructor
  · intro h
    have e : ∀ p q : Quaternion ℚ, _ = q * p := fun p q => Option.some.inj
      ((congrArg (Option.map ofMem) (rtmQuat_ret (F := ℚ) ⟨p.imI, p.imJ, p.imK, p.re⟩
        ⟨q.imI, q.imJ, q.imK, q.re⟩ m0 m1 m2)).symm.trans (h p q))
    obtain ⟨a0, a1, a2, a3⟩ := m0
    obtain ⟨b0, b1, b2, b3⟩ := m1
    obtain ⟨c0, c1, c2, c3⟩ := m2
    let p : Quaternion ℚ := quat 1 1 1 1
    have g : ∀ (q : Quaternion ℚ) (f : Quaternion ℚ → ℚ), _ = f (q * p) := fun q f => congrArg f (e p q)
    have x0 := g (quat 0 1 0 0) QuaternionAlgebra.imI
    have x1 := g (quat 0 1 0 0) QuaternionAlgebra.imJ
    have x2 := g (quat 0 1 0 0) QuaternionAlgebra.imK
    have x3 := g (quat 0 1 0 0) QuaternionAlgebra.re
    have y0 := g (quat 0 0 1 0) QuaternionAlgebra.imI
    have y1 := g (quat 0 0 1 0) QuaternionAlgebra.imJ
    have y2 := g (quat 0 0 1 0) QuaternionAlgebra.imK
    have y3 := g (quat 0 0 1 0) QuaternionAlgebra.re
    have z0 := g (quat 0 0 0 1) QuaternionAlgebra.imI
    have z1 := g (quat 0 0 0 1) QuaternionAlgebra.imJ
    have z2 := g (quat 0 0 0 1) QuaternionAlgebra.imK
    have z3 := g (quat 0 0 0 1) QuaternionAlgebra.re
    simp only [ofMem, sse, p, re_quat, imI_quat, imJ_quat, imK_quat, Quaternion.re_mul, Quaternion.imI_mul, Quaternion.imJ_mul,
      Quaternion.imK_mul, mul_zero, zero_mul, neg_zero, Bool.cond_self, add_zero, zero_add, mul_one, one_mul,
      sub_zero, zero_sub] at x0 x1 x2 x3 y0 y1 y2 y3 z0 z1 z2 z3
    have key : ∀ s : Bool, ((bif s then (-1 : ℚ) else 1) = 1 → s = false) ∧
        ((bif s then (-1 : ℚ) else 1) = -1 → s = true) := by decide +kernel
    refine ⟨?_, ?_, ?_⟩
    · rw [(key _).1 x0, (key _).2 x1, (key _).1 x2, (key _).2 x3]
    · rw [(key _).1 y0, (key _).1 y1, (key _).2 y2, (key _).2 y3]
    · rw [(key _).2 z0, (key _).1 z1, (key _).1 z2, (key _).2 z3]
  · rintro ⟨rfl, rfl, rfl⟩ p q
    exact C105_rtm p q

/-! ## The dual quaternions of GLM -/

section
variable {K : Type} [Field K]

/-- `quat_ring` with `quat`. -/
macro "pquat_ring" : tactic => `(tactic|
  (ext <;> simp only [re_quat, imI_quat, imJ_quat, imK_quat, Quaternion.re_mul, Quaternion.imI_mul,
    Quaternion.imJ_mul, Quaternion.imK_mul, Quaternion.re_add, Quaternion.imI_add, Quaternion.imJ_add,
    Quaternion.imK_add, Quaternion.re_star, Quaternion.imI_star, Quaternion.imJ_star, Quaternion.imK_star,
    Quaternion.re_smul, Quaternion.imI_smul, Quaternion.imJ_smul, Quaternion.imK_smul,
    Motor.re_toDQ, Motor.imI_toDQ, Motor.imJ_toDQ, Motor.imK_toDQ,
    Motor.re_toDQ2, Motor.imI_toDQ2, Motor.imJ_toDQ2, Motor.imK_toDQ2,
    smul_eq_mul, kln, sse, cond_true, cond_false] <;> push_cast <;> ring))

/-- C105: the first three coordinates of the GLM listing are those of `b` turned by the inverse of the
rotation of the dual quaternion `q + d ε`, and the fourth is the scalar product of `b` with its translation
`2 d q⁻¹`. -/
theorem C105_glm_dual (q d : Quaternion K) (bx b_y bz bw : K) (s1 s2 s3 : Bool) {n : K}
    (hn : n = q.imI * q.imI + q.imJ * q.imJ + q.imK * q.imK + q.re * q.re) (hq : n ≠ 0) :
    ∃ v : V4 K, ret2 glmDual (call (mem q ++ mem d) [bx, b_y, bz, bw] [.mask ⟨true, s1, s2, s3⟩]) = some v ∧
      n • quat 0 v.l0 v.l1 v.l2 = star q * quat 0 bx b_y bz * q ∧
      n * v.l3 = 2 * ((d * star q).imI * bx + (d * star q).imJ * b_y + (d * star q).imK * bz) := by
  refine ⟨_, glmDual_ret .., ?_, ?_⟩
  · ext <;> simp only [← hn, re_quat, imI_quat, imJ_quat, imK_quat, Quaternion.re_mul, Quaternion.imI_mul, Quaternion.imJ_mul, Quaternion.imK_mul,
      Quaternion.re_star, Quaternion.imI_star, Quaternion.imJ_star, Quaternion.imK_star,
      Quaternion.re_smul, Quaternion.imI_smul, Quaternion.imJ_smul, Quaternion.imK_smul, smul_eq_mul] <;>
      field_simp <;> ring
  · simp only [← hn, Quaternion.imI_mul, Quaternion.imJ_mul, Quaternion.imK_mul,
      Quaternion.re_star, Quaternion.imI_star, Quaternion.imJ_star, Quaternion.imK_star]
    field_simp
    ring

/-- C105: what the page compares it with.  The motor of the same dual quaternion turns by the rotation
itself and adds the translation. -/
theorem C105_motor_quat (m : Motor K) (p : Point K) :
    quat 0 (m.onPoint p).x (m.onPoint p).y (m.onPoint p).z =
      m.toDQ.1 * quat 0 p.x p.y p.z * star m.toDQ.1 + (2 * p.w) •
        quat 0 (-(m.toDQ.2 * star m.toDQ.1).imI) (-(m.toDQ.2 * star m.toDQ.1).imJ)
          (-(m.toDQ.2 * star m.toDQ.1).imK) := by
  pquat_ring

end

/-- C105: whatever dual quaternion it is given, the GLM listing leaves the origin where it is, and so it is
not the application of a motor that moves it. -/
theorem C105_glm_dual_fails : ∃ m : Motor ℚ, m.p1 = ⟨1, 0, 0, 0⟩ ∧ ∀ (q d : Quaternion ℚ) (s1 s2 s3 : Bool),
    ∃ v, ret2 glmDual (call (mem q ++ mem d) [0, 0, 0, 1] [.mask ⟨true, s1, s2, s3⟩]) = some v ∧
      v.l0 = 0 ∧ v.l1 = 0 ∧ v.l2 = 0 ∧ v.l3 = 0 ∧
      m.onPoint (Point.mk3 0 0 0) = Point.mk3 0 0 1 := by
  refine ⟨⟨⟨1, 0, 0, 0⟩, ⟨0, 0, 0, -1 / 2⟩⟩, rfl, fun q d s1 s2 s3 => ⟨_, glmDual_ret .., ?_⟩⟩
  refine ⟨?_, ?_, ?_, ?_, by decide +kernel⟩ <;> ring

/-- C105: the GLM listing and the application of a normalised motor agree on all points exactly when the
motor fixes the origin and its rotation is its own inverse: no turn, or half a turn. -/
theorem C105_glm_dual_iff {K : Type} [Field K] [CharZero K] (m : Motor K) (s1 s2 s3 : Bool)
    (hm : m.p1.l0 * m.p1.l0 + m.p1.l1 * m.p1.l1 + m.p1.l2 * m.p1.l2 + m.p1.l3 * m.p1.l3 = 1) :
    (∀ x y z, ∃ v, ret2 glmDual (call (mem m.toDQ.1 ++ mem m.toDQ.2) [x, y, z, 1] [.mask ⟨true, s1, s2, s3⟩]) =
        some v ∧ v.l0 = (m.onPoint (Point.mk3 x y z)).x ∧ v.l1 = (m.onPoint (Point.mk3 x y z)).y ∧
        v.l2 = (m.onPoint (Point.mk3 x y z)).z) ↔
    ((m.onPoint (Point.mk3 0 0 0)).x = 0 ∧ (m.onPoint (Point.mk3 0 0 0)).y = 0 ∧
      (m.onPoint (Point.mk3 0 0 0)).z = 0) ∧
    (m.p1.l0 = 0 ∨ m.p1.l1 = 0 ∧ m.p1.l2 = 0 ∧ m.p1.l3 = 0) := by
  obtain ⟨⟨w, a, b, c⟩, ⟨e, f, g, h⟩⟩ := m
  have key : ∀ x y z, ret2 glmDual (call (mem (Motor.toDQ ⟨⟨w, a, b, c⟩, ⟨e, f, g, h⟩⟩).1 ++
      mem (Motor.toDQ ⟨⟨w, a, b, c⟩, ⟨e, f, g, h⟩⟩).2) [x, y, z, 1] [.mask ⟨true, s1, s2, s3⟩]) = _ :=
    fun x y z => glmDual_ret (-a) (-b) (-c) w f g h e x y z 1 s1 s2 s3
  have hn : -a * -a + -b * -b + -c * -c + w * w = 1 := by
    rw [← hm]; ring
  simp only [hn, div_one] at key
  simp only [key, Option.some.injEq, exists_eq_left', kln, sse, cond_true, cond_false]
  constructor
  · intro k
    obtain ⟨o1, o2, o3⟩ := k 0 0 0
    obtain ⟨x1, x2, x3⟩ := k 1 0 0
    obtain ⟨y1, y2, y3⟩ := k 0 1 0
    have four : (4 : K) ≠ 0 := by norm_num
    have wc : w * c = 0 := mul_left_cancel₀ four (by linear_combination x2 - o2)
    have wb : w * b = 0 := mul_left_cancel₀ four (by linear_combination o3 - x3)
    have wa : w * a = 0 := mul_left_cancel₀ four (by linear_combination y3 - o3)
    refine ⟨⟨by linear_combination -o1, by linear_combination -o2, by linear_combination -o3⟩, ?_⟩
    by_cases hw : w = 0
    · exact .inl hw
    · exact .inr ⟨(mul_eq_zero.1 wa).resolve_left hw, (mul_eq_zero.1 wb).resolve_left hw,
        (mul_eq_zero.1 wc).resolve_left hw⟩
  · rintro ⟨⟨o1, o2, o3⟩, rfl | ⟨rfl, rfl, rfl⟩⟩ x y z
    · refine ⟨?_, ?_, ?_⟩
      · linear_combination -o1
      · linear_combination -o2
      · linear_combination -o3
    · refine ⟨?_, ?_, ?_⟩
      · linear_combination -o1
      · linear_combination -o2
      · linear_combination -o3

/-- C105, an instance: a quarter turn is undone instead of applied, and the translation is not. -/
example : ret2 glmDual (call [(0 : ℚ), 0, 1, 1, 5, 6, 7, 0] [1, 0, 0, 1] [.mask ⟨true, false, false, false⟩]) =
    some ⟨0, -1, 0, -1⟩ := by decide +kernel

/-- C105, an instance: the listing of `m(p)` on the motor and the point of test/test_sandwich.cpp. -/
example : ret1 kleinPoint (call [(1 : ℚ), 4, 3, 2, 8, 5, 6, 7] [1, -1, 1, 2] [.flt (set_ps 2 2 2 0)]) =
    some ((⟨⟨1, 4, 3, 2⟩, ⟨8, 5, 6, 7⟩⟩ : Motor ℚ).onPoint ⟨⟨1, -1, 1, 2⟩⟩).p3 := by decide +kernel

/-! ### the instructions -/

section
variable {F : Type} [Add F] [Sub F] [Mul F] [Neg F] [Div F] [Zero F]

/-- The memory of the arguments and the constants of two states agree. -/
def SameArgs (s t : State F) : Prop := t.mem .rdi = s.mem .rdi ∧ t.mem .rsi = s.mem .rsi ∧ t.const = s.const

theorem exec_args {s t : State F} (i : Ins) (h : exec s i = some t) : SameArgs s t := by
  cases i <;>
    simp only [exec, packed, scalar, Option.map_eq_some_iff, Option.bind_eq_some_iff, Option.some.injEq] at h <;>
    first
    | (obtain ⟨_, _, rfl⟩ := h; exact ⟨rfl, rfl, rfl⟩)
    | (obtain ⟨_, _, _, _, rfl⟩ := h; exact ⟨rfl, rfl, rfl⟩)
    | (obtain ⟨_, _, _, _, _, _, rfl⟩ := h; exact ⟨rfl, rfl, rfl⟩)
    | (obtain ⟨_, _, h⟩ := h; split at h <;> cases h; exact ⟨rfl, rfl, rfl⟩)

/-- C105: no listing writes to its arguments, which the functions take by `const` reference. -/
theorem C105_args {s t : State F} (is : List Ins) (h : run is s = some t) : SameArgs s t := by
  induction is generalizing s with
  | nil => cases h; exact ⟨rfl, rfl, rfl⟩
  | cons i is ih =>
    obtain ⟨w, h1, h2⟩ := Option.bind_eq_some_iff.1 h
    obtain ⟨a1, a2, a3⟩ := exec_args i h1
    obtain ⟨b1, b2, b3⟩ := ih h2
    exact ⟨b1.trans a1, b2.trans a2, b3.trans a3⟩

/-- C105: `shufps` of two registers, for every immediate `_MM_SHUFFLE(z, y, x, w)`: lanes 0 and 1
come from the destination, lanes 2 and 3 from the source. -/
theorem C105_shufps (s : State F) (a b : V4 F) (i d : ℕ) (hd : s.xmm d = some (.flt a)) (hi : s.xmm i = some (.flt b))
    (w x y z : Fin 4) :
    (exec s (.shufps (w + 4 * x + 16 * y + 64 * z) i d)).bind (·.getV (.x d)) = some ⟨a.get w, a.get x, b.get y, b.get z⟩ := by
  have e : ∀ (w x y z : Fin 4) (v : V4 F), sel (w + 4 * x + 16 * y + 64 * z) 0 v = v.get w ∧ sel (w + 4 * x + 16 * y + 64 * z) 1 v = v.get x ∧
      sel (w + 4 * x + 16 * y + 64 * z) 2 v = v.get y ∧ sel (w + 4 * x + 16 * y + 64 * z) 3 v = v.get z := by
    intro w x y z v
    have hs : ∀ (k : ℕ) (j : Fin 4) (imm : ℕ), imm / 4 ^ k % 4 = j → sel imm k v = v.get j := by
      intro k j imm h
      unfold sel
      rw [h]
      match j with
      | 0 => rfl
      | 1 => rfl
      | 2 => rfl
      | 3 => rfl
    exact ⟨hs _ _ _ (by omega), hs _ _ _ (by omega), hs _ _ _ (by omega), hs _ _ _ (by omega)⟩
  obtain ⟨e0, e1, -, -⟩ := e w x y z a
  obtain ⟨-, -, e2, e3⟩ := e w x y z b
  simp only [exec, State.getV, State.get16, State.setX, hd, hi, Option.bind_some, e0, e1, e2, e3, if_true]

end

end Klein.Asm
