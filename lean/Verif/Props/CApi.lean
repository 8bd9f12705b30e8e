import Verif.CApi.Klein
import Verif.Api.Embed
import Verif.Props.Products
import Verif.Props.Actions

/-!
# C51: the C interface

What each entry point returns, against the specification its comment in `klein.h` gives.  `toX` is
the C++ view of a C struct; it loses nothing (`C51_convert`).
-/

set_option linter.unusedSimpArgs false
set_option linter.unusedVariables false

namespace Klein.C

open PGA

section Bits
variable {F : Type} [Add F] [Sub F] [Mul F] [Neg F] [Zero F] [One F] [NatCast F]

/-- The two views are mutually inverse, field by field. -/
theorem C51_convert (p : kln_plane F) (l : kln_line F) (x : kln_point F) (r : kln_rotor F)
    (t : kln_translator F) (m : kln_motor F) :
    ofPlane (toPlane p) = p ∧ ofLine (toLine l) = l ∧ ofPoint (toPoint x) = x ∧
    ofRotor (toRotor r) = r ∧ ofTranslator (toTranslator t) = t ∧ ofMotor (toMotor m) = m :=
  ⟨rfl, rfl, rfl, rfl, rfl, rfl⟩

/-- Bit-exact agreement of the actions with the C++ call operators (no law of arithmetic). -/
theorem C51_actions (hw : Hw F) (isa : Isa) (p q : kln_plane F) (l : kln_line F) (x : kln_point F)
    (r : kln_rotor F) (t : kln_translator F) (m : kln_motor F) :
    toPoint (kln_reflect_point p x) = (toPlane p).onPoint (toPoint x) ∧
    toLine (kln_reflect_line p l) = (toPlane p).onLine (toLine l) ∧
    toPlane (kln_reflect_plane p q) = (toPlane p).onPlane (toPlane q) ∧
    toPoint (kln_rotate_point isa r x) = (toRotor r).onPoint isa (toPoint x) ∧
    toLine (kln_rotate_line r l) = (toRotor r).onLine (toLine l) ∧
    toPlane (kln_rotate_plane isa r p) = (toRotor r).onPlane isa (toPlane p) ∧
    toPoint (kln_translate_point t x) = (toTranslator t).onPoint (toPoint x) ∧
    toLine (kln_translate_line t l) = (toTranslator t).onLine (toLine l) ∧
    toPlane (kln_translate_plane hw isa t p) = (toTranslator t).onPlane hw isa (toPlane p) ∧
    toPoint (kln_motor_point m x) = (toMotor m).onPoint (toPoint x) ∧
    toLine (kln_motor_line m l) = (toMotor m).onLine (toLine l) ∧
    toPlane (kln_motor_plane isa m p) = (toMotor m).onPlane isa (toPlane p) :=
  ⟨rfl, rfl, rfl, rfl, rfl, rfl, rfl, rfl, rfl, rfl, rfl, rfl⟩

theorem C51_exp_log [Div F] (hw : Hw F) (lm : Libm F) (isa : Isa) (l : kln_line F)
    (m : kln_motor F) :
    toLine (motor_log hw lm isa m) = (toMotor m).log hw lm isa ∧
    toMotor (line_exp hw lm isa l) = (toLine l).exp hw lm isa := ⟨rfl, rfl⟩

end Bits

variable {K : Type} [CommRing K]

/-- `kln_compose_rotors` is `rotor2 * rotor1`, as documented. -/
theorem C51_compose_rotors (r1 r2 : kln_rotor K) :
    (toRotor (kln_compose_rotors r1 r2)).mv = (toRotor r2).mv * (toRotor r1).mv := by
  mv_ring

/-- `kln_compose_translators` is `translator2 * translator1`, as documented. -/
theorem C51_compose_translators (t1 t2 : kln_translator K) :
    (toTranslator (kln_compose_translators t1 t2)).mv
      = (toTranslator t2).mv * (toTranslator t1).mv :=
  C06_translator_mul_translator _ _

/-- `kln_compose_rotor_translator` is `translator * rotor`, as documented. -/
theorem C51_compose_rotor_translator (r : kln_rotor K) (t : kln_translator K)
    (h : (toTranslator t).WF) :
    (toMotor (kln_compose_rotor_translator r t)).mv = (toTranslator t).mv * (toRotor r).mv :=
  C06_translator_mul_rotor _ _ h

/-- `kln_compose_motors` is `motor2 * motor1`, as documented. -/
theorem C51_compose_motors (m1 m2 : kln_motor K) :
    (toMotor (kln_compose_motors m1 m2)).mv = (toMotor m2).mv * (toMotor m1).mv :=
  C06_motor_mul_motor _ _

/-- `kln_compose_translator_rotor` is documented (klein.h:145-147) as `translator * rotor` as well;
it is the other product. -/
theorem C51_compose_translator_rotor_is (t : kln_translator K) (r : kln_rotor K)
    (h : (toTranslator t).WF) :
    (toMotor (kln_compose_translator_rotor t r)).mv = (toRotor r).mv * (toTranslator t).mv :=
  C06_rotor_mul_translator _ _ h

/-- So the documented value is returned exactly when the two commute. -/
theorem C51_compose_translator_rotor_iff (t : kln_translator K) (r : kln_rotor K)
    (h : (toTranslator t).WF) :
    (toMotor (kln_compose_translator_rotor t r)).mv = (toTranslator t).mv * (toRotor r).mv ↔
      (toRotor r).mv * (toTranslator t).mv = (toTranslator t).mv * (toRotor r).mv := by
  rw [C51_compose_translator_rotor_is t r h]

/-- And it is not in general: a translation along x and a quarter turn about z. -/
theorem C51_compose_translator_rotor_fails :
    ∃ (t : kln_translator ℤ) (r : kln_rotor ℤ), (toTranslator t).WF ∧
      (toMotor (kln_compose_translator_rotor t r)).mv ≠ (toTranslator t).mv * (toRotor r).mv :=
  ⟨⟨⟨0, 1, 0, 0⟩⟩, ⟨⟨1, 0, 0, 1⟩⟩, rfl, by decide⟩

/-- `kln_plane_init(a, b, c, d)` is `a e1 + b e2 + c e3 + d e0`, as documented. -/
theorem C51_plane_init (a b c d : K) :
    (toPlane (kln_plane_init a b c d)).mv = { (0 : MV K) with e1 := a, e2 := b, e3 := c, e0 := d } := by
  mv_ring

/-- `kln_line_init` sets `d e23 + e e31 + f e12`; the comment (klein.h:75-84) says
`d e12 + e e31 + f e23`. -/
theorem C51_line_init_is (a b c d e f : K) :
    (toLine (kln_line_init a b c d e f)).mv = { (0 : MV K) with
      e01 := a, e02 := b, e03 := c, e23 := d, e13 := -e, e12 := f } := by
  mv_ring

/-- The documented value is stored exactly when `d = f`. -/
theorem C51_line_init_iff (a b c d e f : K) :
    (toLine (kln_line_init a b c d e f)).mv = { (0 : MV K) with
      e01 := a, e02 := b, e03 := c, e12 := d, e13 := -e, e23 := f } ↔ d = f := by
  rw [C51_line_init_is]
  constructor
  · intro h; exact congrArg MV.e23 h
  · rintro rfl; rfl

theorem C51_line_init_fails :
    (toLine (kln_line_init 0 0 0 1 0 0)).mv ≠ { (0 : MV ℤ) with e12 := 1 } := by
  decide

/-- `kln_point_init` sets `e123 + x e032 + y e013 + z e021`; the comment (klein.h:92-93) writes
`e023`, `e031`, `e012`, which are their negatives. -/
theorem C51_point_init_is (x y z : K) :
    (toPoint (kln_point_init x y z)).mv = { (0 : MV K) with
      e123 := 1, e023 := -x, e013 := y, e012 := -z } := by
  mv_ring

theorem C51_point_init_fails :
    (toPoint (kln_point_init 1 2 3)).mv ≠ { (0 : MV ℤ) with
      e123 := 1, e023 := 1, e013 := -2, e012 := 3 } := by
  decide

/-- The struct comments (klein.h:49-51 and others) give the lanes of `p1` as `(1, e12, e31, e23)`;
read that way, `kln_compose_rotors` does not multiply: with `r1 = e12`, `r2 = e31` in the documented
lanes the result is not `e31 * e12`. -/
theorem C51_documented_lanes_fail :
    let mvDoc : kln_rotor ℤ → MV ℤ := fun r =>
      { (0 : MV ℤ) with s := r.p1.l0, e12 := r.p1.l1, e13 := -r.p1.l2, e23 := r.p1.l3 }
    ∃ r1 r2 : kln_rotor ℤ, mvDoc (kln_compose_rotors r1 r2) ≠ mvDoc r2 * mvDoc r1 :=
  ⟨⟨⟨0, 1, 0, 0⟩⟩, ⟨⟨0, 0, 1, 0⟩⟩, by decide⟩

example : kln_compose_motors (F := ℤ) ⟨⟨1, 2, 3, 4⟩, ⟨5, 6, 7, 8⟩⟩ ⟨⟨1, 0, 0, 0⟩, ⟨0, 1, 0, 0⟩⟩
    = ⟨⟨1, 2, 3, 4⟩, ⟨7, 7, 11, 5⟩⟩ := by decide

end Klein.C
