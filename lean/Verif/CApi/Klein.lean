import Verif.Api.Trans

/-!
# The C interface, `/repo/c_src/klein.h` and `/repo/c_src/klein_c.cpp`

Each C struct is a list of `__m128` fields in declaration order, and so is each C++ class; `convert`
(klein_c.cpp:5-63) is a `reinterpret_cast` of a reference, so it maps the field at an offset to the
field at the same offset.  Both sides are described by that list (`rep` / `ofRep`).  The arguments
are pointers to `const`; every entry point reads them before writing anything and returns by value,
so aliasing arguments is harmless and they are modelled as values.  `kln_*_init` write through their
first argument and read nothing: they are modelled by the struct written.
-/

set_option linter.unusedVariables false

namespace Klein.C

variable {F : Type}

/-- klein.h:13-17. -/
@[ext] structure kln_plane (F : Type) where
  p0 : V4 F
  deriving DecidableEq, Repr
/-- klein.h:21-28. -/
@[ext] structure kln_line (F : Type) where
  p1 : V4 F
  p2 : V4 F
  deriving DecidableEq, Repr
/-- klein.h:42-46. -/
@[ext] structure kln_point (F : Type) where
  p3 : V4 F
  deriving DecidableEq, Repr
/-- klein.h:48-52. -/
@[ext] structure kln_rotor (F : Type) where
  p1 : V4 F
  deriving DecidableEq, Repr
/-- klein.h:54-58. -/
@[ext] structure kln_translator (F : Type) where
  p2 : V4 F
  deriving DecidableEq, Repr
/-- klein.h:60-67. -/
@[ext] structure kln_motor (F : Type) where
  p1 : V4 F
  p2 : V4 F
  deriving DecidableEq, Repr

/-! The 16-byte words of each object, lowest address first. -/
@[kln] def kln_line.rep (l : kln_line F) : V4 F × V4 F := (l.p1, l.p2)
@[kln] def kln_motor.rep (l : kln_motor F) : V4 F × V4 F := (l.p1, l.p2)
/-- line.hpp:736-737: `p1_` then `p2_`. -/
@[kln] def lineOfRep (r : V4 F × V4 F) : Line F := ⟨r.1, r.2⟩
@[kln] def lineRep (l : Line F) : V4 F × V4 F := (l.p1, l.p2)
/-- motor.hpp:524-525: `p1_` then `p2_`. -/
@[kln] def motorOfRep (r : V4 F × V4 F) : Motor F := ⟨r.1, r.2⟩
@[kln] def motorRep (l : Motor F) : V4 F × V4 F := (l.p1, l.p2)

/-! klein_c.cpp:5-63 `convert`, both directions. -/
@[kln] def toPlane (p : kln_plane F) : Plane F := ⟨p.p0⟩
@[kln] def ofPlane (p : Plane F) : kln_plane F := ⟨p.p0⟩
@[kln] def toLine (p : kln_line F) : Line F := lineOfRep p.rep
@[kln] def ofLine (p : Line F) : kln_line F := ⟨(lineRep p).1, (lineRep p).2⟩
@[kln] def toPoint (p : kln_point F) : Point F := ⟨p.p3⟩
@[kln] def ofPoint (p : Point F) : kln_point F := ⟨p.p3⟩
@[kln] def toRotor (p : kln_rotor F) : Rotor F := ⟨p.p1⟩
@[kln] def ofRotor (p : Rotor F) : kln_rotor F := ⟨p.p1⟩
@[kln] def toTranslator (p : kln_translator F) : Translator F := ⟨p.p2⟩
@[kln] def ofTranslator (p : Translator F) : kln_translator F := ⟨p.p2⟩
@[kln] def toMotor (p : kln_motor F) : Motor F := motorOfRep p.rep
@[kln] def ofMotor (p : Motor F) : kln_motor F := ⟨(motorRep p).1, (motorRep p).2⟩

variable [Add F] [Sub F] [Mul F] [Neg F] [Zero F] [One F] [NatCast F]

/-- klein_c.cpp:65-68. -/
@[kln] def kln_plane_init (a b c d : F) : kln_plane F := ⟨(Plane.mk4 a b c d).p0⟩
/-- klein_c.cpp:70-75. -/
@[kln] def kln_line_init (a b c d e f : F) : kln_line F :=
  let tmp := Line.mk6 a b c d e f
  ⟨tmp.p1, tmp.p2⟩
/-- klein_c.cpp:77-80. -/
@[kln] def kln_point_init (x y z : F) : kln_point F := ⟨(Point.mk3 x y z).p3⟩
/-- klein_c.cpp:82-85. -/
@[kln] def kln_reflect_point (p : kln_plane F) (x : kln_point F) : kln_point F :=
  ofPoint ((toPlane p).onPoint (toPoint x))
/-- klein_c.cpp:87-90. -/
@[kln] def kln_reflect_line (p : kln_plane F) (x : kln_line F) : kln_line F :=
  ofLine ((toPlane p).onLine (toLine x))
/-- klein_c.cpp:92-95. -/
@[kln] def kln_reflect_plane (p x : kln_plane F) : kln_plane F :=
  ofPlane ((toPlane p).onPlane (toPlane x))
/-- klein_c.cpp:97-100. -/
@[kln] def kln_rotate_point (isa : Isa) (r : kln_rotor F) (x : kln_point F) : kln_point F :=
  ofPoint ((toRotor r).onPoint isa (toPoint x))
/-- klein_c.cpp:102-105. -/
@[kln] def kln_rotate_line (r : kln_rotor F) (x : kln_line F) : kln_line F :=
  ofLine ((toRotor r).onLine (toLine x))
/-- klein_c.cpp:107-110. -/
@[kln] def kln_rotate_plane (isa : Isa) (r : kln_rotor F) (x : kln_plane F) : kln_plane F :=
  ofPlane ((toRotor r).onPlane isa (toPlane x))
/-- klein_c.cpp:112-116. -/
@[kln] def kln_translate_point (t : kln_translator F) (x : kln_point F) : kln_point F :=
  ofPoint ((toTranslator t).onPoint (toPoint x))
/-- klein_c.cpp:118-121. -/
@[kln] def kln_translate_line (t : kln_translator F) (x : kln_line F) : kln_line F :=
  ofLine ((toTranslator t).onLine (toLine x))
/-- klein_c.cpp:123-127. -/
@[kln] def kln_translate_plane (hw : Hw F) (isa : Isa) (t : kln_translator F) (x : kln_plane F) :
    kln_plane F :=
  ofPlane ((toTranslator t).onPlane hw isa (toPlane x))
/-- klein_c.cpp:129-132. -/
@[kln] def kln_motor_point (m : kln_motor F) (x : kln_point F) : kln_point F :=
  ofPoint ((toMotor m).onPoint (toPoint x))
/-- klein_c.cpp:134-137. -/
@[kln] def kln_motor_line (m : kln_motor F) (x : kln_line F) : kln_line F :=
  ofLine ((toMotor m).onLine (toLine x))
/-- klein_c.cpp:139-142. -/
@[kln] def kln_motor_plane (isa : Isa) (m : kln_motor F) (x : kln_plane F) : kln_plane F :=
  ofPlane ((toMotor m).onPlane isa (toPlane x))
/-- klein_c.cpp:144-147. -/
@[kln] def kln_compose_rotors (r1 r2 : kln_rotor F) : kln_rotor F :=
  ofRotor ((toRotor r2).mulRotor (toRotor r1))
/-- klein_c.cpp:149-153. -/
@[kln] def kln_compose_translators (t1 t2 : kln_translator F) : kln_translator F :=
  ofTranslator ((toTranslator t2).mulTranslator (toTranslator t1))
/-- klein_c.cpp:155-159. -/
@[kln] def kln_compose_rotor_translator (r : kln_rotor F) (t : kln_translator F) : kln_motor F :=
  ofMotor ((toTranslator t).mulRotor (toRotor r))
/-- klein_c.cpp:161-165. -/
@[kln] def kln_compose_translator_rotor (t : kln_translator F) (r : kln_rotor F) : kln_motor F :=
  ofMotor ((toRotor r).mulTranslator (toTranslator t))
/-- klein_c.cpp:167-170. -/
@[kln] def kln_compose_motors (m1 m2 : kln_motor F) : kln_motor F :=
  ofMotor ((toMotor m2).mulMotor (toMotor m1))
/-- klein_c.cpp:172-175. -/
@[kln] def motor_log [Div F] (hw : Hw F) (lm : Libm F) (isa : Isa) (m : kln_motor F) : kln_line F :=
  ofLine ((toMotor m).log hw lm isa)
/-- klein_c.cpp:177-180. -/
@[kln] def line_exp [Div F] (hw : Hw F) (lm : Libm F) (isa : Isa) (l : kln_line F) : kln_motor F :=
  ofMotor ((toLine l).exp hw lm isa)

end Klein.C
