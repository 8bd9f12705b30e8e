import Verif.Api.Entities

/-!
# Free operators

`geometric_product.hpp`, `meet.hpp`, `join.hpp`, `inner_product.hpp`, `projection.hpp`.
The C++ overloads of `*`, `/`, `^`, `!`, `&`, `|` are given one name per overload.
-/

set_option linter.unusedVariables false

namespace Klein

variable {F : Type} [Add F] [Sub F] [Mul F] [Neg F] [Zero F] [One F] [NatCast F]

/-! ### geometric product -/
/-- geometric_product.hpp:81-86 `plane * plane`. -/
@[kln] def Plane.mulPlane (a b : Plane F) : Motor F := let r := gp00 a.p0 b.p0; ⟨r.1, r.2⟩
/-- geometric_product.hpp:88-93 `plane * point`. -/
@[kln] def Plane.mulPoint (isa : Isa) (a : Plane F) (b : Point F) : Motor F :=
  let r := gp03 false isa a.p0 b.p3; ⟨r.1, r.2⟩
/-- geometric_product.hpp:95-100 `point * plane`. -/
@[kln] def Point.mulPlane (isa : Isa) (b : Point F) (a : Plane F) : Motor F :=
  let r := gp03 true isa a.p0 b.p3; ⟨r.1, r.2⟩
/-- geometric_product.hpp:104-109 `branch * branch`. -/
@[kln] def Branch.mulBranch (a b : Branch F) : Rotor F := ⟨gp11 a.p1 b.p1⟩
/-- geometric_product.hpp:114-119 `line * line`. -/
@[kln] def Line.mulLine (a b : Line F) : Motor F := let r := gpLL a.p1 a.p2 b.p1 b.p2; ⟨r.1, r.2⟩
/-- geometric_product.hpp:124-129 `point * point`. -/
@[kln] def Point.mulPoint (hw : Hw F) (isa : Isa) (a b : Point F) : Translator F :=
  ⟨gp33 hw isa a.p3 b.p3⟩
/-- geometric_product.hpp:133-138 `rotor * rotor`. -/
@[kln] def Rotor.mulRotor (a b : Rotor F) : Rotor F := ⟨gp11 a.p1 b.p1⟩
/-- geometric_product.hpp:145-150 `dual * line`. -/
@[kln] def Dual.mulLine (a : Dual F) (b : Line F) : Line F :=
  let r := gpDL a.p a.q b.p1 b.p2; ⟨r.1, r.2⟩
/-- geometric_product.hpp:152-155 `line * dual`. -/
@[kln] def Line.mulDual (b : Line F) (a : Dual F) : Line F := Dual.mulLine a b
/-- geometric_product.hpp:158-164 `rotor * translator`. -/
@[kln] def Rotor.mulTranslator (a : Rotor F) (b : Translator F) : Motor F :=
  ⟨a.p1, gpRT false a.p1 b.p2⟩
/-- geometric_product.hpp:167-173 `translator * rotor`. -/
@[kln] def Translator.mulRotor (b : Translator F) (a : Rotor F) : Motor F :=
  ⟨a.p1, gpRT true a.p1 b.p2⟩
/-- geometric_product.hpp:177-181 `translator * translator`. -/
@[kln] def Translator.mulTranslator (a b : Translator F) : Translator F := Translator.add a b
/-- geometric_product.hpp:184-190 `rotor * motor`. -/
@[kln] def Rotor.mulMotor (a : Rotor F) (b : Motor F) : Motor F :=
  ⟨gp11 a.p1 b.p1, gp12 false a.p1 b.p2⟩
/-- geometric_product.hpp:193-199 `motor * rotor`. -/
@[kln] def Motor.mulRotor (b : Motor F) (a : Rotor F) : Motor F :=
  ⟨gp11 b.p1 a.p1, gp12 true a.p1 b.p2⟩
/-- geometric_product.hpp:202-209 `translator * motor`. -/
@[kln] def Translator.mulMotor (a : Translator F) (b : Motor F) : Motor F :=
  let p2 := gpRT true b.p1 a.p2
  ⟨b.p1, add_ps p2 b.p2⟩
/-- geometric_product.hpp:212-219 `motor * translator`. -/
@[kln] def Motor.mulTranslator (b : Motor F) (a : Translator F) : Motor F :=
  let p2 := gpRT false b.p1 a.p2
  ⟨b.p1, add_ps p2 b.p2⟩
/-- geometric_product.hpp:222-227 `motor * motor`. -/
@[kln] def Motor.mulMotor (a b : Motor F) : Motor F := let r := gpMM a.p1 a.p2 b.p1 b.p2; ⟨r.1, r.2⟩

/-! ### division -/
/-- geometric_product.hpp:231-235. -/
@[kln] def Plane.divPlane [Div F] (hw : Hw F) (isa : Isa) (a b : Plane F) : Motor F :=
  a.mulPlane (b.invert hw isa)
/-- geometric_product.hpp:237-241. -/
@[kln] def Point.divPoint (hw : Hw F) (isa : Isa) (a b : Point F) : Translator F :=
  a.mulPoint hw isa (b.invert hw)
/-- geometric_product.hpp:243-247. -/
@[kln] def Branch.divBranch [Div F] (hw : Hw F) (isa : Isa) (a b : Branch F) : Rotor F :=
  a.mulBranch (b.invert hw isa)
/-- geometric_product.hpp:249-253. -/
@[kln] def Rotor.divRotor [Div F] (hw : Hw F) (isa : Isa) (a b : Rotor F) : Rotor F :=
  a.mulRotor (b.invert hw isa)
/-- geometric_product.hpp:255-260. -/
@[kln] def Translator.divTranslator (a b : Translator F) : Translator F := a.mulTranslator b.invert
/-- geometric_product.hpp:262-266. -/
@[kln] def Line.divLine [Div F] (hw : Hw F) (isa : Isa) (a b : Line F) : Motor F :=
  a.mulLine (b.invert hw isa)
/-- geometric_product.hpp:268-272. -/
@[kln] def Motor.divRotor [Div F] (hw : Hw F) (isa : Isa) (a : Motor F) (b : Rotor F) : Motor F :=
  a.mulRotor (b.invert hw isa)
/-- geometric_product.hpp:274-278. -/
@[kln] def Motor.divTranslator (a : Motor F) (b : Translator F) : Motor F := a.mulTranslator b.invert
/-- geometric_product.hpp:280-284. -/
@[kln] def Motor.divMotor [Div F] (hw : Hw F) (isa : Isa) (a b : Motor F) : Motor F :=
  a.mulMotor (b.invert hw isa)

/-! ### meet -/
/-- meet.hpp:46-51 `plane ^ plane`. -/
@[kln] def Plane.meetPlane (a b : Plane F) : Line F := let r := ext00 a.p0 b.p0; ⟨r.1, r.2⟩
/-- meet.hpp:53-58 `plane ^ branch`. -/
@[kln] def Plane.meetBranch (isa : Isa) (a : Plane F) (b : Branch F) : Point F :=
  ⟨extPB isa a.p0 b.p1⟩
/-- meet.hpp:60-63 `branch ^ plane`. -/
@[kln] def Branch.meetPlane (isa : Isa) (b : Branch F) (a : Plane F) : Point F := a.meetBranch isa b
/-- meet.hpp:65-70 `plane ^ ideal_line`. -/
@[kln] def Plane.meetIdealLine (a : Plane F) (b : IdealLine F) : Point F := ⟨ext02 a.p0 b.p2⟩
/-- meet.hpp:72-75 `ideal_line ^ plane`. -/
@[kln] def IdealLine.meetPlane (b : IdealLine F) (a : Plane F) : Point F := a.meetIdealLine b
/-- meet.hpp:77-85 `plane ^ line`. -/
@[kln] def Plane.meetLine (isa : Isa) (a : Plane F) (b : Line F) : Point F :=
  let p3 := extPB isa a.p0 b.p1
  let tmp := ext02 a.p0 b.p2
  ⟨add_ps tmp p3⟩
/-- meet.hpp:87-90 `line ^ plane`. -/
@[kln] def Line.meetPlane (isa : Isa) (b : Line F) (a : Plane F) : Point F := a.meetLine isa b
/-- meet.hpp:92-99 `plane ^ point`. -/
@[kln] def Plane.meetPoint (isa : Isa) (a : Plane F) (b : Point F) : Dual F :=
  ⟨0, (ext03 false isa a.p0 b.p3).l0⟩
/-- meet.hpp:101-108 `point ^ plane`. -/
@[kln] def Point.meetPlane (isa : Isa) (b : Point F) (a : Plane F) : Dual F :=
  ⟨0, (ext03 true isa a.p0 b.p3).l0⟩
/-- meet.hpp:110-116 `branch ^ ideal_line`. -/
@[kln] def Branch.meetIdealLine (a : Branch F) (b : IdealLine F) : Dual F :=
  ⟨0, (hi_dp_ss a.p1 b.p2).l0⟩
/-- meet.hpp:118-121 `ideal_line ^ branch`. -/
@[kln] def IdealLine.meetBranch (b : IdealLine F) (a : Branch F) : Dual F := a.meetIdealLine b
/-- meet.hpp:123-131 `line ^ line`. -/
@[kln] def Line.meetLine (a b : Line F) : Dual F :=
  let out0 := (hi_dp_ss a.p1 b.p2).l0
  let out1 := (hi_dp_ss b.p1 a.p2).l0
  ⟨0, out0 + out1⟩
/-- meet.hpp:133-136 `line ^ ideal_line`. -/
@[kln] def Line.meetIdealLine (a : Line F) (b : IdealLine F) : Dual F :=
  (Branch.mk a.p1).meetIdealLine b
/-- meet.hpp:138-141 `ideal_line ^ line`. -/
@[kln] def IdealLine.meetLine (b : IdealLine F) (a : Line F) : Dual F := a.meetIdealLine b
/-- meet.hpp:143-146 `line ^ branch`. -/
@[kln] def Line.meetBranch (a : Line F) (b : Branch F) : Dual F := (IdealLine.mk a.p2).meetBranch b
/-- meet.hpp:148-151 `branch ^ line`. -/
@[kln] def Branch.meetLine (b : Branch F) (a : Line F) : Dual F := a.meetBranch b

/-! ### dual and join -/
/-- join.hpp:28-31 `!plane`. -/
@[kln] def Plane.dual (p : Plane F) : Point F := ⟨p.p0⟩
/-- join.hpp:33-36 `!point`. -/
@[kln] def Point.dual (p : Point F) : Plane F := ⟨p.p3⟩
/-- join.hpp:38-41 `!line`. -/
@[kln] def Line.dual (l : Line F) : Line F := ⟨l.p2, l.p1⟩
/-- join.hpp:43-46 `!ideal_line`. -/
@[kln] def IdealLine.dual (l : IdealLine F) : Branch F := ⟨l.p2⟩
/-- join.hpp:48-51 `!branch`. -/
@[kln] def Branch.dual (l : Branch F) : IdealLine F := ⟨l.p1⟩
/-- join.hpp:53-56 `!dual`. -/
@[kln] def Dual.dual (d : Dual F) : Dual F := ⟨d.q, d.p⟩

/-- join.hpp:89-92 `point & point`. -/
@[kln] def Point.joinPoint (a b : Point F) : Line F := (a.dual.meetPlane b.dual).dual
/-- join.hpp:94-97 `point & line`. -/
@[kln] def Point.joinLine (isa : Isa) (a : Point F) (b : Line F) : Plane F :=
  (a.dual.meetLine isa b.dual).dual
/-- join.hpp:99-102 `line & point`. -/
@[kln] def Line.joinPoint (isa : Isa) (b : Line F) (a : Point F) : Plane F := a.joinLine isa b
/-- join.hpp:104-107 `point & branch`. -/
@[kln] def Point.joinBranch (a : Point F) (b : Branch F) : Plane F :=
  (a.dual.meetIdealLine b.dual).dual
/-- join.hpp:109-112 `branch & point`. -/
@[kln] def Branch.joinPoint (b : Branch F) (a : Point F) : Plane F := a.joinBranch b
/-- join.hpp:114-117 `point & ideal_line`. -/
@[kln] def Point.joinIdealLine (isa : Isa) (a : Point F) (b : IdealLine F) : Plane F :=
  (a.dual.meetBranch isa b.dual).dual
/-- join.hpp:119-122 `ideal_line & point`. -/
@[kln] def IdealLine.joinPoint (isa : Isa) (b : IdealLine F) (a : Point F) : Plane F :=
  a.joinIdealLine isa b
/-- join.hpp:124-127 `plane & point`. -/
@[kln] def Plane.joinPoint (isa : Isa) (a : Plane F) (b : Point F) : Dual F :=
  (a.dual.meetPlane isa b.dual).dual
/-- join.hpp:129-132 `point & plane`. -/
@[kln] def Point.joinPlane (isa : Isa) (a : Point F) (b : Plane F) : Dual F :=
  (a.dual.meetPoint isa b.dual).dual

/-! ### inner product -/
/-- inner_product.hpp:51-58 `plane | plane`. -/
@[kln] def Plane.dotPlane (isa : Isa) (a b : Plane F) : F := (dot00 isa a.p0 b.p0).l0
/-- inner_product.hpp:60-65 `plane | line`. -/
@[kln] def Plane.dotLine (a : Plane F) (b : Line F) : Plane F := ⟨dotPL false a.p0 b.p1 b.p2⟩
/-- inner_product.hpp:67-72 `line | plane`. -/
@[kln] def Line.dotPlane (b : Line F) (a : Plane F) : Plane F := ⟨dotPL true a.p0 b.p1 b.p2⟩
/-- inner_product.hpp:74-79 `plane | ideal_line`. -/
@[kln] def Plane.dotIdealLine (isa : Isa) (a : Plane F) (b : IdealLine F) : Plane F :=
  ⟨dotPIL false isa a.p0 b.p2⟩
/-- inner_product.hpp:81-86 `ideal_line | plane`. -/
@[kln] def IdealLine.dotPlane (isa : Isa) (b : IdealLine F) (a : Plane F) : Plane F :=
  ⟨dotPIL true isa a.p0 b.p2⟩
/-- inner_product.hpp:88-93 `plane | point`. -/
@[kln] def Plane.dotPoint (isa : Isa) (a : Plane F) (b : Point F) : Line F :=
  let r := dot03 isa a.p0 b.p3; ⟨r.1, r.2⟩
/-- inner_product.hpp:95-98 `point | plane`. -/
@[kln] def Point.dotPlane (isa : Isa) (a : Point F) (b : Plane F) : Line F := b.dotPoint isa a
/-- inner_product.hpp:100-107 `line | line`. -/
@[kln] def Line.dotLine (a b : Line F) : F := (dot11 a.p1 b.p1).l0
/-- inner_product.hpp:109-114 `point | line`. -/
@[kln] def Point.dotLine (isa : Isa) (a : Point F) (b : Line F) : Plane F := ⟨dotPTL isa a.p3 b.p1⟩
/-- inner_product.hpp:116-119 `line | point`. -/
@[kln] def Line.dotPoint (isa : Isa) (b : Line F) (a : Point F) : Plane F := a.dotLine isa b
/-- inner_product.hpp:121-128 `point | point`. -/
@[kln] def Point.dotPoint (a b : Point F) : F := (dot33 a.p3 b.p3).l0

/-! ### projection -/
/-- projection.hpp:40-43. -/
@[kln] def Point.projectLine (isa : Isa) (a : Point F) (b : Line F) : Point F :=
  (a.dotLine isa b).meetLine isa b
/-- projection.hpp:46-49. -/
@[kln] def Point.projectPlane (isa : Isa) (a : Point F) (b : Plane F) : Point F :=
  (a.dotPlane isa b).meetPlane isa b
/-- projection.hpp:52-55. -/
@[kln] def Line.projectPlane (a : Line F) (b : Plane F) : Line F := (a.dotPlane b).meetPlane b
/-- projection.hpp:65-68. -/
@[kln] def Plane.projectPoint (isa : Isa) (a : Plane F) (b : Point F) : Plane F :=
  (a.dotPoint isa b).dotPoint isa b
/-- projection.hpp:72-75. -/
@[kln] def Line.projectPoint (isa : Isa) (a : Line F) (b : Point F) : Line F :=
  (a.dotPoint isa b).dotPoint isa b
/-- projection.hpp:83-86. -/
@[kln] def Plane.projectLine (a : Plane F) (b : Line F) : Plane F := (a.dotLine b).dotLine b

end Klein
