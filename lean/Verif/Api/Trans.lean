import Verif.Api.Ops
import Verif.Kernels.ExpLog

/-!
# Constructors, exponentials, logarithms, square roots, comparisons, matrices, Euler angles

The remaining members of `/repo/public/klein`: those that use the scalar C library, float
comparisons or the sign bit.  Float literals such as `0.5f`, `0.4999f` are the corresponding
quotients (`0.4999f` is not representable; the model takes the decimal value).
-/

set_option linter.unusedVariables false

namespace Klein

variable {F : Type}
variable [Add F] [Sub F] [Mul F] [Neg F] [Zero F] [One F] [NatCast F]

/-- rotor.hpp:14-19 `euler_angles`. -/
@[ext] structure EulerAngles (F : Type) where
  roll : F
  pitch : F
  yaw : F
  deriving DecidableEq, Repr

/-! ### constructors -/

/-- rotor.hpp:72-84 `rotor(ang_rad, x, y, z)`. -/
@[kln] def Rotor.mkAxis [Div F] (lm : Libm F) (ang_rad x y z : F) : Rotor F :=
  let norm := lm.sqrt (x * x + y * y + z * z)
  let inv_norm := 1 / norm
  let half := 1 / 2 * ang_rad
  let sin_ang := lm.sin half
  let scale := sin_ang * inv_norm
  let p1 := set_ps z y x (lm.cos half)
  ⟨mul_ps p1 (set_ps scale scale scale 1)⟩

/-- rotor.hpp:86-104 `rotor(euler_angles)`. -/
@[kln] def Rotor.mkEuler [Div F] (hw : Hw F) (lm : Libm F) (isa : Isa) (ea : EulerAngles F) :
    Rotor F :=
  let half_yaw := ea.yaw * (1 / 2)
  let half_pitch := ea.pitch * (1 / 2)
  let half_roll := ea.roll * (1 / 2)
  let cos_y := lm.cos half_yaw
  let sin_y := lm.sin half_yaw
  let cos_p := lm.cos half_pitch
  let sin_p := lm.sin half_pitch
  let cos_r := lm.cos half_roll
  let sin_r := lm.sin half_roll
  let p1 := set_ps (cos_r * cos_p * sin_y - sin_r * sin_p * cos_y)
    (cos_r * sin_p * cos_y + sin_r * cos_p * sin_y)
    (sin_r * cos_p * cos_y - cos_r * sin_p * sin_y)
    (cos_r * cos_p * cos_y + sin_r * sin_p * sin_y)
  Rotor.normalize hw isa ⟨p1⟩

/-- translator.hpp:56-64 `translator(delta, x, y, z)`. -/
@[kln] def Translator.mkAxis [Div F] (lm : Libm F) (delta x y z : F) : Translator F :=
  let norm := lm.sqrt (x * x + y * y + z * z)
  let inv_norm := 1 / norm
  let half_d := -(1 / 2) * delta
  let p2 := mul_ps (set1_ps half_d) (set_ps z y x 0)
  ⟨mul_ps p2 (set_ps inv_norm inv_norm inv_norm 0)⟩

/-- motor.hpp:98-104 `motor(ang_rad, d, line)`. -/
@[kln] def Motor.mkScrew [Div F] (hw : Hw F) (lm : Libm F) (isa : Isa) (ang_rad d : F)
    (l : Line F) : Motor F :=
  let log_m := gpDL (-ang_rad * (1 / 2)) (d * (1 / 2)) l.p1 l.p2
  let r := exp_kernel hw lm isa log_m.1 log_m.2
  ⟨r.1, r.2⟩

/-! ### exp, log, sqrt -/

/-- exp_log.hpp:38-43 `log(motor)`. -/
@[kln] def Motor.log [Div F] (hw : Hw F) (lm : Libm F) (isa : Isa) (m : Motor F) : Line F :=
  let r := log_kernel hw lm isa m.p1 m.p2
  ⟨r.1, r.2⟩

/-- exp_log.hpp:50-55 `exp(line)`. -/
@[kln] def Line.exp [Div F] (hw : Hw F) (lm : Libm F) (isa : Isa) (l : Line F) : Motor F :=
  let r := exp_kernel hw lm isa l.p1 l.p2
  ⟨r.1, r.2⟩

/-- exp_log.hpp:60-65 `log(translator)`. -/
@[kln] def Translator.log (t : Translator F) : IdealLine F := ⟨t.p2⟩

/-- exp_log.hpp:74-79 `exp(ideal_line)`. -/
@[kln] def IdealLine.exp (l : IdealLine F) : Translator F := ⟨l.p2⟩

/-- exp_log.hpp:89-105 `log(rotor)`. -/
@[kln] def Rotor.log (hw : Hw F) (lm : Libm F) (isa : Isa) (r : Rotor F) : Branch F :=
  let cos_ang := r.p1.l0
  let ang := lm.acos cos_ang
  let sin_ang := lm.sin ang
  let p1 := mul_ps r.p1 (rcp_nr1 hw (set1_ps sin_ang))
  let p1 := mul_ps p1 (set1_ps ang)
  match isa with
  | .sse41 => ⟨blend_ps p1 setzero_ps false false false true⟩
  | .sse3 => ⟨and_ps p1 ⟨false, true, true, true⟩⟩

/-- exp_log.hpp:108-120 `exp(branch)`. -/
@[kln] def Branch.exp [Div F] (hw : Hw F) (lm : Libm F) (isa : Isa) (b : Branch F) : Rotor F :=
  let ang := (sqrt_nr1 hw (hi_dp isa b.p1 b.p1)).l0
  let cos_ang := lm.cos ang
  let sin_ang := lm.sin ang / ang
  let p1 := mul_ps (set1_ps sin_ang) b.p1
  ⟨add_ps p1 (set_ps 0 0 0 cos_ang)⟩

/-- exp_log.hpp:123-128 `sqrt(rotor)`. -/
@[kln] def Rotor.sqrt [Div F] (hw : Hw F) (isa : Isa) (r : Rotor F) : Rotor F :=
  Rotor.normalize hw isa ⟨add_ss r.p1 (set_ss 1)⟩

/-- exp_log.hpp:130-136 `sqrt(branch)`. -/
@[kln] def Branch.sqrt [Div F] (hw : Hw F) (isa : Isa) (b : Branch F) : Rotor F :=
  Rotor.normalize hw isa ⟨add_ss b.p1 (set_ss 1)⟩

/-- exp_log.hpp:139-143 `sqrt(translator)`. -/
@[kln] def Translator.sqrt [Div F] (t : Translator F) : Translator F :=
  Translator.mulAssign t (1 / 2)

/-- exp_log.hpp:146-151 `sqrt(motor)`. -/
@[kln] def Motor.sqrt [Div F] (hw : Hw F) (isa : Isa) (m : Motor F) : Motor F :=
  Motor.normalize hw isa ⟨add_ss m.p1 (set_ss 1), m.p2⟩

/-! ### constrain -/

/-- rotor.hpp:156-160. -/
@[kln] def Rotor.constrain (lm : Libm F) (r : Rotor F) : Rotor F :=
  let b := lm.signbit r.p1.l0
  ⟨xor_ps r.p1 ⟨b, b, b, b⟩⟩

/-- motor.hpp:221-226. -/
@[kln] def Motor.constrain (lm : Libm F) (m : Motor F) : Motor F :=
  let b := lm.signbit m.p1.l0
  ⟨xor_ps m.p1 ⟨b, b, b, b⟩, xor_ps m.p2 ⟨b, b, b, b⟩⟩

/-! ### comparisons -/

/-- plane.hpp:111-114. -/
@[kln] def Plane.eqb (lm : Libm F) (a b : Plane F) : Bool := lm.cmpeq_all a.p0 b.p0
/-- plane.hpp:116-123. -/
@[kln] def Plane.approx_eq (lm : Libm F) (a b : Plane F) (epsilon : F) : Bool :=
  lm.cmplt_all (lm.abs_ps (sub_ps a.p0 b.p0)) (set1_ps epsilon)
/-- rotor.hpp:169-172. -/
@[kln] def Rotor.eqb (lm : Libm F) (a b : Rotor F) : Bool := lm.cmpeq_all a.p1 b.p1
/-- rotor.hpp:174-181. -/
@[kln] def Rotor.approx_eq (lm : Libm F) (a b : Rotor F) (epsilon : F) : Bool :=
  lm.cmplt_all (lm.abs_ps (sub_ps a.p1 b.p1)) (set1_ps epsilon)

/-- `_mm_and_ps` of two lane comparison masks followed by `_mm_movemask_ps(..) == 0xf`. -/
@[sse] def andMask (a b : V4 Bool) : Bool :=
  (a.l0 && b.l0) && (a.l1 && b.l1) && (a.l2 && b.l2) && (a.l3 && b.l3)

/-- `_mm_cmpeq_ps` as a lane mask. -/
@[sse] def Libm.cmpeq_ps (lm : Libm F) (a b : V4 F) : V4 Bool :=
  ⟨lm.feq a.l0 b.l0, lm.feq a.l1 b.l1, lm.feq a.l2 b.l2, lm.feq a.l3 b.l3⟩

/-- `_mm_cmplt_ps` as a lane mask. -/
@[sse] def Libm.cmplt_ps (lm : Libm F) (a b : V4 F) : V4 Bool :=
  ⟨lm.flt a.l0 b.l0, lm.flt a.l1 b.l1, lm.flt a.l2 b.l2, lm.flt a.l3 b.l3⟩

/-- line.hpp:591-597. -/
@[kln] def Line.eqb (lm : Libm F) (a b : Line F) : Bool :=
  andMask (lm.cmpeq_ps a.p1 b.p1) (lm.cmpeq_ps a.p2 b.p2)
/-- line.hpp:599-610. -/
@[kln] def Line.approx_eq (lm : Libm F) (a b : Line F) (epsilon : F) : Bool :=
  andMask (lm.cmplt_ps (lm.abs_ps (sub_ps a.p1 b.p1)) (set1_ps epsilon))
    (lm.cmplt_ps (lm.abs_ps (sub_ps a.p2 b.p2)) (set1_ps epsilon))
/-- motor.hpp:236-242. -/
@[kln] def Motor.eqb (lm : Libm F) (a b : Motor F) : Bool :=
  andMask (lm.cmpeq_ps a.p1 b.p1) (lm.cmpeq_ps a.p2 b.p2)
/-- motor.hpp:244-255. -/
@[kln] def Motor.approx_eq (lm : Libm F) (a b : Motor F) (epsilon : F) : Bool :=
  andMask (lm.cmplt_ps (lm.abs_ps (sub_ps a.p1 b.p1)) (set1_ps epsilon))
    (lm.cmplt_ps (lm.abs_ps (sub_ps a.p2 b.p2)) (set1_ps epsilon))

/-! ### matrices -/

/-- mat3x4.hpp:20-27 and mat4x4.hpp:19-26 `operator()`. -/
@[kln] def Mat4.apply (m : Mat4 F) (xyzw : V4 F) : V4 F :=
  let out := mul_ps m.c0 (swz xyzw 0 0 0 0)
  let out := add_ps out (mul_ps m.c1 (swz xyzw 1 1 1 1))
  let out := add_ps out (mul_ps m.c2 (swz xyzw 2 2 2 2))
  add_ps out (mul_ps m.c3 (swz xyzw 3 3 3 3))

/-- motor.hpp:261-266. -/
@[kln] def Motor.as_mat3x4 (isa : Isa) (m : Motor F) (mem : V4 F) : Mat4 F :=
  mat4x4_12 isa true m.p1 (some m.p2) mem
/-- motor.hpp:270-275. -/
@[kln] def Motor.as_mat4x4 (isa : Isa) (m : Motor F) (mem : V4 F) : Mat4 F :=
  mat4x4_12 isa false m.p1 (some m.p2) mem
/-- rotor.hpp:186-191; `mem` is the previous (indeterminate) content of the fourth column. -/
@[kln] def Rotor.as_mat3x4 (isa : Isa) (r : Rotor F) (mem : V4 F) : Mat4 F :=
  mat4x4_12 isa true r.p1 none mem
/-- rotor.hpp:194-199. -/
@[kln] def Rotor.as_mat4x4 (isa : Isa) (r : Rotor F) (mem : V4 F) : Mat4 F :=
  mat4x4_12 isa false r.p1 none mem

/-! ### Euler angles -/

/-- rotor.hpp:201-243 `as_euler_angles`.  `a > b` is `flt b a`. -/
@[kln] def Rotor.as_euler_angles [Div F] (lm : Libm F) (r : Rotor F) : EulerAngles F :=
  let b0 := r.p1.l0
  let b1 := r.p1.l1
  let b2 := r.p1.l2
  let b3 := r.p1.l3
  let test := b1 * b2 + b3 * b0
  bif lm.flt (4999 / 10000) test then ⟨2 * lm.atan2 b1 b0, lm.pi_2, 0⟩
  else bif lm.flt test (-(4999 / 10000)) then ⟨-2 * lm.atan2 b1 b0, -lm.pi_2, 0⟩
  else
    let b1_2 := b1 * b1
    let b2_2 := b2 * b2
    let b3_2 := b3 * b3
    let roll := lm.atan2 (2 * (b0 * b1 + b2 * b3)) (1 - 2 * (b1_2 + b2_2))
    let sinp := 2 * (b0 * b2 - b1 * b3)
    let pitch := bif lm.flt 1 (lm.abs sinp) then lm.copysign lm.pi_2 sinp else lm.asin sinp
    let yaw := lm.atan2 (2 * (b0 * b3 + b1 * b2)) (1 - 2 * (b2_2 + b3_2))
    ⟨roll, pitch, yaw⟩

end Klein
