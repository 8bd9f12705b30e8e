import Verif.Float.Sqrt
import Verif.Float.Fast
import Verif.Api.Trans
import Verif.Glsl.Klein
import Verif.Memory.Arrays

/-!
# The repository's own tests, run in the binary32 model

C71.  The comparisons of `/repo/test` whose operands do not need a trigonometric function, evaluated
on bit patterns for both builds: first those without reciprocal estimates, whose outcome is
determined, then the others with correctly rounded estimates.  The authors obtained the expected
values by running the code, so these theorems compare the transcription with it.
-/

namespace Klein

/-- Comparisons and square root as IEEE prescribes; the other functions are not used below. -/
def lm32 : Libm F32 := Libm.f32
  { sqrt := F32.sqrt, sin := id, cos := id, acos := id, asin := id, atan2 := fun x _ => x, abs := id,
    copysign := fun x _ => x, feq := fun _ _ => false, flt := fun _ _ => false,
    signbit := fun _ => false, pi_2 := 0, eps6 := 0 }

/-- test/test_gp.cpp:9-22. -/
theorem C71_gp_plane_plane :
    let m := (Plane.mk4 1 2 3 4 : Plane F32).mulPlane (Plane.mk4 2 3 (-1) (-2) : Plane F32)
    F32.feq m.scalar 5 = true ∧ F32.feq m.e12 (-1) = true ∧ F32.feq m.e31 7 = true ∧
    F32.feq m.e23 (-11) = true ∧ F32.feq m.e01 10 = true ∧ F32.feq m.e02 16 = true ∧
    F32.feq m.e03 2 = true ∧ F32.feq m.e0123 0 = true := by f32_decide

/-- test/test_gp.cpp:46-62. -/
theorem C71_gp_plane_point (isa : Isa) :
    let m := (Plane.mk4 1 2 3 4 : Plane F32).mulPoint isa (Point.mk3 (-2) 1 4 : Point F32)
    F32.feq m.scalar 0 = true ∧ F32.feq m.e01 (-5) = true ∧ F32.feq m.e02 10 = true ∧
    F32.feq m.e03 (-5) = true ∧ F32.feq m.e12 3 = true ∧ F32.feq m.e31 2 = true ∧
    F32.feq m.e23 1 = true ∧ F32.feq m.e0123 16 = true := by
  cases isa <;> f32_decide

/-- test/test_gp.cpp:79-87. -/
theorem C71_gp_branch_branch :
    let r := (Branch.mk3 1 (-2) (-3) : Branch F32).mulBranch (Branch.mk3 2 1 3 : Branch F32)
    F32.feq r.scalar 9 = true ∧ F32.feq r.e23 3 = true ∧ F32.feq r.e31 9 = true ∧
    F32.feq r.e12 (-5) = true := by f32_decide

/-- test/test_gp.cpp:107-121. -/
theorem C71_gp_line_line :
    let m := (Line.mk6 1 0 0 3 2 1 : Line F32).mulLine (Line.mk6 0 1 0 4 1 (-2) : Line F32)
    F32.feq m.scalar (-12) = true ∧ F32.feq m.e12 5 = true ∧ F32.feq m.e31 (-10) = true ∧
    F32.feq m.e23 5 = true ∧ F32.feq m.e01 1 = true ∧ F32.feq m.e02 (-2) = true ∧
    F32.feq m.e03 (-4) = true ∧ F32.feq m.e0123 6 = true := by f32_decide

/-- test/test_gp.cpp:143-159. -/
theorem C71_gp_point_plane (isa : Isa) :
    let m := (Point.mk3 (-2) 1 4 : Point F32).mulPlane isa (Plane.mk4 1 2 3 4 : Plane F32)
    F32.feq m.scalar 0 = true ∧ F32.feq m.e01 (-5) = true ∧ F32.feq m.e02 10 = true ∧
    F32.feq m.e03 (-5) = true ∧ F32.feq m.e12 3 = true ∧ F32.feq m.e31 2 = true ∧
    F32.feq m.e23 1 = true ∧ F32.feq m.e0123 (-16) = true := by
  cases isa <;> f32_decide

/-- test/test_gp.cpp:196-211. -/
theorem C71_gp_rotor_translator :
    let m := (Rotor.mk ⟨1, 0, 0, 1⟩ : Rotor F32).mulTranslator (Translator.mk ⟨0, 0, 0, 1⟩ : Translator F32)
    F32.feq m.scalar 1 = true ∧ F32.feq m.e01 0 = true ∧ F32.feq m.e02 0 = true ∧
    F32.feq m.e03 1 = true ∧ F32.feq m.e23 0 = true ∧ F32.feq m.e31 0 = true ∧
    F32.feq m.e12 1 = true ∧ F32.feq m.e0123 1 = true := by f32_decide

/-- test/test_gp.cpp:213-228. -/
theorem C71_gp_translator_rotor :
    let m := (Translator.mk ⟨0, 0, 0, 1⟩ : Translator F32).mulRotor (Rotor.mk ⟨1, 0, 0, 1⟩ : Rotor F32)
    F32.feq m.scalar 1 = true ∧ F32.feq m.e01 0 = true ∧ F32.feq m.e02 0 = true ∧
    F32.feq m.e03 1 = true ∧ F32.feq m.e23 0 = true ∧ F32.feq m.e31 0 = true ∧
    F32.feq m.e12 1 = true ∧ F32.feq m.e0123 1 = true := by f32_decide

/-- test/test_gp.cpp:230-241. -/
theorem C71_gp_motor_rotor :
    Motor.eqb lm32
      (((Translator.mk ⟨-3, 1, -2, 3⟩ : Translator F32).mulRotor (Rotor.mk ⟨4, 3, 2, 1⟩ : Rotor F32)).mulRotor (Rotor.mk ⟨1, -3, 2, -4⟩ : Rotor F32))
      ((Translator.mk ⟨-3, 1, -2, 3⟩ : Translator F32).mulRotor ((Rotor.mk ⟨4, 3, 2, 1⟩ : Rotor F32).mulRotor (Rotor.mk ⟨1, -3, 2, -4⟩ : Rotor F32))) = true := by f32_decide

/-- test/test_gp.cpp:243-254. -/
theorem C71_gp_rotor_motor :
    Motor.eqb lm32
      ((Rotor.mk ⟨1, -3, 2, -4⟩ : Rotor F32).mulMotor ((Rotor.mk ⟨4, 3, 2, 1⟩ : Rotor F32).mulTranslator (Translator.mk ⟨-3, 1, -2, 3⟩ : Translator F32)))
      (((Rotor.mk ⟨1, -3, 2, -4⟩ : Rotor F32).mulRotor (Rotor.mk ⟨4, 3, 2, 1⟩ : Rotor F32)).mulTranslator (Translator.mk ⟨-3, 1, -2, 3⟩ : Translator F32)) = true := by f32_decide

/-- test/test_gp.cpp:256-267. -/
theorem C71_gp_motor_translator :
    Motor.eqb lm32
      (((Rotor.mk ⟨4, 3, 2, 1⟩ : Rotor F32).mulTranslator (Translator.mk ⟨-3, 1, -2, 3⟩ : Translator F32)).mulTranslator (Translator.mk ⟨1, -3, 2, -4⟩ : Translator F32))
      ((Rotor.mk ⟨4, 3, 2, 1⟩ : Rotor F32).mulTranslator ((Translator.mk ⟨-3, 1, -2, 3⟩ : Translator F32).mulTranslator (Translator.mk ⟨1, -3, 2, -4⟩ : Translator F32))) = true := by f32_decide

/-- test/test_gp.cpp:269-280. -/
theorem C71_gp_translator_motor :
    Motor.eqb lm32
      ((Translator.mk ⟨1, -3, 2, -4⟩ : Translator F32).mulMotor ((Rotor.mk ⟨4, 3, 2, 1⟩ : Rotor F32).mulTranslator (Translator.mk ⟨-3, 1, -2, 3⟩ : Translator F32)))
      (((Translator.mk ⟨1, -3, 2, -4⟩ : Translator F32).mulRotor (Rotor.mk ⟨4, 3, 2, 1⟩ : Rotor F32)).mulTranslator (Translator.mk ⟨-3, 1, -2, 3⟩ : Translator F32)) = true := by f32_decide

/-- test/test_gp.cpp:282-295. -/
theorem C71_gp_motor_motor :
    let m := (Motor.mk8 2 3 4 5 6 7 8 9 : Motor F32).mulMotor (Motor.mk8 6 7 8 9 10 11 12 13 : Motor F32)
    F32.feq m.scalar (-86) = true ∧ F32.feq m.e23 36 = true ∧ F32.feq m.e31 32 = true ∧
    F32.feq m.e12 52 = true ∧ F32.feq m.e01 (-38) = true ∧ F32.feq m.e02 (-76) = true ∧
    F32.feq m.e03 (-66) = true ∧ F32.feq m.e0123 384 = true := by f32_decide

/-- test/test_ip.cpp:9-16. -/
theorem C71_ip_plane_plane (isa : Isa) :
    let s := (Plane.mk4 1 2 3 4 : Plane F32).dotPlane isa (Plane.mk4 2 3 (-1) (-2) : Plane F32)
    F32.feq s 5 = true := by
  cases isa <;> f32_decide

/-- test/test_ip.cpp:18-31. -/
theorem C71_ip_plane_line :
    let p := (Plane.mk4 1 2 3 4 : Plane F32).dotLine (Line.mk6 0 0 1 4 1 (-2) : Line F32)
    F32.feq p.d (-3) = true ∧ F32.feq p.x 7 = true ∧ F32.feq p.y (-14) = true ∧
    F32.feq p.z 7 = true := by f32_decide

/-- test/test_ip.cpp:33-43. -/
theorem C71_ip_plane_ideal_line (isa : Isa) :
    let p := (Plane.mk4 1 2 3 4 : Plane F32).dotIdealLine isa (IdealLine.mk3 (-2) 1 4 : IdealLine F32)
    F32.feq p.d (-12) = true := by
  cases isa <;> f32_decide

/-- test/test_ip.cpp:45-59. -/
theorem C71_ip_plane_point (isa : Isa) :
    let l := (Plane.mk4 1 2 3 4 : Plane F32).dotPoint isa (Point.mk3 (-2) 1 4 : Point F32)
    F32.feq l.e01 (-5) = true ∧ F32.feq l.e02 10 = true ∧ F32.feq l.e03 (-5) = true ∧
    F32.feq l.e12 3 = true ∧ F32.feq l.e31 2 = true ∧ F32.feq l.e23 1 = true := by
  cases isa <;> f32_decide

/-- test/test_ip.cpp:61-74. -/
theorem C71_ip_line_plane :
    let p := (Line.mk6 0 0 1 4 1 (-2) : Line F32).dotPlane (Plane.mk4 1 2 3 4 : Plane F32)
    F32.feq p.d 3 = true ∧ F32.feq p.x (-7) = true ∧ F32.feq p.y 14 = true ∧
    F32.feq p.z (-7) = true := by f32_decide

/-- test/test_ip.cpp:76-84. -/
theorem C71_ip_line_line :
    let s := (Line.mk6 1 0 0 3 2 1 : Line F32).dotLine (Line.mk6 0 1 0 4 1 (-2) : Line F32)
    F32.feq s (-12) = true := by f32_decide

/-- test/test_ip.cpp:86-98. -/
theorem C71_ip_line_point (isa : Isa) :
    let p := (Line.mk6 0 0 1 3 2 1 : Line F32).dotPoint isa (Point.mk3 (-2) 1 4 : Point F32)
    F32.feq p.d 0 = true ∧ F32.feq p.x (-3) = true ∧ F32.feq p.y (-2) = true ∧
    F32.feq p.z (-1) = true := by
  cases isa <;> f32_decide

/-- test/test_ip.cpp:100-114. -/
theorem C71_ip_point_plane (isa : Isa) :
    let l := (Point.mk3 (-2) 1 4 : Point F32).dotPlane isa (Plane.mk4 1 2 3 4 : Plane F32)
    F32.feq l.e01 (-5) = true ∧ F32.feq l.e02 10 = true ∧ F32.feq l.e03 (-5) = true ∧
    F32.feq l.e12 3 = true ∧ F32.feq l.e31 2 = true ∧ F32.feq l.e23 1 = true := by
  cases isa <;> f32_decide

/-- test/test_ip.cpp:116-128. -/
theorem C71_ip_point_line (isa : Isa) :
    let p := (Point.mk3 (-2) 1 4 : Point F32).dotLine isa (Line.mk6 0 0 1 3 2 1 : Line F32)
    F32.feq p.d 0 = true ∧ F32.feq p.x (-3) = true ∧ F32.feq p.y (-2) = true ∧
    F32.feq p.z (-1) = true := by
  cases isa <;> f32_decide

/-- test/test_ip.cpp:130-138. -/
theorem C71_ip_point_point :
    let s := (Point.mk3 1 2 3 : Point F32).dotPoint (Point.mk3 (-2) 1 4 : Point F32)
    F32.feq s (-1) = true := by f32_decide

/-- test/test_ip.cpp:140-146. -/
theorem C71_ip_project_point_line (isa : Isa) :
    let l := (Point.mk3 0 0 0 : Point F32).joinPoint (Point.mk3 1 0 0 : Point F32)
    let p := (l.dotPoint isa (Point.mk3 2 2 0 : Point F32)).meetLine isa l
    F32.feq p.w (-1) = true ∧ F32.feq p.x (-2) = true ∧ F32.feq p.y 0 = true ∧
    F32.feq p.z 0 = true := by
  cases isa <;> f32_decide

/-- test/test_ep.cpp:9-21. -/
theorem C71_ep_plane_plane :
    let l := (Plane.mk4 1 2 3 4 : Plane F32).meetPlane (Plane.mk4 2 3 (-1) (-2) : Plane F32)
    F32.feq l.e01 10 = true ∧ F32.feq l.e02 16 = true ∧ F32.feq l.e03 2 = true ∧
    F32.feq l.e12 (-1) = true ∧ F32.feq l.e31 7 = true ∧ F32.feq l.e23 (-11) = true := by f32_decide

/-- test/test_ep.cpp:23-36. -/
theorem C71_ep_plane_line (isa : Isa) :
    let p := (Plane.mk4 1 2 3 4 : Plane F32).meetLine isa (Line.mk6 0 0 1 4 1 (-2) : Line F32)
    F32.feq p.z 8 = true ∧ F32.feq p.y (-5) = true ∧ F32.feq p.x (-14) = true ∧
    F32.feq p.w 0 = true := by
  cases isa <;> f32_decide

/-- test/test_ep.cpp:38-51. -/
theorem C71_ep_plane_ideal_line :
    let p := (Plane.mk4 1 2 3 4 : Plane F32).meetIdealLine (IdealLine.mk3 (-2) 1 4 : IdealLine F32)
    F32.feq p.z 5 = true ∧ F32.feq p.y (-10) = true ∧ F32.feq p.x 5 = true ∧ F32.feq p.w 0 = true := by f32_decide

/-- test/test_ep.cpp:53-63. -/
theorem C71_ep_plane_point (isa : Isa) :
    let d := (Plane.mk4 1 2 3 4 : Plane F32).meetPoint isa (Point.mk3 (-2) 1 4 : Point F32)
    F32.feq d.p 0 = true ∧ F32.feq d.q 16 = true := by
  cases isa <;> f32_decide

/-- test/test_ep.cpp:65-78. -/
theorem C71_ep_line_plane (isa : Isa) :
    let p := (Line.mk6 0 0 1 4 1 (-2) : Line F32).meetPlane isa (Plane.mk4 1 2 3 4 : Plane F32)
    F32.feq p.z 8 = true ∧ F32.feq p.y (-5) = true ∧ F32.feq p.x (-14) = true ∧
    F32.feq p.w 0 = true := by
  cases isa <;> f32_decide

/-- test/test_ep.cpp:80-88. -/
theorem C71_ep_line_line :
    let d := (Line.mk6 1 0 0 3 2 1 : Line F32).meetLine (Line.mk6 0 1 0 4 1 (-2) : Line F32)
    F32.feq d.q 6 = true := by f32_decide

/-- test/test_ep.cpp:90-100. -/
theorem C71_ep_line_ideal_line :
    let d := (Line.mk6 0 0 1 3 2 1 : Line F32).meetIdealLine (IdealLine.mk3 (-2) 1 4 : IdealLine F32)
    F32.feq d.q 0 = true ∧ F32.feq d.p 0 = true := by f32_decide

/-- test/test_ep.cpp:102-115. -/
theorem C71_ep_ideal_line_plane :
    let p := (IdealLine.mk3 (-2) 1 4 : IdealLine F32).meetPlane (Plane.mk4 1 2 3 4 : Plane F32)
    F32.feq p.z 5 = true ∧ F32.feq p.y (-10) = true ∧ F32.feq p.x 5 = true ∧ F32.feq p.w 0 = true := by f32_decide

/-- test/test_ep.cpp:117-126. -/
theorem C71_ep_point_plane (isa : Isa) :
    let d := (Point.mk3 (-2) 1 4 : Point F32).meetPlane isa (Plane.mk4 1 2 3 4 : Plane F32)
    F32.feq d.q (-16) = true := by
  cases isa <;> f32_decide

/-- test/test_rp.cpp:9-15. -/
theorem C71_rp_z_line :
    let l := (Point.mk3 0 0 0 : Point F32).joinPoint (Point.mk3 0 0 1 : Point F32)
    F32.feq l.e12 1 = true := by f32_decide

/-- test/test_rp.cpp:17-23. -/
theorem C71_rp_y_line :
    let l := (Point.mk3 0 (-1) 0 : Point F32).joinPoint (Point.mk3 0 0 0 : Point F32)
    F32.feq l.e31 1 = true := by f32_decide

/-- test/test_rp.cpp:25-31. -/
theorem C71_rp_x_line :
    let l := (Point.mk3 (-2) 0 0 : Point F32).joinPoint (Point.mk3 (-1) 0 0 : Point F32)
    F32.feq l.e23 1 = true := by f32_decide

/-- test/test_rp.cpp:33-45. -/
theorem C71_rp_plane (isa : Isa) :
    let p := ((Point.mk3 1 3 2 : Point F32).joinPoint (Point.mk3 (-1) 5 2 : Point F32)).joinPoint isa (Point.mk3 2 (-1) (-4) : Point F32)
    F32.feq (p.x + p.y * 3 + p.z * 2 + p.d) 0 = true ∧
    F32.feq (-p.x + p.y * 5 + p.z * 2 + p.d) 0 = true ∧
    F32.feq (p.x * 2 - p.y - p.z * 4 + p.d) 0 = true := by
  cases isa <;> f32_decide

/-- test/test_metric.cpp:7-14. -/
theorem C71_metric_point_point (isa : Isa) :
    let l := (Point.mk3 1 0 0 : Point F32).joinPoint (Point.mk3 0 1 0 : Point F32)
    F32.feq (l.squared_norm isa) 2 = true := by
  cases isa <;> f32_decide

/-- test/main.cpp:47-72. -/
theorem C71_sum_points :
    let p := (Point.mk3 1 2 3 : Point F32).add (Point.mk3 2 3 (-1) : Point F32)
    let q := (Point.mk3 1 2 3 : Point F32).sub (Point.mk3 2 3 (-1) : Point F32)
    F32.feq p.x 3 = true ∧ F32.feq p.y 5 = true ∧ F32.feq p.z 2 = true ∧
    F32.feq q.x (-1) = true ∧ F32.feq q.y (-1) = true ∧ F32.feq q.z 4 = true := by f32_decide

/-- test/test_sw.cpp:20-30. -/
theorem C71_sw_reflect_plane :
    let p := (Plane.mk4 3 2 1 (-1) : Plane F32).onPlane (Plane.mk4 1 2 (-1) (-3) : Plane F32)
    F32.feq p.d 30 = true ∧ F32.feq p.x 22 = true ∧ F32.feq p.y (-4) = true ∧
    F32.feq p.z 26 = true := by f32_decide

/-- test/test_sw.cpp:32-44. -/
theorem C71_sw_reflect_line :
    let l := (Plane.mk4 3 2 1 (-1) : Plane F32).onLine (Line.mk6 1 (-2) 3 6 5 (-4) : Line F32)
    F32.feq l.e01 28 = true ∧ F32.feq l.e02 (-72) = true ∧ F32.feq l.e03 32 = true ∧
    F32.feq l.e12 104 = true ∧ F32.feq l.e31 26 = true ∧ F32.feq l.e23 60 = true := by f32_decide

/-- test/test_sw.cpp:46-55. -/
theorem C71_sw_reflect_point :
    let p := (Plane.mk4 3 2 1 (-1) : Plane F32).onPoint (Point.mk3 4 (-2) (-1) : Point F32)
    F32.feq p.z (-26) = true ∧ F32.feq p.y (-52) = true ∧ F32.feq p.x 20 = true ∧
    F32.feq p.w 14 = true := by f32_decide

/-- test/test_sw.cpp:57-72. -/
theorem C71_sw_rotor_line :
    let l := (Rotor.load_normalized ⟨1, 4, -3, 2⟩ : Rotor F32).onLine (Line.mk6 (-1) 2 (-3) (-6) 5 4 : Line F32)
    F32.feq l.e01 (-110) = true ∧ F32.feq l.e02 20 = true ∧ F32.feq l.e03 10 = true ∧
    F32.feq l.e12 (-240) = true ∧ F32.feq l.e31 102 = true ∧ F32.feq l.e23 (-36) = true := by f32_decide

/-- test/test_sw.cpp:94-108. -/
theorem C71_sw_translator_line :
    let l := (Translator.load_normalized ⟨0, -5, -2, 2⟩ : Translator F32).onLine (Line.mk6 (-1) 2 (-3) (-6) 5 4 : Line F32)
    F32.feq l.e01 35 = true ∧ F32.feq l.e02 (-14) = true ∧ F32.feq l.e03 71 = true ∧
    F32.feq l.e12 4 = true ∧ F32.feq l.e31 5 = true ∧ F32.feq l.e23 (-6) = true := by f32_decide

/-- test/test_sw.cpp:147-156. -/
theorem C71_sw_motor_plane (isa : Isa) :
    let p := (Motor.mk8 1 4 3 2 5 6 7 8 : Motor F32).onPlane isa (Plane.mk4 3 2 1 (-1) : Plane F32)
    F32.feq p.x 78 = true ∧ F32.feq p.y 60 = true ∧ F32.feq p.z 54 = true ∧ F32.feq p.d 358 = true := by
  cases isa <;> f32_decide

/-- test/test_sw.cpp:174-183. -/
theorem C71_sw_motor_point :
    let p := (Motor.mk8 1 4 3 2 5 6 7 8 : Motor F32).onPoint (Point.mk3 (-1) 1 2 : Point F32)
    F32.feq p.x (-12) = true ∧ F32.feq p.y (-86) = true ∧ F32.feq p.z (-86) = true ∧
    F32.feq p.w 30 = true := by f32_decide

/-- test/test_sw.cpp:201-213. -/
theorem C71_sw_motor_line :
    let l := (Motor.mk8 2 4 3 (-1) (-5) (-2) 2 (-3) : Motor F32).onLine (Line.mk6 (-1) 2 (-3) (-6) 5 4 : Line F32)
    F32.feq l.e01 6 = true ∧ F32.feq l.e02 522 = true ∧ F32.feq l.e03 96 = true ∧
    F32.feq l.e12 (-214) = true ∧ F32.feq l.e31 (-148) = true ∧ F32.feq l.e23 (-40) = true := by f32_decide

/-- test/test_sw.cpp:246-259. -/
theorem C71_sw_motor_matrix (isa : Isa) (mem : V4 F32) :
    let v := ((Motor.mk8 1 4 3 2 5 6 7 8 : Motor F32).as_mat4x4 isa mem).apply (set_ps 1 2 1 (-1))
    F32.feq v.l0 (-12) = true ∧ F32.feq v.l1 (-86) = true ∧ F32.feq v.l2 (-86) = true ∧
    F32.feq v.l3 30 = true := by
  have h : ∀ isa, (Motor.mk8 1 4 3 2 5 6 7 8 : Motor F32).as_mat4x4 isa mem =
      (Motor.mk8 1 4 3 2 5 6 7 8 : Motor F32).as_mat4x4 isa setzero_ps := by intro isa; cases isa <;> rfl
  rw [h]
  clear h mem
  cases isa <;> f32_decide

/-- test/test_glsl.cpp:9-22. -/
theorem C71_glsl_rr_mul :
    let v := Glsl.mulRotor (⟨2, 3, 4, 5⟩ : V4 F32) (⟨6, 7, 8, 9⟩ : V4 F32)
    F32.feq v.l0 (-86) = true ∧ F32.feq v.l1 36 = true ∧ F32.feq v.l2 32 = true ∧
    F32.feq v.l3 52 = true := by f32_decide

/-- test/test_glsl.cpp:24-43. -/
theorem C71_glsl_mm_mul :
    let m := Glsl.mulMotor (⟨2, 3, 4, 5⟩ : V4 F32) (⟨9, 6, 7, 8⟩ : V4 F32) (⟨6, 7, 8, 9⟩ : V4 F32) (⟨13, 10, 11, 12⟩ : V4 F32)
    F32.feq m.1.l0 (-86) = true ∧ F32.feq m.1.l1 36 = true ∧ F32.feq m.1.l2 32 = true ∧
    F32.feq m.1.l3 52 = true ∧ F32.feq m.2.l0 384 = true ∧ F32.feq m.2.l1 (-38) = true ∧
    F32.feq m.2.l2 (-76) = true ∧ F32.feq m.2.l3 (-66) = true := by f32_decide

/-- test/test_glsl.cpp:45-56. -/
theorem C71_glsl_rotor_plane :
    let v := Glsl.applyRotorPlane (⟨1, 4, -3, 2⟩ : V4 F32) (⟨2, 3, 4, 5⟩ : V4 F32)
    F32.feq v.l0 60 = true ∧ F32.feq v.l1 42 = true ∧ F32.feq v.l2 (-144) = true ∧
    F32.feq v.l3 (-150) = true := by f32_decide

/-- test/test_glsl.cpp:58-70. -/
theorem C71_glsl_motor_plane :
    let v := Glsl.applyMotorPlane (⟨1, 4, -3, 2⟩ : V4 F32) (⟨8, 5, 6, 7⟩ : V4 F32) (⟨2, 3, 4, 5⟩ : V4 F32)
    F32.feq v.l0 416 = true ∧ F32.feq v.l1 42 = true ∧ F32.feq v.l2 (-144) = true ∧
    F32.feq v.l3 (-150) = true := by f32_decide

/-- test/test_glsl.cpp:72-83. -/
theorem C71_glsl_rotor_point :
    let v := Glsl.applyRotorPoint (⟨1, 4, -3, 2⟩ : V4 F32) (⟨2, 3, 4, 5⟩ : V4 F32)
    F32.feq v.l0 60 = true ∧ F32.feq v.l1 42 = true ∧ F32.feq v.l2 (-144) = true ∧
    F32.feq v.l3 (-150) = true := by f32_decide

/-- test/test_glsl.cpp:85-97. -/
theorem C71_glsl_motor_point :
    let v := Glsl.applyMotorPoint (⟨1, 4, -3, 2⟩ : V4 F32) (⟨8, 5, 6, 7⟩ : V4 F32) (⟨2, 3, 4, 5⟩ : V4 F32)
    F32.feq v.l0 60 = true ∧ F32.feq v.l1 (-238) = true ∧ F32.feq v.l2 (-144) = true ∧
    F32.feq v.l3 (-86) = true := by f32_decide

/-- test/test_glsl.cpp:99-109. -/
theorem C71_glsl_motor_origin :
    let v := Glsl.applyMotorOrigin (⟨1, 4, -3, 2⟩ : V4 F32) (⟨8, 5, 6, 7⟩ : V4 F32)
    F32.feq v.l0 1 = true ∧ F32.feq v.l1 (-140) = true ∧ F32.feq v.l2 0 = true ∧
    F32.feq v.l3 32 = true := by f32_decide

/-! ### array overloads -/

/-- Memory with a motor in slots 0 and 1, inputs `x` from slot 2 on, and zeros in the output. -/
def testMem (m : Motor F32) (x : List (V4 F32)) : ℕ → V4 F32
  | 0 => m.p1
  | 1 => m.p2
  | n + 2 => x.getD n setzero_ps

/-- test/test_sw.cpp:158-172. -/
theorem C71_sw_motor_plane_variadic (isa : Isa) :
    let out := Mem.exec (Motor.onPlanes isa 0 2 4 2)
      (testMem (Motor.mk8 1 4 3 2 5 6 7 8) [(Plane.mk4 3 2 1 (-1)).p0, (Plane.mk4 3 2 1 (-1)).p0])
    out 4 = ⟨358, 78, 60, 54⟩ ∧ out 5 = ⟨358, 78, 60, 54⟩ := by cases isa <;> f32_decide

/-- test/test_sw.cpp:185-199. -/
theorem C71_sw_motor_point_variadic :
    let out := Mem.exec (Motor.onPoints 0 2 4 2)
      (testMem (Motor.mk8 1 4 3 2 5 6 7 8) [(Point.mk3 (-1) 1 2).p3, (Point.mk3 (-1) 1 2).p3])
    out 4 = ⟨30, -12, -86, -86⟩ ∧ out 5 = ⟨30, -12, -86, -86⟩ := by f32_decide

/-- test/test_sw.cpp:215-233. -/
theorem C71_sw_motor_line_variadic :
    let l : Line F32 := Line.mk6 (-1) 2 (-3) (-6) 5 4
    let out := Mem.exec (Motor.onLines 0 2 6 2)
      (testMem (Motor.mk8 2 4 3 (-1) (-5) (-2) 2 (-3)) [l.p1, l.p2, l.p1, l.p2])
    (∀ i ∈ [6, 8], (out i).l1 = -40 ∧ (out i).l2 = -148 ∧ (out i).l3 = -214) ∧
    ∀ i ∈ [7, 9], (out i).l1 = 6 ∧ (out i).l2 = 522 ∧ (out i).l3 = 96 := by f32_decide

/-! ### with estimates -/

/-- Correctly rounded estimates. -/
def hw32 : Hw F32 := ⟨fun x => 1 / x, fun x => 1 / F32.sqrt x⟩

/-- `doctest::Approx` with its default tolerance (doctest.h `Approx::operator==`). -/
def approx (x : F32) (v : ℚ) : Bool :=
  x.isFinite && decide (|x.val - v| < 100 / 2 ^ 23 * (1 + max |x.val| |v|))

/-- test/test_sse.cpp:7-19. -/
theorem C71_sse_rcp_nr1 (isa : Isa) :
    let v := rcp_nr1 hw32 (set_ps 4 3 2 1)
    approx v.l0 1 = true ∧ approx v.l1 (1 / 2) = true ∧ approx v.l2 (1 / 3) = true ∧
    approx v.l3 (1 / 4) = true := by
  cases isa <;> f32_decide

/-- test/test_gp.cpp:24-29. -/
theorem C71_gp_plane_sqrt (isa : Isa) :
    let p1 := (Plane.mk4 1 2 3 4 : Plane F32)
    let p2 := (Plane.mk4 2 3 (-1) (-2) : Plane F32)
    let p3 := ((p1.divPlane hw32 isa p2).sqrt hw32 isa).onPlane isa p2
    let q := p1.normalize hw32 isa
    let m := q.mulPlane q
    p3.approx_eq lm32 p1 (1 / 1000) = true ∧ approx m.scalar 1 = true := by
  cases isa <;> f32_decide

/-- test/test_gp.cpp:32-44. -/
theorem C71_gp_plane_div (isa : Isa) :
    let p1 := (Plane.mk4 1 2 3 4 : Plane F32)
    let m := p1.divPlane hw32 isa p1
    approx m.scalar 1 = true ∧ F32.feq m.e12 0 = true ∧ F32.feq m.e31 0 = true ∧
    F32.feq m.e23 0 = true ∧ F32.feq m.e01 0 = true ∧ F32.feq m.e02 0 = true ∧
    F32.feq m.e03 0 = true ∧ F32.feq m.e0123 0 = true := by
  cases isa <;> f32_decide

/-- test/test_gp.cpp:64-77. -/
theorem C71_gp_line_normalize (isa : Isa) :
    let l := (Line.mk6 1 2 3 3 2 1 : Line F32).normalize hw32 isa
    let m := l.mulLine l.rev
    approx m.scalar 1 = true ∧ approx m.e23 0 = true ∧ approx m.e31 0 = true ∧
    approx m.e12 0 = true ∧ approx m.e01 0 = true ∧ approx m.e02 0 = true ∧
    approx m.e03 0 = true ∧ approx m.e0123 0 = true := by
  cases isa <;> f32_decide

/-- test/test_gp.cpp:89-94. -/
theorem C71_gp_branch_sqrt (isa : Isa) :
    let b1 := (Branch.mk3 2 1 3 : Branch F32).normalize hw32 isa
    let b2 := (Branch.mk3 1 (-2) (-3) : Branch F32).normalize hw32 isa
    let b3 := (((b2.mulBranch b1).sqrt hw32 isa).onBranch b1).rev
    approx b3.e23 b2.e23.val = true ∧ approx b3.e31 b2.e31.val = true ∧
    approx b3.e12 b2.e12.val = true := by
  cases isa <;> f32_decide

/-- test/test_gp.cpp:97-105. -/
theorem C71_gp_branch_div (isa : Isa) :
    let b := (Branch.mk3 2 1 3 : Branch F32)
    let r := b.divBranch hw32 isa b
    approx r.scalar 1 = true ∧ F32.feq r.e23 0 = true ∧ F32.feq r.e31 0 = true ∧
    F32.feq r.e12 0 = true := by
  cases isa <;> f32_decide

/-- test/test_gp.cpp:123-126. -/
theorem C71_gp_line_sqrt (isa : Isa) :
    let l1 := (Line.mk6 1 0 0 3 2 1 : Line F32).normalize hw32 isa
    let l2 := (Line.mk6 0 1 0 4 1 (-2) : Line F32).normalize hw32 isa
    let l3 := ((l1.mulLine l2).sqrt hw32 isa).onLine l2
    l3.approx_eq lm32 l1.neg (1 / 1000) = true := by
  cases isa <;> f32_decide

/-- test/test_gp.cpp:129-141. -/
theorem C71_gp_line_div (isa : Isa) :
    let l := (Line.mk6 1 (-2) 2 (-3) 3 (-4) : Line F32)
    let m := l.divLine hw32 isa l
    approx m.scalar 1 = true ∧ F32.feq m.e12 0 = true ∧ F32.feq m.e31 0 = true ∧
    F32.feq m.e23 0 = true ∧ approx m.e01 0 = true ∧ approx m.e02 0 = true ∧
    approx m.e03 0 = true ∧ approx m.e0123 0 = true := by
  cases isa <;> f32_decide

/-- test/test_gp.cpp:161-176. -/
theorem C71_gp_point_point (isa : Isa) :
    let p2 := (Point.mk3 (-2) 1 4 : Point F32)
    let t := (Point.mk3 1 2 3 : Point F32).mulPoint hw32 isa p2
    let p3 := t.sqrt.onPoint p2
    approx t.e01 (-3) = true ∧ approx t.e02 (-1) = true ∧ approx t.e03 1 = true ∧
    approx p3.x 1 = true ∧ approx p3.y 2 = true ∧ approx p3.z 3 = true := by
  cases isa <;> f32_decide

/-- test/test_gp.cpp:178-185. -/
theorem C71_gp_point_div (isa : Isa) :
    let p := (Point.mk3 1 2 3 : Point F32)
    let t := p.divPoint hw32 isa p
    F32.feq t.e01 0 = true ∧ F32.feq t.e02 0 = true ∧ F32.feq t.e03 0 = true := by
  cases isa <;> f32_decide

/-- test/test_gp.cpp:187-194. -/
theorem C71_gp_translator_div (isa : Isa) :
    let t := (Translator.mkAxis lm32 3 1 (-2) 3 : Translator F32)
    let t2 := t.divTranslator t
    F32.feq t2.e01 0 = true ∧ F32.feq t2.e02 0 = true ∧ F32.feq t2.e03 0 = true := by
  cases isa <;> f32_decide

/-- test/test_gp.cpp:297-309. -/
theorem C71_gp_motor_div (isa : Isa) :
    let m1 := (Motor.mk8 2 3 4 5 6 7 8 9 : Motor F32)
    let m := m1.divMotor hw32 isa m1
    approx m.scalar 1 = true ∧ F32.feq m.e23 0 = true ∧ F32.feq m.e31 0 = true ∧
    F32.feq m.e12 0 = true ∧ approx m.e01 0 = true ∧ approx m.e02 0 = true ∧
    approx m.e03 0 = true ∧ approx m.e0123 0 = true := by
  cases isa <;> f32_decide

/-- test/test_ip.cpp:140-153. -/
theorem C71_ip_project_normalize (isa : Isa) :
    let l := (Point.mk3 0 0 0 : Point F32).joinPoint (Point.mk3 1 0 0 : Point F32)
    let p := ((l.dotPoint isa (Point.mk3 2 2 0 : Point F32)).meetLine isa l).normalize hw32
    approx p.w 1 = true ∧ approx p.x 2 = true ∧ approx p.y 0 = true ∧ approx p.z 0 = true := by
  cases isa <;> f32_decide

/-- test/main.cpp:74-82. -/
theorem C71_main_planes (isa : Isa) :
    let p := (Plane.mk4 1 3 4 (-5) : Plane F32)
    let q := p.normalize hw32 isa
    F32.feq (p.dotPlane isa p) 1 = false ∧ approx (q.dotPlane isa q) 1 = true := by
  cases isa <;> f32_decide

/-- test/test_sw.cpp:84-92. -/
theorem C71_sw_translator_point (isa : Isa) :
    let t := (Translator.mkAxis lm32 1 0 0 1 : Translator F32)
    let p := t.onPoint (Point.mk3 1 0 0 : Point F32)
    F32.feq p.x 1 = true ∧ F32.feq p.y 0 = true ∧ F32.feq p.z 1 = true := by
  cases isa <;> f32_decide

/-- test/test_sw.cpp:7-18. -/
theorem C71_sw_simd (isa : Isa) :
    let v := sw02 hw32 isa (set_ps 4 3 2 1) (set_ps (-1) (-2) (-3) (-4))
    F32.feq v.l0 9 = true ∧ F32.feq v.l1 2 = true ∧ F32.feq v.l2 3 = true ∧ F32.feq v.l3 4 = true := by
  cases isa <;> f32_decide

/-- test/test_sw.cpp:277-284. -/
theorem C71_sw_normalize_motor (isa : Isa) :
    let m := (Motor.mk8 1 4 3 2 5 6 7 8 : Motor F32).normalize hw32 isa
    let n := m.mulMotor m.rev
    approx n.scalar 1 = true ∧ approx n.e0123 0 = true := by
  cases isa <;> f32_decide

/-- test/test_sw.cpp:315-325. -/
theorem C71_sw_normalize_rotor (isa : Isa) :
    let r := (Rotor.mk ⟨28, 3, -3, 4⟩ : Rotor F32).normalize hw32 isa
    let n := r.mulRotor r.rev
    approx n.scalar 1 = true ∧ approx n.e12 0 = true ∧ approx n.e31 0 = true ∧
    approx n.e23 0 = true := by
  cases isa <;> f32_decide

/-- test/test_sw.cpp:261-275. -/
theorem C71_sw_motor_matrix_3x4 (isa : Isa) :
    let m := (Motor.mk8 1 4 3 2 5 6 7 8 : Motor F32).normalize hw32 isa
    let v := (m.as_mat3x4 isa setzero_ps).apply (set_ps 1 2 1 (-1))
    approx v.l0 (-12 / 30) = true ∧ approx v.l1 (-86 / 30) = true ∧
    approx v.l2 (-86 / 30) = true ∧ F32.feq v.l3 1 = true := by
  cases isa <;> f32_decide

/-- test/test_metric.cpp:16-34. -/
theorem C71_metric_point_plane (isa : Isa) :
    let p1 := (Point.mk3 2 0 0 : Point F32)
    let p2 := (Plane.mk4 1 (-1) 0 0 : Plane F32).normalize hw32 isa
    approx ((p1.joinPlane isa p2).p).abs (F32.sqrt 2).val = true ∧
    approx ((p1.meetPlane isa p2).q).abs (F32.sqrt 2).val = true := by
  cases isa <;> f32_decide

/-- test/test_metric.cpp:36-42. -/
theorem C71_metric_point_line (isa : Isa) :
    let d := ((Line.mk6 0 1 0 1 0 0 : Line F32).joinPoint isa (Point.mk3 0 1 2 : Point F32)).norm hw32 isa
    approx d (F32.sqrt 2).val = true := by
  cases isa <;> f32_decide

end Klein
