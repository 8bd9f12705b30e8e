import Verif.Float.TrigErr
import Verif.Props.RepoTests

/-!
# The repository's tests that need trigonometric functions, run in the binary32 model

C71, continued.  Correctly rounded estimates (`hw32`) and the reference implementation of `<cmath>`
(`F32.lmR`), whose error is bounded at the end.
-/

namespace Klein

open F32

/-- The eight comparisons of two motors with `doctest::Approx`. -/
def Motor.near (m n : Motor F32) : Bool :=
  approx m.scalar n.scalar.val && approx m.e12 n.e12.val && approx m.e31 n.e31.val &&
  approx m.e23 n.e23.val && approx m.e01 n.e01.val && approx m.e02 n.e02.val && approx m.e03 n.e03.val &&
  approx m.e0123 n.e0123.val

/-- The four comparisons of two rotors with `doctest::Approx`. -/
def Rotor.near (m n : Rotor F32) : Bool :=
  approx m.scalar n.scalar.val && approx m.e12 n.e12.val && approx m.e31 n.e31.val &&
  approx m.e23 n.e23.val

namespace TrigTests

/-- `kln::pi * 0.5f` (util.hpp:18). -/
def halfPi : F32 := ofMag false 0x40490FDB * (1 / 2)

/-- `rotor{kln::pi * 0.5f, 0.3f, -3.f, 1.f}`. -/
def rA : Rotor F32 := Rotor.mkAxis lmR halfPi (round false (3 / 10)) (-3) 1

/-- `translator{12.f, -2.f, 0.4f, 1.f}`. -/
def tA : Translator F32 := Translator.mkAxis lmR 12 (-2) (round false (2 / 5)) 1

/-- `rotor{kln::pi * 0.5f, 0, 0, 1.f}`. -/
def rZ : Rotor F32 := Rotor.mkAxis lmR halfPi 0 0 1

/-- `translator{1.f, 0.f, 0.f, 1.f}`. -/
def tZ : Translator F32 := Translator.mkAxis lmR 1 0 0 1

/-! The intermediate results, so that each is evaluated once. -/

theorem rA_eq : rA = ⟨⟨ofMag false 1060439283, ofMag false 1032373530, ofMag true 1059780192, ofMag false 1046737707⟩⟩ := by f32_decide
theorem tA_eq : tA = ⟨⟨ofMag true 0, ofMag false 1084820460, ofMag true 1065827517, ofMag true 1076431852⟩⟩ := by f32_decide
theorem rZ_eq : rZ = ⟨⟨ofMag false 1060439283, ofMag false 0, ofMag false 0, ofMag false 1060439283⟩⟩ := by f32_decide
theorem tZ_eq : tZ = ⟨⟨ofMag true 0, ofMag true 0, ofMag true 0, ofMag true 1056964608⟩⟩ := by f32_decide

/-- `r * t` of the first rotor and translator. -/
def m1 : Motor F32 :=
  ⟨⟨ofMag false 1060439283, ofMag false 1032373530, ofMag true 1059780192, ofMag false 1046737707⟩,
      ⟨ofMag false 1055970978, ofMag false 1071529663, ofMag true 1074158954, ofMag true 1084909298⟩⟩
theorem m1_eq : rA.mulTranslator tA = m1 := by rw [rA_eq, tA_eq]; f32_decide

/-- `m2 * ~m1` of motor-blend. -/
def motion : Motor F32 :=
  ⟨⟨ofMag false 1059605461, ofMag true 1054448000, ofMag true 1057290816, ofMag true 1051682900⟩,
      ⟨ofMag false 1081823025, ofMag false 994041344, ofMag true 1077620626, ofMag true 1078372641⟩⟩
theorem motion_eq : m1.mulMotor (rZ.mulTranslator tZ).rev = motion := by rw [rZ_eq, tZ_eq]; f32_decide

theorem rA_log (isa : Isa) : rA.log hw32 lmR isa =
    ⟨⟨ofMag false 0, ofMag false 1033365960, ofMag true 1061020728, ofMag false 1048391756⟩⟩ := by
  rw [rA_eq]; cases isa <;> f32_decide
theorem m1_log (isa : Isa) : m1.log hw32 lmR isa =
    ⟨⟨ofMag false 0, ofMag false 1033365960, ofMag true 1061020729, ofMag false 1048391756⟩,
      ⟨ofMag false 0, ofMag false 1073255419, ofMag true 1075699442, ofMag true 1086051518⟩⟩ := by
  cases isa <;> f32_decide
theorem m1_exp_log (isa : Isa) : (m1.log hw32 lmR isa).exp hw32 lmR isa =
    ⟨⟨ofMag false 1060439284, ofMag false 1032373530, ofMag true 1059780192, ofMag false 1046737707⟩,
      ⟨ofMag false 1055970984, ofMag false 1071529663, ofMag true 1074158954, ofMag true 1084909299⟩⟩ := by
  rw [m1_log]; cases isa <;> f32_decide
theorem m1_third (isa : Isa) : (m1.log hw32 lmR isa).sdivInt hw32 (fun i => round false i) 3 =
    ⟨⟨ofMag false 0, ofMag false 1019907339, ofMag true 1048391756, ofMag false 1034472158⟩,
      ⟨ofMag false 0, ofMag false 1059436541, ofMag true 1062370968, ofMag true 1073377534⟩⟩ := by
  rw [m1_log]; f32_decide
theorem m1_step (isa : Isa) :
    ((m1.log hw32 lmR isa).sdivInt hw32 (fun i => round false i) 3).exp hw32 lmR isa =
    ⟨⟨ofMag false 1064781546, ofMag false 1019756222, ofMag true 1048202860, ofMag false 1034346228⟩,
      ⟨ofMag false 1030427416, ofMag false 1059304931, ofMag true 1062134202, ofMag true 1073203975⟩⟩ := by
  rw [m1_third]; cases isa <;> f32_decide
theorem motion_log (isa : Isa) : motion.log hw32 lmR isa =
    ⟨⟨ofMag false 0, ofMag true 1056338375, ofMag true 1058446045, ofMag true 1053206736⟩,
      ⟨ofMag false 0, ofMag true 1061116308, ofMag true 1082612988, ofMag true 1082383661⟩⟩ := by
  cases isa <;> f32_decide
theorem motion_quarter (isa : Isa) : (motion.log hw32 lmR isa).sdiv hw32 4 =
    ⟨⟨ofMag false 0, ofMag true 1039561159, ofMag true 1041668829, ofMag true 1036429520⟩,
      ⟨ofMag false 0, ofMag true 1044339092, ofMag true 1065835772, ofMag true 1065606445⟩⟩ := by
  rw [motion_log]; f32_decide
theorem motion_step (isa : Isa) : ((motion.log hw32 lmR isa).sdiv hw32 4).exp hw32 lmR isa =
    ⟨⟨ofMag false 1064972807, ofMag true 1039438901, ofMag true 1041594116, ofMag true 1036330969⟩,
      ⟨ofMag false 1049443308, ofMag true 1043499368, ofMag true 1065654831, ofMag true 1065465981⟩⟩ := by
  rw [motion_quarter]; cases isa <;> f32_decide
theorem screw_eq (isa : Isa) :
    Motor.mkScrew hw32 lmR isa halfPi 3 ((Line.mk6 3 1 2 4 (-2) 1).normalize hw32 isa) =
    ⟨⟨ofMag false 1060439284, ofMag true 1058931122, ofMag false 1050542514, ofMag true 1042153906⟩,
      ⟨ofMag false 1065862070, ofMag true 1065655515, ofMag false 1040674604, ofMag true 1055350250⟩⟩ := by
  cases isa <;> f32_decide

/-! ### the tests -/

/-- test/test_exp_log.cpp:7-17. -/
theorem C71_rotor_exp_log (isa : Isa) :
    (((rA.log hw32 lmR isa).exp hw32 lmR isa).near rA) = true := by
  rw [rA_log, rA_eq]; cases isa <;> f32_decide

/-- test/test_exp_log.cpp:19-28. -/
theorem C71_rotor_sqrt (isa : Isa) :
    let r2 := rA.sqrt hw32 isa
    rA.near (r2.mulRotor r2) = true := by
  rw [rA_eq]; cases isa <;> f32_decide

/-- test/test_exp_log.cpp:30-47. -/
theorem C71_motor_exp_log (isa : Isa) :
    let m1 := rA.mulTranslator tA
    m1.near ((m1.log hw32 lmR isa).exp hw32 lmR isa) = true := by
  rw [m1_eq]
  show m1.near _ = true
  rw [m1_exp_log]; f32_decide

/-- test/test_exp_log.cpp:49-57. -/
theorem C71_motor_sqrt_sqrt (isa : Isa) :
    let m1 := rA.mulTranslator tA
    m1.near ((m1.sqrt hw32 isa).mulMotor (m1.sqrt hw32 isa)) = true := by
  rw [m1_eq]; cases isa <;> f32_decide

/-- test/test_exp_log.cpp:59-78. -/
theorem C71_motor_slerp (isa : Isa) :
    let m1 := rA.mulTranslator tA
    let step := ((m1.log hw32 lmR isa).sdivInt hw32 (fun i => round false i) 3).exp hw32 lmR isa
    m1.near ((step.mulMotor step).mulMotor step) = true := by
  rw [m1_eq]
  show (let step := _; m1.near ((Motor.mulMotor step step).mulMotor step) = true)
  rw [m1_step]; f32_decide

/-- test/test_exp_log.cpp:80-105. -/
theorem C71_motor_blend (isa : Isa) :
    let m1 := rZ.mulTranslator tZ
    let m2 := rA.mulTranslator tA
    let motion := m2.mulMotor m1.rev
    let step := ((motion.log hw32 lmR isa).sdiv hw32 4).exp hw32 lmR isa
    ((((step.mulMotor step).mulMotor step).mulMotor step).mulMotor m1).near m2 = true := by
  intro m1' m2 mo step
  have h1 : m2 = m1 := m1_eq
  have h2 : mo = motion := by
    show m2.mulMotor m1'.rev = motion
    rw [h1]; exact motion_eq
  have h3 : step = ⟨⟨ofMag false 1064972807, ofMag true 1039438901, ofMag true 1041594116, ofMag true 1036330969⟩,
      ⟨ofMag false 1049443308, ofMag true 1043499368, ofMag true 1065654831, ofMag true 1065465981⟩⟩ := by
    show ((mo.log hw32 lmR isa).sdiv hw32 4).exp hw32 lmR isa = _
    rw [h2]; exact motion_step isa
  rw [h1, h3]
  show Motor.near (Motor.mulMotor _ (rZ.mulTranslator tZ)) _ = true
  rw [rZ_eq, tZ_eq]; f32_decide

/-- test/test_exp_log.cpp:107-115. -/
theorem C71_translator_motor_log (isa : Isa) :
    let m := Motor.ofTranslator (Translator.mkAxis lmR 1 1 2 3)
    let l := m.log hw32 lmR isa
    feq l.e01 m.e01 = true ∧ feq l.e02 m.e02 = true ∧ feq l.e03 m.e03 = true := by
  cases isa <;> f32_decide

/-- test/test_exp_log.cpp:117-137. -/
theorem C71_ideal_motor_step (isa : Isa) :
    let m1 := (Rotor.mkAxis lmR 0 0 0 1).mulTranslator tZ
    let step := ((m1.log hw32 lmR isa).sdiv hw32 4).exp hw32 lmR isa
    (((step.mulMotor step).mulMotor step).mulMotor step).near m1 = true := by
  rw [tZ_eq]; cases isa <;> f32_decide

/-- test/test_sw.cpp:74-82. -/
theorem C71_rotor_point (isa : Isa) :
    let p2 := rZ.onPoint isa (Point.mk3 1 0 0)
    feq p2.x 0 = true ∧ approx p2.y (-1) = true ∧ feq p2.z 0 = true := by
  rw [rZ_eq]; cases isa <;> f32_decide

/-- test/test_sw.cpp:110-135. -/
theorem C71_construct_motor (isa : Isa) :
    let p2 := (rZ.mulTranslator tZ).onPoint (Point.mk3 1 0 0)
    let m := tZ.mulRotor rZ
    let p3 := m.onPoint (Point.mk3 1 0 0)
    let l := m.log hw32 lmR isa
    (feq p2.x 0 = true ∧ approx p2.y (-1) = true ∧ approx p2.z 1 = true) ∧
    (feq p3.x 0 = true ∧ approx p3.y (-1) = true ∧ approx p3.z 1 = true) ∧
    feq l.e23 0 = true ∧ |l.e12.val - 7854 / 10000| < 1 / 1000 * (1 + 7854 / 10000) ∧ feq l.e31 0 = true ∧
    feq l.e01 0 = true ∧ feq l.e02 0 = true ∧ approx l.e03 (-1 / 2) = true := by
  rw [rZ_eq, tZ_eq]; cases isa <;> f32_decide

/-- test/test_sw.cpp:137-145. -/
theorem C71_construct_motor_screw (isa : Isa) :
    let p2 := (Motor.mkScrew hw32 lmR isa halfPi 1 (Line.mk6 0 0 0 0 0 1)).onPoint (Point.mk3 1 0 0)
    approx p2.x 0 = true ∧ approx p2.y 1 = true ∧ approx p2.z 1 = true := by
  cases isa <;> f32_decide

/-- test/test_sw.cpp:235-244. -/
theorem C71_motor_origin :
    let p := (rZ.mulTranslator tZ).onOrigin
    feq p.x 0 = true ∧ feq p.y 0 = true ∧ approx p.z 1 = true := by
  rw [rZ_eq, tZ_eq]; f32_decide

/-- test/test_sw.cpp:286-301. -/
theorem C71_motor_sqrt (isa : Isa) :
    let m := Motor.mkScrew hw32 lmR isa halfPi 3 ((Line.mk6 3 1 2 4 (-2) 1).normalize hw32 isa)
    let m2 := m.sqrt hw32 isa
    m.near (m2.mulMotor m2) = true := by
  rw [screw_eq]; cases isa <;> f32_decide

/-- test/test_sw.cpp:303-313. -/
theorem C71_rotor_sqrt_2 (isa : Isa) :
    let r := Rotor.mkAxis lmR halfPi 1 2 3
    let r2 := r.sqrt hw32 isa
    (r2.mulRotor r2).near r = true := by
  cases isa <;> f32_decide

/-- test/main.cpp:85-94. -/
theorem C71_rotor_constrain :
    let r1 := Rotor.mkAxis lmR 1 2 3 4
    r1.eqb lmR (r1.constrain lmR) = true ∧ r1.neg.eqb lmR (r1.neg.constrain lmR).neg = true ∧
    r1.neg.eqb lmR (r1.neg.constrain lmR) = false := by
  f32_decide

/-- test/main.cpp:96-105. -/
theorem C71_motor_constrain :
    let m1 := (Motor.mk8 1 2 3 4 5 6 7 8 : Motor F32)
    m1.eqb lmR (m1.constrain lmR) = true ∧ m1.neg.eqb lmR (m1.neg.constrain lmR).neg = true ∧
    m1.neg.eqb lmR (m1.neg.constrain lmR) = false := by
  f32_decide

/-- test/test_metric.cpp:44-66. -/
theorem C71_euler_angles (isa : Isa) :
    let r := ((Rotor.mkAxis lmR 1 1 0 0).mulRotor (Rotor.mkAxis lmR 1 0 1 0)).mulRotor (Rotor.mkAxis lmR 1 0 0 1)
    let ea := r.as_euler_angles lmR
    approx ea.roll 1 = true ∧ approx ea.pitch 1 = true ∧ approx ea.yaw 1 = true ∧
    r.near (Rotor.mkEuler hw32 lmR isa ea) = true := by
  cases isa <;> f32_decide

/-- test/test_metric.cpp:68-77. -/
theorem C71_euler_angles_precision (isa : Isa) :
    let a := ofMag false 0x40490FDB * round false (1 / 5)
    let ea2 := (Rotor.mkEuler hw32 lmR isa ⟨a, a, 0⟩).as_euler_angles lmR
    approx a ea2.roll.val = true ∧ approx a ea2.pitch.val = true ∧ approx 0 ea2.yaw.val = true := by
  cases isa <;> f32_decide

/-- Whenever the reference functions return a number it is within half a unit in the last place and
`2^-32` of the real function. -/
theorem C71_reference (x y : F32) :
    ((sinR x).isNaN = false → |r (sinR x) - Real.sin (r x)| ≤ |Real.sin (r x)| / 2 ^ 24 + 1 / 2 ^ 38) ∧
    ((cosR x).isNaN = false → |r (cosR x) - Real.cos (r x)| ≤ |Real.cos (r x)| / 2 ^ 24 + 1 / 2 ^ 38) ∧
    ((acosR x).isNaN = false →
      |r (acosR x) - Real.arccos (r x)| ≤ |Real.arccos (r x)| / 2 ^ 24 + 1 / 2 ^ 32) ∧
    ((asinR x).isNaN = false →
      |r (asinR x) - Real.arcsin (r x)| ≤ |Real.arcsin (r x)| / 2 ^ 24 + 1 / 2 ^ 32) ∧
    ((atan2R y x).isNaN = false →
      |r (atan2R y x) - Complex.arg ⟨r x, r y⟩| ≤ |Complex.arg ⟨r x, r y⟩| / 2 ^ 24 + 1 / 2 ^ 33) :=
  ⟨sinR_err, cosR_err, acosR_err, asinR_err, atan2R_err⟩

/-- `sinf(2)`, `cosf(2)`, `acosf(-1/2)`, `asinf(1/2)`, `atan2f(1, -2)`. -/
theorem C71_reference_values : sinR 2 = ofMag false 0x3F68C7B7 ∧ cosR 2 = ofMag true 0x3ED51133 ∧
    acosR (-1 / 2) = ofMag false 0x40060A92 ∧ asinR (1 / 2) = ofMag false 0x3F060A92 ∧
    atan2R 1 (-2) = ofMag false 0x402B6374 := by f32_decide

end TrigTests
end Klein
