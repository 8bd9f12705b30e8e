import Verif.Props.Exp

/-!
# C30-C33: constructors from angles and distances
-/

set_option linter.unusedSimpArgs false
set_option linter.unusedSectionVars false

namespace Klein

open PGA PGA.MV Euclid

variable {hw : Hw ℝ} (hx : hw.Exact) (isa : Isa)

/-- The unit vector along `(x, y, z)`. -/
noncomputable def unitVec (x y z : ℝ) : Vec3 ℝ :=
  (Real.sqrt (x * x + y * y + z * z))⁻¹ • ⟨x, y, z⟩

theorem unitVec_unit {x y z : ℝ} (h : (⟨x, y, z⟩ : Vec3 ℝ) ≠ 0) :
    dot (unitVec x y z) (unitVec x y z) = 1 := by
  have hp : 0 < x * x + y * y + z * z := by
    rcases eq_or_ne x 0 with hx | hx
    · rcases eq_or_ne y 0 with hy | hy
      · rcases eq_or_ne z 0 with hz | hz
        · exact absurd (by rw [hx, hy, hz]; rfl) h
        · nlinarith [mul_self_nonneg x, mul_self_nonneg y, mul_self_pos.2 hz]
      · nlinarith [mul_self_nonneg x, mul_self_nonneg z, mul_self_pos.2 hy]
    · nlinarith [mul_self_nonneg y, mul_self_nonneg z, mul_self_pos.2 hx]
  have h0 := (Real.sqrt_pos.2 hp).ne'
  have h1 := Real.sq_sqrt hp.le
  simp only [unitVec, dot, smul_x, smul_y, smul_z]
  generalize Real.sqrt (x * x + y * y + z * z) = r at *
  field_simp
  linear_combination -h1

/-! ### C30 -/

/-- The rotor constructor in terms of the unit vector along the axis. -/
theorem Rotor.mkAxis_eq (ang x y z : ℝ) :
    Rotor.mkAxis Libm.real ang x y z = ⟨⟨Real.cos (ang / 2),
      Real.sin (ang / 2) * (unitVec x y z).x, Real.sin (ang / 2) * (unitVec x y z).y,
      Real.sin (ang / 2) * (unitVec x y z).z⟩⟩ := by
  have e : 1 / 2 * ang = ang / 2 := by ring
  simp only [Rotor.mkAxis, sse, unitVec, smul_x, smul_y, smul_z, Rotor.mk.injEq, V4.mk.injEq, Libm.real,
    e, one_div]
  refine ⟨?_, ?_, ?_, ?_⟩ <;> ring

/-- C30: the constructor returns a unit rotor, for every angle and non-zero axis. -/
theorem C30_unit (ang : ℝ) {x y z : ℝ} (h : (⟨x, y, z⟩ : Vec3 ℝ) ≠ 0) :
    (Rotor.mkAxis Libm.real ang x y z).mv * PGA.MV.rev (Rotor.mkAxis Libm.real ang x y z).mv = 1 := by
  have hu := unitVec_unit h
  have hc := Real.cos_sq_add_sin_sq (ang / 2)
  rw [Rotor.mkAxis_eq]
  simp only [dot] at hu
  apply MV.ext <;> simp only [pga] <;> try ring1
  linear_combination hc + Real.sin (ang / 2) ^ 2 * hu

/-- C30: a rotor constructed from `ang` and an axis moves points by the rotation about the axis by
`-ang` in the right-handed sense (clockwise seen from the tip of the axis), whatever the build. -/
theorem C30_action (ang : ℝ) {x y z : ℝ} (h : (⟨x, y, z⟩ : Vec3 ℝ) ≠ 0) (v : Vec3 ℝ) :
    (Rotor.mkAxis Libm.real ang x y z).onPoint isa (Point.at v) =
      Point.at (rodrigues (unitVec x y z) (-ang) v) := by
  have hu := unitVec_unit h
  have hc := Real.cos_sq_add_sin_sq (ang / 2)
  have h2 : ang = 2 * (ang / 2) := by ring
  have hcos : Real.cos (-ang) = 1 - 2 * Real.sin (ang / 2) ^ 2 := by
    rw [Real.cos_neg]; nth_rewrite 1 [h2]; rw [Real.cos_two_mul]; linarith
  have hsin : Real.sin (-ang) = -(2 * Real.sin (ang / 2) * Real.cos (ang / 2)) := by
    rw [Real.sin_neg]; nth_rewrite 1 [h2]; rw [Real.sin_two_mul]
  rw [Rotor.mkAxis_eq, ← Point.mv_inj, C13_rotor_on_point]
  simp only [rodrigues, hcos, hsin]
  generalize Real.sin (ang / 2) = s at *
  generalize Real.cos (ang / 2) = c at *
  generalize unitVec x y z = k at *
  simp only [dot] at hu
  have hcc : c ^ 2 = 1 - s ^ 2 := by linarith
  apply MV.ext <;> simp only [pga, kln, sse, Point.at, cross, dot, add_x, add_y, add_z, smul_x, smul_y,
    smul_z] <;> try ring1
  · linear_combination (-v.z) * hc + (s ^ 2 * v.z) * hu
  · linear_combination v.y * hc - (s ^ 2 * v.y) * hu
  · linear_combination (-v.x) * hc + (s ^ 2 * v.x) * hu
  · linear_combination hc + s ^ 2 * hu

/-- C30: rotors about one axis compose by adding the angles. -/
theorem C30_add (a b : ℝ) {x y z : ℝ} (h : (⟨x, y, z⟩ : Vec3 ℝ) ≠ 0) :
    (Rotor.mkAxis Libm.real a x y z).mulRotor (Rotor.mkAxis Libm.real b x y z) =
      Rotor.mkAxis Libm.real (a + b) x y z := by
  have hu := unitVec_unit h
  rw [Rotor.mkAxis_eq, Rotor.mkAxis_eq, Rotor.mkAxis_eq, add_div, Real.cos_add, Real.sin_add]
  generalize unitVec x y z = k at *
  simp only [dot] at hu
  simp only [kln, sse, Rotor.mk.injEq, V4.mk.injEq, cond_true, cond_false]
  refine ⟨?_, ?_, ?_, ?_⟩
  · linear_combination (-Real.sin (a / 2) * Real.sin (b / 2)) * hu
  all_goals ring

/-- C30: a full turn acts as the identity on every point (although the rotor itself is `-1`). -/
theorem C30_full_turn {x y z : ℝ} (h : (⟨x, y, z⟩ : Vec3 ℝ) ≠ 0) (v : Vec3 ℝ) :
    (Rotor.mkAxis Libm.real (2 * Real.pi) x y z).onPoint isa (Point.at v) = Point.at v ∧
    (Rotor.mkAxis Libm.real (2 * Real.pi) x y z).mv = -1 := by
  constructor
  · rw [C30_action isa _ h]
    congr 1
    apply Vec3.ext <;> simp [rodrigues]
  · have e : 2 * Real.pi / 2 = Real.pi := by ring
    rw [Rotor.mkAxis_eq, e, Real.cos_pi, Real.sin_pi]
    apply MV.ext <;> simp [pga]

/-- The points of the axis are fixed. -/
theorem C30_axis (ang t : ℝ) {x y z : ℝ} (h : (⟨x, y, z⟩ : Vec3 ℝ) ≠ 0) :
    (Rotor.mkAxis Libm.real ang x y z).onPoint isa (Point.at (t • unitVec x y z)) =
      Point.at (t • unitVec x y z) := by
  rw [C30_action isa _ h, rodrigues_axis _ (unitVec_unit h)]

/-- The quarter turn about a non-unit axis along z takes the point (0,1,0) to (1,0,0). -/
example : (Rotor.mkAxis Libm.real (Real.pi / 2) 0 0 2).onPoint .sse3 (Point.at ⟨0, 1, 0⟩) =
    Point.at ⟨1, 0, 0⟩ := by
  have h : (⟨0, 0, 2⟩ : Vec3 ℝ) ≠ 0 := by
    intro h; have := congrArg Vec3.z h; simp at this
  have hk : unitVec 0 0 2 = ⟨0, 0, 1⟩ := by
    have : Real.sqrt (2 * 2) = 2 := by rw [Real.sqrt_mul_self]; norm_num
    simp only [unitVec, mul_zero, zero_add, this]
    apply Vec3.ext <;> simp
  rw [C30_action _ _ h, hk]
  congr 1
  apply Vec3.ext <;> simp [rodrigues, cross, dot]

/-! ### C31 -/

/-- C31: `translator(delta, x, y, z)` moves points by `delta` along the unit vector of the axis; its
unused lane is zero. -/
theorem C31_action (delta x y z : ℝ) (v : Vec3 ℝ) :
    (Translator.mkAxis Libm.real delta x y z).onPoint (Point.at v) =
      Point.at (v + delta • unitVec x y z) ∧ (Translator.mkAxis Libm.real delta x y z).WF := by
  constructor
  · simp only [kln, sse, Point.at, unitVec, Libm.real, Point.mk.injEq, V4.mk.injEq, add_x, add_y, add_z,
      smul_x, smul_y, smul_z, cond_true, cond_false, one_div]
    refine ⟨?_, ?_, ?_, ?_⟩ <;> ring
  · simp only [kln, sse, Translator.WF]; ring

/-- C31: translators along one axis compose by adding the distances. -/
theorem C31_add (a b x y z : ℝ) :
    (Translator.mkAxis Libm.real a x y z).mulTranslator (Translator.mkAxis Libm.real b x y z) =
      Translator.mkAxis Libm.real (a + b) x y z := by
  simp only [kln, sse, Libm.real, Translator.mk.injEq, V4.mk.injEq, one_div]
  refine ⟨?_, ?_, ?_, ?_⟩ <;> ring

example : (Translator.mkAxis Libm.real 10 3 4 0).onPoint (Point.at ⟨1, 1, 1⟩) = Point.at ⟨7, 9, 1⟩ := by
  have : Real.sqrt (3 * 3 + 4 * 4 + 0 * 0) = 5 := by
    rw [show (3 * 3 + 4 * 4 + 0 * 0 : ℝ) = 5 * 5 by norm_num, Real.sqrt_mul_self]; norm_num
  rw [(C31_action _ _ _ _ _).1, unitVec, this]
  congr 1
  apply Vec3.ext <;> simp <;> norm_num

/-! ### C32 -/

/-- The screw constructor in closed form. -/
theorem Motor.mkScrew_eq (ang d : ℝ) (l : Line ℝ) (wl : l.WF) :
    Motor.mkScrew hw Libm.real isa ang d l = (l.scr (-ang / 2) (d / 2)).exp hw Libm.real isa := by
  have e : (⟨(gpDL (-ang * (1 / 2)) (d * (1 / 2)) l.p1 l.p2).1,
      (gpDL (-ang * (1 / 2)) (d * (1 / 2)) l.p1 l.p2).2⟩ : Line ℝ) = l.scr (-ang / 2) (d / 2) := by
    obtain ⟨w1, w2⟩ := wl
    simp only [Line.scr, kln, sse, w1, w2, Line.mk.injEq, V4.mk.injEq]
    refine ⟨⟨?_, ?_, ?_, ?_⟩, ?_, ?_, ?_, ?_⟩ <;> ring
  rw [← e]
  rfl

include hx in
theorem Motor.mkScrew_unit (ang d : ℝ) (l : Line ℝ) (wl : l.WF) (h : l.Unit) :
    Motor.mkScrew hw Libm.real isa ang d l = l.expUV (-ang / 2) (d / 2) := by
  rw [Motor.mkScrew_eq isa ang d l wl, exp_scr hx isa h]

include hx in
/-- C32: the screw motor is normalised. -/
theorem C32_normalised (ang d : ℝ) (l : Line ℝ) (wl : l.WF) (h : l.Unit) :
    (Motor.mkScrew hw Libm.real isa ang d l).mv *
      PGA.MV.rev (Motor.mkScrew hw Libm.real isa ang d l).mv = 1 := by
  rw [Motor.mkScrew_unit hx isa ang d l wl h, Line.expUV_normalised h]

include hx in
/-- C32: screw motors about one line compose by adding angles and displacements. -/
theorem C32_add (ang d ang' d' : ℝ) (l : Line ℝ) (wl : l.WF) (h : l.Unit) :
    (Motor.mkScrew hw Libm.real isa ang d l).mulMotor (Motor.mkScrew hw Libm.real isa ang' d' l) =
      Motor.mkScrew hw Libm.real isa (ang + ang') (d + d') l := by
  rw [Motor.mkScrew_unit hx isa ang d l wl h, Motor.mkScrew_unit hx isa ang' d' l wl h,
    Motor.mkScrew_unit hx isa _ _ l wl h, Line.expUV_add h]
  congr 1 <;> ring

include hx in
/-- C32: the screw motor moves a point by the right-handed rotation by `ang` about the line followed
by the displacement `d` along it.  `A` is any point of the line. -/
theorem C32_action (ang d : ℝ) (l : Line ℝ) (wl : l.WF) (h : l.Unit) (A v : Vec3 ℝ) (hA : l.Has A) :
    (Motor.mkScrew hw Libm.real isa ang d l).onPoint (Point.at v) =
      Point.at (A + rodrigues l.dir ang (v - A) + d • l.dir) := by
  rw [Motor.mkScrew_unit hx isa ang d l wl h, Line.expUV_eq]
  have h1 := h.dir
  have hA1 := congrArg Vec3.x hA
  have hA2 := congrArg Vec3.y hA
  have hA3 := congrArg Vec3.z hA
  have hc := Real.cos_sq_add_sin_sq (-ang / 2)
  have h2 : ang = -(2 * (-ang / 2)) := by ring
  have hcos : Real.cos ang = 1 - 2 * Real.sin (-ang / 2) ^ 2 := by
    nth_rewrite 1 [h2]; rw [Real.cos_neg, Real.cos_two_mul]; linarith
  have hsin : Real.sin ang = -(2 * Real.sin (-ang / 2) * Real.cos (-ang / 2)) := by
    nth_rewrite 1 [h2]; rw [Real.sin_neg, Real.sin_two_mul]
  rw [← Point.mv_inj, C15_motor_on_point]
  simp only [rodrigues, hcos, hsin]
  generalize Real.sin (-ang / 2) = s at *
  generalize Real.cos (-ang / 2) = c at *
  obtain ⟨⟨n0, n1, n2, n3⟩, ⟨m0, m1, m2, m3⟩⟩ := l
  simp only [dot3, Line.dir, Line.mom, kln, sse, cross] at h1 hA1 hA2 hA3
  subst hA1 hA2 hA3
  obtain ⟨ax, ay, az⟩ := A
  obtain ⟨x, y, z⟩ := v
  apply MV.ext <;> simp only [pga, kln, sse, Line.cis, Line.dir, Point.at, cross, dot, add_x, add_y, add_z, smul_x,
    smul_y, smul_z, sub_x, sub_y, sub_z] <;> try ring1
  · grobner
  · grobner
  · grobner
  · grobner

include hx in
/-- C32: the screw motor maps its line to itself. -/
theorem C32_line (ang d : ℝ) (l : Line ℝ) (wl : l.WF) (h : l.Unit) :
    (Motor.mkScrew hw Libm.real isa ang d l).onLine l = l := by
  rw [Motor.mkScrew_unit hx isa ang d l wl h, Line.expUV_eq]
  have h1 := h.dir
  have h2 := h.mom
  have hc := Real.cos_sq_add_sin_sq (-ang / 2)
  generalize Real.sin (-ang / 2) = s at *
  generalize Real.cos (-ang / 2) = c at *
  obtain ⟨⟨n0, n1, n2, n3⟩, ⟨m0, m1, m2, m3⟩⟩ := l
  obtain ⟨w1, w2⟩ := wl
  simp only [dot3] at h1 h2 w1 w2
  subst w1 w2
  simp only [kln, sse, Line.cis, Line.mk.injEq, V4.mk.injEq, cond_true, cond_false]
  refine ⟨⟨?_, ?_, ?_, ?_⟩, ?_, ?_, ?_, ?_⟩ <;> first | ring1 | grobner

/-- A line in general position to which the statements apply: direction z, through (1,2,0). -/
example (ang d : ℝ) :
    (Motor.mkScrew Hw.odd Libm.real isa ang d ⟨⟨0, 0, 0, 1⟩, ⟨0, 2, -1, 0⟩⟩).onPoint
      (Point.at ⟨1, 2, 5⟩) = Point.at ⟨1, 2, 5 + d⟩ := by
  have hA : Line.Has (⟨⟨0, 0, 0, 1⟩, ⟨0, 2, -1, 0⟩⟩ : Line ℝ) ⟨1, 2, 0⟩ := by
    apply Vec3.ext <;> simp [cross, Line.dir, Line.mom, kln, sse]
  rw [C32_action Hw.odd_exact isa ang d _ ⟨rfl, rfl⟩ ⟨by simp [dot3], by simp [dot3]⟩ _ _ hA]
  congr 1
  apply Vec3.ext <;> simp [rodrigues, cross, dot, Line.dir, kln, sse]
  ring

/-! ### C33 -/

/-- The line through the origin along a vector. -/
def Line.through0 (k : Vec3 ℝ) : Line ℝ := ⟨⟨0, k.x, k.y, k.z⟩, ⟨0, 0, 0, 0⟩⟩

include hx in
/-- What is true instead of C33: the rotor constructor turns opposite to the screw constructor. -/
theorem C33_opposite_partial (ang : ℝ) {x y z : ℝ} (h : (⟨x, y, z⟩ : Vec3 ℝ) ≠ 0) :
    (Motor.mkScrew hw Libm.real isa (-ang) 0 (Line.through0 (unitVec x y z))).mv =
      (Rotor.mkAxis Libm.real ang x y z).mv := by
  have hu := unitVec_unit h
  have hn : (Line.through0 (unitVec x y z)).Unit :=
    ⟨by simpa only [Line.through0, dot3, dot] using hu, by simp [Line.through0, dot3]⟩
  rw [Motor.mkScrew_unit hx isa _ _ _ ⟨rfl, rfl⟩ hn, Line.expUV_eq, Rotor.mkAxis_eq, neg_neg]
  apply MV.ext <;> simp [pga, Line.cis, Line.through0]

include hx in
/-- C33 is violated: the two constructors turn the point (1,0,0) by a quarter turn about z in
opposite directions. -/
theorem C33_fails :
    (Rotor.mkAxis Libm.real (Real.pi / 2) 0 0 1).onPoint isa (Point.at ⟨1, 0, 0⟩) =
      Point.at ⟨0, -1, 0⟩ ∧
    (Motor.mkScrew hw Libm.real isa (Real.pi / 2) 0 (Line.through0 ⟨0, 0, 1⟩)).onPoint
      (Point.at ⟨1, 0, 0⟩) = Point.at ⟨0, 1, 0⟩ := by
  have h : (⟨0, 0, 1⟩ : Vec3 ℝ) ≠ 0 := by
    intro h; have := congrArg Vec3.z h; simp at this
  have hk : unitVec 0 0 1 = ⟨0, 0, 1⟩ := by
    apply Vec3.ext <;> simp [unitVec]
  constructor
  · rw [C30_action _ _ h, hk]
    congr 1
    apply Vec3.ext <;> simp [rodrigues, cross, dot]
  · have hn : (Line.through0 ⟨0, 0, 1⟩).Unit :=
      ⟨by simp [Line.through0, dot3], by simp [Line.through0, dot3]⟩
    have hA : (Line.through0 ⟨0, 0, 1⟩).Has 0 := by
      apply Vec3.ext <;> simp [cross, Line.dir, Line.mom, kln, sse, Line.through0]
    rw [C32_action hx isa _ _ _ ⟨rfl, rfl⟩ hn 0 _ hA]
    congr 1
    apply Vec3.ext <;> simp [rodrigues, cross, dot, Line.dir, kln, sse, Line.through0]

include hx in
/-- C33 as an inequality of the two actions, for every angle that is not a multiple of a half turn. -/
theorem C33_fails_iff (ang : ℝ) {x y z : ℝ} (h : (⟨x, y, z⟩ : Vec3 ℝ) ≠ 0) :
    (∀ v, (Rotor.mkAxis Libm.real ang x y z).onPoint isa (Point.at v) =
      (Motor.mkScrew hw Libm.real isa ang 0 (Line.through0 (unitVec x y z))).onPoint (Point.at v)) ↔
      Real.sin ang = 0 := by
  have hu := unitVec_unit h
  have hn : (Line.through0 (unitVec x y z)).Unit :=
    ⟨by simpa only [Line.through0, dot3, dot] using hu, by simp [Line.through0, dot3]⟩
  have hA : (Line.through0 (unitVec x y z)).Has 0 := by
    apply Vec3.ext <;> simp [cross, Line.dir, Line.mom, kln, sse, Line.through0]
  have hdir : (Line.through0 (unitVec x y z)).dir = unitVec x y z := rfl
  have key : ∀ v, ((Rotor.mkAxis Libm.real ang x y z).onPoint isa (Point.at v) =
      (Motor.mkScrew hw Libm.real isa ang 0 (Line.through0 (unitVec x y z))).onPoint (Point.at v)) ↔
      rodrigues (unitVec x y z) (-ang) v = 0 + rodrigues (unitVec x y z) ang (v - 0) +
        (0 : ℝ) • unitVec x y z := by
    intro v
    rw [C30_action _ _ h, C32_action hx isa _ _ _ ⟨rfl, rfl⟩ hn 0 _ hA, hdir]
    constructor
    · intro e
      have := congrArg Point.pos e
      simpa only [Point.at_pos] using this
    · intro e; rw [e]
  simp only [key]
  generalize unitVec x y z = k at *
  simp only [dot] at hu
  constructor
  · intro H
    have e1 := H ⟨1, 0, 0⟩
    have e2 := H ⟨0, 1, 0⟩
    have a1 := congrArg Vec3.y e1
    have a2 := congrArg Vec3.z e1
    have a3 := congrArg Vec3.z e2
    simp [rodrigues, cross, dot] at a1 a2 a3
    have b1 : Real.sin ang * k.z = 0 := by linarith
    have b2 : Real.sin ang * k.y = 0 := by linarith
    have b3 : Real.sin ang * k.x = 0 := by linarith
    linear_combination (-Real.sin ang) * hu + k.x * b3 + k.y * b2 + k.z * b1
  · intro hs v
    apply Vec3.ext <;> simp [rodrigues, cross, dot, hs]

end Klein
