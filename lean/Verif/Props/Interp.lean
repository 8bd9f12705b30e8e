import Verif.Props.RotorLog
import Verif.Props.Log
import Verif.Props.Closure
import Verif.Props.Norms
import Verif.Props.Rigid
import Verif.Props.Composition
import Verif.Lemmas.Inj
import Verif.Lemmas.Conj

/-!
# C74: interpolation of motors as documented

docs/quickstart.md and docs/case_studies/ga_skeletal_animation.md give `slerp` and `nlerp` as the way
to blend two motors, and make statements about them.
-/

set_option linter.unusedSimpArgs false
set_option linter.unusedSectionVars false

namespace Klein

open PGA PGA.MV Euclid

section Model
variable {F : Type} [Add F] [Sub F] [Mul F] [Neg F] [Zero F] [One F] [NatCast F] [Div F]

/-- docs/quickstart.md:92-113 `blend_motors`, docs/case_studies/ga_skeletal_animation.md:403-424
`slerp`. -/
def slerp (hw : Hw F) (lm : Libm F) (isa : Isa) (a b : Motor F) (t : F) : Motor F :=
  let step := (b.mulMotor a.rev).log hw lm isa
  let step := step.mulAssign t
  (step.exp hw lm isa).mulMotor a

/-- The same recipe with rotors. -/
def slerpRotor (hw : Hw F) (lm : Libm F) (isa : Isa) (a b : Rotor F) (t : F) : Rotor F :=
  let step := (b.mulRotor a.rev).log hw lm isa
  let step := step.mulAssign t
  (step.exp hw lm isa).mulRotor a

/-- docs/case_studies/ga_skeletal_animation.md:262-266 `(1 - t) * m1 + t * m2`. -/
def lerp (m1 m2 : Motor F) (t : F) : Motor F := (m1.smul (1 - t)).add (m2.smul t)

/-- docs/case_studies/ga_skeletal_animation.md:262-266 `nlerp`. -/
def nlerp (hw : Hw F) (isa : Isa) (m1 m2 : Motor F) (t : F) : Motor F :=
  (lerp m1 m2 t).normalize hw isa

end Model

/-- A normalised motor. -/
def Motor.Normed {K : Type} [CommRing K] (m : Motor K) : Prop := m.mv * PGA.MV.rev m.mv = 1

section Group
variable {K : Type} [CommRing K]

theorem Motor.mv_rev (m : Motor K) : m.rev.mv = PGA.MV.rev m.mv := by mv_ring

theorem Motor.Normed.left {m : Motor K} (h : m.Normed) : PGA.MV.rev m.mv * m.mv = 1 := by
  have e : PGA.MV.rev m.mv * m.mv = m.mv * PGA.MV.rev m.mv := by mv_ring
  rw [e]; exact h

theorem Motor.Normed.rev {m : Motor K} (h : m.Normed) : m.rev.Normed := by
  rw [Motor.Normed, Motor.mv_rev, PGA.MV.rev_rev]; exact h.left

theorem Motor.Normed.mul {a b : Motor K} (ha : a.Normed) (hb : b.Normed) :
    (a.mulMotor b).Normed := by
  rw [Motor.Normed, C06_motor_mul_motor, PGA.MV.rev_mul, mul_assoc, ← mul_assoc b.mv, hb, one_mul]
  exact ha

/-- `(b ~a) a = b`. -/
theorem Motor.step_mul {a : Motor K} (ha : a.Normed) (b : Motor K) :
    (b.mulMotor a.rev).mulMotor a = b := by
  rw [← Motor.mv_inj, C06_motor_mul_motor, C06_motor_mul_motor, Motor.mv_rev, mul_assoc, ha.left,
    mul_one]

end Group

section Slerp
variable {hw : Hw ℝ} (hx : hw.Exact) (isa : Isa) {a b : Motor ℝ} (ha : a.Normed) (hb : b.Normed)

theorem Line.mulAssign_eq (l : Line ℝ) (t : ℝ) : l.mulAssign t = l.smul t := rfl

theorem Line.WF.smul {l : Line ℝ} (w : l.WF) (t : ℝ) : (l.smul t).WF := by
  obtain ⟨⟨_, _, _, _⟩, ⟨_, _, _, _⟩⟩ := l
  obtain ⟨h1, h2⟩ := w
  dsimp only at h1 h2
  subst h1 h2
  simp [Line.WF, kln, sse]

include ha hb in
theorem step_wf : ((b.mulMotor a.rev).log hw Libm.real isa).WF :=
  C49_motor_log hw isa _ (hb.mul ha.rev)

include ha hb in
/-- C74: the blend starts at `a`, for all normalised motors. -/
theorem C74_slerp_zero : slerp hw Libm.real isa a b 0 = a := by
  have h0 : (((b.mulMotor a.rev).log hw Libm.real isa).smul 0).p1 = setzero_ps := by
    simp [kln, sse]
  rw [slerp, Line.mulAssign_eq, exp_ideal isa _ h0, ← Motor.mv_inj, C06_motor_mul_motor]
  have e : (⟨set_ss 1, (((b.mulMotor a.rev).log hw Libm.real isa).smul 0).p2⟩ : Motor ℝ).mv = 1 := by
    have : (((b.mulMotor a.rev).log hw Libm.real isa).smul 0).p2 = setzero_ps := by simp [kln, sse]
    rw [this]; mv_ring
  rw [e, one_mul]

include hx ha hb in
/-- C74: every blend is a normalised motor. -/
theorem C74_slerp_normalised (t : ℝ) : (slerp hw Libm.real isa a b t).Normed := by
  rw [slerp, Line.mulAssign_eq]
  refine Motor.Normed.mul ?_ ha
  exact C35_normalised hx isa _ ((step_wf (hw := hw) isa ha hb).smul t)

include hx ha hb in
/-- C74: from `t` to `s + t` the blend moves by `exp (s log (b ~a))`, whatever `t`. -/
theorem C74_slerp_add (s t : ℝ) : slerp hw Libm.real isa a b (s + t) =
    ((((b.mulMotor a.rev).log hw Libm.real isa).smul s).exp hw Libm.real isa).mulMotor
      (slerp hw Libm.real isa a b t) := by
  rw [slerp, slerp, Line.mulAssign_eq, Line.mulAssign_eq, C35_add hx isa _ (step_wf isa ha hb) s t]
  simp only [← Motor.mv_inj, C06_motor_mul_motor, mul_assoc]

include hx ha hb in
/-- C74: constant speed.  The distance a point travels between the times `t` and `t + h` does not
depend on `t`. -/
theorem C74_slerp_speed (h t : ℝ) (x : Vec3 ℝ) :
    sqDist ((slerp hw Libm.real isa a b (t + h)).onPoint (Point.at x)).pos
        ((slerp hw Libm.real isa a b t).onPoint (Point.at x)).pos =
      sqDist ((slerp hw Libm.real isa a b h).onPoint (Point.at x)).pos (a.onPoint (Point.at x)).pos := by
  have key : ∀ m : Motor ℝ, m.Normed → m.onPoint (Point.at x) = Point.at (m.onPoint (Point.at x)).pos := by
    intro m hm
    have hw := (C17_rigid m hm (Point.at x) x x x x).1
    apply Point.ext
    apply V4.ext
    · simpa [kln, sse, Point.at] using hw
    all_goals rfl
  have hE := C35_normalised hx isa (((b.mulMotor a.rev).log hw Libm.real isa).smul t)
    ((step_wf (hw := hw) isa ha hb).smul t)
  have e0 := C74_slerp_add hx isa ha hb t 0
  rw [add_zero, C74_slerp_zero isa ha hb] at e0
  rw [C74_slerp_add hx isa ha hb t h, e0]
  generalize (((b.mulMotor a.rev).log hw Libm.real isa).smul t).exp hw Libm.real isa = E at hE ⊢
  have c : ∀ m : Motor ℝ, (E.mulMotor m).onPoint (Point.at x) = E.onPoint (m.onPoint (Point.at x)) :=
    fun m => C16_motor_motor_point _ _ _
  rw [c, c, key _ (C74_slerp_normalised hx isa ha hb h), key a ha]
  exact (C17_rigid _ hE (Point.at x) _ _ x x).2.1

/-- The normalised motors of which `exp (log m) = m` (the others are in `C36_cases`). -/
def Motor.Principal (m : Motor ℝ) : Prop :=
  (0 < m.sPart ∧ (1 / 1000000 ≤ |m.scalar| ∨ m.e0123 < 0)) ∨ (m.bivector.p1 = setzero_ps ∧ m.scalar = 1)

include hx in
theorem Motor.Principal.exp_log {m : Motor ℝ} (hm : m.Normed) (h : m.Principal) :
    (m.log hw Libm.real isa).exp hw Libm.real isa = m := by
  rcases h with ⟨h, h' | h'⟩ | ⟨h, h'⟩
  · exact C36_generic hx isa m hm h h'
  · rcases le_or_gt (1 / 1000000) |m.scalar| with hp | hp
    · exact C36_generic hx isa m hm h hp
    · exact C36_half_turn_pos hx isa m hm h hp h'
  · exact C36_translation isa m h h'

theorem Line.smul_one (l : Line ℝ) : l.smul 1 = l := by
  obtain ⟨⟨_, _, _, _⟩, ⟨_, _, _, _⟩⟩ := l; simp [kln, sse]

include hx ha hb in
/-- C74: the blend ends at `b`, unless `b ~a` is a half turn or a translation with scalar -1. -/
theorem C74_slerp_one_partial (h : (b.mulMotor a.rev).Principal) :
    slerp hw Libm.real isa a b 1 = b := by
  rw [slerp, Line.mulAssign_eq, Line.smul_one, h.exp_log hx isa (hb.mul ha.rev), Motor.step_mul ha]

include hx ha hb in
/-- C74: in the half-turn branch with a positive `e0123` the blend ends at `-b`, the same motion. -/
theorem C74_slerp_one_neg (h : 0 < (b.mulMotor a.rev).sPart)
    (hp : |(b.mulMotor a.rev).scalar| < 1 / 1000000) (hv : 0 < (b.mulMotor a.rev).e0123) :
    (slerp hw Libm.real isa a b 1).mv = -b.mv := by
  rw [slerp, Line.mulAssign_eq, Line.smul_one, C36_half_turn_neg hx isa _ (hb.mul ha.rev) h hp hv,
    C06_motor_mul_motor]
  have e : ∀ m : Motor ℝ, m.negAll.mv = -m.mv := by intro m; simp only [Motor.negAll]; mv_ring
  rw [e, neg_mul, ← C06_motor_mul_motor, Motor.step_mul ha]

include hx ha hb in
/-- C74: if `b` differs from `a` by a half turn without displacement, the blend stays at `a` for all
`t` and never reaches `b`. -/
theorem C74_slerp_half_turn_fails (h : 0 < (b.mulMotor a.rev).sPart)
    (hp : |(b.mulMotor a.rev).scalar| < 1 / 1000000) (hv : (b.mulMotor a.rev).e0123 = 0) :
    (∀ t, slerp hw Libm.real isa a b t = a) ∧ b.mv ≠ a.mv ∧ b.mv ≠ -a.mv := by
  obtain ⟨h1, -, h3, h4⟩ := C36_half_turn_fails hx isa _ (hb.mul ha.rev) h hp hv
  refine ⟨fun t => ?_, fun e => h3 ?_, fun e => h4 ?_⟩
  · have := C74_slerp_zero (hw := hw) isa ha hb
    rw [slerp, h1] at this ⊢
    have e : ∀ t : ℝ, (⟨setzero_ps, setzero_ps⟩ : Line ℝ).mulAssign t = ⟨setzero_ps, setzero_ps⟩ := by
      intro t; simp [kln, sse]
    rw [e] at this ⊢; exact this
  · rw [C06_motor_mul_motor, Motor.mv_rev, e]; exact ha
  · rw [C06_motor_mul_motor, Motor.mv_rev, e, neg_mul, ha]

include ha hb in
/-- C74: if `b ~a` is a translation with scalar -1 (`b` is on the other sheet of the double cover),
the blend ends at the opposite displacement. -/
theorem C74_slerp_translation_fails (h : (b.mulMotor a.rev).bivector.p1 = setzero_ps)
    (hp : (b.mulMotor a.rev).scalar = -1) (hq : (b.mulMotor a.rev).e0123 = 0) (x : Vec3 ℝ) (y : Vec3 ℝ)
    (hy : a.onPoint (Point.at x) = Point.at y) :
    (slerp hw Libm.real isa a b 1).onPoint (Point.at x) =
      Point.at (y - (2 : ℝ) • (b.mulMotor a.rev).bivector.mom) ∧
    b.onPoint (Point.at x) = Point.at (y + (2 : ℝ) • (b.mulMotor a.rev).bivector.mom) := by
  obtain ⟨h1, h2⟩ := C36_translation_fails (hw := hw) isa _ h hp hq y
  constructor
  · rw [slerp, Line.mulAssign_eq, Line.smul_one, C16_motor_motor_point, hy, h1]
  · conv_lhs => rw [← Motor.step_mul ha b]
    rw [C16_motor_motor_point, hy, h2]

theorem arg_eq_arccos {x y : ℝ} (h : x ^ 2 + y ^ 2 = 1) (hy : 0 ≤ y) :
    Complex.arg ⟨x, y⟩ = Real.arccos x := by
  rw [← Real.arccos_cos (Complex.arg_nonneg_iff.2 hy) (Complex.arg_le_pi _), (cos_arg_unit h).1]

include hx ha hb in
/-- C74: after the time `t` the blend has turned by `t` times the angle of `b ~a`, about its axis:
with `φ = arccos (scalar (b ~a))` the rotor part of `slerp(t) ~a` is `cos (t φ) + sin (t φ) n`.
If the scalar part of `b ~a` is negative then `φ > π / 2` and the blend goes the long way round. -/
theorem C74_slerp_angle (h : 0 < (b.mulMotor a.rev).sPart)
    (hp : 1 / 1000000 ≤ |(b.mulMotor a.rev).scalar|) (t : ℝ) :
    ((slerp hw Libm.real isa a b t).mulMotor a.rev).scalar =
      Real.cos (t * Real.arccos (b.mulMotor a.rev).scalar) ∧
    (((slerp hw Libm.real isa a b t).mulMotor a.rev).bivector.dir =
      (Real.sin (t * Real.arccos (b.mulMotor a.rev).scalar) / (b.mulMotor a.rev).sPart) •
        (b.mulMotor a.rev).bivector.dir) ∧
    ((b.mulMotor a.rev).scalar < 0 → Real.pi / 2 < Real.arccos (b.mulMotor a.rev).scalar) := by
  have hn := hb.mul ha.rev
  have e : (slerp hw Libm.real isa a b t).mulMotor a.rev =
      ((((b.mulMotor a.rev).log hw Libm.real isa).smul t).exp hw Libm.real isa) := by
    rw [slerp, Line.mulAssign_eq, ← Motor.mv_inj, C06_motor_mul_motor, C06_motor_mul_motor,
      Motor.mv_rev, mul_assoc, ha, mul_one]
  rw [e]
  generalize b.mulMotor a.rev = m at *
  have hu := m.bivector.axis_unit (Real.sqrt_pos.1 h)
  rw [m.log_eq hx isa h, Line.scr_smul, exp_scr hx isa hu, Line.expUV_eq]
  have hU : m.logU = Real.arccos m.scalar := by
    rw [Motor.logU, if_neg (not_lt.2 hp), arg_eq_arccos (m.norm_parts hn h).1 h.le]
  rw [hU]
  refine ⟨rfl, ?_, fun hneg => ?_⟩
  · have hr : m.sPart = Real.sqrt (dot3 m.bivector.p1 m.bivector.p1) := rfl
    apply Vec3.ext
    · change _ * (m.p1.l1 / m.sPart) = _ / m.sPart * m.p1.l1; ring
    · change _ * (m.p1.l2 / m.sPart) = _ / m.sPart * m.p1.l2; ring
    · change _ * (m.p1.l3 / m.sPart) = _ / m.sPart * m.p1.l3; ring
  · rw [← Real.arccos_zero]; exact Real.strictAntiOn_arccos ⟨by
      nlinarith [(m.norm_parts hn h).1, sq_nonneg m.sPart], by linarith⟩ ⟨by norm_num, by norm_num⟩ hneg

end Slerp

section RotorSlerp
variable {hw : Hw ℝ} (hx : hw.Exact) (isa : Isa)

/-- A unit rotor. -/
theorem Rotor.step_mul {a : Rotor ℝ} (ha : a.sqNorm = 1) (b : Rotor ℝ) :
    (b.mulRotor a.rev).mulRotor a = b := by
  simp only [Rotor.sqNorm, kln, sse] at ha
  apply Rotor.ext
  apply V4.ext <;> simp only [kln, sse, cond_true, cond_false]
  · linear_combination b.p1.l0 * ha
  · linear_combination b.p1.l1 * ha
  · linear_combination b.p1.l2 * ha
  · linear_combination b.p1.l3 * ha

include hx in
/-- `exp (t log r) = cos (t φ) + sin (t φ) / sin φ (r - cos φ)`. -/
theorem Rotor.exp_smul_log (r : Rotor ℝ) (h : r.sqNorm = 1) (h1 : -1 < r.scalar) (h2 : r.scalar < 1)
    {t : ℝ} (ht : t ≠ 0) :
    ((r.log hw Libm.real isa).smul t).exp hw Libm.real isa =
      ⟨⟨Real.cos (t * Real.arccos r.scalar),
        Real.sin (t * Real.arccos r.scalar) / Real.sin (Real.arccos r.scalar) * r.p1.l1,
        Real.sin (t * Real.arccos r.scalar) / Real.sin (Real.arccos r.scalar) * r.p1.l2,
        Real.sin (t * Real.arccos r.scalar) / Real.sin (Real.arccos r.scalar) * r.p1.l3⟩⟩ := by
  have hd : dot3 r.p1 r.p1 = 1 - r.scalar ^ 2 := by
    simp only [Rotor.sqNorm, dot3, kln, sse] at h ⊢; linear_combination h
  have hpos : 0 < dot3 r.p1 r.p1 := by rw [hd]; nlinarith
  have hs : Real.sin (Real.arccos r.scalar) = Real.sqrt (dot3 r.p1 r.p1) := by
    rw [Real.sin_arccos, hd]
  have hφ : 0 < Real.arccos r.scalar := Real.arccos_pos.2 h2
  have h0 := Real.sqrt_pos.2 hpos
  have hsq := Real.sq_sqrt hpos.le
  rw [Rotor.log_eq hx isa r h h1 h2, hs]
  set q := Real.sqrt (dot3 r.p1 r.p1) with hq
  set φ := Real.arccos r.scalar with hφ'
  have e : ((⟨⟨0, r.p1.l1, r.p1.l2, r.p1.l3⟩⟩ : Branch ℝ).smul (φ / q)).smul t =
      ⟨⟨0, t * φ / q * r.p1.l1, t * φ / q * r.p1.l2, t * φ / q * r.p1.l3⟩⟩ := by
    simp only [kln, sse, Branch.mk.injEq, V4.mk.injEq]
    refine ⟨?_, ?_, ?_, ?_⟩ <;> ring
  rw [e]
  have hdd : dot3 (⟨0, t * φ / q * r.p1.l1, t * φ / q * r.p1.l2, t * φ / q * r.p1.l3⟩ : V4 ℝ)
      ⟨0, t * φ / q * r.p1.l1, t * φ / q * r.p1.l2, t * φ / q * r.p1.l3⟩ = (t * φ) ^ 2 := by
    have e : dot3 (⟨0, t * φ / q * r.p1.l1, t * φ / q * r.p1.l2, t * φ / q * r.p1.l3⟩ : V4 ℝ)
      ⟨0, t * φ / q * r.p1.l1, t * φ / q * r.p1.l2, t * φ / q * r.p1.l3⟩ =
        (t * φ / q) ^ 2 * dot3 r.p1 r.p1 := by simp only [dot3]; ring
    rw [e, ← hsq]; field_simp
  have hne : t * φ ≠ 0 := mul_ne_zero ht hφ.ne'
  have hr : |t * φ| = Real.sqrt (dot3 (⟨0, t * φ / q * r.p1.l1, t * φ / q * r.p1.l2, t * φ / q * r.p1.l3⟩ : V4 ℝ)
      ⟨0, t * φ / q * r.p1.l1, t * φ / q * r.p1.l2, t * φ / q * r.p1.l3⟩) := by
    rw [hdd, Real.sqrt_sq_eq_abs]
  rw [Branch.exp_eq hx isa (⟨⟨0, t * φ / q * r.p1.l1, t * φ / q * r.p1.l2, t * φ / q * r.p1.l3⟩⟩ : Branch ℝ)
    rfl (by rw [hdd]; positivity) hr]
  have hsinc : Real.sin |t * φ| / |t * φ| = Real.sin (t * φ) / (t * φ) := by
    rcases abs_cases (t * φ) with ⟨h, -⟩ | ⟨h, -⟩ <;> rw [h]
    rw [Real.sin_neg, neg_div_neg_eq]
  rw [hsinc, Real.cos_abs]
  apply Rotor.ext
  apply V4.ext <;> dsimp only
  all_goals field_simp

include hx in
/-- C74: for rotors (quaternions) the recipe gives the classical formula
`sin ((1 - t) φ) / sin φ a + sin (t φ) / sin φ b` with `cos φ = a · b`
(docs/case_studies/ga_skeletal_animation.md:395), except at `t = 0`, where the exponential of a zero
branch is `0 / 0`. -/
theorem C74_slerp_rotor (a b : Rotor ℝ) (ha : a.sqNorm = 1) (hb : b.sqNorm = 1)
    (h1 : -1 < dot4 a.p1 b.p1) (h2 : dot4 a.p1 b.p1 < 1) {t : ℝ} (ht : t ≠ 0) :
    slerpRotor hw Libm.real isa a b t =
      (a.smul (Real.sin ((1 - t) * Real.arccos (dot4 a.p1 b.p1)) /
          Real.sin (Real.arccos (dot4 a.p1 b.p1)))).add
        (b.smul (Real.sin (t * Real.arccos (dot4 a.p1 b.p1)) /
          Real.sin (Real.arccos (dot4 a.p1 b.p1)))) := by
  have hs : (b.mulRotor a.rev).scalar = dot4 a.p1 b.p1 := by
    simp only [kln, sse, dot4, cond_true, cond_false]; ring
  have hN : (b.mulRotor a.rev).sqNorm = 1 := by
    have : (b.mulRotor a.rev).sqNorm = b.sqNorm * a.sqNorm := by
      simp only [Rotor.sqNorm, kln, sse, cond_true, cond_false]; ring
    rw [this, ha, hb, one_mul]
  have hb' := Rotor.step_mul ha b
  have key := Rotor.exp_smul_log hx isa _ hN (by rw [hs]; exact h1) (by rw [hs]; exact h2) ht
  have e : slerpRotor hw Libm.real isa a b t =
      ((((b.mulRotor a.rev).log hw Libm.real isa).smul t).exp hw Libm.real isa).mulRotor a := rfl
  rw [e, key, hs]
  have hsc : (b.mulRotor a.rev).p1.l0 = Real.cos (Real.arccos (dot4 a.p1 b.p1)) := by
    rw [Real.cos_arccos h1.le h2.le]; exact hs
  have hpos : 0 < Real.sin (Real.arccos (dot4 a.p1 b.p1)) := by
    rw [Real.sin_arccos]; apply Real.sqrt_pos.2; nlinarith
  generalize Real.arccos (dot4 a.p1 b.p1) = φ at *
  have e1 : Real.sin ((1 - t) * φ) = Real.sin φ * Real.cos (t * φ) - Real.cos φ * Real.sin (t * φ) := by
    rw [show (1 - t) * φ = φ - t * φ by ring, Real.sin_sub]
  rw [e1]
  generalize b.mulRotor a.rev = r at *
  rw [← hb']
  have h0 := hpos.ne'
  apply Rotor.ext
  apply V4.ext <;> simp only [kln, sse, hsc, cond_true, cond_false] <;> field_simp <;> ring

end RotorSlerp

section Nlerp
variable {K : Type} [Field K] [CharZero K]

/-- C74: `m ~m` of a linear interpolation of normalised motors. -/
theorem C74_lerp_norm {a b : Motor K} (ha : a.Normed) (hb : b.Normed) (t : K) :
    (lerp a b t).mv * PGA.MV.rev (lerp a b t).mv =
      (1 - 2 * t + 2 * t ^ 2) • (1 : MV K) +
        (t * (1 - t)) • (b.mv * PGA.MV.rev a.mv + a.mv * PGA.MV.rev b.mv) := by
  have e : (lerp a b t).mv = (1 - t) • a.mv + t • b.mv := by simp only [lerp]; mv_ring
  rw [e, PGA.MV.rev_add, PGA.MV.rev_smul, PGA.MV.rev_smul, add_mul, mul_add, mul_add]
  simp only [smul_mul_assoc, mul_smul_comm]
  rw [ha, hb]
  module
/-- C74: the documentation's `1 - t + t² + (…) t (1 - t)`
(docs/case_studies/ga_skeletal_animation.md:250) is wrong for all `t` other than 0 and 1. -/
theorem C74_lerp_norm_doc_fails {a b : Motor K} (ha : a.Normed) (hb : b.Normed) {t : K}
    (h0 : t ≠ 0) (h1 : t ≠ 1) :
    (lerp a b t).mv * PGA.MV.rev (lerp a b t).mv ≠
      (1 - t + t ^ 2) • (1 : MV K) +
        (t * (1 - t)) • (b.mv * PGA.MV.rev a.mv + a.mv * PGA.MV.rev b.mv) := by
  rw [C74_lerp_norm ha hb]
  intro e
  have := congrArg MV.s (add_right_cancel e)
  simp only [pga] at this
  have h : t * (t - 1) = 0 := by linear_combination this
  rcases mul_eq_zero.1 h with h | h
  · exact h0 h
  · exact h1 (by linear_combination h)

/-- C74: for `t` other than 0 and 1 the linear interpolation is normalised exactly if
`m2 ~m1 + m1 ~m2 = 2` (the documentation, ga_skeletal_animation.md:258, says 1). -/
theorem C74_lerp_normed_iff {a b : Motor K} (ha : a.Normed) (hb : b.Normed) {t : K}
    (h0 : t ≠ 0) (h1 : t ≠ 1) :
    (lerp a b t).Normed ↔ b.mv * PGA.MV.rev a.mv + a.mv * PGA.MV.rev b.mv = (2 : K) • (1 : MV K) := by
  have hk : t * (1 - t) ≠ 0 := mul_ne_zero h0 (sub_ne_zero.2 (Ne.symm h1))
  rw [Motor.Normed, C74_lerp_norm ha hb]
  generalize b.mv * PGA.MV.rev a.mv + a.mv * PGA.MV.rev b.mv = x
  constructor
  · intro h
    have e : (t * (1 - t)) • x = (t * (1 - t)) • ((2 : K) • (1 : MV K)) := by
      have : (t * (1 - t)) • x = (1 : MV K) - (1 - 2 * t + 2 * t ^ 2) • (1 : MV K) :=
        eq_sub_of_add_eq' h
      rw [this]; module
    exact smul_right_injective _ hk e
  · rintro rfl
    module

/-- C74, the documentation's criterion: `m1 = 1` and the rotor with scalar 1/2 satisfy it, and the
interpolation is not normalised for any `t` other than 0 and 1. -/
theorem C74_lerp_iff_doc_fails :
    ∃ a b : Motor ℝ, a.Normed ∧ b.Normed ∧
      b.mv * PGA.MV.rev a.mv + a.mv * PGA.MV.rev b.mv = 1 ∧
      ∀ t, t ≠ 0 → t ≠ 1 → ¬ (lerp a b t).Normed := by
  have ha : (⟨⟨1, 0, 0, 0⟩, ⟨0, 0, 0, 0⟩⟩ : Motor ℝ).Normed := by
    rw [Motor.Normed]; apply MV.ext <;> simp [pga]
  have h3 : Real.sqrt 3 * Real.sqrt 3 = 3 := Real.mul_self_sqrt (by norm_num)
  have hb : (⟨⟨1 / 2, Real.sqrt 3 / 2, 0, 0⟩, ⟨0, 0, 0, 0⟩⟩ : Motor ℝ).Normed := by
    rw [Motor.Normed]; apply MV.ext <;> simp [pga] <;> linarith
  have e : (⟨⟨1 / 2, Real.sqrt 3 / 2, 0, 0⟩, ⟨0, 0, 0, 0⟩⟩ : Motor ℝ).mv *
      PGA.MV.rev (⟨⟨1, 0, 0, 0⟩, ⟨0, 0, 0, 0⟩⟩ : Motor ℝ).mv +
      (⟨⟨1, 0, 0, 0⟩, ⟨0, 0, 0, 0⟩⟩ : Motor ℝ).mv *
      PGA.MV.rev (⟨⟨1 / 2, Real.sqrt 3 / 2, 0, 0⟩, ⟨0, 0, 0, 0⟩⟩ : Motor ℝ).mv = 1 := by
    apply MV.ext <;> simp [pga] <;> norm_num
  refine ⟨_, _, ha, hb, e, fun t h0 h1 h => ?_⟩
  rw [C74_lerp_normed_iff ha hb h0 h1, e] at h
  have := congrArg MV.s h
  simp [pga] at this
end Nlerp

section NlerpReal

/-- The inner product of the rotor parts. -/
theorem lerp_sqNorm {K : Type} [CommRing K] (a b : Motor K) (t : K) : (lerp a b t).sqNorm =
    (1 - t) ^ 2 * a.sqNorm + 2 * t * (1 - t) * dot4 a.p1 b.p1 + t ^ 2 * b.sqNorm := by
  simp only [lerp, Motor.sqNorm, kln, sse, dot4]; ring

theorem dot4_self_nonneg (v : V4 ℝ) : 0 ≤ dot4 v v := by
  simp only [dot4]
  linarith [mul_self_nonneg v.l0, mul_self_nonneg v.l1, mul_self_nonneg v.l2, mul_self_nonneg v.l3]

theorem sqNorm_add (a b : Motor ℝ) : dot4 (add_ps a.p1 b.p1) (add_ps a.p1 b.p1) =
    a.sqNorm + b.sqNorm + 2 * dot4 a.p1 b.p1 := by
  simp only [Motor.sqNorm, kln, sse, dot4]; ring

variable {hw : Hw ℝ} (hx : hw.Exact) (isa : Isa) {a b : Motor ℝ} (ha : a.Normed) (hb : b.Normed)

include ha hb in
/-- C74: the norm of the interpolation vanishes only half-way between motors with opposite rotor
parts. -/
theorem C74_nlerp_pos (t : ℝ) : 0 < (lerp a b t).sqNorm ∨
    (t = 1 / 2 ∧ b.p1 = ⟨-a.p1.l0, -a.p1.l1, -a.p1.l2, -a.p1.l3⟩ ∧ (lerp a b t).sqNorm = 0) := by
  have h1 := Motor.sqNorm_eq_one ha
  have h2 := Motor.sqNorm_eq_one hb
  have h3 := sqNorm_add a b
  have h4 : (lerp a b t).sqNorm = (1 - 2 * t) ^ 2 + t * (1 - t) * dot4 (add_ps a.p1 b.p1) (add_ps a.p1 b.p1) := by
    rw [lerp_sqNorm, h3, h1, h2]; ring
  have h5 : dot4 (add_ps a.p1 b.p1) (add_ps a.p1 b.p1) ≤ 4 := by
    have : 0 ≤ dot4 (sub_ps a.p1 b.p1) (sub_ps a.p1 b.p1) := by
      exact dot4_self_nonneg _
    have e : dot4 (sub_ps a.p1 b.p1) (sub_ps a.p1 b.p1) = a.sqNorm + b.sqNorm - 2 * dot4 a.p1 b.p1 := by
      simp only [Motor.sqNorm, kln, sse, dot4]; ring
    rw [e, h1, h2] at this
    rw [h3, h1, h2]; linarith
  have h6 : 0 ≤ dot4 (add_ps a.p1 b.p1) (add_ps a.p1 b.p1) := by
    exact dot4_self_nonneg _
  have h7 : (lerp a b t).sqNorm = (1 - 2 * t) ^ 2 * (1 - dot4 (add_ps a.p1 b.p1) (add_ps a.p1 b.p1) / 4) +
      dot4 (add_ps a.p1 b.p1) (add_ps a.p1 b.p1) / 4 := by rw [h4]; ring
  rcases h6.lt_or_eq with h | h
  · left; rw [h7]
    have : 0 ≤ (1 - 2 * t) ^ 2 * (1 - dot4 (add_ps a.p1 b.p1) (add_ps a.p1 b.p1) / 4) :=
      mul_nonneg (sq_nonneg _) (by linarith)
    linarith
  · by_cases ht : t = 1 / 2
    · right
      refine ⟨ht, ?_, by rw [h7, ← h, ht]; norm_num⟩
      have h8 := h.symm
      simp only [dot4, sse] at h8
      have e0 : a.p1.l0 + b.p1.l0 = 0 := by nlinarith [sq_nonneg (a.p1.l0 + b.p1.l0), sq_nonneg (a.p1.l1 + b.p1.l1), sq_nonneg (a.p1.l2 + b.p1.l2), sq_nonneg (a.p1.l3 + b.p1.l3)]
      have e1 : a.p1.l1 + b.p1.l1 = 0 := by nlinarith [sq_nonneg (a.p1.l0 + b.p1.l0), sq_nonneg (a.p1.l1 + b.p1.l1), sq_nonneg (a.p1.l2 + b.p1.l2), sq_nonneg (a.p1.l3 + b.p1.l3)]
      have e2 : a.p1.l2 + b.p1.l2 = 0 := by nlinarith [sq_nonneg (a.p1.l0 + b.p1.l0), sq_nonneg (a.p1.l1 + b.p1.l1), sq_nonneg (a.p1.l2 + b.p1.l2), sq_nonneg (a.p1.l3 + b.p1.l3)]
      have e3 : a.p1.l3 + b.p1.l3 = 0 := by nlinarith [sq_nonneg (a.p1.l0 + b.p1.l0), sq_nonneg (a.p1.l1 + b.p1.l1), sq_nonneg (a.p1.l2 + b.p1.l2), sq_nonneg (a.p1.l3 + b.p1.l3)]
      apply V4.ext
      · dsimp only; linarith
      · dsimp only; linarith
      · dsimp only; linarith
      · dsimp only; linarith
    · left
      rw [h7, ← h]
      have : 1 - 2 * t ≠ 0 := fun e => ht (by linarith)
      have := sq_pos_of_ne_zero this
      linarith

include hx ha hb in
/-- C74: `nlerp` returns a normalised motor, unless `t = 1/2` and the rotor parts are opposite. -/
theorem C74_nlerp_normalised (t : ℝ)
    (h : t ≠ 1 / 2 ∨ b.p1 ≠ ⟨-a.p1.l0, -a.p1.l1, -a.p1.l2, -a.p1.l3⟩) :
    (nlerp hw isa a b t).Normed := by
  rcases C74_nlerp_pos ha hb t with h' | ⟨h1, h2, -⟩
  · exact C24_motor hw isa _ (hx.rsqrtAt h') (hx.rcpAt h'.ne')
  · rcases h with h | h
    · exact absurd h1 h
    · exact absurd h2 h

include hx in
theorem Motor.normalize_normed {m : Motor ℝ} (hm : m.Normed) : m.normalize hw isa = m := by
  have h1 := Motor.sqNorm_eq_one hm
  have h2 : m.bc = 0 := by linarith [Motor.bc_eq_zero m hm]
  have e : dot4 m.p1 m.p1 = 1 := h1
  rw [Motor.normalize_eq, e, h2, rsqrt1_eq hx one_pos, Real.sqrt_one, inv_one]
  obtain ⟨⟨_, _, _, _⟩, ⟨_, _, _, _⟩⟩ := m
  simp [Motor.dualSmul]

include hx ha hb in
/-- C74: `nlerp` starts at `a` and ends at `b`, always. -/
theorem C74_nlerp_ends : nlerp hw isa a b 0 = a ∧ nlerp hw isa a b 1 = b := by
  have e0 : lerp a b 0 = a := by
    obtain ⟨⟨_, _, _, _⟩, ⟨_, _, _, _⟩⟩ := a; simp [lerp, kln, sse]
  have e1 : lerp a b 1 = b := by
    obtain ⟨⟨_, _, _, _⟩, ⟨_, _, _, _⟩⟩ := b; simp [lerp, kln, sse]
  rw [nlerp, nlerp, e0, e1]
  exact ⟨Motor.normalize_normed hx isa ha, Motor.normalize_normed hx isa hb⟩

end NlerpReal

/-! ### concrete motors -/
section Examples
variable {hw : Hw ℝ} (hx : hw.Exact) (isa : Isa)

/-- The identity. -/
def idM : Motor ℝ := ⟨⟨1, 0, 0, 0⟩, ⟨0, 0, 0, 0⟩⟩
/-- The half turn about `e12`. -/
def halfM : Motor ℝ := ⟨⟨0, 0, 0, 1⟩, ⟨0, 0, 0, 0⟩⟩
/-- The turn by 240 degrees about `e12`, combined with the displacement 2 along the axis. -/
noncomputable def longM : Motor ℝ := ⟨⟨-1 / 2, 0, 0, Real.sqrt 3 / 2⟩, ⟨Real.sqrt 3 / 2, 0, 0, -1 / 2⟩⟩

theorem idM_normed : idM.Normed := by
  rw [Motor.Normed]; apply MV.ext <;> simp [pga, idM]
theorem halfM_normed : halfM.Normed := by
  rw [Motor.Normed]; apply MV.ext <;> simp [pga, halfM]
theorem longM_normed : longM.Normed := by
  have h3 : Real.sqrt 3 * Real.sqrt 3 = 3 := Real.mul_self_sqrt (by norm_num)
  rw [Motor.Normed]; apply MV.ext <;> simp [pga, longM] <;> linarith

theorem step_id (b : Motor ℝ) : b.mulMotor idM.rev = b := by
  rw [← Motor.mv_inj, C06_motor_mul_motor]
  have : idM.rev.mv = 1 := by simp only [idM]; mv_ring
  rw [this, mul_one]

include hx in
/-- C74: from the identity to the half turn about `e12` the blend does not move at all. -/
example (t : ℝ) : slerp hw Libm.real isa idM halfM t = idM := by
  refine (C74_slerp_half_turn_fails hx isa idM_normed halfM_normed ?_ ?_ ?_).1 t
  · rw [step_id, Motor.sPart]; simp [Motor.bivector, halfM, dot3]
  · rw [step_id]; simp [halfM, kln, sse]
  · rw [step_id]; simp [halfM, kln, sse]

theorem longM_sPart : 0 < longM.sPart := by
  rw [Motor.sPart]; apply Real.sqrt_pos.2
  simp [Motor.bivector, longM, dot3]

include hx in
/-- C74: the blend to the turn by 240 degrees reaches it, and half-way it has turned by 120 degrees
(scalar 1/2) and not by -60. -/
theorem C74_example : slerp hw Libm.real isa idM longM 1 = longM ∧
    (slerp hw Libm.real isa idM longM (1 / 2)).scalar = 1 / 2 := by
  have hs : longM.scalar = -1 / 2 := rfl
  have hp : 1 / 1000000 ≤ |(longM.mulMotor idM.rev).scalar| := by
    rw [step_id, hs]; norm_num [abs_of_neg]
  have h0 : 0 < (longM.mulMotor idM.rev).sPart := by rw [step_id]; exact longM_sPart
  refine ⟨C74_slerp_one_partial hx isa idM_normed longM_normed (Or.inl ⟨h0, Or.inl hp⟩), ?_⟩
  have h := (C74_slerp_angle hx isa idM_normed longM_normed h0 hp (1 / 2)).1
  rw [step_id, step_id, hs] at h
  have ha : Real.arccos (-1 / 2) = 2 * (Real.pi / 3) := by
    have hc : Real.cos (2 * (Real.pi / 3)) = -1 / 2 := by
      rw [Real.cos_two_mul, Real.cos_pi_div_three]; norm_num
    rw [← hc, Real.arccos_cos (by positivity) (by linarith [Real.pi_pos])]
  rw [h, ha, show (1 / 2 : ℝ) * (2 * (Real.pi / 3)) = Real.pi / 3 by ring, Real.cos_pi_div_three]

include hx in
/-- C74: `nlerp` does not have constant speed.  From the identity to the half turn about `e12` the
point `(1, 0, 0)` covers the squared distances 4/5, 36/25, 4/5 in three equal times. -/
theorem C74_nlerp_speed_fails :
    sqDist ((nlerp hw isa idM halfM (1 / 3)).onPoint (Point.at ⟨1, 0, 0⟩)).pos
        ((nlerp hw isa idM halfM 0).onPoint (Point.at ⟨1, 0, 0⟩)).pos = 4 / 5 ∧
    sqDist ((nlerp hw isa idM halfM (2 / 3)).onPoint (Point.at ⟨1, 0, 0⟩)).pos
        ((nlerp hw isa idM halfM (1 / 3)).onPoint (Point.at ⟨1, 0, 0⟩)).pos = 36 / 25 ∧
    sqDist ((nlerp hw isa idM halfM 1).onPoint (Point.at ⟨1, 0, 0⟩)).pos
        ((nlerp hw isa idM halfM (2 / 3)).onPoint (Point.at ⟨1, 0, 0⟩)).pos = 4 / 5 := by
  have hN : (lerp idM halfM (1 / 3)).sqNorm = 5 / 9 := by
    rw [lerp_sqNorm]; simp [Motor.sqNorm, idM, halfM, dot4, kln, sse]; norm_num
  have hN' : (lerp idM halfM (2 / 3)).sqNorm = 5 / 9 := by
    rw [lerp_sqNorm]; simp [Motor.sqNorm, idM, halfM, dot4, kln, sse]; norm_num
  have hr : rsqrt1 hw (5 / 9 : ℝ) ^ 2 = 9 / 5 := by
    rw [rsqrt1_eq hx (by norm_num), inv_pow, Real.sq_sqrt (by norm_num)]; norm_num
  obtain ⟨e0, e1⟩ := C74_nlerp_ends hx isa idM_normed halfM_normed
  rw [e0, e1, nlerp, nlerp, C25_motor, C25_motor, hN, hN', hr]
  simp [Euclid.sqDist, Euclid.dot, Point.pos, lerp, idM, halfM, kln, sse, Point.at]
  norm_num

end Examples
end Klein
