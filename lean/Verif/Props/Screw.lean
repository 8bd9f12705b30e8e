import Verif.Props.DoubleCover
import Verif.Props.Ctor
import Verif.Props.RotorLog

/-!
# C80: every rigid motion is a screw motion; C82: powers and roots; C83: weighted lines

motor.hpp:18-24 appeals to Chasles' theorem; exp_log.hpp:12-44 promises that `exp(n * log(A))` is the
`n`th power of `A` and that `exp(log(A) / n)` is an `n`th root; geometric_product.hpp:139-143 describes
the exponential of a dual number times a line.
-/

set_option linter.unusedSimpArgs false
set_option linter.unusedSectionVars false

namespace Klein

open PGA PGA.MV Euclid

variable {hw : Hw ℝ} (hx : hw.Exact) (isa : Isa)

/-! ### C80 -/

/-- A normalised motor with a rotation part is the exponential `exp ((u + v I) n)` about its axis. -/
theorem Motor.Normed.eq_expUV {m : Motor ℝ} (hm : m.Normed) (h : 0 < m.sPart) :
    m = m.bivector.axis.expUV (Complex.arg ⟨m.scalar, m.sPart⟩)
      (m.scalar * m.tPart - m.sPart * m.e0123) := by
  obtain ⟨n1, n2⟩ := m.norm_parts hm h
  obtain ⟨c1, c2⟩ := cos_arg_unit n1
  rw [Line.expUV_eq, c1, c2]
  conv_lhs => rw [m.eq_cis h]
  congr 2
  · linear_combination m.scalar * n2 - m.e0123 * n1
  · linear_combination m.sPart * n2 - m.tPart * n1

theorem Motor.axis_wf (m : Motor ℝ) : m.bivector.axis.WF := ⟨rfl, rfl⟩

include hx in
/-- C80: every normalised motor with a rotation part is the screw motor of a unit line, constructed
by `motor(ang, d, l)`. -/
theorem C80_screw {m : Motor ℝ} (hm : m.Normed) (h : m.bivector.p1 ≠ setzero_ps) :
    ∃ (l : Line ℝ) (ang d : ℝ), l.WF ∧ l.Unit ∧ Real.sin (ang / 2) ≠ 0 ∧
      m = Motor.mkScrew hw Libm.real isa ang d l := by
  have hs : 0 < m.sPart := by
    refine Real.sqrt_pos.2 (lt_of_le_of_ne (dot3_self_nonneg _) fun e => h ?_)
    obtain ⟨h1, h2, h3⟩ := dot3_self_eq_zero e.symm
    exact V4.ext rfl h1 h2 h3
  have hu := m.bivector.axis_unit (Real.sqrt_pos.1 hs)
  obtain ⟨n1, -⟩ := m.norm_parts hm hs
  obtain ⟨-, c2⟩ := cos_arg_unit n1
  refine ⟨m.bivector.axis, -(2 * Complex.arg ⟨m.scalar, m.sPart⟩),
    2 * (m.scalar * m.tPart - m.sPart * m.e0123), m.axis_wf, hu, ?_, ?_⟩
  · rw [show -(2 * Complex.arg ⟨m.scalar, m.sPart⟩) / 2 = -Complex.arg ⟨m.scalar, m.sPart⟩ by ring,
      Real.sin_neg, c2]
    exact neg_ne_zero.2 hs.ne'
  · rw [Motor.mkScrew_unit hx isa _ _ _ m.axis_wf hu]
    conv_lhs => rw [hm.eq_expUV hs]
    congr 1 <;> ring

include hx in
/-- C80: the rotation about the axis and the translation along it may be done in either order. -/
theorem C80_either_order (ang d : ℝ) (l : Line ℝ) (wl : l.WF) (h : l.Unit) :
    (Motor.mkScrew hw Libm.real isa ang 0 l).mulMotor (Motor.mkScrew hw Libm.real isa 0 d l) =
      Motor.mkScrew hw Libm.real isa ang d l ∧
    (Motor.mkScrew hw Libm.real isa 0 d l).mulMotor (Motor.mkScrew hw Libm.real isa ang 0 l) =
      Motor.mkScrew hw Libm.real isa ang d l := by
  simp only [Motor.mkScrew_unit hx isa _ _ _ wl h, Line.expUV_add h]
  constructor <;> congr 1 <;> ring

/-- C80: a normalised motor without rotation part is a translation. -/
theorem C80_translation {m : Motor ℝ} (hm : m.Normed) (h : m.bivector.p1 = setzero_ps) (v : Vec3 ℝ) :
    m.onPoint (Point.at v) = Point.at (v - (2 * m.scalar) • m.bivector.mom) := by
  have h1 : m.p1.l1 = 0 := congrArg V4.l1 h
  have h2 : m.p1.l2 = 0 := congrArg V4.l2 h
  have h3 : m.p1.l3 = 0 := congrArg V4.l3 h
  have hq := congrArg MV.e0123 hm
  have hn := Motor.sqNorm_eq_one hm
  simp only [pga, h1, h2, h3] at hq
  simp only [Motor.sqNorm, kln, sse, h1, h2, h3, mul_zero, add_zero] at hn
  obtain ⟨⟨b0, b1, b2, b3⟩, ⟨c0, c1, c2, c3⟩⟩ := m
  dsimp only at h1 h2 h3 hq hn
  subst h1 h2 h3
  rw [← Point.mv_inj, C15_motor_on_point]
  apply MV.ext <;>
    simp only [pga, sse, Motor.bivector, Line.mom, kln, Point.at, sub_x, sub_y, sub_z,
      smul_x, smul_y, smul_z] <;> try ring1
  · linear_combination (-v.z) * hn
  · linear_combination v.y * hn
  · linear_combination (-v.x) * hn
  · linear_combination hn

/-- A screw motion: a rotation about the line through `A` along `k` and a displacement along it. -/
noncomputable def _root_.Euclid.screw (A k : Vec3 ℝ) (ang d : ℝ) (v : Vec3 ℝ) : Vec3 ℝ :=
  A + rodrigues k ang (v - A) + d • k

/-- The point of a unit line nearest to the origin. -/
theorem Line.Unit.has_foot {l : Line ℝ} (h : l.Unit) : l.Has (cross l.dir l.mom) := by
  have h1 := h.dir
  have h2 := h.mom
  simp only [dot3] at h1 h2
  simp only [Line.Has]
  apply Vec3.ext <;> simp only [cross, Line.dir, Line.mom, kln, sse]
  · linear_combination l.p2.l1 * h1 - l.p1.l1 * h2
  · linear_combination l.p2.l2 * h1 - l.p1.l2 * h2
  · linear_combination l.p2.l3 * h1 - l.p1.l3 * h2

include hx isa in
/-- C80 (Chasles' theorem): a map of space keeps distances and orientation exactly if it is a
translation or a screw motion. -/
theorem C80_chasles (f : Vec3 ℝ → Vec3 ℝ) :
    Rigid f ↔ (∃ t, ∀ v, f v = v + t) ∨
      ∃ (A k : Vec3 ℝ) (ang d : ℝ), dot k k = 1 ∧ ∀ v, f v = screw A k ang d v := by
  constructor
  · intro hf
    obtain ⟨m, hm, ha⟩ := C76_surjective hf
    have pos : ∀ v, f v = (m.onPoint (Point.at v)).pos := fun v => by rw [ha, Point.at_pos]
    by_cases h : m.bivector.p1 = setzero_ps
    · refine Or.inl ⟨-((2 * m.scalar) • m.bivector.mom), fun v => ?_⟩
      rw [pos, C80_translation hm h, Point.at_pos]
      apply Vec3.ext <;> simp [sub_eq_add_neg]
    · obtain ⟨l, ang, d, wl, hl, -, rfl⟩ := C80_screw hx isa hm h
      refine Or.inr ⟨cross l.dir l.mom, l.dir, ang, d, ?_, fun v => ?_⟩
      · have := hl.dir
        simpa only [dot3, dot, Line.dir, kln, sse] using this
      · rw [pos, C32_action hx isa ang d l wl hl _ v hl.has_foot, Point.at_pos]; rfl
  · rintro (⟨t, ht⟩ | ⟨A, k, ang, d, hk, hs⟩)
    · constructor
      · intro a b
        rw [ht, ht]; simp only [sqDist, dot, sub_x, sub_y, sub_z, add_x, add_y, add_z]; ring
      · intro a b c e
        rw [ht, ht, ht, ht]
        simp only [vol, dot, cross, sub_x, sub_y, sub_z, add_x, add_y, add_z]; ring
    · -- the line through `A` along `k`
      let l : Line ℝ := ⟨⟨0, k.x, k.y, k.z⟩, ⟨0, (cross A k).x, (cross A k).y, (cross A k).z⟩⟩
      have hu : l.Unit := by
        refine ⟨by simpa only [l, dot3, dot] using hk, ?_⟩
        simp only [l, dot3, cross]; ring
      have hA : l.Has A := by
        apply Vec3.ext <;> simp [l, cross, Line.dir, Line.mom, kln, sse]
      refine (C76_rigid_iff f).2 ⟨Motor.mkScrew hw Libm.real isa ang d l,
        C32_normalised hx isa ang d l ⟨rfl, rfl⟩ hu, fun v => ?_⟩
      rw [C32_action hx isa ang d l ⟨rfl, rfl⟩ hu A v hA, hs]
      congr 1

include hx in
/-- C80: the axis is unique.  If two screw motors with a proper rotation are the same motion, their
lines are equal up to orientation. -/
theorem C80_axis_unique {l l' : Line ℝ} (wl : l.WF) (wl' : l'.WF) (hl : l.Unit) (hl' : l'.Unit)
    {ang d ang' d' : ℝ} (hs : Real.sin (ang / 2) ≠ 0) (hs' : Real.sin (ang' / 2) ≠ 0)
    (h : ∀ a, (Motor.mkScrew hw Libm.real isa ang d l).onPoint (Point.at a) =
      (Motor.mkScrew hw Libm.real isa ang' d' l').onPoint (Point.at a)) :
    l = l' ∨ l = l'.smul (-1) := by
  have hm := (C76_injective (C32_normalised hx isa ang d l wl hl)
    (C32_normalised hx isa ang' d' l' wl' hl')).1 h
  rw [Motor.mkScrew_unit hx isa _ _ _ wl hl, Motor.mkScrew_unit hx isa _ _ _ wl' hl',
    Line.expUV_eq, Line.expUV_eq] at hm
  have es : Real.sin (-ang / 2) = -Real.sin (ang / 2) := by rw [neg_div, Real.sin_neg]
  have es' : Real.sin (-ang' / 2) = -Real.sin (ang' / 2) := by rw [neg_div, Real.sin_neg]
  rw [es, es'] at hm
  obtain ⟨⟨l0, n1, n2, n3⟩, ⟨k0, m1, m2, m3⟩⟩ := l
  obtain ⟨⟨l0', n1', n2', n3'⟩, ⟨k0', m1', m2', m3'⟩⟩ := l'
  obtain ⟨w1, w2⟩ := wl
  obtain ⟨w1', w2'⟩ := wl'
  dsimp only at w1 w2 w1' w2'
  subst w1 w2 w1' w2'
  have d1 := hl.dir
  have d2 := hl.mom
  have d1' := hl'.dir
  have d2' := hl'.mom
  simp only [dot3] at d1 d2 d1' d2'
  generalize Real.sin (ang / 2) = s at *
  generalize Real.sin (ang' / 2) = s' at *
  generalize Real.cos (-ang / 2) = c at *
  generalize Real.cos (-ang' / 2) = c' at *
  -- the rotation part gives the direction up to sign, the rest the moment
  have key : ∀ e : ℝ, e * e = 1 → s * n1 = e * (s' * n1') → s * n2 = e * (s' * n2') →
      s * n3 = e * (s' * n3') →
      -(s * m1) - d / 2 * c * n1 = e * (-(s' * m1') - d' / 2 * c' * n1') →
      -(s * m2) - d / 2 * c * n2 = e * (-(s' * m2') - d' / 2 * c' * n2') →
      -(s * m3) - d / 2 * c * n3 = e * (-(s' * m3') - d' / 2 * c' * n3') →
      (⟨⟨0, n1, n2, n3⟩, ⟨0, m1, m2, m3⟩⟩ : Line ℝ) = ⟨⟨0, n1', n2', n3'⟩, ⟨0, m1', m2', m3'⟩⟩ ∨
      (⟨⟨0, n1, n2, n3⟩, ⟨0, m1, m2, m3⟩⟩ : Line ℝ) =
        (⟨⟨0, n1', n2', n3'⟩, ⟨0, m1', m2', m3'⟩⟩ : Line ℝ).smul (-1) := by
    intro e he a1 a2 a3 b1 b2 b3
    have hss : s * s = s' * s' := by
      linear_combination (-(s * s)) * d1 + (s' * s') * d1' * (e * e) + (s * n1 + e * (s' * n1')) * a1 +
        (s * n2 + e * (s' * n2')) * a2 + (s * n3 + e * (s' * n3')) * a3 + (s' * s') * he
    -- `s = σ e s'` with a sign `σ`
    have hsg : s = e * s' ∨ s = -(e * s') := by
      have : (s - e * s') * (s + e * s') = 0 := by linear_combination hss - s' * s' * he
      rcases mul_eq_zero.1 this with h | h
      · left; linarith
      · right; linarith
    have hsum : d / 2 * c * s = d' / 2 * c' * s' := by
      linear_combination (-(d / 2 * c * s)) * d1 + (d' / 2 * c' * s') * d1' - s * s * d2 +
        s' * s' * d2' +
        (-(s * n1)) * b1 - (s * n2) * b2 - (s * n3) * b3 +
        (-e * (-(s' * m1') - d' / 2 * c' * n1')) * a1 + (-e * (-(s' * m2') - d' / 2 * c' * n2')) * a2 +
        (-e * (-(s' * m3') - d' / 2 * c' * n3')) * a3 -
        (s' * n1' * (-(s' * m1') - d' / 2 * c' * n1') + s' * n2' * (-(s' * m2') - d' / 2 * c' * n2') +
          s' * n3' * (-(s' * m3') - d' / 2 * c' * n3')) * he
    have cancel : ∀ {x y : ℝ}, s * x = s * y → x = y := fun h => mul_left_cancel₀ hs h
    have cancel2 : ∀ {x y : ℝ}, s * (s * x) = s * (s * y) → x = y := fun h => cancel (cancel h)
    rcases hsg with hsg | hsg
    · left
      have e1 : n1 = n1' := cancel (by rw [a1, hsg]; ring)
      have e2 : n2 = n2' := cancel (by rw [a2, hsg]; ring)
      have e3 : n3 = n3' := cancel (by rw [a3, hsg]; ring)
      subst e1 e2 e3
      have f1 : m1 = m1' := cancel2 (by
        linear_combination (-s) * b1 - n1 * hsum + (-(s * m1') + e * (d' / 2 * c' * n1)) * hsg +
          (d' / 2 * c' * n1 * s') * he)
      have f2 : m2 = m2' := cancel2 (by
        linear_combination (-s) * b2 - n2 * hsum + (-(s * m2') + e * (d' / 2 * c' * n2)) * hsg +
          (d' / 2 * c' * n2 * s') * he)
      have f3 : m3 = m3' := cancel2 (by
        linear_combination (-s) * b3 - n3 * hsum + (-(s * m3') + e * (d' / 2 * c' * n3)) * hsg +
          (d' / 2 * c' * n3 * s') * he)
      subst f1 f2 f3
      rfl
    · right
      have e1 : n1 = -n1' := cancel (by rw [a1, hsg]; ring)
      have e2 : n2 = -n2' := cancel (by rw [a2, hsg]; ring)
      have e3 : n3 = -n3' := cancel (by rw [a3, hsg]; ring)
      subst e1 e2 e3
      have f1 : m1 = -m1' := cancel2 (by
        linear_combination (-s) * b1 + n1' * hsum + (s * m1' + e * (d' / 2 * c' * n1')) * hsg +
          (-(d' / 2 * c' * n1' * s')) * he)
      have f2 : m2 = -m2' := cancel2 (by
        linear_combination (-s) * b2 + n2' * hsum + (s * m2' + e * (d' / 2 * c' * n2')) * hsg +
          (-(d' / 2 * c' * n2' * s')) * he)
      have f3 : m3 = -m3' := cancel2 (by
        linear_combination (-s) * b3 + n3' * hsum + (s * m3' + e * (d' / 2 * c' * n3')) * hsg +
          (-(d' / 2 * c' * n3' * s')) * he)
      subst f1 f2 f3
      simp [kln, sse]
  rcases hm with hm | hm
  · have a1 := congrArg MV.e23 hm
    have a2 := congrArg MV.e13 hm
    have a3 := congrArg MV.e12 hm
    have b1 := congrArg MV.e01 hm
    have b2 := congrArg MV.e02 hm
    have b3 := congrArg MV.e03 hm
    simp only [pga, Line.cis] at a1 a2 a3 b1 b2 b3
    exact key 1 (by norm_num) (by linarith) (by linarith) (by linarith) (by linarith) (by linarith)
      (by linarith)
  · have a1 := congrArg MV.e23 hm
    have a2 := congrArg MV.e13 hm
    have a3 := congrArg MV.e12 hm
    have b1 := congrArg MV.e01 hm
    have b2 := congrArg MV.e02 hm
    have b3 := congrArg MV.e03 hm
    simp only [pga, Line.cis] at a1 a2 a3 b1 b2 b3
    exact key (-1) (by norm_num) (by linarith) (by linarith) (by linarith) (by linarith) (by linarith)
      (by linarith)

/-- A screw motion which is neither a translation nor a rotation: a quarter turn about the vertical
line through `(1, 0, 0)` with displacement 3. -/
example : screw ⟨1, 0, 0⟩ ⟨0, 0, 1⟩ (Real.pi / 2) 3 ⟨2, 0, 0⟩ = ⟨1, 1, 3⟩ := by
  apply Vec3.ext <;> norm_num [screw, rodrigues, cross, dot]

/-- The motor `(4 + 3 e12)/5 + 2 e01` is normalised and has a rotation part. -/
example : (⟨⟨4 / 5, 0, 0, 3 / 5⟩, ⟨0, 2, 0, 0⟩⟩ : Motor ℝ).Normed ∧
    (⟨⟨4 / 5, 0, 0, 3 / 5⟩, ⟨0, 2, 0, 0⟩⟩ : Motor ℝ).bivector.p1 ≠ setzero_ps := by
  constructor
  · rw [Motor.Normed]; apply MV.ext <;> simp only [pga, sse] <;> norm_num
  · intro h
    have := congrArg V4.l3 h
    simp [Motor.bivector, kln, sse] at this

/-! ### C83 -/

include hx in
/-- C83: the exponential of a dual number times a unit line is the screw motor of the line, turning by
`-2 p` and displacing by `2 q`: the two parts of the dual number are half the amounts. -/
theorem C83_weighted_line (p q : ℝ) (l : Line ℝ) (wl : l.WF) (h : l.Unit) :
    ((Dual.mk p q).mulLine l).exp hw Libm.real isa =
      Motor.mkScrew hw Libm.real isa (-(2 * p)) (2 * q) l := by
  have e : (Dual.mk p q).mulLine l = l.scr p q := by
    obtain ⟨w1, w2⟩ := wl
    simp only [Line.scr, kln, sse, w1, w2, Line.mk.injEq, V4.mk.injEq]
    refine ⟨⟨?_, ?_, ?_, ?_⟩, ?_, ?_, ?_, ?_⟩ <;> first | trivial | ring1
  rw [e, exp_scr hx isa h, Motor.mkScrew_unit hx isa _ _ l wl h]
  congr 1 <;> ring

include hx in
/-- The motion of the weighted line: it turns points by `-2p` about the line and moves them by `2q`
along it. -/
theorem C83_action (p q : ℝ) (l : Line ℝ) (wl : l.WF) (h : l.Unit) (A v : Vec3 ℝ) (hA : l.Has A) :
    (((Dual.mk p q).mulLine l).exp hw Libm.real isa).onPoint (Point.at v) =
      Point.at (screw A l.dir (-(2 * p)) (2 * q) v) := by
  rw [C83_weighted_line hx isa p q l wl h, C32_action hx isa _ _ l wl h A v hA]; rfl

include hx in
/-- C83 as written, "rotation and translation given by half the scalar and pseudoscalar parts", is
wrong: the weight `e0123` on the z axis moves points by 2, not by 1/2, and the weight `pi/2` turns
points by half a turn, not by an eighth. -/
theorem C83_fails :
    (((Dual.mk 0 1).mulLine (Line.through0 ⟨0, 0, 1⟩)).exp hw Libm.real isa).onPoint
      (Point.at ⟨0, 0, 0⟩) = Point.at ⟨0, 0, 2⟩ ∧
    (((Dual.mk (Real.pi / 2) 0).mulLine (Line.through0 ⟨0, 0, 1⟩)).exp hw Libm.real isa).onPoint
      (Point.at ⟨1, 0, 0⟩) = Point.at ⟨-1, 0, 0⟩ ∧
    (2 : ℝ) ≠ 1 / 2 ∧ (∀ a : ℝ, a = Real.pi / 4 ∨ a = -(Real.pi / 4) →
      rodrigues ⟨0, 0, 1⟩ a ⟨1, 0, 0⟩ ≠ ⟨-1, 0, 0⟩) := by
  have hn : (Line.through0 ⟨0, 0, 1⟩).Unit :=
    ⟨by simp [Line.through0, dot3], by simp [Line.through0, dot3]⟩
  have hA : (Line.through0 ⟨0, 0, 1⟩).Has 0 := by
    apply Vec3.ext <;> simp [cross, Line.dir, Line.mom, kln, sse, Line.through0]
  refine ⟨?_, ?_, by norm_num, ?_⟩
  · rw [C83_action hx isa _ _ _ ⟨rfl, rfl⟩ hn 0 _ hA]
    congr 1
    apply Vec3.ext <;> simp [screw, rodrigues, cross, dot, Line.dir, kln, sse, Line.through0]
  · rw [C83_action hx isa _ _ _ ⟨rfl, rfl⟩ hn 0 _ hA]
    have e : -(2 * (Real.pi / 2)) = -Real.pi := by ring
    congr 1
    apply Vec3.ext <;> simp [screw, rodrigues, cross, dot, Line.dir, kln, sse, Line.through0, e]
  · intro a ha he
    have hc : 0 < Real.cos a := by
      rcases ha with rfl | rfl
      · rw [Real.cos_pi_div_four]; positivity
      · rw [Real.cos_neg, Real.cos_pi_div_four]; positivity
    have := congrArg Vec3.x he
    simp [rodrigues, cross, dot] at this
    linarith

/-! ### C82 -/

/-- `m * m * ... * m` with `n` factors. -/
def Motor.npow (m : Motor ℝ) : ℕ → Motor ℝ
  | 0 => ⟨set_ss 1, setzero_ps⟩
  | n + 1 => (m.npow n).mulMotor m

theorem Motor.npow_mv (m : Motor ℝ) (n : ℕ) : (m.npow n).mv = m.mv ^ n := by
  induction n with
  | zero => rw [Motor.npow, pow_zero]; mv_ring
  | succ n ih => rw [Motor.npow, C06_motor_mul_motor, ih, pow_succ]

theorem Motor.npow_one (m : Motor ℝ) : m.npow 1 = m := by
  rw [← Motor.mv_inj, Motor.npow_mv, pow_one]

include hx in
/-- C82: `exp(n * l)` is the `n`th power of `exp(l)`. -/
theorem C82_exp_smul (l : Line ℝ) (wl : l.WF) (n : ℕ) :
    (l.smul n).exp hw Libm.real isa = (l.exp hw Libm.real isa).npow n := by
  induction n with
  | zero =>
    have h0 : (l.smul ((0 : ℕ) : ℝ)).p1 = setzero_ps := by simp [kln, sse]
    have h1 : (l.smul ((0 : ℕ) : ℝ)).p2 = setzero_ps := by simp [kln, sse]
    rw [exp_ideal isa _ h0, h1]; rfl
  | succ n ih =>
    have e : l.smul 1 = l := by
      simp only [kln, sse, mul_one]
    rw [Motor.npow, ← ih, Nat.cast_succ, C35_add hx isa l wl, e]

/-- The normalised motors for which `exp(log(m)) = m` (C36): a rotation part and a scalar part of at
least `1e-6`, or a translation with scalar part 1, or a scalar part below `1e-6` and a negative
`e0123`. -/
def Motor.LogGood (m : Motor ℝ) : Prop :=
  (0 < m.sPart ∧ (1 / 1000000 ≤ |m.scalar| ∨ m.e0123 < 0)) ∨
    (m.bivector.p1 = setzero_ps ∧ m.scalar = 1)

include hx in
theorem Motor.exp_log {m : Motor ℝ} (hm : m.Normed) (h : m.LogGood) :
    (m.log hw Libm.real isa).exp hw Libm.real isa = m := by
  rcases h with ⟨h, h' | h'⟩ | ⟨h, h'⟩
  · exact C36_generic hx isa m hm h h'
  · rcases le_or_gt (1 / 1000000) |m.scalar| with hp | hp
    · exact C36_generic hx isa m hm h hp
    · exact C36_half_turn_pos hx isa m hm h hp h'
  · exact C36_translation isa m h h'

include hx in
/-- C82: `exp(n * log(m))` is `m * ... * m`. -/
theorem C82_motor_pow_partial {m : Motor ℝ} (hm : m.Normed) (h : m.LogGood) (n : ℕ) :
    ((m.log hw Libm.real isa).smul n).exp hw Libm.real isa = m.npow n := by
  rw [C82_exp_smul hx isa _ (C49_motor_log hw isa m hm), m.exp_log hx isa hm h]

include hx in
/-- C82: `exp(-n * log(m))` is `~m * ... * ~m`. -/
theorem C82_motor_pow_neg_partial {m : Motor ℝ} (hm : m.Normed) (h : m.LogGood) (n : ℕ) :
    ((m.log hw Libm.real isa).smul (-(n : ℝ))).exp hw Libm.real isa = m.rev.npow n := by
  have wl := C49_motor_log hw isa m hm
  have e : (m.log hw Libm.real isa).smul (-(n : ℝ)) =
      ((m.log hw Libm.real isa).smul n).smul (-1) := by
    simp only [kln, sse, Line.mk.injEq, V4.mk.injEq]
    refine ⟨⟨?_, ?_, ?_, ?_⟩, ?_, ?_, ?_, ?_⟩ <;> ring
  rw [e, C35_reverse hx isa _ (wl.smul n), C82_motor_pow_partial hx isa hm h, ← Motor.mv_inj,
    Motor.mv_rev, Motor.npow_mv, Motor.npow_mv, Motor.mv_rev]
  clear e
  induction n with
  | zero => simp [PGA.MV.rev_one]
  | succ n ih => rw [pow_succ, PGA.MV.rev_mul, ih, pow_succ']

include hx in
/-- C82: `exp(log(m) / n)` is an `n`th root of `m`. -/
theorem C82_motor_root_partial {m : Motor ℝ} (hm : m.Normed) (h : m.LogGood) {n : ℕ} (hn : n ≠ 0) :
    (((m.log hw Libm.real isa).sdiv hw n).exp hw Libm.real isa).npow n = m := by
  have wl := C49_motor_log hw isa m hm
  have hn' : (n : ℝ) ≠ 0 := Nat.cast_ne_zero.2 hn
  have e : (m.log hw Libm.real isa).sdiv hw n = (m.log hw Libm.real isa).smul (n : ℝ)⁻¹ := by
    have : (m.log hw Libm.real isa).sdiv hw n = (m.log hw Libm.real isa).smul (rcp1 hw n) := rfl
    rw [this, rcp1_eq hx hn']
  rw [e, ← C82_exp_smul hx isa _ (wl.smul _)]
  have e2 : ((m.log hw Libm.real isa).smul (n : ℝ)⁻¹).smul n = m.log hw Libm.real isa := by
    generalize m.log hw Libm.real isa = l
    obtain ⟨⟨a0, a1, a2, a3⟩, ⟨b0, b1, b2, b3⟩⟩ := l
    simp only [kln, sse, Line.mk.injEq, V4.mk.injEq]
    refine ⟨⟨?_, ?_, ?_, ?_⟩, ?_, ?_, ?_, ?_⟩ <;> field_simp
  rw [e2, m.exp_log hx isa hm h]

include hx in
/-- C82 is violated at half turns: all powers computed through the logarithm are the identity, and so
is every root. -/
theorem C82_half_turn_fails (m : Motor ℝ) (hm : m.Normed) (h : 0 < m.sPart)
    (hp : |m.scalar| < 1 / 1000000) (hv : m.e0123 = 0) (t : ℝ) :
    (((m.log hw Libm.real isa).smul t).exp hw Libm.real isa).mv = 1 ∧ m.mv ≠ 1 ∧ m.mv ≠ -1 := by
  obtain ⟨h1, -, h2, h3⟩ := C36_half_turn_fails hx isa m hm h hp hv
  refine ⟨?_, h2, h3⟩
  have e : (⟨setzero_ps, setzero_ps⟩ : Line ℝ).smul t = ⟨setzero_ps, setzero_ps⟩ := by
    simp [kln, sse]
  rw [h1, e, C35_zero isa]

/-- `r * r * ... * r` with `n + 1` factors. -/
def Rotor.npow1 (r : Rotor ℝ) : ℕ → Rotor ℝ
  | 0 => r
  | n + 1 => (r.npow1 n).mulRotor r

theorem Rotor.npow1_mv (r : Rotor ℝ) (n : ℕ) : (r.npow1 n).mv = r.mv ^ (n + 1) := by
  induction n with
  | zero => rw [Rotor.npow1, zero_add, pow_one]
  | succ n ih => rw [Rotor.npow1, C03_rotor_mul_rotor, ih, ← pow_succ]

include hx in
/-- C82: `exp((n+1) * b)` is the power of `exp(b)`, for a non-zero branch. -/
theorem C82_branch_exp_smul (b : Branch ℝ) (wb : b.WF) (h : 0 < dot3 b.p1 b.p1) (n : ℕ) :
    (b.smul ((n : ℝ) + 1)).exp hw Libm.real isa = (b.exp hw Libm.real isa).npow1 n := by
  have e1 : b.smul 1 = b := by simp only [kln, sse, mul_one]
  induction n with
  | zero => rw [Nat.cast_zero, zero_add, e1, Rotor.npow1]
  | succ n ih =>
    have hp : (0 : ℝ) < (n : ℝ) + 1 := by positivity
    rw [Rotor.npow1, ← ih, Nat.cast_succ, C34_add hx isa b wb h _ _ hp.ne' one_ne_zero (by linarith), e1]

include hx in
/-- C82: `exp((n+1) * log(r))` is `r * ... * r` for every unit rotor other than `1` and `-1`. -/
theorem C82_rotor_pow (r : Rotor ℝ) (h : r.sqNorm = 1) (h1 : -1 < r.scalar) (h2 : r.scalar < 1) (n : ℕ) :
    ((r.log hw Libm.real isa).smul ((n : ℝ) + 1)).exp hw Libm.real isa = r.npow1 n := by
  have hl := Rotor.log_eq hx isa r h h1 h2
  have wb : (r.log hw Libm.real isa).WF := by rw [hl]; simp [Branch.WF, kln, sse]
  have hd : dot3 r.p1 r.p1 = 1 - r.scalar ^ 2 := by
    simp only [Rotor.sqNorm, dot3, kln, sse] at h ⊢; linear_combination h
  have hpos : 0 < dot3 r.p1 r.p1 := by rw [hd]; nlinarith
  have ha : 0 < Real.arccos r.scalar := Real.arccos_pos.2 h2
  have hb : 0 < dot3 (r.log hw Libm.real isa).p1 (r.log hw Libm.real isa).p1 := by
    have e : dot3 (r.log hw Libm.real isa).p1 (r.log hw Libm.real isa).p1 =
        (Real.arccos r.scalar / Real.sqrt (dot3 r.p1 r.p1)) ^ 2 * dot3 r.p1 r.p1 := by
      rw [hl]
      generalize Real.arccos r.scalar / Real.sqrt (dot3 r.p1 r.p1) = k
      simp only [dot3, kln, sse]; ring
    rw [e]
    have : 0 < Real.arccos r.scalar / Real.sqrt (dot3 r.p1 r.p1) := div_pos ha (Real.sqrt_pos.2 hpos)
    positivity
  rw [C82_branch_exp_smul hx isa _ wb hb, C34_exp_log hx isa r h h1 h2]

/-- `t * ... * t` with `n` factors. -/
def Translator.npow (t : Translator ℝ) : ℕ → Translator ℝ
  | 0 => ⟨setzero_ps⟩
  | n + 1 => (t.npow n).mulTranslator t

/-- C82: for translators the power through the logarithm is right without exception, and so is the
root. -/
theorem C82_translator_pow (t : Translator ℝ) (n : ℕ) :
    (t.log.smul n).exp = t.npow n ∧
    (n ≠ 0 → ((t.log.smul (n : ℝ)⁻¹).exp).npow n = t) := by
  have key : ∀ (t : Translator ℝ) (n : ℕ), (t.log.smul n).exp = t.npow n := by
    intro t n
    induction n with
    | zero => simp [kln, sse, Translator.npow]
    | succ n ih =>
      rw [Translator.npow, ← ih]
      simp only [kln, sse, Translator.mk.injEq, V4.mk.injEq, Nat.cast_succ]
      refine ⟨?_, ?_, ?_, ?_⟩ <;> ring
  refine ⟨key t n, fun hn => ?_⟩
  have hn' : (n : ℝ) ≠ 0 := Nat.cast_ne_zero.2 hn
  rw [← key]
  obtain ⟨⟨t0, t1, t2, t3⟩⟩ := t
  simp only [kln, sse, Translator.mk.injEq, V4.mk.injEq]
  refine ⟨?_, ?_, ?_, ?_⟩ <;> field_simp

/-- C82: scaling a motor does not change the motion: the image of a point is the same point with its
weight scaled by the square of the factor. -/
theorem C82_scale (m : Motor ℝ) (k : ℝ) (p : Point ℝ) :
    (m.smul k).onPoint p = (m.onPoint p).smul (k * k) := by
  rw [← Point.mv_inj, C15_motor_on_point]
  have e : ((m.onPoint p).smul (k * k)).mv = (k * k) • (m.onPoint p).mv := by mv_ring
  rw [e, C15_motor_on_point]
  have e2 : (m.smul k).mv = k • m.mv := by mv_ring
  rw [e2, PGA.MV.rev_smul, smul_mul_assoc, mul_smul_comm, smul_mul_assoc, smul_smul]

/-- The cube of the motor `(4 + 3 e12)/5` is `(-44 + 117 e12)/125`. -/
example : ((⟨⟨4 / 5, 0, 0, 3 / 5⟩, ⟨0, 0, 0, 0⟩⟩ : Motor ℝ).npow 3).mv =
    (⟨⟨-44 / 125, 0, 0, 117 / 125⟩, ⟨0, 0, 0, 0⟩⟩ : Motor ℝ).mv := by
  rw [Motor.npow_mv]
  apply MV.ext <;> simp only [pow_succ, pow_zero, one_mul] <;> simp only [pga, sse] <;> norm_num

/-- That motor is in the domain of the power law. -/
example : (⟨⟨4 / 5, 0, 0, 3 / 5⟩, ⟨0, 0, 0, 0⟩⟩ : Motor ℝ).LogGood := by
  refine Or.inl ⟨Real.sqrt_pos.2 ?_, Or.inl ?_⟩
  · simp [Motor.bivector, dot3, kln, sse]
  · show _ ≤ |(4 / 5 : ℝ)|
    rw [abs_of_pos] <;> norm_num

end Klein
