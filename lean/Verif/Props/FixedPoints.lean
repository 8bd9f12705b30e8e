import Verif.Props.Transform
import Verif.Props.DoubleCover

/-!
# C103: fixed points, and factorisation into reflections

The table of docs/overview.md (lines 19-31): a plane is the set of fixed points of its reflection, a line
the set of fixed points of a rotation, a point the single fixed point of a roto-reflection; a rotor is the
product of two intersecting planes and a translator the product of two parallel planes.  C84 has the
converse directions: what the products of given planes do.
-/

set_option linter.unusedSimpArgs false
set_option linter.unusedSectionVars false

namespace Klein

open PGA PGA.MV Euclid

/-! ### Fixed points -/

section Field
variable {K : Type} [Field K] [CharZero K]

/-- C103: the points fixed by the reflection in a unit plane are the points of the plane. -/
theorem C103_plane_fixed (p : Plane K) (h : p.sqNorm = 1) (v : Vec3 K) :
    p.onPoint (Point.at v) = Point.at v ↔ p.Has v := by
  constructor
  · intro e
    rw [C12_mirror p h] at e
    have ep := congrArg Point.pos e
    simp only [Point.at_pos, Vec3.ext_iff, sub_x, sub_y, sub_z, smul_x, smul_y, smul_z] at ep
    obtain ⟨ex, ey, ez⟩ := ep
    have h' : dot p.normal p.normal = 1 := h
    simp only [dot] at h'
    have : 2 * (dot p.normal v + p.d) = 0 := by
      linear_combination p.normal.x * (-ex) + p.normal.y * (-ey) + p.normal.z * (-ez)
        - 2 * (dot p.normal v + p.d) * h'
    exact (mul_eq_zero.1 this).resolve_left two_ne_zero
  · intro e
    rw [C12_fixes_plane p v e, h]
    apply Point.ext_pos
    · simp
    · rw [Point.smul_pos]; apply Vec3.ext <;> simp

/-- A motor's bivector as a line: the axis of a rotation, up to scale. -/
theorem Motor.comm_point (m : Motor K) (v : Vec3 K) :
    m.mv * (Point.at v).mv = (Point.at v).mv * m.mv ↔
      m.e0123 = 0 ∧ (Line.mk m.p1 m.p2).Has v := by
  obtain ⟨⟨a, b1, b2, b3⟩, ⟨h, c1, c2, c3⟩⟩ := m
  obtain ⟨x, y, z⟩ := v
  have two : (2 : K) ≠ 0 := two_ne_zero
  constructor
  · intro e
    have e0 := congrArg MV.e0 e
    have e1 := congrArg MV.e012 e
    have e2 := congrArg MV.e013 e
    have e3 := congrArg MV.e023 e
    simp only [pga, sse, kln, Point.at] at e0 e1 e2 e3
    simp only [Line.Has, cross, Line.dir, Line.mom, kln, Vec3.mk.injEq]
    refine ⟨?_, ?_, ?_, ?_⟩ <;> apply mul_left_cancel₀ two
    · linear_combination -e0
    · linear_combination -e3
    · linear_combination e2
    · linear_combination -e1
  · rintro ⟨e0, e⟩
    simp only [Line.Has, cross, Line.dir, Line.mom, kln, Vec3.mk.injEq] at e e0
    obtain ⟨e1, e2, e3⟩ := e
    subst e0 e1 e2 e3
    apply MV.ext <;> simp only [pga, sse, kln, Point.at] <;> ring

/-- C103: the points fixed by a normalised motor: none if it has a pseudoscalar part, otherwise the points
of the line that is its bivector part. -/
theorem C103_motor_fixed (m : Motor K) (hm : m.Normed) (v : Vec3 K) :
    m.onPoint (Point.at v) = Point.at v ↔ m.e0123 = 0 ∧ (Line.mk m.p1 m.p2).Has v := by
  rw [← Motor.comm_point, ← Point.mv_inj, C15_motor_on_point]
  constructor
  · intro e
    conv_rhs => rw [← e]
    rw [mul_assoc, hm.left, mul_one]
  · intro e
    rw [e, mul_assoc, hm, mul_one]

/-- A line as the motor of the half turn about it: the bivector without scalar and pseudoscalar. -/
def Line.halfTurn (l : Line K) : Motor K := Motor.mk8 0 l.e23 l.e31 l.e12 l.e01 l.e02 l.e03 0

theorem Line.halfTurn_normed (l : Line K) (h : dot l.dir l.dir = 1) (hs : l.Simple) : l.halfTurn.Normed := by
  simp only [Line.Simple, dot, Line.dir, Line.mom, kln] at h hs
  rw [Motor.Normed]
  apply MV.ext <;> simp only [pga, sse, kln, Line.halfTurn] <;> try ring1
  · linear_combination h
  · linear_combination (-2) * hs

/-- C103: the points fixed by the half turn about a line are the points of the line. -/
theorem C103_line_fixed (l : Line K) (h : dot l.dir l.dir = 1) (hs : l.Simple) (v : Vec3 K) :
    l.halfTurn.onPoint (Point.at v) = Point.at v ↔ l.Has v := by
  rw [C103_motor_fixed _ (l.halfTurn_normed h hs)]
  exact ⟨fun e => e.2, fun e => ⟨rfl, e⟩⟩

/-- The half turn about the line through `A` with unit direction `n`. -/
theorem halfTurn_action (n A : Vec3 K) (hn : dot n n = 1) (v : Vec3 K) :
    (Line.mk6 (cross A n).x (cross A n).y (cross A n).z n.x n.y n.z).halfTurn.onPoint (Point.at v) =
      Point.at (A + A - v + (2 * dot n (v - A)) • n) := by
  simp only [dot] at hn
  apply Point.ext_pos
  · simp only [kln, sse, cond_true, cond_false, Line.halfTurn, cross, Point.at]
    linear_combination hn
  · apply Vec3.ext <;>
      simp only [kln, sse, cond_true, cond_false, Line.halfTurn, cross, dot, Point.at, Point.pos, add_x, add_y, add_z,
        sub_x, sub_y, sub_z, smul_x, smul_y, smul_z]
    · linear_combination (2 * A.x - v.x) * hn
    · linear_combination (2 * A.y - v.y) * hn
    · linear_combination (2 * A.z - v.z) * hn

/-- C103: the half turn about the line through `A` along the unit normal of `p`, followed by the
reflection in `p`, is the inversion in the point `A` of `p`, whatever the plane. -/
theorem C103_roto_reflection (p : Plane K) (h : p.sqNorm = 1) (A : Vec3 K) (hA : p.Has A) (v : Vec3 K) :
    p.onPoint ((Line.mk6 (cross A p.normal).x (cross A p.normal).y (cross A p.normal).z
      p.x p.y p.z).halfTurn.onPoint (Point.at v)) = Point.at (A + A - v) := by
  have h' : dot p.normal p.normal = 1 := h
  have hA' : dot p.normal A + p.d = 0 := hA
  have e := halfTurn_action p.normal A h' v
  change p.onPoint ((Line.mk6 (cross A p.normal).x (cross A p.normal).y (cross A p.normal).z
    p.normal.x p.normal.y p.normal.z).halfTurn.onPoint (Point.at v)) = _
  rw [e, C12_mirror p h]
  congr 1
  simp only [dot] at h' hA'
  apply Vec3.ext <;> simp only [dot, add_x, add_y, add_z, sub_x, sub_y, sub_z, smul_x, smul_y, smul_z]
  · linear_combination p.normal.x * (-2) * hA' + p.normal.x * (-4) * (p.normal.x * (v.x - A.x) + p.normal.y * (v.y - A.y) + p.normal.z * (v.z - A.z)) * h'
  · linear_combination p.normal.y * (-2) * hA' + p.normal.y * (-4) * (p.normal.x * (v.x - A.x) + p.normal.y * (v.y - A.y) + p.normal.z * (v.z - A.z)) * h'
  · linear_combination p.normal.z * (-2) * hA' + p.normal.z * (-4) * (p.normal.x * (v.x - A.x) + p.normal.y * (v.y - A.y) + p.normal.z * (v.z - A.z)) * h'

/-- The sandwich product of a Euclidean point with another is the inversion in it. -/
theorem Point.sandwich (A v : Vec3 K) :
    (Point.at A).mv * (Point.at v).mv * (Point.at A).mv = (-1 : K) • (Point.at (A + A - v)).mv := by
  apply MV.ext <;> simp only [pga, sse, kln, Point.at, add_x, add_y, add_z, sub_x, sub_y, sub_z] <;> ring

/-- C103: the inversion in a point has that point as its only fixed point. -/
theorem C103_point_fixed (A v : Vec3 K) : Point.at (A + A - v) = Point.at v ↔ v = A := by
  constructor
  · intro e
    have ep := congrArg Point.pos e
    simp only [Point.at_pos, Vec3.ext_iff, sub_x, sub_y, sub_z, add_x, add_y, add_z] at ep
    obtain ⟨e1, e2, e3⟩ := ep
    have two : (2 : K) ≠ 0 := two_ne_zero
    apply Vec3.ext <;> apply mul_left_cancel₀ two
    · linear_combination -e1
    · linear_combination -e2
    · linear_combination -e3
  · rintro rfl
    congr 1
    apply Vec3.ext <;> simp

end Field

/-! ### Factorisation into planes -/

section Real

/-- The condition for `m` to be the product of two planes, the second with normal `n` and offset `d`. -/
theorem Motor.two_planes (m : Motor ℝ) (hm : m.Normed) (h0 : m.e0123 = 0) (n : Vec3 ℝ) (d : ℝ)
    (hn : dot n n = 1) (hb : dot n (Line.mk m.p1 m.p2).dir = 0)
    (hc : cross (Line.mk m.p1 m.p2).mom n + d • (Line.mk m.p1 m.p2).dir = 0) :
    ∃ p : Plane ℝ, p.sqNorm = 1 ∧ p.mulPlane (Plane.mk4 n.x n.y n.z d) = m ∧
      p.normal = m.scalar • n + cross n (Line.mk m.p1 m.p2).dir ∧
      p.d = m.scalar * d + dot n (Line.mk m.p1 m.p2).mom := by
  set q := Plane.mk4 n.x n.y n.z d with hq
  have hqq : q.mv * q.mv = 1 := by
    rw [Plane.mv_sq, ← scalarMv_one]
    congr 1
  obtain ⟨p, hp⟩ : ∃ p : Plane ℝ, p = Plane.mk4
      (m.scalar * n.x + (cross n (Line.mk m.p1 m.p2).dir).x)
      (m.scalar * n.y + (cross n (Line.mk m.p1 m.p2).dir).y)
      (m.scalar * n.z + (cross n (Line.mk m.p1 m.p2).dir).z)
      (m.scalar * d + dot n (Line.mk m.p1 m.p2).mom) := ⟨_, rfl⟩
  have hpq : p.mv = m.mv * q.mv := by
    obtain ⟨⟨a, b1, b2, b3⟩, ⟨h, c1, c2, c3⟩⟩ := m
    simp only [Vec3.ext_iff, dot, cross, Line.dir, Line.mom, kln, sse, add_x, add_y, add_z, smul_x, smul_y,
      smul_z, zero_x, zero_y, zero_z] at h0 hb hc
    obtain ⟨hc1, hc2, hc3⟩ := hc
    subst h0
    rw [hp, hq]
    apply MV.ext <;> simp only [pga, sse, kln, cross, dot, Line.dir, Line.mom] <;> try ring1
    · linear_combination -hc3
    · linear_combination hc2
    · linear_combination -hc1
    · linear_combination -hb
  refine ⟨p, ?_, ?_, ?_, ?_⟩
  · have e1 : p.mv * p.mv = 1 := by
      have : p.mv = q.mv * PGA.MV.rev m.mv := by
        rw [← Plane.mv_rev p, hpq, PGA.MV.rev_mul, Plane.mv_rev]
      calc p.mv * p.mv = (q.mv * PGA.MV.rev m.mv) * (m.mv * q.mv) := by rw [← this, ← hpq]
        _ = q.mv * (PGA.MV.rev m.mv * m.mv) * q.mv := by simp only [mul_assoc]
        _ = 1 := by rw [hm.left, mul_one, hqq]
    rw [Plane.mv_sq] at e1
    have := congrArg MV.s e1
    simpa [scalarMv] using this
  · rw [← Motor.mv_inj, C01_plane_mul_plane, hpq, mul_assoc, hqq, mul_one]
  · rw [hp]; rfl
  · rw [hp]; rfl

theorem exists_unit_orthogonal (b : Vec3 ℝ) : ∃ n : Vec3 ℝ, dot n n = 1 ∧ dot n b = 0 := by
  by_cases h : b.x ^ 2 + b.y ^ 2 = 0
  · have hx : b.x = 0 := by nlinarith [sq_nonneg b.x, sq_nonneg b.y]
    exact ⟨⟨1, 0, 0⟩, by simp [dot], by simp [dot, hx]⟩
  · have h0 : 0 < b.x ^ 2 + b.y ^ 2 := lt_of_le_of_ne (by positivity) (Ne.symm h)
    have hs := Real.sq_sqrt h0.le
    have hs0 : Real.sqrt (b.x ^ 2 + b.y ^ 2) ≠ 0 := (Real.sqrt_pos.2 h0).ne'
    generalize Real.sqrt (b.x ^ 2 + b.y ^ 2) = s at *
    refine ⟨⟨-b.y / s, b.x / s, 0⟩, ?_, ?_⟩
    · simp only [dot]; field_simp; linarith
    · simp only [dot]; field_simp; ring

theorem exists_unit_parallel (c : Vec3 ℝ) : ∃ n : Vec3 ℝ, dot n n = 1 ∧ cross c n = 0 := by
  by_cases h : dot c c = 0
  · simp only [dot] at h
    have hx : c.x = 0 := by nlinarith [sq_nonneg c.x, sq_nonneg c.y, sq_nonneg c.z]
    have hy : c.y = 0 := by nlinarith [sq_nonneg c.x, sq_nonneg c.y, sq_nonneg c.z]
    have hz : c.z = 0 := by nlinarith [sq_nonneg c.x, sq_nonneg c.y, sq_nonneg c.z]
    exact ⟨⟨1, 0, 0⟩, by simp [dot], by simp [cross, Vec3.ext_iff, hx, hy, hz]⟩
  · have h0 : 0 < dot c c := lt_of_le_of_ne 
      (by simp only [dot]; nlinarith [sq_nonneg c.x, sq_nonneg c.y, sq_nonneg c.z]) (Ne.symm h)
    have hs := Real.sq_sqrt h0.le
    have hs0 : Real.sqrt (dot c c) ≠ 0 := (Real.sqrt_pos.2 h0).ne'
    generalize Real.sqrt (dot c c) = s at *
    simp only [dot] at hs
    refine ⟨⟨c.x / s, c.y / s, c.z / s⟩, ?_, ?_⟩
    · simp only [dot]; field_simp; linarith
    · apply Vec3.ext <;> simp only [cross, zero_x, zero_y, zero_z] <;> ring

/-- C103: the normalised motors that are products of two unit planes are those without pseudoscalar part,
that is, the rotations and the translations. -/
theorem C103_two_planes_iff (m : Motor ℝ) (hm : m.Normed) :
    (∃ p q : Plane ℝ, p.sqNorm = 1 ∧ q.sqNorm = 1 ∧ p.mulPlane q = m) ↔ m.e0123 = 0 := by
  constructor
  · rintro ⟨p, q, -, -, rfl⟩
    simp only [kln, sse, cond_true, cond_false]; ring
  · intro h0
    have hbc := Motor.bc_eq_zero m hm
    set b := (Line.mk m.p1 m.p2).dir with hb
    set c := (Line.mk m.p1 m.p2).mom with hc
    have hbc' : dot b c = 0 := by
      have h0' : m.p2.l0 = 0 := h0
      simp only [Motor.bc, h0', mul_zero, zero_sub] at hbc
      simp only [hb, hc, dot, Line.dir, Line.mom, kln]
      linarith
    obtain ⟨n, d, hn, hnb, hnc⟩ : ∃ (n : Vec3 ℝ) (d : ℝ), dot n n = 1 ∧ dot n b = 0 ∧ cross c n + d • b = 0 := by
      by_cases h : dot b b = 0
      · obtain ⟨n, hn, hcn⟩ := exists_unit_parallel c
        have hb0 : b = 0 := by
          simp only [dot] at h
          apply Vec3.ext <;> simp only [zero_x, zero_y, zero_z] <;>
            nlinarith [sq_nonneg b.x, sq_nonneg b.y, sq_nonneg b.z]
        refine ⟨n, 0, hn, ?_, ?_⟩
        · rw [hb0]; simp [dot]
        · rw [hcn, hb0]; apply Vec3.ext <;> simp
      · obtain ⟨n, hn, hnb⟩ := exists_unit_orthogonal b
        obtain ⟨k, hk⟩ : ∃ k, k * dot b b = dot n (cross b c) := ⟨dot n (cross b c) / dot b b, div_mul_cancel₀ _ h⟩
        refine ⟨n, -k, hn, hnb, ?_⟩
        generalize b = b at *
        generalize c = c at *
        simp only [dot, cross] at *
        apply Vec3.ext <;> simp only [cross, add_x, add_y, add_z, smul_x, smul_y, smul_z, zero_x, zero_y, zero_z] <;>
          apply mul_left_cancel₀ h
        · linear_combination -(b.y * c.z - b.z * c.y) * hnb + (b.y * n.z - b.z * n.y) * hbc' - b.x * hk
        · linear_combination -(b.z * c.x - b.x * c.z) * hnb + (b.z * n.x - b.x * n.z) * hbc' - b.y * hk
        · linear_combination -(b.x * c.y - b.y * c.x) * hnb + (b.x * n.y - b.y * n.x) * hbc' - b.z * hk
    obtain ⟨p, hp, hpq, -⟩ := m.two_planes hm h0 n d hn hnb hnc
    exact ⟨p, Plane.mk4 n.x n.y n.z d, hp, hn, hpq⟩

/-- C103: a unit rotor is the product of two unit planes through the origin. -/
theorem C103_rotor_planes (r : Rotor ℝ) (hr : r.sqNorm = 1) :
    ∃ p q : Plane ℝ, p.sqNorm = 1 ∧ q.sqNorm = 1 ∧ p.d = 0 ∧ q.d = 0 ∧ p.mulPlane q = Motor.ofRotor r := by
  have hm : (Motor.ofRotor r).Normed := by
    rw [Motor.Normed]
    simp only [Rotor.sqNorm, kln, sse] at hr
    apply MV.ext <;> simp only [pga, sse, kln] <;> try ring1
    linear_combination hr
  obtain ⟨n, hn, hb⟩ := exists_unit_orthogonal (Line.mk (Motor.ofRotor r).p1 (Motor.ofRotor r).p2).dir
  obtain ⟨p, hp, hpq, -, hd⟩ := (Motor.ofRotor r).two_planes hm rfl n 0 hn hb
    (by apply Vec3.ext <;> simp [cross, Line.mom, Motor.ofRotor, kln, sse])
  refine ⟨p, Plane.mk4 n.x n.y n.z 0, hp, hn, ?_, rfl, hpq⟩
  rw [hd]; simp [dot, Line.mom, Motor.ofRotor, kln, sse]

/-- C103: a translator is the product of two parallel unit planes. -/
theorem C103_translator_planes (t : Translator ℝ) (ht : t.p2.l0 = 0) :
    ∃ p q : Plane ℝ, p.sqNorm = 1 ∧ q.sqNorm = 1 ∧ p.normal = q.normal ∧
      p.mulPlane q = Motor.ofTranslator t := by
  have hm : (Motor.ofTranslator t).Normed := by
    rw [Motor.Normed]
    apply MV.ext <;> simp only [pga, sse, kln, ht] <;> ring1
  obtain ⟨n, hn, hc⟩ := exists_unit_parallel (Line.mk (Motor.ofTranslator t).p1 (Motor.ofTranslator t).p2).mom
  obtain ⟨p, hp, hpq, hnn, -⟩ := (Motor.ofTranslator t).two_planes hm ht n 0 hn
    (by simp [dot, Line.dir, Motor.ofTranslator, kln, sse]) (by rw [hc]; apply Vec3.ext <;> simp)
  refine ⟨p, Plane.mk4 n.x n.y n.z 0, hp, hn, ?_, hpq⟩
  rw [hnn]
  apply Vec3.ext <;> simp [cross, Plane.normal, Line.dir, Motor.ofTranslator, kln, sse]

/-- C103: a normalised motor is the product of four unit planes: the first two parallel, the others through
the origin. -/
theorem C103_four_planes (m : Motor ℝ) (hm : m.Normed) :
    ∃ p q p' q' : Plane ℝ, p.sqNorm = 1 ∧ q.sqNorm = 1 ∧ p'.sqNorm = 1 ∧ q'.sqNorm = 1 ∧
      p.normal = q.normal ∧ p'.d = 0 ∧ q'.d = 0 ∧ (p.mulPlane q).mulMotor (p'.mulPlane q') = m := by
  have hN := Motor.sqNorm_eq_one hm
  obtain ⟨p', q', hp', hq', dp', dq', e'⟩ := C103_rotor_planes ⟨m.p1⟩ hN
  have hR : (Motor.ofRotor ⟨m.p1⟩ : Motor ℝ).rev.mv * (Motor.ofRotor ⟨m.p1⟩ : Motor ℝ).mv = 1 := by
    simp only [Motor.sqNorm, kln] at hN
    apply MV.ext <;> simp only [pga, sse, kln, cond_true, cond_false] <;> try ring1
    linear_combination hN
  obtain ⟨t, ht⟩ : ∃ t : Translator ℝ, t = ⟨⟨0, (m.mulMotor (Motor.ofRotor ⟨m.p1⟩).rev).e01,
    (m.mulMotor (Motor.ofRotor ⟨m.p1⟩).rev).e02, (m.mulMotor (Motor.ofRotor ⟨m.p1⟩).rev).e03⟩⟩ := ⟨_, rfl⟩
  have hT : Motor.ofTranslator t = m.mulMotor (Motor.ofRotor ⟨m.p1⟩).rev := by
    have hbc := Motor.bc_eq_zero m hm
    obtain ⟨⟨a, b1, b2, b3⟩, ⟨h, c1, c2, c3⟩⟩ := m
    simp only [Motor.sqNorm, Motor.bc, kln] at hN hbc
    rw [ht, ← Motor.mv_inj]
    apply MV.ext <;> simp only [pga, sse, kln, cond_true, cond_false] <;> try ring1
    · linear_combination -hN
    · linear_combination -hbc / 2
  obtain ⟨p, q, hp, hq, hpq, e⟩ := C103_translator_planes t (by rw [ht])
  refine ⟨p, q, p', q', hp, hq, hp', hq', hpq, dp', dq', ?_⟩
  rw [e, e', hT, ← Motor.mv_inj, C06_motor_mul_motor, C06_motor_mul_motor, mul_assoc, hR, mul_one]

/-- C103: every rigid motion is the composition of four reflections computed by the library. -/
theorem C103_rigid_reflections (f : Vec3 ℝ → Vec3 ℝ) (hf : Rigid f) :
    ∃ p q p' q' : Plane ℝ, p.sqNorm = 1 ∧ q.sqNorm = 1 ∧ p'.sqNorm = 1 ∧ q'.sqNorm = 1 ∧
      ∀ v, p.onPoint (q.onPoint (p'.onPoint (q'.onPoint (Point.at v)))) = Point.at (f v) := by
  obtain ⟨m, hm, hmf⟩ := C76_surjective hf
  obtain ⟨p, q, p', q', hp, hq, hp', hq', -, -, -, e⟩ := C103_four_planes m hm
  refine ⟨p, q, p', q', hp, hq, hp', hq', fun v => ?_⟩
  rw [← hmf, ← e, ← Point.mv_inj, C12_plane_on_point, C12_plane_on_point, C12_plane_on_point, C12_plane_on_point,
    C15_motor_on_point, C06_motor_mul_motor, PGA.MV.rev_mul, Plane.rev_mul, Plane.rev_mul, C01_plane_mul_plane,
    C01_plane_mul_plane]
  simp only [mul_assoc]

end Real

/-! ### Examples -/

/-- The half turn about the vertical line through (1, 2, 0) fixes (1, 2, 5) and moves the origin. -/
example : (Line.mk6 2 (-1) 0 0 0 1 : Line ℚ).halfTurn.onPoint (Point.mk3 1 2 5) = Point.mk3 1 2 5 ∧
    (Line.mk6 2 (-1) 0 0 0 1 : Line ℚ).halfTurn.onPoint (Point.mk3 0 0 0) = Point.mk3 2 4 0 := by
  constructor <;> decide +kernel

/-- A half turn with a translation along its axis: no fixed points. -/
example (v : Vec3 ℚ) : (Motor.mk8 0 0 0 1 0 0 0 1 : Motor ℚ).onPoint (Point.at v) ≠ Point.at v := by
  rw [Ne, C103_motor_fixed _ (by rw [Motor.Normed]; decide +kernel)]
  exact fun h => absurd h.1 (by decide +kernel)

/-- A rotor and a translator as products of planes. -/
example : (Plane.mk4 (3/5) (4/5) 0 0 : Plane ℚ).mulPlane (Plane.mk4 1 0 0 0) =
      Motor.ofRotor ⟨⟨3/5, 0, 0, -4/5⟩⟩ ∧
    (Plane.mk4 1 0 0 2 : Plane ℚ).mulPlane (Plane.mk4 1 0 0 5) = Motor.ofTranslator ⟨⟨0, -3, 0, 0⟩⟩ := by
  constructor <;> decide +kernel

/-- Inversion in (1, 2, 3) by a half turn and a reflection in the plane `z = 3`. -/
example : (Plane.mk4 0 0 1 (-3) : Plane ℚ).onPoint
    ((Line.mk6 2 (-1) 0 0 0 1 : Line ℚ).halfTurn.onPoint (Point.mk3 4 0 0)) = Point.mk3 (-2) 4 6 := by
  decide +kernel

end Klein
