import Verif.Props.Screw
import Verif.Props.Metric
import Verif.Props.WellFormed

/-!
# C84: transformations built by products of entities

The documentation of geometric_product.hpp: the product of two planes performs both reflections (lines
33-44), `sqrt(a * b)` takes `b` to `a` for branches (lines 102-110) and lines (lines 46-64, 112-120).
projection.hpp:76-84: the projection of a plane to a line; inner_product.hpp:38-47: the line `a | b`.
-/

set_option linter.unusedSimpArgs false
set_option linter.unusedSectionVars false

namespace Klein

open PGA PGA.MV Euclid

section Ring
variable {K : Type} [CommRing K]

theorem Plane.mv_rev (a : Plane K) : PGA.MV.rev a.mv = a.mv := by mv_ring

theorem Plane.rev_mul (a b : Plane K) : PGA.MV.rev (a.mulPlane b).mv = b.mv * a.mv := by
  rw [C01_plane_mul_plane, PGA.MV.rev_mul, Plane.mv_rev, Plane.mv_rev]

/-- C84: the motor `a * b` performs the reflection in `b` and then the one in `a`, on points, planes
and lines. -/
theorem C84_two_reflections (isa : Isa) (a b : Plane K) (x : Point K) (p : Plane K) (l : Line K) (wl : l.WF) :
    (a.mulPlane b).onPoint x = a.onPoint (b.onPoint x) ∧
    (a.mulPlane b).onPlane isa p = a.onPlane (b.onPlane p) ∧
    (a.mulPlane b).onLine l = a.onLine (b.onLine l) := by
  refine ⟨?_, ?_, ?_⟩
  · rw [← Point.mv_inj, C15_motor_on_point, Plane.rev_mul, C01_plane_mul_plane, C12_plane_on_point,
      C12_plane_on_point]
    simp only [mul_assoc]
  · rw [← Plane.mv_inj, C15_motor_on_plane, Plane.rev_mul, C01_plane_mul_plane, C12_plane_on_plane,
      C12_plane_on_plane]
    simp only [mul_assoc]
  · refine (Line.mv_inj ?_ ?_).1 ?_
    · constructor <;> simp only [kln, sse, cond_true, cond_false, wl.1, wl.2] <;> ring
    · constructor <;> simp only [kln, sse, cond_true, cond_false, wl.1, wl.2] <;> ring
    · rw [C15_motor_on_line, Plane.rev_mul, C01_plane_mul_plane, C12_plane_on_line, C12_plane_on_line]
      simp only [mul_assoc]

/-- C84: for parallel unit planes `a * b` is the translation by twice the vector from `b` to `a`. -/
theorem C84_parallel (n : Vec3 K) (hn : dot n n = 1) (da db : K) (v : Vec3 K) :
    ((Plane.mk4 n.x n.y n.z da).mulPlane (Plane.mk4 n.x n.y n.z db)).onPoint (Point.at v) =
      Point.at (v + (2 * (db - da)) • n) := by
  simp only [dot] at hn
  rw [← Point.mv_inj, C15_motor_on_point, Plane.rev_mul, C01_plane_mul_plane]
  have h1 : (Plane.mk4 n.x n.y n.z da).mv * (Plane.mk4 n.x n.y n.z db).mv =
      1 + (⟨⟨0, (da - db) * n.x, (da - db) * n.y, (da - db) * n.z⟩⟩ : IdealLine K).mv := by
    apply MV.ext <;> simp only [pga, sse, kln] <;> try ring1
    linear_combination hn
  have h2 : (Plane.mk4 n.x n.y n.z db).mv * (Plane.mk4 n.x n.y n.z da).mv =
      1 - (⟨⟨0, (da - db) * n.x, (da - db) * n.y, (da - db) * n.z⟩⟩ : IdealLine K).mv := by
    apply MV.ext <;> simp only [pga, sse, kln] <;> try ring1
    linear_combination hn
  rw [h1, h2]
  apply MV.ext <;> simp only [pga, sse, kln, Point.at, add_x, add_y, add_z, smul_x, smul_y, smul_z] <;> ring

end Ring

/-! ### Planes that meet -/

section Real
variable {hw : Hw ℝ} (hx : hw.Exact) (isa : Isa)

theorem Plane.mul_normed {a b : Plane ℝ} (ha : a.sqNorm = 1) (hb : b.sqNorm = 1) :
    (a.mulPlane b).Normed := by
  have hA : a.mv * a.mv = 1 := by rw [Plane.mv_sq, ha, scalarMv_one]
  have hB : b.mv * b.mv = 1 := by rw [Plane.mv_sq, hb, scalarMv_one]
  rw [Motor.Normed, Plane.rev_mul, C01_plane_mul_plane, mul_assoc, ← mul_assoc b.mv, hB, one_mul, hA]

theorem Plane.mul_bivector (a b : Plane ℝ) : (a.mulPlane b).bivector = a.meetPlane b := by
  simp only [Motor.bivector, kln, sse, cond_true, cond_false, Line.mk.injEq, V4.mk.injEq]
  refine ⟨⟨?_, ?_, ?_, ?_⟩, ?_, ?_, ?_, ?_⟩ <;> first | trivial | ring1

include hx in
/-- C84: for unit planes that are not parallel `a * b` is the rotation about their common line, by twice
the angle between them. -/
theorem C84_rotation (a b : Plane ℝ) (ha : a.sqNorm = 1) (hb : b.sqNorm = 1)
    (h : cross a.normal b.normal ≠ 0) :
    a.mulPlane b = Motor.mkScrew hw Libm.real isa (-(2 * Real.arccos (dot a.normal b.normal))) 0
      (a.meetPlane b).axis := by
  have hm := Plane.mul_normed ha hb
  have hs : 0 < (a.mulPlane b).sPart := by
    refine Real.sqrt_pos.2 (lt_of_le_of_ne (dot3_self_nonneg _) fun e => h ?_)
    obtain ⟨h1, h2, h3⟩ := dot3_self_eq_zero e.symm
    simp only [Motor.bivector, kln, sse, cond_true, cond_false] at h1 h2 h3
    apply Vec3.ext <;> simp only [cross, Plane.normal, kln, zero_x, zero_y, zero_z] <;> linarith
  have hu := (a.mulPlane b).bivector.axis_unit (Real.sqrt_pos.1 hs)
  have e0 : (a.mulPlane b).e0123 = 0 := by
    simp only [kln, sse, cond_true, cond_false]; ring
  have et : (a.mulPlane b).tPart = 0 := by
    simp only [Motor.tPart]
    have : dot3 (a.mulPlane b).bivector.p1 (a.mulPlane b).bivector.p2 = 0 := by
      simp only [Motor.bivector, dot3, kln, sse, cond_true, cond_false]; ring
    rw [this]; simp
  have es : (a.mulPlane b).scalar = dot a.normal b.normal := by
    simp only [kln, sse, dot, Plane.normal, cond_true, cond_false]; ring
  obtain ⟨n1, -⟩ := (a.mulPlane b).norm_parts hm hs
  obtain ⟨c1, c2⟩ := cos_arg_unit n1
  have hpos : 0 < Real.sin (Complex.arg ⟨(a.mulPlane b).scalar, (a.mulPlane b).sPart⟩) := by rw [c2]; exact hs
  have b1 := Complex.neg_pi_lt_arg ⟨(a.mulPlane b).scalar, (a.mulPlane b).sPart⟩
  have b2 := Complex.arg_le_pi ⟨(a.mulPlane b).scalar, (a.mulPlane b).sPart⟩
  have harg : Complex.arg ⟨(a.mulPlane b).scalar, (a.mulPlane b).sPart⟩ =
      Real.arccos (dot a.normal b.normal) := by
    rw [← es]
    generalize Complex.arg ⟨(a.mulPlane b).scalar, (a.mulPlane b).sPart⟩ = θ at c1 hpos b1 b2 ⊢
    rw [← c1, Real.arccos_cos _ b2]
    · by_contra hn
      have := Real.sin_nonpos_of_nonpos_of_neg_pi_le (not_le.1 hn).le b1.le
      linarith
  rw [← Plane.mul_bivector, Motor.mkScrew_unit hx isa _ _ _ (Motor.axis_wf _) hu]
  conv_lhs => rw [hm.eq_expUV hs]
  rw [harg, et, e0]
  congr 1 <;> ring

theorem Line.axis_has {l : Line ℝ} (h : 0 < dot3 l.p1 l.p1) (hm : dot3 l.p1 l.p2 = 0) (v : Vec3 ℝ) :
    l.axis.Has v ↔ l.Has v := by
  have hr0 : Real.sqrt (dot3 l.p1 l.p1) ≠ 0 := (Real.sqrt_pos.2 h).ne'
  rw [Line.Has, Line.Has, Line.axis, hm]
  generalize Real.sqrt (dot3 l.p1 l.p1) = r at *
  simp only [Vec3.ext_iff, cross, Line.dir, Line.mom, kln, sse, zero_div, zero_mul, sub_zero]
  have e : ∀ a b c d m : ℝ, a * (b / r) - c * (d / r) = m / r ↔ a * b - c * d = m := by
    intro a b c d m
    field_simp
  simp only [e]

include hx isa in
/-- C84, the motion: the rotation about the common line, `A` being any point of both planes. -/
theorem C84_rotation_action (a b : Plane ℝ) (ha : a.sqNorm = 1) (hb : b.sqNorm = 1)
    (h : cross a.normal b.normal ≠ 0) (A : Vec3 ℝ) (hA : a.Has A) (hB : b.Has A) (v : Vec3 ℝ) :
    (a.mulPlane b).onPoint (Point.at v) =
      Point.at (A + rodrigues (a.meetPlane b).axis.dir (-(2 * Real.arccos (dot a.normal b.normal))) (v - A)) := by
  have hs : 0 < dot3 (a.meetPlane b).p1 (a.meetPlane b).p1 := by
    refine lt_of_le_of_ne (dot3_self_nonneg _) fun e => h ?_
    obtain ⟨h1, h2, h3⟩ := dot3_self_eq_zero e.symm
    simp only [kln, sse, cond_true, cond_false] at h1 h2 h3
    apply Vec3.ext <;> simp only [cross, Plane.normal, kln, zero_x, zero_y, zero_z] <;> linarith
  have h0 : dot3 (a.meetPlane b).p1 (a.meetPlane b).p2 = 0 := by
    simp only [dot3, kln, sse, cond_true, cond_false]; ring
  have hl : (a.meetPlane b).axis.Has A := (Line.axis_has hs h0 A).2 ((C20_plane_meet_plane a b h A).2 ⟨hA, hB⟩)
  rw [C84_rotation hx isa a b ha hb h, C32_action hx isa _ _ _ ⟨rfl, rfl⟩ (Line.axis_unit _ hs) A v hl]
  congr 1
  apply Vec3.ext <;> simp

end Real

/-! ### Branches and lines -/

section Field
variable {K : Type} [Field K] [CharZero K]

/-- In an algebra: if `A² = B² = -1` and `AB + BA = -2c` then `(1 + AB) B (1 + BA) = -(2 - 2c) A`. -/
theorem conj_unit_imag (A B : MV K) (c : K) (hA : A * A = -1) (hB : B * B = -1)
    (hAB : A * B + B * A = scalarMv (-(2 * c))) :
    (1 + A * B) * B * (1 + B * A) = (-(2 - 2 * c)) • A := by
  have k1 : (1 + A * B) * B = B - A := by
    rw [add_mul, one_mul, mul_assoc, hB, mul_neg, mul_one]; abel
  have k2 : A * B * A = B + (-(2 * c)) • A := by
    have : A * B = scalarMv (-(2 * c)) - B * A := by rw [← hAB]; abel
    rw [this, sub_mul, mul_assoc, hA, scalarMv_mul, mul_neg, mul_one]; abel
  rw [k1, mul_add, mul_one, sub_mul, ← mul_assoc B, hB, ← mul_assoc A, k2, neg_one_mul]
  module

/-- The other order: `(1 + BA) B (1 + AB) = (2 - 2c) (A - 2cB)`. -/
theorem conj_unit_imag' (A B : MV K) (c : K) (hA : A * A = -1) (hB : B * B = -1)
    (hAB : A * B + B * A = scalarMv (-(2 * c))) :
    (1 + B * A) * B * (1 + A * B) = (2 - 2 * c) • (A - (2 * c) • B) := by
  have k1 : B * A * B = A - (2 * c) • B := by
    have : B * A = scalarMv (-(2 * c)) - A * B := by rw [← hAB]; abel
    rw [this, sub_mul, mul_assoc, hB, scalarMv_mul, mul_neg, mul_one]; module
  rw [add_mul, one_mul, k1, mul_add, mul_one, add_mul, ← mul_assoc B, k1, sub_mul, ← mul_assoc A, hA,
    smul_mul_assoc, ← mul_assoc B, k1, neg_one_mul]
  module

theorem Branch.mv_sq (a : Branch K) (wa : a.WF) (ha : a.sqNorm = 1) : a.mv * a.mv = -1 := by
  obtain ⟨⟨a0, a1, a2, a3⟩⟩ := a
  have wa' : a0 = 0 := wa
  subst wa'
  simp only [Branch.sqNorm, kln] at ha
  apply MV.ext <;> simp only [pga, sse] <;> try ring1
  linear_combination -ha

theorem Branch.mv_anti (a b : Branch K) (wa : a.WF) (wb : b.WF) :
    a.mv * b.mv + b.mv * a.mv = scalarMv (-(2 * dot3 a.p1 b.p1)) := by
  obtain ⟨⟨a0, a1, a2, a3⟩⟩ := a
  obtain ⟨⟨b0, b1, b2, b3⟩⟩ := b
  have wa' : a0 = 0 := wa
  have wb' : b0 = 0 := wb
  subst wa' wb'
  simp only [dot3]; mv_ring

/-- The root of the product of unit branches, as a multivector. -/
theorem Branch.sqrt_mul_mv (hw : Hw K) (isa : Isa) (a b : Branch K) (wa : a.WF) (wb : b.WF)
    (ha : a.sqNorm = 1) (hb : b.sqNorm = 1) :
    ((a.mulBranch b).sqrt hw isa).mv =
      rsqrt1 hw (2 - 2 * dot3 a.p1 b.p1) • (1 + a.mv * b.mv) := by
  have hN : dot4 (add_ss (a.mulBranch b).p1 (set_ss 1)) (add_ss (a.mulBranch b).p1 (set_ss 1)) =
      2 - 2 * dot3 a.p1 b.p1 := by
    obtain ⟨⟨a0, a1, a2, a3⟩⟩ := a
    obtain ⟨⟨b0, b1, b2, b3⟩⟩ := b
    have wa' : a0 = 0 := wa
    have wb' : b0 = 0 := wb
    subst wa' wb'
    simp only [Branch.sqNorm, kln] at ha hb
    simp only [kln, sse, dot4, dot3, cond_true, cond_false]
    linear_combination (b1 ^ 2 + b2 ^ 2 + b3 ^ 2) * ha + hb
  rw [Rotor.sqrt, Rotor.normalize_eq, hN, ← C03_branch_mul_branch a b wa wb]
  generalize rsqrt1 hw (2 - 2 * dot3 a.p1 b.p1) = s
  generalize a.mulBranch b = r
  mv_ring

/-- C84: for unit branches `sqrt(a * b)` takes `b` to `-a`, which is the same branch with the opposite
orientation. -/
theorem C84_branch_partial (hw : Hw K) (isa : Isa) (a b : Branch K) (wa : a.WF) (wb : b.WF)
    (ha : a.sqNorm = 1) (hb : b.sqNorm = 1) (hs : hw.RsqrtAt (2 - 2 * dot3 a.p1 b.p1)) :
    ((a.mulBranch b).sqrt hw isa).onBranch b = a.smul (-1) := by
  have w1 : (((a.mulBranch b).sqrt hw isa).onBranch b).WF := C49_rotor_on_branch _ _ wb
  have w2 : (a.smul (-1)).WF := by
    simp only [Branch.WF, kln, sse] at wa ⊢; rw [wa, zero_mul]
  rw [← Branch.mv_inj w1 w2, C13_rotor_on_branch, Branch.sqrt_mul_mv hw isa a b wa wb ha hb]
  have e1 := sq_exact hs
  generalize rsqrt1 hw (2 - 2 * dot3 a.p1 b.p1) = s at *
  have ra : PGA.MV.rev a.mv = -a.mv := by mv_ring
  have rb : PGA.MV.rev b.mv = -b.mv := by mv_ring
  rw [PGA.MV.rev_smul, PGA.MV.rev_add, PGA.MV.rev_one, PGA.MV.rev_mul, ra, rb, neg_mul_neg]
  simp only [smul_mul_assoc, mul_smul_comm, smul_smul]
  rw [conj_unit_imag _ _ _ (Branch.mv_sq a wa ha) (Branch.mv_sq b wb hb) (Branch.mv_anti a b wa wb),
    smul_smul]
  have : s * s * -(2 - 2 * dot3 a.p1 b.p1) = -1 := by linear_combination -e1
  rw [this]
  mv_ring

/-- C84: what the documented `~sqrt(a * b)` does to `b`: the result is `a - 2 (a·b) b`. -/
theorem C84_branch_rev (hw : Hw K) (isa : Isa) (a b : Branch K) (wa : a.WF) (wb : b.WF)
    (ha : a.sqNorm = 1) (hb : b.sqNorm = 1) (hs : hw.RsqrtAt (2 - 2 * dot3 a.p1 b.p1)) :
    ((a.mulBranch b).sqrt hw isa).rev.onBranch b = a.sub (b.smul (2 * dot3 a.p1 b.p1)) := by
  have w1 : (((a.mulBranch b).sqrt hw isa).rev.onBranch b).WF := C49_rotor_on_branch _ _ wb
  have w2 : (a.sub (b.smul (2 * dot3 a.p1 b.p1))).WF := by
    simp only [Branch.WF, kln, sse] at wa wb ⊢; rw [wa, wb, zero_mul, sub_zero]
  have er : ((a.mulBranch b).sqrt hw isa).rev.mv = PGA.MV.rev ((a.mulBranch b).sqrt hw isa).mv := by
    generalize (a.mulBranch b).sqrt hw isa = r
    mv_ring
  rw [← Branch.mv_inj w1 w2, C13_rotor_on_branch, er, PGA.MV.rev_rev,
    Branch.sqrt_mul_mv hw isa a b wa wb ha hb]
  have e1 := sq_exact hs
  have ra : PGA.MV.rev a.mv = -a.mv := by mv_ring
  have rb : PGA.MV.rev b.mv = -b.mv := by mv_ring
  rw [PGA.MV.rev_smul, PGA.MV.rev_add, PGA.MV.rev_one, PGA.MV.rev_mul, ra, rb, neg_mul_neg]
  generalize rsqrt1 hw (2 - 2 * dot3 a.p1 b.p1) = s at *
  simp only [smul_mul_assoc, mul_smul_comm, smul_smul]
  rw [conj_unit_imag' _ _ _ (Branch.mv_sq a wa ha) (Branch.mv_sq b wb hb) (Branch.mv_anti a b wa wb),
    smul_smul]
  have : s * s * (2 - 2 * dot3 a.p1 b.p1) = 1 := by linear_combination e1
  rw [this, one_smul]
  generalize 2 * dot3 a.p1 b.p1 = k
  mv_ring

/-- C84 is violated for branches: geometric_product.hpp:102-103 promises that `~sqrt(a * b)` takes `b`
to `a`.  For unit branches that is so exactly if they are orthogonal. -/
theorem C84_branch_iff (hw : Hw K) (isa : Isa) (a b : Branch K) (wa : a.WF) (wb : b.WF)
    (ha : a.sqNorm = 1) (hb : b.sqNorm = 1) (hs : hw.RsqrtAt (2 - 2 * dot3 a.p1 b.p1)) :
    ((a.mulBranch b).sqrt hw isa).rev.onBranch b = a ↔ dot3 a.p1 b.p1 = 0 := by
  rw [C84_branch_rev hw isa a b wa wb ha hb hs]
  obtain ⟨⟨a0, a1, a2, a3⟩⟩ := a
  obtain ⟨⟨b0, b1, b2, b3⟩⟩ := b
  simp only [Branch.sqNorm, kln] at hb
  generalize dot3 (⟨a0, a1, a2, a3⟩ : V4 K) ⟨b0, b1, b2, b3⟩ = k
  simp only [kln, sse, Branch.mk.injEq, V4.mk.injEq]
  constructor
  · rintro ⟨-, h1, h2, h3⟩
    have : 2 * k = 0 := by
      linear_combination (-b1) * h1 - b2 * h2 - b3 * h3 - 2 * k * hb
    simpa using this
  · rintro rfl
    simp

/-- The violation on concrete unit branches: the direction `(3/5, 4/5, 0)` and the x axis; the rotor
takes the x axis to `(-3/5, 4/5, 0)`. -/
theorem C84_branch_fails (hw : Hw K) (isa : Isa) (hs : hw.RsqrtAt (4 / 5)) :
    let a : Branch K := ⟨⟨0, 3 / 5, 4 / 5, 0⟩⟩
    let b : Branch K := ⟨⟨0, 1, 0, 0⟩⟩
    a.sqNorm = 1 ∧ b.sqNorm = 1 ∧
    ((a.mulBranch b).sqrt hw isa).rev.onBranch b = ⟨⟨0, -(3 / 5), 4 / 5, 0⟩⟩ ∧
    ((a.mulBranch b).sqrt hw isa).rev.onBranch b ≠ a := by
  intro a b
  have ha : a.sqNorm = 1 := by simp only [a, Branch.sqNorm, kln]; norm_num
  have hb : b.sqNorm = 1 := by simp only [b, Branch.sqNorm, kln]; norm_num
  have hd : dot3 a.p1 b.p1 = 3 / 5 := by simp [a, b, dot3]
  have hs' : hw.RsqrtAt (2 - 2 * dot3 a.p1 b.p1) := by
    rw [hd]; convert hs using 1; norm_num
  refine ⟨ha, hb, ?_, ?_⟩
  · rw [C84_branch_rev hw isa a b rfl rfl ha hb hs', hd]
    simp only [a, b, kln, sse, Branch.mk.injEq, V4.mk.injEq]
    norm_num
  · rw [Ne, C84_branch_iff hw isa a b rfl rfl ha hb hs', hd]
    norm_num

/-! Lines -/

theorem Line.mv_anti (a b : Line K) :
    a.mv * b.mv + b.mv * a.mv =
      (Dual.mk (-(2 * dot3 a.p1 b.p1)) (2 * (dot3 a.p1 b.p2 + dot3 a.p2 b.p1))).mv := by
  simp only [dot3]; mv_ring

theorem Dual.mv_comm_line (d : Dual K) (a : Line K) : d.mv * a.mv = a.mv * d.mv := by mv_ring
theorem Dual.mv_rev (d : Dual K) : PGA.MV.rev d.mv = d.mv := by mv_ring

/-- C84: if `m` is the geometric product of the unit lines `a` and `b`, then `sqrt(m)` takes `b` to
`-a`, which is the line `a` with the opposite orientation. -/
theorem C84_line (hw : Hw K) (isa : Isa) (a b : Line K) (wa : a.WF) (wb : b.WF)
    (ha : a.mv * a.mv = -1) (hb : b.mv * b.mv = -1) (m : Motor K) (hm : m.mv = a.mv * b.mv)
    (hs : hw.RsqrtAt (2 + 2 * m.scalar)) (hr : hw.RcpAt (2 + 2 * m.scalar)) :
    (m.sqrt hw isa).onLine b = a.smul (-1) := by
  have ra : PGA.MV.rev a.mv = -a.mv := by mv_ring
  have rb : PGA.MV.rev b.mv = -b.mv := by mv_ring
  have hrev : PGA.MV.rev m.mv = b.mv * a.mv := by
    rw [hm, PGA.MV.rev_mul, ra, rb, neg_mul_neg]
  have hn : m.mv * PGA.MV.rev m.mv = 1 := by
    rw [hrev, hm, mul_assoc, ← mul_assoc b.mv, hb, neg_one_mul, mul_neg, ha, neg_neg]
  have e : m.sqrt hw isa = m.succ.normalize hw isa := rfl
  have h24 := (C29_motor hw isa m hn hs hr).2
  rw [Motor.normalize_eq] at e
  set D := Dual.mk (rsqrt1 hw (dot4 m.succ.p1 m.succ.p1))
    (-m.succ.bc * rcp1 hw (dot4 m.succ.p1 m.succ.p1) * rsqrt1 hw (dot4 m.succ.p1 m.succ.p1)) with hD
  have emv : (m.sqrt hw isa).mv = D.mv * (1 + m.mv) := by
    rw [e, Motor.dualSmul_mv, Motor.succ_mv]
  have erev : PGA.MV.rev (m.sqrt hw isa).mv = (1 + b.mv * a.mv) * D.mv := by
    rw [emv, PGA.MV.rev_mul, Dual.mv_rev, PGA.MV.rev_add, PGA.MV.rev_one, hrev]
  have hE : (1 + a.mv * b.mv) * (1 + b.mv * a.mv) = 1 + 1 + (a.mv * b.mv + b.mv * a.mv) := by
    have : a.mv * b.mv * (b.mv * a.mv) = 1 := by
      rw [mul_assoc, ← mul_assoc b.mv, hb, neg_one_mul, mul_neg, ha, neg_neg]
    rw [mul_add, mul_one, add_mul, one_mul, this]; abel
  have key : (1 + a.mv * b.mv) * b.mv * (1 + b.mv * a.mv) =
      -((1 + 1 + (a.mv * b.mv + b.mv * a.mv)) * a.mv) := by
    have k1 : (1 + a.mv * b.mv) * b.mv = b.mv - a.mv := by
      rw [add_mul, one_mul, mul_assoc, hb, mul_neg, mul_one]; abel
    rw [k1, mul_add, mul_one, sub_mul, ← mul_assoc b.mv, hb, ← mul_assoc a.mv, neg_one_mul,
      add_mul, add_mul, add_mul, one_mul, mul_assoc b.mv, ha, mul_neg, mul_one]
    abel
  have w1 : ((m.sqrt hw isa).onLine b).WF := C49_motor_on_line _ _ wb
  have w2 : (a.smul (-1)).WF := by
    constructor <;> simp only [kln, sse, wa.1, wa.2, zero_mul]
  refine (Line.mv_inj w1 w2).1 ?_
  have en : (a.smul (-1)).mv = -a.mv := by mv_ring
  rw [C15_motor_on_line, erev, en]
  rw [erev, emv, hm] at h24
  rw [emv, hm]
  have h1 : D.mv * (1 + a.mv * b.mv) * b.mv * ((1 + b.mv * a.mv) * D.mv) =
      D.mv * ((1 + a.mv * b.mv) * b.mv * (1 + b.mv * a.mv)) * D.mv := by
    simp only [mul_assoc]
  have h2 : D.mv * (1 + a.mv * b.mv) * ((1 + b.mv * a.mv) * D.mv) =
      D.mv * ((1 + a.mv * b.mv) * (1 + b.mv * a.mv)) * D.mv := by
    simp only [mul_assoc]
  rw [h2, hE] at h24
  rw [h1, key, mul_neg, neg_mul, ← mul_assoc, mul_assoc, ← Dual.mv_comm_line, ← mul_assoc, h24, one_mul]

/-- C84 for the library's `line * line`, under the condition of C05 under which it is the geometric
product. -/
theorem C84_line_partial (hw : Hw K) (isa : Isa) (a b : Line K) (wa : a.WF) (wb : b.WF)
    (ha : a.mv * a.mv = -1) (hb : b.mv * b.mv = -1)
    (h : a.e31 * b.e23 - a.e23 * b.e31 = a.e12 * b.e31 - a.e31 * b.e12)
    (hs : hw.RsqrtAt (2 + 2 * (a.mulLine b).scalar)) (hr : hw.RcpAt (2 + 2 * (a.mulLine b).scalar)) :
    ((a.mulLine b).sqrt hw isa).onLine b = a.smul (-1) :=
  C84_line hw isa a b wa wb ha hb _ ((C05_line_mul_line_iff a b).2 h) hs hr

/-- C84 is violated for lines: with the x axis as `a` and the y axis as `b`, `sqrt(a * b)` takes the y
axis to the z axis. -/
theorem C84_line_fails (hw : Hw K) (isa : Isa) (hs : hw.RsqrtAt 2) :
    let a : Line K := Line.mk6 0 0 0 1 0 0
    let b : Line K := Line.mk6 0 0 0 0 1 0
    a.mv * a.mv = -1 ∧ b.mv * b.mv = -1 ∧
    ((a.mulLine b).sqrt hw isa).onLine b = Line.mk6 0 0 0 0 0 1 ∧
    ∀ k : K, ((a.mulLine b).sqrt hw isa).onLine b ≠ a.smul k := by
  intro a b
  have h3 : ((a.mulLine b).sqrt hw isa).onLine b = Line.mk6 0 0 0 0 0 1 := by
    have e : (a.mulLine b).sqrt hw isa = (a.mulLine b).succ.normalize hw isa := rfl
    have hN : dot4 (a.mulLine b).succ.p1 (a.mulLine b).succ.p1 = 2 := by
      simp only [a, b, Motor.succ, dot4, kln, sse, cond_true, cond_false]; norm_num
    have hbc : (a.mulLine b).succ.bc = 0 := by
      simp only [a, b, Motor.succ, Motor.bc, kln, sse, cond_true, cond_false]; norm_num
    rw [e, Motor.normalize_eq, hN, hbc]
    have e1 := sq_exact hs
    generalize rsqrt1 hw 2 = s at *
    simp only [a, b, Motor.succ, Motor.dualSmul, kln, sse, cond_true, cond_false, Line.mk.injEq, V4.mk.injEq]
    norm_num
    linear_combination e1
  refine ⟨?_, ?_, h3, fun k => ?_⟩
  · simp only [a]; mv_ring
  · simp only [b]; mv_ring
  · rw [h3]
    intro h
    have := congrArg (fun l : Line K => l.p1.l3) h
    simp [a, kln, sse] at this

end Field

/-! ### Projections and perpendiculars -/

section Order
variable {K : Type} [Field K] [LinearOrder K] [IsStrictOrderedRing K]

/-- C84: `project(p, l)` is, among the planes `q` through the line `l`, the one with the largest
`|cos|` of the angle to `p`. -/
theorem C84_project_partial (p q : Plane K) (l : Line K) (hl : dot l.dir l.dir = 1)
    (hq : dot q.normal l.dir = 0) :
    dot p.normal q.normal ^ 2 * (p.projectLine l).sqNorm ≤
      dot p.normal (p.projectLine l).normal ^ 2 * q.sqNorm := by
  obtain ⟨-, hN⟩ := C21_plane_line p l
  have e1 : (p.projectLine l).sqNorm = dot p.normal p.normal - dot p.normal l.dir ^ 2 := by
    rw [Plane.sqNorm, hN, hl]
    simp only [dot, sub_x, sub_y, sub_z, smul_x, smul_y, smul_z] at hl ⊢
    linear_combination (p.normal.x * l.dir.x + p.normal.y * l.dir.y + p.normal.z * l.dir.z) ^ 2 * hl
  have e2 : dot p.normal (p.projectLine l).normal = -(p.projectLine l).sqNorm := by
    rw [e1, hN, hl]
    simp only [dot, sub_x, sub_y, sub_z, smul_x, smul_y, smul_z]
    ring
  have e3 : dot p.normal q.normal = -dot (p.projectLine l).normal q.normal := by
    rw [hN, hl]
    simp only [dot, sub_x, sub_y, sub_z, smul_x, smul_y, smul_z] at hq ⊢
    linear_combination (p.normal.x * l.dir.x + p.normal.y * l.dir.y + p.normal.z * l.dir.z) * hq
  have cs : dot (p.projectLine l).normal q.normal ^ 2 ≤ (p.projectLine l).sqNorm * q.sqNorm := by
    simp only [Plane.sqNorm, dot]
    generalize (p.projectLine l).normal = N
    nlinarith [sq_nonneg (N.x * q.normal.y - N.y * q.normal.x), sq_nonneg (N.x * q.normal.z - N.z * q.normal.x),
      sq_nonneg (N.y * q.normal.z - N.z * q.normal.y)]
  have hnn : 0 ≤ (p.projectLine l).sqNorm := by
    simp only [Plane.sqNorm, dot]; nlinarith [mul_self_nonneg (p.projectLine l).normal.x,
      mul_self_nonneg (p.projectLine l).normal.y, mul_self_nonneg (p.projectLine l).normal.z]
  rw [e2, e3, neg_sq, neg_sq]
  calc _ ≤ (p.projectLine l).sqNorm * q.sqNorm * (p.projectLine l).sqNorm := by gcongr
    _ = _ := by ring

/-- C84: the projected plane has the opposite orientation: `p · p'` is never positive, so the
orientation returned minimises `p · p'` where the documentation says maximises. -/
theorem C84_project_sign (p : Plane K) (l : Line K) (hl : dot l.dir l.dir = 1) :
    dot p.normal (p.projectLine l).normal ≤ 0 := by
  obtain ⟨-, hN⟩ := C21_plane_line p l
  rw [hN, hl]
  simp only [dot, sub_x, sub_y, sub_z, smul_x, smul_y, smul_z] at hl ⊢
  generalize p.normal = n at *
  generalize l.dir = d at *
  have e : n.x * ((n.x * d.x + n.y * d.y + n.z * d.z) * d.x - 1 * n.x) +
        n.y * ((n.x * d.x + n.y * d.y + n.z * d.z) * d.y - 1 * n.y) +
      n.z * ((n.x * d.x + n.y * d.y + n.z * d.z) * d.z - 1 * n.z) =
      -((n.x * d.y - n.y * d.x) ^ 2 + (n.x * d.z - n.z * d.x) ^ 2 + (n.y * d.z - n.z * d.y) ^ 2) := by
    linear_combination (n.x ^ 2 + n.y ^ 2 + n.z ^ 2) * hl
  rw [e, neg_nonpos]
  positivity

/-- C84 is violated by the orientation: the projection of the plane `z = 1` to the x axis is `-z = 0`,
with `p · p' = -1`, while the plane `z = 0` through the same line has `p · q = 1`. -/
theorem C84_project_fails :
    let p : Plane K := Plane.mk4 0 0 1 (-1)
    let l : Line K := Line.mk6 0 0 0 1 0 0
    let q : Plane K := Plane.mk4 0 0 1 0
    p.projectLine l = Plane.mk4 0 0 (-1) 0 ∧ (∀ v, l.Has v → q.Has v) ∧
    dot p.normal (p.projectLine l).normal < dot p.normal q.normal := by
  intro p l q
  have h1 : p.projectLine l = Plane.mk4 0 0 (-1) 0 := by
    simp only [p, l, kln, sse, cond_true, cond_false, Plane.mk.injEq, V4.mk.injEq]; norm_num
  refine ⟨h1, fun v hv => ?_, ?_⟩
  · have := congrArg Vec3.y hv
    simp [l, q, Plane.Has, OnPlane, dot, cross, Plane.normal, Line.dir, Line.mom, kln, sse] at this ⊢
    exact this
  · rw [h1]; simp [p, q, dot, Plane.normal, kln]
end Order

section Perp
variable {K : Type} [CommRing K]

/-- C84: the line `a | b` of a point and a plane contains the point and is perpendicular to the plane. -/
theorem C84_perpendicular (isa : Isa) (v : Vec3 K) (p : Plane K) :
    ((Point.at v).dotPlane isa p).Has v ∧ ((Point.at v).dotPlane isa p).dir = p.normal ∧
    ((Point.at v).dotPlane isa p).WF := by
  refine ⟨?_, ?_, ?_⟩
  · cases isa <;> apply Vec3.ext <;>
      simp only [cross, Line.dir, Line.mom, Point.at, kln, sse, cond_true, cond_false] <;> ring
  · cases isa <;> apply Vec3.ext <;>
      simp only [Plane.normal, Line.dir, Line.mom, Point.at, kln, sse, cond_true, cond_false] <;> ring
  · cases isa <;> constructor <;> simp only [Point.at, kln, sse, cond_true, cond_false] <;> ring
end Perp

/-! ### The common normal of two lines -/

/-- Two lines cut each other at a right angle: their directions are orthogonal and they are coplanar. -/
def Line.CutsOrtho (a b : Line ℝ) : Prop :=
  dot3 a.p1 b.p1 = 0 ∧ dot3 a.p1 b.p2 + dot3 a.p2 b.p1 = 0

theorem Line.CutsOrtho.axis {l x : Line ℝ} (hl : 0 < dot3 l.p1 l.p1) (wl : l.WF) (h : l.CutsOrtho x) :
    l.axis.CutsOrtho x := by
  have hs : Real.sqrt (dot3 l.p1 l.p1) ≠ 0 := (Real.sqrt_pos.2 hl).ne'
  have e := l.eq_scr wl hl
  revert e h
  generalize -(dot3 l.p1 l.p2 / Real.sqrt (dot3 l.p1 l.p1)) = t
  revert hs
  generalize Real.sqrt (dot3 l.p1 l.p1) = s
  generalize l.axis = n
  rintro hs ⟨h1, h2⟩ rfl
  simp only [Line.scr, dot3] at h1 h2
  have k1 : dot3 n.p1 x.p1 = 0 := by
    refine mul_left_cancel₀ hs ?_
    simp only [dot3]; linear_combination h1
  refine ⟨k1, mul_left_cancel₀ hs ?_⟩
  simp only [dot3] at k1 ⊢
  linear_combination h2 + t * k1

/-- C84: if `m` is the geometric product of two unit lines that are not parallel, then `m` is a screw
motion about the common normal of the lines. -/
theorem C84_common_normal {hw : Hw ℝ} (hx : hw.Exact) (isa : Isa) (a b : Line ℝ)
    (ha : a.Unit) (hb : b.Unit) (h : cross a.dir b.dir ≠ 0) (m : Motor ℝ) (hm : m.mv = a.mv * b.mv) :
    ∃ (l : Line ℝ) (ang d : ℝ), l.WF ∧ l.Unit ∧ l.CutsOrtho a ∧ l.CutsOrtho b ∧
      m = Motor.mkScrew hw Libm.real isa ang d l := by
  have ra : PGA.MV.rev a.mv = -a.mv := by mv_ring
  have rb : PGA.MV.rev b.mv = -b.mv := by mv_ring
  have hA := (Line.unit_iff a).1 ha
  have hB := (Line.unit_iff b).1 hb
  have hn : m.Normed := by
    rw [Motor.Normed, hm, PGA.MV.rev_mul, ra, rb, neg_mul_neg, mul_assoc, ← mul_assoc b.mv, hB,
      neg_one_mul, mul_neg, hA, neg_neg]
  have c1 := congrArg MV.e23 hm
  have c2 := congrArg MV.e13 hm
  have c3 := congrArg MV.e12 hm
  have d1 := congrArg MV.e01 hm
  have d2 := congrArg MV.e02 hm
  have d3 := congrArg MV.e03 hm
  simp only [pga] at c1 c2 c3 d1 d2 d3
  have hs : 0 < m.sPart := by
    refine Real.sqrt_pos.2 (lt_of_le_of_ne (dot3_self_nonneg _) fun e => h ?_)
    obtain ⟨h1, h2, h3⟩ := dot3_self_eq_zero e.symm
    simp only [Motor.bivector] at h1 h2 h3
    apply Vec3.ext <;> simp only [cross, Line.dir, kln, zero_x, zero_y, zero_z] <;> linarith
  have hs2 := Real.sqrt_pos.1 hs
  have hu := m.bivector.axis_unit hs2
  have hscr := m.bivector.eq_scr ⟨rfl, rfl⟩ hs2
  refine ⟨m.bivector.axis, -(2 * Complex.arg ⟨m.scalar, m.sPart⟩),
    2 * (m.scalar * m.tPart - m.sPart * m.e0123), m.axis_wf, hu, ?_, ?_, ?_⟩
  · refine Line.CutsOrtho.axis hs2 ⟨rfl, rfl⟩ ⟨?_, ?_⟩
    · simp only [dot3, Motor.bivector]
      linear_combination a.p1.l1 * c1 - a.p1.l2 * c2 + a.p1.l3 * c3
    · simp only [dot3, Motor.bivector]
      linear_combination a.p2.l1 * c1 - a.p2.l2 * c2 + a.p2.l3 * c3 + a.p1.l1 * d1 + a.p1.l2 * d2 +
        a.p1.l3 * d3
  · refine Line.CutsOrtho.axis hs2 ⟨rfl, rfl⟩ ⟨?_, ?_⟩
    · simp only [dot3, Motor.bivector]
      linear_combination b.p1.l1 * c1 - b.p1.l2 * c2 + b.p1.l3 * c3
    · simp only [dot3, Motor.bivector]
      linear_combination b.p2.l1 * c1 - b.p2.l2 * c2 + b.p2.l3 * c3 + b.p1.l1 * d1 + b.p1.l2 * d2 +
        b.p1.l3 * d3
  · rw [Motor.mkScrew_unit hx isa _ _ _ m.axis_wf hu]
    conv_lhs => rw [hn.eq_expUV hs]
    congr 1 <;> ring

/-- The product of the unit lines `x` axis and the parallel to the y axis at height 2 satisfies the
hypotheses; the common normal is the z axis and the screw turns by half a turn and moves by 4. -/
example : (Line.mk6 0 0 0 1 0 0 : Line ℝ).Unit ∧ (Line.mk6 (-2) 0 0 0 1 0 : Line ℝ).Unit ∧
    cross (Line.mk6 0 0 0 1 0 0 : Line ℝ).dir (Line.mk6 (-2) 0 0 0 1 0 : Line ℝ).dir ≠ 0 := by
  refine ⟨⟨?_, ?_⟩, ⟨?_, ?_⟩, fun h => ?_⟩
  · simp [dot3, kln]
  · simp [dot3, kln]
  · simp [dot3, kln]
  · simp [dot3, kln]
  · have := congrArg Vec3.z h
    simp [cross, Line.dir, kln] at this

end Klein
