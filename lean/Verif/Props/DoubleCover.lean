import Verif.Props.Rigid
import Verif.Props.Norms
import Verif.Props.Composition
import Verif.Props.Interp

/-!
# C76: the normalised motors are all rigid motions, each exactly twice

A rigid motion is a map of 3-space that keeps distances and signed volumes.  `C17` shows that a
normalised motor acts as one; here the converse, and that only the sign is lost.
-/

set_option linter.unusedSimpArgs false
set_option linter.unusedSectionVars false

namespace Euclid

/-- Keeps all distances. -/
def Isometric (f : Vec3 ℝ → Vec3 ℝ) : Prop := ∀ a b, sqDist (f a) (f b) = sqDist a b

/-- Keeps all distances and the signed volume of every tetrahedron. -/
def Rigid (f : Vec3 ℝ → Vec3 ℝ) : Prop :=
  Isometric f ∧ ∀ a b c d, vol (f a) (f b) (f c) (f d) = vol a b c d

theorem sq_sum_zero {a : Vec3 ℝ} (h : dot a a = 0) : a = 0 := by
  simp only [dot] at h
  have h1 : a.x = 0 := by nlinarith [mul_self_nonneg a.x, mul_self_nonneg a.y, mul_self_nonneg a.z]
  have h2 : a.y = 0 := by nlinarith [mul_self_nonneg a.x, mul_self_nonneg a.y, mul_self_nonneg a.z]
  have h3 : a.z = 0 := by nlinarith [mul_self_nonneg a.x, mul_self_nonneg a.y, mul_self_nonneg a.z]
  exact Vec3.ext h1 h2 h3

theorem sub_eq_zero' {a b : Vec3 ℝ} (h : a - b = 0) : a = b := by
  have hx := congrArg Vec3.x h
  have hy := congrArg Vec3.y h
  have hz := congrArg Vec3.z h
  simp only [sub_x, sub_y, sub_z, zero_x, zero_y, zero_z] at hx hy hz
  apply Vec3.ext <;> linarith

/-- Three orthonormal vectors. -/
structure Orthonormal3 (u v w : Vec3 ℝ) : Prop where
  uu : dot u u = 1
  vv : dot v v = 1
  ww : dot w w = 1
  uv : dot u v = 0
  uw : dot u w = 0
  vw : dot v w = 0

/-- The linear map with the columns `u`, `v`, `w`. -/
def lin (u v w a : Vec3 ℝ) : Vec3 ℝ := a.x • u + a.y • v + a.z • w

/-- An isometry is a translation after a linear map with orthonormal columns. -/
theorem Isometric.linear {f : Vec3 ℝ → Vec3 ℝ} (h : Isometric f) :
    ∃ t u v w, Orthonormal3 u v w ∧ ∀ a, f a = t + lin u v w a := by
  have hg : ∀ a b, dot (f a - f 0) (f b - f 0) = dot a b := by
    intro a b
    have h1 := h a b
    have h2 := h a 0
    have h3 := h b 0
    simp only [sqDist, dot, sub_x, sub_y, sub_z, zero_x, zero_y, zero_z] at h1 h2 h3 ⊢
    linear_combination (h2 + h3 - h1) / 2
  refine ⟨f 0, f ⟨1, 0, 0⟩ - f 0, f ⟨0, 1, 0⟩ - f 0, f ⟨0, 0, 1⟩ - f 0, ⟨?_, ?_, ?_, ?_, ?_, ?_⟩,
    fun a => ?_⟩
  any_goals (rw [hg]; simp [dot])
  apply sub_eq_zero'
  apply sq_sum_zero
  have e1 := hg a ⟨1, 0, 0⟩
  have e2 := hg a ⟨0, 1, 0⟩
  have e3 := hg a ⟨0, 0, 1⟩
  have e4 := hg a a
  have e5 := hg ⟨1, 0, 0⟩ ⟨1, 0, 0⟩
  have e6 := hg ⟨0, 1, 0⟩ ⟨0, 1, 0⟩
  have e7 := hg ⟨0, 0, 1⟩ ⟨0, 0, 1⟩
  have e8 := hg ⟨1, 0, 0⟩ ⟨0, 1, 0⟩
  have e9 := hg ⟨1, 0, 0⟩ ⟨0, 0, 1⟩
  have e10 := hg ⟨0, 1, 0⟩ ⟨0, 0, 1⟩
  simp only [lin, dot, sub_x, sub_y, sub_z, add_x, add_y, add_z, smul_x, smul_y, smul_z] at *
  linear_combination e4 - 2 * a.x * e1 - 2 * a.y * e2 - 2 * a.z * e3 + a.x ^ 2 * e5 + a.y ^ 2 * e6 +
    a.z ^ 2 * e7 + 2 * a.x * a.y * e8 + 2 * a.x * a.z * e9 + 2 * a.y * a.z * e10

/-- Orthonormal with determinant 1. -/
structure Rot (u v w : Vec3 ℝ) : Prop extends Orthonormal3 u v w where
  det : dot u (cross v w) = 1

theorem Rot.cross_eq {u v w : Vec3 ℝ} (h : Rot u v w) : u = cross v w := by
  apply sub_eq_zero'
  apply sq_sum_zero
  obtain ⟨⟨h1, h2, h3, h4, h5, h6⟩, h7⟩ := h
  simp only [dot, cross, sub_x, sub_y, sub_z] at *
  linear_combination h1 - 2 * h7 + h2 * (w.x * w.x + w.y * w.y + w.z * w.z) + h3 -
    (v.x * w.x + v.y * w.y + v.z * w.z) * h6

theorem Rot.cycle {u v w : Vec3 ℝ} (h : Rot u v w) : Rot v w u := by
  obtain ⟨⟨h1, h2, h3, h4, h5, h6⟩, h7⟩ := h
  refine ⟨⟨h2, h3, h1, h6, ?_, ?_⟩, ?_⟩ <;> simp only [dot, cross] at *
  · linear_combination h4
  · linear_combination h5
  · linear_combination h7

theorem Rot.rows {u v w : Vec3 ℝ} (h : Rot u v w) :
    (u.x ^ 2 + v.x ^ 2 + w.x ^ 2 = 1 ∧ u.y ^ 2 + v.y ^ 2 + w.y ^ 2 = 1 ∧ u.z ^ 2 + v.z ^ 2 + w.z ^ 2 = 1) ∧
    u.x * u.y + v.x * v.y + w.x * w.y = 0 ∧ u.x * u.z + v.x * v.z + w.x * w.z = 0 ∧
      u.y * u.z + v.y * v.z + w.y * w.z = 0 := by
  have c1 := h.cross_eq
  have c2 := h.cycle.cross_eq
  have c3 := h.cycle.cycle.cross_eq
  have d := h.det
  have x1 := congrArg Vec3.x c1
  have y1 := congrArg Vec3.y c1
  have z1 := congrArg Vec3.z c1
  have x2 := congrArg Vec3.x c2
  have y2 := congrArg Vec3.y c2
  have z2 := congrArg Vec3.z c2
  have x3 := congrArg Vec3.x c3
  have y3 := congrArg Vec3.y c3
  have z3 := congrArg Vec3.z c3
  simp only [cross, dot] at *
  refine ⟨⟨?_, ?_, ?_⟩, ?_, ?_, ?_⟩
  · linear_combination d + u.x * x1 + v.x * x2 + w.x * x3
  · linear_combination d + u.y * y1 + v.y * y2 + w.y * y3
  · linear_combination d + u.z * z1 + v.z * z2 + w.z * z3
  · linear_combination u.y * x1 + v.y * x2 + w.y * x3
  · linear_combination u.z * x1 + v.z * x2 + w.z * x3
  · linear_combination u.z * y1 + v.z * y2 + w.z * y3

end Euclid

namespace Klein

open PGA PGA.MV Euclid

/-- The action of a rotor on a point of weight 1. -/
theorem Rotor.onPoint_at (isa : Isa) (r : Rotor ℝ) (h : r.sqNorm = 1) (a : Vec3 ℝ) :
    r.onPoint isa (Point.at a) = Point.at (lin
      ⟨r.p1.l0 ^ 2 + r.p1.l1 ^ 2 - r.p1.l2 ^ 2 - r.p1.l3 ^ 2,
        2 * (r.p1.l1 * r.p1.l2 - r.p1.l0 * r.p1.l3), 2 * (r.p1.l1 * r.p1.l3 + r.p1.l0 * r.p1.l2)⟩
      ⟨2 * (r.p1.l1 * r.p1.l2 + r.p1.l0 * r.p1.l3),
        r.p1.l0 ^ 2 + r.p1.l2 ^ 2 - r.p1.l1 ^ 2 - r.p1.l3 ^ 2,
        2 * (r.p1.l2 * r.p1.l3 - r.p1.l0 * r.p1.l1)⟩
      ⟨2 * (r.p1.l1 * r.p1.l3 - r.p1.l0 * r.p1.l2), 2 * (r.p1.l2 * r.p1.l3 + r.p1.l0 * r.p1.l1),
        r.p1.l0 ^ 2 + r.p1.l3 ^ 2 - r.p1.l1 ^ 2 - r.p1.l2 ^ 2⟩ a) := by
  simp only [Rotor.sqNorm, kln, sse] at h
  cases isa <;>
    simp only [kln, sse, cond_true, cond_false, Point.at, lin, add_x, add_y, add_z, smul_x, smul_y, smul_z,
      Point.mk.injEq, V4.mk.injEq] <;>
    refine ⟨?_, ?_, ?_, ?_⟩
  all_goals first | ring1 | linear_combination h

/-- A rotation matrix other than a half turn comes from a rotor. -/
theorem Rot.rotor_generic {u v w : Vec3 ℝ} (h : Rot u v w) (hs : 0 < 1 + u.x + v.y + w.z) :
    ∃ r : Rotor ℝ, r.sqNorm = 1 ∧ ∀ (isa : Isa) a, r.onPoint isa (Point.at a) = Point.at (lin u v w a) := by
  obtain ⟨⟨rx, ry, rz⟩, rxy, rxz, ryz⟩ := h.rows
  have c1 := h.cross_eq
  have c2 := h.cycle.cross_eq
  have c3 := h.cycle.cycle.cross_eq
  have x1 := congrArg Vec3.x c1
  have y1 := congrArg Vec3.y c1
  have z1 := congrArg Vec3.z c1
  have x2 := congrArg Vec3.x c2
  have y2 := congrArg Vec3.y c2
  have z2 := congrArg Vec3.z c2
  have x3 := congrArg Vec3.x c3
  have y3 := congrArg Vec3.y c3
  have z3 := congrArg Vec3.z c3
  obtain ⟨⟨huu, hvv, hww, huv, huw, hvw⟩, -⟩ := h
  simp only [cross, dot] at *
  -- the squares and products of the antisymmetric part
  have aa : (w.y - v.z) ^ 2 = (1 + u.x + v.y + w.z) * (1 + u.x - v.y - w.z) := by
    linear_combination ry + rz - huu - 2 * x1
  have bb : (u.z - w.x) ^ 2 = (1 + u.x + v.y + w.z) * (1 + v.y - u.x - w.z) := by
    linear_combination rx + rz - hvv - 2 * y2
  have cc : (v.x - u.y) ^ 2 = (1 + u.x + v.y + w.z) * (1 + w.z - u.x - v.y) := by
    linear_combination rx + ry - hww - 2 * z3
  have ab : (w.y - v.z) * (u.z - w.x) = (1 + u.x + v.y + w.z) * (v.x + u.y) := by
    linear_combination -x2 - y1 - rxy - huv
  have ac : (w.y - v.z) * (v.x - u.y) = (1 + u.x + v.y + w.z) * (w.x + u.z) := by
    linear_combination -x3 - z1 - rxz - huw
  have bc : (u.z - w.x) * (v.x - u.y) = (1 + u.x + v.y + w.z) * (w.y + v.z) := by
    linear_combination -y3 - z2 - ryz - hvw
  set s := 1 + u.x + v.y + w.z with hs'
  have hq := Real.sq_sqrt hs.le
  have hq0 : 0 < Real.sqrt s := Real.sqrt_pos.2 hs
  set q := Real.sqrt s with hqdef
  have hqn : q ≠ 0 := hq0.ne'
  have hs0 : s ≠ 0 := hs.ne'
  have f0 : (q / 2) ^ 2 = s / 4 := by rw [div_pow, hq]; ring
  have fA : ∀ A : ℝ, q / 2 * (A / (2 * q)) = A / 4 := by intro A; field_simp; ring
  have fAB : ∀ A B : ℝ, A / (2 * q) * (B / (2 * q)) = A * B / (4 * s) := by
    intro A B; rw [← hq]; field_simp; ring
  have fAA : ∀ A : ℝ, (A / (2 * q)) ^ 2 = A ^ 2 / (4 * s) := by
    intro A; rw [← hq]; field_simp; ring
  have sA : ∀ x : ℝ, s * x / (4 * s) = x / 4 := by intro x; field_simp
  have hN : (⟨⟨q / 2, (w.y - v.z) / (2 * q), (u.z - w.x) / (2 * q), (v.x - u.y) / (2 * q)⟩⟩ : Rotor ℝ).sqNorm = 1 := by
    have : (⟨⟨q / 2, (w.y - v.z) / (2 * q), (u.z - w.x) / (2 * q), (v.x - u.y) / (2 * q)⟩⟩ : Rotor ℝ).sqNorm =
        (q / 2) ^ 2 + ((w.y - v.z) / (2 * q)) ^ 2 + ((u.z - w.x) / (2 * q)) ^ 2 + ((v.x - u.y) / (2 * q)) ^ 2 := by
      simp only [Rotor.sqNorm, kln, sse]; ring
    rw [this, f0, fAA, fAA, fAA, aa, bb, cc, sA, sA, sA, hs']; ring
  refine ⟨_, hN, fun isa a => ?_⟩
  rw [Rotor.onPoint_at isa _ hN]
  dsimp only
  rw [f0, fAA, fAA, fAA, fA, fA, fA, fAB, fAB, fAB, aa, bb, cc, ab, ac, bc, sA, sA, sA, sA, sA, sA]
  congr 1
  apply Vec3.ext <;> simp only [lin, add_x, add_y, add_z, smul_x, smul_y, smul_z] <;> rw [hs'] <;> ring

/-- Every rotation matrix comes from a rotor. -/
theorem Rot.rotor {u v w : Vec3 ℝ} (h : Rot u v w) :
    ∃ r : Rotor ℝ, r.sqNorm = 1 ∧ ∀ (isa : Isa) a, r.onPoint isa (Point.at a) = Point.at (lin u v w a) := by
  -- turning first by a half turn about one of the axes avoids trace -1
  have key : ∀ (k : V4 ℝ) (u' v' w' : Vec3 ℝ), Rot u' v' w' → 0 < 1 + u'.x + v'.y + w'.z →
      (⟨k⟩ : Rotor ℝ).sqNorm = 1 →
      (∀ (isa : Isa) a, ∃ b, (⟨k⟩ : Rotor ℝ).onPoint isa (Point.at a) = Point.at b ∧
        lin u' v' w' b = lin u v w a) →
      ∃ r : Rotor ℝ, r.sqNorm = 1 ∧ ∀ (isa : Isa) a, r.onPoint isa (Point.at a) = Point.at (lin u v w a) := by
    intro k u' v' w' h' hs hk hact
    obtain ⟨r, hr, hr'⟩ := Rot.rotor_generic h' hs
    refine ⟨r.mulRotor ⟨k⟩, ?_, fun isa a => ?_⟩
    · have : (r.mulRotor ⟨k⟩).sqNorm = r.sqNorm * (⟨k⟩ : Rotor ℝ).sqNorm := by
        simp only [Rotor.sqNorm, kln, sse, cond_true, cond_false]; ring
      rw [this, hr, hk, one_mul]
    · obtain ⟨b, hb, hb'⟩ := hact isa a
      rw [C16_rotor_rotor_point, hb, hr', hb']
  obtain ⟨⟨huu, hvv, hww, huv, huw, hvw⟩, hd⟩ := h
  rcases lt_or_ge 0 (1 + u.x + v.y + w.z) with h0 | h0
  · exact Rot.rotor_generic ⟨⟨huu, hvv, hww, huv, huw, hvw⟩, hd⟩ h0
  rcases lt_or_ge 0 (1 + u.x - v.y - w.z) with h1 | h1
  · refine key ⟨0, 1, 0, 0⟩ u (-v) (-w) ⟨⟨?_, ?_, ?_, ?_, ?_, ?_⟩, ?_⟩ ?_ ?_ fun isa a =>
      ⟨⟨a.x, -a.y, -a.z⟩, ?_, ?_⟩
    any_goals simp only [dot, cross, neg_x, neg_y, neg_z] at *; linarith
    · simp [Rotor.sqNorm, kln, sse]
    · rw [Rotor.onPoint_at isa _ (by simp [Rotor.sqNorm, kln, sse])]
      congr 1; apply Vec3.ext <;> simp [lin]
    · apply Vec3.ext <;> simp [lin]
  rcases lt_or_ge 0 (1 + v.y - u.x - w.z) with h2 | h2
  · refine key ⟨0, 0, 1, 0⟩ (-u) v (-w) ⟨⟨?_, ?_, ?_, ?_, ?_, ?_⟩, ?_⟩ ?_ ?_ fun isa a =>
      ⟨⟨-a.x, a.y, -a.z⟩, ?_, ?_⟩
    any_goals simp only [dot, cross, neg_x, neg_y, neg_z] at *; linarith
    · simp [Rotor.sqNorm, kln, sse]
    · rw [Rotor.onPoint_at isa _ (by simp [Rotor.sqNorm, kln, sse])]
      congr 1; apply Vec3.ext <;> simp [lin]
    · apply Vec3.ext <;> simp [lin]
  · refine key ⟨0, 0, 0, 1⟩ (-u) (-v) w ⟨⟨?_, ?_, ?_, ?_, ?_, ?_⟩, ?_⟩ ?_ ?_ fun isa a =>
      ⟨⟨-a.x, -a.y, a.z⟩, ?_, ?_⟩
    any_goals simp only [dot, cross, neg_x, neg_y, neg_z] at *; linarith
    · simp [Rotor.sqNorm, kln, sse]
    · rw [Rotor.onPoint_at isa _ (by simp [Rotor.sqNorm, kln, sse])]
      congr 1; apply Vec3.ext <;> simp [lin]
    · apply Vec3.ext <;> simp [lin]

theorem Rigid.rot {f : Vec3 ℝ → Vec3 ℝ} (h : Rigid f) :
    ∃ t u v w, Rot u v w ∧ ∀ a, f a = t + lin u v w a := by
  obtain ⟨t, u, v, w, ho, hf⟩ := h.1.linear
  refine ⟨t, u, v, w, ⟨ho, ?_⟩, hf⟩
  have := h.2 0 ⟨1, 0, 0⟩ ⟨0, 1, 0⟩ ⟨0, 0, 1⟩
  rw [hf, hf, hf, hf] at this
  simp only [vol, dot, cross, lin, add_x, add_y, add_z, sub_x, sub_y, sub_z, smul_x, smul_y, smul_z,
    zero_x, zero_y, zero_z] at this ⊢
  linear_combination this

/-- C76: every rigid motion of space is the action of a normalised motor. -/
theorem C76_surjective {f : Vec3 ℝ → Vec3 ℝ} (h : Rigid f) :
    ∃ m : Motor ℝ, m.Normed ∧ ∀ a, m.onPoint (Point.at a) = Point.at (f a) := by
  obtain ⟨t, u, v, w, hr, hf⟩ := Rigid.rot h
  obtain ⟨r, hN, hact⟩ := Rot.rotor hr
  refine ⟨(⟨⟨0, -t.x / 2, -t.y / 2, -t.z / 2⟩⟩ : Translator ℝ).mulRotor r, ?_, fun a => ?_⟩
  · rw [Motor.Normed, C06_translator_mul_rotor _ _ rfl]
    simp only [Rotor.sqNorm, kln, sse] at hN
    have hT : (⟨⟨0, -t.x / 2, -t.y / 2, -t.z / 2⟩⟩ : Translator ℝ).mv *
        PGA.MV.rev (⟨⟨0, -t.x / 2, -t.y / 2, -t.z / 2⟩⟩ : Translator ℝ).mv = 1 := by mv_ring
    have hR : r.mv * PGA.MV.rev r.mv = 1 := by
      apply MV.ext <;> simp only [pga] <;> first | ring1 | linear_combination hN
    rw [PGA.MV.rev_mul, mul_assoc, ← mul_assoc r.mv, hR, one_mul, hT]
  · rw [C16_translator_rotor_point .sse3 _ _ _ rfl, hact, C14_translator_point_coords, hf]
    apply Point.ext
    apply V4.ext <;> simp [kln, sse, Point.at] <;> ring

/-- A normalised motor maps points of weight 1 to points of weight 1. -/
theorem Motor.Normed.onPoint_at {m : Motor ℝ} (h : m.Normed) (a : Vec3 ℝ) :
    m.onPoint (Point.at a) = Point.at (m.onPoint (Point.at a)).pos := by
  have hw := (C17_rigid m h (Point.at a) a a a a).1
  apply Point.ext
  apply V4.ext
  · simpa [kln, sse, Point.at] using hw
  all_goals rfl

/-- C76: the motions of normalised motors are exactly the rigid motions. -/
theorem C76_rigid_iff (f : Vec3 ℝ → Vec3 ℝ) :
    Rigid f ↔ ∃ m : Motor ℝ, m.Normed ∧ ∀ a, m.onPoint (Point.at a) = Point.at (f a) := by
  refine ⟨C76_surjective, ?_⟩
  rintro ⟨m, hm, hf⟩
  have e : ∀ a, f a = (m.onPoint (Point.at a)).pos := fun a => by rw [hf, Point.at_pos]
  refine ⟨fun a b => ?_, fun a b c d => ?_⟩
  · rw [e, e]; exact (C17_rigid m hm (Point.at a) a b a a).2.1
  · rw [e, e, e, e]; exact (C17_rigid m hm (Point.at a) a b c d).2.2

/-- A normalised motor that fixes every point is 1 or -1. -/
theorem Motor.Normed.kernel {m : Motor ℝ} (h : m.Normed)
    (hid : ∀ a, m.onPoint (Point.at a) = Point.at a) : m.mv = 1 ∨ m.mv = -1 := by
  have hN := Motor.sqNorm_eq_one h
  have hB : m.bc = 0 := by linarith [Motor.bc_eq_zero m h]
  have e0 := hid 0
  have e1 := hid ⟨1, 0, 0⟩
  have e2 := hid ⟨0, 1, 0⟩
  obtain ⟨⟨b0, b1, b2, b3⟩, ⟨c0, c1, c2, c3⟩⟩ := m
  have x0 := congrArg (fun p : Point ℝ => p.p3.l1) e0
  have y0 := congrArg (fun p : Point ℝ => p.p3.l2) e0
  have z0 := congrArg (fun p : Point ℝ => p.p3.l3) e0
  have x1 := congrArg (fun p : Point ℝ => p.p3.l1) e1
  have y2 := congrArg (fun p : Point ℝ => p.p3.l2) e2
  simp only [Motor.sqNorm, Motor.bc, kln, sse, cond_true, cond_false, Point.at, zero_x, zero_y, zero_z] at *
  have h23 : b2 ^ 2 + b3 ^ 2 = 0 := by linarith
  have h13 : b1 ^ 2 + b3 ^ 2 = 0 := by linarith
  have hb2 : b2 = 0 := by nlinarith [sq_nonneg b2, sq_nonneg b3]
  have hb3 : b3 = 0 := by nlinarith [sq_nonneg b2, sq_nonneg b3]
  have hb1 : b1 = 0 := by nlinarith [sq_nonneg b1, sq_nonneg b3]
  subst hb1 hb2 hb3
  have hb : b0 = 1 ∨ b0 = -1 := by
    have : (b0 - 1) * (b0 + 1) = 0 := by linarith
    rcases mul_eq_zero.1 this with h | h
    · left; linarith
    · right; linarith
  rcases hb with rfl | rfl
  · have hc0 : c0 = 0 := by linarith
    have hc1 : c1 = 0 := by linarith
    have hc2 : c2 = 0 := by linarith
    have hc3 : c3 = 0 := by linarith
    subst hc0 hc1 hc2 hc3
    left; mv_ring
  · have hc0 : c0 = 0 := by linarith
    have hc1 : c1 = 0 := by linarith
    have hc2 : c2 = 0 := by linarith
    have hc3 : c3 = 0 := by linarith
    subst hc0 hc1 hc2 hc3
    right; mv_ring

/-- C76: two normalised motors move all points alike exactly if they are equal up to sign. -/
theorem C76_injective {m n : Motor ℝ} (hm : m.Normed) (hn : n.Normed) :
    (∀ a, m.onPoint (Point.at a) = n.onPoint (Point.at a)) ↔ m.mv = n.mv ∨ m.mv = -n.mv := by
  constructor
  · intro h
    have hk := (hm.rev.mul hn).kernel fun a => by
      have e : ∀ x : Point ℝ, m.rev.onPoint (m.onPoint x) = x := by
        intro x
        rw [← C16_motor_motor_point, ← Point.mv_inj, C15_motor_on_point, C06_motor_mul_motor,
          Motor.mv_rev, hm.left]
        have h1 : PGA.MV.rev (1 : MV ℝ) = 1 := by apply MV.ext <;> simp [pga]
        rw [h1, one_mul, mul_one]
      rw [C16_motor_motor_point, ← h, e]
    rw [C06_motor_mul_motor, Motor.mv_rev] at hk
    have hmul : ∀ y, PGA.MV.rev m.mv * n.mv = y → n.mv = m.mv * y := by
      rintro y rfl
      rw [← mul_assoc, hm, one_mul]
    rcases hk with h' | h'
    · left; rw [hmul _ h', mul_one]
    · right; rw [hmul _ h', mul_neg, mul_one, neg_neg]
  · rintro (h | h) a
    · rw [← Motor.mv_inj.1 h]
    · rw [← Point.mv_inj, C15_motor_on_point, C15_motor_on_point, h]
      have : PGA.MV.rev (-n.mv) = -PGA.MV.rev n.mv := by
        apply MV.ext <;> simp [pga]
      rw [this, neg_mul, neg_mul_neg]

/-- C76: every isometry of space is the motion of a normalised motor, or such a motion followed by the
reflection in the plane `x = 0`. -/
theorem C76_isometry {f : Vec3 ℝ → Vec3 ℝ} (h : Isometric f) :
    ∃ m : Motor ℝ, m.Normed ∧ ((∀ a, m.onPoint (Point.at a) = Point.at (f a)) ∨
      ∀ a, (Plane.mk4 1 0 0 0).onPoint (m.onPoint (Point.at a)) = Point.at (f a)) := by
  obtain ⟨t, u, v, w, ho, hf⟩ := h.linear
  have hd : dot u (cross v w) ^ 2 = 1 := by
    obtain ⟨h1, h2, h3, h4, h5, h6⟩ := ho
    -- Gram determinant
    have : dot u (cross v w) ^ 2 = dot u u * (dot v v * dot w w - dot v w ^ 2) -
        dot u v * (dot u v * dot w w - dot v w * dot u w) +
        dot u w * (dot u v * dot v w - dot v v * dot u w) := by
      simp only [dot, cross]; ring
    rw [this, h1, h2, h3, h4, h5, h6]; ring
  have hp : (Plane.mk4 1 0 0 0 : Plane ℝ).sqNorm = 1 := by
    simp [Plane.sqNorm, dot, Plane.normal, kln, sse]
  have hd' : dot u (cross v w) = 1 ∨ dot u (cross v w) = -1 := by
    have : (dot u (cross v w) - 1) * (dot u (cross v w) + 1) = 0 := by linear_combination hd
    rcases mul_eq_zero.1 this with h | h
    · left; linarith
    · right; linarith
  have vols : ∀ a b c d, vol (f a) (f b) (f c) (f d) = dot u (cross v w) * vol a b c d := by
    intro a b c d
    rw [hf, hf, hf, hf]
    simp only [vol, dot, cross, lin, add_x, add_y, add_z, sub_x, sub_y, sub_z, smul_x, smul_y, smul_z]
    ring
  rcases hd' with h1 | h1
  · obtain ⟨m, hm, e⟩ := C76_surjective (f := f) ⟨h, fun a b c d => by rw [vols, h1, one_mul]⟩
    exact ⟨m, hm, Or.inl e⟩
  · obtain ⟨m, hm, e⟩ := C76_surjective (f := fun a => ((Plane.mk4 1 0 0 0).onPoint (Point.at (f a))).pos)
      ⟨fun a b => by rw [(C12_isometry _ hp (f a) (f b) 0 0).1]; exact h a b,
       fun a b c d => by rw [(C12_isometry _ hp (f a) (f b) (f c) (f d)).2, vols, h1]; ring⟩
    refine ⟨m, hm, Or.inr fun a => ?_⟩
    have hat : Point.at ((Plane.mk4 1 0 0 0).onPoint (Point.at (f a))).pos =
        (Plane.mk4 1 0 0 0).onPoint (Point.at (f a)) := by
      rw [C12_mirror _ hp]; rfl
    rw [e, hat, (C12_involution _ hp _ (Plane.mk4 1 0 0 0) ⟨setzero_ps, setzero_ps⟩).1]

/-- C76: the rotations about the origin are exactly the actions of unit rotors. -/
theorem C76_rotor (isa : Isa) (f : Vec3 ℝ → Vec3 ℝ) :
    Rigid f ∧ f 0 = 0 ↔ ∃ r : Rotor ℝ, r.sqNorm = 1 ∧ ∀ a, r.onPoint isa (Point.at a) = Point.at (f a) := by
  constructor
  · rintro ⟨h, h0⟩
    obtain ⟨t, u, v, w, hr, hf⟩ := Rigid.rot h
    obtain ⟨r, hN, hact⟩ := Rot.rotor hr
    have ht : t = 0 := by
      have := hf 0
      rw [h0] at this
      have hx := congrArg Vec3.x this
      have hy := congrArg Vec3.y this
      have hz := congrArg Vec3.z this
      simp [lin] at hx hy hz
      exact Vec3.ext hx.symm hy.symm hz.symm
    refine ⟨r, hN, fun a => ?_⟩
    rw [hact, hf, ht]
    congr 1; apply Vec3.ext <;> simp
  · rintro ⟨r, hN, hf⟩
    have e : ∀ a, (r.mulTranslator ⟨⟨0, 0, 0, 0⟩⟩).onPoint (Point.at a) = Point.at (f a) := by
      intro a
      rw [C16_rotor_translator_point isa _ _ _ rfl, C14_translator_point_coords, ← hf]
      congr 1
      apply Point.ext
      apply V4.ext <;> simp [kln, sse, Point.at]
    have hm : (r.mulTranslator ⟨⟨0, 0, 0, 0⟩⟩).Normed := by
      rw [Motor.Normed, C06_rotor_mul_translator _ _ rfl]
      have hT : (⟨⟨0, 0, 0, 0⟩⟩ : Translator ℝ).mv = 1 := by mv_ring
      rw [hT, mul_one]
      simp only [Rotor.sqNorm, kln, sse] at hN
      apply MV.ext <;> simp only [pga] <;> first | ring1 | linear_combination hN
    refine ⟨(C76_rigid_iff f).2 ⟨_, hm, e⟩, ?_⟩
    have := hf 0
    rw [Rotor.onPoint_at isa _ hN] at this
    have e := congrArg Point.pos this
    rw [Point.at_pos, Point.at_pos] at e
    rw [← e]
    apply Vec3.ext <;> simp [lin]

/-- C76 on a screw motion: the quarter turn about the `z` axis with the displacement `(1, 2, 3)` is the
action of two motors, one minus the other, and of no other normalised motor. -/
example : ∃ m : Motor ℝ, m.Normed ∧
    (∀ a : Vec3 ℝ, m.onPoint (Point.at a) = Point.at ⟨1 - a.y, 2 + a.x, 3 + a.z⟩) ∧
    ∀ n : Motor ℝ, n.Normed → (∀ a : Vec3 ℝ, n.onPoint (Point.at a) = Point.at ⟨1 - a.y, 2 + a.x, 3 + a.z⟩) →
      n.mv = m.mv ∨ n.mv = -m.mv := by
  obtain ⟨m, hm, e⟩ := C76_surjective (f := fun a => ⟨1 - a.y, 2 + a.x, 3 + a.z⟩)
    ⟨fun a b => by simp only [sqDist, dot, sub_x, sub_y, sub_z]; ring,
     fun a b c d => by simp only [vol, dot, cross, sub_x, sub_y, sub_z]; ring⟩
  exact ⟨m, hm, e, fun n hn h => (C76_injective hn hm).1 fun a => by rw [h, e]⟩

end Klein
