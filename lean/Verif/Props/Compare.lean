import Verif.Spec.RealLib
import Verif.Float.Basic
import Mathlib.Tactic.Ring
import Mathlib.Tactic.NormNum
import Mathlib.Tactic.Linarith

/-!
# C44, C45: constrain, equality, approximate equality

Stated for every lane arithmetic where possible, over the reals for the geometric reading, and for
all binary32 bit patterns (`Libm.f32 base`, any elementary functions).
-/

set_option linter.unusedSimpArgs false

namespace Klein

/-! ### C44: constrain -/

section Raw
variable {F : Type} [Add F] [Sub F] [Mul F] [Neg F] [Zero F] [One F] [NatCast F]

/-- All lanes with their sign flipped. -/
def V4.flip (a : V4 F) : V4 F := ⟨-a.l0, -a.l1, -a.l2, -a.l3⟩

/-- `constrain` either does nothing or flips every sign, according to the sign of the scalar. -/
theorem C44_rotor_constrain (lm : Libm F) (r : Rotor F) :
    r.constrain lm = bif lm.signbit r.p1.l0 then ⟨r.p1.flip⟩ else r := by
  unfold Rotor.constrain; cases lm.signbit r.p1.l0 <;> rfl

theorem C44_motor_constrain (lm : Libm F) (m : Motor F) :
    m.constrain lm = bif lm.signbit m.p1.l0 then ⟨m.p1.flip, m.p2.flip⟩ else m := by
  unfold Motor.constrain; cases lm.signbit m.p1.l0 <;> rfl

/-- The lanes for which two sign flips cancel in products. -/
structure SignFree (P : F → Prop) : Prop where
  neg_mul_neg : ∀ a b, P a → P b → -a * -b = a * b

/-- All four lanes satisfy `P`. -/
def V4.All (P : F → Prop) (a : V4 F) : Prop := P a.l0 ∧ P a.l1 ∧ P a.l2 ∧ P a.l3

/-- The action does not change, bit for bit, in any arithmetic in which two sign flips cancel in
products of the lanes at hand. -/
theorem C44_motor_onPoint_bits {P : F → Prop} (hP : SignFree P) (lm : Libm F) (m : Motor F)
    (h1 : m.p1.All P) (h2 : m.p2.All P) (x : Point F) :
    (m.constrain lm).onPoint x = m.onPoint x := by
  rw [C44_motor_constrain]
  obtain ⟨a0, a1, a2, a3⟩ := h1
  obtain ⟨b0, b1, b2, b3⟩ := h2
  cases lm.signbit m.p1.l0
  · rfl
  · simp only [cond_true, Motor.onPoint, sw312, sw312_rot, sw312_trans, V4.flip, mul_ps, swz,
      V4.get, add_ps, sub_ps, hP.neg_mul_neg _ _, a0, a1, a2, a3, b0, b1, b2, b3]

theorem C44_motor_onPlane_bits {P : F → Prop} (hP : SignFree P) (lm : Libm F) (isa : Isa)
    (m : Motor F) (h1 : m.p1.All P) (h2 : m.p2.All P) (x : Plane F) :
    (m.constrain lm).onPlane isa x = m.onPlane isa x := by
  rw [C44_motor_constrain]
  obtain ⟨a0, a1, a2, a3⟩ := h1
  obtain ⟨b0, b1, b2, b3⟩ := h2
  cases lm.signbit m.p1.l0
  · rfl
  · simp only [cond_true, Motor.onPlane, sw012, sw012_rot, sw012_trans, V4.flip, mul_ps, swz,
      V4.get, add_ps, sub_ps, xor_ps, flip_ss, cond_false,
      hP.neg_mul_neg _ _, a0, a1, a2, a3, b0, b1, b2, b3]

theorem C44_motor_onLine_bits {P : F → Prop} (hP : SignFree P) (lm : Libm F)
    (m : Motor F) (h1 : m.p1.All P) (h2 : m.p2.All P) (x : Line F) :
    (m.constrain lm).onLine x = m.onLine x := by
  rw [C44_motor_constrain]
  obtain ⟨a0, a1, a2, a3⟩ := h1
  obtain ⟨b0, b1, b2, b3⟩ := h2
  cases lm.signbit m.p1.l0
  · rfl
  · simp only [cond_true, Motor.onLine, swMM_line, swMM_rot, swMM_trans, V4.flip, mul_ps, swz,
      V4.get, add_ps, sub_ps, xor_ps, flip_ss, cond_false,
      hP.neg_mul_neg _ _, a0, a1, a2, a3, b0, b1, b2, b3]

theorem C44_motor_onDirection_bits {P : F → Prop} (hP : SignFree P) (lm : Libm F)
    (m : Motor F) (h1 : m.p1.All P) (x : Direction F) :
    (m.constrain lm).onDirection x = m.onDirection x := by
  rw [C44_motor_constrain]
  obtain ⟨a0, a1, a2, a3⟩ := h1
  cases lm.signbit m.p1.l0
  · rfl
  · simp only [cond_true, Motor.onDirection, sw312, sw312_rot, V4.flip, mul_ps, swz,
      V4.get, add_ps, sub_ps, hP.neg_mul_neg _ _, a0, a1, a2, a3]

theorem C44_rotor_onPlane_bits {P : F → Prop} (hP : SignFree P) (lm : Libm F) (isa : Isa)
    (r : Rotor F) (h1 : r.p1.All P) (x : Plane F) :
    (r.constrain lm).onPlane isa x = r.onPlane isa x := by
  rw [C44_rotor_constrain]
  obtain ⟨a0, a1, a2, a3⟩ := h1
  cases lm.signbit r.p1.l0
  · rfl
  · simp only [cond_true, Rotor.onPlane, sw012, sw012_rot, V4.flip, mul_ps, swz,
      V4.get, add_ps, sub_ps, xor_ps, flip_ss, cond_false,
      hP.neg_mul_neg _ _, a0, a1, a2, a3]

theorem C44_rotor_onPoint_bits {P : F → Prop} (hP : SignFree P) (lm : Libm F) (isa : Isa)
    (r : Rotor F) (h1 : r.p1.All P) (x : Point F) :
    (r.constrain lm).onPoint isa x = r.onPoint isa x :=
  congrArg (fun p : Plane F => (⟨p.p0⟩ : Point F)) (C44_rotor_onPlane_bits hP lm isa r h1 ⟨x.p3⟩)

theorem C44_rotor_onDirection_bits {P : F → Prop} (hP : SignFree P) (lm : Libm F) (isa : Isa)
    (r : Rotor F) (h1 : r.p1.All P) (x : Direction F) :
    (r.constrain lm).onDirection isa x = r.onDirection isa x :=
  congrArg (fun p : Plane F => (⟨p.p0⟩ : Direction F))
    (C44_rotor_onPlane_bits hP lm isa r h1 ⟨x.p3⟩)

theorem C44_rotor_onLine_bits {P : F → Prop} (hP : SignFree P) (lm : Libm F)
    (r : Rotor F) (h1 : r.p1.All P) (x : Line F) :
    (r.constrain lm).onLine x = r.onLine x := by
  rw [C44_rotor_constrain]
  obtain ⟨a0, a1, a2, a3⟩ := h1
  cases lm.signbit r.p1.l0
  · rfl
  · simp only [cond_true, Rotor.onLine, swMM_line, swMM_rot, V4.flip, mul_ps, swz,
      V4.get, add_ps, sub_ps, xor_ps, flip_ss, cond_false,
      hP.neg_mul_neg _ _, a0, a1, a2, a3]

theorem C44_rotor_onBranch_bits {P : F → Prop} (hP : SignFree P) (lm : Libm F)
    (r : Rotor F) (h1 : r.p1.All P) (x : Branch F) :
    (r.constrain lm).onBranch x = r.onBranch x := by
  rw [C44_rotor_constrain]
  obtain ⟨a0, a1, a2, a3⟩ := h1
  cases lm.signbit r.p1.l0
  · rfl
  · simp only [cond_true, Rotor.onBranch, swMM_branch, swMM_rot, V4.flip, mul_ps, swz,
      V4.get, add_ps, sub_ps, xor_ps, flip_ss, cond_false,
      hP.neg_mul_neg _ _, a0, a1, a2, a3]

end Raw

/-- Exact arithmetic: every lane qualifies, so the motion is unchanged. -/
theorem signFree_ring {K : Type} [CommRing K] : SignFree (fun _ : K => True) :=
  ⟨fun a b _ _ => neg_mul_neg a b⟩

/-- binary32: every lane that is not NaN qualifies. -/
theorem signFree_f32 : SignFree (fun a : F32 => a.isNaN = false) :=
  ⟨fun _ _ ha hb => F32.neg_mul_neg' ha hb⟩

/-- All bit patterns without NaN: the constrained motor moves every point identically. -/
theorem C44_motor_onPoint_f32 (base : Libm F32) (m : Motor F32)
    (h1 : m.p1.All (fun a => a.isNaN = false)) (h2 : m.p2.All (fun a => a.isNaN = false))
    (x : Point F32) : (m.constrain (Libm.f32 base)).onPoint x = m.onPoint x :=
  C44_motor_onPoint_bits signFree_f32 _ m h1 h2 x

theorem C44_rotor_onPlane_f32 (base : Libm F32) (isa : Isa) (r : Rotor F32)
    (h1 : r.p1.All (fun a => a.isNaN = false)) (x : Plane F32) :
    (r.constrain (Libm.f32 base)).onPlane isa x = r.onPlane isa x :=
  C44_rotor_onPlane_bits signFree_f32 _ isa r h1 x

theorem C44_motor_onPoint_exact {K : Type} [CommRing K] (lm : Libm K) (m : Motor K) (x : Point K) :
    (m.constrain lm).onPoint x = m.onPoint x :=
  C44_motor_onPoint_bits signFree_ring lm m ⟨trivial, trivial, trivial, trivial⟩
    ⟨trivial, trivial, trivial, trivial⟩ x

/-- The scalar part becomes non-negative. -/
theorem C44_rotor_scalar_nonneg (r : Rotor ℝ) : 0 ≤ (r.constrain Libm.real).p1.l0 := by
  rw [C44_rotor_constrain]
  by_cases h : r.p1.l0 < 0
  · simp [Libm.real, h, V4.flip, h.le]
  · simp only [Libm.real, h, decide_false, cond_false]; exact not_lt.1 h

theorem C44_motor_scalar_nonneg (m : Motor ℝ) : 0 ≤ (m.constrain Libm.real).p1.l0 := by
  rw [C44_motor_constrain]
  by_cases h : m.p1.l0 < 0
  · simp [Libm.real, h, V4.flip, h.le]
  · simp only [Libm.real, h, decide_false, cond_false]; exact not_lt.1 h

theorem C44_rotor_idempotent (r : Rotor ℝ) :
    (r.constrain Libm.real).constrain Libm.real = r.constrain Libm.real := by
  rw [C44_rotor_constrain _ (r.constrain _), show Libm.real.signbit (r.constrain _).p1.l0 = false
    from decide_eq_false (not_lt.2 (C44_rotor_scalar_nonneg r)), cond_false]

theorem C44_motor_idempotent (m : Motor ℝ) :
    (m.constrain Libm.real).constrain Libm.real = m.constrain Libm.real := by
  rw [C44_motor_constrain _ (m.constrain _), show Libm.real.signbit (m.constrain _).p1.l0 = false
    from decide_eq_false (not_lt.2 (C44_motor_scalar_nonneg m)), cond_false]

/-- Bit patterns: the sign bit of the scalar is cleared, -0 and NaN included. -/
theorem C44_rotor_sign_f32 (base : Libm F32) (r : Rotor F32) :
    (r.constrain (Libm.f32 base)).p1.l0.sign = false := by
  rw [C44_rotor_constrain]
  cases h : r.p1.l0.sign <;> simp [Libm.f32, h, V4.flip]

theorem C44_motor_sign_f32 (base : Libm F32) (m : Motor F32) :
    (m.constrain (Libm.f32 base)).p1.l0.sign = false := by
  rw [C44_motor_constrain]
  cases h : m.p1.l0.sign <;> simp [Libm.f32, h, V4.flip]

theorem C44_rotor_idempotent_f32 (base : Libm F32) (r : Rotor F32) :
    (r.constrain (Libm.f32 base)).constrain (Libm.f32 base) = r.constrain (Libm.f32 base) := by
  rw [C44_rotor_constrain _ (r.constrain _)]
  rw [show (Libm.f32 base).signbit = F32.sign from rfl, C44_rotor_sign_f32]; rfl

theorem C44_motor_idempotent_f32 (base : Libm F32) (m : Motor F32) :
    (m.constrain (Libm.f32 base)).constrain (Libm.f32 base) = m.constrain (Libm.f32 base) := by
  rw [C44_motor_constrain _ (m.constrain _)]
  rw [show (Libm.f32 base).signbit = F32.sign from rfl, C44_motor_sign_f32]; rfl

/-- Only sign bits ever change. -/
theorem C44_motor_mag_f32 (base : Libm F32) (m : Motor F32) (i : Fin 4) :
    ((m.constrain (Libm.f32 base)).p1.get i).mag = (m.p1.get i).mag ∧
    ((m.constrain (Libm.f32 base)).p2.get i).mag = (m.p2.get i).mag := by
  rw [C44_motor_constrain]
  cases (Libm.f32 base).signbit m.p1.l0
  · exact ⟨rfl, rfl⟩
  · match i with
    | 0 => exact ⟨rfl, rfl⟩
    | 1 => exact ⟨rfl, rfl⟩
    | 2 => exact ⟨rfl, rfl⟩
    | 3 => exact ⟨rfl, rfl⟩

/-- The flip happens: a concrete rotor with negative scalar. -/
theorem C44_example : (Rotor.mk ⟨-1, 2, -3, 4⟩ : Rotor ℝ).constrain Libm.real
    = ⟨⟨1, -2, 3, -4⟩⟩ := by
  rw [C44_rotor_constrain]; simp [Libm.real, V4.flip]

/-! ### C45: operator== and approx_eq -/

section Raw
variable {F : Type} [Add F] [Sub F] [Mul F] [Neg F] [Zero F] [One F] [NatCast F]

/-- `P` holds lane by lane. -/
def V4.Rel (P : F → F → Prop) (a b : V4 F) : Prop :=
  P a.l0 b.l0 ∧ P a.l1 b.l1 ∧ P a.l2 b.l2 ∧ P a.l3 b.l3

theorem C45_plane_eq (lm : Libm F) (a b : Plane F) :
    a.eqb lm b = true ↔ a.p0.Rel (fun x y => lm.feq x y = true) b.p0 := by
  simp [Plane.eqb, Libm.cmpeq_all, V4.Rel, and_assoc]

theorem C45_rotor_eq (lm : Libm F) (a b : Rotor F) :
    a.eqb lm b = true ↔ a.p1.Rel (fun x y => lm.feq x y = true) b.p1 := by
  simp [Rotor.eqb, Libm.cmpeq_all, V4.Rel, and_assoc]

theorem C45_line_eq (lm : Libm F) (a b : Line F) :
    a.eqb lm b = true ↔ a.p1.Rel (fun x y => lm.feq x y = true) b.p1 ∧
      a.p2.Rel (fun x y => lm.feq x y = true) b.p2 := by
  simp only [Line.eqb, andMask, Libm.cmpeq_ps, V4.Rel, Bool.and_eq_true]; tauto

theorem C45_motor_eq (lm : Libm F) (a b : Motor F) :
    a.eqb lm b = true ↔ a.p1.Rel (fun x y => lm.feq x y = true) b.p1 ∧
      a.p2.Rel (fun x y => lm.feq x y = true) b.p2 := by
  simp only [Motor.eqb, andMask, Libm.cmpeq_ps, V4.Rel, Bool.and_eq_true]; tauto

theorem C45_plane_approx (lm : Libm F) (a b : Plane F) (eps : F) :
    a.approx_eq lm b eps = true ↔
      a.p0.Rel (fun x y => lm.flt (lm.abs (x - y)) eps = true) b.p0 := by
  simp [Plane.approx_eq, Libm.cmplt_all, Libm.abs_ps, V4.Rel, and_assoc]

theorem C45_rotor_approx (lm : Libm F) (a b : Rotor F) (eps : F) :
    a.approx_eq lm b eps = true ↔
      a.p1.Rel (fun x y => lm.flt (lm.abs (x - y)) eps = true) b.p1 := by
  simp [Rotor.approx_eq, Libm.cmplt_all, Libm.abs_ps, V4.Rel, and_assoc]

theorem C45_line_approx (lm : Libm F) (a b : Line F) (eps : F) :
    a.approx_eq lm b eps = true ↔
      a.p1.Rel (fun x y => lm.flt (lm.abs (x - y)) eps = true) b.p1 ∧
      a.p2.Rel (fun x y => lm.flt (lm.abs (x - y)) eps = true) b.p2 := by
  simp only [Line.approx_eq, andMask, Libm.cmplt_ps, Libm.abs_ps, sub_ps, set1_ps, V4.Rel,
    Bool.and_eq_true]; tauto

theorem C45_motor_approx (lm : Libm F) (a b : Motor F) (eps : F) :
    a.approx_eq lm b eps = true ↔
      a.p1.Rel (fun x y => lm.flt (lm.abs (x - y)) eps = true) b.p1 ∧
      a.p2.Rel (fun x y => lm.flt (lm.abs (x - y)) eps = true) b.p2 := by
  simp only [Motor.approx_eq, andMask, Libm.cmplt_ps, Libm.abs_ps, sub_ps, set1_ps, V4.Rel,
    Bool.and_eq_true]; tauto

end Raw

/-! #### exact reading -/

theorem C45_plane_eq_real (a b : Plane ℝ) : a.eqb Libm.real b = true ↔ a = b := by
  rw [C45_plane_eq]; simp [V4.Rel, Libm.real, Plane.ext_iff, V4.ext_iff]
theorem C45_rotor_eq_real (a b : Rotor ℝ) : a.eqb Libm.real b = true ↔ a = b := by
  rw [C45_rotor_eq]; simp [V4.Rel, Libm.real, Rotor.ext_iff, V4.ext_iff]
theorem C45_line_eq_real (a b : Line ℝ) : a.eqb Libm.real b = true ↔ a = b := by
  rw [C45_line_eq]; simp [V4.Rel, Libm.real, Line.ext_iff, V4.ext_iff]
theorem C45_motor_eq_real (a b : Motor ℝ) : a.eqb Libm.real b = true ↔ a = b := by
  rw [C45_motor_eq]; simp [V4.Rel, Libm.real, Motor.ext_iff, V4.ext_iff]

theorem C45_motor_approx_real (a b : Motor ℝ) (eps : ℝ) :
    a.approx_eq Libm.real b eps = true ↔
      (∀ i, |a.p1.get i - b.p1.get i| < eps) ∧ ∀ i, |a.p2.get i - b.p2.get i| < eps := by
  rw [C45_motor_approx]
  simp [V4.Rel, Libm.real, Fin.forall_fin_succ, V4.get]

theorem C45_plane_approx_real (a b : Plane ℝ) (eps : ℝ) :
    a.approx_eq Libm.real b eps = true ↔ ∀ i, |a.p0.get i - b.p0.get i| < eps := by
  rw [C45_plane_approx]
  simp [V4.Rel, Libm.real, Fin.forall_fin_succ, V4.get]

/-! #### all bit patterns -/

section F32
variable (base : Libm F32)

theorem F32.feq_comm (x y : F32) : F32.feq x y = F32.feq y x := by
  unfold F32.feq
  rw [Bool.and_comm x.isZero, show (x == y) = (y == x) from Bool.beq_comm,
    Bool.and_comm (!x.isNaN)]

theorem F32.approx_comm (x y e : F32) :
    F32.flt (F32.abs (x - y)) e = F32.flt (F32.abs (y - x)) e := by
  by_cases h : x.isNaN = true ∨ y.isNaN = true
  · rw [F32.flt_nan_left _ (by rw [F32.abs_nan]; exact F32.sub_nan h),
      F32.flt_nan_left _ (by rw [F32.abs_nan]; exact F32.sub_nan h.symm)]
  · rw [not_or, Bool.not_eq_true, Bool.not_eq_true] at h
    rw [F32.abs_sub_comm' h.1 h.2]

theorem C45_motor_eq_symm_f32 (a b : Motor F32) :
    a.eqb (Libm.f32 base) b = b.eqb (Libm.f32 base) a := by
  rw [Bool.eq_iff_iff, C45_motor_eq, C45_motor_eq]
  simp only [V4.Rel, Libm.f32]
  simp only [F32.feq_comm]

theorem C45_plane_eq_symm_f32 (a b : Plane F32) :
    a.eqb (Libm.f32 base) b = b.eqb (Libm.f32 base) a := by
  rw [Bool.eq_iff_iff, C45_plane_eq, C45_plane_eq]
  simp only [V4.Rel, Libm.f32]
  simp only [F32.feq_comm]

theorem C45_motor_approx_symm_f32 (a b : Motor F32) (e : F32) :
    a.approx_eq (Libm.f32 base) b e = b.approx_eq (Libm.f32 base) a e := by
  rw [Bool.eq_iff_iff, C45_motor_approx, C45_motor_approx]
  simp only [V4.Rel, Libm.f32]
  simp only [F32.approx_comm a.p1.l0, F32.approx_comm a.p1.l1, F32.approx_comm a.p1.l2,
    F32.approx_comm a.p1.l3, F32.approx_comm a.p2.l0, F32.approx_comm a.p2.l1,
    F32.approx_comm a.p2.l2, F32.approx_comm a.p2.l3]

theorem C45_plane_approx_symm_f32 (a b : Plane F32) (e : F32) :
    a.approx_eq (Libm.f32 base) b e = b.approx_eq (Libm.f32 base) a e := by
  rw [Bool.eq_iff_iff, C45_plane_approx, C45_plane_approx]
  simp only [V4.Rel, Libm.f32]
  simp only [F32.approx_comm a.p0.l0, F32.approx_comm a.p0.l1, F32.approx_comm a.p0.l2,
    F32.approx_comm a.p0.l3]

/-- A NaN in any lane of either operand makes both comparisons false. -/
theorem C45_plane_nan_f32 (a b : Plane F32) (e : F32) (i : Fin 4)
    (h : (a.p0.get i).isNaN = true ∨ (b.p0.get i).isNaN = true) :
    a.eqb (Libm.f32 base) b = false ∧ a.approx_eq (Libm.f32 base) b e = false := by
  have h1 : F32.feq (a.p0.get i) (b.p0.get i) = false := by
    rcases h with h | h
    · exact F32.feq_nan_left _ h
    · exact F32.feq_nan_right _ h
  have h2 : F32.flt (F32.abs (a.p0.get i - b.p0.get i)) e = false :=
    F32.flt_nan_left _ (by rw [F32.abs_nan]; exact F32.sub_nan h)
  constructor <;> rw [← Bool.not_eq_true]
  · rw [C45_plane_eq]; intro ⟨r0, r1, r2, r3⟩
    match i with
    | 0 | 1 | 2 | 3 => simp_all [Libm.f32, V4.get]
  · rw [C45_plane_approx]; intro ⟨r0, r1, r2, r3⟩
    match i with
    | 0 | 1 | 2 | 3 => simp_all [Libm.f32, V4.get]

/-- `==` is not the documented bitwise comparison: different bit patterns can compare equal, and a
pattern need not compare equal to itself. -/
theorem C45_not_bitwise : (∃ a b : Plane F32, a ≠ b ∧ a.eqb (Libm.f32 base) b = true) ∧
    ∃ a : Plane F32, a.eqb (Libm.f32 base) a = false := by
  refine ⟨⟨⟨0, 0, 0, 0⟩, ⟨-0, 0, 0, 0⟩, ?_, ?_⟩, ⟨F32.defaultNaN, 0, 0, 0⟩, ?_⟩
  · decide +kernel
  · simp only [Plane.eqb, Libm.cmpeq_all, Libm.f32]; decide +kernel
  · simp only [Plane.eqb, Libm.cmpeq_all, Libm.f32]; decide +kernel

/-- Exactly which patterns compare equal. -/
theorem C45_feq_iff (x y : F32) : F32.feq x y = true ↔
    x.isNaN = false ∧ y.isNaN = false ∧ (x = y ∨ x.isZero = true ∧ y.isZero = true) := by
  simp [F32.feq, and_assoc]

/-- Every plane with finite lanes is approximately equal to itself for a positive epsilon. -/
theorem C45_plane_approx_refl_f32 (a : Plane F32) (e : F32)
    (ha : a.p0.All (fun x => x.isFinite = true)) (he : F32.flt 0 e = true) :
    a.approx_eq (Libm.f32 base) a e = true := by
  rw [C45_plane_approx]
  obtain ⟨h0, h1, h2, h3⟩ := ha
  have hz : F32.abs 0 = 0 := rfl
  simp only [V4.Rel, Libm.f32, F32.sub_self' h0, F32.sub_self' h1, F32.sub_self' h2,
    F32.sub_self' h3, hz, he, and_self]

/-- With an infinite lane a plane equals itself but is not approximately equal to itself. -/
theorem C45_plane_approx_inf (e : F32) :
    (Plane.mk ⟨F32.inf false, 0, 0, 0⟩).eqb (Libm.f32 base) ⟨⟨F32.inf false, 0, 0, 0⟩⟩ = true ∧
    (Plane.mk ⟨F32.inf false, 0, 0, 0⟩).approx_eq (Libm.f32 base) ⟨⟨F32.inf false, 0, 0, 0⟩⟩ e
      = false := by
  constructor
  · simp only [Plane.eqb, Libm.cmpeq_all, Libm.f32]; decide +kernel
  · rw [← Bool.not_eq_true, C45_plane_approx]
    intro ⟨h, _⟩
    revert h
    simp only [Libm.f32]
    rw [F32.flt_nan_left]
    · simp
    · decide +kernel

end F32

end Klein
