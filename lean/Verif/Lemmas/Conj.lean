import Verif.Props.Composition
import Verif.Props.Sqrt

/-!
# Conjugation by a normalised motor is an automorphism of grade, exterior, inner and regressive
product
-/

set_option linter.unusedSimpArgs false

namespace Klein

open PGA PGA.MV

variable {K : Type} [CommRing K]

/-- `M x ~M`. -/
def conj (M x : MV K) : MV K := M * x * PGA.MV.rev M

theorem conj_add (M x y : MV K) : conj M (x + y) = conj M x + conj M y := by
  simp only [conj]; noncomm_ring

theorem conj_zero (M : MV K) : conj M 0 = 0 := by simp [conj]

theorem conj_mul (M x y : MV K) (h : PGA.MV.rev M * M = 1) : conj M (x * y) = conj M x * conj M y := by
  simp only [conj]
  have : M * x * PGA.MV.rev M * (M * y * PGA.MV.rev M)
      = M * x * (PGA.MV.rev M * M) * y * PGA.MV.rev M := by noncomm_ring
  rw [this, h, mul_one]; noncomm_ring

theorem conj_comp (M N x : MV K) : conj (M * N) x = conj M (conj N x) := by
  simp only [conj, rev_mul]; noncomm_ring

theorem grade_add (k : ℕ) (a b : MV K) : grade k (a + b) = grade k a + grade k b := by
  apply MV.ext <;> simp only [grade, add_s, add_e0, add_e1, add_e01, add_e2, add_e02, add_e12,
    add_e012, add_e3, add_e03, add_e13, add_e013, add_e23, add_e023, add_e123, add_e0123] <;>
    split <;> simp

section
set_option maxHeartbeats 1000000

macro "conj_ring" : tactic => `(tactic|
  (apply MV.ext <;> simp only [conj, pga, sse, kln, grade1_s, grade1_e0, grade1_e1, grade1_e01, grade1_e2, grade1_e02, grade1_e12, grade1_e012, grade1_e3, grade1_e03, grade1_e13, grade1_e013, grade1_e23, grade1_e023, grade1_e123, grade1_e0123, grade2_s, grade2_e0, grade2_e1, grade2_e01, grade2_e2, grade2_e02, grade2_e12, grade2_e012, grade2_e3, grade2_e03, grade2_e13, grade2_e013, grade2_e23, grade2_e023, grade2_e123, grade2_e0123, grade3_s, grade3_e0, grade3_e1, grade3_e01, grade3_e2, grade3_e02, grade3_e12, grade3_e012, grade3_e3, grade3_e03, grade3_e13, grade3_e013, grade3_e23, grade3_e023, grade3_e123, grade3_e0123, mul_zero, zero_mul, add_zero,
    zero_add, mul_one, one_mul, sub_zero, zero_sub, neg_zero, neg_neg] <;>
    first
    | done
    | ring1))

theorem Motor.grade1_conj (m : Motor K) (x : MV K) : grade 1 (conj m.mv x) = conj m.mv (grade 1 x) := by
  conj_ring
theorem Motor.grade2_conj (m : Motor K) (x : MV K) : grade 2 (conj m.mv x) = conj m.mv (grade 2 x) := by
  conj_ring
theorem Motor.grade3_conj (m : Motor K) (x : MV K) : grade 3 (conj m.mv x) = conj m.mv (grade 3 x) := by
  conj_ring

theorem Motor.conj_s (m : Motor K) (x : MV K) : (conj m.mv x).s = m.sqNorm * x.s := by
  simp only [conj, pga, sse, kln, Motor.sqNorm, mul_zero, zero_mul, add_zero,
    zero_add, mul_one, one_mul, sub_zero, zero_sub, neg_zero, neg_neg]; ring

theorem Motor.conj_e0123 (m : Motor K) (x : MV K) :
    (conj m.mv x).e0123 = m.sqNorm * x.e0123 + 2 * m.bc * x.s := by
  simp only [conj, pga, sse, kln, Motor.sqNorm, Motor.bc, mul_zero, zero_mul, add_zero,
    zero_add, mul_one, one_mul, sub_zero, zero_sub, neg_zero, neg_neg]; ring

theorem Motor.conj_dual (m : Motor K) (p q : K) :
    conj m.mv (Dual.mk p q).mv = (Dual.mk p q).mv * (m.mv * PGA.MV.rev m.mv) := by
  simp only [conj]; mv_ring

end

theorem Motor.bc_eq_zero (m : Motor K) (h : m.mv * PGA.MV.rev m.mv = 1) : 2 * m.bc = 0 := by
  have := congrArg MV.e0123 h
  rw [Motor.mul_rev_dual] at this
  simpa [kln, pga] using this

theorem grade_ge5 (k : ℕ) (a : MV K) : grade (k + 5) a = 0 := by
  apply MV.ext <;> simp [grade]

theorem grade_zero (k : ℕ) : grade k (0 : MV K) = 0 := by
  apply MV.ext <;> simp [grade]

theorem Motor.grade_conj (m : Motor K) (h : m.mv * PGA.MV.rev m.mv = 1) (k : ℕ) (x : MV K) :
    grade k (conj m.mv x) = conj m.mv (grade k x) := by
  have hN := Motor.sqNorm_eq_one h
  have hb := Motor.bc_eq_zero m h
  match k with
  | 0 =>
    have e : grade 0 x = (Dual.mk x.s 0).mv := by apply MV.ext <;> simp [grade, kln, pga]
    rw [e, Motor.conj_dual, h, mul_one]
    have hs := Motor.conj_s m x
    generalize conj m.mv x = y at hs ⊢
    rw [hN] at hs
    apply MV.ext <;> simp [grade, kln, pga, hs]
  | 1 => exact Motor.grade1_conj m x
  | 2 => exact Motor.grade2_conj m x
  | 3 => exact Motor.grade3_conj m x
  | 4 =>
    have e : grade 4 x = (Dual.mk 0 x.e0123).mv := by apply MV.ext <;> simp [grade, kln, pga]
    rw [e, Motor.conj_dual, h, mul_one]
    have hs := Motor.conj_e0123 m x
    generalize conj m.mv x = y at hs ⊢
    rw [hN, hb] at hs
    apply MV.ext <;> simp [grade, kln, pga, hs]
  | k + 5 => rw [grade_ge5, grade_ge5, conj_zero]

theorem Motor.wedge_conj (m : Motor K) (h : m.mv * PGA.MV.rev m.mv = 1) (a b : MV K) :
    wedge (conj m.mv a) (conj m.mv b) = conj m.mv (wedge a b) := by
  have h' : PGA.MV.rev m.mv * m.mv = 1 := by rw [Motor.rev_mul_self, h]
  have key : ∀ r s t, grade t (grade r (conj m.mv a) * grade s (conj m.mv b))
      = conj m.mv (grade t (grade r a * grade s b)) := by
    intro r s t
    rw [Motor.grade_conj m h, Motor.grade_conj m h, ← conj_mul _ _ _ h', Motor.grade_conj m h]
  rw [wedge_eq, wedge_eq]
  simp only [key, conj_add, conj_zero]

theorem Motor.inner_conj (m : Motor K) (h : m.mv * PGA.MV.rev m.mv = 1) (a b : MV K) :
    PGA.MV.inner (conj m.mv a) (conj m.mv b) = conj m.mv (PGA.MV.inner a b) := by
  have h' : PGA.MV.rev m.mv * m.mv = 1 := by rw [Motor.rev_mul_self, h]
  have key : ∀ r s t, grade t (grade r (conj m.mv a) * grade s (conj m.mv b))
      = conj m.mv (grade t (grade r a * grade s b)) := by
    intro r s t
    rw [Motor.grade_conj m h, Motor.grade_conj m h, ← conj_mul _ _ _ h', Motor.grade_conj m h]
  rw [inner_eq, inner_eq]
  simp only [key, conj_add, conj_zero]

section
set_option maxHeartbeats 2000000

theorem Rotor.J_conj (r : Rotor K) (a : MV K) : J (conj r.mv a) = conj r.mv (J a) := by
  conj_ring

theorem Translator.vee_conj (t : Translator K) (a b : MV K) :
    vee (conj t.mv a) (conj t.mv b) = conj t.mv (vee a b) := by
  simp only [vee]
  conj_ring

end

theorem Rotor.vee_conj (r : Rotor K) (h : r.sqNorm = 1) (a b : MV K) :
    vee (conj r.mv a) (conj r.mv b) = conj r.mv (vee a b) := by
  have e : (⟨r.p1, ⟨0, 0, 0, 0⟩⟩ : Motor K).mv = r.mv := rfl
  have hm : (⟨r.p1, ⟨0, 0, 0, 0⟩⟩ : Motor K).mv
      * PGA.MV.rev (⟨r.p1, ⟨0, 0, 0, 0⟩⟩ : Motor K).mv = 1 := by
    rw [Motor.mul_rev]
    have : (⟨r.p1, ⟨0, 0, 0, 0⟩⟩ : Motor K).sqNorm = 1 := h
    rw [this]
    apply MV.ext <;> simp [kln, pga]
  have hw := Motor.wedge_conj _ hm
  rw [e] at hw
  rw [vee, vee, Rotor.J_conj, Rotor.J_conj, hw, Rotor.J_conj]

/-- Every normalised motor is a rotation followed by a translation. -/
theorem Motor.decompose {K : Type} [Field K] [CharZero K] (m : Motor K)
    (h : m.mv * PGA.MV.rev m.mv = 1) :
    ∃ (t : Translator K) (r : Rotor K), t.WF ∧ r.sqNorm = 1 ∧ m.mv = t.mv * r.mv := by
  have hN := Motor.sqNorm_eq_one h
  have hb : m.bc = 0 := by
    have := Motor.bc_eq_zero m h
    simpa using this
  have hr : (⟨m.p1⟩ : Rotor K).sqNorm = 1 := hN
  refine ⟨⟨⟨0, (m.mv * PGA.MV.rev (⟨m.p1⟩ : Rotor K).mv).e01,
    (m.mv * PGA.MV.rev (⟨m.p1⟩ : Rotor K).mv).e02, (m.mv * PGA.MV.rev (⟨m.p1⟩ : Rotor K).mv).e03⟩⟩,
    ⟨m.p1⟩, rfl, hr, ?_⟩
  have e : (⟨⟨0, (m.mv * PGA.MV.rev (⟨m.p1⟩ : Rotor K).mv).e01,
    (m.mv * PGA.MV.rev (⟨m.p1⟩ : Rotor K).mv).e02,
    (m.mv * PGA.MV.rev (⟨m.p1⟩ : Rotor K).mv).e03⟩⟩ : Translator K).mv
      = m.mv * PGA.MV.rev (⟨m.p1⟩ : Rotor K).mv := by
    simp only [Motor.sqNorm, Motor.bc, kln] at hN hb
    apply MV.ext <;> simp only [pga, kln, sse, mul_zero, zero_mul, add_zero,
      zero_add, mul_one, one_mul, sub_zero, zero_sub, neg_zero, neg_neg] <;>
      first
      | ring1
      | linear_combination hN
      | linear_combination -hN
      | linear_combination hb
      | linear_combination -hb
  have e2 : PGA.MV.rev (⟨m.p1⟩ : Rotor K).mv * (⟨m.p1⟩ : Rotor K).mv = 1 := by
    simp only [Rotor.sqNorm, kln] at hr
    apply MV.ext <;> simp only [pga, kln, sse, mul_zero, zero_mul, add_zero,
      zero_add, mul_one, one_mul, sub_zero, zero_sub, neg_zero, neg_neg] <;>
      first
      | ring1
      | linear_combination hr
  rw [e, mul_assoc, e2, mul_one]

theorem Motor.vee_conj {K : Type} [Field K] [CharZero K] (m : Motor K)
    (h : m.mv * PGA.MV.rev m.mv = 1) (a b : MV K) :
    vee (conj m.mv a) (conj m.mv b) = conj m.mv (vee a b) := by
  obtain ⟨t, r, -, hr, e⟩ := Motor.decompose m h
  rw [e, conj_comp, conj_comp, conj_comp, Translator.vee_conj, Rotor.vee_conj r hr]

end Klein
