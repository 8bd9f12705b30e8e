import Verif.Props.Products32
import Verif.Props.Inverses

/-!
# C93: quotients of entities in binary32

The quotients multiply by the inverse that `invert` computes, so the error of the inverse (C78) is
carried through the product (C90).  The bounds are relative to the scale of the dividend over that of the
divisor, in units of `2^-24`; the reference is the same quotient in exact arithmetic (C26 to C28 say which of
these is the quotient of the algebra).
-/

namespace Klein

open F32 Ex Products32

/-- Four lanes that are traced with the bounds `b`: the first with `b.1`, the others with `b.2`. -/
def V4.Traced (v : V4 F32) (w : V4 ℝ) (s : Scales) (b : Bd × Bd) : Prop :=
  Tr v.l0 w.l0 s b.1 ∧ Tr v.l1 w.l1 s b.2 ∧ Tr v.l2 w.l2 s b.2 ∧ Tr v.l3 w.l3 s b.2

namespace Quot32

variable {F : Type} [Add F] [Sub F] [Mul F] [Neg F] [Zero F] [One F] [NatCast F]
variable {A B C : ℝ} {hw : Hw F32} {hwr : Hw ℝ}

/-- The bounds of the lanes of four registers. -/
def gradeB (a b c d : Bd × Bd) : ℕ → Bd
  | 0 => a.1 | 1 | 2 | 3 => a.2
  | 4 => b.1 | 5 | 6 | 7 => b.2
  | 8 => c.1 | 9 | 10 | 11 => c.2
  | 12 => d.1 | _ => d.2

theorem tr_envB {s : Scales} {a b c d : V4 F32} {a' b' c' d' : V4 ℝ} {ga gb gc gd : Bd × Bd} (ha : a.Traced a' s ga)
    (hb : b.Traced b' s gb) (hc : c.Traced c' s gc) (hd : d.Traced d' s gd) (n : ℕ) :
    Tr (env a b c d n) (env a' b' c' d' n) s (gradeB ga gb gc gd n) := by
  match n with
  | 0 => exact ha.1
  | 1 => exact ha.2.1
  | 2 => exact ha.2.2.1
  | 3 => exact ha.2.2.2
  | 4 => exact hb.1
  | 5 => exact hb.2.1
  | 6 => exact hb.2.2.1
  | 7 => exact hb.2.2.2
  | 8 => exact hc.1
  | 9 => exact hc.2.1
  | 10 => exact hc.2.2.1
  | 11 => exact hc.2.2.2
  | 12 => exact hd.1
  | 13 => exact hd.2.1
  | 14 => exact hd.2.2.1
  | n + 15 => exact hd.2.2.2

def okB (a b c d : Bd × Bd) (K : ℕ) (D : ℕ × ℕ × ℕ) (K' : ℕ) (D' : ℕ × ℕ × ℕ) (v : V4 Ex) : Bool :=
  ok (gradeB a b c d) K D v.l0 && ok (gradeB a b c d) K' D' v.l1 &&
    ok (gradeB a b c d) K' D' v.l2 && ok (gradeB a b c d) K' D' v.l3

theorem nearB {s : Scales} (hs : s.Ok) {a b c d : V4 F32} {a' b' c' d' : V4 ℝ} {ga gb gc gd : Bd × Bd} (ha : a.Traced a' s ga)
    (hb : b.Traced b' s gb) (hc : c.Traced c' s gc) (hd : d.Traced d' s gd)
    {K K' : ℕ} {D D' : ℕ × ℕ × ℕ} {v : V4 Ex} (hD : okDeg D.1 D.2.1 D.2.2 := by decide)
    (hD' : okDeg D'.1 D'.2.1 D'.2.2 := by decide) (h : okB ga gb gc gd K D K' D' v = true) :
    (evalV (env a b c d) v).Near32 (evalV (env a' b' c' d') v)
      (K * s.sc D.1 D.2.1 D.2.2) (K' * s.sc D'.1 D'.2.1 D'.2.2) := by
  simp only [okB, Bool.and_eq_true] at h
  obtain ⟨⟨⟨h0, h1⟩, h2⟩, h3⟩ := h
  have t := tr_envB ha hb hc hd
  exact ⟨near_ok hs t hD h0, near_ok hs t hD' h1, near_ok hs t hD' h2, near_ok hs t hD' h3⟩

/-- An exact operand. -/
theorem traced {s : Scales} {v : V4 F32} {g : Deg × Deg} (o : okD g) (h : v.Fits (sco s g.1) (sco s g.2)) :
    v.Traced v.real s (bd g.1, bd g.2) :=
  ⟨tr_bd o.1 (h.1 0) h.2.1, tr_bd o.2 (h.1 1) h.2.2.1, tr_bd o.2 (h.1 2) h.2.2.2.1, tr_bd o.2 (h.1 3) h.2.2.2.2⟩

/-- A lane of an inverse. -/
theorem lane {x : F32} {E M e : ℝ} {s : Scales} {b : Bd} (h : x.isFinite = true ∧ |E| ≤ b.p * M ∧ |r x - E| ≤ e * M)
    (hM : s.sc b.i b.j b.l = M) (hM0 : 0 ≤ M) (he : e ≤ b.k / 2 ^ 28) (hd : okDeg b.i b.j b.l) (hp : b.p ≤ 2 ^ 12) (hk : b.k ≤ 2 ^ 27)
    (hz : b.p = 0 → b.k = 0) : Tr x E s b :=
  ⟨h.1, by rw [hM]; exact h.2.1, by rw [hM]; exact h.2.2.trans (mul_le_mul_of_nonneg_right he hM0), hd, hp, hk, hz⟩

/-! ### motors -/

/-- The inverse of a motor; `√sq4` is the size of its rotation part, `C` the length. -/
theorem motor_inv (hc : hw.Contract32) (hx : hwr.Exact) (isa : Isa) {y : Motor F32} (hy : y.Scale (√y.p1.sq4 * C)) (A : ℝ) :
    (y.invert hw isa).p1.Traced (y.real.invert hwr isa).p1 ⟨A, 1 / √y.p1.sq4, C⟩ (⟨1, 188, 0, 1, 0⟩, ⟨1, 188, 0, 1, 0⟩) ∧
    (y.invert hw isa).p2.Traced (y.real.invert hwr isa).p2 ⟨A, 1 / √y.p1.sq4, C⟩ (⟨3, 2094, 0, 1, 1⟩, ⟨3, 2094, 0, 1, 1⟩) := by
  have hN : 0 < y.p1.sq4 := lt_of_lt_of_le (by positivity) hy.norm
  have hS := Real.sqrt_pos.2 hN
  have hC : 0 ≤ C := by
    have := hy.rng.pos
    exact ((mul_pos_iff_of_pos_left hS).1 this).le
  have e : ∀ t : ℝ, t * (√y.p1.sq4 * C / y.p1.sq4) = t * (1 / √y.p1.sq4 * C) := fun t => by
    conv_lhs => rw [← Real.mul_self_sqrt hN.le, Real.sqrt_mul_self hS.le]
    field_simp
  have k1 : ∀ i, Tr ((y.invert hw isa).p1.get i) ((y.real.invert hwr isa).p1.get i) ⟨A, 1 / √y.p1.sq4, C⟩ ⟨1, 188, 0, 1, 0⟩ := fun i => by
    obtain ⟨h1, h2, h3⟩ := motor_invert_p1_ap hc hx isa isa hy i
    exact lane (M := 1 / √y.p1.sq4) (e := 7e-7) ⟨h1, by simpa using h2, by rwa [mul_one_div]⟩ (by simp [Scales.sc]) (by positivity) (by norm_num)
      (by decide) (by decide) (by decide) (by decide)
  have k2 : ∀ i, Tr ((y.invert hw isa).p2.get i) ((y.real.invert hwr isa).p2.get i) ⟨A, 1 / √y.p1.sq4, C⟩ ⟨3, 2094, 0, 1, 1⟩ := fun i => by
    obtain ⟨h1, h2, h3⟩ := motor_invert_p2_ap hc hx isa isa hy i
    rw [e] at h2 h3
    exact lane (M := 1 / √y.p1.sq4 * C) (e := 7.8e-6) ⟨h1, by simpa using h2, h3⟩ (by simp [Scales.sc]) (by positivity) (by norm_num)
      (by decide) (by decide) (by decide) (by decide)
  exact ⟨⟨k1 0, k1 1, k1 2, k1 3⟩, ⟨k2 0, k2 1, k2 2, k2 3⟩⟩

theorem motor_motor_p1_ex (x y : Motor F) : (x.mulMotor y).p1 =
    evalV (env x.p1 x.p2 y.p1 y.p2) ((Motor.mk X X').mulMotor (Motor.mk Y Y')).p1 := by
  rfl

theorem motor_motor_p2_ex (x y : Motor F) : (x.mulMotor y).p2 =
    evalV (env x.p1 x.p2 y.p1 y.p2) ((Motor.mk X X').mulMotor (Motor.mk Y Y')).p2 := by
  rfl

/-- C93: motor over motor. -/
theorem C93_motor_div_motor (hc : hw.Contract32) (hx : hwr.Exact) (isa : Isa) (hA : In2 A 24 24) (hC : In2 C 20 20)
    {x y : Motor F32} (hX : x.Within A C) (hS : In2 √y.p1.sq4 24 24) (hy : y.Scale (√y.p1.sq4 * C)) :
    (x.divMotor hw isa y).p1.Near32 (x.real.divMotor hwr isa y.real).p1 (61 * (A / √y.p1.sq4)) (61 * (A / √y.p1.sq4)) ∧
    (x.divMotor hw isa y).p2.Near32 (x.real.divMotor hwr isa y.real).p2 (644 * (A / √y.p1.sq4 * C)) (644 * (A / √y.p1.sq4 * C)) := by
  obtain ⟨h1, h2⟩ := motor_inv hc hx isa hy A
  have hs : Scales.Ok ⟨A, 1 / √y.p1.sq4, C⟩ := ⟨hA, hS.inv, hC⟩
  have t1 : x.p1.Traced x.p1.real ⟨A, 1 / √y.p1.sq4, C⟩ _ := traced (g := (some (1, 0, 0), some (1, 0, 0))) (by decide) (hX.1.eq (by deg) (by deg))
  have t2 : x.p2.Traced x.p2.real ⟨A, 1 / √y.p1.sq4, C⟩ _ := traced (g := (some (1, 0, 1), some (1, 0, 1))) (by decide) (hX.2.eq (by deg) (by deg))
  constructor
  · have h := nearB hs t1 t2 h1 h2 (K := 61) (D := (1, 1, 0)) (K' := 61) (D' := (1, 1, 0))
      (v := ((Motor.mk X X').mulMotor (Motor.mk Y Y')).p1) (h := by decide +kernel)
    exact h.eq (by simp only [Scales.sc]; push_cast; ring) (by simp only [Scales.sc]; push_cast; ring)
  · have h := nearB hs t1 t2 h1 h2 (K := 644) (D := (1, 1, 1)) (K' := 644) (D' := (1, 1, 1))
      (v := ((Motor.mk X X').mulMotor (Motor.mk Y Y')).p2) (h := by decide +kernel)
    exact h.eq (by simp only [Scales.sc]; push_cast; ring) (by simp only [Scales.sc]; push_cast; ring)

/-! ### lines and branches -/

/-- A sum of zeros is zero. -/
theorem add_zero_val {x y : F32} (hx : x.isFinite = true) (hy : y.isFinite = true) (h : r x = 0) (h' : r y = 0) :
    (x + y).isFinite = true ∧ r (x + y) = 0 := by
  have e : x + y = round (x.sign && y.sign) 0 := by
    rw [add_round hx hy, r_eq_zero h, r_eq_zero h', add_zero]
  refine ⟨by rw [e]; exact round_zero_finite _, ?_⟩
  rw [e]; unfold r; rw [round_zero_val]; simp

theorem sub_zero_val {x y : F32} (hx : x.isFinite = true) (hy : y.isFinite = true) (h : r x = 0) (h' : r y = 0) :
    (x - y).isFinite = true ∧ r (x - y) = 0 := by
  obtain ⟨a, b⟩ := sub_ok hx hy (by rw [h, h']; norm_num)
  refine ⟨a, ?_⟩
  rw [h, h', sub_zero, abs_zero, mul_zero, sub_zero] at b
  exact abs_eq_zero.1 (le_antisymm b (abs_nonneg _))

/-- The first lanes of the inverse of a line are zeros. -/
theorem line_inv_zero (hc : hw.Contract32) (isa isa' : Isa) {y : Line F32} {C : ℝ} (hy : y.Scale C) (h1 : r y.p1.l0 = 0)
    (h2 : r y.p2.l0 = 0) :
    ((y.invert hw isa).p1.l0.isFinite = true ∧ r (y.invert hw isa).p1.l0 = 0 ∧ (y.real.invert hwr isa').p1.l0 = 0) ∧
    ((y.invert hw isa).p2.l0.isFinite = true ∧ r (y.invert hw isa).p2.l0 = 0 ∧ (y.real.invert hwr isa').p2.l0 = 0) := by
  have hS := sq3_rng hy.p1 hy.norm
  have q := hy.ap_q hc isa 0
  have s := hy.ap_s hc isa 0
  have d := hy.ap_bc isa 0
  have t := s.mul (lane_t hS hy.rng s q d) (by norm_num) (by norm_num) (by norm_num) (by norm_num) (show _ ≤ (2.371e-6 : ℝ) by ap_num)
  have f1 : y.p1.l0.isFinite = true := (hy.p1 0 (by norm_num)).1
  have a := mul_zero_val f1 q.fin (Or.inl h1)
  have b := mul_zero_val (hy.fin 0) q.fin (Or.inl h2)
  have c := mul_zero_val f1 t.fin (Or.inl h1)
  have c' := add_zero_val c.1 c.1 c.2 c.2
  have e := sub_zero_val b.1 c'.1 b.2 c'.2
  refine ⟨⟨a.1, a.2, ?_⟩, e.1, e.2, ?_⟩
  · rw [Line.invert_eq]; simp [Line.dualSmul, Line.real, V4.real, kln, sse, h1]
  · rw [Line.invert_eq]; simp [Line.dualSmul, Line.real, V4.real, kln, sse, h1, h2]

/-- A lane that is exactly zero. -/
theorem tr_zero {x : F32} {E : ℝ} {s : Scales} (h : x.isFinite = true ∧ r x = 0 ∧ E = 0) : Tr x E s ⟨0, 0, 0, 0, 0⟩ := by
  obtain ⟨h1, h2, rfl⟩ := h
  exact Tr.of_zero h1 h2

theorem scale_div {N S C : ℝ} (hN : 0 < N) (hS : S = √N) (t : ℝ) : t * (S * C / N) = t * (1 / S * C) := by
  subst hS
  have h := Real.sqrt_pos.2 hN
  nth_rw 2 [← Real.mul_self_sqrt hN.le]
  field_simp

/-- The inverse of a line. -/
theorem line_inv (hc : hw.Contract32) (hx : hwr.Exact) (isa : Isa) {y : Line F32} (hy : y.Scale (√y.p1.sq3 * C))
    (z1 : r y.p1.l0 = 0) (z2 : r y.p2.l0 = 0) (A : ℝ) :
    (y.invert hw isa).p1.Traced (y.real.invert hwr isa).p1 ⟨A, 1 / √y.p1.sq3, C⟩ (⟨0, 0, 0, 0, 0⟩, ⟨1, 188, 0, 1, 0⟩) ∧
    (y.invert hw isa).p2.Traced (y.real.invert hwr isa).p2 ⟨A, 1 / √y.p1.sq3, C⟩ (⟨0, 0, 0, 0, 0⟩, ⟨3, 2094, 0, 1, 1⟩) := by
  have hN : 0 < y.p1.sq3 := lt_of_lt_of_le (by positivity) hy.norm
  have hS := Real.sqrt_pos.2 hN
  have hC : 0 ≤ C := ((mul_pos_iff_of_pos_left hS).1 hy.rng.pos).le
  have k1 : ∀ i : Fin 4, i ≠ 0 → Tr ((y.invert hw isa).p1.get i) ((y.real.invert hwr isa).p1.get i) ⟨A, 1 / √y.p1.sq3, C⟩ ⟨1, 188, 0, 1, 0⟩ := fun i hi => by
    obtain ⟨h1, h2, h3⟩ := line_invert_p1_ap hc hx isa isa hy i hi
    exact lane (M := 1 / √y.p1.sq3) (e := 7e-7) ⟨h1, by simpa using h2, by rwa [mul_one_div]⟩ (by simp [Scales.sc]) (by positivity) (by norm_num)
      (by decide) (by decide) (by decide) (by decide)
  have k2 : ∀ i : Fin 4, i ≠ 0 → Tr ((y.invert hw isa).p2.get i) ((y.real.invert hwr isa).p2.get i) ⟨A, 1 / √y.p1.sq3, C⟩ ⟨3, 2094, 0, 1, 1⟩ := fun i hi => by
    obtain ⟨h1, h2, h3⟩ := line_invert_p2_ap hc hx isa isa hy i hi
    rw [scale_div hN rfl] at h2 h3
    exact lane (M := 1 / √y.p1.sq3 * C) (e := 7.8e-6) ⟨h1, by simpa using h2, h3⟩ (by simp [Scales.sc]) (by positivity) (by norm_num)
      (by decide) (by decide) (by decide) (by decide)
  obtain ⟨h1, h2⟩ := line_inv_zero (hwr := hwr) hc isa isa hy z1 z2
  exact ⟨⟨tr_zero h1, k1 1 (by decide), k1 2 (by decide), k1 3 (by decide)⟩, ⟨tr_zero h2, k2 1 (by decide), k2 2 (by decide), k2 3 (by decide)⟩⟩

/-- C93: line over line. -/
theorem C93_line_div_line (hc : hw.Contract32) (hx : hwr.Exact) (isa : Isa) (hA : In2 A 24 24) (hC : In2 C 20 20)
    {x y : Line F32} (hX : x.Within A C) (hS : In2 √y.p1.sq3 24 24) (hy : y.Scale (√y.p1.sq3 * C))
    (z1 : r y.p1.l0 = 0) (z2 : r y.p2.l0 = 0) :
    (x.divLine hw isa y).p1.Near32 (x.real.divLine hwr isa y.real).p1 (44 * (A / √y.p1.sq3)) (28 * (A / √y.p1.sq3)) ∧
    (x.divLine hw isa y).p2.Near32 (x.real.divLine hwr isa y.real).p2 (485 * (A / √y.p1.sq3 * C)) (315 * (A / √y.p1.sq3 * C)) := by
  obtain ⟨h1, h2⟩ := line_inv hc hx isa hy z1 z2 A
  have hs : Scales.Ok ⟨A, 1 / √y.p1.sq3, C⟩ := ⟨hA, hS.inv, hC⟩
  have t1 : x.p1.Traced x.p1.real ⟨A, 1 / √y.p1.sq3, C⟩ _ := traced (g := (none, some (1, 0, 0))) (by decide) (hX.1.eq (by deg) (by deg))
  have t2 : x.p2.Traced x.p2.real ⟨A, 1 / √y.p1.sq3, C⟩ _ := traced (g := (none, some (1, 0, 1))) (by decide) (hX.2.eq (by deg) (by deg))
  constructor
  · have h := nearB hs t1 t2 h1 h2 (K := 44) (D := (1, 1, 0)) (K' := 28) (D' := (1, 1, 0))
      (v := ((Line.mk X X').mulLine (Line.mk Y Y')).p1) (h := by decide +kernel)
    exact h.eq (by simp only [Scales.sc]; push_cast; ring) (by simp only [Scales.sc]; push_cast; ring)
  · have h := nearB hs t1 t2 h1 h2 (K := 485) (D := (1, 1, 1)) (K' := 315) (D' := (1, 1, 1))
      (v := ((Line.mk X X').mulLine (Line.mk Y Y')).p2) (h := by decide +kernel)
    exact h.eq (by simp only [Scales.sc]; push_cast; ring) (by simp only [Scales.sc]; push_cast; ring)

/-- The inverse of a branch. -/
theorem branch_inv (hc : hw.Contract32) (hx : hwr.Exact) (isa : Isa) {y : Branch F32} (hv : y.p1.Le2 30)
    (hn : 1 / 2 ^ 60 ≤ y.p1.sq3) (z : r y.p1.l0 = 0) (A C : ℝ) :
    (y.invert hw isa).p1.Traced (y.real.invert hwr isa).p1 ⟨A, 1 / √y.p1.sq3, C⟩ (⟨0, 0, 0, 0, 0⟩, ⟨1, 376, 0, 1, 0⟩) := by
  have hN : 0 < y.p1.sq3 := lt_of_lt_of_le (by positivity) hn
  have hS := Real.sqrt_pos.2 hN
  have k1 : ∀ i : Fin 4, i ≠ 0 → Tr ((y.invert hw isa).p1.get i) ((y.real.invert hwr isa).p1.get i) ⟨A, 1 / √y.p1.sq3, C⟩ ⟨1, 376, 0, 1, 0⟩ := fun i hi => by
    obtain ⟨h1, h2, h3⟩ := branch_invert_ap hc hx isa isa y hv hn i hi
    exact lane (M := 1 / √y.p1.sq3) (e := 1.4e-6) ⟨h1, by simpa using h2, by rwa [mul_one_div]⟩ (by simp [Scales.sc]) (by positivity) (by norm_num)
      (by decide) (by decide) (by decide) (by decide)
  have s := (inv3_f32 hc isa hv hn 0).1
  have a := mul_zero_val (x := y.p1.l0) (hv 0 (by norm_num)).1 s (Or.inl z)
  have b := mul_zero_val a.1 s (Or.inl a.2)
  refine ⟨tr_zero ⟨b.1, b.2, ?_⟩, k1 1 (by decide), k1 2 (by decide), k1 3 (by decide)⟩
  rw [Branch.invert_eq]; simp [Branch.real, V4.real, kln, sse, z]

/-- C93: branch over branch. -/
theorem C93_branch_div_branch (hc : hw.Contract32) (hx : hwr.Exact) (isa : Isa) (hA : In2 A 24 24)
    {x y : Branch F32} (hX : x.Within A) (hv : y.p1.Le2 30) (hS : In2 √y.p1.sq3 24 24) (z : r y.p1.l0 = 0) :
    (x.divBranch hw isa y).p1.Near32 (x.real.divBranch hwr isa y.real).p1 (79 * (A / √y.p1.sq3)) (52 * (A / √y.p1.sq3)) := by
  have hn : 1 / 2 ^ 60 ≤ y.p1.sq3 := by
    have h0 : 0 ≤ y.p1.sq3 := by unfold V4.sq3; positivity
    rw [← Real.mul_self_sqrt h0]
    exact (mul_le_mul hS.lo hS.lo (by positivity) hS.pos.le).trans' (by norm_num)
  have h1 := branch_inv hc hx isa hv hn z A 1
  have hs : Scales.Ok ⟨A, 1 / √y.p1.sq3, 1⟩ := ⟨hA, hS.inv, one_C⟩
  have t1 : x.p1.Traced x.p1.real ⟨A, 1 / √y.p1.sq3, 1⟩ _ := traced (g := (none, some (1, 0, 0))) (by decide) (V4.Fits.eq hX (by deg) (by deg))
  have h := nearB hs t1 t1 h1 h1 (K := 79) (D := (1, 1, 0)) (K' := 52) (D' := (1, 1, 0))
    (v := ((Branch.mk X).mulBranch (Branch.mk Y)).p1) (h := by decide +kernel)
  exact h.eq (by simp only [Scales.sc]; push_cast; ring) (by simp only [Scales.sc]; push_cast; ring)

/-! ### planes -/

/-- The inverse of a plane. -/
theorem plane_inv (hc : hw.Contract32) (hx : hwr.Exact) (isa : Isa) {y : Plane F32} (hv : y.p0.Le2 30)
    (hn : 1 / 2 ^ 60 ≤ y.p0.sq3) (hr : In2 (√y.p0.sq3 * C) 30 32) (hd : |r y.p0.l0| ≤ √y.p0.sq3 * C) (A : ℝ) :
    (y.invert hw isa).p0.Traced (y.real.invert hwr isa).p0 ⟨A, 1 / √y.p0.sq3, C⟩ (⟨1, 376, 0, 1, 1⟩, ⟨1, 376, 0, 1, 0⟩) := by
  have hN : 0 < y.p0.sq3 := lt_of_lt_of_le (by positivity) hn
  have hS := Real.sqrt_pos.2 hN
  have hC : 0 ≤ C := ((mul_pos_iff_of_pos_left hS).1 hr.pos).le
  have k1 : ∀ i : Fin 4, i ≠ 0 → Tr ((y.invert hw isa).p0.get i) ((y.real.invert hwr isa).p0.get i) ⟨A, 1 / √y.p0.sq3, C⟩ ⟨1, 376, 0, 1, 0⟩ := fun i hi => by
    obtain ⟨h1, h2, h3⟩ := plane_invert_ap hc hx isa isa y hv hn i hi
    exact lane (M := 1 / √y.p0.sq3) (e := 1.4e-6) ⟨h1, by simpa using h2, by rwa [mul_one_div]⟩ (by simp [Scales.sc]) (by positivity) (by norm_num)
      (by decide) (by decide) (by decide) (by decide)
  refine ⟨?_, k1 1 (by decide), k1 2 (by decide), k1 3 (by decide)⟩
  obtain ⟨h1, h3⟩ := C78_plane_invert_d hc hx isa isa y hv hn hr hd
  have h2 : |(y.real.invert hwr isa).p0.l0| ≤ 1 * (√y.p0.sq3 * C / y.p0.sq3) := by
    have e3 : dot3 y.real.p0 y.real.p0 = y.p0.sq3 := by
      simp only [dot3, Plane.real, V4.real, V4.sq3]; ring
    have e : (y.real.invert hwr isa).p0.l0 = r y.p0.l0 / y.p0.sq3 := by
      rw [Plane.invert_eq, e3, exact_rsqrt1 hx hN, inv_sqrt_sq hN]
      simp [Plane.real, V4.real, kln, sse]; ring
    rw [e, abs_div, abs_of_pos hN, one_mul]
    exact div_le_div_of_nonneg_right hd hN.le
  rw [scale_div hN rfl] at h2 h3
  exact lane (M := 1 / √y.p0.sq3 * C) (e := 1.4e-6) ⟨h1, by simpa using h2, h3⟩ (by simp [Scales.sc]) (by positivity) (by norm_num)
    (by decide) (by decide) (by decide) (by decide)

/-- C93: plane over plane. -/
theorem C93_plane_div_plane (hc : hw.Contract32) (hx : hwr.Exact) (isa : Isa) (hA : In2 A 24 24) (hC : In2 C 20 20)
    {x y : Plane F32} (hX : x.Within A C) (hv : y.p0.Le2 30) (hS : In2 √y.p0.sq3 24 24)
    (hr : In2 (√y.p0.sq3 * C) 30 32) (hd : |r y.p0.l0| ≤ √y.p0.sq3 * C) :
    (x.divPlane hw isa y).p1.Near32 (x.real.divPlane hwr isa y.real).p1 (79 * (A / √y.p0.sq3)) (52 * (A / √y.p0.sq3)) ∧
    (x.divPlane hw isa y).p2.Near32 (x.real.divPlane hwr isa y.real).p2 0 (52 * (A / √y.p0.sq3 * C)) := by
  have hn : 1 / 2 ^ 60 ≤ y.p0.sq3 := by
    have h0 : 0 ≤ y.p0.sq3 := by unfold V4.sq3; positivity
    rw [← Real.mul_self_sqrt h0]
    exact (mul_le_mul hS.lo hS.lo (by positivity) hS.pos.le).trans' (by norm_num)
  have h1 := plane_inv hc hx isa hv hn hr hd A
  have hs : Scales.Ok ⟨A, 1 / √y.p0.sq3, C⟩ := ⟨hA, hS.inv, hC⟩
  have t1 : x.p0.Traced x.p0.real ⟨A, 1 / √y.p0.sq3, C⟩ _ := traced (g := (some (1, 0, 1), some (1, 0, 0))) (by decide) (V4.Fits.eq hX (by deg) (by deg))
  constructor
  · have h := nearB hs t1 t1 h1 h1 (K := 79) (D := (1, 1, 0)) (K' := 52) (D' := (1, 1, 0))
      (v := ((Plane.mk X).mulPlane (Plane.mk Y)).p1) (h := by decide +kernel)
    exact h.eq (by simp only [Scales.sc]; push_cast; ring) (by simp only [Scales.sc]; push_cast; ring)
  · have h := nearB hs t1 t1 h1 h1 (K := 0) (D := (0, 0, 0)) (K' := 52) (D' := (1, 1, 1))
      (v := ((Plane.mk X).mulPlane (Plane.mk Y)).p2) (h := by decide +kernel)
    exact h.eq (by simp only [Scales.sc]; push_cast; ring) (by simp only [Scales.sc]; push_cast; ring)

/-! ### rotors and translators

`rotor::invert` divides by the squared norm without the scalar lane (C27); the quotients by rotors are
compared with what the code computes in exact arithmetic. -/

theorem rotor_inv (hc : hw.Contract32) (hx : hwr.Exact) (isa : Isa) {y : Rotor F32} {M : ℝ} (hv : y.p1.Le2 30)
    (hn : 1 / 2 ^ 60 ≤ y.p1.sq3) (hr : In2 M 30 32) (hl : ∀ i, |r (y.p1.get i)| ≤ M) (A C : ℝ) :
    (y.invert hw isa).p1.Traced (y.real.invert hwr isa).p1 ⟨A, M / y.p1.sq3, C⟩ (⟨1, 376, 0, 1, 0⟩, ⟨1, 376, 0, 1, 0⟩) := by
  have hN : 0 < y.p1.sq3 := lt_of_lt_of_le (by positivity) hn
  have hM := hr.pos.le
  have k1 : ∀ i, Tr ((y.invert hw isa).p1.get i) ((y.real.invert hwr isa).p1.get i) ⟨A, M / y.p1.sq3, C⟩ ⟨1, 376, 0, 1, 0⟩ := fun i => by
    obtain ⟨h1, h2, h3⟩ := rotor_invert_ap hc hx isa isa y hv hn hr hl i
    exact lane (M := M / y.p1.sq3) (e := 1.4e-6) ⟨h1, by simpa using h2, h3⟩ (by simp [Scales.sc]) (by positivity) (by norm_num)
      (by decide) (by decide) (by decide) (by decide)
  exact ⟨k1 0, k1 1, k1 2, k1 3⟩

/-- C93: rotor over rotor, as coded. -/
theorem C93_rotor_div_rotor (hc : hw.Contract32) (hx : hwr.Exact) (isa : Isa) (hA : In2 A 24 24)
    {x y : Rotor F32} {M : ℝ} (hX : x.Within A) (hv : y.p1.Le2 30) (hn : 1 / 2 ^ 60 ≤ y.p1.sq3) (hr : In2 M 30 32)
    (hl : ∀ i, |r (y.p1.get i)| ≤ M) (hS : In2 (M / y.p1.sq3) 24 24) :
    (x.divRotor hw isa y).p1.Near32 (x.real.divRotor hwr isa y.real).p1 (107 * (A * (M / y.p1.sq3))) (107 * (A * (M / y.p1.sq3))) := by
  have h1 := rotor_inv hc hx isa hv hn hr hl A 1
  have hs : Scales.Ok ⟨A, M / y.p1.sq3, 1⟩ := ⟨hA, hS, one_C⟩
  have t1 : x.p1.Traced x.p1.real ⟨A, M / y.p1.sq3, 1⟩ _ := traced (g := (some (1, 0, 0), some (1, 0, 0))) (by decide) (V4.Fits.eq hX (by deg) (by deg))
  have h := nearB hs t1 t1 h1 h1 (K := 107) (D := (1, 1, 0)) (K' := 107) (D' := (1, 1, 0))
    (v := ((Rotor.mk X).mulRotor (Rotor.mk Y)).p1) (h := by decide +kernel)
  exact h.eq (by simp only [Scales.sc]; push_cast; ring) (by simp only [Scales.sc]; push_cast; ring)

/-- C93: motor over rotor, as coded. -/
theorem C93_motor_div_rotor (hc : hw.Contract32) (hx : hwr.Exact) (isa : Isa) (hA : In2 A 24 24) (hC : In2 C 20 20)
    {x : Motor F32} {y : Rotor F32} {M : ℝ} (hX : x.Within A C) (hv : y.p1.Le2 30) (hn : 1 / 2 ^ 60 ≤ y.p1.sq3) (hr : In2 M 30 32)
    (hl : ∀ i, |r (y.p1.get i)| ≤ M) (hS : In2 (M / y.p1.sq3) 24 24) :
    (x.divRotor hw isa y).p1.Near32 (x.real.divRotor hwr isa y.real).p1 (107 * (A * (M / y.p1.sq3))) (107 * (A * (M / y.p1.sq3))) ∧
    (x.divRotor hw isa y).p2.Near32 (x.real.divRotor hwr isa y.real).p2 (108 * (A * (M / y.p1.sq3) * C)) (108 * (A * (M / y.p1.sq3) * C)) := by
  have h1 := rotor_inv hc hx isa hv hn hr hl A C
  have hs : Scales.Ok ⟨A, M / y.p1.sq3, C⟩ := ⟨hA, hS, hC⟩
  have t1 : x.p1.Traced x.p1.real ⟨A, M / y.p1.sq3, C⟩ _ := traced (g := (some (1, 0, 0), some (1, 0, 0))) (by decide) (hX.1.eq (by deg) (by deg))
  have t2 : x.p2.Traced x.p2.real ⟨A, M / y.p1.sq3, C⟩ _ := traced (g := (some (1, 0, 1), some (1, 0, 1))) (by decide) (hX.2.eq (by deg) (by deg))
  constructor
  · have h := nearB hs t1 t2 h1 h1 (K := 107) (D := (1, 1, 0)) (K' := 107) (D' := (1, 1, 0))
      (v := ((Motor.mk X X').mulRotor (Rotor.mk Y)).p1) (h := by decide +kernel)
    exact h.eq (by simp only [Scales.sc]; push_cast; ring) (by simp only [Scales.sc]; push_cast; ring)
  · have h := nearB hs t1 t2 h1 h1 (K := 108) (D := (1, 1, 1)) (K' := 108) (D' := (1, 1, 1))
      (v := ((Motor.mk X X').mulRotor (Rotor.mk Y)).p2) (h := by decide +kernel)
    exact h.eq (by simp only [Scales.sc]; push_cast; ring) (by simp only [Scales.sc]; push_cast; ring)

/-- C93: translator over translator. -/
theorem C93_translator_div_translator (hC : In2 C 20 20) {x y : Translator F32} (hX : x.Within C) (hY : y.Within C) :
    (x.divTranslator y).p2.Near32 (x.real.divTranslator y.real).p2 (3 * C) (3 * C) := by
  have hs : Scales.Ok ⟨1, 1, C⟩ := ⟨one_A, one_A, hC⟩
  have t1 : x.p2.Traced x.p2.real ⟨1, 1, C⟩ _ := traced (g := (some (0, 0, 1), some (0, 0, 1))) (by decide) (V4.Fits.eq hX (by deg) (by deg))
  have t2 : y.p2.Traced y.p2.real ⟨1, 1, C⟩ _ := traced (g := (some (0, 0, 1), some (0, 0, 1))) (by decide) (V4.Fits.eq hY (by deg) (by deg))
  have h := nearB hs t1 t1 t2 t2 (K := 3) (D := (0, 0, 1)) (K' := 3) (D' := (0, 0, 1))
    (v := ((Translator.mk X).divTranslator (Translator.mk Y)).p2) (h := by decide +kernel)
  exact h.eq (by simp only [Scales.sc]; push_cast; ring) (by simp only [Scales.sc]; push_cast; ring)

/-- C93: motor over translator; the rotation part is that of the motor. -/
theorem C93_motor_div_translator (hA : In2 A 24 24) (hC : In2 C 20 20) {x : Motor F32} {y : Translator F32}
    (hX : x.Within A C) (hY : y.Within C) :
    (x.divTranslator y).p1 = x.p1 ∧
    (x.divTranslator y).p2.Near32 (x.real.divTranslator y.real).p2 (13 * (A * C)) (13 * (A * C)) := by
  have hs : Scales.Ok ⟨A, 1, C⟩ := ⟨hA, one_A, hC⟩
  have t1 : x.p1.Traced x.p1.real ⟨A, 1, C⟩ _ := traced (g := (some (1, 0, 0), some (1, 0, 0))) (by decide) (hX.1.eq (by deg) (by deg))
  have t2 : x.p2.Traced x.p2.real ⟨A, 1, C⟩ _ := traced (g := (some (1, 0, 1), some (1, 0, 1))) (by decide) (hX.2.eq (by deg) (by deg))
  have t3 : y.p2.Traced y.p2.real ⟨A, 1, C⟩ _ := traced (g := (some (0, 0, 1), some (0, 0, 1))) (by decide) (V4.Fits.eq hY (by deg) (by deg))
  have h := nearB hs t1 t2 t3 t3 (K := 13) (D := (1, 0, 1)) (K' := 13) (D' := (1, 0, 1))
    (v := ((Motor.mk X X').divTranslator (Translator.mk Y)).p2) (h := by decide +kernel)
  exact ⟨rfl, h.eq (by simp only [Scales.sc]; push_cast; ring) (by simp only [Scales.sc]; push_cast; ring)⟩

/-! ### points -/

/-- The reciprocal of a number known approximately. -/
theorem ap_rcp_ap (hc : hw.Contract32) {t : F32} {E k k' : ℝ} {m n : ℕ} (h : Ap t E |E| k m n) (hm : m ≤ 98) (hn : n ≤ 98)
    (hk : 0 ≤ k ∧ k ≤ 1 / 2) (hk' : (3.2e-7 + k) / (1 - k) ≤ k') : Ap (rcp1 hw t) (1 / E) (1 / |E|) k' n m := by
  have hE : 0 < |E| := h.rng.pos
  have hE0 : E ≠ 0 := abs_pos.1 hE
  have herr := h.err
  have hmon : In2 |E| 98 98 := h.rng.mono hm hn
  have up : |r t| ≤ 3 / 2 * |E| := by
    have := h.val_le
    nlinarith
  have lo : (1 - k) * |E| ≤ |r t| := by
    have := abs_sub_abs_le_abs_sub E (r t)
    rw [abs_sub_comm] at this
    linarith
  have lo' : 1 / 2 * |E| ≤ |r t| := le_trans (mul_le_mul_of_nonneg_right (by linarith) hE.le) lo
  obtain ⟨h1, h2⟩ := rcp1_f32 hc h.fin
    (by have := hmon.lo; refine le_trans ?_ lo'; calc (1 : ℝ) / 2 ^ 100 ≤ 1 / 2 * (1 / 2 ^ 98) := by norm_num
          _ ≤ _ := by linarith)
    (up.trans (by have := hmon.hi; calc 3 / 2 * |E| ≤ 3 / 2 * 2 ^ 98 := by linarith
          _ ≤ 2 ^ 100 := by norm_num))
  have ht : 0 < |r t| := lt_of_lt_of_le (by positivity) lo'
  have ht0 : r t ≠ 0 := abs_pos.1 ht
  refine ⟨h1, by rw [abs_div, abs_one], ?_, h.rng.inv⟩
  have e : r (rcp1 hw t) - 1 / E = ((r (rcp1 hw t) * r t - 1) * E - (r t - E)) / (r t * E) := by field_simp; ring
  have hnum : |(r (rcp1 hw t) * r t - 1) * E - (r t - E)| ≤ (3.2e-7 + k) * |E| := by
    refine (abs_sub _ _).trans ?_
    rw [abs_mul]
    have := mul_le_mul_of_nonneg_right h2 hE.le
    linarith
  rw [e, abs_div, abs_mul, div_le_iff₀ (by positivity)]
  refine hnum.trans ?_
  have hk1 : 0 < 1 - k := by linarith
  rw [div_le_iff₀ hk1] at hk'
  have hk0 : 0 ≤ k' := by
    by_contra hneg
    have : k' * (1 - k) < 0 := mul_neg_of_neg_of_pos (not_le.1 hneg) hk1
    linarith [hk.1]
  calc (3.2e-7 + k) * |E| ≤ k' * (1 - k) * |E| := mul_le_mul_of_nonneg_right hk' hE.le
    _ = k' * ((1 - k) * |E|) := by ring
    _ ≤ k' * |r t| := mul_le_mul_of_nonneg_left lo hk0
    _ = k' * (1 / |E|) * (|r t| * |E|) := by field_simp

/-- The scalar lane: twice the product subtracted from the product. -/
theorem ap_t0 {p : F32} {E k : ℝ} (h : Ap p E |E| (k + 5.97e-8) 40 40) (hk : 0 ≤ k ∧ k ≤ 1e-6) :
    Ap (p * (-2) + p) (-E) |-E| (k + 4.2e-7) 40 40 := by
  have hE := h.rng.pos
  have herr := h.err
  have hval := h.val_le
  have lo : 1 / 2 * |E| ≤ |r p| := by
    have := abs_sub_abs_le_abs_sub E (r p)
    rw [abs_sub_comm] at this
    nlinarith
  have hr : In2 |r p| 41 41 := by
    have h1 := h.rng.lo
    have h2 := h.rng.hi
    constructor
    · refine le_trans ?_ lo
      calc (1 : ℝ) / 2 ^ 41 = 1 / 2 * (1 / 2 ^ 40) := by norm_num
        _ ≤ _ := by linarith
    · refine hval.trans ?_
      calc (1 + (k + 5.97e-8)) * |E| ≤ 2 * |E| := mul_le_mul_of_nonneg_right (by linarith) hE.le
        _ ≤ 2 * 2 ^ 40 := by linarith
        _ = 2 ^ 41 := by norm_num
  have hp := Ap.input h.fin le_rfl hr
  have h2 : Ap (-2 : F32) (-2) 2 0 0 1 := by
    have := (Ap.input (x := (2 : F32)) (M := 2) (m := 0) (n := 1) (by decide +kernel) (by rw [r_two]; norm_num) ⟨by norm_num, by norm_num⟩).neg
    rwa [r_two] at this
  have hq := hp.mul h2 (by norm_num) (by norm_num) (by norm_num) (by norm_num) (show _ ≤ (6e-8 : ℝ) by ap_num)
  have ht := hq.add hp le_rfl (by norm_num) (by norm_num) (by norm_num) (show _ ≤ (1.2e-7 : ℝ) by ap_num)
  refine ⟨ht.fin, le_rfl, ?_, by rw [abs_neg]; exact h.rng⟩
  have e1 := ht.err
  have e2 : r (p * (-2) + p) - -E = (r (p * (-2) + p) - (r p * -2 + r p)) - (r p - E) := by ring
  rw [e2, abs_neg]
  refine (abs_sub _ _).trans ?_
  have h3 : (1.2e-7 : ℝ) * (|r p| * 2 + |r p|) ≤ 1.2e-7 * (3 * ((1 + (k + 5.97e-8)) * |E|)) :=
    mul_le_mul_of_nonneg_left (by linarith) (by norm_num)
  have h4 : 1.2e-7 * (3 * ((1 + (k + 5.97e-8)) * |E|)) + (k + 5.97e-8) * |E| ≤ (k + 4.2e-7) * |E| := by
    have : 1.2e-7 * (3 * (1 + (k + 5.97e-8))) + (k + 5.97e-8) ≤ k + 4.2e-7 := by norm_num; linarith [hk.2]
    have := mul_le_mul_of_nonneg_right this hE.le
    linarith
  linarith

/-- A lane of the product of two points, the second known to a relative error `k`. -/
theorem ap_gp33 (hc : hw.Contract32) {a0 ai b0 bi : F32} {w0 wi k : ℝ} (hC : In2 C 20 20) (fa : a0.isFinite = true)
    (fi : ai.isFinite = true) (ha : In2 |r a0| 20 20) (hi : |r ai| ≤ |r a0| * C) (hb : Ap b0 w0 |w0| k 20 20)
    (hbi : Ap bi wi (|w0| * C) k 40 40) (hk : 0 ≤ k ∧ k ≤ 1e-6) :
    Ap ((a0 * bi * (-1) + ai * b0) * rcp1 hw (a0 * b0 * (-2) + a0 * b0)) (wi / w0 - r ai / r a0) (2 * C) (2 * k + 1e-6) 20 22 := by
  have hk1 : 0 ≤ k ∧ k ≤ 1 := ⟨hk.1, by linarith [hk.2]⟩
  have u0 : 0 ≤ u := by unfold u; positivity
  have hu := u_le
  have ku : k * u ≤ 1e-6 * 5.9605e-8 := mul_le_mul hk.2 hu u0 (by norm_num)
  have h0 : |r a0| ≠ 0 := ha.pos.ne'
  have h0' : r a0 ≠ 0 := abs_pos.1 ha.pos
  have hw0 : |w0| ≠ 0 := hb.rng.pos.ne'
  have hw0' : w0 ≠ 0 := abs_pos.1 hb.rng.pos
  have A0 := Ap.input fa le_rfl ha
  have Ai := Ap.input (M := |r a0| * C) fi hi (ha.mul hC)
  have P := A0.mulR (k'' := k + 5.97e-8) hb (abs_mul _ _).symm (by rw [abs_mul]; exact ha.mul hb.rng) (by norm_num) hk1
    (by norm_num) (by norm_num) (by norm_num at hu ⊢; linarith)
  have T := ap_t0 P hk
  have R := ap_rcp_ap (hw := hw) (k' := k + 7.41e-7) hc T (by norm_num) (by norm_num) ⟨by linarith [hk.1], by norm_num; linarith [hk.2]⟩ (by
    rw [div_le_iff₀ (by norm_num; linarith [hk.2])]
    norm_num
    nlinarith [hk.1, hk.2])
  have N1 := A0.mulR (M'' := |r a0| * |w0| * C) (k'' := k + 5.97e-8) hbi (by ring) ((ha.mul hb.rng).mul hC) (by norm_num) hk1
    (by norm_num) (by norm_num) (by norm_num at hu ⊢; linarith)
  have one : Ap (-1 : F32) (-1) 1 0 0 0 := by
    have := (Ap.input (x := (1 : F32)) (M := 1) (m := 0) (n := 0) (by decide +kernel) (by rw [r_one, abs_one]) ⟨by norm_num, by norm_num⟩).neg
    rwa [r_one] at this
  have N2 := N1.mulR (k'' := k + 1.2e-7) one (mul_one _) N1.rng ⟨by linarith [hk.1], by norm_num; linarith [hk.2]⟩ (by norm_num)
    (by norm_num) (by norm_num) (by norm_num at hu ⊢; nlinarith)
  have N3 := Ai.mulR (M'' := |r a0| * |w0| * C) (k'' := k + 5.97e-8) hb (by ring) ((ha.mul hb.rng).mul hC) (by norm_num) hk1
    (by norm_num) (by norm_num) (by norm_num at hu ⊢; linarith)
  have N4 := N2.add (k'' := k + 1.8e-7) N3 le_rfl (by norm_num) (by norm_num; linarith [hk.2]) (by norm_num) (by norm_num at hu ⊢; nlinarith)
  have Z := N4.mulR (M'' := 2 * C) (k'' := 2 * k + 1e-6) (m'' := 20) (n'' := 22) R (by rw [abs_neg, abs_mul]; field_simp; ring)
    ⟨by linarith [hC.lo, hC.pos], by have := hC.hi; linarith⟩
    ⟨by linarith [hk.1], by norm_num; linarith [hk.2]⟩ ⟨by linarith [hk.1], by norm_num; linarith [hk.2]⟩ (by norm_num) (by norm_num) (by
      have kk : k * k ≤ 1e-6 * 1e-6 := mul_le_mul hk.2 hk.2 hk.1 (by norm_num)
      have q : (1 + (k + 1.8e-7)) * (1 + (k + 7.41e-7)) ≤ 1 + (2 * k + 9.23e-7) := by norm_num at kk ⊢; nlinarith [hk.1, hk.2]
      have q2 : (1 + (2 * k + 9.23e-7)) * (1 + u) ≤ 1 + (2 * k + 1e-6) := by norm_num at hu ku ⊢; nlinarith [hk.1, hk.2]
      have := mul_le_mul_of_nonneg_right q (show 0 ≤ 1 + u by linarith)
      linarith)
  exact Z.eq (by field_simp; ring) rfl

/-- C93: the product of two points in binary32: the difference of their positions. -/
theorem C93_point_mul_point (hc : hw.Contract32) (isa : Isa) (hC : In2 C 20 20) {x y : Point F32} (fx : x.p3.Finite) (fy : y.p3.Finite)
    (hx : In2 |r x.p3.l0| 20 20) (hy : In2 |r y.p3.l0| 20 20)
    (lx : ∀ i, i ≠ 0 → |r (x.p3.get i)| ≤ |r x.p3.l0| * C) (ly : ∀ i, i ≠ 0 → |r (y.p3.get i)| ≤ |r y.p3.l0| * C) (i : Fin 4) (h : i ≠ 0) :
    ((x.mulPoint hw isa y).p2.get i).isFinite = true ∧
      |r ((x.mulPoint hw isa y).p2.get i) - (r (y.p3.get i) / r y.p3.l0 - r (x.p3.get i) / r x.p3.l0)| ≤ 2e-6 * C := by
  have key := ap_gp33 (hw := hw) hc hC (fx 0) (fx i) hx (lx i h) (Ap.input (fy 0) le_rfl hy)
    (Ap.input (fy i) (ly i h) (hy.mul hC)) ⟨le_rfl, by norm_num⟩
  have e : (x.mulPoint hw isa y).p2.get i =
      (x.p3.get 0 * y.p3.get i * (-1) + x.p3.get i * y.p3.get 0) * rcp1 hw (x.p3.get 0 * y.p3.get 0 * (-2) + x.p3.get 0 * y.p3.get 0) := by
    simp only [Point.mulPoint, gp33, rcp_nr1_map]
    cases isa <;> fin_cases i <;> first | exact absurd rfl h | rfl
  rw [e]
  exact ⟨key.fin, key.err.trans (le_of_eq (by ring))⟩

/-- C93: the quotient of two points in binary32. -/
theorem C93_point_div_point (hc : hw.Contract32) (isa : Isa) (hC : In2 C 20 20) {x y : Point F32} (fx : x.p3.Finite) (fy : y.p3.Finite)
    (hx : In2 |r x.p3.l0| 20 20) (hy : In2 |r y.p3.l0| 20 20)
    (lx : ∀ i, i ≠ 0 → |r (x.p3.get i)| ≤ |r x.p3.l0| * C) (ly : ∀ i, i ≠ 0 → |r (y.p3.get i)| ≤ |r y.p3.l0| * C) (i : Fin 4) (h : i ≠ 0) :
    ((x.divPoint hw isa y).p2.get i).isFinite = true ∧
      |r ((x.divPoint hw isa y).p2.get i) - (r (y.p3.get i) / r y.p3.l0 - r (x.p3.get i) / r x.p3.l0)| ≤ 5.2e-6 * C := by
  have w0 := hy.pos
  have w1 : r y.p3.l0 ≠ 0 := abs_pos.1 w0
  have hs := ap_rcp_in hc (fy 0) (hy.mono (by norm_num) (by norm_num))
  have b0 : Ap (rcp1 hw (y.p3.get 0) * (rcp1 hw (y.p3.get 0) * y.p3.get 0)) (1 / r y.p3.l0) |1 / r y.p3.l0| 8e-7 20 20 :=
    (hs.mulR (M'' := |1 / r y.p3.l0|) (k'' := 8e-7) (hs.mulR (M'' := 1) (k'' := 3.8e-7) (Ap.input (fy 0) le_rfl hy) (by
          show 1 / |r y.p3.l0| * |r y.p3.l0| = 1
          field_simp) ⟨(by norm_num : (1 : ℝ) / 2 ^ 0 ≤ 1), (by norm_num : (1 : ℝ) ≤ 2 ^ 0)⟩
        (by norm_num) (by norm_num) (by norm_num) (by norm_num) (by ap_num))
      (by rw [abs_div, abs_one, mul_one]; rfl) (by rw [abs_div, abs_one]; exact hy.inv)
      (by norm_num) (by norm_num) (by norm_num) (by norm_num) (by ap_num)).eq
      (by show 1 / r y.p3.l0 * (1 / r y.p3.l0 * r y.p3.l0) = _; field_simp) rfl
  have bi : Ap (rcp1 hw (y.p3.get 0) * (rcp1 hw (y.p3.get 0) * y.p3.get i)) (r (y.p3.get i) / r y.p3.l0 ^ 2)
      (|1 / r y.p3.l0| * C) 8e-7 40 40 :=
    (hs.mulR (M'' := |1 / r y.p3.l0| * C) (k'' := 8e-7) (hs.mulR (M'' := C) (k'' := 3.8e-7) (Ap.input (fy i) (ly i h) (hy.mul hC)) (by
          show 1 / |r y.p3.l0| * (|r y.p3.l0| * C) = C
          field_simp) hC
        (by norm_num) (by norm_num) (by norm_num) (by norm_num) (by ap_num))
      (by rw [abs_div, abs_one]; rfl) (by rw [abs_div, abs_one]; exact hy.inv.mul hC)
      (by norm_num) (by norm_num) (by norm_num) (by norm_num) (by ap_num)).eq
      (by show 1 / r y.p3.l0 * (1 / r y.p3.l0 * r (y.p3.get i)) = _; field_simp) rfl
  have key := ap_gp33 (hw := hw) hc hC (fx 0) (fx i) hx (lx i h) b0 bi ⟨by norm_num, by norm_num⟩
  have e : (x.divPoint hw isa y).p2.get i =
      (x.p3.get 0 * (rcp1 hw (y.p3.get 0) * (rcp1 hw (y.p3.get 0) * y.p3.get i)) * (-1) +
        x.p3.get i * (rcp1 hw (y.p3.get 0) * (rcp1 hw (y.p3.get 0) * y.p3.get 0))) *
      rcp1 hw (x.p3.get 0 * (rcp1 hw (y.p3.get 0) * (rcp1 hw (y.p3.get 0) * y.p3.get 0)) * (-2) +
        x.p3.get 0 * (rcp1 hw (y.p3.get 0) * (rcp1 hw (y.p3.get 0) * y.p3.get 0))) := by
    simp only [Point.divPoint, Point.mulPoint, Point.invert, gp33, rcp_nr1_map]
    cases isa <;> fin_cases i <;> first | exact absurd rfl h | rfl
  rw [e]
  refine ⟨key.fin, ?_⟩
  have := key.err
  rw [show r (y.p3.get i) / r y.p3.l0 ^ 2 / (1 / r y.p3.l0) = r (y.p3.get i) / r y.p3.l0 by field_simp] at this
  exact this.trans (le_of_eq (by ring))

/-! ### an entity over itself -/

theorem exact_rsqrtAt (hx : hwr.Exact) {a : ℝ} (ha : 0 < a) : hwr.RsqrtAt a := by
  have h := Real.mul_self_sqrt ha.le
  have h0 := Real.sqrt_pos.2 ha
  unfold Hw.RsqrtAt
  rw [hx.rsqrt a ha]
  field_simp
  nlinarith

theorem exact_rcpAt (hx : hwr.Exact) {a : ℝ} (ha : a ≠ 0) : hwr.RcpAt a := by
  unfold Hw.RcpAt
  rw [hx.rcp a ha]
  field_simp

/-- C93: a motor over itself is the identity to within 61 units; the moment to within 644 units of the length. -/
theorem C93_motor_div_self (hc : hw.Contract32) (isa : Isa) (hC : In2 C 20 20)
    {x : Motor F32} (hS : In2 √x.p1.sq4 24 24) (hy : x.Scale (√x.p1.sq4 * C)) :
    (x.divMotor hw isa x).p1.Near32 ⟨1, 0, 0, 0⟩ 61 61 ∧ (x.divMotor hw isa x).p2.Near32 ⟨0, 0, 0, 0⟩ (644 * C) (644 * C) := by
  have hN : 0 < x.p1.sq4 := lt_of_lt_of_le (by positivity) hy.norm
  have hS0 := hS.pos
  have hX : x.Within √x.p1.sq4 C := by
    refine ⟨⟨fun i => (hy.p1 i (by norm_num)).1, ?_, ?_, ?_, ?_⟩, ⟨hy.fin, ?_, ?_, ?_, ?_⟩⟩
    · exact lane_le4 (Real.sqrt_nonneg _) (sq4_sqrt _) 0
    · exact lane_le4 (Real.sqrt_nonneg _) (sq4_sqrt _) 1
    · exact lane_le4 (Real.sqrt_nonneg _) (sq4_sqrt _) 2
    · exact lane_le4 (Real.sqrt_nonneg _) (sq4_sqrt _) 3
    · exact lane_le4 hy.rng.pos.le hy.p2 0
    · exact lane_le4 hy.rng.pos.le hy.p2 1
    · exact lane_le4 hy.rng.pos.le hy.p2 2
    · exact lane_le4 hy.rng.pos.le hy.p2 3
  have e : x.real.divMotor Hw.ideal isa x.real = ⟨⟨1, 0, 0, 0⟩, ⟨0, 0, 0, 0⟩⟩ := by
    rw [← Motor.mv_inj]
    have hq : x.real.sqNorm = x.p1.sq4 := by
      simp only [Motor.sqNorm, Motor.real, V4.real, V4.sq4, kln]; ring
    rw [Motor.divMotor, C06_motor_mul_motor, (C26_motor Hw.ideal isa x.real (by rw [hq]; exact exact_rsqrtAt Hw.ideal_exact hN)
      (by rw [hq]; exact exact_rcpAt Hw.ideal_exact hN.ne')).1]
    apply PGA.MV.ext <;> simp [pga, kln]
  obtain ⟨h1, h2⟩ := C93_motor_div_motor hc Hw.ideal_exact isa hS hC hX hS hy
  rw [e] at h1 h2
  rw [div_self hS0.ne'] at h1 h2
  exact ⟨h1.eq (by ring) (by ring), h2.eq (by ring) (by ring)⟩

/-! ### examples -/

/-- The product of the points (1, 2, 3) and (5, 2, 4) (the latter with weight 2) on any hardware within the contract. -/
example (hc : hw.Contract32) : |r ((Point.mk ⟨1, 1, 2, 3⟩).mulPoint hw .sse3 ⟨⟨2, 10, 4, 8⟩⟩).p2.l1 - 4| ≤ 1.7e-5 := by
  have v : ∀ q : ℚ, ∀ x : F32, x.val = q → r x = (q : ℝ) := fun q x h => by unfold r; rw [h]
  have r1 := v 1 1 (by decide +kernel); have r2 := v 2 2 (by decide +kernel); have r3 := v 3 3 (by decide +kernel)
  have r4 := v 4 4 (by decide +kernel); have r8 := v 8 8 (by decide +kernel); have r10 := v 10 10 (by decide +kernel)
  push_cast at r1 r2 r3 r4 r8 r10
  have h := (C93_point_mul_point (C := 8) (x := ⟨⟨1, 1, 2, 3⟩⟩) (y := ⟨⟨2, 10, 4, 8⟩⟩) hc .sse3 ⟨by norm_num, by norm_num⟩
    (fun i => by fin_cases i <;> decide +kernel) (fun i => by fin_cases i <;> decide +kernel)
    (by show In2 |r 1| 20 20; rw [r1]; exact ⟨by norm_num, by norm_num⟩) (by show In2 |r 2| 20 20; rw [r2]; exact ⟨by norm_num, by norm_num⟩)
    (fun i _ => match i with
      | 0 => by show |r 1| ≤ |r 1| * 8; rw [r1]; norm_num
      | 1 => by show |r 1| ≤ |r 1| * 8; rw [r1]; norm_num
      | 2 => by show |r 2| ≤ |r 1| * 8; rw [r1, r2]; norm_num
      | 3 => by show |r 3| ≤ |r 1| * 8; rw [r1, r3]; norm_num)
    (fun i _ => match i with
      | 0 => by show |r 2| ≤ |r 2| * 8; rw [r2]; norm_num
      | 1 => by show |r 10| ≤ |r 2| * 8; rw [r2, r10]; norm_num
      | 2 => by show |r 4| ≤ |r 2| * 8; rw [r2, r4]; norm_num
      | 3 => by show |r 8| ≤ |r 2| * 8; rw [r2, r8]; norm_num) 1 (by decide)).2
  simp only [V4.get, r1, r2, r10] at h
  norm_num at h ⊢
  linarith

end Quot32
end Klein
