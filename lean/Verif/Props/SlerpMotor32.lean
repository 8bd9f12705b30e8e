import Verif.Props.Slerp32
import Verif.Lemmas.LogLip

/-!
# C98: interpolation of motors in binary32

`exp(t * log(b * ~a)) * a` computed from rounded motors, against the same recipe carried out exactly on the exact
ones (which C74 relates to the screw motion from `a` to `b`).  The logarithm of a motor is locally Lipschitz with
constants that depend on the scalar part (`Lemmas/LogLip`), so the scalar part of `b * ~a` is kept at one half or
more: rotations of up to 120 degrees.
-/

set_option linter.unusedSimpArgs false

namespace Klein

open F32

/-! ### four lanes as a vector -/

noncomputable def V4.vec4 (v : V4 ℝ) : EuclideanSpace ℝ (Fin 4) := !₂[v.l0, v.l1, v.l2, v.l3]

theorem V4.vec4_sq (v : V4 ℝ) : ‖v.vec4‖ ^ 2 = dot4 v v := by
  rw [EuclideanSpace.norm_eq, Real.sq_sqrt (Finset.sum_nonneg fun _ _ => by positivity), Fin.sum_univ_four]
  simp only [V4.vec4, dot4, PiLp.toLp_apply, Matrix.cons_val, Matrix.cons_val_zero, Matrix.cons_val_one, Real.norm_eq_abs, sq_abs]
  ring

theorem V4.vec4_split (v : V4 ℝ) : ‖v.vec4‖ ^ 2 = v.l0 ^ 2 + ‖v.vec‖ ^ 2 := by
  have h : 0 ≤ dot3 v v := by simp only [dot3]; nlinarith [mul_self_nonneg v.l1, mul_self_nonneg v.l2, mul_self_nonneg v.l3]
  rw [V4.vec4_sq, V4.vec_norm, Real.sq_sqrt h, dot4, dot3]; ring

theorem V4.vec_le_vec4 (v : V4 ℝ) : ‖v.vec‖ ≤ ‖v.vec4‖ :=
  abs_le_of_sq_le_sq' (by rw [V4.vec4_split]; nlinarith [sq_nonneg v.l0]) (norm_nonneg _) |>.2

theorem V4.vec4_sub (v w : V4 ℝ) : (sub_ps v w).vec4 = v.vec4 - w.vec4 := by
  ext i; fin_cases i <;> simp [V4.vec4, sse]

theorem V4.vec4_lane (v : V4 ℝ) (i : Fin 4) : |v.get i| ≤ ‖v.vec4‖ := by
  refine abs_le_of_sq_le_sq ?_ (norm_nonneg _)
  rw [V4.vec4_sq, dot4]
  match i with
  | 0 => simp only [V4.get]; nlinarith [sq_nonneg v.l1, sq_nonneg v.l2, sq_nonneg v.l3]
  | 1 => simp only [V4.get]; nlinarith [sq_nonneg v.l0, sq_nonneg v.l2, sq_nonneg v.l3]
  | 2 => simp only [V4.get]; nlinarith [sq_nonneg v.l1, sq_nonneg v.l0, sq_nonneg v.l3]
  | 3 => simp only [V4.get]; nlinarith [sq_nonneg v.l1, sq_nonneg v.l2, sq_nonneg v.l0]

theorem V4.vec4_lane_sub (v w : V4 ℝ) (i : Fin 4) : |v.get i - w.get i| ≤ ‖v.vec4 - w.vec4‖ := by
  have := V4.vec4_lane (sub_ps v w) i
  rw [V4.vec4_sub] at this
  refine le_of_eq_of_le ?_ this
  fin_cases i <;> rfl

theorem V4.vec4_sub_le {v w : V4 ℝ} {e : ℝ} (h : ∀ i : Fin 4, |v.get i - w.get i| ≤ e) : ‖v.vec4 - w.vec4‖ ≤ 2 * e := by
  have he : 0 ≤ e := (abs_nonneg _).trans (h 0)
  refine abs_le_of_sq_le_sq' (a := ‖v.vec4 - w.vec4‖) ?_ (by positivity) |>.2
  rw [← V4.vec4_sub, V4.vec4_sq, dot4]
  have k : ∀ i : Fin 4, (v.get i - w.get i) ^ 2 ≤ e ^ 2 := fun i => sq_le_sq' (abs_le.1 (h i)).1 (abs_le.1 (h i)).2
  have k0 := k 0; have k1 := k 1; have k2 := k 2; have k3 := k 3
  simp only [V4.get] at k0 k1 k2 k3
  simp only [sse]
  nlinarith

/-! ### the product of motors, in blocks -/

/-- The product of the rotor parts. -/
def Motor.blk (x y : V4 ℝ) : V4 ℝ := ((Motor.mk x ⟨0, 0, 0, 0⟩).mulMotor ⟨y, ⟨0, 0, 0, 0⟩⟩).p1
/-- A rotor part times an ideal part. -/
def Motor.blkR (x y : V4 ℝ) : V4 ℝ := ((Motor.mk x ⟨0, 0, 0, 0⟩).mulMotor ⟨⟨0, 0, 0, 0⟩, y⟩).p2
/-- An ideal part times a rotor part. -/
def Motor.blkL (x y : V4 ℝ) : V4 ℝ := ((Motor.mk ⟨0, 0, 0, 0⟩ x).mulMotor ⟨y, ⟨0, 0, 0, 0⟩⟩).p2

theorem Motor.mul_blk (x y : Motor ℝ) : (x.mulMotor y).p1 = Motor.blk x.p1 y.p1 ∧
    (x.mulMotor y).p2.vec4 = (Motor.blkR x.p1 y.p2).vec4 + (Motor.blkL x.p2 y.p1).vec4 := by
  constructor
  · simp only [Motor.blk, kln, sse, cond_true, cond_false]
  · ext i; fin_cases i <;> simp [V4.vec4, Motor.blkR, Motor.blkL, kln, sse, cond_true, cond_false] <;> ring

/-- Linear in each argument and multiplying norms. -/
structure Blk (T : V4 ℝ → V4 ℝ → V4 ℝ) : Prop where
  norm : ∀ x y, ‖(T x y).vec4‖ = ‖x.vec4‖ * ‖y.vec4‖
  sub : ∀ x y X Y, (T x y).vec4 - (T X Y).vec4 = (T (sub_ps x X) y).vec4 + (T X (sub_ps y Y)).vec4

theorem Blk.mk' {T : V4 ℝ → V4 ℝ → V4 ℝ} (h : ∀ x y, dot4 (T x y) (T x y) = dot4 x x * dot4 y y)
    (s : ∀ x y X Y, (T x y).vec4 - (T X Y).vec4 = (T (sub_ps x X) y).vec4 + (T X (sub_ps y Y)).vec4) : Blk T := by
  refine ⟨fun x y => ?_, s⟩
  refine (pow_left_inj₀ (norm_nonneg _) (by positivity) (n := 2) (by norm_num)).1 ?_
  rw [mul_pow, V4.vec4_sq, V4.vec4_sq, V4.vec4_sq, h]

theorem Motor.blk_ok : Blk Motor.blk := by
  refine Blk.mk' (fun x y => ?_) fun x y X Y => ?_
  · simp only [Motor.blk, dot4, kln, sse, cond_true, cond_false]; ring
  · ext i; fin_cases i <;> simp [V4.vec4, Motor.blk, kln, sse, cond_true, cond_false] <;> ring

theorem Motor.blkR_ok : Blk Motor.blkR := by
  refine Blk.mk' (fun x y => ?_) fun x y X Y => ?_
  · simp only [Motor.blkR, dot4, kln, sse, cond_true, cond_false]; ring
  · ext i; fin_cases i <;> simp [V4.vec4, Motor.blkR, kln, sse, cond_true, cond_false] <;> ring

theorem Motor.blkL_ok : Blk Motor.blkL := by
  refine Blk.mk' (fun x y => ?_) fun x y X Y => ?_
  · simp only [Motor.blkL, dot4, kln, sse, cond_true, cond_false]; ring
  · ext i; fin_cases i <;> simp [V4.vec4, Motor.blkL, kln, sse, cond_true, cond_false] <;> ring

theorem Blk.lip {T : V4 ℝ → V4 ℝ → V4 ℝ} (h : Blk T) (x y X Y : V4 ℝ) :
    ‖(T x y).vec4 - (T X Y).vec4‖ ≤ ‖x.vec4 - X.vec4‖ * ‖y.vec4‖ + ‖X.vec4‖ * ‖y.vec4 - Y.vec4‖ := by
  rw [h.sub]
  refine (norm_add_le _ _).trans ?_
  rw [h.norm, h.norm, V4.vec4_sub, V4.vec4_sub]

/-! ### rounded motors -/

/-- The lanes of `q` are finite, those of the rotor part within `η` of those of `Q`, the others within `ζ`. -/
def Motor.Close (q : Motor F32) (Q : Motor ℝ) (η ζ : ℝ) : Prop :=
  (∀ i : Fin 4, (q.p1.get i).isFinite = true ∧ |r (q.p1.get i) - Q.p1.get i| ≤ η) ∧
  (∀ i : Fin 4, (q.p2.get i).isFinite = true ∧ |r (q.p2.get i) - Q.p2.get i| ≤ ζ)

/-- A unit rotor part, and an ideal part of size at most `C`. -/
structure Motor.UnitBy (Q : Motor ℝ) (C : ℝ) : Prop where
  p1 : ‖Q.p1.vec4‖ = 1
  p2 : ‖Q.p2.vec4‖ ≤ C

theorem Motor.UnitBy.rev {Q : Motor ℝ} {C : ℝ} (h : Q.UnitBy C) : Q.rev.UnitBy C := by
  have e1 : ‖Q.rev.p1.vec4‖ = ‖Q.p1.vec4‖ := by
    refine (pow_left_inj₀ (norm_nonneg _) (by positivity) (n := 2) (by norm_num)).1 ?_
    rw [V4.vec4_sq, V4.vec4_sq]; simp only [dot4, kln, sse, cond_true, cond_false]; ring
  have e2 : ‖Q.rev.p2.vec4‖ = ‖Q.p2.vec4‖ := by
    refine (pow_left_inj₀ (norm_nonneg _) (by positivity) (n := 2) (by norm_num)).1 ?_
    rw [V4.vec4_sq, V4.vec4_sq]; simp only [dot4, kln, sse, cond_true, cond_false]; ring
  exact ⟨e1.trans h.p1, e2.trans_le h.p2⟩

theorem Motor.UnitBy.mul {A B : Motor ℝ} {C D : ℝ} (hA : A.UnitBy C) (hB : B.UnitBy D) : (A.mulMotor B).UnitBy (D + C) := by
  obtain ⟨e1, e2⟩ := Motor.mul_blk A B
  refine ⟨?_, ?_⟩
  · rw [e1, Motor.blk_ok.norm, hA.p1, hB.p1, one_mul]
  · rw [e2]
    refine (norm_add_le _ _).trans (add_le_add ?_ ?_)
    · rw [Motor.blkR_ok.norm, hA.p1, one_mul]; exact hB.p2
    · rw [Motor.blkL_ok.norm, hB.p1, mul_one]; exact hA.p2

theorem Motor.Close.rev {a : Motor F32} {A : Motor ℝ} {δ ζ : ℝ} (h : a.Close A δ ζ) : a.rev.Close A.rev δ ζ := by
  have n : ∀ {x : F32} {X e : ℝ}, (x.isFinite = true ∧ |r x - X| ≤ e) → ((-x).isFinite = true ∧ |r (-x) - -X| ≤ e) := by
    intro x X e h
    refine ⟨h.1, ?_⟩
    rw [F32.r_neg, show -r x - -X = -(r x - X) by ring, abs_neg]; exact h.2
  refine ⟨fun i => ?_, fun i => ?_⟩
  · match i with
    | 0 => exact h.1 0
    | 1 => exact n (h.1 1)
    | 2 => exact n (h.1 2)
    | 3 => exact n (h.1 3)
  · match i with
    | 0 => exact h.2 0
    | 1 => exact n (h.2 1)
    | 2 => exact n (h.2 2)
    | 3 => exact n (h.2 3)

theorem V4.close_vec4 {v : V4 F32} {V : V4 ℝ} {e : ℝ} (h : ∀ i : Fin 4, (v.get i).isFinite = true ∧ |r (v.get i) - V.get i| ≤ e) :
    ‖v.real.vec4 - V.vec4‖ ≤ 2 * e :=
  V4.vec4_sub_le fun i => by rw [V4.real_get]; exact (h i).2

theorem V4.close_norm {v : V4 F32} {V : V4 ℝ} {e : ℝ} (h : ∀ i : Fin 4, (v.get i).isFinite = true ∧ |r (v.get i) - V.get i| ≤ e) :
    ‖v.real.vec4‖ ≤ ‖V.vec4‖ + 2 * e := by
  have := norm_le_norm_add_norm_sub' v.real.vec4 V.vec4
  have := V4.close_vec4 h
  linarith

theorem Motor.Close.mul {a b : Motor F32} {A B : Motor ℝ} {δ ε ζ ξ C D M : ℝ} (hA : A.UnitBy C) (hB : B.UnitBy D)
    (ha : a.Close A δ ζ) (hb : b.Close B ε ξ) (hδ : δ ≤ 1 / 1000) (hε : ε ≤ 1 / 1000)
    (hM : In2 M 20 20) (hC : C + ζ ≤ 1.001 * M) (hD : D + ξ ≤ 1.001 * M) :
    (a.mulMotor b).Close (A.mulMotor B) (8.4e-7 + 2.01 * δ + 2 * ε)
      (2.1e-6 * M + (2 * δ * (D + 2 * ξ) + 2 * ξ) + (2.01 * ζ + 2 * ε * C)) := by
  have hδ0 : 0 ≤ δ := (abs_nonneg _).trans (ha.1 0).2
  have hε0 : 0 ≤ ε := (abs_nonneg _).trans (hb.1 0).2
  have hζ0 : 0 ≤ ζ := (abs_nonneg _).trans (ha.2 0).2
  have hξ0 : 0 ≤ ξ := (abs_nonneg _).trans (hb.2 0).2
  have hM0 := hM.pos
  have w : ∀ {a : Motor F32} {A : Motor ℝ} {δ ζ C : ℝ}, A.UnitBy C → a.Close A δ ζ → δ ≤ 1 / 1000 → C + ζ ≤ 1.001 * M → a.Within 1.001 M := by
    intro a A δ ζ C hA ha hδ hC
    have k : ∀ i : Fin 4, |r (a.p1.get i)| ≤ 1.001 := fun i => by
      have h1 := abs_sub_abs_le_abs_sub (r (a.p1.get i)) (A.p1.get i)
      have h2 := V4.vec4_lane A.p1 i
      rw [hA.p1] at h2
      have h3 := (ha.1 i).2
      have h4 : |r (a.p1.get i)| ≤ 1 + 1 / 1000 := by linarith
      exact h4.trans (by norm_num)
    have k' : ∀ i : Fin 4, |r (a.p2.get i)| ≤ 1.001 * M := fun i => by
      have h1 := abs_sub_abs_le_abs_sub (r (a.p2.get i)) (A.p2.get i)
      have h2 := (V4.vec4_lane A.p2 i).trans hA.p2
      have h3 := (ha.2 i).2
      linarith
    exact ⟨⟨fun i => (ha.1 i).1, k 0, k 1, k 2, k 3⟩, ⟨fun i => (ha.2 i).1, k' 0, k' 1, k' 2, k' 3⟩⟩
  obtain ⟨n1, n2⟩ := Products32.C90_motor_mul_motor (A := 1.001) (B := 1.001) ⟨by norm_num, by norm_num⟩ ⟨by norm_num, by norm_num⟩ hM
    (w hA ha hδ hC) (w hB hb hε hD)
  have q1 : ∀ i : Fin 4, ((a.mulMotor b).p1.get i).isFinite = true ∧
      |r ((a.mulMotor b).p1.get i) - (a.real.mulMotor b.real).p1.get i| ≤ 8.4e-7 := fun i => by
    have c : ∀ {x : F32} {E : ℝ}, Near32 x E (14 * (1.001 * 1.001)) → x.isFinite = true ∧ |r x - E| ≤ 8.4e-7 :=
      fun h => ⟨h.1, h.2.trans (by norm_num)⟩
    match i with
    | 0 => exact c n1.1
    | 1 => exact c n1.2.1
    | 2 => exact c n1.2.2.1
    | 3 => exact c n1.2.2.2
  have q2 : ∀ i : Fin 4, ((a.mulMotor b).p2.get i).isFinite = true ∧
      |r ((a.mulMotor b).p2.get i) - (a.real.mulMotor b.real).p2.get i| ≤ 2.1e-6 * M := fun i => by
    have c : ∀ {x : F32} {E : ℝ}, Near32 x E (35 * (1.001 * 1.001 * M)) → x.isFinite = true ∧ |r x - E| ≤ 2.1e-6 * M :=
      fun h => ⟨h.1, h.2.trans (by rw [div_le_iff₀ (by positivity)]; norm_num; linarith)⟩
    match i with
    | 0 => exact c n2.1
    | 1 => exact c n2.2.1
    | 2 => exact c n2.2.2.1
    | 3 => exact c n2.2.2.2
  have da1 : ‖a.real.p1.vec4 - A.p1.vec4‖ ≤ 2 * δ := V4.close_vec4 ha.1
  have da2 : ‖a.real.p2.vec4 - A.p2.vec4‖ ≤ 2 * ζ := V4.close_vec4 ha.2
  have db1 : ‖b.real.p1.vec4 - B.p1.vec4‖ ≤ 2 * ε := V4.close_vec4 hb.1
  have db2 : ‖b.real.p2.vec4 - B.p2.vec4‖ ≤ 2 * ξ := V4.close_vec4 hb.2
  have nb1 : ‖b.real.p1.vec4‖ ≤ 1.002 := by
    have := V4.close_norm hb.1
    rw [hB.p1] at this
    refine this.trans ?_
    norm_num at hε ⊢; linarith
  have nb2 : ‖b.real.p2.vec4‖ ≤ D + 2 * ξ := (V4.close_norm hb.2).trans (by linarith [hB.p2])
  obtain ⟨e1, e2⟩ := Motor.mul_blk a.real b.real
  obtain ⟨E1, E2⟩ := Motor.mul_blk A B
  have l0 := Motor.blk_ok.lip a.real.p1 b.real.p1 A.p1 B.p1
  have lR := Motor.blkR_ok.lip a.real.p1 b.real.p2 A.p1 B.p2
  have lL := Motor.blkL_ok.lip a.real.p2 b.real.p1 A.p2 B.p1
  rw [hA.p1] at l0 lR
  have C0 : 0 ≤ C := (norm_nonneg _).trans hA.p2
  have D0 : 0 ≤ D := (norm_nonneg _).trans hB.p2
  have m1 : ‖(a.real.mulMotor b.real).p1.vec4 - (A.mulMotor B).p1.vec4‖ ≤ 2 * δ * 1.002 + 1 * (2 * ε) := by
    rw [e1, E1]
    exact l0.trans (add_le_add (mul_le_mul da1 nb1 (norm_nonneg _) (by positivity)) (by linarith))
  have m2 : ‖(a.real.mulMotor b.real).p2.vec4 - (A.mulMotor B).p2.vec4‖ ≤
      (2 * δ * (D + 2 * ξ) + 1 * (2 * ξ)) + (2 * ζ * 1.002 + C * (2 * ε)) := by
    rw [e2, E2, add_sub_add_comm]
    refine (norm_add_le _ _).trans (add_le_add (lR.trans (add_le_add ?_ ?_)) (lL.trans (add_le_add ?_ ?_)))
    · exact mul_le_mul da1 nb2 (norm_nonneg _) (by positivity)
    · linarith
    · exact mul_le_mul da2 nb1 (norm_nonneg _) (by positivity)
    · exact mul_le_mul hA.p2 db1 (norm_nonneg _) C0
  refine ⟨fun i => ⟨(q1 i).1, ?_⟩, fun i => ⟨(q2 i).1, ?_⟩⟩
  · have h1 := abs_add_le (r ((a.mulMotor b).p1.get i) - (a.real.mulMotor b.real).p1.get i)
      ((a.real.mulMotor b.real).p1.get i - (A.mulMotor B).p1.get i)
    rw [sub_add_sub_cancel] at h1
    have h2 := (V4.vec4_lane_sub _ _ i).trans m1
    have h3 := (q1 i).2
    refine h1.trans ((add_le_add h3 h2).trans ?_)
    norm_num; linarith
  · have h1 := abs_add_le (r ((a.mulMotor b).p2.get i) - (a.real.mulMotor b.real).p2.get i)
      ((a.real.mulMotor b.real).p2.get i - (A.mulMotor B).p2.get i)
    rw [sub_add_sub_cancel] at h1
    have h2 := (V4.vec4_lane_sub _ _ i).trans m2
    have h3 := (q2 i).2
    refine h1.trans ((add_le_add h3 h2).trans ?_)
    norm_num; linarith

/-! ### the logarithm and the exponential, exactly -/

section
variable {hwr : Hw ℝ} (hx : hwr.Exact) (isa : Isa)
include hx

/-- The logarithm of a motor with a positive scalar part. -/
theorem Motor.log_form (Q : Motor ℝ) (hp : 1 / 1000000 ≤ Q.p1.l0) (hs : 0 < ‖Q.p1.vec‖) :
    (Q.log hwr Libm.real isa).WF ∧
    (Q.log hwr Libm.real isa).p1.vec = LogLip.phi Q.p1.l0 ‖Q.p1.vec‖ • Q.p1.vec ∧
    (Q.log hwr Libm.real isa).p2.vec = LogLip.phi Q.p1.l0 ‖Q.p1.vec‖ • Q.p2.vec +
      (LogLip.psi Q.p1.l0 ‖Q.p1.vec‖ * inner ℝ Q.p1.vec Q.p2.vec) • Q.p1.vec := by
  have es : Q.sPart = ‖Q.p1.vec‖ := by rw [V4.vec_norm]; rfl
  have p0 : 0 < Q.p1.l0 := lt_of_lt_of_le (by norm_num) hp
  have hlt : ¬ |Q.scalar| < 1 / 1000000 := by
    rw [show Q.scalar = Q.p1.l0 from rfl, abs_of_pos p0, not_lt]; exact hp
  have hU : Q.logU = Real.arctan (‖Q.p1.vec‖ / Q.p1.l0) := by
    rw [Motor.logU, if_neg hlt, es, show Q.scalar = Q.p1.l0 from rfl]
    have h1 : |Complex.arg ⟨Q.p1.l0, ‖Q.p1.vec‖⟩| < Real.pi / 2 := Complex.abs_arg_lt_pi_div_two_iff.2 (Or.inl p0)
    rw [← Real.arctan_tan (abs_lt.1 h1).1 (abs_lt.1 h1).2, Complex.tan_arg]
  have hV : Q.logV = -(dot3 Q.p1 Q.p2 / ‖Q.p1.vec‖) / Q.p1.l0 := by
    rw [Motor.logV, if_neg hlt, Motor.tPart, es]; rfl
  rw [Motor.log_eq hx isa Q (by rw [es]; exact hs), hU, hV, V4.vec_inner]
  have er : √(dot3 Q.bivector.p1 Q.bivector.p1) = ‖Q.p1.vec‖ := es
  have ed : dot3 Q.bivector.p1 Q.bivector.p2 = dot3 Q.p1 Q.p2 := rfl
  simp only [Line.axis, Line.scr, er, ed, LogLip.phi, LogLip.psi]
  generalize dot3 Q.p1 Q.p2 = D
  generalize Real.arctan (‖Q.p1.vec‖ / Q.p1.l0) = θ
  have ev1 : Q.p1.vec = !₂[Q.bivector.p1.l1, Q.bivector.p1.l2, Q.bivector.p1.l3] := rfl
  have ev2 : Q.p2.vec = !₂[Q.bivector.p2.l1, Q.bivector.p2.l2, Q.bivector.p2.l3] := rfl
  generalize ‖Q.p1.vec‖ = s at *
  rw [ev1, ev2]
  refine ⟨⟨rfl, rfl⟩, ?_, ?_⟩
  · ext i; fin_cases i <;> simp [V4.vec] <;> ring
  · ext i; fin_cases i <;> simp [V4.vec] <;> field_simp <;> ring

omit hx in
/-- The moment of the logarithm is at most that of the motor over its scalar part. -/
theorem LogLip.mom_le {p : ℝ} (hp : 0 < p) {v w : EuclideanSpace ℝ (Fin 3)} (hv : 0 < ‖v‖) :
    ‖LogLip.phi p ‖v‖ • w + (LogLip.psi p ‖v‖ * inner ℝ v w) • v‖ ≤ ‖w‖ / p := by
  have h1 := LogLip.phi_nonneg hp hv
  have h2 := LogLip.psi_nonneg hp hv
  refine (norm_add_le _ _).trans ?_
  rw [norm_smul, norm_smul, norm_mul, Real.norm_of_nonneg h1, Real.norm_of_nonneg h2]
  have h3 : ‖(inner ℝ v w : ℝ)‖ ≤ ‖v‖ * ‖w‖ := norm_inner_le_norm v w
  have h4 : LogLip.psi p ‖v‖ * ‖(inner ℝ v w : ℝ)‖ * ‖v‖ ≤ LogLip.psi p ‖v‖ * (‖v‖ * ‖w‖) * ‖v‖ := by gcongr
  have e : LogLip.phi p ‖v‖ + LogLip.psi p ‖v‖ * ‖v‖ ^ 2 = 1 / p := by
    simp only [LogLip.phi, LogLip.psi]; field_simp; ring
  calc _ ≤ LogLip.phi p ‖v‖ * ‖w‖ + LogLip.psi p ‖v‖ * (‖v‖ * ‖w‖) * ‖v‖ := by linarith
    _ = (LogLip.phi p ‖v‖ + LogLip.psi p ‖v‖ * ‖v‖ ^ 2) * ‖w‖ := by ring
    _ = ‖w‖ / p := by rw [e]; ring

/-- The exponential of a line has a unit rotor part, and its ideal part is no larger than the moment. -/
theorem Line.exp_unitBy {n : Line ℝ} (w : n.WF) (hn : 0 < ‖n.p1.vec‖) : (n.exp hwr Libm.real isa).UnitBy ‖n.p2.vec‖ := by
  have hd : 0 < dot3 n.p1 n.p1 := Real.sqrt_pos.1 (by rw [← V4.vec_norm]; exact hn)
  obtain ⟨e0, e1, e2, e3⟩ := Line.exp_vec hx isa w hd
  have hS := ExpLip.abs_S hn
  have hG := ExpLip.x2G hn
  have hcs := Real.sin_sq_add_cos_sq ‖n.p1.vec‖
  have hS' : Real.sin ‖n.p1.vec‖ = ExpLip.S ‖n.p1.vec‖ * ‖n.p1.vec‖ := by rw [ExpLip.S]; field_simp
  have hcs' := abs_real_inner_le_norm n.p1.vec n.p2.vec
  rw [hS'] at hcs
  refine ⟨?_, ?_⟩
  · refine (pow_left_inj₀ (norm_nonneg _) (by norm_num) (n := 2) (by norm_num)).1 ?_
    rw [V4.vec4_split, e0, e1, norm_smul, mul_pow, Real.norm_eq_abs, sq_abs]
    linarith
  · refine abs_le_of_sq_le_sq' (a := ‖(n.exp hwr Libm.real isa).p2.vec4‖) ?_ (norm_nonneg _) |>.2
    rw [V4.vec4_split, e2, e3, norm_add_sq_real, norm_smul, norm_smul, mul_pow, mul_pow, mul_pow, Real.norm_eq_abs,
      Real.norm_eq_abs, sq_abs, sq_abs, inner_smul_left, inner_smul_right, real_inner_comm n.p1.vec n.p2.vec]
    simp only [conj_trivial]
    generalize (inner ℝ n.p1.vec n.p2.vec : ℝ) = D at *
    generalize ExpLip.S ‖n.p1.vec‖ = S at *
    generalize ExpLip.G ‖n.p1.vec‖ = G at *
    generalize Real.cos ‖n.p1.vec‖ = c at *
    generalize ‖n.p1.vec‖ = a at *
    generalize ‖n.p2.vec‖ = b at *
    have k1 : S ^ 2 ≤ 1 := by rw [← sq_abs]; exact pow_le_one₀ (abs_nonneg _) hS
    have k2 : D ^ 2 ≤ a ^ 2 * b ^ 2 := by
      rw [← mul_pow, ← sq_abs D]; exact pow_le_pow_left₀ (abs_nonneg _) hcs' 2
    have ec : c = a ^ 2 * G + S := by linarith
    have key : ((S * D) ^ 2 + (S ^ 2 * b ^ 2 + 2 * (S * (G * D * D)) + (G * D) ^ 2 * a ^ 2)) * a ^ 2 =
        S ^ 2 * (a ^ 2 * b ^ 2) + D ^ 2 * (1 - S ^ 2) := by
      rw [← hcs, ec]; ring
    have ha2 : 0 < a ^ 2 := by positivity
    have : ((S * D) ^ 2 + (S ^ 2 * b ^ 2 + 2 * (S * (G * D * D)) + (G * D) ^ 2 * a ^ 2)) * a ^ 2 ≤ b ^ 2 * a ^ 2 := by
      rw [key]; nlinarith [mul_nonneg (sub_nonneg.2 k1) (sub_nonneg.2 k2)]
    refine le_of_eq_of_le ?_ (le_of_mul_le_mul_right this ha2)
    ring

end

/-! ### powers of rounded motors -/

section
variable {hw : Hw F32} (hc : hw.Contract32) {lm : Libm F32} (hl : lm.Contract32) {hwr : Hw ℝ} (hx : hwr.Exact)
  (isa isa' : Isa)

/-- The exact and the rounded motor, with the sizes used below. -/
structure Motor.Near (q : Motor F32) (Q : Motor ℝ) (W η ζ : ℝ) : Prop where
  unit : Q.UnitBy W
  one : 1 ≤ W
  top : W ≤ 2 ^ 22
  lo : 1 / 2 ≤ Q.p1.l0
  hi : Q.p1.l0 < 1
  turn : 1 / 2 ^ 29 ≤ √q.p1.sq3
  eta : η ≤ 1 / 2 ^ 18
  zeta : ζ ≤ W / 2 ^ 18
  close : q.Close Q η ζ

section
variable {q : Motor F32} {Q : Motor ℝ} {W η ζ : ℝ}

theorem Motor.Near.size (h : q.Near Q W η ζ) : (0 ≤ η ∧ 0 ≤ ζ) ∧
    (0 < ‖Q.p1.vec‖ ∧ ‖Q.p1.vec‖ ≤ 0.8661) ∧ (1 / 2 ^ 29 ≤ ‖q.real.p1.vec‖ ∧ ‖q.real.p1.vec‖ ≤ 0.867) ∧
    (|Q.p1.l0 - q.real.p1.l0| ≤ η ∧ 0.499 ≤ q.real.p1.l0 ∧ q.real.p1.l0 ≤ 1.00001) ∧
    (‖Q.p2.vec‖ ≤ W ∧ ‖q.real.p2.vec‖ ≤ 1.001 * W) ∧
    ‖Q.p1.vec - q.real.p1.vec‖ ≤ 1.74 * η ∧ ‖Q.p2.vec - q.real.p2.vec‖ ≤ 1.74 * ζ := by
  have hη0 : 0 ≤ η := (abs_nonneg _).trans (h.close.1 0).2
  have hζ0 : 0 ≤ ζ := (abs_nonneg _).trans (h.close.2 0).2
  have hη := h.eta
  have hζ := h.zeta
  have d1 : ‖Q.p1.vec - q.real.p1.vec‖ ≤ 1.74 * η := V4.vec_sub_norm hη0 fun i _ => by
    rw [abs_sub_comm]; exact (congrArg (fun x => |x - Q.p1.get i|) (V4.real_get q.p1 i)).trans_le (h.close.1 i).2
  have d2 : ‖Q.p2.vec - q.real.p2.vec‖ ≤ 1.74 * ζ := V4.vec_sub_norm hζ0 fun i _ => by
    rw [abs_sub_comm]; exact (congrArg (fun x => |x - Q.p2.get i|) (V4.real_get q.p2 i)).trans_le (h.close.2 i).2
  have d0 : |Q.p1.l0 - q.real.p1.l0| ≤ η := by rw [abs_sub_comm]; exact (h.close.1 0).2
  have hs := V4.vec4_split Q.p1
  rw [h.unit.p1] at hs
  have h0 := h.lo
  have h1 := h.hi
  have w1 := h.one
  have s0 : 0 < ‖Q.p1.vec‖ := by
    refine (norm_nonneg _).lt_of_ne fun h' => ?_
    rw [← h'] at hs; nlinarith
  have s1 : ‖Q.p1.vec‖ ≤ 0.8661 := abs_le_of_sq_le_sq' (a := ‖Q.p1.vec‖) (by norm_num; nlinarith) (by norm_num) |>.2
  have t2 := norm_sub_norm_le q.real.p1.vec Q.p1.vec
  have t3 := norm_sub_norm_le q.real.p2.vec Q.p2.vec
  rw [norm_sub_rev] at t2 t3
  have p2 := (V4.vec_le_vec4 Q.p2).trans h.unit.p2
  have d0' := abs_le.1 d0
  refine ⟨⟨hη0, hζ0⟩, ⟨s0, s1⟩, ⟨?_, ?_⟩, ⟨d0, ?_, ?_⟩, ⟨p2, ?_⟩, d1, d2⟩
  · exact h.turn.trans_eq (V4.real_vec_norm q.p1).symm
  · norm_num at s1 d1 hη ⊢; linarith
  · norm_num at hη ⊢; linarith
  · norm_num at hη h1 ⊢; linarith
  · norm_num at d2 hζ ⊢; linarith

theorem pos_of_turn {x y : ℝ} (h : 1 / 2 ^ 27 ≤ |x| * y) : 0 < |x| := by
  rcases (abs_nonneg x).lt_or_eq with h1 | h1
  · exact h1
  · rw [← h1, zero_mul] at h; norm_num at h

include hx in
/-- The logarithms of the exact and of the rounded motor, both taken exactly. -/
theorem Motor.Near.log (h : q.Near Q W η ζ) :
    ((Q.log hwr Libm.real isa').WF ∧ 0 < ‖(Q.log hwr Libm.real isa').p1.vec‖ ∧ ‖(Q.log hwr Libm.real isa').p2.vec‖ ≤ 2 * W) ∧
    ((q.real.log hwr Libm.real isa').WF ∧ 0 < ‖(q.real.log hwr Libm.real isa').p1.vec‖) ∧
    ‖(Q.log hwr Libm.real isa').p1.vec - (q.real.log hwr Libm.real isa').p1.vec‖ ≤ 10.1 * η ∧
    ‖(Q.log hwr Libm.real isa').p2.vec - (q.real.log hwr Libm.real isa').p2.vec‖ ≤ 38.4 * η * W + 7.1 * ζ := by
  obtain ⟨⟨hη, hζ⟩, ⟨a0, a1⟩, ⟨b0, b1⟩, ⟨c0, c1, c2⟩, ⟨e0, e1⟩, d1, d2⟩ := h.size
  have P0 : (0 : ℝ) < 0.499 := by norm_num
  have A0 : 0 < ‖Q.p1.vec‖ := a0
  have B0 : 0 < ‖q.real.p1.vec‖ := lt_of_lt_of_le (by norm_num) b0
  have w1 := h.one
  have hP : (0.499 : ℝ) ≤ Q.p1.l0 := le_trans (by norm_num) h.lo
  obtain ⟨m1, m2, m3⟩ := Motor.log_form hx isa' Q (le_trans (by norm_num) h.lo) A0
  obtain ⟨n1, n2, n3⟩ := Motor.log_form hx isa' q.real (le_trans (by norm_num) c1) B0
  have l1 := LogLip.dir_lip P0 hP c1 A0 B0
  have l2 := LogLip.mom_lip (w := Q.p2.vec) (w' := q.real.p2.vec) P0 hP c1 A0 B0
  have l3 := LogLip.mom_le (w := Q.p2.vec) (lt_of_lt_of_le P0 hP) A0
  rw [← m2, ← n2] at l1
  rw [← m3, ← n3] at l2
  rw [← m3] at l3
  have pos : ∀ {p : ℝ} {v : EuclideanSpace ℝ (Fin 3)}, (0.499 : ℝ) ≤ p → 0 < ‖v‖ → 0 < ‖LogLip.phi p ‖v‖ • v‖ := by
    intro p v hp hv
    have hp0 := lt_of_lt_of_le P0 hp
    have : 0 < LogLip.phi p ‖v‖ := div_pos (Real.arctan_pos.2 (by positivity)) hv
    rw [norm_smul, Real.norm_of_nonneg this.le]; positivity
  refine ⟨⟨m1, by rw [m2]; exact pos hP A0, ?_⟩, ⟨n1, by rw [n2]; exact pos c1 B0⟩, ?_, ?_⟩
  · refine l3.trans ?_
    rw [div_le_iff₀ (lt_of_lt_of_le P0 hP)]
    nlinarith [h.lo]
  · refine l1.trans ?_
    have k1 : |Q.p1.l0 - q.real.p1.l0| + ‖Q.p1.vec - q.real.p1.vec‖ / 2 ≤ 1.87 * η := by norm_num at d1 ⊢; linarith
    calc _ ≤ 1.74 * η / 0.499 + 0.8661 * (1.87 * η / 0.499 ^ 2) := by gcongr
      _ ≤ 10.1 * η := by norm_num; linarith
  · refine l2.trans ?_
    have k1 : |Q.p1.l0 - q.real.p1.l0| + ‖Q.p1.vec - q.real.p1.vec‖ / 2 ≤ 1.87 * η := by norm_num at d1 ⊢; linarith
    calc _ ≤ 1.74 * ζ / 0.499 + W * (1.87 * η / 0.499 ^ 2) + 0.8661 ^ 2 * W * (1.87 * η / 0.499 ^ 4) +
          (0.8661 * (1.74 * η * W + 0.867 * (1.74 * ζ)) + 0.867 * (1.001 * W) * (1.74 * η)) / (3 * 0.499 ^ 3) := by gcongr
      _ ≤ 38.4 * η * W + 7.1 * ζ := by
        have : 0 ≤ η * W := by positivity
        norm_num; nlinarith

theorem Motor.Near.ang (h : q.Near Q W η ζ) : 0.49 * √q.p1.sq3 ≤ q.ang ∧ q.ang ≤ 1.571 ∧
    W ≤ q.logScale (1.001 * W) ∧ q.logScale (1.001 * W) ≤ 4.02 * W := by
  obtain ⟨⟨hη, hζ⟩, ⟨a0, a1⟩, ⟨b0, b1⟩, ⟨c0, c1, c2⟩, ⟨e0, e1⟩, d1, d2⟩ := h.size
  have w1 := h.one
  have B0 : 0 < ‖q.real.p1.vec‖ := lt_of_lt_of_le (by norm_num) b0
  have C0 : 0 < q.real.p1.l0 := lt_of_lt_of_le (by norm_num) c1
  have es : √q.p1.sq3 = ‖q.real.p1.vec‖ := (V4.real_vec_norm q.p1).symm
  have ea : q.ang = Real.arctan (‖q.real.p1.vec‖ / q.real.p1.l0) := by
    rw [Motor.ang, es]
    have h1 : |Complex.arg ⟨r q.p1.l0, ‖q.real.p1.vec‖⟩| < Real.pi / 2 := Complex.abs_arg_lt_pi_div_two_iff.2 (Or.inl C0)
    rw [← Real.arctan_tan (abs_lt.1 h1).1 (abs_lt.1 h1).2, Complex.tan_arg]
    rfl
  have hphi := LogLip.phi_le C0 B0
  have hge := LogLip.arctan_ge' (x := ‖q.real.p1.vec‖ / q.real.p1.l0) (by positivity)
  have el : q.logScale (1.001 * W) = LogLip.phi q.real.p1.l0 ‖q.real.p1.vec‖ * (1.001 * W) + 1.001 * W / q.real.p1.l0 := by
    rw [Motor.logScale, ea, es, LogLip.phi, show r q.p1.l0 = q.real.p1.l0 from rfl, abs_of_pos C0]; ring
  have h1 : 1 / q.real.p1.l0 ≤ 1 / 0.499 := one_div_le_one_div_of_le (by norm_num) c1
  have h2 : 0.9999 ≤ 1 / q.real.p1.l0 := by rw [le_div_iff₀ C0]; norm_num at c2 ⊢; linarith
  have h3 := LogLip.phi_nonneg C0 B0
  have e3 : 1.001 * W / q.real.p1.l0 = 1.001 * W * (1 / q.real.p1.l0) := by ring
  refine ⟨?_, ?_, ?_, ?_⟩
  · rw [ea]
    rw [es]
    refine le_trans ?_ hge
    have e : ‖q.real.p1.vec‖ / q.real.p1.l0 / (1 + (‖q.real.p1.vec‖ / q.real.p1.l0) ^ 2) =
        ‖q.real.p1.vec‖ * (q.real.p1.l0 / (q.real.p1.l0 ^ 2 + ‖q.real.p1.vec‖ ^ 2)) := by field_simp
    rw [e, mul_comm (0.49 : ℝ)]
    refine mul_le_mul_of_nonneg_left ?_ B0.le
    rw [le_div_iff₀ (by positivity)]
    have hs := V4.vec4_split Q.p1
    rw [h.unit.p1] at hs
    have t2 := norm_sub_norm_le q.real.p1.vec Q.p1.vec
    rw [norm_sub_rev] at t2
    have hη' := h.eta
    have x1 : ‖q.real.p1.vec‖ ^ 2 ≤ ‖Q.p1.vec‖ ^ 2 + 1e-4 := by
      have : ‖q.real.p1.vec‖ ≤ ‖Q.p1.vec‖ + 1e-5 := by norm_num at t2 d1 hη' ⊢; linarith
      have := pow_le_pow_left₀ B0.le this 2
      norm_num at this a1 ⊢; nlinarith
    have c0' := abs_le.1 c0
    have x2 : q.real.p1.l0 ^ 2 ≤ Q.p1.l0 ^ 2 + 1e-4 := by
      have h9 : q.real.p1.l0 ≤ Q.p1.l0 + 1e-5 := by norm_num at hη' ⊢; linarith
      have := pow_le_pow_left₀ C0.le h9 2
      have := h.hi
      norm_num at * ; nlinarith
    norm_num at *; nlinarith
  · rw [ea]
    have := Real.arctan_lt_pi_div_two (‖q.real.p1.vec‖ / q.real.p1.l0)
    have := Real.pi_lt_d4
    norm_num at this ⊢; linarith
  · rw [el, e3]
    have : 0 ≤ LogLip.phi q.real.p1.l0 ‖q.real.p1.vec‖ * (1.001 * W) := by positivity
    have k : 1.001 * W * 0.9999 ≤ 1.001 * W * (1 / q.real.p1.l0) :=
      mul_le_mul_of_nonneg_left h2 (by positivity)
    norm_num at k this ⊢; linarith
  · rw [el, e3]
    have k1 : LogLip.phi q.real.p1.l0 ‖q.real.p1.vec‖ * (1.001 * W) ≤ 1 / 0.499 * (1.001 * W) :=
      mul_le_mul_of_nonneg_right (hphi.trans h1) (by positivity)
    have k2 : 1.001 * W * (1 / q.real.p1.l0) ≤ 1.001 * W * (1 / 0.499) := mul_le_mul_of_nonneg_left h1 (by positivity)
    refine (add_le_add k1 k2).trans ?_
    norm_num; linarith

theorem Motor.Near.power (h : q.Near Q W η ζ) {t : F32} (ht : t.isFinite = true) (ht1 : |r t| ≤ 1)
    (hm : 1 / 2 ^ 27 ≤ |r t| * √q.p1.sq3) : q.Power t (1.001 * W) := by
  obtain ⟨⟨hη, hζ⟩, ⟨a0, a1⟩, ⟨b0, b1⟩, ⟨c0, c1, c2⟩, ⟨e0, e1⟩, d1, d2⟩ := h.size
  obtain ⟨g1, g2, g3, g4⟩ := h.ang
  have w1 := h.one
  have w2 := h.top
  have C0 : 0 < q.real.p1.l0 := lt_of_lt_of_le (by norm_num) c1
  have B0 : 0 < ‖q.real.p1.vec‖ := lt_of_lt_of_le (by norm_num) b0
  have es : q.p1.sq3 = ‖q.real.p1.vec‖ ^ 2 := by
    rw [show q.real.p1 = q.p1.real from rfl, V4.real_vec_norm, Real.sq_sqrt (by rw [V4.sq3]; positivity)]
  have es2 : q.p2.sq3 = ‖q.real.p2.vec‖ ^ 2 := by
    rw [show q.real.p2 = q.p2.real from rfl, V4.real_vec_norm, Real.sq_sqrt (by rw [V4.sq3]; positivity)]
  have es3 : √q.p1.sq3 = ‖q.real.p1.vec‖ := (V4.real_vec_norm q.p1).symm
  rw [es3] at hm g1
  have ht0 : 1 / 2 ^ 27 ≤ |r t| := by
    have := mul_le_mul_of_nonneg_left b1 (abs_nonneg (r t))
    norm_num at this hm ⊢; linarith [abs_nonneg (r t)]
  have T0 : 0 < |r t| := lt_of_lt_of_le (by positivity) ht0
  have k : ∀ i : Fin 4, |r (q.p1.get i)| ≤ 2 := fun i => by
    have h1 := abs_sub_abs_le_abs_sub (r (q.p1.get i)) (Q.p1.get i)
    have h2 := V4.vec4_lane Q.p1 i
    rw [h.unit.p1] at h2
    have h3 := (h.close.1 i).2
    have h4 : η ≤ 1 := h.eta.trans (by norm_num)
    linarith
  have k' : ∀ i : Fin 4, |r (q.p2.get i)| ≤ 2 * W := fun i => by
    have h1 := abs_sub_abs_le_abs_sub (r (q.p2.get i)) (Q.p2.get i)
    have h2 := (V4.vec4_lane Q.p2 i).trans h.unit.p2
    have h3 := (h.close.2 i).2
    have h4 : ζ ≤ W := h.zeta.trans (div_le_self (by linarith) (by norm_num))
    linarith
  refine ⟨⟨⟨fun i => le2_of_abs (h.close.1 i).1 ((k i).trans (by norm_num)), ?_,
    fun i => le2_of_abs (h.close.2 i).1 ((k' i).trans ?_), ?_, ⟨?_, ?_⟩⟩, ?_⟩, ht, ?_, ?_, ⟨?_, ?_⟩⟩
  · rw [es]
    refine le_trans ?_ (pow_le_pow_left₀ (by positivity) b0 2)
    norm_num
  · norm_num at w2 ⊢; linarith
  · rw [es2]; exact pow_le_pow_left₀ (norm_nonneg _) e1 2
  · norm_num; linarith
  · norm_num at w2 ⊢; linarith
  · rw [show r q.p1.l0 = q.real.p1.l0 from rfl, abs_of_pos C0]; exact le_trans (by norm_num) c1
  · have := mul_le_mul_of_nonneg_left g1 T0.le
    norm_num at hm this ⊢; linarith
  · calc |r t| * q.ang ≤ 1 * 1.571 := mul_le_mul ht1 g2 (le_trans (by positivity) g1) (by norm_num)
      _ ≤ 3.99 := by norm_num
  · calc (1 : ℝ) / 2 ^ 29 ≤ 1 / 2 ^ 27 * 1 := by norm_num
      _ ≤ |r t| * q.logScale (1.001 * W) := mul_le_mul ht0 (w1.trans g3) (by norm_num) T0.le
  · calc |r t| * q.logScale (1.001 * W) ≤ 1 * (4.02 * W) := mul_le_mul ht1 g4 (by linarith) (by norm_num)
      _ ≤ 2 ^ 31 := by norm_num at w2 ⊢; linarith

include hc hl hx in
/-- C98: `exp(t * log(q))` of a rounded motor. -/
theorem C98_power (h : q.Near Q W η ζ) {t : F32} (ht : t.isFinite = true) (ht1 : |r t| ≤ 1)
    (hm : 1 / 2 ^ 27 ≤ |r t| * √q.p1.sq3) :
    Motor.Close (((q.log hw lm isa).mulAssign t).exp hw lm isa) (((Q.log hwr Libm.real isa').smul (r t)).exp hwr Libm.real isa')
      (5.3e-6 + |r t| * (6.5e-6 + 10.1 * η)) (|r t| * ((3.2e-4 + 180 * η) * W + 7.1 * ζ)) := by
  have hP := h.power ht ht1 hm
  obtain ⟨⟨m1, m2, m3⟩, ⟨n1, n2⟩, l1, l2⟩ := h.log hx isa'
  obtain ⟨g1, g2, g3, g4⟩ := h.ang
  obtain ⟨⟨hη, hζ⟩, -⟩ := h.size
  have w1 := h.one
  have T0 : 0 < |r t| := pos_of_turn hm
  have wf : ∀ {l : Line ℝ}, l.WF → (l.smul (r t)).WF := fun w => by
    obtain ⟨w1, w2⟩ := w
    refine ⟨?_, ?_⟩
    · simp only [kln, sse, w1, zero_mul]
    · simp only [kln, sse, w2, zero_mul]
  obtain ⟨sm1, sm2⟩ := Line.smul_vec (Q.log hwr Libm.real isa') (r t)
  obtain ⟨sn1, sn2⟩ := Line.smul_vec (q.real.log hwr Libm.real isa') (r t)
  have pos : ∀ {l : Line ℝ}, 0 < ‖l.p1.vec‖ → 0 < dot3 (l.smul (r t)).p1 (l.smul (r t)).p1 := fun {l} hl => by
    refine Real.sqrt_pos.1 ?_
    rw [← V4.vec_norm, (Line.smul_vec l (r t)).1, norm_smul, Real.norm_eq_abs]
    positivity
  have x1 : ‖((Q.log hwr Libm.real isa').smul (r t)).p1.vec - ((q.real.log hwr Libm.real isa').smul (r t)).p1.vec‖ ≤ |r t| * (10.1 * η) := by
    rw [sm1, sn1, ← smul_sub, norm_smul, Real.norm_eq_abs]
    exact mul_le_mul_of_nonneg_left l1 T0.le
  have x2 : ‖((Q.log hwr Libm.real isa').smul (r t)).p2.vec - ((q.real.log hwr Libm.real isa').smul (r t)).p2.vec‖ ≤
      |r t| * (38.4 * η * W + 7.1 * ζ) := by
    rw [sm2, sn2, ← smul_sub, norm_smul, Real.norm_eq_abs]
    exact mul_le_mul_of_nonneg_left l2 T0.le
  have x3 : ‖((Q.log hwr Libm.real isa').smul (r t)).p2.vec‖ ≤ |r t| * (2 * W) := by
    rw [sm2, norm_smul, Real.norm_eq_abs]
    exact mul_le_mul_of_nonneg_left m3 T0.le
  have hang : |r t| * q.ang ≤ |r t| * 1.571 := mul_le_mul_of_nonneg_left g2 T0.le
  refine ⟨fun i => ?_, fun i => ?_⟩
  · obtain ⟨f1, f2⟩ := C95_power_p1 hc hl hx isa isa' hP i
    refine ⟨f1, ?_⟩
    have f3 := Line.exp_lip_p1 hx isa' (wf m1) (wf n1) (pos m2) (pos n2) i
    rw [abs_sub_comm] at f3
    have := abs_add_le (r ((((q.log hw lm isa).mulAssign t).exp hw lm isa).p1.get i) -
        ((((q.real.log hwr Libm.real isa').mulAssign (r t)).exp hwr Libm.real isa').p1.get i))
      ((((q.real.log hwr Libm.real isa').smul (r t)).exp hwr Libm.real isa').p1.get i -
        (((Q.log hwr Libm.real isa').smul (r t)).exp hwr Libm.real isa').p1.get i)
    rw [show (q.real.log hwr Libm.real isa').mulAssign (r t) = (q.real.log hwr Libm.real isa').smul (r t) from rfl] at this f2
    rw [sub_add_sub_cancel] at this
    refine this.trans ((add_le_add f2 (f3.trans x1)).trans ?_)
    have : 4.1e-6 * (|r t| * q.ang) ≤ 4.1e-6 * (|r t| * 1.571) := mul_le_mul_of_nonneg_left hang (by norm_num)
    norm_num at this ⊢; nlinarith
  · obtain ⟨f1, f2⟩ := C95_power_p2 hc hl hx isa isa' hP i
    refine ⟨f1, ?_⟩
    have f3 := Line.exp_lip_p2 hx isa' (wf m1) (wf n1) (pos m2) (pos n2) i
    rw [abs_sub_comm] at f3
    have := abs_add_le (r ((((q.log hw lm isa).mulAssign t).exp hw lm isa).p2.get i) -
        ((((q.real.log hwr Libm.real isa').mulAssign (r t)).exp hwr Libm.real isa').p2.get i))
      ((((q.real.log hwr Libm.real isa').smul (r t)).exp hwr Libm.real isa').p2.get i -
        (((Q.log hwr Libm.real isa').smul (r t)).exp hwr Libm.real isa').p2.get i)
    rw [show (q.real.log hwr Libm.real isa').mulAssign (r t) = (q.real.log hwr Libm.real isa').smul (r t) from rfl] at this f2
    rw [sub_add_sub_cancel] at this
    have y1 : (3.3e-5 + 2.9e-5 * (|r t| * q.ang)) * (|r t| * q.logScale (1.001 * W)) ≤
        (3.3e-5 + 2.9e-5 * (1 * 1.571)) * (|r t| * (4.02 * W)) := by
      have : 0 ≤ q.ang := le_trans (by positivity) g1
      have : 0 ≤ q.logScale (1.001 * W) := by linarith
      have : |r t| * q.ang ≤ 1 * 1.571 := by gcongr
      gcongr
    have y2 : 7 * ‖((Q.log hwr Libm.real isa').smul (r t)).p1.vec - ((q.real.log hwr Libm.real isa').smul (r t)).p1.vec‖ *
        ‖((Q.log hwr Libm.real isa').smul (r t)).p2.vec‖ ≤ 7 * (1 * (10.1 * η)) * (|r t| * (2 * W)) := by
      gcongr
      exact x1.trans (mul_le_mul_of_nonneg_right ht1 (by positivity))
    refine this.trans ((add_le_add (f2.trans y1) (f3.trans (add_le_add y2 x2))).trans ?_)
    have z1 : 0 ≤ |r t| * W := by positivity
    have z2 : 0 ≤ |r t| * W * η := by positivity
    have z3 : 0 ≤ |r t| * ζ := by positivity
    norm_num; nlinarith


include hc hl hx in
/-- C98: interpolation of motors.  `A` and `B` are the exact motors with unit rotor parts and ideal parts of size at
most `C`, `a` and `b` what is stored of them.  Their orientations may be arbitrarily close, as long as the bivector part
of `b * ~a` does not come out negligible. -/
theorem C98_slerp_near {a b : Motor F32} {A B : Motor ℝ} {C δ : ℝ} (hA : A.UnitBy C) (hB : B.UnitBy C) (hC1 : 1 ≤ C)
    (hC2 : C ≤ 2 ^ 17) (h0 : 1 / 2 ≤ dot4 A.p1 B.p1) (h1 : dot4 A.p1 B.p1 < 1) (hδ : δ ≤ 1 / 2 ^ 21)
    (ha : a.Close A δ (δ * C)) (hb : b.Close B δ (δ * C)) {t : F32} (ht : t.isFinite = true) (ht1 : |r t| ≤ 1)
    (hm : 1 / 2 ^ 27 ≤ |r t| * √(b.mulMotor a.rev).p1.sq3) :
    (slerp hw lm isa a b t).Close (slerp hwr Libm.real isa' A B (r t))
      (1.15e-5 + |r t| * (3.1e-5 + 82 * δ) + 2 * δ) (C * (2.1e-5 + |r t| * (2e-3 + 3200 * δ) + 2.1 * δ)) := by
  have hδ0 : 0 ≤ δ := (abs_nonneg _).trans (ha.1 0).2
  have T0 : 0 < |r t| := pos_of_turn hm
  have hturn : 1 / 2 ^ 29 ≤ √(b.mulMotor a.rev).p1.sq3 := by
    refine le_trans (le_trans (by norm_num) hm) (mul_le_of_le_one_left (Real.sqrt_nonneg _) ht1)
  have d1 : δ ≤ 1 / 1000 := hδ.trans (by norm_num)
  have dC : δ * C ≤ 1 / 1000 * C := mul_le_mul_of_nonneg_right d1 (by linarith)
  have c1 := Motor.Close.mul (M := C) hB hA.rev hb ha.rev d1 d1 ⟨le_trans (by norm_num) hC1, hC2.trans (by norm_num)⟩
    (by norm_num at dC ⊢; linarith) (by norm_num at dC ⊢; linarith)
  have hU := hB.mul hA.rev
  have hs : (B.mulMotor A.rev).p1.l0 = dot4 A.p1 B.p1 := by
    simp only [kln, sse, dot4, cond_true, cond_false]; ring
  rw [← hs] at h0 h1
  have dC' : δ * C ≤ 1 / 2 ^ 21 * C := mul_le_mul_of_nonneg_right hδ (by linarith)
  have dC0 : 0 ≤ δ * C := by positivity
  have ddC : δ * (δ * C) ≤ 1 / 1000 * (δ * C) := mul_le_mul_of_nonneg_right d1 dC0
  have hN : (b.mulMotor a.rev).Near (B.mulMotor A.rev) (C + C) (8.4e-7 + 4.01 * δ) ((2.1e-6 + 8.02 * δ) * C) := by
    refine ⟨hU, by linarith, by norm_num at hC2 ⊢; linarith, h0, h1, hturn, ?_, ?_, ?_⟩
    · norm_num at hδ ⊢; linarith
    · norm_num at dC' ⊢; linarith
    · refine ⟨fun i => ⟨(c1.1 i).1, (c1.1 i).2.trans ?_⟩, fun i => ⟨(c1.2 i).1, (c1.2 i).2.trans ?_⟩⟩
      · norm_num; linarith
      · norm_num at ddC ⊢; nlinarith
  have c2 := C98_power hc hl hx isa isa' hN ht ht1 hm
  obtain ⟨⟨m1, m2, m3⟩, -, -, -⟩ := hN.log hx isa'
  have eF : slerp hw lm isa a b t =
      ((((b.mulMotor a.rev).log hw lm isa).mulAssign t).exp hw lm isa).mulMotor a := rfl
  have eR : slerp hwr Libm.real isa' A B (r t) =
      ((((B.mulMotor A.rev).log hwr Libm.real isa').smul (r t)).exp hwr Libm.real isa').mulMotor A := rfl
  rw [eF, eR]
  obtain ⟨sm1, sm2⟩ := Line.smul_vec ((B.mulMotor A.rev).log hwr Libm.real isa') (r t)
  have hE : ((((B.mulMotor A.rev).log hwr Libm.real isa').smul (r t)).exp hwr Libm.real isa').UnitBy (|r t| * (4 * C)) := by
    have hw : (((B.mulMotor A.rev).log hwr Libm.real isa').smul (r t)).WF := by
      obtain ⟨w1, w2⟩ := m1
      refine ⟨?_, ?_⟩
      · simp only [Line.smul, sse, w1, zero_mul]
      · simp only [Line.smul, sse, w2, zero_mul]
    have := Line.exp_unitBy hx isa' hw (by rw [sm1, norm_smul, Real.norm_eq_abs]; positivity)
    refine ⟨this.p1, this.p2.trans ?_⟩
    rw [sm2, norm_smul, Real.norm_eq_abs]
    exact mul_le_mul_of_nonneg_left (m3.trans (by linarith)) T0.le
  -- sizes of the errors of the power
  have k0 : |r t| * δ ≤ δ := mul_le_of_le_one_left hδ0 ht1
  have k1 : |r t| * (6.5e-6 + 10.1 * (8.4e-7 + 4.01 * δ)) ≤ |r t| * (1.5e-5 + 40.6 * δ) :=
    mul_le_mul_of_nonneg_left (by norm_num; linarith) T0.le
  have k2 : |r t| * ((3.2e-4 + 180 * (8.4e-7 + 4.01 * δ)) * (C + C) + 7.1 * ((2.1e-6 + 8.02 * δ) * C)) ≤
      |r t| * ((9.6e-4 + 1510 * δ) * C) :=
    mul_le_mul_of_nonneg_left (by norm_num; nlinarith) T0.le
  have tC : |r t| * C ≤ C := mul_le_of_le_one_left (by linarith) ht1
  have tC0 : 0 ≤ |r t| * C := by positivity
  have tdC : |r t| * (δ * C) ≤ δ * C := mul_le_of_le_one_left dC0 ht1
  have tdC0 : 0 ≤ |r t| * (δ * C) := by positivity
  have c2' : Motor.Close ((((b.mulMotor a.rev).log hw lm isa).mulAssign t).exp hw lm isa)
      ((((B.mulMotor A.rev).log hwr Libm.real isa').smul (r t)).exp hwr Libm.real isa')
      (5.3e-6 + |r t| * (1.5e-5 + 40.6 * δ)) (|r t| * ((9.6e-4 + 1510 * δ) * C)) :=
    ⟨fun i => ⟨(c2.1 i).1, (c2.1 i).2.trans (by linarith)⟩, fun i => ⟨(c2.2 i).1, (c2.2 i).2.trans k2⟩⟩
  have c3 := Motor.Close.mul (M := 4.1 * C) hE hA c2' ha (by norm_num at hδ ⊢; nlinarith) d1
    ⟨le_trans (by norm_num) (mul_le_mul_of_nonneg_left hC1 (by norm_num : (0 : ℝ) ≤ 4.1)), by norm_num at hC2 ⊢; linarith⟩
    (by norm_num at dC' ⊢; nlinarith) (by norm_num at dC ⊢; linarith)
  refine ⟨fun i => ⟨(c3.1 i).1, (c3.1 i).2.trans ?_⟩, fun i => ⟨(c3.2 i).1, (c3.2 i).2.trans ?_⟩⟩
  · have : 0 ≤ |r t| * δ := by positivity
    norm_num at hδ ⊢; nlinarith
  · have e1 : |r t| * δ * (δ * C) ≤ 1 / 1000 * (|r t| * (δ * C)) := by
      have := mul_le_mul_of_nonneg_left ddC T0.le
      linarith
    norm_num at e1 ddC ⊢
    ring_nf at e1 ddC tdC tdC0 dC0 ⊢
    nlinarith

include hc hl hx in
/-- C98: the same if the orientations are not too close, without reference to what is computed. -/
theorem C98_slerp {a b : Motor F32} {A B : Motor ℝ} {C δ : ℝ} (hA : A.UnitBy C) (hB : B.UnitBy C) (hC1 : 1 ≤ C)
    (hC2 : C ≤ 2 ^ 17) (h0 : 1 / 2 ≤ dot4 A.p1 B.p1) (h1 : dot4 A.p1 B.p1 ≤ 1 - 1 / 2 ^ 16) (hδ : δ ≤ 1 / 2 ^ 21)
    (ha : a.Close A δ (δ * C)) (hb : b.Close B δ (δ * C)) {t : F32} (ht : t.isFinite = true)
    (ht0 : 1 / 2 ^ 18 ≤ |r t|) (ht1 : |r t| ≤ 1) :
    (slerp hw lm isa a b t).Close (slerp hwr Libm.real isa' A B (r t))
      (1.15e-5 + |r t| * (3.1e-5 + 82 * δ) + 2 * δ) (C * (2.1e-5 + |r t| * (2e-3 + 3200 * δ) + 2.1 * δ)) := by
  refine C98_slerp_near hc hl hx isa isa' hA hB hC1 hC2 h0 (h1.trans_lt (by norm_num)) hδ ha hb ht ht1 ?_
  have d1 : δ ≤ 1 / 1000 := hδ.trans (by norm_num)
  have dC : δ * C ≤ 1 / 1000 * C := mul_le_mul_of_nonneg_right d1 (by linarith)
  have c1 := (Motor.Close.mul (M := C) hB hA.rev hb ha.rev d1 d1 ⟨le_trans (by norm_num) hC1, hC2.trans (by norm_num)⟩
    (by norm_num at dC ⊢; linarith) (by norm_num at dC ⊢; linarith)).1
  have hU := (hB.mul hA.rev).p1
  have hs : (B.mulMotor A.rev).p1.l0 = dot4 A.p1 B.p1 := by
    simp only [kln, sse, dot4, cond_true, cond_false]; ring
  rw [← hs] at h0 h1
  generalize B.mulMotor A.rev = Q at *
  generalize b.mulMotor a.rev = q at *
  have hη : 8.4e-7 + 2.01 * δ + 2 * δ ≤ 3e-6 := by norm_num at hδ ⊢; linarith
  have hv := V4.vec_sub_norm (v := Q.p1) (w := q.p1.real) (e := 3e-6) (by norm_num) (fun i _ => by
    rw [abs_sub_comm, V4.real_get]; exact (c1 i).2.trans hη)
  have h3 := V4.vec4_split Q.p1
  rw [hU] at h3
  have s0 : 0.0055 ≤ ‖Q.p1.vec‖ := abs_le_of_sq_le_sq' (a := (0.0055 : ℝ)) (by norm_num at h1 ⊢; nlinarith) (norm_nonneg _) |>.2
  have t1 := norm_sub_norm_le Q.p1.vec q.p1.real.vec
  rw [V4.real_vec_norm q.p1] at t1
  have s1 : 0.0054 ≤ √q.p1.sq3 := by norm_num at s0 t1 hv ⊢; linarith
  exact le_trans (by norm_num) (mul_le_mul ht0 s1 (by norm_num) (abs_nonneg _))

theorem Motor.Normed.unitBy {A : Motor ℝ} (h : A.Normed) {C : ℝ} (hC : ‖A.p2.vec4‖ ≤ C) : A.UnitBy C := by
  refine ⟨?_, hC⟩
  refine (pow_left_inj₀ (norm_nonneg _) (by norm_num) (n := 2) (by norm_num)).1 ?_
  rw [V4.vec4_sq, one_pow]
  have := congrArg PGA.MV.s h
  simp only [pga, kln, sse] at this
  simp only [dot4]
  linear_combination this

include hc hl in
/-- C98: the computed blend of normalised motors ends close to the second one. -/
theorem C98_slerp_end {a b : Motor F32} {A B : Motor ℝ} {C δ : ℝ} (nA : A.Normed) (nB : B.Normed)
    (hA : ‖A.p2.vec4‖ ≤ C) (hB : ‖B.p2.vec4‖ ≤ C) (hC1 : 1 ≤ C)
    (hC2 : C ≤ 2 ^ 17) (h0 : 1 / 2 ≤ dot4 A.p1 B.p1) (h1 : dot4 A.p1 B.p1 ≤ 1 - 1 / 2 ^ 16) (hδ : δ ≤ 1 / 2 ^ 21)
    (ha : a.Close A δ (δ * C)) (hb : b.Close B δ (δ * C)) :
    (slerp hw lm isa a b 1).Close B (4.3e-5 + 84 * δ) (C * (2.1e-3 + 3300 * δ)) := by
  have e1 : r (1 : F32) = 1 := by rw [r, one_val]; norm_num
  have h := C98_slerp hc hl Hw.ideal_exact isa isa (nA.unitBy hA) (nB.unitBy hB) hC1 hC2 h0 h1 hδ ha hb (t := 1) (by rfl)
    (by rw [e1]; norm_num) (by rw [e1]; norm_num)
  have hδ0 : 0 ≤ δ := (abs_nonneg _).trans (ha.1 0).2
  have hs : (B.mulMotor A.rev).p1.l0 = dot4 A.p1 B.p1 := by
    simp only [kln, sse, dot4, cond_true, cond_false]; ring
  have hP : (B.mulMotor A.rev).Principal := by
    refine Or.inl ⟨?_, Or.inl ?_⟩
    · have hU := ((nB.unitBy hB).mul (nA.unitBy hA).rev).p1
      have h2 := V4.vec4_split (B.mulMotor A.rev).p1
      rw [hU, hs] at h2
      have h3 : 0 < ‖(B.mulMotor A.rev).p1.vec‖ ^ 2 := by norm_num at h1; nlinarith
      have h4 : 0 < ‖(B.mulMotor A.rev).p1.vec‖ := lt_of_le_of_ne (norm_nonneg _) fun hz => by
        rw [← hz] at h3; norm_num at h3
      rw [V4.vec_norm] at h4
      exact h4
    · rw [show (B.mulMotor A.rev).scalar = (B.mulMotor A.rev).p1.l0 from rfl, hs, abs_of_nonneg (by linarith)]
      exact le_trans (by norm_num) h0
  rw [e1, C74_slerp_one_partial Hw.ideal_exact isa nA nB hP, abs_one] at h
  refine ⟨fun i => ⟨(h.1 i).1, (h.1 i).2.trans ?_⟩, fun i => ⟨(h.2 i).1, (h.2 i).2.trans ?_⟩⟩
  · norm_num; linarith
  · refine mul_le_mul_of_nonneg_left ?_ (by linarith)
    norm_num; linarith

end
end

/-! ### a concrete case -/

/-- A quarter turn and a bit about a vertical axis away from the origin: `(3 + 4 e12) / 5 + e01 + 2 e02`. -/
noncomputable def moveB : Motor ℝ := ⟨⟨3 / 5, 0, 0, 4 / 5⟩, ⟨0, 1, 2, 0⟩⟩
/-- The same, rounded. -/
def moveb : Motor F32 := ⟨⟨F32.round false (3 / 5), 0, 0, F32.round false (4 / 5)⟩, ⟨0, 1, 2, 0⟩⟩

theorem moveb_close : moveb.Close moveB (1 / 2 ^ 25) (1 / 2 ^ 25 * 3) := by
  refine ⟨stepb_close, ?_⟩
  have h : moveb.p2.l0.val = 0 ∧ moveb.p2.l1.val = 1 ∧ moveb.p2.l2.val = 2 ∧ moveb.p2.l3.val = 0 ∧
    (∀ i, (moveb.p2.get i).isFinite = true) := by decide +kernel
  obtain ⟨h0, h1, h2, h3, hf⟩ := h
  intro i
  refine ⟨hf i, ?_⟩
  match i with
  | 0 => simp only [V4.get, r, h0, moveB]; norm_num
  | 1 => simp only [V4.get, r, h1, moveB]; norm_num
  | 2 => simp only [V4.get, r, h2, moveB]; norm_num
  | 3 => simp only [V4.get, r, h3, moveB]; norm_num

theorem still_close : (⟨⟨1, 0, 0, 0⟩, ⟨0, 0, 0, 0⟩⟩ : Motor F32).Close ⟨⟨1, 0, 0, 0⟩, ⟨0, 0, 0, 0⟩⟩ (1 / 2 ^ 25) (1 / 2 ^ 25 * 3) := by
  refine ⟨one_close, fun i => ?_⟩
  match i with
  | 0 => exact ⟨by decide +kernel, by simp only [V4.get, r_zero]; norm_num⟩
  | 1 => exact ⟨by decide +kernel, by simp only [V4.get, r_zero]; norm_num⟩
  | 2 => exact ⟨by decide +kernel, by simp only [V4.get, r_zero]; norm_num⟩
  | 3 => exact ⟨by decide +kernel, by simp only [V4.get, r_zero]; norm_num⟩

/-- C98: the computed blend from the identity to `(3 + 4 e12) / 5 + e01 + 2 e02` ends there. -/
theorem C98_example {hw : Hw F32} (hc : hw.Contract32) {lm : Libm F32} (hl : lm.Contract32) (isa : Isa) :
    (slerp hw lm isa ⟨⟨1, 0, 0, 0⟩, ⟨0, 0, 0, 0⟩⟩ moveb 1).Close moveB 4.6e-5 6.7e-3 := by
  have hd : dot4 (⟨1, 0, 0, 0⟩ : V4 ℝ) moveB.p1 = 3 / 5 := by simp only [moveB, dot4]; norm_num
  have n3 : ∀ {v : V4 ℝ}, dot4 v v ≤ 3 ^ 2 → ‖v.vec4‖ ≤ 3 := fun h =>
    abs_le_of_sq_le_sq' (by rw [V4.vec4_sq]; exact h) (by norm_num) |>.2
  have h := C98_slerp_end hc hl isa (A := ⟨⟨1, 0, 0, 0⟩, ⟨0, 0, 0, 0⟩⟩) (B := moveB) (C := 3) (δ := 1 / 2 ^ 25)
    (by simp only [Motor.Normed]; apply PGA.MV.ext <;> simp [pga, kln, sse])
    (by simp only [Motor.Normed, moveB]; apply PGA.MV.ext <;> norm_num [pga, kln, sse])
    (n3 (by norm_num [dot4])) (n3 (by norm_num [dot4, moveB])) (by norm_num) (by norm_num)
    (by rw [hd]; norm_num) (by rw [hd]; norm_num) (by norm_num) still_close moveb_close
  refine ⟨fun i => ⟨(h.1 i).1, (h.1 i).2.trans ?_⟩, fun i => ⟨(h.2 i).1, (h.2 i).2.trans ?_⟩⟩ <;> norm_num

/-- A turn by a ninth of a degree about a vertical axis, `√(1 - 2⁻²⁰) + 2⁻¹⁰ e12 + e01 + 2 e02`. -/
noncomputable def nudgeB : Motor ℝ := ⟨⟨√(1 - 1 / 2 ^ 20), 0, 0, 1 / 2 ^ 10⟩, ⟨0, 1, 2, 0⟩⟩
/-- The same, rounded. -/
def nudgeb : Motor F32 := ⟨⟨F32.round false (1 - 1 / 2 ^ 21), 0, 0, F32.round false (1 / 2 ^ 10)⟩, ⟨0, 1, 2, 0⟩⟩

theorem nudge_sqrt : |(1 - 1 / 2 ^ 21) - √(1 - 1 / 2 ^ 20 : ℝ)| ≤ 1 / 2 ^ 25 ∧ 1 / 2 ≤ √(1 - 1 / 2 ^ 20 : ℝ) ∧
    √(1 - 1 / 2 ^ 20 : ℝ) < 1 := by
  have h1 : √(1 - 1 / 2 ^ 20 : ℝ) ≤ 1 - 1 / 2 ^ 21 := by rw [Real.sqrt_le_left (by norm_num)]; norm_num
  have h2 : 1 - 1 / 2 ^ 21 - 1 / 2 ^ 25 ≤ √(1 - 1 / 2 ^ 20 : ℝ) := Real.le_sqrt_of_sq_le (by norm_num)
  refine ⟨abs_le.2 ⟨?_, ?_⟩, ?_, ?_⟩ <;> norm_num at h1 h2 ⊢ <;> linarith

theorem nudgeb_close : nudgeb.Close nudgeB (1 / 2 ^ 25) (1 / 2 ^ 25 * 3) := by
  have h : (nudgeb.p1.l0.val = 1 - 1 / 2 ^ 21 ∧ nudgeb.p1.l1.val = 0 ∧ nudgeb.p1.l2.val = 0 ∧
      nudgeb.p1.l3.val = 1 / 2 ^ 10 ∧ (∀ i, (nudgeb.p1.get i).isFinite = true)) ∧
    nudgeb.p2.l0.val = 0 ∧ nudgeb.p2.l1.val = 1 ∧ nudgeb.p2.l2.val = 2 ∧ nudgeb.p2.l3.val = 0 ∧
    (∀ i, (nudgeb.p2.get i).isFinite = true) := by decide +kernel
  obtain ⟨⟨g0, g1, g2, g3, gf⟩, h0, h1, h2, h3, hf⟩ := h
  refine ⟨fun i => ⟨gf i, ?_⟩, fun i => ⟨hf i, ?_⟩⟩
  · match i with
    | 0 => simp only [V4.get, r, g0, nudgeB]; push_cast; exact nudge_sqrt.1
    | 1 => simp only [V4.get, r, g1, nudgeB]; norm_num
    | 2 => simp only [V4.get, r, g2, nudgeB]; norm_num
    | 3 => simp only [V4.get, r, g3, nudgeB]; norm_num
  · match i with
    | 0 => simp only [V4.get, r, h0, nudgeB]; norm_num
    | 1 => simp only [V4.get, r, h1, nudgeB]; norm_num
    | 2 => simp only [V4.get, r, h2, nudgeB]; norm_num
    | 3 => simp only [V4.get, r, h3, nudgeB]; norm_num

/-- C98: blending half way from the identity to a turn by a ninth of a degree. -/
theorem C98_near_example {hw : Hw F32} (hc : hw.Contract32) {lm : Libm F32} (hl : lm.Contract32) (isa : Isa) :
    (slerp hw lm isa ⟨⟨1, 0, 0, 0⟩, ⟨0, 0, 0, 0⟩⟩ nudgeb (F32.round false (1 / 2))).Close
      (slerp Hw.ideal Libm.real isa ⟨⟨1, 0, 0, 0⟩, ⟨0, 0, 0, 0⟩⟩ nudgeB (1 / 2)) 3e-5 4e-3 := by
  have hd : dot4 (⟨1, 0, 0, 0⟩ : V4 ℝ) nudgeB.p1 = √(1 - 1 / 2 ^ 20) := by simp only [nudgeB, dot4]; ring
  have n3 : ∀ {v : V4 ℝ}, dot4 v v ≤ 3 ^ 2 → ‖v.vec4‖ ≤ 3 := fun h =>
    abs_le_of_sq_le_sq' (by rw [V4.vec4_sq]; exact h) (by norm_num) |>.2
  have u1 : ∀ {v : V4 ℝ}, dot4 v v = 1 → ‖v.vec4‖ = 1 := fun h =>
    (pow_left_inj₀ (norm_nonneg _) (by norm_num) (n := 2) (by norm_num)).1 (by rw [V4.vec4_sq, h]; norm_num)
  have ht : (F32.round false (1 / 2)).val = 1 / 2 ∧ (F32.round false (1 / 2)).isFinite = true := by decide +kernel
  have hr : r (F32.round false (1 / 2)) = 1 / 2 := by rw [r, ht.1]; norm_num
  have hq : (nudgeb.mulMotor (Motor.rev ⟨⟨1, 0, 0, 0⟩, ⟨0, 0, 0, 0⟩⟩)).p1.l1.val = 0 ∧
      (nudgeb.mulMotor (Motor.rev ⟨⟨1, 0, 0, 0⟩, ⟨0, 0, 0, 0⟩⟩)).p1.l2.val = 0 ∧
      (nudgeb.mulMotor (Motor.rev ⟨⟨1, 0, 0, 0⟩, ⟨0, 0, 0, 0⟩⟩)).p1.l3.val = 1 / 2 ^ 10 := by decide +kernel
  have n1 : dot4 nudgeB.p1 nudgeB.p1 = 1 := by
    have := Real.sq_sqrt (show (0 : ℝ) ≤ 1 - 1 / 2 ^ 20 by norm_num)
    simp only [nudgeB, dot4]; linear_combination this
  have h := C98_slerp_near hc hl Hw.ideal_exact isa isa (A := ⟨⟨1, 0, 0, 0⟩, ⟨0, 0, 0, 0⟩⟩) (B := nudgeB) (C := 3)
    (δ := 1 / 2 ^ 25) ⟨u1 (by norm_num [dot4]), n3 (by norm_num [dot4])⟩ ⟨u1 n1, n3 (by norm_num [dot4, nudgeB])⟩
    (by norm_num) (by norm_num) (by rw [hd]; exact nudge_sqrt.2.1) (by rw [hd]; exact nudge_sqrt.2.2) (by norm_num)
    still_close nudgeb_close (t := F32.round false (1 / 2)) ht.2 (by rw [hr]; norm_num [abs_le])
    (by
      have e : (nudgeb.mulMotor (Motor.rev ⟨⟨1, 0, 0, 0⟩, ⟨0, 0, 0, 0⟩⟩)).p1.sq3 = (1 / 2 ^ 10) ^ 2 := by
        simp only [V4.sq3, r, hq.1, hq.2.1, hq.2.2]; norm_num
      rw [e, Real.sqrt_sq (by positivity), hr, abs_of_pos (by norm_num)]; norm_num)
  rw [hr, abs_of_pos (show (0 : ℝ) < 1 / 2 by norm_num)] at h
  refine ⟨fun i => ⟨(h.1 i).1, (h.1 i).2.trans ?_⟩, fun i => ⟨(h.2 i).1, (h.2 i).2.trans ?_⟩⟩ <;> norm_num

/-- `rsqrtps` of zero is infinite; the Newton step turns it into a NaN. -/
theorem rsqrt_nr1_zero {hw : Hw F32} (h0 : hw.rsqrt 0 = F32.inf false) (i : Fin 4) : ((rsqrt_nr1 hw ⟨0, 0, 0, 0⟩).get i).isNaN = true := by
  match i with
  | 0 => simp only [rsqrt_nr1, sse, V4.get, h0]; decide +kernel
  | 1 => simp only [rsqrt_nr1, sse, V4.get, h0]; decide +kernel
  | 2 => simp only [rsqrt_nr1, sse, V4.get, h0]; decide +kernel
  | 3 => simp only [rsqrt_nr1, sse, V4.get, h0]; decide +kernel

end Klein
