import Verif.Float.Expr
import Verif.Api.Ops
import Verif.Props.Accuracy32

/-!
# C90: products, meets, joins, inner products, projections and actions are accurate in binary32

`A` and `B` are the scales of the two operands and `C` is a length: the moments of lines and motors,
the offsets of planes and the coordinates of points may be `C` times as large as the directions, the
normals and the weights.  Every lane of the result is within a fixed number of units `2^-24` of its
natural scale (`A * B` for directions, `A * B * C` for moments, ...) of the same operation carried out
on real numbers.  The constants are computed and checked by `Ex.run` (`Verif/Float/Expr.lean`).
-/

namespace Klein

open F32 Ex

/-- Four finite lanes, the first of magnitude at most `S`, the others at most `T`. -/
def V4.Fits (v : V4 F32) (S T : ℝ) : Prop :=
  (∀ i, (v.get i).isFinite = true) ∧ |r v.l0| ≤ S ∧ |r v.l1| ≤ T ∧ |r v.l2| ≤ T ∧ |r v.l3| ≤ T

def Plane.Within (x : Plane F32) (S C : ℝ) : Prop := x.p0.Fits (S * C) S
def Point.Within (x : Point F32) (S C : ℝ) : Prop := x.p3.Fits S (S * C)
def Direction.Within (x : Direction F32) (S : ℝ) : Prop := x.p3.Fits 0 S
def IdealLine.Within (x : IdealLine F32) (S : ℝ) : Prop := x.p2.Fits 0 S
def Branch.Within (x : Branch F32) (S : ℝ) : Prop := x.p1.Fits 0 S
def Line.Within (x : Line F32) (S C : ℝ) : Prop := x.p1.Fits 0 S ∧ x.p2.Fits 0 (S * C)
def Rotor.Within (x : Rotor F32) (S : ℝ) : Prop := x.p1.Fits S S
def Translator.Within (x : Translator F32) (C : ℝ) : Prop := x.p2.Fits C C
def Motor.Within (x : Motor F32) (S C : ℝ) : Prop := x.p1.Fits S S ∧ x.p2.Fits (S * C) (S * C)
def Dual.Within (x : Dual F32) (S C : ℝ) : Prop :=
  (x.p.isFinite = true ∧ x.q.isFinite = true) ∧ |r x.p| ≤ S ∧ |r x.q| ≤ S * C

/-- `x` is finite and within `e` units of `2^-24` of `E`. -/
def Near32 (x : F32) (E e : ℝ) : Prop := x.isFinite = true ∧ |r x - E| ≤ e / 2 ^ 24

/-- Four lanes, the first within `e` units, the others within `e'`. -/
def V4.Near32 (v : V4 F32) (w : V4 ℝ) (e e' : ℝ) : Prop :=
  Klein.Near32 v.l0 w.l0 e ∧ Klein.Near32 v.l1 w.l1 e' ∧ Klein.Near32 v.l2 w.l2 e' ∧ Klein.Near32 v.l3 w.l3 e'

noncomputable def Direction.real (m : Direction F32) : Direction ℝ := ⟨m.p3.real⟩
noncomputable def IdealLine.real (m : IdealLine F32) : IdealLine ℝ := ⟨m.p2.real⟩
noncomputable def Translator.real (m : Translator F32) : Translator ℝ := ⟨m.p2.real⟩
noncomputable def Dual.real (m : Dual F32) : Dual ℝ := ⟨r m.p, r m.q⟩

namespace Products32

variable {F : Type} [Add F] [Sub F] [Mul F] [Neg F] [Zero F] [One F] [NatCast F]
variable {A B C : ℝ}

theorem _root_.Klein.V4.Fits.eq {v : V4 F32} {S T S' T' : ℝ} (h : v.Fits S T) (hS : S = S') (hT : T = T') : v.Fits S' T' :=
  hS ▸ hT ▸ h

theorem _root_.Klein.Dual.Within.reg {d : Dual F32} {S C : ℝ} (h : d.Within S C) :
    V4.Fits ⟨d.p, d.q, d.q, d.q⟩ S (S * C) :=
  ⟨fun i => match i with | 0 => h.1.1 | 1 | 2 | 3 => h.1.2, h.2.1, h.2.2, h.2.2, h.2.2⟩

theorem _root_.Klein.Near32.eq {x : F32} {E e e' : ℝ} (h : Near32 x E e) (he : e = e') : Near32 x E e' := he ▸ h

theorem _root_.Klein.V4.Near32.eq {v : V4 F32} {w : V4 ℝ} {e e' d d' : ℝ} (h : v.Near32 w e d) (he : e = e') (hd : d = d') :
    v.Near32 w e' d' := he ▸ hd ▸ h

/-- Degrees in the scales; `none` for an exact zero. -/
abbrev Deg := Option (ℕ × ℕ × ℕ)

def bd : Deg → Bd
  | none => ⟨0, 0, 0, 0, 0⟩
  | some (i, j, l) => ⟨1, 0, i, j, l⟩

noncomputable def sco (s : Scales) : Deg → ℝ
  | none => 0
  | some (i, j, l) => s.sc i j l

/-- The bounds of the lanes of four registers. -/
def grade (a b c d : Deg × Deg) : ℕ → Bd
  | 0 => bd a.1 | 1 | 2 | 3 => bd a.2
  | 4 => bd b.1 | 5 | 6 | 7 => bd b.2
  | 8 => bd c.1 | 9 | 10 | 11 => bd c.2
  | 12 => bd d.1 | _ => bd d.2

def okD (a : Deg × Deg) : Prop := okDeg (bd a.1).i (bd a.1).j (bd a.1).l ∧ okDeg (bd a.2).i (bd a.2).j (bd a.2).l

instance (a : Deg × Deg) : Decidable (okD a) := inferInstanceAs (Decidable (_ ∧ _))

/-- The bound `run` finds is at most `K` units of the scale of degrees `D`. -/
def ok (g : ℕ → Bd) (K : ℕ) (D : ℕ × ℕ × ℕ) (e : Ex) : Bool :=
  match run g e with
  | some (.inl b) => b.k == 0 || (decide (b.k ≤ 16 * K) && b.i == D.1 && b.j == D.2.1 && b.l == D.2.2)
  | _ => false

def ok4 (a b c d : Deg × Deg) (K : ℕ) (D : ℕ × ℕ × ℕ) (K' : ℕ) (D' : ℕ × ℕ × ℕ) (v : V4 Ex) : Bool :=
  decide (okD a) && decide (okD b) && decide (okD c) && decide (okD d) &&
    ok (grade a b c d) K D v.l0 && ok (grade a b c d) K' D' v.l1 &&
      ok (grade a b c d) K' D' v.l2 && ok (grade a b c d) K' D' v.l3

def ok1 (a b c d : Deg × Deg) (K : ℕ) (D : ℕ × ℕ × ℕ) (e : Ex) : Bool :=
  decide (okD a) && decide (okD b) && decide (okD c) && decide (okD d) && ok (grade a b c d) K D e

/-- The values of four expressions. -/
def evalV (f : ℕ → F) (v : V4 Ex) : V4 F := ⟨eval f v.l0, eval f v.l1, eval f v.l2, eval f v.l3⟩

theorem tr_bd {x : F32} {s : Scales} {a : Deg} (ha : okDeg (bd a).i (bd a).j (bd a).l) (hf : x.isFinite = true)
    (h : |r x| ≤ sco s a) : Tr x (r x) s (bd a) := by
  cases a with
  | none => exact ⟨hf, by simpa [bd, sco] using h, by simp [bd], ha, by simp [bd], by simp [bd], by simp [bd]⟩
  | some a => exact ⟨hf, by simpa [bd, sco] using h, by simp [bd], ha, by simp [bd], by simp [bd], by simp [bd]⟩

theorem tr_env {s : Scales} {a b c d : V4 F32} {ga gb gc gd : Deg × Deg} (oa : okD ga) (ob : okD gb) (oc : okD gc)
    (od : okD gd) (ha : a.Fits (sco s ga.1) (sco s ga.2)) (hb : b.Fits (sco s gb.1) (sco s gb.2))
    (hc : c.Fits (sco s gc.1) (sco s gc.2)) (hd : d.Fits (sco s gd.1) (sco s gd.2)) (n : ℕ) :
    Tr (env a b c d n) (env a.real b.real c.real d.real n) s (grade ga gb gc gd n) := by
  match n with
  | 0 => exact tr_bd oa.1 (ha.1 0) ha.2.1
  | 1 => exact tr_bd oa.2 (ha.1 1) ha.2.2.1
  | 2 => exact tr_bd oa.2 (ha.1 2) ha.2.2.2.1
  | 3 => exact tr_bd oa.2 (ha.1 3) ha.2.2.2.2
  | 4 => exact tr_bd ob.1 (hb.1 0) hb.2.1
  | 5 => exact tr_bd ob.2 (hb.1 1) hb.2.2.1
  | 6 => exact tr_bd ob.2 (hb.1 2) hb.2.2.2.1
  | 7 => exact tr_bd ob.2 (hb.1 3) hb.2.2.2.2
  | 8 => exact tr_bd oc.1 (hc.1 0) hc.2.1
  | 9 => exact tr_bd oc.2 (hc.1 1) hc.2.2.1
  | 10 => exact tr_bd oc.2 (hc.1 2) hc.2.2.2.1
  | 11 => exact tr_bd oc.2 (hc.1 3) hc.2.2.2.2
  | 12 => exact tr_bd od.1 (hd.1 0) hd.2.1
  | 13 => exact tr_bd od.2 (hd.1 1) hd.2.2.1
  | 14 => exact tr_bd od.2 (hd.1 2) hd.2.2.2.1
  | n + 15 => exact tr_bd od.2 (hd.1 3) hd.2.2.2.2

theorem near_ok {s : Scales} (hs : s.Ok) {f : ℕ → F32} {E : ℕ → ℝ} {g : ℕ → Bd} (hf : ∀ n, Tr (f n) (E n) s (g n))
    {K : ℕ} {D : ℕ × ℕ × ℕ} {e : Ex} (hD : okDeg D.1 D.2.1 D.2.2 := by decide) (h : ok g K D e = true) :
    Near32 (eval f e) (eval E e) (K * s.sc D.1 D.2.1 D.2.2) := by
  unfold ok at h
  split at h
  swap
  · cases h
  rename_i b hb
  have t : Tr _ _ _ _ := sound hs hf hb
  refine ⟨t.fin, t.err.trans ?_⟩
  have h0 := (hs.rng hD).pos
  rcases Bool.or_eq_true _ _ ▸ h with h | h
  · rw [beq_iff_eq.1 h]
    simp only [Nat.cast_zero, zero_div, zero_mul]
    positivity
  · simp only [Bool.and_eq_true, beq_iff_eq, decide_eq_true_eq] at h
    obtain ⟨⟨⟨h1, h2⟩, h3⟩, h4⟩ := h
    rw [h2, h3, h4]
    have hk : (b.k : ℝ) ≤ 16 * K := by exact_mod_cast h1
    have hc : (b.k : ℝ) / 2 ^ 28 ≤ K / 2 ^ 24 := by
      rw [div_le_div_iff₀ (by positivity) (by positivity)]
      norm_num
      linarith
    calc _ ≤ (K : ℝ) / 2 ^ 24 * s.sc D.1 D.2.1 D.2.2 := mul_le_mul_of_nonneg_right hc h0.le
      _ = _ := by ring

theorem near4 {s : Scales} (hs : s.Ok) {a b c d : V4 F32} {ga gb gc gd : Deg × Deg}
    (ha : a.Fits (sco s ga.1) (sco s ga.2)) (hb : b.Fits (sco s gb.1) (sco s gb.2))
    (hc : c.Fits (sco s gc.1) (sco s gc.2)) (hd : d.Fits (sco s gd.1) (sco s gd.2))
    {K K' : ℕ} {D D' : ℕ × ℕ × ℕ} {v : V4 Ex} (hD : okDeg D.1 D.2.1 D.2.2 := by decide)
    (hD' : okDeg D'.1 D'.2.1 D'.2.2 := by decide) (h : ok4 ga gb gc gd K D K' D' v = true) :
    (evalV (env a b c d) v).Near32 (evalV (env a.real b.real c.real d.real) v)
      (K * s.sc D.1 D.2.1 D.2.2) (K' * s.sc D'.1 D'.2.1 D'.2.2) := by
  simp only [ok4, Bool.and_eq_true, decide_eq_true_eq] at h
  obtain ⟨⟨⟨⟨⟨⟨⟨oa, ob⟩, oc⟩, od⟩, h0⟩, h1⟩, h2⟩, h3⟩ := h
  have t := tr_env oa ob oc od ha hb hc hd
  exact ⟨near_ok hs t hD h0, near_ok hs t hD' h1, near_ok hs t hD' h2, near_ok hs t hD' h3⟩

theorem near1 {s : Scales} (hs : s.Ok) {a b c d : V4 F32} {ga gb gc gd : Deg × Deg}
    (ha : a.Fits (sco s ga.1) (sco s ga.2)) (hb : b.Fits (sco s gb.1) (sco s gb.2))
    (hc : c.Fits (sco s gc.1) (sco s gc.2)) (hd : d.Fits (sco s gd.1) (sco s gd.2))
    {K : ℕ} {D : ℕ × ℕ × ℕ} {e : Ex} (hD : okDeg D.1 D.2.1 D.2.2 := by decide) (h : ok1 ga gb gc gd K D e = true) :
    Near32 (eval (env a b c d) e) (eval (env a.real b.real c.real d.real) e) (K * s.sc D.1 D.2.1 D.2.2) := by
  simp only [ok1, Bool.and_eq_true, decide_eq_true_eq] at h
  obtain ⟨⟨⟨⟨oa, ob⟩, oc⟩, od⟩, h0⟩ := h
  exact near_ok hs (tr_env oa ob oc od ha hb hc hd) hD h0

theorem one_A : In2 1 24 24 := ⟨by norm_num, by norm_num⟩
theorem one_C : In2 1 20 20 := ⟨by norm_num, by norm_num⟩

macro "deg" : tactic => `(tactic| simp only [sco, Scales.sc, pow_zero, pow_one, one_mul, mul_one])
macro "units" : tactic => `(tactic| (simp only [Scales.sc, pow_zero, pow_one, one_mul, mul_one]; norm_num))

theorem plane_on_plane_p0_ex (x : Plane F) (y : Plane F) : (x.onPlane y).p0 =
    evalV (env x.p0 x.p0 y.p0 y.p0) ((Plane.mk X).onPlane (Plane.mk Y)).p0 := by
  rfl

theorem C90_plane_on_plane (hA : In2 A 24 24) (hB : In2 B 24 24) (hC : In2 C 20 20) {x : Plane F32} {y : Plane F32}
    (hx : x.Within A C) (hy : y.Within B C) :
    ((x.onPlane y).p0).Near32 (x.real.onPlane y.real).p0 (50 * (A ^ 2 * B * C)) (35 * (A ^ 2 * B)) := by
  · rw [plane_on_plane_p0_ex x y, plane_on_plane_p0_ex x.real y.real]
    exact (near4 (s := ⟨A, B, C⟩) ⟨hA, hB, hC⟩
      (ga := (some (1, 0, 1), some (1, 0, 0))) (gb := (some (1, 0, 1), some (1, 0, 0))) (gc := (some (0, 1, 1), some (0, 1, 0))) (gd := (some (0, 1, 1), some (0, 1, 0)))
      (V4.Fits.eq hx (by deg) (by deg)) (V4.Fits.eq hx (by deg) (by deg)) (V4.Fits.eq hy (by deg) (by deg)) (V4.Fits.eq hy (by deg) (by deg)) (K := 50) (D := (2, 1, 1)) (K' := 35) (D' := (2, 1, 0))
      (h := (by decide +kernel))).eq (by units) (by units)

theorem plane_on_line_p1_ex (x : Plane F) (y : Line F) : (x.onLine y).p1 =
    evalV (env x.p0 x.p0 y.p1 y.p2) ((Plane.mk X).onLine (Line.mk Y Y')).p1 := by
  rfl

theorem plane_on_line_p2_ex (x : Plane F) (y : Line F) : (x.onLine y).p2 =
    evalV (env x.p0 x.p0 y.p1 y.p2) ((Plane.mk X).onLine (Line.mk Y Y')).p2 := by
  rfl

theorem C90_plane_on_line (hA : In2 A 24 24) (hB : In2 B 24 24) (hC : In2 C 20 20) {x : Plane F32} {y : Line F32}
    (hx : x.Within A C) (hy : y.Within B C) :
    ((x.onLine y).p1).Near32 (x.real.onLine y.real).p1 0 (35 * (A ^ 2 * B)) ∧
    ((x.onLine y).p2).Near32 (x.real.onLine y.real).p2 0 (63 * (A ^ 2 * B * C)) := by
  constructor
  · rw [plane_on_line_p1_ex x y, plane_on_line_p1_ex x.real y.real]
    exact (near4 (s := ⟨A, B, C⟩) ⟨hA, hB, hC⟩
      (ga := (some (1, 0, 1), some (1, 0, 0))) (gb := (some (1, 0, 1), some (1, 0, 0))) (gc := (none, some (0, 1, 0))) (gd := (none, some (0, 1, 1)))
      (V4.Fits.eq hx (by deg) (by deg)) (V4.Fits.eq hx (by deg) (by deg)) (hy.1.eq (by deg) (by deg)) (hy.2.eq (by deg) (by deg)) (K := 0) (D := (0, 0, 0)) (K' := 35) (D' := (2, 1, 0))
      (h := (by decide +kernel))).eq (by units) (by units)
  · rw [plane_on_line_p2_ex x y, plane_on_line_p2_ex x.real y.real]
    exact (near4 (s := ⟨A, B, C⟩) ⟨hA, hB, hC⟩
      (ga := (some (1, 0, 1), some (1, 0, 0))) (gb := (some (1, 0, 1), some (1, 0, 0))) (gc := (none, some (0, 1, 0))) (gd := (none, some (0, 1, 1)))
      (V4.Fits.eq hx (by deg) (by deg)) (V4.Fits.eq hx (by deg) (by deg)) (hy.1.eq (by deg) (by deg)) (hy.2.eq (by deg) (by deg)) (K := 0) (D := (0, 0, 0)) (K' := 63) (D' := (2, 1, 1))
      (h := (by decide +kernel))).eq (by units) (by units)

theorem plane_on_point_p3_ex (x : Plane F) (y : Point F) : (x.onPoint y).p3 =
    evalV (env x.p0 x.p0 y.p3 y.p3) ((Plane.mk X).onPoint (Point.mk Y)).p3 := by
  rfl

theorem C90_plane_on_point (hA : In2 A 24 24) (hB : In2 B 24 24) (hC : In2 C 20 20) {x : Plane F32} {y : Point F32}
    (hx : x.Within A C) (hy : y.Within B C) :
    ((x.onPoint y).p3).Near32 (x.real.onPoint y.real).p3 (12 * (A ^ 2 * B)) (50 * (A ^ 2 * B * C)) := by
  · rw [plane_on_point_p3_ex x y, plane_on_point_p3_ex x.real y.real]
    exact (near4 (s := ⟨A, B, C⟩) ⟨hA, hB, hC⟩
      (ga := (some (1, 0, 1), some (1, 0, 0))) (gb := (some (1, 0, 1), some (1, 0, 0))) (gc := (some (0, 1, 0), some (0, 1, 1))) (gd := (some (0, 1, 0), some (0, 1, 1)))
      (V4.Fits.eq hx (by deg) (by deg)) (V4.Fits.eq hx (by deg) (by deg)) (V4.Fits.eq hy (by deg) (by deg)) (V4.Fits.eq hy (by deg) (by deg)) (K := 12) (D := (2, 1, 0)) (K' := 50) (D' := (2, 1, 1))
      (h := (by decide +kernel))).eq (by units) (by units)

theorem rotor_on_plane_p0_ex (isa : Isa) (x : Rotor F) (y : Plane F) : (x.onPlane isa y).p0 =
    evalV (env x.p1 x.p1 y.p0 y.p0) ((Rotor.mk X).onPlane isa (Plane.mk Y)).p0 := by
  cases isa <;> rfl

theorem C90_rotor_on_plane (hA : In2 A 24 24) (hB : In2 B 24 24) (hC : In2 C 20 20) (isa : Isa) {x : Rotor F32} {y : Plane F32}
    (hx : x.Within A) (hy : y.Within B C) :
    ((x.onPlane isa y).p0).Near32 (x.real.onPlane isa y.real).p0 (33 * (A ^ 2 * B * C)) (71 * (A ^ 2 * B)) := by
  · rw [rotor_on_plane_p0_ex isa x y, rotor_on_plane_p0_ex isa x.real y.real]
    exact (near4 (s := ⟨A, B, C⟩) ⟨hA, hB, hC⟩
      (ga := (some (1, 0, 0), some (1, 0, 0))) (gb := (some (1, 0, 0), some (1, 0, 0))) (gc := (some (0, 1, 1), some (0, 1, 0))) (gd := (some (0, 1, 1), some (0, 1, 0)))
      (V4.Fits.eq hx (by deg) (by deg)) (V4.Fits.eq hx (by deg) (by deg)) (V4.Fits.eq hy (by deg) (by deg)) (V4.Fits.eq hy (by deg) (by deg)) (K := 33) (D := (2, 1, 1)) (K' := 71) (D' := (2, 1, 0))
      (h := (by cases isa <;> decide +kernel))).eq (by units) (by units)

theorem rotor_on_branch_p1_ex (x : Rotor F) (y : Branch F) : (x.onBranch y).p1 =
    evalV (env x.p1 x.p1 y.p1 y.p1) ((Rotor.mk X).onBranch (Branch.mk Y)).p1 := by
  rfl

theorem C90_rotor_on_branch (hA : In2 A 24 24) (hB : In2 B 24 24) {x : Rotor F32} {y : Branch F32}
    (hx : x.Within A) (hy : y.Within B) :
    ((x.onBranch y).p1).Near32 (x.real.onBranch y.real).p1 0 (70 * (A ^ 2 * B)) := by
  · rw [rotor_on_branch_p1_ex x y, rotor_on_branch_p1_ex x.real y.real]
    exact (near4 (s := ⟨A, B, 1⟩) ⟨hA, hB, one_C⟩
      (ga := (some (1, 0, 0), some (1, 0, 0))) (gb := (some (1, 0, 0), some (1, 0, 0))) (gc := (none, some (0, 1, 0))) (gd := (none, some (0, 1, 0)))
      (V4.Fits.eq hx (by deg) (by deg)) (V4.Fits.eq hx (by deg) (by deg)) (V4.Fits.eq hy (by deg) (by deg)) (V4.Fits.eq hy (by deg) (by deg)) (K := 0) (D := (0, 0, 0)) (K' := 70) (D' := (2, 1, 0))
      (h := (by decide +kernel))).eq (by units) (by units)

theorem rotor_on_line_p1_ex (x : Rotor F) (y : Line F) : (x.onLine y).p1 =
    evalV (env x.p1 x.p1 y.p1 y.p2) ((Rotor.mk X).onLine (Line.mk Y Y')).p1 := by
  rfl

theorem rotor_on_line_p2_ex (x : Rotor F) (y : Line F) : (x.onLine y).p2 =
    evalV (env x.p1 x.p1 y.p1 y.p2) ((Rotor.mk X).onLine (Line.mk Y Y')).p2 := by
  rfl

theorem C90_rotor_on_line (hA : In2 A 24 24) (hB : In2 B 24 24) (hC : In2 C 20 20) {x : Rotor F32} {y : Line F32}
    (hx : x.Within A) (hy : y.Within B C) :
    ((x.onLine y).p1).Near32 (x.real.onLine y.real).p1 0 (70 * (A ^ 2 * B)) ∧
    ((x.onLine y).p2).Near32 (x.real.onLine y.real).p2 0 (70 * (A ^ 2 * B * C)) := by
  constructor
  · rw [rotor_on_line_p1_ex x y, rotor_on_line_p1_ex x.real y.real]
    exact (near4 (s := ⟨A, B, C⟩) ⟨hA, hB, hC⟩
      (ga := (some (1, 0, 0), some (1, 0, 0))) (gb := (some (1, 0, 0), some (1, 0, 0))) (gc := (none, some (0, 1, 0))) (gd := (none, some (0, 1, 1)))
      (V4.Fits.eq hx (by deg) (by deg)) (V4.Fits.eq hx (by deg) (by deg)) (hy.1.eq (by deg) (by deg)) (hy.2.eq (by deg) (by deg)) (K := 0) (D := (0, 0, 0)) (K' := 70) (D' := (2, 1, 0))
      (h := (by decide +kernel))).eq (by units) (by units)
  · rw [rotor_on_line_p2_ex x y, rotor_on_line_p2_ex x.real y.real]
    exact (near4 (s := ⟨A, B, C⟩) ⟨hA, hB, hC⟩
      (ga := (some (1, 0, 0), some (1, 0, 0))) (gb := (some (1, 0, 0), some (1, 0, 0))) (gc := (none, some (0, 1, 0))) (gd := (none, some (0, 1, 1)))
      (V4.Fits.eq hx (by deg) (by deg)) (V4.Fits.eq hx (by deg) (by deg)) (hy.1.eq (by deg) (by deg)) (hy.2.eq (by deg) (by deg)) (K := 0) (D := (0, 0, 0)) (K' := 70) (D' := (2, 1, 1))
      (h := (by decide +kernel))).eq (by units) (by units)

theorem rotor_on_point_p3_ex (isa : Isa) (x : Rotor F) (y : Point F) : (x.onPoint isa y).p3 =
    evalV (env x.p1 x.p1 y.p3 y.p3) ((Rotor.mk X).onPoint isa (Point.mk Y)).p3 := by
  cases isa <;> rfl

theorem C90_rotor_on_point (hA : In2 A 24 24) (hB : In2 B 24 24) (hC : In2 C 20 20) (isa : Isa) {x : Rotor F32} {y : Point F32}
    (hx : x.Within A) (hy : y.Within B C) :
    ((x.onPoint isa y).p3).Near32 (x.real.onPoint isa y.real).p3 (33 * (A ^ 2 * B)) (71 * (A ^ 2 * B * C)) := by
  · rw [rotor_on_point_p3_ex isa x y, rotor_on_point_p3_ex isa x.real y.real]
    exact (near4 (s := ⟨A, B, C⟩) ⟨hA, hB, hC⟩
      (ga := (some (1, 0, 0), some (1, 0, 0))) (gb := (some (1, 0, 0), some (1, 0, 0))) (gc := (some (0, 1, 0), some (0, 1, 1))) (gd := (some (0, 1, 0), some (0, 1, 1)))
      (V4.Fits.eq hx (by deg) (by deg)) (V4.Fits.eq hx (by deg) (by deg)) (V4.Fits.eq hy (by deg) (by deg)) (V4.Fits.eq hy (by deg) (by deg)) (K := 33) (D := (2, 1, 0)) (K' := 71) (D' := (2, 1, 1))
      (h := (by cases isa <;> decide +kernel))).eq (by units) (by units)

theorem rotor_on_direction_p3_ex (isa : Isa) (x : Rotor F) (y : Direction F) : (x.onDirection isa y).p3 =
    evalV (env x.p1 x.p1 y.p3 y.p3) ((Rotor.mk X).onDirection isa (Direction.mk Y)).p3 := by
  cases isa <;> rfl

theorem C90_rotor_on_direction (hA : In2 A 24 24) (hB : In2 B 24 24) (isa : Isa) {x : Rotor F32} {y : Direction F32}
    (hx : x.Within A) (hy : y.Within B) :
    ((x.onDirection isa y).p3).Near32 (x.real.onDirection isa y.real).p3 0 (71 * (A ^ 2 * B)) := by
  · rw [rotor_on_direction_p3_ex isa x y, rotor_on_direction_p3_ex isa x.real y.real]
    exact (near4 (s := ⟨A, B, 1⟩) ⟨hA, hB, one_C⟩
      (ga := (some (1, 0, 0), some (1, 0, 0))) (gb := (some (1, 0, 0), some (1, 0, 0))) (gc := (none, some (0, 1, 0))) (gd := (none, some (0, 1, 0)))
      (V4.Fits.eq hx (by deg) (by deg)) (V4.Fits.eq hx (by deg) (by deg)) (V4.Fits.eq hy (by deg) (by deg)) (V4.Fits.eq hy (by deg) (by deg)) (K := 0) (D := (0, 0, 0)) (K' := 71) (D' := (2, 1, 0))
      (h := (by cases isa <;> decide +kernel))).eq (by units) (by units)

theorem translator_on_line_p1_ex (x : Translator F) (y : Line F) : (x.onLine y).p1 =
    evalV (env x.p2 x.p2 y.p1 y.p2) ((Translator.mk X).onLine (Line.mk Y Y')).p1 := by
  rfl

theorem translator_on_line_p2_ex (x : Translator F) (y : Line F) : (x.onLine y).p2 =
    evalV (env x.p2 x.p2 y.p1 y.p2) ((Translator.mk X).onLine (Line.mk Y Y')).p2 := by
  rfl

theorem C90_translator_on_line (hB : In2 B 24 24) (hC : In2 C 20 20) {x : Translator F32} {y : Line F32}
    (hx : x.Within C) (hy : y.Within B C) :
    ((x.onLine y).p1).Near32 (x.real.onLine y.real).p1 0 0 ∧
    ((x.onLine y).p2).Near32 (x.real.onLine y.real).p2 0 (30 * (B * C)) := by
  constructor
  · rw [translator_on_line_p1_ex x y, translator_on_line_p1_ex x.real y.real]
    exact (near4 (s := ⟨1, B, C⟩) ⟨one_A, hB, hC⟩
      (ga := (some (0, 0, 1), some (0, 0, 1))) (gb := (some (0, 0, 1), some (0, 0, 1))) (gc := (none, some (0, 1, 0))) (gd := (none, some (0, 1, 1)))
      (V4.Fits.eq hx (by deg) (by deg)) (V4.Fits.eq hx (by deg) (by deg)) (hy.1.eq (by deg) (by deg)) (hy.2.eq (by deg) (by deg)) (K := 0) (D := (0, 0, 0)) (K' := 0) (D' := (0, 0, 0))
      (h := (by decide +kernel))).eq (by units) (by units)
  · rw [translator_on_line_p2_ex x y, translator_on_line_p2_ex x.real y.real]
    exact (near4 (s := ⟨1, B, C⟩) ⟨one_A, hB, hC⟩
      (ga := (some (0, 0, 1), some (0, 0, 1))) (gb := (some (0, 0, 1), some (0, 0, 1))) (gc := (none, some (0, 1, 0))) (gd := (none, some (0, 1, 1)))
      (V4.Fits.eq hx (by deg) (by deg)) (V4.Fits.eq hx (by deg) (by deg)) (hy.1.eq (by deg) (by deg)) (hy.2.eq (by deg) (by deg)) (K := 0) (D := (0, 0, 0)) (K' := 30) (D' := (0, 1, 1))
      (h := (by decide +kernel))).eq (by units) (by units)

theorem translator_on_point_p3_ex (x : Translator F) (y : Point F) : (x.onPoint y).p3 =
    evalV (env x.p2 x.p2 y.p3 y.p3) ((Translator.mk X).onPoint (Point.mk Y)).p3 := by
  rfl

theorem C90_translator_on_point (hB : In2 B 24 24) (hC : In2 C 20 20) {x : Translator F32} {y : Point F32}
    (hx : x.Within C) (hy : y.Within B C) :
    ((x.onPoint y).p3).Near32 (x.real.onPoint y.real).p3 0 (8 * (B * C)) := by
  · rw [translator_on_point_p3_ex x y, translator_on_point_p3_ex x.real y.real]
    exact (near4 (s := ⟨1, B, C⟩) ⟨one_A, hB, hC⟩
      (ga := (some (0, 0, 1), some (0, 0, 1))) (gb := (some (0, 0, 1), some (0, 0, 1))) (gc := (some (0, 1, 0), some (0, 1, 1))) (gd := (some (0, 1, 0), some (0, 1, 1)))
      (V4.Fits.eq hx (by deg) (by deg)) (V4.Fits.eq hx (by deg) (by deg)) (V4.Fits.eq hy (by deg) (by deg)) (V4.Fits.eq hy (by deg) (by deg)) (K := 0) (D := (0, 0, 0)) (K' := 8) (D' := (0, 1, 1))
      (h := (by decide +kernel))).eq (by units) (by units)

theorem motor_on_plane_p0_ex (isa : Isa) (x : Motor F) (y : Plane F) : (x.onPlane isa y).p0 =
    evalV (env x.p1 x.p2 y.p0 y.p0) ((Motor.mk X X').onPlane isa (Plane.mk Y)).p0 := by
  cases isa <;> rfl

theorem C90_motor_on_plane (hA : In2 A 24 24) (hB : In2 B 24 24) (hC : In2 C 20 20) (isa : Isa) {x : Motor F32} {y : Plane F32}
    (hx : x.Within A C) (hy : y.Within B C) :
    ((x.onPlane isa y).p0).Near32 (x.real.onPlane isa y.real).p0 (233 * (A ^ 2 * B * C)) (71 * (A ^ 2 * B)) := by
  · rw [motor_on_plane_p0_ex isa x y, motor_on_plane_p0_ex isa x.real y.real]
    exact (near4 (s := ⟨A, B, C⟩) ⟨hA, hB, hC⟩
      (ga := (some (1, 0, 0), some (1, 0, 0))) (gb := (some (1, 0, 1), some (1, 0, 1))) (gc := (some (0, 1, 1), some (0, 1, 0))) (gd := (some (0, 1, 1), some (0, 1, 0)))
      (hx.1.eq (by deg) (by deg)) (hx.2.eq (by deg) (by deg)) (V4.Fits.eq hy (by deg) (by deg)) (V4.Fits.eq hy (by deg) (by deg)) (K := 233) (D := (2, 1, 1)) (K' := 71) (D' := (2, 1, 0))
      (h := (by cases isa <;> decide +kernel))).eq (by units) (by units)

theorem motor_on_line_p1_ex (x : Motor F) (y : Line F) : (x.onLine y).p1 =
    evalV (env x.p1 x.p2 y.p1 y.p2) ((Motor.mk X X').onLine (Line.mk Y Y')).p1 := by
  rfl

theorem motor_on_line_p2_ex (x : Motor F) (y : Line F) : (x.onLine y).p2 =
    evalV (env x.p1 x.p2 y.p1 y.p2) ((Motor.mk X X').onLine (Line.mk Y Y')).p2 := by
  rfl

theorem C90_motor_on_line (hA : In2 A 24 24) (hB : In2 B 24 24) (hC : In2 C 20 20) {x : Motor F32} {y : Line F32}
    (hx : x.Within A C) (hy : y.Within B C) :
    ((x.onLine y).p1).Near32 (x.real.onLine y.real).p1 0 (70 * (A ^ 2 * B)) ∧
    ((x.onLine y).p2).Near32 (x.real.onLine y.real).p2 0 (283 * (A ^ 2 * B * C)) := by
  constructor
  · rw [motor_on_line_p1_ex x y, motor_on_line_p1_ex x.real y.real]
    exact (near4 (s := ⟨A, B, C⟩) ⟨hA, hB, hC⟩
      (ga := (some (1, 0, 0), some (1, 0, 0))) (gb := (some (1, 0, 1), some (1, 0, 1))) (gc := (none, some (0, 1, 0))) (gd := (none, some (0, 1, 1)))
      (hx.1.eq (by deg) (by deg)) (hx.2.eq (by deg) (by deg)) (hy.1.eq (by deg) (by deg)) (hy.2.eq (by deg) (by deg)) (K := 0) (D := (0, 0, 0)) (K' := 70) (D' := (2, 1, 0))
      (h := (by decide +kernel))).eq (by units) (by units)
  · rw [motor_on_line_p2_ex x y, motor_on_line_p2_ex x.real y.real]
    exact (near4 (s := ⟨A, B, C⟩) ⟨hA, hB, hC⟩
      (ga := (some (1, 0, 0), some (1, 0, 0))) (gb := (some (1, 0, 1), some (1, 0, 1))) (gc := (none, some (0, 1, 0))) (gd := (none, some (0, 1, 1)))
      (hx.1.eq (by deg) (by deg)) (hx.2.eq (by deg) (by deg)) (hy.1.eq (by deg) (by deg)) (hy.2.eq (by deg) (by deg)) (K := 0) (D := (0, 0, 0)) (K' := 283) (D' := (2, 1, 1))
      (h := (by decide +kernel))).eq (by units) (by units)

theorem motor_on_point_p3_ex (x : Motor F) (y : Point F) : (x.onPoint y).p3 =
    evalV (env x.p1 x.p2 y.p3 y.p3) ((Motor.mk X X').onPoint (Point.mk Y)).p3 := by
  rfl

theorem C90_motor_on_point (hA : In2 A 24 24) (hB : In2 B 24 24) (hC : In2 C 20 20) {x : Motor F32} {y : Point F32}
    (hx : x.Within A C) (hy : y.Within B C) :
    ((x.onPoint y).p3).Near32 (x.real.onPoint y.real).p3 (17 * (A ^ 2 * B)) (133 * (A ^ 2 * B * C)) := by
  · rw [motor_on_point_p3_ex x y, motor_on_point_p3_ex x.real y.real]
    exact (near4 (s := ⟨A, B, C⟩) ⟨hA, hB, hC⟩
      (ga := (some (1, 0, 0), some (1, 0, 0))) (gb := (some (1, 0, 1), some (1, 0, 1))) (gc := (some (0, 1, 0), some (0, 1, 1))) (gd := (some (0, 1, 0), some (0, 1, 1)))
      (hx.1.eq (by deg) (by deg)) (hx.2.eq (by deg) (by deg)) (V4.Fits.eq hy (by deg) (by deg)) (V4.Fits.eq hy (by deg) (by deg)) (K := 17) (D := (2, 1, 0)) (K' := 133) (D' := (2, 1, 1))
      (h := (by decide +kernel))).eq (by units) (by units)

theorem motor_on_origin_p3_ex (x : Motor F) : (x.onOrigin).p3 =
    evalV (env x.p1 x.p2 x.p1 x.p1) ((Motor.mk X X').onOrigin).p3 := by
  rfl

theorem C90_motor_on_origin (hA : In2 A 24 24) (hC : In2 C 20 20) {x : Motor F32}
    (hx : x.Within A C) :
    ((x.onOrigin).p3).Near32 (x.real.onOrigin).p3 0 (35 * (A ^ 2 * C)) := by
  · rw [motor_on_origin_p3_ex x, motor_on_origin_p3_ex x.real]
    exact (near4 (s := ⟨A, 1, C⟩) ⟨hA, one_A, hC⟩
      (ga := (some (1, 0, 0), some (1, 0, 0))) (gb := (some (1, 0, 1), some (1, 0, 1))) (gc := (some (1, 0, 0), some (1, 0, 0))) (gd := (some (1, 0, 0), some (1, 0, 0)))
      (hx.1.eq (by deg) (by deg)) (hx.2.eq (by deg) (by deg)) (hx.1.eq (by deg) (by deg)) (hx.1.eq (by deg) (by deg)) (K := 0) (D := (0, 0, 0)) (K' := 35) (D' := (2, 0, 1))
      (h := (by decide +kernel))).eq (by units) (by units)

theorem motor_on_direction_p3_ex (x : Motor F) (y : Direction F) : (x.onDirection y).p3 =
    evalV (env x.p1 x.p2 y.p3 y.p3) ((Motor.mk X X').onDirection (Direction.mk Y)).p3 := by
  rfl

theorem C90_motor_on_direction (hA : In2 A 24 24) (hB : In2 B 24 24) (hC : In2 C 20 20) {x : Motor F32} {y : Direction F32}
    (hx : x.Within A C) (hy : y.Within B) :
    ((x.onDirection y).p3).Near32 (x.real.onDirection y.real).p3 0 (70 * (A ^ 2 * B)) := by
  · rw [motor_on_direction_p3_ex x y, motor_on_direction_p3_ex x.real y.real]
    exact (near4 (s := ⟨A, B, C⟩) ⟨hA, hB, hC⟩
      (ga := (some (1, 0, 0), some (1, 0, 0))) (gb := (some (1, 0, 1), some (1, 0, 1))) (gc := (none, some (0, 1, 0))) (gd := (none, some (0, 1, 0)))
      (hx.1.eq (by deg) (by deg)) (hx.2.eq (by deg) (by deg)) (V4.Fits.eq hy (by deg) (by deg)) (V4.Fits.eq hy (by deg) (by deg)) (K := 0) (D := (0, 0, 0)) (K' := 70) (D' := (2, 1, 0))
      (h := (by decide +kernel))).eq (by units) (by units)

theorem plane_mul_plane_p1_ex (x : Plane F) (y : Plane F) : (x.mulPlane y).p1 =
    evalV (env x.p0 x.p0 y.p0 y.p0) ((Plane.mk X).mulPlane (Plane.mk Y)).p1 := by
  rfl

theorem plane_mul_plane_p2_ex (x : Plane F) (y : Plane F) : (x.mulPlane y).p2 =
    evalV (env x.p0 x.p0 y.p0 y.p0) ((Plane.mk X).mulPlane (Plane.mk Y)).p2 := by
  rfl

theorem C90_plane_mul_plane (hA : In2 A 24 24) (hB : In2 B 24 24) (hC : In2 C 20 20) {x : Plane F32} {y : Plane F32}
    (hx : x.Within A C) (hy : y.Within B C) :
    ((x.mulPlane y).p1).Near32 (x.real.mulPlane y.real).p1 (9 * (A * B)) (5 * (A * B)) ∧
    ((x.mulPlane y).p2).Near32 (x.real.mulPlane y.real).p2 0 (5 * (A * B * C)) := by
  constructor
  · rw [plane_mul_plane_p1_ex x y, plane_mul_plane_p1_ex x.real y.real]
    exact (near4 (s := ⟨A, B, C⟩) ⟨hA, hB, hC⟩
      (ga := (some (1, 0, 1), some (1, 0, 0))) (gb := (some (1, 0, 1), some (1, 0, 0))) (gc := (some (0, 1, 1), some (0, 1, 0))) (gd := (some (0, 1, 1), some (0, 1, 0)))
      (V4.Fits.eq hx (by deg) (by deg)) (V4.Fits.eq hx (by deg) (by deg)) (V4.Fits.eq hy (by deg) (by deg)) (V4.Fits.eq hy (by deg) (by deg)) (K := 9) (D := (1, 1, 0)) (K' := 5) (D' := (1, 1, 0))
      (h := (by decide +kernel))).eq (by units) (by units)
  · rw [plane_mul_plane_p2_ex x y, plane_mul_plane_p2_ex x.real y.real]
    exact (near4 (s := ⟨A, B, C⟩) ⟨hA, hB, hC⟩
      (ga := (some (1, 0, 1), some (1, 0, 0))) (gb := (some (1, 0, 1), some (1, 0, 0))) (gc := (some (0, 1, 1), some (0, 1, 0))) (gd := (some (0, 1, 1), some (0, 1, 0)))
      (V4.Fits.eq hx (by deg) (by deg)) (V4.Fits.eq hx (by deg) (by deg)) (V4.Fits.eq hy (by deg) (by deg)) (V4.Fits.eq hy (by deg) (by deg)) (K := 0) (D := (0, 0, 0)) (K' := 5) (D' := (1, 1, 1))
      (h := (by decide +kernel))).eq (by units) (by units)

theorem plane_mul_point_p1_ex (isa : Isa) (x : Plane F) (y : Point F) : (x.mulPoint isa y).p1 =
    evalV (env x.p0 x.p0 y.p3 y.p3) ((Plane.mk X).mulPoint isa (Point.mk Y)).p1 := by
  cases isa <;> rfl

theorem plane_mul_point_p2_ex (isa : Isa) (x : Plane F) (y : Point F) : (x.mulPoint isa y).p2 =
    evalV (env x.p0 x.p0 y.p3 y.p3) ((Plane.mk X).mulPoint isa (Point.mk Y)).p2 := by
  cases isa <;> rfl

theorem C90_plane_mul_point (hA : In2 A 24 24) (hB : In2 B 24 24) (hC : In2 C 20 20) (isa : Isa) {x : Plane F32} {y : Point F32}
    (hx : x.Within A C) (hy : y.Within B C) :
    ((x.mulPoint isa y).p1).Near32 (x.real.mulPoint isa y.real).p1 0 (2 * (A * B)) ∧
    ((x.mulPoint isa y).p2).Near32 (x.real.mulPoint isa y.real).p2 (13 * (A * B * C)) (5 * (A * B * C)) := by
  constructor
  · rw [plane_mul_point_p1_ex isa x y, plane_mul_point_p1_ex isa x.real y.real]
    exact (near4 (s := ⟨A, B, C⟩) ⟨hA, hB, hC⟩
      (ga := (some (1, 0, 1), some (1, 0, 0))) (gb := (some (1, 0, 1), some (1, 0, 0))) (gc := (some (0, 1, 0), some (0, 1, 1))) (gd := (some (0, 1, 0), some (0, 1, 1)))
      (V4.Fits.eq hx (by deg) (by deg)) (V4.Fits.eq hx (by deg) (by deg)) (V4.Fits.eq hy (by deg) (by deg)) (V4.Fits.eq hy (by deg) (by deg)) (K := 0) (D := (0, 0, 0)) (K' := 2) (D' := (1, 1, 0))
      (h := (by cases isa <;> decide +kernel))).eq (by units) (by units)
  · rw [plane_mul_point_p2_ex isa x y, plane_mul_point_p2_ex isa x.real y.real]
    exact (near4 (s := ⟨A, B, C⟩) ⟨hA, hB, hC⟩
      (ga := (some (1, 0, 1), some (1, 0, 0))) (gb := (some (1, 0, 1), some (1, 0, 0))) (gc := (some (0, 1, 0), some (0, 1, 1))) (gd := (some (0, 1, 0), some (0, 1, 1)))
      (V4.Fits.eq hx (by deg) (by deg)) (V4.Fits.eq hx (by deg) (by deg)) (V4.Fits.eq hy (by deg) (by deg)) (V4.Fits.eq hy (by deg) (by deg)) (K := 13) (D := (1, 1, 1)) (K' := 5) (D' := (1, 1, 1))
      (h := (by cases isa <;> decide +kernel))).eq (by units) (by units)

theorem point_mul_plane_p1_ex (isa : Isa) (x : Point F) (y : Plane F) : (x.mulPlane isa y).p1 =
    evalV (env x.p3 x.p3 y.p0 y.p0) ((Point.mk X).mulPlane isa (Plane.mk Y)).p1 := by
  cases isa <;> rfl

theorem point_mul_plane_p2_ex (isa : Isa) (x : Point F) (y : Plane F) : (x.mulPlane isa y).p2 =
    evalV (env x.p3 x.p3 y.p0 y.p0) ((Point.mk X).mulPlane isa (Plane.mk Y)).p2 := by
  cases isa <;> rfl

theorem C90_point_mul_plane (hA : In2 A 24 24) (hB : In2 B 24 24) (hC : In2 C 20 20) (isa : Isa) {x : Point F32} {y : Plane F32}
    (hx : x.Within A C) (hy : y.Within B C) :
    ((x.mulPlane isa y).p1).Near32 (x.real.mulPlane isa y.real).p1 0 (2 * (A * B)) ∧
    ((x.mulPlane isa y).p2).Near32 (x.real.mulPlane isa y.real).p2 (13 * (A * B * C)) (5 * (A * B * C)) := by
  constructor
  · rw [point_mul_plane_p1_ex isa x y, point_mul_plane_p1_ex isa x.real y.real]
    exact (near4 (s := ⟨A, B, C⟩) ⟨hA, hB, hC⟩
      (ga := (some (1, 0, 0), some (1, 0, 1))) (gb := (some (1, 0, 0), some (1, 0, 1))) (gc := (some (0, 1, 1), some (0, 1, 0))) (gd := (some (0, 1, 1), some (0, 1, 0)))
      (V4.Fits.eq hx (by deg) (by deg)) (V4.Fits.eq hx (by deg) (by deg)) (V4.Fits.eq hy (by deg) (by deg)) (V4.Fits.eq hy (by deg) (by deg)) (K := 0) (D := (0, 0, 0)) (K' := 2) (D' := (1, 1, 0))
      (h := (by cases isa <;> decide +kernel))).eq (by units) (by units)
  · rw [point_mul_plane_p2_ex isa x y, point_mul_plane_p2_ex isa x.real y.real]
    exact (near4 (s := ⟨A, B, C⟩) ⟨hA, hB, hC⟩
      (ga := (some (1, 0, 0), some (1, 0, 1))) (gb := (some (1, 0, 0), some (1, 0, 1))) (gc := (some (0, 1, 1), some (0, 1, 0))) (gd := (some (0, 1, 1), some (0, 1, 0)))
      (V4.Fits.eq hx (by deg) (by deg)) (V4.Fits.eq hx (by deg) (by deg)) (V4.Fits.eq hy (by deg) (by deg)) (V4.Fits.eq hy (by deg) (by deg)) (K := 13) (D := (1, 1, 1)) (K' := 5) (D' := (1, 1, 1))
      (h := (by cases isa <;> decide +kernel))).eq (by units) (by units)

theorem branch_mul_branch_p1_ex (x : Branch F) (y : Branch F) : (x.mulBranch y).p1 =
    evalV (env x.p1 x.p1 y.p1 y.p1) ((Branch.mk X).mulBranch (Branch.mk Y)).p1 := by
  rfl

theorem C90_branch_mul_branch (hA : In2 A 24 24) (hB : In2 B 24 24) {x : Branch F32} {y : Branch F32}
    (hx : x.Within A) (hy : y.Within B) :
    ((x.mulBranch y).p1).Near32 (x.real.mulBranch y.real).p1 (9 * (A * B)) (5 * (A * B)) := by
  · rw [branch_mul_branch_p1_ex x y, branch_mul_branch_p1_ex x.real y.real]
    exact (near4 (s := ⟨A, B, 1⟩) ⟨hA, hB, one_C⟩
      (ga := (none, some (1, 0, 0))) (gb := (none, some (1, 0, 0))) (gc := (none, some (0, 1, 0))) (gd := (none, some (0, 1, 0)))
      (V4.Fits.eq hx (by deg) (by deg)) (V4.Fits.eq hx (by deg) (by deg)) (V4.Fits.eq hy (by deg) (by deg)) (V4.Fits.eq hy (by deg) (by deg)) (K := 9) (D := (1, 1, 0)) (K' := 5) (D' := (1, 1, 0))
      (h := (by decide +kernel))).eq (by units) (by units)

theorem line_mul_line_p1_ex (x : Line F) (y : Line F) : (x.mulLine y).p1 =
    evalV (env x.p1 x.p2 y.p1 y.p2) ((Line.mk X X').mulLine (Line.mk Y Y')).p1 := by
  rfl

theorem line_mul_line_p2_ex (x : Line F) (y : Line F) : (x.mulLine y).p2 =
    evalV (env x.p1 x.p2 y.p1 y.p2) ((Line.mk X X').mulLine (Line.mk Y Y')).p2 := by
  rfl

theorem C90_line_mul_line (hA : In2 A 24 24) (hB : In2 B 24 24) (hC : In2 C 20 20) {x : Line F32} {y : Line F32}
    (hx : x.Within A C) (hy : y.Within B C) :
    ((x.mulLine y).p1).Near32 (x.real.mulLine y.real).p1 (9 * (A * B)) (5 * (A * B)) ∧
    ((x.mulLine y).p2).Near32 (x.real.mulLine y.real).p2 (27 * (A * B * C)) (14 * (A * B * C)) := by
  constructor
  · rw [line_mul_line_p1_ex x y, line_mul_line_p1_ex x.real y.real]
    exact (near4 (s := ⟨A, B, C⟩) ⟨hA, hB, hC⟩
      (ga := (none, some (1, 0, 0))) (gb := (none, some (1, 0, 1))) (gc := (none, some (0, 1, 0))) (gd := (none, some (0, 1, 1)))
      (hx.1.eq (by deg) (by deg)) (hx.2.eq (by deg) (by deg)) (hy.1.eq (by deg) (by deg)) (hy.2.eq (by deg) (by deg)) (K := 9) (D := (1, 1, 0)) (K' := 5) (D' := (1, 1, 0))
      (h := (by decide +kernel))).eq (by units) (by units)
  · rw [line_mul_line_p2_ex x y, line_mul_line_p2_ex x.real y.real]
    exact (near4 (s := ⟨A, B, C⟩) ⟨hA, hB, hC⟩
      (ga := (none, some (1, 0, 0))) (gb := (none, some (1, 0, 1))) (gc := (none, some (0, 1, 0))) (gd := (none, some (0, 1, 1)))
      (hx.1.eq (by deg) (by deg)) (hx.2.eq (by deg) (by deg)) (hy.1.eq (by deg) (by deg)) (hy.2.eq (by deg) (by deg)) (K := 27) (D := (1, 1, 1)) (K' := 14) (D' := (1, 1, 1))
      (h := (by decide +kernel))).eq (by units) (by units)

theorem rotor_mul_rotor_p1_ex (x : Rotor F) (y : Rotor F) : (x.mulRotor y).p1 =
    evalV (env x.p1 x.p1 y.p1 y.p1) ((Rotor.mk X).mulRotor (Rotor.mk Y)).p1 := by
  rfl

theorem C90_rotor_mul_rotor (hA : In2 A 24 24) (hB : In2 B 24 24) {x : Rotor F32} {y : Rotor F32}
    (hx : x.Within A) (hy : y.Within B) :
    ((x.mulRotor y).p1).Near32 (x.real.mulRotor y.real).p1 (13 * (A * B)) (13 * (A * B)) := by
  · rw [rotor_mul_rotor_p1_ex x y, rotor_mul_rotor_p1_ex x.real y.real]
    exact (near4 (s := ⟨A, B, 1⟩) ⟨hA, hB, one_C⟩
      (ga := (some (1, 0, 0), some (1, 0, 0))) (gb := (some (1, 0, 0), some (1, 0, 0))) (gc := (some (0, 1, 0), some (0, 1, 0))) (gd := (some (0, 1, 0), some (0, 1, 0)))
      (V4.Fits.eq hx (by deg) (by deg)) (V4.Fits.eq hx (by deg) (by deg)) (V4.Fits.eq hy (by deg) (by deg)) (V4.Fits.eq hy (by deg) (by deg)) (K := 13) (D := (1, 1, 0)) (K' := 13) (D' := (1, 1, 0))
      (h := (by decide +kernel))).eq (by units) (by units)

theorem dual_mul_line_p1_ex (x : Dual F) (y : Line F) : (x.mulLine y).p1 =
    evalV (env ⟨x.p, x.q, x.q, x.q⟩ ⟨x.p, x.q, x.q, x.q⟩ y.p1 y.p2) ((Dual.mk X.l0 X.l1).mulLine (Line.mk Y Y')).p1 := by
  rfl

theorem dual_mul_line_p2_ex (x : Dual F) (y : Line F) : (x.mulLine y).p2 =
    evalV (env ⟨x.p, x.q, x.q, x.q⟩ ⟨x.p, x.q, x.q, x.q⟩ y.p1 y.p2) ((Dual.mk X.l0 X.l1).mulLine (Line.mk Y Y')).p2 := by
  rfl

theorem C90_dual_mul_line (hA : In2 A 24 24) (hB : In2 B 24 24) (hC : In2 C 20 20) {x : Dual F32} {y : Line F32}
    (hx : x.Within A C) (hy : y.Within B C) :
    ((x.mulLine y).p1).Near32 (x.real.mulLine y.real).p1 0 (2 * (A * B)) ∧
    ((x.mulLine y).p2).Near32 (x.real.mulLine y.real).p2 0 (5 * (A * B * C)) := by
  constructor
  · rw [dual_mul_line_p1_ex x y, dual_mul_line_p1_ex x.real y.real]
    exact (near4 (s := ⟨A, B, C⟩) ⟨hA, hB, hC⟩
      (ga := (some (1, 0, 0), some (1, 0, 1))) (gb := (some (1, 0, 0), some (1, 0, 1))) (gc := (none, some (0, 1, 0))) (gd := (none, some (0, 1, 1)))
      (hx.reg.eq (by deg) (by deg)) (hx.reg.eq (by deg) (by deg)) (hy.1.eq (by deg) (by deg)) (hy.2.eq (by deg) (by deg)) (K := 0) (D := (0, 0, 0)) (K' := 2) (D' := (1, 1, 0))
      (h := (by decide +kernel))).eq (by units) (by units)
  · rw [dual_mul_line_p2_ex x y, dual_mul_line_p2_ex x.real y.real]
    exact (near4 (s := ⟨A, B, C⟩) ⟨hA, hB, hC⟩
      (ga := (some (1, 0, 0), some (1, 0, 1))) (gb := (some (1, 0, 0), some (1, 0, 1))) (gc := (none, some (0, 1, 0))) (gd := (none, some (0, 1, 1)))
      (hx.reg.eq (by deg) (by deg)) (hx.reg.eq (by deg) (by deg)) (hy.1.eq (by deg) (by deg)) (hy.2.eq (by deg) (by deg)) (K := 0) (D := (0, 0, 0)) (K' := 5) (D' := (1, 1, 1))
      (h := (by decide +kernel))).eq (by units) (by units)

theorem line_mul_dual_p1_ex (x : Line F) (y : Dual F) : (x.mulDual y).p1 =
    evalV (env x.p1 x.p2 ⟨y.p, y.q, y.q, y.q⟩ ⟨y.p, y.q, y.q, y.q⟩) ((Line.mk X X').mulDual (Dual.mk Y.l0 Y.l1)).p1 := by
  rfl

theorem line_mul_dual_p2_ex (x : Line F) (y : Dual F) : (x.mulDual y).p2 =
    evalV (env x.p1 x.p2 ⟨y.p, y.q, y.q, y.q⟩ ⟨y.p, y.q, y.q, y.q⟩) ((Line.mk X X').mulDual (Dual.mk Y.l0 Y.l1)).p2 := by
  rfl

theorem C90_line_mul_dual (hA : In2 A 24 24) (hB : In2 B 24 24) (hC : In2 C 20 20) {x : Line F32} {y : Dual F32}
    (hx : x.Within A C) (hy : y.Within B C) :
    ((x.mulDual y).p1).Near32 (x.real.mulDual y.real).p1 0 (2 * (A * B)) ∧
    ((x.mulDual y).p2).Near32 (x.real.mulDual y.real).p2 0 (5 * (A * B * C)) := by
  constructor
  · rw [line_mul_dual_p1_ex x y, line_mul_dual_p1_ex x.real y.real]
    exact (near4 (s := ⟨A, B, C⟩) ⟨hA, hB, hC⟩
      (ga := (none, some (1, 0, 0))) (gb := (none, some (1, 0, 1))) (gc := (some (0, 1, 0), some (0, 1, 1))) (gd := (some (0, 1, 0), some (0, 1, 1)))
      (hx.1.eq (by deg) (by deg)) (hx.2.eq (by deg) (by deg)) (hy.reg.eq (by deg) (by deg)) (hy.reg.eq (by deg) (by deg)) (K := 0) (D := (0, 0, 0)) (K' := 2) (D' := (1, 1, 0))
      (h := (by decide +kernel))).eq (by units) (by units)
  · rw [line_mul_dual_p2_ex x y, line_mul_dual_p2_ex x.real y.real]
    exact (near4 (s := ⟨A, B, C⟩) ⟨hA, hB, hC⟩
      (ga := (none, some (1, 0, 0))) (gb := (none, some (1, 0, 1))) (gc := (some (0, 1, 0), some (0, 1, 1))) (gd := (some (0, 1, 0), some (0, 1, 1)))
      (hx.1.eq (by deg) (by deg)) (hx.2.eq (by deg) (by deg)) (hy.reg.eq (by deg) (by deg)) (hy.reg.eq (by deg) (by deg)) (K := 0) (D := (0, 0, 0)) (K' := 5) (D' := (1, 1, 1))
      (h := (by decide +kernel))).eq (by units) (by units)

theorem rotor_mul_translator_p1_ex (x : Rotor F) (y : Translator F) : (x.mulTranslator y).p1 =
    evalV (env x.p1 x.p1 y.p2 y.p2) ((Rotor.mk X).mulTranslator (Translator.mk Y)).p1 := by
  rfl

theorem rotor_mul_translator_p2_ex (x : Rotor F) (y : Translator F) : (x.mulTranslator y).p2 =
    evalV (env x.p1 x.p1 y.p2 y.p2) ((Rotor.mk X).mulTranslator (Translator.mk Y)).p2 := by
  rfl

theorem C90_rotor_mul_translator (hA : In2 A 24 24) (hC : In2 C 20 20) {x : Rotor F32} {y : Translator F32}
    (hx : x.Within A) (hy : y.Within C) :
    ((x.mulTranslator y).p1).Near32 (x.real.mulTranslator y.real).p1 0 0 ∧
    ((x.mulTranslator y).p2).Near32 (x.real.mulTranslator y.real).p2 (9 * (A * C)) (9 * (A * C)) := by
  constructor
  · rw [rotor_mul_translator_p1_ex x y, rotor_mul_translator_p1_ex x.real y.real]
    exact (near4 (s := ⟨A, 1, C⟩) ⟨hA, one_A, hC⟩
      (ga := (some (1, 0, 0), some (1, 0, 0))) (gb := (some (1, 0, 0), some (1, 0, 0))) (gc := (some (0, 0, 1), some (0, 0, 1))) (gd := (some (0, 0, 1), some (0, 0, 1)))
      (V4.Fits.eq hx (by deg) (by deg)) (V4.Fits.eq hx (by deg) (by deg)) (V4.Fits.eq hy (by deg) (by deg)) (V4.Fits.eq hy (by deg) (by deg)) (K := 0) (D := (0, 0, 0)) (K' := 0) (D' := (0, 0, 0))
      (h := (by decide +kernel))).eq (by units) (by units)
  · rw [rotor_mul_translator_p2_ex x y, rotor_mul_translator_p2_ex x.real y.real]
    exact (near4 (s := ⟨A, 1, C⟩) ⟨hA, one_A, hC⟩
      (ga := (some (1, 0, 0), some (1, 0, 0))) (gb := (some (1, 0, 0), some (1, 0, 0))) (gc := (some (0, 0, 1), some (0, 0, 1))) (gd := (some (0, 0, 1), some (0, 0, 1)))
      (V4.Fits.eq hx (by deg) (by deg)) (V4.Fits.eq hx (by deg) (by deg)) (V4.Fits.eq hy (by deg) (by deg)) (V4.Fits.eq hy (by deg) (by deg)) (K := 9) (D := (1, 0, 1)) (K' := 9) (D' := (1, 0, 1))
      (h := (by decide +kernel))).eq (by units) (by units)

theorem translator_mul_rotor_p1_ex (x : Translator F) (y : Rotor F) : (x.mulRotor y).p1 =
    evalV (env x.p2 x.p2 y.p1 y.p1) ((Translator.mk X).mulRotor (Rotor.mk Y)).p1 := by
  rfl

theorem translator_mul_rotor_p2_ex (x : Translator F) (y : Rotor F) : (x.mulRotor y).p2 =
    evalV (env x.p2 x.p2 y.p1 y.p1) ((Translator.mk X).mulRotor (Rotor.mk Y)).p2 := by
  rfl

theorem C90_translator_mul_rotor (hB : In2 B 24 24) (hC : In2 C 20 20) {x : Translator F32} {y : Rotor F32}
    (hx : x.Within C) (hy : y.Within B) :
    ((x.mulRotor y).p1).Near32 (x.real.mulRotor y.real).p1 0 0 ∧
    ((x.mulRotor y).p2).Near32 (x.real.mulRotor y.real).p2 (9 * (B * C)) (9 * (B * C)) := by
  constructor
  · rw [translator_mul_rotor_p1_ex x y, translator_mul_rotor_p1_ex x.real y.real]
    exact (near4 (s := ⟨1, B, C⟩) ⟨one_A, hB, hC⟩
      (ga := (some (0, 0, 1), some (0, 0, 1))) (gb := (some (0, 0, 1), some (0, 0, 1))) (gc := (some (0, 1, 0), some (0, 1, 0))) (gd := (some (0, 1, 0), some (0, 1, 0)))
      (V4.Fits.eq hx (by deg) (by deg)) (V4.Fits.eq hx (by deg) (by deg)) (V4.Fits.eq hy (by deg) (by deg)) (V4.Fits.eq hy (by deg) (by deg)) (K := 0) (D := (0, 0, 0)) (K' := 0) (D' := (0, 0, 0))
      (h := (by decide +kernel))).eq (by units) (by units)
  · rw [translator_mul_rotor_p2_ex x y, translator_mul_rotor_p2_ex x.real y.real]
    exact (near4 (s := ⟨1, B, C⟩) ⟨one_A, hB, hC⟩
      (ga := (some (0, 0, 1), some (0, 0, 1))) (gb := (some (0, 0, 1), some (0, 0, 1))) (gc := (some (0, 1, 0), some (0, 1, 0))) (gd := (some (0, 1, 0), some (0, 1, 0)))
      (V4.Fits.eq hx (by deg) (by deg)) (V4.Fits.eq hx (by deg) (by deg)) (V4.Fits.eq hy (by deg) (by deg)) (V4.Fits.eq hy (by deg) (by deg)) (K := 9) (D := (0, 1, 1)) (K' := 9) (D' := (0, 1, 1))
      (h := (by decide +kernel))).eq (by units) (by units)

theorem translator_mul_translator_p2_ex (x : Translator F) (y : Translator F) : (x.mulTranslator y).p2 =
    evalV (env x.p2 x.p2 y.p2 y.p2) ((Translator.mk X).mulTranslator (Translator.mk Y)).p2 := by
  rfl

theorem C90_translator_mul_translator (hC : In2 C 20 20) {x : Translator F32} {y : Translator F32}
    (hx : x.Within C) (hy : y.Within C) :
    ((x.mulTranslator y).p2).Near32 (x.real.mulTranslator y.real).p2 (3 * C) (3 * C) := by
  · rw [translator_mul_translator_p2_ex x y, translator_mul_translator_p2_ex x.real y.real]
    exact (near4 (s := ⟨1, 1, C⟩) ⟨one_A, one_A, hC⟩
      (ga := (some (0, 0, 1), some (0, 0, 1))) (gb := (some (0, 0, 1), some (0, 0, 1))) (gc := (some (0, 0, 1), some (0, 0, 1))) (gd := (some (0, 0, 1), some (0, 0, 1)))
      (V4.Fits.eq hx (by deg) (by deg)) (V4.Fits.eq hx (by deg) (by deg)) (V4.Fits.eq hy (by deg) (by deg)) (V4.Fits.eq hy (by deg) (by deg)) (K := 3) (D := (0, 0, 1)) (K' := 3) (D' := (0, 0, 1))
      (h := (by decide +kernel))).eq (by units) (by units)

theorem rotor_mul_motor_p1_ex (x : Rotor F) (y : Motor F) : (x.mulMotor y).p1 =
    evalV (env x.p1 x.p1 y.p1 y.p2) ((Rotor.mk X).mulMotor (Motor.mk Y Y')).p1 := by
  rfl

theorem rotor_mul_motor_p2_ex (x : Rotor F) (y : Motor F) : (x.mulMotor y).p2 =
    evalV (env x.p1 x.p1 y.p1 y.p2) ((Rotor.mk X).mulMotor (Motor.mk Y Y')).p2 := by
  rfl

theorem C90_rotor_mul_motor (hA : In2 A 24 24) (hB : In2 B 24 24) (hC : In2 C 20 20) {x : Rotor F32} {y : Motor F32}
    (hx : x.Within A) (hy : y.Within B C) :
    ((x.mulMotor y).p1).Near32 (x.real.mulMotor y.real).p1 (13 * (A * B)) (13 * (A * B)) ∧
    ((x.mulMotor y).p2).Near32 (x.real.mulMotor y.real).p2 (14 * (A * B * C)) (14 * (A * B * C)) := by
  constructor
  · rw [rotor_mul_motor_p1_ex x y, rotor_mul_motor_p1_ex x.real y.real]
    exact (near4 (s := ⟨A, B, C⟩) ⟨hA, hB, hC⟩
      (ga := (some (1, 0, 0), some (1, 0, 0))) (gb := (some (1, 0, 0), some (1, 0, 0))) (gc := (some (0, 1, 0), some (0, 1, 0))) (gd := (some (0, 1, 1), some (0, 1, 1)))
      (V4.Fits.eq hx (by deg) (by deg)) (V4.Fits.eq hx (by deg) (by deg)) (hy.1.eq (by deg) (by deg)) (hy.2.eq (by deg) (by deg)) (K := 13) (D := (1, 1, 0)) (K' := 13) (D' := (1, 1, 0))
      (h := (by decide +kernel))).eq (by units) (by units)
  · rw [rotor_mul_motor_p2_ex x y, rotor_mul_motor_p2_ex x.real y.real]
    exact (near4 (s := ⟨A, B, C⟩) ⟨hA, hB, hC⟩
      (ga := (some (1, 0, 0), some (1, 0, 0))) (gb := (some (1, 0, 0), some (1, 0, 0))) (gc := (some (0, 1, 0), some (0, 1, 0))) (gd := (some (0, 1, 1), some (0, 1, 1)))
      (V4.Fits.eq hx (by deg) (by deg)) (V4.Fits.eq hx (by deg) (by deg)) (hy.1.eq (by deg) (by deg)) (hy.2.eq (by deg) (by deg)) (K := 14) (D := (1, 1, 1)) (K' := 14) (D' := (1, 1, 1))
      (h := (by decide +kernel))).eq (by units) (by units)

theorem motor_mul_rotor_p1_ex (x : Motor F) (y : Rotor F) : (x.mulRotor y).p1 =
    evalV (env x.p1 x.p2 y.p1 y.p1) ((Motor.mk X X').mulRotor (Rotor.mk Y)).p1 := by
  rfl

theorem motor_mul_rotor_p2_ex (x : Motor F) (y : Rotor F) : (x.mulRotor y).p2 =
    evalV (env x.p1 x.p2 y.p1 y.p1) ((Motor.mk X X').mulRotor (Rotor.mk Y)).p2 := by
  rfl

theorem C90_motor_mul_rotor (hA : In2 A 24 24) (hB : In2 B 24 24) (hC : In2 C 20 20) {x : Motor F32} {y : Rotor F32}
    (hx : x.Within A C) (hy : y.Within B) :
    ((x.mulRotor y).p1).Near32 (x.real.mulRotor y.real).p1 (13 * (A * B)) (13 * (A * B)) ∧
    ((x.mulRotor y).p2).Near32 (x.real.mulRotor y.real).p2 (14 * (A * B * C)) (14 * (A * B * C)) := by
  constructor
  · rw [motor_mul_rotor_p1_ex x y, motor_mul_rotor_p1_ex x.real y.real]
    exact (near4 (s := ⟨A, B, C⟩) ⟨hA, hB, hC⟩
      (ga := (some (1, 0, 0), some (1, 0, 0))) (gb := (some (1, 0, 1), some (1, 0, 1))) (gc := (some (0, 1, 0), some (0, 1, 0))) (gd := (some (0, 1, 0), some (0, 1, 0)))
      (hx.1.eq (by deg) (by deg)) (hx.2.eq (by deg) (by deg)) (V4.Fits.eq hy (by deg) (by deg)) (V4.Fits.eq hy (by deg) (by deg)) (K := 13) (D := (1, 1, 0)) (K' := 13) (D' := (1, 1, 0))
      (h := (by decide +kernel))).eq (by units) (by units)
  · rw [motor_mul_rotor_p2_ex x y, motor_mul_rotor_p2_ex x.real y.real]
    exact (near4 (s := ⟨A, B, C⟩) ⟨hA, hB, hC⟩
      (ga := (some (1, 0, 0), some (1, 0, 0))) (gb := (some (1, 0, 1), some (1, 0, 1))) (gc := (some (0, 1, 0), some (0, 1, 0))) (gd := (some (0, 1, 0), some (0, 1, 0)))
      (hx.1.eq (by deg) (by deg)) (hx.2.eq (by deg) (by deg)) (V4.Fits.eq hy (by deg) (by deg)) (V4.Fits.eq hy (by deg) (by deg)) (K := 14) (D := (1, 1, 1)) (K' := 14) (D' := (1, 1, 1))
      (h := (by decide +kernel))).eq (by units) (by units)

theorem translator_mul_motor_p1_ex (x : Translator F) (y : Motor F) : (x.mulMotor y).p1 =
    evalV (env x.p2 x.p2 y.p1 y.p2) ((Translator.mk X).mulMotor (Motor.mk Y Y')).p1 := by
  rfl

theorem translator_mul_motor_p2_ex (x : Translator F) (y : Motor F) : (x.mulMotor y).p2 =
    evalV (env x.p2 x.p2 y.p1 y.p2) ((Translator.mk X).mulMotor (Motor.mk Y Y')).p2 := by
  rfl

theorem C90_translator_mul_motor (hB : In2 B 24 24) (hC : In2 C 20 20) {x : Translator F32} {y : Motor F32}
    (hx : x.Within C) (hy : y.Within B C) :
    ((x.mulMotor y).p1).Near32 (x.real.mulMotor y.real).p1 0 0 ∧
    ((x.mulMotor y).p2).Near32 (x.real.mulMotor y.real).p2 (13 * (B * C)) (13 * (B * C)) := by
  constructor
  · rw [translator_mul_motor_p1_ex x y, translator_mul_motor_p1_ex x.real y.real]
    exact (near4 (s := ⟨1, B, C⟩) ⟨one_A, hB, hC⟩
      (ga := (some (0, 0, 1), some (0, 0, 1))) (gb := (some (0, 0, 1), some (0, 0, 1))) (gc := (some (0, 1, 0), some (0, 1, 0))) (gd := (some (0, 1, 1), some (0, 1, 1)))
      (V4.Fits.eq hx (by deg) (by deg)) (V4.Fits.eq hx (by deg) (by deg)) (hy.1.eq (by deg) (by deg)) (hy.2.eq (by deg) (by deg)) (K := 0) (D := (0, 0, 0)) (K' := 0) (D' := (0, 0, 0))
      (h := (by decide +kernel))).eq (by units) (by units)
  · rw [translator_mul_motor_p2_ex x y, translator_mul_motor_p2_ex x.real y.real]
    exact (near4 (s := ⟨1, B, C⟩) ⟨one_A, hB, hC⟩
      (ga := (some (0, 0, 1), some (0, 0, 1))) (gb := (some (0, 0, 1), some (0, 0, 1))) (gc := (some (0, 1, 0), some (0, 1, 0))) (gd := (some (0, 1, 1), some (0, 1, 1)))
      (V4.Fits.eq hx (by deg) (by deg)) (V4.Fits.eq hx (by deg) (by deg)) (hy.1.eq (by deg) (by deg)) (hy.2.eq (by deg) (by deg)) (K := 13) (D := (0, 1, 1)) (K' := 13) (D' := (0, 1, 1))
      (h := (by decide +kernel))).eq (by units) (by units)

theorem motor_mul_translator_p1_ex (x : Motor F) (y : Translator F) : (x.mulTranslator y).p1 =
    evalV (env x.p1 x.p2 y.p2 y.p2) ((Motor.mk X X').mulTranslator (Translator.mk Y)).p1 := by
  rfl

theorem motor_mul_translator_p2_ex (x : Motor F) (y : Translator F) : (x.mulTranslator y).p2 =
    evalV (env x.p1 x.p2 y.p2 y.p2) ((Motor.mk X X').mulTranslator (Translator.mk Y)).p2 := by
  rfl

theorem C90_motor_mul_translator (hA : In2 A 24 24) (hC : In2 C 20 20) {x : Motor F32} {y : Translator F32}
    (hx : x.Within A C) (hy : y.Within C) :
    ((x.mulTranslator y).p1).Near32 (x.real.mulTranslator y.real).p1 0 0 ∧
    ((x.mulTranslator y).p2).Near32 (x.real.mulTranslator y.real).p2 (13 * (A * C)) (13 * (A * C)) := by
  constructor
  · rw [motor_mul_translator_p1_ex x y, motor_mul_translator_p1_ex x.real y.real]
    exact (near4 (s := ⟨A, 1, C⟩) ⟨hA, one_A, hC⟩
      (ga := (some (1, 0, 0), some (1, 0, 0))) (gb := (some (1, 0, 1), some (1, 0, 1))) (gc := (some (0, 0, 1), some (0, 0, 1))) (gd := (some (0, 0, 1), some (0, 0, 1)))
      (hx.1.eq (by deg) (by deg)) (hx.2.eq (by deg) (by deg)) (V4.Fits.eq hy (by deg) (by deg)) (V4.Fits.eq hy (by deg) (by deg)) (K := 0) (D := (0, 0, 0)) (K' := 0) (D' := (0, 0, 0))
      (h := (by decide +kernel))).eq (by units) (by units)
  · rw [motor_mul_translator_p2_ex x y, motor_mul_translator_p2_ex x.real y.real]
    exact (near4 (s := ⟨A, 1, C⟩) ⟨hA, one_A, hC⟩
      (ga := (some (1, 0, 0), some (1, 0, 0))) (gb := (some (1, 0, 1), some (1, 0, 1))) (gc := (some (0, 0, 1), some (0, 0, 1))) (gd := (some (0, 0, 1), some (0, 0, 1)))
      (hx.1.eq (by deg) (by deg)) (hx.2.eq (by deg) (by deg)) (V4.Fits.eq hy (by deg) (by deg)) (V4.Fits.eq hy (by deg) (by deg)) (K := 13) (D := (1, 0, 1)) (K' := 13) (D' := (1, 0, 1))
      (h := (by decide +kernel))).eq (by units) (by units)

theorem motor_mul_motor_p1_ex (x : Motor F) (y : Motor F) : (x.mulMotor y).p1 =
    evalV (env x.p1 x.p2 y.p1 y.p2) ((Motor.mk X X').mulMotor (Motor.mk Y Y')).p1 := by
  rfl

theorem motor_mul_motor_p2_ex (x : Motor F) (y : Motor F) : (x.mulMotor y).p2 =
    evalV (env x.p1 x.p2 y.p1 y.p2) ((Motor.mk X X').mulMotor (Motor.mk Y Y')).p2 := by
  rfl

theorem C90_motor_mul_motor (hA : In2 A 24 24) (hB : In2 B 24 24) (hC : In2 C 20 20) {x : Motor F32} {y : Motor F32}
    (hx : x.Within A C) (hy : y.Within B C) :
    ((x.mulMotor y).p1).Near32 (x.real.mulMotor y.real).p1 (14 * (A * B)) (14 * (A * B)) ∧
    ((x.mulMotor y).p2).Near32 (x.real.mulMotor y.real).p2 (35 * (A * B * C)) (35 * (A * B * C)) := by
  constructor
  · rw [motor_mul_motor_p1_ex x y, motor_mul_motor_p1_ex x.real y.real]
    exact (near4 (s := ⟨A, B, C⟩) ⟨hA, hB, hC⟩
      (ga := (some (1, 0, 0), some (1, 0, 0))) (gb := (some (1, 0, 1), some (1, 0, 1))) (gc := (some (0, 1, 0), some (0, 1, 0))) (gd := (some (0, 1, 1), some (0, 1, 1)))
      (hx.1.eq (by deg) (by deg)) (hx.2.eq (by deg) (by deg)) (hy.1.eq (by deg) (by deg)) (hy.2.eq (by deg) (by deg)) (K := 14) (D := (1, 1, 0)) (K' := 14) (D' := (1, 1, 0))
      (h := (by decide +kernel))).eq (by units) (by units)
  · rw [motor_mul_motor_p2_ex x y, motor_mul_motor_p2_ex x.real y.real]
    exact (near4 (s := ⟨A, B, C⟩) ⟨hA, hB, hC⟩
      (ga := (some (1, 0, 0), some (1, 0, 0))) (gb := (some (1, 0, 1), some (1, 0, 1))) (gc := (some (0, 1, 0), some (0, 1, 0))) (gd := (some (0, 1, 1), some (0, 1, 1)))
      (hx.1.eq (by deg) (by deg)) (hx.2.eq (by deg) (by deg)) (hy.1.eq (by deg) (by deg)) (hy.2.eq (by deg) (by deg)) (K := 35) (D := (1, 1, 1)) (K' := 35) (D' := (1, 1, 1))
      (h := (by decide +kernel))).eq (by units) (by units)

theorem translator_div_translator_p2_ex (x : Translator F) (y : Translator F) : (x.divTranslator y).p2 =
    evalV (env x.p2 x.p2 y.p2 y.p2) ((Translator.mk X).divTranslator (Translator.mk Y)).p2 := by
  rfl

theorem C90_translator_div_translator (hC : In2 C 20 20) {x : Translator F32} {y : Translator F32}
    (hx : x.Within C) (hy : y.Within C) :
    ((x.divTranslator y).p2).Near32 (x.real.divTranslator y.real).p2 (3 * C) (3 * C) := by
  · rw [translator_div_translator_p2_ex x y, translator_div_translator_p2_ex x.real y.real]
    exact (near4 (s := ⟨1, 1, C⟩) ⟨one_A, one_A, hC⟩
      (ga := (some (0, 0, 1), some (0, 0, 1))) (gb := (some (0, 0, 1), some (0, 0, 1))) (gc := (some (0, 0, 1), some (0, 0, 1))) (gd := (some (0, 0, 1), some (0, 0, 1)))
      (V4.Fits.eq hx (by deg) (by deg)) (V4.Fits.eq hx (by deg) (by deg)) (V4.Fits.eq hy (by deg) (by deg)) (V4.Fits.eq hy (by deg) (by deg)) (K := 3) (D := (0, 0, 1)) (K' := 3) (D' := (0, 0, 1))
      (h := (by decide +kernel))).eq (by units) (by units)

theorem motor_div_translator_p1_ex (x : Motor F) (y : Translator F) : (x.divTranslator y).p1 =
    evalV (env x.p1 x.p2 y.p2 y.p2) ((Motor.mk X X').divTranslator (Translator.mk Y)).p1 := by
  rfl

theorem motor_div_translator_p2_ex (x : Motor F) (y : Translator F) : (x.divTranslator y).p2 =
    evalV (env x.p1 x.p2 y.p2 y.p2) ((Motor.mk X X').divTranslator (Translator.mk Y)).p2 := by
  rfl

theorem C90_motor_div_translator (hA : In2 A 24 24) (hC : In2 C 20 20) {x : Motor F32} {y : Translator F32}
    (hx : x.Within A C) (hy : y.Within C) :
    ((x.divTranslator y).p1).Near32 (x.real.divTranslator y.real).p1 0 0 ∧
    ((x.divTranslator y).p2).Near32 (x.real.divTranslator y.real).p2 (13 * (A * C)) (13 * (A * C)) := by
  constructor
  · rw [motor_div_translator_p1_ex x y, motor_div_translator_p1_ex x.real y.real]
    exact (near4 (s := ⟨A, 1, C⟩) ⟨hA, one_A, hC⟩
      (ga := (some (1, 0, 0), some (1, 0, 0))) (gb := (some (1, 0, 1), some (1, 0, 1))) (gc := (some (0, 0, 1), some (0, 0, 1))) (gd := (some (0, 0, 1), some (0, 0, 1)))
      (hx.1.eq (by deg) (by deg)) (hx.2.eq (by deg) (by deg)) (V4.Fits.eq hy (by deg) (by deg)) (V4.Fits.eq hy (by deg) (by deg)) (K := 0) (D := (0, 0, 0)) (K' := 0) (D' := (0, 0, 0))
      (h := (by decide +kernel))).eq (by units) (by units)
  · rw [motor_div_translator_p2_ex x y, motor_div_translator_p2_ex x.real y.real]
    exact (near4 (s := ⟨A, 1, C⟩) ⟨hA, one_A, hC⟩
      (ga := (some (1, 0, 0), some (1, 0, 0))) (gb := (some (1, 0, 1), some (1, 0, 1))) (gc := (some (0, 0, 1), some (0, 0, 1))) (gd := (some (0, 0, 1), some (0, 0, 1)))
      (hx.1.eq (by deg) (by deg)) (hx.2.eq (by deg) (by deg)) (V4.Fits.eq hy (by deg) (by deg)) (V4.Fits.eq hy (by deg) (by deg)) (K := 13) (D := (1, 0, 1)) (K' := 13) (D' := (1, 0, 1))
      (h := (by decide +kernel))).eq (by units) (by units)

theorem plane_meet_plane_p1_ex (x : Plane F) (y : Plane F) : (x.meetPlane y).p1 =
    evalV (env x.p0 x.p0 y.p0 y.p0) ((Plane.mk X).meetPlane (Plane.mk Y)).p1 := by
  rfl

theorem plane_meet_plane_p2_ex (x : Plane F) (y : Plane F) : (x.meetPlane y).p2 =
    evalV (env x.p0 x.p0 y.p0 y.p0) ((Plane.mk X).meetPlane (Plane.mk Y)).p2 := by
  rfl

theorem C90_plane_meet_plane (hA : In2 A 24 24) (hB : In2 B 24 24) (hC : In2 C 20 20) {x : Plane F32} {y : Plane F32}
    (hx : x.Within A C) (hy : y.Within B C) :
    ((x.meetPlane y).p1).Near32 (x.real.meetPlane y.real).p1 0 (5 * (A * B)) ∧
    ((x.meetPlane y).p2).Near32 (x.real.meetPlane y.real).p2 0 (5 * (A * B * C)) := by
  constructor
  · rw [plane_meet_plane_p1_ex x y, plane_meet_plane_p1_ex x.real y.real]
    exact (near4 (s := ⟨A, B, C⟩) ⟨hA, hB, hC⟩
      (ga := (some (1, 0, 1), some (1, 0, 0))) (gb := (some (1, 0, 1), some (1, 0, 0))) (gc := (some (0, 1, 1), some (0, 1, 0))) (gd := (some (0, 1, 1), some (0, 1, 0)))
      (V4.Fits.eq hx (by deg) (by deg)) (V4.Fits.eq hx (by deg) (by deg)) (V4.Fits.eq hy (by deg) (by deg)) (V4.Fits.eq hy (by deg) (by deg)) (K := 0) (D := (0, 0, 0)) (K' := 5) (D' := (1, 1, 0))
      (h := (by decide +kernel))).eq (by units) (by units)
  · rw [plane_meet_plane_p2_ex x y, plane_meet_plane_p2_ex x.real y.real]
    exact (near4 (s := ⟨A, B, C⟩) ⟨hA, hB, hC⟩
      (ga := (some (1, 0, 1), some (1, 0, 0))) (gb := (some (1, 0, 1), some (1, 0, 0))) (gc := (some (0, 1, 1), some (0, 1, 0))) (gd := (some (0, 1, 1), some (0, 1, 0)))
      (V4.Fits.eq hx (by deg) (by deg)) (V4.Fits.eq hx (by deg) (by deg)) (V4.Fits.eq hy (by deg) (by deg)) (V4.Fits.eq hy (by deg) (by deg)) (K := 0) (D := (0, 0, 0)) (K' := 5) (D' := (1, 1, 1))
      (h := (by decide +kernel))).eq (by units) (by units)

theorem plane_meet_branch_p3_ex (isa : Isa) (x : Plane F) (y : Branch F) : (x.meetBranch isa y).p3 =
    evalV (env x.p0 x.p0 y.p1 y.p1) ((Plane.mk X).meetBranch isa (Branch.mk Y)).p3 := by
  cases isa <;> rfl

theorem C90_plane_meet_branch (hA : In2 A 24 24) (hB : In2 B 24 24) (hC : In2 C 20 20) (isa : Isa) {x : Plane F32} {y : Branch F32}
    (hx : x.Within A C) (hy : y.Within B) :
    ((x.meetBranch isa y).p3).Near32 (x.real.meetBranch isa y.real).p3 (9 * (A * B)) (3 * (A * B * C)) := by
  · rw [plane_meet_branch_p3_ex isa x y, plane_meet_branch_p3_ex isa x.real y.real]
    exact (near4 (s := ⟨A, B, C⟩) ⟨hA, hB, hC⟩
      (ga := (some (1, 0, 1), some (1, 0, 0))) (gb := (some (1, 0, 1), some (1, 0, 0))) (gc := (none, some (0, 1, 0))) (gd := (none, some (0, 1, 0)))
      (V4.Fits.eq hx (by deg) (by deg)) (V4.Fits.eq hx (by deg) (by deg)) (V4.Fits.eq hy (by deg) (by deg)) (V4.Fits.eq hy (by deg) (by deg)) (K := 9) (D := (1, 1, 0)) (K' := 3) (D' := (1, 1, 1))
      (h := (by cases isa <;> decide +kernel))).eq (by units) (by units)

theorem branch_meet_plane_p3_ex (isa : Isa) (x : Branch F) (y : Plane F) : (x.meetPlane isa y).p3 =
    evalV (env x.p1 x.p1 y.p0 y.p0) ((Branch.mk X).meetPlane isa (Plane.mk Y)).p3 := by
  cases isa <;> rfl

theorem C90_branch_meet_plane (hA : In2 A 24 24) (hB : In2 B 24 24) (hC : In2 C 20 20) (isa : Isa) {x : Branch F32} {y : Plane F32}
    (hx : x.Within A) (hy : y.Within B C) :
    ((x.meetPlane isa y).p3).Near32 (x.real.meetPlane isa y.real).p3 (9 * (A * B)) (3 * (A * B * C)) := by
  · rw [branch_meet_plane_p3_ex isa x y, branch_meet_plane_p3_ex isa x.real y.real]
    exact (near4 (s := ⟨A, B, C⟩) ⟨hA, hB, hC⟩
      (ga := (none, some (1, 0, 0))) (gb := (none, some (1, 0, 0))) (gc := (some (0, 1, 1), some (0, 1, 0))) (gd := (some (0, 1, 1), some (0, 1, 0)))
      (V4.Fits.eq hx (by deg) (by deg)) (V4.Fits.eq hx (by deg) (by deg)) (V4.Fits.eq hy (by deg) (by deg)) (V4.Fits.eq hy (by deg) (by deg)) (K := 9) (D := (1, 1, 0)) (K' := 3) (D' := (1, 1, 1))
      (h := (by cases isa <;> decide +kernel))).eq (by units) (by units)

theorem plane_meet_ideal_line_p3_ex (x : Plane F) (y : IdealLine F) : (x.meetIdealLine y).p3 =
    evalV (env x.p0 x.p0 y.p2 y.p2) ((Plane.mk X).meetIdealLine (IdealLine.mk Y)).p3 := by
  rfl

theorem C90_plane_meet_ideal_line (hA : In2 A 24 24) (hB : In2 B 24 24) (hC : In2 C 20 20) {x : Plane F32} {y : IdealLine F32}
    (hx : x.Within A C) (hy : y.Within B) :
    ((x.meetIdealLine y).p3).Near32 (x.real.meetIdealLine y.real).p3 0 (5 * (A * B)) := by
  · rw [plane_meet_ideal_line_p3_ex x y, plane_meet_ideal_line_p3_ex x.real y.real]
    exact (near4 (s := ⟨A, B, C⟩) ⟨hA, hB, hC⟩
      (ga := (some (1, 0, 1), some (1, 0, 0))) (gb := (some (1, 0, 1), some (1, 0, 0))) (gc := (none, some (0, 1, 0))) (gd := (none, some (0, 1, 0)))
      (V4.Fits.eq hx (by deg) (by deg)) (V4.Fits.eq hx (by deg) (by deg)) (V4.Fits.eq hy (by deg) (by deg)) (V4.Fits.eq hy (by deg) (by deg)) (K := 0) (D := (0, 0, 0)) (K' := 5) (D' := (1, 1, 0))
      (h := (by decide +kernel))).eq (by units) (by units)

theorem ideal_line_meet_plane_p3_ex (x : IdealLine F) (y : Plane F) : (x.meetPlane y).p3 =
    evalV (env x.p2 x.p2 y.p0 y.p0) ((IdealLine.mk X).meetPlane (Plane.mk Y)).p3 := by
  rfl

theorem C90_ideal_line_meet_plane (hA : In2 A 24 24) (hB : In2 B 24 24) (hC : In2 C 20 20) {x : IdealLine F32} {y : Plane F32}
    (hx : x.Within A) (hy : y.Within B C) :
    ((x.meetPlane y).p3).Near32 (x.real.meetPlane y.real).p3 0 (5 * (A * B)) := by
  · rw [ideal_line_meet_plane_p3_ex x y, ideal_line_meet_plane_p3_ex x.real y.real]
    exact (near4 (s := ⟨A, B, C⟩) ⟨hA, hB, hC⟩
      (ga := (none, some (1, 0, 0))) (gb := (none, some (1, 0, 0))) (gc := (some (0, 1, 1), some (0, 1, 0))) (gd := (some (0, 1, 1), some (0, 1, 0)))
      (V4.Fits.eq hx (by deg) (by deg)) (V4.Fits.eq hx (by deg) (by deg)) (V4.Fits.eq hy (by deg) (by deg)) (V4.Fits.eq hy (by deg) (by deg)) (K := 0) (D := (0, 0, 0)) (K' := 5) (D' := (1, 1, 0))
      (h := (by decide +kernel))).eq (by units) (by units)

theorem plane_meet_line_p3_ex (isa : Isa) (x : Plane F) (y : Line F) : (x.meetLine isa y).p3 =
    evalV (env x.p0 x.p0 y.p1 y.p2) ((Plane.mk X).meetLine isa (Line.mk Y Y')).p3 := by
  cases isa <;> rfl

theorem C90_plane_meet_line (hA : In2 A 24 24) (hB : In2 B 24 24) (hC : In2 C 20 20) (isa : Isa) {x : Plane F32} {y : Line F32}
    (hx : x.Within A C) (hy : y.Within B C) :
    ((x.meetLine isa y).p3).Near32 (x.real.meetLine isa y.real).p3 (9 * (A * B)) (10 * (A * B * C)) := by
  · rw [plane_meet_line_p3_ex isa x y, plane_meet_line_p3_ex isa x.real y.real]
    exact (near4 (s := ⟨A, B, C⟩) ⟨hA, hB, hC⟩
      (ga := (some (1, 0, 1), some (1, 0, 0))) (gb := (some (1, 0, 1), some (1, 0, 0))) (gc := (none, some (0, 1, 0))) (gd := (none, some (0, 1, 1)))
      (V4.Fits.eq hx (by deg) (by deg)) (V4.Fits.eq hx (by deg) (by deg)) (hy.1.eq (by deg) (by deg)) (hy.2.eq (by deg) (by deg)) (K := 9) (D := (1, 1, 0)) (K' := 10) (D' := (1, 1, 1))
      (h := (by cases isa <;> decide +kernel))).eq (by units) (by units)

theorem line_meet_plane_p3_ex (isa : Isa) (x : Line F) (y : Plane F) : (x.meetPlane isa y).p3 =
    evalV (env x.p1 x.p2 y.p0 y.p0) ((Line.mk X X').meetPlane isa (Plane.mk Y)).p3 := by
  cases isa <;> rfl

theorem C90_line_meet_plane (hA : In2 A 24 24) (hB : In2 B 24 24) (hC : In2 C 20 20) (isa : Isa) {x : Line F32} {y : Plane F32}
    (hx : x.Within A C) (hy : y.Within B C) :
    ((x.meetPlane isa y).p3).Near32 (x.real.meetPlane isa y.real).p3 (9 * (A * B)) (10 * (A * B * C)) := by
  · rw [line_meet_plane_p3_ex isa x y, line_meet_plane_p3_ex isa x.real y.real]
    exact (near4 (s := ⟨A, B, C⟩) ⟨hA, hB, hC⟩
      (ga := (none, some (1, 0, 0))) (gb := (none, some (1, 0, 1))) (gc := (some (0, 1, 1), some (0, 1, 0))) (gd := (some (0, 1, 1), some (0, 1, 0)))
      (hx.1.eq (by deg) (by deg)) (hx.2.eq (by deg) (by deg)) (V4.Fits.eq hy (by deg) (by deg)) (V4.Fits.eq hy (by deg) (by deg)) (K := 9) (D := (1, 1, 0)) (K' := 10) (D' := (1, 1, 1))
      (h := (by cases isa <;> decide +kernel))).eq (by units) (by units)

theorem plane_meet_point_p_ex (isa : Isa) (x : Plane F) (y : Point F) : (x.meetPoint isa y).p =
    eval (env x.p0 x.p0 y.p3 y.p3) ((Plane.mk X).meetPoint isa (Point.mk Y)).p := by
  cases isa <;> rfl

theorem plane_meet_point_q_ex (isa : Isa) (x : Plane F) (y : Point F) : (x.meetPoint isa y).q =
    eval (env x.p0 x.p0 y.p3 y.p3) ((Plane.mk X).meetPoint isa (Point.mk Y)).q := by
  cases isa <;> rfl

theorem C90_plane_meet_point (hA : In2 A 24 24) (hB : In2 B 24 24) (hC : In2 C 20 20) (isa : Isa) {x : Plane F32} {y : Point F32}
    (hx : x.Within A C) (hy : y.Within B C) :
    Near32 (x.meetPoint isa y).p (x.real.meetPoint isa y.real).p 0 ∧
    Near32 (x.meetPoint isa y).q (x.real.meetPoint isa y.real).q (13 * (A * B * C)) := by
  constructor
  · rw [plane_meet_point_p_ex isa x y, plane_meet_point_p_ex isa x.real y.real]
    exact (near1 (s := ⟨A, B, C⟩) ⟨hA, hB, hC⟩
      (ga := (some (1, 0, 1), some (1, 0, 0))) (gb := (some (1, 0, 1), some (1, 0, 0))) (gc := (some (0, 1, 0), some (0, 1, 1))) (gd := (some (0, 1, 0), some (0, 1, 1)))
      (V4.Fits.eq hx (by deg) (by deg)) (V4.Fits.eq hx (by deg) (by deg)) (V4.Fits.eq hy (by deg) (by deg)) (V4.Fits.eq hy (by deg) (by deg)) (K := 0) (D := (0, 0, 0))
      (h := (by cases isa <;> decide +kernel))).eq (by units)
  · rw [plane_meet_point_q_ex isa x y, plane_meet_point_q_ex isa x.real y.real]
    exact (near1 (s := ⟨A, B, C⟩) ⟨hA, hB, hC⟩
      (ga := (some (1, 0, 1), some (1, 0, 0))) (gb := (some (1, 0, 1), some (1, 0, 0))) (gc := (some (0, 1, 0), some (0, 1, 1))) (gd := (some (0, 1, 0), some (0, 1, 1)))
      (V4.Fits.eq hx (by deg) (by deg)) (V4.Fits.eq hx (by deg) (by deg)) (V4.Fits.eq hy (by deg) (by deg)) (V4.Fits.eq hy (by deg) (by deg)) (K := 13) (D := (1, 1, 1))
      (h := (by cases isa <;> decide +kernel))).eq (by units)

theorem point_meet_plane_p_ex (isa : Isa) (x : Point F) (y : Plane F) : (x.meetPlane isa y).p =
    eval (env x.p3 x.p3 y.p0 y.p0) ((Point.mk X).meetPlane isa (Plane.mk Y)).p := by
  cases isa <;> rfl

theorem point_meet_plane_q_ex (isa : Isa) (x : Point F) (y : Plane F) : (x.meetPlane isa y).q =
    eval (env x.p3 x.p3 y.p0 y.p0) ((Point.mk X).meetPlane isa (Plane.mk Y)).q := by
  cases isa <;> rfl

theorem C90_point_meet_plane (hA : In2 A 24 24) (hB : In2 B 24 24) (hC : In2 C 20 20) (isa : Isa) {x : Point F32} {y : Plane F32}
    (hx : x.Within A C) (hy : y.Within B C) :
    Near32 (x.meetPlane isa y).p (x.real.meetPlane isa y.real).p 0 ∧
    Near32 (x.meetPlane isa y).q (x.real.meetPlane isa y.real).q (13 * (A * B * C)) := by
  constructor
  · rw [point_meet_plane_p_ex isa x y, point_meet_plane_p_ex isa x.real y.real]
    exact (near1 (s := ⟨A, B, C⟩) ⟨hA, hB, hC⟩
      (ga := (some (1, 0, 0), some (1, 0, 1))) (gb := (some (1, 0, 0), some (1, 0, 1))) (gc := (some (0, 1, 1), some (0, 1, 0))) (gd := (some (0, 1, 1), some (0, 1, 0)))
      (V4.Fits.eq hx (by deg) (by deg)) (V4.Fits.eq hx (by deg) (by deg)) (V4.Fits.eq hy (by deg) (by deg)) (V4.Fits.eq hy (by deg) (by deg)) (K := 0) (D := (0, 0, 0))
      (h := (by cases isa <;> decide +kernel))).eq (by units)
  · rw [point_meet_plane_q_ex isa x y, point_meet_plane_q_ex isa x.real y.real]
    exact (near1 (s := ⟨A, B, C⟩) ⟨hA, hB, hC⟩
      (ga := (some (1, 0, 0), some (1, 0, 1))) (gb := (some (1, 0, 0), some (1, 0, 1))) (gc := (some (0, 1, 1), some (0, 1, 0))) (gd := (some (0, 1, 1), some (0, 1, 0)))
      (V4.Fits.eq hx (by deg) (by deg)) (V4.Fits.eq hx (by deg) (by deg)) (V4.Fits.eq hy (by deg) (by deg)) (V4.Fits.eq hy (by deg) (by deg)) (K := 13) (D := (1, 1, 1))
      (h := (by cases isa <;> decide +kernel))).eq (by units)

theorem branch_meet_ideal_line_p_ex (x : Branch F) (y : IdealLine F) : (x.meetIdealLine y).p =
    eval (env x.p1 x.p1 y.p2 y.p2) ((Branch.mk X).meetIdealLine (IdealLine.mk Y)).p := by
  rfl

theorem branch_meet_ideal_line_q_ex (x : Branch F) (y : IdealLine F) : (x.meetIdealLine y).q =
    eval (env x.p1 x.p1 y.p2 y.p2) ((Branch.mk X).meetIdealLine (IdealLine.mk Y)).q := by
  rfl

theorem C90_branch_meet_ideal_line (hA : In2 A 24 24) (hB : In2 B 24 24) {x : Branch F32} {y : IdealLine F32}
    (hx : x.Within A) (hy : y.Within B) :
    Near32 (x.meetIdealLine y).p (x.real.meetIdealLine y.real).p 0 ∧
    Near32 (x.meetIdealLine y).q (x.real.meetIdealLine y.real).q (9 * (A * B)) := by
  constructor
  · rw [branch_meet_ideal_line_p_ex x y, branch_meet_ideal_line_p_ex x.real y.real]
    exact (near1 (s := ⟨A, B, 1⟩) ⟨hA, hB, one_C⟩
      (ga := (none, some (1, 0, 0))) (gb := (none, some (1, 0, 0))) (gc := (none, some (0, 1, 0))) (gd := (none, some (0, 1, 0)))
      (V4.Fits.eq hx (by deg) (by deg)) (V4.Fits.eq hx (by deg) (by deg)) (V4.Fits.eq hy (by deg) (by deg)) (V4.Fits.eq hy (by deg) (by deg)) (K := 0) (D := (0, 0, 0))
      (h := (by decide +kernel))).eq (by units)
  · rw [branch_meet_ideal_line_q_ex x y, branch_meet_ideal_line_q_ex x.real y.real]
    exact (near1 (s := ⟨A, B, 1⟩) ⟨hA, hB, one_C⟩
      (ga := (none, some (1, 0, 0))) (gb := (none, some (1, 0, 0))) (gc := (none, some (0, 1, 0))) (gd := (none, some (0, 1, 0)))
      (V4.Fits.eq hx (by deg) (by deg)) (V4.Fits.eq hx (by deg) (by deg)) (V4.Fits.eq hy (by deg) (by deg)) (V4.Fits.eq hy (by deg) (by deg)) (K := 9) (D := (1, 1, 0))
      (h := (by decide +kernel))).eq (by units)

theorem ideal_line_meet_branch_p_ex (x : IdealLine F) (y : Branch F) : (x.meetBranch y).p =
    eval (env x.p2 x.p2 y.p1 y.p1) ((IdealLine.mk X).meetBranch (Branch.mk Y)).p := by
  rfl

theorem ideal_line_meet_branch_q_ex (x : IdealLine F) (y : Branch F) : (x.meetBranch y).q =
    eval (env x.p2 x.p2 y.p1 y.p1) ((IdealLine.mk X).meetBranch (Branch.mk Y)).q := by
  rfl

theorem C90_ideal_line_meet_branch (hA : In2 A 24 24) (hB : In2 B 24 24) {x : IdealLine F32} {y : Branch F32}
    (hx : x.Within A) (hy : y.Within B) :
    Near32 (x.meetBranch y).p (x.real.meetBranch y.real).p 0 ∧
    Near32 (x.meetBranch y).q (x.real.meetBranch y.real).q (9 * (A * B)) := by
  constructor
  · rw [ideal_line_meet_branch_p_ex x y, ideal_line_meet_branch_p_ex x.real y.real]
    exact (near1 (s := ⟨A, B, 1⟩) ⟨hA, hB, one_C⟩
      (ga := (none, some (1, 0, 0))) (gb := (none, some (1, 0, 0))) (gc := (none, some (0, 1, 0))) (gd := (none, some (0, 1, 0)))
      (V4.Fits.eq hx (by deg) (by deg)) (V4.Fits.eq hx (by deg) (by deg)) (V4.Fits.eq hy (by deg) (by deg)) (V4.Fits.eq hy (by deg) (by deg)) (K := 0) (D := (0, 0, 0))
      (h := (by decide +kernel))).eq (by units)
  · rw [ideal_line_meet_branch_q_ex x y, ideal_line_meet_branch_q_ex x.real y.real]
    exact (near1 (s := ⟨A, B, 1⟩) ⟨hA, hB, one_C⟩
      (ga := (none, some (1, 0, 0))) (gb := (none, some (1, 0, 0))) (gc := (none, some (0, 1, 0))) (gd := (none, some (0, 1, 0)))
      (V4.Fits.eq hx (by deg) (by deg)) (V4.Fits.eq hx (by deg) (by deg)) (V4.Fits.eq hy (by deg) (by deg)) (V4.Fits.eq hy (by deg) (by deg)) (K := 9) (D := (1, 1, 0))
      (h := (by decide +kernel))).eq (by units)

theorem line_meet_line_p_ex (x : Line F) (y : Line F) : (x.meetLine y).p =
    eval (env x.p1 x.p2 y.p1 y.p2) ((Line.mk X X').meetLine (Line.mk Y Y')).p := by
  rfl

theorem line_meet_line_q_ex (x : Line F) (y : Line F) : (x.meetLine y).q =
    eval (env x.p1 x.p2 y.p1 y.p2) ((Line.mk X X').meetLine (Line.mk Y Y')).q := by
  rfl

theorem C90_line_meet_line (hA : In2 A 24 24) (hB : In2 B 24 24) (hC : In2 C 20 20) {x : Line F32} {y : Line F32}
    (hx : x.Within A C) (hy : y.Within B C) :
    Near32 (x.meetLine y).p (x.real.meetLine y.real).p 0 ∧
    Near32 (x.meetLine y).q (x.real.meetLine y.real).q (23 * (A * B * C)) := by
  constructor
  · rw [line_meet_line_p_ex x y, line_meet_line_p_ex x.real y.real]
    exact (near1 (s := ⟨A, B, C⟩) ⟨hA, hB, hC⟩
      (ga := (none, some (1, 0, 0))) (gb := (none, some (1, 0, 1))) (gc := (none, some (0, 1, 0))) (gd := (none, some (0, 1, 1)))
      (hx.1.eq (by deg) (by deg)) (hx.2.eq (by deg) (by deg)) (hy.1.eq (by deg) (by deg)) (hy.2.eq (by deg) (by deg)) (K := 0) (D := (0, 0, 0))
      (h := (by decide +kernel))).eq (by units)
  · rw [line_meet_line_q_ex x y, line_meet_line_q_ex x.real y.real]
    exact (near1 (s := ⟨A, B, C⟩) ⟨hA, hB, hC⟩
      (ga := (none, some (1, 0, 0))) (gb := (none, some (1, 0, 1))) (gc := (none, some (0, 1, 0))) (gd := (none, some (0, 1, 1)))
      (hx.1.eq (by deg) (by deg)) (hx.2.eq (by deg) (by deg)) (hy.1.eq (by deg) (by deg)) (hy.2.eq (by deg) (by deg)) (K := 23) (D := (1, 1, 1))
      (h := (by decide +kernel))).eq (by units)

theorem line_meet_ideal_line_p_ex (x : Line F) (y : IdealLine F) : (x.meetIdealLine y).p =
    eval (env x.p1 x.p2 y.p2 y.p2) ((Line.mk X X').meetIdealLine (IdealLine.mk Y)).p := by
  rfl

theorem line_meet_ideal_line_q_ex (x : Line F) (y : IdealLine F) : (x.meetIdealLine y).q =
    eval (env x.p1 x.p2 y.p2 y.p2) ((Line.mk X X').meetIdealLine (IdealLine.mk Y)).q := by
  rfl

theorem C90_line_meet_ideal_line (hA : In2 A 24 24) (hB : In2 B 24 24) (hC : In2 C 20 20) {x : Line F32} {y : IdealLine F32}
    (hx : x.Within A C) (hy : y.Within B) :
    Near32 (x.meetIdealLine y).p (x.real.meetIdealLine y.real).p 0 ∧
    Near32 (x.meetIdealLine y).q (x.real.meetIdealLine y.real).q (9 * (A * B)) := by
  constructor
  · rw [line_meet_ideal_line_p_ex x y, line_meet_ideal_line_p_ex x.real y.real]
    exact (near1 (s := ⟨A, B, C⟩) ⟨hA, hB, hC⟩
      (ga := (none, some (1, 0, 0))) (gb := (none, some (1, 0, 1))) (gc := (none, some (0, 1, 0))) (gd := (none, some (0, 1, 0)))
      (hx.1.eq (by deg) (by deg)) (hx.2.eq (by deg) (by deg)) (V4.Fits.eq hy (by deg) (by deg)) (V4.Fits.eq hy (by deg) (by deg)) (K := 0) (D := (0, 0, 0))
      (h := (by decide +kernel))).eq (by units)
  · rw [line_meet_ideal_line_q_ex x y, line_meet_ideal_line_q_ex x.real y.real]
    exact (near1 (s := ⟨A, B, C⟩) ⟨hA, hB, hC⟩
      (ga := (none, some (1, 0, 0))) (gb := (none, some (1, 0, 1))) (gc := (none, some (0, 1, 0))) (gd := (none, some (0, 1, 0)))
      (hx.1.eq (by deg) (by deg)) (hx.2.eq (by deg) (by deg)) (V4.Fits.eq hy (by deg) (by deg)) (V4.Fits.eq hy (by deg) (by deg)) (K := 9) (D := (1, 1, 0))
      (h := (by decide +kernel))).eq (by units)

theorem ideal_line_meet_line_p_ex (x : IdealLine F) (y : Line F) : (x.meetLine y).p =
    eval (env x.p2 x.p2 y.p1 y.p2) ((IdealLine.mk X).meetLine (Line.mk Y Y')).p := by
  rfl

theorem ideal_line_meet_line_q_ex (x : IdealLine F) (y : Line F) : (x.meetLine y).q =
    eval (env x.p2 x.p2 y.p1 y.p2) ((IdealLine.mk X).meetLine (Line.mk Y Y')).q := by
  rfl

theorem C90_ideal_line_meet_line (hA : In2 A 24 24) (hB : In2 B 24 24) (hC : In2 C 20 20) {x : IdealLine F32} {y : Line F32}
    (hx : x.Within A) (hy : y.Within B C) :
    Near32 (x.meetLine y).p (x.real.meetLine y.real).p 0 ∧
    Near32 (x.meetLine y).q (x.real.meetLine y.real).q (9 * (A * B)) := by
  constructor
  · rw [ideal_line_meet_line_p_ex x y, ideal_line_meet_line_p_ex x.real y.real]
    exact (near1 (s := ⟨A, B, C⟩) ⟨hA, hB, hC⟩
      (ga := (none, some (1, 0, 0))) (gb := (none, some (1, 0, 0))) (gc := (none, some (0, 1, 0))) (gd := (none, some (0, 1, 1)))
      (V4.Fits.eq hx (by deg) (by deg)) (V4.Fits.eq hx (by deg) (by deg)) (hy.1.eq (by deg) (by deg)) (hy.2.eq (by deg) (by deg)) (K := 0) (D := (0, 0, 0))
      (h := (by decide +kernel))).eq (by units)
  · rw [ideal_line_meet_line_q_ex x y, ideal_line_meet_line_q_ex x.real y.real]
    exact (near1 (s := ⟨A, B, C⟩) ⟨hA, hB, hC⟩
      (ga := (none, some (1, 0, 0))) (gb := (none, some (1, 0, 0))) (gc := (none, some (0, 1, 0))) (gd := (none, some (0, 1, 1)))
      (V4.Fits.eq hx (by deg) (by deg)) (V4.Fits.eq hx (by deg) (by deg)) (hy.1.eq (by deg) (by deg)) (hy.2.eq (by deg) (by deg)) (K := 9) (D := (1, 1, 0))
      (h := (by decide +kernel))).eq (by units)

theorem line_meet_branch_p_ex (x : Line F) (y : Branch F) : (x.meetBranch y).p =
    eval (env x.p1 x.p2 y.p1 y.p1) ((Line.mk X X').meetBranch (Branch.mk Y)).p := by
  rfl

theorem line_meet_branch_q_ex (x : Line F) (y : Branch F) : (x.meetBranch y).q =
    eval (env x.p1 x.p2 y.p1 y.p1) ((Line.mk X X').meetBranch (Branch.mk Y)).q := by
  rfl

theorem C90_line_meet_branch (hA : In2 A 24 24) (hB : In2 B 24 24) (hC : In2 C 20 20) {x : Line F32} {y : Branch F32}
    (hx : x.Within A C) (hy : y.Within B) :
    Near32 (x.meetBranch y).p (x.real.meetBranch y.real).p 0 ∧
    Near32 (x.meetBranch y).q (x.real.meetBranch y.real).q (9 * (A * B * C)) := by
  constructor
  · rw [line_meet_branch_p_ex x y, line_meet_branch_p_ex x.real y.real]
    exact (near1 (s := ⟨A, B, C⟩) ⟨hA, hB, hC⟩
      (ga := (none, some (1, 0, 0))) (gb := (none, some (1, 0, 1))) (gc := (none, some (0, 1, 0))) (gd := (none, some (0, 1, 0)))
      (hx.1.eq (by deg) (by deg)) (hx.2.eq (by deg) (by deg)) (V4.Fits.eq hy (by deg) (by deg)) (V4.Fits.eq hy (by deg) (by deg)) (K := 0) (D := (0, 0, 0))
      (h := (by decide +kernel))).eq (by units)
  · rw [line_meet_branch_q_ex x y, line_meet_branch_q_ex x.real y.real]
    exact (near1 (s := ⟨A, B, C⟩) ⟨hA, hB, hC⟩
      (ga := (none, some (1, 0, 0))) (gb := (none, some (1, 0, 1))) (gc := (none, some (0, 1, 0))) (gd := (none, some (0, 1, 0)))
      (hx.1.eq (by deg) (by deg)) (hx.2.eq (by deg) (by deg)) (V4.Fits.eq hy (by deg) (by deg)) (V4.Fits.eq hy (by deg) (by deg)) (K := 9) (D := (1, 1, 1))
      (h := (by decide +kernel))).eq (by units)

theorem branch_meet_line_p_ex (x : Branch F) (y : Line F) : (x.meetLine y).p =
    eval (env x.p1 x.p1 y.p1 y.p2) ((Branch.mk X).meetLine (Line.mk Y Y')).p := by
  rfl

theorem branch_meet_line_q_ex (x : Branch F) (y : Line F) : (x.meetLine y).q =
    eval (env x.p1 x.p1 y.p1 y.p2) ((Branch.mk X).meetLine (Line.mk Y Y')).q := by
  rfl

theorem C90_branch_meet_line (hA : In2 A 24 24) (hB : In2 B 24 24) (hC : In2 C 20 20) {x : Branch F32} {y : Line F32}
    (hx : x.Within A) (hy : y.Within B C) :
    Near32 (x.meetLine y).p (x.real.meetLine y.real).p 0 ∧
    Near32 (x.meetLine y).q (x.real.meetLine y.real).q (9 * (A * B * C)) := by
  constructor
  · rw [branch_meet_line_p_ex x y, branch_meet_line_p_ex x.real y.real]
    exact (near1 (s := ⟨A, B, C⟩) ⟨hA, hB, hC⟩
      (ga := (none, some (1, 0, 0))) (gb := (none, some (1, 0, 0))) (gc := (none, some (0, 1, 0))) (gd := (none, some (0, 1, 1)))
      (V4.Fits.eq hx (by deg) (by deg)) (V4.Fits.eq hx (by deg) (by deg)) (hy.1.eq (by deg) (by deg)) (hy.2.eq (by deg) (by deg)) (K := 0) (D := (0, 0, 0))
      (h := (by decide +kernel))).eq (by units)
  · rw [branch_meet_line_q_ex x y, branch_meet_line_q_ex x.real y.real]
    exact (near1 (s := ⟨A, B, C⟩) ⟨hA, hB, hC⟩
      (ga := (none, some (1, 0, 0))) (gb := (none, some (1, 0, 0))) (gc := (none, some (0, 1, 0))) (gd := (none, some (0, 1, 1)))
      (V4.Fits.eq hx (by deg) (by deg)) (V4.Fits.eq hx (by deg) (by deg)) (hy.1.eq (by deg) (by deg)) (hy.2.eq (by deg) (by deg)) (K := 9) (D := (1, 1, 1))
      (h := (by decide +kernel))).eq (by units)

theorem point_join_point_p1_ex (x : Point F) (y : Point F) : (x.joinPoint y).p1 =
    evalV (env x.p3 x.p3 y.p3 y.p3) ((Point.mk X).joinPoint (Point.mk Y)).p1 := by
  rfl

theorem point_join_point_p2_ex (x : Point F) (y : Point F) : (x.joinPoint y).p2 =
    evalV (env x.p3 x.p3 y.p3 y.p3) ((Point.mk X).joinPoint (Point.mk Y)).p2 := by
  rfl

theorem C90_point_join_point (hA : In2 A 24 24) (hB : In2 B 24 24) (hC : In2 C 20 20) {x : Point F32} {y : Point F32}
    (hx : x.Within A C) (hy : y.Within B C) :
    ((x.joinPoint y).p1).Near32 (x.real.joinPoint y.real).p1 0 (5 * (A * B * C)) ∧
    ((x.joinPoint y).p2).Near32 (x.real.joinPoint y.real).p2 0 (5 * (A * B * C ^ 2)) := by
  constructor
  · rw [point_join_point_p1_ex x y, point_join_point_p1_ex x.real y.real]
    exact (near4 (s := ⟨A, B, C⟩) ⟨hA, hB, hC⟩
      (ga := (some (1, 0, 0), some (1, 0, 1))) (gb := (some (1, 0, 0), some (1, 0, 1))) (gc := (some (0, 1, 0), some (0, 1, 1))) (gd := (some (0, 1, 0), some (0, 1, 1)))
      (V4.Fits.eq hx (by deg) (by deg)) (V4.Fits.eq hx (by deg) (by deg)) (V4.Fits.eq hy (by deg) (by deg)) (V4.Fits.eq hy (by deg) (by deg)) (K := 0) (D := (0, 0, 0)) (K' := 5) (D' := (1, 1, 1))
      (h := (by decide +kernel))).eq (by units) (by units)
  · rw [point_join_point_p2_ex x y, point_join_point_p2_ex x.real y.real]
    exact (near4 (s := ⟨A, B, C⟩) ⟨hA, hB, hC⟩
      (ga := (some (1, 0, 0), some (1, 0, 1))) (gb := (some (1, 0, 0), some (1, 0, 1))) (gc := (some (0, 1, 0), some (0, 1, 1))) (gd := (some (0, 1, 0), some (0, 1, 1)))
      (V4.Fits.eq hx (by deg) (by deg)) (V4.Fits.eq hx (by deg) (by deg)) (V4.Fits.eq hy (by deg) (by deg)) (V4.Fits.eq hy (by deg) (by deg)) (K := 0) (D := (0, 0, 0)) (K' := 5) (D' := (1, 1, 2))
      (h := (by decide +kernel))).eq (by units) (by units)

theorem point_join_line_p0_ex (isa : Isa) (x : Point F) (y : Line F) : (x.joinLine isa y).p0 =
    evalV (env x.p3 x.p3 y.p1 y.p2) ((Point.mk X).joinLine isa (Line.mk Y Y')).p0 := by
  cases isa <;> rfl

theorem C90_point_join_line (hA : In2 A 24 24) (hB : In2 B 24 24) (hC : In2 C 20 20) (isa : Isa) {x : Point F32} {y : Line F32}
    (hx : x.Within A C) (hy : y.Within B C) :
    ((x.joinLine isa y).p0).Near32 (x.real.joinLine isa y.real).p0 (9 * (A * B * C ^ 2)) (10 * (A * B * C)) := by
  · rw [point_join_line_p0_ex isa x y, point_join_line_p0_ex isa x.real y.real]
    exact (near4 (s := ⟨A, B, C⟩) ⟨hA, hB, hC⟩
      (ga := (some (1, 0, 0), some (1, 0, 1))) (gb := (some (1, 0, 0), some (1, 0, 1))) (gc := (none, some (0, 1, 0))) (gd := (none, some (0, 1, 1)))
      (V4.Fits.eq hx (by deg) (by deg)) (V4.Fits.eq hx (by deg) (by deg)) (hy.1.eq (by deg) (by deg)) (hy.2.eq (by deg) (by deg)) (K := 9) (D := (1, 1, 2)) (K' := 10) (D' := (1, 1, 1))
      (h := (by cases isa <;> decide +kernel))).eq (by units) (by units)

theorem line_join_point_p0_ex (isa : Isa) (x : Line F) (y : Point F) : (x.joinPoint isa y).p0 =
    evalV (env x.p1 x.p2 y.p3 y.p3) ((Line.mk X X').joinPoint isa (Point.mk Y)).p0 := by
  cases isa <;> rfl

theorem C90_line_join_point (hA : In2 A 24 24) (hB : In2 B 24 24) (hC : In2 C 20 20) (isa : Isa) {x : Line F32} {y : Point F32}
    (hx : x.Within A C) (hy : y.Within B C) :
    ((x.joinPoint isa y).p0).Near32 (x.real.joinPoint isa y.real).p0 (9 * (A * B * C ^ 2)) (10 * (A * B * C)) := by
  · rw [line_join_point_p0_ex isa x y, line_join_point_p0_ex isa x.real y.real]
    exact (near4 (s := ⟨A, B, C⟩) ⟨hA, hB, hC⟩
      (ga := (none, some (1, 0, 0))) (gb := (none, some (1, 0, 1))) (gc := (some (0, 1, 0), some (0, 1, 1))) (gd := (some (0, 1, 0), some (0, 1, 1)))
      (hx.1.eq (by deg) (by deg)) (hx.2.eq (by deg) (by deg)) (V4.Fits.eq hy (by deg) (by deg)) (V4.Fits.eq hy (by deg) (by deg)) (K := 9) (D := (1, 1, 2)) (K' := 10) (D' := (1, 1, 1))
      (h := (by cases isa <;> decide +kernel))).eq (by units) (by units)

theorem point_join_branch_p0_ex (x : Point F) (y : Branch F) : (x.joinBranch y).p0 =
    evalV (env x.p3 x.p3 y.p1 y.p1) ((Point.mk X).joinBranch (Branch.mk Y)).p0 := by
  rfl

theorem C90_point_join_branch (hA : In2 A 24 24) (hB : In2 B 24 24) (hC : In2 C 20 20) {x : Point F32} {y : Branch F32}
    (hx : x.Within A C) (hy : y.Within B) :
    ((x.joinBranch y).p0).Near32 (x.real.joinBranch y.real).p0 0 (5 * (A * B * C)) := by
  · rw [point_join_branch_p0_ex x y, point_join_branch_p0_ex x.real y.real]
    exact (near4 (s := ⟨A, B, C⟩) ⟨hA, hB, hC⟩
      (ga := (some (1, 0, 0), some (1, 0, 1))) (gb := (some (1, 0, 0), some (1, 0, 1))) (gc := (none, some (0, 1, 0))) (gd := (none, some (0, 1, 0)))
      (V4.Fits.eq hx (by deg) (by deg)) (V4.Fits.eq hx (by deg) (by deg)) (V4.Fits.eq hy (by deg) (by deg)) (V4.Fits.eq hy (by deg) (by deg)) (K := 0) (D := (0, 0, 0)) (K' := 5) (D' := (1, 1, 1))
      (h := (by decide +kernel))).eq (by units) (by units)

theorem branch_join_point_p0_ex (x : Branch F) (y : Point F) : (x.joinPoint y).p0 =
    evalV (env x.p1 x.p1 y.p3 y.p3) ((Branch.mk X).joinPoint (Point.mk Y)).p0 := by
  rfl

theorem C90_branch_join_point (hA : In2 A 24 24) (hB : In2 B 24 24) (hC : In2 C 20 20) {x : Branch F32} {y : Point F32}
    (hx : x.Within A) (hy : y.Within B C) :
    ((x.joinPoint y).p0).Near32 (x.real.joinPoint y.real).p0 0 (5 * (A * B * C)) := by
  · rw [branch_join_point_p0_ex x y, branch_join_point_p0_ex x.real y.real]
    exact (near4 (s := ⟨A, B, C⟩) ⟨hA, hB, hC⟩
      (ga := (none, some (1, 0, 0))) (gb := (none, some (1, 0, 0))) (gc := (some (0, 1, 0), some (0, 1, 1))) (gd := (some (0, 1, 0), some (0, 1, 1)))
      (V4.Fits.eq hx (by deg) (by deg)) (V4.Fits.eq hx (by deg) (by deg)) (V4.Fits.eq hy (by deg) (by deg)) (V4.Fits.eq hy (by deg) (by deg)) (K := 0) (D := (0, 0, 0)) (K' := 5) (D' := (1, 1, 1))
      (h := (by decide +kernel))).eq (by units) (by units)

theorem point_join_ideal_line_p0_ex (isa : Isa) (x : Point F) (y : IdealLine F) : (x.joinIdealLine isa y).p0 =
    evalV (env x.p3 x.p3 y.p2 y.p2) ((Point.mk X).joinIdealLine isa (IdealLine.mk Y)).p0 := by
  cases isa <;> rfl

theorem C90_point_join_ideal_line (hA : In2 A 24 24) (hB : In2 B 24 24) (hC : In2 C 20 20) (isa : Isa) {x : Point F32} {y : IdealLine F32}
    (hx : x.Within A C) (hy : y.Within B) :
    ((x.joinIdealLine isa y).p0).Near32 (x.real.joinIdealLine isa y.real).p0 (9 * (A * B * C)) (3 * (A * B)) := by
  · rw [point_join_ideal_line_p0_ex isa x y, point_join_ideal_line_p0_ex isa x.real y.real]
    exact (near4 (s := ⟨A, B, C⟩) ⟨hA, hB, hC⟩
      (ga := (some (1, 0, 0), some (1, 0, 1))) (gb := (some (1, 0, 0), some (1, 0, 1))) (gc := (none, some (0, 1, 0))) (gd := (none, some (0, 1, 0)))
      (V4.Fits.eq hx (by deg) (by deg)) (V4.Fits.eq hx (by deg) (by deg)) (V4.Fits.eq hy (by deg) (by deg)) (V4.Fits.eq hy (by deg) (by deg)) (K := 9) (D := (1, 1, 1)) (K' := 3) (D' := (1, 1, 0))
      (h := (by cases isa <;> decide +kernel))).eq (by units) (by units)

theorem ideal_line_join_point_p0_ex (isa : Isa) (x : IdealLine F) (y : Point F) : (x.joinPoint isa y).p0 =
    evalV (env x.p2 x.p2 y.p3 y.p3) ((IdealLine.mk X).joinPoint isa (Point.mk Y)).p0 := by
  cases isa <;> rfl

theorem C90_ideal_line_join_point (hA : In2 A 24 24) (hB : In2 B 24 24) (hC : In2 C 20 20) (isa : Isa) {x : IdealLine F32} {y : Point F32}
    (hx : x.Within A) (hy : y.Within B C) :
    ((x.joinPoint isa y).p0).Near32 (x.real.joinPoint isa y.real).p0 (9 * (A * B * C)) (3 * (A * B)) := by
  · rw [ideal_line_join_point_p0_ex isa x y, ideal_line_join_point_p0_ex isa x.real y.real]
    exact (near4 (s := ⟨A, B, C⟩) ⟨hA, hB, hC⟩
      (ga := (none, some (1, 0, 0))) (gb := (none, some (1, 0, 0))) (gc := (some (0, 1, 0), some (0, 1, 1))) (gd := (some (0, 1, 0), some (0, 1, 1)))
      (V4.Fits.eq hx (by deg) (by deg)) (V4.Fits.eq hx (by deg) (by deg)) (V4.Fits.eq hy (by deg) (by deg)) (V4.Fits.eq hy (by deg) (by deg)) (K := 9) (D := (1, 1, 1)) (K' := 3) (D' := (1, 1, 0))
      (h := (by cases isa <;> decide +kernel))).eq (by units) (by units)

theorem plane_join_point_p_ex (isa : Isa) (x : Plane F) (y : Point F) : (x.joinPoint isa y).p =
    eval (env x.p0 x.p0 y.p3 y.p3) ((Plane.mk X).joinPoint isa (Point.mk Y)).p := by
  cases isa <;> rfl

theorem plane_join_point_q_ex (isa : Isa) (x : Plane F) (y : Point F) : (x.joinPoint isa y).q =
    eval (env x.p0 x.p0 y.p3 y.p3) ((Plane.mk X).joinPoint isa (Point.mk Y)).q := by
  cases isa <;> rfl

theorem C90_plane_join_point (hA : In2 A 24 24) (hB : In2 B 24 24) (hC : In2 C 20 20) (isa : Isa) {x : Plane F32} {y : Point F32}
    (hx : x.Within A C) (hy : y.Within B C) :
    Near32 (x.joinPoint isa y).p (x.real.joinPoint isa y.real).p (13 * (A * B * C)) ∧
    Near32 (x.joinPoint isa y).q (x.real.joinPoint isa y.real).q 0 := by
  constructor
  · rw [plane_join_point_p_ex isa x y, plane_join_point_p_ex isa x.real y.real]
    exact (near1 (s := ⟨A, B, C⟩) ⟨hA, hB, hC⟩
      (ga := (some (1, 0, 1), some (1, 0, 0))) (gb := (some (1, 0, 1), some (1, 0, 0))) (gc := (some (0, 1, 0), some (0, 1, 1))) (gd := (some (0, 1, 0), some (0, 1, 1)))
      (V4.Fits.eq hx (by deg) (by deg)) (V4.Fits.eq hx (by deg) (by deg)) (V4.Fits.eq hy (by deg) (by deg)) (V4.Fits.eq hy (by deg) (by deg)) (K := 13) (D := (1, 1, 1))
      (h := (by cases isa <;> decide +kernel))).eq (by units)
  · rw [plane_join_point_q_ex isa x y, plane_join_point_q_ex isa x.real y.real]
    exact (near1 (s := ⟨A, B, C⟩) ⟨hA, hB, hC⟩
      (ga := (some (1, 0, 1), some (1, 0, 0))) (gb := (some (1, 0, 1), some (1, 0, 0))) (gc := (some (0, 1, 0), some (0, 1, 1))) (gd := (some (0, 1, 0), some (0, 1, 1)))
      (V4.Fits.eq hx (by deg) (by deg)) (V4.Fits.eq hx (by deg) (by deg)) (V4.Fits.eq hy (by deg) (by deg)) (V4.Fits.eq hy (by deg) (by deg)) (K := 0) (D := (0, 0, 0))
      (h := (by cases isa <;> decide +kernel))).eq (by units)

theorem point_join_plane_p_ex (isa : Isa) (x : Point F) (y : Plane F) : (x.joinPlane isa y).p =
    eval (env x.p3 x.p3 y.p0 y.p0) ((Point.mk X).joinPlane isa (Plane.mk Y)).p := by
  cases isa <;> rfl

theorem point_join_plane_q_ex (isa : Isa) (x : Point F) (y : Plane F) : (x.joinPlane isa y).q =
    eval (env x.p3 x.p3 y.p0 y.p0) ((Point.mk X).joinPlane isa (Plane.mk Y)).q := by
  cases isa <;> rfl

theorem C90_point_join_plane (hA : In2 A 24 24) (hB : In2 B 24 24) (hC : In2 C 20 20) (isa : Isa) {x : Point F32} {y : Plane F32}
    (hx : x.Within A C) (hy : y.Within B C) :
    Near32 (x.joinPlane isa y).p (x.real.joinPlane isa y.real).p (13 * (A * B * C)) ∧
    Near32 (x.joinPlane isa y).q (x.real.joinPlane isa y.real).q 0 := by
  constructor
  · rw [point_join_plane_p_ex isa x y, point_join_plane_p_ex isa x.real y.real]
    exact (near1 (s := ⟨A, B, C⟩) ⟨hA, hB, hC⟩
      (ga := (some (1, 0, 0), some (1, 0, 1))) (gb := (some (1, 0, 0), some (1, 0, 1))) (gc := (some (0, 1, 1), some (0, 1, 0))) (gd := (some (0, 1, 1), some (0, 1, 0)))
      (V4.Fits.eq hx (by deg) (by deg)) (V4.Fits.eq hx (by deg) (by deg)) (V4.Fits.eq hy (by deg) (by deg)) (V4.Fits.eq hy (by deg) (by deg)) (K := 13) (D := (1, 1, 1))
      (h := (by cases isa <;> decide +kernel))).eq (by units)
  · rw [point_join_plane_q_ex isa x y, point_join_plane_q_ex isa x.real y.real]
    exact (near1 (s := ⟨A, B, C⟩) ⟨hA, hB, hC⟩
      (ga := (some (1, 0, 0), some (1, 0, 1))) (gb := (some (1, 0, 0), some (1, 0, 1))) (gc := (some (0, 1, 1), some (0, 1, 0))) (gd := (some (0, 1, 1), some (0, 1, 0)))
      (V4.Fits.eq hx (by deg) (by deg)) (V4.Fits.eq hx (by deg) (by deg)) (V4.Fits.eq hy (by deg) (by deg)) (V4.Fits.eq hy (by deg) (by deg)) (K := 0) (D := (0, 0, 0))
      (h := (by cases isa <;> decide +kernel))).eq (by units)

theorem plane_dot_plane_ex (isa : Isa) (x : Plane F) (y : Plane F) : (x.dotPlane isa y) =
    eval (env x.p0 x.p0 y.p0 y.p0) ((Plane.mk X).dotPlane isa (Plane.mk Y)) := by
  cases isa <;> rfl

theorem C90_plane_dot_plane (hA : In2 A 24 24) (hB : In2 B 24 24) (hC : In2 C 20 20) (isa : Isa) {x : Plane F32} {y : Plane F32}
    (hx : x.Within A C) (hy : y.Within B C) :
    Near32 (x.dotPlane isa y) (x.real.dotPlane isa y.real) (9 * (A * B)) := by
  · rw [plane_dot_plane_ex isa x y, plane_dot_plane_ex isa x.real y.real]
    exact (near1 (s := ⟨A, B, C⟩) ⟨hA, hB, hC⟩
      (ga := (some (1, 0, 1), some (1, 0, 0))) (gb := (some (1, 0, 1), some (1, 0, 0))) (gc := (some (0, 1, 1), some (0, 1, 0))) (gd := (some (0, 1, 1), some (0, 1, 0)))
      (V4.Fits.eq hx (by deg) (by deg)) (V4.Fits.eq hx (by deg) (by deg)) (V4.Fits.eq hy (by deg) (by deg)) (V4.Fits.eq hy (by deg) (by deg)) (K := 9) (D := (1, 1, 0))
      (h := (by cases isa <;> decide +kernel))).eq (by units)

theorem plane_dot_line_p0_ex (x : Plane F) (y : Line F) : (x.dotLine y).p0 =
    evalV (env x.p0 x.p0 y.p1 y.p2) ((Plane.mk X).dotLine (Line.mk Y Y')).p0 := by
  rfl

theorem C90_plane_dot_line (hA : In2 A 24 24) (hB : In2 B 24 24) (hC : In2 C 20 20) {x : Plane F32} {y : Line F32}
    (hx : x.Within A C) (hy : y.Within B C) :
    ((x.dotLine y).p0).Near32 (x.real.dotLine y.real).p0 (9 * (A * B * C)) (5 * (A * B)) := by
  · rw [plane_dot_line_p0_ex x y, plane_dot_line_p0_ex x.real y.real]
    exact (near4 (s := ⟨A, B, C⟩) ⟨hA, hB, hC⟩
      (ga := (some (1, 0, 1), some (1, 0, 0))) (gb := (some (1, 0, 1), some (1, 0, 0))) (gc := (none, some (0, 1, 0))) (gd := (none, some (0, 1, 1)))
      (V4.Fits.eq hx (by deg) (by deg)) (V4.Fits.eq hx (by deg) (by deg)) (hy.1.eq (by deg) (by deg)) (hy.2.eq (by deg) (by deg)) (K := 9) (D := (1, 1, 1)) (K' := 5) (D' := (1, 1, 0))
      (h := (by decide +kernel))).eq (by units) (by units)

theorem line_dot_plane_p0_ex (x : Line F) (y : Plane F) : (x.dotPlane y).p0 =
    evalV (env x.p1 x.p2 y.p0 y.p0) ((Line.mk X X').dotPlane (Plane.mk Y)).p0 := by
  rfl

theorem C90_line_dot_plane (hA : In2 A 24 24) (hB : In2 B 24 24) (hC : In2 C 20 20) {x : Line F32} {y : Plane F32}
    (hx : x.Within A C) (hy : y.Within B C) :
    ((x.dotPlane y).p0).Near32 (x.real.dotPlane y.real).p0 (9 * (A * B * C)) (5 * (A * B)) := by
  · rw [line_dot_plane_p0_ex x y, line_dot_plane_p0_ex x.real y.real]
    exact (near4 (s := ⟨A, B, C⟩) ⟨hA, hB, hC⟩
      (ga := (none, some (1, 0, 0))) (gb := (none, some (1, 0, 1))) (gc := (some (0, 1, 1), some (0, 1, 0))) (gd := (some (0, 1, 1), some (0, 1, 0)))
      (hx.1.eq (by deg) (by deg)) (hx.2.eq (by deg) (by deg)) (V4.Fits.eq hy (by deg) (by deg)) (V4.Fits.eq hy (by deg) (by deg)) (K := 9) (D := (1, 1, 1)) (K' := 5) (D' := (1, 1, 0))
      (h := (by decide +kernel))).eq (by units) (by units)

theorem plane_dot_ideal_line_p0_ex (isa : Isa) (x : Plane F) (y : IdealLine F) : (x.dotIdealLine isa y).p0 =
    evalV (env x.p0 x.p0 y.p2 y.p2) ((Plane.mk X).dotIdealLine isa (IdealLine.mk Y)).p0 := by
  cases isa <;> rfl

theorem C90_plane_dot_ideal_line (hA : In2 A 24 24) (hB : In2 B 24 24) (hC : In2 C 20 20) (isa : Isa) {x : Plane F32} {y : IdealLine F32}
    (hx : x.Within A C) (hy : y.Within B) :
    ((x.dotIdealLine isa y).p0).Near32 (x.real.dotIdealLine isa y.real).p0 (9 * (A * B)) 0 := by
  · rw [plane_dot_ideal_line_p0_ex isa x y, plane_dot_ideal_line_p0_ex isa x.real y.real]
    exact (near4 (s := ⟨A, B, C⟩) ⟨hA, hB, hC⟩
      (ga := (some (1, 0, 1), some (1, 0, 0))) (gb := (some (1, 0, 1), some (1, 0, 0))) (gc := (none, some (0, 1, 0))) (gd := (none, some (0, 1, 0)))
      (V4.Fits.eq hx (by deg) (by deg)) (V4.Fits.eq hx (by deg) (by deg)) (V4.Fits.eq hy (by deg) (by deg)) (V4.Fits.eq hy (by deg) (by deg)) (K := 9) (D := (1, 1, 0)) (K' := 0) (D' := (0, 0, 0))
      (h := (by cases isa <;> decide +kernel))).eq (by units) (by units)

theorem ideal_line_dot_plane_p0_ex (isa : Isa) (x : IdealLine F) (y : Plane F) : (x.dotPlane isa y).p0 =
    evalV (env x.p2 x.p2 y.p0 y.p0) ((IdealLine.mk X).dotPlane isa (Plane.mk Y)).p0 := by
  cases isa <;> rfl

theorem C90_ideal_line_dot_plane (hA : In2 A 24 24) (hB : In2 B 24 24) (hC : In2 C 20 20) (isa : Isa) {x : IdealLine F32} {y : Plane F32}
    (hx : x.Within A) (hy : y.Within B C) :
    ((x.dotPlane isa y).p0).Near32 (x.real.dotPlane isa y.real).p0 (9 * (A * B)) 0 := by
  · rw [ideal_line_dot_plane_p0_ex isa x y, ideal_line_dot_plane_p0_ex isa x.real y.real]
    exact (near4 (s := ⟨A, B, C⟩) ⟨hA, hB, hC⟩
      (ga := (none, some (1, 0, 0))) (gb := (none, some (1, 0, 0))) (gc := (some (0, 1, 1), some (0, 1, 0))) (gd := (some (0, 1, 1), some (0, 1, 0)))
      (V4.Fits.eq hx (by deg) (by deg)) (V4.Fits.eq hx (by deg) (by deg)) (V4.Fits.eq hy (by deg) (by deg)) (V4.Fits.eq hy (by deg) (by deg)) (K := 9) (D := (1, 1, 0)) (K' := 0) (D' := (0, 0, 0))
      (h := (by cases isa <;> decide +kernel))).eq (by units) (by units)

theorem plane_dot_point_p1_ex (isa : Isa) (x : Plane F) (y : Point F) : (x.dotPoint isa y).p1 =
    evalV (env x.p0 x.p0 y.p3 y.p3) ((Plane.mk X).dotPoint isa (Point.mk Y)).p1 := by
  cases isa <;> rfl

theorem plane_dot_point_p2_ex (isa : Isa) (x : Plane F) (y : Point F) : (x.dotPoint isa y).p2 =
    evalV (env x.p0 x.p0 y.p3 y.p3) ((Plane.mk X).dotPoint isa (Point.mk Y)).p2 := by
  cases isa <;> rfl

theorem C90_plane_dot_point (hA : In2 A 24 24) (hB : In2 B 24 24) (hC : In2 C 20 20) (isa : Isa) {x : Plane F32} {y : Point F32}
    (hx : x.Within A C) (hy : y.Within B C) :
    ((x.dotPoint isa y).p1).Near32 (x.real.dotPoint isa y.real).p1 0 (2 * (A * B)) ∧
    ((x.dotPoint isa y).p2).Near32 (x.real.dotPoint isa y.real).p2 0 (5 * (A * B * C)) := by
  constructor
  · rw [plane_dot_point_p1_ex isa x y, plane_dot_point_p1_ex isa x.real y.real]
    exact (near4 (s := ⟨A, B, C⟩) ⟨hA, hB, hC⟩
      (ga := (some (1, 0, 1), some (1, 0, 0))) (gb := (some (1, 0, 1), some (1, 0, 0))) (gc := (some (0, 1, 0), some (0, 1, 1))) (gd := (some (0, 1, 0), some (0, 1, 1)))
      (V4.Fits.eq hx (by deg) (by deg)) (V4.Fits.eq hx (by deg) (by deg)) (V4.Fits.eq hy (by deg) (by deg)) (V4.Fits.eq hy (by deg) (by deg)) (K := 0) (D := (0, 0, 0)) (K' := 2) (D' := (1, 1, 0))
      (h := (by cases isa <;> decide +kernel))).eq (by units) (by units)
  · rw [plane_dot_point_p2_ex isa x y, plane_dot_point_p2_ex isa x.real y.real]
    exact (near4 (s := ⟨A, B, C⟩) ⟨hA, hB, hC⟩
      (ga := (some (1, 0, 1), some (1, 0, 0))) (gb := (some (1, 0, 1), some (1, 0, 0))) (gc := (some (0, 1, 0), some (0, 1, 1))) (gd := (some (0, 1, 0), some (0, 1, 1)))
      (V4.Fits.eq hx (by deg) (by deg)) (V4.Fits.eq hx (by deg) (by deg)) (V4.Fits.eq hy (by deg) (by deg)) (V4.Fits.eq hy (by deg) (by deg)) (K := 0) (D := (0, 0, 0)) (K' := 5) (D' := (1, 1, 1))
      (h := (by cases isa <;> decide +kernel))).eq (by units) (by units)

theorem point_dot_plane_p1_ex (isa : Isa) (x : Point F) (y : Plane F) : (x.dotPlane isa y).p1 =
    evalV (env x.p3 x.p3 y.p0 y.p0) ((Point.mk X).dotPlane isa (Plane.mk Y)).p1 := by
  cases isa <;> rfl

theorem point_dot_plane_p2_ex (isa : Isa) (x : Point F) (y : Plane F) : (x.dotPlane isa y).p2 =
    evalV (env x.p3 x.p3 y.p0 y.p0) ((Point.mk X).dotPlane isa (Plane.mk Y)).p2 := by
  cases isa <;> rfl

theorem C90_point_dot_plane (hA : In2 A 24 24) (hB : In2 B 24 24) (hC : In2 C 20 20) (isa : Isa) {x : Point F32} {y : Plane F32}
    (hx : x.Within A C) (hy : y.Within B C) :
    ((x.dotPlane isa y).p1).Near32 (x.real.dotPlane isa y.real).p1 0 (2 * (A * B)) ∧
    ((x.dotPlane isa y).p2).Near32 (x.real.dotPlane isa y.real).p2 0 (5 * (A * B * C)) := by
  constructor
  · rw [point_dot_plane_p1_ex isa x y, point_dot_plane_p1_ex isa x.real y.real]
    exact (near4 (s := ⟨A, B, C⟩) ⟨hA, hB, hC⟩
      (ga := (some (1, 0, 0), some (1, 0, 1))) (gb := (some (1, 0, 0), some (1, 0, 1))) (gc := (some (0, 1, 1), some (0, 1, 0))) (gd := (some (0, 1, 1), some (0, 1, 0)))
      (V4.Fits.eq hx (by deg) (by deg)) (V4.Fits.eq hx (by deg) (by deg)) (V4.Fits.eq hy (by deg) (by deg)) (V4.Fits.eq hy (by deg) (by deg)) (K := 0) (D := (0, 0, 0)) (K' := 2) (D' := (1, 1, 0))
      (h := (by cases isa <;> decide +kernel))).eq (by units) (by units)
  · rw [point_dot_plane_p2_ex isa x y, point_dot_plane_p2_ex isa x.real y.real]
    exact (near4 (s := ⟨A, B, C⟩) ⟨hA, hB, hC⟩
      (ga := (some (1, 0, 0), some (1, 0, 1))) (gb := (some (1, 0, 0), some (1, 0, 1))) (gc := (some (0, 1, 1), some (0, 1, 0))) (gd := (some (0, 1, 1), some (0, 1, 0)))
      (V4.Fits.eq hx (by deg) (by deg)) (V4.Fits.eq hx (by deg) (by deg)) (V4.Fits.eq hy (by deg) (by deg)) (V4.Fits.eq hy (by deg) (by deg)) (K := 0) (D := (0, 0, 0)) (K' := 5) (D' := (1, 1, 1))
      (h := (by cases isa <;> decide +kernel))).eq (by units) (by units)

theorem line_dot_line_ex (x : Line F) (y : Line F) : (x.dotLine y) =
    eval (env x.p1 x.p2 y.p1 y.p2) ((Line.mk X X').dotLine (Line.mk Y Y')) := by
  rfl

theorem C90_line_dot_line (hA : In2 A 24 24) (hB : In2 B 24 24) (hC : In2 C 20 20) {x : Line F32} {y : Line F32}
    (hx : x.Within A C) (hy : y.Within B C) :
    Near32 (x.dotLine y) (x.real.dotLine y.real) (9 * (A * B)) := by
  · rw [line_dot_line_ex x y, line_dot_line_ex x.real y.real]
    exact (near1 (s := ⟨A, B, C⟩) ⟨hA, hB, hC⟩
      (ga := (none, some (1, 0, 0))) (gb := (none, some (1, 0, 1))) (gc := (none, some (0, 1, 0))) (gd := (none, some (0, 1, 1)))
      (hx.1.eq (by deg) (by deg)) (hx.2.eq (by deg) (by deg)) (hy.1.eq (by deg) (by deg)) (hy.2.eq (by deg) (by deg)) (K := 9) (D := (1, 1, 0))
      (h := (by decide +kernel))).eq (by units)

theorem point_dot_line_p0_ex (isa : Isa) (x : Point F) (y : Line F) : (x.dotLine isa y).p0 =
    evalV (env x.p3 x.p3 y.p1 y.p2) ((Point.mk X).dotLine isa (Line.mk Y Y')).p0 := by
  cases isa <;> rfl

theorem C90_point_dot_line (hA : In2 A 24 24) (hB : In2 B 24 24) (hC : In2 C 20 20) (isa : Isa) {x : Point F32} {y : Line F32}
    (hx : x.Within A C) (hy : y.Within B C) :
    ((x.dotLine isa y).p0).Near32 (x.real.dotLine isa y.real).p0 (9 * (A * B * C)) (2 * (A * B)) := by
  · rw [point_dot_line_p0_ex isa x y, point_dot_line_p0_ex isa x.real y.real]
    exact (near4 (s := ⟨A, B, C⟩) ⟨hA, hB, hC⟩
      (ga := (some (1, 0, 0), some (1, 0, 1))) (gb := (some (1, 0, 0), some (1, 0, 1))) (gc := (none, some (0, 1, 0))) (gd := (none, some (0, 1, 1)))
      (V4.Fits.eq hx (by deg) (by deg)) (V4.Fits.eq hx (by deg) (by deg)) (hy.1.eq (by deg) (by deg)) (hy.2.eq (by deg) (by deg)) (K := 9) (D := (1, 1, 1)) (K' := 2) (D' := (1, 1, 0))
      (h := (by cases isa <;> decide +kernel))).eq (by units) (by units)

theorem line_dot_point_p0_ex (isa : Isa) (x : Line F) (y : Point F) : (x.dotPoint isa y).p0 =
    evalV (env x.p1 x.p2 y.p3 y.p3) ((Line.mk X X').dotPoint isa (Point.mk Y)).p0 := by
  cases isa <;> rfl

theorem C90_line_dot_point (hA : In2 A 24 24) (hB : In2 B 24 24) (hC : In2 C 20 20) (isa : Isa) {x : Line F32} {y : Point F32}
    (hx : x.Within A C) (hy : y.Within B C) :
    ((x.dotPoint isa y).p0).Near32 (x.real.dotPoint isa y.real).p0 (9 * (A * B * C)) (2 * (A * B)) := by
  · rw [line_dot_point_p0_ex isa x y, line_dot_point_p0_ex isa x.real y.real]
    exact (near4 (s := ⟨A, B, C⟩) ⟨hA, hB, hC⟩
      (ga := (none, some (1, 0, 0))) (gb := (none, some (1, 0, 1))) (gc := (some (0, 1, 0), some (0, 1, 1))) (gd := (some (0, 1, 0), some (0, 1, 1)))
      (hx.1.eq (by deg) (by deg)) (hx.2.eq (by deg) (by deg)) (V4.Fits.eq hy (by deg) (by deg)) (V4.Fits.eq hy (by deg) (by deg)) (K := 9) (D := (1, 1, 1)) (K' := 2) (D' := (1, 1, 0))
      (h := (by cases isa <;> decide +kernel))).eq (by units) (by units)

theorem point_dot_point_ex (x : Point F) (y : Point F) : (x.dotPoint y) =
    eval (env x.p3 x.p3 y.p3 y.p3) ((Point.mk X).dotPoint (Point.mk Y)) := by
  rfl

theorem C90_point_dot_point (hA : In2 A 24 24) (hB : In2 B 24 24) (hC : In2 C 20 20) {x : Point F32} {y : Point F32}
    (hx : x.Within A C) (hy : y.Within B C) :
    Near32 (x.dotPoint y) (x.real.dotPoint y.real) (3 * (A * B)) := by
  · rw [point_dot_point_ex x y, point_dot_point_ex x.real y.real]
    exact (near1 (s := ⟨A, B, C⟩) ⟨hA, hB, hC⟩
      (ga := (some (1, 0, 0), some (1, 0, 1))) (gb := (some (1, 0, 0), some (1, 0, 1))) (gc := (some (0, 1, 0), some (0, 1, 1))) (gd := (some (0, 1, 0), some (0, 1, 1)))
      (V4.Fits.eq hx (by deg) (by deg)) (V4.Fits.eq hx (by deg) (by deg)) (V4.Fits.eq hy (by deg) (by deg)) (V4.Fits.eq hy (by deg) (by deg)) (K := 3) (D := (1, 1, 0))
      (h := (by decide +kernel))).eq (by units)

theorem point_project_line_p3_ex (isa : Isa) (x : Point F) (y : Line F) : (x.projectLine isa y).p3 =
    evalV (env x.p3 x.p3 y.p1 y.p2) ((Point.mk X).projectLine isa (Line.mk Y Y')).p3 := by
  cases isa <;> rfl

theorem C90_point_project_line (hA : In2 A 24 24) (hB : In2 B 24 24) (hC : In2 C 20 20) (isa : Isa) {x : Point F32} {y : Line F32}
    (hx : x.Within A C) (hy : y.Within B C) :
    ((x.projectLine isa y).p3).Near32 (x.real.projectLine isa y.real).p3 (12 * (A * B ^ 2)) (26 * (A * B ^ 2 * C)) := by
  · rw [point_project_line_p3_ex isa x y, point_project_line_p3_ex isa x.real y.real]
    exact (near4 (s := ⟨A, B, C⟩) ⟨hA, hB, hC⟩
      (ga := (some (1, 0, 0), some (1, 0, 1))) (gb := (some (1, 0, 0), some (1, 0, 1))) (gc := (none, some (0, 1, 0))) (gd := (none, some (0, 1, 1)))
      (V4.Fits.eq hx (by deg) (by deg)) (V4.Fits.eq hx (by deg) (by deg)) (hy.1.eq (by deg) (by deg)) (hy.2.eq (by deg) (by deg)) (K := 12) (D := (1, 2, 0)) (K' := 26) (D' := (1, 2, 1))
      (h := (by cases isa <;> decide +kernel))).eq (by units) (by units)

theorem point_project_plane_p3_ex (isa : Isa) (x : Point F) (y : Plane F) : (x.projectPlane isa y).p3 =
    evalV (env x.p3 x.p3 y.p0 y.p0) ((Point.mk X).projectPlane isa (Plane.mk Y)).p3 := by
  cases isa <;> rfl

theorem C90_point_project_plane (hA : In2 A 24 24) (hB : In2 B 24 24) (hC : In2 C 20 20) (isa : Isa) {x : Point F32} {y : Plane F32}
    (hx : x.Within A C) (hy : y.Within B C) :
    ((x.projectPlane isa y).p3).Near32 (x.real.projectPlane isa y.real).p3 (12 * (A * B ^ 2)) (25 * (A * B ^ 2 * C)) := by
  · rw [point_project_plane_p3_ex isa x y, point_project_plane_p3_ex isa x.real y.real]
    exact (near4 (s := ⟨A, B, C⟩) ⟨hA, hB, hC⟩
      (ga := (some (1, 0, 0), some (1, 0, 1))) (gb := (some (1, 0, 0), some (1, 0, 1))) (gc := (some (0, 1, 1), some (0, 1, 0))) (gd := (some (0, 1, 1), some (0, 1, 0)))
      (V4.Fits.eq hx (by deg) (by deg)) (V4.Fits.eq hx (by deg) (by deg)) (V4.Fits.eq hy (by deg) (by deg)) (V4.Fits.eq hy (by deg) (by deg)) (K := 12) (D := (1, 2, 0)) (K' := 25) (D' := (1, 2, 1))
      (h := (by cases isa <;> decide +kernel))).eq (by units) (by units)

theorem line_project_plane_p1_ex (x : Line F) (y : Plane F) : (x.projectPlane y).p1 =
    evalV (env x.p1 x.p2 y.p0 y.p0) ((Line.mk X X').projectPlane (Plane.mk Y)).p1 := by
  rfl

theorem line_project_plane_p2_ex (x : Line F) (y : Plane F) : (x.projectPlane y).p2 =
    evalV (env x.p1 x.p2 y.p0 y.p0) ((Line.mk X X').projectPlane (Plane.mk Y)).p2 := by
  rfl

theorem C90_line_project_plane (hA : In2 A 24 24) (hB : In2 B 24 24) (hC : In2 C 20 20) {x : Line F32} {y : Plane F32}
    (hx : x.Within A C) (hy : y.Within B C) :
    ((x.projectPlane y).p1).Near32 (x.real.projectPlane y.real).p1 0 (17 * (A * B ^ 2)) ∧
    ((x.projectPlane y).p2).Near32 (x.real.projectPlane y.real).p2 0 (23 * (A * B ^ 2 * C)) := by
  constructor
  · rw [line_project_plane_p1_ex x y, line_project_plane_p1_ex x.real y.real]
    exact (near4 (s := ⟨A, B, C⟩) ⟨hA, hB, hC⟩
      (ga := (none, some (1, 0, 0))) (gb := (none, some (1, 0, 1))) (gc := (some (0, 1, 1), some (0, 1, 0))) (gd := (some (0, 1, 1), some (0, 1, 0)))
      (hx.1.eq (by deg) (by deg)) (hx.2.eq (by deg) (by deg)) (V4.Fits.eq hy (by deg) (by deg)) (V4.Fits.eq hy (by deg) (by deg)) (K := 0) (D := (0, 0, 0)) (K' := 17) (D' := (1, 2, 0))
      (h := (by decide +kernel))).eq (by units) (by units)
  · rw [line_project_plane_p2_ex x y, line_project_plane_p2_ex x.real y.real]
    exact (near4 (s := ⟨A, B, C⟩) ⟨hA, hB, hC⟩
      (ga := (none, some (1, 0, 0))) (gb := (none, some (1, 0, 1))) (gc := (some (0, 1, 1), some (0, 1, 0))) (gd := (some (0, 1, 1), some (0, 1, 0)))
      (hx.1.eq (by deg) (by deg)) (hx.2.eq (by deg) (by deg)) (V4.Fits.eq hy (by deg) (by deg)) (V4.Fits.eq hy (by deg) (by deg)) (K := 0) (D := (0, 0, 0)) (K' := 23) (D' := (1, 2, 1))
      (h := (by decide +kernel))).eq (by units) (by units)

theorem plane_project_point_p0_ex (isa : Isa) (x : Plane F) (y : Point F) : (x.projectPoint isa y).p0 =
    evalV (env x.p0 x.p0 y.p3 y.p3) ((Plane.mk X).projectPoint isa (Point.mk Y)).p0 := by
  cases isa <;> rfl

theorem C90_plane_project_point (hA : In2 A 24 24) (hB : In2 B 24 24) (hC : In2 C 20 20) (isa : Isa) {x : Plane F32} {y : Point F32}
    (hx : x.Within A C) (hy : y.Within B C) :
    ((x.projectPoint isa y).p0).Near32 (x.real.projectPoint isa y.real).p0 (12 * (A * B ^ 2 * C)) (3 * (A * B ^ 2)) := by
  · rw [plane_project_point_p0_ex isa x y, plane_project_point_p0_ex isa x.real y.real]
    exact (near4 (s := ⟨A, B, C⟩) ⟨hA, hB, hC⟩
      (ga := (some (1, 0, 1), some (1, 0, 0))) (gb := (some (1, 0, 1), some (1, 0, 0))) (gc := (some (0, 1, 0), some (0, 1, 1))) (gd := (some (0, 1, 0), some (0, 1, 1)))
      (V4.Fits.eq hx (by deg) (by deg)) (V4.Fits.eq hx (by deg) (by deg)) (V4.Fits.eq hy (by deg) (by deg)) (V4.Fits.eq hy (by deg) (by deg)) (K := 12) (D := (1, 2, 1)) (K' := 3) (D' := (1, 2, 0))
      (h := (by cases isa <;> decide +kernel))).eq (by units) (by units)

theorem line_project_point_p1_ex (isa : Isa) (x : Line F) (y : Point F) : (x.projectPoint isa y).p1 =
    evalV (env x.p1 x.p2 y.p3 y.p3) ((Line.mk X X').projectPoint isa (Point.mk Y)).p1 := by
  cases isa <;> rfl

theorem line_project_point_p2_ex (isa : Isa) (x : Line F) (y : Point F) : (x.projectPoint isa y).p2 =
    evalV (env x.p1 x.p2 y.p3 y.p3) ((Line.mk X X').projectPoint isa (Point.mk Y)).p2 := by
  cases isa <;> rfl

theorem C90_line_project_point (hA : In2 A 24 24) (hB : In2 B 24 24) (hC : In2 C 20 20) (isa : Isa) {x : Line F32} {y : Point F32}
    (hx : x.Within A C) (hy : y.Within B C) :
    ((x.projectPoint isa y).p1).Near32 (x.real.projectPoint isa y.real).p1 0 (3 * (A * B ^ 2)) ∧
    ((x.projectPoint isa y).p2).Near32 (x.real.projectPoint isa y.real).p2 0 (7 * (A * B ^ 2 * C)) := by
  constructor
  · rw [line_project_point_p1_ex isa x y, line_project_point_p1_ex isa x.real y.real]
    exact (near4 (s := ⟨A, B, C⟩) ⟨hA, hB, hC⟩
      (ga := (none, some (1, 0, 0))) (gb := (none, some (1, 0, 1))) (gc := (some (0, 1, 0), some (0, 1, 1))) (gd := (some (0, 1, 0), some (0, 1, 1)))
      (hx.1.eq (by deg) (by deg)) (hx.2.eq (by deg) (by deg)) (V4.Fits.eq hy (by deg) (by deg)) (V4.Fits.eq hy (by deg) (by deg)) (K := 0) (D := (0, 0, 0)) (K' := 3) (D' := (1, 2, 0))
      (h := (by cases isa <;> decide +kernel))).eq (by units) (by units)
  · rw [line_project_point_p2_ex isa x y, line_project_point_p2_ex isa x.real y.real]
    exact (near4 (s := ⟨A, B, C⟩) ⟨hA, hB, hC⟩
      (ga := (none, some (1, 0, 0))) (gb := (none, some (1, 0, 1))) (gc := (some (0, 1, 0), some (0, 1, 1))) (gd := (some (0, 1, 0), some (0, 1, 1)))
      (hx.1.eq (by deg) (by deg)) (hx.2.eq (by deg) (by deg)) (V4.Fits.eq hy (by deg) (by deg)) (V4.Fits.eq hy (by deg) (by deg)) (K := 0) (D := (0, 0, 0)) (K' := 7) (D' := (1, 2, 1))
      (h := (by cases isa <;> decide +kernel))).eq (by units) (by units)

theorem plane_project_line_p0_ex (x : Plane F) (y : Line F) : (x.projectLine y).p0 =
    evalV (env x.p0 x.p0 y.p1 y.p2) ((Plane.mk X).projectLine (Line.mk Y Y')).p0 := by
  rfl

theorem C90_plane_project_line (hA : In2 A 24 24) (hB : In2 B 24 24) (hC : In2 C 20 20) {x : Plane F32} {y : Line F32}
    (hx : x.Within A C) (hy : y.Within B C) :
    ((x.projectLine y).p0).Near32 (x.real.projectLine y.real).p0 (29 * (A * B ^ 2 * C)) (17 * (A * B ^ 2)) := by
  · rw [plane_project_line_p0_ex x y, plane_project_line_p0_ex x.real y.real]
    exact (near4 (s := ⟨A, B, C⟩) ⟨hA, hB, hC⟩
      (ga := (some (1, 0, 1), some (1, 0, 0))) (gb := (some (1, 0, 1), some (1, 0, 0))) (gc := (none, some (0, 1, 0))) (gd := (none, some (0, 1, 1)))
      (V4.Fits.eq hx (by deg) (by deg)) (V4.Fits.eq hx (by deg) (by deg)) (hy.1.eq (by deg) (by deg)) (hy.2.eq (by deg) (by deg)) (K := 29) (D := (1, 2, 1)) (K' := 17) (D' := (1, 2, 0))
      (h := (by decide +kernel))).eq (by units) (by units)

/-! ### the action of a translator on a plane, which divides by 1 -/

/-- The divisor of `sw02`. -/
def tlane (isa : Isa) (x : Translator F) : F := match isa with | .sse41 => 1 | .sse3 => x.p2.l0 + 1

/-- The register of the translator, as `sw02` is passed it, for the lanes that are multiplied. -/
def tlanes : Isa → V4 Ex
  | .sse41 => X
  | .sse3 => ⟨v 0, v 1 + 0, v 2 + 0, v 3 + 0⟩

/-- The lanes of the translated plane. -/
def tplane (isa : Isa) : V4 Ex := ⟨v 8 + (hi_dp isa Y (tlanes isa)).l0 * (v 4 + v 4), v 9 + 0, v 10 + 0, v 11 + 0⟩

theorem translator_on_plane_ex (hw : Hw F) (isa : Isa) (x : Translator F) (y : Plane F) : (x.onPlane hw isa y).p0 =
    evalV (env x.p2 ⟨rcp1 hw (tlane isa x), rcp1 hw (tlane isa x), rcp1 hw (tlane isa x), rcp1 hw (tlane isa x)⟩ y.p0 y.p0) (tplane isa) := by
  cases isa <;> rfl

theorem tlane_val (isa : Isa) {x : Translator F32} (h : x.p2.l0.isFinite = true) (h0 : r x.p2.l0 = 0) :
    (tlane isa x).isFinite = true ∧ r (tlane isa x) = 1 := by
  cases isa with
  | sse41 => exact ⟨(by decide +kernel : (1 : F32).isFinite = true), r_one⟩
  | sse3 =>
    have e : x.p2.l0 + 1 = round (x.p2.l0.sign && (1 : F32).sign) (1 : F32).val := by
      rw [add_round h (by decide +kernel), r_eq_zero h0, zero_add]
    have := round_val_r (x := 1) (by decide +kernel) (x.p2.l0.sign && (1 : F32).sign)
    rw [← e, r_one] at this
    exact this

theorem C90_translator_on_plane {hw : Hw F32} (hc : hw.Contract32) {hwr : Hw ℝ} (hx : hwr.Exact) (isa isa' : Isa)
    (hB : In2 B 24 24) (hC : In2 C 20 20) {x : Translator F32} {y : Plane F32} (h0 : r x.p2.l0 = 0)
    (hw1 : x.Within C) (hw2 : y.Within B C) :
    ((x.onPlane hw isa y).p0).Near32 (x.real.onPlane hwr isa' y.real).p0 (69 * (B * C)) 0 := by
  obtain ⟨f1, e1⟩ := tlane_val isa (hw1.1 0) h0
  obtain ⟨f2, e2⟩ := rcp1_f32 hc f1 (by rw [e1]; norm_num) (by rw [e1]; norm_num)
  rw [e1, mul_one] at e2
  have hs : Scales.Ok ⟨1, B, C⟩ := ⟨one_A, hB, hC⟩
  have hI : Tr (rcp1 hw (tlane isa x)) 1 ⟨1, B, C⟩ ⟨1, 86, 0, 0, 0⟩ :=
    ⟨f2, by simp [Scales.sc], e2.trans (by simp [Scales.sc]; norm_num), by decide, by simp, by simp, by simp⟩
  have hr : (x.real.onPlane hwr isa' y.real).p0 =
      evalV (env x.real.p2 ⟨1, 1, 1, 1⟩ y.real.p0 y.real.p0) (tplane isa) := by
    rw [translator_on_plane_ex hwr isa']
    have e3 : tlane isa' x.real = 1 := by
      cases isa' with
      | sse41 => rfl
      | sse3 => show r x.p2.l0 + 1 = 1; rw [h0, zero_add]
    rw [e3, exact_rcp1 hx one_ne_zero, one_div_one]
    have key : ∀ i : Isa, evalV (env x.real.p2 ⟨1, 1, 1, 1⟩ y.real.p0 y.real.p0) (tplane i) =
        ⟨r y.p0.l0 + (r y.p0.l1 * r x.p2.l1 + r y.p0.l2 * r x.p2.l2 + r y.p0.l3 * r x.p2.l3) * 2,
          r y.p0.l1, r y.p0.l2, r y.p0.l3⟩ := by
      intro i
      refine V4.ext ?_ ?_ ?_ ?_
      · cases i
        · show r y.p0.l0 + (r y.p0.l3 * (r x.p2.l3 + 0) + r y.p0.l2 * (r x.p2.l2 + 0) + r y.p0.l1 * (r x.p2.l1 + 0)) * (1 + 1) = _
          simp only; ring
        · show r y.p0.l0 + (0 + r y.p0.l1 * r x.p2.l1 + (r y.p0.l2 * r x.p2.l2 + r y.p0.l3 * r x.p2.l3)) * (1 + 1) = _
          simp only; ring
      · exact add_zero _
      · exact add_zero _
      · exact add_zero _
    rw [key, key]
  rw [translator_on_plane_ex hw isa, hr]
  have t : ∀ n, Tr (env x.p2 ⟨rcp1 hw (tlane isa x), rcp1 hw (tlane isa x), rcp1 hw (tlane isa x), rcp1 hw (tlane isa x)⟩
      y.p0 y.p0 n) (env x.real.p2 ⟨1, 1, 1, 1⟩ y.real.p0 y.real.p0 n) ⟨1, B, C⟩
      (if 4 ≤ n ∧ n < 8 then ⟨1, 86, 0, 0, 0⟩ else
        grade (some (0, 0, 1), some (0, 0, 1)) (none, none) (some (0, 1, 1), some (0, 1, 0)) (some (0, 1, 1), some (0, 1, 0)) n) := by
    intro n
    split_ifs with hn
    · obtain ⟨g1, g2⟩ := hn
      have : n = 4 ∨ n = 5 ∨ n = 6 ∨ n = 7 := by omega
      rcases this with rfl | rfl | rfl | rfl <;> exact hI
    · have := tr_env (s := ⟨1, B, C⟩) (a := x.p2) (b := ⟨0, 0, 0, 0⟩) (c := y.p0) (d := y.p0) (ga := (some (0, 0, 1), some (0, 0, 1)))
        (gb := (none, none)) (gc := (some (0, 1, 1), some (0, 1, 0))) (gd := (some (0, 1, 1), some (0, 1, 0)))
        (by decide) (by decide) (by decide) (by decide)
        (V4.Fits.eq hw1 (by deg) (by deg)) ⟨by decide +kernel, by simp [sco, r_zero], by simp [sco, r_zero], by simp [sco, r_zero], by simp [sco, r_zero]⟩
        (V4.Fits.eq hw2 (by deg) (by deg)) (V4.Fits.eq hw2 (by deg) (by deg)) n
      match n, hn, this with
      | 0, _, h | 1, _, h | 2, _, h | 3, _, h | 8, _, h | 9, _, h | 10, _, h | 11, _, h | 12, _, h | 13, _, h | 14, _, h => exact h
      | 4, hn, _ | 5, hn, _ | 6, hn, _ | 7, hn, _ => exact absurd ⟨by norm_num, by norm_num⟩ hn
      | n + 15, _, h => exact h
  have d : ∀ e : Ex, ok _ _ _ e = true → Near32 _ _ _ := fun e h => near_ok hs t (K := 69) (D := (0, 1, 1)) (by decide) (e := e) h
  have d' : ∀ e : Ex, ok _ _ _ e = true → Near32 _ _ _ := fun e h => near_ok hs t (K := 0) (D := (0, 0, 0)) (by decide) (e := e) h
  exact ⟨(d (tplane isa).l0 (by cases isa <;> decide +kernel)).eq (by units),
    (d' (tplane isa).l1 (by cases isa <;> decide +kernel)).eq (by units),
    (d' (tplane isa).l2 (by cases isa <;> decide +kernel)).eq (by units),
    (d' (tplane isa).l3 (by cases isa <;> decide +kernel)).eq (by units)⟩

/-! ### examples -/

theorem fits_of_val {v : V4 F32} {m n : ℕ} (h : (∀ i, (v.get i).isFinite = true) ∧ |v.l0.val| ≤ m ∧ |v.l1.val| ≤ n ∧
    |v.l2.val| ≤ n ∧ |v.l3.val| ≤ n) : v.Fits m n := by
  have key : ∀ {x : F32} {k : ℕ}, |x.val| ≤ k → |r x| ≤ k := by
    intro x k hk
    have := (Rat.cast_le (K := ℝ)).2 hk
    push_cast at this
    exact this
  exact ⟨h.1, key h.2.1, key h.2.2.1, key h.2.2.2.1, key h.2.2.2.2⟩

/-- The hypotheses hold of ordinary numbers: a motor of unit size moving points by hundreds. -/
example (y : Point F32) (hy : y.p3 = ⟨1, 200, 100, 50⟩) :
    ((Motor.onPoint (⟨⟨1, 0, 0, 0⟩, ⟨0, 100, 0, 50⟩⟩ : Motor F32) y).p3).Near32
      (Motor.onPoint (Motor.real ⟨⟨1, 0, 0, 0⟩, ⟨0, 100, 0, 50⟩⟩) y.real).p3 (17 * (1 ^ 2 * 1)) (133 * (1 ^ 2 * 1 * 200)) := by
  refine C90_motor_on_point (A := 1) (B := 1) (C := 200) one_A one_A ⟨by norm_num, by norm_num⟩
    ⟨V4.Fits.eq (fits_of_val (m := 1) (n := 1) (by decide +kernel)) (by norm_num) (by norm_num),
      V4.Fits.eq (fits_of_val (m := 200) (n := 200) (by decide +kernel)) (by norm_num) (by norm_num)⟩ ?_
  unfold Point.Within
  rw [hy]
  exact V4.Fits.eq (fits_of_val (m := 1) (n := 200) (by decide +kernel)) (by norm_num) (by norm_num)

/-- The error is not zero in general: `(1 + 2^-23) * (1 + 2^-23)` is not representable. -/
example : (((Rotor.mk ⟨ofMag false 0x3f800001, 0, 0, 0⟩ : Rotor F32).mulRotor ⟨⟨ofMag false 0x3f800001, 0, 0, 0⟩⟩).p1.l0).val ≠
    (ofMag false 0x3f800001).val * (ofMag false 0x3f800001).val := by decide +kernel

end Products32
end Klein
