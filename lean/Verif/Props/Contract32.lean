import Verif.Float.Fma
import Verif.Props.Matrix32

/-!
# C94: the error bounds of C90 and C92 under contraction

The bounds of C90 and C92 presume that each product and each sum is rounded.  Here the compiler may
fuse any product with the sum or difference it enters (`Ex.Can`, `Verif/Float/Fma.lean`), differently
at each place.  Almost every bound survives unchanged.  The exceptions are the lanes that are zero
because a product is subtracted from itself: a fused multiply-add leaves the rounding error of the
product there.  Lane 0 of the meet of two planes, of the join of two points and of the inner product of
a plane and a point is such a lane, and the weight of a point projected onto a plane inherits it.
-/

namespace Klein

open F32 Ex

/-- `w` is a register a contracting compiler may compute for four expressions. -/
def Ex.CanV (f : ℕ → F32) (v : V4 Ex) (w : V4 F32) : Prop :=
  Can f v.l0 w.l0 ∧ Can f v.l1 w.l1 ∧ Can f v.l2 w.l2 ∧ Can f v.l3 w.l3

/-- Lanes 1 to 3 only. -/
def V4.Near32Rest (v : V4 F32) (w : V4 ℝ) (e : ℝ) : Prop :=
  Klein.Near32 v.l1 w.l1 e ∧ Klein.Near32 v.l2 w.l2 e ∧ Klein.Near32 v.l3 w.l3 e

namespace Contract32

open Products32 Matrix32

variable {A B C : ℝ}

theorem _root_.Klein.V4.Near32Rest.eq {v : V4 F32} {w : V4 ℝ} {e e' : ℝ} (h : v.Near32Rest w e) (he : e = e') :
    v.Near32Rest w e' := he ▸ h

/-- The bound `runC` finds is at most `K` units of the scale of degrees `D`. -/
def okC (g : ℕ → Bd) (K : ℕ) (D : ℕ × ℕ × ℕ) (e : Ex) : Bool :=
  match runC g e with
  | some (.inl b) => b.k == 0 || (decide (b.k ≤ 16 * K) && b.i == D.1 && b.j == D.2.1 && b.l == D.2.2)
  | _ => false

theorem near_okC {s : Scales} (hs : s.Ok) {f : ℕ → F32} {E : ℕ → ℝ} {g : ℕ → Bd} (hf : ∀ n, Tr (f n) (E n) s (g n))
    {K : ℕ} {D : ℕ × ℕ × ℕ} {e : Ex} (hD : okDeg D.1 D.2.1 D.2.2) (h : okC g K D e = true) {x : F32} (hx : Can f e x) :
    Near32 x (eval E e) (K * s.sc D.1 D.2.1 D.2.2) := by
  unfold okC at h
  split at h
  swap
  · cases h
  rename_i b hb
  have t : Tr _ _ _ _ := soundC hs hf hx hb
  refine ⟨t.fin, t.err.trans ?_⟩
  have h0 := (hs.rng hD).pos
  rcases Bool.or_eq_true _ _ ▸ h with h | h
  · rw [beq_iff_eq.1 h]
    simp only [Nat.cast_zero, zero_div, zero_mul]
    positivity
  · simp only [Bool.and_eq_true, beq_iff_eq, decide_eq_true_eq] at h
    obtain ⟨⟨⟨h1, h2⟩, h3⟩, h4⟩ := h
    rw [h2, h3, h4]
    have hk : (b.k : ℝ) ≤ 16 * K := by exact_mod_cast h1
    have hc : (b.k : ℝ) / 2 ^ 28 ≤ K / 2 ^ 24 := by
      rw [div_le_div_iff₀ (by positivity) (by positivity)]
      norm_num
      linarith
    calc _ ≤ (K : ℝ) / 2 ^ 24 * s.sc D.1 D.2.1 D.2.2 := mul_le_mul_of_nonneg_right hc h0.le
      _ = _ := by ring

def okA (a b c d : Deg × Deg) : Bool := decide (okD a) && decide (okD b) && decide (okD c) && decide (okD d)

def ok4C (a b c d : Deg × Deg) (K : ℕ) (D : ℕ × ℕ × ℕ) (K' : ℕ) (D' : ℕ × ℕ × ℕ) (v : V4 Ex) : Bool :=
  okA a b c d && okC (grade a b c d) K D v.l0 && okC (grade a b c d) K' D' v.l1 &&
    okC (grade a b c d) K' D' v.l2 && okC (grade a b c d) K' D' v.l3

def ok4R (a b c d : Deg × Deg) (K' : ℕ) (D' : ℕ × ℕ × ℕ) (v : V4 Ex) : Bool :=
  okA a b c d && okC (grade a b c d) K' D' v.l1 && okC (grade a b c d) K' D' v.l2 && okC (grade a b c d) K' D' v.l3

section
variable {s : Scales} (hs : s.Ok) {a b c d : V4 F32} {ga gb gc gd : Deg × Deg}
  (ha : a.Fits (sco s ga.1) (sco s ga.2)) (hb : b.Fits (sco s gb.1) (sco s gb.2))
  (hc : c.Fits (sco s gc.1) (sco s gc.2)) (hd : d.Fits (sco s gd.1) (sco s gd.2))
include hs ha hb hc hd

theorem near4C {K K' : ℕ} {D D' : ℕ × ℕ × ℕ} {v : V4 Ex} {w : V4 F32} (hD : okDeg D.1 D.2.1 D.2.2 := by decide)
    (hD' : okDeg D'.1 D'.2.1 D'.2.2 := by decide) (h : ok4C ga gb gc gd K D K' D' v = true) (hw : CanV (env a b c d) v w) :
    w.Near32 (evalV (env a.real b.real c.real d.real) v) (K * s.sc D.1 D.2.1 D.2.2) (K' * s.sc D'.1 D'.2.1 D'.2.2) := by
  simp only [ok4C, okA, Bool.and_eq_true, decide_eq_true_eq] at h
  obtain ⟨⟨⟨⟨⟨⟨⟨oa, ob⟩, oc⟩, od⟩, h0⟩, h1⟩, h2⟩, h3⟩ := h
  have t := tr_env oa ob oc od ha hb hc hd
  exact ⟨near_okC hs t hD h0 hw.1, near_okC hs t hD' h1 hw.2.1, near_okC hs t hD' h2 hw.2.2.1, near_okC hs t hD' h3 hw.2.2.2⟩

theorem near4R {K' : ℕ} {D' : ℕ × ℕ × ℕ} {v : V4 Ex} {w : V4 F32}
    (hD' : okDeg D'.1 D'.2.1 D'.2.2 := by decide) (h : ok4R ga gb gc gd K' D' v = true) (hw : CanV (env a b c d) v w) :
    w.Near32Rest (evalV (env a.real b.real c.real d.real) v) (K' * s.sc D'.1 D'.2.1 D'.2.2) := by
  simp only [ok4R, okA, Bool.and_eq_true, decide_eq_true_eq] at h
  obtain ⟨⟨⟨⟨⟨⟨oa, ob⟩, oc⟩, od⟩, h1⟩, h2⟩, h3⟩ := h
  have t := tr_env oa ob oc od ha hb hc hd
  exact ⟨near_okC hs t hD' h1 hw.2.1, near_okC hs t hD' h2 hw.2.2.1, near_okC hs t hD' h3 hw.2.2.2⟩

theorem near1C {K : ℕ} {D : ℕ × ℕ × ℕ} {e : Ex} {w : F32} (hD : okDeg D.1 D.2.1 D.2.2 := by decide)
    (h : (okA ga gb gc gd && okC (grade ga gb gc gd) K D e) = true) (hw : Can (env a b c d) e w) :
    Near32 w (eval (env a.real b.real c.real d.real) e) (K * s.sc D.1 D.2.1 D.2.2) := by
  simp only [okA, Bool.and_eq_true, decide_eq_true_eq] at h
  obtain ⟨⟨⟨⟨oa, ob⟩, oc⟩, od⟩, h0⟩ := h
  exact near_okC hs (tr_env oa ob oc od ha hb hc hd) hD h0 hw

end

/-! ### the library -/

theorem C94_plane_on_plane (hA : In2 A 24 24) (hB : In2 B 24 24) (hC : In2 C 20 20) {x : Plane F32} {y : Plane F32}
    (hx : x.Within A C) (hy : y.Within B C)
    {w : V4 F32} (hw : CanV (env x.p0 x.p0 y.p0 y.p0) ((Plane.mk X).onPlane (Plane.mk Y)).p0 w) :
    w.Near32 (x.real.onPlane y.real).p0 (50 * (A ^ 2 * B * C)) (35 * (A ^ 2 * B)) := by
  · rw [plane_on_plane_p0_ex x.real y.real]
    exact (near4C (s := ⟨A, B, C⟩) ⟨hA, hB, hC⟩
      (ga := (some (1, 0, 1), some (1, 0, 0))) (gb := (some (1, 0, 1), some (1, 0, 0))) (gc := (some (0, 1, 1), some (0, 1, 0))) (gd := (some (0, 1, 1), some (0, 1, 0)))
      (V4.Fits.eq hx (by deg) (by deg)) (V4.Fits.eq hx (by deg) (by deg)) (V4.Fits.eq hy (by deg) (by deg)) (V4.Fits.eq hy (by deg) (by deg)) (K := 50) (D := (2, 1, 1)) (K' := 35) (D' := (2, 1, 0))
      (h := (by decide +kernel)) (hw := hw)).eq (by units) (by units)

theorem C94_plane_on_line (hA : In2 A 24 24) (hB : In2 B 24 24) (hC : In2 C 20 20) {x : Plane F32} {y : Line F32}
    (hx : x.Within A C) (hy : y.Within B C)
    {w1 : V4 F32} (hw1 : CanV (env x.p0 x.p0 y.p1 y.p2) ((Plane.mk X).onLine (Line.mk Y Y')).p1 w1)
    {w2 : V4 F32} (hw2 : CanV (env x.p0 x.p0 y.p1 y.p2) ((Plane.mk X).onLine (Line.mk Y Y')).p2 w2) :
    w1.Near32 (x.real.onLine y.real).p1 0 (35 * (A ^ 2 * B)) ∧
    w2.Near32 (x.real.onLine y.real).p2 0 (63 * (A ^ 2 * B * C)) := by
  constructor
  · rw [plane_on_line_p1_ex x.real y.real]
    exact (near4C (s := ⟨A, B, C⟩) ⟨hA, hB, hC⟩
      (ga := (some (1, 0, 1), some (1, 0, 0))) (gb := (some (1, 0, 1), some (1, 0, 0))) (gc := (none, some (0, 1, 0))) (gd := (none, some (0, 1, 1)))
      (V4.Fits.eq hx (by deg) (by deg)) (V4.Fits.eq hx (by deg) (by deg)) (hy.1.eq (by deg) (by deg)) (hy.2.eq (by deg) (by deg)) (K := 0) (D := (0, 0, 0)) (K' := 35) (D' := (2, 1, 0))
      (h := (by decide +kernel)) (hw := hw1)).eq (by units) (by units)
  · rw [plane_on_line_p2_ex x.real y.real]
    exact (near4C (s := ⟨A, B, C⟩) ⟨hA, hB, hC⟩
      (ga := (some (1, 0, 1), some (1, 0, 0))) (gb := (some (1, 0, 1), some (1, 0, 0))) (gc := (none, some (0, 1, 0))) (gd := (none, some (0, 1, 1)))
      (V4.Fits.eq hx (by deg) (by deg)) (V4.Fits.eq hx (by deg) (by deg)) (hy.1.eq (by deg) (by deg)) (hy.2.eq (by deg) (by deg)) (K := 0) (D := (0, 0, 0)) (K' := 63) (D' := (2, 1, 1))
      (h := (by decide +kernel)) (hw := hw2)).eq (by units) (by units)

theorem C94_plane_on_point (hA : In2 A 24 24) (hB : In2 B 24 24) (hC : In2 C 20 20) {x : Plane F32} {y : Point F32}
    (hx : x.Within A C) (hy : y.Within B C)
    {w : V4 F32} (hw : CanV (env x.p0 x.p0 y.p3 y.p3) ((Plane.mk X).onPoint (Point.mk Y)).p3 w) :
    w.Near32 (x.real.onPoint y.real).p3 (12 * (A ^ 2 * B)) (50 * (A ^ 2 * B * C)) := by
  · rw [plane_on_point_p3_ex x.real y.real]
    exact (near4C (s := ⟨A, B, C⟩) ⟨hA, hB, hC⟩
      (ga := (some (1, 0, 1), some (1, 0, 0))) (gb := (some (1, 0, 1), some (1, 0, 0))) (gc := (some (0, 1, 0), some (0, 1, 1))) (gd := (some (0, 1, 0), some (0, 1, 1)))
      (V4.Fits.eq hx (by deg) (by deg)) (V4.Fits.eq hx (by deg) (by deg)) (V4.Fits.eq hy (by deg) (by deg)) (V4.Fits.eq hy (by deg) (by deg)) (K := 12) (D := (2, 1, 0)) (K' := 50) (D' := (2, 1, 1))
      (h := (by decide +kernel)) (hw := hw)).eq (by units) (by units)

theorem C94_rotor_on_plane (hA : In2 A 24 24) (hB : In2 B 24 24) (hC : In2 C 20 20) (isa : Isa) {x : Rotor F32} {y : Plane F32}
    (hx : x.Within A) (hy : y.Within B C)
    {w : V4 F32} (hw : CanV (env x.p1 x.p1 y.p0 y.p0) ((Rotor.mk X).onPlane isa (Plane.mk Y)).p0 w) :
    w.Near32 (x.real.onPlane isa y.real).p0 (47 * (A ^ 2 * B * C)) (71 * (A ^ 2 * B)) := by
  · rw [rotor_on_plane_p0_ex isa x.real y.real]
    exact (near4C (s := ⟨A, B, C⟩) ⟨hA, hB, hC⟩
      (ga := (some (1, 0, 0), some (1, 0, 0))) (gb := (some (1, 0, 0), some (1, 0, 0))) (gc := (some (0, 1, 1), some (0, 1, 0))) (gd := (some (0, 1, 1), some (0, 1, 0)))
      (V4.Fits.eq hx (by deg) (by deg)) (V4.Fits.eq hx (by deg) (by deg)) (V4.Fits.eq hy (by deg) (by deg)) (V4.Fits.eq hy (by deg) (by deg)) (K := 47) (D := (2, 1, 1)) (K' := 71) (D' := (2, 1, 0))
      (h := (by cases isa <;> decide +kernel)) (hw := hw)).eq (by units) (by units)

theorem C94_rotor_on_branch (hA : In2 A 24 24) (hB : In2 B 24 24) {x : Rotor F32} {y : Branch F32}
    (hx : x.Within A) (hy : y.Within B)
    {w : V4 F32} (hw : CanV (env x.p1 x.p1 y.p1 y.p1) ((Rotor.mk X).onBranch (Branch.mk Y)).p1 w) :
    w.Near32 (x.real.onBranch y.real).p1 0 (70 * (A ^ 2 * B)) := by
  · rw [rotor_on_branch_p1_ex x.real y.real]
    exact (near4C (s := ⟨A, B, 1⟩) ⟨hA, hB, one_C⟩
      (ga := (some (1, 0, 0), some (1, 0, 0))) (gb := (some (1, 0, 0), some (1, 0, 0))) (gc := (none, some (0, 1, 0))) (gd := (none, some (0, 1, 0)))
      (V4.Fits.eq hx (by deg) (by deg)) (V4.Fits.eq hx (by deg) (by deg)) (V4.Fits.eq hy (by deg) (by deg)) (V4.Fits.eq hy (by deg) (by deg)) (K := 0) (D := (0, 0, 0)) (K' := 70) (D' := (2, 1, 0))
      (h := (by decide +kernel)) (hw := hw)).eq (by units) (by units)

theorem C94_rotor_on_line (hA : In2 A 24 24) (hB : In2 B 24 24) (hC : In2 C 20 20) {x : Rotor F32} {y : Line F32}
    (hx : x.Within A) (hy : y.Within B C)
    {w1 : V4 F32} (hw1 : CanV (env x.p1 x.p1 y.p1 y.p2) ((Rotor.mk X).onLine (Line.mk Y Y')).p1 w1)
    {w2 : V4 F32} (hw2 : CanV (env x.p1 x.p1 y.p1 y.p2) ((Rotor.mk X).onLine (Line.mk Y Y')).p2 w2) :
    w1.Near32 (x.real.onLine y.real).p1 0 (70 * (A ^ 2 * B)) ∧
    w2.Near32 (x.real.onLine y.real).p2 0 (70 * (A ^ 2 * B * C)) := by
  constructor
  · rw [rotor_on_line_p1_ex x.real y.real]
    exact (near4C (s := ⟨A, B, C⟩) ⟨hA, hB, hC⟩
      (ga := (some (1, 0, 0), some (1, 0, 0))) (gb := (some (1, 0, 0), some (1, 0, 0))) (gc := (none, some (0, 1, 0))) (gd := (none, some (0, 1, 1)))
      (V4.Fits.eq hx (by deg) (by deg)) (V4.Fits.eq hx (by deg) (by deg)) (hy.1.eq (by deg) (by deg)) (hy.2.eq (by deg) (by deg)) (K := 0) (D := (0, 0, 0)) (K' := 70) (D' := (2, 1, 0))
      (h := (by decide +kernel)) (hw := hw1)).eq (by units) (by units)
  · rw [rotor_on_line_p2_ex x.real y.real]
    exact (near4C (s := ⟨A, B, C⟩) ⟨hA, hB, hC⟩
      (ga := (some (1, 0, 0), some (1, 0, 0))) (gb := (some (1, 0, 0), some (1, 0, 0))) (gc := (none, some (0, 1, 0))) (gd := (none, some (0, 1, 1)))
      (V4.Fits.eq hx (by deg) (by deg)) (V4.Fits.eq hx (by deg) (by deg)) (hy.1.eq (by deg) (by deg)) (hy.2.eq (by deg) (by deg)) (K := 0) (D := (0, 0, 0)) (K' := 70) (D' := (2, 1, 1))
      (h := (by decide +kernel)) (hw := hw2)).eq (by units) (by units)

theorem C94_rotor_on_point (hA : In2 A 24 24) (hB : In2 B 24 24) (hC : In2 C 20 20) (isa : Isa) {x : Rotor F32} {y : Point F32}
    (hx : x.Within A) (hy : y.Within B C)
    {w : V4 F32} (hw : CanV (env x.p1 x.p1 y.p3 y.p3) ((Rotor.mk X).onPoint isa (Point.mk Y)).p3 w) :
    w.Near32 (x.real.onPoint isa y.real).p3 (47 * (A ^ 2 * B)) (71 * (A ^ 2 * B * C)) := by
  · rw [rotor_on_point_p3_ex isa x.real y.real]
    exact (near4C (s := ⟨A, B, C⟩) ⟨hA, hB, hC⟩
      (ga := (some (1, 0, 0), some (1, 0, 0))) (gb := (some (1, 0, 0), some (1, 0, 0))) (gc := (some (0, 1, 0), some (0, 1, 1))) (gd := (some (0, 1, 0), some (0, 1, 1)))
      (V4.Fits.eq hx (by deg) (by deg)) (V4.Fits.eq hx (by deg) (by deg)) (V4.Fits.eq hy (by deg) (by deg)) (V4.Fits.eq hy (by deg) (by deg)) (K := 47) (D := (2, 1, 0)) (K' := 71) (D' := (2, 1, 1))
      (h := (by cases isa <;> decide +kernel)) (hw := hw)).eq (by units) (by units)

theorem C94_rotor_on_direction (hA : In2 A 24 24) (hB : In2 B 24 24) (isa : Isa) {x : Rotor F32} {y : Direction F32}
    (hx : x.Within A) (hy : y.Within B)
    {w : V4 F32} (hw : CanV (env x.p1 x.p1 y.p3 y.p3) ((Rotor.mk X).onDirection isa (Direction.mk Y)).p3 w) :
    w.Near32 (x.real.onDirection isa y.real).p3 0 (71 * (A ^ 2 * B)) := by
  · rw [rotor_on_direction_p3_ex isa x.real y.real]
    exact (near4C (s := ⟨A, B, 1⟩) ⟨hA, hB, one_C⟩
      (ga := (some (1, 0, 0), some (1, 0, 0))) (gb := (some (1, 0, 0), some (1, 0, 0))) (gc := (none, some (0, 1, 0))) (gd := (none, some (0, 1, 0)))
      (V4.Fits.eq hx (by deg) (by deg)) (V4.Fits.eq hx (by deg) (by deg)) (V4.Fits.eq hy (by deg) (by deg)) (V4.Fits.eq hy (by deg) (by deg)) (K := 0) (D := (0, 0, 0)) (K' := 71) (D' := (2, 1, 0))
      (h := (by cases isa <;> decide +kernel)) (hw := hw)).eq (by units) (by units)

theorem C94_translator_on_line (hB : In2 B 24 24) (hC : In2 C 20 20) {x : Translator F32} {y : Line F32}
    (hx : x.Within C) (hy : y.Within B C)
    {w1 : V4 F32} (hw1 : CanV (env x.p2 x.p2 y.p1 y.p2) ((Translator.mk X).onLine (Line.mk Y Y')).p1 w1)
    {w2 : V4 F32} (hw2 : CanV (env x.p2 x.p2 y.p1 y.p2) ((Translator.mk X).onLine (Line.mk Y Y')).p2 w2) :
    w1.Near32 (x.real.onLine y.real).p1 0 0 ∧
    w2.Near32 (x.real.onLine y.real).p2 0 (30 * (B * C)) := by
  constructor
  · rw [translator_on_line_p1_ex x.real y.real]
    exact (near4C (s := ⟨1, B, C⟩) ⟨one_A, hB, hC⟩
      (ga := (some (0, 0, 1), some (0, 0, 1))) (gb := (some (0, 0, 1), some (0, 0, 1))) (gc := (none, some (0, 1, 0))) (gd := (none, some (0, 1, 1)))
      (V4.Fits.eq hx (by deg) (by deg)) (V4.Fits.eq hx (by deg) (by deg)) (hy.1.eq (by deg) (by deg)) (hy.2.eq (by deg) (by deg)) (K := 0) (D := (0, 0, 0)) (K' := 0) (D' := (0, 0, 0))
      (h := (by decide +kernel)) (hw := hw1)).eq (by units) (by units)
  · rw [translator_on_line_p2_ex x.real y.real]
    exact (near4C (s := ⟨1, B, C⟩) ⟨one_A, hB, hC⟩
      (ga := (some (0, 0, 1), some (0, 0, 1))) (gb := (some (0, 0, 1), some (0, 0, 1))) (gc := (none, some (0, 1, 0))) (gd := (none, some (0, 1, 1)))
      (V4.Fits.eq hx (by deg) (by deg)) (V4.Fits.eq hx (by deg) (by deg)) (hy.1.eq (by deg) (by deg)) (hy.2.eq (by deg) (by deg)) (K := 0) (D := (0, 0, 0)) (K' := 30) (D' := (0, 1, 1))
      (h := (by decide +kernel)) (hw := hw2)).eq (by units) (by units)

theorem C94_translator_on_point (hB : In2 B 24 24) (hC : In2 C 20 20) {x : Translator F32} {y : Point F32}
    (hx : x.Within C) (hy : y.Within B C)
    {w : V4 F32} (hw : CanV (env x.p2 x.p2 y.p3 y.p3) ((Translator.mk X).onPoint (Point.mk Y)).p3 w) :
    w.Near32 (x.real.onPoint y.real).p3 0 (8 * (B * C)) := by
  · rw [translator_on_point_p3_ex x.real y.real]
    exact (near4C (s := ⟨1, B, C⟩) ⟨one_A, hB, hC⟩
      (ga := (some (0, 0, 1), some (0, 0, 1))) (gb := (some (0, 0, 1), some (0, 0, 1))) (gc := (some (0, 1, 0), some (0, 1, 1))) (gd := (some (0, 1, 0), some (0, 1, 1)))
      (V4.Fits.eq hx (by deg) (by deg)) (V4.Fits.eq hx (by deg) (by deg)) (V4.Fits.eq hy (by deg) (by deg)) (V4.Fits.eq hy (by deg) (by deg)) (K := 0) (D := (0, 0, 0)) (K' := 8) (D' := (0, 1, 1))
      (h := (by decide +kernel)) (hw := hw)).eq (by units) (by units)

theorem C94_motor_on_plane (hA : In2 A 24 24) (hB : In2 B 24 24) (hC : In2 C 20 20) (isa : Isa) {x : Motor F32} {y : Plane F32}
    (hx : x.Within A C) (hy : y.Within B C)
    {w : V4 F32} (hw : CanV (env x.p1 x.p2 y.p0 y.p0) ((Motor.mk X X').onPlane isa (Plane.mk Y)).p0 w) :
    w.Near32 (x.real.onPlane isa y.real).p0 (248 * (A ^ 2 * B * C)) (71 * (A ^ 2 * B)) := by
  · rw [motor_on_plane_p0_ex isa x.real y.real]
    exact (near4C (s := ⟨A, B, C⟩) ⟨hA, hB, hC⟩
      (ga := (some (1, 0, 0), some (1, 0, 0))) (gb := (some (1, 0, 1), some (1, 0, 1))) (gc := (some (0, 1, 1), some (0, 1, 0))) (gd := (some (0, 1, 1), some (0, 1, 0)))
      (hx.1.eq (by deg) (by deg)) (hx.2.eq (by deg) (by deg)) (V4.Fits.eq hy (by deg) (by deg)) (V4.Fits.eq hy (by deg) (by deg)) (K := 248) (D := (2, 1, 1)) (K' := 71) (D' := (2, 1, 0))
      (h := (by cases isa <;> decide +kernel)) (hw := hw)).eq (by units) (by units)

theorem C94_motor_on_line (hA : In2 A 24 24) (hB : In2 B 24 24) (hC : In2 C 20 20) {x : Motor F32} {y : Line F32}
    (hx : x.Within A C) (hy : y.Within B C)
    {w1 : V4 F32} (hw1 : CanV (env x.p1 x.p2 y.p1 y.p2) ((Motor.mk X X').onLine (Line.mk Y Y')).p1 w1)
    {w2 : V4 F32} (hw2 : CanV (env x.p1 x.p2 y.p1 y.p2) ((Motor.mk X X').onLine (Line.mk Y Y')).p2 w2) :
    w1.Near32 (x.real.onLine y.real).p1 0 (70 * (A ^ 2 * B)) ∧
    w2.Near32 (x.real.onLine y.real).p2 0 (283 * (A ^ 2 * B * C)) := by
  constructor
  · rw [motor_on_line_p1_ex x.real y.real]
    exact (near4C (s := ⟨A, B, C⟩) ⟨hA, hB, hC⟩
      (ga := (some (1, 0, 0), some (1, 0, 0))) (gb := (some (1, 0, 1), some (1, 0, 1))) (gc := (none, some (0, 1, 0))) (gd := (none, some (0, 1, 1)))
      (hx.1.eq (by deg) (by deg)) (hx.2.eq (by deg) (by deg)) (hy.1.eq (by deg) (by deg)) (hy.2.eq (by deg) (by deg)) (K := 0) (D := (0, 0, 0)) (K' := 70) (D' := (2, 1, 0))
      (h := (by decide +kernel)) (hw := hw1)).eq (by units) (by units)
  · rw [motor_on_line_p2_ex x.real y.real]
    exact (near4C (s := ⟨A, B, C⟩) ⟨hA, hB, hC⟩
      (ga := (some (1, 0, 0), some (1, 0, 0))) (gb := (some (1, 0, 1), some (1, 0, 1))) (gc := (none, some (0, 1, 0))) (gd := (none, some (0, 1, 1)))
      (hx.1.eq (by deg) (by deg)) (hx.2.eq (by deg) (by deg)) (hy.1.eq (by deg) (by deg)) (hy.2.eq (by deg) (by deg)) (K := 0) (D := (0, 0, 0)) (K' := 283) (D' := (2, 1, 1))
      (h := (by decide +kernel)) (hw := hw2)).eq (by units) (by units)

theorem C94_motor_on_point (hA : In2 A 24 24) (hB : In2 B 24 24) (hC : In2 C 20 20) {x : Motor F32} {y : Point F32}
    (hx : x.Within A C) (hy : y.Within B C)
    {w : V4 F32} (hw : CanV (env x.p1 x.p2 y.p3 y.p3) ((Motor.mk X X').onPoint (Point.mk Y)).p3 w) :
    w.Near32 (x.real.onPoint y.real).p3 (17 * (A ^ 2 * B)) (133 * (A ^ 2 * B * C)) := by
  · rw [motor_on_point_p3_ex x.real y.real]
    exact (near4C (s := ⟨A, B, C⟩) ⟨hA, hB, hC⟩
      (ga := (some (1, 0, 0), some (1, 0, 0))) (gb := (some (1, 0, 1), some (1, 0, 1))) (gc := (some (0, 1, 0), some (0, 1, 1))) (gd := (some (0, 1, 0), some (0, 1, 1)))
      (hx.1.eq (by deg) (by deg)) (hx.2.eq (by deg) (by deg)) (V4.Fits.eq hy (by deg) (by deg)) (V4.Fits.eq hy (by deg) (by deg)) (K := 17) (D := (2, 1, 0)) (K' := 133) (D' := (2, 1, 1))
      (h := (by decide +kernel)) (hw := hw)).eq (by units) (by units)

theorem C94_motor_on_origin (hA : In2 A 24 24) (hC : In2 C 20 20) {x : Motor F32}
    (hx : x.Within A C)
    {w : V4 F32} (hw : CanV (env x.p1 x.p2 x.p1 x.p1) ((Motor.mk X X').onOrigin).p3 w) :
    w.Near32 (x.real.onOrigin).p3 0 (35 * (A ^ 2 * C)) := by
  · rw [motor_on_origin_p3_ex x.real]
    exact (near4C (s := ⟨A, 1, C⟩) ⟨hA, one_A, hC⟩
      (ga := (some (1, 0, 0), some (1, 0, 0))) (gb := (some (1, 0, 1), some (1, 0, 1))) (gc := (some (1, 0, 0), some (1, 0, 0))) (gd := (some (1, 0, 0), some (1, 0, 0)))
      (hx.1.eq (by deg) (by deg)) (hx.2.eq (by deg) (by deg)) (hx.1.eq (by deg) (by deg)) (hx.1.eq (by deg) (by deg)) (K := 0) (D := (0, 0, 0)) (K' := 35) (D' := (2, 0, 1))
      (h := (by decide +kernel)) (hw := hw)).eq (by units) (by units)

theorem C94_motor_on_direction (hA : In2 A 24 24) (hB : In2 B 24 24) (hC : In2 C 20 20) {x : Motor F32} {y : Direction F32}
    (hx : x.Within A C) (hy : y.Within B)
    {w : V4 F32} (hw : CanV (env x.p1 x.p2 y.p3 y.p3) ((Motor.mk X X').onDirection (Direction.mk Y)).p3 w) :
    w.Near32 (x.real.onDirection y.real).p3 0 (70 * (A ^ 2 * B)) := by
  · rw [motor_on_direction_p3_ex x.real y.real]
    exact (near4C (s := ⟨A, B, C⟩) ⟨hA, hB, hC⟩
      (ga := (some (1, 0, 0), some (1, 0, 0))) (gb := (some (1, 0, 1), some (1, 0, 1))) (gc := (none, some (0, 1, 0))) (gd := (none, some (0, 1, 0)))
      (hx.1.eq (by deg) (by deg)) (hx.2.eq (by deg) (by deg)) (V4.Fits.eq hy (by deg) (by deg)) (V4.Fits.eq hy (by deg) (by deg)) (K := 0) (D := (0, 0, 0)) (K' := 70) (D' := (2, 1, 0))
      (h := (by decide +kernel)) (hw := hw)).eq (by units) (by units)

theorem C94_plane_mul_plane (hA : In2 A 24 24) (hB : In2 B 24 24) (hC : In2 C 20 20) {x : Plane F32} {y : Plane F32}
    (hx : x.Within A C) (hy : y.Within B C)
    {w1 : V4 F32} (hw1 : CanV (env x.p0 x.p0 y.p0 y.p0) ((Plane.mk X).mulPlane (Plane.mk Y)).p1 w1)
    {w2 : V4 F32} (hw2 : CanV (env x.p0 x.p0 y.p0 y.p0) ((Plane.mk X).mulPlane (Plane.mk Y)).p2 w2) :
    w1.Near32 (x.real.mulPlane y.real).p1 (9 * (A * B)) (5 * (A * B)) ∧
    w2.Near32 (x.real.mulPlane y.real).p2 (5 * (A * B * C ^ 2)) (5 * (A * B * C)) := by
  constructor
  · rw [plane_mul_plane_p1_ex x.real y.real]
    exact (near4C (s := ⟨A, B, C⟩) ⟨hA, hB, hC⟩
      (ga := (some (1, 0, 1), some (1, 0, 0))) (gb := (some (1, 0, 1), some (1, 0, 0))) (gc := (some (0, 1, 1), some (0, 1, 0))) (gd := (some (0, 1, 1), some (0, 1, 0)))
      (V4.Fits.eq hx (by deg) (by deg)) (V4.Fits.eq hx (by deg) (by deg)) (V4.Fits.eq hy (by deg) (by deg)) (V4.Fits.eq hy (by deg) (by deg)) (K := 9) (D := (1, 1, 0)) (K' := 5) (D' := (1, 1, 0))
      (h := (by decide +kernel)) (hw := hw1)).eq (by units) (by units)
  · rw [plane_mul_plane_p2_ex x.real y.real]
    exact (near4C (s := ⟨A, B, C⟩) ⟨hA, hB, hC⟩
      (ga := (some (1, 0, 1), some (1, 0, 0))) (gb := (some (1, 0, 1), some (1, 0, 0))) (gc := (some (0, 1, 1), some (0, 1, 0))) (gd := (some (0, 1, 1), some (0, 1, 0)))
      (V4.Fits.eq hx (by deg) (by deg)) (V4.Fits.eq hx (by deg) (by deg)) (V4.Fits.eq hy (by deg) (by deg)) (V4.Fits.eq hy (by deg) (by deg)) (K := 5) (D := (1, 1, 2)) (K' := 5) (D' := (1, 1, 1))
      (h := (by decide +kernel)) (hw := hw2)).eq (by units) (by units)

theorem C94_plane_mul_point (hA : In2 A 24 24) (hB : In2 B 24 24) (hC : In2 C 20 20) (isa : Isa) {x : Plane F32} {y : Point F32}
    (hx : x.Within A C) (hy : y.Within B C)
    {w1 : V4 F32} (hw1 : CanV (env x.p0 x.p0 y.p3 y.p3) ((Plane.mk X).mulPoint isa (Point.mk Y)).p1 w1)
    {w2 : V4 F32} (hw2 : CanV (env x.p0 x.p0 y.p3 y.p3) ((Plane.mk X).mulPoint isa (Point.mk Y)).p2 w2) :
    w1.Near32 (x.real.mulPoint isa y.real).p1 0 (2 * (A * B)) ∧
    w2.Near32 (x.real.mulPoint isa y.real).p2 (23 * (A * B * C)) (5 * (A * B * C)) := by
  constructor
  · rw [plane_mul_point_p1_ex isa x.real y.real]
    exact (near4C (s := ⟨A, B, C⟩) ⟨hA, hB, hC⟩
      (ga := (some (1, 0, 1), some (1, 0, 0))) (gb := (some (1, 0, 1), some (1, 0, 0))) (gc := (some (0, 1, 0), some (0, 1, 1))) (gd := (some (0, 1, 0), some (0, 1, 1)))
      (V4.Fits.eq hx (by deg) (by deg)) (V4.Fits.eq hx (by deg) (by deg)) (V4.Fits.eq hy (by deg) (by deg)) (V4.Fits.eq hy (by deg) (by deg)) (K := 0) (D := (0, 0, 0)) (K' := 2) (D' := (1, 1, 0))
      (h := (by cases isa <;> decide +kernel)) (hw := hw1)).eq (by units) (by units)
  · rw [plane_mul_point_p2_ex isa x.real y.real]
    exact (near4C (s := ⟨A, B, C⟩) ⟨hA, hB, hC⟩
      (ga := (some (1, 0, 1), some (1, 0, 0))) (gb := (some (1, 0, 1), some (1, 0, 0))) (gc := (some (0, 1, 0), some (0, 1, 1))) (gd := (some (0, 1, 0), some (0, 1, 1)))
      (V4.Fits.eq hx (by deg) (by deg)) (V4.Fits.eq hx (by deg) (by deg)) (V4.Fits.eq hy (by deg) (by deg)) (V4.Fits.eq hy (by deg) (by deg)) (K := 23) (D := (1, 1, 1)) (K' := 5) (D' := (1, 1, 1))
      (h := (by cases isa <;> decide +kernel)) (hw := hw2)).eq (by units) (by units)

theorem C94_point_mul_plane (hA : In2 A 24 24) (hB : In2 B 24 24) (hC : In2 C 20 20) (isa : Isa) {x : Point F32} {y : Plane F32}
    (hx : x.Within A C) (hy : y.Within B C)
    {w1 : V4 F32} (hw1 : CanV (env x.p3 x.p3 y.p0 y.p0) ((Point.mk X).mulPlane isa (Plane.mk Y)).p1 w1)
    {w2 : V4 F32} (hw2 : CanV (env x.p3 x.p3 y.p0 y.p0) ((Point.mk X).mulPlane isa (Plane.mk Y)).p2 w2) :
    w1.Near32 (x.real.mulPlane isa y.real).p1 0 (2 * (A * B)) ∧
    w2.Near32 (x.real.mulPlane isa y.real).p2 (23 * (A * B * C)) (5 * (A * B * C)) := by
  constructor
  · rw [point_mul_plane_p1_ex isa x.real y.real]
    exact (near4C (s := ⟨A, B, C⟩) ⟨hA, hB, hC⟩
      (ga := (some (1, 0, 0), some (1, 0, 1))) (gb := (some (1, 0, 0), some (1, 0, 1))) (gc := (some (0, 1, 1), some (0, 1, 0))) (gd := (some (0, 1, 1), some (0, 1, 0)))
      (V4.Fits.eq hx (by deg) (by deg)) (V4.Fits.eq hx (by deg) (by deg)) (V4.Fits.eq hy (by deg) (by deg)) (V4.Fits.eq hy (by deg) (by deg)) (K := 0) (D := (0, 0, 0)) (K' := 2) (D' := (1, 1, 0))
      (h := (by cases isa <;> decide +kernel)) (hw := hw1)).eq (by units) (by units)
  · rw [point_mul_plane_p2_ex isa x.real y.real]
    exact (near4C (s := ⟨A, B, C⟩) ⟨hA, hB, hC⟩
      (ga := (some (1, 0, 0), some (1, 0, 1))) (gb := (some (1, 0, 0), some (1, 0, 1))) (gc := (some (0, 1, 1), some (0, 1, 0))) (gd := (some (0, 1, 1), some (0, 1, 0)))
      (V4.Fits.eq hx (by deg) (by deg)) (V4.Fits.eq hx (by deg) (by deg)) (V4.Fits.eq hy (by deg) (by deg)) (V4.Fits.eq hy (by deg) (by deg)) (K := 23) (D := (1, 1, 1)) (K' := 5) (D' := (1, 1, 1))
      (h := (by cases isa <;> decide +kernel)) (hw := hw2)).eq (by units) (by units)

theorem C94_branch_mul_branch (hA : In2 A 24 24) (hB : In2 B 24 24) {x : Branch F32} {y : Branch F32}
    (hx : x.Within A) (hy : y.Within B)
    {w : V4 F32} (hw : CanV (env x.p1 x.p1 y.p1 y.p1) ((Branch.mk X).mulBranch (Branch.mk Y)).p1 w) :
    w.Near32 (x.real.mulBranch y.real).p1 (9 * (A * B)) (5 * (A * B)) := by
  · rw [branch_mul_branch_p1_ex x.real y.real]
    exact (near4C (s := ⟨A, B, 1⟩) ⟨hA, hB, one_C⟩
      (ga := (none, some (1, 0, 0))) (gb := (none, some (1, 0, 0))) (gc := (none, some (0, 1, 0))) (gd := (none, some (0, 1, 0)))
      (V4.Fits.eq hx (by deg) (by deg)) (V4.Fits.eq hx (by deg) (by deg)) (V4.Fits.eq hy (by deg) (by deg)) (V4.Fits.eq hy (by deg) (by deg)) (K := 9) (D := (1, 1, 0)) (K' := 5) (D' := (1, 1, 0))
      (h := (by decide +kernel)) (hw := hw)).eq (by units) (by units)

theorem C94_line_mul_line (hA : In2 A 24 24) (hB : In2 B 24 24) (hC : In2 C 20 20) {x : Line F32} {y : Line F32}
    (hx : x.Within A C) (hy : y.Within B C)
    {w1 : V4 F32} (hw1 : CanV (env x.p1 x.p2 y.p1 y.p2) ((Line.mk X X').mulLine (Line.mk Y Y')).p1 w1)
    {w2 : V4 F32} (hw2 : CanV (env x.p1 x.p2 y.p1 y.p2) ((Line.mk X X').mulLine (Line.mk Y Y')).p2 w2) :
    w1.Near32 (x.real.mulLine y.real).p1 (9 * (A * B)) (5 * (A * B)) ∧
    w2.Near32 (x.real.mulLine y.real).p2 (27 * (A * B * C)) (14 * (A * B * C)) := by
  constructor
  · rw [line_mul_line_p1_ex x.real y.real]
    exact (near4C (s := ⟨A, B, C⟩) ⟨hA, hB, hC⟩
      (ga := (none, some (1, 0, 0))) (gb := (none, some (1, 0, 1))) (gc := (none, some (0, 1, 0))) (gd := (none, some (0, 1, 1)))
      (hx.1.eq (by deg) (by deg)) (hx.2.eq (by deg) (by deg)) (hy.1.eq (by deg) (by deg)) (hy.2.eq (by deg) (by deg)) (K := 9) (D := (1, 1, 0)) (K' := 5) (D' := (1, 1, 0))
      (h := (by decide +kernel)) (hw := hw1)).eq (by units) (by units)
  · rw [line_mul_line_p2_ex x.real y.real]
    exact (near4C (s := ⟨A, B, C⟩) ⟨hA, hB, hC⟩
      (ga := (none, some (1, 0, 0))) (gb := (none, some (1, 0, 1))) (gc := (none, some (0, 1, 0))) (gd := (none, some (0, 1, 1)))
      (hx.1.eq (by deg) (by deg)) (hx.2.eq (by deg) (by deg)) (hy.1.eq (by deg) (by deg)) (hy.2.eq (by deg) (by deg)) (K := 27) (D := (1, 1, 1)) (K' := 14) (D' := (1, 1, 1))
      (h := (by decide +kernel)) (hw := hw2)).eq (by units) (by units)

theorem C94_rotor_mul_rotor (hA : In2 A 24 24) (hB : In2 B 24 24) {x : Rotor F32} {y : Rotor F32}
    (hx : x.Within A) (hy : y.Within B)
    {w : V4 F32} (hw : CanV (env x.p1 x.p1 y.p1 y.p1) ((Rotor.mk X).mulRotor (Rotor.mk Y)).p1 w) :
    w.Near32 (x.real.mulRotor y.real).p1 (13 * (A * B)) (13 * (A * B)) := by
  · rw [rotor_mul_rotor_p1_ex x.real y.real]
    exact (near4C (s := ⟨A, B, 1⟩) ⟨hA, hB, one_C⟩
      (ga := (some (1, 0, 0), some (1, 0, 0))) (gb := (some (1, 0, 0), some (1, 0, 0))) (gc := (some (0, 1, 0), some (0, 1, 0))) (gd := (some (0, 1, 0), some (0, 1, 0)))
      (V4.Fits.eq hx (by deg) (by deg)) (V4.Fits.eq hx (by deg) (by deg)) (V4.Fits.eq hy (by deg) (by deg)) (V4.Fits.eq hy (by deg) (by deg)) (K := 13) (D := (1, 1, 0)) (K' := 13) (D' := (1, 1, 0))
      (h := (by decide +kernel)) (hw := hw)).eq (by units) (by units)

theorem C94_dual_mul_line (hA : In2 A 24 24) (hB : In2 B 24 24) (hC : In2 C 20 20) {x : Dual F32} {y : Line F32}
    (hx : x.Within A C) (hy : y.Within B C)
    {w1 : V4 F32} (hw1 : CanV (env ⟨x.p, x.q, x.q, x.q⟩ ⟨x.p, x.q, x.q, x.q⟩ y.p1 y.p2) ((Dual.mk X.l0 X.l1).mulLine (Line.mk Y Y')).p1 w1)
    {w2 : V4 F32} (hw2 : CanV (env ⟨x.p, x.q, x.q, x.q⟩ ⟨x.p, x.q, x.q, x.q⟩ y.p1 y.p2) ((Dual.mk X.l0 X.l1).mulLine (Line.mk Y Y')).p2 w2) :
    w1.Near32 (x.real.mulLine y.real).p1 0 (2 * (A * B)) ∧
    w2.Near32 (x.real.mulLine y.real).p2 0 (5 * (A * B * C)) := by
  constructor
  · rw [dual_mul_line_p1_ex x.real y.real]
    exact (near4C (s := ⟨A, B, C⟩) ⟨hA, hB, hC⟩
      (ga := (some (1, 0, 0), some (1, 0, 1))) (gb := (some (1, 0, 0), some (1, 0, 1))) (gc := (none, some (0, 1, 0))) (gd := (none, some (0, 1, 1)))
      (hx.reg.eq (by deg) (by deg)) (hx.reg.eq (by deg) (by deg)) (hy.1.eq (by deg) (by deg)) (hy.2.eq (by deg) (by deg)) (K := 0) (D := (0, 0, 0)) (K' := 2) (D' := (1, 1, 0))
      (h := (by decide +kernel)) (hw := hw1)).eq (by units) (by units)
  · rw [dual_mul_line_p2_ex x.real y.real]
    exact (near4C (s := ⟨A, B, C⟩) ⟨hA, hB, hC⟩
      (ga := (some (1, 0, 0), some (1, 0, 1))) (gb := (some (1, 0, 0), some (1, 0, 1))) (gc := (none, some (0, 1, 0))) (gd := (none, some (0, 1, 1)))
      (hx.reg.eq (by deg) (by deg)) (hx.reg.eq (by deg) (by deg)) (hy.1.eq (by deg) (by deg)) (hy.2.eq (by deg) (by deg)) (K := 0) (D := (0, 0, 0)) (K' := 5) (D' := (1, 1, 1))
      (h := (by decide +kernel)) (hw := hw2)).eq (by units) (by units)

theorem C94_line_mul_dual (hA : In2 A 24 24) (hB : In2 B 24 24) (hC : In2 C 20 20) {x : Line F32} {y : Dual F32}
    (hx : x.Within A C) (hy : y.Within B C)
    {w1 : V4 F32} (hw1 : CanV (env x.p1 x.p2 ⟨y.p, y.q, y.q, y.q⟩ ⟨y.p, y.q, y.q, y.q⟩) ((Line.mk X X').mulDual (Dual.mk Y.l0 Y.l1)).p1 w1)
    {w2 : V4 F32} (hw2 : CanV (env x.p1 x.p2 ⟨y.p, y.q, y.q, y.q⟩ ⟨y.p, y.q, y.q, y.q⟩) ((Line.mk X X').mulDual (Dual.mk Y.l0 Y.l1)).p2 w2) :
    w1.Near32 (x.real.mulDual y.real).p1 0 (2 * (A * B)) ∧
    w2.Near32 (x.real.mulDual y.real).p2 0 (5 * (A * B * C)) := by
  constructor
  · rw [line_mul_dual_p1_ex x.real y.real]
    exact (near4C (s := ⟨A, B, C⟩) ⟨hA, hB, hC⟩
      (ga := (none, some (1, 0, 0))) (gb := (none, some (1, 0, 1))) (gc := (some (0, 1, 0), some (0, 1, 1))) (gd := (some (0, 1, 0), some (0, 1, 1)))
      (hx.1.eq (by deg) (by deg)) (hx.2.eq (by deg) (by deg)) (hy.reg.eq (by deg) (by deg)) (hy.reg.eq (by deg) (by deg)) (K := 0) (D := (0, 0, 0)) (K' := 2) (D' := (1, 1, 0))
      (h := (by decide +kernel)) (hw := hw1)).eq (by units) (by units)
  · rw [line_mul_dual_p2_ex x.real y.real]
    exact (near4C (s := ⟨A, B, C⟩) ⟨hA, hB, hC⟩
      (ga := (none, some (1, 0, 0))) (gb := (none, some (1, 0, 1))) (gc := (some (0, 1, 0), some (0, 1, 1))) (gd := (some (0, 1, 0), some (0, 1, 1)))
      (hx.1.eq (by deg) (by deg)) (hx.2.eq (by deg) (by deg)) (hy.reg.eq (by deg) (by deg)) (hy.reg.eq (by deg) (by deg)) (K := 0) (D := (0, 0, 0)) (K' := 5) (D' := (1, 1, 1))
      (h := (by decide +kernel)) (hw := hw2)).eq (by units) (by units)

theorem C94_rotor_mul_translator (hA : In2 A 24 24) (hC : In2 C 20 20) {x : Rotor F32} {y : Translator F32}
    (hx : x.Within A) (hy : y.Within C)
    {w1 : V4 F32} (hw1 : CanV (env x.p1 x.p1 y.p2 y.p2) ((Rotor.mk X).mulTranslator (Translator.mk Y)).p1 w1)
    {w2 : V4 F32} (hw2 : CanV (env x.p1 x.p1 y.p2 y.p2) ((Rotor.mk X).mulTranslator (Translator.mk Y)).p2 w2) :
    w1.Near32 (x.real.mulTranslator y.real).p1 0 0 ∧
    w2.Near32 (x.real.mulTranslator y.real).p2 (9 * (A * C)) (9 * (A * C)) := by
  constructor
  · rw [rotor_mul_translator_p1_ex x.real y.real]
    exact (near4C (s := ⟨A, 1, C⟩) ⟨hA, one_A, hC⟩
      (ga := (some (1, 0, 0), some (1, 0, 0))) (gb := (some (1, 0, 0), some (1, 0, 0))) (gc := (some (0, 0, 1), some (0, 0, 1))) (gd := (some (0, 0, 1), some (0, 0, 1)))
      (V4.Fits.eq hx (by deg) (by deg)) (V4.Fits.eq hx (by deg) (by deg)) (V4.Fits.eq hy (by deg) (by deg)) (V4.Fits.eq hy (by deg) (by deg)) (K := 0) (D := (0, 0, 0)) (K' := 0) (D' := (0, 0, 0))
      (h := (by decide +kernel)) (hw := hw1)).eq (by units) (by units)
  · rw [rotor_mul_translator_p2_ex x.real y.real]
    exact (near4C (s := ⟨A, 1, C⟩) ⟨hA, one_A, hC⟩
      (ga := (some (1, 0, 0), some (1, 0, 0))) (gb := (some (1, 0, 0), some (1, 0, 0))) (gc := (some (0, 0, 1), some (0, 0, 1))) (gd := (some (0, 0, 1), some (0, 0, 1)))
      (V4.Fits.eq hx (by deg) (by deg)) (V4.Fits.eq hx (by deg) (by deg)) (V4.Fits.eq hy (by deg) (by deg)) (V4.Fits.eq hy (by deg) (by deg)) (K := 9) (D := (1, 0, 1)) (K' := 9) (D' := (1, 0, 1))
      (h := (by decide +kernel)) (hw := hw2)).eq (by units) (by units)

theorem C94_translator_mul_rotor (hB : In2 B 24 24) (hC : In2 C 20 20) {x : Translator F32} {y : Rotor F32}
    (hx : x.Within C) (hy : y.Within B)
    {w1 : V4 F32} (hw1 : CanV (env x.p2 x.p2 y.p1 y.p1) ((Translator.mk X).mulRotor (Rotor.mk Y)).p1 w1)
    {w2 : V4 F32} (hw2 : CanV (env x.p2 x.p2 y.p1 y.p1) ((Translator.mk X).mulRotor (Rotor.mk Y)).p2 w2) :
    w1.Near32 (x.real.mulRotor y.real).p1 0 0 ∧
    w2.Near32 (x.real.mulRotor y.real).p2 (9 * (B * C)) (9 * (B * C)) := by
  constructor
  · rw [translator_mul_rotor_p1_ex x.real y.real]
    exact (near4C (s := ⟨1, B, C⟩) ⟨one_A, hB, hC⟩
      (ga := (some (0, 0, 1), some (0, 0, 1))) (gb := (some (0, 0, 1), some (0, 0, 1))) (gc := (some (0, 1, 0), some (0, 1, 0))) (gd := (some (0, 1, 0), some (0, 1, 0)))
      (V4.Fits.eq hx (by deg) (by deg)) (V4.Fits.eq hx (by deg) (by deg)) (V4.Fits.eq hy (by deg) (by deg)) (V4.Fits.eq hy (by deg) (by deg)) (K := 0) (D := (0, 0, 0)) (K' := 0) (D' := (0, 0, 0))
      (h := (by decide +kernel)) (hw := hw1)).eq (by units) (by units)
  · rw [translator_mul_rotor_p2_ex x.real y.real]
    exact (near4C (s := ⟨1, B, C⟩) ⟨one_A, hB, hC⟩
      (ga := (some (0, 0, 1), some (0, 0, 1))) (gb := (some (0, 0, 1), some (0, 0, 1))) (gc := (some (0, 1, 0), some (0, 1, 0))) (gd := (some (0, 1, 0), some (0, 1, 0)))
      (V4.Fits.eq hx (by deg) (by deg)) (V4.Fits.eq hx (by deg) (by deg)) (V4.Fits.eq hy (by deg) (by deg)) (V4.Fits.eq hy (by deg) (by deg)) (K := 9) (D := (0, 1, 1)) (K' := 9) (D' := (0, 1, 1))
      (h := (by decide +kernel)) (hw := hw2)).eq (by units) (by units)

theorem C94_translator_mul_translator (hC : In2 C 20 20) {x : Translator F32} {y : Translator F32}
    (hx : x.Within C) (hy : y.Within C)
    {w : V4 F32} (hw : CanV (env x.p2 x.p2 y.p2 y.p2) ((Translator.mk X).mulTranslator (Translator.mk Y)).p2 w) :
    w.Near32 (x.real.mulTranslator y.real).p2 (3 * C) (3 * C) := by
  · rw [translator_mul_translator_p2_ex x.real y.real]
    exact (near4C (s := ⟨1, 1, C⟩) ⟨one_A, one_A, hC⟩
      (ga := (some (0, 0, 1), some (0, 0, 1))) (gb := (some (0, 0, 1), some (0, 0, 1))) (gc := (some (0, 0, 1), some (0, 0, 1))) (gd := (some (0, 0, 1), some (0, 0, 1)))
      (V4.Fits.eq hx (by deg) (by deg)) (V4.Fits.eq hx (by deg) (by deg)) (V4.Fits.eq hy (by deg) (by deg)) (V4.Fits.eq hy (by deg) (by deg)) (K := 3) (D := (0, 0, 1)) (K' := 3) (D' := (0, 0, 1))
      (h := (by decide +kernel)) (hw := hw)).eq (by units) (by units)

theorem C94_rotor_mul_motor (hA : In2 A 24 24) (hB : In2 B 24 24) (hC : In2 C 20 20) {x : Rotor F32} {y : Motor F32}
    (hx : x.Within A) (hy : y.Within B C)
    {w1 : V4 F32} (hw1 : CanV (env x.p1 x.p1 y.p1 y.p2) ((Rotor.mk X).mulMotor (Motor.mk Y Y')).p1 w1)
    {w2 : V4 F32} (hw2 : CanV (env x.p1 x.p1 y.p1 y.p2) ((Rotor.mk X).mulMotor (Motor.mk Y Y')).p2 w2) :
    w1.Near32 (x.real.mulMotor y.real).p1 (13 * (A * B)) (13 * (A * B)) ∧
    w2.Near32 (x.real.mulMotor y.real).p2 (14 * (A * B * C)) (14 * (A * B * C)) := by
  constructor
  · rw [rotor_mul_motor_p1_ex x.real y.real]
    exact (near4C (s := ⟨A, B, C⟩) ⟨hA, hB, hC⟩
      (ga := (some (1, 0, 0), some (1, 0, 0))) (gb := (some (1, 0, 0), some (1, 0, 0))) (gc := (some (0, 1, 0), some (0, 1, 0))) (gd := (some (0, 1, 1), some (0, 1, 1)))
      (V4.Fits.eq hx (by deg) (by deg)) (V4.Fits.eq hx (by deg) (by deg)) (hy.1.eq (by deg) (by deg)) (hy.2.eq (by deg) (by deg)) (K := 13) (D := (1, 1, 0)) (K' := 13) (D' := (1, 1, 0))
      (h := (by decide +kernel)) (hw := hw1)).eq (by units) (by units)
  · rw [rotor_mul_motor_p2_ex x.real y.real]
    exact (near4C (s := ⟨A, B, C⟩) ⟨hA, hB, hC⟩
      (ga := (some (1, 0, 0), some (1, 0, 0))) (gb := (some (1, 0, 0), some (1, 0, 0))) (gc := (some (0, 1, 0), some (0, 1, 0))) (gd := (some (0, 1, 1), some (0, 1, 1)))
      (V4.Fits.eq hx (by deg) (by deg)) (V4.Fits.eq hx (by deg) (by deg)) (hy.1.eq (by deg) (by deg)) (hy.2.eq (by deg) (by deg)) (K := 14) (D := (1, 1, 1)) (K' := 14) (D' := (1, 1, 1))
      (h := (by decide +kernel)) (hw := hw2)).eq (by units) (by units)

theorem C94_motor_mul_rotor (hA : In2 A 24 24) (hB : In2 B 24 24) (hC : In2 C 20 20) {x : Motor F32} {y : Rotor F32}
    (hx : x.Within A C) (hy : y.Within B)
    {w1 : V4 F32} (hw1 : CanV (env x.p1 x.p2 y.p1 y.p1) ((Motor.mk X X').mulRotor (Rotor.mk Y)).p1 w1)
    {w2 : V4 F32} (hw2 : CanV (env x.p1 x.p2 y.p1 y.p1) ((Motor.mk X X').mulRotor (Rotor.mk Y)).p2 w2) :
    w1.Near32 (x.real.mulRotor y.real).p1 (13 * (A * B)) (13 * (A * B)) ∧
    w2.Near32 (x.real.mulRotor y.real).p2 (14 * (A * B * C)) (14 * (A * B * C)) := by
  constructor
  · rw [motor_mul_rotor_p1_ex x.real y.real]
    exact (near4C (s := ⟨A, B, C⟩) ⟨hA, hB, hC⟩
      (ga := (some (1, 0, 0), some (1, 0, 0))) (gb := (some (1, 0, 1), some (1, 0, 1))) (gc := (some (0, 1, 0), some (0, 1, 0))) (gd := (some (0, 1, 0), some (0, 1, 0)))
      (hx.1.eq (by deg) (by deg)) (hx.2.eq (by deg) (by deg)) (V4.Fits.eq hy (by deg) (by deg)) (V4.Fits.eq hy (by deg) (by deg)) (K := 13) (D := (1, 1, 0)) (K' := 13) (D' := (1, 1, 0))
      (h := (by decide +kernel)) (hw := hw1)).eq (by units) (by units)
  · rw [motor_mul_rotor_p2_ex x.real y.real]
    exact (near4C (s := ⟨A, B, C⟩) ⟨hA, hB, hC⟩
      (ga := (some (1, 0, 0), some (1, 0, 0))) (gb := (some (1, 0, 1), some (1, 0, 1))) (gc := (some (0, 1, 0), some (0, 1, 0))) (gd := (some (0, 1, 0), some (0, 1, 0)))
      (hx.1.eq (by deg) (by deg)) (hx.2.eq (by deg) (by deg)) (V4.Fits.eq hy (by deg) (by deg)) (V4.Fits.eq hy (by deg) (by deg)) (K := 14) (D := (1, 1, 1)) (K' := 14) (D' := (1, 1, 1))
      (h := (by decide +kernel)) (hw := hw2)).eq (by units) (by units)

theorem C94_translator_mul_motor (hB : In2 B 24 24) (hC : In2 C 20 20) {x : Translator F32} {y : Motor F32}
    (hx : x.Within C) (hy : y.Within B C)
    {w1 : V4 F32} (hw1 : CanV (env x.p2 x.p2 y.p1 y.p2) ((Translator.mk X).mulMotor (Motor.mk Y Y')).p1 w1)
    {w2 : V4 F32} (hw2 : CanV (env x.p2 x.p2 y.p1 y.p2) ((Translator.mk X).mulMotor (Motor.mk Y Y')).p2 w2) :
    w1.Near32 (x.real.mulMotor y.real).p1 0 0 ∧
    w2.Near32 (x.real.mulMotor y.real).p2 (13 * (B * C)) (13 * (B * C)) := by
  constructor
  · rw [translator_mul_motor_p1_ex x.real y.real]
    exact (near4C (s := ⟨1, B, C⟩) ⟨one_A, hB, hC⟩
      (ga := (some (0, 0, 1), some (0, 0, 1))) (gb := (some (0, 0, 1), some (0, 0, 1))) (gc := (some (0, 1, 0), some (0, 1, 0))) (gd := (some (0, 1, 1), some (0, 1, 1)))
      (V4.Fits.eq hx (by deg) (by deg)) (V4.Fits.eq hx (by deg) (by deg)) (hy.1.eq (by deg) (by deg)) (hy.2.eq (by deg) (by deg)) (K := 0) (D := (0, 0, 0)) (K' := 0) (D' := (0, 0, 0))
      (h := (by decide +kernel)) (hw := hw1)).eq (by units) (by units)
  · rw [translator_mul_motor_p2_ex x.real y.real]
    exact (near4C (s := ⟨1, B, C⟩) ⟨one_A, hB, hC⟩
      (ga := (some (0, 0, 1), some (0, 0, 1))) (gb := (some (0, 0, 1), some (0, 0, 1))) (gc := (some (0, 1, 0), some (0, 1, 0))) (gd := (some (0, 1, 1), some (0, 1, 1)))
      (V4.Fits.eq hx (by deg) (by deg)) (V4.Fits.eq hx (by deg) (by deg)) (hy.1.eq (by deg) (by deg)) (hy.2.eq (by deg) (by deg)) (K := 13) (D := (0, 1, 1)) (K' := 13) (D' := (0, 1, 1))
      (h := (by decide +kernel)) (hw := hw2)).eq (by units) (by units)

theorem C94_motor_mul_translator (hA : In2 A 24 24) (hC : In2 C 20 20) {x : Motor F32} {y : Translator F32}
    (hx : x.Within A C) (hy : y.Within C)
    {w1 : V4 F32} (hw1 : CanV (env x.p1 x.p2 y.p2 y.p2) ((Motor.mk X X').mulTranslator (Translator.mk Y)).p1 w1)
    {w2 : V4 F32} (hw2 : CanV (env x.p1 x.p2 y.p2 y.p2) ((Motor.mk X X').mulTranslator (Translator.mk Y)).p2 w2) :
    w1.Near32 (x.real.mulTranslator y.real).p1 0 0 ∧
    w2.Near32 (x.real.mulTranslator y.real).p2 (13 * (A * C)) (13 * (A * C)) := by
  constructor
  · rw [motor_mul_translator_p1_ex x.real y.real]
    exact (near4C (s := ⟨A, 1, C⟩) ⟨hA, one_A, hC⟩
      (ga := (some (1, 0, 0), some (1, 0, 0))) (gb := (some (1, 0, 1), some (1, 0, 1))) (gc := (some (0, 0, 1), some (0, 0, 1))) (gd := (some (0, 0, 1), some (0, 0, 1)))
      (hx.1.eq (by deg) (by deg)) (hx.2.eq (by deg) (by deg)) (V4.Fits.eq hy (by deg) (by deg)) (V4.Fits.eq hy (by deg) (by deg)) (K := 0) (D := (0, 0, 0)) (K' := 0) (D' := (0, 0, 0))
      (h := (by decide +kernel)) (hw := hw1)).eq (by units) (by units)
  · rw [motor_mul_translator_p2_ex x.real y.real]
    exact (near4C (s := ⟨A, 1, C⟩) ⟨hA, one_A, hC⟩
      (ga := (some (1, 0, 0), some (1, 0, 0))) (gb := (some (1, 0, 1), some (1, 0, 1))) (gc := (some (0, 0, 1), some (0, 0, 1))) (gd := (some (0, 0, 1), some (0, 0, 1)))
      (hx.1.eq (by deg) (by deg)) (hx.2.eq (by deg) (by deg)) (V4.Fits.eq hy (by deg) (by deg)) (V4.Fits.eq hy (by deg) (by deg)) (K := 13) (D := (1, 0, 1)) (K' := 13) (D' := (1, 0, 1))
      (h := (by decide +kernel)) (hw := hw2)).eq (by units) (by units)

theorem C94_motor_mul_motor (hA : In2 A 24 24) (hB : In2 B 24 24) (hC : In2 C 20 20) {x : Motor F32} {y : Motor F32}
    (hx : x.Within A C) (hy : y.Within B C)
    {w1 : V4 F32} (hw1 : CanV (env x.p1 x.p2 y.p1 y.p2) ((Motor.mk X X').mulMotor (Motor.mk Y Y')).p1 w1)
    {w2 : V4 F32} (hw2 : CanV (env x.p1 x.p2 y.p1 y.p2) ((Motor.mk X X').mulMotor (Motor.mk Y Y')).p2 w2) :
    w1.Near32 (x.real.mulMotor y.real).p1 (14 * (A * B)) (14 * (A * B)) ∧
    w2.Near32 (x.real.mulMotor y.real).p2 (35 * (A * B * C)) (35 * (A * B * C)) := by
  constructor
  · rw [motor_mul_motor_p1_ex x.real y.real]
    exact (near4C (s := ⟨A, B, C⟩) ⟨hA, hB, hC⟩
      (ga := (some (1, 0, 0), some (1, 0, 0))) (gb := (some (1, 0, 1), some (1, 0, 1))) (gc := (some (0, 1, 0), some (0, 1, 0))) (gd := (some (0, 1, 1), some (0, 1, 1)))
      (hx.1.eq (by deg) (by deg)) (hx.2.eq (by deg) (by deg)) (hy.1.eq (by deg) (by deg)) (hy.2.eq (by deg) (by deg)) (K := 14) (D := (1, 1, 0)) (K' := 14) (D' := (1, 1, 0))
      (h := (by decide +kernel)) (hw := hw1)).eq (by units) (by units)
  · rw [motor_mul_motor_p2_ex x.real y.real]
    exact (near4C (s := ⟨A, B, C⟩) ⟨hA, hB, hC⟩
      (ga := (some (1, 0, 0), some (1, 0, 0))) (gb := (some (1, 0, 1), some (1, 0, 1))) (gc := (some (0, 1, 0), some (0, 1, 0))) (gd := (some (0, 1, 1), some (0, 1, 1)))
      (hx.1.eq (by deg) (by deg)) (hx.2.eq (by deg) (by deg)) (hy.1.eq (by deg) (by deg)) (hy.2.eq (by deg) (by deg)) (K := 35) (D := (1, 1, 1)) (K' := 35) (D' := (1, 1, 1))
      (h := (by decide +kernel)) (hw := hw2)).eq (by units) (by units)

theorem C94_translator_div_translator (hC : In2 C 20 20) {x : Translator F32} {y : Translator F32}
    (hx : x.Within C) (hy : y.Within C)
    {w : V4 F32} (hw : CanV (env x.p2 x.p2 y.p2 y.p2) ((Translator.mk X).divTranslator (Translator.mk Y)).p2 w) :
    w.Near32 (x.real.divTranslator y.real).p2 (3 * C) (3 * C) := by
  · rw [translator_div_translator_p2_ex x.real y.real]
    exact (near4C (s := ⟨1, 1, C⟩) ⟨one_A, one_A, hC⟩
      (ga := (some (0, 0, 1), some (0, 0, 1))) (gb := (some (0, 0, 1), some (0, 0, 1))) (gc := (some (0, 0, 1), some (0, 0, 1))) (gd := (some (0, 0, 1), some (0, 0, 1)))
      (V4.Fits.eq hx (by deg) (by deg)) (V4.Fits.eq hx (by deg) (by deg)) (V4.Fits.eq hy (by deg) (by deg)) (V4.Fits.eq hy (by deg) (by deg)) (K := 3) (D := (0, 0, 1)) (K' := 3) (D' := (0, 0, 1))
      (h := (by decide +kernel)) (hw := hw)).eq (by units) (by units)

theorem C94_motor_div_translator (hA : In2 A 24 24) (hC : In2 C 20 20) {x : Motor F32} {y : Translator F32}
    (hx : x.Within A C) (hy : y.Within C)
    {w1 : V4 F32} (hw1 : CanV (env x.p1 x.p2 y.p2 y.p2) ((Motor.mk X X').divTranslator (Translator.mk Y)).p1 w1)
    {w2 : V4 F32} (hw2 : CanV (env x.p1 x.p2 y.p2 y.p2) ((Motor.mk X X').divTranslator (Translator.mk Y)).p2 w2) :
    w1.Near32 (x.real.divTranslator y.real).p1 0 0 ∧
    w2.Near32 (x.real.divTranslator y.real).p2 (13 * (A * C)) (13 * (A * C)) := by
  constructor
  · rw [motor_div_translator_p1_ex x.real y.real]
    exact (near4C (s := ⟨A, 1, C⟩) ⟨hA, one_A, hC⟩
      (ga := (some (1, 0, 0), some (1, 0, 0))) (gb := (some (1, 0, 1), some (1, 0, 1))) (gc := (some (0, 0, 1), some (0, 0, 1))) (gd := (some (0, 0, 1), some (0, 0, 1)))
      (hx.1.eq (by deg) (by deg)) (hx.2.eq (by deg) (by deg)) (V4.Fits.eq hy (by deg) (by deg)) (V4.Fits.eq hy (by deg) (by deg)) (K := 0) (D := (0, 0, 0)) (K' := 0) (D' := (0, 0, 0))
      (h := (by decide +kernel)) (hw := hw1)).eq (by units) (by units)
  · rw [motor_div_translator_p2_ex x.real y.real]
    exact (near4C (s := ⟨A, 1, C⟩) ⟨hA, one_A, hC⟩
      (ga := (some (1, 0, 0), some (1, 0, 0))) (gb := (some (1, 0, 1), some (1, 0, 1))) (gc := (some (0, 0, 1), some (0, 0, 1))) (gd := (some (0, 0, 1), some (0, 0, 1)))
      (hx.1.eq (by deg) (by deg)) (hx.2.eq (by deg) (by deg)) (V4.Fits.eq hy (by deg) (by deg)) (V4.Fits.eq hy (by deg) (by deg)) (K := 13) (D := (1, 0, 1)) (K' := 13) (D' := (1, 0, 1))
      (h := (by decide +kernel)) (hw := hw2)).eq (by units) (by units)

theorem C94_plane_meet_plane (hA : In2 A 24 24) (hB : In2 B 24 24) (hC : In2 C 20 20) {x : Plane F32} {y : Plane F32}
    (hx : x.Within A C) (hy : y.Within B C)
    {w1 : V4 F32} (hw1 : CanV (env x.p0 x.p0 y.p0 y.p0) ((Plane.mk X).meetPlane (Plane.mk Y)).p1 w1)
    {w2 : V4 F32} (hw2 : CanV (env x.p0 x.p0 y.p0 y.p0) ((Plane.mk X).meetPlane (Plane.mk Y)).p2 w2) :
    w1.Near32 (x.real.meetPlane y.real).p1 (5 * (A * B * C ^ 2)) (5 * (A * B)) ∧
    w2.Near32 (x.real.meetPlane y.real).p2 (5 * (A * B * C ^ 2)) (5 * (A * B * C)) := by
  constructor
  · rw [plane_meet_plane_p1_ex x.real y.real]
    exact (near4C (s := ⟨A, B, C⟩) ⟨hA, hB, hC⟩
      (ga := (some (1, 0, 1), some (1, 0, 0))) (gb := (some (1, 0, 1), some (1, 0, 0))) (gc := (some (0, 1, 1), some (0, 1, 0))) (gd := (some (0, 1, 1), some (0, 1, 0)))
      (V4.Fits.eq hx (by deg) (by deg)) (V4.Fits.eq hx (by deg) (by deg)) (V4.Fits.eq hy (by deg) (by deg)) (V4.Fits.eq hy (by deg) (by deg)) (K := 5) (D := (1, 1, 2)) (K' := 5) (D' := (1, 1, 0))
      (h := (by decide +kernel)) (hw := hw1)).eq (by units) (by units)
  · rw [plane_meet_plane_p2_ex x.real y.real]
    exact (near4C (s := ⟨A, B, C⟩) ⟨hA, hB, hC⟩
      (ga := (some (1, 0, 1), some (1, 0, 0))) (gb := (some (1, 0, 1), some (1, 0, 0))) (gc := (some (0, 1, 1), some (0, 1, 0))) (gd := (some (0, 1, 1), some (0, 1, 0)))
      (V4.Fits.eq hx (by deg) (by deg)) (V4.Fits.eq hx (by deg) (by deg)) (V4.Fits.eq hy (by deg) (by deg)) (V4.Fits.eq hy (by deg) (by deg)) (K := 5) (D := (1, 1, 2)) (K' := 5) (D' := (1, 1, 1))
      (h := (by decide +kernel)) (hw := hw2)).eq (by units) (by units)

theorem C94_plane_meet_branch (hA : In2 A 24 24) (hB : In2 B 24 24) (hC : In2 C 20 20) (isa : Isa) {x : Plane F32} {y : Branch F32}
    (hx : x.Within A C) (hy : y.Within B)
    {w : V4 F32} (hw : CanV (env x.p0 x.p0 y.p1 y.p1) ((Plane.mk X).meetBranch isa (Branch.mk Y)).p3 w) :
    w.Near32 (x.real.meetBranch isa y.real).p3 (9 * (A * B)) (3 * (A * B * C)) := by
  · rw [plane_meet_branch_p3_ex isa x.real y.real]
    exact (near4C (s := ⟨A, B, C⟩) ⟨hA, hB, hC⟩
      (ga := (some (1, 0, 1), some (1, 0, 0))) (gb := (some (1, 0, 1), some (1, 0, 0))) (gc := (none, some (0, 1, 0))) (gd := (none, some (0, 1, 0)))
      (V4.Fits.eq hx (by deg) (by deg)) (V4.Fits.eq hx (by deg) (by deg)) (V4.Fits.eq hy (by deg) (by deg)) (V4.Fits.eq hy (by deg) (by deg)) (K := 9) (D := (1, 1, 0)) (K' := 3) (D' := (1, 1, 1))
      (h := (by cases isa <;> decide +kernel)) (hw := hw)).eq (by units) (by units)

theorem C94_branch_meet_plane (hA : In2 A 24 24) (hB : In2 B 24 24) (hC : In2 C 20 20) (isa : Isa) {x : Branch F32} {y : Plane F32}
    (hx : x.Within A) (hy : y.Within B C)
    {w : V4 F32} (hw : CanV (env x.p1 x.p1 y.p0 y.p0) ((Branch.mk X).meetPlane isa (Plane.mk Y)).p3 w) :
    w.Near32 (x.real.meetPlane isa y.real).p3 (9 * (A * B)) (3 * (A * B * C)) := by
  · rw [branch_meet_plane_p3_ex isa x.real y.real]
    exact (near4C (s := ⟨A, B, C⟩) ⟨hA, hB, hC⟩
      (ga := (none, some (1, 0, 0))) (gb := (none, some (1, 0, 0))) (gc := (some (0, 1, 1), some (0, 1, 0))) (gd := (some (0, 1, 1), some (0, 1, 0)))
      (V4.Fits.eq hx (by deg) (by deg)) (V4.Fits.eq hx (by deg) (by deg)) (V4.Fits.eq hy (by deg) (by deg)) (V4.Fits.eq hy (by deg) (by deg)) (K := 9) (D := (1, 1, 0)) (K' := 3) (D' := (1, 1, 1))
      (h := (by cases isa <;> decide +kernel)) (hw := hw)).eq (by units) (by units)

theorem C94_plane_meet_ideal_line (hA : In2 A 24 24) (hB : In2 B 24 24) (hC : In2 C 20 20) {x : Plane F32} {y : IdealLine F32}
    (hx : x.Within A C) (hy : y.Within B)
    {w : V4 F32} (hw : CanV (env x.p0 x.p0 y.p2 y.p2) ((Plane.mk X).meetIdealLine (IdealLine.mk Y)).p3 w) :
    w.Near32 (x.real.meetIdealLine y.real).p3 0 (5 * (A * B)) := by
  · rw [plane_meet_ideal_line_p3_ex x.real y.real]
    exact (near4C (s := ⟨A, B, C⟩) ⟨hA, hB, hC⟩
      (ga := (some (1, 0, 1), some (1, 0, 0))) (gb := (some (1, 0, 1), some (1, 0, 0))) (gc := (none, some (0, 1, 0))) (gd := (none, some (0, 1, 0)))
      (V4.Fits.eq hx (by deg) (by deg)) (V4.Fits.eq hx (by deg) (by deg)) (V4.Fits.eq hy (by deg) (by deg)) (V4.Fits.eq hy (by deg) (by deg)) (K := 0) (D := (0, 0, 0)) (K' := 5) (D' := (1, 1, 0))
      (h := (by decide +kernel)) (hw := hw)).eq (by units) (by units)

theorem C94_ideal_line_meet_plane (hA : In2 A 24 24) (hB : In2 B 24 24) (hC : In2 C 20 20) {x : IdealLine F32} {y : Plane F32}
    (hx : x.Within A) (hy : y.Within B C)
    {w : V4 F32} (hw : CanV (env x.p2 x.p2 y.p0 y.p0) ((IdealLine.mk X).meetPlane (Plane.mk Y)).p3 w) :
    w.Near32 (x.real.meetPlane y.real).p3 0 (5 * (A * B)) := by
  · rw [ideal_line_meet_plane_p3_ex x.real y.real]
    exact (near4C (s := ⟨A, B, C⟩) ⟨hA, hB, hC⟩
      (ga := (none, some (1, 0, 0))) (gb := (none, some (1, 0, 0))) (gc := (some (0, 1, 1), some (0, 1, 0))) (gd := (some (0, 1, 1), some (0, 1, 0)))
      (V4.Fits.eq hx (by deg) (by deg)) (V4.Fits.eq hx (by deg) (by deg)) (V4.Fits.eq hy (by deg) (by deg)) (V4.Fits.eq hy (by deg) (by deg)) (K := 0) (D := (0, 0, 0)) (K' := 5) (D' := (1, 1, 0))
      (h := (by decide +kernel)) (hw := hw)).eq (by units) (by units)

theorem C94_plane_meet_line (hA : In2 A 24 24) (hB : In2 B 24 24) (hC : In2 C 20 20) (isa : Isa) {x : Plane F32} {y : Line F32}
    (hx : x.Within A C) (hy : y.Within B C)
    {w : V4 F32} (hw : CanV (env x.p0 x.p0 y.p1 y.p2) ((Plane.mk X).meetLine isa (Line.mk Y Y')).p3 w) :
    w.Near32 (x.real.meetLine isa y.real).p3 (9 * (A * B)) (10 * (A * B * C)) := by
  · rw [plane_meet_line_p3_ex isa x.real y.real]
    exact (near4C (s := ⟨A, B, C⟩) ⟨hA, hB, hC⟩
      (ga := (some (1, 0, 1), some (1, 0, 0))) (gb := (some (1, 0, 1), some (1, 0, 0))) (gc := (none, some (0, 1, 0))) (gd := (none, some (0, 1, 1)))
      (V4.Fits.eq hx (by deg) (by deg)) (V4.Fits.eq hx (by deg) (by deg)) (hy.1.eq (by deg) (by deg)) (hy.2.eq (by deg) (by deg)) (K := 9) (D := (1, 1, 0)) (K' := 10) (D' := (1, 1, 1))
      (h := (by cases isa <;> decide +kernel)) (hw := hw)).eq (by units) (by units)

theorem C94_line_meet_plane (hA : In2 A 24 24) (hB : In2 B 24 24) (hC : In2 C 20 20) (isa : Isa) {x : Line F32} {y : Plane F32}
    (hx : x.Within A C) (hy : y.Within B C)
    {w : V4 F32} (hw : CanV (env x.p1 x.p2 y.p0 y.p0) ((Line.mk X X').meetPlane isa (Plane.mk Y)).p3 w) :
    w.Near32 (x.real.meetPlane isa y.real).p3 (9 * (A * B)) (10 * (A * B * C)) := by
  · rw [line_meet_plane_p3_ex isa x.real y.real]
    exact (near4C (s := ⟨A, B, C⟩) ⟨hA, hB, hC⟩
      (ga := (none, some (1, 0, 0))) (gb := (none, some (1, 0, 1))) (gc := (some (0, 1, 1), some (0, 1, 0))) (gd := (some (0, 1, 1), some (0, 1, 0)))
      (hx.1.eq (by deg) (by deg)) (hx.2.eq (by deg) (by deg)) (V4.Fits.eq hy (by deg) (by deg)) (V4.Fits.eq hy (by deg) (by deg)) (K := 9) (D := (1, 1, 0)) (K' := 10) (D' := (1, 1, 1))
      (h := (by cases isa <;> decide +kernel)) (hw := hw)).eq (by units) (by units)

theorem C94_plane_meet_point (hA : In2 A 24 24) (hB : In2 B 24 24) (hC : In2 C 20 20) (isa : Isa) {x : Plane F32} {y : Point F32}
    (hx : x.Within A C) (hy : y.Within B C)
    {w1 : F32} (hw1 : Can (env x.p0 x.p0 y.p3 y.p3) ((Plane.mk X).meetPoint isa (Point.mk Y)).p w1)
    {w2 : F32} (hw2 : Can (env x.p0 x.p0 y.p3 y.p3) ((Plane.mk X).meetPoint isa (Point.mk Y)).q w2) :
    Near32 w1 (x.real.meetPoint isa y.real).p 0 ∧
    Near32 w2 (x.real.meetPoint isa y.real).q (13 * (A * B * C)) := by
  constructor
  · rw [plane_meet_point_p_ex isa x.real y.real]
    exact (near1C (s := ⟨A, B, C⟩) ⟨hA, hB, hC⟩
      (ga := (some (1, 0, 1), some (1, 0, 0))) (gb := (some (1, 0, 1), some (1, 0, 0))) (gc := (some (0, 1, 0), some (0, 1, 1))) (gd := (some (0, 1, 0), some (0, 1, 1)))
      (V4.Fits.eq hx (by deg) (by deg)) (V4.Fits.eq hx (by deg) (by deg)) (V4.Fits.eq hy (by deg) (by deg)) (V4.Fits.eq hy (by deg) (by deg)) (K := 0) (D := (0, 0, 0))
      (h := (by cases isa <;> decide +kernel)) (hw := hw1)).eq (by units)
  · rw [plane_meet_point_q_ex isa x.real y.real]
    exact (near1C (s := ⟨A, B, C⟩) ⟨hA, hB, hC⟩
      (ga := (some (1, 0, 1), some (1, 0, 0))) (gb := (some (1, 0, 1), some (1, 0, 0))) (gc := (some (0, 1, 0), some (0, 1, 1))) (gd := (some (0, 1, 0), some (0, 1, 1)))
      (V4.Fits.eq hx (by deg) (by deg)) (V4.Fits.eq hx (by deg) (by deg)) (V4.Fits.eq hy (by deg) (by deg)) (V4.Fits.eq hy (by deg) (by deg)) (K := 13) (D := (1, 1, 1))
      (h := (by cases isa <;> decide +kernel)) (hw := hw2)).eq (by units)

theorem C94_point_meet_plane (hA : In2 A 24 24) (hB : In2 B 24 24) (hC : In2 C 20 20) (isa : Isa) {x : Point F32} {y : Plane F32}
    (hx : x.Within A C) (hy : y.Within B C)
    {w1 : F32} (hw1 : Can (env x.p3 x.p3 y.p0 y.p0) ((Point.mk X).meetPlane isa (Plane.mk Y)).p w1)
    {w2 : F32} (hw2 : Can (env x.p3 x.p3 y.p0 y.p0) ((Point.mk X).meetPlane isa (Plane.mk Y)).q w2) :
    Near32 w1 (x.real.meetPlane isa y.real).p 0 ∧
    Near32 w2 (x.real.meetPlane isa y.real).q (13 * (A * B * C)) := by
  constructor
  · rw [point_meet_plane_p_ex isa x.real y.real]
    exact (near1C (s := ⟨A, B, C⟩) ⟨hA, hB, hC⟩
      (ga := (some (1, 0, 0), some (1, 0, 1))) (gb := (some (1, 0, 0), some (1, 0, 1))) (gc := (some (0, 1, 1), some (0, 1, 0))) (gd := (some (0, 1, 1), some (0, 1, 0)))
      (V4.Fits.eq hx (by deg) (by deg)) (V4.Fits.eq hx (by deg) (by deg)) (V4.Fits.eq hy (by deg) (by deg)) (V4.Fits.eq hy (by deg) (by deg)) (K := 0) (D := (0, 0, 0))
      (h := (by cases isa <;> decide +kernel)) (hw := hw1)).eq (by units)
  · rw [point_meet_plane_q_ex isa x.real y.real]
    exact (near1C (s := ⟨A, B, C⟩) ⟨hA, hB, hC⟩
      (ga := (some (1, 0, 0), some (1, 0, 1))) (gb := (some (1, 0, 0), some (1, 0, 1))) (gc := (some (0, 1, 1), some (0, 1, 0))) (gd := (some (0, 1, 1), some (0, 1, 0)))
      (V4.Fits.eq hx (by deg) (by deg)) (V4.Fits.eq hx (by deg) (by deg)) (V4.Fits.eq hy (by deg) (by deg)) (V4.Fits.eq hy (by deg) (by deg)) (K := 13) (D := (1, 1, 1))
      (h := (by cases isa <;> decide +kernel)) (hw := hw2)).eq (by units)

theorem C94_branch_meet_ideal_line (hA : In2 A 24 24) (hB : In2 B 24 24) {x : Branch F32} {y : IdealLine F32}
    (hx : x.Within A) (hy : y.Within B)
    {w1 : F32} (hw1 : Can (env x.p1 x.p1 y.p2 y.p2) ((Branch.mk X).meetIdealLine (IdealLine.mk Y)).p w1)
    {w2 : F32} (hw2 : Can (env x.p1 x.p1 y.p2 y.p2) ((Branch.mk X).meetIdealLine (IdealLine.mk Y)).q w2) :
    Near32 w1 (x.real.meetIdealLine y.real).p 0 ∧
    Near32 w2 (x.real.meetIdealLine y.real).q (9 * (A * B)) := by
  constructor
  · rw [branch_meet_ideal_line_p_ex x.real y.real]
    exact (near1C (s := ⟨A, B, 1⟩) ⟨hA, hB, one_C⟩
      (ga := (none, some (1, 0, 0))) (gb := (none, some (1, 0, 0))) (gc := (none, some (0, 1, 0))) (gd := (none, some (0, 1, 0)))
      (V4.Fits.eq hx (by deg) (by deg)) (V4.Fits.eq hx (by deg) (by deg)) (V4.Fits.eq hy (by deg) (by deg)) (V4.Fits.eq hy (by deg) (by deg)) (K := 0) (D := (0, 0, 0))
      (h := (by decide +kernel)) (hw := hw1)).eq (by units)
  · rw [branch_meet_ideal_line_q_ex x.real y.real]
    exact (near1C (s := ⟨A, B, 1⟩) ⟨hA, hB, one_C⟩
      (ga := (none, some (1, 0, 0))) (gb := (none, some (1, 0, 0))) (gc := (none, some (0, 1, 0))) (gd := (none, some (0, 1, 0)))
      (V4.Fits.eq hx (by deg) (by deg)) (V4.Fits.eq hx (by deg) (by deg)) (V4.Fits.eq hy (by deg) (by deg)) (V4.Fits.eq hy (by deg) (by deg)) (K := 9) (D := (1, 1, 0))
      (h := (by decide +kernel)) (hw := hw2)).eq (by units)

theorem C94_ideal_line_meet_branch (hA : In2 A 24 24) (hB : In2 B 24 24) {x : IdealLine F32} {y : Branch F32}
    (hx : x.Within A) (hy : y.Within B)
    {w1 : F32} (hw1 : Can (env x.p2 x.p2 y.p1 y.p1) ((IdealLine.mk X).meetBranch (Branch.mk Y)).p w1)
    {w2 : F32} (hw2 : Can (env x.p2 x.p2 y.p1 y.p1) ((IdealLine.mk X).meetBranch (Branch.mk Y)).q w2) :
    Near32 w1 (x.real.meetBranch y.real).p 0 ∧
    Near32 w2 (x.real.meetBranch y.real).q (9 * (A * B)) := by
  constructor
  · rw [ideal_line_meet_branch_p_ex x.real y.real]
    exact (near1C (s := ⟨A, B, 1⟩) ⟨hA, hB, one_C⟩
      (ga := (none, some (1, 0, 0))) (gb := (none, some (1, 0, 0))) (gc := (none, some (0, 1, 0))) (gd := (none, some (0, 1, 0)))
      (V4.Fits.eq hx (by deg) (by deg)) (V4.Fits.eq hx (by deg) (by deg)) (V4.Fits.eq hy (by deg) (by deg)) (V4.Fits.eq hy (by deg) (by deg)) (K := 0) (D := (0, 0, 0))
      (h := (by decide +kernel)) (hw := hw1)).eq (by units)
  · rw [ideal_line_meet_branch_q_ex x.real y.real]
    exact (near1C (s := ⟨A, B, 1⟩) ⟨hA, hB, one_C⟩
      (ga := (none, some (1, 0, 0))) (gb := (none, some (1, 0, 0))) (gc := (none, some (0, 1, 0))) (gd := (none, some (0, 1, 0)))
      (V4.Fits.eq hx (by deg) (by deg)) (V4.Fits.eq hx (by deg) (by deg)) (V4.Fits.eq hy (by deg) (by deg)) (V4.Fits.eq hy (by deg) (by deg)) (K := 9) (D := (1, 1, 0))
      (h := (by decide +kernel)) (hw := hw2)).eq (by units)

theorem C94_line_meet_line (hA : In2 A 24 24) (hB : In2 B 24 24) (hC : In2 C 20 20) {x : Line F32} {y : Line F32}
    (hx : x.Within A C) (hy : y.Within B C)
    {w1 : F32} (hw1 : Can (env x.p1 x.p2 y.p1 y.p2) ((Line.mk X X').meetLine (Line.mk Y Y')).p w1)
    {w2 : F32} (hw2 : Can (env x.p1 x.p2 y.p1 y.p2) ((Line.mk X X').meetLine (Line.mk Y Y')).q w2) :
    Near32 w1 (x.real.meetLine y.real).p 0 ∧
    Near32 w2 (x.real.meetLine y.real).q (23 * (A * B * C)) := by
  constructor
  · rw [line_meet_line_p_ex x.real y.real]
    exact (near1C (s := ⟨A, B, C⟩) ⟨hA, hB, hC⟩
      (ga := (none, some (1, 0, 0))) (gb := (none, some (1, 0, 1))) (gc := (none, some (0, 1, 0))) (gd := (none, some (0, 1, 1)))
      (hx.1.eq (by deg) (by deg)) (hx.2.eq (by deg) (by deg)) (hy.1.eq (by deg) (by deg)) (hy.2.eq (by deg) (by deg)) (K := 0) (D := (0, 0, 0))
      (h := (by decide +kernel)) (hw := hw1)).eq (by units)
  · rw [line_meet_line_q_ex x.real y.real]
    exact (near1C (s := ⟨A, B, C⟩) ⟨hA, hB, hC⟩
      (ga := (none, some (1, 0, 0))) (gb := (none, some (1, 0, 1))) (gc := (none, some (0, 1, 0))) (gd := (none, some (0, 1, 1)))
      (hx.1.eq (by deg) (by deg)) (hx.2.eq (by deg) (by deg)) (hy.1.eq (by deg) (by deg)) (hy.2.eq (by deg) (by deg)) (K := 23) (D := (1, 1, 1))
      (h := (by decide +kernel)) (hw := hw2)).eq (by units)

theorem C94_line_meet_ideal_line (hA : In2 A 24 24) (hB : In2 B 24 24) (hC : In2 C 20 20) {x : Line F32} {y : IdealLine F32}
    (hx : x.Within A C) (hy : y.Within B)
    {w1 : F32} (hw1 : Can (env x.p1 x.p2 y.p2 y.p2) ((Line.mk X X').meetIdealLine (IdealLine.mk Y)).p w1)
    {w2 : F32} (hw2 : Can (env x.p1 x.p2 y.p2 y.p2) ((Line.mk X X').meetIdealLine (IdealLine.mk Y)).q w2) :
    Near32 w1 (x.real.meetIdealLine y.real).p 0 ∧
    Near32 w2 (x.real.meetIdealLine y.real).q (9 * (A * B)) := by
  constructor
  · rw [line_meet_ideal_line_p_ex x.real y.real]
    exact (near1C (s := ⟨A, B, C⟩) ⟨hA, hB, hC⟩
      (ga := (none, some (1, 0, 0))) (gb := (none, some (1, 0, 1))) (gc := (none, some (0, 1, 0))) (gd := (none, some (0, 1, 0)))
      (hx.1.eq (by deg) (by deg)) (hx.2.eq (by deg) (by deg)) (V4.Fits.eq hy (by deg) (by deg)) (V4.Fits.eq hy (by deg) (by deg)) (K := 0) (D := (0, 0, 0))
      (h := (by decide +kernel)) (hw := hw1)).eq (by units)
  · rw [line_meet_ideal_line_q_ex x.real y.real]
    exact (near1C (s := ⟨A, B, C⟩) ⟨hA, hB, hC⟩
      (ga := (none, some (1, 0, 0))) (gb := (none, some (1, 0, 1))) (gc := (none, some (0, 1, 0))) (gd := (none, some (0, 1, 0)))
      (hx.1.eq (by deg) (by deg)) (hx.2.eq (by deg) (by deg)) (V4.Fits.eq hy (by deg) (by deg)) (V4.Fits.eq hy (by deg) (by deg)) (K := 9) (D := (1, 1, 0))
      (h := (by decide +kernel)) (hw := hw2)).eq (by units)

theorem C94_ideal_line_meet_line (hA : In2 A 24 24) (hB : In2 B 24 24) (hC : In2 C 20 20) {x : IdealLine F32} {y : Line F32}
    (hx : x.Within A) (hy : y.Within B C)
    {w1 : F32} (hw1 : Can (env x.p2 x.p2 y.p1 y.p2) ((IdealLine.mk X).meetLine (Line.mk Y Y')).p w1)
    {w2 : F32} (hw2 : Can (env x.p2 x.p2 y.p1 y.p2) ((IdealLine.mk X).meetLine (Line.mk Y Y')).q w2) :
    Near32 w1 (x.real.meetLine y.real).p 0 ∧
    Near32 w2 (x.real.meetLine y.real).q (9 * (A * B)) := by
  constructor
  · rw [ideal_line_meet_line_p_ex x.real y.real]
    exact (near1C (s := ⟨A, B, C⟩) ⟨hA, hB, hC⟩
      (ga := (none, some (1, 0, 0))) (gb := (none, some (1, 0, 0))) (gc := (none, some (0, 1, 0))) (gd := (none, some (0, 1, 1)))
      (V4.Fits.eq hx (by deg) (by deg)) (V4.Fits.eq hx (by deg) (by deg)) (hy.1.eq (by deg) (by deg)) (hy.2.eq (by deg) (by deg)) (K := 0) (D := (0, 0, 0))
      (h := (by decide +kernel)) (hw := hw1)).eq (by units)
  · rw [ideal_line_meet_line_q_ex x.real y.real]
    exact (near1C (s := ⟨A, B, C⟩) ⟨hA, hB, hC⟩
      (ga := (none, some (1, 0, 0))) (gb := (none, some (1, 0, 0))) (gc := (none, some (0, 1, 0))) (gd := (none, some (0, 1, 1)))
      (V4.Fits.eq hx (by deg) (by deg)) (V4.Fits.eq hx (by deg) (by deg)) (hy.1.eq (by deg) (by deg)) (hy.2.eq (by deg) (by deg)) (K := 9) (D := (1, 1, 0))
      (h := (by decide +kernel)) (hw := hw2)).eq (by units)

theorem C94_line_meet_branch (hA : In2 A 24 24) (hB : In2 B 24 24) (hC : In2 C 20 20) {x : Line F32} {y : Branch F32}
    (hx : x.Within A C) (hy : y.Within B)
    {w1 : F32} (hw1 : Can (env x.p1 x.p2 y.p1 y.p1) ((Line.mk X X').meetBranch (Branch.mk Y)).p w1)
    {w2 : F32} (hw2 : Can (env x.p1 x.p2 y.p1 y.p1) ((Line.mk X X').meetBranch (Branch.mk Y)).q w2) :
    Near32 w1 (x.real.meetBranch y.real).p 0 ∧
    Near32 w2 (x.real.meetBranch y.real).q (9 * (A * B * C)) := by
  constructor
  · rw [line_meet_branch_p_ex x.real y.real]
    exact (near1C (s := ⟨A, B, C⟩) ⟨hA, hB, hC⟩
      (ga := (none, some (1, 0, 0))) (gb := (none, some (1, 0, 1))) (gc := (none, some (0, 1, 0))) (gd := (none, some (0, 1, 0)))
      (hx.1.eq (by deg) (by deg)) (hx.2.eq (by deg) (by deg)) (V4.Fits.eq hy (by deg) (by deg)) (V4.Fits.eq hy (by deg) (by deg)) (K := 0) (D := (0, 0, 0))
      (h := (by decide +kernel)) (hw := hw1)).eq (by units)
  · rw [line_meet_branch_q_ex x.real y.real]
    exact (near1C (s := ⟨A, B, C⟩) ⟨hA, hB, hC⟩
      (ga := (none, some (1, 0, 0))) (gb := (none, some (1, 0, 1))) (gc := (none, some (0, 1, 0))) (gd := (none, some (0, 1, 0)))
      (hx.1.eq (by deg) (by deg)) (hx.2.eq (by deg) (by deg)) (V4.Fits.eq hy (by deg) (by deg)) (V4.Fits.eq hy (by deg) (by deg)) (K := 9) (D := (1, 1, 1))
      (h := (by decide +kernel)) (hw := hw2)).eq (by units)

theorem C94_branch_meet_line (hA : In2 A 24 24) (hB : In2 B 24 24) (hC : In2 C 20 20) {x : Branch F32} {y : Line F32}
    (hx : x.Within A) (hy : y.Within B C)
    {w1 : F32} (hw1 : Can (env x.p1 x.p1 y.p1 y.p2) ((Branch.mk X).meetLine (Line.mk Y Y')).p w1)
    {w2 : F32} (hw2 : Can (env x.p1 x.p1 y.p1 y.p2) ((Branch.mk X).meetLine (Line.mk Y Y')).q w2) :
    Near32 w1 (x.real.meetLine y.real).p 0 ∧
    Near32 w2 (x.real.meetLine y.real).q (9 * (A * B * C)) := by
  constructor
  · rw [branch_meet_line_p_ex x.real y.real]
    exact (near1C (s := ⟨A, B, C⟩) ⟨hA, hB, hC⟩
      (ga := (none, some (1, 0, 0))) (gb := (none, some (1, 0, 0))) (gc := (none, some (0, 1, 0))) (gd := (none, some (0, 1, 1)))
      (V4.Fits.eq hx (by deg) (by deg)) (V4.Fits.eq hx (by deg) (by deg)) (hy.1.eq (by deg) (by deg)) (hy.2.eq (by deg) (by deg)) (K := 0) (D := (0, 0, 0))
      (h := (by decide +kernel)) (hw := hw1)).eq (by units)
  · rw [branch_meet_line_q_ex x.real y.real]
    exact (near1C (s := ⟨A, B, C⟩) ⟨hA, hB, hC⟩
      (ga := (none, some (1, 0, 0))) (gb := (none, some (1, 0, 0))) (gc := (none, some (0, 1, 0))) (gd := (none, some (0, 1, 1)))
      (V4.Fits.eq hx (by deg) (by deg)) (V4.Fits.eq hx (by deg) (by deg)) (hy.1.eq (by deg) (by deg)) (hy.2.eq (by deg) (by deg)) (K := 9) (D := (1, 1, 1))
      (h := (by decide +kernel)) (hw := hw2)).eq (by units)

theorem C94_point_join_point (hA : In2 A 24 24) (hB : In2 B 24 24) (hC : In2 C 20 20) {x : Point F32} {y : Point F32}
    (hx : x.Within A C) (hy : y.Within B C)
    {w1 : V4 F32} (hw1 : CanV (env x.p3 x.p3 y.p3 y.p3) ((Point.mk X).joinPoint (Point.mk Y)).p1 w1)
    {w2 : V4 F32} (hw2 : CanV (env x.p3 x.p3 y.p3 y.p3) ((Point.mk X).joinPoint (Point.mk Y)).p2 w2) :
    w1.Near32 (x.real.joinPoint y.real).p1 (5 * (A * B)) (5 * (A * B * C)) ∧
    w2.Near32 (x.real.joinPoint y.real).p2 (5 * (A * B)) (5 * (A * B * C ^ 2)) := by
  constructor
  · rw [point_join_point_p1_ex x.real y.real]
    exact (near4C (s := ⟨A, B, C⟩) ⟨hA, hB, hC⟩
      (ga := (some (1, 0, 0), some (1, 0, 1))) (gb := (some (1, 0, 0), some (1, 0, 1))) (gc := (some (0, 1, 0), some (0, 1, 1))) (gd := (some (0, 1, 0), some (0, 1, 1)))
      (V4.Fits.eq hx (by deg) (by deg)) (V4.Fits.eq hx (by deg) (by deg)) (V4.Fits.eq hy (by deg) (by deg)) (V4.Fits.eq hy (by deg) (by deg)) (K := 5) (D := (1, 1, 0)) (K' := 5) (D' := (1, 1, 1))
      (h := (by decide +kernel)) (hw := hw1)).eq (by units) (by units)
  · rw [point_join_point_p2_ex x.real y.real]
    exact (near4C (s := ⟨A, B, C⟩) ⟨hA, hB, hC⟩
      (ga := (some (1, 0, 0), some (1, 0, 1))) (gb := (some (1, 0, 0), some (1, 0, 1))) (gc := (some (0, 1, 0), some (0, 1, 1))) (gd := (some (0, 1, 0), some (0, 1, 1)))
      (V4.Fits.eq hx (by deg) (by deg)) (V4.Fits.eq hx (by deg) (by deg)) (V4.Fits.eq hy (by deg) (by deg)) (V4.Fits.eq hy (by deg) (by deg)) (K := 5) (D := (1, 1, 0)) (K' := 5) (D' := (1, 1, 2))
      (h := (by decide +kernel)) (hw := hw2)).eq (by units) (by units)

theorem C94_point_join_line (hA : In2 A 24 24) (hB : In2 B 24 24) (hC : In2 C 20 20) (isa : Isa) {x : Point F32} {y : Line F32}
    (hx : x.Within A C) (hy : y.Within B C)
    {w : V4 F32} (hw : CanV (env x.p3 x.p3 y.p1 y.p2) ((Point.mk X).joinLine isa (Line.mk Y Y')).p0 w) :
    w.Near32 (x.real.joinLine isa y.real).p0 (9 * (A * B * C ^ 2)) (10 * (A * B * C)) := by
  · rw [point_join_line_p0_ex isa x.real y.real]
    exact (near4C (s := ⟨A, B, C⟩) ⟨hA, hB, hC⟩
      (ga := (some (1, 0, 0), some (1, 0, 1))) (gb := (some (1, 0, 0), some (1, 0, 1))) (gc := (none, some (0, 1, 0))) (gd := (none, some (0, 1, 1)))
      (V4.Fits.eq hx (by deg) (by deg)) (V4.Fits.eq hx (by deg) (by deg)) (hy.1.eq (by deg) (by deg)) (hy.2.eq (by deg) (by deg)) (K := 9) (D := (1, 1, 2)) (K' := 10) (D' := (1, 1, 1))
      (h := (by cases isa <;> decide +kernel)) (hw := hw)).eq (by units) (by units)

theorem C94_line_join_point (hA : In2 A 24 24) (hB : In2 B 24 24) (hC : In2 C 20 20) (isa : Isa) {x : Line F32} {y : Point F32}
    (hx : x.Within A C) (hy : y.Within B C)
    {w : V4 F32} (hw : CanV (env x.p1 x.p2 y.p3 y.p3) ((Line.mk X X').joinPoint isa (Point.mk Y)).p0 w) :
    w.Near32 (x.real.joinPoint isa y.real).p0 (9 * (A * B * C ^ 2)) (10 * (A * B * C)) := by
  · rw [line_join_point_p0_ex isa x.real y.real]
    exact (near4C (s := ⟨A, B, C⟩) ⟨hA, hB, hC⟩
      (ga := (none, some (1, 0, 0))) (gb := (none, some (1, 0, 1))) (gc := (some (0, 1, 0), some (0, 1, 1))) (gd := (some (0, 1, 0), some (0, 1, 1)))
      (hx.1.eq (by deg) (by deg)) (hx.2.eq (by deg) (by deg)) (V4.Fits.eq hy (by deg) (by deg)) (V4.Fits.eq hy (by deg) (by deg)) (K := 9) (D := (1, 1, 2)) (K' := 10) (D' := (1, 1, 1))
      (h := (by cases isa <;> decide +kernel)) (hw := hw)).eq (by units) (by units)

theorem C94_point_join_branch (hA : In2 A 24 24) (hB : In2 B 24 24) (hC : In2 C 20 20) {x : Point F32} {y : Branch F32}
    (hx : x.Within A C) (hy : y.Within B)
    {w : V4 F32} (hw : CanV (env x.p3 x.p3 y.p1 y.p1) ((Point.mk X).joinBranch (Branch.mk Y)).p0 w) :
    w.Near32 (x.real.joinBranch y.real).p0 0 (5 * (A * B * C)) := by
  · rw [point_join_branch_p0_ex x.real y.real]
    exact (near4C (s := ⟨A, B, C⟩) ⟨hA, hB, hC⟩
      (ga := (some (1, 0, 0), some (1, 0, 1))) (gb := (some (1, 0, 0), some (1, 0, 1))) (gc := (none, some (0, 1, 0))) (gd := (none, some (0, 1, 0)))
      (V4.Fits.eq hx (by deg) (by deg)) (V4.Fits.eq hx (by deg) (by deg)) (V4.Fits.eq hy (by deg) (by deg)) (V4.Fits.eq hy (by deg) (by deg)) (K := 0) (D := (0, 0, 0)) (K' := 5) (D' := (1, 1, 1))
      (h := (by decide +kernel)) (hw := hw)).eq (by units) (by units)

theorem C94_branch_join_point (hA : In2 A 24 24) (hB : In2 B 24 24) (hC : In2 C 20 20) {x : Branch F32} {y : Point F32}
    (hx : x.Within A) (hy : y.Within B C)
    {w : V4 F32} (hw : CanV (env x.p1 x.p1 y.p3 y.p3) ((Branch.mk X).joinPoint (Point.mk Y)).p0 w) :
    w.Near32 (x.real.joinPoint y.real).p0 0 (5 * (A * B * C)) := by
  · rw [branch_join_point_p0_ex x.real y.real]
    exact (near4C (s := ⟨A, B, C⟩) ⟨hA, hB, hC⟩
      (ga := (none, some (1, 0, 0))) (gb := (none, some (1, 0, 0))) (gc := (some (0, 1, 0), some (0, 1, 1))) (gd := (some (0, 1, 0), some (0, 1, 1)))
      (V4.Fits.eq hx (by deg) (by deg)) (V4.Fits.eq hx (by deg) (by deg)) (V4.Fits.eq hy (by deg) (by deg)) (V4.Fits.eq hy (by deg) (by deg)) (K := 0) (D := (0, 0, 0)) (K' := 5) (D' := (1, 1, 1))
      (h := (by decide +kernel)) (hw := hw)).eq (by units) (by units)

theorem C94_point_join_ideal_line (hA : In2 A 24 24) (hB : In2 B 24 24) (hC : In2 C 20 20) (isa : Isa) {x : Point F32} {y : IdealLine F32}
    (hx : x.Within A C) (hy : y.Within B)
    {w : V4 F32} (hw : CanV (env x.p3 x.p3 y.p2 y.p2) ((Point.mk X).joinIdealLine isa (IdealLine.mk Y)).p0 w) :
    w.Near32 (x.real.joinIdealLine isa y.real).p0 (9 * (A * B * C)) (3 * (A * B)) := by
  · rw [point_join_ideal_line_p0_ex isa x.real y.real]
    exact (near4C (s := ⟨A, B, C⟩) ⟨hA, hB, hC⟩
      (ga := (some (1, 0, 0), some (1, 0, 1))) (gb := (some (1, 0, 0), some (1, 0, 1))) (gc := (none, some (0, 1, 0))) (gd := (none, some (0, 1, 0)))
      (V4.Fits.eq hx (by deg) (by deg)) (V4.Fits.eq hx (by deg) (by deg)) (V4.Fits.eq hy (by deg) (by deg)) (V4.Fits.eq hy (by deg) (by deg)) (K := 9) (D := (1, 1, 1)) (K' := 3) (D' := (1, 1, 0))
      (h := (by cases isa <;> decide +kernel)) (hw := hw)).eq (by units) (by units)

theorem C94_ideal_line_join_point (hA : In2 A 24 24) (hB : In2 B 24 24) (hC : In2 C 20 20) (isa : Isa) {x : IdealLine F32} {y : Point F32}
    (hx : x.Within A) (hy : y.Within B C)
    {w : V4 F32} (hw : CanV (env x.p2 x.p2 y.p3 y.p3) ((IdealLine.mk X).joinPoint isa (Point.mk Y)).p0 w) :
    w.Near32 (x.real.joinPoint isa y.real).p0 (9 * (A * B * C)) (3 * (A * B)) := by
  · rw [ideal_line_join_point_p0_ex isa x.real y.real]
    exact (near4C (s := ⟨A, B, C⟩) ⟨hA, hB, hC⟩
      (ga := (none, some (1, 0, 0))) (gb := (none, some (1, 0, 0))) (gc := (some (0, 1, 0), some (0, 1, 1))) (gd := (some (0, 1, 0), some (0, 1, 1)))
      (V4.Fits.eq hx (by deg) (by deg)) (V4.Fits.eq hx (by deg) (by deg)) (V4.Fits.eq hy (by deg) (by deg)) (V4.Fits.eq hy (by deg) (by deg)) (K := 9) (D := (1, 1, 1)) (K' := 3) (D' := (1, 1, 0))
      (h := (by cases isa <;> decide +kernel)) (hw := hw)).eq (by units) (by units)

theorem C94_plane_join_point (hA : In2 A 24 24) (hB : In2 B 24 24) (hC : In2 C 20 20) (isa : Isa) {x : Plane F32} {y : Point F32}
    (hx : x.Within A C) (hy : y.Within B C)
    {w1 : F32} (hw1 : Can (env x.p0 x.p0 y.p3 y.p3) ((Plane.mk X).joinPoint isa (Point.mk Y)).p w1)
    {w2 : F32} (hw2 : Can (env x.p0 x.p0 y.p3 y.p3) ((Plane.mk X).joinPoint isa (Point.mk Y)).q w2) :
    Near32 w1 (x.real.joinPoint isa y.real).p (13 * (A * B * C)) ∧
    Near32 w2 (x.real.joinPoint isa y.real).q 0 := by
  constructor
  · rw [plane_join_point_p_ex isa x.real y.real]
    exact (near1C (s := ⟨A, B, C⟩) ⟨hA, hB, hC⟩
      (ga := (some (1, 0, 1), some (1, 0, 0))) (gb := (some (1, 0, 1), some (1, 0, 0))) (gc := (some (0, 1, 0), some (0, 1, 1))) (gd := (some (0, 1, 0), some (0, 1, 1)))
      (V4.Fits.eq hx (by deg) (by deg)) (V4.Fits.eq hx (by deg) (by deg)) (V4.Fits.eq hy (by deg) (by deg)) (V4.Fits.eq hy (by deg) (by deg)) (K := 13) (D := (1, 1, 1))
      (h := (by cases isa <;> decide +kernel)) (hw := hw1)).eq (by units)
  · rw [plane_join_point_q_ex isa x.real y.real]
    exact (near1C (s := ⟨A, B, C⟩) ⟨hA, hB, hC⟩
      (ga := (some (1, 0, 1), some (1, 0, 0))) (gb := (some (1, 0, 1), some (1, 0, 0))) (gc := (some (0, 1, 0), some (0, 1, 1))) (gd := (some (0, 1, 0), some (0, 1, 1)))
      (V4.Fits.eq hx (by deg) (by deg)) (V4.Fits.eq hx (by deg) (by deg)) (V4.Fits.eq hy (by deg) (by deg)) (V4.Fits.eq hy (by deg) (by deg)) (K := 0) (D := (0, 0, 0))
      (h := (by cases isa <;> decide +kernel)) (hw := hw2)).eq (by units)

theorem C94_point_join_plane (hA : In2 A 24 24) (hB : In2 B 24 24) (hC : In2 C 20 20) (isa : Isa) {x : Point F32} {y : Plane F32}
    (hx : x.Within A C) (hy : y.Within B C)
    {w1 : F32} (hw1 : Can (env x.p3 x.p3 y.p0 y.p0) ((Point.mk X).joinPlane isa (Plane.mk Y)).p w1)
    {w2 : F32} (hw2 : Can (env x.p3 x.p3 y.p0 y.p0) ((Point.mk X).joinPlane isa (Plane.mk Y)).q w2) :
    Near32 w1 (x.real.joinPlane isa y.real).p (13 * (A * B * C)) ∧
    Near32 w2 (x.real.joinPlane isa y.real).q 0 := by
  constructor
  · rw [point_join_plane_p_ex isa x.real y.real]
    exact (near1C (s := ⟨A, B, C⟩) ⟨hA, hB, hC⟩
      (ga := (some (1, 0, 0), some (1, 0, 1))) (gb := (some (1, 0, 0), some (1, 0, 1))) (gc := (some (0, 1, 1), some (0, 1, 0))) (gd := (some (0, 1, 1), some (0, 1, 0)))
      (V4.Fits.eq hx (by deg) (by deg)) (V4.Fits.eq hx (by deg) (by deg)) (V4.Fits.eq hy (by deg) (by deg)) (V4.Fits.eq hy (by deg) (by deg)) (K := 13) (D := (1, 1, 1))
      (h := (by cases isa <;> decide +kernel)) (hw := hw1)).eq (by units)
  · rw [point_join_plane_q_ex isa x.real y.real]
    exact (near1C (s := ⟨A, B, C⟩) ⟨hA, hB, hC⟩
      (ga := (some (1, 0, 0), some (1, 0, 1))) (gb := (some (1, 0, 0), some (1, 0, 1))) (gc := (some (0, 1, 1), some (0, 1, 0))) (gd := (some (0, 1, 1), some (0, 1, 0)))
      (V4.Fits.eq hx (by deg) (by deg)) (V4.Fits.eq hx (by deg) (by deg)) (V4.Fits.eq hy (by deg) (by deg)) (V4.Fits.eq hy (by deg) (by deg)) (K := 0) (D := (0, 0, 0))
      (h := (by cases isa <;> decide +kernel)) (hw := hw2)).eq (by units)

theorem C94_plane_dot_plane (hA : In2 A 24 24) (hB : In2 B 24 24) (hC : In2 C 20 20) (isa : Isa) {x : Plane F32} {y : Plane F32}
    (hx : x.Within A C) (hy : y.Within B C)
    {w : F32} (hw : Can (env x.p0 x.p0 y.p0 y.p0) ((Plane.mk X).dotPlane isa (Plane.mk Y)) w) :
    Near32 w (x.real.dotPlane isa y.real) (9 * (A * B)) := by
  · rw [plane_dot_plane_ex isa x.real y.real]
    exact (near1C (s := ⟨A, B, C⟩) ⟨hA, hB, hC⟩
      (ga := (some (1, 0, 1), some (1, 0, 0))) (gb := (some (1, 0, 1), some (1, 0, 0))) (gc := (some (0, 1, 1), some (0, 1, 0))) (gd := (some (0, 1, 1), some (0, 1, 0)))
      (V4.Fits.eq hx (by deg) (by deg)) (V4.Fits.eq hx (by deg) (by deg)) (V4.Fits.eq hy (by deg) (by deg)) (V4.Fits.eq hy (by deg) (by deg)) (K := 9) (D := (1, 1, 0))
      (h := (by cases isa <;> decide +kernel)) (hw := hw)).eq (by units)

theorem C94_plane_dot_line (hA : In2 A 24 24) (hB : In2 B 24 24) (hC : In2 C 20 20) {x : Plane F32} {y : Line F32}
    (hx : x.Within A C) (hy : y.Within B C)
    {w : V4 F32} (hw : CanV (env x.p0 x.p0 y.p1 y.p2) ((Plane.mk X).dotLine (Line.mk Y Y')).p0 w) :
    w.Near32 (x.real.dotLine y.real).p0 (9 * (A * B * C)) (5 * (A * B)) := by
  · rw [plane_dot_line_p0_ex x.real y.real]
    exact (near4C (s := ⟨A, B, C⟩) ⟨hA, hB, hC⟩
      (ga := (some (1, 0, 1), some (1, 0, 0))) (gb := (some (1, 0, 1), some (1, 0, 0))) (gc := (none, some (0, 1, 0))) (gd := (none, some (0, 1, 1)))
      (V4.Fits.eq hx (by deg) (by deg)) (V4.Fits.eq hx (by deg) (by deg)) (hy.1.eq (by deg) (by deg)) (hy.2.eq (by deg) (by deg)) (K := 9) (D := (1, 1, 1)) (K' := 5) (D' := (1, 1, 0))
      (h := (by decide +kernel)) (hw := hw)).eq (by units) (by units)

theorem C94_line_dot_plane (hA : In2 A 24 24) (hB : In2 B 24 24) (hC : In2 C 20 20) {x : Line F32} {y : Plane F32}
    (hx : x.Within A C) (hy : y.Within B C)
    {w : V4 F32} (hw : CanV (env x.p1 x.p2 y.p0 y.p0) ((Line.mk X X').dotPlane (Plane.mk Y)).p0 w) :
    w.Near32 (x.real.dotPlane y.real).p0 (9 * (A * B * C)) (5 * (A * B)) := by
  · rw [line_dot_plane_p0_ex x.real y.real]
    exact (near4C (s := ⟨A, B, C⟩) ⟨hA, hB, hC⟩
      (ga := (none, some (1, 0, 0))) (gb := (none, some (1, 0, 1))) (gc := (some (0, 1, 1), some (0, 1, 0))) (gd := (some (0, 1, 1), some (0, 1, 0)))
      (hx.1.eq (by deg) (by deg)) (hx.2.eq (by deg) (by deg)) (V4.Fits.eq hy (by deg) (by deg)) (V4.Fits.eq hy (by deg) (by deg)) (K := 9) (D := (1, 1, 1)) (K' := 5) (D' := (1, 1, 0))
      (h := (by decide +kernel)) (hw := hw)).eq (by units) (by units)

theorem C94_plane_dot_ideal_line (hA : In2 A 24 24) (hB : In2 B 24 24) (hC : In2 C 20 20) (isa : Isa) {x : Plane F32} {y : IdealLine F32}
    (hx : x.Within A C) (hy : y.Within B)
    {w : V4 F32} (hw : CanV (env x.p0 x.p0 y.p2 y.p2) ((Plane.mk X).dotIdealLine isa (IdealLine.mk Y)).p0 w) :
    w.Near32 (x.real.dotIdealLine isa y.real).p0 (9 * (A * B)) 0 := by
  · rw [plane_dot_ideal_line_p0_ex isa x.real y.real]
    exact (near4C (s := ⟨A, B, C⟩) ⟨hA, hB, hC⟩
      (ga := (some (1, 0, 1), some (1, 0, 0))) (gb := (some (1, 0, 1), some (1, 0, 0))) (gc := (none, some (0, 1, 0))) (gd := (none, some (0, 1, 0)))
      (V4.Fits.eq hx (by deg) (by deg)) (V4.Fits.eq hx (by deg) (by deg)) (V4.Fits.eq hy (by deg) (by deg)) (V4.Fits.eq hy (by deg) (by deg)) (K := 9) (D := (1, 1, 0)) (K' := 0) (D' := (0, 0, 0))
      (h := (by cases isa <;> decide +kernel)) (hw := hw)).eq (by units) (by units)

theorem C94_ideal_line_dot_plane (hA : In2 A 24 24) (hB : In2 B 24 24) (hC : In2 C 20 20) (isa : Isa) {x : IdealLine F32} {y : Plane F32}
    (hx : x.Within A) (hy : y.Within B C)
    {w : V4 F32} (hw : CanV (env x.p2 x.p2 y.p0 y.p0) ((IdealLine.mk X).dotPlane isa (Plane.mk Y)).p0 w) :
    w.Near32 (x.real.dotPlane isa y.real).p0 (9 * (A * B)) 0 := by
  · rw [ideal_line_dot_plane_p0_ex isa x.real y.real]
    exact (near4C (s := ⟨A, B, C⟩) ⟨hA, hB, hC⟩
      (ga := (none, some (1, 0, 0))) (gb := (none, some (1, 0, 0))) (gc := (some (0, 1, 1), some (0, 1, 0))) (gd := (some (0, 1, 1), some (0, 1, 0)))
      (V4.Fits.eq hx (by deg) (by deg)) (V4.Fits.eq hx (by deg) (by deg)) (V4.Fits.eq hy (by deg) (by deg)) (V4.Fits.eq hy (by deg) (by deg)) (K := 9) (D := (1, 1, 0)) (K' := 0) (D' := (0, 0, 0))
      (h := (by cases isa <;> decide +kernel)) (hw := hw)).eq (by units) (by units)

theorem C94_plane_dot_point (hA : In2 A 24 24) (hB : In2 B 24 24) (hC : In2 C 20 20) (isa : Isa) {x : Plane F32} {y : Point F32}
    (hx : x.Within A C) (hy : y.Within B C)
    {w1 : V4 F32} (hw1 : CanV (env x.p0 x.p0 y.p3 y.p3) ((Plane.mk X).dotPoint isa (Point.mk Y)).p1 w1)
    {w2 : V4 F32} (hw2 : CanV (env x.p0 x.p0 y.p3 y.p3) ((Plane.mk X).dotPoint isa (Point.mk Y)).p2 w2) :
    w1.Near32 (x.real.dotPoint isa y.real).p1 0 (2 * (A * B)) ∧
    w2.Near32 (x.real.dotPoint isa y.real).p2 (5 * (A * B * C)) (5 * (A * B * C)) := by
  constructor
  · rw [plane_dot_point_p1_ex isa x.real y.real]
    exact (near4C (s := ⟨A, B, C⟩) ⟨hA, hB, hC⟩
      (ga := (some (1, 0, 1), some (1, 0, 0))) (gb := (some (1, 0, 1), some (1, 0, 0))) (gc := (some (0, 1, 0), some (0, 1, 1))) (gd := (some (0, 1, 0), some (0, 1, 1)))
      (V4.Fits.eq hx (by deg) (by deg)) (V4.Fits.eq hx (by deg) (by deg)) (V4.Fits.eq hy (by deg) (by deg)) (V4.Fits.eq hy (by deg) (by deg)) (K := 0) (D := (0, 0, 0)) (K' := 2) (D' := (1, 1, 0))
      (h := (by cases isa <;> decide +kernel)) (hw := hw1)).eq (by units) (by units)
  · rw [plane_dot_point_p2_ex isa x.real y.real]
    exact (near4C (s := ⟨A, B, C⟩) ⟨hA, hB, hC⟩
      (ga := (some (1, 0, 1), some (1, 0, 0))) (gb := (some (1, 0, 1), some (1, 0, 0))) (gc := (some (0, 1, 0), some (0, 1, 1))) (gd := (some (0, 1, 0), some (0, 1, 1)))
      (V4.Fits.eq hx (by deg) (by deg)) (V4.Fits.eq hx (by deg) (by deg)) (V4.Fits.eq hy (by deg) (by deg)) (V4.Fits.eq hy (by deg) (by deg)) (K := 5) (D := (1, 1, 1)) (K' := 5) (D' := (1, 1, 1))
      (h := (by cases isa <;> decide +kernel)) (hw := hw2)).eq (by units) (by units)

theorem C94_point_dot_plane (hA : In2 A 24 24) (hB : In2 B 24 24) (hC : In2 C 20 20) (isa : Isa) {x : Point F32} {y : Plane F32}
    (hx : x.Within A C) (hy : y.Within B C)
    {w1 : V4 F32} (hw1 : CanV (env x.p3 x.p3 y.p0 y.p0) ((Point.mk X).dotPlane isa (Plane.mk Y)).p1 w1)
    {w2 : V4 F32} (hw2 : CanV (env x.p3 x.p3 y.p0 y.p0) ((Point.mk X).dotPlane isa (Plane.mk Y)).p2 w2) :
    w1.Near32 (x.real.dotPlane isa y.real).p1 0 (2 * (A * B)) ∧
    w2.Near32 (x.real.dotPlane isa y.real).p2 (5 * (A * B * C)) (5 * (A * B * C)) := by
  constructor
  · rw [point_dot_plane_p1_ex isa x.real y.real]
    exact (near4C (s := ⟨A, B, C⟩) ⟨hA, hB, hC⟩
      (ga := (some (1, 0, 0), some (1, 0, 1))) (gb := (some (1, 0, 0), some (1, 0, 1))) (gc := (some (0, 1, 1), some (0, 1, 0))) (gd := (some (0, 1, 1), some (0, 1, 0)))
      (V4.Fits.eq hx (by deg) (by deg)) (V4.Fits.eq hx (by deg) (by deg)) (V4.Fits.eq hy (by deg) (by deg)) (V4.Fits.eq hy (by deg) (by deg)) (K := 0) (D := (0, 0, 0)) (K' := 2) (D' := (1, 1, 0))
      (h := (by cases isa <;> decide +kernel)) (hw := hw1)).eq (by units) (by units)
  · rw [point_dot_plane_p2_ex isa x.real y.real]
    exact (near4C (s := ⟨A, B, C⟩) ⟨hA, hB, hC⟩
      (ga := (some (1, 0, 0), some (1, 0, 1))) (gb := (some (1, 0, 0), some (1, 0, 1))) (gc := (some (0, 1, 1), some (0, 1, 0))) (gd := (some (0, 1, 1), some (0, 1, 0)))
      (V4.Fits.eq hx (by deg) (by deg)) (V4.Fits.eq hx (by deg) (by deg)) (V4.Fits.eq hy (by deg) (by deg)) (V4.Fits.eq hy (by deg) (by deg)) (K := 5) (D := (1, 1, 1)) (K' := 5) (D' := (1, 1, 1))
      (h := (by cases isa <;> decide +kernel)) (hw := hw2)).eq (by units) (by units)

theorem C94_line_dot_line (hA : In2 A 24 24) (hB : In2 B 24 24) (hC : In2 C 20 20) {x : Line F32} {y : Line F32}
    (hx : x.Within A C) (hy : y.Within B C)
    {w : F32} (hw : Can (env x.p1 x.p2 y.p1 y.p2) ((Line.mk X X').dotLine (Line.mk Y Y')) w) :
    Near32 w (x.real.dotLine y.real) (9 * (A * B)) := by
  · rw [line_dot_line_ex x.real y.real]
    exact (near1C (s := ⟨A, B, C⟩) ⟨hA, hB, hC⟩
      (ga := (none, some (1, 0, 0))) (gb := (none, some (1, 0, 1))) (gc := (none, some (0, 1, 0))) (gd := (none, some (0, 1, 1)))
      (hx.1.eq (by deg) (by deg)) (hx.2.eq (by deg) (by deg)) (hy.1.eq (by deg) (by deg)) (hy.2.eq (by deg) (by deg)) (K := 9) (D := (1, 1, 0))
      (h := (by decide +kernel)) (hw := hw)).eq (by units)

theorem C94_point_dot_line (hA : In2 A 24 24) (hB : In2 B 24 24) (hC : In2 C 20 20) (isa : Isa) {x : Point F32} {y : Line F32}
    (hx : x.Within A C) (hy : y.Within B C)
    {w : V4 F32} (hw : CanV (env x.p3 x.p3 y.p1 y.p2) ((Point.mk X).dotLine isa (Line.mk Y Y')).p0 w) :
    w.Near32 (x.real.dotLine isa y.real).p0 (9 * (A * B * C)) (2 * (A * B)) := by
  · rw [point_dot_line_p0_ex isa x.real y.real]
    exact (near4C (s := ⟨A, B, C⟩) ⟨hA, hB, hC⟩
      (ga := (some (1, 0, 0), some (1, 0, 1))) (gb := (some (1, 0, 0), some (1, 0, 1))) (gc := (none, some (0, 1, 0))) (gd := (none, some (0, 1, 1)))
      (V4.Fits.eq hx (by deg) (by deg)) (V4.Fits.eq hx (by deg) (by deg)) (hy.1.eq (by deg) (by deg)) (hy.2.eq (by deg) (by deg)) (K := 9) (D := (1, 1, 1)) (K' := 2) (D' := (1, 1, 0))
      (h := (by cases isa <;> decide +kernel)) (hw := hw)).eq (by units) (by units)

theorem C94_line_dot_point (hA : In2 A 24 24) (hB : In2 B 24 24) (hC : In2 C 20 20) (isa : Isa) {x : Line F32} {y : Point F32}
    (hx : x.Within A C) (hy : y.Within B C)
    {w : V4 F32} (hw : CanV (env x.p1 x.p2 y.p3 y.p3) ((Line.mk X X').dotPoint isa (Point.mk Y)).p0 w) :
    w.Near32 (x.real.dotPoint isa y.real).p0 (9 * (A * B * C)) (2 * (A * B)) := by
  · rw [line_dot_point_p0_ex isa x.real y.real]
    exact (near4C (s := ⟨A, B, C⟩) ⟨hA, hB, hC⟩
      (ga := (none, some (1, 0, 0))) (gb := (none, some (1, 0, 1))) (gc := (some (0, 1, 0), some (0, 1, 1))) (gd := (some (0, 1, 0), some (0, 1, 1)))
      (hx.1.eq (by deg) (by deg)) (hx.2.eq (by deg) (by deg)) (V4.Fits.eq hy (by deg) (by deg)) (V4.Fits.eq hy (by deg) (by deg)) (K := 9) (D := (1, 1, 1)) (K' := 2) (D' := (1, 1, 0))
      (h := (by cases isa <;> decide +kernel)) (hw := hw)).eq (by units) (by units)

theorem C94_point_dot_point (hA : In2 A 24 24) (hB : In2 B 24 24) (hC : In2 C 20 20) {x : Point F32} {y : Point F32}
    (hx : x.Within A C) (hy : y.Within B C)
    {w : F32} (hw : Can (env x.p3 x.p3 y.p3 y.p3) ((Point.mk X).dotPoint (Point.mk Y)) w) :
    Near32 w (x.real.dotPoint y.real) (3 * (A * B)) := by
  · rw [point_dot_point_ex x.real y.real]
    exact (near1C (s := ⟨A, B, C⟩) ⟨hA, hB, hC⟩
      (ga := (some (1, 0, 0), some (1, 0, 1))) (gb := (some (1, 0, 0), some (1, 0, 1))) (gc := (some (0, 1, 0), some (0, 1, 1))) (gd := (some (0, 1, 0), some (0, 1, 1)))
      (V4.Fits.eq hx (by deg) (by deg)) (V4.Fits.eq hx (by deg) (by deg)) (V4.Fits.eq hy (by deg) (by deg)) (V4.Fits.eq hy (by deg) (by deg)) (K := 3) (D := (1, 1, 0))
      (h := (by decide +kernel)) (hw := hw)).eq (by units)

theorem C94_point_project_line (hA : In2 A 24 24) (hB : In2 B 24 24) (hC : In2 C 20 20) (isa : Isa) {x : Point F32} {y : Line F32}
    (hx : x.Within A C) (hy : y.Within B C)
    {w : V4 F32} (hw : CanV (env x.p3 x.p3 y.p1 y.p2) ((Point.mk X).projectLine isa (Line.mk Y Y')).p3 w) :
    w.Near32 (x.real.projectLine isa y.real).p3 (12 * (A * B ^ 2)) (26 * (A * B ^ 2 * C)) := by
  · rw [point_project_line_p3_ex isa x.real y.real]
    exact (near4C (s := ⟨A, B, C⟩) ⟨hA, hB, hC⟩
      (ga := (some (1, 0, 0), some (1, 0, 1))) (gb := (some (1, 0, 0), some (1, 0, 1))) (gc := (none, some (0, 1, 0))) (gd := (none, some (0, 1, 1)))
      (V4.Fits.eq hx (by deg) (by deg)) (V4.Fits.eq hx (by deg) (by deg)) (hy.1.eq (by deg) (by deg)) (hy.2.eq (by deg) (by deg)) (K := 12) (D := (1, 2, 0)) (K' := 26) (D' := (1, 2, 1))
      (h := (by cases isa <;> decide +kernel)) (hw := hw)).eq (by units) (by units)

theorem C94_point_project_plane (hA : In2 A 24 24) (hB : In2 B 24 24) (hC : In2 C 20 20) (isa : Isa) {x : Point F32} {y : Plane F32}
    (hx : x.Within A C) (hy : y.Within B C)
    {w : V4 F32} (hw : CanV (env x.p3 x.p3 y.p0 y.p0) ((Point.mk X).projectPlane isa (Plane.mk Y)).p3 w) :
    w.Near32Rest (x.real.projectPlane isa y.real).p3 (25 * (A * B ^ 2 * C)) := by
  · rw [point_project_plane_p3_ex isa x.real y.real]
    exact (near4R (s := ⟨A, B, C⟩) ⟨hA, hB, hC⟩
      (ga := (some (1, 0, 0), some (1, 0, 1))) (gb := (some (1, 0, 0), some (1, 0, 1))) (gc := (some (0, 1, 1), some (0, 1, 0))) (gd := (some (0, 1, 1), some (0, 1, 0)))
      (V4.Fits.eq hx (by deg) (by deg)) (V4.Fits.eq hx (by deg) (by deg)) (V4.Fits.eq hy (by deg) (by deg)) (V4.Fits.eq hy (by deg) (by deg)) (K' := 25) (D' := (1, 2, 1))
      (h := (by cases isa <;> decide +kernel)) (hw := hw)).eq (by units)

theorem C94_line_project_plane (hA : In2 A 24 24) (hB : In2 B 24 24) (hC : In2 C 20 20) {x : Line F32} {y : Plane F32}
    (hx : x.Within A C) (hy : y.Within B C)
    {w1 : V4 F32} (hw1 : CanV (env x.p1 x.p2 y.p0 y.p0) ((Line.mk X X').projectPlane (Plane.mk Y)).p1 w1)
    {w2 : V4 F32} (hw2 : CanV (env x.p1 x.p2 y.p0 y.p0) ((Line.mk X X').projectPlane (Plane.mk Y)).p2 w2) :
    w1.Near32 (x.real.projectPlane y.real).p1 (29 * (A * B ^ 2 * C ^ 2)) (17 * (A * B ^ 2)) ∧
    w2.Near32 (x.real.projectPlane y.real).p2 (29 * (A * B ^ 2 * C ^ 2)) (23 * (A * B ^ 2 * C)) := by
  constructor
  · rw [line_project_plane_p1_ex x.real y.real]
    exact (near4C (s := ⟨A, B, C⟩) ⟨hA, hB, hC⟩
      (ga := (none, some (1, 0, 0))) (gb := (none, some (1, 0, 1))) (gc := (some (0, 1, 1), some (0, 1, 0))) (gd := (some (0, 1, 1), some (0, 1, 0)))
      (hx.1.eq (by deg) (by deg)) (hx.2.eq (by deg) (by deg)) (V4.Fits.eq hy (by deg) (by deg)) (V4.Fits.eq hy (by deg) (by deg)) (K := 29) (D := (1, 2, 2)) (K' := 17) (D' := (1, 2, 0))
      (h := (by decide +kernel)) (hw := hw1)).eq (by units) (by units)
  · rw [line_project_plane_p2_ex x.real y.real]
    exact (near4C (s := ⟨A, B, C⟩) ⟨hA, hB, hC⟩
      (ga := (none, some (1, 0, 0))) (gb := (none, some (1, 0, 1))) (gc := (some (0, 1, 1), some (0, 1, 0))) (gd := (some (0, 1, 1), some (0, 1, 0)))
      (hx.1.eq (by deg) (by deg)) (hx.2.eq (by deg) (by deg)) (V4.Fits.eq hy (by deg) (by deg)) (V4.Fits.eq hy (by deg) (by deg)) (K := 29) (D := (1, 2, 2)) (K' := 23) (D' := (1, 2, 1))
      (h := (by decide +kernel)) (hw := hw2)).eq (by units) (by units)

theorem C94_plane_project_point (hA : In2 A 24 24) (hB : In2 B 24 24) (hC : In2 C 20 20) (isa : Isa) {x : Plane F32} {y : Point F32}
    (hx : x.Within A C) (hy : y.Within B C)
    {w : V4 F32} (hw : CanV (env x.p0 x.p0 y.p3 y.p3) ((Plane.mk X).projectPoint isa (Point.mk Y)).p0 w) :
    w.Near32 (x.real.projectPoint isa y.real).p0 (12 * (A * B ^ 2 * C)) (3 * (A * B ^ 2)) := by
  · rw [plane_project_point_p0_ex isa x.real y.real]
    exact (near4C (s := ⟨A, B, C⟩) ⟨hA, hB, hC⟩
      (ga := (some (1, 0, 1), some (1, 0, 0))) (gb := (some (1, 0, 1), some (1, 0, 0))) (gc := (some (0, 1, 0), some (0, 1, 1))) (gd := (some (0, 1, 0), some (0, 1, 1)))
      (V4.Fits.eq hx (by deg) (by deg)) (V4.Fits.eq hx (by deg) (by deg)) (V4.Fits.eq hy (by deg) (by deg)) (V4.Fits.eq hy (by deg) (by deg)) (K := 12) (D := (1, 2, 1)) (K' := 3) (D' := (1, 2, 0))
      (h := (by cases isa <;> decide +kernel)) (hw := hw)).eq (by units) (by units)

theorem C94_line_project_point (hA : In2 A 24 24) (hB : In2 B 24 24) (hC : In2 C 20 20) (isa : Isa) {x : Line F32} {y : Point F32}
    (hx : x.Within A C) (hy : y.Within B C)
    {w1 : V4 F32} (hw1 : CanV (env x.p1 x.p2 y.p3 y.p3) ((Line.mk X X').projectPoint isa (Point.mk Y)).p1 w1)
    {w2 : V4 F32} (hw2 : CanV (env x.p1 x.p2 y.p3 y.p3) ((Line.mk X X').projectPoint isa (Point.mk Y)).p2 w2) :
    w1.Near32 (x.real.projectPoint isa y.real).p1 0 (3 * (A * B ^ 2)) ∧
    w2.Near32 (x.real.projectPoint isa y.real).p2 (29 * (A * B ^ 2 * C)) (7 * (A * B ^ 2 * C)) := by
  constructor
  · rw [line_project_point_p1_ex isa x.real y.real]
    exact (near4C (s := ⟨A, B, C⟩) ⟨hA, hB, hC⟩
      (ga := (none, some (1, 0, 0))) (gb := (none, some (1, 0, 1))) (gc := (some (0, 1, 0), some (0, 1, 1))) (gd := (some (0, 1, 0), some (0, 1, 1)))
      (hx.1.eq (by deg) (by deg)) (hx.2.eq (by deg) (by deg)) (V4.Fits.eq hy (by deg) (by deg)) (V4.Fits.eq hy (by deg) (by deg)) (K := 0) (D := (0, 0, 0)) (K' := 3) (D' := (1, 2, 0))
      (h := (by cases isa <;> decide +kernel)) (hw := hw1)).eq (by units) (by units)
  · rw [line_project_point_p2_ex isa x.real y.real]
    exact (near4C (s := ⟨A, B, C⟩) ⟨hA, hB, hC⟩
      (ga := (none, some (1, 0, 0))) (gb := (none, some (1, 0, 1))) (gc := (some (0, 1, 0), some (0, 1, 1))) (gd := (some (0, 1, 0), some (0, 1, 1)))
      (hx.1.eq (by deg) (by deg)) (hx.2.eq (by deg) (by deg)) (V4.Fits.eq hy (by deg) (by deg)) (V4.Fits.eq hy (by deg) (by deg)) (K := 29) (D := (1, 2, 1)) (K' := 7) (D' := (1, 2, 1))
      (h := (by cases isa <;> decide +kernel)) (hw := hw2)).eq (by units) (by units)

theorem C94_plane_project_line (hA : In2 A 24 24) (hB : In2 B 24 24) (hC : In2 C 20 20) {x : Plane F32} {y : Line F32}
    (hx : x.Within A C) (hy : y.Within B C)
    {w : V4 F32} (hw : CanV (env x.p0 x.p0 y.p1 y.p2) ((Plane.mk X).projectLine (Line.mk Y Y')).p0 w) :
    w.Near32 (x.real.projectLine y.real).p0 (29 * (A * B ^ 2 * C)) (17 * (A * B ^ 2)) := by
  · rw [plane_project_line_p0_ex x.real y.real]
    exact (near4C (s := ⟨A, B, C⟩) ⟨hA, hB, hC⟩
      (ga := (some (1, 0, 1), some (1, 0, 0))) (gb := (some (1, 0, 1), some (1, 0, 0))) (gc := (none, some (0, 1, 0))) (gd := (none, some (0, 1, 1)))
      (V4.Fits.eq hx (by deg) (by deg)) (V4.Fits.eq hx (by deg) (by deg)) (hy.1.eq (by deg) (by deg)) (hy.2.eq (by deg) (by deg)) (K := 29) (D := (1, 2, 1)) (K' := 17) (D' := (1, 2, 0))
      (h := (by decide +kernel)) (hw := hw)).eq (by units) (by units)

/-! ### matrices and shaders -/

theorem nearXC {s : Scales} (hs : s.Ok) {f : ℕ → F32} {E : ℕ → ℝ} {g : ℕ → Bd} (t : ∀ n, Tr (f n) (E n) s (g n))
    {K K' : ℕ} {D D' : ℕ × ℕ × ℕ} (hD : okDeg D.1 D.2.1 D.2.2) (hD' : okDeg D'.1 D'.2.1 D'.2.2) {v : V4 Ex}
    (h : (okC g K D v.l0 && okC g K D v.l1 && okC g K D v.l2 && okC g K' D' v.l3) = true) {w : V4 F32} (hw : CanV f v w) :
    w.NearXyzw (evalV E v) (K * s.sc D.1 D.2.1 D.2.2) (K' * s.sc D'.1 D'.2.1 D'.2.2) := by
  simp only [Bool.and_eq_true] at h
  obtain ⟨⟨⟨h0, h1⟩, h2⟩, h3⟩ := h
  exact ⟨near_okC hs t hD h0 hw.1, near_okC hs t hD h1 hw.2.1, near_okC hs t hD h2 hw.2.2.1, near_okC hs t hD' h3 hw.2.2.2⟩

/-- C94: building the 4x4 matrix of a motor and applying it, everything contracted at will. -/
theorem C94_mat4x4_apply (isa : Isa) (hA : In2 A 24 24) (hB : In2 B 24 24) (hC : In2 C 20 20) {x : Motor F32} {y : Point F32}
    (hx : x.Within A C) (hy : y.Within B C) {w : V4 F32}
    (hw : CanV (env x.p1 x.p2 y.p3 y.p3) (((Motor.mk X X').as_mat4x4 isa X).apply (Point.mk Y).xyzw) w) :
    w.NearXyzw (x.real.onPoint y.real).xyzw (135 * (A ^ 2 * B * C)) (18 * (A ^ 2 * B)) := by
  rw [← C38_mat4x4 isa x.real x.real.p1 y.real, apply4_ex isa x.real y.real x.real.p1]
  exact (nearXC (s := ⟨A, B, C⟩) ⟨hA, hB, hC⟩ (tr_motor_point hx hy) (K := 135) (D := (2, 1, 1)) (K' := 18) (D' := (2, 1, 0))
    (by decide) (by decide) (v := ((Motor.mk X X').as_mat4x4 isa X).apply (Point.mk Y).xyzw)
    (by cases isa <;> decide +kernel) hw).eq (by units) (by units)

theorem C94_mat3x4_apply (isa : Isa) (hA : In2 A 24 24) (hB : In2 B 24 24) (hC : In2 C 20 20) {x : Motor F32} {y : Point F32}
    (hx : x.Within A C) (hy : y.Within B C) {w : V4 F32}
    (hw : CanV (env x.p1 x.p2 y.p3 y.p3) (((Motor.mk X X').as_mat3x4 isa X).apply (Point.mk Y).xyzw) w) :
    w.NearXyzw ⟨(x.real.onPoint y.real).p3.l1, (x.real.onPoint y.real).p3.l2, (x.real.onPoint y.real).p3.l3, r y.p3.l0⟩
      (135 * (A ^ 2 * B * C)) (2 * B) := by
  have k := mat3x4_apply_real isa x.real y.real x.real.p1
  rw [apply3_ex isa x.real y.real] at k
  have h := (nearXC (s := ⟨A, B, C⟩) ⟨hA, hB, hC⟩ (tr_motor_point hx hy) (K := 135) (D := (2, 1, 1)) (K' := 2) (D' := (0, 1, 0))
    (by decide) (by decide) (v := ((Motor.mk X X').as_mat3x4 isa X).apply (Point.mk Y).xyzw)
    (by cases isa <;> decide +kernel) hw).eq (e' := 135 * (A ^ 2 * B * C)) (d' := 2 * B) (by units) (by units)
  rw [show evalV (env x.p1.real x.p2.real y.p3.real y.p3.real) _ = _ from k] at h
  exact h

theorem C94_glsl_motor_point (hA : In2 A 24 24) (hB : In2 B 24 24) (hC : In2 C 20 20) {x : Motor F32} {y : Point F32}
    (hx : x.Within A C) (hy : y.Within B C) {w : V4 F32} (hw : CanV (env x.p1 x.p2 y.p3 y.p3) (Glsl.applyMotorPoint X X' Y) w) :
    w.Near32 (x.real.onPoint y.real).p3 (19 * (A ^ 2 * B)) (135 * (A ^ 2 * B * C)) := by
  rw [← C50_apply_motor_point]
  exact (near4C (s := ⟨A, B, C⟩) ⟨hA, hB, hC⟩
    (ga := (some (1, 0, 0), some (1, 0, 0))) (gb := (some (1, 0, 1), some (1, 0, 1))) (gc := (some (0, 1, 0), some (0, 1, 1))) (gd := (some (0, 1, 0), some (0, 1, 1)))
    (hx.1.eq (by deg) (by deg)) (hx.2.eq (by deg) (by deg)) (V4.Fits.eq hy (by deg) (by deg)) (V4.Fits.eq hy (by deg) (by deg))
    (K := 19) (D := (2, 1, 0)) (K' := 135) (D' := (2, 1, 1)) (v := Glsl.applyMotorPoint X X' Y) (h := (by decide +kernel)) (hw := hw)).eq (by units) (by units)

theorem C94_glsl_motor_plane (isa : Isa) (hA : In2 A 24 24) (hB : In2 B 24 24) (hC : In2 C 20 20) {x : Motor F32} {y : Plane F32}
    (hx : x.Within A C) (hy : y.Within B C) {w : V4 F32} (hw : CanV (env x.p1 x.p2 y.p0 y.p0) (Glsl.applyMotorPlane X X' Y) w) :
    w.Near32 (x.real.onPlane isa y.real).p0 (249 * (A ^ 2 * B * C)) (73 * (A ^ 2 * B)) := by
  rw [← C50_apply_motor_plane]
  exact (near4C (s := ⟨A, B, C⟩) ⟨hA, hB, hC⟩
    (ga := (some (1, 0, 0), some (1, 0, 0))) (gb := (some (1, 0, 1), some (1, 0, 1))) (gc := (some (0, 1, 1), some (0, 1, 0))) (gd := (some (0, 1, 1), some (0, 1, 0)))
    (hx.1.eq (by deg) (by deg)) (hx.2.eq (by deg) (by deg)) (V4.Fits.eq hy (by deg) (by deg)) (V4.Fits.eq hy (by deg) (by deg))
    (K := 249) (D := (2, 1, 1)) (K' := 73) (D' := (2, 1, 0)) (v := Glsl.applyMotorPlane X X' Y) (h := (by decide +kernel)) (hw := hw)).eq (by units) (by units)

theorem C94_glsl_rotor_point (isa : Isa) (hA : In2 A 24 24) (hB : In2 B 24 24) (hC : In2 C 20 20) {x : Rotor F32} {y : Point F32}
    (hx : x.Within A) (hy : y.Within B C) {w : V4 F32} (hw : CanV (env x.p1 x.p1 y.p3 y.p3) (Glsl.applyRotorPoint X Y) w) :
    w.Near32 (x.real.onPoint isa y.real).p3 (19 * (A ^ 2 * B)) (72 * (A ^ 2 * B * C)) := by
  rw [← C50_apply_rotor_point]
  exact (near4C (s := ⟨A, B, C⟩) ⟨hA, hB, hC⟩
    (ga := (some (1, 0, 0), some (1, 0, 0))) (gb := (some (1, 0, 0), some (1, 0, 0))) (gc := (some (0, 1, 0), some (0, 1, 1))) (gd := (some (0, 1, 0), some (0, 1, 1)))
    (V4.Fits.eq hx (by deg) (by deg)) (V4.Fits.eq hx (by deg) (by deg)) (V4.Fits.eq hy (by deg) (by deg)) (V4.Fits.eq hy (by deg) (by deg))
    (K := 19) (D := (2, 1, 0)) (K' := 72) (D' := (2, 1, 1)) (v := Glsl.applyRotorPoint X Y) (h := (by decide +kernel)) (hw := hw)).eq (by units) (by units)

theorem C94_glsl_rotor_plane (isa : Isa) (hA : In2 A 24 24) (hB : In2 B 24 24) (hC : In2 C 20 20) {x : Rotor F32} {y : Plane F32}
    (hx : x.Within A) (hy : y.Within B C) {w : V4 F32} (hw : CanV (env x.p1 x.p1 y.p0 y.p0) (Glsl.applyRotorPlane X Y) w) :
    w.Near32 (x.real.onPlane isa y.real).p0 (48 * (A ^ 2 * B * C)) (73 * (A ^ 2 * B)) := by
  rw [← C50_apply_rotor_plane]
  exact (near4C (s := ⟨A, B, C⟩) ⟨hA, hB, hC⟩
    (ga := (some (1, 0, 0), some (1, 0, 0))) (gb := (some (1, 0, 0), some (1, 0, 0))) (gc := (some (0, 1, 1), some (0, 1, 0))) (gd := (some (0, 1, 1), some (0, 1, 0)))
    (V4.Fits.eq hx (by deg) (by deg)) (V4.Fits.eq hx (by deg) (by deg)) (V4.Fits.eq hy (by deg) (by deg)) (V4.Fits.eq hy (by deg) (by deg))
    (K := 48) (D := (2, 1, 1)) (K' := 73) (D' := (2, 1, 0)) (v := Glsl.applyRotorPlane X Y) (h := (by decide +kernel)) (hw := hw)).eq (by units) (by units)

theorem C94_glsl_motor_origin (hA : In2 A 24 24) (hC : In2 C 20 20) {x : Motor F32} (hx : x.Within A C)
    {w : V4 F32} (hw : CanV (env x.p1 x.p2 x.p1 x.p1) (Glsl.applyMotorOrigin X X') w) :
    w.Near32 x.real.onOrigin.p3 0 (35 * (A ^ 2 * C)) := by
  rw [← C50_apply_motor_origin]
  exact (near4C (s := ⟨A, 1, C⟩) ⟨hA, one_A, hC⟩
    (ga := (some (1, 0, 0), some (1, 0, 0))) (gb := (some (1, 0, 1), some (1, 0, 1))) (gc := (some (1, 0, 0), some (1, 0, 0))) (gd := (some (1, 0, 0), some (1, 0, 0)))
    (hx.1.eq (by deg) (by deg)) (hx.2.eq (by deg) (by deg)) (hx.1.eq (by deg) (by deg)) (hx.1.eq (by deg) (by deg))
    (K := 0) (D := (0, 0, 0)) (K' := 35) (D' := (2, 0, 1)) (v := Glsl.applyMotorOrigin X X') (h := (by decide +kernel)) (hw := hw)).eq (by units) (by units)

/-! ### what contraction breaks -/

/-- Evaluation without contraction is one of the possibilities, so the theorems above are not vacuous. -/
theorem canV_eval (f : ℕ → F32) (v : V4 Ex) : CanV f v (evalV f v) :=
  ⟨can_eval _ _, can_eval _ _, can_eval _ _, can_eval _ _⟩

/-- Contracted or not, the image of a point under a motor is the same to within 266 units. -/
theorem C94_motor_on_point_agrees (hA : In2 A 24 24) (hB : In2 B 24 24) (hC : In2 C 20 20) {x : Motor F32} {y : Point F32}
    (hx : x.Within A C) (hy : y.Within B C) {w : V4 F32}
    (hw : CanV (env x.p1 x.p2 y.p3 y.p3) ((Motor.mk X X').onPoint (Point.mk Y)).p3 w) :
    |r w.l1 - r (x.onPoint y).p3.l1| ≤ 266 * (A ^ 2 * B * C) / 2 ^ 24 ∧
    |r w.l2 - r (x.onPoint y).p3.l2| ≤ 266 * (A ^ 2 * B * C) / 2 ^ 24 ∧
    |r w.l3 - r (x.onPoint y).p3.l3| ≤ 266 * (A ^ 2 * B * C) / 2 ^ 24 := by
  obtain ⟨-, a1, a2, a3⟩ := C94_motor_on_point hA hB hC hx hy hw
  obtain ⟨-, b1, b2, b3⟩ := C90_motor_on_point hA hB hC hx hy
  have e : 133 * (A ^ 2 * B * C) + 133 * (A ^ 2 * B * C) = 266 * (A ^ 2 * B * C) := by ring
  exact ⟨e ▸ Near32.sub a1 b1, e ▸ Near32.sub a2 b2, e ▸ Near32.sub a3 b3⟩

/-- Contraction changes results: `t*t - 1` for `t = 1 + 2^-12`. -/
example : fma (ofMag false 0x3f800800) (ofMag false 0x3f800800) (-1) ≠
    ofMag false 0x3f800800 * ofMag false 0x3f800800 - 1 := by decide +kernel

/-- Special operands of the fused multiply-add. -/
example : fma (inf false) 0 1 = defaultNaN ∧ fma (inf false) 1 (inf true) = defaultNaN ∧
    fma (inf false) (-1) 3 = inf true ∧ fma 2 3 (inf true) = inf true ∧ fma 2 3 4 = 10 ∧ fma (-0) 1 (-0) = -0 ∧
    fma 1 1 (-1) = 0 := by decide +kernel

/-- Without contraction the meet of two planes has a zero in lane 0 of both registers (C90 says so with
bound 0).  With contraction it may not: the planes with offsets `1 + 2^-12`. -/
theorem C94_meet_lane_fails : ∃ x y : Plane F32, ∃ w : V4 F32,
    CanV (env x.p0 x.p0 y.p0 y.p0) ((Plane.mk X).meetPlane (Plane.mk Y)).p1 w ∧ w.l0.val ≠ 0 := by
  let a : F32 := ofMag false 0x3f800800
  let x : Plane F32 := ⟨⟨a, 1, 0, 0⟩⟩
  let y : Plane F32 := ⟨⟨a, 0, 1, 0⟩⟩
  let f := env x.p0 x.p0 y.p0 y.p0
  have h := canV_eval f ((Plane.mk X).meetPlane (Plane.mk Y)).p1
  refine ⟨x, y, ⟨fma a a (-(a * a)), _, _, _⟩, ⟨?_, h.2.1, h.2.2.1, h.2.2.2⟩, by decide +kernel⟩
  exact Can.subL (f := f) (s := false) (x := a) (y := a) (z := a * a) (.mul (.v 0) (.v 8)) (.v 0) (.v 8) (.mul (.v 0) (.v 8))

/-- The plane `z = -840840` and a point of weight `65057/65536` on the z axis. -/
def d0 : F32 := ofMag false 0x494d4880
def w0 : F32 := ofMag false 0x3f7e2100
/-- What is left of `d*w - d*w`, and of `d*t - d*t` for the leftover `t`. -/
def t0 : F32 := fma d0 w0 (-(d0 * w0))
def s0 : F32 := fma d0 t0 (-(d0 * t0))

/-- `d*w - d*w`, twice over: the part of the weight that vanishes in exact arithmetic. -/
def dead : Ex := .sub (.mul (.v 8) (.sub (.mul (.v 8) (.v 0)) (.mul (.v 8) (.v 0))))
  (.mul (.v 8) (.sub (.mul (.v 8) (.v 0)) (.mul (.v 8) (.v 0))))

/-- The other part. -/
def live : Isa → Ex
  | .sse3 => .add (.mul (.mul (.v 9) .zero) .zero) (.add (.add (.mul (.v 11) (.mul (.v 11) (.v 0))) (.mul (.v 10) (.mul (.v 10) (.v 0))))
      (.mul (.v 9) (.mul (.v 9) (.v 0))))
  | .sse41 => .add (.mul (.mul (.v 9) .zero) .zero) (.add (.add .zero (.mul (.v 9) (.mul (.v 9) (.v 0))))
      (.add (.mul (.v 10) (.mul (.v 10) (.v 0))) (.mul (.v 11) (.mul (.v 11) (.v 0)))))

theorem weight_ex (isa : Isa) : ((Point.mk X).projectPlane isa (Plane.mk Y)).p3.l0 = .add dead (live isa) := by
  cases isa <;> decide +kernel

def x0 : Point F32 := ⟨⟨w0, 0, 0, 0⟩⟩
def y0 : Plane F32 := ⟨⟨d0, 0, 0, 1⟩⟩
def f0 : ℕ → F32 := env x0.p3 x0.p3 y0.p0 y0.p0

theorem can_t0 : Can f0 (.sub (.mul (.v 8) (.v 0)) (.mul (.v 8) (.v 0))) t0 :=
  Can.subL (f := f0) (s := false) (x := d0) (y := w0) (z := d0 * w0) (.mul (.v 8) (.v 0)) (.v 8) (.v 0) (.mul (.v 8) (.v 0))

theorem can_s0 : Can f0 dead s0 :=
  Can.subL (f := f0) (s := false) (x := d0) (y := t0) (z := d0 * t0) (.mul _ _) (.v 8) can_t0 (.mul (.v 8) can_t0)

theorem can_live (isa : Isa) : Can f0 (live isa) w0 := by
  have h := can_eval f0 (live isa)
  rwa [show eval f0 (live isa) = w0 by cases isa <;> decide +kernel] at h

theorem excess : (16383 : ℚ) / 2 ^ 24 < (s0 + w0).val - w0.val := by decide +kernel

theorem weight_real (isa : Isa) : (x0.real.projectPlane isa y0.real).p3.l0 = r w0 := by
  have e0 : r (0 : F32) = 0 := r_zero
  have e1 : r (1 : F32) = 1 := r_one
  cases isa <;> simp [kln, sse, x0, y0, Point.real, Plane.real, V4.real, e0, e1]

/-- The weight of a point projected onto a plane is exact to 12 units without contraction (C90).  With
contraction the leftover of `d*w - d*w` is multiplied by the offset `d` of the plane: every difference of
equal products being fused in the same way, the weight is 16384 units too large. -/
theorem C94_project_weight_fails (isa : Isa) : ∃ x : Point F32, ∃ y : Plane F32, ∃ w : F32,
    x.Within 1 (2 ^ 20) ∧ y.Within 1 (2 ^ 20) ∧
    Can (env x.p3 x.p3 y.p0 y.p0) ((Point.mk X).projectPlane isa (Plane.mk Y)).p3.l0 w ∧
    ¬ Near32 w (x.real.projectPlane isa y.real).p3.l0 16383 := by
  refine ⟨x0, y0, s0 + w0, ?_, ?_, ?_, ?_⟩
  · exact V4.Fits.eq (fits_of_val (m := 1) (n := 2 ^ 20) (by decide +kernel)) (by norm_num) (by norm_num)
  · exact V4.Fits.eq (fits_of_val (m := 2 ^ 20) (n := 1) (by decide +kernel)) (by norm_num) (by norm_num)
  · rw [weight_ex]
    exact Can.add can_s0 (can_live isa)
  · rintro ⟨-, h⟩
    rw [weight_real] at h
    have h1 := (le_abs_self _).trans h
    have h2 := (Rat.cast_lt (K := ℝ)).2 excess
    unfold r at h1
    push_cast at h2
    exact absurd h1 (not_le.2 h2)

end Contract32
end Klein
