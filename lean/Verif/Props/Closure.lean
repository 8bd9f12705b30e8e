import Verif.Props.WellFormed
import Verif.Props.Rigid
import Verif.Lemmas.Cis
import Verif.Api.Trans

/-!
# C49: every finite sequence of operations

`Reach` is the smallest family of values that contains what the component constructors build and is
closed under every public operation returning a line, branch, ideal line, direction or translator.
Operands of the other types (planes, points, rotors, motors, dual numbers, scalars, angles) have no
unused lane; they are left arbitrary, so the family contains whatever a program can compute, however
long.  The raw register constructors and `load` are excluded (the headers ask the caller for a zero
lane there); `log(motor)` is included for normalised motors, which is what it is documented for; for
others it does break the invariant (`C49_log_unnormalised_fails`).
-/

set_option linter.unusedSimpArgs false
set_option linter.unusedVariables false

namespace Klein

section PerOperation
variable {K : Type} [Field K]

theorem C49_normalize_invert (hw : Hw K) (isa : Isa) (l : Line K) (b : Branch K) (d : Direction K)
    (hl : l.WF) (hb : b.WF) (hd : d.WF) :
    (l.normalize hw isa).WF ∧ (l.invert hw isa).WF ∧ (b.normalize hw isa).WF ∧
      (b.invert hw isa).WF ∧ (d.normalize hw isa).WF := by
  cases isa <;> wf_simp

theorem C49_direction_ctor (hw : Hw K) (isa : Isa) (x y z : K) : (Direction.mk3 hw isa x y z).WF := by
  cases isa <;> wf_simp

theorem C49_translator_ctor (lm : Libm K) (d x y z : K) : (Translator.mkAxis lm d x y z).WF := by
  wf_simp

theorem C49_translator_sqrt (t : Translator K) (ht : t.WF) : t.sqrt.WF ∧ t.log.WF := by
  wf_simp

theorem C49_ideal_exp (l : IdealLine K) (hl : l.WF) : l.exp.WF := by wf_simp

theorem C49_rotor_log (hw : Hw K) (lm : Libm K) (isa : Isa) (r : Rotor K) :
    (r.log hw lm isa).WF := by
  cases isa <;> wf_simp

theorem C49_project (isa : Isa) (l : Line K) (p : Plane K) (q : Point K) :
    (l.projectPlane p).WF ∧ (l.projectPoint isa q).WF := by
  cases isa <;> wf_simp

end PerOperation

/-- `log` of a normalised motor is well formed. -/
theorem C49_motor_log (hw : Hw ℝ) (isa : Isa) (m : Motor ℝ) (h : m.mv * PGA.MV.rev m.mv = 1) :
    (m.log hw Libm.real isa).WF := by
  have hr := h
  rw [Motor.mul_rev] at hr
  by_cases hc : Libm.real.cmpeq_all (mul_ps (set_ps 1 1 1 0) m.p1) setzero_ps = true
  · have hz := (cmpeq_all_zero _).1 hc
    have e : m.log hw Libm.real isa = ⟨setzero_ps, m.p2⟩ := by
      simp only [Motor.log, log_kernel, hc, cond_true]
    rw [e]
    obtain ⟨⟨a, b, c, d⟩, ⟨e, f, g, i⟩⟩ := m
    simp [sse] at hz
    obtain ⟨rfl, rfl, rfl⟩ := hz
    have h1 := congrArg PGA.MV.s hr
    have h2 := congrArg PGA.MV.e0123 hr
    simp [kln, Motor.sqNorm] at h1 h2
    refine ⟨rfl, ?_⟩
    rcases h2 with h2 | h2
    · exact absurd h2 (by rintro rfl; simp at h1)
    · exact h2
  · have hc' : Libm.real.cmpeq_all (mul_ps (set_ps 1 1 1 0) m.p1) setzero_ps = false := by
      simpa using hc
    simp only [Motor.log, log_kernel, hc', cond_false]
    constructor
    · simp only [log_general, explog_norm, sse]; ring
    · simp only [log_general, explog_norm, sse]; ring

/-- A motor that is not normalised: `log` returns its `e0123` coefficient in the unused lane. -/
theorem C49_log_unnormalised_fails (hw : Hw ℝ) (isa : Isa) :
    ¬ ((⟨⟨1, 0, 0, 0⟩, ⟨1, 0, 0, 0⟩⟩ : Motor ℝ).log hw Libm.real isa).WF := by
  have hc : Libm.real.cmpeq_all (mul_ps (set_ps 1 1 1 0) ⟨1, 0, 0, 0⟩) setzero_ps = true := by
    rw [cmpeq_all_zero]; simp [sse]
  simp only [Motor.log, log_kernel, hc, cond_true]
  simp [Line.WF]

/-- The five types with an unused lane. -/
inductive Ty | line | branch | ideal | direction | translator

/-- Their values. -/
@[reducible] def Ty.Val : Ty → Type
  | .line => Line ℝ | .branch => Branch ℝ | .ideal => IdealLine ℝ
  | .direction => Direction ℝ | .translator => Translator ℝ

/-- Well-formedness at each type. -/
@[reducible] def Ty.WF : (t : Ty) → t.Val → Prop
  | .line, l => Line.WF l | .branch, l => Branch.WF l | .ideal, l => IdealLine.WF l
  | .direction, l => Direction.WF l | .translator, l => Translator.WF l

/-- The values computable from the component constructors by any finite sequence of operations.
`hw`, `isa` and the integer conversion are those of the target; one constructor per overload (the
compound assignments are separate members in the source but, by `C46`-`C52`, the same functions;
they are listed too). -/
inductive Reach (hw : Hw ℝ) (isa : Isa) (cast : ℤ → ℝ) : (t : Ty) → t.Val → Prop
  -- line.hpp
  | il_mk (a b c) : Reach hw isa cast .ideal (IdealLine.mk3 a b c)
  | il_add {a b} : Reach hw isa cast .ideal a → Reach hw isa cast .ideal b →
      Reach hw isa cast .ideal (IdealLine.add a b)
  | il_addA {a b} : Reach hw isa cast .ideal a → Reach hw isa cast .ideal b →
      Reach hw isa cast .ideal (IdealLine.addAssign a b)
  | il_sub {a b} : Reach hw isa cast .ideal a → Reach hw isa cast .ideal b →
      Reach hw isa cast .ideal (IdealLine.sub a b)
  | il_subA {a b} : Reach hw isa cast .ideal a → Reach hw isa cast .ideal b →
      Reach hw isa cast .ideal (IdealLine.subAssign a b)
  | il_smul {a} (k) : Reach hw isa cast .ideal a → Reach hw isa cast .ideal (IdealLine.smul a k)
  | il_smulA {a} (k) : Reach hw isa cast .ideal a →
      Reach hw isa cast .ideal (IdealLine.mulAssign a k)
  | il_smulI {a} (k) : Reach hw isa cast .ideal a →
      Reach hw isa cast .ideal (IdealLine.smulInt cast a k)
  | il_smulAI {a} (k) : Reach hw isa cast .ideal a →
      Reach hw isa cast .ideal (IdealLine.mulAssignInt cast a k)
  | il_sdiv {a} (k) : Reach hw isa cast .ideal a → Reach hw isa cast .ideal (IdealLine.sdiv hw a k)
  | il_sdivA {a} (k) : Reach hw isa cast .ideal a →
      Reach hw isa cast .ideal (IdealLine.divAssign hw a k)
  | il_sdivI {a} (k) : Reach hw isa cast .ideal a →
      Reach hw isa cast .ideal (IdealLine.sdivInt hw cast a k)
  | il_sdivAI {a} (k) : Reach hw isa cast .ideal a →
      Reach hw isa cast .ideal (IdealLine.divAssignInt hw cast a k)
  | il_neg {a} : Reach hw isa cast .ideal a → Reach hw isa cast .ideal (IdealLine.neg a)
  | il_rev {a} : Reach hw isa cast .ideal a → Reach hw isa cast .ideal (IdealLine.rev a)
  | br_mk (a b c) : Reach hw isa cast .branch (Branch.mk3 a b c)
  | br_add {a b} : Reach hw isa cast .branch a → Reach hw isa cast .branch b →
      Reach hw isa cast .branch (Branch.add a b)
  | br_addA {a b} : Reach hw isa cast .branch a → Reach hw isa cast .branch b →
      Reach hw isa cast .branch (Branch.addAssign a b)
  | br_sub {a b} : Reach hw isa cast .branch a → Reach hw isa cast .branch b →
      Reach hw isa cast .branch (Branch.sub a b)
  | br_subA {a b} : Reach hw isa cast .branch a → Reach hw isa cast .branch b →
      Reach hw isa cast .branch (Branch.subAssign a b)
  | br_smul {a} (k) : Reach hw isa cast .branch a → Reach hw isa cast .branch (Branch.smul a k)
  | br_smulA {a} (k) : Reach hw isa cast .branch a →
      Reach hw isa cast .branch (Branch.mulAssign a k)
  | br_smulI {a} (k) : Reach hw isa cast .branch a →
      Reach hw isa cast .branch (Branch.smulInt cast a k)
  | br_smulAI {a} (k) : Reach hw isa cast .branch a →
      Reach hw isa cast .branch (Branch.mulAssignInt cast a k)
  | br_sdiv {a} (k) : Reach hw isa cast .branch a → Reach hw isa cast .branch (Branch.sdiv hw a k)
  | br_sdivA {a} (k) : Reach hw isa cast .branch a →
      Reach hw isa cast .branch (Branch.divAssign hw a k)
  | br_sdivI {a} (k) : Reach hw isa cast .branch a →
      Reach hw isa cast .branch (Branch.sdivInt hw cast a k)
  | br_sdivAI {a} (k) : Reach hw isa cast .branch a →
      Reach hw isa cast .branch (Branch.divAssignInt hw cast a k)
  | br_neg {a} : Reach hw isa cast .branch a → Reach hw isa cast .branch (Branch.neg a)
  | br_rev {a} : Reach hw isa cast .branch a → Reach hw isa cast .branch (Branch.rev a)
  | br_normalize {a} : Reach hw isa cast .branch a →
      Reach hw isa cast .branch (Branch.normalize hw isa a)
  | br_invert {a} : Reach hw isa cast .branch a →
      Reach hw isa cast .branch (Branch.invert hw isa a)
  | li_mk (a b c d e f) : Reach hw isa cast .line (Line.mk6 a b c d e f)
  | li_ofIdeal {a} : Reach hw isa cast .ideal a → Reach hw isa cast .line (Line.ofIdealLine a)
  | li_ofBranch {a} : Reach hw isa cast .branch a → Reach hw isa cast .line (Line.ofBranch a)
  | li_add {a b} : Reach hw isa cast .line a → Reach hw isa cast .line b →
      Reach hw isa cast .line (Line.add a b)
  | li_addA {a b} : Reach hw isa cast .line a → Reach hw isa cast .line b →
      Reach hw isa cast .line (Line.addAssign a b)
  | li_sub {a b} : Reach hw isa cast .line a → Reach hw isa cast .line b →
      Reach hw isa cast .line (Line.sub a b)
  | li_subA {a b} : Reach hw isa cast .line a → Reach hw isa cast .line b →
      Reach hw isa cast .line (Line.subAssign a b)
  | li_smul {a} (k) : Reach hw isa cast .line a → Reach hw isa cast .line (Line.smul a k)
  | li_smulA {a} (k) : Reach hw isa cast .line a → Reach hw isa cast .line (Line.mulAssign a k)
  | li_smulI {a} (k) : Reach hw isa cast .line a → Reach hw isa cast .line (Line.smulInt cast a k)
  | li_smulAI {a} (k) : Reach hw isa cast .line a →
      Reach hw isa cast .line (Line.mulAssignInt cast a k)
  | li_sdiv {a} (k) : Reach hw isa cast .line a → Reach hw isa cast .line (Line.sdiv hw a k)
  | li_sdivA {a} (k) : Reach hw isa cast .line a → Reach hw isa cast .line (Line.divAssign hw a k)
  | li_sdivI {a} (k) : Reach hw isa cast .line a →
      Reach hw isa cast .line (Line.sdivInt hw cast a k)
  | li_sdivAI {a} (k) : Reach hw isa cast .line a →
      Reach hw isa cast .line (Line.divAssignInt hw cast a k)
  | li_neg {a} : Reach hw isa cast .line a → Reach hw isa cast .line (Line.neg a)
  | li_rev {a} : Reach hw isa cast .line a → Reach hw isa cast .line (Line.rev a)
  | li_normalize {a} : Reach hw isa cast .line a →
      Reach hw isa cast .line (Line.normalize hw isa a)
  | li_invert {a} : Reach hw isa cast .line a → Reach hw isa cast .line (Line.invert hw isa a)
  -- direction.hpp
  | di_mk (x y z) : Reach hw isa cast .direction (Direction.mk3 hw isa x y z)
  | di_add {a b} : Reach hw isa cast .direction a → Reach hw isa cast .direction b →
      Reach hw isa cast .direction (Direction.add a b)
  | di_addA {a b} : Reach hw isa cast .direction a → Reach hw isa cast .direction b →
      Reach hw isa cast .direction (Direction.addAssign a b)
  | di_sub {a b} : Reach hw isa cast .direction a → Reach hw isa cast .direction b →
      Reach hw isa cast .direction (Direction.sub a b)
  | di_subA {a b} : Reach hw isa cast .direction a → Reach hw isa cast .direction b →
      Reach hw isa cast .direction (Direction.subAssign a b)
  | di_smul {a} (k) : Reach hw isa cast .direction a →
      Reach hw isa cast .direction (Direction.smul a k)
  | di_smulA {a} (k) : Reach hw isa cast .direction a →
      Reach hw isa cast .direction (Direction.mulAssign a k)
  | di_smulI {a} (k) : Reach hw isa cast .direction a →
      Reach hw isa cast .direction (Direction.smulInt cast a k)
  | di_smulAI {a} (k) : Reach hw isa cast .direction a →
      Reach hw isa cast .direction (Direction.mulAssignInt cast a k)
  | di_sdiv {a} (k) : Reach hw isa cast .direction a →
      Reach hw isa cast .direction (Direction.sdiv hw a k)
  | di_sdivA {a} (k) : Reach hw isa cast .direction a →
      Reach hw isa cast .direction (Direction.divAssign hw a k)
  | di_sdivI {a} (k) : Reach hw isa cast .direction a →
      Reach hw isa cast .direction (Direction.sdivInt hw cast a k)
  | di_sdivAI {a} (k) : Reach hw isa cast .direction a →
      Reach hw isa cast .direction (Direction.divAssignInt hw cast a k)
  | di_neg {a} : Reach hw isa cast .direction a → Reach hw isa cast .direction (Direction.neg a)
  | di_normalize {a} : Reach hw isa cast .direction a →
      Reach hw isa cast .direction (Direction.normalize hw isa a)
  -- translator.hpp
  | tr_mk (d x y z) : Reach hw isa cast .translator (Translator.mkAxis Libm.real d x y z)
  | tr_add {a b} : Reach hw isa cast .translator a → Reach hw isa cast .translator b →
      Reach hw isa cast .translator (Translator.add a b)
  | tr_addA {a b} : Reach hw isa cast .translator a → Reach hw isa cast .translator b →
      Reach hw isa cast .translator (Translator.addAssign a b)
  | tr_sub {a b} : Reach hw isa cast .translator a → Reach hw isa cast .translator b →
      Reach hw isa cast .translator (Translator.sub a b)
  | tr_subA {a b} : Reach hw isa cast .translator a → Reach hw isa cast .translator b →
      Reach hw isa cast .translator (Translator.subAssign a b)
  | tr_smul {a} (k) : Reach hw isa cast .translator a →
      Reach hw isa cast .translator (Translator.smul a k)
  | tr_smulA {a} (k) : Reach hw isa cast .translator a →
      Reach hw isa cast .translator (Translator.mulAssign a k)
  | tr_smulI {a} (k) : Reach hw isa cast .translator a →
      Reach hw isa cast .translator (Translator.smulInt cast a k)
  | tr_smulAI {a} (k) : Reach hw isa cast .translator a →
      Reach hw isa cast .translator (Translator.mulAssignInt cast a k)
  | tr_sdiv {a} (k) : Reach hw isa cast .translator a →
      Reach hw isa cast .translator (Translator.sdiv hw a k)
  | tr_sdivA {a} (k) : Reach hw isa cast .translator a →
      Reach hw isa cast .translator (Translator.divAssign hw a k)
  | tr_sdivI {a} (k) : Reach hw isa cast .translator a →
      Reach hw isa cast .translator (Translator.sdivInt hw cast a k)
  | tr_sdivAI {a} (k) : Reach hw isa cast .translator a →
      Reach hw isa cast .translator (Translator.divAssignInt hw cast a k)
  | tr_invert {a} : Reach hw isa cast .translator a →
      Reach hw isa cast .translator (Translator.invert a)
  -- geometric_product.hpp
  | gp_pp (a b : Point ℝ) : Reach hw isa cast .translator (a.mulPoint hw isa b)
  | gp_ppd (a b : Point ℝ) : Reach hw isa cast .translator (a.divPoint hw isa b)
  | gp_tt {a b} : Reach hw isa cast .translator a → Reach hw isa cast .translator b →
      Reach hw isa cast .translator (Translator.mulTranslator a b)
  | gp_ttd {a b} : Reach hw isa cast .translator a → Reach hw isa cast .translator b →
      Reach hw isa cast .translator (Translator.divTranslator a b)
  | gp_dl (d : Dual ℝ) {l} : Reach hw isa cast .line l → Reach hw isa cast .line (d.mulLine l)
  | gp_ld (d : Dual ℝ) {l} : Reach hw isa cast .line l → Reach hw isa cast .line (Line.mulDual l d)
  -- meet.hpp, join.hpp, inner_product.hpp, projection.hpp
  | meet_pp (a b : Plane ℝ) : Reach hw isa cast .line (a.meetPlane b)
  | join_pp (a b : Point ℝ) : Reach hw isa cast .line (a.joinPoint b)
  | dual_l {l} : Reach hw isa cast .line l → Reach hw isa cast .line (Line.dual l)
  | dual_il {l} : Reach hw isa cast .ideal l → Reach hw isa cast .branch (IdealLine.dual l)
  | dual_br {l} : Reach hw isa cast .branch l → Reach hw isa cast .ideal (Branch.dual l)
  | dot_pq (a : Plane ℝ) (b : Point ℝ) : Reach hw isa cast .line (a.dotPoint isa b)
  | dot_qp (a : Plane ℝ) (b : Point ℝ) : Reach hw isa cast .line (b.dotPlane isa a)
  | proj_lp {l} (p : Plane ℝ) : Reach hw isa cast .line l →
      Reach hw isa cast .line (Line.projectPlane l p)
  | proj_lq {l} (p : Point ℝ) : Reach hw isa cast .line l →
      Reach hw isa cast .line (Line.projectPoint isa l p)
  -- the call operators
  | on_pl (p : Plane ℝ) {l} : Reach hw isa cast .line l → Reach hw isa cast .line (p.onLine l)
  | on_rb (r : Rotor ℝ) {l} : Reach hw isa cast .branch l → Reach hw isa cast .branch (r.onBranch l)
  | on_rl (r : Rotor ℝ) {l} : Reach hw isa cast .line l → Reach hw isa cast .line (r.onLine l)
  | on_rd (r : Rotor ℝ) {l} : Reach hw isa cast .direction l →
      Reach hw isa cast .direction (r.onDirection isa l)
  | on_tl {t l} : Reach hw isa cast .translator t → Reach hw isa cast .line l →
      Reach hw isa cast .line (Translator.onLine t l)
  | on_ml (m : Motor ℝ) {l} : Reach hw isa cast .line l → Reach hw isa cast .line (m.onLine l)
  | on_md (m : Motor ℝ) {l} : Reach hw isa cast .direction l →
      Reach hw isa cast .direction (m.onDirection l)
  -- exp_log.hpp
  | log_m (m : Motor ℝ) : m.mv * PGA.MV.rev m.mv = 1 →
      Reach hw isa cast .line (m.log hw Libm.real isa)
  | log_r (r : Rotor ℝ) : Reach hw isa cast .branch (r.log hw Libm.real isa)
  | log_t {t} : Reach hw isa cast .translator t → Reach hw isa cast .ideal (Translator.log t)
  | exp_i {l} : Reach hw isa cast .ideal l → Reach hw isa cast .translator (IdealLine.exp l)
  | sqrt_t {t} : Reach hw isa cast .translator t →
      Reach hw isa cast .translator (Translator.sqrt t)

/-- Every value a program can compute is well formed. -/
theorem C49_reachable (hw : Hw ℝ) (isa : Isa) (cast : ℤ → ℝ) (t : Ty) (v : t.Val)
    (h : Reach hw isa cast t v) : t.WF v := by
  induction h with
  | br_normalize _ ih => exact (C49_normalize_invert hw isa ⟨setzero_ps, setzero_ps⟩ _ ⟨setzero_ps⟩ ⟨rfl, rfl⟩ ih rfl).2.2.1
  | br_invert _ ih => exact (C49_normalize_invert hw isa ⟨setzero_ps, setzero_ps⟩ _ ⟨setzero_ps⟩ ⟨rfl, rfl⟩ ih rfl).2.2.2.1
  | li_normalize _ ih => exact (C49_normalize_invert hw isa _ ⟨setzero_ps⟩ ⟨setzero_ps⟩ ih rfl rfl).1
  | li_invert _ ih => exact (C49_normalize_invert hw isa _ ⟨setzero_ps⟩ ⟨setzero_ps⟩ ih rfl rfl).2.1
  | di_mk x y z => exact C49_direction_ctor hw isa x y z
  | di_normalize _ ih =>
      exact (C49_normalize_invert hw isa ⟨setzero_ps, setzero_ps⟩ ⟨setzero_ps⟩ _ ⟨rfl, rfl⟩ rfl ih).2.2.2.2
  | gp_pp a b => exact C49_point_mul_point hw isa a b
  | gp_ppd a b => exact C49_point_div_point hw isa a b
  | meet_pp a b => exact C49_plane_meet_plane a b
  | join_pp a b => exact C49_point_join_point a b
  | dot_pq a b => exact C49_plane_dot_point isa a b
  | dot_qp a b => exact C49_point_dot_plane isa a b
  | proj_lp p _ ih => exact (C49_project isa _ p ⟨setzero_ps⟩).1
  | proj_lq p _ ih => exact (C49_project isa _ ⟨setzero_ps⟩ p).2
  | on_pl p _ ih => exact C49_plane_on_line p _ ih
  | on_rb r _ ih => exact C49_rotor_on_branch r _ ih
  | on_rl r _ ih => exact C49_rotor_on_line r _ ih
  | on_rd r _ ih => exact C49_rotor_on_direction isa r _ ih
  | on_tl _ _ i1 i2 => exact C49_translator_on_line _ _ i1 i2
  | on_ml m _ ih => exact C49_motor_on_line m _ ih
  | on_md m _ ih => exact C49_motor_on_direction m _ ih
  | log_m m h => exact C49_motor_log hw isa m h
  | log_r r => exact C49_rotor_log hw Libm.real isa r
  | tr_mk d x y z => exact C49_translator_ctor Libm.real d x y z
  | sqrt_t _ ih => exact (C49_translator_sqrt _ ih).1
  | _ =>
    first
    | wf_simp
    | (simp only [Ty.WF, IdealLine.WF, Branch.WF, Line.WF, Translator.WF, Direction.WF, kln, sse,
        cond_true, cond_false] at *
       simp only [*, true_and, and_true, and_self])

/-- A program of six operations. -/
example (hw : Hw ℝ) : Reach hw .sse3 (fun n => (n : ℝ)) .branch
    (Branch.normalize hw .sse3 (IdealLine.dual (Translator.log
      ((Translator.mkAxis Libm.real 2 0 0 1).mulTranslator ((Point.mk3 1 2 3).mulPoint hw .sse3
        (Point.mk3 0 0 1)))))) :=
  .br_normalize (.dual_il (.log_t (.gp_tt (.tr_mk 2 0 0 1) (.gp_pp _ _))))

end Klein
