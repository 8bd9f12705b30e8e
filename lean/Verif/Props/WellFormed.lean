import Verif.Api.Embed
import Mathlib.Tactic.LinearCombination
import Mathlib.Tactic.NormNum

/-!
# C49: the unused lane 0 stays zero

Lines, branches, ideal lines, directions and translators do not use lane 0 of their register(s).
Every operation producing one of them from well-formed operands produces a well-formed one.
-/

set_option linter.unusedSimpArgs false
set_option linter.unusedVariables false

namespace Klein

variable {K : Type} [CommRing K]

/-- Closes goals `lane 0 = 0`. -/
macro "wf_simp" : tactic =>
  `(tactic| (simp only [IdealLine.WF, Branch.WF, Line.WF, Translator.WF, Direction.WF, kln, sse,
      cond_true, cond_false] at * <;> simp_all <;> try ring))

section Constructors
theorem C49_ctor (a b c d e f : K) (p : IdealLine K) (q : Branch K) (hp : p.WF) (hq : q.WF) :
    (IdealLine.mk3 a b c).WF ∧ (Branch.mk3 a b c).WF ∧ (Line.mk6 a b c d e f).WF ∧
      (Line.ofIdealLine p).WF ∧ (Line.ofBranch q).WF := by
  wf_simp
end Constructors

theorem C49_ideal_line_ops (hw : Hw K) (cast : ℤ → K) (a b : IdealLine K) (k : K) (n : ℤ)
    (ha : a.WF) (hb : b.WF) :
    (a.add b).WF ∧ (a.sub b).WF ∧ (a.smul k).WF ∧ (a.smulInt cast n).WF ∧ (a.sdiv hw k).WF ∧
      (a.sdivInt hw cast n).WF ∧ a.neg.WF ∧ a.rev.WF ∧ a.dual.WF := by
  wf_simp

theorem C49_branch_ops (hw : Hw K) (cast : ℤ → K) (a b : Branch K) (k : K) (n : ℤ)
    (ha : a.WF) (hb : b.WF) :
    (a.add b).WF ∧ (a.sub b).WF ∧ (a.smul k).WF ∧ (a.smulInt cast n).WF ∧ (a.sdiv hw k).WF ∧
      (a.sdivInt hw cast n).WF ∧ a.neg.WF ∧ a.rev.WF ∧ a.dual.WF := by
  wf_simp

theorem C49_line_ops (hw : Hw K) (cast : ℤ → K) (a b : Line K) (k : K) (n : ℤ) (d : Dual K)
    (ha : a.WF) (hb : b.WF) :
    (a.add b).WF ∧ (a.sub b).WF ∧ (a.smul k).WF ∧ (a.smulInt cast n).WF ∧ (a.sdiv hw k).WF ∧
      (a.sdivInt hw cast n).WF ∧ a.neg.WF ∧ a.rev.WF ∧ a.dual.WF ∧ (d.mulLine a).WF ∧
      (a.mulDual d).WF := by
  wf_simp

theorem C49_translator_ops (hw : Hw K) (cast : ℤ → K) (a b : Translator K) (k : K) (n : ℤ)
    (ha : a.WF) (hb : b.WF) :
    (a.add b).WF ∧ (a.sub b).WF ∧ (a.smul k).WF ∧ (a.smulInt cast n).WF ∧ (a.sdiv hw k).WF ∧
      (a.sdivInt hw cast n).WF ∧ a.invert.WF ∧ (a.mulTranslator b).WF ∧
      (a.divTranslator b).WF := by
  wf_simp

theorem C49_direction_ops (hw : Hw K) (cast : ℤ → K) (a b : Direction K) (k : K) (n : ℤ)
    (ha : a.WF) (hb : b.WF) :
    (a.add b).WF ∧ (a.sub b).WF ∧ (a.smul k).WF ∧ (a.smulInt cast n).WF ∧ (a.sdiv hw k).WF ∧
      (a.sdivInt hw cast n).WF ∧ a.neg.WF := by
  wf_simp

/-- Lines produced by meet, join and inner product. -/
theorem C49_plane_meet_plane (a b : Plane K) : (a.meetPlane b).WF := by wf_simp
theorem C49_point_join_point (a b : Point K) : (a.joinPoint b).WF := by wf_simp
theorem C49_plane_dot_point (isa : Isa) (a : Plane K) (b : Point K) : (a.dotPoint isa b).WF := by
  cases isa <;> wf_simp
theorem C49_point_dot_plane (isa : Isa) (a : Plane K) (b : Point K) : (b.dotPlane isa a).WF := by
  cases isa <;> wf_simp

/-- Lines and directions produced by the actions. -/
theorem C49_plane_on_line (p : Plane K) (l : Line K) (hl : l.WF) : (p.onLine l).WF := by wf_simp
theorem C49_rotor_on_branch (r : Rotor K) (l : Branch K) (hl : l.WF) : (r.onBranch l).WF := by
  wf_simp
theorem C49_rotor_on_line (r : Rotor K) (l : Line K) (hl : l.WF) : (r.onLine l).WF := by wf_simp
theorem C49_translator_on_line (t : Translator K) (l : Line K) (ht : t.WF) (hl : l.WF) :
    (t.onLine l).WF := by
  wf_simp
theorem C49_motor_on_line (m : Motor K) (l : Line K) (hl : l.WF) : (m.onLine l).WF := by wf_simp
theorem C49_rotor_on_direction (isa : Isa) (r : Rotor K) (d : Direction K) (hd : d.WF) :
    (r.onDirection isa d).WF := by
  cases isa <;> wf_simp
theorem C49_motor_on_direction (m : Motor K) (d : Direction K) (hd : d.WF) :
    (m.onDirection d).WF := by
  wf_simp

/-- Translators produced by point products. -/
theorem C49_point_mul_point (hw : Hw K) (isa : Isa) (a b : Point K) : (a.mulPoint hw isa b).WF := by
  cases isa <;> wf_simp
theorem C49_point_div_point (hw : Hw K) (isa : Isa) (a b : Point K) : (a.divPoint hw isa b).WF := by
  cases isa <;> wf_simp

end Klein
