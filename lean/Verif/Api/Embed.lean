import Verif.Api.Ops
import Verif.Spec.PGA

/-!
# What each class stands for

Each class is given its meaning as a multivector of Cl(3,0,1), as documented in the class comments
(plane.hpp:17, point.hpp:9-14, line.hpp:13-15, 209-232, 474-478, rotor/translator/motor docs) and
in the partition table repeated in every kernel header.  Lanes that a class does not use (lane 0 of
`branch`, `line`, `ideal_line`, `translator`, `direction`) do not contribute.

The `mv_def` lemmas state the meaning in terms of the generators.
-/

set_option linter.unusedSimpArgs false

namespace Klein

open PGA PGA.MV

variable {K : Type} [CommRing K]

/-- `d e0 + a e1 + b e2 + c e3`. -/
def Plane.mv (p : Plane K) : MV K :=
  { (0 : MV K) with e0 := p.p0.l0, e1 := p.p0.l1, e2 := p.p0.l2, e3 := p.p0.l3 }

/-- `w e123 + x e032 + y e013 + z e021`. -/
def Point.mv (p : Point K) : MV K :=
  { (0 : MV K) with e123 := p.p3.l0, e023 := -p.p3.l1, e013 := p.p3.l2, e012 := -p.p3.l3 }

/-- `x e032 + y e013 + z e021`. -/
def Direction.mv (p : Direction K) : MV K :=
  { (0 : MV K) with e023 := -p.p3.l1, e013 := p.p3.l2, e012 := -p.p3.l3 }

/-- `a e01 + b e02 + c e03`. -/
def IdealLine.mv (l : IdealLine K) : MV K :=
  { (0 : MV K) with e01 := l.p2.l1, e02 := l.p2.l2, e03 := l.p2.l3 }

/-- `a e23 + b e31 + c e12`. -/
def Branch.mv (l : Branch K) : MV K :=
  { (0 : MV K) with e23 := l.p1.l1, e13 := -l.p1.l2, e12 := l.p1.l3 }

/-- `a e01 + b e02 + c e03 + d e23 + e e31 + f e12`. -/
def Line.mv (l : Line K) : MV K :=
  { (0 : MV K) with
    e23 := l.p1.l1, e13 := -l.p1.l2, e12 := l.p1.l3
    e01 := l.p2.l1, e02 := l.p2.l2, e03 := l.p2.l3 }

/-- `a + b e23 + c e31 + d e12`. -/
def Rotor.mv (r : Rotor K) : MV K :=
  { (0 : MV K) with s := r.p1.l0, e23 := r.p1.l1, e13 := -r.p1.l2, e12 := r.p1.l3 }

/-- `1 + a e01 + b e02 + c e03`. -/
def Translator.mv (t : Translator K) : MV K :=
  { (0 : MV K) with s := 1, e01 := t.p2.l1, e02 := t.p2.l2, e03 := t.p2.l3 }

/-- `a + b e23 + c e31 + d e12 + e e01 + f e02 + g e03 + h e0123`. -/
def Motor.mv (m : Motor K) : MV K :=
  { (0 : MV K) with
    s := m.p1.l0, e23 := m.p1.l1, e13 := -m.p1.l2, e12 := m.p1.l3
    e0123 := m.p2.l0, e01 := m.p2.l1, e02 := m.p2.l2, e03 := m.p2.l3 }

/-- `p + q e0123`. -/
def Dual.mv (d : Dual K) : MV K := { (0 : MV K) with s := d.p, e0123 := d.q }

/-- A scalar. -/
def scalarMv (x : K) : MV K := { (0 : MV K) with s := x }

attribute [pga] Plane.mv Point.mv Direction.mv IdealLine.mv Branch.mv Line.mv Rotor.mv
  Translator.mv Motor.mv Dual.mv scalarMv

/-- Lane 0 of a branch, a line, an ideal line, a translator, a direction is the coefficient of a
basis element the class does not have; all constructors and operators are meant to keep it 0. -/
abbrev IdealLine.WF (l : IdealLine K) : Prop := l.p2.l0 = 0
/-- See `IdealLine.WF`. -/
abbrev Branch.WF (l : Branch K) : Prop := l.p1.l0 = 0
/-- See `IdealLine.WF`. -/
abbrev Line.WF (l : Line K) : Prop := l.p1.l0 = 0 ∧ l.p2.l0 = 0
/-- See `IdealLine.WF`. -/
abbrev Translator.WF (t : Translator K) : Prop := t.p2.l0 = 0
/-- See `IdealLine.WF`. -/
abbrev Direction.WF (d : Direction K) : Prop := d.p3.l0 = 0

/-- Coefficientwise proof of an identity between multivectors. -/
macro "mv_ring" : tactic =>
  `(tactic| (apply MV.ext <;> simp only [pga, sse, kln, V4.get, cond_true, cond_false, mul_zero, zero_mul, add_zero,
    zero_add, mul_one, one_mul, sub_zero, zero_sub, neg_zero, neg_neg] <;> ring))

section Blades
set_option linter.unusedSimpArgs false

theorem b01 : (g0 : MV K) * g1 = { (0 : MV K) with e01 := 1 } := by
  apply MV.ext <;> simp only [pga, g0, g1, g2, g3, mul_zero, zero_mul, add_zero, zero_add, mul_one,
    sub_zero, zero_sub, neg_zero, neg_neg, neg_mul, one_mul]

theorem b02 : (g0 : MV K) * g2 = { (0 : MV K) with e02 := 1 } := by
  apply MV.ext <;> simp only [pga, g0, g1, g2, g3, mul_zero, zero_mul, add_zero, zero_add, mul_one,
    sub_zero, zero_sub, neg_zero, neg_neg, neg_mul, one_mul]

theorem b03 : (g0 : MV K) * g3 = { (0 : MV K) with e03 := 1 } := by
  apply MV.ext <;> simp only [pga, g0, g1, g2, g3, mul_zero, zero_mul, add_zero, zero_add, mul_one,
    sub_zero, zero_sub, neg_zero, neg_neg, neg_mul, one_mul]

theorem b23 : (g2 : MV K) * g3 = { (0 : MV K) with e23 := 1 } := by
  apply MV.ext <;> simp only [pga, g0, g1, g2, g3, mul_zero, zero_mul, add_zero, zero_add, mul_one,
    sub_zero, zero_sub, neg_zero, neg_neg, neg_mul, one_mul]

theorem b31 : (g3 : MV K) * g1 = { (0 : MV K) with e13 := -1 } := by
  apply MV.ext <;> simp only [pga, g0, g1, g2, g3, mul_zero, zero_mul, add_zero, zero_add, mul_one,
    sub_zero, zero_sub, neg_zero, neg_neg, neg_mul, one_mul]

theorem b12 : (g1 : MV K) * g2 = { (0 : MV K) with e12 := 1 } := by
  apply MV.ext <;> simp only [pga, g0, g1, g2, g3, mul_zero, zero_mul, add_zero, zero_add, mul_one,
    sub_zero, zero_sub, neg_zero, neg_neg, neg_mul, one_mul]

theorem b03_2 : (g0 : MV K) * g3 * g2 = { (0 : MV K) with e023 := -1 } := by
  rw [b03] ; apply MV.ext <;> simp only [pga, g0, g1, g2, g3, mul_zero, zero_mul, add_zero, zero_add, mul_one,
    sub_zero, zero_sub, neg_zero, neg_neg, neg_mul, one_mul]

theorem b01_3 : (g0 : MV K) * g1 * g3 = { (0 : MV K) with e013 := 1 } := by
  rw [b01] ; apply MV.ext <;> simp only [pga, g0, g1, g2, g3, mul_zero, zero_mul, add_zero, zero_add, mul_one,
    sub_zero, zero_sub, neg_zero, neg_neg, neg_mul, one_mul]

theorem b02_1 : (g0 : MV K) * g2 * g1 = { (0 : MV K) with e012 := -1 } := by
  rw [b02] ; apply MV.ext <;> simp only [pga, g0, g1, g2, g3, mul_zero, zero_mul, add_zero, zero_add, mul_one,
    sub_zero, zero_sub, neg_zero, neg_neg, neg_mul, one_mul]

theorem b12_3 : (g1 : MV K) * g2 * g3 = { (0 : MV K) with e123 := 1 } := by
  rw [b12] ; apply MV.ext <;> simp only [pga, g0, g1, g2, g3, mul_zero, zero_mul, add_zero, zero_add, mul_one,
    sub_zero, zero_sub, neg_zero, neg_neg, neg_mul, one_mul]

theorem b01_2 : (g0 : MV K) * g1 * g2 = { (0 : MV K) with e012 := 1 } := by
  rw [b01] ; apply MV.ext <;> simp only [pga, g0, g1, g2, g3, mul_zero, zero_mul, add_zero, zero_add, mul_one,
    sub_zero, zero_sub, neg_zero, neg_neg, neg_mul, one_mul]

theorem b01_2_3 : (g0 : MV K) * g1 * g2 * g3 = { (0 : MV K) with e0123 := 1 } := by
  rw [b01_2] ; apply MV.ext <;> simp only [pga, g0, g1, g2, g3, mul_zero, zero_mul, add_zero, zero_add, mul_one,
    sub_zero, zero_sub, neg_zero, neg_neg, neg_mul, one_mul]

end Blades

theorem Plane.mv_def (p : Plane K) :
    p.mv = p.d • g0 + p.x • g1 + p.y • g2 + p.z • g3 := by
  simp only [b03_2, b01_3, b02_1, b12_3, b01_2_3, b01, b02, b03, b23, b31, b12, g0, g1, g2, g3]
  mv_ring

theorem Point.mv_def (p : Point K) :
    p.mv = p.w • (g1 * g2 * g3) + p.x • (g0 * g3 * g2) + p.y • (g0 * g1 * g3)
      + p.z • (g0 * g2 * g1) := by
  simp only [b03_2, b01_3, b02_1, b12_3, b01_2_3, b01, b02, b03, b23, b31, b12, g0, g1, g2, g3]
  mv_ring

theorem Direction.mv_def (p : Direction K) :
    p.mv = p.x • (g0 * g3 * g2) + p.y • (g0 * g1 * g3) + p.z • (g0 * g2 * g1) := by
  simp only [b03_2, b01_3, b02_1, b12_3, b01_2_3, b01, b02, b03, b23, b31, b12, g0, g1, g2, g3]
  mv_ring

theorem IdealLine.mv_def (l : IdealLine K) :
    l.mv = l.e01 • (g0 * g1) + l.e02 • (g0 * g2) + l.e03 • (g0 * g3) := by
  simp only [b03_2, b01_3, b02_1, b12_3, b01_2_3, b01, b02, b03, b23, b31, b12, g0, g1, g2, g3]
  mv_ring

theorem Branch.mv_def (l : Branch K) :
    l.mv = l.e23 • (g2 * g3) + l.e31 • (g3 * g1) + l.e12 • (g1 * g2) := by
  simp only [b03_2, b01_3, b02_1, b12_3, b01_2_3, b01, b02, b03, b23, b31, b12, g0, g1, g2, g3]
  mv_ring

theorem Line.mv_def (l : Line K) :
    l.mv = l.e01 • (g0 * g1) + l.e02 • (g0 * g2) + l.e03 • (g0 * g3)
      + l.e23 • (g2 * g3) + l.e31 • (g3 * g1) + l.e12 • (g1 * g2) := by
  simp only [b03_2, b01_3, b02_1, b12_3, b01_2_3, b01, b02, b03, b23, b31, b12, g0, g1, g2, g3]
  mv_ring

theorem Rotor.mv_def (r : Rotor K) :
    r.mv = r.scalar • 1 + r.e23 • (g2 * g3) + r.e31 • (g3 * g1) + r.e12 • (g1 * g2) := by
  simp only [b03_2, b01_3, b02_1, b12_3, b01_2_3, b01, b02, b03, b23, b31, b12, g0, g1, g2, g3]
  mv_ring

theorem Translator.mv_def (t : Translator K) :
    t.mv = 1 + t.e01 • (g0 * g1) + t.e02 • (g0 * g2) + t.e03 • (g0 * g3) := by
  simp only [b03_2, b01_3, b02_1, b12_3, b01_2_3, b01, b02, b03, b23, b31, b12, g0, g1, g2, g3]
  mv_ring

theorem Motor.mv_def (m : Motor K) :
    m.mv = m.scalar • 1 + m.e23 • (g2 * g3) + m.e31 • (g3 * g1) + m.e12 • (g1 * g2)
      + m.e01 • (g0 * g1) + m.e02 • (g0 * g2) + m.e03 • (g0 * g3)
      + m.e0123 • (g0 * g1 * g2 * g3) := by
  simp only [b03_2, b01_3, b02_1, b12_3, b01_2_3, b01, b02, b03, b23, b31, b12, g0, g1, g2, g3]
  mv_ring

theorem Dual.mv_def (d : Dual K) : d.mv = d.p • 1 + d.q • (g0 * g1 * g2 * g3) := by
  simp only [b03_2, b01_3, b02_1, b12_3, b01_2_3, b01, b02, b03, b23, b31, b12, g0, g1, g2, g3]
  mv_ring

end Klein
