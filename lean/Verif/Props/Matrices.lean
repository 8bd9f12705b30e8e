import Verif.Api.Trans
import Verif.Props.Composition
import Verif.Props.Rigid

/-!
# C38, C39: conversion to matrices
-/

set_option linter.unusedSimpArgs false
set_option linter.unusedSectionVars false

namespace Klein

open PGA PGA.MV Euclid

variable {K : Type} [CommRing K]

/-- The coordinates `(x, y, z, w)` of a point, in the order the matrices use (mat4x4.hpp:16-17). -/
def Point.xyzw (p : Point K) : V4 K := ⟨p.x, p.y, p.z, p.w⟩

theorem Point.xyzw_inj {a b : Point K} (h : a.xyzw = b.xyzw) : a = b := by
  have h0 := congrArg V4.l0 h
  have h1 := congrArg V4.l1 h
  have h2 := congrArg V4.l2 h
  have h3 := congrArg V4.l3 h
  exact Point.ext (V4.ext h3 h0 h1 h2)

/-- Product of matrices given by columns. -/
def Mat4.mul (a b : Mat4 K) : Mat4 K := ⟨a.apply b.c0, a.apply b.c1, a.apply b.c2, a.apply b.c3⟩

theorem Mat4.mul_apply (a b : Mat4 K) (v : V4 K) : (a.mul b).apply v = a.apply (b.apply v) := by
  simp only [Mat4.mul, kln, sse, V4.mk.injEq]
  refine ⟨?_, ?_, ?_, ?_⟩ <;> ring

/-- A matrix is determined by its action. -/
theorem Mat4.ext_apply {a b : Mat4 K} (h : ∀ v, a.apply v = b.apply v) : a = b := by
  have h0 := h ⟨1, 0, 0, 0⟩
  have h1 := h ⟨0, 1, 0, 0⟩
  have h2 := h ⟨0, 0, 1, 0⟩
  have h3 := h ⟨0, 0, 0, 1⟩
  simp only [kln, sse, mul_one, mul_zero, add_zero, zero_add, V4.mk.injEq] at h0 h1 h2 h3
  apply Mat4.ext <;> apply V4.ext <;> simp_all

/-- C38: for every motor (normalised or not), every point (of any weight), both builds and whatever
the previous contents of the matrix, the 4x4 matrix maps the homogeneous coordinates of the point to
those of its image. -/
theorem C38_mat4x4 (isa : Isa) (m : Motor K) (mem : V4 K) (p : Point K) :
    (m.as_mat4x4 isa mem).apply p.xyzw = (m.onPoint p).xyzw := by
  cases isa <;> simp only [kln, sse, Point.xyzw, cond_true, cond_false, V4.mk.injEq] <;>
    refine ⟨?_, ?_, ?_, ?_⟩ <;> ring

/-- C38: the 3x4 matrix of a normalised motor. -/
theorem C38_mat3x4 (isa : Isa) (m : Motor K) (h : m.mv * PGA.MV.rev m.mv = 1) (mem : V4 K)
    (p : Point K) : (m.as_mat3x4 isa mem).apply p.xyzw = (m.onPoint p).xyzw := by
  have hn := Motor.sqNorm_eq_one h
  rw [← C38_mat4x4 isa m mem p]
  simp only [Motor.sqNorm, kln, sse] at hn
  cases isa <;> simp only [kln, sse, Point.xyzw, cond_true, cond_false, V4.mk.injEq] <;>
    refine ⟨?_, ?_, ?_, ?_⟩ <;> first | trivial | linear_combination (-p.p3.l0) * hn

/-- The 3x4 conversion needs the normalisation: for a motor of any other norm the weight is wrong. -/
theorem C38_mat3x4_needs_norm (isa : Isa) (m : Motor K) (mem : V4 K) :
    (∀ p : Point K, (m.as_mat3x4 isa mem).apply p.xyzw = (m.onPoint p).xyzw) ↔ m.sqNorm = 1 := by
  constructor
  · intro H
    have h1 := congrArg V4.l3 (H ⟨⟨1, 0, 0, 0⟩⟩)
    simp only [Motor.sqNorm, kln, sse]
    cases isa <;> simp only [kln, sse, Point.xyzw, cond_true, cond_false] at h1 <;>
      linear_combination -h1
  · intro hn p
    rw [← C38_mat4x4 isa m mem p]
    simp only [Motor.sqNorm, kln, sse] at hn
    cases isa <;> simp only [kln, sse, Point.xyzw, cond_true, cond_false, V4.mk.injEq] <;>
      refine ⟨?_, ?_, ?_, ?_⟩ <;> first | trivial | linear_combination (-p.p3.l0) * hn

/-- C38: the matrix of a product is the product of the matrices. -/
theorem C38_product (isa : Isa) (a b : Motor K) (mem mem' mem'' : V4 K) :
    (a.mulMotor b).as_mat4x4 isa mem = (a.as_mat4x4 isa mem').mul (b.as_mat4x4 isa mem'') := by
  apply Mat4.ext_apply
  intro v
  rw [Mat4.mul_apply]
  have ev : v = (⟨⟨v.l3, v.l0, v.l1, v.l2⟩⟩ : Point K).xyzw := rfl
  rw [ev, C38_mat4x4, C38_mat4x4, C38_mat4x4, C16_motor_motor_point]

/-- A concrete case: a screw by a half turn about z and 3 along it. -/
example : ((⟨⟨0, 0, 0, 1⟩, ⟨(3 : ℤ), 0, 0, 0⟩⟩ : Motor ℤ).as_mat4x4 .sse3 ⟨7, 7, 7, 7⟩).apply
    ⟨1, 2, 5, 1⟩ = ⟨-1, -2, -1, 1⟩ := by decide

/-- C39 is violated: the fourth column of the matrix of a rotor is what the memory held before. -/
theorem C39_fails (r : Rotor K) (mem : V4 K) :
    (r.as_mat3x4 .sse41 mem).c3 = ⟨mem.l0, mem.l1, mem.l2, 1⟩ ∧
    (r.as_mat3x4 .sse3 mem).c3 = ⟨mem.l0 + 0, mem.l1 + 0, mem.l2 + 0, mem.l3 + 1⟩ ∧
    (r.as_mat4x4 .sse41 mem).c3 =
      ⟨mem.l0, mem.l1, mem.l2, ((r.scalar * r.scalar + r.e23 * r.e23) + r.e31 * r.e31) + r.e12 * r.e12⟩ ∧
    (r.as_mat4x4 .sse3 mem).c3 =
      ⟨mem.l0 + 0, mem.l1 + 0, mem.l2 + 0,
        mem.l3 + (((r.scalar * r.scalar + r.e23 * r.e23) + r.e31 * r.e31) + r.e12 * r.e12)⟩ := by
  refine ⟨rfl, rfl, rfl, rfl⟩

/-- C39 is violated: two memories give two matrices of the identity rotor that move the origin
differently, in each build and for both conversions. -/
theorem C39_fails_witness (isa : Isa) :
    ((⟨⟨1, 0, 0, 0⟩⟩ : Rotor ℤ).as_mat4x4 isa ⟨5, 0, 0, 0⟩).apply ⟨0, 0, 0, 1⟩ = ⟨5, 0, 0, 1⟩ ∧
    ((⟨⟨1, 0, 0, 0⟩⟩ : Rotor ℤ).as_mat4x4 isa ⟨0, 0, 0, 0⟩).apply ⟨0, 0, 0, 1⟩ = ⟨0, 0, 0, 1⟩ ∧
    ((⟨⟨1, 0, 0, 0⟩⟩ : Rotor ℤ).as_mat3x4 isa ⟨5, 0, 0, 0⟩).apply ⟨0, 0, 0, 1⟩ = ⟨5, 0, 0, 1⟩ := by
  cases isa <;> decide

/-- C39, what holds: the first three columns do not depend on the memory, are the columns of the
rotation, and the whole matrix is right if the memory happened to be zero. -/
theorem C39_columns_partial (isa : Isa) (r : Rotor K) (mem : V4 K) (p : Point K) :
    (r.as_mat4x4 isa mem).c0 = (r.as_mat4x4 isa setzero_ps).c0 ∧
    (r.as_mat4x4 isa mem).c1 = (r.as_mat4x4 isa setzero_ps).c1 ∧
    (r.as_mat4x4 isa mem).c2 = (r.as_mat4x4 isa setzero_ps).c2 ∧
    (r.as_mat4x4 isa setzero_ps).apply p.xyzw = (r.onPoint isa p).xyzw := by
  refine ⟨rfl, rfl, rfl, ?_⟩
  cases isa <;> simp only [kln, sse, Point.xyzw, cond_true, cond_false, V4.mk.injEq] <;>
    refine ⟨?_, ?_, ?_, ?_⟩ <;> ring

end Klein
