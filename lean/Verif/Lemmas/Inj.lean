import Verif.Api.Embed

/-!
# Entities are determined by their multivector
-/

namespace Klein
open PGA PGA.MV
variable {K : Type} [CommRing K]

theorem Plane.mv_inj {a b : Plane K} : a.mv = b.mv ↔ a = b := by
  refine ⟨fun h => ?_, fun h => h ▸ rfl⟩
  have e0 := congrArg MV.e0 h
  have e1 := congrArg MV.e1 h
  have e2 := congrArg MV.e2 h
  have e3 := congrArg MV.e3 h
  simp only [pga] at e0 e1 e2 e3
  exact Plane.ext (V4.ext e0 e1 e2 e3)

theorem Point.mv_inj {a b : Point K} : a.mv = b.mv ↔ a = b := by
  refine ⟨fun h => ?_, fun h => h ▸ rfl⟩
  have e0 := congrArg MV.e123 h
  have e1 := congrArg MV.e023 h
  have e2 := congrArg MV.e013 h
  have e3 := congrArg MV.e012 h
  simp only [pga, neg_inj] at e0 e1 e2 e3
  exact Point.ext (V4.ext e0 e1 e2 e3)

theorem Rotor.mv_inj {a b : Rotor K} : a.mv = b.mv ↔ a = b := by
  refine ⟨fun h => ?_, fun h => h ▸ rfl⟩
  have e0 := congrArg MV.s h
  have e1 := congrArg MV.e23 h
  have e2 := congrArg MV.e13 h
  have e3 := congrArg MV.e12 h
  simp only [pga, neg_inj] at e0 e1 e2 e3
  exact Rotor.ext (V4.ext e0 e1 e2 e3)

theorem Motor.mv_inj {a b : Motor K} : a.mv = b.mv ↔ a = b := by
  refine ⟨fun h => ?_, fun h => h ▸ rfl⟩
  have e0 := congrArg MV.s h
  have e1 := congrArg MV.e23 h
  have e2 := congrArg MV.e13 h
  have e3 := congrArg MV.e12 h
  have f0 := congrArg MV.e0123 h
  have f1 := congrArg MV.e01 h
  have f2 := congrArg MV.e02 h
  have f3 := congrArg MV.e03 h
  simp only [pga, neg_inj] at e0 e1 e2 e3 f0 f1 f2 f3
  exact Motor.ext (V4.ext e0 e1 e2 e3) (V4.ext f0 f1 f2 f3)

theorem Line.mv_inj {a b : Line K} (ha : a.WF) (hb : b.WF) : a.mv = b.mv ↔ a = b := by
  refine ⟨fun h => ?_, fun h => h ▸ rfl⟩
  have e1 := congrArg MV.e23 h
  have e2 := congrArg MV.e13 h
  have e3 := congrArg MV.e12 h
  have f1 := congrArg MV.e01 h
  have f2 := congrArg MV.e02 h
  have f3 := congrArg MV.e03 h
  simp only [pga, neg_inj] at e1 e2 e3 f1 f2 f3
  exact Line.ext (V4.ext (ha.1.trans hb.1.symm) e1 e2 e3) (V4.ext (ha.2.trans hb.2.symm) f1 f2 f3)

theorem Branch.mv_inj {a b : Branch K} (ha : a.WF) (hb : b.WF) : a.mv = b.mv ↔ a = b := by
  refine ⟨fun h => ?_, fun h => h ▸ rfl⟩
  have e1 := congrArg MV.e23 h
  have e2 := congrArg MV.e13 h
  have e3 := congrArg MV.e12 h
  simp only [pga, neg_inj] at e1 e2 e3
  exact Branch.ext (V4.ext (ha.trans hb.symm) e1 e2 e3)

theorem IdealLine.mv_inj {a b : IdealLine K} (ha : a.WF) (hb : b.WF) : a.mv = b.mv ↔ a = b := by
  refine ⟨fun h => ?_, fun h => h ▸ rfl⟩
  have e1 := congrArg MV.e01 h
  have e2 := congrArg MV.e02 h
  have e3 := congrArg MV.e03 h
  simp only [pga] at e1 e2 e3
  exact IdealLine.ext (V4.ext (ha.trans hb.symm) e1 e2 e3)

theorem Translator.mv_inj {a b : Translator K} (ha : a.WF) (hb : b.WF) : a.mv = b.mv ↔ a = b := by
  refine ⟨fun h => ?_, fun h => h ▸ rfl⟩
  have e1 := congrArg MV.e01 h
  have e2 := congrArg MV.e02 h
  have e3 := congrArg MV.e03 h
  simp only [pga] at e1 e2 e3
  exact Translator.ext (V4.ext (ha.trans hb.symm) e1 e2 e3)

theorem Direction.mv_inj {a b : Direction K} (ha : a.WF) (hb : b.WF) : a.mv = b.mv ↔ a = b := by
  refine ⟨fun h => ?_, fun h => h ▸ rfl⟩
  have e1 := congrArg MV.e023 h
  have e2 := congrArg MV.e013 h
  have e3 := congrArg MV.e012 h
  simp only [pga, neg_inj] at e1 e2 e3
  exact Direction.ext (V4.ext (ha.trans hb.symm) e1 e2 e3)

theorem Dual.mv_inj {a b : Dual K} : a.mv = b.mv ↔ a = b := by
  refine ⟨fun h => ?_, fun h => h ▸ rfl⟩
  have e1 := congrArg MV.s h
  have e2 := congrArg MV.e0123 h
  simp only [pga] at e1 e2
  exact Dual.ext e1 e2

end Klein
