import Verif.Kernels.Sse
import Verif.Spec.Estimate
import Mathlib.Tactic.LinearCombination

/-!
# Lane-wise form of the Newton-refined estimates
-/

set_option linter.unusedSectionVars false

namespace Klein

section Raw
variable {F : Type} [Add F] [Sub F] [Mul F] [Neg F] [Zero F] [One F] [NatCast F]

/-- One lane of `rcp_nr1`. -/
def rcp1 (hw : Hw F) (a : F) : F := hw.rcp a * (2 - a * hw.rcp a)

/-- One lane of `rsqrt_nr1`. -/
def rsqrt1 [Div F] (hw : Hw F) (a : F) : F :=
  1 / 2 * hw.rsqrt a * (3 - a * (hw.rsqrt a * hw.rsqrt a))

theorem rcp_nr1_map (hw : Hw F) (a : V4 F) :
    rcp_nr1 hw a = ⟨rcp1 hw a.l0, rcp1 hw a.l1, rcp1 hw a.l2, rcp1 hw a.l3⟩ := rfl

theorem rsqrt_nr1_map [Div F] (hw : Hw F) (a : V4 F) :
    rsqrt_nr1 hw a = ⟨rsqrt1 hw a.l0, rsqrt1 hw a.l1, rsqrt1 hw a.l2, rsqrt1 hw a.l3⟩ := rfl

end Raw

theorem rcp_nr1_exact {K : Type} [CommRing K] (hw : Hw K) {a : K} (h : hw.RcpAt a) :
    rcp1 hw a = hw.rcp a := by
  simp only [Hw.RcpAt] at h
  simp only [rcp1, h]
  ring

theorem rsqrt_nr1_exact {K : Type} [Field K] [CharZero K] (hw : Hw K) {a : K} (h : hw.RsqrtAt a) :
    rsqrt1 hw a = hw.rsqrt a := by
  simp only [Hw.RsqrtAt] at h
  simp only [rsqrt1, h]
  ring

end Klein
