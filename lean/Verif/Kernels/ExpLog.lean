import Verif.Kernels.Sse
import Verif.Kernels.GeometricProduct

/-!
Functions of `/repo/public/klein/detail/x86/x86_exp_log.hpp`, statement by statement, and the scalar
C library functions they call.

`Libm F` collects the `<cmath>` functions, the float comparisons and the sign bit; nothing is
assumed about them here.  The `double` literal `1e-6` of x86_exp_log.hpp:197 is the field `eps6`
(the comparison `std::abs(p) < 1e-6` converts `p` to `double`).
-/

set_option linter.unusedVariables false

namespace Klein

/-- Scalar library functions and float predicates used by the library. -/
structure Libm (F : Type) where
  sqrt : F → F
  sin : F → F
  cos : F → F
  acos : F → F
  asin : F → F
  /-- `std::atan2(y, x)` -/
  atan2 : F → F → F
  /-- `std::copysign(mag, sgn)` -/
  copysign : F → F → F
  abs : F → F
  /-- `a == b` on floats (and one lane of `_mm_cmpeq_ps`) -/
  feq : F → F → Bool
  /-- `a < b` on floats (and one lane of `_mm_cmplt_ps`) -/
  flt : F → F → Bool
  /-- the sign bit -/
  signbit : F → Bool
  /-- `kln::pi_2` (util.hpp:22-25) -/
  pi_2 : F
  /-- `1e-6` -/
  eps6 : F

variable {F : Type}
variable [Add F] [Sub F] [Mul F] [Neg F] [Zero F] [One F] [NatCast F] [Div F]

/-- `_mm_movemask_ps(_mm_cmpeq_ps(a, b)) == 0xf`. -/
@[sse] def Libm.cmpeq_all (lm : Libm F) (a b : V4 F) : Bool :=
  lm.feq a.l0 b.l0 && lm.feq a.l1 b.l1 && lm.feq a.l2 b.l2 && lm.feq a.l3 b.l3

/-- `_mm_movemask_ps(_mm_cmplt_ps(a, b)) == 0xf`. -/
@[sse] def Libm.cmplt_all (lm : Libm F) (a b : V4 F) : Bool :=
  lm.flt a.l0 b.l0 && lm.flt a.l1 b.l1 && lm.flt a.l2 b.l2 && lm.flt a.l3 b.l3

/-- `_mm_andnot_ps(_mm_set1_ps(-0.f), a)`: clears the four sign bits. -/
@[sse] def Libm.abs_ps (lm : Libm F) (a : V4 F) : V4 F :=
  ⟨lm.abs a.l0, lm.abs a.l1, lm.abs a.l2, lm.abs a.l3⟩

/-- x86_exp_log.hpp:77-99 (and again 174, 204-209): the normalised bivector.  Returns
`(a2, ab, a2_sqrt_rcp, norm_real, norm_ideal)`. -/
@[kln] def explog_norm (hw : Hw F) (isa : Isa) (a b : V4 F) :
    V4 F × V4 F × V4 F × V4 F × V4 F :=
  let a2 := hi_dp_bc isa a a
  let ab := hi_dp_bc isa a b
  let a2_sqrt_rcp := rsqrt_nr1 hw a2
  let norm_real := mul_ps a a2_sqrt_rcp
  let norm_ideal := mul_ps b a2_sqrt_rcp
  let norm_ideal := sub_ps norm_ideal
    (mul_ps a (mul_ps ab (mul_ps a2_sqrt_rcp (rcp_nr1 hw a2))))
  (a2, ab, a2_sqrt_rcp, norm_real, norm_ideal)

/-- x86_exp_log.hpp:63-136, the general (not ideal) branch of `exp`. -/
@[kln] def exp_general (hw : Hw F) (lm : Libm F) (isa : Isa) (a b : V4 F) : V4 F × V4 F :=
  let n := explog_norm hw isa a b
  let a2 := n.1
  let ab := n.2.1
  let a2_sqrt_rcp := n.2.2.1
  let norm_real := n.2.2.2.1
  let norm_ideal := n.2.2.2.2
  let u := mul_ps a2 a2_sqrt_rcp
  let minus_v := mul_ps ab a2_sqrt_rcp
  let uv0 := u.l0
  let uv1 := minus_v.l0
  let s := lm.sin uv0
  let c := lm.cos uv0
  let sinu := set1_ps s
  let p1_out := add_ps (set_ps 0 0 0 c) (mul_ps sinu norm_real)
  let cosu := set_ps c c c 0
  let minus_vcosu := mul_ps minus_v cosu
  let p2_out := mul_ps sinu norm_ideal
  let p2_out := add_ps p2_out (mul_ps minus_vcosu norm_real)
  let minus_vsinu := uv1 * s
  let p2_out := add_ps (set_ps 0 0 0 minus_vsinu) p2_out
  (p1_out, p2_out)

/-- x86_exp_log.hpp:27-137 `exp`. -/
@[kln] def exp_kernel (hw : Hw F) (lm : Libm F) (isa : Isa) (a b : V4 F) : V4 F × V4 F :=
  bif lm.cmpeq_all a setzero_ps then (set_ss 1, b) else exp_general hw lm isa a b

/-- x86_exp_log.hpp:169-214, the part of `log` after the early return; `a` is the masked `p1`. -/
@[kln] def log_general (hw : Hw F) (lm : Libm F) (isa : Isa) (p1 p2 a : V4 F) : V4 F × V4 F :=
  let bv_mask : V4 F := set_ps 1 1 1 0
  let b := mul_ps bv_mask p2
  let n := explog_norm hw isa a b
  let a2 := n.1
  let ab := n.2.1
  let a2_sqrt_rcp := n.2.2.1
  let norm_real := n.2.2.2.1
  let norm_ideal := n.2.2.2.2
  let s := mul_ps a2 a2_sqrt_rcp
  let minus_t := mul_ps ab a2_sqrt_rcp
  let p := p1.l0
  let q := p2.l0
  let s_scalar := s.l0
  let t_scalar := minus_t.l0 * (-1)
  let p_zero := lm.flt (lm.abs p) lm.eps6
  let u := bif p_zero then lm.atan2 (-q) t_scalar else lm.atan2 s_scalar p
  let v := bif p_zero then (-q) / s_scalar else t_scalar / p
  let uvec := set1_ps u
  let p1_out := mul_ps uvec norm_real
  let p2_out := mul_ps uvec norm_ideal
  let p2_out := sub_ps p2_out (mul_ps (set1_ps v) norm_real)
  (p1_out, p2_out)

/-- x86_exp_log.hpp:139-215 `log`. -/
@[kln] def log_kernel (hw : Hw F) (lm : Libm F) (isa : Isa) (p1 p2 : V4 F) : V4 F × V4 F :=
  let bv_mask : V4 F := set_ps 1 1 1 0
  let a := mul_ps bv_mask p1
  bif lm.cmpeq_all a setzero_ps then (setzero_ps, p2) else log_general hw lm isa p1 p2 a

end Klein
