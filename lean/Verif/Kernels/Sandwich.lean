import Verif.Kernels.Sse

/-!
`/repo/public/klein/detail/x86/x86_sandwich.hpp`, statement by statement.

The loops of `swMM`, `sw012`, `sw312` are split into the part before the loop (temporaries) and
the statements of one iteration; `Verif.Memory` re-assembles the loops over memory.
-/

set_option linter.unusedVariables false

namespace Klein

variable {F : Type}
variable [Add F] [Sub F] [Mul F] [Neg F] [Zero F] [One F] [NatCast F]

/-- x86_sandwich.hpp:32-59 `sw00`: reflect plane `b` through plane `a`. -/
@[kln] def sw00 (a b : V4 F) : V4 F :=
  let a_zzwy := swz a 1 3 2 2
  let a_wwyz := swz a 2 1 3 3
  let tmp := mul_ps a_zzwy (swz b 1 3 2 2)
  let tmp := add_ps tmp (mul_ps a_wwyz (swz b 2 1 3 3))
  let a1 := movehdup_ps a
  let b1 := movehdup_ps b
  let tmp := add_ss tmp (mul_ss a1 b1)
  let tmp := mul_ps tmp (add_ps a a)
  let a_yyzw := swz a 3 2 1 1
  let tmp2 := xor_ps (mul_ps a_yyzw a_yyzw) flip_ss
  let tmp2 := sub_ps tmp2 (mul_ps a_zzwy a_zzwy)
  let tmp2 := sub_ps tmp2 (mul_ps a_wwyz a_wwyz)
  let tmp2 := mul_ps tmp2 b
  let p0_out := add_ps tmp tmp2
  p0_out

/-- x86_sandwich.hpp:61-98 `sw10`: reflect the p1 part of a line through plane `a`. -/
@[kln] def sw10 (a b : V4 F) : V4 F × V4 F :=
  let a_zyzw := swz a 3 2 1 2
  let a_ywyz := swz a 2 1 3 1
  let a_wzwy := swz a 1 3 2 3
  let b_xzwy := swz b 1 3 2 0
  let two_zero := set_ps 2 2 2 0
  let p1 := mul_ps a b
  let p1 := add_ps p1 (mul_ps a_wzwy b_xzwy)
  let p1 := mul_ps p1 (mul_ps a_ywyz two_zero)
  let tmp := mul_ps a_zyzw a_zyzw
  let tmp := add_ps tmp (mul_ps a_wzwy a_wzwy)
  let tmp := xor_ps tmp flip_ss
  let tmp := sub_ps (mul_ps a_ywyz a_ywyz) tmp
  let tmp := mul_ps (swz b 2 1 3 0) tmp
  let p1 := swz (add_ps p1 tmp) 1 3 2 0
  let p2 := mul_ps a_zyzw b_xzwy
  let p2 := sub_ps p2 (mul_ps a_wzwy b)
  let p2 := mul_ps p2 (mul_ps (swz a 0 0 0 0) two_zero)
  let p2 := swz p2 1 3 2 0
  (p1, p2)

/-- x86_sandwich.hpp:100-122 `sw20`: reflect the p2 part of a line through plane `a`. -/
@[kln] def sw20 (a b : V4 F) : V4 F :=
  let a_zzwy := swz a 1 3 2 2
  let a_wwyz := swz a 2 1 3 3
  let p2 := mul_ps a b
  let p2 := add_ps p2 (mul_ps a_zzwy (swz b 1 3 2 0))
  let p2 := mul_ps p2 (mul_ps a_wwyz (set_ps (-2) (-2) (-2) 0))
  let a_yyzw := swz a 3 2 1 1
  let tmp := mul_ps a_yyzw a_yyzw
  let tmp := xor_ps (add_ps tmp (mul_ps a_zzwy a_zzwy)) flip_ss
  let tmp := sub_ps tmp (mul_ps a_wwyz a_wwyz)
  let p2 := add_ps p2 (mul_ps tmp (swz b 2 1 3 0))
  let p2 := swz p2 1 3 2 0
  p2

/-- x86_sandwich.hpp:124-150 `sw30`: reflect point `b` through plane `a`. -/
@[kln] def sw30 (a b : V4 F) : V4 F :=
  let a_zwyz := swz a 2 1 3 2
  let a_yzwy := swz a 1 3 2 1
  let p3_out := mul_ps (swz a 0 0 0 0) (swz b 0 0 0 0)
  let p3_out := add_ps p3_out (mul_ps a_zwyz (swz b 2 1 3 0))
  let p3_out := add_ps p3_out (mul_ps a_yzwy (swz b 1 3 2 0))
  let p3_out := mul_ps p3_out (mul_ps a (set_ps (-2) (-2) (-2) 0))
  let tmp := mul_ps a_yzwy a_yzwy
  let tmp := add_ps tmp (mul_ps a_zwyz a_zwyz)
  let a_wyzw := swz a 3 2 1 3
  let tmp := sub_ps tmp (xor_ps (mul_ps a_wyzw a_wyzw) flip_ss)
  let p3_out := add_ps p3_out (mul_ps b tmp)
  p3_out

/-- x86_sandwich.hpp:158-190 `sw02`: apply a translator (`b`, lane 0 holding 1) to a plane. -/
@[kln] def sw02 (hw : Hw F) (isa : Isa) (a b : V4 F) : V4 F :=
  let tmp := hi_dp isa a b
  let inv_b := rcp_nr1 hw b
  let inv_b := add_ss inv_b inv_b
  let inv_b := and_ps inv_b ⟨true, false, false, false⟩
  let tmp := mul_ss tmp inv_b
  add_ps a tmp

/-- x86_sandwich.hpp:197-227 `swL2`: apply a translator `c` to the line `a, d`. -/
@[kln] def swL2 (a d c : V4 F) : V4 F × V4 F :=
  let p1_out := a
  let p2_out := mul_ps (swz a 1 3 2 0) (swz c 2 1 3 0)
  let p2_out := sub_ps p2_out (mul_ps (swz a 2 1 3 0) (swz c 1 3 2 0))
  let p2_out := sub_ps p2_out (xor_ps (mul_ps a (swz c 0 0 0 0)) flip_ss)
  let p2_out := add_ps p2_out p2_out
  let p2_out := add_ps p2_out d
  (p1_out, p2_out)

/-- x86_sandwich.hpp:234-245 `sw32`: apply a translator `b` to a point. -/
@[kln] def sw32 (a b : V4 F) : V4 F :=
  let tmp := mul_ps (swz a 0 0 0 0) b
  let tmp := mul_ps (set_ps (-2) (-2) (-2) 0) tmp
  let tmp := add_ps a tmp
  tmp

/-- The temporaries `tmp, tmp2, tmp3` of `swMM`, which depend on the rotor part `b` only. -/
structure SwMMRot (F : Type) where
  tmp : V4 F
  tmp2 : V4 F
  tmp3 : V4 F

/-- The temporaries `tmp4, tmp5, tmp6` of `swMM` (computed only when `Translate`). -/
structure SwMMTrans (F : Type) where
  tmp4 : V4 F
  tmp5 : V4 F
  tmp6 : V4 F

/-- x86_sandwich.hpp:270-293 `swMM`: rotor-only temporaries. -/
@[kln] def swMM_rot (b : V4 F) : SwMMRot F :=
  let b_xwyz := swz b 2 1 3 0
  let b_xzwy := swz b 1 3 2 0
  let b_yxxx := swz b 0 0 0 1
  let b_yxxx_2 := mul_ps b_yxxx b_yxxx
  let tmp := mul_ps b b
  let tmp := add_ps tmp b_yxxx_2
  let b_tmp := swz b 2 1 3 2
  let tmp2 := mul_ps b_tmp b_tmp
  let b_tmp := swz b 1 3 2 3
  let tmp2 := add_ps tmp2 (mul_ps b_tmp b_tmp)
  let tmp := sub_ps tmp (xor_ps tmp2 flip_ss)
  let b_xxxx := swz b 0 0 0 0
  let scale := set_ps 2 2 2 0
  let tmp2 := mul_ps b_xxxx b_xwyz
  let tmp2 := add_ps tmp2 (mul_ps b b_xzwy)
  let tmp2 := mul_ps tmp2 scale
  let tmp3 := mul_ps b b_xwyz
  let tmp3 := sub_ps tmp3 (mul_ps b_xxxx b_xzwy)
  let tmp3 := mul_ps tmp3 scale
  ⟨tmp, tmp2, tmp3⟩

/-- x86_sandwich.hpp:335-360 `swMM`: translation temporaries (`Translate`); the swizzles of `b`
are those of lines 270-272 and 284-285. -/
@[kln] def swMM_trans (b c : V4 F) : SwMMTrans F :=
  let b_xwyz := swz b 2 1 3 0
  let b_xzwy := swz b 1 3 2 0
  let b_yxxx := swz b 0 0 0 1
  let b_xxxx := swz b 0 0 0 0
  let scale := set_ps 2 2 2 0
  let czero := swz c 0 0 0 0
  let c_xzwy := swz c 1 3 2 0
  let c_xwyz := swz c 2 1 3 0
  let tmp4 := mul_ps b c
  let tmp4 := sub_ps tmp4 (mul_ps b_yxxx (swz c 0 0 0 1))
  let tmp4 := sub_ps tmp4 (mul_ps (swz b 1 3 3 2) (swz c 1 3 3 2))
  let tmp4 := sub_ps tmp4 (mul_ps (swz b 2 1 2 3) (swz c 2 1 2 3))
  let tmp4 := add_ps tmp4 tmp4
  let tmp5 := mul_ps b c_xwyz
  let tmp5 := add_ps tmp5 (mul_ps b_xzwy czero)
  let tmp5 := add_ps tmp5 (mul_ps b_xwyz c)
  let tmp5 := sub_ps tmp5 (mul_ps b_xxxx c_xzwy)
  let tmp5 := mul_ps tmp5 scale
  let tmp6 := mul_ps b c_xzwy
  let tmp6 := add_ps tmp6 (mul_ps b_xxxx c_xwyz)
  let tmp6 := add_ps tmp6 (mul_ps b_xzwy c)
  let tmp6 := sub_ps tmp6 (mul_ps b_xwyz czero)
  let tmp6 := mul_ps tmp6 scale
  ⟨tmp4, tmp5, tmp6⟩

/-- x86_sandwich.hpp:367-375, one loop iteration of `swMM`, first output partition. -/
@[kln] def swMM_p1 (t : SwMMRot F) (p1_in : V4 F) : V4 F :=
  let p1_in_xzwy := swz p1_in 1 3 2 0
  let p1_in_xwyz := swz p1_in 2 1 3 0
  let p1_out := mul_ps t.tmp p1_in
  let p1_out := add_ps p1_out (mul_ps t.tmp2 p1_in_xzwy)
  let p1_out := add_ps p1_out (mul_ps t.tmp3 p1_in_xwyz)
  p1_out

/-- x86_sandwich.hpp:377-386, one loop iteration of `swMM`, second output partition (`InputP2`). -/
@[kln] def swMM_p2 (t : SwMMRot F) (p2_in : V4 F) : V4 F :=
  let p2_out := mul_ps t.tmp p2_in
  let p2_out := add_ps p2_out (mul_ps t.tmp2 (swz p2_in 1 3 2 0))
  let p2_out := add_ps p2_out (mul_ps t.tmp3 (swz p2_in 2 1 3 0))
  p2_out

/-- x86_sandwich.hpp:390-396, one loop iteration of `swMM`: contribution of the translation added to
the current content `p2_out` of the second output partition (`Translate`). -/
@[kln] def swMM_p2t (t : SwMMTrans F) (p1_in p2_out : V4 F) : V4 F :=
  let p1_in_xzwy := swz p1_in 1 3 2 0
  let p1_in_xwyz := swz p1_in 2 1 3 0
  let p2_out := add_ps p2_out (mul_ps t.tmp4 p1_in)
  let p2_out := add_ps p2_out (mul_ps t.tmp5 p1_in_xwyz)
  let p2_out := add_ps p2_out (mul_ps t.tmp6 p1_in_xzwy)
  p2_out

/-- x86_sandwich.hpp:254-398 `swMM<false, false, false>`: rotor applied to a branch. -/
@[kln] def swMM_branch (b p1_in : V4 F) : V4 F := swMM_p1 (swMM_rot b) p1_in

/-- x86_sandwich.hpp:254-398 `swMM<_, Translate, true>`: one line conjugated by the rotor `b`
(`c = none`, `Translate = false`) or the motor `b, c`.  Both input partitions are read before
either output partition is written (see `Verif.Memory` for the in-place order). -/
@[kln] def swMM_line (b : V4 F) (c : Option (V4 F)) (p1_in p2_in : V4 F) : V4 F × V4 F :=
  match c with
  | none => (swMM_p1 (swMM_rot b) p1_in, swMM_p2 (swMM_rot b) p2_in)
  | some c => (swMM_p1 (swMM_rot b) p1_in,
      swMM_p2t (swMM_trans b c) p1_in (swMM_p2 (swMM_rot b) p2_in))

/-- The temporaries `tmp1, tmp2, tmp3` of `sw012` and `sw312`. -/
structure SwRot (F : Type) where
  tmp1 : V4 F
  tmp2 : V4 F
  tmp3 : V4 F

/-- x86_sandwich.hpp:443-469 `sw012`: rotor-only temporaries. -/
@[kln] def sw012_rot (b : V4 F) : SwRot F :=
  let dc_scale := set_ps 2 2 2 1
  let b_xwyz := swz b 2 1 3 0
  let b_xzwy := swz b 1 3 2 0
  let b_xxxx := swz b 0 0 0 0
  let tmp1 := mul_ps (swz b 0 0 0 2) (swz b 2 1 3 2)
  let tmp1 := add_ps tmp1 (mul_ps (swz b 1 3 2 1) (swz b 3 2 1 1))
  let tmp1 := mul_ps tmp1 dc_scale
  let tmp2 := mul_ps b b_xwyz
  let tmp2 := sub_ps tmp2 (xor_ps (mul_ps (swz b 0 0 0 3) (swz b 1 3 2 3)) flip_ss)
  let tmp2 := mul_ps tmp2 dc_scale
  let tmp3 := mul_ps b b
  let tmp3 := sub_ps tmp3 (mul_ps b_xwyz b_xwyz)
  let tmp3 := add_ps tmp3 (mul_ps b_xxxx b_xxxx)
  let tmp3 := sub_ps tmp3 (mul_ps b_xzwy b_xzwy)
  ⟨tmp1, tmp2, tmp3⟩

/-- x86_sandwich.hpp:482-490 `sw012`: `tmp4` (`Translate`). -/
@[kln] def sw012_trans (b c : V4 F) : V4 F :=
  let dc_scale := set_ps 2 2 2 1
  let b_xwyz := swz b 2 1 3 0
  let b_xzwy := swz b 1 3 2 0
  let b_xxxx := swz b 0 0 0 0
  let tmp4 := mul_ps b_xxxx c
  let tmp4 := add_ps tmp4 (mul_ps b_xzwy (swz c 2 1 3 0))
  let tmp4 := add_ps tmp4 (mul_ps b (swz c 0 0 0 0))
  let tmp4 := sub_ps tmp4 (mul_ps b_xwyz (swz c 1 3 2 0))
  let tmp4 := mul_ps tmp4 dc_scale
  tmp4

/-- x86_sandwich.hpp:500-503, one iteration of `sw012`. -/
@[kln] def sw012_p (t : SwRot F) (ai : V4 F) : V4 F :=
  let p := mul_ps t.tmp1 (swz ai 1 3 2 0)
  let p := add_ps p (mul_ps t.tmp2 (swz ai 2 1 3 0))
  let p := add_ps p (mul_ps t.tmp3 ai)
  p

/-- x86_sandwich.hpp:505-509, one iteration of `sw012`, `Translate` part added to the current
output `p`. -/
@[kln] def sw012_pt (isa : Isa) (tmp4 ai p : V4 F) : V4 F :=
  let tmp5 := hi_dp isa tmp4 ai
  let p := add_ps p tmp5
  p

/-- x86_sandwich.hpp:407-511 `sw012`, one plane, reading the input before writing the output;
`c = none` is `Translate = false`. -/
@[kln] def sw012 (isa : Isa) (b : V4 F) (c : Option (V4 F)) (a : V4 F) : V4 F :=
  match c with
  | none => sw012_p (sw012_rot b) a
  | some c => sw012_pt isa (sw012_trans b c) a (sw012_p (sw012_rot b) a)

/-- x86_sandwich.hpp:546-568 `sw312`: rotor-only temporaries. -/
@[kln] def sw312_rot (b : V4 F) : SwRot F :=
  let two := set_ps 2 2 2 0
  let b_xxxx := swz b 0 0 0 0
  let b_xwyz := swz b 2 1 3 0
  let b_xzwy := swz b 1 3 2 0
  let tmp1 := mul_ps b b_xwyz
  let tmp1 := sub_ps tmp1 (mul_ps b_xxxx b_xzwy)
  let tmp1 := mul_ps tmp1 two
  let tmp2 := mul_ps b_xxxx b_xwyz
  let tmp2 := add_ps tmp2 (mul_ps b_xzwy b)
  let tmp2 := mul_ps tmp2 two
  let tmp3 := mul_ps b b
  let b_tmp := swz b 0 0 0 1
  let tmp3 := add_ps tmp3 (mul_ps b_tmp b_tmp)
  let b_tmp := swz b 2 1 3 2
  let tmp4 := mul_ps b_tmp b_tmp
  let b_tmp := swz b 1 3 2 3
  let tmp4 := add_ps tmp4 (mul_ps b_tmp b_tmp)
  let tmp3 := sub_ps tmp3 (xor_ps tmp4 flip_ss)
  ⟨tmp1, tmp2, tmp3⟩

/-- x86_sandwich.hpp:573-580 `sw312`: `tmp4` (`Translate`). -/
@[kln] def sw312_trans (b c : V4 F) : V4 F :=
  let two := set_ps 2 2 2 0
  let b_xxxx := swz b 0 0 0 0
  let b_xwyz := swz b 2 1 3 0
  let b_xzwy := swz b 1 3 2 0
  let tmp4 := mul_ps b_xzwy (swz c 2 1 3 0)
  let tmp4 := sub_ps tmp4 (mul_ps b_xxxx c)
  let tmp4 := sub_ps tmp4 (mul_ps b_xwyz (swz c 1 3 2 0))
  let tmp4 := sub_ps tmp4 (mul_ps b (swz c 0 0 0 0))
  let tmp4 := mul_ps tmp4 two
  tmp4

/-- x86_sandwich.hpp:587-590, one iteration of `sw312`. -/
@[kln] def sw312_p (t : SwRot F) (ai : V4 F) : V4 F :=
  let p := mul_ps t.tmp1 (swz ai 2 1 3 0)
  let p := add_ps p (mul_ps t.tmp2 (swz ai 1 3 2 0))
  let p := add_ps p (mul_ps t.tmp3 ai)
  p

/-- x86_sandwich.hpp:592-596, one iteration of `sw312`, `Translate` part added to the current
output `p`. -/
@[kln] def sw312_pt (tmp4 ai p : V4 F) : V4 F :=
  let p := add_ps p (mul_ps tmp4 (swz ai 0 0 0 0))
  p

/-- x86_sandwich.hpp:514-598 `sw312`, one point, reading the input before writing the output;
`c = none` is `Translate = false`. -/
@[kln] def sw312 (b : V4 F) (c : Option (V4 F)) (a : V4 F) : V4 F :=
  match c with
  | none => sw312_p (sw312_rot b) a
  | some c => sw312_pt (sw312_trans b c) a (sw312_p (sw312_rot b) a)

/-- x86_sandwich.hpp:607-627 `swo12`: conjugate the origin with a (normalised) motor. -/
@[kln] def swo12 (b c : V4 F) : V4 F :=
  let tmp := mul_ps b (swz c 0 0 0 0)
  let tmp := add_ps tmp (mul_ps (swz b 0 0 0 0) c)
  let tmp := add_ps tmp (mul_ps (swz b 2 1 3 0) (swz c 1 3 2 0))
  let tmp := sub_ps (mul_ps (swz b 1 3 2 0) (swz c 2 1 3 0)) tmp
  let tmp := mul_ps tmp (set_ps 2 2 2 0)
  add_ps tmp (set_ss 1)

end Klein
