from cpp2lean import *
OUT='/verif/lean/Verif/Kernels/'
HEAD='''
set_option linter.unusedVariables false

namespace Klein

variable {F : Type}
'''
CL='[Add F] [Sub F] [Mul F] [Neg F] [Zero F] [One F] [NatCast F]'
def d(doc,sig,b,res=None,ind='  '):
    s=f"/-- {doc} -/\n@[kln] def {sig} :=\n{b}"
    if res: s+=ind+res+'\n'
    return s+'\n'
def file(name,imports,doc,parts,extra=''):
    o=open(OUT+name+'.lean','w')
    o.write(''.join(f'import {i}\n' for i in imports)+f'\n/-!\n{doc}\n-/\n'+HEAD+'variable '+CL+extra+'\n\n'+''.join(parts)+'end Klein\n')
# ---------------- x86_sse.hpp
f='x86_sse.hpp'
parts=[
 d("x86_sse.hpp:61-78 `hi_dp_ss`: `a1 b1 + a2 b2 + a3 b3` in lane 0, other lanes meaningless.","hi_dp_ss (a b : V4 F) : V4 F",body(f,63,77)),
 d("x86_sse.hpp:81-92 `rcp_nr1`: reciprocal estimate with one Newton-Raphson step.","rcp_nr1 (hw : Hw F) (a : V4 F) : V4 F",body(f,89,91)),
 d("x86_sse.hpp:95-111 `rsqrt_nr1`.","rsqrt_nr1 [Div F] (hw : Hw F) (a : V4 F) : V4 F",body(f,106,110)),
 d("x86_sse.hpp:114-117 `sqrt_nr1`.","sqrt_nr1 [Div F] (hw : Hw F) (a : V4 F) : V4 F",body(f,116,116)),
]
for nm,l1,l2,m1,m2,a,b in [("hi_dp",120,123,141,160,(122,122),(145,159)),("hi_dp_bc",125,128,162,177,(127,127),(165,176)),("dp",130,133,179,189,(132,132),(182,188)),("dp_bc",135,138,191,201,(137,137),(194,200))]:
    b1=body(f,*a,ind='    '); b2=body(f,*b,ind='    ')
    parts.append(d(f"x86_sse.hpp:{l1}-{l2} (SSE4.1) and {m1}-{m2} (SSE3) `{nm}`.",f"{nm} (isa : Isa) (a b : V4 F) : V4 F",f"  match isa with\n  | .sse41 =>\n{b1}  | .sse3 =>\n{b2}"))
file('Sse',['Verif.Simd'],'Helpers of `/repo/public/klein/detail/x86/x86_sse.hpp`, statement by statement.',parts)
# ---------------- inner product
f='x86_inner_product.hpp'
parts=[
 d("x86_inner_product.hpp:16-20 `dot00` (plane | plane).","dot00 (isa : Isa) (a b : V4 F) : V4 F",body(f,19,19),"p1_out"),
 d("x86_inner_product.hpp:23-50 `dot03` (plane | point).","dot03 (isa : Isa) (a b : V4 F) : V4 F × V4 F",body(f,35,49),"(p1_out, p2_out)"),
 d("x86_inner_product.hpp:52-55 `dot11` (line | line).","dot11 (a b : V4 F) : V4 F",body(f,54,54),"p1_out"),
 d("x86_inner_product.hpp:57-61 `dot33` (point | point).","dot33 (a b : V4 F) : V4 F",body(f,60,60),"p1_out"),
 d("x86_inner_product.hpp:64-79 `dotPTL` (point | line).","dotPTL (isa : Isa) (a b : V4 F) : V4 F",body(f,71,78).replace('let dp :=','let dp_ :=').replace('p0 dp','p0 dp_'),"p0"),
 d("x86_inner_product.hpp:82-93 `dotPIL<Flip>` (plane | ideal line; `Flip` swaps the operands).","dotPIL (flip : Bool) (isa : Isa) (a c : V4 F) : V4 F",
   "  match flip with\n  | true =>\n"+body(f,85,85,ind='    ')+"    p0\n  | false =>\n    let p0 := hi_dp isa a c\n"+body(f,92,92,ind='    ')+"    p0\n"),
 d("x86_inner_product.hpp:96-121 `dotPL<Flip>` (plane | line; `Flip` swaps the operands).","dotPL (flip : Bool) (a b c : V4 F) : V4 F",
   "  match flip with\n  | false =>\n"+body(f,104,106,ind='    ')+"    p0\n  | true =>\n"+body(f,118,120,ind='    ')+"    p0\n"),
]
file('InnerProduct',['Verif.Kernels.Sse'],'`/repo/public/klein/detail/x86/x86_inner_product.hpp`, statement by statement.',parts)
# ---------------- exterior product
f='x86_exterior_product.hpp'
parts=[
 d("x86_exterior_product.hpp:16-42 `ext00` (plane ^ plane).","ext00 (a b : V4 F) : V4 F × V4 F",body(f,29,38),"(p1_out, p2_out)"),
 d("x86_exterior_product.hpp:45-55 `extPB` (plane ^ branch).","extPB (isa : Isa) (a b : V4 F) : V4 F",body(f,51,54),"p3_out"),
 d("x86_exterior_product.hpp:58-71 `ext02` (plane ^ ideal line).","ext02 (a b : V4 F) : V4 F",body(f,64,70),"p3_out"),
 d("x86_exterior_product.hpp:73-86 `ext03<Flip>` (plane ^ point; `Flip` swaps the operands).","ext03 (flip : Bool) (isa : Isa) (a b : V4 F) : V4 F",
   "  match flip with\n  | false =>\n"+body(f,77,77,ind='    ')+"    p2\n  | true =>\n    let p2 := dp isa a b\n"+body(f,85,85,ind='    ')+"    p2\n"),
]
file('ExteriorProduct',['Verif.Kernels.Sse'],'`/repo/public/klein/detail/x86/x86_exterior_product.hpp`, statement by statement.',parts)
# ---------------- geometric product
f='x86_geometric_product.hpp'
parts=[
 d("x86_geometric_product.hpp:27-60 `gp00` (plane * plane).","gp00 (a b : V4 F) : V4 F × V4 F",body(f,42,59),"(p1_out, p2_out)"),
 d("x86_geometric_product.hpp:66-135 `gp03<Flip>` (plane * point; `Flip` swaps the operands).","gp03 (flip : Bool) (isa : Isa) (a b : V4 F) : V4 F × V4 F",
   "  match flip with\n  | true =>\n"+body(f,90,109,ind='    ')+"    (p1, p2)\n  | false =>\n"+body(f,118,134,ind='    ')+"    (p1, p2)\n"),
 d("x86_geometric_product.hpp:138-166 `gp11` (rotor * rotor).","gp11 (a b : V4 F) : V4 F",body(f,149,165),"p1_out"),
 d("x86_geometric_product.hpp:170-193 `gp33` (point * point, divided by its scalar part).","gp33 (hw : Hw F) (isa : Isa) (a b : V4 F) : V4 F",body(f,179,192),"p2"),
 d("x86_geometric_product.hpp:195-213 `gpDL` (dual * line).","gpDL (u v : F) (b c : V4 F) : V4 F × V4 F",body(f,208,212),"(p1, p2)"),
 d("x86_geometric_product.hpp:215-249 `gpRT<Flip>` (rotor * translator; `Flip` swaps the operands).","gpRT (flip : Bool) (a b : V4 F) : V4 F",
   "  match flip with\n  | true =>\n"+body(f,223,230,ind='    ')+"    p2\n  | false =>\n"+body(f,241,248,ind='    ')+"    p2\n"),
 d("x86_geometric_product.hpp:251-258 `gp12<Flip>` (rotor * p2; `Flip` swaps the operands).","gp12 (flip : Bool) (a b : V4 F) : V4 F","  let p2 := gpRT flip a b\n"+body(f,255,257),"p2"),
 d("x86_geometric_product.hpp:261-308 `gpLL` (line * line).  `a, d` are the two halves of the first\nline (read through `&l1` and `&l1 + 1`), `b, c` those of the second.","gpLL (a d b c : V4 F) : V4 F × V4 F","  let flip : SMask := flip_ss\n"+body(f,283,307,{'masks':{'flip'}}),"(p1, p2)"),
 d("x86_geometric_product.hpp:311-363 `gpMM` (motor * motor), halves `a, b` and `c, d`.","gpMM (a b c d : V4 F) : V4 F × V4 F",body(f,336,362),"(e, f)"),
]
file('GeometricProduct',['Verif.Kernels.Sse'],'`/repo/public/klein/detail/x86/x86_geometric_product.hpp`, statement by statement.',parts)
# ---------------- sandwich
f='x86_sandwich.hpp'
import re as _re
src=open(ROOT+f).read().split('\n')
def rng(a,b): return '\n'.join(src[a-1:b])
parts=[
 d("x86_sandwich.hpp:32-59 `sw00`: reflect plane `b` through plane `a`.","sw00 (a b : V4 F) : V4 F",body(f,39,58),"p0_out"),
 d("x86_sandwich.hpp:61-98 `sw10`: reflect the p1 part of a line through plane `a`.","sw10 (a b : V4 F) : V4 F × V4 F",body(f,72,97),"(p1, p2)"),
 d("x86_sandwich.hpp:100-122 `sw20`: reflect the p2 part of a line through plane `a`.","sw20 (a b : V4 F) : V4 F",body(f,107,121),"p2"),
 d("x86_sandwich.hpp:124-150 `sw30`: reflect point `b` through plane `a`.","sw30 (a b : V4 F) : V4 F",body(f,131,149),"p3_out"),
 d("x86_sandwich.hpp:158-190 `sw02`: apply a translator (`b`, lane 0 holding 1) to a plane.","sw02 (hw : Hw F) (isa : Isa) (a b : V4 F) : V4 F",body(f,163,189)),
 d("x86_sandwich.hpp:197-227 `swL2`: apply a translator `c` to the line `a, d`.","swL2 (a d c : V4 F) : V4 F × V4 F",body(f,212,226),"(p1_out, p2_out)"),
 d("x86_sandwich.hpp:234-245 `sw32`: apply a translator `b` to a point.","sw32 (a b : V4 F) : V4 F",body(f,240,244)),
]

MM=dict(ren={'p1_in':'p1_in'},skip={'[[maybe','__m128& p','__m128 const& p'})
def cz(x): return x.replace('-- ?? if constexpr (Translate) { __m128 czero  = KLN_SWIZZLE(*c, 0, 0, 0, 0)','let czero := swz c 0 0 0 0')
parts.append("""/-- The temporaries `tmp, tmp2, tmp3` of `swMM`, which depend on the rotor part `b` only. -/
structure SwMMRot (F : Type) where
  tmp : V4 F
  tmp2 : V4 F
  tmp3 : V4 F

/-- The temporaries `tmp4, tmp5, tmp6` of `swMM` (computed only when `Translate`). -/
structure SwMMTrans (F : Type) where
  tmp4 : V4 F
  tmp5 : V4 F
  tmp6 : V4 F

""")
parts.append(d("x86_sandwich.hpp:270-293 `swMM`: rotor-only temporaries.","swMM_rot (b : V4 F) : SwMMRot F",body(f,270,293),"⟨tmp, tmp2, tmp3⟩"))
parts.append(d("x86_sandwich.hpp:335-360 `swMM`: translation temporaries (`Translate`); the swizzles of `b`\nare those of lines 270-272 and 284-285.","swMM_trans (b c : V4 F) : SwMMTrans F",body(f,270,272)+body(f,284,285)+body(f,335,360),"⟨tmp4, tmp5, tmp6⟩"))
parts.append(d("x86_sandwich.hpp:367-375, one loop iteration of `swMM`, first output partition.","swMM_p1 (t : SwMMRot F) (p1_in : V4 F) : V4 F",body(f,368,369)+body(f,373,375,{'ren':{'tmp':'t.tmp','tmp2':'t.tmp2','tmp3':'t.tmp3'}}),"p1_out"))
parts.append(d("x86_sandwich.hpp:377-386, one loop iteration of `swMM`, second output partition (`InputP2`).","swMM_p2 (t : SwMMRot F) (p2_in : V4 F) : V4 F",body(f,381,385,{'ren':{'tmp':'t.tmp','tmp2':'t.tmp2','tmp3':'t.tmp3'}}),"p2_out"))
parts.append(d("x86_sandwich.hpp:390-396, one loop iteration of `swMM`: contribution of the translation added to\nthe current content `p2_out` of the second output partition (`Translate`).","swMM_p2t (t : SwMMTrans F) (p1_in p2_out : V4 F) : V4 F",body(f,368,369)+body(f,393,395,{'ren':{'tmp4':'t.tmp4','tmp5':'t.tmp5','tmp6':'t.tmp6'}}),"p2_out"))
parts.append("""/-- x86_sandwich.hpp:254-398 `swMM<false, false, false>`: rotor applied to a branch. -/
@[kln] def swMM_branch (b p1_in : V4 F) : V4 F := swMM_p1 (swMM_rot b) p1_in

/-- x86_sandwich.hpp:254-398 `swMM<_, Translate, true>`: one line conjugated by the rotor `b`
(`c = none`, `Translate = false`) or the motor `b, c`.  Both input partitions are read before
either output partition is written (see `Verif.Memory` for the in-place order). -/
@[kln] def swMM_line (b : V4 F) (c : Option (V4 F)) (p1_in p2_in : V4 F) : V4 F × V4 F :=
  match c with
  | none => (swMM_p1 (swMM_rot b) p1_in, swMM_p2 (swMM_rot b) p2_in)
  | some c => (swMM_p1 (swMM_rot b) p1_in,
      swMM_p2t (swMM_trans b c) p1_in (swMM_p2 (swMM_rot b) p2_in))

/-- The temporaries `tmp1, tmp2, tmp3` of `sw012` and `sw312`. -/
structure SwRot (F : Type) where
  tmp1 : V4 F
  tmp2 : V4 F
  tmp3 : V4 F

""")
R={'ren':{'tmp1':'t.tmp1','tmp2':'t.tmp2','tmp3':'t.tmp3'},'idx':lambda e,env:'ai'}
def Rr(): return {'ren':dict(R['ren']),'idx':R['idx']}
parts.append(d("x86_sandwich.hpp:443-469 `sw012`: rotor-only temporaries.","sw012_rot (b : V4 F) : SwRot F",body(f,443,469),"⟨tmp1, tmp2, tmp3⟩"))
parts.append(d("x86_sandwich.hpp:482-490 `sw012`: `tmp4` (`Translate`).","sw012_trans (b c : V4 F) : V4 F",body(f,443,446)+body(f,482,490),"tmp4"))
parts.append(d("x86_sandwich.hpp:500-503, one iteration of `sw012`.","sw012_p (t : SwRot F) (ai : V4 F) : V4 F",body(f,501,503,Rr()),"p"))
parts.append(d("x86_sandwich.hpp:505-509, one iteration of `sw012`, `Translate` part added to the current\noutput `p`.","sw012_pt (isa : Isa) (tmp4 ai p : V4 F) : V4 F",body(f,507,508,Rr()),"p"))
parts.append("""/-- x86_sandwich.hpp:407-511 `sw012`, one plane, reading the input before writing the output;
`c = none` is `Translate = false`. -/
@[kln] def sw012 (isa : Isa) (b : V4 F) (c : Option (V4 F)) (a : V4 F) : V4 F :=
  match c with
  | none => sw012_p (sw012_rot b) a
  | some c => sw012_pt isa (sw012_trans b c) a (sw012_p (sw012_rot b) a)

""")
parts.append(d("x86_sandwich.hpp:546-568 `sw312`: rotor-only temporaries.","sw312_rot (b : V4 F) : SwRot F",body(f,546,568),"⟨tmp1, tmp2, tmp3⟩"))
parts.append(d("x86_sandwich.hpp:573-580 `sw312`: `tmp4` (`Translate`).","sw312_trans (b c : V4 F) : V4 F",body(f,546,549)+body(f,573,580),"tmp4"))
parts.append(d("x86_sandwich.hpp:587-590, one iteration of `sw312`.","sw312_p (t : SwRot F) (ai : V4 F) : V4 F",body(f,588,590,Rr()),"p"))
parts.append(d("x86_sandwich.hpp:592-596, one iteration of `sw312`, `Translate` part added to the current\noutput `p`.","sw312_pt (tmp4 ai p : V4 F) : V4 F",body(f,594,595,Rr()),"p"))
parts.append("""/-- x86_sandwich.hpp:514-598 `sw312`, one point, reading the input before writing the output;
`c = none` is `Translate = false`. -/
@[kln] def sw312 (b : V4 F) (c : Option (V4 F)) (a : V4 F) : V4 F :=
  match c with
  | none => sw312_p (sw312_rot b) a
  | some c => sw312_pt (sw312_trans b c) a (sw312_p (sw312_rot b) a)

""")
parts.append(d("x86_sandwich.hpp:607-627 `swo12`: conjugate the origin with a (normalised) motor.","swo12 (b c : V4 F) : V4 F",body(f,614,626)))
file('Sandwich',['Verif.Kernels.Sse'],"""`/repo/public/klein/detail/x86/x86_sandwich.hpp`, statement by statement.

The loops of `swMM`, `sw012`, `sw312` are split into the part before the loop (temporaries) and
the statements of one iteration; `Verif.Memory` re-assembles the loops over memory.""",parts)
# ---------------- matrix
f='x86_matrix.hpp'
B={'ren':{}}
parts=["""/-- Four columns of a column-major 4x4 matrix (mat4x4.hpp:20, `__m128 cols[4]`). -/
@[ext] structure Mat4 (F : Type) where
  c0 : V4 F
  c1 : V4 F
  c2 : V4 F
  c3 : V4 F

"""]
BUF="""  let buf := mul_ps b b
  let b0_2 := buf.l0
  let b1_2 := buf.l1
  let b2_2 := buf.l2
  let b3_2 := buf.l3
"""
parts.append(d("x86_matrix.hpp:67-73, first column.","mat_c0 (b : V4 F) : V4 F",BUF+body(f,68,73),"c0"))
parts.append(d("x86_matrix.hpp:81-86, second column.","mat_c1 (b : V4 F) : V4 F",BUF+body(f,82,86),"c1"))
parts.append(d("x86_matrix.hpp:94-100, third column.","mat_c2 (b : V4 F) : V4 F",BUF+body(f,95,100),"c2"))
parts.append(d("x86_matrix.hpp:109-120 (`Translate`), fourth column before the `w` fix-up.","mat_c3t (b c : V4 F) : V4 F",body(f,111,119),"c3"))
parts.append(d("x86_matrix.hpp:121-128 (`Normalized`).","mat_c3n (isa : Isa) (c3 : V4 F) : V4 F",body(f,123,127),"c3"))
parts.append(d("x86_matrix.hpp:129-137 (not `Normalized`).","mat_c3u (isa : Isa) (b c3 : V4 F) : V4 F",BUF+body(f,131,136),"c3"))
parts.append("""/-- x86_matrix.hpp:24-138 `mat4x4_12<Translate, Normalized>`.  `c = none` is `Translate = false`.
`c3_init` is the content of `out[3]` on entry: with `Translate = false` the code reads it without
having written it (lines 121-137), and every caller passes an uninitialised matrix. -/
@[kln] def mat4x4_12 (isa : Isa) (normalized : Bool) (b : V4 F) (c : Option (V4 F))
    (c3_init : V4 F) : Mat4 F :=
  let c3 := match c with
    | some c => mat_c3t b c
    | none => c3_init
  let c3 := match normalized with
    | true => mat_c3n isa c3
    | false => mat_c3u isa b c3
  ⟨mat_c0 b, mat_c1 b, mat_c2 b, c3⟩

""")
file('Matrix',['Verif.Kernels.Sse'],'`/repo/public/klein/detail/x86/x86_matrix.hpp`, statement by statement.',parts)
