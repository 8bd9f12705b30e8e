"""Translate the C++11 specialisations (x86_sandwich_cxx11.inl, x86_matrix_cxx11.inl) to Lean.
The straight-line part before the first access through `in`/`a` becomes pure `let`s; the remaining
statements become memory actions, one per C++ statement, in order."""
import re
from cpp2lean import *
F='x86_sandwich_cxx11.inl'
L=open(ROOT+F).read().split('\n')
# (name, template args, first, last) line numbers of the specialisation
specs=[]
i=0
while i<len(L):
    if L[i].strip()=='template <>':
        j=i
        while L[j]!='}': j+=1
        head=' '.join(L[i:j])
        m=re.search(r'(swMM|sw012|sw312)<([a-z, ]+)>',head)
        specs.append((m.group(1),[x.strip()=='true' for x in m.group(2).split(',')],i+1,j+1))
        i=j
    i+=1
def memtr(lines,refs,outs,ind):
    """statements -> actions. refs: input reference name -> address, outs: output ref -> address"""
    ren={}
    for k,a in refs.items(): ren[k]=f'(← rd ({a}))'
    for k,a in outs.items(): ren[k]=f'(← ld ({a}))'
    env={'masks':set(),'ren':ren,'idx':lambda e,env:'(← rd (a + i))','skip':set()}
    res=[]
    for s in stmts(lines):
        if re.match(r'__m128 const& ',s) or (re.match(r'__m128& ',s)): continue
        n,e=asg(s,env)
        if n in outs: res.append(f'wr ({outs[n]}) ({em(e,env,True)})')
        else: res.append(f'let {n} := {em(e,env,True)}')
    return ''.join(ind+x+'\n' for x in res)
out=[]
for nm,targs,a,b in specs:
    body_start=next(k for k in range(a-1,b) if L[k]=='{')+1
    loop=[k for k in range(body_start,b) if re.match(r'\s*for \(',L[k])]
    first=next(k for k in range(body_start,b) if re.search(r'\bin\[|\ba\[i\]|__m128& p\b|\*a\b',L[k]))
    pre_end=(loop[0] if loop else first)
    # the line before the first memory statement may be a comment
    pre=L[body_start:pre_end]
    rest=L[pre_end:b-1]
    translate=targs[1]
    variadic=targs[0]
    suffix='_'.join('t' if t else 'f' for t in targs)
    lname=f'{nm}_cxx11_{suffix}'
    t11='<'+', '.join('true' if t else 'false' for t in targs)+'>'
    o=f"/-- x86_sandwich_cxx11.inl:{a}-{b} `{nm}{t11}`. -/\n"
    isa='(isa : Isa) ' if nm=='sw012' else ''
    bsig = '(b : ℕ)' if nm=='swMM' else '(bv : V4 F)'
    o+=f"def {lname} {isa}(a : ℕ) {bsig} (c out : ℕ) (count : ℕ) : M F Unit := do\n"
    if nm=='swMM': o+="  let bv ← rd b\n"
    if translate: o+="  let cv ← rd c\n"
    o+=tr(pre,{'ren':{'b':'bv','c':'cv'}})
    txt='\n'.join(rest)
    if variadic:
        k=txt.index('{'); inner=txt[k+1:txt.rindex('}')].split('\n')
        o+="  loop (fun i => do\n"
        ind='    '
    else:
        inner=txt.split('\n'); ind='  '
    idx='i' if variadic else '0'
    refs={};outs={}
    for l in inner:
        m=re.match(r'\s*__m128 const& (\w+)\s*= in\[(.*)\];',l)
        if m: refs[m.group(1)]='a + '+m.group(2) if m.group(2)!='0' else 'a'
        m=re.match(r'\s*__m128& (\w+)\s*= out\[(.*)\];',l)
        if m: outs[m.group(1)]='out + '+m.group(2) if m.group(2)!='0' else 'out'
        m=re.match(r'\s*__m128& (\w+)\s*= \*out;',l)
        if m: outs[m.group(1)]='out'
    if not variadic and nm!='swMM': refs['a']='a'
    refs={k:v.replace('2 * i + 1','(2 * i + 1)').replace('2 * i)','2 * i)') for k,v in refs.items()}
    outs={k:v.replace('2 * i + 1','(2 * i + 1)') for k,v in outs.items()}
    o+=memtr(inner,refs,outs,ind)
    if variadic: o=o.rstrip('\n')+") count\n"
    out.append((lname,o))
mat=[]
FM='x86_matrix_cxx11.inl'
LM=open(ROOT+FM).read().split('\n')
for tr_,no,a,b in [(True,True,8,57),(True,False,59,109),(False,True,111,152),(False,False,154,196)]:
    suf=('t' if tr_ else 'f')+'_'+('t' if no else 'f')
    start=next(k for k in range(a-1,b) if LM[k]=='{')+1
    body_=[l for l in LM[start:b-1]]
    body_=[re.sub(r'__m128& (c\d) = out\[\d\];','',l) for l in body_]
    body_=[l for l in body_ if 'float buf[4]' not in l]
    body_=[re.sub(r'_mm_storeu_ps\(buf, (.*)\);',r'__m128 buf = \1;',l) for l in body_]
    env={'idx':lambda e,env:'buf.l'+e[2][1],'ren':{}}
    t=tr(body_,env)
    cc='(c : V4 F) ' if tr_ else ''
    ini='' if tr_ else '  let c3 := c3_init\n'
    mat.append((f'mat4x4_12_cxx11_{suf}',f"/-- x86_matrix_cxx11.inl:{a}-{b} `mat4x4_12<{'true' if tr_ else 'false'}, {'true' if no else 'false'}>`; `c3_init` is the content\nof `out[3]` on entry. -/\n@[kln] def mat4x4_12_cxx11_{suf} (isa : Isa) (b : V4 F) {cc}(c3_init : V4 F) : Mat4 F :=\n{ini}{t}  ⟨c0, c1, c2, c3⟩\n"))
o=open('/verif/lean/Verif/Memory/Cxx11.lean','w')
o.write('''import Verif.Memory.Arrays
import Verif.Kernels.Matrix

/-!
The template specialisations used before C++17: `/repo/public/klein/detail/x86/x86_sandwich_cxx11.inl`
and `x86_matrix_cxx11.inl`, statement by statement (written by tools/gen_cxx11.py).

Addresses and memory actions are those of `Verif.Memory.Basic`.  `*c` (and `b`, which `swMM` takes
by reference) are read once on entry instead of at each use: no statement before the loop writes
memory, and the statements of the loop do not mention them.
-/

set_option linter.unusedVariables false

namespace Klein

open Mem

variable {F : Type}
variable [Add F] [Sub F] [Mul F] [Neg F] [Zero F] [One F] [NatCast F]

'''+'\n'.join(x for _,x in out)+'\n'+'\n'.join(x for _,x in mat)+'\nend Klein\n')
o.close()
