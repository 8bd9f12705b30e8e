"""Translate straight-line SSE intrinsic code (a line range of a Klein header) to Lean `let`s.
Used once to write lean/Verif/Kernels/*.lean; the generated Lean is what is committed and checked."""
import re
ROOT='/repo/public/klein/detail/x86/'
def toks(s):
    return re.findall(r'0x[0-9a-f]+|0b[01]+|\d+\.\d*f?|\d+\.f|\d+|[A-Za-z_][A-Za-z_0-9:]*|[-+*/&(),\[\]<>.]|==|!=', s)
class P:
    def __init__(s,t,env): s.t=t; s.i=0; s.env=env
    def pk(s): return s.t[s.i] if s.i<len(s.t) else None
    def nx(s): s.i+=1; return s.t[s.i-1]
    def expr(s):
        a=s.term()
        while s.pk() in ('+','-'):
            o=s.nx(); b=s.term(); a=('bin',o,a,b)
        return a
    def term(s):
        a=s.unary()
        while s.pk() in ('*','/'):
            o=s.nx(); b=s.unary(); a=('bin',o,a,b)
        return a
    def unary(s):
        k=s.pk()
        if k=='-': s.nx(); return ('neg',s.unary())
        if k=='*': s.nx(); return ('deref',s.unary())
        if k=='&': s.nx(); return ('addr',s.unary())
        return s.post()
    def post(s):
        k=s.nx()
        if k=='(':
            e=s.expr(); assert s.nx()==')'; return e
        if re.match(r'\d',k): return ('num',k)
        e=('id',k)
        if s.pk()=='<' and k in ('gpRT','ext03','dotPIL','sw312'):
            s.nx(); a=s.nx(); assert s.nx()=='>'; e=('id',k+'<'+a+'>')
        while True:
            if s.pk()=='(':
                s.nx(); a=[]
                while s.pk()!=')':
                    a.append(s.expr())
                    if s.pk()==',': s.nx()
                s.nx(); e=('call',e[1],a)
            elif s.pk()=='[':
                s.nx(); j=s.expr(); assert s.nx()==']'; e=('idx',e,j)
            else: return e
def isneg0(e): return e==('neg',('num','0.f'))
def num(k):
    k=k.rstrip('f')
    if k.endswith('.'): k=k[:-1]
    if k in('0.5',): return '(1 / 2)'
    return k
def ismask(e,env):
    if e[0]=='id': return e[1] in env['masks']
    return e[0]=='call' and e[1] in('_mm_set_ss','_mm_set_ps','_mm_set1_ps') and any(isneg0(a) for a in e[2])
def mask(e,env):
    if e[0]=='id': return e[1]
    b=lambda a:'true' if isneg0(a) else 'false'
    if e[1]=='_mm_set_ss': return 'flip_ss' 
    if e[1]=='_mm_set1_ps': return '⟨true, true, true, true⟩'
    return '⟨'+', '.join(b(a) for a in reversed(e[2]))+'⟩'
def em(e,env,top=False):
    r=em0(e,env)
    if top or ' ' not in r or r.startswith('⟨'): return r
    if r.startswith('(') and r.endswith(')'):
        d=0
        for i,c in enumerate(r):
            d+= c=='('; d-= c==')'
            if d==0 and i<len(r)-1: break
        else: return r
    return '('+r+')'
def bits(k,n):
    v=int(k,0)
    return ' '.join('true' if v>>i&1 else 'false' for i in reversed(range(n)))
def em0(e,env):
    t=e[0]
    if t=='id': return env['ren'].get(e[1],e[1])
    if t=='num': return num(e[1])
    if t=='neg':
        return '(-'+em(e[1],env)+')'
    if t=='deref': return em(e[1],env)
    if t=='addr': return em(e[1],env)
    if t=='idx': return env['idx'](e,env)
    if t=='bin': return f"{em(e[2],env)} {e[1]} {em(e[3],env)}"
    if t=='call':
        f,a=e[1],e[2]
        f=f.replace('detail::','')
        if f=='_mm_xor_ps':
            x,y=a
            if ismask(x,env): x,y=y,x
            assert ismask(y,env),e
            return f"xor_ps {em(x,env)} {mask(y,env)}"
        if f=='_mm_and_ps':
            x,y=a
            assert y[1]=='_mm_castsi128_ps',e
            m=y[2][0][2]
            return f"and_ps {em(x,env)} ⟨"+', '.join('false' if q==('num','0') else 'true' for q in reversed(m))+"⟩"
        if f=='_mm_blend_ps': return f"blend_ps {em(a[0],env)} {em(a[1],env)} {bits(a[2][1],4)}"
        if f=='_mm_dp_ps': return f"dp_ps {em(a[0],env)} {em(a[1],env)} {bits(a[2][1],8)}"
        if f=='KLN_SWIZZLE': return f"swz {em(a[0],env)} "+' '.join(x[1] for x in a[1:])
        if f in('_mm_rcp_ps','_mm_rsqrt_ps'): return f"{f[4:]} hw {em(a[0],env)}"
        if f in('rcp_nr1','rsqrt_nr1','sqrt_nr1'): return f"{f} hw {em(a[0],env)}"
        if f in('hi_dp','hi_dp_bc','dp','dp_bc'): return f"{f} isa "+' '.join(em(x,env) for x in a)
        if f.startswith('_mm_'): return f[4:]+''.join(' '+em(x,env) for x in a)
        return f+''.join(' '+em(x,env) for x in a)
    raise Exception(e)
def strip(src):
    src=re.sub(r'//.*','',src)
    return src
def stmts(lines):
    """yield ('assign',name,expr) or ('ifdef',then,else)"""
    out=[]; buf=''; stack=[]
    cur=out
    for l in lines:
        l=re.sub(r'//.*','',l)
        if re.match(r'\s*#\s*ifdef\s+KLEIN_SSE_4_1',l):
            node=['ifdef',[],[]]; cur.append(node); stack.append((cur,node)); cur=node[1]; continue
        if re.match(r'\s*#\s*else',l): cur=stack[-1][1][2]; continue
        if re.match(r'\s*#\s*endif',l): cur=stack.pop()[0]; continue
        buf+=' '+l.strip()
        while ';' in buf:
            s,buf=buf.split(';',1)
            s=s.strip().strip('{}').strip()
            if s: cur.append(s)
    return out
def asg(s,env):
    m=re.match(r'^(?:\[\[maybe_unused\]\]\s*)?(?:__m128|float|bool)?\s*(?:const)?\s*&?\s*\*?([A-Za-z_][A-Za-z_0-9]*)\s*(=)\s*(.*)$',s)
    if not m: return None
    name,_,ex=m.groups()
    p=P(toks(ex),env); e=p.expr()
    assert p.i==len(p.t),(s,p.t[p.i:])
    return name,e
def tr(lines,env=None,ind='  '):
    env=env or {}
    env.setdefault('masks',set()); env.setdefault('ren',{}); env.setdefault('idx',lambda e,env: em(e[1],env)); env.setdefault('skip',set())
    out=[]
    for s in stmts(lines):
        if isinstance(s,list):
            a=[asg(x,env) for x in s[1]]; b=[asg(x,env) for x in s[2]]
            assert len(a)==1 and len(b)==1 and a[0][0]==b[0][0],s
            n=env['ren'].get(a[0][0],a[0][0])
            out.append(f"let {n} := match isa with\n{ind}  | .sse41 => {em(a[0][1],env,True)}\n{ind}  | .sse3 => {em(b[0][1],env,True)}")
            continue
        if any(s.startswith(k) for k in env['skip']) : continue
        if s.startswith('return '):
            p=P(toks(s[7:]),env); e=p.expr(); assert p.i==len(p.t)
            out.append(em(e,env,True)); continue
        r=asg(s,env)
        if r is None:
            out.append('-- ?? '+s); continue
        n,e=r
        if ismask(e,env) and e[0]!='id':
            env['masks'].add(n)
            out.append(f"let {n} : SMask := {mask(e,env)}"); continue
        n=env['ren'].get(n,n)
        out.append(f"let {n} := {em(e,env,True)}")
    return ''.join(ind+x+'\n' for x in out)
def body(file,a,b,env=None,ind='  '):
    L=open(ROOT+file).read().split('\n')[a-1:b]
    return tr(L,env,ind)
if __name__=='__main__':
    import sys
    print(body(sys.argv[1],int(sys.argv[2]),int(sys.argv[3])))
