# generate explicit Clifford product formulas
names=["s","e0","e1","e01","e2","e02","e12","e012","e3","e03","e13","e013","e23","e023","e123","e0123"]
def sgn(i,j):
    if i&j&1: return 0
    s=0
    for a in range(4):
        for b in range(4):
            if i>>a&1 and j>>b&1 and a>b: s+=1
    return -1 if s&1 else 1
def mulf():
    out=[]
    for k in range(16):
        t=[]
        for i in range(16):
            j=i^k
            g=sgn(i,j)
            if g: t.append((g,i,j))
        st=""
        for n,(g,i,j) in enumerate(t):
            st+= ((" + " if g>0 else " - ") if n else ("" if g>0 else "-"))+f"a.{names[i]} * b.{names[j]}"
        out.append(st)
    return out
if __name__=="__main__":
    for k,s in enumerate(mulf()): print("    "+names[k]+" := "+s)
    N=names
    g=[bin(i).count('1') for i in range(16)]
    o=open('/verif/lean/Verif/Spec/PGA.lean','w')
    w=lambda s: o.write(s+"\n")
    w('''import Mathlib.Tactic.Ring
import Mathlib.Algebra.Algebra.Defs
import Verif.Attr

/-!
# Specification: the projective geometric algebra Cl(3,0,1)

A multivector has 16 coefficients, one per ascending product of the generators
`e0, e1, e2, e3` with `e0² = 0`, `e1² = e2² = e3² = 1`.  The product formulas are validated in
`Verif/Spec/Clifford.lean`, where this algebra is shown to be isomorphic to Mathlib's
`CliffordAlgebra` of the quadratic form `diag(0, 1, 1, 1)`.  Nothing here refers to the model.
-/

set_option linter.unusedSimpArgs false

namespace PGA

/-- Multivectors of Cl(3,0,1); the field `e013` is the coefficient of `e0 * e1 * e3`, etc. -/
@[ext] structure MV (K : Type*) where''')
    for n in N: w(f"  {n} : K")
    w('''  deriving DecidableEq, Repr

namespace MV

variable {K : Type*}

section Ring
variable [CommRing K]
''')
    def inst(cls, op, args, f):
        w(f"instance : {cls} (MV K) := ⟨{('fun '+args+' => ') if args else ''}\n  {{ "+"\n    ".join(f"{N[i]} := {f(N[i])}" for i in range(16))+" }⟩\n")
    inst("Zero","","",lambda n:"0")
    inst("One","","",lambda n:"1" if n=="s" else "0")
    inst("Add","","a b",lambda n:f"a.{n} + b.{n}")
    inst("Neg","","a",lambda n:f"-a.{n}")
    inst("Sub","","a b",lambda n:f"a.{n} - b.{n}")
    inst("SMul K","","r a",lambda n:f"r * a.{n}")
    m=mulf()
    w("/-- The geometric product. -/")
    inst("Mul","","a b",lambda n:m[N.index(n)])
    for i in range(16):
        n=N[i]
        w(f"@[simp, pga] theorem zero_{n} : (0 : MV K).{n} = 0 := rfl")
        w(f"@[simp, pga] theorem one_{n} : (1 : MV K).{n} = {'1' if i==0 else '0'} := rfl")
        w(f"@[simp, pga] theorem add_{n} (a b : MV K) : (a + b).{n} = a.{n} + b.{n} := rfl")
        w(f"@[simp, pga] theorem neg_{n} (a : MV K) : (-a).{n} = -a.{n} := rfl")
        w(f"@[simp, pga] theorem sub_{n} (a b : MV K) : (a - b).{n} = a.{n} - b.{n} := rfl")
        w(f"@[simp, pga] theorem smul_{n} (r : K) (a : MV K) : (r • a).{n} = r * a.{n} := rfl")
        w(f"@[simp, pga] theorem mul_{n} (a b : MV K) : (a * b).{n} =\n    {m[i]} := rfl")
    w('''
theorem mul_assoc' (a b c : MV K) : a * b * c = a * (b * c) := by
  apply MV.ext <;> simp only [pga] <;> ring

instance : Ring (MV K) where
  add_assoc a b c := by ext <;> simp [add_assoc]
  zero_add a := by ext <;> simp
  add_zero a := by ext <;> simp
  add_comm a b := by ext <;> simp [add_comm]
  neg_add_cancel a := by ext <;> simp
  sub_eq_add_neg a b := by ext <;> simp [sub_eq_add_neg]
  mul_assoc := mul_assoc'
  one_mul a := by ext <;> simp
  mul_one a := by ext <;> simp
  zero_mul a := by ext <;> simp
  mul_zero a := by ext <;> simp
  left_distrib a b c := by ext <;> simp only [pga] <;> ring
  right_distrib a b c := by ext <;> simp only [pga] <;> ring
  nsmul := nsmulRec
  zsmul := zsmulRec

/-- Scalars as multivectors. -/
def ofK : K →+* MV K where
  toFun r := ⟨r, 0, 0, 0, 0, 0, 0, 0, 0, 0, 0, 0, 0, 0, 0, 0⟩
  map_one' := rfl
  map_zero' := rfl
  map_add' a b := by ext <;> simp
  map_mul' a b := by ext <;> simp

instance : Algebra K (MV K) where
  algebraMap := ofK
  commutes' r a := by ext <;> simp [ofK, mul_comm]
  smul_def' r a := by ext <;> simp [ofK]
''')
    def bas(n): 
        return "⟨"+", ".join("1" if x==n else "0" for x in N)+"⟩"
    for n in ["e0","e1","e2","e3"]:
        w(f"/-- The generator `{n}`. -/\ndef g{n[1]} : MV K := {bas(n)}")
    w('''
/-- Grade projection. -/
def grade (k : ℕ) (a : MV K) : MV K :=
  { '''+"\n    ".join(f"{N[i]} := if k = {g[i]} then a.{N[i]} else 0" for i in range(16))+''' }
''')
    w('''/-- Reversion: reverses the order of the factors of every product, i.e. the sign
`(-1)^(k(k-1)/2)` on grade `k`. -/
def rev (a : MV K) : MV K :=
  grade 0 a + grade 1 a - grade 2 a - grade 3 a + grade 4 a

/-- Exterior product: the grade `r + s` part of the product of grade `r` and grade `s` parts. -/
def wedge (a b : MV K) : MV K :=
  ([0, 1, 2, 3, 4] : List ℕ).foldl (fun acc r => ([0, 1, 2, 3, 4] : List ℕ).foldl
    (fun acc s => acc + grade (r + s) (grade r a * grade s b)) acc) 0

/-- Symmetric inner product: the grade `|r - s|` part of the product of grade `r` and grade `s`
parts, with scalars contributing nothing (docs/geometry-potpourri.md). -/
def inner (a b : MV K) : MV K :=
  ([1, 2, 3, 4] : List ℕ).foldl (fun acc r => ([1, 2, 3, 4] : List ℕ).foldl
    (fun acc s => acc + grade (max r s - min r s) (grade r a * grade s b)) acc) 0

''')
    # J: 1<->e0123, e0<->e123, e1<->e032=-e023, e2<->e013, e3<->e021=-e012, e01<->e23, e02<->e31=-e13, e03<->e12
    J={"s":"a.e0123","e0123":"a.s","e0":"a.e123","e123":"a.e0","e023":"-a.e1","e1":"-a.e023","e013":"a.e2","e2":"a.e013","e012":"-a.e3","e3":"-a.e012","e23":"a.e01","e01":"a.e23","e13":"-a.e02","e02":"-a.e13","e12":"a.e03","e03":"a.e12"}
    w("/-- The Poincaré duality map `J` of docs/geometry-potpourri.md:\n`J(1) = e0123, J(e0) = e123, J(e1) = e032, J(e2) = e013, J(e3) = e021, J(e01) = e23,\nJ(e02) = e31, J(e03) = e12` and conversely (recall `e032 = -e023`, `e31 = -e13`, `e021 = -e012`). -/\ndef J (a : MV K) : MV K :=\n  { "+"\n    ".join(f"{n} := {J[n]}" for n in N)+" }\n")
    w('''/-- Regressive product `a ∨ b = J(J(a) ∧ J(b))`. -/
def vee (a b : MV K) : MV K := J (wedge (J a) (J b))
''')
    for i in range(16):
        n=N[i]
        s="-" if g[i] in (2,3) else ""
        w(f"@[simp, pga] theorem rev_{n} (a : MV K) : (rev a).{n} = {s}a.{n} := by simp [rev, grade]")
    for i in range(16):
        w(f"@[simp, pga] theorem J_{N[i]} (a : MV K) : (J a).{N[i]} = {J[N[i]]} := rfl")
    def terms(k,cond):
        st=""
        t=[]
        for i in range(16):
            j=i^k
            sg=sgn(i,j)
            if sg and cond(i,j,k): t.append((sg,i,j))
        for n,(sg,i,j) in enumerate(t):
            st+= ((" + " if sg>0 else " - ") if n else ("" if sg>0 else "-"))+f"a.{names[i]} * b.{names[j]}"
        return st or "0"
    gl=[]
    for k in range(9):
        for i in range(16):
            nm=f"grade{k}_{N[i]}"
            gl.append(nm)
            if k==g[i]: w(f"theorem {nm} (a : MV K) : (grade {k} a).{N[i]} = a.{N[i]} := rfl")
            else: w(f"theorem {nm} (a : MV K) : (grade {k} a).{N[i]} = 0 := rfl")
    w("theorem wedge_eq (a b : MV K) : wedge a b = 0 + "+" + ".join(f"grade {r+t} (grade {r} a * grade {t} b)" for r in range(5) for t in range(5))+" := rfl")
    w("theorem inner_eq (a b : MV K) : inner a b = 0 + "+" + ".join(f"grade {abs(r-t)} (grade {r} a * grade {t} b)" for r in range(1,5) for t in range(1,5))+" := rfl")
    com="zero_mul, mul_zero, add_zero, zero_add, sub_zero, zero_sub, neg_zero"
    def used(i,R):
        return None
    for i in range(16):
        w(f"theorem wedge_{N[i]} (a b : MV K) : (wedge a b).{N[i]} =\n    {terms(i,lambda x,y,k:g[k]==g[x]+g[y])} := by\n  simp only [wedge_eq, zero_{N[i]}, add_{N[i]}, "+", ".join(f"grade{k}_{N[i]}" for k in range(9))+f"]\n  simp only [mul_{N[i]}, "+", ".join(f"grade{k}_{n}" for k in range(5) for n in N)+", "+com+"]\n  try ring")
    for i in range(16):
        w(f"theorem inner_{N[i]} (a b : MV K) : (inner a b).{N[i]} =\n    {terms(i,lambda x,y,k:g[k]==abs(g[x]-g[y]) and x and y)} := by\n  simp only [inner_eq, zero_{N[i]}, add_{N[i]}, "+", ".join(f"grade{k}_{N[i]}" for k in range(4))+f"]\n  simp only [mul_{N[i]}, "+", ".join(f"grade{k}_{n}" for k in range(5) for n in N)+", "+com+"]\n  try ring")
    w('''
attribute [simp, pga] '''+" ".join(f"wedge_{n} inner_{n}" for n in N)+'''

theorem rev_mul (a b : MV K) : rev (a * b) = rev b * rev a := by
  apply MV.ext <;> simp only [pga] <;> ring

@[simp, pga] theorem rev_rev (a : MV K) : rev (rev a) = a := by ext <;> simp
@[simp, pga] theorem J_J (a : MV K) : J (J a) = a := by ext <;> simp
theorem rev_add (a b : MV K) : rev (a + b) = rev a + rev b := by ext <;> simp <;> ring
theorem rev_one : rev (1 : MV K) = 1 := by ext <;> simp
theorem rev_neg (a : MV K) : rev (-a) = -rev a := by ext <;> simp
theorem rev_smul (r : K) (a : MV K) : rev (r • a) = r • rev a := by ext <;> simp

/-- The defining relations of the algebra. -/
theorem g0_sq : (g0 : MV K) * g0 = 0 := by ext <;> simp [g0]
theorem g1_sq : (g1 : MV K) * g1 = 1 := by ext <;> simp [g1]
theorem g2_sq : (g2 : MV K) * g2 = 1 := by ext <;> simp [g2]
theorem g3_sq : (g3 : MV K) * g3 = 1 := by ext <;> simp [g3]
''')
    for i in range(4):
        for j in range(i+1,4):
            w(f"theorem g{i}_g{j} : (g{i} : MV K) * g{j} = -(g{j} * g{i}) := by ext <;> simp [g{i}, g{j}]")
    w('''
end Ring
end MV
end PGA''')
