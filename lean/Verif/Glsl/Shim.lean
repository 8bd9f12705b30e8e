import Verif.Glsl.Klein

/-!
# `/repo/test/glsl_shim.hpp`: shader code compiled as C++

The tests of klein.glsl do not run on a GPU: test/test_glsl.cpp includes test/glsl_shim.hpp, which defines a
C++ class `vec4`, and then the shader source itself.  This file has the statements that occur in shader code
(`St`), their meaning in GLSL (`gRun`) and their meaning in C++ with the shim (`cRun`), and the functions of
klein.glsl as programs.

In C++ the components and swizzles are members of a union over `data[4]`, and compound assignments are loops
over `data` in place, so the right hand side may be the object being assigned.  Parameters are passed by
value (`#define in`), so distinct variables are distinct objects.
-/

namespace Klein.Glsl

/-- The constants that occur. -/
inductive Lit
  | zero | one | two | negOne

/-- Expressions of type `vec4` over numbered variables. -/
inductive Ex
  /-- A variable. -/
  | var (v : ℕ)
  /-- `v.abcd`. -/
  | swz (v : ℕ) (a b c d : Fin 4)
  /-- `vec4(a, b, c, d)`. -/
  | lit (a b c d : Lit)
  | mul (e f : Ex)
  | add (e f : Ex)
  | sub (e f : Ex)
  /-- `v.k * e`. -/
  | scl (v : ℕ) (k : Fin 4) (e : Ex)
  /-- `e * v.k`. -/
  | mulS (e : Ex) (v : ℕ) (k : Fin 4)
  /-- `vec4(dot(e, f), 0.0, 0.0, 0.0)`. -/
  | dotX (e f : Ex)

/-- Expressions of type `float` that are assigned to components. -/
inductive Sc
  /-- `v.k`. -/
  | comp (v : ℕ) (k : Fin 4)
  /-- `-v.k`. -/
  | neg (v : ℕ) (k : Fin 4)
  | lit (a : Lit)

/-- Statements. -/
inductive St
  /-- `v = e`. -/
  | set (v : ℕ) (e : Ex)
  /-- `v += e`. -/
  | addA (v : ℕ) (e : Ex)
  /-- `v -= e`. -/
  | subA (v : ℕ) (e : Ex)
  /-- `v *= e`. -/
  | mulA (v : ℕ) (e : Ex)
  /-- `v *= u.k`. -/
  | mulC (v u : ℕ) (k : Fin 4)
  /-- `v.k = s`. -/
  | setC (v : ℕ) (k : Fin 4) (s : Sc)

variable {F : Type} [Add F] [Sub F] [Mul F] [Neg F] [Zero F] [One F] [NatCast F]

/-- The value of a constant. -/
def Lit.val : Lit → F
  | .zero => 0
  | .one => 1
  | .two => (2 : ℕ)
  | .negOne => -1

/-! ## GLSL -/

/-- A component replaced. -/
def setComp (x : V4 F) (k : Fin 4) (y : F) : V4 F :=
  match k with
  | 0 => ⟨y, x.l1, x.l2, x.l3⟩
  | 1 => ⟨x.l0, y, x.l2, x.l3⟩
  | 2 => ⟨x.l0, x.l1, y, x.l3⟩
  | 3 => ⟨x.l0, x.l1, x.l2, y⟩

/-- A variable replaced. -/
def setVar (σ : ℕ → V4 F) (v : ℕ) (x : V4 F) : ℕ → V4 F := fun u => if u = v then x else σ u

/-- GLSL 5.9: operators act on all components at once; `dot` is a parameter, since GLSL does not fix the
order of its sum. -/
def gEx (dt : V4 F → V4 F → F) (σ : ℕ → V4 F) : Ex → V4 F
  | .var v => σ v
  | .swz v a b c d => ⟨(σ v).get a, (σ v).get b, (σ v).get c, (σ v).get d⟩
  | .lit a b c d => ⟨a.val, b.val, c.val, d.val⟩
  | .mul e f => mul_ps (gEx dt σ e) (gEx dt σ f)
  | .add e f => add_ps (gEx dt σ e) (gEx dt σ f)
  | .sub e f => sub_ps (gEx dt σ e) (gEx dt σ f)
  | .scl v k e => mul_ps (set1_ps ((σ v).get k)) (gEx dt σ e)
  | .mulS e v k => mul_ps (gEx dt σ e) (set1_ps ((σ v).get k))
  | .dotX e f => ⟨dt (gEx dt σ e) (gEx dt σ f), 0, 0, 0⟩

def gSc (σ : ℕ → V4 F) : Sc → F
  | .comp v k => (σ v).get k
  | .neg v k => -(σ v).get k
  | .lit a => a.val

/-- GLSL 5.8: the right hand side is evaluated first, then assigned. -/
def gSt (dt : V4 F → V4 F → F) (σ : ℕ → V4 F) : St → ℕ → V4 F
  | .set v e => setVar σ v (gEx dt σ e)
  | .addA v e => setVar σ v (add_ps (σ v) (gEx dt σ e))
  | .subA v e => setVar σ v (sub_ps (σ v) (gEx dt σ e))
  | .mulA v e => setVar σ v (mul_ps (σ v) (gEx dt σ e))
  | .mulC v u k => setVar σ v (mul_ps (σ v) (set1_ps ((σ u).get k)))
  | .setC v k s => setVar σ v (setComp (σ v) k (gSc σ s))

def gRun (dt : V4 F → V4 F → F) (σ : ℕ → V4 F) (p : List St) : ℕ → V4 F := p.foldl (gSt dt) σ

/-! ## C++ with the shim -/

/-- Memory: `data[i]` of each variable. -/
abbrev Mem (F : Type) := ℕ → Fin 4 → F

/-- One float written. -/
def write (μ : Mem F) (v : ℕ) (i : Fin 4) (x : F) : Mem F :=
  fun u j => if u = v ∧ j = i then x else μ u j

/-- `for (size_t i = 0; i != 4; ++i)`. -/
def loop {S : Type} (s : S) (f : S → Fin 4 → S) : S := [0, 1, 2, 3].foldl f s

/-- glsl_shim.hpp:220-228 `dot`. -/
def cDot (a b : Fin 4 → F) : F := loop 0 fun r i => r + a i * b i

/-- Expressions: every operator returns a new object.
glsl_shim.hpp:63-67 `swizzle::operator vec4`, 69-78 `swizzle::operator*` (conversion, then
`vec4::operator*`), 89-92 `component::operator*(vec4)` (`other * float`), 122-130 `operator*(float)`, 141-150
`operator*(component)`, 162-170 `operator+`, 172-180 `operator*`, 182-190 `operator-`.  The loops that fill a
new object are functions of the index. -/
def cEx (μ : Mem F) : Ex → Fin 4 → F
  | .var v => μ v
  | .swz v a b c d => V4.get ⟨μ v a, μ v b, μ v c, μ v d⟩
  | .lit a b c d => V4.get ⟨a.val, b.val, c.val, d.val⟩
  | .mul e f => fun i => cEx μ e i * cEx μ f i
  | .add e f => fun i => cEx μ e i + cEx μ f i
  | .sub e f => fun i => cEx μ e i - cEx μ f i
  | .scl v k e => fun i => cEx μ e i * μ v k
  | .mulS e v k => fun i => cEx μ e i * μ v k
  | .dotX e f => V4.get ⟨cDot (cEx μ e) (cEx μ f), 0, 0, 0⟩

/-- The right hand side `vec4 const& other` of a compound assignment: a variable is bound to the reference
itself and read from memory at each step, anything else is a temporary. -/
def other (μ0 : Mem F) (e : Ex) : Mem F → Fin 4 → F :=
  match e with
  | .var u => fun μ i => μ u i
  | e => fun _ i => cEx μ0 e i

/-- A compound assignment `data[i] = data[i] op other.data[i]`. -/
def compound (op : F → F → F) (μ : Mem F) (v : ℕ) (e : Ex) : Mem F :=
  loop μ fun μ' i => write μ' v i (op (μ' v i) (other μ e μ' i))

/-- Statements.  The copy assignment of `vec4` copies the union.  glsl_shim.hpp:192-199 `+=`, 201-208 `*=`,
210-217 `-=`.

glsl_shim.hpp:152-160 `operator*=(component<j> const& other)`: `other` is a reference into the memory of its
variable and is read at each step.

glsl_shim.hpp:94-97 `component::operator-`, 99-103 `component::operator=(float)`.  An assignment from a component of the same index does
not use it: `component<i>` is a class without members, and its implicit copy assignment, which copies
nothing, is the better overload. -/
def cSt (μ : Mem F) : St → Mem F
  | .set v e => fun u => if u = v then cEx μ e else μ u
  | .addA v e => compound (· + ·) μ v e
  | .subA v e => compound (· - ·) μ v e
  | .mulA v e => compound (· * ·) μ v e
  | .mulC v u k => loop μ fun μ' i => write μ' v i (μ' v i * μ' u k)
  | .setC v k (.comp u l) => if k = l then μ else write μ v k (μ u l)
  | .setC v k (.neg u l) => write μ v k (-μ u l)
  | .setC v k (.lit a) => write μ v k a.val

def cRun (μ : Mem F) (p : List St) : Mem F := p.foldl cSt μ

/-! ## klein.glsl as programs -/

namespace Prog
open Ex St

/-! `swz` by name, for the swizzles that occur. -/
def zyzw (v : ℕ) : Ex := .swz v 2 1 2 3
def ywyz (v : ℕ) : Ex := .swz v 1 3 1 2
def wzwy (v : ℕ) : Ex := .swz v 3 2 3 1
def wwyz (v : ℕ) : Ex := .swz v 3 3 1 2
def yzwy (v : ℕ) : Ex := .swz v 1 2 3 1
def zxxx (v : ℕ) : Ex := .swz v 2 0 0 0
def xzwy (v : ℕ) : Ex := .swz v 0 2 3 1
def xwyz (v : ℕ) : Ex := .swz v 0 3 1 2
def zwyz (v : ℕ) : Ex := .swz v 2 3 1 2
def yyzw (v : ℕ) : Ex := .swz v 1 1 2 3
def wxxx (v : ℕ) : Ex := .swz v 3 0 0 0
def yxxx (v : ℕ) : Ex := .swz v 1 0 0 0
def xxxx (v : ℕ) : Ex := .swz v 0 0 0 0

/-- klein.glsl:44-56 `kln_mul(rotor, rotor)`; 0 is `a.p1`, 1 is `b.p1`, 2 is `c.p1`, 3 is `t`. -/
def mulRotor : List St := [
  .set 2 (.scl 0 0 (var 1)),
  subA 2 (mul (yzwy 0) (ywyz 1)),
  .set 3 (mul (zyzw 0) (zxxx 1)),
  addA 3 (mul (wwyz 0) (wzwy 1)),
  setC 3 0 (.neg 3 0),
  addA 2 (var 3)]

/-- klein.glsl:58-64 `kln_mul(translator, translator)`; 0 is `a.p2`, 1 is `b.p2`, 2 is `c.p2`. -/
def mulTranslator : List St := [.set 2 (add (var 0) (var 1))]

/-- klein.glsl:66-93 `kln_mul(motor, motor)`; 0, 1 are `a.p1`, `a.p2`; 2, 3 are `b.p1`, `b.p2`; 4, 5 are
`c.p1`, `c.p2`; 6 to 10 are `a_zyzw`, `a_ywyz`, `a_wzwy`, `c_wwyz`, `c_yzwy`; 11 is `t`. -/
def mulMotor : List St := [
  .set 6 (zyzw 0),
  .set 7 (ywyz 0),
  .set 8 (wzwy 0),
  .set 9 (wwyz 2),
  .set 10 (yzwy 2),
  .set 4 (.scl 0 0 (var 2)),
  .set 11 (mul (var 7) (var 10)),
  addA 11 (mul (var 6) (zxxx 2)),
  setC 11 0 (.neg 11 0),
  addA 4 (var 11),
  subA 4 (mul (var 8) (var 9)),
  .set 5 (.scl 0 0 (var 3)),
  addA 5 (mulS (var 1) 2 0),
  addA 5 (mul (var 7) (yzwy 3)),
  addA 5 (mul (ywyz 1) (var 10)),
  .set 11 (mul (var 6) (zxxx 3)),
  addA 11 (mul (var 8) (wwyz 3)),
  addA 11 (mul (zxxx 1) (zyzw 2)),
  addA 11 (mul (wzwy 1) (var 9)),
  setC 11 0 (.neg 11 0),
  subA 5 (var 11)]

/-- klein.glsl:97-112 (= 123-138); 0 is `r.p1`, 10 is `dc_scale`, 11 is `neg_low`, 12 to 14 are `t1` to
`t3`. -/
def planeCoef : List St := [
  .set 10 (lit .one .two .two .two),
  .set 11 (lit .negOne .one .one .one),
  .set 12 (mul (zxxx 0) (zwyz 0)),
  addA 12 (mul (yzwy 0) (yyzw 0)),
  mulA 12 (var 10),
  .set 13 (mul (var 0) (xwyz 0)),
  subA 13 (mul (mul (wxxx 0) (wzwy 0)) (var 11)),
  mulA 13 (var 10),
  .set 14 (mul (var 0) (var 0)),
  subA 14 (mul (xwyz 0) (xwyz 0)),
  addA 14 (mul (xxxx 0) (xxxx 0)),
  subA 14 (mul (xzwy 0) (xzwy 0))]

/-- klein.glsl:114-118; 2 is `p.p0`, 3 is `q.p0`. -/
def planeOut : List St := [
  .set 3 (mul (var 12) (xzwy 2)),
  addA 3 (mul (var 13) (xwyz 2)),
  addA 3 (mul (var 14) (var 2))]

/-- klein.glsl:95-119 `kln_apply(rotor, plane)`. -/
def applyRotorPlane : List St := planeCoef ++ planeOut

/-- klein.glsl:121-152 `kln_apply(motor, plane)`; 1 is `m.p2`, 15 is `t4`. -/
def applyMotorPlane : List St := planeCoef ++ [
  .set 15 (.scl 0 0 (var 1)),
  addA 15 (mul (xzwy 0) (xwyz 1)),
  addA 15 (mulS (var 0) 1 0),
  subA 15 (mul (xwyz 0) (xzwy 1)),
  mulA 15 (lit .zero .two .two .two)] ++ planeOut ++ [
  addA 3 (dotX (var 15) (var 2))]

/-- klein.glsl:156-170 (= 182-196); 10 is `scale`, 15 is `t4`. -/
def pointCoef : List St := [
  .set 10 (lit .zero .two .two .two),
  .set 12 (mul (var 0) (xwyz 0)),
  subA 12 (.scl 0 0 (xzwy 0)),
  mulA 12 (var 10),
  .set 13 (.scl 0 0 (xwyz 0)),
  addA 13 (mul (xzwy 0) (var 0)),
  mulA 13 (var 10),
  .set 14 (mul (var 0) (var 0)),
  addA 14 (mul (yxxx 0) (yxxx 0)),
  .set 15 (mul (zwyz 0) (zwyz 0)),
  addA 15 (mul (wzwy 0) (wzwy 0)),
  subA 14 (mul (var 15) (lit .negOne .one .one .one))]

/-- klein.glsl:172-176; 2 is `p.p3`, 3 is `q.p3`. -/
def pointOut : List St := [
  .set 3 (mul (var 12) (xwyz 2)),
  addA 3 (mul (var 13) (xzwy 2)),
  addA 3 (mul (var 14) (var 2))]

/-- klein.glsl:154-178 `kln_apply(rotor, point)`. -/
def applyRotorPoint : List St := pointCoef ++ pointOut

/-- klein.glsl:180-212 `kln_apply(motor, point)`. -/
def applyMotorPoint : List St := pointCoef ++ [
  .set 15 (mul (xzwy 0) (xwyz 1)),
  subA 15 (.scl 0 0 (var 1)),
  subA 15 (mul (xwyz 0) (xzwy 1)),
  subA 15 (mulS (var 0) 1 0),
  mulA 15 (var 10)] ++ pointOut ++ [
  addA 3 (mulS (var 15) 2 0)]

/-- klein.glsl:217-227 `kln_apply(motor)`; 3 is `p.p3`. -/
def applyMotorOrigin : List St := [
  .set 3 (mulS (var 0) 1 0),
  addA 3 (.scl 0 0 (var 1)),
  addA 3 (mul (xwyz 0) (xzwy 1)),
  .set 3 (sub (mul (xzwy 0) (xwyz 1)) (var 3)),
  mulA 3 (lit .zero .two .two .two),
  setC 3 0 (.lit .one)]

end Prog

end Klein.Glsl
