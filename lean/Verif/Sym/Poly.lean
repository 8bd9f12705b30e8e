import Verif.Sym.Algebra
import Mathlib.Order.Defs.LinearOrder

/-!
# `sym/poly.hpp`, `sym/poly.cpp`, and class `mv` of `sym/ga.hpp`, `sym/ga.cpp`

Monomials, polynomials and multivectors are `std::map`s: here the list of their nodes in iteration
order.  Signed overflow of an `int` exponent and a call through a null `algebra_` pointer are
undefined behaviour: the outcome `none`.  Variables are taken from any linearly ordered type `X`
(`std::string` in the source); coefficients from any type `F` with operations (`float`).

Simplification: a lookup compares the key with the nodes in iteration order up to its position,
where the tree of the library compares along a branch.  The position found is the same; the set of
comparisons, hence of possible overflows in `mon::degree`, is larger here.
-/

namespace Klein.Sym

/-- An `int` result; `none` is signed overflow. -/
def int32 (z : ℤ) : Option ℤ := if -2 ^ 31 ≤ z ∧ z < 2 ^ 31 then some z else none

/-- `find(k)`, followed by `emplace(k, new)` if absent, and otherwise by the update `upd` of the
node (`none`: the node is erased). -/
def upsert {K V : Type} (lt : K → K → Option Bool) (k : K) (new : Option V)
    (upd : V → Option (Option V)) : List (K × V) → Option (List (K × V))
  | [] => do return [(k, ← new)]
  | (x, v) :: m => do
    if ← lt x k then return (x, v) :: (← upsert lt k new upd m)
    else if ← lt k x then return (k, ← new) :: (x, v) :: m
    else match ← upd v with
      | none => return m
      | some v' => return (x, v') :: m

/-! ### monomials -/

/-- poly.hpp:6-19 class `mon`: variables with their degrees. -/
structure Mon (X : Type) where
  factors : List (X × ℤ)
  deriving DecidableEq, Repr

namespace Mon
variable {X : Type} [LinearOrder X]

/-- `std::less<std::string>`. -/
def ltX (x y : X) : Option Bool := some (decide (x < y))

/-- poly.cpp:17-24 and :130-138: `if (it->second + d == 0) erase; else it->second += d`. -/
def addDeg (d v : ℤ) : Option (Option ℤ) := do
  let s ← int32 (v + d)
  return if s = 0 then none else some s

/-- poly.cpp:3-28 `mon::push`. -/
def push (m : Mon X) (var : X) (deg : ℤ) : Option (Mon X) :=
  if deg = 0 then some m
  else do return ⟨← upsert ltX var (some deg) (addDeg deg) m.factors⟩

/-- poly.cpp:33-36, the loop of `degree`. -/
def degreeLoop : List (X × ℤ) → ℤ → Option ℤ
  | [], out => some out
  | (_, d) :: t, out => do degreeLoop t (← int32 (out + d))

/-- poly.cpp:30-38 `mon::degree`. -/
def degree (m : Mon X) : Option ℤ := degreeLoop m.factors 0

/-- poly.cpp:50-63, the loop of `operator==`. -/
def eqLoop : List (X × ℤ) → List (X × ℤ) → Bool
  | (x, d) :: s, (y, e) :: t => if x ≠ y then false else if d ≠ e then false else eqLoop s t
  | _, _ => true

/-- poly.cpp:40-65 `operator==`. -/
def eq (a b : Mon X) : Bool :=
  if a.factors.length ≠ b.factors.length then false else eqLoop a.factors b.factors

/-- poly.cpp:84-112, the loop of `operator<`. -/
def ltLoop : List (X × ℤ) → List (X × ℤ) → Bool
  | [], [] => false
  | [], _ :: _ => true
  | _ :: _, [] => false
  | (x, d) :: s, (y, e) :: t =>
    if x < y then true
    else if y < x then false
    else if d < e then true
    else if d > e then false
    else ltLoop s t

/-- poly.cpp:67-116 `operator<`. -/
def lt (a b : Mon X) : Option Bool := do
  let lhs_d ← a.degree
  let rhs_d ← b.degree
  if lhs_d < rhs_d then return true
  else if lhs_d > rhs_d then return false
  else return ltLoop a.factors b.factors

/-- poly.cpp:118-142 `operator*=`. -/
def mulAssign (a b : Mon X) : Option (Mon X) := do
  return ⟨← b.factors.foldlM (fun fs (vd : X × ℤ) =>
    upsert ltX vd.1 (some vd.2) (addDeg vd.2) fs) a.factors⟩

/-- poly.cpp:144-149 `operator*`. -/
def mul (a b : Mon X) : Option (Mon X) := mulAssign a b

end Mon

/-! ### polynomials -/

/-- poly.hpp:54-65 class `poly`. -/
structure Poly (X F : Type) where
  terms : List (Mon X × F)
  deriving DecidableEq, Repr

/-- The comparison `x == 0.f` of poly.cpp:160, :204 and :234.  For `float` it holds of both zeros and
of no NaN (see `Verif/Sym/FloatCoef.lean`). -/
class ZeroTest (F : Type) where
  IsZ : F → Prop
  dec : DecidablePred IsZ

instance {F : Type} [ZeroTest F] (x : F) : Decidable (ZeroTest.IsZ x) := ZeroTest.dec x

/-- For exact coefficients. -/
instance (priority := low) ZeroTest.exact {F : Type} [Zero F] [DecidableEq F] : ZeroTest F :=
  ⟨fun x => x = 0, fun _ => inferInstance⟩

theorem isZ_iff {F : Type} [Zero F] [DecidableEq F] {x : F} :
    @ZeroTest.IsZ F ZeroTest.exact x ↔ x = 0 := Iff.rfl

namespace Poly
variable {X F : Type} [LinearOrder X] [Add F] [Mul F] [Neg F] [Zero F] [One F] [DecidableEq F]
  [ZeroTest F]

/-- poly.cpp:160-167 and :204-211: `if (it->second + f == 0.f) erase; else it->second += f`. -/
def addCoef (f v : F) : Option (Option F) :=
  some (if ZeroTest.IsZ (v + f) then none else some (v + f))

/-- poly.cpp:151-171 `poly::push`. -/
def push (p : Poly X F) (m : Mon X) (f : F) : Option (Poly X F) := do
  return ⟨← upsert Mon.lt m (some f) (addCoef f) p.terms⟩

/-- poly.cpp:173-191 unary `operator-`, both overloads. -/
def neg (p : Poly X F) : Poly X F := ⟨p.terms.map fun (m, f) => (m, f * -1)⟩

/-- poly.cpp:193-215 `operator+=`. -/
def addAssign (p q : Poly X F) : Option (Poly X F) := do
  return ⟨← q.terms.foldlM (fun ts (mf : Mon X × F) =>
    upsert Mon.lt mf.1 (some mf.2) (addCoef mf.2) ts) p.terms⟩

/-- poly.cpp:217-222 `operator+`. -/
def add (p q : Poly X F) : Option (Poly X F) := addAssign p q

/-- poly.cpp:230-239, the inner loop of `operator*`: the polynomial `t`. -/
def row (m1 : Mon X) (f1 : F) (q : Poly X F) : Option (Poly X F) := do
  return ⟨← q.terms.foldlM (fun ts (mf : Mon X × F) =>
    if ZeroTest.IsZ (f1 * mf.2) then some ts
    else do
      let m ← m1.mul mf.1
      upsert Mon.lt m (some (0 + f1 * mf.2)) (fun v => some (some (v + f1 * mf.2))) ts) []⟩

/-- poly.cpp:224-245 `operator*`. -/
def mul (p q : Poly X F) : Option (Poly X F) :=
  p.terms.foldlM (fun out (mf : Mon X × F) => do addAssign out (← row mf.1 mf.2 q)) ⟨[]⟩

end Poly

/-! ### multivectors -/

/-- ga.hpp:53-73 `elem_comp`. -/
def elemComp (lhs rhs : ℕ) : Bool :=
  if popcnt lhs < popcnt rhs then true
  else if popcnt lhs > popcnt rhs then false
  else decide (lhs < rhs)

/-- ga.hpp:75-107 class `mv`; the pointer `algebra_` may be null. -/
structure Mv (X F : Type) where
  alg : Option Alg
  terms : List (ℕ × Poly X F)
  deriving DecidableEq, Repr

namespace Mv
variable {X F : Type} [LinearOrder X] [Add F] [Mul F] [Neg F] [Zero F] [One F] [DecidableEq F]
  [ZeroTest F]

/-- The comparison of keys. -/
def ltE (a b : ℕ) : Option Bool := some (elemComp a b)

/-- ga.cpp:215-233 `mv::push`. -/
def push (m : Mv X F) (e : ℕ) (p : Poly X F) : Option (Mv X F) := do
  return { m with terms := ← upsert ltE e (some p) (fun v => do
    let s ← v.addAssign p
    return if s.terms = [] then none else some s) m.terms }

/-- ga.cpp:235-252 unary `operator-`, both overloads. -/
def neg (m : Mv X F) : Mv X F := { m with terms := m.terms.map fun (e, p) => (e, p.neg) }

/-- ga.cpp:254-277 `operator~`, both overloads (`algebra_->rev` is called for each term). -/
def rev (m : Mv X F) : Option (Mv X F) :=
  if m.alg = none ∧ m.terms ≠ [] then none
  else some { m with terms := m.terms.map fun (e, p) => (e, if Alg.rev e then p.neg else p) }

/-- ga.cpp:279-287 `operator+=`, and :299-304 `operator+`. -/
def add (m n : Mv X F) : Option (Mv X F) :=
  n.terms.foldlM (fun out (ep : ℕ × Poly X F) => out.push ep.1 ep.2) m

/-- ga.cpp:289-297 `operator-=`. -/
def sub (m n : Mv X F) : Option (Mv X F) :=
  n.terms.foldlM (fun out (ep : ℕ × Poly X F) => out.push ep.1 ep.2.neg) m

/-- ga.cpp:321-342 (and :364-385, :407-428, :450-471): one step of the double loop of a product. -/
def step (op : ℕ → ℕ → Option ℤ) (e1 : ℕ) (p1 : Poly X F) (out : List (ℕ × Poly X F))
    (ep : ℕ × Poly X F) : Option (List (ℕ × Poly X F)) := do
  let result ← op e1 ep.1
  if result = 0 then return out
  else
    let p12 ← p1.mul ep.2
    let q := if result < 0 then p12.neg else p12
    upsert ltE (result.natAbs - 1) (Poly.addAssign ⟨[]⟩ q) (fun v => do return some (← v.addAssign q)) out

/-- ga.cpp:478-493 `prune`. -/
def prune (ts : List (ℕ × Poly X F)) : List (ℕ × Poly X F) := ts.filter fun ep => ep.2.terms ≠ []

/-- The four products differ in the blade operation only; each begins by dereferencing
`lhs.algebra_`. -/
def prod (op : Alg → ℕ → ℕ → Option ℤ) (m n : Mv X F) : Option (Mv X F) := do
  let a ← m.alg
  let ts ← m.terms.foldlM (fun out (ep : ℕ × Poly X F) =>
    n.terms.foldlM (step (op a) ep.1 ep.2) out) []
  return ⟨some a, prune ts⟩

/-- ga.cpp:313-347 `operator*`. -/
def mul (m n : Mv X F) : Option (Mv X F) := prod (fun a l r => some (a.mul l r)) m n
/-- ga.cpp:356-390 `operator^`. -/
def ext (m n : Mv X F) : Option (Mv X F) := prod Alg.ext m n
/-- ga.cpp:399-433 `operator&`. -/
def reg (m n : Mv X F) : Option (Mv X F) := prod Alg.reg m n
/-- ga.cpp:442-476 `operator|`. -/
def dot (m n : Mv X F) : Option (Mv X F) := prod (fun a l r => some (a.dot l r)) m n

end Mv
end Klein.Sym
