import Verif.Props.SymMv
import Verif.Sym.Repl
import Verif.Api.Embed
import Mathlib.Tactic.Ring
import Lean.Elab.Tactic

/-!
# The value of what the symbolic engine returns

Definitions for C72 and C73: the multivector the engine returns for a line of text, evaluated at an
assignment of its variables.
-/

namespace Klein

variable {K : Type} [CommRing K]

/-- Lane 0 cleared. -/
@[sse] def V4.z0 (a : V4 K) : V4 K := ⟨0, a.l1, a.l2, a.l3⟩
/-- Lanes 1 and 3 exchanged. -/
@[sse] def V4.rv (a : V4 K) : V4 K := ⟨a.l0, a.l3, a.l2, a.l1⟩
/-- Lanes in the opposite order. -/
@[sse] def V4.mirrored (a : V4 K) : V4 K := ⟨a.l3, a.l2, a.l1, a.l0⟩

namespace Sym

/-- The value of a decimal number. -/
def ival (w : List Char) : ℤ := w.foldl (fun n c => 10 * n + (c.toNat - 48 : ℕ)) 0

/-- The value of a polynomial at an assignment (non-negative exponents). -/
def Poly.at (ρ : List Char → K) (p : Poly (List Char) ℤ) : K :=
  (p.terms.map fun t => (t.2 : K) * (t.1.factors.map fun f => ρ f.1 ^ f.2.toNat).prod).sum

/-- The value of a multivector at an assignment. -/
def Mv.at (ρ : List Char → K) (m : Mv (List Char) ℤ) : PGA.MV K :=
  (m.terms.map fun t => t.2.at ρ • Mv.mvB K t.1).sum

/-- The engine accepts the line and its result has the value `x`. -/
def Shows (ρ : List Char → K) (line : String) (x : PGA.MV K) : Prop :=
  ∃ m, parse ival ⟨3, 0, 1⟩ line.toList = some (.ok m) ∧ m.at ρ = x

theorem Shows.of {ρ : List Char → K} {line : String} {x : PGA.MV K} (cs : List Char)
    (m : Mv (List Char) ℤ) (hl : line = String.ofList cs) (hp : parse ival ⟨3, 0, 1⟩ cs = some (.ok m))
    (hx : m.at ρ = x) : Shows ρ line x :=
  ⟨m, by rw [hl, String.toList_ofList]; exact hp, hx⟩

open Lean Elab Tactic in
/-- Spells out the characters of the line in a goal `Shows ρ line x` (the kernel is slow at decoding
strings) and takes `m` for what the engine returns. -/
elab "shows " m:term : tactic => do
  let t ← getMainTarget
  let some (.lit (.strVal s)) := t.find? (fun e => e matches .lit (.strVal _)) | throwError "no line"
  let cs ← Term.exprToSyntax (toExpr s.toList)
  evalTactic (← `(tactic| refine Shows.of $cs ⟨some ⟨3, 0, 1⟩, $m⟩ rfl (by decide +kernel) ?_))

/-- The variables of the script as the lanes of four registers and two scalars. -/
def env (a b c d : V4 K) (u v : K) : List Char → K
  | ['a', '0'] => a.l0 | ['a', '1'] => a.l1 | ['a', '2'] => a.l2 | ['a', '3'] => a.l3
  | ['b', '0'] => b.l0 | ['b', '1'] => b.l1 | ['b', '2'] => b.l2 | ['b', '3'] => b.l3
  | ['c', '0'] => c.l0 | ['c', '1'] => c.l1 | ['c', '2'] => c.l2 | ['c', '3'] => c.l3
  | ['d', '0'] => d.l0 | ['d', '1'] => d.l1 | ['d', '2'] => d.l2 | ['d', '3'] => d.l3
  | ['u'] => u
  | ['v'] => v
  | _ => 0

section
variable (a b c d : V4 K) (u v : K)
theorem env_a0 : env a b c d u v ['a', '0'] = a.l0 := rfl
theorem env_a1 : env a b c d u v ['a', '1'] = a.l1 := rfl
theorem env_a2 : env a b c d u v ['a', '2'] = a.l2 := rfl
theorem env_a3 : env a b c d u v ['a', '3'] = a.l3 := rfl
theorem env_b0 : env a b c d u v ['b', '0'] = b.l0 := rfl
theorem env_b1 : env a b c d u v ['b', '1'] = b.l1 := rfl
theorem env_b2 : env a b c d u v ['b', '2'] = b.l2 := rfl
theorem env_b3 : env a b c d u v ['b', '3'] = b.l3 := rfl
theorem env_c0 : env a b c d u v ['c', '0'] = c.l0 := rfl
theorem env_c1 : env a b c d u v ['c', '1'] = c.l1 := rfl
theorem env_c2 : env a b c d u v ['c', '2'] = c.l2 := rfl
theorem env_c3 : env a b c d u v ['c', '3'] = c.l3 := rfl
theorem env_d0 : env a b c d u v ['d', '0'] = d.l0 := rfl
theorem env_d1 : env a b c d u v ['d', '1'] = d.l1 := rfl
theorem env_d2 : env a b c d u v ['d', '2'] = d.l2 := rfl
theorem env_d3 : env a b c d u v ['d', '3'] = d.l3 := rfl
theorem env_u : env a b c d u v ['u'] = u := rfl
theorem env_v : env a b c d u v ['v'] = v := rfl
end

theorem mvB_0 : Mv.mvB K 0 = { (0 : PGA.MV K) with s := 1 } := rfl
theorem mvB_1 : Mv.mvB K 1 = { (0 : PGA.MV K) with e0 := 1 } := rfl
theorem mvB_2 : Mv.mvB K 2 = { (0 : PGA.MV K) with e1 := 1 } := rfl
theorem mvB_3 : Mv.mvB K 3 = { (0 : PGA.MV K) with e01 := 1 } := rfl
theorem mvB_4 : Mv.mvB K 4 = { (0 : PGA.MV K) with e2 := 1 } := rfl
theorem mvB_5 : Mv.mvB K 5 = { (0 : PGA.MV K) with e02 := 1 } := rfl
theorem mvB_6 : Mv.mvB K 6 = { (0 : PGA.MV K) with e12 := 1 } := rfl
theorem mvB_7 : Mv.mvB K 7 = { (0 : PGA.MV K) with e012 := 1 } := rfl
theorem mvB_8 : Mv.mvB K 8 = { (0 : PGA.MV K) with e3 := 1 } := rfl
theorem mvB_9 : Mv.mvB K 9 = { (0 : PGA.MV K) with e03 := 1 } := rfl
theorem mvB_10 : Mv.mvB K 10 = { (0 : PGA.MV K) with e13 := 1 } := rfl
theorem mvB_11 : Mv.mvB K 11 = { (0 : PGA.MV K) with e013 := 1 } := rfl
theorem mvB_12 : Mv.mvB K 12 = { (0 : PGA.MV K) with e23 := 1 } := rfl
theorem mvB_13 : Mv.mvB K 13 = { (0 : PGA.MV K) with e023 := 1 } := rfl
theorem mvB_14 : Mv.mvB K 14 = { (0 : PGA.MV K) with e123 := 1 } := rfl
theorem mvB_15 : Mv.mvB K 15 = { (0 : PGA.MV K) with e0123 := 1 } := rfl

/-- The coefficient of a basis blade. -/
def coefAt (ρ : List Char → K) : List (ℕ × Poly (List Char) ℤ) → ℕ → K
  | [], _ => 0
  | t :: ts, i => bif t.1 == i then t.2.at ρ + coefAt ρ ts i else coefAt ρ ts i

theorem at_coef (ρ : List Char → K) (m : Mv (List Char) ℤ) : m.at ρ =
    (let f := coefAt ρ m.terms
     ⟨f 0, f 1, f 2, f 3, f 4, f 5, f 6, f 7, f 8, f 9, f 10, f 11, f 12, f 13, f 14, f 15⟩) := by
  obtain ⟨al, ts⟩ := m
  simp only [Mv.at]
  induction ts with
  | nil => rfl
  | cons t ts ih =>
    simp only [List.map_cons, List.sum_cons, ih, coefAt]
    apply PGA.MV.ext <;> simp only [pga, Mv.mvB] <;> (simp only [Bool.cond_eq_ite, beq_iff_eq]; split <;> simp)

theorem at_of (ρ : List Char → K) (al : Option Alg) (ts : List (ℕ × Poly (List Char) ℤ)) (x : PGA.MV K)
    (h0 : x.s = coefAt ρ ts 0) (h1 : x.e0 = coefAt ρ ts 1) (h2 : x.e1 = coefAt ρ ts 2) (h3 : x.e01 = coefAt ρ ts 3)
    (h4 : x.e2 = coefAt ρ ts 4) (h5 : x.e02 = coefAt ρ ts 5) (h6 : x.e12 = coefAt ρ ts 6) (h7 : x.e012 = coefAt ρ ts 7)
    (h8 : x.e3 = coefAt ρ ts 8) (h9 : x.e03 = coefAt ρ ts 9) (h10 : x.e13 = coefAt ρ ts 10)
    (h11 : x.e013 = coefAt ρ ts 11) (h12 : x.e23 = coefAt ρ ts 12) (h13 : x.e023 = coefAt ρ ts 13)
    (h14 : x.e123 = coefAt ρ ts 14) (h15 : x.e0123 = coefAt ρ ts 15) :
    Mv.at ρ ⟨al, ts⟩ = x := by
  rw [at_coef]; exact (PGA.MV.ext h0 h1 h2 h3 h4 h5 h6 h7 h8 h9 h10 h11 h12 h13 h14 h15).symm

open Lean Elab Tactic Meta in
/-- Selects the polynomials with the given key on the right of a goal `x = coefAt ρ ts i`. -/
elab "coef_step" : tactic => do
  let g ← getMainGoal
  let t ← g.getType
  let some (ty, l, r) := t.eq? | throwError "not an equation"
  let rec go (r : Expr) : Nat → MetaM Expr
    | 0 => return r
    | n + 1 => do
      let args := r.getAppArgs
      let ts ← whnf args[3]!
      if ts.isAppOfArity ``List.cons 3 then
        let t ← whnf ts.appFn!.appArg!
        let some k ← getNatValue? t.appFn!.appArg! | throwError "key"
        let some i ← getNatValue? args[4]! | throwError "index"
        let rest := mkAppN r.getAppFn (args.set! 3 ts.appArg!)
        if k == i then
          mkAppM ``HAdd.hAdd #[← mkAppOptM ``Poly.at #[args[0]!, args[1]!, args[2]!, t.appArg!], ← go rest n]
        else go rest n
      else mkAppOptM ``OfNat.ofNat #[ty, mkRawNatLit 0, none]
  replaceMainGoal [← g.change (← mkEq l (← go r 40))]

/-- Compare with the polynomials coefficient by coefficient. -/
macro "sym_ring" : tactic =>
  `(tactic| ((try simp only [kln, sse, V4.get, cond_true, cond_false])
             refine at_of _ _ _ _ ?_ ?_ ?_ ?_ ?_ ?_ ?_ ?_ ?_ ?_ ?_ ?_ ?_ ?_ ?_ ?_ <;> coef_step <;>
      simp only [Poly.at, List.map_cons, List.map_nil, List.sum_cons, List.sum_nil,
      List.prod_cons, List.prod_nil, Int.toNat_one, Int.reduceToNat, pow_one, Int.cast_one, Int.cast_neg,
      Int.cast_ofNat, add_zero, env_a0, env_a1, env_a2, env_a3, env_b0,
      env_b1, env_b2, env_b3, env_c0, env_c1, env_c2, env_c3, env_d0, env_d1, env_d2, env_d3, env_u,
      env_v, pga, V4.get, mul_zero, zero_mul, cond_true, cond_false,
      zero_add, mul_one, one_mul, sub_zero, zero_sub, neg_zero, neg_neg] <;> ring))
end Sym

end Klein
