import Verif.Props.SymValue

/-!
# The tests of the symbolic engine (sym/test.cpp)

C72.  Every check of sym/test.cpp, evaluated in the model with integer coefficients (those that
occur are small, so that `float` represents them exactly).
-/

namespace Klein
namespace Sym

/-- A monomial from its `push` calls. -/
def pushes (l : List (String × ℤ)) : Option (Mon (List Char)) :=
  l.foldlM (fun m x => m.push x.1.toList x.2) ⟨[]⟩

/-- A polynomial from its `push` calls. -/
def polyOf (l : List (List (String × ℤ) × ℤ)) : Option (Poly (List Char) ℤ) :=
  l.foldlM (fun p x => do p.push (← pushes x.1) x.2) ⟨[]⟩

/-- A multivector of the algebra (3,0,1) from its `push` calls. -/
def mvOf (l : List (ℕ × List (List (String × ℤ) × ℤ))) : Option (Mv (List Char) ℤ) :=
  l.foldlM (fun m x => do m.push x.1 (← polyOf x.2)) ⟨some ⟨3, 0, 1⟩, []⟩

/-- `find(k)->second` of a polynomial; `none` for `end()`. -/
def Poly.find (p : Poly (List Char) ℤ) (m : Mon (List Char)) : Option ℤ :=
  (p.terms.find? fun t => t.1.eq m).map Prod.snd

/-- `terms[e]` of a multivector: an absent node is created empty. -/
def Mv.node (m : Mv (List Char) ℤ) (e : ℕ) : Poly (List Char) ℤ :=
  ((m.terms.find? fun t => t.1 == e).map Prod.snd).getD ⟨[]⟩

/-- `terms[e].terms.begin()->second`; `none` where there is no first node. -/
def Mv.first (m : Mv (List Char) ℤ) (e : ℕ) : Option ℤ := (m.node e).terms.head?.map Prod.snd

/-- `parse(line, pga)` for a line that is accepted. -/
def result (line : List Char) : Option (Mv (List Char) ℤ) :=
  match parse ival ⟨3, 0, 1⟩ line with
  | some (.ok m) => some m
  | _ => none

/-- An operation on two values built by calls that may overflow. -/
def both {α β : Type} (f : α → α → Option β) (x y : Option α) : Option β := do f (← x) (← y)

/-- test.cpp:8-23 "monomial-product": a² · b/a = a b. -/
theorem C72_monomial :
    both Mon.mul (pushes [("a", 2)])
      (pushes [("a", -1), ("b", 1)]) =
      some ⟨[(['a'], 1), (['b'], 1)]⟩ := by decide +kernel

/-- test.cpp:56-61 "sum": (a + b) + (a - b) has no term in b and 2 a. -/
theorem C72_sum : ∃ a b p, pushes [("a", 1)] = some a ∧ pushes [("b", 1)] = some b ∧
    both Poly.add (polyOf [([("a", 1)], 1), ([("b", 1)], 1)])
      (polyOf [([("a", 1)], 1), ([("b", 1)], -1)]) = some p ∧
    p.find b = none ∧ p.find a = some 2 :=
  ⟨⟨[(['a'], 1)]⟩, ⟨[(['b'], 1)]⟩, ⟨[(⟨[(['a'], 1)]⟩, 2)]⟩, by decide +kernel⟩

/-- test.cpp:63-68 "sum-one". -/
theorem C72_sum_one : ∃ a p, pushes [("a", 1)] = some a ∧
    both Poly.add (polyOf [([("a", 1)], 1), ([("b", 1)], 1)])
      (polyOf [([], 1)]) = some p ∧
    p.find ⟨[]⟩ = some 1 ∧ p.find a = some 1 :=
  ⟨⟨[(['a'], 1)]⟩, ⟨[(⟨[]⟩, 1), (⟨[(['a'], 1)]⟩, 1), (⟨[(['b'], 1)]⟩, 1)]⟩, by decide +kernel⟩

/-- test.cpp:70-74 "sum-one-two". -/
theorem C72_sum_one_two : ∃ p,
    both Poly.add (polyOf [([], 1)])
      (polyOf [([], 2)]) = some p ∧ p.find ⟨[]⟩ = some 3 :=
  ⟨⟨[(⟨[]⟩, 3)]⟩, by decide +kernel⟩

/-- test.cpp:76-81 "product": (a + b)(a - b) = a² - b². -/
theorem C72_product : ∃ a2 b2 p,
    both Mon.mul (pushes [("a", 1)])
      (pushes [("a", 1)]) = some a2 ∧
    both Mon.mul (pushes [("b", 1)])
      (pushes [("b", 1)]) = some b2 ∧
    both Poly.mul (polyOf [([("a", 1)], 1), ([("b", 1)], 1)])
      (polyOf [([("a", 1)], 1), ([("b", 1)], -1)]) = some p ∧
    p.find a2 = some 1 ∧ p.find b2 = some (-1) ∧ p.terms.length = 2 :=
  ⟨⟨[(['a'], 2)]⟩, ⟨[(['b'], 2)]⟩, ⟨[(⟨[(['a'], 2)]⟩, 1), (⟨[(['b'], 2)]⟩, -1)]⟩,
    by decide +kernel⟩

/-- test.cpp:84-146 "ga": (a0 e0 + a1 e1)(b0 e0 + b1 e1) = a1 b1 + (a0 b1 - a1 b0) e01. -/
theorem C72_ga : ∃ m a1b1 a0b1 a1b0,
    pushes [("a1", 1), ("b1", 1)] = some a1b1 ∧ pushes [("a0", 1), ("b1", 1)] = some a0b1 ∧
    pushes [("a1", 1), ("b0", 1)] = some a1b0 ∧
    both Mv.mul (mvOf [(1, [([("a0", 1)], 1)]), (2, [([("a1", 1)], 1)])])
      (mvOf [(1, [([("b0", 1)], 1)]), (2, [([("b1", 1)], 1)])]) = some m ∧
    m.terms.length = 2 ∧ (m.node 0).find a1b1 = some 1 ∧ (m.node 3).find a0b1 = some 1 ∧
    (m.node 3).find a1b0 = some (-1) :=
  ⟨⟨some ⟨3, 0, 1⟩, [(0, ⟨[(⟨[(['a', '1'], 1), (['b', '1'], 1)]⟩, 1)]⟩),
      (3, ⟨[(⟨[(['a', '0'], 1), (['b', '1'], 1)]⟩, 1), (⟨[(['a', '1'], 1), (['b', '0'], 1)]⟩, -1)]⟩)]⟩,
    ⟨[(['a', '1'], 1), (['b', '1'], 1)]⟩, ⟨[(['a', '0'], 1), (['b', '1'], 1)]⟩,
    ⟨[(['a', '1'], 1), (['b', '0'], 1)]⟩, by decide +kernel⟩

/-- The checks `ok` hold of the multivector the engine returns for the line. -/
def Passes (line : String) (ok : Mv (List Char) ℤ → Bool) : Prop :=
  ∃ m, result line.toList = some m ∧ ok m = true

theorem Passes.of {line : String} {ok : Mv (List Char) ℤ → Bool} (cs : List Char)
    (h : line = String.ofList cs) (hr : ((result cs).map ok) = some true) : Passes line ok := by
  obtain ⟨m, hm, ho⟩ := Option.map_eq_some_iff.mp hr
  exact ⟨m, by rw [h, String.toList_ofList]; exact hm, ho⟩

open Lean Elab Tactic in
/-- Spells out the characters of the line in a goal `Passes line ok` and evaluates. -/
elab "passes" : tactic => do
  let t ← getMainTarget
  let some (.lit (.strVal s)) := t.find? (fun e => e matches .lit (.strVal _)) | throwError "no line"
  let cs ← Term.exprToSyntax (toExpr s.toList)
  evalTactic (← `(tactic| exact Passes.of $cs rfl (by decide +kernel)))

set_option maxRecDepth 4000

/-- test.cpp:152-160 "add". -/
theorem C72_add : Passes "1 + 3 * 2" (fun m => m.first 0 == some 7) ∧
    Passes "(3e0 + 3e012) + (3e0 - 3e012)" (fun m =>
      (m.node 0b111).terms.length == 0 && m.first 0b1 == some 6) :=
  ⟨by passes, by passes⟩

/-- test.cpp:162-166 "sub". -/
theorem C72_sub : Passes "1 - 3 - 2" (fun m => m.first 0 == some (-4)) := by passes

/-- test.cpp:168-177 "product". -/
theorem C72_parse_product : Passes "2e012 * 2" (fun m => m.first 0b111 == some 4) ∧
    Passes "(e23 + 2e012) * (2 - 3e01)" (fun m => m.first 0b1100 == some 2 &&
      m.first 0b111 == some 4 && m.first 0b1111 == some (-3)) :=
  ⟨by passes, by passes⟩

/-- test.cpp:179-193 "exterior-product". -/
theorem C72_exterior :
    Passes "(e3 + e2 + e1 + e0) ^ (e3 + 2e2 + 2e1 + 2e0)" (fun m =>
      m.first 0b1001 == some (-1) && m.first 0b1010 == some (-1) && m.first 0b1100 == some (-1) &&
      (m.node 0b110).terms.length == 0 && (m.node 0b101).terms.length == 0 &&
      (m.node 0b11).terms.length == 0) ∧
    Passes "(e3 + e2 + e1 + e0) ^ (e123 + 2e021 + 2e013 + 2e032)" (fun m =>
      m.first 0b1111 == some 7 && m.terms.length == 1) :=
  ⟨by passes, by passes⟩

/-- test.cpp:195-201 "regressive-product". -/
theorem C72_regressive : Passes "e123 & (e123 + e032)" (fun m =>
    m.terms.length == 1 && m.first 0b1100 == some 1) := by passes

/-- test.cpp:203-217 "inner-product". -/
theorem C72_inner :
    Passes "(e0 + e1 + e2 + e3) | (e0 + e1 + e2 + e3)" (fun m =>
      m.terms.length == 1 && m.first 0 == some 3) ∧
    Passes "(e0 + e1 + e2 + e3) | (2e0123 + 3e01 - 4e02 + 2e03)" (fun m =>
      m.terms.length == 4 && m.first 1 == some (-1) && m.first 0b111 == some (-2) &&
      m.first 0b1011 == some 2 && m.first 0b1101 == some (-2)) :=
  ⟨by passes, by passes⟩

/-- test.cpp:219-223 "reverse". -/
theorem C72_reverse : Passes "~e02" (fun m => m.first 0b101 == some (-1)) := by passes

/-- test.cpp:225-233 "rotor". -/
theorem C72_rotor :
    Passes "(2 + 3e12 + 4e31) * (5e0 + 7e1 + 11e2) * (2 - 3e12 - 4e31)" (fun m =>
      m.first 1 == some 145 && m.first 0b10 == some (-15) && m.first 0b100 == some 37 &&
      m.first 0b1000 == some 376) := by passes

/-- The checks can fail: the sign of the last one reversed. -/
example : (result "~e02".toList).map (fun m => m.first 0b101 == some 1) = some false := by
  decide +kernel

end Sym
end Klein
