import Verif.Props.SymFloat
import Verif.Props.SymScripts2

/-!
# C104: the scripts with `float` coefficients

C73 and C102 run the engine with integer coefficients.  Here the same lines are run with the binary32
coefficients of the code: a recursive-descent parser that builds the tree, sound for the grammar of C62,
computes the bound of C86 on the coefficients of a line, and where the bound is at most `2^24` the engine
returns the same multivector with the integers converted to `float`.
-/

namespace Klein.Sym
open F32 (ofZ)

/-! ### A parser that returns the tree -/

section Tree
variable {F : Type} [One F]

mutual
/-- The tree of an expression of level `k` at the head of the tokens, and the tokens left. -/
def tree : ℕ → ℕ → List (Token F) → Option (Ast F × List (Token F))
  | 0, _, _ => none
  | n + 1, k, ts =>
    if k < 5 then (tree n (k + 1) ts).bind fun er => treeLoop n k er.1 er.2
    else match ts with
      | .number x :: .element v b :: ts => some (.atom x none v b, ts)
      | .number x :: ts => some (.atom x none 0 false, ts)
      | .identifier s :: .element v b :: ts => some (.atom 1 (some s) v b, ts)
      | .identifier s :: ts => some (.atom 1 (some s) 0 false, ts)
      | .element v b :: ts => some (.atom 1 none v b, ts)
      | .delimiter c :: ts =>
        if c = '(' then (tree n 0 ts).bind fun er =>
          match er.2 with
          | .delimiter c' :: ts => if c' = ')' then some (er.1, ts) else none
          | _ => none
        else none
      | .op c :: ts =>
        if c = '+' then tree n 5 ts
        else if c = '-' then (tree n 5 ts).map fun er => (.neg er.1, er.2)
        else if c = '~' then (tree n 5 ts).map fun er => (.rev er.1, er.2)
        else none
      | _ => none

/-- The operators of level `k` after a first operand. -/
def treeLoop : ℕ → ℕ → Ast F → List (Token F) → Option (Ast F × List (Token F))
  | 0, _, _, _ => none
  | n + 1, k, e, ts => match ts with
    | .op c :: ts' => match opAt k c with
      | some o => (tree n (k + 1) ts').bind fun er => treeLoop n k (.bin o e er.1) er.2
      | none => some (e, ts)
    | _ => some (e, ts)
end

mutual
theorem tree_sound : ∀ (n k : ℕ) (ts : List (Token F)) (e : Ast F) (r : List (Token F)), k ≤ 5 →
    tree n k ts = some (e, r) → ∃ pre, ts = pre ++ r ∧ Derives k pre e
  | 0, _, _, _, _, _, h => by simp [tree] at h
  | n + 1, k, ts, e, r, hk, h => by
    unfold tree at h
    by_cases h5 : k < 5
    · rw [if_pos h5, Option.bind_eq_some_iff] at h
      obtain ⟨⟨e1, r1⟩, h1, h2⟩ := h
      obtain ⟨p1, rfl, d1⟩ := tree_sound n (k + 1) ts e1 r1 (by omega) h1
      obtain ⟨p, hp, d⟩ := treeLoop_sound n k e1 r1 e r h5 p1 (.lift h5 d1) h2
      exact ⟨p, hp, d⟩
    · have hk5 : k = 5 := by omega
      subst hk5
      rw [if_neg h5] at h
      split at h
      · simp only [Option.some.injEq, Prod.mk.injEq] at h
        obtain ⟨rfl, rfl⟩ := h
        exact ⟨_, rfl, .numberElement _ _ _⟩
      · simp only [Option.some.injEq, Prod.mk.injEq] at h
        obtain ⟨rfl, rfl⟩ := h
        exact ⟨[_], rfl, .number _⟩
      · simp only [Option.some.injEq, Prod.mk.injEq] at h
        obtain ⟨rfl, rfl⟩ := h
        exact ⟨[_, _], rfl, .identifierElement _ _ _⟩
      · simp only [Option.some.injEq, Prod.mk.injEq] at h
        obtain ⟨rfl, rfl⟩ := h
        exact ⟨[_], rfl, .identifier _⟩
      · simp only [Option.some.injEq, Prod.mk.injEq] at h
        obtain ⟨rfl, rfl⟩ := h
        exact ⟨[_], rfl, .element _ _⟩
      · split at h
        · subst_vars
          rw [Option.bind_eq_some_iff] at h
          obtain ⟨⟨e1, r1⟩, h1, h2⟩ := h
          obtain ⟨p1, rfl, d1⟩ := tree_sound n 0 _ e1 r1 (by omega) h1
          simp only at h2
          split at h2
          · split at h2
            · simp only [Option.some.injEq, Prod.mk.injEq] at h2
              obtain ⟨rfl, rfl⟩ := h2
              subst_vars
              exact ⟨_ :: p1 ++ [_], by simp, .paren d1⟩
            · cases h2
          · cases h2
        · cases h
      · split at h
        · subst_vars
          obtain ⟨p1, rfl, d1⟩ := tree_sound n 5 _ e r (by omega) h
          exact ⟨_ :: p1, rfl, .plus d1⟩
        · split at h
          · subst_vars
            rw [Option.map_eq_some_iff] at h
            obtain ⟨⟨e1, r1⟩, h1, h2⟩ := h
            simp only [Prod.mk.injEq] at h2
            obtain ⟨rfl, rfl⟩ := h2
            obtain ⟨p1, rfl, d1⟩ := tree_sound n 5 _ e1 r1 (by omega) h1
            exact ⟨_ :: p1, rfl, .minus d1⟩
          · split at h
            · subst_vars
              rw [Option.map_eq_some_iff] at h
              obtain ⟨⟨e1, r1⟩, h1, h2⟩ := h
              simp only [Prod.mk.injEq] at h2
              obtain ⟨rfl, rfl⟩ := h2
              obtain ⟨p1, rfl, d1⟩ := tree_sound n 5 _ e1 r1 (by omega) h1
              exact ⟨_ :: p1, rfl, .tilde d1⟩
            · cases h
      · cases h

theorem treeLoop_sound : ∀ (n k : ℕ) (e0 : Ast F) (ts : List (Token F)) (e : Ast F) (r : List (Token F)), k < 5 →
    ∀ p0, Derives k p0 e0 → treeLoop n k e0 ts = some (e, r) →
      ∃ pre, p0 ++ ts = pre ++ r ∧ Derives k pre e
  | 0, _, _, _, _, _, _, _, _, h => by simp [treeLoop] at h
  | n + 1, k, e0, ts, e, r, hk, p0, d0, h => by
    unfold treeLoop at h
    split at h
    · split at h
      · rename_i ho
        rw [Option.bind_eq_some_iff] at h
        obtain ⟨⟨e1, r1⟩, h1, h2⟩ := h
        obtain ⟨p1, rfl, d1⟩ := tree_sound n (k + 1) _ e1 r1 (by omega) h1
        obtain ⟨p, hp, d⟩ := treeLoop_sound n k _ r1 e r hk _ (.bin ho d0 d1) h2
        exact ⟨p, by rw [← hp]; simp, d⟩
      · simp only [Option.some.injEq, Prod.mk.injEq] at h
        obtain ⟨rfl, rfl⟩ := h
        exact ⟨p0, rfl, d0⟩
    · simp only [Option.some.injEq, Prod.mk.injEq] at h
      obtain ⟨rfl, rfl⟩ := h
      exact ⟨p0, rfl, d0⟩
end

end Tree

/-! ### Tokens with `float` numbers -/

/-- The value `strtof` gives to a decimal integer: the nearest `float`, and the integer itself up to
`2^24`. -/
def fval (w : List Char) : F32 := ofZ (ival w)

/-- A result with its value converted. -/
def R.mapR {α β : Type} (f : α → β) (x : R α) : R β := x.bind fun a => .ok (f a)

theorem step_toF (s : List Char) :
    step fval s = (step ival s).mapR (Option.map (Prod.map id (Option.map Token.toF))) := by
  cases s with
  | nil => rfl
  | cons c s =>
    simp only [step, R.mapR]
    cases ctype isSpace c with
    | ok b =>
      cases b with
      | true => rfl
      | false =>
        simp only [R.bind, Bool.false_eq_true, if_false]
        by_cases h1 : c = '(' ∨ c = ')'
        · rw [if_pos h1, if_pos h1]; rfl
        · rw [if_neg h1, if_neg h1]
          by_cases h2 : c = Char.ofNat 0
          · rw [if_pos h2, if_pos h2]; rfl
          · rw [if_neg h2, if_neg h2]
            by_cases h3 : c ∈ opChars
            · rw [if_pos h3, if_pos h3]; rfl
            · rw [if_neg h3, if_neg h3]
              cases ctype isDigit c with
              | ok d =>
                cases d with
                | true =>
                  simp only [if_true, tokenizeNumber]
                  cases numberLoop (c :: s) 0 with
                  | ok w =>
                    simp only [R.bind]
                    by_cases h4 : w.length < 32
                    · rw [if_pos h4, if_pos h4]; rfl
                    · rw [if_neg h4, if_neg h4]
                  | _ => rfl
                | false =>
                  simp only [Bool.false_eq_true, if_false]
                  cases s with
                  | nil => rfl
                  | cons c' s' =>
                    simp only
                    cases (if c = 'e' then ctype isDigit c' else .ok false : R Bool) with
                    | ok el =>
                      cases el with
                      | true =>
                        simp only [if_true]
                        cases elementLoop (c' :: s') 0 false <;> rfl
                      | false =>
                        simp only [Bool.false_eq_true, if_false]
                        cases identifierLoop (c :: c' :: s') <;> rfl
                    | _ => rfl
              | _ => rfl
    | _ => rfl

theorem run_toF : ∀ (n : ℕ) (s : List Char),
    run fval n s = (run ival n s).map (R.mapR (List.map Token.toF))
  | 0, _ => rfl
  | n + 1, s => by
    simp only [run, step_toF s]
    cases step ival s with
    | ok x =>
      cases x with
      | none => rfl
      | some rt =>
        obtain ⟨r, t⟩ := rt
        simp only [R.mapR, R.bind, Option.map_some, Prod.map_apply, id]
        rw [run_toF n r]
        cases run ival n r with
        | none => rfl
        | some y =>
          cases y with
          | ok ts => cases t <;> simp [R.mapR, R.bind]
          | _ => rfl
    | _ => rfl

/-! ### The check -/

/-- All numbers are non-zero. -/
def nonzero (ts : List (Token ℤ)) : Bool :=
  ts.all fun t => match t with
    | .number x => x != 0
    | _ => true

/-- All blades are blades of the algebra. -/
def Ast.inB {F : Type} : Ast F → Bool
  | .atom _ _ b _ => decide (b < 16)
  | .neg e => e.inB
  | .rev e => e.inB
  | .bin _ l r => l.inB && r.inB

theorem Ast.inB_In {F : Type} : ∀ e : Ast F, e.inB = true → e.In
  | .atom _ _ b _, h => by
    simp only [Ast.inB, decide_eq_true_eq] at h
    exact h
  | .neg e, h => Ast.inB_In e h
  | .rev e, h => Ast.inB_In e h
  | .bin _ l r, h => by
    simp only [Ast.inB, Bool.and_eq_true] at h
    exact ⟨Ast.inB_In l h.1, Ast.inB_In r h.2⟩

/-- The line is an expression whose coefficients cannot exceed `2^24`. -/
def fits (cs : List Char) : Bool :=
  match tokenize ival cs with
  | some (.ok ts) => match tree (8 * ts.length + 8) 0 ts with
    | some (e, [.eof]) => nonzero ts && e.inB && decide (e.deg < 2 ^ 31) && decide (e.size ≤ 2 ^ 24)
    | _ => false
  | _ => false

/-- C104: on a line that passes the check the engine with `float` coefficients returns the multivector it
returns with integer coefficients, every coefficient converted exactly. -/
theorem C104_fits (cs : List Char) (h : fits cs = true) :
    ∃ m : Mv (List Char) ℤ, parse ival ⟨3, 0, 1⟩ cs = some (.ok m) ∧
      parse fval ⟨3, 0, 1⟩ cs = some (.ok m.toF) ∧ m.Canon ∧ m.l1 ≤ 2 ^ 24 := by
  unfold fits at h
  split at h
  · rename_i ts hts
    split at h
    · rename_i e he
      simp only [Bool.and_eq_true, decide_eq_true_eq] at h
      obtain ⟨⟨⟨h0, hi⟩, hd⟩, hs⟩ := h
      obtain ⟨pre, rfl, hder⟩ := tree_sound _ _ _ _ _ (by omega) he
      have h0' : ∀ x, Token.number x ∈ pre → x ≠ 0 := fun x hx => by
        have := List.all_eq_true.1 h0 (Token.number x) (List.mem_append_left _ hx)
        simpa using this
      have hn : e.Nums (fun x => x ≠ 0) := derives_nums (by norm_num) hder h0'
      obtain ⟨m, h1, -⟩ := C62_meaning_partial e (e.inB_In hi) hd
      obtain ⟨h3, h4⟩ := Ast.value_sim ⟨3, 0, 1⟩ e hn hs
      obtain ⟨h5, h6⟩ := h4 m h1
      rw [h1, Option.map_some] at h3
      refine ⟨m, ?_, ?_, h5, h6.trans hs⟩
      · rw [parse, hts]
        simp only [Option.map_some, R.bind]
        rw [C62_complete _ _ _ e m hder h1 ⟨Token.eof, [], rfl, Or.inl rfl⟩]
      · rw [parse, tokenize, run_toF]
        rw [tokenize] at hts
        rw [hts]
        simp only [Option.map_some, R.mapR, R.bind, List.map_append, List.map_cons, List.map_nil]
        congr 1
        refine complete_of_signs C86_signs _ _ _ e.toF m.toF (fun x hx => ?_) (derives_toF hder) h3
          ⟨Token.eof, [], rfl, Or.inl rfl⟩
        rw [List.mem_map] at hx
        obtain ⟨t, -, ht⟩ := hx
        cases t with
        | number z => cases ht; exact F32.quiet_round _ _
        | _ => cases ht
    · cases h
  · cases h

/-- The engine with `float` coefficients accepts the line, its coefficients are integers of at most `2^24`
and its result has the value `x`. -/
def ShowsF {K : Type} [CommRing K] (ρ : List Char → K) (line : String) (x : PGA.MV K) : Prop :=
  ∃ m : Mv (List Char) ℤ, parse fval ⟨3, 0, 1⟩ line.toList = some (.ok m.toF) ∧ m.l1 ≤ 2 ^ 24 ∧ m.at ρ = x

theorem Shows.float {K : Type} [CommRing K] {ρ : List Char → K} {line : String} {x : PGA.MV K}
    (h : Shows ρ line x) (hf : fits line.toList = true) : ShowsF ρ line x := by
  obtain ⟨m, h1, h2⟩ := h
  obtain ⟨m', h1', h3, -, h4⟩ := C104_fits _ hf
  rw [h1] at h1'
  cases h1'
  exact ⟨m, h3, h4, h2⟩

theorem fits_of {line : String} (cs : List Char) (hl : line = String.ofList cs) (h : fits cs = true) :
    fits line.toList = true := by
  rw [hl, String.toList_ofList]; exact h

open Lean Elab Tactic Meta in
/-- Spells out the characters of the line in a goal `fits line.toList = true`. -/
elab "fits_line" : tactic => do
  let t ← getMainTarget
  let some (.lit (.strVal s)) := t.find? (fun e => e matches .lit (.strVal _)) | throwError "no line"
  let cs ← Term.exprToSyntax (toExpr s.toList)
  evalTactic (← `(tactic| exact fits_of $cs rfl (by decide +kernel)))

/-- The check for every line of a list. -/
macro "fits_lines" : tactic =>
  `(tactic| (repeat' (first | exact List.forall_mem_nil _ | refine List.forall_mem_cons.2 ⟨?_, ?_⟩ | fits_line)))

set_option maxRecDepth 8000 in
/-- C104: the lines of scripts/validation.klein in C73, first part. -/
theorem C104_validation : ∀ line ∈ [
    "(a0 e0 + a1 e1 + a2 e2 + a3 e3) * (b0 e0 + b1 e1 + b2 e2 + b3 e3)",
    "(a0 e0 + a1 e1 + a2 e2 + a3 e3) * (b0 + b1 e23 + b2 e31 + b3 e12)",
    "(a0 e0 + a1 e1 + a2 e2 + a3 e3) * (b1 e23 + b2 e31 + b3 e12 + c1 e01 + c2 e02 + c3 e03)",
    "(a0 e0 + a1 e1 + a2 e2 + a3 e3) ^ (b1 e23 + b2 e31 + b3 e12 + c1 e01 + c2 e02 + c3 e03)",
    "(b1 e23 + b2 e31 + b3 e12 + c1 e01 + c2 e02 + c3 e03) * (a0 e0 + a1 e1 + a2 e2 + a3 e3)",
    "(u + v e0123) * (b1 e23 + b2 e31 + b3 e12 + c1 e01 + c2 e02 + c3 e03)",
    "(b1 e23 + b2 e31 + b3 e12 + c1 e01 + c2 e02 + c3 e03) * (u + v e0123)",
    "(a1 e23 + a2 e31 + a3 e12 + d1 e01 + d2 e02 + d3 e03) * (b1 e23 + b2 e31 + b3 e12 + c1 e01 + c2 e02 + c3 e03)",
    "(a1 e23 + a2 e31 + a3 e12 + d1 e01 + d2 e02 + d3 e03) * (c1 e01 + c2 e02 + c3 e03)",
    "(c1 e01 + c2 e02 + c3 e03) * (a1 e23 + a2 e31 + a3 e12 + d1 e01 + d2 e02 + d3 e03)",
    "(a0 + a1 e23 + a2 e31 + a3 e12) * (1 + b1 e01 + b2 e02 + b3 e03)",
    "(a0 + a1 e23 + a2 e31 + a3 e12) * (b1 e01 + b2 e02 + b3 e03)",
    "(1 + b1 e01 + b2 e02 + b3 e03) * (a0 + a1 e23 + a2 e31 + a3 e12)",
    "(b1 e01 + b2 e02 + b3 e03) * (a0 + a1 e23 + a2 e31 + a3 e12)",
    "(b0 + b1 e23 + b2 e31 + b3 e12) * (a0 e0 + a1 e1 + a2 e2 + a3 e3)",
    "(a0 e0 + a1 e1 + a2 e2 + a3 e3) * (b0 e0123 + b1 e01 + b2 e02 + b3 e03)",
    "(b0 e0123 + b1 e01 + b2 e02 + b3 e03) * (a0 e0 + a1 e1 + a2 e2 + a3 e3)",
    "(a0 e0123 + a1 e01 + a2 e02 + a3 e03) * (b0 e0123 + b1 e01 + b2 e02 + b3 e03)",
    "(a0 e0 + a1 e1 + a2 e2 + a3 e3) * (b0 e123 + b1 e032 + b2 e013 + b3 e021)",
    "(b0 e123 + b1 e032 + b2 e013 + b3 e021) * (a0 e0 + a1 e1 + a2 e2 + a3 e3)",
    "(a3 e0 + a2 e1 + a1 e2 + a0 e3) * (b0 e123 + b1 e032 + b2 e013 + b3 e021)",
    "(a0 + a1 e23 + a2 e31 + a3 e12) * (b0 + b1 e23 + b2 e31 + b3 e12)",
    "(a0 + a1 e23 + a2 e31 + a3 e12) * (b0 e0123 + b1 e01 + b2 e02 + b3 e03)",
    "(b0 e0123 + b1 e01 + b2 e02 + b3 e03) * (a0 + a1 e23 + a2 e31 + a3 e12)",
    "(a0 + a1 e23 + a2 e31 + a3 e12) * (b0 e123 + b1 e032 + b2 e013 + b3 e021)",
    "(b0 e123 + b1 e032 + b2 e013 + b3 e021) * (a0 + a1 e23 + a2 e31 + a3 e12)",
    "(a0 e0123 + a1 e01 + a2 e02 + a3 e03) * (b0 e123 + b1 e032 + b2 e013 + b3 e021)",
    "(b0 e123 + b1 e032 + b2 e013 + b3 e021) * (a0 e0123 + a1 e01 + a2 e02 + a3 e03)",
    "(a0 e123 + a1 e032 + a2 e013 + a3 e021) * (b0 e123 + b1 e032 + b2 e013 + b3 e021)",
    "(a0 e0 + a1 e1 + a2 e2 + a3 e3) ^ (b0 e0 + b1 e1 + b2 e2 + b3 e3)",
    "(a0 e0 + a1 e1 + a2 e2 + a3 e3) ^ (b0 + b1 e23 + b2 e31 + b3 e12)",
    "(b0 + b1 e23 + b2 e31 + b3 e12) ^ (a0 e0 + a1 e1 + a2 e2 + a3 e3)",
    "(a0 e0 + a1 e1 + a2 e2 + a3 e3) ^ (b0 e0123 + b1 e01 + b2 e02 + b3 e03)",
    "(b0 e0123 + b1 e01 + b2 e02 + b3 e03) ^ (a0 e0 + a1 e1 + a2 e2 + a3 e3)",
    "(a0 e0 + a1 e1 + a2 e2 + a3 e3) ^ (b0 e123 + b1 e032 + b2 e013 + b3 e021)",
    "(b0 e123 + b1 e032 + b2 e013 + b3 e021) ^ (a0 e0 + a1 e1 + a2 e2 + a3 e3)",
    "(a0 + a1 e23 + a2 e31 + a3 e12) ^ (b0 + b1 e23 + b2 e31 + b3 e12)",
    "(a0 + a1 e23 + a2 e31 + a3 e12) ^ (b0 e0123 + b1 e01 + b2 e02 + b3 e03)",
    "(b0 e0123 + b1 e01 + b2 e02 + b3 e03) ^ (a0 + a1 e23 + a2 e31 + a3 e12)",
    "(a0 + a1 e23 + a2 e31 + a3 e12) ^ (b0 e123 + b1 e032 + b2 e013 + b3 e021)",
    "(b0 e123 + b1 e032 + b2 e013 + b3 e021) ^ (a0 + a1 e23 + a2 e31 + a3 e12)",
    "(a0 e0123 + a1 e01 + a2 e02 + a3 e03) ^ (b0 e0123 + b1 e01 + b2 e02 + b3 e03)",
    "(a0 e0123 + a1 e01 + a2 e02 + a3 e03) ^ (b0 e123 + b1 e032 + b2 e013 + b3 e021)",
    "(b0 e123 + b1 e032 + b2 e013 + b3 e021) ^ (a0 e0123 + a1 e01 + a2 e02 + a3 e03)",
    "(a0 e123 + a1 e032 + a2 e013 + a3 e021) ^ (b0 e123 + b1 e032 + b2 e013 + b3 e021)",
    "(a1 e23 + a2 e31 + a3 e12 + d1 e01 + d2 e02 + d3 e03) ^ (b1 e23 + b2 e31 + b3 e12 + c1 e01 + c2 e02 + c3 e03)",
    "(b1 e23 + b2 e31 + b3 e12 + c1 e01 + c2 e02 + c3 e03) ^ (a0 e0 + a1 e1 + a2 e2 + a3 e3)",
    "(a0 e3 + a1 e2 + a2 e1 + a3 e0) & (b0 e3 + b1 e2 + b2 e1 + b3 e0)",
    "(a0 e3 + a1 e2 + a2 e1 + a3 e0) & (b0 + b1 e23 + b2 e31 + b3 e12)",
    "(a0 e3 + a1 e2 + a2 e1 + a3 e0) & (b0 e0123 + b1 e01 + b2 e02 + b3 e03)",
    "(a0 e3 + a1 e2 + a2 e1 + a3 e0) & (b0 e123 + b1 e032 + b2 e013 + b3 e021)",
    "(a0 e0 + a1 e1 + a2 e2 + a3 e3) | (b0 e0 + b1 e1 + b2 e2 + b3 e3)",
    "(a0 e0 + a1 e1 + a2 e2 + a3 e3) | (b0 + b1 e23 + b2 e31 + b3 e12)",
    "(b0 + b1 e23 + b2 e31 + b3 e12) | (a0 e0 + a1 e1 + a2 e2 + a3 e3)",
    "(a0 e0 + a1 e1 + a2 e2 + a3 e3) | (b0 e0123 + b1 e01 + b2 e02 + b3 e03)",
    "(b0 e0123 + b1 e01 + b2 e02 + b3 e03) | (a0 e0 + a1 e1 + a2 e2 + a3 e3)",
    "(a0 e0 + a1 e1 + a2 e2 + a3 e3) | (b0 e123 + b1 e032 + b2 e013 + b3 e021)",
    "(b0 e123 + b1 e032 + b2 e013 + b3 e021) | (a0 e0 + a1 e1 + a2 e2 + a3 e3)",
    "((b0 e123 + b1 e032 + b2 e013 + b3 e021) | (a0 e0 + a1 e1 + a2 e2 + a3 e3)) * (a0 e0 + a1 e1 + a2 e2 + a3 e3)",
    "((b0 e123 + b1 e032 + b2 e013 + b3 e021) | (a0 e0 + a1 e1 + a2 e2 + a3 e3)) ^ (a0 e0 + a1 e1 + a2 e2 + a3 e3)",
    "(a0 + a1 e23 + a2 e31 + a3 e12) | (b0 + b1 e23 + b2 e31 + b3 e12)",
    "(a0 + a1 e23 + a2 e31 + a3 e12) | (b0 e0123 + b1 e01 + b2 e02 + b3 e03)",
    "(b0 e0123 + b1 e01 + b2 e02 + b3 e03) | (a0 + a1 e23 + a2 e31 + a3 e12)",
    "(a0 + a1 e23 + a2 e31 + a3 e12) | (b0 e123 + b1 e032 + b2 e013 + b3 e021)",
    "(b0 e123 + b1 e032 + b2 e013 + b3 e021) | (a0 + a1 e23 + a2 e31 + a3 e12)",
    "(a0 e0123 + a1 e01 + a2 e02 + a3 e03) | (b0 e0123 + b1 e01 + b2 e02 + b3 e03)",
    "(a0 e0123 + a1 e01 + a2 e02 + a3 e03) | (b0 e123 + b1 e032 + b2 e013 + b3 e021)",
    "(b0 e123 + b1 e032 + b2 e013 + b3 e021) | (a0 e0123 + a1 e01 + a2 e02 + a3 e03)",
    "(a0 e123 + a1 e032 + a2 e013 + a3 e021) | (b0 e123 + b1 e032 + b2 e013 + b3 e021)",
    "(a0 e0 + a1 e1 + a2 e2 + a3 e3) | (b1 e23 + b2 e31 + b3 e12 + c1 e01 + c2 e02 + c3 e03)",
    "(b1 e23 + b2 e31 + b3 e12 + c1 e01 + c2 e02 + c3 e03) | (a0 e0 + a1 e1 + a2 e2 + a3 e3)",
    "(a0 e0 + a1 e1 + a2 e2 + a3 e3) | (c1 e01 + c2 e02 + c3 e03)",
    "(c1 e01 + c2 e02 + c3 e03) | (a0 e0 + a1 e1 + a2 e2 + a3 e3)",
    "(a1 e23 + a2 e31 + a3 e12 + d1 e01 + d2 e02 + d3 e03) | (b1 e23 + b2 e31 + b3 e12 + c1 e01 + c2 e02 + c3 e03)",
    "(b1 e23 + b2 e31 + b3 e12 + c1 e01 + c2 e02 + c3 e03) | (a0 e123 + a1 e032 + a2 e013 + a3 e021)",
    "(a0 e123 + a1 e032 + a2 e013 + a3 e021) | (b1 e23 + b2 e31 + b3 e12 + c1 e01 + c2 e02 + c3 e03)"], fits line.toList = true := by
  fits_lines

set_option maxRecDepth 8000 in
/-- C104: the lines of scripts/validation.klein in C73, second part. -/
theorem C104_validation2 : ∀ line ∈ [
    "(a0 e0 + a1 e1 + a2 e2 + a3 e3) * (b0 e0 + b1 e1 + b2 e2 + b3 e3) * (a0 e0 + a1 e1 + a2 e2 + a3 e3)",
    "(a0 e0 + a1 e1 + a2 e2 + a3 e3) * (b0 + b1 e23 + b2 e31 + b3 e12) * (a0 e0 + a1 e1 + a2 e2 + a3 e3)",
    "(a0 e0 + a1 e1 + a2 e2 + a3 e3) * (b0 e0123 + b1 e01 + b2 e02 + b3 e03) * (a0 e0 + a1 e1 + a2 e2 + a3 e3)",
    "(a0 e0 + a1 e1 + a2 e2 + a3 e3) * (b0 e123 + b1 e032 + b2 e013 + b3 e021) * (a0 e0 + a1 e1 + a2 e2 + a3 e3)",
    "(1 + c1 e01 + c2 e02 + c3 e03) * (a0 e123 + a1 e032 + a2 e013 + a3 e021) * (1 - c1 e01 - c2 e02 - c3 e03) ",
    "(b0 + b1 e12 + b2 e31 + b3 e23) * (a0 + a1 e12 + a2 e31 + a3 e23) * (b0 - b1 e12 - b2 e31 - b3 e23) ",
    "(b0 e0123 + b1 e021 + b2 e013 + b3 e032) * (a0 + a1 e12 + a2 e31 + a3 e23) * (b0 e0123 - b1 e021 - b2 e013 - b3 e032) ",
    "(b0 + b1 e12 + b2 e31 + b3 e23) * (a0 e0123 + a1 e01 + a2 e02 + a3 e03) * (b0 - b1 e12 - b2 e31 - b3 e23) ",
    "(b0 e0123 + b1 e021 + b2 e013 + b3 e032) * (a0 e0123 + a1 e01 + a2 e02 + a3 e03) * (b0 e0123 - b1 e021 - b2 e013 - b3 e032) ",
    "(b0 + b1 e12 + b2 e31 + b3 e23) * (a0 + a1 e12 + a2 e31 + a3 e23) * (c0 e0123 - c1 e01 - c2 e02 - c3 e03) ",
    "(b0 + b1 e12 + b2 e31 + b3 e23) * (a0 e0123 + a1 e01 + a2 e02 + a3 e03) * (c0 e0123 - c1 e01 - c2 e02 - c3 e03) ",
    "(b0 e0123 + b1 e01 + b2 e02 + b3 e03) * (a0 + a1 e12 + a2 e31 + a3 e23) * (c0 - c1 e12 - c2 e31 - c3 e23) ",
    "(b0 e0123 + b1 e01 + b2 e02 + b3 e03) * (a0 e0123 + a1 e01 + a2 e02 + a3 e03) * (c0 - c1 e12 - c2 e31 - c3 e23) ",
    "(a0 + a1 e23 + a2 e31 + a3 e12 + b1 e01 + b2 e02 + b3 e03 + b0 e0123) * (c0 + c1 e23 + c2 e31 + c3 e12 + d1 e01 + d2 e02 + d3 e03 + d0 e0123)",
    "(b0 + b1 e23 + b2 e31 + b3 e12 + c1 e01 + c2 e02 + c3 e03 + c0 e0123) * (a0 + a1 e23 + a2 e31 + a3 e12 + d1 e01 + d2 e02 + d3 e03 + d0 e0123) * (b0 - b1 e23 - b2 e31 - b3 e12 - c1 e01 - c2 e02 - c3 e03 + c0 e0123) ",
    "(b0 + b1 e23 + b2 e31 + b3 e12 + c1 e01 + c2 e02 + c3 e03 + c0 e0123) * (a1 e23 + a2 e31 + a3 e12) * (b0 - b1 e23 - b2 e31 - b3 e12 - c1 e01 - c2 e02 - c3 e03 + c0 e0123) ",
    "(b0 + b1 e23 + b2 e31 + b3 e12) * (a1 e23 + a2 e31 + a3 e12) * (b0 - b1 e23 - b2 e31 - b3 e12) ",
    "(b0 + b1 e23 + b2 e31 + b3 e12 + c1 e01 + c2 e02 + c3 e03 + c0 e0123) * (a0 e0 + a1 e1 + a2 e2 + a3 e3) * (b0 - b1 e23 - b2 e31 - b3 e12 - c1 e01 - c2 e02 - c3 e03 + c0 e0123) ",
    "(b0 + b1 e23 + b2 e31 + b3 e12 + c1 e01 + c2 e02 + c3 e03 + c0 e0123) * (a0 e123 + a1 e032 + a2 e013 + a3 e021) * (b0 - b1 e23 - b2 e31 - b3 e12 - c1 e01 - c2 e02 - c3 e03 + c0 e0123) ",
    "(b0 + b1 e23 + b2 e31 + b3 e12 + c1 e01 + c2 e02 + c3 e03 + c0 e0123) * (e123) * (b0 - b1 e23 - b2 e31 - b3 e12 - c1 e01 - c2 e02 - c3 e03 + c0 e0123) ",
    "(1 + c1 e01 + c2 e02 + c3 e03 + c0 e0123) * (a0 + a1 e23 + a2 e31 + a3 e12 + d1 e01 + d2 e02 + d3 e03 + d0 e0123) * (1 -c1 e01 - c2 e02 - c3 e03 + c0 e0123) ",
    "(b0 + b1 e12 + b2 e31 + b3 e23 + c1 e01 + c2 e02 + c3 e03 + c0 e0123) * (a1 e021 + a2 e013 + a3 e032) * (b0 - b1 e12 - b2 e31 - b3 e23 - c1 e01 - c2 e02 - c3 e03 + c0 e0123) ",
    "(b0 + b1 e12 + b2 e31 + b3 e23) * (a1 e021 + a2 e013 + a3 e032) * (b0 - b1 e12 - b2 e31 - b3 e23) ",
    "((b1 e23 + b2 e31 + b3 e12 + c1 e01 + c2 e02 + c3 e03) | (a0 e123 + a1 e021 + a2 e013 + a3 e032)) * (b1 e23 + b2 e31 + b3 e12 + c1 e01 + c2 e02 + c3 e03)",
    "(((b0 e0 + b1 e1 + b2 e2 + b3 e3) ^ (c0 e0 + c1 e1 + c2 e2 + c3 e3)) | (a0 e123 + a1 e021 + a2 e013 + a3 e032)) * ((b0 e0 + b1 e1 + b2 e2 + b3 e3) ^ (c0 e0 + c1 e1 + c2 e2 + c3 e3))",
    "((b0 e0 + b1 e1 + b2 e2 + b3 e3) | (a0 e123 + a1 e021 + a2 e013 + a3 e032)) * (b0 e0 + b1 e1 + b2 e2 + b3 e3)",
    "((b0 e0 + b1 e1 + b2 e2 + b3 e3) | (a0 e123 + a1 e021 + a2 e013 + a3 e032)) ^ (b0 e0 + b1 e1 + b2 e2 + b3 e3)",
    "((b0 e0 + b1 e1 + b2 e2 + b3 e3) | (a1 e23 + a2 e31 + a3 e12 + d1 e01 + d2 e02 + d3 e03)) * (b0 e0 + b1 e1 + b2 e2 + b3 e3)",
    "((b0 e0 + b1 e1 + b2 e2 + b3 e3) | (a1 e23 + a2 e31 + a3 e12 + d1 e01 + d2 e02 + d3 e03)) ^ (b0 e0 + b1 e1 + b2 e2 + b3 e3)",
    "(1 + c1 e01 + c2 e02 + c3 e03) * (a0 e0 + a1 e1 + a2 e2 + a3 e3) * (1 - c1 e01 - c2 e02 - c3 e03) "], fits line.toList = true := by
  fits_lines

set_option maxRecDepth 8000 in
/-- C104: the lines of scripts/demo.klein and scripts/test.klein in C102. -/
theorem C104_demo : ∀ line ∈ [
    "(1 + b1 e01 + b2 e02 + b3 e03) * (a0 e123 + a1 e032 + a2 e013 + a3 e021) * (1 - b1 e01 - b2 e02 - b3 e03)",
    "(b0 + b1 e01 + b2 e02 + b3 e03) * (a0 e0 + a1 e1 + a2 e2 + a3 e3) * (b0 - b1 e01 - b2 e02 - b3 e03)",
    "(b0 + b1 e23 + b2 e31 + b3 e12) * (a0 e123 + a1 e021 + a2 e013 + a3 e032) * (b0 - b1 e23 - b2 e31 - b3 e12)",
    "(b0 + b1 e23 + b2 e31 + b3 e12) * (a3 e0 + a2 e1 + a1 e2 + a0 e3) * (b0 - b1 e23 - b2 e31 - b3 e12)",
    "(1 + 2 e23 + 3 e31 + 4 e12 + 5 e01 + 6 e02 + 7 e03 + 8 e0123) * (1e123 + 2e021 + e013 - e032)* (1 - 2 e23 - 3 e31 - 4 e12 - 5 e01 - 6 e02 - 7 e03 + 8 e0123)",
    "(1 + 2 e23 + 3 e31 + 4 e12 + 5 e01 + 6 e02 + 7 e03 + 8 e0123) * (3e1 + 2e2 + e3 - e0)* (1 - 2 e23 - 3 e31 - 4 e12 - 5 e01 - 6 e02 - 7 e03 + 8 e0123)",
    "(a0 + a1 e23 + a2 e31 + a3 e12) * (1 + b0 e01 + b1 e02 + b2 e03)",
    "(1 + 2 e23 + 3 e31 + 4 e12 + 5 e01 + 6 e02 + 7 e03 + 8 e0123) * (3e23 + 2e31 + e12 + 1e01 - 2e02)* (1 - 2 e23 - 3 e31 - 4 e12 - 5 e01 - 6 e02 - 7 e03 + 8 e0123)",
    "(b0 + b1 e23 + b2 e31 + b3 e12 + c1 e01 + c2 e02 + c3 e03 + c0 e0123) * e123 * (b0 - b1 e23 - b2 e31 - b3 e12 - c1 e01 - c2 e02 - c3 e03 + c0 e0123)",
    "(b0 + b1 e23 + b2 e31 + b3 e12 + c1 e01 + c2 e02 + c3 e03 + c0 e0123) * (b0 - b1 e23 - b2 e31 - b3 e12 - c1 e01 - c2 e02 - c3 e03 + c0 e0123)",
    "(a1 e23 + a2 e31 + a3 e12 + b1 e01 + b2 e02 + b3 e03) * (a1 e23 + a2 e31 + a3 e12 + b1 e01 + b2 e02 + b3 e03)",
    "(a1 e23 + a2 e31 + a3 e12 + b1 e01 + b2 e02 + b3 e03) * (a1 e23 + a2 e31 + a3 e12 + b1 e01 + b2 e02 + b3 e03) * e0123",
    "(a1 e23 + a2 e31 + a3 e12 + b1 e01 + b2 e02 + b3 e03) * e0123 * (a1 e23 + a2 e31 + a3 e12 + b1 e01 + b2 e02 + b3 e03)",
    "(b0 + b1 e23 + b2 e31 + b3 e12) * (b0 - b1 e23 - b2 e31 - b3 e12)",
    "(4e1 - 2e32) & (3e012 + e10)",
    "(3e0 + e1 + e3) ^ (e0 + e3)",
    "(-e01 + 2e03 - e31) ^ (e1 + e3)",
    "(e1 + e3) ^ (-e01 + 2e03 - e31)",
    "(s + t e0123) * (b0 + b1 e23 + b2 e31 + b3 e12 + c1 e01 + c2 e02 + c3 e03 + c0 e0123)",
    "(e02 + e12 + 2 e31 + 3 e23) * (-2 e01 + e02 + 4 e03)",
    "(e03 + e12 + 2 e31 + 3 e23) * (-2 e032 + e013 + 4 e021 + e123)",
    "(-2 e032 + e013 + 4 e021 + e123) * (e03 + e12 + 2 e31 + 3 e23)",
    "(1 + e0 + e1 + e2 + e3 + e12 + e31 + e23 + e01 + e02 + e03 + e123 + e021 + e013 + e032 + e0123) * (1 + e0 + e1 + e2 + e3 + e12 + e31 + e23 + e01 + e02 + e03 + e123 + e021 + e013 + e032 + e0123)",
    "(e1 + 2e2 + 3e3 + 4e0) ^ (2e1 + 3e2 - e3 - 2e0)",
    "(e1 + 2e2 + 3e3 + 4e0) ^ (e03 - 2e12 + e31 + 4e23)",
    "(e1 + 2e2 + 3e3 + 4e0) ^ (-2e01 + e02 + 4e03)",
    "(e1 + 2e2 + 3e3 + 4e0) ^ (e123 + -2e032 + e013 + 4e021)",
    "(e03 - 2e12 + e31 + 4e23) ^ (e1 + 2e2 + 3e3 + 4e0)",
    "(e01 + e12 + 2e31 + 3e23) ^ (e02 - 2e12 + e31 + 4e23)",
    "(e03 - 2e12 + e31 + 4e23) ^ (-2e01 + e02 + 4e03)",
    "(e01 + e12 + 2e31 + 3e23) ^ (e123 - 2e032 + e013 + 4e021)",
    "(-2e01 + e02 + 4e03) ^ (e1 + 2e2 + 3e3 + 4e0)",
    "(-2e01 + e02 + 4e03) ^ (e03 - 2e12 + e31 + 4e23)",
    "(e123 + -2e032 + e013 + 4e021) ^ (e1 + 2e2 + 3e3 + 4e0)",
    "(e123 - 2e032 + e013 + 4e021) ^ (e01 + e12 + 2e31 + 3e23)",
    "(e01 + 2e02 + 3e03) ^ (e123 - 2e032 + e013 + 4e021)",
    "(e123 + e032 + 2e013 + 3e021) ^ (e123 - 2e032 + e013 + 4e021)",
    "(e1 + 2e2 + 3e3 + 4e0) | (2e1 + 3e2 -e3 -2e0)",
    "(e1 + 2e2 + 3e3 + 4e0) | (e03 - 2e12 + e31 + 4e23)",
    "(e1 + 2e2 + 3e3 + 4e0) | (-2e01 + e02 + 4e03)",
    "(e1 + 2e2 + 3e3 + 4e0) | (e123 -2e032 + e013 + 4e021)",
    "(e03 - 2e12 + e31 + 4e23) | (e1 + 2e2 + 3e3 + 4e0)",
    "(e01 + e12 + 2e31 + 3e23) | (e02 - 2e12 + e31 + 4e23)",
    "(e03 - 2e12 + e31 + 4e23) | (-2e01 + e02 + 4e03)",
    "(e03 + e12 + 2e31 + 3e23) | (e123 -2e032 + e013 + 4e021)",
    "(-2e01 + e02 + 4e03) | (e1 + 2e2 + 3e3 + 4e0)",
    "(-2e01 + e02 + 4e03) | (e03 + e12 + 2e31 + 3e23)",
    "(-2e01 + e02 + 4e03) | (e123 - 2e032 + 1e013 + 4e021)",
    "(e123 - 2e032 + e013 + 4e021) | (e1 + 2e2 + 3e3 + 4e0)",
    "(e123 - 2e032 + e013 + 4e021) | (e03 + e12 + 2e31 + 3e23)",
    "(e123 - 2e032 + e013 + 4e021) | (e01 + 2e02 + 3e03)",
    "(e123 + e032 + 2e013 + 3e021) | (e123 - 2e032 + e013 + 4e021)",
    "(1 + e0 + e1 + e2 + e3 + e12 + e31 + e23 + e01 + e02 + e03 + e123 + e021 + e013 + e032 + e0123) | (1 + e0 + e1 + e2 + e3 + e12 + e31 + e23 + e01 + e02 + e03 + e123 + e021 + e013 + e032 + e0123)",
    "(3e1 + 2e2 + e3 - e0) * (e1 + 2e2 - e3 - 3e0) *(3e1 + 2e2 + e3 - e0)",
    "(3e1 + 2e2 + e3 - e0) * (e01 - 2e02 + 3e03 - 4e12 + 5e31 + 6e23) *(3e1 + 2e2 + e3 - e0)",
    "(3e1 + 2e2 + e3 - e0) * (e123 + 4e032 - 2e013 - e021) *(3e1 + 2e2 + e3 - e0)",
    "(1 + 2e12 - 3e31 + 4e23) * (2e0 + 3e1 + 4e2 + 5e3) * (1 - 2e12 + 3e31 - 4e23)",
    "(1 + 2e12 - 3e31 + 4e23) * (2e123 + 3e032 + 4e013 + 5e021) * (1 - 2e12 + 3e31 - 4e23)",
    "(1 + 2e12 - 3e31 + 4e23) * (-e01 + 2e02 - 3e03 + 4e12 + 5e31 - 6e23) * (1 - 2e12 + 3e31 - 4e23)",
    "(1 - 5e01 - 2e02 + 2e03) * (-e01 + 2e02 - 3e03 + 4e12 + 5e31 - 6e23) * (1 + 5e01 + 2e02 - 2e03)",
    "(2 - e12 + 3e31 + 4e23 - 5e01 - 2e02 + 2e03 - 3e0123) * (-e01 + 2e02 - 3e03 + 4e12 + 5e31 - 6e23) * (2 + e12 - 3e31 - 4e23 + 5e01 + 2e02 - 2e03 - 3e0123)",
    "(1 + 2e12 - 3e31 + 4e23 + 5e01 + 6e02 + 7e03 + 8e0123) * (2e0 + 3e1 + 4e2 + 5e3) * (1 - 2e12 + 3e31 - 4e23 - 5e01 - 6e02 - 7e03 + 8e0123)",
    "(1 + 2e12 - 3e31 + 4e23 + 5e01 + 6e02 + 7e03 + 8e0123) * (2e123 + 3e032 + 4e013 + 5e021) * (1 - 2e12 + 3e31 - 4e23 - 5e01 - 6e02 - 7e03 + 8e0123)",
    "(1 + 2e12 - 3e31 + 4e23 + 5e01 + 6e02 + 7e03 + 8e0123) * e123 * (1 - 2e12 + 3e31 - 4e23 - 5e01 - 6e02 - 7e03 + 8e0123)",
    "(2 + 3e23 + 4e31 + 5e12) * (6 + 7e23 + 8e31 + 9e12)",
    "(2 + 3e23 + 4e31 + 5e12 + 6e01 + 7e02 + 8e03 + 9e0123) * (6 + 7e23 + 8e31 + 9e12 + 10e01 + 11e02 + 12e03 + 13e0123)",
    "(e23 - 2e31 - 3e12) * (2e23 + e31 + 3e12)"], fits line.toList = true := by
  fits_lines

set_option maxRecDepth 8000 in
/-- C104, a line: the motor applied to a point, with `float` coefficients, for all values of the
variables. -/
theorem C104_motor_on_point {K : Type} [CommRing K] (a b c d : V4 K) (u v : K) : ShowsF (env a b c d u v)
    "(b0 + b1 e23 + b2 e31 + b3 e12 + c1 e01 + c2 e02 + c3 e03 + c0 e0123) * (a0 e123 + a1 e032 + a2 e013 + a3 e021) * (b0 - b1 e23 - b2 e31 - b3 e12 - c1 e01 - c2 e02 - c3 e03 + c0 e0123) "
    (((⟨b, c⟩ : Motor K).onPoint ⟨a⟩).mv) :=
  (C73_line286 a b c d u v).float (by fits_line)

/-- The engine on a line with integer numbers, over the integers and over `float`. -/
example : fits "3 e12 * (2 e1 + x e2)".toList = true := by fits_line

/-- C104 fails past the bound: the line `16777216 + 1 - 16777216` is 1 over the integers, 0 (no terms)
over `float`. -/
theorem C104_bound_fails : ∃ cs, fits cs = false ∧
    parse ival ⟨3, 0, 1⟩ cs = some (.ok ⟨some ⟨3, 0, 1⟩, [(0, ⟨[(⟨[]⟩, 1)]⟩)]⟩) ∧
    parse fval ⟨3, 0, 1⟩ cs = some (.ok ⟨some ⟨3, 0, 1⟩, []⟩) := by
  refine ⟨['1', '6', '7', '7', '7', '2', '1', '6', '+', '1', '-', '1', '6', '7', '7', '7', '2', '1', '6'], ?_, ?_, ?_⟩ <;>
    decide +kernel

end Klein.Sym
