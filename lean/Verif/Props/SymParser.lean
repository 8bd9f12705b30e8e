import Verif.Props.SymTokens
import Verif.Props.SymMv

/-!
# C62: the parser of the symbolic shell

The grammar is the relation `Derives`, with its precedence levels; a derivation has a tree, whose
value is computed with the operations of the multivector class.  The parser is shown to be safe and
to terminate on every token list ending in `eof`, and to compute the value of a derivation, from the
longest prefix the grammar accepts.

The coefficients are of any type with the operations of the class.  Where the parser counts signs
(`- - x`) the laws it relies on are those of `Signs`, which hold of a commutative ring and of
`float`.
-/

set_option linter.unusedSectionVars false

namespace Klein.Sym

/-- Binary operators. -/
inductive BinOp
  | add | sub | mul | ext | reg | dot
  deriving DecidableEq, Repr

/-- Syntax trees: a coefficient, possibly a variable and a blade; signs and reversions; binary
operations. -/
inductive Ast (F : Type)
  | atom (x : F) (var : Option (List Char)) (blade : ℕ) (negative : Bool)
  | neg (e : Ast F)
  | rev (e : Ast F)
  | bin (o : BinOp) (l r : Ast F)

/-- The operators by level: sums bind least, then `*`, `^`, `&`, and `|` binds most. -/
def opAt (k : ℕ) (c : Char) : Option BinOp :=
  match k with
  | 0 => if c = '+' then some .add else if c = '-' then some .sub else none
  | 1 => if c = '*' then some .mul else none
  | 2 => if c = '^' then some .ext else none
  | 3 => if c = '&' then some .reg else none
  | 4 => if c = '|' then some .dot else none
  | _ => none

/-- `Derives k ts e`: the tokens `ts` are an expression of level `k` with tree `e`.  Operators
associate to the left; level 5 are the factors, with their unary operators. -/
inductive Derives {F : Type} [One F] : ℕ → List (Token F) → Ast F → Prop
  | number (x) : Derives 5 [.number x] (.atom x none 0 false)
  | numberElement (x v n) : Derives 5 [.number x, .element v n] (.atom x none v n)
  | identifier (s) : Derives 5 [.identifier s] (.atom 1 (some s) 0 false)
  | identifierElement (s v n) : Derives 5 [.identifier s, .element v n] (.atom 1 (some s) v n)
  | element (v n) : Derives 5 [.element v n] (.atom 1 none v n)
  | paren {ts e} : Derives 0 ts e → Derives 5 (.delimiter '(' :: ts ++ [.delimiter ')']) e
  | plus {ts e} : Derives 5 ts e → Derives 5 (.op '+' :: ts) e
  | minus {ts e} : Derives 5 ts e → Derives 5 (.op '-' :: ts) (.neg e)
  | tilde {ts e} : Derives 5 ts e → Derives 5 (.op '~' :: ts) (.rev e)
  | lift {k ts e} : k < 5 → Derives (k + 1) ts e → Derives k ts e
  | bin {k c o l r el er} : opAt k c = some o → Derives k l el → Derives (k + 1) r er →
      Derives k (l ++ .op c :: r) (.bin o el er)

variable {F : Type} [Add F] [Mul F] [Neg F] [Zero F] [One F] [DecidableEq F] [ZeroTest F]

/-- The laws of signs, on coefficients in a set closed under the operations. -/
structure Signs (P : F → Prop) : Prop where
  zero : P 0
  one : P 1
  negOne : P (-1)
  add : ∀ {x y}, P x → P y → P (x + y)
  mul : ∀ {x y}, P x → P y → P (x * y)
  twice : ∀ {x}, P x → x * -1 * -1 = x
  one_mul : (1 : F) * -1 = -1

theorem Signs.neg_mul {P : F → Prop} (hP : Signs P) : (-1 : F) * -1 = 1 := by
  have := hP.twice hP.one
  rwa [hP.one_mul] at this

/-- A commutative ring. -/
theorem signs_ring {K : Type} [CommRing K] : Signs fun _ : K => True := by
  constructor <;> simp

/-- The operations of the class. -/
def BinOp.apply : BinOp → Mv (List Char) F → Mv (List Char) F → Option (Mv (List Char) F)
  | .add => Mv.add
  | .sub => Mv.sub
  | .mul => Mv.mul
  | .ext => Mv.ext
  | .reg => Mv.reg
  | .dot => Mv.dot

/-- The monomial of a variable, or 1. -/
def monOf : Option (List Char) → Mon (List Char)
  | none => ⟨[]⟩
  | some s => ⟨[(s, 1)]⟩

/-- The reversed multivector. -/
def Mv.revT (m : Mv (List Char) F) : Mv (List Char) F :=
  { m with terms := m.terms.map fun (e, p) => (e, if Alg.rev e then p.neg else p) }

/-- The value of a tree, with the operations of the class (`none`: undefined behaviour in one). -/
def Ast.value (a : Alg) : Ast F → Option (Mv (List Char) F)
  | .atom x v b n => some ⟨some a, [(b, ⟨[(monOf v, if n then x * -1 else x)]⟩)]⟩
  | .neg e => e.value a |>.map Mv.neg
  | .rev e => e.value a |>.map Mv.revT
  | .bin o l r => do o.apply (← l.value a) (← r.value a)

/-- All coefficients are in the set. -/
def Poly.All (P : F → Prop) {X : Type} (p : Poly X F) : Prop := ∀ mf ∈ p.terms, P mf.2

/-- All coefficients are in the set. -/
def Mv.All (P : F → Prop) {X : Type} (m : Mv X F) : Prop := ∀ ep ∈ m.terms, ep.2.All P

section All
variable {P : F → Prop} (hP : Signs P)
include hP

theorem Poly.neg_all {p : Poly (List Char) F} (h : p.All P) : p.neg.All P := by
  intro mf hmf
  simp only [Poly.neg, List.mem_map] at hmf
  obtain ⟨⟨m, f⟩, h1, rfl⟩ := hmf
  exact hP.mul (h _ h1) hP.negOne

theorem Poly.add_all {p q r : Poly (List Char) F} (hp : p.All P) (hq : q.All P)
    (h : p.addAssign q = some r) : r.All P := by
  simp only [Poly.addAssign, Option.bind_eq_bind, Option.bind_eq_some_iff, pure, Option.some.injEq] at h
  obtain ⟨fs, h1, rfl⟩ := h
  refine foldlM_inv (fun s : List (Mon (List Char) × F) => ∀ mf ∈ s, P mf.2) _ _ _
    (fun s a s' ha hs h kv hkv => ?_) hp h1
  rcases upsert_mem Mon.lt_sound _ _ h kv hkv with h2 | ⟨-, h2 | ⟨v, h2, h3⟩⟩
  · exact hs kv h2
  · simp only [Option.some.injEq] at h2; rw [← h2]; exact hq a ha
  · simp only [Poly.addCoef, Option.some.injEq] at h3
    split_ifs at h3
    simp only [Option.some.injEq] at h3
    rw [← h3]
    exact hP.add (hs _ h2) (hq a ha)

theorem Poly.row_all {m1 : Mon (List Char)} {f1 : F} {q r : Poly (List Char) F} (hf : P f1)
    (hq : q.All P) (h : Poly.row m1 f1 q = some r) : r.All P := by
  simp only [Poly.row, Option.bind_eq_bind, Option.bind_eq_some_iff, pure, Option.some.injEq] at h
  obtain ⟨fs, h1, rfl⟩ := h
  refine foldlM_inv (fun s : List (Mon (List Char) × F) => ∀ mf ∈ s, P mf.2) _ _ _
    (fun s a s' ha hs h kv hkv => ?_) (by simp) h1
  split_ifs at h
  · cases h; exact hs kv hkv
  · simp only [Option.bind_eq_some_iff] at h
    obtain ⟨m, -, h⟩ := h
    rcases upsert_mem Mon.lt_sound _ _ h kv hkv with h2 | ⟨-, h2 | ⟨v, h2, h3⟩⟩
    · exact hs kv h2
    · simp only [Option.some.injEq] at h2; rw [← h2]; exact hP.add hP.zero (hP.mul hf (hq a ha))
    · simp only [Option.some.injEq] at h3
      rw [← h3]
      exact hP.add (hs _ h2) (hP.mul hf (hq a ha))

theorem Poly.mul_all {p q r : Poly (List Char) F} (hp : p.All P) (hq : q.All P)
    (h : p.mul q = some r) : r.All P :=
  foldlM_inv (fun s : Poly (List Char) F => s.All P) _ _ _ (fun s a s' ha hs h => by
    simp only [Option.bind_eq_bind, Option.bind_eq_some_iff] at h
    obtain ⟨t, h1, h2⟩ := h
    exact Poly.add_all hP hs (Poly.row_all hP (hp a ha) hq h1) h2) (by intro mf h; simp at h) h

theorem Mv.neg_all {m : Mv (List Char) F} (h : m.All P) : m.neg.All P := by
  intro ep hep
  simp only [Mv.neg, List.mem_map] at hep
  obtain ⟨⟨e, p⟩, h1, rfl⟩ := hep
  exact Poly.neg_all hP (h _ h1)

theorem Mv.revT_all {m : Mv (List Char) F} (h : m.All P) : m.revT.All P := by
  intro ep hep
  simp only [Mv.revT, List.mem_map] at hep
  obtain ⟨⟨e, p⟩, h1, rfl⟩ := hep
  simp only
  split_ifs
  · exact Poly.neg_all hP (h _ h1)
  · exact h _ h1

theorem Mv.push_all {m r : Mv (List Char) F} {e : ℕ} {p : Poly (List Char) F} (hm : m.All P)
    (hp : p.All P) (h : m.push e p = some r) : r.All P := by
  simp only [Mv.push, Option.bind_eq_bind, Option.bind_eq_some_iff, pure, Option.some.injEq] at h
  obtain ⟨ts, h1, rfl⟩ := h
  intro kv hkv
  rcases upsert_mem (K := Bl) ltE_sound _ _ h1 kv hkv with h2 | ⟨-, h2 | ⟨v, h2, h3⟩⟩
  · exact hm kv h2
  · cases h2; exact hp
  · simp only [Option.bind_eq_some_iff, Option.some.injEq] at h3
    obtain ⟨s, h4, h5⟩ := h3
    split_ifs at h5
    simp only [Option.some.injEq] at h5
    rw [← h5]
    exact Poly.add_all hP (hm _ h2) hp h4

theorem Mv.prod_all {op : Alg → ℕ → ℕ → Option ℤ} {m n r : Mv (List Char) F} (hm : m.All P)
    (hn : n.All P) (h : Mv.prod op m n = some r) : r.All P := by
  simp only [Mv.prod, Option.bind_eq_bind, Option.bind_eq_some_iff, pure, Option.some.injEq] at h
  obtain ⟨a, -, ts, h1, rfl⟩ := h
  have := foldlM_inv (fun s : List (ℕ × Poly (List Char) F) => ∀ fq ∈ s, fq.2.All P)
    _ _ _ (fun s ep s' hep hs h => foldlM_inv
      (fun s : List (ℕ × Poly (List Char) F) => ∀ fq ∈ s, fq.2.All P) _ _ _
      (fun s fq s' hfq hs h => by
        simp only [Mv.step, Option.bind_eq_bind, Option.bind_eq_some_iff] at h
        obtain ⟨z, -, h⟩ := h
        by_cases h0 : z = 0
        · rw [if_pos h0] at h
          simp only [pure, Option.some.injEq] at h
          exact h ▸ hs
        · rw [if_neg h0] at h
          simp only [Option.bind_eq_some_iff] at h
          obtain ⟨p12, hp, h⟩ := h
          have h12 := Poly.mul_all hP (hm ep hep) (hn fq hfq) hp
          have hq : (if z < 0 then p12.neg else p12).All P := by
            split_ifs
            · exact Poly.neg_all hP h12
            · exact h12
          intro kv hkv
          rcases upsert_mem (K := Bl) ltE_sound _ _ h kv hkv with h3 | ⟨-, h3 | ⟨v, h3, h4⟩⟩
          · exact hs kv h3
          · exact Poly.add_all hP (by intro mf h; simp at h) hq h3
          · simp only [Option.bind_eq_some_iff, pure, Option.some.injEq] at h4
            obtain ⟨t, h5, rfl⟩ := h4
            exact Poly.add_all hP (hs _ h3) hq h5) hs h)
    (fun _ h => absurd h List.not_mem_nil) h1
  exact fun fq hfq => this fq (List.mem_of_mem_filter hfq)

theorem BinOp.apply_all {o : BinOp} {m n r : Mv (List Char) F} (hm : m.All P) (hn : n.All P)
    (h : o.apply m n = some r) : r.All P := by
  cases o
  · exact foldlM_inv (fun s : Mv (List Char) F => s.All P) _ _ _
      (fun s a s' ha hs h => Mv.push_all hP hs (hn a ha) h) hm h
  · exact foldlM_inv (fun s : Mv (List Char) F => s.All P) _ _ _
      (fun s a s' ha hs h => Mv.push_all hP hs (Poly.neg_all hP (hn a ha)) h) hm h
  all_goals exact Mv.prod_all hP hm hn h

/-- The numbers of a tree are in the set. -/
def Ast.Nums (P : F → Prop) : Ast F → Prop
  | .atom x _ _ _ => P x
  | .neg e => e.Nums P
  | .rev e => e.Nums P
  | .bin _ l r => l.Nums P ∧ r.Nums P

theorem Ast.value_all {a : Alg} : ∀ {e : Ast F} {m : Mv (List Char) F}, e.Nums P → e.value a = some m →
    m.All P
  | .atom x v b n, m, hn, h => by
    simp only [Ast.value, Option.some.injEq] at h
    subst h
    intro ep hep mf hmf
    simp only [List.mem_singleton] at hep
    subst hep
    simp only [List.mem_singleton] at hmf
    subst hmf
    cases n
    · exact hn
    · exact hP.mul hn hP.negOne
  | .neg e, m, hn, h => by
    simp only [Ast.value, Option.map_eq_some_iff] at h
    obtain ⟨m', h1, rfl⟩ := h
    exact Mv.neg_all hP (Ast.value_all (e := e) hn h1)
  | .rev e, m, hn, h => by
    simp only [Ast.value, Option.map_eq_some_iff] at h
    obtain ⟨m', h1, rfl⟩ := h
    exact Mv.revT_all hP (Ast.value_all (e := e) hn h1)
  | .bin o l r, m, hn, h => by
    simp only [Ast.value, Option.bind_eq_bind, Option.bind_eq_some_iff] at h
    obtain ⟨ml, h1, mr, h2, h3⟩ := h
    exact BinOp.apply_all hP (Ast.value_all (e := l) hn.1 h1) (Ast.value_all (e := r) hn.2 h2) h3

theorem Poly.neg_neg {p : Poly (List Char) F} (h : p.All P) : p.neg.neg = p := by
  cases p with
  | mk t =>
    simp only [Poly.neg, Poly.mk.injEq, List.map_map]
    conv_rhs => rw [← List.map_id t]
    refine List.map_congr_left fun mf hmf => ?_
    simp [Function.comp, hP.twice (h mf hmf)]

theorem Mv.neg_neg {m : Mv (List Char) F} (h : m.All P) : m.neg.neg = m := by
  cases m with
  | mk alg ts =>
    simp only [Mv.neg, Mv.mk.injEq, true_and, List.map_map]
    conv_rhs => rw [← List.map_id ts]
    refine List.map_congr_left fun ep hep => ?_
    simp [Function.comp, Poly.neg_neg hP (h ep hep)]

theorem Mv.revT_revT {m : Mv (List Char) F} (h : m.All P) : m.revT.revT = m := by
  cases m with
  | mk alg ts =>
    simp only [Mv.revT, Mv.mk.injEq, true_and, List.map_map]
    conv_rhs => rw [← List.map_id ts]
    refine List.map_congr_left fun ep hep => ?_
    obtain ⟨e, p⟩ := ep
    simp only [Function.comp, id, Prod.mk.injEq, true_and]
    split_ifs
    · exact Poly.neg_neg hP (h _ hep)
    · rfl

end All

theorem Mv.revT_neg (m : Mv (List Char) F) : m.neg.revT = m.revT.neg := by
  simp only [Mv.revT, Mv.neg, Mv.mk.injEq, true_and, List.map_map]
  refine List.map_congr_left fun ep _ => ?_
  simp only [Function.comp, Prod.mk.injEq, true_and]
  split_ifs <;> rfl

/-- Sign and reversion by flags. -/
def flag (n r : Bool) (m : Mv (List Char) F) : Mv (List Char) F :=
  let m := if r then m.revT else m
  if n then m.neg else m

theorem Mv.prod_alg {op : Alg → ℕ → ℕ → Option ℤ} {m n r : Mv (List Char) F}
    (h : Mv.prod op m n = some r) : r.alg = m.alg := by
  simp only [Mv.prod, Option.bind_eq_bind, Option.bind_eq_some_iff, pure, Option.some.injEq] at h
  obtain ⟨a, h1, ts, -, rfl⟩ := h
  exact h1.symm

theorem Mv.push_alg {m r : Mv (List Char) F} {e : ℕ} {p : Poly (List Char) F}
    (h : m.push e p = some r) : r.alg = m.alg := by
  simp only [Mv.push, Option.bind_eq_bind, Option.bind_eq_some_iff, pure, Option.some.injEq] at h
  obtain ⟨ts, -, rfl⟩ := h
  rfl

theorem BinOp.apply_alg {o : BinOp} {m n r : Mv (List Char) F} (h : o.apply m n = some r) :
    r.alg = m.alg := by
  cases o
  · exact foldlM_inv (fun s : Mv (List Char) F => s.alg = m.alg) _ _ _
      (fun s a s' _ hs h => by rw [Mv.push_alg h, hs]) rfl h
  · exact foldlM_inv (fun s : Mv (List Char) F => s.alg = m.alg) _ _ _
      (fun s a s' _ hs h => by rw [Mv.push_alg h, hs]) rfl h
  all_goals exact Mv.prod_alg h

theorem Ast.value_alg {a : Alg} : ∀ {e : Ast F} {m : Mv (List Char) F}, e.value a = some m →
    m.alg = some a
  | .atom x v b n, m, h => by simp only [Ast.value, Option.some.injEq] at h; rw [← h]
  | .neg e, m, h => by
    simp only [Ast.value, Option.map_eq_some_iff] at h
    obtain ⟨m', h1, rfl⟩ := h
    exact (Ast.value_alg (e := e) h1 : m'.alg = some a)
  | .rev e, m, h => by
    simp only [Ast.value, Option.map_eq_some_iff] at h
    obtain ⟨m', h1, rfl⟩ := h
    exact (Ast.value_alg (e := e) h1 : m'.alg = some a)
  | .bin o l r, m, h => by
    simp only [Ast.value, Option.bind_eq_bind, Option.bind_eq_some_iff] at h
    obtain ⟨ml, h1, mr, -, h2⟩ := h
    rw [BinOp.apply_alg h2]
    exact Ast.value_alg (e := l) h1

theorem revIf_eq {m : Mv (List Char) F} {a : Alg} (h : m.alg = some a) (r : Bool) :
    revIf r m = .ok (if r then m.revT else m) := by
  cases r
  · rfl
  · simp [revIf, Mv.rev, h, R.ofOption, Mv.revT]

/-! ### the levels of the parser -/

/-- The parsing function of a level (0 `parse_expr`, 1 `parse_term`, …, 5 `parse_factor`). -/
def lv (a : Alg) (k n : ℕ) : P F :=
  match k with
  | 0 => parseExpr a (n + 1)
  | 1 => parseTerm a (parseExpr a n) n
  | 2 => binLevel '^' Mv.ext (binLevel '&' Mv.reg
      (binLevel '|' Mv.dot (parseFactor a (parseExpr a n)) n) n) n
  | 3 => binLevel '&' Mv.reg (binLevel '|' Mv.dot (parseFactor a (parseExpr a n)) n) n
  | 4 => binLevel '|' Mv.dot (parseFactor a (parseExpr a n)) n
  | _ => parseFactor a (parseExpr a n)

/-- The loop of a level. -/
def lp (a : Alg) (k s n : ℕ) (m : Mv (List Char) F) : P F :=
  match k with
  | 0 => exprLoop (lv a 1 s) n m
  | 1 => binLoop '*' Mv.mul (lv a 2 s) n m
  | 2 => binLoop '^' Mv.ext (lv a 3 s) n m
  | 3 => binLoop '&' Mv.reg (lv a 4 s) n m
  | _ => binLoop '|' Mv.dot (lv a 5 s) n m

theorem lv_eq (a : Alg) {k : ℕ} (hk : k < 5) (n : ℕ) (ts : List (Token F)) :
    lv a k n ts = (lv a (k + 1) n ts).bind fun mr => lp a k n n mr.1 mr.2 := by
  interval_cases k <;> rfl

theorem lp_op (a : Alg) {k : ℕ} (hk : k < 5) (s n : ℕ) (m : Mv (List Char) F) (c : Char)
    (ts : List (Token F)) {o : BinOp} (ho : opAt k c = some o) :
    lp a k s (n + 1) m (.op c :: ts) = (lv a (k + 1) s ts).bind fun mr =>
      (R.ofOption (o.apply m mr.1)).bind fun out => lp a k s n out mr.2 := by
  interval_cases k
  · unfold opAt at ho
    simp only at ho
    split_ifs at ho with h1 h2
    · cases ho; simp only [lp, exprLoop, if_pos h1]; rfl
    · cases ho; simp only [lp, exprLoop, if_neg h1, if_pos h2]; rfl
  all_goals
    unfold opAt at ho
    simp only at ho
    split_ifs at ho with h1
    cases ho; simp only [lp, binLoop, if_pos h1]; rfl

/-- The head of the tokens is not an operator of the level. -/
def NotOp (k : ℕ) : List (Token F) → Prop
  | .op c :: _ => opAt k c = none
  | _ => True

theorem lp_stop (a : Alg) {k : ℕ} (hk : 0 < k) (hk' : k < 5) (s n : ℕ) (m : Mv (List Char) F)
    (ts : List (Token F)) (h : NotOp k ts) : lp a k s (n + 1) m ts = .ok (m, ts) := by
  cases ts with
  | nil => interval_cases k <;> rfl
  | cons t ts =>
    cases t with
    | op c =>
      unfold NotOp opAt at h
      interval_cases k <;> simp only at h <;> split_ifs at h with h1 <;>
        simp only [lp, binLoop, if_neg h1]
    | _ => interval_cases k <;> rfl

/-- What one iteration of a loop can do. -/
theorem lp_cases (a : Alg) {k : ℕ} (hk : k < 5) (s n : ℕ) (m : Mv (List Char) F)
    (ts : List (Token F)) : lp a k s (n + 1) m ts = .ok (m, ts) ∨ lp a k s (n + 1) m ts = .throw ∨
      ∃ c ts' o, ts = .op c :: ts' ∧ opAt k c = some o := by
  rcases Nat.eq_zero_or_pos k with rfl | h0
  · cases ts with
    | nil => exact Or.inl rfl
    | cons t ts =>
      cases t with
      | op c =>
        cases ho : opAt 0 c with
        | some o => exact Or.inr (Or.inr ⟨c, ts, o, rfl, ho⟩)
        | none =>
          unfold opAt at ho
          simp only at ho
          split_ifs at ho with h1 h2
          refine Or.inr (Or.inl ?_)
          simp only [lp, exprLoop, if_neg h1, if_neg h2]
      | eof => exact Or.inl rfl
      | delimiter c => exact Or.inl rfl
      | _ => exact Or.inr (Or.inl rfl)
  · by_cases h : NotOp k ts
    · exact Or.inl (lp_stop a h0 hk s n m ts h)
    · refine Or.inr (Or.inr ?_)
      match ts, h with
      | .op c :: ts, h =>
        cases ho : opAt k c with
        | some o => exact ⟨c, ts, o, rfl, ho⟩
        | none => exact absurd ho h
      | [], h => exact absurd trivial h
      | .element .. :: _, h => exact absurd trivial h
      | .number .. :: _, h => exact absurd trivial h
      | .identifier .. :: _, h => exact absurd trivial h
      | .delimiter .. :: _, h => exact absurd trivial h
      | .eof :: _, h => exact absurd trivial h

theorem lp_zero (a : Alg) {k : ℕ} (hk : k < 5) (s : ℕ) (m : Mv (List Char) F)
    (ts : List (Token F)) : lp a k s 0 m ts = .more := by
  interval_cases k <;> (first | rfl | (unfold lp; simp only; unfold exprLoop; rfl) |
    (unfold lp; simp only; unfold binLoop; rfl))

/-! ### safety and termination -/

/-- A token list with one `eof`, at its end. -/
def EndsEof (ts : List (Token F)) : Prop := ∃ l, ts = l ++ [Token.eof] ∧ Token.eof ∉ l

theorem EndsEof.ne_nil {ts : List (Token F)} (h : EndsEof ts) : ts ≠ [] := by
  obtain ⟨l, rfl, -⟩ := h; simp

theorem EndsEof.tail {t : Token F} {ts : List (Token F)} (h : EndsEof (t :: ts))
    (ht : t ≠ .eof) : EndsEof ts := by
  obtain ⟨l, h1, h2⟩ := h
  cases l with
  | nil => simp at h1; exact absurd h1.1 ht
  | cons x l =>
    simp only [List.cons_append, List.cons.injEq] at h1
    exact ⟨l, h1.2, fun h => h2 (List.mem_cons_of_mem _ h)⟩

/-- Neither past the end nor out of iterations; a result leaves fewer tokens (`strict`: at least one
less), ending in `eof`. -/
def Fine (strict : ℕ) (ts : List (Token F)) (x : R (Mv (List Char) F × List (Token F))) : Prop :=
  x ≠ .ub .pastEnd ∧ x ≠ .more ∧
    ∀ m rest, x = .ok (m, rest) → EndsEof rest ∧ rest.length + strict ≤ ts.length

theorem R.ofOption_cases {α : Type} (o : Option α) :
    (∃ a, o = some a ∧ R.ofOption o = .ok a) ∨ R.ofOption o = .ub .arith := by
  cases o
  · exact Or.inr rfl
  · exact Or.inl ⟨_, rfl, rfl⟩

theorem fine_arith (k : ℕ) (ts : List (Token F)) : Fine k ts (.ub .arith) :=
  ⟨by simp, by simp, by simp⟩

theorem fine_throw (k : ℕ) (ts : List (Token F)) : Fine k ts .throw :=
  ⟨by simp, by simp, by simp⟩

theorem fine_ok {k : ℕ} {ts rest : List (Token F)} {m : Mv (List Char) F} (h : EndsEof rest)
    (hl : rest.length + k ≤ ts.length) : Fine k ts (.ok (m, rest)) := by
  refine ⟨by simp, by simp, fun m' rest' h' => ?_⟩
  simp only [R.ok.injEq, Prod.mk.injEq] at h'
  obtain ⟨-, rfl⟩ := h'
  exact ⟨h, hl⟩

theorem unary_cases : ∀ (ts : List (Token F)) (n r : Bool), EndsEof ts →
    unary ts n r = .throw ∨ ∃ n' r' t ts', unary ts n r = .ok (n', r', t :: ts') ∧
      EndsEof (t :: ts') ∧ (t :: ts').length ≤ ts.length
  | [], n, r, h => absurd rfl h.ne_nil
  | .op c :: ts, n, r, h => by
    have ht := h.tail (by simp)
    simp only [unary]
    split_ifs
    · rcases unary_cases ts (!n) r ht with h1 | ⟨n', r', t, ts', h1, h2, h3⟩
      · exact Or.inl h1
      · exact Or.inr ⟨n', r', t, ts', h1, h2, by simp at h3 ⊢; omega⟩
    · rcases unary_cases ts n (!r) ht with h1 | ⟨n', r', t, ts', h1, h2, h3⟩
      · exact Or.inl h1
      · exact Or.inr ⟨n', r', t, ts', h1, h2, by simp at h3 ⊢; omega⟩
    · exact Or.inl rfl
    · rcases unary_cases ts n r ht with h1 | ⟨n', r', t, ts', h1, h2, h3⟩
      · exact Or.inl h1
      · exact Or.inr ⟨n', r', t, ts', h1, h2, by simp at h3 ⊢; omega⟩
  | .element v b :: ts, n, r, h => Or.inr ⟨n, r, _, _, rfl, h, le_rfl⟩
  | .number x :: ts, n, r, h => Or.inr ⟨n, r, _, _, rfl, h, le_rfl⟩
  | .identifier s :: ts, n, r, h => Or.inr ⟨n, r, _, _, rfl, h, le_rfl⟩
  | .delimiter s :: ts, n, r, h => Or.inr ⟨n, r, _, _, rfl, h, le_rfl⟩
  | .eof :: ts, n, r, h => Or.inr ⟨n, r, _, _, rfl, h, le_rfl⟩

/-- `mv out{a}; out.push(v, p)` for a fresh `out`. -/
theorem push_fresh (a : Alg) (v : ℕ) (p : Poly (List Char) F) :
    (⟨some a, []⟩ : Mv (List Char) F).push v p = some ⟨some a, [(v, p)]⟩ := rfl

theorem scaled_ok (a : Alg) (n r : Bool) (p : Poly (List Char) F) (t : Token F)
    (ts : List (Token F)) : ∃ m, scaled a n r p (t :: ts) = match t with
      | .element _ _ => .ok (m, ts)
      | _ => .ok (m, t :: ts) := by
  cases t with
  | element v neg =>
    simp only [scaled, push_fresh, R.ofOption, R.bind_ok]
    rw [revIf_eq rfl]
    exact ⟨_, rfl⟩
  | _ =>
    simp only [scaled, push_fresh, R.ofOption, R.bind_ok]
    rw [revIf_eq rfl]
    exact ⟨_, rfl⟩

theorem scaled_eq {P : F → Prop} (hP : Signs P) (a : Alg) (n r : Bool) {p : Poly (List Char) F}
    (hp : p.All P) (t : Token F) (ts : List (Token F)) : scaled a n r p (t :: ts) = match t with
      | .element v neg => .ok (flag n r ⟨some a, [(v, if neg then p.neg else p)]⟩, ts)
      | _ => .ok (flag n r ⟨some a, [(0, p)]⟩, t :: ts) := by
  have key : ∀ (n neg : Bool) (v : ℕ), revIf r (⟨some a, [(v, if (if neg then !n else n) then p.neg
      else p)]⟩ : Mv (List Char) F) = .ok (flag n r ⟨some a, [(v, if neg then p.neg else p)]⟩) := by
    intro n neg v
    rw [revIf_eq rfl]
    congr 1
    cases r <;> cases n <;> cases neg <;>
      simp [flag, Mv.neg, Mv.revT, Poly.neg_neg hP hp] <;> split_ifs <;>
      simp [Poly.neg_neg hP hp]
  have key0 := fun n v => key n false v
  simp only [Bool.false_eq_true, if_false] at key0
  cases t with
  | element v neg =>
    simp only [scaled, push_fresh, R.ofOption, R.bind_ok]
    rw [key]; rfl
  | _ =>
    simp only [scaled, push_fresh, R.ofOption, R.bind_ok]
    rw [key0]; rfl

theorem element_ok (a : Alg) (n r neg : Bool) (v : ℕ) (ts : List (Token F)) : ∃ m,
    ((R.ofOption ((⟨[]⟩ : Poly (List Char) F).push ⟨[]⟩ (if (if neg then !n else n) then -1 else 1))).bind
      fun p => (R.ofOption ((⟨some a, []⟩ : Mv (List Char) F).push v p)).bind fun out =>
        (revIf r out).bind fun out => R.ok (out, ts)) = .ok (m, ts) := by
  have h : ∀ x : F, (⟨[]⟩ : Poly (List Char) F).push ⟨[]⟩ x = some ⟨[(⟨[]⟩, x)]⟩ := fun _ => rfl
  simp only [h, R.ofOption, R.bind_ok, push_fresh]
  rw [revIf_eq rfl]
  exact ⟨_, rfl⟩

/-- A lone element. -/
theorem element_eq {P : F → Prop} (hP : Signs P) (a : Alg) (n r neg : Bool) (v : ℕ)
    (ts : List (Token F)) :
    ((R.ofOption ((⟨[]⟩ : Poly (List Char) F).push ⟨[]⟩ (if (if neg then !n else n) then -1 else 1))).bind
      fun p => (R.ofOption ((⟨some a, []⟩ : Mv (List Char) F).push v p)).bind fun out =>
        (revIf r out).bind fun out => R.ok (out, ts))
      = .ok (flag n r ⟨some a, [(v, ⟨[(⟨[]⟩, if neg then 1 * -1 else 1)]⟩)]⟩, ts) := by
  have h : ∀ x : F, (⟨[]⟩ : Poly (List Char) F).push ⟨[]⟩ x = some ⟨[(⟨[]⟩, x)]⟩ := fun _ => rfl
  have h1 := hP.one_mul
  have h2 := hP.neg_mul
  simp only [h, R.ofOption, R.bind_ok, push_fresh]
  rw [revIf_eq rfl, R.bind_ok]
  congr 2
  cases r <;> cases n <;> cases neg <;> simp [flag, Mv.neg, Mv.revT, Poly.neg, h1, h2] <;>
    split_ifs <;> simp [h1, h2]

theorem factor_fine (a : Alg) (n : ℕ) (expr : P F) (ts : List (Token F)) (hts : EndsEof ts)
    (hl : ts.length ≤ n + 1)
    (he : ∀ ts : List (Token F), EndsEof ts → ts.length ≤ n → Fine 0 ts (expr ts)) :
    Fine 1 ts (parseFactor a expr ts) := by
  unfold parseFactor
  rcases unary_cases ts false false hts with h1 | ⟨n', r', t, ts', h1, h2, h3⟩
  · rw [h1]; exact fine_throw _ _
  rw [h1, R.bind_ok]
  simp only [factorBody]
  have sc : ∀ p : Poly (List Char) F, t ≠ .eof → Fine 1 ts (scaled a n' r' p ts') := by
    intro p ht
    have h4 := h2.tail ht
    obtain ⟨t', ts'', rfl⟩ := List.exists_cons_of_ne_nil h4.ne_nil
    obtain ⟨m, hm⟩ := scaled_ok a n' r' p t' ts''
    rw [hm]
    simp only [List.length_cons] at h3
    cases t' with
    | element v neg => exact fine_ok (h4.tail (by simp)) (by omega)
    | _ => exact fine_ok h4 (by simp; omega)
  cases t with
  | identifier s => exact sc _ (by simp)
  | number x => exact sc _ (by simp)
  | element v neg =>
    simp only
    obtain ⟨m, hm⟩ := element_ok a n' r' neg v ts'
    rw [hm]
    exact fine_ok (h2.tail (by simp)) (by simpa using h3)
  | delimiter c =>
    simp only
    by_cases hc : c = '('
    swap
    · rw [if_neg hc]; exact fine_throw _ _
    · rw [if_pos hc]
      have h4 := h2.tail (by simp)
      simp only [List.length_cons] at h3
      obtain ⟨f1, f2, f3⟩ := he ts' h4 (by omega)
      cases hx : expr ts' with
      | throw => exact fine_throw _ _
      | more => exact absurd hx f2
      | ub u =>
        refine ⟨?_, by simp, by simp⟩
        rw [hx] at f1; exact f1
      | ok mr =>
        obtain ⟨m, rest⟩ := mr
        obtain ⟨g1, g2⟩ := f3 m rest hx
        obtain ⟨t, rest, rfl⟩ := List.exists_cons_of_ne_nil g1.ne_nil
        simp only [R.bind_ok]
        cases t with
        | delimiter c' =>
          simp only
          by_cases hc' : c' = ')'
          · rw [if_pos hc']
            have g3 := g1.tail (by simp)
            simp only [List.length_cons] at g2
            have : ∀ y : R (Mv (List Char) F), y ≠ .more → y ≠ .ub .pastEnd →
                Fine 1 ts (y.bind fun m => .ok (if n' = true then m.neg else m, rest)) := by
              intro y h1 h2
              cases y with
              | ok m => exact fine_ok g3 (by omega)
              | throw => exact fine_throw _ _
              | ub u => exact ⟨by simpa using h2, by simp, by simp⟩
              | more => exact absurd rfl h1
            refine this _ ?_ ?_ <;> unfold revIf <;> split_ifs <;>
              rcases R.ofOption_cases m.rev with ⟨_, -, h⟩ | h <;> simp [h]
          · rw [if_neg hc']; exact fine_throw _ _
        | _ => exact fine_throw _ _
  | op c => exact fine_throw _ _
  | eof => exact fine_throw _ _

theorem fine_bind_arith {k : ℕ} {ts : List (Token F)} {o : Option (Mv (List Char) F)}
    {f : Mv (List Char) F → R (Mv (List Char) F × List (Token F))} (h : ∀ m, Fine k ts (f m)) :
    Fine k ts ((R.ofOption o).bind f) := by
  rcases R.ofOption_cases o with ⟨m, -, h1⟩ | h1 <;> rw [h1]
  · exact h m
  · exact fine_arith _ _

theorem fine_mono {k k' : ℕ} {ts ts' : List (Token F)} {x : R (Mv (List Char) F × List (Token F))}
    (h : Fine k ts x) (hl : ts.length + k' ≤ ts'.length + k) : Fine k' ts' x :=
  ⟨h.1, h.2.1, fun m rest hx => ⟨(h.2.2 m rest hx).1, by have := (h.2.2 m rest hx).2; omega⟩⟩

theorem fine_bind {k k' : ℕ} {ts ts' : List (Token F)}
    {x : R (Mv (List Char) F × List (Token F))}
    {f : Mv (List Char) F × List (Token F) → R (Mv (List Char) F × List (Token F))}
    (h : Fine k ts x) (hf : ∀ m rest, EndsEof rest → rest.length + k ≤ ts.length →
      Fine k' ts' (f (m, rest))) : Fine k' ts' (x.bind f) := by
  cases x with
  | throw => exact fine_throw _ _
  | more => exact absurd rfl h.2.1
  | ub u => exact ⟨h.1, by simp, by simp⟩
  | ok mr =>
    obtain ⟨m, rest⟩ := mr
    obtain ⟨g1, g2⟩ := h.2.2 m rest rfl
    exact hf m rest g1 g2

theorem lp_fine (a : Alg) {k : ℕ} (hk : k < 5) (s N : ℕ)
    (hs : ∀ ts : List (Token F), EndsEof ts → ts.length ≤ N → Fine 1 ts (lv a (k + 1) s ts)) :
    ∀ (n : ℕ) (m : Mv (List Char) F) (ts : List (Token F)), EndsEof ts → ts.length ≤ n →
      ts.length ≤ N → Fine 0 ts (lp a k s n m ts)
  | 0, m, ts, h, hl, _ => absurd (List.length_eq_zero_iff.1 (Nat.le_zero.1 hl)) h.ne_nil
  | n + 1, m, ts, h, hl, hN => by
    rcases lp_cases a hk s n m ts with h1 | h1 | ⟨c, ts', o, rfl, ho⟩
    · rw [h1]; exact fine_ok h le_rfl
    · rw [h1]; exact fine_throw _ _
    · rw [lp_op a hk s n m c ts' ho]
      have ht := h.tail (by simp)
      simp only [List.length_cons] at hl hN
      refine fine_bind (hs ts' ht (by omega)) fun m' rest h1 h2 => fine_bind_arith fun out => ?_
      exact fine_mono (lp_fine a hk s N hs n out rest h1 (by omega) (by omega))
        (by simp only [List.length_cons]; omega)

theorem lv_fine (a : Alg) (n : ℕ) : ∀ k ≤ 5, ∀ ts : List (Token F), EndsEof ts → ts.length ≤ n →
    Fine 1 ts (lv a k n ts) := by
  induction n with
  | zero =>
    intro k _ ts h hl
    exact absurd (List.length_eq_zero_iff.1 (Nat.le_zero.1 hl)) h.ne_nil
  | succ n ih =>
    have h5 : ∀ ts : List (Token F), EndsEof ts → ts.length ≤ n + 1 →
        Fine 1 ts (lv a 5 (n + 1) ts) := fun ts h hl =>
      factor_fine a n _ ts h hl fun ts h hl => fine_mono (ih 0 (by omega) ts h hl) (by omega)
    have down : ∀ k < 5, (∀ ts : List (Token F), EndsEof ts → ts.length ≤ n + 1 →
        Fine 1 ts (lv a (k + 1) (n + 1) ts)) → ∀ ts : List (Token F), EndsEof ts →
        ts.length ≤ n + 1 → Fine 1 ts (lv a k (n + 1) ts) := by
      intro k hk hs ts h hl
      rw [lv_eq a hk]
      exact fine_bind (hs ts h hl) fun m rest h1 h2 =>
        fine_mono (lp_fine a hk (n + 1) (n + 1) hs (n + 1) m rest h1 (by omega) (by omega)) (by omega)
    have h4 := down 4 (by omega) h5
    have h3 := down 3 (by omega) h4
    have h2 := down 2 (by omega) h3
    have h1 := down 1 (by omega) h2
    have h0 := down 0 (by omega) h1
    intro k hk
    interval_cases k
    · exact h0
    · exact h1
    · exact h2
    · exact h3
    · exact h4
    · exact h5

/-- C62: on every token list ending in `eof`, the parser never reads past the end, and ends (the
bounds of the model are never reached). -/
theorem C62_safe (a : Alg) (ts : List (Token F)) (h : EndsEof ts) :
    parseTokens a ts ≠ .ub .pastEnd ∧ parseTokens a ts ≠ .more := by
  have := lv_fine a ts.length 0 (by omega) ts h le_rfl
  change Fine 1 ts (parseExpr a (ts.length + 1) ts) at this
  unfold parseTokens
  cases hx : parseExpr a (ts.length + 1) ts with
  | ok mr => simp
  | throw => simp
  | ub u => rw [hx] at this; simpa using this.1
  | more => exact absurd hx this.2.1

/-- The outcomes of the tokenizer. -/
def Lexical {α : Type} (x : R α) : Prop := x ≠ .more ∧ x ≠ .ub .pastEnd

theorem Lexical.bind {α β : Type} {x : R α} {f : α → R β} (h : Lexical x)
    (hf : ∀ a, Lexical (f a)) : Lexical (x.bind f) := by
  cases x with
  | ok a => exact hf a
  | throw => simp [Lexical]
  | ub u =>
    have := h.2
    simpa [Lexical] using this
  | more => exact absurd rfl h.1

theorem lexical_ok {α : Type} (a : α) : Lexical (R.ok a) := by simp [Lexical]
theorem lexical_throw {α : Type} : Lexical (R.throw : R α) := by simp [Lexical]
theorem lexical_buffer {α : Type} : Lexical (R.ub .buffer : R α) := by simp [Lexical]

theorem lexical_ctype (f : Char → Bool) (c : Char) : Lexical (ctype f c) := by
  unfold ctype; split_ifs <;> simp [Lexical]

theorem lexical_numberLoop : ∀ (s : List Char) (n : ℕ), Lexical (numberLoop s n)
  | [], _ => lexical_ok _
  | c :: s, n => by
    rw [numberLoop]
    by_cases hn : n > 32
    · rw [if_pos hn]; exact lexical_throw
    rw [if_neg hn]
    refine (lexical_ctype _ _).bind fun d => ?_
    split_ifs
    · exact (lexical_numberLoop s _).bind fun _ => lexical_ok _
    · exact lexical_buffer
    · exact lexical_ok _

theorem lexical_elementLoop : ∀ (s : List Char) (v : ℕ) (b : Bool), Lexical (elementLoop s v b)
  | [], _, _ => lexical_ok _
  | c :: s, v, b => by
    rw [elementLoop]
    refine (lexical_ctype _ _).bind fun d => ?_
    by_cases hd : d = true
    · rw [if_pos hd]
      dsimp only
      by_cases hv : v &&& 2 ^ (c.toNat - 48) > 0
      · rw [if_pos hv]; exact lexical_throw
      · rw [if_neg hv]; exact lexical_elementLoop s _ _
    · rw [if_neg hd]; exact lexical_ok _

theorem lexical_identifierLoop : ∀ (s : List Char), Lexical (identifierLoop s)
  | [] => lexical_ok _
  | c :: s => by
    rw [identifierLoop]
    refine (lexical_ctype _ _).bind fun d => ?_
    split_ifs
    · exact (lexical_identifierLoop s).bind fun _ => lexical_ok _
    · exact lexical_ok _

theorem lexical_step {G : Type} (val : List Char → G) : ∀ s : List Char, Lexical (step val s)
  | [] => lexical_ok _
  | c :: s => by
    unfold step
    refine (lexical_ctype _ _).bind fun b => ?_
    by_cases h1 : b = true
    · rw [if_pos h1]; exact lexical_ok _
    rw [if_neg h1]
    by_cases h2 : c = '(' ∨ c = ')'
    · rw [if_pos h2]; exact lexical_ok _
    rw [if_neg h2]
    by_cases h3 : c = Char.ofNat 0
    · rw [if_pos h3]; exact lexical_ok _
    rw [if_neg h3]
    by_cases h4 : c ∈ opChars
    · rw [if_pos h4]; exact lexical_ok _
    rw [if_neg h4]
    refine (lexical_ctype _ _).bind fun d => ?_
    by_cases h5 : d = true
    · rw [if_pos h5]
      refine Lexical.bind ?_ fun _ => lexical_ok _
      unfold tokenizeNumber
      refine (lexical_numberLoop _ _).bind fun w => ?_
      split_ifs
      · exact lexical_ok _
      · exact lexical_buffer
    rw [if_neg h5]
    cases s with
    | nil => exact lexical_ok _
    | cons c' s =>
      refine Lexical.bind ?_ fun el => ?_
      · split_ifs
        · exact lexical_ctype _ _
        · exact lexical_ok _
      · split_ifs
        · exact (lexical_elementLoop _ _ _).bind fun _ => lexical_ok _
        · exact (lexical_identifierLoop _).bind fun _ => lexical_ok _

theorem lexical_run {G : Type} (val : List Char → G) : ∀ (n : ℕ) (s : List Char)
    (x : R (List (Token G))), run val n s = some x → Lexical x
  | 0, s, x, h => by simp [run] at h
  | n + 1, s, x, h => by
    rw [run] at h
    have hl := lexical_step val s
    rcases hst : step val s with (_ | ⟨r, t⟩) | _ | u | _ <;> rw [hst] at h hl <;> simp only at h
    · cases h; exact lexical_ok _
    · rw [Option.map_eq_some_iff] at h
      obtain ⟨y, h1, rfl⟩ := h
      exact (lexical_run val n r y h1).bind fun _ => lexical_ok _
    · cases h; exact lexical_throw
    · cases h
      have := hl.2
      simpa [Lexical] using this
    · exact absurd rfl hl.1

/-- C62: so on every text, after tokenisation. -/
theorem C62_parse_safe (val : List Char → F) (a : Alg) (s : List Char) :
    parse val a s ≠ some (.ub .pastEnd) ∧ parse val a s ≠ some .more := by
  unfold parse
  cases h : tokenize val s with
  | none => simp
  | some r =>
    cases r with
    | ok ts =>
      have := C62_safe a ts (C60_eof val s ts h)
      simpa using this
    | throw => simp
    | ub u =>
      have := (lexical_run val _ _ _ h).2
      simpa using this
    | more => exact absurd rfl (lexical_run val _ _ _ h).1

/-! ### soundness -/

/-- Unary operators applied to a tree. -/
def applyU : List Char → Ast F → Ast F
  | [], e => e
  | c :: us, e =>
    if c = '-' then .neg (applyU us e) else if c = '~' then .rev (applyU us e) else applyU us e

/-- Unary operators applied to a value. -/
def actU : List Char → Mv (List Char) F → Mv (List Char) F
  | [], m => m
  | c :: us, m =>
    if c = '-' then (actU us m).neg else if c = '~' then (actU us m).revT else actU us m

theorem value_applyU (a : Alg) (e : Ast F) : ∀ us : List Char,
    (applyU us e).value a = (e.value a).map (actU us)
  | [] => by
    have : actU (F := F) [] = id := rfl
    rw [this, Option.map_id]; rfl
  | c :: us => by
    have ih := value_applyU a e us
    have : actU (F := F) (c :: us) = fun m =>
      if c = '-' then (actU us m).neg else if c = '~' then (actU us m).revT else actU us m := rfl
    rw [this, applyU]
    split_ifs
    · rw [Ast.value, ih, Option.map_map]; rfl
    · rw [Ast.value, ih, Option.map_map]; rfl
    · rw [ih]

theorem derives_applyU {ts : List (Token F)} {e : Ast F} (h : Derives 5 ts e) : ∀ us : List Char,
    (∀ c ∈ us, c = '-' ∨ c = '~' ∨ c = '+') → Derives 5 (us.map Token.op ++ ts) (applyU us e)
  | [], _ => h
  | c :: us, hu => by
    have ih := derives_applyU h us fun c h => hu c (List.mem_cons_of_mem _ h)
    rcases hu c (List.mem_cons_self ..) with rfl | rfl | rfl
    · exact .minus ih
    · exact .tilde ih
    · exact .plus ih

section SoundComplete
variable {P : F → Prop} (hP : Signs P)
include hP

theorem actU_all {m : Mv (List Char) F} (h : m.All P) : ∀ us : List Char, (actU us m).All P
  | [] => h
  | c :: us => by
    have ih := actU_all h us
    unfold actU
    split_ifs
    · exact Mv.neg_all hP ih
    · exact Mv.revT_all hP ih
    · exact ih

theorem flag_neg' (n r : Bool) {m : Mv (List Char) F} (h : m.All P) :
    flag n r m.neg = flag (!n) r m := by
  cases n <;> cases r <;> simp [flag, Mv.neg_neg hP h, Mv.neg_neg hP (Mv.revT_all hP h), Mv.revT_neg]

theorem flag_rev' (n r : Bool) {m : Mv (List Char) F} (h : m.All P) :
    flag n r m.revT = flag n (!r) m := by
  cases n <;> cases r <;> simp [flag, Mv.revT_revT hP h]

omit hP in
theorem derives_nums {P : F → Prop} (h1 : P 1) {k : ℕ} {ts : List (Token F)} {e : Ast F}
    (h : Derives k ts e) : (∀ x, Token.number x ∈ ts → P x) → e.Nums P := by
  induction h with
  | number x => exact fun h => h x (by simp)
  | numberElement x v n => exact fun h => h x (by simp)
  | identifier s => exact fun _ => h1
  | identifierElement s v n => exact fun _ => h1
  | element v n => exact fun _ => h1
  | paren _ ih => exact fun h => ih fun x hx => h x (by simp [hx])
  | plus _ ih => exact fun h => ih fun x hx => h x (by simp [hx])
  | minus _ ih => exact fun h => ih fun x hx => h x (by simp [hx])
  | tilde _ ih => exact fun h => ih fun x hx => h x (by simp [hx])
  | lift _ _ ih => exact ih
  | bin _ _ _ ihl ihr =>
    exact fun h => ⟨ihl fun x hx => h x (by simp [hx]), ihr fun x hx => h x (by simp [hx])⟩

theorem unary_spec : ∀ (ts : List (Token F)) (n r : Bool) {n' r' : Bool} {ts' : List (Token F)},
    unary ts n r = .ok (n', r', ts') → ∃ us : List Char, ts = us.map Token.op ++ ts' ∧
      (∀ c ∈ us, c = '-' ∨ c = '~' ∨ c = '+') ∧
      ∀ m : Mv (List Char) F, m.All P → flag n' r' m = flag n r (actU us m)
  | [], n, r, n', r', ts', h => by simp [unary] at h
  | .op c :: ts, n, r, n', r', ts', h => by
    rw [unary] at h
    by_cases h1 : c = '-'
    · rw [if_pos h1] at h
      obtain ⟨us, h2, h3, h4⟩ := unary_spec ts _ _ h
      refine ⟨c :: us, by rw [h2]; rfl, fun x hx => ?_, fun m hm => ?_⟩
      · rcases List.mem_cons.1 hx with rfl | hx
        · exact Or.inl h1
        · exact h3 x hx
      · rw [h4 m hm, actU, if_pos h1, flag_neg' hP _ _ (actU_all hP hm us)]
    rw [if_neg h1] at h
    by_cases h2 : c = '~'
    · rw [if_pos h2] at h
      obtain ⟨us, h3, h4, h5⟩ := unary_spec ts _ _ h
      refine ⟨c :: us, by rw [h3]; rfl, fun x hx => ?_, fun m hm => ?_⟩
      · rcases List.mem_cons.1 hx with rfl | hx
        · exact Or.inr (Or.inl h2)
        · exact h4 x hx
      · rw [h5 m hm, actU, if_neg h1, if_pos h2, flag_rev' hP _ _ (actU_all hP hm us)]
    rw [if_neg h2] at h
    by_cases h3 : c = '+'
    · rw [if_neg (by simpa using h3)] at h
      obtain ⟨us, h4, h5, h6⟩ := unary_spec ts _ _ h
      refine ⟨c :: us, by rw [h4]; rfl, fun x hx => ?_, fun m hm => ?_⟩
      · rcases List.mem_cons.1 hx with rfl | hx
        · exact Or.inr (Or.inr h3)
        · exact h5 x hx
      · rw [h6 m hm, actU, if_neg h1, if_neg h2]
    · rw [if_pos h3] at h; cases h
  | .element v b :: ts, n, r, n', r', ts', h => by
    simp only [unary, R.ok.injEq, Prod.mk.injEq] at h
    obtain ⟨rfl, rfl, rfl⟩ := h
    exact ⟨[], rfl, by simp, fun _ _ => rfl⟩
  | .number x :: ts, n, r, n', r', ts', h => by
    simp only [unary, R.ok.injEq, Prod.mk.injEq] at h
    obtain ⟨rfl, rfl, rfl⟩ := h
    exact ⟨[], rfl, by simp, fun _ _ => rfl⟩
  | .identifier s :: ts, n, r, n', r', ts', h => by
    simp only [unary, R.ok.injEq, Prod.mk.injEq] at h
    obtain ⟨rfl, rfl, rfl⟩ := h
    exact ⟨[], rfl, by simp, fun _ _ => rfl⟩
  | .delimiter s :: ts, n, r, n', r', ts', h => by
    simp only [unary, R.ok.injEq, Prod.mk.injEq] at h
    obtain ⟨rfl, rfl, rfl⟩ := h
    exact ⟨[], rfl, by simp, fun _ _ => rfl⟩
  | .eof :: ts, n, r, n', r', ts', h => by
    simp only [unary, R.ok.injEq, Prod.mk.injEq] at h
    obtain ⟨rfl, rfl, rfl⟩ := h
    exact ⟨[], rfl, by simp, fun _ _ => rfl⟩

/-- The parsing function returns values of derivations of its level. -/
def SoundP (P : F → Prop) (a : Alg) (k : ℕ) (p : Klein.Sym.P F) : Prop := ∀ ts m rest,
  (∀ x, Token.number x ∈ ts → P x) → p ts = .ok (m, rest) →
  ∃ pre e, ts = pre ++ rest ∧ Derives k pre e ∧ e.value a = some m

theorem body_sound (a : Alg) (expr : Klein.Sym.P F) (he : SoundP P a 0 expr) (n r : Bool)
    (ts : List (Token F)) (hts : ∀ x, Token.number x ∈ ts → P x)
    (m : Mv (List Char) F) (rest : List (Token F)) (h : factorBody a expr n r ts = .ok (m, rest)) :
    ∃ pre e m', ts = pre ++ rest ∧ Derives 5 pre e ∧ e.value a = some m' ∧ m = flag n r m' := by
  have sc : ∀ (x : F) (v : Option (List Char)) (t : Token F) (ts : List (Token F)), P x →
      Derives 5 [t] (.atom x v 0 false) →
      (∀ b neg, Derives 5 [t, .element b neg] (.atom x v b neg)) →
      scaled a n r ⟨[(monOf v, x)]⟩ ts = .ok (m, rest) →
      ∃ pre e m', t :: ts = pre ++ rest ∧ Derives 5 pre e ∧ e.value a = some m' ∧
        m = flag n r m' := by
    intro x v t ts hx h1 h2 h
    have hp : (⟨[(monOf v, x)]⟩ : Poly (List Char) F).All P := by
      intro mf hmf
      simp only [List.mem_singleton] at hmf
      subst hmf
      exact hx
    cases ts with
    | nil => simp [scaled] at h
    | cons t' ts =>
      rw [scaled_eq hP a n r hp] at h
      cases t' with
      | element b neg =>
        simp only [R.ok.injEq, Prod.mk.injEq] at h
        obtain ⟨rfl, rfl⟩ := h
        refine ⟨[t, .element b neg], _, _, rfl, h2 b neg, rfl, ?_⟩
        cases neg <;> simp [Poly.neg]
      | _ =>
        simp only [R.ok.injEq, Prod.mk.injEq] at h
        obtain ⟨rfl, rfl⟩ := h
        exact ⟨[t], _, _, rfl, h1, rfl, by simp⟩
  cases ts with
  | nil => simp [factorBody] at h
  | cons t ts =>
    cases t with
    | identifier s => exact sc 1 (some s) _ ts hP.one (.identifier s) (.identifierElement s) h
    | number x => exact sc x none _ ts (hts x (by simp)) (.number x) (.numberElement x) h
    | element v neg =>
      simp only [factorBody] at h
      rw [element_eq hP] at h
      simp only [R.ok.injEq, Prod.mk.injEq] at h
      obtain ⟨rfl, rfl⟩ := h
      exact ⟨[.element v neg], _, _, rfl, .element v neg, rfl, rfl⟩
    | delimiter c =>
      simp only [factorBody] at h
      by_cases hc : c = '('
      · rw [if_pos hc, R.bind_eq_ok] at h
        obtain ⟨⟨m', rest'⟩, h1, h2⟩ := h
        obtain ⟨pre, e, rfl, h3, h4⟩ := he _ _ _ (fun x hx => hts x (List.mem_cons_of_mem _ hx)) h1
        cases rest' with
        | nil => simp at h2
        | cons t' rest' =>
          cases t' with
          | delimiter c' =>
            simp only at h2
            by_cases hc' : c' = ')'
            · rw [if_pos hc', revIf_eq (Ast.value_alg h4), R.bind_ok] at h2
              simp only [R.ok.injEq, Prod.mk.injEq] at h2
              obtain ⟨rfl, rfl⟩ := h2
              refine ⟨_, e, m', ?_, .paren h3, h4, rfl⟩
              subst hc hc'
              simp
            · rw [if_neg hc'] at h2; cases h2
          | _ => simp at h2
      · rw [if_neg hc] at h; cases h
    | op c => simp [factorBody] at h
    | eof => simp [factorBody] at h

theorem factor_sound (a : Alg) (expr : Klein.Sym.P F) (he : SoundP P a 0 expr) :
    SoundP P a 5 (parseFactor a expr) := by
  intro ts m rest hts h
  unfold parseFactor at h
  rw [R.bind_eq_ok] at h
  obtain ⟨⟨n, r, ts'⟩, h1, h2⟩ := h
  obtain ⟨us, rfl, h3, h4⟩ := unary_spec hP _ _ _ h1
  obtain ⟨pre, e, m', rfl, h5, h6, rfl⟩ := body_sound hP a expr he n r ts'
    (fun x hx => hts x (by simp [hx])) m rest h2
  refine ⟨us.map Token.op ++ pre, applyU us e, by simp, derives_applyU h5 us h3, ?_⟩
  rw [value_applyU, h6, Option.map_some, h4 m' (Ast.value_all hP (derives_nums hP.one h5
    fun x hx => hts x (by simp [hx])) h6)]
  rfl

theorem lp_sound (a : Alg) {k : ℕ} (hk : k < 5) (s : ℕ) (hs : SoundP P a (k + 1) (lv a (k + 1) s)) :
    ∀ (n : ℕ) (m : Mv (List Char) F) (ts : List (Token F)) {m' rest} (pre0 : List (Token F))
      (e0 : Ast F), (∀ x, Token.number x ∈ ts → P x) → Derives k pre0 e0 → e0.value a = some m → lp a k s n m ts = .ok (m', rest) →
      ∃ pre e, ts = pre ++ rest ∧ Derives k (pre0 ++ pre) e ∧ e.value a = some m'
  | 0, m, ts, m', rest, pre0, e0, hts, h0, h1, h => by rw [lp_zero a hk] at h; cases h
  | n + 1, m, ts, m', rest, pre0, e0, hts, h0, h1, h => by
    rcases lp_cases a hk s n m ts with h2 | h2 | ⟨c, ts', o, rfl, ho⟩
    · rw [h2] at h
      simp only [R.ok.injEq, Prod.mk.injEq] at h
      obtain ⟨rfl, rfl⟩ := h
      exact ⟨[], e0, rfl, by simpa using h0, h1⟩
    · rw [h2] at h; cases h
    · rw [lp_op a hk s n m c ts' ho, R.bind_eq_ok] at h
      obtain ⟨⟨mr, rest'⟩, h3, h4⟩ := h
      rw [R.bind_eq_ok] at h4
      obtain ⟨out, h5, h6⟩ := h4
      obtain ⟨pr, er, rfl, h7, h8⟩ := hs _ _ _ (fun x hx => hts x (List.mem_cons_of_mem _ hx)) h3
      have h9 : o.apply m mr = some out := by
        rcases R.ofOption_cases (o.apply m mr) with ⟨x, hx, hx'⟩ | hx
        · rw [hx'] at h5
          simp only [R.ok.injEq] at h5
          rw [hx, h5]
        · rw [hx] at h5; cases h5
      obtain ⟨pre, e, rfl, h10, h11⟩ := lp_sound a hk s hs n out rest' (pre0 ++ .op c :: pr)
        (.bin o e0 er) (fun x hx => hts x (by simp [hx])) (.bin ho h0 h7) (by simp [Ast.value, h1, h8, h9]) h6
      exact ⟨.op c :: pr ++ pre, e, by simp, by simpa using h10, h11⟩

theorem lv_sound (a : Alg) (n : ℕ) : ∀ k ≤ 5, SoundP P a k (lv a k n) := by
  have main : ∀ n, SoundP P a 0 (parseExpr a n) → ∀ k ≤ 5, SoundP P a k (lv a k n) := by
    intro n hn
    have h5 : SoundP P a 5 (lv a 5 n) := factor_sound hP a _ hn
    have down : ∀ k < 5, SoundP P a (k + 1) (lv a (k + 1) n) → SoundP P a k (lv a k n) := by
      intro k hk hs ts m rest hts h
      rw [lv_eq a hk, R.bind_eq_ok] at h
      obtain ⟨⟨m0, rest0⟩, h1, h2⟩ := h
      obtain ⟨p0, e0, rfl, h3, h4⟩ := hs _ _ _ hts h1
      obtain ⟨pre, e, rfl, h5, h6⟩ := lp_sound hP a hk n hs n m0 rest0 p0 e0
        (fun x hx => hts x (by simp [hx])) (.lift hk h3) h4 h2
      exact ⟨p0 ++ pre, e, by simp, h5, h6⟩
    have h4 := down 4 (by omega) h5
    have h3 := down 3 (by omega) h4
    have h2 := down 2 (by omega) h3
    have h1 := down 1 (by omega) h2
    have h0 := down 0 (by omega) h1
    intro k hk
    interval_cases k
    · exact h0
    · exact h1
    · exact h2
    · exact h3
    · exact h4
    · exact h5
  induction n with
  | zero => exact main 0 (fun ts m rest _ h => by simp [parseExpr] at h)
  | succ n ih => exact main (n + 1) (ih 0 (by omega))

/-- What the parser returns is the value of a derivation of a prefix of the tokens. -/
theorem sound_of_signs (a : Alg) (ts : List (Token F)) (hts : ∀ x, Token.number x ∈ ts → P x)
    (m : Mv (List Char) F) (h : parseTokens a ts = .ok m) :
    ∃ pre rest e, ts = pre ++ rest ∧ Derives 0 pre e ∧ e.value a = some m := by
  unfold parseTokens at h
  rw [R.bind_eq_ok] at h
  obtain ⟨⟨m', rest⟩, h1, h2⟩ := h
  simp only [R.ok.injEq] at h2
  subst h2
  obtain ⟨pre, e, h3, h4, h5⟩ := lv_sound hP a ts.length 0 (by omega) ts m' rest hts h1
  exact ⟨pre, rest, e, h3, h4, h5⟩

/-! ### completeness -/

omit hP in
theorem opAt_unique {j k : ℕ} {c : Char} {o : BinOp} (h : opAt k c = some o) (hj : j < 5)
    (hne : j ≠ k) : opAt j c = none := by
  unfold opAt at *
  have hk : k < 5 := by
    by_contra hk
    match k, hk with
    | k + 5, _ => simp at h
  interval_cases k <;> simp only at h <;> split_ifs at h <;> subst_vars <;> interval_cases j <;>
    first | decide | exact absurd rfl hne

/-- The tokens go on, not with an element. -/
def NotEl : List (Token F) → Prop
  | [] => False
  | .element .. :: _ => False
  | _ => True

/-- `parse_factor` with its flags already set. -/
def factorFrom (a : Alg) (expr : Klein.Sym.P F) (n r : Bool) : Klein.Sym.P F := fun ts =>
  (unary ts n r).bind fun u => factorBody a expr u.1 u.2.1 u.2.2

theorem complete (a : Alg) {k : ℕ} {pre : List (Token F)} {e : Ast F} (h : Derives k pre e) :
    (∀ x, Token.number x ∈ pre → P x) → ∀ m, e.value a = some m → ∀ rest : List (Token F), NotEl rest →
      (k = 5 → ∀ N n r, (pre ++ rest).length ≤ N →
        factorFrom a (parseExpr a N) n r (pre ++ rest) = .ok (flag n r m, rest)) ∧
      (k < 5 → (∀ j, k < j → j < 5 → NotOp j rest) → ∀ res,
        (∀ s n, rest.length ≤ s → rest.length ≤ n → lp a k s n m rest = res) →
        ∀ N, (pre ++ rest).length ≤ N → lv a k N (pre ++ rest) = res) := by
  have sc : ∀ (n r : Bool) (x : F) (v : Option (List Char)) (rest : List (Token F)), P x → NotEl rest →
      scaled a n r ⟨[(monOf v, x)]⟩ rest = .ok (flag n r ⟨some a, [(0, ⟨[(monOf v, x)]⟩)]⟩, rest) := by
    intro n r x v rest hx hr
    have hp : (⟨[(monOf v, x)]⟩ : Poly (List Char) F).All P := by
      intro mf hmf
      simp only [List.mem_singleton] at hmf
      subst hmf
      exact hx
    match rest, hr with
    | .op _ :: _, _ => rw [scaled_eq hP a n r hp]
    | .eof :: _, _ => rw [scaled_eq hP a n r hp]
    | .number _ :: _, _ => rw [scaled_eq hP a n r hp]
    | .identifier _ :: _, _ => rw [scaled_eq hP a n r hp]
    | .delimiter _ :: _, _ => rw [scaled_eq hP a n r hp]
  have sce : ∀ (n r : Bool) (x : F) (v : Option (List Char)) (b : ℕ) (neg : Bool)
      (rest : List (Token F)), P x → scaled a n r ⟨[(monOf v, x)]⟩ (.element b neg :: rest) =
        .ok (flag n r ⟨some a, [(b, ⟨[(monOf v, if neg then x * -1 else x)]⟩)]⟩, rest) := by
    intro n r x v b neg rest hx
    have hp : (⟨[(monOf v, x)]⟩ : Poly (List Char) F).All P := by
      intro mf hmf
      simp only [List.mem_singleton] at hmf
      subst hmf
      exact hx
    rw [scaled_eq hP a n r hp]
    cases neg <;> simp [Poly.neg]
  have pos : ∀ rest : List (Token F), NotEl rest → 1 ≤ rest.length := by
    intro rest hr
    match rest, hr with
    | t :: rest, _ => simp
  -- the result of the next level up to a stop
  have up : ∀ {k : ℕ} {pre : List (Token F)} {m : Mv (List Char) F} {rest : List (Token F)},
      k < 5 → NotEl rest → (∀ j, k < j → j < 5 → NotOp j rest) →
      ((k + 1 = 5 → ∀ N n r, (pre ++ rest).length ≤ N →
        factorFrom a (parseExpr a N) n r (pre ++ rest) = .ok (flag n r m, rest)) ∧
      (k + 1 < 5 → (∀ j, k + 1 < j → j < 5 → NotOp j rest) → ∀ res,
        (∀ s n, rest.length ≤ s → rest.length ≤ n → lp a (k + 1) s n m rest = res) →
        ∀ N, (pre ++ rest).length ≤ N → lv a (k + 1) N (pre ++ rest) = res)) →
      ∀ N, (pre ++ rest).length ≤ N → lv a (k + 1) N (pre ++ rest) = .ok (m, rest) := by
    intro k pre m rest hk hr hno ⟨h1, h2⟩ N hN
    by_cases h5 : k + 1 = 5
    · rw [h5]
      exact h1 h5 N false false hN
    · refine h2 (by omega) (fun j hj hj' => hno j (by omega) hj') _ (fun s n _ hn => ?_) N hN
      obtain ⟨n', rfl⟩ : ∃ n', n = n' + 1 := ⟨n - 1, by have := pos rest hr; omega⟩
      exact lp_stop a (by omega) (by omega) s n' m rest (hno (k + 1) (by omega) (by omega))
  induction h with
  | number x =>
    intro hx m hm rest hr
    simp only [Ast.value, Option.some.injEq] at hm
    subst hm
    exact ⟨fun _ N n r _ => sc n r x none rest (hx x (by simp)) hr, fun h => absurd h (by omega)⟩
  | numberElement x v b =>
    intro hx m hm rest hr
    simp only [Ast.value, Option.some.injEq] at hm
    subst hm
    exact ⟨fun _ N n r _ => sce n r x none v b rest (hx x (by simp)), fun h => absurd h (by omega)⟩
  | identifier s =>
    intro hx m hm rest hr
    simp only [Ast.value, Option.some.injEq] at hm
    subst hm
    exact ⟨fun _ N n r _ => sc n r 1 (some s) rest hP.one hr, fun h => absurd h (by omega)⟩
  | identifierElement s v b =>
    intro hx m hm rest hr
    simp only [Ast.value, Option.some.injEq] at hm
    subst hm
    exact ⟨fun _ N n r _ => sce n r 1 (some s) v b rest hP.one, fun h => absurd h (by omega)⟩
  | element v b =>
    intro hx m hm rest hr
    simp only [Ast.value, Option.some.injEq] at hm
    subst hm
    exact ⟨fun _ N n r _ => element_eq hP a n r b v rest, fun h => absurd h (by omega)⟩
  | @paren ts e _ ih =>
    intro hx m hm rest hr
    refine ⟨fun _ N n r hN => ?_, fun h => absurd h (by omega)⟩
    obtain ⟨N, rfl⟩ : ∃ N', N = N' + 1 := ⟨N - 1, by simp at hN; omega⟩
    have h0 := (ih (fun x h => hx x (by simp [h])) m hm (.delimiter ')' :: rest) trivial).2 (by omega)
      (fun j _ _ => trivial) (.ok (m, .delimiter ')' :: rest)) (fun s n _ hn => by
        obtain ⟨n', rfl⟩ : ∃ n', n = n' + 1 := ⟨n - 1, by simp at hn; omega⟩
        rfl) N (by simp at hN ⊢; omega)
    have h1 : parseExpr a (N + 1) (ts ++ .delimiter ')' :: rest)
      = .ok (m, .delimiter ')' :: rest) := h0
    simp only [factorFrom, List.cons_append, List.append_assoc, List.nil_append, unary, R.bind_ok,
      factorBody, if_true]
    rw [h1, R.bind_ok]
    simp only [if_true]
    rw [revIf_eq (Ast.value_alg hm), R.bind_ok]
    rfl
  | plus _ ih =>
    intro hx m hm rest hr
    refine ⟨fun _ N n r hN => ?_, fun h => absurd h (by omega)⟩
    exact (ih (fun x h => hx x (by simp [h])) m hm rest hr).1 rfl N n r (by simp at hN ⊢; omega)
  | minus hd ih =>
    intro hx m hm rest hr
    simp only [Ast.value, Option.map_eq_some_iff] at hm
    obtain ⟨m', hm, rfl⟩ := hm
    refine ⟨fun _ N n r hN => ?_, fun h => absurd h (by omega)⟩
    have hx' : ∀ x, Token.number x ∈ _ → P x := fun x h => hx x (List.mem_cons_of_mem _ h)
    rw [flag_neg' hP _ _ (Ast.value_all hP (derives_nums hP.one hd hx') hm)]
    exact (ih hx' m' hm rest hr).1 rfl N (!n) r (by simp at hN ⊢; omega)
  | tilde hd ih =>
    intro hx m hm rest hr
    simp only [Ast.value, Option.map_eq_some_iff] at hm
    obtain ⟨m', hm, rfl⟩ := hm
    refine ⟨fun _ N n r hN => ?_, fun h => absurd h (by omega)⟩
    have hx' : ∀ x, Token.number x ∈ _ → P x := fun x h => hx x (List.mem_cons_of_mem _ h)
    rw [flag_rev' hP _ _ (Ast.value_all hP (derives_nums hP.one hd hx') hm)]
    exact (ih hx' m' hm rest hr).1 rfl N n (!r) (by simp at hN ⊢; omega)
  | @lift k ts e hk _ ih =>
    intro hx m hm rest hr
    refine ⟨fun h => absurd h (by omega), fun _ hno res hres N hN => ?_⟩
    rw [lv_eq a hk, up hk hr hno (ih hx m hm rest hr) N hN, R.bind_ok]
    have : rest.length ≤ N := by simp at hN; omega
    exact hres N N this this
  | @bin k c o l r el er ho _ _ ihl ihr =>
    intro hx m hm rest hr
    simp only [Ast.value, Option.bind_eq_bind, Option.bind_eq_some_iff] at hm
    obtain ⟨ml, hl, mr, hr', hm⟩ := hm
    have hk : k < 5 := by
      by_contra hk
      match k, hk with
      | k + 5, _ => simp [opAt] at ho
    refine ⟨fun h => absurd h (by omega), fun _ hno res hres N hN => ?_⟩
    rw [List.append_assoc, List.cons_append] at hN ⊢
    refine (ihl (fun x h => hx x (by simp [h])) ml hl (.op c :: (r ++ rest)) trivial).2 hk
      (fun j hj hj' => opAt_unique ho hj' (by omega)) res (fun s n hs hn => ?_) N hN
    simp only [List.length_cons] at hs hn
    obtain ⟨n', rfl⟩ : ∃ n', n = n' + 1 := ⟨n - 1, by omega⟩
    rw [lp_op a hk s n' ml c _ ho, up hk hr hno (ihr (fun x h => hx x (by simp [h])) mr hr' rest hr) s (by omega), R.bind_ok]
    simp only [hm, R.ofOption, R.bind_ok]
    have : rest.length ≤ (r ++ rest).length := by simp
    exact hres s n' (by omega) (by omega)

/-- A derivable expression followed by `eof`, or by a parenthesis, is parsed to its value. -/
theorem complete_of_signs (a : Alg) (pre rest : List (Token F)) (e : Ast F) (m : Mv (List Char) F)
    (hx : ∀ x, Token.number x ∈ pre → P x) (h : Derives 0 pre e) (hm : e.value a = some m)
    (hr : ∃ t ts, rest = t :: ts ∧ (t = .eof ∨ ∃ c, t = .delimiter c)) :
    parseTokens a (pre ++ rest) = .ok m := by
  obtain ⟨t, ts, rfl, ht⟩ := hr
  have h1 : NotEl (t :: ts) := by rcases ht with rfl | ⟨c, rfl⟩ <;> trivial
  have h2 : ∀ j, NotOp j (t :: ts) := by rcases ht with rfl | ⟨c, rfl⟩ <;> intro j <;> trivial
  have := (complete hP a h hx m hm (t :: ts) h1).2 (by omega) (fun j _ _ => h2 j) (.ok (m, t :: ts))
    (fun s n _ hn => by
      obtain ⟨n', rfl⟩ : ∃ n', n = n' + 1 := ⟨n - 1, by simp at hn; omega⟩
      rcases ht with rfl | ⟨c, rfl⟩ <;> rfl) (pre ++ t :: ts).length le_rfl
  change parseExpr a ((pre ++ t :: ts).length + 1) (pre ++ t :: ts) = _ at this
  unfold parseTokens
  rw [this]; rfl

end SoundComplete

section Ring
variable {F : Type} [CommRing F] [DecidableEq F]

/-- C62: what the parser returns is the value of a derivation of a prefix of the tokens. -/
theorem C62_sound (a : Alg) (ts : List (Token F)) (m : Mv (List Char) F)
    (h : parseTokens a ts = .ok m) :
    ∃ pre rest e, ts = pre ++ rest ∧ Derives 0 pre e ∧ e.value a = some m :=
  sound_of_signs signs_ring a ts (fun _ _ => trivial) m h

/-- C62: a derivable expression followed by `eof`, or by a parenthesis, is parsed to its value.
Precedence and association are those of the grammar. -/
theorem C62_complete (a : Alg) (pre rest : List (Token F)) (e : Ast F) (m : Mv (List Char) F)
    (h : Derives 0 pre e) (hm : e.value a = some m)
    (hr : ∃ t ts, rest = t :: ts ∧ (t = .eof ∨ ∃ c, t = .delimiter c)) :
    parseTokens a (pre ++ rest) = .ok m :=
  complete_of_signs signs_ring a pre rest e m (fun _ _ => trivial) h hm hr

/-- C62: two derivations of the same tokens have the same value. -/
theorem C62_unambiguous (a : Alg) (ts : List (Token F)) (e e' : Ast F) (m m' : Mv (List Char) F)
    (h : Derives 0 ts e) (h' : Derives 0 ts e') (hm : e.value a = some m)
    (hm' : e'.value a = some m') : m = m' := by
  have h1 := C62_complete a ts [.eof] e m h hm ⟨_, _, rfl, Or.inl rfl⟩
  have h2 := C62_complete a ts [.eof] e' m' h' hm' ⟨_, _, rfl, Or.inl rfl⟩
  rw [h1] at h2
  simpa using h2

end Ring
end Klein.Sym
