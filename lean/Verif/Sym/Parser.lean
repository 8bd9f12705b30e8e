import Verif.Sym.Poly
import Mathlib.Data.String.Basic

/-!
# `sym/parser.hpp`, `sym/parser.cpp`: tokens and the recursive descent parser

A run ends normally, with an exception, or in undefined behaviour (`R.ub`, with its cause).  Loops
and recursive calls carry an iteration bound; `none` (tokenizer) and `R.more` (parser) say that the
bound was reached.  Theorems show which bounds are never reached, and that reaching the tokenizer's
means running for ever.

A `char` is a `Char` below 256; the source passes it to `<cctype>` without a cast, so that (with
signed `char`) values from 128 on, except 255 (`EOF`), are undefined behaviour.  The classification
is that of the "C" locale.  `std::strtof` is a parameter `val` applied to the characters it consumes,
which are computed.  Simplifications: memory exhaustion (of the token vector, or of the call stack
under deeply nested parentheses) is not modelled, nor is the assertion of the debug build in
`tokenize_number` (it holds: the buffer begins with a digit).
-/

namespace Klein.Sym

/-- Causes of undefined behaviour. -/
inductive UB
  /-- an `int` overflow or a null algebra (`none` in `Verif.Sym.Poly`) -/
  | arith
  /-- reading the element past the last one of a vector -/
  | pastEnd
  /-- writing outside `char buf[32]` -/
  | buffer
  /-- a negative argument other than `EOF` of `isspace`, `isdigit`, `isalnum` -/
  | ctype
  deriving DecidableEq, Repr

/-- The outcome of a run. -/
inductive R (α : Type)
  | ok (a : α)
  | throw
  | ub (u : UB)
  | more
  deriving DecidableEq, Repr

namespace R

/-- Sequencing. -/
def bind {α β : Type} (x : R α) (f : α → R β) : R β :=
  match x with
  | ok a => f a
  | throw => throw
  | ub u => ub u
  | more => more

instance : Monad R where
  pure := ok
  bind := bind

/-- An arithmetic operation of `Verif.Sym.Poly`. -/
def ofOption {α : Type} : Option α → R α
  | some a => ok a
  | none => ub .arith

end R

/-- parser.hpp:8-41 `token`. -/
inductive Token (F : Type)
  | element (value : ℕ) (negative : Bool)
  | number (x : F)
  | identifier (s : List Char)
  | delimiter (c : Char)
  | op (c : Char)
  | eof
  deriving DecidableEq, Repr

/-! ### the tokenizer -/

/-- `isspace` of the "C" locale. -/
def isSpace (c : Char) : Bool := c = ' ' || (9 ≤ c.toNat && c.toNat ≤ 13)
/-- `isdigit` of the "C" locale. -/
def isDigit (c : Char) : Bool := 48 ≤ c.toNat && c.toNat ≤ 57
/-- Letters of the "C" locale. -/
def isLetter (c : Char) : Bool :=
  (65 ≤ c.toNat && c.toNat ≤ 90) || (97 ≤ c.toNat && c.toNat ≤ 122)
/-- `isalnum` of the "C" locale. -/
def isAlnum (c : Char) : Bool := isLetter c || isDigit c

/-- A call of a `<cctype>` function. -/
def ctype (f : Char → Bool) (c : Char) : R Bool :=
  if 128 ≤ c.toNat ∧ c.toNat ≠ 255 then .ub .ctype else .ok (f c)

/-- parser.cpp:68-84, the loop of `tokenize_number`: the characters copied to `buf`; the number
counts those copied before. -/
def numberLoop : List Char → ℕ → R (List Char)
  | [], _ => .ok []
  | c :: s, n =>
    if n > 32 then .throw
    else (ctype isDigit c).bind fun d =>
      if d || c == '.' then
        if n < 32 then (numberLoop s (n + 1)).bind fun w => .ok (c :: w)
        else .ub .buffer
      else .ok []

/-- What `strtof` consumes of a text of digits and points: digits, and a point and the digits after
it if there is one. -/
def decimal (w : List Char) : List Char :=
  match w.dropWhile isDigit with
  | '.' :: r => w.takeWhile isDigit ++ '.' :: r.takeWhile isDigit
  | _ => w.takeWhile isDigit

/-- parser.cpp:62-94 `tokenize_number`: the number and the rest of the input.  `buf[buf_size] = 0`
(:85) writes outside the buffer if `buf_size` is 32. -/
def tokenizeNumber {F : Type} (val : List Char → F) (s : List Char) : R (F × List Char) :=
  (numberLoop s 0).bind fun w =>
    if w.length < 32 then .ok (val (decimal w), s.drop (decimal w).length)
    else .ub .buffer

/-- parser.cpp:107-130, the loop of `tokenize_element`; `out.value` is a `uint8_t`. -/
def elementLoop : List Char → ℕ → Bool → R (ℕ × Bool × List Char)
  | [], v, neg => .ok (v, neg, [])
  | c :: s, v, neg => (ctype isDigit c).bind fun d =>
    if d then
      let bit := c.toNat - 48
      if v &&& 2 ^ bit > 0 then .throw
      else
        let neg' := if popcnt (v &&& (2 ^ 32 - 1 - (2 ^ bit - 1))) &&& 1 = 1 then !neg else neg
        elementLoop s ((v ||| 2 ^ bit) % 256) neg'
    else .ok (v, neg, c :: s)

/-- parser.cpp:140-146, the loop of `tokenize_identifier`. -/
def identifierLoop : List Char → R (List Char × List Char)
  | [] => .ok ([], [])
  | c :: s => (ctype isAlnum c).bind fun b =>
    if b then (identifierLoop s).bind fun wr => .ok (c :: wr.1, wr.2)
    else .ok ([], c :: s)

/-- parser.cpp:180-188: the operators. -/
def opChars : List Char := ['+', '-', '~', '*', '^', '&', '|']

/-- parser.cpp:155-216, one iteration of the loop of `tokenize`: `none` if it ends, otherwise the
rest of the input and the token found.  If the last character is none of those handled before :202,
an uninitialised token is appended (copying it is itself undefined behaviour) and the iterator does
not move; no token is recorded here. -/
def step {F : Type} (val : List Char → F) :
    List Char → R (Option (List Char × Option (Token F)))
  | [] => .ok none
  | c :: s => (ctype isSpace c).bind fun b =>
    if b then .ok (some (s, none))
    else if c = '(' ∨ c = ')' then .ok (some (s, some (.delimiter c)))
    else if c = Char.ofNat 0 then .ok none
    else if c ∈ opChars then .ok (some (s, some (.op c)))
    else (ctype isDigit c).bind fun d =>
      if d then (tokenizeNumber val (c :: s)).bind fun xr => .ok (some (xr.2, some (.number xr.1)))
      else match s with
        | [] => .ok (some ([c], none))
        | c' :: _ => (if c = 'e' then ctype isDigit c' else .ok false).bind fun el =>
          if el then (elementLoop s 0 false).bind fun r =>
            .ok (some (r.2.2, some (.element r.1 r.2.1)))
          else (identifierLoop (c :: s)).bind fun wr => .ok (some (wr.2, some (.identifier wr.1)))

/-- parser.cpp:152-222 `tokenize`, at most `n` iterations (`none`: it has not ended). -/
def run {F : Type} (val : List Char → F) : ℕ → List Char → Option (R (List (Token F)))
  | 0, _ => none
  | n + 1, s => match step val s with
    | .ok none => some (.ok [.eof])
    | .ok (some (r, t)) => (run val n r).map fun x => x.bind fun ts => .ok (t.toList ++ ts)
    | .throw => some .throw
    | .ub u => some (.ub u)
    | .more => some .more

/-- parser.cpp:152-222 `tokenize`.  `none`: it never ends (`C60_bound`). -/
def tokenize {F : Type} (val : List Char → F) (s : List Char) : Option (R (List (Token F))) :=
  run val (s.length + 1) s

/-! ### the parser -/

section Parser
variable {F : Type} [Add F] [Mul F] [Neg F] [Zero F] [One F] [DecidableEq F]
  [ZeroTest F]

/-- A parsing function: the value and the tokens left. -/
abbrev P (F : Type) := List (Token F) → R (Mv (List Char) F × List (Token F))

/-- parser.cpp:247-263, the loop of `parse_factor`: the flags `negate` and `reverse`. -/
def unary : List (Token F) → Bool → Bool → R (Bool × Bool × List (Token F))
  | [], _, _ => .ub .pastEnd
  | .op c :: ts, n, r =>
    if c = '-' then unary ts (!n) r
    else if c = '~' then unary ts n (!r)
    else if c ≠ '+' then .throw
    else unary ts n r
  | ts, n, r => .ok (n, r, ts)

/-- `reverse ? ~out : out`. -/
def revIf (r : Bool) (m : Mv (List Char) F) : R (Mv (List Char) F) :=
  if r then R.ofOption m.rev else .ok m

/-- parser.cpp:267-300: a number or identifier, with or without an element. -/
def scaled (a : Alg) (n r : Bool) (p : Poly (List Char) F) (ts : List (Token F)) :
    R (Mv (List Char) F × List (Token F)) :=
  match ts with
  | [] => .ub .pastEnd
  | .element v neg :: ts =>
    let n := if neg then !n else n
    (R.ofOption ((⟨some a, []⟩ : Mv (List Char) F).push v (if n then p.neg else p))).bind fun out =>
      (revIf r out).bind fun out => .ok (out, ts)
  | ts =>
    (R.ofOption ((⟨some a, []⟩ : Mv (List Char) F).push 0 (if n then p.neg else p))).bind fun out =>
      (revIf r out).bind fun out => .ok (out, ts)

/-- parser.cpp:265-343 `parse_factor` after its loop, given `parse_expr`. -/
def factorBody (a : Alg) (expr : P F) (n r : Bool) : P F := fun ts =>
    match ts with
    | .identifier s :: ts =>
      (R.ofOption ((⟨[]⟩ : Mon (List Char)).push s 1)).bind fun m =>
        (R.ofOption ((⟨[]⟩ : Poly (List Char) F).push m 1)).bind fun p => scaled a n r p ts
    | .number x :: ts =>
      (R.ofOption ((⟨[]⟩ : Poly (List Char) F).push ⟨[]⟩ x)).bind fun p => scaled a n r p ts
    | .element v neg :: ts =>
      let n := if neg then !n else n
      (R.ofOption ((⟨[]⟩ : Poly (List Char) F).push ⟨[]⟩ (if n then -1 else 1))).bind fun p =>
        (R.ofOption ((⟨some a, []⟩ : Mv (List Char) F).push v p)).bind fun out =>
          (revIf r out).bind fun out => .ok (out, ts)
    | .delimiter c :: ts =>
      if c = '(' then
        (expr ts).bind fun mr =>
          match mr.2 with
          | [] => .ub .pastEnd
          | .delimiter c' :: ts =>
            if c' = ')' then (revIf r mr.1).bind fun m => .ok (if n then m.neg else m, ts)
            else .throw
          | _ => .throw
      else .throw
    | [] => .ub .pastEnd
    | _ => .throw

/-- parser.cpp:241-344 `parse_factor`, given `parse_expr`. -/
def parseFactor (a : Alg) (expr : P F) : P F := fun ts =>
  (unary ts false false).bind fun u => factorBody a expr u.1 u.2.1 u.2.2

/-- parser.cpp:351-355 (and :364-368, :377-381, :390-394): the loop of a level with one operator. -/
def binLoop (c : Char) (f : Mv (List Char) F → Mv (List Char) F → Option (Mv (List Char) F))
    (sub : P F) : ℕ → Mv (List Char) F → P F
  | 0, _, _ => .more
  | k + 1, out, .op c' :: ts =>
    if c' = c then
      (sub ts).bind fun mr => (R.ofOption (f out mr.1)).bind fun out => binLoop c f sub k out mr.2
    else .ok (out, .op c' :: ts)
  | _ + 1, out, ts => .ok (out, ts)

/-- parser.cpp:346-396 `parse_dot_factor`, `parse_reg_factor`, `parse_ext_factor`, `parse_term`. -/
def binLevel (c : Char) (f : Mv (List Char) F → Mv (List Char) F → Option (Mv (List Char) F))
    (sub : P F) (k : ℕ) : P F := fun ts =>
  (sub ts).bind fun mr => binLoop c f sub k mr.1 mr.2

/-- parser.cpp:385-396 `parse_term`, through the levels below it. -/
def parseTerm (a : Alg) (expr : P F) (k : ℕ) : P F :=
  binLevel '*' Mv.mul (binLevel '^' Mv.ext (binLevel '&' Mv.reg
    (binLevel '|' Mv.dot (parseFactor a expr) k) k) k) k

/-- parser.cpp:404-432, the loop of `parse_expr`. -/
def exprLoop (term : P F) : ℕ → Mv (List Char) F → P F
  | 0, _, _ => .more
  | _ + 1, out, [] => .ok (out, [])
  | k + 1, out, t :: ts =>
    match t with
    | .eof => .ok (out, t :: ts)
    | .op c =>
      if c = '+' then
        (term ts).bind fun mr => (R.ofOption (out.add mr.1)).bind fun out => exprLoop term k out mr.2
      else if c = '-' then
        (term ts).bind fun mr => (R.ofOption (out.sub mr.1)).bind fun out => exprLoop term k out mr.2
      else .throw
    | .delimiter _ => .ok (out, t :: ts)
    | _ => .throw

/-- parser.cpp:398-435 `parse_expr`, with at most `k` nested calls and `k` iterations of each loop. -/
def parseExpr (a : Alg) : ℕ → P F
  | 0 => fun _ => .more
  | k + 1 => fun ts =>
    (parseTerm a (parseExpr a k) k ts).bind fun mr => exprLoop (parseTerm a (parseExpr a k) k) k mr.1 mr.2

/-- parser.cpp:437-443 `parse`, after tokenisation. -/
def parseTokens (a : Alg) (ts : List (Token F)) : R (Mv (List Char) F) :=
  (parseExpr a (ts.length + 1) ts).bind fun mr => .ok mr.1

/-- parser.cpp:437-443 `parse`. -/
def parse (val : List Char → F) (a : Alg) (s : List Char) : Option (R (Mv (List Char) F)) :=
  (tokenize val s).map fun r => r.bind (parseTokens a)

end Parser
end Klein.Sym
