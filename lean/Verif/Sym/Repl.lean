import Verif.Sym.Parser

/-!
# Model of sym/repl.cpp and of the printing functions

`std::getline` is outside the model: a line is a list of characters.  Printing a `float` is a
parameter.
-/

namespace Klein.Sym

/-- What the loop over the characters of a line leaves behind (repl.cpp:25-50). -/
structure Scan where
  /-- `std::cout << line` was executed (:35). -/
  echo : Bool := false
  /-- `should_parse`. -/
  parse : Bool := false
  /-- `issue_command`. -/
  command : Bool := false
  deriving DecidableEq, Repr

/-- repl.cpp:25-50. -/
def scan : List Char → Scan → R Scan
  | [], st => .ok st
  | c :: s, st => (ctype isSpace c).bind fun b =>
    if b then scan s st
    else if c = '#' then .ok { st with echo := true }
    else if c = '.' then .ok { st with command := true }
    else scan s { st with parse := true }

/-- What the shell does with a line. -/
inductive Action
  /-- Prints a line end. -/
  | blank
  /-- Nothing; `.break` flips `break_lines`, which nothing reads. -/
  | command (flip : Bool)
  /-- Parses the whole line and prints the result or the message. -/
  | parse
  deriving DecidableEq, Repr

/-- repl.cpp:16-65, one iteration: whether the line is echoed, and the action. -/
def classify (line : List Char) : R (Bool × Action) :=
  if line = [] then .ok (false, .blank)
  else (scan line {}).bind fun st =>
    .ok (st.echo,
      if st.command then .command (decide (line = ".break".toList))
      else if !st.parse then .blank
      else .parse)

section Print
variable {F : Type} [One F] [Neg F] [DecidableEq F]

/-- The decimal digits of an integer. -/
def showInt (i : ℤ) : List Char :=
  if i < 0 then '-' :: (Nat.toDigits 10 i.natAbs) else Nat.toDigits 10 i.natAbs

/-- poly.cpp:254-269. -/
def showFactor (f : List Char × ℤ) : List Char :=
  if f.2 = 0 then [] else f.1 ++ if f.2 ≠ 1 then '^' :: showInt f.2 else []

/-- Items with a separator between them. -/
def joinSep (sep : List Char) : List (List Char) → List Char
  | [] => []
  | [x] => x
  | x :: xs => x ++ sep ++ joinSep sep xs

/-- poly.cpp:271-298. -/
def showTerm (fmt : F → List Char) (t : Mon (List Char) × F) : List Char :=
  (if t.2 = -1 then ['-'] else if t.2 ≠ 1 then fmt t.2 else []) ++
    joinSep [' '] (t.1.factors.map showFactor)

/-- poly.cpp:300-329. -/
def showPoly (fmt : F → List Char) (p : Poly (List Char) F) : List Char :=
  if p.terms = [] then []
  else if p.terms.length > 1 then
    '(' :: joinSep " + ".toList (p.terms.map (showTerm fmt)) ++ [')']
  else joinSep " + ".toList (p.terms.map (showTerm fmt))

/-- ga.cpp:495-516. -/
def showBlade (fmt : F → List Char) (t : ℕ × Poly (List Char) F) : List Char :=
  showPoly fmt t.2 ++
    if t.1 = 0 then []
    else ' ' :: 'e' :: ((List.range 9).filter fun i => t.1 &&& 2 ^ i > 0).flatMap (Nat.toDigits 10)

/-- ga.cpp:518-536. -/
def showMv (fmt : F → List Char) (m : Mv (List Char) F) : List Char :=
  if m.terms = [] then ['0'] else joinSep " + ".toList (m.terms.map (showBlade fmt))

end Print
end Klein.Sym
