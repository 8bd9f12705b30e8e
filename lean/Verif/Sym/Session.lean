import Verif.Sym.Repl

/-!
# A session of the shell (sym/repl.cpp), the printing of tokens (sym/parser.cpp), `std::hash<mon>`

The input is the whole text of `std::cin`, the outputs are the texts written to `std::cout` and
`std::cerr`.  `val` reads a `float`, `fmt` prints one, and `what` is the message of the exception
thrown for a line.
-/

namespace Klein.Sym

section Session
variable {F : Type} [Add F] [Mul F] [Neg F] [Zero F] [One F] [DecidableEq F] [ZeroTest F]

/-- The streams written so far, and the member `break_lines` (repl.hpp:9). -/
structure World where
  cout : List Char := []
  cerr : List Char := []
  breakLines : Bool := false
  deriving DecidableEq, Repr

/-- repl.cpp:19-79, the body of the loop for one line; `none` if it never ends. -/
def answer (val : List Char → F) (fmt : F → List Char) (what : List Char → List Char) (line : List Char)
    (w : World) : Option (R World) :=
  match classify line with
  | .throw => some .throw
  | .ub u => some (.ub u)
  | .more => some .more
  | .ok (echo, act) =>
    let w := if echo then { w with cout := w.cout ++ line } else w
    match act with
    | .blank => some (.ok { w with cout := w.cout ++ ['\n'] })
    | .command flip => some (.ok (if flip then { w with breakLines := !w.breakLines } else w))
    | .parse => match parse val ⟨3, 0, 1⟩ line with
      | none => none
      | some (.ok m) => some (.ok { w with cout := w.cout ++ showMv fmt m ++ ['\n'] })
      | some .throw => some (.ok { w with cerr := w.cerr ++ what line ++ ['\n'] })
      | some (.ub u) => some (.ub u)
      | some .more => some .more

/-- `std::getline(std::cin, line)`: the characters up to the next line end, which is removed from the
input; fails if there are none. -/
def getline : List Char → Option (List Char × List Char)
  | [] => none
  | c :: s => some ((c :: s).takeWhile (· != '\n'), ((c :: s).dropWhile (· != '\n')).tail)

/-- repl.cpp:14-80 `repl::run`, `n` iterations at most. -/
def runLoop (val : List Char → F) (fmt : F → List Char) (what : List Char → List Char) :
    ℕ → List Char → World → Option (R World)
  | 0, _, w => some (.ok w)
  | n + 1, text, w => match getline text with
    | none => some (.ok w)
    | some (line, rest) => match answer val fmt what line w with
      | some (.ok w') => runLoop val fmt what n rest w'
      | r => r

/-- repl.cpp:14-80 `repl::run`.  Every iteration removes a character from the input. -/
def session (val : List Char → F) (fmt : F → List Char) (what : List Char → List Char)
    (text : List Char) (w : World) : Option (R World) :=
  runLoop val fmt what text.length text w

end Session

/-! ### tokens -/

/-- An output stream: the text, and whether `std::hex` is in force. -/
structure Stream where
  text : List Char := []
  hex : Bool := false
  deriving DecidableEq, Repr

/-- Text is appended. -/
def Stream.put (os : Stream) (s : List Char) : Stream := { os with text := os.text ++ s }

/-- `os << i` for an `int`: in the base of the stream; negative numbers in base 16 are converted to
`unsigned`. -/
def Stream.putInt (os : Stream) (i : ℤ) : Stream :=
  os.put (if os.hex then Nat.toDigits 16 (i % 2 ^ 32).toNat else showInt i)

/-- parser.cpp:16-24 `operator<<(ostream&, element)`. -/
def Stream.putElement (os : Stream) (value : ℕ) (negative : Bool) : Stream :=
  let os := if negative then os.put ['-'] else os
  let os := { os.put "e[0x".toList with hex := true }
  (os.putInt value).put [']']

/-- parser.cpp:9-14, :26-49 `operator<<(ostream&, token)`. -/
def Stream.putToken {F : Type} (fmt : F → List Char) (os : Stream) : Token F → Stream
  | .delimiter c => os.put [c]
  | .element v n => os.putElement v n
  | .eof => os
  | .identifier s => os.put s
  | .number x => os.put (fmt x)
  | .op c => os.put [c]

/-- parser.cpp:51-60 `operator<<(ostream&, vector<token>)`. -/
def Stream.putTokens {F : Type} (fmt : F → List Char) (os : Stream) (ts : List (Token F)) : Stream :=
  (ts.foldl (fun os t => (os.putToken fmt t).put ['\n']) os).put ['\n']

/-- poly.cpp:254-269 on a stream. -/
def Stream.putFactor (os : Stream) (f : List Char × ℤ) : Stream :=
  if f.2 = 0 then os
  else
    let os := os.put f.1
    if f.2 ≠ 1 then (os.put ['^']).putInt f.2 else os

/-! ### hash -/

/-- poly.hpp:26-47, the constant: `w` is the number of bits of `size_t`. -/
def hashK (w : ℕ) : BitVec w :=
  if w = 64 then BitVec.ofNat w 0x517cc1b727220a95 else BitVec.ofNat w 0x9e3779b9

/-- poly.hpp:43, :44. -/
def hashStep {w : ℕ} (out h : BitVec w) : BitVec w := out ^^^ (h + hashK w + (out >>> 2) + (out <<< 6))

/-- poly.hpp:26-47 `std::hash<mon>`; `hs` and `hi` are `std::hash<std::string>` and `std::hash<int>`. -/
def Mon.hash {X : Type} {w : ℕ} (hs : X → BitVec w) (hi : ℤ → BitVec w) (m : Mon X) : BitVec w :=
  m.factors.foldl (fun out f => hashStep (hashStep out (hs f.1)) (hi f.2)) 0

end Klein.Sym
