import Verif.Props.SymMeaning
import Verif.Sym.Repl
import Mathlib.Data.List.TakeWhile

/-!
# C65: the lines of the symbolic shell; C66: reading back what it prints
-/

set_option linter.unusedSectionVars false

namespace Klein.Sym

/-! ### C65 -/

/-- The characters the scan stops at. -/
def isMark (c : Char) : Bool := c == '#' || c == '.'

theorem scan_spec : ∀ (s : List Char) (st : Scan), (∀ c ∈ s, Ascii c) →
    scan s st = .ok ⟨st.echo || ((s.dropWhile (!isMark ·)).head? == some '#'),
      st.parse || (s.takeWhile (!isMark ·)).any (!isSpace ·),
      st.command || ((s.dropWhile (!isMark ·)).head? == some '.')⟩
  | [], st, _ => by simp [scan]
  | c :: s, st, h => by
    have hc := h c (List.mem_cons_self ..)
    have hs : ∀ c ∈ s, Ascii c := fun x hx => h x (List.mem_cons_of_mem _ hx)
    rw [scan, ctype_ascii hc, R.bind_ok]
    by_cases h1 : isSpace c = true
    · rw [if_pos h1, scan_spec s st hs]
      have hm : isMark c = false := by
        cases hm : isMark c with
        | false => rfl
        | true =>
          simp only [isMark, Bool.or_eq_true, beq_iff_eq] at hm
          rcases hm with rfl | rfl <;> exact absurd h1 (by decide)
      simp [hm, h1]
    rw [if_neg h1]
    by_cases h2 : c = '#'
    · subst h2
      rw [if_pos rfl]
      simp [isMark]
    rw [if_neg h2]
    by_cases h3 : c = '.'
    · subst h3
      rw [if_pos rfl]
      simp [isMark]
    rw [if_neg h3, scan_spec s _ hs]
    have hm : isMark c = false := by simp [isMark, h2, h3]
    have h1' : isSpace c = false := by simpa using h1
    simp [hm, h1']

/-- C65: exactly what is done with a line.  The first `#` or `.` *anywhere* decides. -/
theorem C65_exact (line : List Char) (h : ∀ c ∈ line, Ascii c) :
    classify line = .ok ((line.dropWhile (!isMark ·)).head? == some '#',
      if (line.dropWhile (!isMark ·)).head? = some '.' then .command (decide (line = ".break".toList))
      else if (line.takeWhile (!isMark ·)).all isSpace then .blank
      else .parse) := by
  unfold classify
  by_cases h0 : line = []
  · subst h0; rfl
  rw [if_neg h0, scan_spec line {} h, R.bind_ok]
  have : ((line.takeWhile (!isMark ·)).any (!isSpace ·)) = !((line.takeWhile (!isMark ·)).all isSpace) := by
    rw [List.not_all_eq_any_not]
  simp only [Bool.false_or, this, Bool.not_not, beq_iff_eq]

/-- What the comments in the code say: a line whose first character that is not a space is `#` is a
comment, which is echoed and not parsed; with `.` it is a command; a line of spaces is skipped, and
every other line is parsed. -/
def documented (line : List Char) : Bool × Action :=
  match line.dropWhile isSpace with
  | [] => (false, .blank)
  | '#' :: _ => (true, .blank)
  | '.' :: _ => (false, .command (decide (line = ".break".toList)))
  | _ => (false, .parse)

/-- C65: lines with no `#` or `.` after their first character that is not a space are treated as
documented. -/
theorem C65_partial (line : List Char) (h : ∀ c ∈ line, Ascii c)
    (hm : ∀ c ∈ (line.dropWhile isSpace).tail, isMark c = false) :
    classify line = .ok (documented line) := by
  rw [C65_exact line h]
  have hsp : ∀ c, isSpace c = true → isMark c = false := by
    intro c h1
    cases hm : isMark c with
    | false => rfl
    | true =>
      simp only [isMark, Bool.or_eq_true, beq_iff_eq] at hm
      rcases hm with rfl | rfl <;> exact absurd h1 (by decide)
  have hsplit := List.takeWhile_append_dropWhile (p := isSpace) (l := line)
  have hpre : ∀ c ∈ line.takeWhile isSpace, isSpace c = true := fun c hc => mem_takeWhile hc
  unfold documented
  set r := line.dropWhile isSpace with hr
  have e1 : line.dropWhile (!isMark ·) = r.dropWhile (!isMark ·) := by
    rw [← hsplit, List.dropWhile_append_of_pos]
    intro c hc; rw [hsp c (hpre c hc)]; rfl
  have e2 : line.takeWhile (!isMark ·) = line.takeWhile isSpace ++ r.takeWhile (!isMark ·) := by
    conv_lhs => rw [← hsplit]
    rw [List.takeWhile_append_of_pos]
    intro c hc; rw [hsp c (hpre c hc)]; rfl
  have hall : (line.takeWhile isSpace).all isSpace = true := List.all_eq_true.2 hpre
  rw [e1, e2, List.all_append, hall, Bool.true_and]
  cases hrc : r with
  | nil => simp
  | cons c s =>
    have hc : isSpace c = false := by
      have := List.head?_dropWhile_not isSpace line
      rw [← hr, hrc] at this
      simpa using this
    rw [hrc] at hm
    simp only [List.tail_cons] at hm
    have hno : s.dropWhile (!isMark ·) = [] := by
      rw [List.dropWhile_eq_nil_iff]
      intro x hx; rw [hm x hx]; rfl
    by_cases h2 : c = '#'
    · subst h2; simp [isMark]
    by_cases h3 : c = '.'
    · subst h3; simp [isMark]
    have hmc : isMark c = false := by simp [isMark, h2, h3]
    have : (match c :: s with
        | [] => (false, Action.blank)
        | '#' :: _ => (true, .blank)
        | '.' :: _ => (false, .command (decide (line = ".break".toList)))
        | _ => (false, .parse)) = (false, .parse) := by
      split
      · rename_i h; cases h
      · rename_i h; cases h; exact absurd rfl h2
      · rename_i h; cases h; exact absurd rfl h3
      · rfl
    rw [this]
    simp [hmc, hno, hc]

/-- C65 fails: a line with a decimal point is taken for a command and ignored; a comment at the end
of a line makes the line be echoed, and it is parsed with the comment, which never ends. -/
theorem C65_fails :
    classify "1.5*e0".toList = .ok (false, .command false) ∧
    documented "1.5*e0".toList = (false, .parse) ∧
    classify "e1 #1".toList = .ok (true, .parse) ∧
    documented "e1 #1".toList = (false, .parse) ∧
    parse (F := ℤ) (fun _ => 0) ⟨3, 0, 1⟩ "e1 #".toList = none := by
  decide +kernel

example : classify "# a note".toList = .ok (true, .blank) ∧ classify "  ".toList = .ok (false, .blank) ∧
    classify ".break".toList = .ok (false, .command true) ∧
    classify " e1 ^ e2".toList = .ok (false, .parse) := by decide +kernel

/-! ### C66 -/

variable {F : Type} [CommRing F] [DecidableEq F]

/-- The digits printed for a blade. -/
def bladeDigits (S : ℕ) : List Char :=
  ((List.range 9).filter fun i => S &&& 2 ^ i > 0).flatMap (Nat.toDigits 10)

/-- C66: the element printed for a blade of up to 8 dimensions is the literal of that blade. -/
theorem C66_blade : ∀ S < 256, elementFold (bladeDigits S) 0 false = some (S, false) ∧
    (bladeDigits S).all isDigit = true ∧ (S ≠ 0 → bladeDigits S ≠ []) := by
  decide +kernel

/-- How a number is printed: `fmt` writes a decimal numeral that `val` reads back, with a sign in
front if need be. -/
def Reads (val : List Char → F) (fmt : F → List Char) (c : F) : Prop :=
  ∃ w, IsDecimal w ∧ ((fmt c = w ∧ val w = c) ∨ (fmt c = '-' :: w ∧ val w * -1 = c))

/-- A numeric term: the coefficient is a number, and not `±1` for the scalar blade. -/
def Numeric (val : List Char → F) (fmt : F → List Char) (t : ℕ × F) : Prop :=
  t.1 < 256 ∧ (t.2 = 1 ∨ t.2 = -1 ∨ Reads val fmt t.2) ∧ (t.1 = 0 → t.2 ≠ 1 ∧ t.2 ≠ -1)

/-- The term of a multivector. -/
def termOf (t : ℕ × F) : ℕ × Poly (List Char) F := (t.1, ⟨[(⟨[]⟩, t.2)]⟩)

theorem stops_space (f : Char → Bool) (s : List Char) (hf : f ' ' = false) : Stops f (' ' :: s) :=
  ⟨by decide, hf⟩

theorem lex_blade {val : List Char → F} (S : ℕ) (hS : S < 256) (h0 : S ≠ 0) {s : List Char}
    {ts : List (Token F)} (hs : Stops isDigit s) (h : Lexes val s ts) :
    Lexes val (' ' :: 'e' :: bladeDigits S ++ s) (.element S false :: ts) := by
  obtain ⟨h1, h2, h3⟩ := C66_blade S hS
  obtain ⟨c, ds, hcd⟩ := List.exists_cons_of_ne_nil (h3 h0)
  refine .space (by decide) ?_
  rw [hcd] at h1 h2 ⊢
  exact Lexes.element (List.all_eq_true.1 h2) hs h1 h

/-- A printed term is read as a factor with the same value. -/
theorem read_term {val : List Char → F} {fmt : F → List Char} (a : Alg) (t : ℕ × F)
    (ht : Numeric val fmt t) : ∃ toks e, Derives 5 toks e ∧
      e.value a = some ⟨some a, [termOf t]⟩ ∧
      ∀ s ts, Stops isNumChar s → Lexes val s ts →
        Lexes val (showBlade fmt (termOf t) ++ s) (toks ++ ts) := by
  obtain ⟨S, c⟩ := t
  obtain ⟨hS, hc, h0⟩ := ht
  simp only at hS hc h0
  have hst : ∀ s, Stops isNumChar s → Stops isDigit s := by
    intro s hs
    cases s with
    | nil => trivial
    | cons d s =>
      refine ⟨hs.1, ?_⟩
      have := hs.2
      simp only [isNumChar, Bool.or_eq_false_iff] at this
      exact this.1
  have show1 : showBlade fmt (termOf (S, c)) =
      (if c = -1 then ['-'] else if c ≠ 1 then fmt c else []) ++
        if S = 0 then [] else ' ' :: 'e' :: bladeDigits S := by
    simp [showBlade, showPoly, showTerm, termOf, joinSep, bladeDigits]
  rw [show1]
  by_cases hm : c = -1
  · have hS0 : S ≠ 0 := fun h => (h0 h).2 hm
    rw [if_pos hm, if_neg hS0]
    refine ⟨[.op '-', .element S false], _, .minus (.element S false), ?_, fun s ts hs h => ?_⟩
    · simp [Ast.value, monOf, Mv.neg, Poly.neg, termOf, hm]
    · exact .op (by decide) (lex_blade S hS hS0 (hst s hs) h)
  rw [if_neg hm]
  by_cases h1 : c = 1
  · have hS0 : S ≠ 0 := fun h => (h0 h).1 h1
    rw [if_neg (by simp [h1]), if_neg hS0]
    refine ⟨[.element S false], _, .element S false, ?_, fun s ts hs h => ?_⟩
    · simp [Ast.value, monOf, termOf, h1]
    · exact lex_blade S hS hS0 (hst s hs) h
  rw [if_pos h1]
  obtain ⟨w, hw, hfw⟩ := (hc.resolve_left h1).resolve_left hm
  have lexw : ∀ s ts, Stops isNumChar s → Lexes val s ts →
      Lexes val (w ++ s) (.number (val w) :: ts) := fun s ts hs h => .number hw hs h
  by_cases hS0 : S = 0
  · subst hS0
    rw [if_pos rfl]
    rcases hfw with ⟨hf, hv⟩ | ⟨hf, hv⟩
    · refine ⟨[.number (val w)], _, .number _, ?_, fun s ts hs h => ?_⟩
      · simp [Ast.value, monOf, termOf, hv]
      · rw [hf, List.append_nil]; exact lexw s ts hs h
    · refine ⟨[.op '-', .number (val w)], _, .minus (.number _), ?_, fun s ts hs h => ?_⟩
      · rw [← hv]; simp [Ast.value, monOf, Mv.neg, Poly.neg, termOf]
      · rw [hf, List.append_nil]; exact .op (by decide) (lexw s ts hs h)
  · rw [if_neg hS0]
    rcases hfw with ⟨hf, hv⟩ | ⟨hf, hv⟩
    · refine ⟨[.number (val w), .element S false], _, .numberElement _ _ _, ?_, fun s ts hs h => ?_⟩
      · simp [Ast.value, monOf, termOf, hv]
      · rw [hf, List.append_assoc]
        exact lexw _ _ (stops_space _ _ (by decide)) (lex_blade S hS hS0 (hst s hs) h)
    · refine ⟨[.op '-', .number (val w), .element S false], _, .minus (.numberElement _ _ _), ?_,
        fun s ts hs h => ?_⟩
      · rw [← hv]; simp [Ast.value, monOf, Mv.neg, Poly.neg, termOf]
      · rw [hf, List.append_assoc]
        exact .op (by decide) (lexw _ _ (stops_space _ _ (by decide)) (lex_blade S hS hS0 (hst s hs) h))

theorem upsert_last {K V : Type} (lt : K → K → Option Bool) (k : K) (v : V)
    (upd : V → Option (Option V)) : ∀ l : List (K × V), (∀ kv ∈ l, lt kv.1 k = some true) →
      upsert lt k (some v) upd l = some (l ++ [(k, v)])
  | [], _ => rfl
  | (x, u) :: l, h => by
    have h1 := h (x, u) (List.mem_cons_self ..)
    have ih := upsert_last lt k v upd l fun kv hkv => h kv (List.mem_cons_of_mem _ hkv)
    simp only at h1
    simp [upsert, h1, ih]

/-- Adding a term above all others appends it. -/
theorem add_last (a : Alg) (l : List (ℕ × Poly (List Char) F)) (t : ℕ × Poly (List Char) F)
    (h : ∀ kv ∈ l, elemComp kv.1 t.1 = true) :
    (⟨some a, l⟩ : Mv (List Char) F).add ⟨some a, [t]⟩ = some ⟨some a, l ++ [t]⟩ := by
  have := upsert_last Mv.ltE t.1 t.2 (fun v => do
    let s ← v.addAssign t.2
    return if s.terms = [] then none else some s) l (fun kv hkv => by simp [Mv.ltE, h kv hkv])
  simp only [Mv.add, List.foldlM_cons, List.foldlM_nil, Mv.push]
  rw [this]
  rfl

theorem read_terms {val : List Char → F} {fmt : F → List Char} (a : Alg) :
    ∀ (ts : List (ℕ × F)) (l : List (ℕ × Poly (List Char) F)) (pre : List (Token F)) (e0 : Ast F),
      (∀ t ∈ ts, Numeric val fmt t) → (l ++ ts.map termOf).Pairwise (fun x y => elemComp x.1 y.1 = true) →
      Derives 0 pre e0 → e0.value a = some ⟨some a, l⟩ →
      ∃ toks e, Derives 0 (pre ++ toks) e ∧ e.value a = some ⟨some a, l ++ ts.map termOf⟩ ∧
        Lexes val (ts.flatMap fun t => " + ".toList ++ showBlade fmt (termOf t)) (toks ++ [.eof])
  | [], l, pre, e0, _, _, h1, h2 => ⟨[], e0, by simpa using h1, by simpa using h2, .nil⟩
  | t :: ts, l, pre, e0, hn, hp, h1, h2 => by
    obtain ⟨tk, et, g1, g2, g3⟩ := read_term (val := val) (fmt := fmt) a t (hn t (List.mem_cons_self ..))
    have up : Derives 1 tk et := .lift (by omega) (.lift (by omega) (.lift (by omega) (.lift (by omega) g1)))
    have hd := Derives.bin (k := 0) (c := '+') (o := .add) rfl h1 up
    have hlast : (⟨some a, l⟩ : Mv (List Char) F).add ⟨some a, [termOf t]⟩
        = some ⟨some a, l ++ [termOf t]⟩ := by
      refine add_last a l _ fun kv hkv => ?_
      rw [List.pairwise_append] at hp
      exact hp.2.2 kv hkv _ (by simp)
    obtain ⟨toks, e, k1, k2, k3⟩ := read_terms (val := val) (fmt := fmt) a ts (l ++ [termOf t])
      (pre ++ .op '+' :: tk) _ (fun x hx => hn x (List.mem_cons_of_mem _ hx)) (by simpa using hp) hd
      (by simp [Ast.value, h2, g2, BinOp.apply, hlast])
    refine ⟨.op '+' :: (tk ++ toks), e, by simpa using k1, by simpa using k2, ?_⟩
    have hstop : Stops isNumChar (ts.flatMap fun t => " + ".toList ++ showBlade fmt (termOf t)) := by
      cases ts with
      | nil => trivial
      | cons t' ts' => exact stops_space _ _ (by decide)
    have h5 := g3 _ _ hstop k3
    simp only [List.flatMap_cons, List.append_assoc, List.cons_append]
    exact .space (by decide) (.op (by decide) (.space (by decide) h5))

theorem joinSep_eq (sep : List Char) : ∀ (x : List Char) (xs : List (List Char)),
    joinSep sep (x :: xs) = x ++ xs.flatMap (fun y => sep ++ y)
  | x, [] => by simp [joinSep]
  | x, y :: ys => by
    rw [joinSep, joinSep_eq sep y ys]
    · simp
    · simp

/-- C66: a multivector with numeric coefficients in the order of its blades, of which the scalar is
not `±1`, is read back from what is printed for it. -/
theorem C66_partial (val : List Char → F) (fmt : F → List Char) (a : Alg) (ts : List (ℕ × F))
    (hne : ts ≠ []) (hn : ∀ t ∈ ts, Numeric val fmt t)
    (hs : ts.Pairwise fun x y => elemComp x.1 y.1 = true)
    (hshort : Short (showMv fmt ⟨some a, ts.map termOf⟩)) :
    parse val a (showMv fmt ⟨some a, ts.map termOf⟩) = some (.ok ⟨some a, ts.map termOf⟩) := by
  obtain ⟨t, ts, rfl⟩ := List.exists_cons_of_ne_nil hne
  obtain ⟨tk, et, g1, g2, g3⟩ := read_term (val := val) (fmt := fmt) a t (hn t (List.mem_cons_self ..))
  have up : Derives 0 tk et :=
    .lift (by omega) (.lift (by omega) (.lift (by omega) (.lift (by omega) (.lift (by omega) g1))))
  obtain ⟨toks, e, k1, k2, k3⟩ := read_terms (val := val) (fmt := fmt) a ts [termOf t] tk et
    (fun x hx => hn x (List.mem_cons_of_mem _ hx)) (by
      have : (([t] ++ ts).map termOf).Pairwise
          (fun x y : ℕ × Poly (List Char) F => elemComp x.1 y.1 = true) := by
        rw [List.pairwise_map]; exact hs
      simpa using this) up g2
  have hstop : Stops isNumChar (ts.flatMap fun t => " + ".toList ++ showBlade fmt (termOf t)) := by
    cases ts with
    | nil => trivial
    | cons t' ts' => exact stops_space _ _ (by decide)
  have htext : showMv fmt ⟨some a, (t :: ts).map termOf⟩
      = showBlade fmt (termOf t) ++ ts.flatMap fun t => " + ".toList ++ showBlade fmt (termOf t) := by
    simp only [showMv, List.map_cons, reduceCtorEq, if_false, joinSep_eq, List.flatMap_map, List.map_map]
    rfl
  have hlex : Lexes val (showMv fmt ⟨some a, (t :: ts).map termOf⟩) ((tk ++ toks) ++ [.eof]) := by
    rw [htext, List.append_assoc]
    exact g3 _ _ hstop k3
  rw [parse, C60_complete_partial val _ _ hlex hshort, Option.map_some, R.bind_ok,
    C62_complete a _ [.eof] e _ k1 k2 ⟨_, _, rfl, Or.inl rfl⟩]
  rfl

/-- C66: exponents and integer coefficients are printed as their decimal digits, with a sign only if
negative. -/
theorem C66_showInt (n : ℕ) : showInt n = Nat.toDigits 10 n ∧
    showInt (-(n + 1 : ℕ)) = '-' :: Nat.toDigits 10 (n + 1) := by
  constructor
  · rw [showInt, if_neg (by omega)]; simp
  · rw [showInt, if_pos (by omega), Int.natAbs_neg, Int.natAbs_natCast]

example : showInt 0 = ['0'] ∧ showInt (-12) = ['-', '1', '2'] := by decide +kernel

/-- A concrete case: `3 + e1 - 2 e12`. -/
example : showMv (F := ℤ) showInt ⟨some ⟨3, 0, 1⟩, [termOf (0, 3), termOf (2, 1), termOf (6, -2)]⟩
    = "3 +  e1 + -2 e12".toList := by decide +kernel

/-- C66 fails: the scalars 1 and -1 are printed as the empty text and as `-`, which are rejected
(the empty text even before parsing), `2 x` as `2x` which is rejected, and `x²` as `x^2`, which is
read as the exterior product of `x` and 2 in what follows. -/
theorem C66_fails :
    showMv (F := ℤ) showInt ⟨some ⟨3, 0, 1⟩, [termOf (0, 1)]⟩ = [] ∧
    showMv (F := ℤ) showInt ⟨some ⟨3, 0, 1⟩, [termOf (0, -1)]⟩ = ['-'] ∧
    parse (F := ℤ) (fun _ => 2) ⟨3, 0, 1⟩ [] = some .throw ∧
    parse (F := ℤ) (fun _ => 2) ⟨3, 0, 1⟩ ['-'] = some .throw ∧
    showMv (F := ℤ) showInt ⟨some ⟨3, 0, 1⟩, [(1, ⟨[(⟨[(['x'], 1)]⟩, 2)]⟩)]⟩ = "2x e0".toList ∧
    parse (F := ℤ) (fun _ => 2) ⟨3, 0, 1⟩ "2x e0".toList = some .throw ∧
    showMv (F := ℤ) showInt ⟨some ⟨3, 0, 1⟩, [(1, ⟨[(⟨[(['x'], 2)]⟩, 1)]⟩)]⟩ = "x^2 e0".toList ∧
    parse (F := ℤ) (fun _ => 2) ⟨3, 0, 1⟩ "x^2 e0".toList
      = some (.ok ⟨some ⟨3, 0, 1⟩, [(1, ⟨[(⟨[(['x'], 1)]⟩, 2)]⟩)]⟩) := by
  decide +kernel

end Klein.Sym
