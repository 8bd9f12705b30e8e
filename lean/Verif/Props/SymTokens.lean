import Verif.Sym.Parser
import Verif.Props.SymExt

/-!
# C60, C61: the tokenizer of the symbolic shell

C60 (termination) is violated: an input ending in a one-letter identifier, as `x + y`, and any input
with a character the tokenizer does not know, never ends.  `C60_diverges_iff` says exactly when.
What is accepted is described by the relation `Lexes`.

C61 (the buffer) is violated: 32 or more digits and points in a row always write outside it, before
the length check can throw.
-/

namespace Klein.Sym

@[simp] theorem R.bind_ok {α β : Type} (a : α) (f : α → R β) : (R.ok a).bind f = f a := rfl
@[simp] theorem R.bind_throw {α β : Type} (f : α → R β) : (R.throw : R α).bind f = .throw := rfl
@[simp] theorem R.bind_ub {α β : Type} (u : UB) (f : α → R β) : (R.ub u : R α).bind f = .ub u := rfl
@[simp] theorem R.bind_more {α β : Type} (f : α → R β) : (R.more : R α).bind f = .more := rfl

theorem R.bind_eq_ok {α β : Type} {x : R α} {f : α → R β} {b : β} :
    x.bind f = .ok b ↔ ∃ a, x = .ok a ∧ f a = .ok b := by
  cases x <;> simp

/-- `<cctype>` functions may be called with this character. -/
def Ascii (c : Char) : Prop := ¬(128 ≤ c.toNat ∧ c.toNat ≠ 255)

instance (c : Char) : Decidable (Ascii c) := inferInstanceAs (Decidable (¬_))

/-- The text does not begin with a character of the class `f` (nor with one outside ASCII). -/
def Stops (f : Char → Bool) : List Char → Prop
  | [] => True
  | c :: _ => Ascii c ∧ f c = false

theorem ctype_ascii {f : Char → Bool} {c : Char} (h : Ascii c) : ctype f c = .ok (f c) := by
  unfold ctype; rw [if_neg h]

theorem ctype_eq_ok {f : Char → Bool} {c : Char} {b : Bool} :
    ctype f c = .ok b ↔ Ascii c ∧ f c = b := by
  unfold ctype Ascii
  split_ifs with h
  · simp [h]
  · simp only [R.ok.injEq]; tauto

theorem ascii_of_digit {c : Char} (h : isDigit c = true) : Ascii c := by
  unfold isDigit at h; unfold Ascii
  simp only [Bool.and_eq_true, decide_eq_true_eq] at h
  omega

theorem ascii_of_alnum {c : Char} (h : isAlnum c = true) : Ascii c := by
  unfold isAlnum isLetter isDigit at h; unfold Ascii
  simp only [Bool.and_eq_true, Bool.or_eq_true, decide_eq_true_eq] at h
  omega

/-- Digits and points. -/
def isNumChar (c : Char) : Bool := isDigit c || c == '.'

theorem ascii_of_numChar {c : Char} (h : isNumChar c = true) : Ascii c := by
  simp only [isNumChar, Bool.or_eq_true, beq_iff_eq] at h
  rcases h with h | rfl
  · exact ascii_of_digit h
  · decide

/-! ### C61 -/

/-- The loop on a run of digits and points: it copies the run if it fits in 32 characters, and
writes outside the buffer otherwise. -/
theorem numberLoop_run (r : List Char) (hr : Stops isNumChar r) : ∀ (w : List Char) (n : ℕ),
    (∀ c ∈ w, isNumChar c = true) → n ≤ 32 →
    numberLoop (w ++ r) n = if n + w.length ≤ 32 then .ok w else .ub .buffer
  | [], n, _, hn => by
    cases r with
    | nil => simp [numberLoop, hn]
    | cons c r =>
      have h2 : (isDigit c || c == '.') = false := hr.2
      simp only [List.nil_append, numberLoop, if_neg (Nat.not_lt.2 hn), ctype_ascii hr.1, R.bind_ok, h2,
        Bool.false_eq_true, if_false, List.length_nil, Nat.add_zero, if_pos hn]
  | c :: w, n, hw, hn => by
    have hc := hw c (List.mem_cons_self ..)
    have h2 : (isDigit c || c == '.') = true := hc
    have h1 := fun h => numberLoop_run r hr w (n + 1) (fun c h => hw c (List.mem_cons_of_mem _ h)) h
    simp only [List.cons_append, numberLoop, ctype_ascii (ascii_of_numChar hc), R.bind_ok, h2, if_true,
      if_neg (Nat.not_lt.2 hn), List.length_cons]
    by_cases hn' : n < 32
    · rw [if_pos hn', h1 hn', show n + 1 + w.length = n + (w.length + 1) from by omega]
      split_ifs <;> simp
    · rw [if_neg hn', if_neg (by omega)]

/-- C61: on a run `w` of digits and points followed by another character, `tokenize_number` stays
within its buffer exactly if the run is shorter than 32. -/
theorem C61_exact {F : Type} (val : List Char → F) (w r : List Char) (hr : Stops isNumChar r)
    (hw : ∀ c ∈ w, isNumChar c = true) :
    tokenizeNumber val (w ++ r) =
      if w.length < 32 then .ok (val (decimal w), (w ++ r).drop (decimal w).length)
      else .ub .buffer := by
  unfold tokenizeNumber
  rw [numberLoop_run r hr w 0 hw (by omega), Nat.zero_add]
  by_cases h : w.length < 32
  · simp [h, le_of_lt h]
  · by_cases h' : w.length ≤ 32
    · simp [h, h']
    · simp [h, h']

/-- C61: shorter runs are read within the buffer. -/
theorem C61_partial {F : Type} (val : List Char → F) (w r : List Char) (hr : Stops isNumChar r)
    (hw : ∀ c ∈ w, isNumChar c = true) (h : w.length < 32) :
    tokenizeNumber val (w ++ r) = .ok (val (decimal w), (w ++ r).drop (decimal w).length) := by
  rw [C61_exact val w r hr hw, if_pos h]

/-- C61: the length check never throws, on any input. -/
theorem C61_never_throws {F : Type} (val : List Char → F) (s : List Char) :
    tokenizeNumber val s ≠ .throw := by
  have : ∀ (s : List Char) n, n ≤ 32 → numberLoop s n ≠ .throw := by
    intro s
    induction s with
    | nil => intro n _; simp [numberLoop]
    | cons c s ih =>
      intro n hn
      rw [numberLoop, if_neg (by omega)]
      by_cases ha : Ascii c
      · rw [ctype_ascii ha, R.bind_ok]
        split_ifs with h1 h2
        · have := ih (n + 1) (by omega)
          cases h : numberLoop s (n + 1) <;> simp_all
        · simp
        · simp
      · have : ctype isDigit c = .ub .ctype := by
          unfold ctype Ascii at *; rw [if_pos (not_not.1 ha)]
        rw [this]; simp
  unfold tokenizeNumber
  have := this s 0 (by omega)
  cases h : numberLoop s 0 with
  | throw => exact absurd h this
  | ok w => simp only [R.bind_ok]; split_ifs <;> simp
  | ub u => simp
  | more => simp

/-- C61: 32 digits, which the check is meant to allow, overflow the buffer (by the terminator). -/
theorem C61_fails : tokenize (fun _ => ()) (List.replicate 32 '1') = some (.ub .buffer) := by
  decide +kernel

/-- 31 digits do not. -/
example : tokenize (fun w => w.length) (List.replicate 31 '1') = some (.ok [.number 31, .eof]) := by
  decide +kernel

/-! ### C60: when the loop ends -/

/-- The texts on which an iteration leaves the iterator where it was: the last character is a
letter or unknown, or the next one is unknown. -/
def Stuck (s : List Char) : Prop :=
  ∃ c r, s = c :: r ∧ Ascii c ∧ isSpace c = false ∧ c ≠ '(' ∧ c ≠ ')' ∧ c ≠ Char.ofNat 0 ∧
    c ∉ opChars ∧ isDigit c = false ∧ (r = [] ∨ isLetter c = false)

theorem identifierLoop_spec : ∀ (s : List Char) {w r : List Char},
    identifierLoop s = .ok (w, r) →
      s = w ++ r ∧ (∀ c ∈ w, isAlnum c = true) ∧ Stops isAlnum r
  | [], w, r, h => by
    simp only [identifierLoop, R.ok.injEq, Prod.mk.injEq] at h
    obtain ⟨rfl, rfl⟩ := h
    simp [Stops]
  | c :: s, w, r, h => by
    simp only [identifierLoop, R.bind_eq_ok, ctype_eq_ok] at h
    obtain ⟨b, ⟨ha, rfl⟩, h⟩ := h
    split_ifs at h with hb
    · rw [R.bind_eq_ok] at h
      obtain ⟨wr, h1, h2⟩ := h
      simp only [R.ok.injEq, Prod.mk.injEq] at h2
      obtain ⟨rfl, rfl⟩ := h2
      obtain ⟨e, h3, h4⟩ := identifierLoop_spec s h1
      refine ⟨by rw [List.cons_append, ← e], fun x hx => ?_, h4⟩
      rcases List.mem_cons.1 hx with rfl | hx
      · exact hb
      · exact h3 x hx
    · simp only [R.ok.injEq, Prod.mk.injEq] at h
      obtain ⟨rfl, rfl⟩ := h
      exact ⟨rfl, by simp, ha, by simpa using hb⟩

theorem identifierLoop_run (r : List Char) (hr : Stops isAlnum r) : ∀ (w : List Char),
    (∀ c ∈ w, isAlnum c = true) → identifierLoop (w ++ r) = .ok (w, r)
  | [], _ => by
    cases r with
    | nil => rfl
    | cons c r => simp [identifierLoop, ctype_ascii hr.1, hr.2]
  | c :: w, hw => by
    have hc := hw c (List.mem_cons_self ..)
    simp [identifierLoop, ctype_ascii (ascii_of_alnum hc), hc,
      identifierLoop_run r hr w fun c h => hw c (List.mem_cons_of_mem _ h)]

/-- parser.cpp:111-125 for a list of digits: the value and the sign. -/
def elementFold : List Char → ℕ → Bool → Option (ℕ × Bool)
  | [], v, neg => some (v, neg)
  | c :: ds, v, neg =>
    let bit := c.toNat - 48
    if v &&& 2 ^ bit > 0 then none
    else elementFold ds ((v ||| 2 ^ bit) % 256)
      (if popcnt (v &&& (2 ^ 32 - 1 - (2 ^ bit - 1))) &&& 1 = 1 then !neg else neg)

theorem elementLoop_spec : ∀ (s : List Char) (v : ℕ) (neg : Bool) {v' : ℕ} {neg' : Bool}
    {r : List Char}, elementLoop s v neg = .ok (v', neg', r) →
      ∃ ds, s = ds ++ r ∧ (∀ c ∈ ds, isDigit c = true) ∧ Stops isDigit r ∧
        elementFold ds v neg = some (v', neg')
  | [], v, neg, v', neg', r, h => by
    simp only [elementLoop, R.ok.injEq, Prod.mk.injEq] at h
    obtain ⟨rfl, rfl, rfl⟩ := h
    exact ⟨[], rfl, by simp, trivial, rfl⟩
  | c :: s, v, neg, v', neg', r, h => by
    simp only [elementLoop, R.bind_eq_ok, ctype_eq_ok] at h
    obtain ⟨b, ⟨ha, rfl⟩, h⟩ := h
    split_ifs at h with hb h1 h2
    · obtain ⟨ds, h3, h4, h5, h6⟩ := elementLoop_spec s _ _ h
      refine ⟨c :: ds, by rw [h3]; rfl, fun x hx => ?_, h5, ?_⟩
      · rcases List.mem_cons.1 hx with rfl | hx
        · exact hb
        · exact h4 x hx
      · rw [elementFold, if_neg h1, if_pos h2]; exact h6
    · obtain ⟨ds, h3, h4, h5, h6⟩ := elementLoop_spec s _ _ h
      refine ⟨c :: ds, by rw [h3]; rfl, fun x hx => ?_, h5, ?_⟩
      · rcases List.mem_cons.1 hx with rfl | hx
        · exact hb
        · exact h4 x hx
      · rw [elementFold, if_neg h1, if_neg h2]; exact h6
    · simp only [R.ok.injEq, Prod.mk.injEq] at h
      obtain ⟨rfl, rfl, rfl⟩ := h
      exact ⟨[], rfl, by simp, ⟨ha, by simpa using hb⟩, rfl⟩

theorem elementLoop_run (r : List Char) (hr : Stops isDigit r) : ∀ (ds : List Char) (v : ℕ)
    (neg : Bool), (∀ c ∈ ds, isDigit c = true) → elementLoop (ds ++ r) v neg =
      match elementFold ds v neg with
      | some x => .ok (x.1, x.2, r)
      | none => .throw
  | [], v, neg, _ => by
    cases r with
    | nil => rfl
    | cons c r => simp [elementLoop, elementFold, ctype_ascii hr.1, hr.2]
  | c :: ds, v, neg, hd => by
    have hc := hd c (List.mem_cons_self ..)
    have ih := fun v neg => elementLoop_run r hr ds v neg fun c h => hd c (List.mem_cons_of_mem _ h)
    simp only [List.cons_append, elementLoop, ctype_ascii (ascii_of_digit hc), hc, R.bind_ok, if_true,
      elementFold]
    split_ifs
    · rfl
    · exact ih _ _
    · exact ih _ _

theorem takeWhile_append_stops {f : Char → Bool} {r : List Char} (hr : Stops f r) :
    ∀ {w : List Char}, (∀ c ∈ w, f c = true) → (w ++ r).takeWhile f = w
  | [], _ => by
    cases r with
    | nil => rfl
    | cons c r => simp [hr.2]
  | c :: w, hw => by
    rw [List.cons_append, List.takeWhile_cons_of_pos (hw c (List.mem_cons_self ..)),
      takeWhile_append_stops hr fun c h => hw c (List.mem_cons_of_mem _ h)]

theorem numberLoop_spec (s : List Char) : ∀ {n : ℕ} {w : List Char}, numberLoop s n = .ok w →
    ∃ r, s = w ++ r ∧ (∀ c ∈ w, isNumChar c = true) ∧ Stops isNumChar r := by
  induction s with
  | nil =>
    intro n w h
    simp only [numberLoop, R.ok.injEq] at h
    subst h
    exact ⟨[], rfl, by simp, trivial⟩
  | cons c s ih =>
    intro n w h
    rw [numberLoop] at h
    by_cases hn : n > 32
    · rw [if_pos hn] at h; cases h
    rw [if_neg hn] at h
    simp only [R.bind_eq_ok, ctype_eq_ok] at h
    obtain ⟨b, ⟨ha, rfl⟩, h⟩ := h
    split_ifs at h with h1 h2
    · rw [R.bind_eq_ok] at h
      obtain ⟨w', h3, h4⟩ := h
      simp only [R.ok.injEq] at h4
      subst h4
      obtain ⟨r, h5, h6, h7⟩ := ih h3
      refine ⟨r, by rw [h5]; rfl, fun x hx => ?_, h7⟩
      rcases List.mem_cons.1 hx with rfl | hx
      · exact h1
      · exact h6 x hx
    · simp only [R.ok.injEq] at h
      subst h
      exact ⟨c :: s, rfl, by simp, ha, by simpa [isNumChar] using h1⟩

/-- A decimal number: digits, and possibly a point and more digits. -/
def IsDecimal (w : List Char) : Prop :=
  ∃ a, a ≠ [] ∧ (∀ c ∈ a, isDigit c = true) ∧
    (w = a ∨ ∃ b, (∀ c ∈ b, isDigit c = true) ∧ w = a ++ '.' :: b)

theorem decimal_prefix (w : List Char) : decimal w <+: w := by
  unfold decimal
  have h := List.takeWhile_append_dropWhile (p := isDigit) (l := w)
  split
  · rename_i r hr
    rw [hr] at h
    nth_rewrite 2 [← h]
    have := List.takeWhile_prefix isDigit (l := r)
    obtain ⟨t, ht⟩ := this
    exact ⟨t, by rw [List.append_assoc, List.cons_append, ht]⟩
  · exact List.takeWhile_prefix _

theorem mem_takeWhile {f : Char → Bool} {s : List Char} {c : Char} (h : c ∈ s.takeWhile f) :
    f c = true := by
  induction s with
  | nil => simp at h
  | cons x s ih =>
    by_cases hx : f x = true
    · rw [List.takeWhile_cons_of_pos hx, List.mem_cons] at h
      rcases h with rfl | h
      · exact hx
      · exact ih h
    · rw [List.takeWhile_cons_of_neg hx] at h; simp at h

theorem decimal_isDecimal {c : Char} (hc : isDigit c = true) (w : List Char) :
    IsDecimal (decimal (c :: w)) := by
  refine ⟨(c :: w).takeWhile isDigit, ?_, fun x hx => mem_takeWhile hx, ?_⟩
  · rw [List.takeWhile_cons_of_pos hc]; simp
  · unfold decimal
    split
    · rename_i r hr
      exact Or.inr ⟨r.takeWhile isDigit, fun x hx => mem_takeWhile hx, rfl⟩
    · exact Or.inl rfl

/-- The possible outcomes of a successful iteration. -/
theorem step_spec {F : Type} (val : List Char → F) {s r : List Char} {t : Option (Token F)}
    (h : step val s = .ok (some (r, t))) :
    (r = s ∧ Stuck s) ∨ (r.length < s.length ∧ ¬ Stuck s) := by
  cases s with
  | nil => simp [step] at h
  | cons c s =>
    simp only [step, R.bind_eq_ok, ctype_eq_ok] at h
    obtain ⟨b, ⟨ha, rfl⟩, h⟩ := h
    by_cases h1 : isSpace c = true
    · rw [if_pos h1] at h
      simp only [R.ok.injEq, Option.some.injEq, Prod.mk.injEq] at h
      refine Or.inr ⟨by simp [← h.1], ?_⟩
      rintro ⟨c', r', he, -, h2, -⟩
      cases he; rw [h1] at h2; cases h2
    rw [if_neg h1] at h
    by_cases h2 : c = '(' ∨ c = ')'
    · rw [if_pos h2] at h
      simp only [R.ok.injEq, Option.some.injEq, Prod.mk.injEq] at h
      refine Or.inr ⟨by simp [← h.1], ?_⟩
      rintro ⟨c', r', he, -, -, h3, h4, -⟩
      cases he; exact h2.elim h3 h4
    rw [if_neg h2] at h
    by_cases h3 : c = Char.ofNat 0
    · rw [if_pos h3] at h; simp at h
    rw [if_neg h3] at h
    by_cases h4 : c ∈ opChars
    · rw [if_pos h4] at h
      simp only [R.ok.injEq, Option.some.injEq, Prod.mk.injEq] at h
      refine Or.inr ⟨by simp [← h.1], ?_⟩
      rintro ⟨c', r', he, -, -, -, -, -, h5, -⟩
      cases he; exact h5 h4
    rw [if_neg h4] at h
    simp only [R.bind_eq_ok, ctype_eq_ok] at h
    obtain ⟨d, ⟨-, rfl⟩, h⟩ := h
    by_cases h5 : isDigit c = true
    · rw [if_pos h5, R.bind_eq_ok] at h
      obtain ⟨xr, h6, h7⟩ := h
      simp only [R.ok.injEq, Option.some.injEq, Prod.mk.injEq] at h7
      obtain ⟨rfl, -⟩ := h7
      unfold tokenizeNumber at h6
      rw [R.bind_eq_ok] at h6
      obtain ⟨w, h8, h9⟩ := h6
      split_ifs at h9
      simp only [R.ok.injEq] at h9
      refine Or.inr ⟨?_, ?_⟩
      · obtain ⟨r', h10, -, h11⟩ := numberLoop_spec _ h8
        have hw : w ≠ [] := by
          rintro rfl
          rw [List.nil_append] at h10
          subst h10
          have := h11.2
          simp [isNumChar, h5] at this
        obtain ⟨x, w', rfl⟩ := List.exists_cons_of_ne_nil hw
        have hx : x = c := by simp at h10; exact h10.1.symm
        subst hx
        obtain ⟨a, ha, -, h12⟩ := decimal_isDecimal h5 w'
        have : 0 < (decimal (x :: w')).length := by
          rcases h12 with h12 | ⟨b, -, h12⟩ <;> rw [h12]
          · exact List.length_pos_iff.2 ha
          · simp
        rw [← h9, List.length_drop, List.length_cons]
        omega
      · rintro ⟨c', r', he, -, -, -, -, -, -, h10, -⟩
        cases he; rw [h5] at h10; cases h10
    rw [if_neg h5] at h
    cases s with
    | nil =>
      simp only [R.ok.injEq, Option.some.injEq, Prod.mk.injEq] at h
      refine Or.inl ⟨h.1.symm, c, [], rfl, ha, by simpa using h1, fun h => h2 (Or.inl h),
        fun h => h2 (Or.inr h), h3, h4, by simpa using h5, Or.inl rfl⟩
    | cons c' s =>
      simp only [R.bind_eq_ok] at h
      obtain ⟨el, he, h⟩ := h
      split_ifs at h with h6
      · rw [R.bind_eq_ok] at h
        obtain ⟨⟨v, neg, r'⟩, h7, h8⟩ := h
        simp only [R.ok.injEq, Option.some.injEq, Prod.mk.injEq] at h8
        obtain ⟨rfl, -⟩ := h8
        obtain ⟨ds, h9, -⟩ := elementLoop_spec _ _ _ h7
        refine Or.inr ⟨?_, ?_⟩
        · have := congrArg List.length h9
          simp only [List.length_append, List.length_cons] at this ⊢
          omega
        · have hc : c = 'e' := by
            by_contra hne
            rw [if_neg hne] at he
            simp only [R.ok.injEq] at he
            rw [← he] at h6; cases h6
          rintro ⟨c'', r'', he', -, -, -, -, -, -, -, h10⟩
          cases he'
          subst hc
          rcases h10 with h10 | h10
          · cases h10
          · revert h10; decide
      · rw [R.bind_eq_ok] at h
        obtain ⟨⟨w, r'⟩, h7, h8⟩ := h
        simp only [R.ok.injEq, Option.some.injEq, Prod.mk.injEq] at h8
        obtain ⟨rfl, -⟩ := h8
        by_cases h9 : isLetter c = true
        · refine Or.inr ⟨?_, ?_⟩
          · obtain ⟨h10, -, h11⟩ := identifierLoop_spec _ h7
            cases w with
            | nil =>
              rw [List.nil_append] at h10
              rw [← h10] at h11
              have := h11.2
              simp [isAlnum, h9] at this
            | cons x w =>
              have := congrArg List.length h10
              simp only [List.length_append, List.length_cons] at this ⊢
              omega
          · rintro ⟨c'', r'', he', -, -, -, -, -, -, -, h10⟩
            cases he'
            rcases h10 with h10 | h10
            · cases h10
            · rw [h9] at h10; cases h10
        · have h10 : isAlnum c = false := by simp [isAlnum, h9, h5]
          have : identifierLoop (c :: c' :: s) = .ok ([], c :: c' :: s) :=
            identifierLoop_run (c :: c' :: s) ⟨ha, h10⟩ [] (by simp)
          rw [this] at h7
          simp only [R.ok.injEq, Prod.mk.injEq] at h7
          exact Or.inl ⟨h7.2.symm, c, c' :: s, rfl, ha, by simpa using h1, fun h => h2 (Or.inl h),
            fun h => h2 (Or.inr h), h3, h4, by simpa using h5, Or.inr (by simpa using h9)⟩

/-- A stuck iteration leaves the state as it was. -/
theorem step_stuck {F : Type} (val : List Char → F) {s : List Char} (h : Stuck s) :
    ∃ t, step val s = .ok (some (s, t)) := by
  obtain ⟨c, r, rfl, ha, h1, h2, h3, h4, h5, h6, h7⟩ := h
  have h23 : ¬(c = '(' ∨ c = ')') := by tauto
  cases r with
  | nil => exact ⟨none, by simp [step, ctype_ascii ha, h1, h23, h4, h5, h6]⟩
  | cons c' s =>
    have h7 : isLetter c = false := h7.resolve_left (by simp)
    have he : c ≠ 'e' := by rintro rfl; revert h7; decide
    have h8 : isAlnum c = false := by simp [isAlnum, h7, h6]
    exact ⟨some (.identifier []), by simp [step, ctype_ascii ha, h1, h23, h4, h5, h6, he,
      identifierLoop, h8]⟩

theorem run_stuck {F : Type} (val : List Char → F) {s : List Char} (h : Stuck s) :
    ∀ n, run val n s = none
  | 0 => rfl
  | n + 1 => by
    obtain ⟨t, ht⟩ := step_stuck val h
    rw [run, ht]
    simp [run_stuck val h n]

theorem run_bound {F : Type} (val : List Char → F) : ∀ (k : ℕ) (s : List Char), s.length ≤ k →
    ∀ n, s.length < n → run val n s = run val (s.length + 1) s := by
  intro k
  induction k with
  | zero =>
    intro s hs n hn
    have : s = [] := List.length_eq_zero_iff.1 (by omega)
    subst this
    obtain ⟨m, rfl⟩ : ∃ m, n = m + 1 := ⟨n - 1, by simp at hn; omega⟩
    rfl
  | succ k ih =>
    intro s hs n hn
    obtain ⟨m, rfl⟩ : ∃ m, n = m + 1 := ⟨n - 1, by omega⟩
    rw [run, run]
    rcases hst : step val s with (_ | ⟨r, t⟩) | _ | _ | _
    · rfl
    · simp only
      rcases step_spec val hst with ⟨rfl, h⟩ | ⟨h, -⟩
      · rw [run_stuck val h, run_stuck val h]
      · rw [ih r (by omega) m (by omega), ih r (by omega) s.length h]
    · rfl
    · rfl
    · rfl

/-- C60: `tokenize` is what the loop computes: if it is `none` the loop never ends, and otherwise it
ends with that outcome. -/
theorem C60_bound {F : Type} (val : List Char → F) (s : List Char) :
    (tokenize val s = none ↔ ∀ n, run val n s = none) ∧
    ∀ x, tokenize val s = some x ↔ ∃ n, run val n s = some x := by
  have mono : ∀ n s (x : R (List (Token F))), run val n s = some x →
      ∀ m, n ≤ m → run val m s = some x := by
    intro n
    induction n with
    | zero => intro s x h; simp [run] at h
    | succ n ih =>
      intro s x h m hm
      obtain ⟨m, rfl⟩ : ∃ m', m = m' + 1 := ⟨m - 1, by omega⟩
      rw [run] at h ⊢
      rcases hst : step val s with (_ | ⟨r, t⟩) | _ | _ | _ <;> rw [hst] at h <;> simp only at h ⊢
      · exact h
      · rw [Option.map_eq_some_iff] at h ⊢
        obtain ⟨y, h1, h2⟩ := h
        exact ⟨y, ih r y h1 m (by omega), h2⟩
      · exact h
      · exact h
      · exact h
  have key : ∀ x, tokenize val s = some x ↔ ∃ n, run val n s = some x := by
    refine fun x => ⟨fun h => ⟨_, h⟩, fun ⟨n, h⟩ => ?_⟩
    have := mono n s x h (max n (s.length + 1)) (le_max_left ..)
    rwa [run_bound val _ s le_rfl _ (by omega)] at this
  refine ⟨⟨fun h n => ?_, fun h => h _⟩, key⟩
  cases hx : run val n s with
  | none => rfl
  | some x =>
    have := (key x).2 ⟨n, hx⟩
    rw [h] at this; cases this

/-- `r` is what is left of `s` after some iterations. -/
inductive Reaches {F : Type} (val : List Char → F) : List Char → List Char → Prop
  | refl (s) : Reaches val s s
  | step {s s' r : List Char} {t : Option (Token F)} : step val s = .ok (some (s', t)) →
      Reaches val s' r → Reaches val s r

/-- C60: the tokenizer runs for ever exactly if it comes to a last character that is a letter or
unknown, or to any unknown character. -/
theorem C60_diverges_iff {F : Type} (val : List Char → F) (s : List Char) :
    tokenize val s = none ↔ ∃ r, Reaches val s r ∧ Stuck r := by
  constructor
  · suffices ∀ (k : ℕ) (s : List Char), s.length ≤ k → tokenize val s = none →
        ∃ r, Reaches val s r ∧ Stuck r from this _ s le_rfl
    intro k
    induction k with
    | zero =>
      intro s hs h
      have : s = [] := List.length_eq_zero_iff.1 (by omega)
      subst this
      simp [tokenize, run, Sym.step] at h
    | succ k ih =>
      intro s hs h
      unfold tokenize at h
      rw [run] at h
      rcases hst : Sym.step val s with (_ | ⟨r, t⟩) | _ | _ | _ <;> rw [hst] at h <;> simp only at h
      · cases h
      · rcases step_spec val hst with ⟨rfl, h1⟩ | ⟨h1, -⟩
        · exact ⟨r, .refl _, h1⟩
        · rw [Option.map_eq_none_iff, run_bound val _ r le_rfl _ h1] at h
          obtain ⟨q, h2, h3⟩ := ih r (by omega) h
          exact ⟨q, .step hst h2, h3⟩
      · cases h
      · cases h
      · cases h
  · rintro ⟨r, h1, h2⟩
    rw [(C60_bound val s).1]
    induction h1 with
    | refl s => exact run_stuck val h2
    | step hst _ ih =>
      intro n
      cases n with
      | zero => rfl
      | succ n => rw [run, hst]; simp [ih h2 n]

/-- C60: the tokenizer does not end on `x + y`, nor on `x`, nor on `2 + x.`. -/
theorem C60_fails : tokenize (fun _ => ()) "x + y".toList = none ∧
    tokenize (fun _ => ()) "x".toList = none ∧ tokenize (fun _ => ()) "2 # two".toList = none := by
  decide +kernel

/-! ### C60: what is accepted -/

/-- The tokens of a text.  Each token is as long as possible; text after a null character is
ignored.  An identifier of one letter must not end the text (the defect behind `C60_fails`). -/
inductive Lexes {F : Type} (val : List Char → F) : List Char → List (Token F) → Prop
  | nil : Lexes val [] [.eof]
  | nul (s) : Lexes val (Char.ofNat 0 :: s) [.eof]
  | space {c s ts} : isSpace c = true → Lexes val s ts → Lexes val (c :: s) ts
  | delimiter {c s ts} : c = '(' ∨ c = ')' → Lexes val s ts → Lexes val (c :: s) (.delimiter c :: ts)
  | op {c s ts} : c ∈ opChars → Lexes val s ts → Lexes val (c :: s) (.op c :: ts)
  | number {w s ts} : IsDecimal w → Stops isNumChar s → Lexes val s ts →
      Lexes val (w ++ s) (.number (val w) :: ts)
  | element {c ds s v neg ts} : (∀ d ∈ c :: ds, isDigit d = true) → Stops isDigit s →
      elementFold (c :: ds) 0 false = some (v, neg) → Lexes val s ts →
      Lexes val ('e' :: c :: ds ++ s) (.element v neg :: ts)
  | identifier {c w s ts} : isLetter c = true → (∀ d ∈ w, isAlnum d = true) → Stops isAlnum s →
      (c = 'e' → Stops isDigit w) → w ≠ [] ∨ s ≠ [] → Lexes val s ts → Lexes val (c :: w ++ s) (.identifier (c :: w) :: ts)

theorem Lexes.ne_nil {F : Type} {val : List Char → F} {s : List Char} {ts : List (Token F)}
    (h : Lexes val s ts) : ts ≠ [] := by
  induction h <;> simp_all

/-- A text with tokens begins with a character the tokenizer knows. -/
theorem Lexes.head {F : Type} {val : List Char → F} {c : Char} {s : List Char}
    {ts : List (Token F)} (h : Lexes val (c :: s) ts) :
    isSpace c = true ∨ c = '(' ∨ c = ')' ∨ c = Char.ofNat 0 ∨ c ∈ opChars ∨ isAlnum c = true := by
  generalize hs : c :: s = s' at h
  cases h with
  | nil => cases hs
  | nul => cases hs; tauto
  | space h => cases hs; tauto
  | delimiter h => cases hs; tauto
  | op h => cases hs; tauto
  | number h _ _ =>
    obtain ⟨a, ha, h1, h2⟩ := h
    obtain ⟨x, a', rfl⟩ := List.exists_cons_of_ne_nil ha
    have : c = x := by
      rcases h2 with rfl | ⟨b, -, rfl⟩ <;> simp at hs <;> exact hs.1
    subst this
    have := h1 c (List.mem_cons_self ..)
    simp [isAlnum, this]
  | element =>
    have : c = 'e' := by simp at hs; exact hs.1
    subst this
    refine Or.inr (Or.inr (Or.inr (Or.inr (Or.inr (by decide)))))
  | identifier h =>
    rename_i c' _ _ _ _ _ _ _ _
    have : c = c' := by simp at hs; exact hs.1
    subst this
    simp [isAlnum, h]

theorem dropWhile_head {f : Char → Bool} {s q : List Char} {y : Char}
    (h : s.dropWhile f = y :: q) : f y = false := by
  induction s with
  | nil => simp at h
  | cons x s ih =>
    by_cases hx : f x = true
    · rw [List.dropWhile_cons_of_pos hx] at h; exact ih h
    · rw [List.dropWhile_cons_of_neg hx] at h
      cases h; simpa using hx

theorem decimal_next {w q : List Char} {y : Char} (h : decimal w ++ y :: q = w) :
    isDigit y = false := by
  unfold decimal at h
  have h1 := List.takeWhile_append_dropWhile (p := isDigit) (l := w)
  split at h
  · rename_i r hr
    rw [hr] at h1
    nth_rewrite 2 [← h1] at h
    rw [List.append_assoc, List.append_cancel_left_eq, List.cons_append, List.cons.injEq] at h
    have h2 := List.takeWhile_append_dropWhile (p := isDigit) (l := r)
    have h3 := h.2.trans h2.symm
    rw [List.append_cancel_left_eq] at h3
    exact dropWhile_head h3.symm
  · have h3 := h.trans h1.symm
    rw [List.append_cancel_left_eq] at h3
    exact dropWhile_head h3.symm

/-- One iteration, in terms of `Lexes`. -/
theorem step_lexes {F : Type} (val : List Char → F) {s r : List Char} {t : Option (Token F)}
    {ts : List (Token F)} (h : step val s = .ok (some (r, t))) (hr : Lexes val r ts) :
    Lexes val s (t.toList ++ ts) := by
  cases s with
  | nil => simp [step] at h
  | cons c s =>
    simp only [step, R.bind_eq_ok, ctype_eq_ok] at h
    obtain ⟨b, ⟨ha, rfl⟩, h⟩ := h
    by_cases h1 : isSpace c = true
    · rw [if_pos h1] at h
      simp only [R.ok.injEq, Option.some.injEq, Prod.mk.injEq] at h
      obtain ⟨rfl, rfl⟩ := h
      exact .space h1 hr
    rw [if_neg h1] at h
    by_cases h2 : c = '(' ∨ c = ')'
    · rw [if_pos h2] at h
      simp only [R.ok.injEq, Option.some.injEq, Prod.mk.injEq] at h
      obtain ⟨rfl, rfl⟩ := h
      exact .delimiter h2 hr
    rw [if_neg h2] at h
    by_cases h3 : c = Char.ofNat 0
    · rw [if_pos h3] at h; simp at h
    rw [if_neg h3] at h
    by_cases h4 : c ∈ opChars
    · rw [if_pos h4] at h
      simp only [R.ok.injEq, Option.some.injEq, Prod.mk.injEq] at h
      obtain ⟨rfl, rfl⟩ := h
      exact .op h4 hr
    rw [if_neg h4] at h
    simp only [R.bind_eq_ok, ctype_eq_ok] at h
    obtain ⟨d, ⟨-, rfl⟩, h⟩ := h
    by_cases h5 : isDigit c = true
    · rw [if_pos h5, R.bind_eq_ok] at h
      obtain ⟨xr, h6, h7⟩ := h
      simp only [R.ok.injEq, Option.some.injEq, Prod.mk.injEq] at h7
      obtain ⟨rfl, rfl⟩ := h7
      unfold tokenizeNumber at h6
      rw [R.bind_eq_ok] at h6
      obtain ⟨w, h8, h9⟩ := h6
      split_ifs at h9
      simp only [R.ok.injEq] at h9
      obtain ⟨r', h10, h12, h11⟩ := numberLoop_spec _ h8
      have hw : w ≠ [] := by
        rintro rfl
        rw [List.nil_append] at h10
        subst h10
        have := h11.2
        simp [isNumChar, h5] at this
      obtain ⟨x, w', rfl⟩ := List.exists_cons_of_ne_nil hw
      have hx : x = c := by simp at h10; exact h10.1.symm
      subst hx
      obtain ⟨q, hq⟩ := decimal_prefix (x :: w')
      have hd := decimal_isDecimal h5 w'
      have hs : x :: s = decimal (x :: w') ++ (q ++ r') := by
        rw [h10, ← List.append_assoc, hq]
      rw [hs, List.drop_left] at h9
      rw [← h9] at hr ⊢
      rw [hs]
      refine .number hd ?_ hr
      cases q with
      | nil => exact h11
      | cons y q =>
        exfalso
        have hy : isNumChar y = true := h12 y (by rw [← hq]; simp)
        have hy' := decimal_next hq
        have : y = '.' := by simpa [isNumChar, hy'] using hy
        subst this
        have := hr.head
        revert this; decide
    rw [if_neg h5] at h
    cases s with
    | nil =>
      simp only [R.ok.injEq, Option.some.injEq, Prod.mk.injEq] at h
      obtain ⟨rfl, rfl⟩ := h
      exact hr
    | cons c' s =>
      simp only [R.bind_eq_ok] at h
      obtain ⟨el, he, h⟩ := h
      split_ifs at h with h6
      · rw [R.bind_eq_ok] at h
        obtain ⟨⟨v, neg, r'⟩, h7, h8⟩ := h
        simp only [R.ok.injEq, Option.some.injEq, Prod.mk.injEq] at h8
        obtain ⟨rfl, rfl⟩ := h8
        obtain ⟨ds, h9, h10, h11, h12⟩ := elementLoop_spec _ _ _ h7
        have hc : c = 'e' := by
          by_contra hne
          rw [if_neg hne] at he
          simp only [R.ok.injEq] at he
          rw [← he] at h6; cases h6
        rw [if_pos hc, ctype_eq_ok] at he
        cases ds with
        | nil =>
          rw [List.nil_append] at h9
          rw [← h9] at h11
          rw [h11.2] at he
          rw [← he.2] at h6; cases h6
        | cons x ds =>
          rw [hc, h9]
          exact .element h10 h11 h12 hr
      · rw [R.bind_eq_ok] at h
        obtain ⟨⟨w, r'⟩, h7, h8⟩ := h
        simp only [R.ok.injEq, Option.some.injEq, Prod.mk.injEq] at h8
        obtain ⟨rfl, rfl⟩ := h8
        obtain ⟨h10, h12, h11⟩ := identifierLoop_spec _ h7
        cases w with
        | nil =>
          exfalso
          rw [List.nil_append] at h10
          rw [← h10] at h11 hr
          have := hr.head
          rw [h11.2] at this
          simp only [Bool.false_eq_true, or_false] at this
          tauto
        | cons x w =>
          have hx : x = c := by simp at h10; exact h10.1.symm
          subst hx
          rw [h10]
          have hl : isLetter x = true := by
            have := h12 x (List.mem_cons_self ..)
            simpa [isAlnum, h5] using this
          refine .identifier hl (fun d hd => h12 d (List.mem_cons_of_mem _ hd)) h11 (fun hxe => ?_) ?_ hr
          swap
          · by_contra hne
            push Not at hne
            rw [hne.1, hne.2] at h10
            simp at h10
          rw [if_pos hxe, ctype_eq_ok] at he
          have h6' : el = false := by simpa using h6
          cases w with
          | nil => trivial
          | cons y w =>
            have : c' = y := by simp at h10; exact h10.1
            subst this
            exact ⟨he.1, he.2.trans h6'⟩

theorem run_lexes {F : Type} (val : List Char → F) : ∀ (n : ℕ) {s : List Char}
    {ts : List (Token F)}, run val n s = some (.ok ts) → Lexes val s ts
  | 0, s, ts, h => by simp [run] at h
  | n + 1, s, ts, h => by
    rw [run] at h
    rcases hst : step val s with (_ | ⟨r, t⟩) | _ | _ | _ <;> rw [hst] at h <;>
      simp only [Option.some.injEq, R.ok.injEq, Option.map_eq_some_iff, R.bind_eq_ok] at h
    · subst h
      cases s with
      | nil => exact .nil
      | cons c s =>
        simp only [step, R.bind_eq_ok, ctype_eq_ok] at hst
        obtain ⟨b, ⟨ha, rfl⟩, h⟩ := hst
        by_cases h1 : isSpace c = true
        · rw [if_pos h1] at h; simp at h
        rw [if_neg h1] at h
        by_cases h2 : c = '(' ∨ c = ')'
        · rw [if_pos h2] at h; simp at h
        rw [if_neg h2] at h
        by_cases h3 : c = Char.ofNat 0
        · rw [h3]; exact .nul s
        rw [if_neg h3] at h
        by_cases h4 : c ∈ opChars
        · rw [if_pos h4] at h; simp at h
        rw [if_neg h4] at h
        · simp only [R.bind_eq_ok, ctype_eq_ok] at h
          obtain ⟨d, -, h⟩ := h
          cases d
          · rw [if_neg (by simp)] at h
            cases s with
            | nil => simp at h
            | cons c' s =>
              simp only [R.bind_eq_ok] at h
              obtain ⟨el, -, h⟩ := h
              split_ifs at h <;> rw [R.bind_eq_ok] at h <;> obtain ⟨_, _, h⟩ := h <;> simp at h
          · rw [if_pos rfl, R.bind_eq_ok] at h; obtain ⟨_, _, h⟩ := h; simp at h
    · obtain ⟨x, h1, ts', rfl, rfl⟩ := h
      exact step_lexes val hst (run_lexes val n h1)
    · cases h
    · cases h
    · cases h

/-- C60: the tokens found are those of the text. -/
theorem C60_lexes {F : Type} (val : List Char → F) (s : List Char) (ts : List (Token F))
    (h : tokenize val s = some (.ok ts)) : Lexes val s ts := run_lexes val _ h

theorem Lexes.ends {F : Type} {val : List Char → F} {s : List Char} {ts : List (Token F)}
    (h : Lexes val s ts) : ∃ l, ts = l ++ [Token.eof] ∧ Token.eof ∉ l := by
  induction h with
  | nil => exact ⟨[], rfl, by simp⟩
  | nul => exact ⟨[], rfl, by simp⟩
  | space _ _ ih => exact ih
  | delimiter _ _ ih => obtain ⟨l, rfl, hl⟩ := ih; exact ⟨_ :: l, rfl, by simp [hl]⟩
  | op _ _ ih => obtain ⟨l, rfl, hl⟩ := ih; exact ⟨_ :: l, rfl, by simp [hl]⟩
  | number _ _ _ ih => obtain ⟨l, rfl, hl⟩ := ih; exact ⟨_ :: l, rfl, by simp [hl]⟩
  | element _ _ _ _ ih => obtain ⟨l, rfl, hl⟩ := ih; exact ⟨_ :: l, rfl, by simp [hl]⟩
  | identifier _ _ _ _ _ _ ih => obtain ⟨l, rfl, hl⟩ := ih; exact ⟨_ :: l, rfl, by simp [hl]⟩

/-- C60: when the tokenizer ends normally, its list has one `eof`, at the end. -/
theorem C60_eof {F : Type} (val : List Char → F) (s : List Char) (ts : List (Token F))
    (h : tokenize val s = some (.ok ts)) : ∃ l, ts = l ++ [Token.eof] ∧ Token.eof ∉ l :=
  (C60_lexes val s ts h).ends

theorem decimal_of_isDecimal {w : List Char} (h : IsDecimal w) : decimal w = w := by
  obtain ⟨a, -, h1, h2⟩ := h
  have e1 : ∀ r : List Char, Stops isDigit r → (a ++ r).takeWhile isDigit = a :=
    fun r hr => takeWhile_append_stops hr h1
  have e2 : ∀ r : List Char, Stops isDigit r → (a ++ r).dropWhile isDigit = r := by
    intro r hr
    have := List.takeWhile_append_dropWhile (p := isDigit) (l := a ++ r)
    rw [e1 r hr, List.append_cancel_left_eq] at this
    exact this
  rcases h2 with rfl | ⟨b, hb, rfl⟩
  · have := e1 [] trivial
    have h4 := e2 [] trivial
    rw [List.append_nil] at this h4
    simp [decimal, this, h4]
  · have hp : Stops isDigit ('.' :: b) := ⟨by decide, by decide⟩
    have hb' := takeWhile_append_stops (r := []) (f := isDigit) trivial hb
    rw [List.append_nil] at hb'
    simp [decimal, e1 _ hp, e2 _ hp, hb']

theorem isDecimal_numChar {w : List Char} (h : IsDecimal w) : ∀ c ∈ w, isNumChar c = true := by
  obtain ⟨a, -, h1, h2⟩ := h
  intro c hc
  rcases h2 with rfl | ⟨b, hb, rfl⟩
  · simp [isNumChar, h1 c hc]
  · rw [List.mem_append, List.mem_cons] at hc
    rcases hc with hc | rfl | hc
    · simp [isNumChar, h1 c hc]
    · decide
    · simp [isNumChar, hb c hc]

theorem digit_other {c : Char} (h : isDigit c = true) : isSpace c = false ∧ ¬(c = '(' ∨ c = ')') ∧
    c ≠ Char.ofNat 0 ∧ c ∉ opChars := by
  refine ⟨?_, ?_, ?_, ?_⟩
  · simp only [isDigit, Bool.and_eq_true, decide_eq_true_eq] at h
    have : c ≠ ' ' := by rintro rfl; revert h; decide
    simp only [isSpace, Bool.or_eq_false_iff, Bool.and_eq_false_iff, decide_eq_false_iff_not]
    exact ⟨this, Or.inr (by omega)⟩
  · rintro (rfl | rfl) <;> revert h <;> decide
  · rintro rfl; revert h; decide
  · intro hc
    simp only [opChars, List.mem_cons, List.not_mem_nil, or_false] at hc
    rcases hc with rfl | rfl | rfl | rfl | rfl | rfl | rfl <;> revert h <;> decide

theorem letter_other {c : Char} (h : isLetter c = true) : isSpace c = false ∧
    ¬(c = '(' ∨ c = ')') ∧ c ≠ Char.ofNat 0 ∧ c ∉ opChars ∧ isDigit c = false := by
  refine ⟨?_, ?_, ?_, ?_, ?_⟩
  · simp only [isLetter, Bool.or_eq_true, Bool.and_eq_true, decide_eq_true_eq] at h
    have : c ≠ ' ' := by rintro rfl; revert h; decide
    simp only [isSpace, Bool.or_eq_false_iff, Bool.and_eq_false_iff, decide_eq_false_iff_not]
    exact ⟨this, Or.inr (by omega)⟩
  · rintro (rfl | rfl) <;> revert h <;> decide
  · rintro rfl; revert h; decide
  · intro hc
    simp only [opChars, List.mem_cons, List.not_mem_nil, or_false] at hc
    rcases hc with rfl | rfl | rfl | rfl | rfl | rfl | rfl <;> revert h <;> decide
  · simp only [isLetter, Bool.or_eq_true, Bool.and_eq_true, decide_eq_true_eq] at h
    simp only [isDigit, Bool.and_eq_false_iff, decide_eq_false_iff_not]
    omega

theorem ascii_of_space {c : Char} (h : isSpace c = true) : Ascii c := by
  simp only [isSpace, Bool.or_eq_true, Bool.and_eq_true, decide_eq_true_eq] at h
  rcases h with rfl | h
  · decide
  · unfold Ascii; omega

/-- Runs of digits and points fit in the buffer. -/
def Short (s : List Char) : Prop :=
  ∀ w, w <:+: s → (∀ c ∈ w, isNumChar c = true) → w.length < 32

theorem Short.suffix {s r : List Char} (h : Short s) (hr : r <:+ s) : Short r :=
  fun w hw => h w (hw.trans hr.isInfix)

theorem run_cons {F : Type} (val : List Char → F) {s r : List Char} {t : Option (Token F)}
    {ts : List (Token F)} (h : step val s = .ok (some (r, t)))
    (hr : ∃ n, run val n r = some (.ok ts)) : ∃ n, run val n s = some (.ok (t.toList ++ ts)) := by
  obtain ⟨n, hn⟩ := hr
  exact ⟨n + 1, by rw [run, h]; simp [hn]⟩

/-- C60: a text of tokens is tokenised, if its numbers fit in the buffer. -/
theorem C60_complete_partial {F : Type} (val : List Char → F) (s : List Char) (ts : List (Token F))
    (h : Lexes val s ts) (hs : Short s) : tokenize val s = some (.ok ts) := by
  rw [(C60_bound val s).2]
  induction h with
  | nil => exact ⟨1, rfl⟩
  | nul s => exact ⟨1, by
      have : step val (Char.ofNat 0 :: s) = .ok none := by
        simp only [step, ctype_ascii (show Ascii (Char.ofNat 0) by decide), R.bind_ok]
        rw [if_neg (by decide), if_neg (by decide), if_pos trivial]
      rw [run, this]⟩
  | @space c s ts hc _ ih =>
    exact run_cons val (t := none) (by simp [step, ctype_ascii (ascii_of_space hc), hc])
      (ih (hs.suffix (List.suffix_cons _ _)))
  | @delimiter c s ts hc _ ih =>
    refine run_cons val (t := some (.delimiter c)) ?_ (ih (hs.suffix (List.suffix_cons _ _)))
    have : Ascii c ∧ isSpace c = false := by rcases hc with rfl | rfl <;> decide
    simp only [step, ctype_ascii this.1, this.2, R.bind_ok, Bool.false_eq_true, if_false, if_pos hc]
  | @op c s ts hc _ ih =>
    refine run_cons val (t := some (.op c)) ?_ (ih (hs.suffix (List.suffix_cons _ _)))
    have : Ascii c ∧ isSpace c = false ∧ ¬(c = '(' ∨ c = ')') ∧ c ≠ Char.ofNat 0 := by
      have hc' := hc
      simp only [opChars, List.mem_cons, List.not_mem_nil, or_false] at hc'
      rcases hc' with rfl | rfl | rfl | rfl | rfl | rfl | rfl <;> decide
    simp only [step, ctype_ascii this.1, this.2.1, R.bind_ok, Bool.false_eq_true, if_false,
      if_neg this.2.2.1, if_neg this.2.2.2, if_pos hc]
  | @number w s ts hw hst _ ih =>
    refine run_cons val (t := some (.number (val w))) ?_ (ih (hs.suffix (List.suffix_append _ _)))
    have hlen := hs w ⟨[], s, by simp⟩ (isDecimal_numChar hw)
    have hnum := C61_partial val w s hst (isDecimal_numChar hw) hlen
    rw [decimal_of_isDecimal hw, List.drop_left] at hnum
    obtain ⟨c, w', rfl⟩ : ∃ c w', w = c :: w' := by
      obtain ⟨a, ha, -, h2⟩ := hw
      obtain ⟨x, a', rfl⟩ := List.exists_cons_of_ne_nil ha
      rcases h2 with rfl | ⟨b, -, rfl⟩
      · exact ⟨_, _, rfl⟩
      · exact ⟨_, _, List.cons_append⟩
    have hc : isDigit c = true := by
      obtain ⟨a, ha, h1, h2⟩ := hw
      obtain ⟨x, a', rfl⟩ := List.exists_cons_of_ne_nil ha
      have : c = x := by rcases h2 with h2 | ⟨b, -, h2⟩ <;> simp at h2 <;> exact h2.1
      rw [this]; exact h1 x (List.mem_cons_self ..)
    obtain ⟨h1, h2, h3, h4⟩ := digit_other hc
    rw [List.cons_append] at hnum ⊢
    simp only [step, ctype_ascii (ascii_of_digit hc), R.bind_ok, h1, Bool.false_eq_true, if_false,
      if_neg h2, if_neg h3, if_neg h4, hc, if_true, hnum]
  | @element c ds s v neg ts hd hst hf _ ih =>
    refine run_cons val (t := some (.element v neg)) ?_
      (ih (hs.suffix ⟨'e' :: c :: ds, by simp⟩))
    have hrun := elementLoop_run s hst (c :: ds) 0 false hd
    rw [hf] at hrun
    have hc := hd c (List.mem_cons_self ..)
    obtain ⟨h1, h2, h3, h4, h5⟩ := letter_other (show isLetter 'e' = true by decide)
    rw [List.cons_append] at hrun
    simp only [List.cons_append, step, ctype_ascii (show Ascii 'e' by decide), R.bind_ok, h1,
      Bool.false_eq_true, if_false, if_neg h2, if_neg h3, if_neg h4, h5, if_true,
      ctype_ascii (ascii_of_digit hc), hc, hrun]
  | @identifier c w s ts hc hw hst he hne _ ih =>
    refine run_cons val (t := some (.identifier (c :: w))) ?_
      (ih (hs.suffix ⟨c :: w, by simp⟩))
    have hal : isAlnum c = true := by simp [isAlnum, hc]
    have hrun := identifierLoop_run s hst (c :: w) (fun d hd => by
      rcases List.mem_cons.1 hd with rfl | hd
      · exact hal
      · exact hw d hd)
    obtain ⟨h1, h2, h3, h4, h5⟩ := letter_other hc
    rw [List.cons_append] at hrun ⊢
    obtain ⟨c', r, hr⟩ : ∃ c' r, w ++ s = c' :: r := List.exists_cons_of_ne_nil (by simpa [or_iff_not_imp_left] using hne)
    rw [hr] at hrun ⊢
    have hel : (if c = 'e' then ctype isDigit c' else .ok false) = .ok false := by
      split_ifs with hce
      · rw [ctype_eq_ok]
        cases w with
        | cons y w =>
          have : y = c' := by simp at hr; exact hr.1
          exact this ▸ he hce
        | nil =>
          rw [List.nil_append] at hr
          subst hr
          refine ⟨hst.1, ?_⟩
          have := hst.2
          simp only [isAlnum, Bool.or_eq_false_iff] at this
          exact this.2
      · rfl
    simp only [step, ctype_ascii (ascii_of_alnum hal), R.bind_ok, h1, Bool.false_eq_true, if_false,
      if_neg h2, if_neg h3, if_neg h4, h5, hel, hrun]

/-- The characters that can begin a token, and white space. -/
def known (c : Char) : Bool :=
  isSpace c || c == '(' || c == ')' || decide (c ∈ opChars) || isAlnum c

theorem step_suffix {F : Type} (val : List Char → F) {s r : List Char} {t : Option (Token F)}
    (h : step val s = .ok (some (r, t))) : r <:+ s := by
  cases s with
  | nil => simp [step] at h
  | cons c s =>
    simp only [step, R.bind_eq_ok, ctype_eq_ok] at h
    obtain ⟨b, ⟨ha, rfl⟩, h⟩ := h
    by_cases h1 : isSpace c = true
    · rw [if_pos h1] at h
      simp only [R.ok.injEq, Option.some.injEq, Prod.mk.injEq] at h
      rw [← h.1]; exact List.suffix_cons _ _
    rw [if_neg h1] at h
    by_cases h2 : c = '(' ∨ c = ')'
    · rw [if_pos h2] at h
      simp only [R.ok.injEq, Option.some.injEq, Prod.mk.injEq] at h
      rw [← h.1]; exact List.suffix_cons _ _
    rw [if_neg h2] at h
    by_cases h3 : c = Char.ofNat 0
    · rw [if_pos h3] at h; simp at h
    rw [if_neg h3] at h
    by_cases h4 : c ∈ opChars
    · rw [if_pos h4] at h
      simp only [R.ok.injEq, Option.some.injEq, Prod.mk.injEq] at h
      rw [← h.1]; exact List.suffix_cons _ _
    rw [if_neg h4] at h
    · simp only [R.bind_eq_ok, ctype_eq_ok] at h
      obtain ⟨d, -, h⟩ := h
      by_cases h5 : d = true
      · rw [if_pos h5, R.bind_eq_ok] at h
        obtain ⟨xr, h6, h7⟩ := h
        simp only [R.ok.injEq, Option.some.injEq, Prod.mk.injEq] at h7
        unfold tokenizeNumber at h6
        rw [R.bind_eq_ok] at h6
        obtain ⟨w, h8, h9⟩ := h6
        split_ifs at h9
        simp only [R.ok.injEq] at h9
        rw [← h7.1, ← h9]
        exact List.drop_suffix _ _
      · rw [if_neg h5] at h
        cases s with
        | nil =>
          simp only [R.ok.injEq, Option.some.injEq, Prod.mk.injEq] at h
          rw [← h.1]
        | cons c' s =>
          simp only [R.bind_eq_ok] at h
          obtain ⟨el, he, h⟩ := h
          split_ifs at h
          · rw [R.bind_eq_ok] at h
            obtain ⟨⟨v, neg, r'⟩, h7, h8⟩ := h
            simp only [R.ok.injEq, Option.some.injEq, Prod.mk.injEq] at h8
            obtain ⟨ds, h9, -⟩ := elementLoop_spec _ _ _ h7
            rw [← h8.1, h9]
            exact ⟨c :: ds, by simp⟩
          · rw [R.bind_eq_ok] at h
            obtain ⟨⟨w, r'⟩, h7, h8⟩ := h
            simp only [R.ok.injEq, Option.some.injEq, Prod.mk.injEq] at h8
            obtain ⟨h10, -⟩ := identifierLoop_spec _ h7
            rw [← h8.1, h10]
            exact List.suffix_append _ _

/-- C60: the tokenizer ends on every text of known characters (no decimal point) whose last
character is not a letter. -/
theorem C60_terminates_partial {F : Type} (val : List Char → F) (s : List Char)
    (hk : ∀ c ∈ s, known c = true) (hl : ∀ c, s.getLast? = some c → isLetter c = false) :
    tokenize val s ≠ none := by
  intro h
  obtain ⟨r, hr, hst⟩ := (C60_diverges_iff val s).1 h
  have hsuf : r <:+ s := by
    clear h hk hl hst
    induction hr with
    | refl => exact List.suffix_refl _
    | step h _ ih => exact ih.trans (step_suffix val h)
  obtain ⟨c, q, rfl, ha, h1, h2, h3, h4, h5, h6, h7⟩ := hst
  have hc := hk c (hsuf.subset (List.mem_cons_self ..))
  have hlet : isLetter c = true := by
    simpa [known, h1, h2, h3, h5, isAlnum, h6] using hc
  rcases h7 with rfl | h7
  · obtain ⟨p, rfl⟩ := hsuf
    have := hl c (by simp)
    rw [hlet] at this; cases this
  · rw [hlet] at h7; cases h7

/-- C60: an accepted text without null characters has known characters and decimal points only. -/
theorem C60_charset {F : Type} (val : List Char → F) (s : List Char) (ts : List (Token F))
    (h : tokenize val s = some (.ok ts)) (h0 : Char.ofNat 0 ∉ s) :
    ∀ c ∈ s, known c = true ∨ c = '.' := by
  have h' := C60_lexes val s ts h
  clear h
  induction h' with
  | nil => simp
  | nul => simp at h0
  | space hc _ ih =>
    intro d hd
    rcases List.mem_cons.1 hd with rfl | hd
    · simp [known, hc]
    · exact ih (fun h => h0 (List.mem_cons_of_mem _ h)) d hd
  | delimiter hc _ ih =>
    intro d hd
    rcases List.mem_cons.1 hd with rfl | hd
    · rcases hc with rfl | rfl <;> decide
    · exact ih (fun h => h0 (List.mem_cons_of_mem _ h)) d hd
  | op hc _ ih =>
    intro d hd
    rcases List.mem_cons.1 hd with rfl | hd
    · simp [known, hc]
    · exact ih (fun h => h0 (List.mem_cons_of_mem _ h)) d hd
  | number hw _ _ ih =>
    intro d hd
    rcases List.mem_append.1 hd with hd | hd
    · have := isDecimal_numChar hw d hd
      simp only [isNumChar, Bool.or_eq_true, beq_iff_eq] at this
      rcases this with h | h
      · simp [known, isAlnum, h]
      · exact Or.inr h
    · exact ih (fun h => h0 (List.mem_append_right _ h)) d hd
  | element hd' _ _ _ ih =>
    intro d hd
    simp only [List.cons_append, List.mem_cons, List.mem_append] at hd
    rcases hd with rfl | rfl | hd | hd
    · decide
    · simp [known, isAlnum, hd' d (List.mem_cons_self ..)]
    · simp [known, isAlnum, hd' d (List.mem_cons_of_mem _ hd)]
    · exact ih (fun h => h0 (by simp [h])) d hd
  | identifier hc hw _ _ _ _ ih =>
    intro d hd
    simp only [List.cons_append, List.mem_cons, List.mem_append] at hd
    rcases hd with rfl | hd | hd
    · simp [known, isAlnum, hc]
    · simp [known, hw d hd]
    · exact ih (fun h => h0 (by simp [h])) d hd

/-- A formula and its tokens. -/
example : tokenize (fun w => w.length) "2 e20 ^ ~(xy + 1.5)".toList = some (.ok [.number 1,
    .element 5 true, .op '^', .op '~', .delimiter '(', .identifier ['x', 'y'], .op '+', .number 3,
    .delimiter ')', .eof]) := by decide +kernel

end Klein.Sym
