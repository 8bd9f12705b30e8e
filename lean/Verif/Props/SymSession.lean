import Verif.Props.SymRepl
import Verif.Props.SymPoly
import Verif.Sym.Session

/-!
# C87: a session of the shell; C88: printing tokens, hashing monomials
-/

namespace Klein.Sym

/-! ### C87 -/

section Session
variable {F : Type} [Add F] [Mul F] [Neg F] [Zero F] [One F] [DecidableEq F] [ZeroTest F]
variable (val : List Char → F) (fmt : F → List Char) (what : List Char → List Char)

/-- A text of whole lines. -/
def unlines (ls : List (List Char)) : List Char := ls.flatMap (· ++ ['\n'])

theorem getline_cons {l : List Char} (hl : '\n' ∉ l) (s : List Char) :
    getline (l ++ '\n' :: s) = some (l, s) := by
  have h1 : ∀ c ∈ l, (c != '\n') = true := fun c hc => by
    rw [bne_iff_ne]; rintro rfl; exact hl hc
  have h2 : (l ++ '\n' :: s).takeWhile (· != '\n') = l := by
    rw [List.takeWhile_append_of_pos h1]; simp
  have h3 : (l ++ '\n' :: s).dropWhile (· != '\n') = '\n' :: s := by
    rw [List.dropWhile_append_of_pos h1]; simp
  cases h : l ++ '\n' :: s with
  | nil => simp at h
  | cons c t => rw [getline, ← h, h2, h3]; rfl

theorem getline_last {l : List Char} (hl : '\n' ∉ l) (h0 : l ≠ []) : getline l = some (l, []) := by
  have h1 : ∀ c ∈ l, (c != '\n') = true := fun c hc => by
    rw [bne_iff_ne]; rintro rfl; exact hl hc
  cases l with
  | nil => exact absurd rfl h0
  | cons c t =>
    rw [getline, List.takeWhile_eq_self_iff.2 h1, List.dropWhile_eq_nil_iff.2 h1]; rfl

/-- The session line by line. -/
def answers : List (List Char) → World → Option (R World)
  | [], w => some (.ok w)
  | l :: ls, w => match answer val fmt what l w with
    | some (.ok w') => answers ls w'
    | r => r

theorem runLoop_lines : ∀ (ls : List (List Char)) (last : List Char) (n : ℕ) (w : World),
    (∀ l ∈ ls, '\n' ∉ l) → '\n' ∉ last → (unlines ls ++ last).length ≤ n →
    runLoop val fmt what n (unlines ls ++ last) w =
      answers val fmt what (ls ++ if last = [] then [] else [last]) w
  | [], last, n, w, _, hl, hn => by
    by_cases h0 : last = []
    · subst h0
      cases n <;> rfl
    · obtain ⟨n, rfl⟩ : ∃ m, n = m + 1 := ⟨n - 1, by
        have := List.length_pos_of_ne_nil h0; simp [unlines] at hn; omega⟩
      simp only [unlines, List.flatMap_nil, List.nil_append, runLoop, getline_last hl h0, if_neg h0, answers]
      cases h : answer val fmt what last w with
      | none => rfl
      | some r => cases r <;> simp only <;> (cases n <;> rfl)
  | l :: ls, last, n, w, hls, hl, hn => by
    have e : unlines (l :: ls) ++ last = l ++ '\n' :: (unlines ls ++ last) := by
      simp [unlines]
    rw [e] at hn ⊢
    obtain ⟨n, rfl⟩ : ∃ m, n = m + 1 := ⟨n - 1, by simp at hn; omega⟩
    rw [runLoop, getline_cons (hls l (List.mem_cons_self ..))]
    simp only [List.cons_append, answers]
    cases h : answer val fmt what l w with
    | none => rfl
    | some r =>
      cases r with
      | ok w' =>
        exact runLoop_lines ls last n w' (fun l' hl' => hls l' (List.mem_cons_of_mem _ hl')) hl
          (by simp only [List.length_append, List.length_cons] at hn ⊢; omega)
      | _ => rfl

/-- C87: the shell answers the lines of its input in order; a last line need not be ended, and an
empty one after the last line end is none. -/
theorem C87_lines (ls : List (List Char)) (last : List Char) (h : ∀ l ∈ ls, '\n' ∉ l)
    (hl : '\n' ∉ last) (w : World) :
    session val fmt what (unlines ls ++ last) w =
      answers val fmt what (ls ++ if last = [] then [] else [last]) w :=
  runLoop_lines val fmt what ls last _ w h hl le_rfl

/-- Every text is of that form. -/
theorem C87_text : ∀ s : List Char, ∃ ls last, s = unlines ls ++ last ∧ (∀ l ∈ ls, '\n' ∉ l) ∧ '\n' ∉ last
  | [] => ⟨[], [], rfl, by simp, by simp⟩
  | c :: s => by
    obtain ⟨ls, last, h1, h2, h3⟩ := C87_text s
    by_cases hc : c = '\n'
    · subst hc
      exact ⟨[] :: ls, last, by simp [unlines, h1], by simpa using h2, h3⟩
    · cases ls with
      | nil =>
        exact ⟨[], c :: last, by simp [h1, unlines], by simp, by
          simp only [List.mem_cons, not_or]; exact ⟨fun h => hc h.symm, h3⟩⟩
      | cons l ls =>
        refine ⟨(c :: l) :: ls, last, by simp [unlines, h1], fun x hx => ?_, h3⟩
        rcases List.mem_cons.1 hx with rfl | hx
        · simp only [List.mem_cons, not_or]
          exact ⟨fun h => hc h.symm, h2 l (List.mem_cons_self ..)⟩
        · exact h2 x (List.mem_cons_of_mem _ hx)

/-- What a line adds to the outputs. -/
def reply (line : List Char) : Option (R (List Char × List Char)) :=
  (answer val fmt what line {}).map fun r => r.bind fun w => .ok (w.cout, w.cerr)

/-- The answer to a line does not depend on what came before. -/
theorem answer_eq (line : List Char) (w : World) : ∃ b : Bool, answer val fmt what line w =
    (reply val fmt what line).map fun r => r.bind fun o =>
      .ok ⟨w.cout ++ o.1, w.cerr ++ o.2, xor w.breakLines b⟩ := by
  unfold reply answer
  cases hc : classify line with
  | ok ea =>
    obtain ⟨echo, act⟩ := ea
    cases act with
    | blank =>
      refine ⟨false, ?_⟩
      cases echo <;> simp
    | command flip =>
      refine ⟨flip, ?_⟩
      cases echo <;> cases flip <;> simp
    | parse =>
      refine ⟨false, ?_⟩
      cases hp : parse val ⟨3, 0, 1⟩ line with
      | none => cases echo <;> simp
      | some r => cases r <;> cases echo <;> simp
  | _ => exact ⟨false, rfl⟩

/-- C87: the lines are answered independently of each other: the texts written are those of the single
lines, one after the other.  In particular `.break` has no effect on any output. -/
theorem C87_independent (ls : List (List Char)) (os : List (List Char × List Char))
    (h : List.Forall₂ (fun l o => reply val fmt what l = some (.ok o)) ls os) (w : World) :
    ∃ b, answers val fmt what ls w =
      some (.ok ⟨w.cout ++ os.flatMap (·.1), w.cerr ++ os.flatMap (·.2), b⟩) := by
  induction h generalizing w with
  | nil => exact ⟨w.breakLines, by simp [answers]⟩
  | @cons l o ls os h1 _ ih =>
    obtain ⟨b, hb⟩ := answer_eq val fmt what l w
    rw [h1] at hb
    simp only [Option.map_some, R.bind_ok] at hb
    obtain ⟨b', hb'⟩ := ih ⟨w.cout ++ o.1, w.cerr ++ o.2, xor w.breakLines b⟩
    refine ⟨b', ?_⟩
    rw [answers, hb]
    simp only [hb', List.flatMap_cons, List.append_assoc]

/-- C87: and a session ends if and only if the answer to every line does. -/
theorem C87_ends_iff (ls : List (List Char)) (w : World) :
    (∃ w', answers val fmt what ls w = some (.ok w')) ↔
      ∀ l ∈ ls, ∃ o, reply val fmt what l = some (.ok o) := by
  induction ls generalizing w with
  | nil => simp [answers]
  | cons l ls ih =>
    obtain ⟨b, hb⟩ := answer_eq val fmt what l w
    constructor
    · rintro ⟨w', hw⟩
      rw [answers, hb] at hw
      cases hr : reply val fmt what l with
      | none => rw [hr] at hw; simp at hw
      | some r =>
        rw [hr] at hw
        cases r with
        | ok o =>
          simp only [Option.map_some, R.bind_ok] at hw
          intro x hx
          rcases List.mem_cons.1 hx with rfl | hx
          · exact ⟨o, hr⟩
          · exact (ih _).1 ⟨w', hw⟩ x hx
        | _ => simp at hw
    · intro h
      obtain ⟨o, ho⟩ := h l (List.mem_cons_self ..)
      rw [ho] at hb
      simp only [Option.map_some, R.bind_ok] at hb
      rw [answers, hb]
      exact (ih _).2 fun x hx => h x (List.mem_cons_of_mem _ hx)

end Session

section Documented
variable {F : Type} [CommRing F] [DecidableEq F]
variable (val : List Char → F) (fmt : F → List Char) (what : List Char → List Char)

/-- What a user may expect of a line. -/
inductive Answers : List Char → List Char × List Char → Prop
  /-- nothing but spaces: a line end -/
  | blank {l} : (∀ c ∈ l, isSpace c = true) → Answers l (['\n'], [])
  /-- a comment is echoed -/
  | comment {sp s} : (∀ c ∈ sp, isSpace c = true) →
      Answers (sp ++ '#' :: s) (sp ++ '#' :: s ++ ['\n'], [])
  /-- a command prints nothing -/
  | command {sp s} : (∀ c ∈ sp, isSpace c = true) → Answers (sp ++ '.' :: s) ([], [])
  /-- an expression prints its value -/
  | value {l pre e m} : (∀ c ∈ l, isMark c = false) → (∀ c ∈ l, Ascii c) → Short l →
      (∃ c ∈ l, isSpace c = false) → Lexes val l (pre ++ [.eof]) → Derives 0 pre e →
      e.value ⟨3, 0, 1⟩ = some m → Answers l (showMv fmt m ++ ['\n'], [])

theorem scan_space : ∀ (sp s : List Char) (st : Scan), (∀ c ∈ sp, isSpace c = true) →
    scan (sp ++ s) st = scan s st
  | [], _, _, _ => rfl
  | c :: sp, s, st, h => by
    have hc := h c (List.mem_cons_self ..)
    rw [List.cons_append, scan, ctype_ascii (ascii_of_space hc), R.bind_ok, if_pos hc]
    exact scan_space sp s st fun x hx => h x (List.mem_cons_of_mem _ hx)

/-- C87: and so it is answered. -/
theorem C87_reply {l : List Char} {o : List Char × List Char} (h : Answers val fmt l o) :
    reply val fmt what l = some (.ok o) := by
  cases h with
  | blank hl =>
    have : classify l = .ok (false, .blank) := by
      unfold classify
      split_ifs
      · rfl
      · have := scan_space l [] {} hl
        rw [List.append_nil] at this
        rw [this]; rfl
    simp [reply, answer, this]
  | @comment sp s hs =>
    have : classify (sp ++ '#' :: s) = .ok (true, .blank) := by
      unfold classify
      rw [if_neg (by simp), scan_space sp _ _ hs]
      rfl
    simp [reply, answer, this]
  | @command sp s hs =>
    have : ∃ b, classify (sp ++ '.' :: s) = .ok (false, .command b) := by
      unfold classify
      rw [if_neg (by simp), scan_space sp _ _ hs]
      exact ⟨_, rfl⟩
    obtain ⟨b, hb⟩ := this
    cases b <;> simp [reply, answer, hb]
  | @value l pre e m hm ha hs hn hlex hd hv =>
    have hcl : classify l = .ok (false, .parse) := by
      rw [C65_exact l ha]
      have h1 : l.dropWhile (!isMark ·) = [] := by
        rw [List.dropWhile_eq_nil_iff]; intro c hc; rw [hm c hc]; rfl
      have h2 : l.takeWhile (!isMark ·) = l := by
        rw [List.takeWhile_eq_self_iff]; intro c hc; rw [hm c hc]; rfl
      rw [h1, h2]
      obtain ⟨c, hc, hc'⟩ := hn
      have : l.all isSpace = false := by
        rw [List.all_eq_false]; exact ⟨c, hc, by simp [hc']⟩
      simp [this]
    have hp : parse val ⟨3, 0, 1⟩ l = some (.ok m) := by
      rw [parse, C60_complete_partial val l _ hlex hs]
      simp only [Option.map_some, R.bind_ok]
      rw [C62_complete _ pre [.eof] e m hd hv ⟨_, _, rfl, Or.inl rfl⟩]
    simp [reply, answer, hcl, hp]

/-- C87: a session of such lines prints the answers. -/
theorem C87_session_partial (ls : List (List Char)) (os : List (List Char × List Char))
    (hl : ∀ l ∈ ls, '\n' ∉ l) (h : List.Forall₂ (fun l o => Answers val fmt l o) ls os) :
    ∃ b, session val fmt what (unlines ls) {} =
      some (.ok ⟨os.flatMap (·.1), os.flatMap (·.2), b⟩) := by
  have h1 := C87_lines val fmt what ls [] hl (by simp) {}
  rw [List.append_nil, if_pos rfl, List.append_nil] at h1
  obtain ⟨b, hb⟩ := C87_independent val fmt what ls os (h.imp fun _ _ h => C87_reply val fmt what h) {}
  exact ⟨b, by rw [h1, hb]; simp⟩

end Documented

/-- C87 fails otherwise: after a line with a comment at its end nothing is ever answered, and a line
with a decimal point is not answered. -/
theorem C87_fails : session (F := ℤ) (fun _ => 2) showInt (fun _ => []) "e1 # one\ne1\n".toList {} = none ∧
    session (F := ℤ) (fun _ => 2) showInt (fun _ => []) "2.0 e1\n".toList {} = some (.ok {}) := by
  decide +kernel

/-- A session: a comment, an empty line, an expression, a command, an error, an expression without a
line end. -/
example : session (F := ℤ) (fun _ => 2) showInt (fun _ => "bad".toList)
    "# note\n\n2e1 * e1\n.break\n(e1\ne2^e1".toList {} =
      some (.ok ⟨"# note\n\n2\n- e12\n".toList, "bad\n".toList, true⟩) := by
  decide +kernel

/-! ### C88 -/

/-- C88: monomials that compare equal have equal hashes, whatever the hashes of strings and
integers, for every size of `size_t`. -/
theorem C88_hash {X : Type} [LinearOrder X] {w : ℕ} (hs : X → BitVec w) (hi : ℤ → BitVec w) (a b : Mon X)
    (h : a.eq b = true) : a.hash hs hi = b.hash hs hi := by
  have : ∀ (s t : List (X × ℤ)), s.length = t.length → Mon.eqLoop s t = true → s = t := by
    intro s
    induction s with
    | nil => intro t h _; exact (List.length_eq_zero_iff.1 h.symm).symm
    | cons x s ih =>
      intro t h1 h2
      cases t with
      | nil => simp at h1
      | cons y t =>
        obtain ⟨x, d⟩ := x
        obtain ⟨y, e⟩ := y
        simp only [Mon.eqLoop] at h2
        split_ifs at h2 with h3 h4
        rw [not_not] at h3 h4
        subst h3 h4
        rw [ih t (by simpa using h1) h2]
  unfold Mon.eq at h
  split_ifs at h with hl
  rw [not_not] at hl
  unfold Mon.hash
  rw [this _ _ hl h]

/-- C88: adding a factor mixes in its hash without loss: for a given prefix, distinct hashes of the next
value give distinct results. -/
theorem C88_step_inj {w : ℕ} (out : BitVec w) : Function.Injective (hashStep out) := by
  intro x y h
  unfold hashStep at h
  have h1 := congrArg (fun z => out ^^^ z) h
  simp only [← BitVec.xor_assoc, BitVec.xor_self, BitVec.zero_xor] at h1
  rw [BitVec.add_assoc, BitVec.add_assoc, BitVec.add_assoc, BitVec.add_assoc] at h1
  simpa using h1

/-- C88: so powers of one variable collide only if the hashes of the exponents do. -/
theorem C88_hash_single {X : Type} {w : ℕ} (hs : X → BitVec w) (hi : ℤ → BitVec w) (x : X) (d e : ℤ)
    (h : (⟨[(x, d)]⟩ : Mon X).hash hs hi = (⟨[(x, e)]⟩ : Mon X).hash hs hi) : hi d = hi e := by
  simp only [Mon.hash, List.foldl_cons, List.foldl_nil] at h
  exact C88_step_inj _ h

/-- The text printed for a token. -/
def tokenText {F : Type} (fmt : F → List Char) : Token F → List Char
  | .delimiter c => [c]
  | .element v n => (if n then ['-'] else []) ++ "e[0x".toList ++ Nat.toDigits 16 v ++ [']']
  | .eof => []
  | .identifier s => s
  | .number x => fmt x
  | .op c => [c]

theorem putToken_text {F : Type} (fmt : F → List Char) (os : Stream) (t : Token F)
    (ht : ∀ v n, t = .element v n → v < 256) :
    (os.putToken fmt t).text = os.text ++ tokenText fmt t := by
  cases t with
  | element v n =>
    have hv := ht v n rfl
    have : ((v : ℤ) % 4294967296).toNat = v := by omega
    cases n <;> simp [Stream.putToken, Stream.putElement, Stream.putInt, Stream.put, tokenText, this]
  | eof => simp [Stream.putToken, tokenText]
  | _ => rfl

/-- C88: the tokens are printed one on each line, and an empty line after them. -/
theorem C88_tokens {F : Type} (fmt : F → List Char) (ts : List (Token F)) (os : Stream)
    (ht : ∀ v n, Token.element v n ∈ ts → v < 256) :
    (os.putTokens fmt ts).text = os.text ++ unlines (ts.map (tokenText fmt)) ++ ['\n'] := by
  have : ∀ (ts : List (Token F)) (os : Stream), (∀ v n, Token.element v n ∈ ts → v < 256) →
      (ts.foldl (fun os t => (os.putToken fmt t).put ['\n']) os).text =
        os.text ++ unlines (ts.map (tokenText fmt)) := by
    intro ts
    induction ts with
    | nil => intro os _; simp [unlines]
    | cons t ts ih =>
      intro os h
      rw [List.foldl_cons, ih _ fun v n hm => h v n (List.mem_cons_of_mem _ hm)]
      have := putToken_text fmt os t fun v n e => h v n (e ▸ List.mem_cons_self ..)
      simp [Stream.put, this, unlines]
  unfold Stream.putTokens
  rw [Stream.put, this ts os ht]

/-- C88: on a fresh stream exponents are printed in base 10. -/
theorem C88_factor_partial (os : Stream) (h : os.hex = false) (f : List Char × ℤ) :
    os.putFactor f = os.put (showFactor f) := by
  unfold Stream.putFactor showFactor
  split_ifs with h1 h2
  · simp [Stream.put]
  · simp [Stream.putInt, Stream.put, h]
  · simp [Stream.put]

/-- C88 fails on a stream to which an element has been printed: `std::hex` stays in force, `x^10` is
printed as `x^a` and `x^-1` as `x^ffffffff`. -/
theorem C88_fails : ∃ os : Stream, os = Stream.putTokens (F := ℤ) showInt {} [.element 1 false] ∧
    (os.putFactor ("x".toList, 10)).text = os.text ++ "x^a".toList ∧
    (os.putFactor ("x".toList, -1)).text = os.text ++ "x^ffffffff".toList ∧
    showFactor ("x".toList, 10) = "x^10".toList := by
  exact ⟨_, rfl, by decide +kernel, by decide +kernel, by decide +kernel⟩

example : (Stream.putTokens (F := ℤ) showInt {} [.number 4, .element 1 true, .op '*', .identifier "ab".toList,
    .element 13 false, .eof]).text = "4\n-e[0x1]\n*\nab\ne[0xd]\n\n\n".toList := by decide +kernel

example : (⟨[("x".toList, 2), ("y".toList, 1)]⟩ : Mon (List Char)).hash (w := 64)
    (fun s => BitVec.ofNat 64 s.length) (fun i => BitVec.ofInt 64 i) ≠
    (⟨[("x".toList, 1), ("y".toList, 2)]⟩ : Mon (List Char)).hash
    (fun s => BitVec.ofNat 64 s.length) (fun i => BitVec.ofInt 64 i) := by decide +kernel

end Klein.Sym
