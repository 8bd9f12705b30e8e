import Verif.Float.Expr

/-!
# Contraction of products and sums into fused multiply-adds

The library is a set of headers.  A compiler that targets a machine with the FMA extension may replace
a product followed by a sum by one fused multiply-add, which rounds once (GCC does so for intrinsics by
default; GLSL allows it wherever `precise` is absent).  `Can f e x` says that `x` is one of the values
the expression `e` may take then: at every sum or difference one operand may be fused if it is a product,
and different uses of one subexpression may be compiled differently.  `runC` is the error analysis of
`Verif/Float/Expr.lean` without the rule that `a - a` is zero, which contraction breaks for products.
-/

namespace Klein

namespace F32

/-- `vfmadd`, one lane: `x * y + z` rounded once.  NaN operands are returned quieted in the order
`x`, `y`, `z`. -/
def fma (x y z : F32) : F32 :=
  if x.isNaN then x.quiet else if y.isNaN then y.quiet else if z.isNaN then z.quiet else
    let s := x.sign != y.sign
    if x.isInf || y.isInf then
      if x.isZero || y.isZero then defaultNaN
      else if z.isInf && z.sign != s then defaultNaN else inf s
    else if z.isInf then z
    else round (s && z.sign) (x.val * y.val + z.val)

/-- Change the sign or not. -/
def sg (s : Bool) (x : F32) : F32 := if s then -x else x

theorem fma_round {x y z : F32} (hx : x.isFinite = true) (hy : y.isFinite = true) (hz : z.isFinite = true) :
    fma x y z = round ((x.sign != y.sign) && z.sign) (x.val * y.val + z.val) := by
  rw [fma, isNaN_of_isFinite hx, isNaN_of_isFinite hy, isNaN_of_isFinite hz, isInf_of_isFinite hx,
    isInf_of_isFinite hy, isInf_of_isFinite hz]
  simp

/-- Rounding a rational number of moderate size. -/
theorem rnd_ok (z : Bool) {q : ℚ} (h : |(q : ℝ)| ≤ 2 ^ 127) :
    (round z q).isFinite = true ∧ |r (round z q) - q| ≤ u * max (1 / 2 ^ 126) |(q : ℝ)| := by
  have hq : |q| ≤ 2 ^ 127 := by exact_mod_cast h
  have hf : (round z q).isFinite = true := (round_le_two_pow (le_refl 127) hq).1
  refine ⟨hf, ?_⟩
  have e := round_err (z := z) hf
  have e' : ((|(round z q).val - q| : ℚ) : ℝ) ≤ ((max minNormal |q| / 2 ^ 24 : ℚ) : ℝ) := by exact_mod_cast e
  push_cast [minNormal] at e'
  unfold r u
  refine e'.trans (le_of_eq ?_)
  norm_num
  ring

/-- The sign given to an exact zero does not matter. -/
theorem round_sign (z z' : Bool) (q : ℚ) : (round z q).isFinite = (round z' q).isFinite ∧ r (round z q) = r (round z' q) := by
  by_cases h : q = 0
  · subst h
    exact ⟨by rw [round_zero_finite, round_zero_finite], by unfold r; rw [round_zero_val, round_zero_val]⟩
  · unfold round; simp [h]

end F32

namespace Ex

open F32

/-- `e` is the product of `a` and `b`, up to the sign `s`. -/
inductive IsProd : Ex → Ex → Ex → Bool → Prop
  | mul (a b : Ex) : IsProd (mul a b) a b false
  | neg {e a b : Ex} {s : Bool} : IsProd e a b s → IsProd (neg e) a b (!s)

/-- `Can f e x`: a compiler that may contract can compute `x` for `e`. -/
inductive Can (f : ℕ → F32) : Ex → F32 → Prop
  | v (n : ℕ) : Can f (v n) (f n)
  | zero : Can f zero 0
  | one : Can f one 1
  | nat (n : ℕ) : Can f (nat n) n
  | neg {a : Ex} {x : F32} : Can f a x → Can f (neg a) (-x)
  | mul {a b : Ex} {x y : F32} : Can f a x → Can f b y → Can f (mul a b) (x * y)
  | add {a b : Ex} {x y : F32} : Can f a x → Can f b y → Can f (add a b) (x + y)
  | sub {a b : Ex} {x y : F32} : Can f a x → Can f b y → Can f (sub a b) (x - y)
  | addL {e a b c : Ex} {s : Bool} {x y z : F32} : IsProd e a b s → Can f a x → Can f b y → Can f c z →
      Can f (add e c) (fma (sg s x) y z)
  | addR {e a b c : Ex} {s : Bool} {x y z : F32} : IsProd e a b s → Can f a x → Can f b y → Can f c z →
      Can f (add c e) (fma (sg s x) y z)
  | subL {e a b c : Ex} {s : Bool} {x y z : F32} : IsProd e a b s → Can f a x → Can f b y → Can f c z →
      Can f (sub e c) (fma (sg s x) y (-z))
  | subR {e a b c : Ex} {s : Bool} {x y z : F32} : IsProd e a b s → Can f a x → Can f b y → Can f c z →
      Can f (sub c e) (fma (sg (!s) x) y z)

/-- Evaluation without any contraction is one possibility. -/
theorem can_eval (f : ℕ → F32) (e : Ex) : Can f e (eval f e) := by
  induction e with
  | v n => exact .v n
  | zero => exact .zero
  | one => exact .one
  | nat n => exact .nat n
  | add a b ha hb => exact .add ha hb
  | sub a b ha hb => exact .sub ha hb
  | mul a b ha hb => exact .mul ha hb
  | neg a ha => exact .neg ha

/-- As `run`, but the difference of two equal expressions is treated like any other. -/
def runC (g : ℕ → Bd) : Ex → Option (Bd ⊕ ℕ)
  | v n => some (.inl (g n))
  | zero => some (.inl ⟨0, 0, 0, 0, 0⟩)
  | one => some (.inl ⟨1, 0, 0, 0, 0⟩)
  | nat n => if n = 2 then some (.inl ⟨2, 0, 0, 0, 0⟩) else none
  | add a b =>
    match runC g a, runC g b with
    | some x, some y => addRes x y
    | _, _ => none
  | sub a b =>
    match runC g a, runC g b with
    | some x, some y => addRes x y
    | _, _ => none
  | mul a b =>
    match runC g a, runC g b with
    | some x, some y => mulRes x y
    | _, _ => none
  | neg a => runC g a

/-- The exact number `q` is within the bound `b` of `E`, before and after rounding. -/
structure TrQ (q : ℚ) (E : ℝ) (s : Scales) (b : Bd) : Prop where
  tr : ∀ z, Tr (round z q) E s b
  err : |(q : ℝ) - E| ≤ b.k / 2 ^ 28 * s.sc b.i b.j b.l

theorem TrQ.of {x : F32} {E : ℝ} {s : Scales} {b : Bd} (h : Tr x E s b) : TrQ x.val E s b :=
  ⟨fun z => h.congr_val (round_val_r h.fin z).1 (round_val_r h.fin z).2 rfl, h.err⟩

theorem TrQ.neg {q : ℚ} {E : ℝ} {s : Scales} {b : Bd} (h : TrQ q E s b) : TrQ (-q) (-E) s b := by
  refine ⟨fun z => ?_, ?_⟩
  · have hr : (round z (-q)).isFinite = (round z q).isFinite ∧ r (round z (-q)) = -r (round z q) := by
      by_cases h0 : q = 0
      · subst h0
        rw [neg_zero]
        have : r (round z 0) = 0 := by unfold r; rw [round_zero_val]; simp
        exact ⟨rfl, by rw [this, neg_zero]⟩
      · refine ⟨?_, ?_⟩
        · rw [Bool.eq_iff_iff, round_isFinite, round_isFinite, abs_neg]
        · unfold r F32.round
          rw [if_neg h0, if_neg (neg_ne_zero.2 h0), abs_neg]
          rcases lt_or_gt_of_ne h0 with hn | hn
          · simp [val, ofMag, hn, not_lt.2 hn.le]
          · simp [val, ofMag, hn, not_lt.2 hn.le]
    have t := (h.tr z).neg
    exact t.congr_val (hr.1.trans (h.tr z).fin) (by rw [hr.2, r_neg]) rfl
  · push_cast
    rw [show -(q : ℝ) - -E = -((q : ℝ) - E) by ring, abs_neg]
    exact h.err

/-- The exact product. -/
theorem TrQ.mul {x y : F32} {E E' : ℝ} {s : Scales} {a b c : Bd} (hs : s.Ok)
    (hx : Tr x E s a) (hy : Tr y E' s b) (h : Bd.mul a b = some c) : TrQ (x.val * y.val) (E * E') s c := by
  have t := Tr.mul hs hx hy h
  refine ⟨fun z => ?_, ?_⟩
  · have e := round_sign z (x.sign != y.sign) (x.val * y.val)
    rw [← mul_round hx.fin hy.fin] at e
    exact t.congr_val (e.1.trans t.fin) e.2 rfl
  · have e : ((x.val * y.val : ℚ) : ℝ) = r x * r y := by unfold r; push_cast; rfl
    rw [e]
    unfold Bd.mul at h
    split_ifs at h with c1 c2
    · cases h
      have : r x * r y - E * E' = 0 := by
        rcases c1 with c1 | c1
        · obtain ⟨hE, h0⟩ := hx.zero_val c1
          rw [hE, h0]; ring
        · obtain ⟨hE, h0⟩ := hy.zero_val c1
          rw [hE, h0]; ring
      rw [this]; simp
    · cases h
      obtain ⟨g2, g3, g4, g5⟩ := c2
      have hP := (hs.rng g2).pos
      have eM : s.sc (a.i + b.i) (a.j + b.j) (a.l + b.l) = s.sc a.i a.j a.l * s.sc b.i b.j b.l := by
        unfold Scales.sc; rw [pow_add, pow_add, pow_add]; ring
      have e1 := hx.err
      have e2 := hy.err
      have m2 := hy.mag
      have v1 := hx.val_le
      have hM0 := (hs.rng hx.deg).pos
      have hM0' := (hs.rng hy.deg).pos
      simp only
      rw [eM] at hP ⊢
      have g4' : (a.k : ℝ) * b.k ≤ 2 ^ 26 := by exact_mod_cast g4
      obtain ⟨M, hMd⟩ : ∃ M, s.sc a.i a.j a.l = M := ⟨_, rfl⟩
      obtain ⟨N, hNd⟩ : ∃ N, s.sc b.i b.j b.l = N := ⟨_, rfl⟩
      rw [hMd] at e1 v1 hM0 hP ⊢
      rw [hNd] at e2 m2 hM0' hP ⊢
      rw [show r x * r y - E * E' = r x * (r y - E') + (r x - E) * E' by ring]
      refine (abs_add_le _ _).trans ?_
      rw [abs_mul, abs_mul]
      refine (add_le_add (mul_le_mul v1 e2 (abs_nonneg _) (by positivity))
        (mul_le_mul e1 m2 (abs_nonneg _) (by positivity))).trans ?_
      have : ((a.p : ℝ) + a.k / 2 ^ 28) * M * (b.k / 2 ^ 28 * N) + a.k / 2 ^ 28 * M * (b.p * N) =
          ((a.k * b.p + a.p * b.k) / 2 ^ 28 + a.k * b.k / 2 ^ 56) * (M * N) := by ring
      rw [this]
      refine mul_le_mul_of_nonneg_right ?_ hP.le
      push_cast
      have p0 : (0 : ℝ) ≤ a.p * b.p := by positivity
      norm_num at g4' ⊢
      linarith

theorem TrQ.zero_val {q : ℚ} {E : ℝ} {s : Scales} {b : Bd} (h : TrQ q E s b) (h0 : b.p = 0) : E = 0 ∧ q = 0 := by
  have hE := ((h.tr false).zero_val h0).1
  have h2 := h.err
  rw [(h.tr false).zero h0, hE] at h2
  simp only [Nat.cast_zero, zero_mul, zero_div, sub_zero] at h2
  exact ⟨hE, by exact_mod_cast abs_nonpos_iff.1 h2⟩

theorem TrQ.val_le {q : ℚ} {E : ℝ} {s : Scales} {b : Bd} (h : TrQ q E s b) :
    |(q : ℝ)| ≤ (b.p + b.k / 2 ^ 28) * s.sc b.i b.j b.l := by
  have := abs_add_le ((q : ℝ) - E) E
  rw [sub_add_cancel] at this
  linarith [(h.tr false).mag, h.err]

/-- The sum of two exact numbers, rounded once. -/
theorem TrQ.sum {q q' : ℚ} {E E' : ℝ} {s : Scales} {a b c : Bd} (hs : s.Ok) (hx : TrQ q E s a) (hy : TrQ q' E' s b)
    (h : Bd.add a b = some c) (z : Bool) : Tr (round z (q + q')) (E + E') s c := by
  unfold Bd.add at h
  split_ifs at h with c1 c2 c3
  · obtain ⟨hE, h0⟩ := hx.zero_val c1
    cases h
    rw [h0, hE, zero_add, zero_add]
    exact hy.tr z
  · obtain ⟨hE, h0⟩ := hy.zero_val c2
    cases h
    rw [h0, hE, add_zero, add_zero]
    exact hx.tr z
  · cases h
    obtain ⟨⟨g1, g2, g2'⟩, hp, hk⟩ := c3
    obtain ⟨p, k, i, j, l⟩ := a
    obtain ⟨p', k', i', j', l'⟩ := b
    simp only at g1 g2 g2' hp hk c1
    subst g1 g2 g2'
    have hM := hs.rng (hx.tr false).deg
    have hM0 := hM.pos
    have e1 := hx.err
    have e2 := hy.err
    have m1 := (hx.tr false).mag
    have m2 := (hy.tr false).mag
    have v1 := hx.val_le
    have v2 := hy.val_le
    simp only at e1 e2 m1 m2 v1 v2 hM hM0
    obtain ⟨M, hMd⟩ : ∃ M, s.sc i j l = M := ⟨_, rfl⟩
    rw [hMd] at e1 e2 m1 m2 v1 v2 hM hM0
    have hp' : (p : ℝ) + p' ≤ 2 ^ 12 := by exact_mod_cast hp
    have hk' : (k : ℝ) + k' ≤ 2 ^ 20 := by exact_mod_cast hk
    have hp1 : (1 : ℝ) ≤ p := by exact_mod_cast Nat.one_le_iff_ne_zero.2 c1
    have hp2 : (0 : ℝ) ≤ p' := by positivity
    have hk0 : (0 : ℝ) ≤ k := by positivity
    have hk0' : (0 : ℝ) ≤ k' := by positivity
    have a1 : |(q : ℝ) + q'| ≤ (p + p' + (k + k') / 2 ^ 28) * M := by
      refine (abs_add_le _ _).trans ?_
      refine (add_le_add v1 v2).trans (le_of_eq ?_)
      ring
    have a2 : ((p : ℝ) + p' + (k + k') / 2 ^ 28) * M ≤ 2 ^ 127 := by
      have b1 : (p : ℝ) + p' + (k + k') / 2 ^ 28 ≤ 2 ^ 13 := by norm_num at hp' hk' ⊢; linarith
      calc _ ≤ (2 : ℝ) ^ 13 * 2 ^ 112 := mul_le_mul b1 hM.hi hM0.le (by positivity)
        _ ≤ 2 ^ 127 := by norm_num
    obtain ⟨hf, he⟩ := rnd_ok z (q := q + q') (by push_cast; exact a1.trans a2)
    push_cast at he
    refine ⟨hf, ?_, ?_, (hx.tr false).deg, hp, ?_, ?_⟩
    · simp only
      rw [hMd]
      push_cast
      refine (abs_add_le _ _).trans ?_
      linarith
    · simp only
      rw [hMd]
      push_cast
      have b1 : |(q : ℝ) + q' - (E + E')| ≤ (k + k') / 2 ^ 28 * M := by
        rw [show (q : ℝ) + q' - (E + E') = (q - E) + (q' - E') by ring]
        refine (abs_add_le _ _).trans ((add_le_add e1 e2).trans (le_of_eq ?_))
        ring
      have a3 : max (1 / 2 ^ 126) |(q : ℝ) + q'| ≤ (p + p' + (k + k') / 2 ^ 28) * M := by
        refine max_le ?_ a1
        have d1 : (1 : ℝ) / 2 ^ 126 ≤ 1 / 2 ^ 112 :=
          one_div_le_one_div_of_le (by positivity) (pow_le_pow_right₀ (by norm_num) (by norm_num))
        refine d1.trans (hM.lo.trans (le_mul_of_one_le_left hM0.le ?_))
        have : (0 : ℝ) ≤ (k + k') / 2 ^ 28 := by positivity
        linarith
      have b2 : u * max (1 / 2 ^ 126) |(q : ℝ) + q'| ≤ (16 * (p + p') + 1) / 2 ^ 28 * M := by
        refine (mul_le_mul_of_nonneg_left a3 u_pos.le).trans ?_
        rw [← mul_assoc]
        refine mul_le_mul_of_nonneg_right ?_ hM0.le
        unfold u
        norm_num at hk' ⊢
        linarith
      have b3 := abs_add_le (r (round z (q + q')) - (q + q')) ((q : ℝ) + q' - (E + E'))
      rw [sub_add_sub_cancel] at b3
      refine b3.trans ((add_le_add (he.trans b2) b1).trans (le_of_eq ?_))
      ring
    · simp only; omega
    · simp only; omega

/-- What is known of an exact number. -/
def ClaimQ (q : ℚ) (E : ℝ) (s : Scales) : Bd ⊕ ℕ → Prop
  | .inl b => TrQ q E s b
  | .inr n => |(q : ℝ)| ≤ 2 ^ n ∧ 126 ≤ n ∧ n ≤ 127

theorem Claim.q {x : F32} {E : ℝ} {s : Scales} {a : Bd ⊕ ℕ} (h : Claim x E s a) : ClaimQ x.val E s a := by
  cases a with
  | inl a => exact TrQ.of h
  | inr n => exact h.2

theorem ClaimQ.neg {q : ℚ} {E : ℝ} {s : Scales} {a : Bd ⊕ ℕ} (h : ClaimQ q E s a) : ClaimQ (-q) (-E) s a := by
  cases a with
  | inl a => exact TrQ.neg h
  | inr n => exact ⟨by push_cast; rw [abs_neg]; exact h.1, h.2⟩

theorem TrQ.size {q : ℚ} {E : ℝ} {s : Scales} {b : Bd} (hs : s.Ok) (h : TrQ q E s b) : |(q : ℝ)| ≤ 1.1 * 2 ^ 124 := by
  have hM := hs.rng (h.tr false).deg
  have hp : (b.p : ℝ) ≤ 4096 := (Nat.cast_le.2 (h.tr false).p_le).trans (by norm_num)
  have hk : (b.k : ℝ) ≤ 134217728 := (Nat.cast_le.2 (h.tr false).k_le).trans (by norm_num)
  refine h.val_le.trans ?_
  have b1 : (b.p : ℝ) + b.k / 2 ^ 28 ≤ 1.1 * 2 ^ 12 := by norm_num; linarith
  calc _ ≤ ((1.1 : ℝ) * 2 ^ 12) * 2 ^ 112 := mul_le_mul b1 hM.hi hM.pos.le (by positivity)
    _ = 1.1 * 2 ^ 124 := by norm_num

theorem crude_rnd {q q' : ℚ} {P Q : ℝ} {k : ℕ} (h1 : |(q : ℝ)| ≤ P) (h2 : |(q' : ℝ)| ≤ Q)
    (hk : P + Q ≤ 2 ^ k) (hk' : k ≤ 127) (z : Bool) :
    (round z (q + q')).isFinite = true ∧ |r (round z (q + q'))| ≤ 2 ^ k := by
  have h : |((q + q' : ℚ) : ℝ)| ≤ 2 ^ k := by
    push_cast
    exact (abs_add_le _ _).trans ((add_le_add h1 h2).trans hk)
  have h' : |q + q'| ≤ 2 ^ k := by exact_mod_cast h
  have := round_le_two_pow (z := z) hk' h'
  refine ⟨this.1, ?_⟩
  unfold r
  exact_mod_cast this.2

theorem ClaimQ.add {q q' : ℚ} {E E' : ℝ} {s : Scales} {a b c : Bd ⊕ ℕ} (hs : s.Ok) (hx : ClaimQ q E s a)
    (hy : ClaimQ q' E' s b) (h : addRes a b = some c) (z : Bool) : Claim (round z (q + q')) (E + E') s c := by
  have n1 : (1.1 : ℝ) * 2 ^ 124 + 1.1 * 2 ^ 124 ≤ 2 ^ 126 := by norm_num
  have n2 : (1.1 : ℝ) * 2 ^ 124 + 2 ^ 126 ≤ 2 ^ 127 := by norm_num
  cases a with
  | inl a =>
    cases b with
    | inl b =>
      simp only [addRes] at h
      split at h
      · rename_i d hd
        cases h
        exact TrQ.sum hs hx hy hd z
      · cases h
        have := crude_rnd (TrQ.size hs hx) (TrQ.size hs hy) n1 (by norm_num) z
        exact ⟨this.1, this.2, le_rfl, by norm_num⟩
    | inr n =>
      simp only [addRes] at h
      split_ifs at h with hn
      cases h
      subst hn
      have := crude_rnd (TrQ.size hs hx) hy.1 n2 (by norm_num) z
      exact ⟨this.1, this.2, by norm_num, le_rfl⟩
  | inr n =>
    cases b with
    | inl b =>
      simp only [addRes] at h
      split_ifs at h with hn
      cases h
      subst hn
      have := crude_rnd hx.1 (TrQ.size hs hy) (by rw [add_comm]; exact n2) (by norm_num) z
      exact ⟨this.1, this.2, by norm_num, le_rfl⟩
    | inr m => cases h

theorem ClaimQ.mul {x y : F32} {E E' : ℝ} {s : Scales} {a b c : Bd ⊕ ℕ} (hs : s.Ok) (hx : Claim x E s a)
    (hy : Claim y E' s b) (h : mulRes a b = some c) : ClaimQ (x.val * y.val) (E * E') s c := by
  have z0 : ∀ z, Tr (round z 0) 0 s ⟨0, 0, 0, 0, 0⟩ := fun z =>
    Tr.of_zero (round_zero_finite z) (by unfold r; rw [round_zero_val]; simp)
  cases a with
  | inl a =>
    cases b with
    | inl b =>
      simp only [mulRes, Option.map_eq_some_iff] at h
      obtain ⟨d, hd, rfl⟩ := h
      exact TrQ.mul hs hx hy hd
    | inr n =>
      simp only [mulRes] at h
      split_ifs at h with hn
      cases h
      obtain ⟨h1, h2⟩ := Tr.zero_val hx hn
      rw [h1, r_eq_zero h2, zero_mul, zero_mul]
      exact ⟨z0, by simp⟩
  | inr n =>
    cases b with
    | inl b =>
      simp only [mulRes] at h
      split_ifs at h with hn
      cases h
      obtain ⟨h1, h2⟩ := Tr.zero_val hy hn
      rw [h1, r_eq_zero h2, mul_zero, mul_zero]
      exact ⟨z0, by simp⟩
    | inr m => cases h

/-- The sign in front of a number. -/
def sgR (s : Bool) (x : ℝ) : ℝ := if s then -x else x

theorem sg_fin {s : Bool} {x : F32} (h : x.isFinite = true) : (sg s x).isFinite = true := by
  cases s
  · exact h
  · simpa [sg] using h

theorem IsProd.run {e a b : Ex} {s : Bool} (h : IsProd e a b s) (g : ℕ → Bd) : runC g e = runC g (Ex.mul a b) := by
  induction h with
  | mul a b => rfl
  | neg _ ih => exact ih

theorem IsProd.eval {e a b : Ex} {s : Bool} (h : IsProd e a b s) (E : ℕ → ℝ) :
    Ex.eval E e = sgR s (Ex.eval E a * Ex.eval E b) := by
  induction h with
  | mul a b => rfl
  | @neg e a b s _ ih =>
    show -Ex.eval E e = _
    rw [ih]
    cases s <;> simp [sgR]

/-- The product in a fused multiply-add. -/
theorem IsProd.claim {e a b : Ex} {s : Bool} (h : IsProd e a b s) {g : ℕ → Bd} {E : ℕ → ℝ} {sc : Scales} (hs : sc.Ok)
    {x y : F32} {t : Bd ⊕ ℕ} (ht : runC g e = some t)
    (hx : ∀ {c}, runC g a = some c → Claim x (Ex.eval E a) sc c)
    (hy : ∀ {c}, runC g b = some c → Claim y (Ex.eval E b) sc c) :
    x.isFinite = true ∧ y.isFinite = true ∧ ClaimQ ((sg s x).val * y.val) (Ex.eval E e) sc t := by
  rw [h.run g] at ht
  simp only [runC] at ht
  split at ht
  swap
  · cases ht
  rename_i ca cb ha hb
  have c1 := hx ha
  have c2 := hy hb
  refine ⟨c1.fin, c2.fin, ?_⟩
  rw [h.eval E]
  have := ClaimQ.mul hs c1 c2 ht
  cases s with
  | false => exact this
  | true =>
    have h2 := this.neg
    rw [← neg_mul] at h2
    simpa [sg, sgR] using h2

/-- Correctness of `runC`: whatever a contracting compiler computes is within the bound found. -/
theorem soundC {e : Ex} {b : Bd ⊕ ℕ} {s : Scales} (hs : s.Ok) {g : ℕ → Bd} {f : ℕ → F32} {E : ℕ → ℝ}
    (hf : ∀ n, Tr (f n) (E n) s (g n)) {x : F32} (hx : Can f e x) (h : runC g e = some b) :
    Claim x (eval E e) s b := by
  induction hx generalizing b with
  | v n => cases h; exact hf n
  | zero => exact sound (e := .zero) hs hf h
  | one => exact sound (e := .one) hs hf h
  | nat n => exact sound (e := .nat n) hs hf h
  | neg _ ih => exact (ih h).neg
  | mul _ _ iha ihb =>
    simp only [runC] at h
    split at h
    · rename_i ha hb
      exact Claim.mul hs (iha ha) (ihb hb) h
    · cases h
  | add _ _ iha ihb =>
    simp only [runC] at h
    split at h
    · rename_i ha hb
      exact (Claim.add hs (iha ha) (ihb hb) h).1
    · cases h
  | sub _ _ iha ihb =>
    simp only [runC] at h
    split at h
    · rename_i ha hb
      exact (Claim.add hs (iha ha) (ihb hb) h).2
    · cases h
  | addL hp _ _ _ iha ihb ihc =>
    simp only [runC] at h
    split at h
    · rename_i he hc
      obtain ⟨f1, f2, cq⟩ := hp.claim hs he iha ihb
      rw [fma_round (sg_fin f1) f2 (ihc hc).fin]
      exact ClaimQ.add hs cq (ihc hc).q h _
    · cases h
  | addR hp _ _ _ iha ihb ihc =>
    simp only [runC] at h
    split at h
    · rename_i hc he
      obtain ⟨f1, f2, cq⟩ := hp.claim hs he iha ihb
      rw [fma_round (sg_fin f1) f2 (ihc hc).fin, add_comm]
      exact ClaimQ.add hs (ihc hc).q cq h _
    · cases h
  | subL hp _ _ _ iha ihb ihc =>
    simp only [runC] at h
    split at h
    · rename_i he hc
      obtain ⟨f1, f2, cq⟩ := hp.claim hs he iha ihb
      have cn := (ihc hc).neg
      rw [fma_round (sg_fin f1) f2 cn.fin]
      have := ClaimQ.add hs cq cn.q h
      show Claim _ (eval E _ - eval E _) s b
      rw [sub_eq_add_neg]
      exact this _
    · cases h
  | @subR e a b' c sgn x y z hp _ _ _ iha ihb ihc =>
    simp only [runC] at h
    split at h
    · rename_i hc he
      obtain ⟨f1, f2, cq⟩ := hp.claim hs he iha ihb
      rw [fma_round (sg_fin f1) f2 (ihc hc).fin, add_comm]
      have hn := cq.neg
      have e1 : (sg (!sgn) x).val * y.val = -((sg sgn x).val * y.val) := by cases sgn <;> simp [sg]
      rw [e1]
      show Claim _ (eval E _ - eval E _) s b
      rw [sub_eq_add_neg]
      exact ClaimQ.add hs (ihc hc).q hn h _
    · cases h

end Ex
end Klein
