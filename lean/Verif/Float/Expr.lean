import Verif.Float.Approx
import Verif.Float.Order

/-!
# Running error analysis by reflection

The products, meets, joins, projections and actions of the library only add, subtract, multiply and
change signs.  Run on lanes of type `Ex` they return the expression each lane evaluates; `Ex.run`
walks the expression and returns a bound of its magnitude and of its rounding error.  `Ex.sound` is
the correctness of that bound in binary32.
-/

namespace Klein

/-- An arithmetic expression in the lanes of the operands, numbered 0-7 (first operand) and 8-15
(second operand). -/
inductive Ex where
  | v (n : ℕ)
  | zero
  | one
  | nat (n : ℕ)
  | add (a b : Ex)
  | sub (a b : Ex)
  | mul (a b : Ex)
  | neg (a : Ex)
  deriving DecidableEq, Repr

namespace Ex

instance : Add Ex := ⟨add⟩
instance : Sub Ex := ⟨sub⟩
instance : Mul Ex := ⟨mul⟩
instance : Neg Ex := ⟨neg⟩
instance : Zero Ex := ⟨zero⟩
instance : One Ex := ⟨one⟩
instance : NatCast Ex := ⟨nat⟩

/-- The value of an expression, the lanes being `env`. -/
def eval {F : Type} [Add F] [Sub F] [Mul F] [Neg F] [Zero F] [One F] [NatCast F] (env : ℕ → F) : Ex → F
  | v n => env n
  | zero => 0
  | one => 1
  | nat n => n
  | add a b => eval env a + eval env b
  | sub a b => eval env a - eval env b
  | mul a b => eval env a * eval env b
  | neg a => -eval env a

/-- The lanes of up to four registers. -/
def env {F : Type} (a b c d : V4 F) : ℕ → F
  | 0 => a.l0 | 1 => a.l1 | 2 => a.l2 | 3 => a.l3
  | 4 => b.l0 | 5 => b.l1 | 6 => b.l2 | 7 => b.l3
  | 8 => c.l0 | 9 => c.l1 | 10 => c.l2 | 11 => c.l3
  | 12 => d.l0 | 13 => d.l1 | 14 => d.l2 | _ => d.l3

/-- The registers of the operands, as expressions. -/
def X : V4 Ex := ⟨v 0, v 1, v 2, v 3⟩
def X' : V4 Ex := ⟨v 4, v 5, v 6, v 7⟩
def Y : V4 Ex := ⟨v 8, v 9, v 10, v 11⟩
def Y' : V4 Ex := ⟨v 12, v 13, v 14, v 15⟩

/-- Magnitude at most `p * A^i * B^j * C^l`, error at most `k / 16` units `2^-24 * A^i * B^j * C^l`. -/
structure Bd where
  p : ℕ
  k : ℕ
  i : ℕ
  j : ℕ
  l : ℕ
  deriving DecidableEq, Repr

/-- The degrees for which the scale stays within the range of binary32. -/
def okDeg (i j l : ℕ) : Prop := 24 * (i + j) + 20 * l ≤ 112

instance (i j l : ℕ) : Decidable (okDeg i j l) := inferInstanceAs (Decidable (_ ≤ _))

/-- The bound of a sum of terms of equal degrees; adding an exact zero is exact. -/
def Bd.add (a b : Bd) : Option Bd :=
  if a.p = 0 then some b
  else if b.p = 0 then some a
  else if (a.i = b.i ∧ a.j = b.j ∧ a.l = b.l) ∧ a.p + b.p ≤ 2 ^ 12 ∧ a.k + b.k ≤ 2 ^ 20
  then some ⟨a.p + b.p, a.k + b.k + 16 * (a.p + b.p) + 1, a.i, a.j, a.l⟩
  else none

/-- The bound of a product. -/
def Bd.mul (a b : Bd) : Option Bd :=
  if a.p = 0 ∨ b.p = 0 then some ⟨0, 0, 0, 0, 0⟩
  else if okDeg (a.i + b.i) (a.j + b.j) (a.l + b.l) ∧ a.p * b.p ≤ 2 ^ 12 ∧ a.k * b.k ≤ 2 ^ 26 ∧
    16 * (a.k * b.p + a.p * b.k) ≤ 2 ^ 26
  then some ⟨a.p * b.p, a.k * b.p + a.p * b.k + 16 * (a.p * b.p) + 1, a.i + b.i, a.j + b.j, a.l + b.l⟩
  else none

/-- The sum of a bounded or merely finite number and another: without equal degrees only the size is kept. -/
def addRes : Bd ⊕ ℕ → Bd ⊕ ℕ → Option (Bd ⊕ ℕ)
  | .inl a, .inl b => match Bd.add a b with
    | some c => some (.inl c)
    | none => some (.inr 126)
  | .inl _, .inr n | .inr n, .inl _ => if n = 126 then some (.inr 127) else none
  | _, _ => none

/-- The product; a finite number times an exact zero is an exact zero. -/
def mulRes : Bd ⊕ ℕ → Bd ⊕ ℕ → Option (Bd ⊕ ℕ)
  | .inl a, .inl b => (Bd.mul a b).map .inl
  | .inl a, .inr _ | .inr _, .inl a => if a.p = 0 then some (.inl ⟨0, 0, 0, 0, 0⟩) else none
  | _, _ => none

/-- The bound of an expression, the lanes being bounded by `g`; `.inr n` stands for a finite number of
magnitude at most `2^n`.  `a - a` is an exact zero. -/
def run (g : ℕ → Bd) : Ex → Option (Bd ⊕ ℕ)
  | v n => some (.inl (g n))
  | zero => some (.inl ⟨0, 0, 0, 0, 0⟩)
  | one => some (.inl ⟨1, 0, 0, 0, 0⟩)
  | nat n => if n = 2 then some (.inl ⟨2, 0, 0, 0, 0⟩) else none
  | add a b =>
    match run g a, run g b with
    | some x, some y => addRes x y
    | _, _ => none
  | sub a b =>
    match run g a, run g b with
    | some x, some y => if a = b then some (.inl ⟨0, 0, 0, 0, 0⟩) else addRes x y
    | _, _ => none
  | mul a b =>
    match run g a, run g b with
    | some x, some y => mulRes x y
    | _, _ => none
  | neg a => run g a

/-- The scales of the first operand, of the second operand, and of lengths. -/
structure Scales where
  A : ℝ
  B : ℝ
  C : ℝ

structure Scales.Ok (s : Scales) : Prop where
  hA : F32.In2 s.A 24 24
  hB : F32.In2 s.B 24 24
  hC : F32.In2 s.C 20 20

/-- The scale of given degrees. -/
noncomputable def Scales.sc (s : Scales) (i j l : ℕ) : ℝ := s.A ^ i * s.B ^ j * s.C ^ l

/-- `x` approximates `E` within the bound `b`. -/
structure Tr (x : F32) (E : ℝ) (s : Scales) (b : Bd) : Prop where
  fin : x.isFinite = true
  mag : |E| ≤ b.p * s.sc b.i b.j b.l
  err : |F32.r x - E| ≤ b.k / 2 ^ 28 * s.sc b.i b.j b.l
  deg : okDeg b.i b.j b.l
  p_le : b.p ≤ 2 ^ 12
  k_le : b.k ≤ 2 ^ 27
  zero : b.p = 0 → b.k = 0

open F32

theorem Scales.Ok.rng {s : Scales} (hs : s.Ok) {i j l : ℕ} (h : okDeg i j l) : In2 (s.sc i j l) 112 112 := by
  have key : ∀ (C : ℝ) (m : ℕ) (_ : In2 C m m) (n : ℕ), In2 (C ^ n) (m * n) (m * n) := by
    intro C m hC n
    refine ⟨?_, ?_⟩
    · have := pow_le_pow_left₀ (by positivity) hC.lo n
      rwa [div_pow, one_pow, ← pow_mul] at this
    · have := pow_le_pow_left₀ hC.pos.le hC.hi n
      rwa [← pow_mul] at this
  unfold okDeg at h
  exact (((key s.A 24 hs.hA i).mul (key s.B 24 hs.hB j)).mul (key s.C 20 hs.hC l)).mono (by omega) (by omega)

theorem Tr.zero_val {x : F32} {E : ℝ} {s : Scales} {b : Bd} (h : Tr x E s b) (h0 : b.p = 0) : E = 0 ∧ r x = 0 := by
  have h1 := h.mag
  have h2 := h.err
  rw [h0] at h1
  rw [h.zero h0] at h2
  simp only [Nat.cast_zero, zero_mul, zero_div] at h1 h2
  have hE := abs_nonpos_iff.1 h1
  have hx := abs_nonpos_iff.1 h2
  exact ⟨hE, by linarith⟩

theorem r_eq_zero {x : F32} (h : r x = 0) : x.val = 0 := by
  unfold r at h; exact_mod_cast h

theorem Tr.neg {x : F32} {E : ℝ} {s : Scales} {b : Bd} (h : Tr x E s b) : Tr (-x) (-E) s b where
  fin := by simpa using h.fin
  mag := by rw [abs_neg]; exact h.mag
  err := by rw [r_neg, show -r x - -E = -(r x - E) by ring, abs_neg]; exact h.err
  deg := h.deg
  p_le := h.p_le
  k_le := h.k_le
  zero := h.zero

theorem Tr.val_le {x : F32} {E : ℝ} {s : Scales} {b : Bd} (h : Tr x E s b) :
    |r x| ≤ (b.p + b.k / 2 ^ 28) * s.sc b.i b.j b.l := by
  have := abs_add_le (r x - E) E
  rw [sub_add_cancel] at this
  linarith [h.mag, h.err]

/-- The common part of sums and differences: `z` is the rounded sum of `x` and `±y`. -/
theorem Tr.sum {x y z : F32} {E E' : ℝ} {s : Scales} {p k q k' i j l : ℕ} (hs : s.Ok)
    (hx : Tr x E s ⟨p, k, i, j, l⟩) (hy : Tr y E' s ⟨q, k', i, j, l⟩)
    (hz : |r x + r y| ≤ 2 ^ 127 → z.isFinite = true ∧ |r z - (r x + r y)| ≤ u * |r x + r y|)
    (hp : p + q ≤ 2 ^ 12) (hk : k + k' ≤ 2 ^ 20) (h0 : p ≠ 0) :
    Tr z (E + E') s ⟨p + q, k + k' + 16 * (p + q) + 1, i, j, l⟩ := by
  have hM := hs.rng hx.deg
  have hM0 := hM.pos
  have e1 := hx.err
  have e2 := hy.err
  have m1 := hx.mag
  have m2 := hy.mag
  have v1 := hx.val_le
  have v2 := hy.val_le
  simp only at e1 e2 m1 m2 v1 v2 hM hM0
  obtain ⟨M, hMd⟩ : ∃ M, s.sc i j l = M := ⟨_, rfl⟩
  rw [hMd] at e1 e2 m1 m2 v1 v2 hM hM0
  have hp' : (p : ℝ) + q ≤ 2 ^ 12 := by exact_mod_cast hp
  have hk' : (k : ℝ) + k' ≤ 2 ^ 20 := by exact_mod_cast hk
  have a1 : |r x + r y| ≤ (p + q + (k + k') / 2 ^ 28) * M := by
    refine (abs_add_le _ _).trans ?_
    refine (add_le_add v1 v2).trans (le_of_eq ?_)
    ring
  have a2 : ((p : ℝ) + q + (k + k') / 2 ^ 28) * M ≤ 2 ^ 127 := by
    have b1 : (p : ℝ) + q + (k + k') / 2 ^ 28 ≤ 2 ^ 13 := by norm_num at hp' hk' ⊢; linarith
    calc _ ≤ (2 : ℝ) ^ 13 * 2 ^ 112 := mul_le_mul b1 hM.hi hM0.le (by positivity)
      _ ≤ 2 ^ 127 := by norm_num
  obtain ⟨hf, he⟩ := hz (a1.trans a2)
  refine ⟨hf, ?_, ?_, hx.deg, hp, ?_, ?_⟩
  · simp only
    rw [hMd]
    push_cast
    refine (abs_add_le _ _).trans ?_
    linarith
  · simp only
    rw [hMd]
    push_cast
    have b1 : |r x + r y - (E + E')| ≤ (k + k') / 2 ^ 28 * M := by
      rw [show r x + r y - (E + E') = (r x - E) + (r y - E') by ring]
      refine (abs_add_le _ _).trans ((add_le_add e1 e2).trans (le_of_eq ?_))
      ring
    have b2 : u * |r x + r y| ≤ (16 * (p + q) + 1) / 2 ^ 28 * M := by
      refine (mul_le_mul_of_nonneg_left a1 u_pos.le).trans ?_
      rw [← mul_assoc]
      refine mul_le_mul_of_nonneg_right ?_ hM0.le
      unfold u
      norm_num at hk' ⊢
      linarith
    have b3 := abs_add_le (r z - (r x + r y)) (r x + r y - (E + E'))
    rw [sub_add_sub_cancel] at b3
    refine b3.trans ((add_le_add (he.trans b2) b1).trans (le_of_eq ?_))
    ring
  · simp only; omega
  · simp only; omega

theorem Tr.congr_val {x z : F32} {E E' : ℝ} {s : Scales} {b : Bd} (h : Tr x E s b) (hz : z.isFinite = true)
    (hv : r z = r x) (hE : E' = E) : Tr z E' s b where
  fin := hz
  mag := hE ▸ h.mag
  err := by rw [hv, hE]; exact h.err
  deg := h.deg
  p_le := h.p_le
  k_le := h.k_le
  zero := h.zero

theorem round_val_r {x : F32} (hx : x.isFinite = true) (z : Bool) :
    (round z x.val).isFinite = true ∧ r (round z x.val) = r x := by
  have hv := round_val hx z
  refine ⟨?_, by unfold r; rw [hv]⟩
  rw [round_isFinite, abs_val]
  have hlt : x.mag.val < infMag := of_decide_eq_true hx
  have h1 : magVal x.mag.val ≤ magVal (infMag - 1) := magVal_strictMono.monotone (by omega)
  have h2 : magVal (infMag - 1) < 2 ^ 128 - 2 ^ 103 := by decide +kernel
  linarith

theorem Tr.add {x y : F32} {E E' : ℝ} {s : Scales} {a b c : Bd} (hs : s.Ok)
    (hx : Tr x E s a) (hy : Tr y E' s b) (h : Bd.add a b = some c) :
    Tr (x + y) (E + E') s c := by
  unfold Bd.add at h
  split_ifs at h with c1 c2 c3
  · obtain ⟨hE, h0⟩ := hx.zero_val c1
    cases h
    have e : x + y = round (x.sign && y.sign) y.val := by
      rw [add_round hx.fin hy.fin, r_eq_zero h0, zero_add]
    have := round_val_r hy.fin (x.sign && y.sign)
    rw [e]
    exact hy.congr_val this.1 this.2 (by rw [hE, zero_add])
  · obtain ⟨hE, h0⟩ := hy.zero_val c2
    cases h
    have e : x + y = round (x.sign && y.sign) x.val := by
      rw [add_round hx.fin hy.fin, r_eq_zero h0, add_zero]
    have := round_val_r hx.fin (x.sign && y.sign)
    rw [e]
    exact hx.congr_val this.1 this.2 (by rw [hE, add_zero])
  · cases h
    obtain ⟨⟨g1, g2, g2'⟩, g3, g4⟩ := c3
    obtain ⟨p, k, i, j, l⟩ := a
    obtain ⟨p', k', i', j', l'⟩ := b
    simp only at g1 g2 g2'
    subst g1 g2 g2'
    exact Tr.sum hs hx hy (fun hb => add_ok hx.fin hy.fin hb) g3 g4 c1

theorem Tr.sub {x y : F32} {E E' : ℝ} {s : Scales} {a b c : Bd} (hs : s.Ok)
    (hx : Tr x E s a) (hy : Tr y E' s b) (h : Bd.add a b = some c) :
    Tr (x - y) (E - E') s c := by
  have hy' := hy.neg
  have hfn : (-y).isFinite = true := hy'.fin
  unfold Bd.add at h
  split_ifs at h with c1 c2 c3
  · obtain ⟨hE, h0⟩ := hx.zero_val c1
    cases h
    have e : x - y = round (x.sign && !y.sign) (-y).val := by
      rw [sub_round hx.fin hy.fin, r_eq_zero h0, zero_sub]; simp
    have := round_val_r hfn (x.sign && !y.sign)
    rw [e]
    exact hy'.congr_val this.1 this.2 (by rw [hE, zero_sub])
  · obtain ⟨hE, h0⟩ := hy.zero_val c2
    cases h
    have e : x - y = round (x.sign && !y.sign) x.val := by
      rw [sub_round hx.fin hy.fin, r_eq_zero h0, sub_zero]
    have := round_val_r hx.fin (x.sign && !y.sign)
    rw [e]
    exact hx.congr_val this.1 this.2 (by rw [hE, sub_zero])
  · cases h
    obtain ⟨⟨g1, g2, g2'⟩, g3, g4⟩ := c3
    obtain ⟨p, k, i, j, l⟩ := a
    obtain ⟨p', k', i', j', l'⟩ := b
    simp only at g1 g2 g2'
    subst g1 g2 g2'
    rw [sub_eq_add_neg E]
    refine Tr.sum hs hx hy' (fun hb => ?_) g3 g4 c1
    rw [r_neg, ← sub_eq_add_neg] at *
    exact sub_ok hx.fin hy.fin hb

theorem Tr.mul {x y : F32} {E E' : ℝ} {s : Scales} {a b c : Bd} (hs : s.Ok)
    (hx : Tr x E s a) (hy : Tr y E' s b) (h : Bd.mul a b = some c) :
    Tr (x * y) (E * E') s c := by
  unfold Bd.mul at h
  split_ifs at h with c1 c2
  · cases h
    have hE : E * E' = 0 ∧ x.val * y.val = 0 := by
      rcases c1 with c1 | c1
      · obtain ⟨hE, h0⟩ := hx.zero_val c1
        rw [hE, r_eq_zero h0]; simp
      · obtain ⟨hE, h0⟩ := hy.zero_val c1
        rw [hE, r_eq_zero h0]; simp
    have e : x * y = round (x.sign != y.sign) 0 := by
      rw [mul_round hx.fin hy.fin, hE.2]
    have hr : r (x * y) = 0 := by rw [e]; unfold r; rw [round_zero_val]; simp
    refine ⟨by rw [e]; exact round_zero_finite _, ?_, ?_, by decide, by simp, by simp, by simp⟩
    · rw [hE.1]; simp
    · rw [hE.1, hr]; simp
  · cases h
    obtain ⟨g2, g3, g4, g5⟩ := c2
    have hM := hs.rng hx.deg
    have hM' := hs.rng hy.deg
    have hMM := hs.rng g2
    have eM : s.sc (a.i + b.i) (a.j + b.j) (a.l + b.l) = s.sc a.i a.j a.l * s.sc b.i b.j b.l := by
      unfold Scales.sc; rw [pow_add, pow_add, pow_add]; ring
    rw [eM] at hMM
    have e1 := hx.err
    have e2 := hy.err
    have m1 := hx.mag
    have m2 := hy.mag
    have v1 := hx.val_le
    have v2 := hy.val_le
    have hM0 := hM.pos
    have hM0' := hM'.pos
    have hP := hMM.pos
    have g3' : (a.p : ℝ) * b.p ≤ 2 ^ 12 := by exact_mod_cast g3
    have g4' : (a.k : ℝ) * b.k ≤ 2 ^ 26 := by exact_mod_cast g4
    have g5' : 16 * ((a.k : ℝ) * b.p + a.p * b.k) ≤ 2 ^ 26 := by exact_mod_cast g5
    obtain ⟨M, hMd⟩ : ∃ M, s.sc a.i a.j a.l = M := ⟨_, rfl⟩
    obtain ⟨N, hNd⟩ : ∃ N, s.sc b.i b.j b.l = N := ⟨_, rfl⟩
    rw [hMd] at e1 m1 v1 hM hM0 hMM hP
    rw [hNd] at e2 m2 v2 hM' hM0' hMM hP
    have k0 : (0 : ℝ) ≤ a.k := by positivity
    have l0 : (0 : ℝ) ≤ b.k := by positivity
    have p0 : (0 : ℝ) ≤ a.p := by positivity
    have q0 : (0 : ℝ) ≤ b.p := by positivity
    have hk : a.k * b.p + a.p * b.k ≤ 2 ^ 22 := by omega
    have gz : a.p * b.p ≠ 0 := fun h0 => (Nat.mul_eq_zero.1 h0).elim (fun h => c1 (Or.inl h)) fun h => c1 (Or.inr h)
    have gz' : (1 : ℝ) ≤ a.p * b.p := by exact_mod_cast Nat.one_le_iff_ne_zero.2 gz
    have a1 : |r x * r y| ≤ (a.p * b.p + (a.k * b.p + a.p * b.k) / 2 ^ 28 + a.k * b.k / 2 ^ 56) * (M * N) := by
      rw [abs_mul]
      refine (mul_le_mul v1 v2 (abs_nonneg _) (by positivity)).trans (le_of_eq ?_)
      ring
    have a2 : (a.p * b.p + (a.k * b.p + a.p * b.k) / 2 ^ 28 + a.k * b.k / 2 ^ 56) * (M * N) ≤ 2 ^ 127 := by
      have b1 : (a.p : ℝ) * b.p + (a.k * b.p + a.p * b.k) / 2 ^ 28 + a.k * b.k / 2 ^ 56 ≤ 2 ^ 13 := by
        norm_num at g3' g4' g5' ⊢; linarith
      calc _ ≤ (2 : ℝ) ^ 13 * 2 ^ 112 := mul_le_mul b1 hMM.hi hP.le (by positivity)
        _ ≤ 2 ^ 127 := by norm_num
    obtain ⟨hf, he⟩ := mul_ok hx.fin hy.fin (a1.trans a2)
    refine ⟨hf, ?_, ?_, g2, g3, ?_, fun h0 => absurd h0 gz⟩
    · simp only
      rw [eM, hMd, hNd, abs_mul]
      push_cast
      refine (mul_le_mul m1 m2 (abs_nonneg _) (by positivity)).trans (le_of_eq ?_)
      ring
    · simp only
      rw [eM, hMd, hNd]
      push_cast
      have b1 : |r x * r y - E * E'| ≤ ((a.k * b.p + a.p * b.k) / 2 ^ 28 + a.k * b.k / 2 ^ 56) * (M * N) := by
        rw [show r x * r y - E * E' = r x * (r y - E') + (r x - E) * E' by ring]
        refine (abs_add_le _ _).trans ?_
        rw [abs_mul, abs_mul]
        refine (add_le_add (mul_le_mul v1 e2 (abs_nonneg _) (by positivity))
          (mul_le_mul e1 m2 (abs_nonneg _) (by positivity))).trans (le_of_eq ?_)
        ring
      have b2 : u * max (1 / 2 ^ 126) |r x * r y| ≤ (16 * (a.p * b.p) + 1 / 2) / 2 ^ 28 * (M * N) := by
        have c1 : max (1 / 2 ^ 126) |r x * r y| ≤
            (a.p * b.p + (a.k * b.p + a.p * b.k) / 2 ^ 28 + a.k * b.k / 2 ^ 56) * (M * N) := by
          refine max_le ?_ a1
          have d1 : (1 : ℝ) / 2 ^ 126 ≤ 1 / 2 ^ 112 :=
            one_div_le_one_div_of_le (by positivity) (pow_le_pow_right₀ (by norm_num) (by norm_num))
          refine d1.trans (hMM.lo.trans (le_mul_of_one_le_left hP.le ?_))
          have : (0 : ℝ) ≤ (a.k * b.p + a.p * b.k) / 2 ^ 28 := by positivity
          have : (0 : ℝ) ≤ a.k * b.k / 2 ^ 56 := by positivity
          linarith
        refine (mul_le_mul_of_nonneg_left c1 u_pos.le).trans ?_
        rw [← mul_assoc]
        refine mul_le_mul_of_nonneg_right ?_ hP.le
        unfold u
        norm_num at g4' g5' ⊢
        linarith
      have b3 := abs_add_le (r (x * y) - r x * r y) (r x * r y - E * E')
      rw [sub_add_sub_cancel] at b3
      refine b3.trans ((add_le_add (he.trans b2) b1).trans ?_)
      rw [← add_mul]
      refine mul_le_mul_of_nonneg_right ?_ hP.le
      norm_num at g4' ⊢
      linarith
    · simp only; omega

/-- What `run` claims. -/
def Claim (x : F32) (E : ℝ) (s : Scales) : Bd ⊕ ℕ → Prop
  | .inl b => Tr x E s b
  | .inr n => x.isFinite = true ∧ |r x| ≤ 2 ^ n ∧ 126 ≤ n ∧ n ≤ 127

theorem Tr.size {x : F32} {E : ℝ} {s : Scales} {b : Bd} (hs : s.Ok) (h : Tr x E s b) : |r x| ≤ 1.1 * 2 ^ 124 := by
  have hM := hs.rng h.deg
  have hp : (b.p : ℝ) ≤ 4096 := (Nat.cast_le.2 h.p_le).trans (by norm_num)
  have hk : (b.k : ℝ) ≤ 134217728 := (Nat.cast_le.2 h.k_le).trans (by norm_num)
  refine h.val_le.trans ?_
  have b1 : (b.p : ℝ) + b.k / 2 ^ 28 ≤ 1.1 * 2 ^ 12 := by norm_num; linarith
  calc _ ≤ ((1.1 : ℝ) * 2 ^ 12) * 2 ^ 112 := mul_le_mul b1 hM.hi hM.pos.le (by positivity)
    _ = 1.1 * 2 ^ 124 := by norm_num

theorem Tr.of_zero {x : F32} {s : Scales} (hf : x.isFinite = true) (hx : r x = 0) : Tr x 0 s ⟨0, 0, 0, 0, 0⟩ :=
  ⟨hf, by simp, by simp [hx], by decide, by simp, by simp, by simp⟩

/-- A rounded sum of finite numbers. -/
theorem crude_add {x y : F32} {P Q : ℝ} {k : ℕ} (hx : x.isFinite = true) (hy : y.isFinite = true) (h1 : |r x| ≤ P)
    (h2 : |r y| ≤ Q) (hk : P + Q ≤ (1 - u) * 2 ^ k) (hk' : k ≤ 127) :
    ((x + y).isFinite = true ∧ |r (x + y)| ≤ 2 ^ k) ∧ (x - y).isFinite = true ∧ |r (x - y)| ≤ 2 ^ k := by
  have hu := u_le
  have hu0 := u_pos
  have hK : (0 : ℝ) < 2 ^ k := by positivity
  have hK' : (2 : ℝ) ^ k ≤ 2 ^ 127 := pow_le_pow_right₀ (by norm_num) hk'
  have a1 : |r x + r y| ≤ (1 - u) * 2 ^ k := (abs_add_le _ _).trans ((add_le_add h1 h2).trans hk)
  have a2 : |r x - r y| ≤ (1 - u) * 2 ^ k := (abs_sub _ _).trans ((add_le_add h1 h2).trans hk)
  have a3 : (1 - u) * (2 : ℝ) ^ k ≤ 2 ^ k := by nlinarith
  have key : ∀ (z : F32) (e : ℝ), |e| ≤ (1 - u) * 2 ^ k → |r z - e| ≤ u * |e| → |r z| ≤ 2 ^ k := by
    intro z e he hz
    have := abs_add_le (r z - e) e
    rw [sub_add_cancel] at this
    have : u * |e| ≤ u * 2 ^ k := mul_le_mul_of_nonneg_left (he.trans a3) hu0.le
    linarith
  obtain ⟨f1, e1⟩ := add_ok hx hy (a1.trans (a3.trans hK'))
  obtain ⟨f2, e2⟩ := sub_ok hx hy (a2.trans (a3.trans hK'))
  exact ⟨⟨f1, key _ _ a1 e1⟩, f2, key _ _ a2 e2⟩

theorem Claim.add {x y : F32} {E E' : ℝ} {s : Scales} {a b c : Bd ⊕ ℕ} (hs : s.Ok) (hx : Claim x E s a)
    (hy : Claim y E' s b) (h : addRes a b = some c) :
    Claim (x + y) (E + E') s c ∧ Claim (x - y) (E - E') s c := by
  have hu := u_le
  have n1 : (1.1 : ℝ) * 2 ^ 124 + 1.1 * 2 ^ 124 ≤ (1 - u) * 2 ^ 126 := by
    norm_num at hu ⊢; linarith
  have n2 : (1.1 : ℝ) * 2 ^ 124 + 2 ^ 126 ≤ (1 - u) * 2 ^ 127 := by
    norm_num at hu ⊢; linarith
  cases a with
  | inl a =>
    cases b with
    | inl b =>
      simp only [addRes] at h
      split at h
      · rename_i d hd
        cases h
        exact ⟨Tr.add hs hx hy hd, Tr.sub hs hx hy hd⟩
      · cases h
        have := crude_add hx.fin hy.fin (hx.size hs) (hy.size hs) n1 (by norm_num)
        exact ⟨⟨this.1.1, this.1.2, le_rfl, by norm_num⟩, this.2.1, this.2.2, le_rfl, by norm_num⟩
    | inr n =>
      simp only [addRes] at h
      split_ifs at h with hn
      cases h
      subst hn
      have := crude_add hx.fin hy.1 (hx.size hs) hy.2.1 n2 (by norm_num)
      exact ⟨⟨this.1.1, this.1.2, by norm_num, le_rfl⟩, this.2.1, this.2.2, by norm_num, le_rfl⟩
  | inr n =>
    cases b with
    | inl b =>
      simp only [addRes] at h
      split_ifs at h with hn
      cases h
      subst hn
      have := crude_add hx.1 hy.fin hx.2.1 (hy.size hs) (by rw [add_comm]; exact n2) (by norm_num)
      exact ⟨⟨this.1.1, this.1.2, by norm_num, le_rfl⟩, this.2.1, this.2.2, by norm_num, le_rfl⟩
    | inr m => cases h

theorem mul_zero_val {x y : F32} (hx : x.isFinite = true) (hy : y.isFinite = true) (h : r x = 0 ∨ r y = 0) :
    (x * y).isFinite = true ∧ r (x * y) = 0 := by
  have e : x * y = round (x.sign != y.sign) 0 := by
    rw [mul_round hx hy]
    rcases h with h | h <;> rw [r_eq_zero h] <;> simp
  refine ⟨by rw [e]; exact round_zero_finite _, ?_⟩
  rw [e]; unfold r; rw [round_zero_val]; simp

theorem Claim.fin {x : F32} {E : ℝ} {s : Scales} {a : Bd ⊕ ℕ} (h : Claim x E s a) : x.isFinite = true := by
  cases a with
  | inl a => exact Tr.fin h
  | inr n => exact h.1

theorem Claim.mul {x y : F32} {E E' : ℝ} {s : Scales} {a b c : Bd ⊕ ℕ} (hs : s.Ok) (hx : Claim x E s a)
    (hy : Claim y E' s b) (h : mulRes a b = some c) : Claim (x * y) (E * E') s c := by
  cases a with
  | inl a =>
    cases b with
    | inl b =>
      simp only [mulRes, Option.map_eq_some_iff] at h
      obtain ⟨d, hd, rfl⟩ := h
      exact Tr.mul hs hx hy hd
    | inr n =>
      simp only [mulRes] at h
      split_ifs at h with hn
      cases h
      obtain ⟨h1, h2⟩ := Tr.zero_val hx hn
      obtain ⟨h3, h4⟩ := mul_zero_val hx.fin hy.fin (Or.inl h2)
      rw [h1, zero_mul]
      exact Tr.of_zero h3 h4
  | inr n =>
    cases b with
    | inl b =>
      simp only [mulRes] at h
      split_ifs at h with hn
      cases h
      obtain ⟨h1, h2⟩ := Tr.zero_val hy hn
      obtain ⟨h3, h4⟩ := mul_zero_val hx.fin hy.fin (Or.inr h2)
      rw [h1, mul_zero]
      exact Tr.of_zero h3 h4
    | inr m => cases h

theorem sub_self_val {x : F32} (hx : x.isFinite = true) : (x - x).isFinite = true ∧ r (x - x) = 0 := by
  have e : x - x = round (x.sign && !x.sign) 0 := by rw [sub_round hx hx, sub_self]
  refine ⟨by rw [e]; exact round_zero_finite _, ?_⟩
  rw [e]; unfold r; rw [round_zero_val]; simp

theorem Claim.neg {x : F32} {E : ℝ} {s : Scales} {a : Bd ⊕ ℕ} (h : Claim x E s a) : Claim (-x) (-E) s a := by
  cases a with
  | inl a => exact Tr.neg h
  | inr n => exact ⟨by simpa using h.1, by rw [r_neg, abs_neg]; exact h.2.1, h.2.2⟩

/-- Correctness of `run`: if the lanes `f` approximate the numbers `E` within the bounds `g`, the
expression in the lanes approximates the expression in the numbers within the bound found. -/
theorem sound {e : Ex} {b : Bd ⊕ ℕ} {s : Scales} (hs : s.Ok) {g : ℕ → Bd} {f : ℕ → F32} {E : ℕ → ℝ}
    (hf : ∀ n, Tr (f n) (E n) s (g n)) (h : run g e = some b) : Claim (eval f e) (eval E e) s b := by
  induction e generalizing b with
  | v n =>
    cases h
    exact hf n
  | zero =>
    cases h
    exact Tr.of_zero (by decide +kernel : (0 : F32).isFinite = true) r_zero
  | one =>
    cases h
    exact ⟨(by decide +kernel : (1 : F32).isFinite = true), by simp [eval, Scales.sc], by simp [eval, r_one], by decide, by simp, by simp, by simp⟩
  | nat n =>
    simp only [run] at h
    split_ifs at h with hn
    subst hn
    cases h
    have e2 : eval f (nat 2) = (2 : F32) := rfl
    rw [e2]
    exact ⟨by decide +kernel, by simp [eval, Scales.sc], by simp [eval, r_two], by decide, by simp, by simp, by simp⟩
  | add a b iha ihb =>
    simp only [run] at h
    split at h
    · rename_i ha hb
      exact (Claim.add hs (iha ha) (ihb hb) h).1
    · cases h
  | sub a b iha ihb =>
    simp only [run] at h
    split at h
    · rename_i ha hb
      split_ifs at h with hab
      · cases h
        subst hab
        have h1 := sub_self_val (iha ha).fin
        show Tr (eval f a - eval f a) (eval E a - eval E a) s _
        rw [sub_self]
        exact Tr.of_zero h1.1 h1.2
      · exact (Claim.add hs (iha ha) (ihb hb) h).2
    · cases h
  | mul a b iha ihb =>
    simp only [run] at h
    split at h
    · rename_i ha hb
      exact Claim.mul hs (iha ha) (ihb hb) h
    · cases h
  | neg a iha => exact (iha h).neg

end Ex
end Klein
