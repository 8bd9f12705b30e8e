import Verif.Float.Fma
import Verif.Float.Approx

/-!
# Lanes compiled with contraction

`Fl ω` is a lane type on which the whole model runs.  A lane carries its binary32 value, the factors if it
is a product, and the expression it was computed by.  At every sum and difference the compiler `ω` decides,
for each expression separately, whether to fuse an operand that is a product (`Verif/Float/Fma.lean`).
Estimates (`rcpps`, `rsqrtps`), quotients and constants are never fused into products.  In contrast to `Ex.Can`
all uses of one expression have the same value, which the Newton steps rely on.
-/

namespace Klein

open F32

/-- Expressions, to tell places of the code apart. -/
inductive Term
  | input (n : ℕ)
  | const (n : ℕ)
  | un (op : ℕ) (a : Term)
  | bin (op : ℕ) (a b : Term)

/-- What to fuse at a sum: nothing, the left operand or the right operand. -/
inductive Choice
  | plain
  | left
  | right

/-- A compiler decides for every sum and difference. -/
abbrev Compiler := Term → Choice

/-- A lane: its value, the factors if it is a product (the flag negates it), and its expression. -/
structure Fl (ω : Compiler) where
  val : F32
  prod : Option (F32 × F32 × Bool)
  src : Term

namespace Fl

variable {ω : Compiler}

/-- The `n`-th input. -/
def input (n : ℕ) (x : F32) : Fl ω := ⟨x, none, .input n⟩

/-- The value of a sum. -/
def addVal (c : Choice) (A B : Fl ω) : F32 :=
  match c, A.prod, B.prod with
  | .left, some (x, y, s), _ => fma (sg s x) y B.val
  | .right, _, some (x, y, s) => fma (sg s x) y A.val
  | _, _, _ => A.val + B.val

/-- The value of a difference. -/
def subVal (c : Choice) (A B : Fl ω) : F32 :=
  match c, A.prod, B.prod with
  | .left, some (x, y, s), _ => fma (sg s x) y (-B.val)
  | .right, _, some (x, y, s) => fma (sg (!s) x) y A.val
  | _, _, _ => A.val - B.val

instance : Zero (Fl ω) := ⟨⟨0, none, .const 0⟩⟩
instance : One (Fl ω) := ⟨⟨1, none, .const 1⟩⟩
instance : NatCast (Fl ω) := ⟨fun n => ⟨n, none, .const n⟩⟩
instance : Add (Fl ω) := ⟨fun A B => ⟨addVal (ω (.bin 0 A.src B.src)) A B, none, .bin 0 A.src B.src⟩⟩
instance : Sub (Fl ω) := ⟨fun A B => ⟨subVal (ω (.bin 1 A.src B.src)) A B, none, .bin 1 A.src B.src⟩⟩
instance : Mul (Fl ω) := ⟨fun A B => ⟨A.val * B.val, some (A.val, B.val, false), .bin 2 A.src B.src⟩⟩
instance : Div (Fl ω) := ⟨fun A B => ⟨A.val / B.val, none, .bin 3 A.src B.src⟩⟩
instance : Neg (Fl ω) := ⟨fun A => ⟨-A.val, A.prod.map fun p => (p.1, p.2.1, !p.2.2), .un 0 A.src⟩⟩

theorem add_val (A B : Fl ω) : (A + B).val = addVal (ω (.bin 0 A.src B.src)) A B := rfl
theorem sub_val (A B : Fl ω) : (A - B).val = subVal (ω (.bin 1 A.src B.src)) A B := rfl

theorem add_cases (A B : Fl ω) : (A + B).val = A.val + B.val ∨
    (∃ x y s, A.prod = some (x, y, s) ∧ (A + B).val = fma (sg s x) y B.val) ∨
    (∃ x y s, B.prod = some (x, y, s) ∧ (A + B).val = fma (sg s x) y A.val) := by
  rw [add_val]
  generalize ω (.bin 0 A.src B.src) = c
  rcases A with ⟨a, _ | ⟨x, y, s⟩, ta⟩ <;> rcases B with ⟨b, _ | ⟨x', y', s'⟩, tb⟩ <;> cases c <;>
    first
      | exact .inl rfl
      | exact .inr (.inl ⟨_, _, _, rfl, rfl⟩)
      | exact .inr (.inr ⟨_, _, _, rfl, rfl⟩)

theorem sub_cases (A B : Fl ω) : (A - B).val = A.val - B.val ∨
    (∃ x y s, A.prod = some (x, y, s) ∧ (A - B).val = fma (sg s x) y (-B.val)) ∨
    (∃ x y s, B.prod = some (x, y, s) ∧ (A - B).val = fma (sg (!s) x) y A.val) := by
  rw [sub_val]
  generalize ω (.bin 1 A.src B.src) = c
  rcases A with ⟨a, _ | ⟨x, y, s⟩, ta⟩ <;> rcases B with ⟨b, _ | ⟨x', y', s'⟩, tb⟩ <;> cases c <;>
    first
      | exact .inl rfl
      | exact .inr (.inl ⟨_, _, _, rfl, rfl⟩)
      | exact .inr (.inr ⟨_, _, _, rfl, rfl⟩)

end Fl

/-- The estimates, lane by lane. -/
def Hw.fl (hw : Hw F32) (ω : Compiler) : Hw (Fl ω) :=
  ⟨fun A => ⟨hw.rcp A.val, none, .un 1 A.src⟩, fun A => ⟨hw.rsqrt A.val, none, .un 2 A.src⟩⟩

/-- Four inputs, numbered from `n`. -/
def V4.fl (ω : Compiler) (n : ℕ) (v : V4 F32) : V4 (Fl ω) :=
  ⟨.input n v.l0, .input (n + 1) v.l1, .input (n + 2) v.l2, .input (n + 3) v.l3⟩

namespace F32

theorem fin_sg (s : Bool) {x : F32} (h : x.isFinite = true) : (sg s x).isFinite = true := by
  cases s
  · exact h
  · simpa [sg] using h

theorem r_sg_not (s : Bool) (x : F32) : r (sg (!s) x) = -r (sg s x) := by
  cases s <;> simp [sg, r_neg]

/-- A fused multiply-add that does not overflow. -/
theorem fma_ok {x y z : F32} (hx : x.isFinite = true) (hy : y.isFinite = true) (hz : z.isFinite = true)
    (h : |r x * r y + r z| ≤ 2 ^ 127) :
    (fma x y z).isFinite = true ∧ |r (fma x y z) - (r x * r y + r z)| ≤ u * max (1 / 2 ^ 126) |r x * r y + r z| := by
  have e : ((x.val * y.val + z.val : ℚ) : ℝ) = r x * r y + r z := by unfold r; push_cast; rfl
  rw [fma_round hx hy hz, ← e]
  exact rnd_ok _ (by rw [e]; exact h)

end F32

/-- `Ap` for contracted lanes: the factors of a product satisfy the bound without rounding. -/
structure ApF {ω : Compiler} (A : Fl ω) (E M k : ℝ) (m n : ℕ) : Prop where
  val : Ap A.val E M k m n
  prod : ∀ x y s, A.prod = some (x, y, s) → x.isFinite = true ∧ y.isFinite = true ∧ |r (sg s x) * r y - E| ≤ k * M

namespace ApF

variable {ω : Compiler} {A B : Fl ω} {E E' M M' M'' k k' k'' K : ℝ} {m n m' n' m'' n'' : ℕ}

theorem of_none (h : Ap A.val E M k m n) (hp : A.prod = none) : ApF A E M k m n :=
  ⟨h, fun x y s he => by rw [hp] at he; cases he⟩

theorem le (h : ApF A E M k m n) (hE : E = E') (hM : M ≤ M') (hk0 : 0 ≤ k) (hk : k ≤ k') (hr : In2 M' m' n') :
    ApF A E' M' k' m' n' :=
  ⟨h.val.le hE hM hk0 hk hr, fun x y s he => by
    obtain ⟨h1, h2, h3⟩ := h.prod x y s he
    exact ⟨h1, h2, hE ▸ h3.trans (mul_le_mul hk hM h.val.rng.pos.le (hk0.trans hk))⟩⟩

theorem eq (h : ApF A E M k m n) (hE : E = E') (hM : M = M') : ApF A E' M' k m n := hE ▸ hM ▸ h

theorem neg (h : ApF A E M k m n) : ApF (-A) (-E) M k m n := by
  refine ⟨h.val.neg, fun x y s he => ?_⟩
  obtain ⟨⟨a, b, c⟩, hp, e⟩ := Option.map_eq_some_iff.1 (show A.prod.map (fun p => (p.1, p.2.1, !p.2.2)) = some (x, y, s) from he)
  cases e
  obtain ⟨h1, h2, h3⟩ := h.prod _ _ _ hp
  refine ⟨h1, h2, ?_⟩
  show |r (sg (!c) a) * r b - -E| ≤ k * M
  rw [r_sg_not, show -r (sg c a) * r b - -E = -(r (sg c a) * r b - E) by ring, abs_neg]
  exact h3

theorem mulR (hx : Ap A.val E M k m n) (hy : Ap B.val E' M' k' m' n') (hM'' : M * M' = M'') (hr : In2 M'' m'' n'')
    (hk : 0 ≤ k ∧ k ≤ 1) (hk' : 0 ≤ k' ∧ k' ≤ 1) (hm : m'' ≤ 126) (hn : n'' ≤ 125)
    (hk'' : (1 + k) * (1 + k') * (1 + u) - 1 ≤ k'') : ApF (A * B) (E * E') M'' k'' m'' n'' := by
  refine ⟨hx.mulR hy hM'' hr hk hk' hm hn hk'', fun x y s he => ?_⟩
  cases he
  refine ⟨hx.fin, hy.fin, ?_⟩
  show |r A.val * r B.val - E * E'| ≤ _
  have hP := hr.pos
  subst hM''
  have hM := hx.rng.pos
  have e : r A.val * r B.val - E * E' = r A.val * (r B.val - E') + E' * (r A.val - E) := by ring
  have b1 := mul_le_mul hx.val_le hy.err (abs_nonneg _) (mul_nonneg (by linarith [hk.1]) hM.le)
  have b2 := mul_le_mul hy.mag hx.err (abs_nonneg _) hy.rng.pos.le
  have h5 : 0 ≤ (1 + k) * (1 + k') * u := mul_nonneg (mul_nonneg (by linarith [hk.1]) (by linarith [hk'.1])) u_pos.le
  have h9 := mul_le_mul_of_nonneg_right (show (1 + k) * (1 + k') - 1 ≤ k'' by linarith) hP.le
  rw [e]
  refine (abs_add_le _ _).trans ?_
  rw [abs_mul, abs_mul]
  linarith

theorem mul (hx : Ap A.val E M k m n) (hy : Ap B.val E' M' k' m' n') (hk : 0 ≤ k ∧ k ≤ 1) (hk' : 0 ≤ k' ∧ k' ≤ 1) (hm : m + m' ≤ 126)
    (hn : n + n' ≤ 125) (hk'' : (1 + k) * (1 + k') * (1 + u) - 1 ≤ k'') : ApF (A * B) (E * E') (M * M') k'' (m + m') (n + n') :=
  mulR hx hy rfl (hx.rng.mul hy.rng) hk hk' hm hn hk''

/-- A product and a summand, fused. -/
theorem fused {x y z : F32} (hx : x.isFinite = true) (hy : y.isFinite = true) (hz : z.isFinite = true) (h : |r x * r y - E| ≤ k * M)
    (hE : |E| ≤ M) (h' : |r z - E'| ≤ k' * M') (hE' : |E'| ≤ M') (hM : In2 M m n) (hM' : In2 M' m' n') (hk : k ≤ K) (hk' : k' ≤ K)
    (hK0 : 0 ≤ K) (hK : K ≤ 1) (hm : m ≤ 126) (hn : max n n' ≤ 125) (hk'' : (1 + K) * (1 + u) - 1 ≤ k'') :
    Ap (fma x y z) (E + E') (M + M') k'' m (max n n' + 1) := by
  have hr := hM.add hM'
  have h0 := hr.pos
  have h1 : |r x * r y + r z - (E + E')| ≤ K * (M + M') := by
    have := abs_add_le (r x * r y - E) (r z - E')
    rw [show r x * r y - E + (r z - E') = r x * r y + r z - (E + E') by ring] at this
    have a := mul_le_mul_of_nonneg_right hk hM.pos.le
    have b := mul_le_mul_of_nonneg_right hk' hM'.pos.le
    linarith
  have h2 : |r x * r y + r z| ≤ (1 + K) * (M + M') := by
    have := abs_add_le (r x * r y + r z - (E + E')) (E + E')
    rw [sub_add_cancel] at this
    have := abs_add_le E E'
    linarith
  have h3 : (1 + K) * (M + M') ≤ 2 ^ 127 := by
    have c := hr.hi.trans (pow_le_pow_right₀ (by norm_num : (1 : ℝ) ≤ 2) (show max n n' + 1 ≤ 126 by omega))
    have d := mul_le_mul_of_nonneg_right (show 1 + K ≤ 2 by linarith) h0.le
    rw [show (2 : ℝ) ^ 127 = 2 * 2 ^ 126 by norm_num]
    linarith
  have h4 : 1 / 2 ^ 126 ≤ (1 + K) * (M + M') := by
    have a := le_trans (one_div_le_one_div_of_le (by positivity) (pow_le_pow_right₀ (by norm_num : (1 : ℝ) ≤ 2) hm)) hr.lo
    have b := mul_le_mul_of_nonneg_right (show 1 ≤ 1 + K by linarith) h0.le
    linarith
  obtain ⟨hf, he⟩ := fma_ok hx hy hz (h2.trans h3)
  refine ⟨hf, (abs_add_le _ _).trans (add_le_add hE hE'), ?_, hr⟩
  have h5 := he.trans (mul_le_mul_of_nonneg_left (max_le h4 h2) u_pos.le)
  have h6 := abs_add_le (r (fma x y z) - (r x * r y + r z)) (r x * r y + r z - (E + E'))
  rw [sub_add_sub_cancel] at h6
  have h7 := mul_le_mul_of_nonneg_right hk'' h0.le
  linarith

theorem add (hx : ApF A E M k m n) (hy : ApF B E' M' k' m' n') (hk : k ≤ K) (hk' : k' ≤ K) (hK0 : 0 ≤ K) (hK : K ≤ 1) (hm : m ≤ 126) (hm' : m' ≤ 126)
    (hn : max n n' ≤ 125) (hk'' : (1 + K) * (1 + u) - 1 ≤ k'') : ApF (A + B) (E + E') (M + M') k'' m (max n n' + 1) := by
  refine of_none ?_ rfl
  rcases Fl.add_cases A B with h | ⟨x, y, s, hp, h⟩ | ⟨x, y, s, hp, h⟩
  · rw [h]; exact hx.val.add hy.val hk hk' hK hn hk''
  · obtain ⟨h1, h2, h3⟩ := hx.prod x y s hp
    rw [h]
    exact fused (fin_sg s h1) h2 hy.val.fin h3 hx.val.mag hy.val.err hy.val.mag hx.val.rng hy.val.rng hk hk' hK0 hK hm hn hk''
  · obtain ⟨h1, h2, h3⟩ := hy.prod x y s hp
    rw [h]
    have t := fused (fin_sg s h1) h2 hx.val.fin h3 hy.val.mag hx.val.err hx.val.mag hy.val.rng hx.val.rng hk' hk hK0 hK hm'
      (by rwa [max_comm]) hk''
    exact t.le (add_comm _ _) (add_comm _ _).le (by have := mul_nonneg hK0 u_pos.le; linarith [u_pos]) le_rfl (hx.val.rng.add hy.val.rng)

theorem sub (hx : ApF A E M k m n) (hy : ApF B E' M' k' m' n') (hk : k ≤ K) (hk' : k' ≤ K) (hK0 : 0 ≤ K) (hK : K ≤ 1) (hm : m ≤ 126) (hm' : m' ≤ 126)
    (hn : max n n' ≤ 125) (hk'' : (1 + K) * (1 + u) - 1 ≤ k'') : ApF (A - B) (E - E') (M + M') k'' m (max n n' + 1) := by
  refine of_none ?_ rfl
  rcases Fl.sub_cases A B with h | ⟨x, y, s, hp, h⟩ | ⟨x, y, s, hp, h⟩
  · rw [h]; exact hx.val.sub hy.val hk hk' hK hn hk''
  · obtain ⟨h1, h2, h3⟩ := hx.prod x y s hp
    have hy' := hy.val.neg
    rw [h, sub_eq_add_neg]
    exact fused (fin_sg s h1) h2 hy'.fin h3 hx.val.mag hy'.err hy'.mag hx.val.rng hy.val.rng hk hk' hK0 hK hm hn hk''
  · obtain ⟨h1, h2, h3⟩ := hy.prod x y s hp
    rw [h]
    have t := fused (x := sg (!s) x) (E := -E') (fin_sg (!s) h1) h2 hx.val.fin
      (by rw [r_sg_not, show -r (sg s x) * r y - -E' = -(r (sg s x) * r y - E') by ring, abs_neg]; exact h3)
      (by rw [abs_neg]; exact hy.val.mag) hx.val.err hx.val.mag hy.val.rng hx.val.rng hk' hk hK0 hK hm' (by rwa [max_comm]) hk''
    exact t.le (by ring) (add_comm _ _).le (by have := mul_nonneg hK0 u_pos.le; linarith [u_pos]) le_rfl (hx.val.rng.add hy.val.rng)

/-- A product of inputs; the scale includes the smallest normal number. -/
theorem leaf (A B : Fl ω) (ha : A.val.isFinite = true) (hb : B.val.isFinite = true) (ha' : |r A.val| ≤ 2 ^ 32) (hb' : |r B.val| ≤ 2 ^ 32) :
    ApF (A * B) (r A.val * r B.val) (|r A.val * r B.val| + 1 / 2 ^ 126) u 126 65 := by
  have h1 : |r A.val * r B.val| ≤ 2 ^ 64 := by
    rw [abs_mul]
    exact (mul_le_mul ha' hb' (abs_nonneg _) (by positivity)).trans (by norm_num)
  obtain ⟨hf, he⟩ := mul_ok ha hb (h1.trans (by norm_num))
  have h0 := abs_nonneg (r A.val * r B.val)
  have ht : (0 : ℝ) < 1 / 2 ^ 126 := by positivity
  refine ⟨⟨hf, by linarith, he.trans (mul_le_mul_of_nonneg_left (max_le (by linarith) (by linarith)) u_pos.le),
    ⟨by linarith, by norm_num at h1 ⊢; linarith⟩⟩, fun x y s h => ?_⟩
  cases h
  refine ⟨ha, hb, ?_⟩
  show |r A.val * r B.val - r A.val * r B.val| ≤ _
  rw [sub_self, abs_zero]
  exact mul_nonneg u_pos.le (by linarith)

/-- Adding zero. -/
theorem zero_add' (hx : ApF A E M k m n) (hk0 : 0 ≤ k) (hk1 : k ≤ 1) (hm : m ≤ 126) (hn : n ≤ 126) (hk'' : (1 + k) * (1 + u) - 1 ≤ k'') :
    ApF (0 + A) E M k'' m n := by
  have hM := hx.val.rng
  have h0 := hM.pos
  have hlo : 1 / 2 ^ 126 ≤ M :=
    le_trans (one_div_le_one_div_of_le (by positivity) (pow_le_pow_right₀ (by norm_num : (1 : ℝ) ≤ 2) hm)) hM.lo
  have hhi : (1 + k) * M ≤ 2 ^ 127 := by
    have c := hM.hi.trans (pow_le_pow_right₀ (by norm_num : (1 : ℝ) ≤ 2) hn)
    have d := mul_le_mul_of_nonneg_right (show 1 + k ≤ 2 by linarith) h0.le
    rw [show (2 : ℝ) ^ 127 = 2 * 2 ^ 126 by norm_num]
    linarith
  have hM1 : M ≤ (1 + k) * M := by have := mul_nonneg hk0 h0.le; linarith
  have h7 := mul_le_mul_of_nonneg_right hk'' h0.le
  have z : r (0 : Fl ω).val = 0 := r_zero
  have core : ∀ {v p : ℝ}, |p - E| ≤ k * M → |v - p| ≤ u * max (1 / 2 ^ 126) |p| → |v - E| ≤ k'' * M := by
    intro v p hp hv
    have h2 := abs_add_le (p - E) E
    rw [sub_add_cancel] at h2
    have h3 : |p| ≤ (1 + k) * M := by linarith [hx.val.mag]
    have h5 := hv.trans (mul_le_mul_of_nonneg_left (max_le (hlo.trans hM1) h3) u_pos.le)
    have h6 := abs_add_le (v - p) (p - E)
    rw [sub_add_sub_cancel] at h6
    linarith
  refine of_none ?_ rfl
  rcases Fl.add_cases 0 A with h | ⟨x, y, s, hp, h⟩ | ⟨x, y, s, hp, h⟩
  · obtain ⟨hf, he⟩ := add_ok (x := (0 : Fl ω).val) (y := A.val) (show (0 : F32).isFinite = true by decide +kernel) hx.val.fin
      (by rw [z, zero_add]; exact hx.val.val_le.trans hhi)
    rw [z, zero_add] at he
    rw [h]
    exact ⟨hf, hx.val.mag, core hx.val.err (he.trans (mul_le_mul_of_nonneg_left (le_max_right _ _) u_pos.le)), hM⟩
  · cases hp
  · obtain ⟨h1, h2, h3⟩ := hx.prod x y s hp
    have h4 : |r (sg s x) * r y| ≤ (1 + k) * M := by
      have := abs_add_le (r (sg s x) * r y - E) E
      rw [sub_add_cancel] at this
      linarith [hx.val.mag]
    obtain ⟨hf, he⟩ := fma_ok (z := (0 : Fl ω).val) (fin_sg s h1) h2 (show (0 : F32).isFinite = true by decide +kernel) (by rw [z, add_zero]; exact h4.trans hhi)
    rw [z, add_zero] at he
    rw [h]
    exact ⟨hf, hx.val.mag, core h3 he, hM⟩

end ApF

/-! ### the Newton steps -/

private theorem rcp_alg {δ e1 e2 e3 : ℝ} (hδ : |δ| ≤ 3 / 2 ^ 13) (h1 : |e1| ≤ u) (h2 : |e2| ≤ u)
    (h3 : |e3| ≤ u) : |(1 + δ) * ((2 - (1 + δ) * (1 + e1)) * (1 + e2)) * (1 + e3) - 1| ≤ 3.2e-7 := by
  unfold u at *
  norm_num at *
  rw [abs_le] at *
  obtain ⟨g, hg⟩ : ∃ g, g = (1 + e2) * (1 + e3) - 1 := ⟨_, rfl⟩
  have hg1 : |g| ≤ 1.1921e-7 * 1.0001 := by
    rw [hg, abs_le]; constructor <;> nlinarith
  obtain ⟨m, hm⟩ : ∃ m, m = -δ ^ 2 - (1 + δ) ^ 2 * e1 := ⟨_, rfl⟩
  have hd2 : δ ^ 2 ≤ 1.3412e-7 := by nlinarith
  have hs : (1 + δ) ^ 2 ≤ 1.0008 := by nlinarith
  have hs0 : 0 ≤ (1 + δ) ^ 2 := sq_nonneg _
  have hm1 : |m| ≤ 1.9380e-7 := by
    rw [hm, abs_le]; constructor <;> nlinarith [sq_nonneg δ]
  have e : (1 + δ) * ((2 - (1 + δ) * (1 + e1)) * (1 + e2)) * (1 + e3) - 1 = m + g + m * g := by
    rw [hm, hg]; ring
  have hmg : |m * g| ≤ 1e-12 := by
    rw [abs_mul]
    calc |m| * |g| ≤ 1.9380e-7 * (1.1921e-7 * 1.0001) := mul_le_mul hm1 hg1 (abs_nonneg _) (by norm_num)
      _ ≤ 1e-12 := by norm_num
  rw [e]
  rw [abs_le] at hm1 hg1 hmg
  constructor <;> linarith

private theorem rsqrt_alg {δ e1 e2 e3 e4 e5 : ℝ} (hδ : |δ| ≤ 3 / 2 ^ 13) (h1 : |e1| ≤ u) (h2 : |e2| ≤ u)
    (h3 : |e3| ≤ u) (h4 : |e4| ≤ u) (h5 : |e5| ≤ u) :
    |1 / 2 * (1 + δ) * (1 + e4) * ((3 - (1 + δ) ^ 2 * (1 + e1) * (1 + e2)) * (1 + e3)) * (1 + e5) - 1| ≤ 4.6e-7 := by
  unfold u at *
  norm_num at *
  rw [abs_le] at *
  obtain ⟨w, hw⟩ : ∃ w, w = (1 + e1) * (1 + e2) - 1 := ⟨_, rfl⟩
  have hw1 : |w| ≤ 1.1922e-7 := by rw [hw, abs_le]; constructor <;> nlinarith
  obtain ⟨g0, hg0⟩ : ∃ g, g = (1 + e3) * (1 + e4) - 1 := ⟨_, rfl⟩
  have hg01 : |g0| ≤ 1.1922e-7 := by rw [hg0, abs_le]; constructor <;> nlinarith
  obtain ⟨g, hg⟩ : ∃ g, g = (1 + g0) * (1 + e5) - 1 := ⟨_, rfl⟩
  have hg1 : |g| ≤ 1.789e-7 := by
    rw [abs_le] at hg01
    rw [hg, abs_le]; constructor <;> nlinarith
  have hd2 : δ ^ 2 ≤ 1.3412e-7 := by nlinarith
  have hd0 : 0 ≤ δ ^ 2 := sq_nonneg _
  have hd3 : |δ ^ 3| ≤ 5e-11 := by
    rw [abs_le]; constructor <;> nlinarith
  have hc : |(1 + δ) ^ 3| ≤ 1.002 := by
    rw [abs_le] at hd3 ⊢
    constructor <;> nlinarith
  obtain ⟨m, hm⟩ : ∃ m, m = -(3 * δ ^ 2 + δ ^ 3) / 2 - (1 + δ) ^ 3 * w / 2 := ⟨_, rfl⟩
  have hcw : |(1 + δ) ^ 3 * w| ≤ 1.1946e-7 := by
    rw [abs_mul]
    calc |(1 + δ) ^ 3| * |w| ≤ 1.002 * 1.1922e-7 := mul_le_mul hc hw1 (abs_nonneg _) (by norm_num)
      _ ≤ 1.1946e-7 := by norm_num
  have hm1 : |m| ≤ 2.61e-7 := by
    rw [abs_le] at hcw hd3
    rw [hm, abs_le]; constructor <;> linarith
  have hmg : |m * g| ≤ 1e-12 := by
    rw [abs_mul]
    calc |m| * |g| ≤ 2.61e-7 * 1.789e-7 := mul_le_mul hm1 hg1 (abs_nonneg _) (by norm_num)
      _ ≤ 1e-12 := by norm_num
  have e : 1 / 2 * (1 + δ) * (1 + e4) * ((3 - (1 + δ) ^ 2 * (1 + e1) * (1 + e2)) * (1 + e3)) * (1 + e5) - 1
      = m + g + m * g := by rw [hm, hg, hg0, hw]; ring
  rw [e]
  rw [abs_le] at hm1 hg1 hmg
  constructor <;> linarith


/-- `c - A * B`, fused or not, for a product near one. -/
theorem const_sub {ω : Compiler} {c A B : Fl ω} (hc : c.prod = none) (hcf : c.val.isFinite = true) (ha : A.val.isFinite = true)
    (hb : B.val.isFinite = true) {q : ℝ} (hq : r A.val * r B.val = q) (h1 : 0.998 ≤ q) (h2 : q ≤ 1.002) (h3 : 2 ≤ r c.val)
    (h4 : r c.val ≤ 3) : (c - A * B).val.isFinite = true ∧
      ∃ e1 e2, |e1| ≤ u ∧ |e2| ≤ u ∧ r (c - A * B).val = (r c.val - q * (1 + e1)) * (1 + e2) := by
  have hq0 : |q| = q := abs_of_pos (by linarith)
  rcases Fl.sub_cases c (A * B) with h | ⟨x, y, s, hp, h⟩ | ⟨x, y, s, hp, h⟩
  · obtain ⟨hm, e1, he1, em⟩ := mul_factor ha hb (by rw [hq, hq0]; norm_num; linarith) (by rw [hq, hq0]; norm_num; linarith)
    rw [hq] at em
    have hb1 := factor_le he1 (by norm_num) h1 h2
    rw [← em] at hb1
    have hd : 0 < r c.val - r (A.val * B.val) := by norm_num at hb1; linarith
    obtain ⟨ht, e2, he2, et⟩ := sub_factor hcf hm hd.ne' (by rw [abs_of_pos hd]; norm_num at hb1 ⊢; linarith)
    rw [h]
    exact ⟨ht, e1, e2, he1, he2, by rw [← em]; exact et⟩
  · rw [hc] at hp; cases hp
  · cases hp
    have e : r (sg (!false) A.val) * r B.val + r c.val = r c.val - q := by
      rw [← hq]; simp [sg, r_neg]; ring
    have hd : 0 < r c.val - q := by linarith
    obtain ⟨hf, he⟩ := fma_ok (x := sg (!false) A.val) (fin_sg _ ha) hb hcf (by rw [e, abs_of_pos hd]; norm_num; linarith)
    rw [e, max_eq_right (by rw [abs_of_pos hd]; norm_num; linarith)] at he
    obtain ⟨e2, he2, et⟩ := factor hd.ne' he
    rw [h]
    exact ⟨hf, 0, e2, by rw [abs_zero]; exact u_pos.le, he2, by rw [et, add_zero, mul_one]⟩

section Newton
variable {ω : Compiler} {hw : Hw F32} {A : Fl ω}

/-- `rcp_nr1` with contraction. -/
theorem rcp1_fl (hc : hw.Contract32) (ha : A.val.isFinite = true) (h1 : 1 / 2 ^ 100 ≤ |r A.val|) (h2 : |r A.val| ≤ 2 ^ 100) :
    (rcp1 (hw.fl ω) A).val.isFinite = true ∧ |r (rcp1 (hw.fl ω) A).val * r A.val - 1| ≤ 3.2e-7 := by
  obtain ⟨hy, hδ⟩ := hc.rcp A.val ha h1 h2
  obtain ⟨Y, eY⟩ : ∃ Y, Y = (hw.fl ω).rcp A := ⟨_, rfl⟩
  have ey : hw.rcp A.val = Y.val := by rw [eY]; rfl
  rw [ey] at hy hδ
  obtain ⟨δ, eδ⟩ : ∃ δ, δ = r Y.val * r A.val - 1 := ⟨_, rfl⟩
  rw [← eδ] at hδ
  have hya : r A.val * r Y.val = 1 + δ := by rw [eδ]; ring
  have hδ' := abs_le.1 hδ
  norm_num at hδ'
  have hY : |r Y.val| ≤ 2 ^ 101 := by
    have h5 : |r Y.val| * |r A.val| ≤ 1.5 := by rw [← abs_mul, mul_comm, hya, abs_le]; constructor <;> linarith
    by_contra hcon
    push Not at hcon
    have := mul_le_mul hcon.le h1 (by positivity) (abs_nonneg _)
    norm_num at this h5
    linarith
  have hY0 : 1 / 2 ^ 101 ≤ |r Y.val| := by
    have h5 : 1 / 2 ≤ |r Y.val| * |r A.val| := by
      rw [← abs_mul, mul_comm, hya, le_abs]; left; linarith
    by_contra hcon
    push Not at hcon
    have h4 : |r Y.val| * |r A.val| < 1 / 2 ^ 101 * 2 ^ 100 := mul_lt_mul hcon h2 (lt_of_lt_of_le (by positivity) h1) (by positivity)
    norm_num at h4
    linarith
  obtain ⟨ht, e1, e2, he1, he2, et⟩ := const_sub (c := (2 : Fl ω)) rfl (show (2 : F32).isFinite = true from fin_two) ha hy hya
    (by linarith) (by linarith) (show 2 ≤ r (2 : F32) by rw [r_two]) (show r (2 : F32) ≤ 3 by rw [r_two]; norm_num)
  rw [show r (2 : Fl ω).val = 2 from r_two] at et
  have e0 : (rcp1 (hw.fl ω) A).val = Y.val * (2 - A * Y).val := by rw [rcp1, ← eY]; rfl
  have b1 := factor_le he1 (by norm_num) (show (0.999 : ℝ) ≤ 1 + δ by linarith) (show 1 + δ ≤ (1.001 : ℝ) by linarith)
  have b2 := factor_le he2 (by norm_num) (show (0.9 : ℝ) ≤ 2 - (1 + δ) * (1 + e1) by norm_num at b1; linarith)
    (show 2 - (1 + δ) * (1 + e1) ≤ (1.1 : ℝ) by norm_num at b1; linarith)
  rw [← et] at b2
  have htab : |r (2 - A * Y).val| ≤ 2 ∧ 1 / 2 ≤ |r (2 - A * Y).val| := by
    norm_num at b2
    rw [abs_of_nonneg (by linarith)]; constructor <;> linarith
  obtain ⟨hz, e3, he3, ez⟩ := mul_factor hy ht
    (by rw [abs_mul]; exact le_trans (by norm_num) (mul_le_mul hY0 htab.2 (by norm_num) (abs_nonneg _)))
    (by rw [abs_mul]; exact (mul_le_mul hY htab.1 (abs_nonneg _) (by positivity)).trans (by norm_num))
  rw [e0]
  refine ⟨hz, ?_⟩
  have : r (Y.val * (2 - A * Y).val) * r A.val - 1 = (1 + δ) * ((2 - (1 + δ) * (1 + e1)) * (1 + e2)) * (1 + e3) - 1 := by
    rw [ez, et, ← hya]; ring
  rw [this]
  exact rcp_alg hδ he1 he2 he3

/-- `rsqrt_nr1` with contraction; the unrounded product of its last step is as accurate. -/
theorem rsqrt1_fl (hc : hw.Contract32) (ha : A.val.isFinite = true) (h1 : 1 / 2 ^ 100 ≤ r A.val) (h2 : r A.val ≤ 2 ^ 100) :
    (rsqrt1 (hw.fl ω) A).val.isFinite = true ∧ |r (rsqrt1 (hw.fl ω) A).val * √(r A.val) - 1| ≤ 4.6e-7 ∧
      ∀ x y s, (rsqrt1 (hw.fl ω) A).prod = some (x, y, s) →
        x.isFinite = true ∧ y.isFinite = true ∧ |r (sg s x) * r y * √(r A.val) - 1| ≤ 4.6e-7 := by
  obtain ⟨hy, hδ⟩ := hc.rsqrt A.val ha h1 h2
  obtain ⟨Y, eY⟩ : ∃ Y, Y = (hw.fl ω).rsqrt A := ⟨_, rfl⟩
  have ey : hw.rsqrt A.val = Y.val := by rw [eY]; rfl
  rw [ey] at hy hδ
  obtain ⟨s, es⟩ : ∃ s, s = √(r A.val) := ⟨_, rfl⟩
  rw [← es] at hδ ⊢
  have hA0 : 0 < r A.val := lt_of_lt_of_le (by positivity) h1
  have hss : s * s = r A.val := by rw [es]; exact Real.mul_self_sqrt hA0.le
  have hs0 : 0 < s := by rw [es]; exact Real.sqrt_pos.2 hA0
  have hs1 : 1 / 2 ^ 50 ≤ s := by
    rw [es]; exact Real.le_sqrt_of_sq_le (le_trans (le_of_eq (by norm_num)) h1)
  have hs2 : s ≤ 2 ^ 50 := by
    rw [es]; exact Real.sqrt_le_iff.2 ⟨by positivity, h2.trans (le_of_eq (by norm_num))⟩
  obtain ⟨δ, eδ⟩ : ∃ δ, δ = r Y.val * s - 1 := ⟨_, rfl⟩
  rw [← eδ] at hδ
  have hys : r Y.val * s = 1 + δ := by rw [eδ]; ring
  have hδ' := abs_le.1 hδ
  norm_num at hδ'
  have hYe : r Y.val = (1 + δ) / s := by rw [← hys]; field_simp
  have hY0 : 0 < r Y.val := by rw [hYe]; apply div_pos _ hs0; linarith
  have hYu : r Y.val ≤ 2 ^ 51 := by
    rw [hYe, div_le_iff₀ hs0]
    have : (2 : ℝ) ^ 51 * (1 / 2 ^ 50) ≤ 2 ^ 51 * s := by gcongr
    norm_num at this ⊢
    linarith
  have hYl : 1 / 2 ^ 51 ≤ r Y.val := by
    rw [hYe, le_div_iff₀ hs0]
    have : 1 / 2 ^ 51 * s ≤ 1 / 2 ^ 51 * (2 : ℝ) ^ 50 := by gcongr
    norm_num at this ⊢
    linarith
  have hyy0 : (1 / 2 ^ 51) * (1 / 2 ^ 51) ≤ r Y.val * r Y.val := mul_le_mul hYl hYl (by positivity) hY0.le
  have hyy1 : r Y.val * r Y.val ≤ 2 ^ 51 * 2 ^ 51 := mul_le_mul hYu hYu hY0.le (by positivity)
  obtain ⟨hp, e1, he1, ep⟩ := mul_factor hy hy
    (by rw [abs_of_pos (by positivity)]; refine le_trans ?_ hyy0; norm_num)
    (by rw [abs_of_pos (by positivity)]; refine hyy1.trans ?_; norm_num)
  have hap : r A.val * r (Y * Y).val = (1 + δ) ^ 2 * (1 + e1) := by
    rw [show (Y * Y).val = Y.val * Y.val from rfl, ep, ← hys, ← hss]; ring
  have hd2 : 0.9992 ≤ (1 + δ) ^ 2 ∧ (1 + δ) ^ 2 ≤ 1.0008 := by constructor <;> nlinarith
  have hb1 : 0.998 ≤ (1 + δ) ^ 2 * (1 + e1) ∧ (1 + δ) ^ 2 * (1 + e1) ≤ 1.002 := by
    have := factor_le he1 (by norm_num) hd2.1 hd2.2
    norm_num at this ⊢
    constructor <;> linarith
  obtain ⟨ht, e2, e3, he2, he3, et⟩ := const_sub (c := (3 : Fl ω)) (B := Y * Y) rfl (show (3 : F32).isFinite = true from fin_three) ha hp hap
    hb1.1 hb1.2 (show 2 ≤ r (3 : F32) by rw [r_three]; norm_num) (show r (3 : F32) ≤ 3 by rw [r_three])
  rw [show r (3 : Fl ω).val = 3 from r_three] at et
  have b1 := factor_le he2 (by norm_num) hb1.1 hb1.2
  have b2 := factor_le he3 (by norm_num) (show (1.9 : ℝ) ≤ 3 - (1 + δ) ^ 2 * (1 + e1) * (1 + e2) by norm_num at b1; linarith)
    (show 3 - (1 + δ) ^ 2 * (1 + e1) * (1 + e2) ≤ (2.1 : ℝ) by norm_num at b1; linarith)
  rw [← et] at b2
  obtain ⟨T, eT⟩ : ∃ T, T = (3 - A * (Y * Y)).val := ⟨_, rfl⟩
  rw [← eT] at ht et b2
  have hy1 : 1 / 2 * (1 / 2 ^ 51) ≤ 1 / 2 * r Y.val := by gcongr
  have hy2 : 1 / 2 * r Y.val ≤ 1 / 2 * 2 ^ 51 := by gcongr
  have hy3 : 0 < 1 / 2 * r Y.val := by positivity
  obtain ⟨hh, e4, he4, eh⟩ := mul_factor fin_half hy
    (by rw [r_half, abs_of_pos hy3]; exact le_trans (by norm_num) hy1)
    (by rw [r_half, abs_of_pos hy3]; exact hy2.trans (by norm_num))
  rw [r_half] at eh
  have hhb := factor_le he4 (by positivity) hy1 hy2
  rw [← eh] at hhb
  obtain ⟨H, eH⟩ : ∃ H, H = 1 / 2 * Y.val := ⟨_, rfl⟩
  rw [← eH] at hh eh hhb
  have hhl : 0 < 0.999 * (1 / 2 * (1 / 2 ^ 51 : ℝ)) := by positivity
  have hh0 : 0 < r H := lt_of_lt_of_le hhl hhb.1
  have htl : (0 : ℝ) < 0.999 * 1.9 := by norm_num
  have ht1 : 0 < r T := lt_of_lt_of_le htl b2.1
  have hzl := mul_le_mul hhb.1 b2.1 htl.le hh0.le
  have hzu := mul_le_mul hhb.2 b2.2 ht1.le (by positivity)
  have hz0 : 0 < r H * r T := mul_pos hh0 ht1
  obtain ⟨hz, e5, he5, ez⟩ := mul_factor hh ht
    (by rw [abs_of_pos hz0]; exact le_trans (by norm_num) hzl)
    (by rw [abs_of_pos hz0]; exact hzu.trans (by norm_num))
  have e0 : rsqrt1 (hw.fl ω) A = 1 / 2 * Y * (3 - A * (Y * Y)) := by rw [rsqrt1, ← eY]
  have ev : (rsqrt1 (hw.fl ω) A).val = H * T := by rw [e0, eH, eT]; rfl
  have epr : (rsqrt1 (hw.fl ω) A).prod = some (H, T, false) := by rw [e0, eH, eT]; rfl
  have key : ∀ e5, |e5| ≤ u → |r H * r T * (1 + e5) * s - 1| ≤ 4.6e-7 := by
    intro e5 he5
    have : r H * r T * (1 + e5) * s - 1 =
        1 / 2 * (1 + δ) * (1 + e4) * ((3 - (1 + δ) ^ 2 * (1 + e1) * (1 + e2)) * (1 + e3)) * (1 + e5) - 1 := by
      rw [et, eh, ← hys]; ring
    rw [this]
    exact rsqrt_alg hδ he1 he2 he3 he4 he5
  refine ⟨by rw [ev]; exact hz, by rw [ev, ez]; exact key e5 he5, fun x y b h => ?_⟩
  rw [epr] at h
  cases h
  refine ⟨hh, ht, ?_⟩
  have := key 0 (by rw [abs_zero]; exact u_pos.le)
  rwa [add_zero, mul_one] at this

end Newton

end Klein
