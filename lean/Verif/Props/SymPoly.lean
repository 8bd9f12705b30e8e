import Verif.Sym.PolyLemmas
import Mathlib.Algebra.Order.Ring.Int
import Mathlib.Data.String.Basic
import Mathlib.Data.Rat.Defs

/-!
# C57, C58: monomials and polynomials of the symbolic engine

A `poly` denotes a Laurent polynomial: an element of `AddMonoidAlgebra F (X →₀ ℤ)` (exponents are
`int`s and may be negative).  Coefficients are exact (`F` any commutative ring).  The theorems hold
whenever the operation does not overflow an `int` exponent, and `*_defined` says when it does not.
-/

namespace Klein.Sym

variable {X F : Type} [LinearOrder X]

/-! ### C57 -/

/-- C57: `==` is equality of the monomials. -/
theorem C57_eq_iff (a b : Mon X) : a.eq b = true ↔ a = b := by
  have key : ∀ s t : List (X × ℤ), s.length = t.length → (Mon.eqLoop s t = true ↔ s = t) := by
    intro s
    induction s with
    | nil => intro t h; cases t <;> simp_all [Mon.eqLoop]
    | cons a s ih =>
      intro t h
      cases t with
      | nil => simp at h
      | cons b t =>
        obtain ⟨x, d⟩ := a
        obtain ⟨y, e⟩ := b
        have := ih t (by simpa using h)
        simp only [Mon.eqLoop]
        by_cases h1 : x = y <;> by_cases h2 : d = e <;> simp [h1, h2, this]
  obtain ⟨s⟩ := a
  obtain ⟨t⟩ := b
  by_cases h : s.length = t.length
  · simp [Mon.eq, h, key s t h]
  · simp only [Mon.eq, h, ne_eq, not_false_eq_true, if_true, Bool.false_eq_true, Mon.mk.injEq,
      false_iff]
    exact fun he => h (by rw [he])

/-- C57: irreflexive. -/
theorem C57_irrefl_partial (a : Mon X) : a.lt a ≠ some true := by
  intro h
  have := Mon.lt_eq h
  simp at this

/-- C57: transitive. -/
theorem C57_trans_partial (a b c : Mon X) (h1 : a.lt b = some true) (h2 : b.lt c = some true) :
    a.lt c = some true := by
  have e1 : a < b := by simpa using (Mon.lt_eq h1).symm
  have e2 : b < c := by simpa using (Mon.lt_eq h2).symm
  obtain ⟨r, h⟩ : ∃ r, a.lt c = some r := by
    simp only [Mon.lt, Option.bind_eq_bind, Option.bind_eq_some_iff] at h1 h2
    obtain ⟨da, ha, -⟩ := h1
    obtain ⟨-, -, dc, hc, -⟩ := h2
    simp only [Mon.lt, ha, hc, Option.bind_eq_bind, Option.bind_some]
    split_ifs <;> exact ⟨_, rfl⟩
  rw [h, Mon.lt_eq h]
  simp [lt_trans e1 e2]

/-- C57: total and compatible with `==`: exactly one of `a < b`, `a == b`, `b < a` holds. -/
theorem C57_total_partial (a b : Mon X) (r s : Bool) (h1 : a.lt b = some r) (h2 : b.lt a = some s) :
    (r = true ∧ s = false ∧ a.eq b = false) ∨ (r = false ∧ s = true ∧ a.eq b = false) ∨
    (r = false ∧ s = false ∧ a.eq b = true) := by
  rw [Mon.lt_eq h1, Mon.lt_eq h2]
  have he : a.eq b = decide (a = b) := by
    rw [Bool.eq_iff_iff, C57_eq_iff, decide_eq_true_iff]
  rw [he]
  rcases lt_trichotomy a b with h | h | h
  · simp [h, not_lt_of_gt h, ne_of_lt h]
  · simp [h]
  · simp [h, not_lt_of_gt h, ne_of_gt h]

/-- C57: the order is graded: a monomial of lower degree is smaller. -/
theorem C57_graded_partial (a b : Mon X) (ha : a.norm < 2 ^ 31) (hb : b.norm < 2 ^ 31)
    (h : a.deg < b.deg) : a.lt b = some true := by
  obtain ⟨r, hr⟩ := Option.ne_none_iff_exists'.1 (Mon.lt_total ha hb)
  rw [hr, Mon.lt_eq hr]
  have : a < b := by
    rw [Mon.lt_iff_key, Mon.key, Mon.key, Prod.Lex.toLex_lt_toLex]
    exact Or.inl h
  simp [this]

/-- C57: the comparison is defined when the exponents of either monomial sum to less than `2^31` in
absolute value. -/
theorem C57_defined (a b : Mon X) (ha : a.norm < 2 ^ 31) (hb : b.norm < 2 ^ 31) :
    a.lt b ≠ none := Mon.lt_total ha hb

/-- C57: comparing a monomial whose degrees sum beyond `int` overflows. -/
theorem C57_lt_fails : ∃ a b : Mon String,
    (∀ xd ∈ a.factors ++ b.factors, -2 ^ 31 ≤ xd.2 ∧ xd.2 < 2 ^ 31) ∧ a.lt b = none :=
  ⟨⟨[("a", 2 ^ 31 - 1), ("b", 1)]⟩, ⟨[]⟩, by simp, by
    simp [Mon.lt, Mon.degree, Mon.degreeLoop, int32]⟩

/-- `x < x y < x^2 y^{-1} z`, by degree and then lexicographically. -/
example : (⟨[(0, 1)]⟩ : Mon ℕ).lt ⟨[(0, 1), (1, 1)]⟩ = some true ∧
    (⟨[(0, 1), (1, 1)]⟩ : Mon ℕ).lt ⟨[(0, 2), (1, -1), (2, 1)]⟩ = some true ∧
    (⟨[(0, 1), (1, 1)]⟩ : Mon ℕ).norm < 2 ^ 31 := by decide

/-! ### C58 -/

section Poly
variable [CommRing F] [DecidableEq F]

/-- C58: addition. -/
theorem C58_add_partial (p q r : Poly X F) (h : p.add q = some r) : r.den = p.den + q.den :=
  Poly.add_den h

/-- C58: negation. -/
theorem C58_neg (p : Poly X F) : p.neg.den = -p.den := Poly.neg_den p

/-- C58: subtraction, as the shell computes it. -/
theorem C58_sub_partial (p q r : Poly X F) (h : p.add q.neg = some r) : r.den = p.den - q.den := by
  rw [Poly.add_den h, Poly.neg_den, sub_eq_add_neg]

/-- C58: multiplication. -/
theorem C58_mul_partial (p q r : Poly X F) (h : p.mul q = some r) : r.den = p.den * q.den :=
  Poly.mul_den h

/-- C58: adding one term. -/
theorem C58_push_partial (p r : Poly X F) (m : Mon X) (f : F) (h : p.push m f = some r) :
    r.den = p.den + AddMonoidAlgebra.single m.expo f := Poly.push_den h

/-- C58: multiplying monomials adds their exponents. -/
theorem C58_mon_mul_partial (a b c : Mon X) (h : a.mul b = some c) : c.expo = a.expo + b.expo :=
  Mon.mul_expo h

/-- C58: multiplying a monomial by a power of a variable. -/
theorem C58_mon_push_partial (a c : Mon X) (x : X) (d : ℤ) (h : a.push x d = some c) :
    c.expo = a.expo + Finsupp.single x d := Mon.push_expo h

/-- C58: no operation overflows while the exponents of a monomial sum to less than `2^31`. -/
theorem C58_defined (p q : Poly X F) (N M : ℕ) (hN : N + M < 2 ^ 31) (hp : p.Within N)
    (hq : q.Within M) :
    (∃ r, p.mul q = some r ∧ r.Within (N + M)) ∧ ∃ r, p.add q = some r ∧ r.Within (max N M) :=
  ⟨Poly.mul_total hN hp hq, Poly.add_total (by omega)
    (fun mf h => le_trans (hp mf h) (le_max_left ..)) (fun mf h => le_trans (hq mf h) (le_max_right ..))⟩

/-- C58: the product of `x^(2^31-1)` and `x` overflows the exponent. -/
theorem C58_mul_fails : ∃ p q : Poly ℕ ℤ,
    (∀ mf ∈ p.terms ++ q.terms, ∀ xd ∈ mf.1.factors, -2 ^ 31 ≤ xd.2 ∧ xd.2 < 2 ^ 31) ∧
      p.mul q = none :=
  ⟨⟨[(⟨[(0, 2 ^ 31 - 1)]⟩, 1)]⟩, ⟨[(⟨[(0, 1)]⟩, 1)]⟩, by decide, by decide⟩

/-! evaluation -/

/-- The value of a monomial. -/
def evalMon (χ : X → Fˣ) (m : Mon X) : Fˣ := (m.factors.map fun xd => χ xd.1 ^ xd.2).prod

/-- The value of a polynomial when each variable stands for an invertible `χ x`. -/
def evalPoly (χ : X → Fˣ) (p : Poly X F) : F := (p.terms.map fun mf => mf.2 * (evalMon χ mf.1 : F)).sum

/-- Evaluation of exponents. -/
noncomputable def evHom (χ : X → Fˣ) : Multiplicative (X →₀ ℤ) →* F where
  toFun f := ((f.toAdd.prod fun x d => χ x ^ d : Fˣ) : F)
  map_one' := by simp
  map_mul' f g := by
    rw [toAdd_mul, Finsupp.prod_add_index' (by simp) (by intro a b c; exact zpow_add _ _ _)]
    simp

theorem evalMon_eq (χ : X → Fˣ) (m : Mon X) :
    (evalMon χ m : F) = evHom χ (Multiplicative.ofAdd m.expo) := by
  simp only [evHom, MonoidHom.coe_mk, OneHom.coe_mk, toAdd_ofAdd]
  congr 1
  have : ∀ l : List (X × ℤ), (l.map fun xd => χ xd.1 ^ xd.2).prod
      = (l.map fun xd => Finsupp.single xd.1 xd.2).sum.prod fun x d => χ x ^ d := by
    intro l
    induction l with
    | nil => simp
    | cons a l ih =>
      rw [List.map_cons, List.prod_cons, List.map_cons, List.sum_cons, ih,
        Finsupp.prod_add_index' (by simp) (by intro a b c; exact zpow_add _ _ _),
        Finsupp.prod_single_index (by simp)]
  exact this _

theorem evalPoly_eq (χ : X → Fˣ) (p : Poly X F) :
    evalPoly χ p = AddMonoidAlgebra.lift F F (X →₀ ℤ) (evHom χ) p.den := by
  have : ∀ l : List (Mon X × F), (l.map fun mf => mf.2 * (evalMon χ mf.1 : F)).sum
      = AddMonoidAlgebra.lift F F (X →₀ ℤ) (evHom χ)
        (l.map fun mf => AddMonoidAlgebra.single mf.1.expo mf.2).sum := by
    intro l
    induction l with
    | nil => simp
    | cons a l ih =>
      rw [List.map_cons, List.sum_cons, List.map_cons, List.sum_cons, map_add, ih,
        AddMonoidAlgebra.lift_single, evalMon_eq, smul_eq_mul]
  exact this _

/-- C58: evaluation commutes with addition, negation, subtraction and multiplication. -/
theorem C58_eval_partial (χ : X → Fˣ) (p q : Poly X F) :
    (∀ r, p.add q = some r → evalPoly χ r = evalPoly χ p + evalPoly χ q) ∧
    evalPoly χ p.neg = -evalPoly χ p ∧
    (∀ r, p.add q.neg = some r → evalPoly χ r = evalPoly χ p - evalPoly χ q) ∧
    (∀ r, p.mul q = some r → evalPoly χ r = evalPoly χ p * evalPoly χ q) := by
  refine ⟨fun r h => ?_, ?_, fun r h => ?_, fun r h => ?_⟩
  · rw [evalPoly_eq, Poly.add_den h, map_add, ← evalPoly_eq, ← evalPoly_eq]
  · rw [evalPoly_eq, Poly.neg_den, map_neg, ← evalPoly_eq]
  · rw [evalPoly_eq, C58_sub_partial p q r h, map_sub, ← evalPoly_eq, ← evalPoly_eq]
  · rw [evalPoly_eq, Poly.mul_den h, map_mul, ← evalPoly_eq, ← evalPoly_eq]

/-! canonical forms -/

/-- C58: the operations keep the maps ordered and store no zero exponent and no zero coefficient. -/
theorem C58_canonical_partial (p q : Poly X F) (hp : p.Canon) (hq : q.Canon) :
    (∀ r, p.add q = some r → r.Canon) ∧ p.neg.Canon ∧ (∀ r, p.mul q = some r → r.Canon) ∧
    (∀ (m : Mon X) (f : F) r, m.Canon → f ≠ 0 → p.push m f = some r → r.Canon) :=
  ⟨fun _ h => Poly.add_canon hp hq h, Poly.neg_canon hp, fun _ h => Poly.mul_canon hp hq h,
    fun _ _ _ hm hf h => Poly.push_canon hp hm hf h⟩

/-- C58: polynomials that are equal as Laurent polynomials have the same representation. -/
theorem C58_unique (p q : Poly X F) (hp : p.Canon) (hq : q.Canon) (h : p.den = q.den) : p = q :=
  Poly.den_inj hp hq h

/-- C58: so multiplication commutes and `p - p` is empty, as representations. -/
theorem C58_comm_partial (p q r s : Poly X F) (hp : p.Canon) (hq : q.Canon) (h1 : p.mul q = some r)
    (h2 : q.mul p = some s) : r = s :=
  Poly.den_inj (Poly.mul_canon hp hq h1) (Poly.mul_canon hq hp h2)
    (by rw [Poly.mul_den h1, Poly.mul_den h2, mul_comm])

/-- C58: a difference with itself leaves no term. -/
theorem C58_sub_self_partial (p r : Poly X F) (hp : p.Canon) (h : p.add p.neg = some r) :
    r.terms = [] := by
  have := Poly.den_inj (Poly.add_canon hp (Poly.neg_canon hp) h) Poly.empty_canon
    (by rw [C58_sub_partial p p r h, sub_self]; rfl)
  rw [this]

/-- C58: `push` and `+=` store a zero coefficient when they are given one (`0` in the shell), so
they do not keep the representation free of zeros by themselves. -/
theorem C58_push_zero_fails : ∃ (p : Poly ℕ ℤ) (m : Mon ℕ), m.Canon ∧ p.Canon ∧
    p.push m 0 = some ⟨[(m, 0)]⟩ :=
  ⟨⟨[]⟩, ⟨[]⟩, ⟨List.Pairwise.nil, by simp⟩, Poly.empty_canon, by decide⟩

/-- `(x + y) (x - y) = x^2 - y^2`. -/
example : (⟨[(⟨[(0, 1)]⟩, 1), (⟨[(1, 1)]⟩, 1)]⟩ : Poly ℕ ℤ).mul
    ⟨[(⟨[(0, 1)]⟩, 1), (⟨[(1, 1)]⟩, -1)]⟩ = some ⟨[(⟨[(0, 2)]⟩, 1), (⟨[(1, 2)]⟩, -1)]⟩ := by decide +kernel

end Poly
end Klein.Sym
