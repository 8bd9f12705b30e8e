import Verif.Sym.Alias
import Verif.Props.SymMv
import Verif.Props.SymPoly
import Verif.Sym.Parser

/-!
# C85: compound assignments, also when both operands are the same object
-/

namespace Klein.Sym
variable {X F : Type} [LinearOrder X] [CommRing F] [DecidableEq F]

/-- C85: `m *= m` is the square. -/
theorem C85_mon_mul (m : Mon X) (hm : m.Canon) : m.mulSelf = m.mul m := by
  unfold Mon.mulSelf Mon.mul Mon.mulAssign
  rw [selfFor_eq Mon.ltX_sound (fun d => d) (fun d => Mon.addDeg d) (fun d => Mon.addDeg d) m.factors m.factors
    hm.1 hm.1 (fun _ h => h) (fun _ _ => rfl)]
  intro kv hkv h
  have h0 := hm.2 kv hkv
  simp only [Mon.addDeg, Option.bind_eq_bind, Option.bind_eq_some_iff, pure, Option.some.injEq] at h
  obtain ⟨s, h1, h2⟩ := h
  unfold int32 at h1
  split_ifs at h1 h2 with h3 h4
  simp only [Option.some.injEq] at h1
  omega

/-- C85: `p += p` is the sum of two copies. -/
theorem C85_poly_add_partial (h2 : ∀ f : F, f ≠ 0 → f + f ≠ 0) (p : Poly X F) (hp : p.Canon) :
    p.addSelf = p.add p := by
  unfold Poly.addSelf Poly.add Poly.addAssign
  rw [selfFor_eq Mon.lt_sound (fun f => f) (fun f => Poly.addCoef f) (fun f => Poly.addCoef f) p.terms p.terms
    hp.1 hp.1 (fun _ h => h) (fun _ _ => rfl)]
  intro kv hkv h
  simp only [Poly.addCoef, Option.some.injEq] at h
  split_ifs at h with h3
  exact h2 _ (hp.2 kv hkv).2 h3

/-- C85: `p *= q` is the product, `q` possibly `p`. -/
theorem C85_poly_mul (p q : Poly X F) : p.mulAssign q = p.mul q := by
  unfold Poly.mulAssign
  cases p.mul q <;> rfl

/-- C85: `m += m` is the sum of two copies. -/
theorem C85_mv_add_partial (h2 : ∀ f : F, f ≠ 0 → f + f ≠ 0) (m : Mv X F) (hm : m.Canon) :
    m.addSelf = m.add m := by
  have e : m.add m = (do return { m with terms := ← m.terms.foldlM (fun ts (ep : ℕ × Poly X F) =>
      upsert Mv.ltE ep.1 (some ep.2) (fun v => do
        let s ← v.addAssign ep.2
        return if s.terms = [] then none else some s) ts) m.terms }) := by
    have key : ∀ (l : List (ℕ × Poly X F)) (n : Mv X F),
        l.foldlM (fun out (ep : ℕ × Poly X F) => out.push ep.1 ep.2) n
        = (do return { n with terms := ← l.foldlM (fun ts (ep : ℕ × Poly X F) =>
            upsert Mv.ltE ep.1 (some ep.2) (fun v => do
              let s ← v.addAssign ep.2
              return if s.terms = [] then none else some s) ts) n.terms }) := by
      intro l
      induction l with
      | nil => intro n; rfl
      | cons a l ih =>
        intro n
        rw [List.foldlM_cons, List.foldlM_cons]
        rw [Mv.push]
        simp only [Option.bind_eq_bind, pure]
        cases upsert Mv.ltE a.1 (some a.2) (fun v => (v.addAssign a.2).bind fun s =>
            some (if s.terms = [] then none else some s)) n.terms with
        | none => rfl
        | some ts => simpa only [Option.bind_some, Option.bind_eq_bind, pure] using ih { n with terms := ts }
    exact key m.terms m
  rw [e]
  unfold Mv.addSelf
  refine congrArg (fun o : Option (List (ℕ × Poly X F)) => o.bind fun t => some { m with terms := t })
    (selfFor_eq (K := Bl) (dec := instDecidableEqNat) ltE_sound (fun p : Poly X F => p) (fun p v => do
        let s ← v.addAssign p
        return if s.terms = [] then none else some s) (fun _ v => do
        let s ← v.addSelf
        return if s.terms = [] then none else some s) m.terms m.terms hm.1 hm.1 (fun _ h => h) ?_ ?_)
  · intro kv hkv
    have := C85_poly_add_partial h2 kv.2 (hm.2 kv hkv).1
    simp only [this, Poly.add]
  · intro kv hkv h
    simp only [Option.bind_eq_bind, Option.bind_eq_some_iff, pure, Option.some.injEq] at h
    obtain ⟨s, h3, h4⟩ := h
    split_ifs at h4 with h5
    obtain ⟨hc, hne⟩ := hm.2 kv hkv
    obtain ⟨a, ha⟩ := List.exists_mem_of_ne_nil _ hne
    have hd := Poly.add_den h3
    rw [Mv.empty_den h5] at hd
    have hp : kv.2 = kv.2.neg := Poly.den_inj hc (Poly.neg_canon hc) (by
      rw [Poly.neg_den]; exact eq_neg_of_add_eq_zero_left hd.symm)
    have hself : ∀ l : List (Mon X × F), l = l.map (fun (m, f) => (m, f * -1)) →
        ∀ a ∈ l, a.2 + a.2 = 0 := by
      intro l
      induction l with
      | nil => intro _ a ha; exact absurd ha List.not_mem_nil
      | cons b l ih =>
        intro hl a ha
        rw [List.map_cons, List.cons.injEq] at hl
        rcases List.mem_cons.1 ha with rfl | ha
        · have := congrArg Prod.snd hl.1
          simp only [mul_neg, mul_one] at this
          exact eq_neg_iff_add_eq_zero.1 this
        · exact ih hl.2 a ha
    exact h2 _ (hc.2 a ha).2 (hself _ (congrArg Poly.terms hp) a ha)

/-- C85: `*=`, `^=`, `&=`, `|=` are the products, the operands possibly the same object. -/
theorem C85_mv_mul (m n : Mv X F) : Mv.prodAssign Mv.mul m n = m.mul n ∧
    Mv.prodAssign Mv.ext m n = m.ext n ∧ Mv.prodAssign Mv.reg m n = m.reg n ∧
    Mv.prodAssign Mv.dot m n = m.dot n := by
  have key : ∀ op : Alg → ℕ → ℕ → Option ℤ, Mv.prodAssign (Mv.prod op) m n = Mv.prod op m n := by
    intro op
    unfold Mv.prodAssign
    cases h : Mv.prod op m n with
    | none => rfl
    | some r =>
      simp only [Mv.prod, Option.bind_eq_bind, Option.bind_eq_some_iff, pure, Option.some.injEq] at h
      obtain ⟨a, h1, ts, -, rfl⟩ := h
      simp [h1]
  exact ⟨key _, key _, key _, key _⟩

/-- C85 fails for `m -= m`: for every non-zero `m` the node at the iterator is erased, and the
behaviour is undefined. -/
theorem C85_mv_sub_fails (m : Mv X F) (hm : m.Canon) (h : m.terms ≠ []) : m.subSelf = none := by
  obtain ⟨a, l, e⟩ := List.exists_cons_of_ne_nil h
  have ha : a ∈ m.terms := by rw [e]; exact List.mem_cons_self ..
  have := selfFor_erase (K := Bl) (dec := instDecidableEqNat) ltE_sound (fun p : Poly X F => p.neg) (fun p v => do
        let s ← v.addAssign p.neg
        return if s.terms = [] then none else some s) a l m.terms hm.1 ha (by
    intro r hr
    simp only [Option.bind_eq_bind, Option.bind_eq_some_iff, pure, Option.some.injEq] at hr
    obtain ⟨s, h1, h2⟩ := hr
    have := C58_sub_self_partial a.2 s (hm.2 a ha).1 h1
    rw [if_pos this] at h2
    exact h2.symm)
  unfold Mv.subSelf
  rw [show m.terms.map Prod.fst = (a :: l).map Prod.fst by rw [e]]
  exact congrArg (fun o : Option (List (ℕ × Poly X F)) => o.bind fun t => some { m with terms := t }) this

/-- C85: with two objects of the same value the difference is defined and empty: `e1 - e1`. -/
example : (⟨some ⟨3, 0, 1⟩, [(2, ⟨[(⟨[]⟩, 1)]⟩)]⟩ : Mv ℕ ℤ).sub ⟨some ⟨3, 0, 1⟩, [(2, ⟨[(⟨[]⟩, 1)]⟩)]⟩
      = some ⟨some ⟨3, 0, 1⟩, []⟩ ∧
    (⟨some ⟨3, 0, 1⟩, [(2, ⟨[(⟨[]⟩, 1)]⟩)]⟩ : Mv ℕ ℤ).subSelf = none := by decide +kernel

/-- C85 fails for `p += p` and `m += m` if a zero coefficient is stored, as `0` is by the parser. -/
theorem C85_add_fails : (⟨[(⟨[]⟩, 0)]⟩ : Poly ℕ ℤ).addSelf = none ∧
    (⟨[(⟨[]⟩, 0)]⟩ : Poly ℕ ℤ).add ⟨[(⟨[]⟩, 0)]⟩ = some ⟨[]⟩ ∧
    parse (F := ℤ) (fun _ => 0) ⟨3, 0, 1⟩ "0".toList = some (.ok ⟨some ⟨3, 0, 1⟩, [(0, ⟨[(⟨[]⟩, 0)]⟩)]⟩) ∧
    (⟨some ⟨3, 0, 1⟩, [(0, ⟨[(⟨[]⟩, 0)]⟩)]⟩ : Mv (List Char) ℤ).addSelf = none := by decide +kernel

/-- `(2 x y^-1)² `, `3 x + 3 x` and `(e1 + 2 e12) += itself`. -/
example : (⟨[(0, 1), (1, -1)]⟩ : Mon ℕ).mulSelf = some ⟨[(0, 2), (1, -2)]⟩ ∧
    (⟨[(⟨[]⟩, 5), (⟨[(0, 1)]⟩, 3)]⟩ : Poly ℕ ℤ).addSelf = some ⟨[(⟨[]⟩, 10), (⟨[(0, 1)]⟩, 6)]⟩ ∧
    (⟨none, [(2, ⟨[(⟨[]⟩, 1)]⟩), (6, ⟨[(⟨[]⟩, 2)]⟩)]⟩ : Mv ℕ ℤ).addSelf
      = some ⟨none, [(2, ⟨[(⟨[]⟩, 2)]⟩), (6, ⟨[(⟨[]⟩, 4)]⟩)]⟩ := by decide +kernel

end Klein.Sym
