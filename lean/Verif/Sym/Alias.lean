import Verif.Sym.PolyLemmas

/-!
# Compound assignments of the symbolic engine, and operands that are the object itself

`a op= b` with two distinct objects is the function of `Verif.Sym.Poly`.  With `a op= a` the loops
of `*=` (monomials) and of `+=`, `-=` (polynomials, multivectors) walk over the map they change.
Here such a loop is modelled with its iterator: erasing the node the iterator points to invalidates
it, and the increment that follows is undefined behaviour, the outcome `none`.
-/

namespace Klein.Sym

/-- `for (auto&& [k, v] : map) body` where the body may change `map`.  `ks` are the keys still to be
visited (no body below inserts a key or erases a node other than the current one, so the successor
of a node is the one it had at the start).  `v` is a reference: its value is looked up when the node
is reached. -/
def selfFor {K V : Type} [DecidableEq K] (body : K → V → List (K × V) → Option (List (K × V))) :
    List K → List (K × V) → Option (List (K × V))
  | [], m => some m
  | k :: ks, m => do
    let kv ← m.find? fun kv => kv.1 = k
    let m' ← body k kv.2 m
    if m'.any fun kv => kv.1 = k then selfFor body ks m' else none

section Ops
variable {X F : Type} [LinearOrder X] [Add F] [Mul F] [Neg F] [Zero F] [One F] [DecidableEq F]
  [ZeroTest F]

/-- poly.cpp:118-142 `m *= m`. -/
def Mon.mulSelf (m : Mon X) : Option (Mon X) := do
  return ⟨← selfFor (fun v d fs => upsert Mon.ltX v (some d) (Mon.addDeg d) fs)
    (m.factors.map Prod.fst) m.factors⟩

/-- poly.cpp:193-215 `p += p`. -/
def Poly.addSelf (p : Poly X F) : Option (Poly X F) := do
  return ⟨← selfFor (fun m f ts => upsert Mon.lt m (some f) (Poly.addCoef f) ts)
    (p.terms.map Prod.fst) p.terms⟩

/-- poly.cpp:247-252 `*=`: the product is computed first, so `q` may be `p`. -/
def Poly.mulAssign (p q : Poly X F) : Option (Poly X F) := do
  let temp ← p.mul q
  return { p with terms := temp.terms }

/-- ga.cpp:279-287 `m += m`: `push(e, p)` (:215-233) with `p` a reference to the coefficient of the
node it finds, so that `it->second += p` is `p += p`. -/
def Mv.addSelf (m : Mv X F) : Option (Mv X F) := do
  return { m with terms := ← selfFor (fun e p ts => upsert Mv.ltE e (some p) (fun v => do
    let s ← v.addSelf
    return if s.terms = [] then none else some s) ts) (m.terms.map Prod.fst) m.terms }

/-- ga.cpp:289-297 `m -= m`: `push(e, -p)`, where `-p` is a new object. -/
def Mv.subSelf (m : Mv X F) : Option (Mv X F) := do
  return { m with terms := ← selfFor (fun e p ts => upsert Mv.ltE e (some p.neg) (fun v => do
    let s ← v.addAssign p.neg
    return if s.terms = [] then none else some s) ts) (m.terms.map Prod.fst) m.terms }

/-- ga.cpp:306-311, 349-354, 392-397, 435-440: `*=`, `^=`, `&=`, `|=` compute the product first and
take over its terms; `algebra_` is left as it is. -/
def Mv.prodAssign (op : Mv X F → Mv X F → Option (Mv X F)) (m n : Mv X F) : Option (Mv X F) := do
  let result ← op m n
  return { m with terms := result.terms }

end Ops

/-! ### lemmas -/

section Map
variable {K V : Type} [LinearOrder K] {lt : K → K → Option Bool}

/-- An update of a key that is present. -/
theorem upsert_present (h : Sound lt) {k : K} {new : Option V} {upd : V → Option (Option V)} {v : V} :
    ∀ m m' : List (K × V), Sorted m → (k, v) ∈ m → upsert lt k new upd m = some m' →
      ∃ r, upd v = some r ∧ ∀ kv, kv ∈ m' ↔ (kv ∈ m ∧ kv.1 ≠ k) ∨ r = some kv.2 ∧ kv.1 = k
  | [], _, _, hk, _ => absurd hk List.not_mem_nil
  | (x, w) :: m, m', hs, hk, hm => by
    unfold Sorted at hs
    rw [List.pairwise_cons] at hs
    have tail : ∀ kv ∈ m, kv.1 ≠ x := fun kv hkv => ne_of_gt (hs.1 kv hkv)
    rcases upsert_cons h hm with ⟨hx, m'', h1, rfl⟩ | ⟨hx, v0, h1, rfl⟩ | ⟨rfl, r, h1, rfl⟩
    · have hk' : (k, v) ∈ m := by
        rcases List.mem_cons.1 hk with h2 | h2
        · exact absurd (congrArg Prod.fst h2) (ne_of_gt hx)
        · exact h2
      obtain ⟨r, h2, h3⟩ := upsert_present h m m'' hs.2 hk' h1
      refine ⟨r, h2, fun kv => ?_⟩
      rw [List.mem_cons, List.mem_cons, h3]
      constructor
      · rintro (rfl | h4 | h4)
        · exact Or.inl ⟨Or.inl rfl, ne_of_lt hx⟩
        · exact Or.inl ⟨Or.inr h4.1, h4.2⟩
        · exact Or.inr h4
      · rintro (⟨h4 | h4, h5⟩ | h4)
        · exact Or.inl h4
        · exact Or.inr (Or.inl ⟨h4, h5⟩)
        · exact Or.inr (Or.inr h4)
    · exfalso
      rcases List.mem_cons.1 hk with h2 | h2
      · exact absurd (congrArg Prod.fst h2) (ne_of_lt hx)
      · exact absurd (lt_trans hx (hs.1 _ h2)) (lt_irrefl _)
    · have hv : v = w := by
        rcases List.mem_cons.1 hk with h2 | h2
        · exact congrArg Prod.snd h2
        · exact absurd rfl (tail _ h2)
      subst hv
      refine ⟨r, h1, fun kv => ?_⟩
      cases r with
      | none =>
        simp only [Option.elim_none, reduceCtorEq, false_and, or_false]
        exact ⟨fun h4 => ⟨List.mem_cons_of_mem _ h4, tail kv h4⟩, fun h4 => by
          rcases List.mem_cons.1 h4.1 with rfl | h5
          · exact absurd rfl h4.2
          · exact h5⟩
      | some v' =>
        simp only [Option.elim_some, List.mem_cons, Option.some.injEq]
        constructor
        · rintro (rfl | h4)
          · exact Or.inr ⟨rfl, rfl⟩
          · exact Or.inl ⟨Or.inr h4, tail kv h4⟩
        · rintro (⟨rfl | h4, h5⟩ | ⟨h4, h5⟩)
          · exact absurd rfl h5
          · exact Or.inr h4
          · exact Or.inl (Prod.ext h5 h4.symm)

/-- Only the update of the node that is found matters. -/
theorem upsert_congr (h : Sound lt) {k : K} {new : Option V} {upd upd' : V → Option (Option V)} {v : V}
    (hu : upd v = upd' v) : ∀ m : List (K × V), Sorted m → (k, v) ∈ m →
      upsert lt k new upd m = upsert lt k new upd' m
  | [], _, hk => absurd hk List.not_mem_nil
  | (x, w) :: m, hs, hk => by
    unfold Sorted at hs
    rw [List.pairwise_cons] at hs
    have ih := fun hk : (k, v) ∈ m => upsert_congr h (new := new) hu m hs.2 hk
    simp only [upsert]
    cases h1 : lt x k with
    | none => rfl
    | some r1 =>
      cases r1
      · cases h2 : lt k x with
        | none => rfl
        | some r2 =>
          cases r2
          · have e1 := h _ _ _ h1
            have e2 := h _ _ _ h2
            have hx : x = k := le_antisymm (not_lt.1 (by simpa using e2.symm)) (not_lt.1 (by simpa using e1.symm))
            have hv : v = w := by
              rcases List.mem_cons.1 hk with h3 | h3
              · exact congrArg Prod.snd h3
              · exact absurd (hs.1 _ h3) (by simp [hx])
            subst hv
            simp [hu]
          · rfl
      · have hx : x < k := by simpa using (h _ _ _ h1).symm
        have hk' : (k, v) ∈ m := by
          rcases List.mem_cons.1 hk with h3 | h3
          · exact absurd (congrArg Prod.fst h3) (ne_of_gt hx)
          · exact h3
        simp [ih hk']

theorem sorted_find {dec : DecidableEq K} {m : List (K × V)} (hs : Sorted m) {kv : K × V} (hk : kv ∈ m) :
    (m.find? fun x => @decide (x.1 = kv.1) (dec _ _)) = some kv := by
  induction m with
  | nil => exact absurd hk List.not_mem_nil
  | cons a m ih =>
    unfold Sorted at hs
    rw [List.pairwise_cons] at hs
    rw [List.find?_cons]
    rcases List.mem_cons.1 hk with rfl | h1
    · simp
    · have : a.1 ≠ kv.1 := ne_of_lt (hs.1 _ h1)
      simp [this, ih hs.2 h1]

/-- If no node is erased, walking over the map itself is walking over a copy. -/
theorem selfFor_eq {dec : DecidableEq K} (h : Sound lt) (new : V → V) (upd upd' : V → V → Option (Option V)) :
    ∀ l m : List (K × V), Sorted m → Sorted l → (∀ kv ∈ l, kv ∈ m) →
      (∀ kv ∈ l, upd' kv.2 kv.2 = upd kv.2 kv.2) → (∀ kv ∈ l, upd kv.2 kv.2 ≠ some none) →
      @selfFor K V dec (fun k v m => upsert lt k (some (new v)) (upd' v) m) (l.map Prod.fst) m
        = l.foldlM (fun m kv => upsert lt kv.1 (some (new kv.2)) (upd kv.2) m) m
  | [], m, _, _, _, _, _ => rfl
  | a :: l, m, hs, hl, hm, hu, hn => by
    unfold Sorted at hl
    rw [List.pairwise_cons] at hl
    have ha := hm a (List.mem_cons_self ..)
    rw [List.map_cons, selfFor, sorted_find hs ha, List.foldlM_cons]
    simp only [Option.bind_eq_bind, Option.bind_some]
    rw [upsert_congr h (hu a (List.mem_cons_self ..)) m hs ha]
    cases h1 : upsert lt a.1 (some (new a.2)) (upd a.2) m with
    | none => rfl
    | some m' =>
      obtain ⟨r, h2, h3⟩ := upsert_present h (v := a.2) m m' hs ha h1
      obtain ⟨v', rfl⟩ : ∃ v', r = some v' := by
        cases r with
        | none => exact absurd h2 (hn a (List.mem_cons_self ..))
        | some v' => exact ⟨v', rfl⟩
      have h4 : (a.1, v') ∈ m' := (h3 _).2 (Or.inr ⟨rfl, rfl⟩)
      simp only [Option.bind_some]
      rw [if_pos (List.any_eq_true.2 ⟨_, h4, by simp⟩)]
      refine selfFor_eq h new upd upd' l m' (upsert_sorted h _ _ hs h1) hl.2 (fun kv hkv => ?_)
        (fun kv hkv => hu kv (List.mem_cons_of_mem _ hkv)) (fun kv hkv => hn kv (List.mem_cons_of_mem _ hkv))
      exact (h3 kv).2 (Or.inl ⟨hm kv (List.mem_cons_of_mem _ hkv), ne_of_gt (hl.1 kv hkv)⟩)

/-- If the first node is erased, the behaviour is undefined. -/
theorem selfFor_erase {dec : DecidableEq K} (h : Sound lt) (new : V → V) (upd : V → V → Option (Option V)) (a : K × V)
    (l m : List (K × V)) (hs : Sorted m) (ha : a ∈ m) (hu : ∀ r, upd a.2 a.2 = some r → r = none) :
    @selfFor K V dec (fun k v m => upsert lt k (some (new v)) (upd v) m) ((a :: l).map Prod.fst) m = none := by
  rw [List.map_cons, selfFor, sorted_find hs ha]
  simp only [Option.bind_eq_bind, Option.bind_some]
  cases h1 : upsert lt a.1 (some (new a.2)) (upd a.2) m with
  | none => rfl
  | some m' =>
    obtain ⟨r, h2, h3⟩ := upsert_present h (v := a.2) m m' hs ha h1
    rw [hu r h2] at h3
    simp only [Option.bind_some]
    rw [if_neg]
    intro h4
    obtain ⟨kv, h5, h6⟩ := List.any_eq_true.1 h4
    rcases (h3 kv).1 h5 with h7 | h7
    · exact h7.2 (by simpa using h6)
    · simp at h7

end Map
end Klein.Sym
