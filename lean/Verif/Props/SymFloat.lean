import Verif.Sym.FloatCoef
import Verif.Props.SymMeaning

/-!
# C86: the `float` coefficients of the symbolic engine

The theorems C58, C59 and C62 are about exact coefficients.  Here the coefficients are binary32, and
the operations are shown to give the exact integers as long as the sum of the absolute values of the
coefficients of the exact result cannot exceed `2^24`.
-/

namespace Klein.Sym
open F32 (ofZ)

/-! ### maps -/

section Map
variable {K V W : Type} {lt : K → K → Option Bool} {k : K}

/-- An insertion commutes with a change of the values. -/
theorem upsert_map (g : V → W) {new : Option V} {new' : Option W} {upd : V → Option (Option V)}
    {upd' : W → Option (Option W)} (hn : new' = new.map g) : ∀ m : List (K × V),
    (∀ kv ∈ m, upd' (g kv.2) = (upd kv.2).map (Option.map g)) →
    upsert lt k new' upd' (m.map (Prod.map id g)) = (upsert lt k new upd m).map (List.map (Prod.map id g))
  | [], _ => by
    subst hn
    cases new <;> rfl
  | (x, v) :: m, hu => by
    have ih := upsert_map g hn m fun kv hkv => hu kv (List.mem_cons_of_mem _ hkv)
    have h0 := hu (x, v) (List.mem_cons_self ..)
    simp only at h0
    simp only [List.map_cons, Prod.map_apply, id, upsert, Option.bind_eq_bind]
    rw [ih, h0, hn]
    cases lt x k with
    | none => rfl
    | some r1 =>
      cases r1
      · cases lt k x with
        | none => rfl
        | some r2 =>
          cases r2
          · cases upd v with
            | none => rfl
            | some r => cases r <;> rfl
          · cases new <;> rfl
      · cases upsert lt k new upd m <;> rfl

end Map

section Size
variable {K V : Type} [LinearOrder K] {lt : K → K → Option Bool} {k : K} {new : Option V}
  {upd : V → Option (Option V)}

/-- The growth of a size under an insertion. -/
theorem upsert_size_le (h : Sound lt) (size : V → ℕ) (δ : ℕ) (hn : ∀ v, new = some v → size v ≤ δ) :
    ∀ m m' : List (K × V), (∀ kv ∈ m, ∀ r, upd kv.2 = some r → r.elim 0 size ≤ size kv.2 + δ) →
      upsert lt k new upd m = some m' →
      (m'.map fun kv => size kv.2).sum ≤ (m.map fun kv => size kv.2).sum + δ
  | [], m', _, hm => by
    simp only [upsert, Option.bind_eq_bind, Option.bind_eq_some_iff, pure, Option.some.injEq] at hm
    obtain ⟨v, hv, rfl⟩ := hm
    simp [hn v hv]
  | (x, v) :: m, m', hu, hm => by
    rcases upsert_cons h hm with ⟨-, m'', h1, rfl⟩ | ⟨-, v0, h1, rfl⟩ | ⟨rfl, r, h1, rfl⟩
    · have := upsert_size_le h size δ hn m m'' (fun kv hkv => hu kv (List.mem_cons_of_mem _ hkv)) h1
      simp only [List.map_cons, List.sum_cons]; omega
    · have := hn v0 h1
      simp only [List.map_cons, List.sum_cons]; omega
    · have := hu _ (List.mem_cons_self ..) r h1
      cases r
      · simp only [Option.elim_none, List.map_cons, List.sum_cons] at this ⊢; omega
      · simp only [Option.elim_some, List.map_cons, List.sum_cons] at this ⊢; omega

theorem upsert_size (h : Sound lt) (size : V → ℕ) (δ : ℕ) (hn : ∀ v, new = some v → size v ≤ δ)
    (hu : ∀ v r, upd v = some r → r.elim 0 size ≤ size v + δ) (m m' : List (K × V))
    (hm : upsert lt k new upd m = some m') :
    (m'.map fun kv => size kv.2).sum ≤ (m.map fun kv => size kv.2).sum + δ :=
  upsert_size_le h size δ hn m m' (fun kv _ r hr => hu kv.2 r hr) hm

end Size

theorem mem_le_sum {α : Type} (f : α → ℕ) {l : List α} {x : α} (h : x ∈ l) : f x ≤ (l.map f).sum :=
  List.le_sum_of_mem (List.mem_map_of_mem h)

/-- A fold over mapped data, with a budget: each step may use up `cost a` of it. -/
theorem foldlM_sim {α β S T : Type} {f : S → α → Option S} {f' : T → β → Option T} (g : S → T) (q : α → β)
    (size : S → ℕ) (cost : α → ℕ) (I : S → Prop) (N : ℕ) :
    ∀ (l : List α) (s : S), I s → size s + (l.map cost).sum ≤ N →
      (∀ s a, a ∈ l → I s → size s + cost a ≤ N → f' (g s) (q a) = (f s a).map g ∧
        ∀ s', f s a = some s' → I s' ∧ size s' ≤ size s + cost a) →
      (l.map q).foldlM f' (g s) = (l.foldlM f s).map g ∧
        ∀ s', l.foldlM f s = some s' → I s' ∧ size s' ≤ size s + (l.map cost).sum
  | [], s, hI, hN, _ => by
    refine ⟨rfl, fun s' h => ?_⟩
    simp only [List.foldlM_nil] at h
    cases h
    exact ⟨hI, by simp⟩
  | a :: l, s, hI, hN, hf => by
    rw [List.map_cons, List.sum_cons] at hN
    obtain ⟨h1, h2⟩ := hf s a (List.mem_cons_self ..) hI (by omega)
    rw [List.map_cons, List.foldlM_cons, List.foldlM_cons, h1]
    cases h3 : f s a with
    | none => exact ⟨rfl, fun s' h => by simp at h⟩
    | some s1 =>
      obtain ⟨i1, b1⟩ := h2 s1 h3
      obtain ⟨h4, h5⟩ := foldlM_sim g q size cost I N l s1 i1 (by omega)
        fun s a ha => hf s a (List.mem_cons_of_mem _ ha)
      refine ⟨h4, fun s' h => ?_⟩
      obtain ⟨i2, b2⟩ := h5 s' h
      refine ⟨i2, ?_⟩
      rw [List.map_cons, List.sum_cons]; omega

/-! ### polynomials -/

namespace Poly
variable {X : Type} [LinearOrder X]

/-- The coefficients converted to `float`. -/
def toF (p : Poly X ℤ) : Poly X F32 := ⟨p.terms.map (Prod.map id ofZ)⟩

/-- The sum of the absolute values of the coefficients. -/
def l1 (p : Poly X ℤ) : ℕ := (p.terms.map fun mf => mf.2.natAbs).sum

theorem toF_nil (p : Poly X ℤ) : p.toF.terms = [] ↔ p.terms = [] := by simp [toF]

theorem addCoef_sim {f v : ℤ} (hf : f.natAbs + v.natAbs ≤ 2 ^ 24) :
    addCoef (ofZ f) (ofZ v) = (addCoef f v).map (Option.map ofZ) := by
  unfold addCoef
  rw [F32.ofZ_add (by omega) (by omega)]
  have hz := F32.isZ_ofZ (z := v + f) (by omega)
  by_cases h : v + f = 0
  · rw [if_pos (hz.2 h), if_pos (isZ_iff.2 h)]; rfl
  · rw [if_neg (fun e => h (hz.1 e)), if_neg (fun e => h (isZ_iff.1 e))]; rfl

theorem addCoef_size {f v : ℤ} {r : Option ℤ} (h : addCoef f v = some r) :
    r.elim 0 Int.natAbs ≤ v.natAbs + f.natAbs := by
  simp only [addCoef, Option.some.injEq] at h
  subst h
  split_ifs
  · simp
  · simp only [Option.elim_some]; omega

/-- Sums. -/
theorem add_sim {p q : Poly X ℤ} (h : p.l1 + q.l1 ≤ 2 ^ 24) :
    p.toF.addAssign q.toF = (p.addAssign q).map toF ∧
      ∀ r, p.addAssign q = some r → r.l1 ≤ p.l1 + q.l1 := by
  have key := foldlM_sim (f := fun ts (mf : Mon X × ℤ) => upsert Mon.lt mf.1 (some mf.2) (addCoef mf.2) ts)
    (f' := fun ts (mf : Mon X × F32) => upsert Mon.lt mf.1 (some mf.2) (addCoef mf.2) ts)
    (List.map (Prod.map id ofZ)) (Prod.map id ofZ) (fun ts => (ts.map fun mf => mf.2.natAbs).sum)
    (fun mf => mf.2.natAbs) (fun _ => True) (2 ^ 24) q.terms p.terms trivial h (fun s a ha _ hN => by
      refine ⟨upsert_map (new := some a.2) (upd := addCoef a.2) ofZ rfl s fun kv hkv => addCoef_sim ?_,
        fun s' hs' => ⟨trivial, ?_⟩⟩
      · have := mem_le_sum (fun mf : Mon X × ℤ => mf.2.natAbs) hkv
        omega
      · exact upsert_size Mon.lt_sound Int.natAbs a.2.natAbs (fun v hv => by cases hv; exact le_rfl)
          (fun v r hr => addCoef_size hr) s s' hs')
  constructor
  · unfold addAssign
    simp only [Option.bind_eq_bind]
    rw [show p.toF.terms = p.terms.map (Prod.map id ofZ) from rfl,
      show q.toF.terms = q.terms.map (Prod.map id ofZ) from rfl, key.1]
    cases q.terms.foldlM (fun ts (mf : Mon X × ℤ) => upsert Mon.lt mf.1 (some mf.2) (addCoef mf.2) ts) p.terms <;> rfl
  · intro r hr
    simp only [addAssign, Option.bind_eq_bind, Option.bind_eq_some_iff, pure, Option.some.injEq] at hr
    obtain ⟨ts, h1, rfl⟩ := hr
    exact (key.2 ts h1).2

/-- Changes of sign. -/
theorem neg_sim {p : Poly X ℤ} (h : p.l1 ≤ 2 ^ 24) (h0 : ∀ mf ∈ p.terms, mf.2 ≠ 0) :
    p.toF.neg = p.neg.toF ∧ p.neg.l1 = p.l1 := by
  constructor
  · unfold toF neg
    simp only [List.map_map]
    congr 1
    refine List.map_congr_left fun mf hmf => ?_
    have := mem_le_sum (fun mf : Mon X × ℤ => mf.2.natAbs) hmf
    simp only [Function.comp, Prod.map_apply, id]
    rw [Prod.map_snd, F32.ofZ_neg (this.trans h) (h0 mf hmf)]
    rfl
  · unfold l1 neg
    rw [List.map_map]
    congr 1
    refine List.map_congr_left fun mf _ => ?_
    simp

/-- One row of a product. -/
theorem row_sim {m1 : Mon X} {f1 : ℤ} {q : Poly X ℤ} (hf : f1 ≠ 0) (hq : ∀ mf ∈ q.terms, mf.2 ≠ 0)
    (h : f1.natAbs * q.l1 ≤ 2 ^ 24) (h1 : f1.natAbs ≤ 2 ^ 24) :
    row m1 (ofZ f1) q.toF = (row m1 f1 q).map toF ∧
      ∀ r, row m1 f1 q = some r → r.l1 ≤ f1.natAbs * q.l1 := by
  have hsum : (q.terms.map fun mf => f1.natAbs * mf.2.natAbs).sum = f1.natAbs * q.l1 := by
    unfold l1; rw [List.sum_map_mul_left]
  have key := foldlM_sim (f := fun ts (mf : Mon X × ℤ) =>
      if ZeroTest.IsZ (f1 * mf.2) then some ts
      else do
        let m ← m1.mul mf.1
        upsert Mon.lt m (some (0 + f1 * mf.2)) (fun v => some (some (v + f1 * mf.2))) ts)
    (f' := fun ts (mf : Mon X × F32) =>
      if ZeroTest.IsZ (ofZ f1 * mf.2) then some ts
      else do
        let m ← m1.mul mf.1
        upsert Mon.lt m (some (0 + ofZ f1 * mf.2)) (fun v => some (some (v + ofZ f1 * mf.2))) ts)
    (List.map (Prod.map id ofZ)) (Prod.map id ofZ) (fun ts => (ts.map fun mf => mf.2.natAbs).sum)
    (fun mf => f1.natAbs * mf.2.natAbs) (fun _ => True) (2 ^ 24) q.terms [] trivial (by simpa [hsum] using h)
    (fun s a ha _ hN => by
      have ha0 := hq a ha
      have hpos : 1 ≤ f1.natAbs := Int.natAbs_pos.2 hf
      have hab : (f1 * a.2).natAbs ≤ 2 ^ 24 := by rw [Int.natAbs_mul]; omega
      have ha1 : a.2.natAbs ≤ 2 ^ 24 := by
        have : 1 * a.2.natAbs ≤ f1.natAbs * a.2.natAbs := Nat.mul_le_mul_right _ hpos
        omega
      have e : ofZ f1 * (Prod.map id ofZ a).2 = ofZ (f1 * a.2) := F32.ofZ_mul h1 ha1 hf ha0
      have hne : f1 * a.2 ≠ 0 := mul_ne_zero hf ha0
      have hne' : ¬ ZeroTest.IsZ (ofZ (f1 * a.2)) := fun e => hne ((F32.isZ_ofZ hab).1 e)
      rw [e, if_neg hne', if_neg (fun e => hne (isZ_iff.1 e))]
      simp only [Prod.map_fst, id]
      cases hm : m1.mul a.1 with
      | none => exact ⟨rfl, fun s' h => by simp at h⟩
      | some m =>
        simp only [Option.bind_eq_bind, Option.bind_some]
        refine ⟨upsert_map ofZ ?_ s fun kv hkv => ?_, fun s' hs' => ⟨trivial, ?_⟩⟩
        · rw [← F32.ofZ_zero, F32.ofZ_add (by norm_num) hab]; rfl
        · have := mem_le_sum (fun mf : Mon X × ℤ => mf.2.natAbs) hkv
          rw [F32.ofZ_add (by omega) hab]; rfl
        · refine upsert_size Mon.lt_sound Int.natAbs _ (fun v hv => ?_) (fun v r hr => ?_) s s' hs'
          · cases hv; rw [zero_add, Int.natAbs_mul]
          · cases hr
            simp only [Option.elim_some]
            have := Int.natAbs_add_le v (f1 * a.2)
            rw [Int.natAbs_mul] at this
            exact this)
  constructor
  · unfold row
    simp only [Option.bind_eq_bind] at key ⊢
    have k1 := key.1
    rw [List.map_nil] at k1
    rw [show q.toF.terms = q.terms.map (Prod.map id ofZ) from rfl, k1]
    cases q.terms.foldlM (fun ts (mf : Mon X × ℤ) =>
      if ZeroTest.IsZ (f1 * mf.2) then some ts
      else (m1.mul mf.1).bind fun m =>
        upsert Mon.lt m (some (0 + f1 * mf.2)) (fun v => some (some (v + f1 * mf.2))) ts) [] <;> rfl
  · intro r hr
    simp only [row, Option.bind_eq_bind, Option.bind_eq_some_iff, pure, Option.some.injEq] at hr
    obtain ⟨ts, h2, rfl⟩ := hr
    have := (key.2 ts h2).2
    rw [hsum] at this
    simpa [l1] using this

/-- Products. -/
theorem mul_sim {p q : Poly X ℤ} (hp : ∀ mf ∈ p.terms, mf.2 ≠ 0) (hq : ∀ mf ∈ q.terms, mf.2 ≠ 0)
    (h : p.l1 * q.l1 ≤ 2 ^ 24) (h1 : p.l1 ≤ 2 ^ 24) :
    p.toF.mul q.toF = (p.mul q).map toF ∧ ∀ r, p.mul q = some r → r.l1 ≤ p.l1 * q.l1 := by
  have hsum : (p.terms.map fun mf => mf.2.natAbs * q.l1).sum = p.l1 * q.l1 := by
    show _ = (p.terms.map fun mf => mf.2.natAbs).sum * q.l1
    rw [List.sum_map_mul_right]
  have key := foldlM_sim (f := fun out (mf : Mon X × ℤ) => do Poly.addAssign out (← row mf.1 mf.2 q))
    (f' := fun out (mf : Mon X × F32) => do Poly.addAssign out (← row mf.1 mf.2 q.toF))
    toF (Prod.map id ofZ) l1 (fun mf => mf.2.natAbs * q.l1) (fun _ => True) (2 ^ 24) p.terms ⟨[]⟩ trivial
    (by rw [hsum]; simpa [l1] using h) (fun s a ha _ hN => by
      have ha1 := mem_le_sum (fun mf : Mon X × ℤ => mf.2.natAbs) ha
      obtain ⟨r1, r2⟩ := row_sim (m1 := a.1) (hp a ha) hq (by omega) (ha1.trans h1)
      simp only [Prod.map_fst, id, Prod.map_snd]
      rw [r1]
      cases hr : row a.1 a.2 q with
      | none => exact ⟨rfl, fun s' h => by simp at h⟩
      | some t =>
        have ht := r2 t hr
        obtain ⟨s1, s2⟩ := add_sim (p := s) (q := t) (by omega)
        refine ⟨s1, fun s' hs' => ⟨trivial, (s2 s' hs').trans ?_⟩⟩
        omega)
  refine ⟨key.1, fun r hr => ?_⟩
  have := (key.2 r hr).2
  rw [hsum] at this
  simpa [l1] using this

theorem nz {p : Poly X ℤ} (h : p.Canon) : ∀ mf ∈ p.terms, mf.2 ≠ 0 := fun mf hmf => (h.2 mf hmf).2

end Poly

/-! ### multivectors -/

namespace Mv
variable {X : Type} [LinearOrder X]

/-- The coefficients converted to `float`. -/
def toF (m : Mv X ℤ) : Mv X F32 := ⟨m.alg, m.terms.map (Prod.map id Poly.toF)⟩

/-- The sum of the absolute values of the coefficients of a list of terms. -/
def l1T (ts : List (ℕ × Poly X ℤ)) : ℕ := (ts.map fun ep => ep.2.l1).sum

/-- The sum of the absolute values of the coefficients. -/
def l1 (m : Mv X ℤ) : ℕ := l1T m.terms

theorem push_sim {m : Mv X ℤ} {e : ℕ} {p : Poly X ℤ} (h : m.l1 + p.l1 ≤ 2 ^ 24) :
    m.toF.push e p.toF = (m.push e p).map toF ∧ ∀ r, m.push e p = some r → r.l1 ≤ m.l1 + p.l1 := by
  have key := upsert_map (K := ℕ) (lt := ltE) (k := e) Poly.toF (new := some p)
    (new' := some p.toF) (upd := fun v => do
      let s ← v.addAssign p
      return if s.terms = [] then none else some s)
    (upd' := fun v => do
      let s ← v.addAssign p.toF
      return if s.terms = [] then none else some s) rfl m.terms (fun kv hkv => by
      have hl := mem_le_sum (fun ep : ℕ × Poly X ℤ => ep.2.l1) hkv
      have hb : kv.2.l1 + p.l1 ≤ 2 ^ 24 := by
        have : kv.2.l1 ≤ m.l1 := hl
        omega
      simp only [Option.bind_eq_bind, (Poly.add_sim hb).1]
      cases kv.2.addAssign p with
      | none => rfl
      | some s =>
        simp only [Option.map_some, Option.bind_some, pure, Poly.toF_nil]
        split_ifs <;> rfl)
  constructor
  · unfold push
    simp only [Option.bind_eq_bind] at key ⊢
    rw [show m.toF.terms = m.terms.map (Prod.map id Poly.toF) from rfl, key]
    generalize upsert ltE e (some p) _ m.terms = o
    cases o <;> rfl
  · intro r hr
    simp only [push, Option.bind_eq_bind, Option.bind_eq_some_iff, pure, Option.some.injEq] at hr
    obtain ⟨ts, h1, rfl⟩ := hr
    refine upsert_size_le (K := Bl) ltE_sound Poly.l1 p.l1 (fun v hv => by cases hv; exact le_rfl) m.terms ts
      (fun kv hkv r hr => ?_) h1
    have hl : kv.2.l1 ≤ m.l1 := mem_le_sum (fun ep : ℕ × Poly X ℤ => ep.2.l1) hkv
    simp only [Option.bind_eq_some_iff, Option.some.injEq] at hr
    obtain ⟨s, h2, rfl⟩ := hr
    have := (Poly.add_sim (p := kv.2) (q := p) (by omega)).2 s h2
    split_ifs
    · simp
    · exact this

theorem add_sim {m n : Mv X ℤ} (h : m.l1 + n.l1 ≤ 2 ^ 24) :
    m.toF.add n.toF = (m.add n).map toF ∧ ∀ r, m.add n = some r → r.l1 ≤ m.l1 + n.l1 := by
  have key := foldlM_sim (f := fun (out : Mv X ℤ) (ep : ℕ × Poly X ℤ) => out.push ep.1 ep.2)
    (f' := fun (out : Mv X F32) (ep : ℕ × Poly X F32) => out.push ep.1 ep.2)
    toF (Prod.map id Poly.toF) l1 (fun ep => ep.2.l1) (fun _ => True) (2 ^ 24) n.terms m trivial h
    (fun s a _ _ hN => ⟨(push_sim hN).1, fun s' hs' => ⟨trivial, (push_sim hN).2 s' hs'⟩⟩)
  exact ⟨key.1, fun r hr => (key.2 r hr).2⟩

theorem sub_sim {m n : Mv X ℤ} (hn : n.Canon) (h : m.l1 + n.l1 ≤ 2 ^ 24) :
    m.toF.sub n.toF = (m.sub n).map toF ∧ ∀ r, m.sub n = some r → r.l1 ≤ m.l1 + n.l1 := by
  have key := foldlM_sim (f := fun (out : Mv X ℤ) (ep : ℕ × Poly X ℤ) => out.push ep.1 ep.2.neg)
    (f' := fun (out : Mv X F32) (ep : ℕ × Poly X F32) => out.push ep.1 ep.2.neg)
    toF (Prod.map id Poly.toF) l1 (fun ep => ep.2.l1) (fun _ => True) (2 ^ 24) n.terms m trivial h
    (fun s a ha _ hN => by
      have ⟨e1, e2⟩ := Poly.neg_sim (p := a.2) (by omega) (Poly.nz (hn.2 a ha).1)
      have ⟨h1, h2⟩ := push_sim (m := s) (e := a.1) (p := a.2.neg) (by omega)
      refine ⟨?_, fun s' hs' => ⟨trivial, ?_⟩⟩
      · rw [← h1, ← e1]; rfl
      · rw [← e2]; exact h2 s' hs')
  exact ⟨key.1, fun r hr => (key.2 r hr).2⟩

theorem neg_sim {m : Mv X ℤ} (hm : m.Canon) (h : m.l1 ≤ 2 ^ 24) :
    m.toF.neg = m.neg.toF ∧ m.neg.l1 = m.l1 := by
  have key := fun ep (hep : ep ∈ m.terms) => Poly.neg_sim (p := ep.2)
    ((mem_le_sum (fun ep : ℕ × Poly X ℤ => ep.2.l1) hep).trans h) (Poly.nz (hm.2 ep hep).1)
  constructor
  · unfold toF neg
    simp only [List.map_map]
    congr 1
    refine List.map_congr_left fun ep hep => ?_
    simp only [Function.comp, Prod.map_snd]
    rw [(key ep hep).1]
    rfl
  · unfold l1 l1T neg
    rw [List.map_map]
    congr 1
    exact List.map_congr_left fun ep hep => (key ep hep).2

theorem revT_sim {m : Mv (List Char) ℤ} (hm : m.Canon) (h : m.l1 ≤ 2 ^ 24) :
    m.toF.revT = m.revT.toF ∧ m.revT.l1 = m.l1 := by
  have key := fun ep (hep : ep ∈ m.terms) => Poly.neg_sim (p := ep.2)
    ((mem_le_sum (fun ep : ℕ × Poly (List Char) ℤ => ep.2.l1) hep).trans h) (Poly.nz (hm.2 ep hep).1)
  constructor
  · unfold toF revT
    simp only [List.map_map]
    congr 1
    refine List.map_congr_left fun ep hep => ?_
    simp only [Function.comp, Prod.map_snd, Prod.map_fst, id]
    rw [(key ep hep).1]
    split_ifs <;> rfl
  · unfold l1 l1T revT
    rw [List.map_map]
    congr 1
    refine List.map_congr_left fun ep hep => ?_
    simp only [Function.comp]
    split_ifs
    · exact (key ep hep).2
    · rfl

/-- One step of a product. -/
theorem step_sim {op : ℕ → ℕ → Option ℤ} {e1 : ℕ} {p1 : Poly X ℤ} {s : List (ℕ × Poly X ℤ)}
    {ep : ℕ × Poly X ℤ} (h1 : p1.Canon) (h2 : ep.2.Canon) (hl : p1.l1 ≤ 2 ^ 24)
    (h : l1T s + p1.l1 * ep.2.l1 ≤ 2 ^ 24) :
    step op e1 p1.toF (s.map (Prod.map id Poly.toF)) (Prod.map id Poly.toF ep)
      = (step op e1 p1 s ep).map (List.map (Prod.map id Poly.toF)) ∧
    ∀ s', step op e1 p1 s ep = some s' → l1T s' ≤ l1T s + p1.l1 * ep.2.l1 := by
  unfold step
  simp only [Prod.map_fst, id, Prod.map_snd, Option.bind_eq_bind]
  cases op e1 ep.1 with
  | none => exact ⟨rfl, fun s' h => by simp at h⟩
  | some z =>
    simp only [Option.bind_some]
    by_cases hz : z = 0
    · rw [if_pos hz, if_pos hz]
      refine ⟨rfl, fun s' hs' => ?_⟩
      cases hs'
      omega
    · rw [if_neg hz, if_neg hz]
      obtain ⟨m1, m2⟩ := Poly.mul_sim (Poly.nz h1) (Poly.nz h2) (by omega) hl
      rw [m1]
      cases hp : p1.mul ep.2 with
      | none => exact ⟨rfl, fun s' h => by simp at h⟩
      | some p12 =>
        have hb := m2 p12 hp
        have hc := Poly.mul_canon h1 h2 hp
        simp only [Option.map_some, Option.bind_some]
        have hn := Poly.neg_sim (p := p12) (by omega) (Poly.nz hc)
        obtain ⟨q, hq, hq', hql⟩ : ∃ q : Poly X ℤ, (if z < 0 then p12.neg else p12) = q ∧
            (if z < 0 then p12.toF.neg else p12.toF) = q.toF ∧ q.l1 ≤ p1.l1 * ep.2.l1 := by
          split_ifs
          · exact ⟨_, rfl, hn.1, by rw [hn.2]; exact hb⟩
          · exact ⟨_, rfl, rfl, hb⟩
        rw [hq, hq']
        have hs : ∀ kv ∈ s, kv.2.l1 ≤ l1T s := fun kv hkv =>
          mem_le_sum (fun ep : ℕ × Poly X ℤ => ep.2.l1) hkv
        obtain ⟨a1, a2⟩ := Poly.add_sim (p := (⟨[]⟩ : Poly X ℤ)) (q := q) (by
          have : (⟨[]⟩ : Poly X ℤ).l1 = 0 := rfl
          omega)
        refine ⟨upsert_map (K := ℕ) Poly.toF a1 s fun kv hkv => ?_, fun s' hs' => ?_⟩
        · have hk := hs kv hkv
          simp only [(Poly.add_sim (p := kv.2) (q := q) (by omega)).1]
          cases kv.2.addAssign q <;> rfl
        · have := upsert_size_le (K := Bl) ltE_sound Poly.l1 q.l1 (fun v hv => by
            have := a2 v hv
            have h0 : (⟨[]⟩ : Poly X ℤ).l1 = 0 := rfl
            omega) s s' (fun kv hkv r hr => by
            have hk := hs kv hkv
            simp only [Option.bind_eq_some_iff, pure, Option.some.injEq] at hr
            obtain ⟨t, h3, rfl⟩ := hr
            exact (Poly.add_sim (p := kv.2) (q := q) (by omega)).2 t h3) hs'
          exact le_trans this (Nat.add_le_add_left hql _)

theorem prune_toF (ts : List (ℕ × Poly X ℤ)) :
    prune (ts.map (Prod.map id Poly.toF)) = (prune ts).map (Prod.map id Poly.toF) := by
  unfold prune
  rw [List.filter_map]
  congr 1
  refine List.filter_congr fun ep _ => ?_
  simp only [Function.comp, Prod.map_snd, ne_eq, Poly.toF_nil]

/-- Products. -/
theorem prod_sim {op : Alg → ℕ → ℕ → Option ℤ} {m n : Mv X ℤ} (hm : m.Canon) (hn : n.Canon)
    (hl : m.l1 ≤ 2 ^ 24) (h : m.l1 * n.l1 ≤ 2 ^ 24) :
    prod op m.toF n.toF = (prod op m n).map toF ∧ ∀ r, prod op m n = some r → r.l1 ≤ m.l1 * n.l1 := by
  unfold prod
  simp only [Option.bind_eq_bind]
  rw [show m.toF.alg = m.alg from rfl]
  cases m.alg with
  | none => exact ⟨rfl, fun r h => by simp at h⟩
  | some a =>
    simp only [Option.bind_some]
    have inner : ∀ ep ∈ m.terms, ∀ s, l1T s + ep.2.l1 * n.l1 ≤ 2 ^ 24 →
        (n.terms.map (Prod.map id Poly.toF)).foldlM (step (op a) ep.1 ep.2.toF)
          (s.map (Prod.map id Poly.toF)) = (n.terms.foldlM (step (op a) ep.1 ep.2) s).map
            (List.map (Prod.map id Poly.toF)) ∧
        ∀ s', n.terms.foldlM (step (op a) ep.1 ep.2) s = some s' → l1T s' ≤ l1T s + ep.2.l1 * n.l1 := by
      intro ep hep s hs
      have e : (n.terms.map fun fq => ep.2.l1 * fq.2.l1).sum = ep.2.l1 * n.l1 := by
        show _ = ep.2.l1 * (n.terms.map fun fq => fq.2.l1).sum
        rw [List.sum_map_mul_left]
      have := foldlM_sim (f := step (op a) ep.1 ep.2) (f' := step (op a) ep.1 ep.2.toF)
        (List.map (Prod.map id Poly.toF)) (Prod.map id Poly.toF) l1T (fun fq => ep.2.l1 * fq.2.l1)
        (fun _ => True) (2 ^ 24) n.terms s trivial (by rw [e]; exact hs) (fun s fq hfq _ hN => by
          have hep1 : ep.2.l1 ≤ m.l1 := mem_le_sum (fun ep : ℕ × Poly X ℤ => ep.2.l1) hep
          obtain ⟨h1, h2⟩ := step_sim (op := op a) (e1 := ep.1) (hm.2 ep hep).1 (hn.2 fq hfq).1
            (hep1.trans hl) hN
          exact ⟨h1, fun s' hs' => ⟨trivial, h2 s' hs'⟩⟩)
      refine ⟨this.1, fun s' hs' => ?_⟩
      have := (this.2 s' hs').2
      rwa [e] at this
    have e : (m.terms.map fun ep => ep.2.l1 * n.l1).sum = m.l1 * n.l1 := by
      show _ = (m.terms.map fun ep => ep.2.l1).sum * n.l1
      rw [List.sum_map_mul_right]
    have key := foldlM_sim (f := fun out (ep : ℕ × Poly X ℤ) => n.terms.foldlM (step (op a) ep.1 ep.2) out)
      (f' := fun out (ep : ℕ × Poly X F32) => n.toF.terms.foldlM (step (op a) ep.1 ep.2) out)
      (List.map (Prod.map id Poly.toF)) (Prod.map id Poly.toF) l1T (fun ep => ep.2.l1 * n.l1)
      (fun _ => True) (2 ^ 24) m.terms [] trivial (by rw [e]; simpa [l1T] using h)
      (fun s ep hep _ hN => ⟨(inner ep hep s hN).1, fun s' hs' => ⟨trivial, (inner ep hep s hN).2 s' hs'⟩⟩)
    constructor
    · have k1 := key.1
      rw [List.map_nil] at k1
      rw [show m.toF.terms = m.terms.map (Prod.map id Poly.toF) from rfl, k1]
      cases m.terms.foldlM (fun out (ep : ℕ × Poly X ℤ) => n.terms.foldlM (step (op a) ep.1 ep.2) out) [] with
      | none => rfl
      | some ts =>
        simp only [Option.map_some, Option.bind_some, pure, prune_toF]
        rfl
    · intro r hr
      simp only [Option.bind_eq_some_iff, pure, Option.some.injEq] at hr
      obtain ⟨ts, h1, rfl⟩ := hr
      have h2 := (key.2 ts h1).2
      rw [e] at h2
      have h3 : l1T (prune ts) ≤ l1T ts := by
        unfold l1T prune
        exact List.Sublist.sum_le_sum (List.Sublist.map _ List.filter_sublist) (fun _ _ => Nat.zero_le _)
      show l1T (prune ts) ≤ _
      have h4 : l1T ([] : List (ℕ × Poly X ℤ)) = 0 := rfl
      omega

theorem neg_canon {m : Mv X ℤ} (h : m.Canon) : m.neg.Canon := by
  refine ⟨List.pairwise_map.2 h.1, fun ep hep => ?_⟩
  simp only [neg, List.mem_map] at hep
  obtain ⟨⟨e, p⟩, h1, rfl⟩ := hep
  have := h.2 _ h1
  exact ⟨Poly.neg_canon this.1, by simpa [Poly.neg] using this.2⟩

theorem revT_canon {m : Mv (List Char) ℤ} (h : m.Canon) : m.revT.Canon := by
  refine ⟨List.pairwise_map.2 h.1, fun ep hep => ?_⟩
  simp only [revT, List.mem_map] at hep
  obtain ⟨⟨e, p⟩, h1, rfl⟩ := hep
  have := h.2 _ h1
  simp only
  split_ifs
  · exact ⟨Poly.neg_canon this.1, by simpa [Poly.neg] using this.2⟩
  · exact this

end Mv

/-! ### expressions -/

/-- Numbers converted to `float`. -/
def Ast.toF : Ast ℤ → Ast F32
  | .atom x v b n => .atom (ofZ x) v b n
  | .neg e => .neg e.toF
  | .rev e => .rev e.toF
  | .bin o l r => .bin o l.toF r.toF

/-- Numbers converted to `float`. -/
def Token.toF : Token ℤ → Token F32
  | .number x => .number (ofZ x)
  | .element v n => .element v n
  | .identifier s => .identifier s
  | .op c => .op c
  | .delimiter c => .delimiter c
  | .eof => .eof

/-- A bound on the coefficients: the numbers, added in sums and multiplied in products. -/
def Ast.size : Ast ℤ → ℕ
  | .atom x _ _ _ => x.natAbs
  | .neg e => e.size
  | .rev e => e.size
  | .bin .add l r => l.size + r.size
  | .bin .sub l r => l.size + r.size
  | .bin _ l r => l.size * r.size

theorem Ast.size_pos : ∀ e : Ast ℤ, e.Nums (fun x => x ≠ 0) → 1 ≤ e.size
  | .atom x _ _ _, h => Int.natAbs_pos.2 h
  | .neg e, h => Ast.size_pos e h
  | .rev e, h => Ast.size_pos e h
  | .bin o l r, h => by
    have hl := Ast.size_pos l h.1
    have hr := Ast.size_pos r h.2
    cases o <;> simp only [Ast.size]
    · omega
    · omega
    all_goals exact Nat.mul_pos hl hr

/-- The values of an expression over `float` are those over the integers. -/
theorem Ast.value_sim (a : Alg) : ∀ e : Ast ℤ, e.Nums (fun x => x ≠ 0) → e.size ≤ 2 ^ 24 →
    e.toF.value a = (e.value a).map Mv.toF ∧ ∀ m, e.value a = some m → m.Canon ∧ m.l1 ≤ e.size
  | .atom x v b n, h0, hs => by
    have hx : x.natAbs ≤ 2 ^ 24 := hs
    constructor
    · simp only [Ast.toF, Ast.value, Option.map_some, Mv.toF, Poly.toF, List.map_cons, List.map_nil,
        Prod.map_apply, id]
      cases n
      · rfl
      · simp only [if_true]
        rw [F32.ofZ_neg hx h0]
    · intro m hm
      simp only [Ast.value, Option.some.injEq] at hm
      subst hm
      refine ⟨⟨List.pairwise_singleton _ _, fun ep hep => ?_⟩, ?_⟩
      · simp only [List.mem_singleton] at hep
        subst hep
        refine ⟨⟨List.pairwise_singleton _ _, fun mf hmf => ?_⟩, by simp⟩
        simp only [List.mem_singleton] at hmf
        subst hmf
        refine ⟨?_, ?_⟩
        · cases v
          · exact ⟨List.Pairwise.nil, by simp [monOf]⟩
          · exact ⟨List.pairwise_singleton _ _, by simp [monOf]⟩
        · have : x ≠ 0 := h0
          cases n <;> simpa using this
      · cases n <;> simp [Mv.l1, Mv.l1T, Poly.l1, Ast.size]
  | .neg e, h0, hs => by
    obtain ⟨h1, h2⟩ := Ast.value_sim a e h0 hs
    have hs' : e.size ≤ 2 ^ 24 := hs
    simp only [Ast.toF, Ast.value, h1]
    cases hv : e.value a with
    | none => exact ⟨by first | rfl | trivial, fun m h => by simp at h⟩
    | some m =>
      obtain ⟨h3, h4⟩ := h2 m hv
      obtain ⟨h5, h6⟩ := Mv.neg_sim h3 (h4.trans hs')
      simp only [Option.map_some, h5]
      refine ⟨by first | rfl | trivial, fun m' hm' => ?_⟩
      cases hm'
      exact ⟨Mv.neg_canon h3, by rw [h6]; exact h4⟩
  | .rev e, h0, hs => by
    obtain ⟨h1, h2⟩ := Ast.value_sim a e h0 hs
    have hs' : e.size ≤ 2 ^ 24 := hs
    simp only [Ast.toF, Ast.value, h1]
    cases hv : e.value a with
    | none => exact ⟨by first | rfl | trivial, fun m h => by simp at h⟩
    | some m =>
      obtain ⟨h3, h4⟩ := h2 m hv
      obtain ⟨h5, h6⟩ := Mv.revT_sim h3 (h4.trans hs')
      simp only [Option.map_some, h5]
      refine ⟨by first | rfl | trivial, fun m' hm' => ?_⟩
      cases hm'
      exact ⟨Mv.revT_canon h3, by rw [h6]; exact h4⟩
  | .bin o l r, h0, hs => by
    have pl := Ast.size_pos l h0.1
    have pr := Ast.size_pos r h0.2
    have hl : l.size ≤ 2 ^ 24 := by
      cases o <;> simp only [Ast.size] at hs
      · omega
      · omega
      all_goals exact (Nat.le_mul_of_pos_right _ pr).trans hs
    have hr : r.size ≤ 2 ^ 24 := by
      cases o <;> simp only [Ast.size] at hs
      · omega
      · omega
      all_goals exact (Nat.le_mul_of_pos_left _ pl).trans hs
    obtain ⟨h1, h2⟩ := Ast.value_sim a l h0.1 hl
    obtain ⟨g1, g2⟩ := Ast.value_sim a r h0.2 hr
    simp only [Ast.toF, Ast.value, h1, g1, Option.bind_eq_bind]
    cases hv : l.value a with
    | none => exact ⟨by first | rfl | trivial, fun m h => by simp at h⟩
    | some m =>
      cases hw : r.value a with
      | none => exact ⟨by first | rfl | trivial, fun m h => by simp at h⟩
      | some n =>
        simp only [Option.map_some, Option.bind_some]
        obtain ⟨h3, h4⟩ := h2 m hv
        obtain ⟨g3, g4⟩ := g2 n hw
        have pm : m.l1 * n.l1 ≤ l.size * r.size := Nat.mul_le_mul h4 g4
        cases o with
        | add =>
          simp only [Ast.size] at hs
          obtain ⟨k1, k2⟩ := Mv.add_sim (m := m) (n := n) (by omega)
          exact ⟨k1, fun x hx => ⟨(Mv.C59_add_canonical_partial m n x h3 g3).1 hx,
            (k2 x hx).trans (Nat.add_le_add h4 g4)⟩⟩
        | sub =>
          simp only [Ast.size] at hs
          obtain ⟨k1, k2⟩ := Mv.sub_sim (m := m) g3 (by omega)
          exact ⟨k1, fun x hx => ⟨(Mv.C59_add_canonical_partial m n x h3 g3).2 hx,
            (k2 x hx).trans (Nat.add_le_add h4 g4)⟩⟩
        | _ =>
          simp only [Ast.size] at hs
          obtain ⟨k1, k2⟩ := Mv.prod_sim h3 g3 (h4.trans hl) (pm.trans hs)
          exact ⟨k1, fun x hx => ⟨Mv.C59_prod_canonical_partial _ m n x h3 g3 hx, (k2 x hx).trans pm⟩⟩

theorem derives_toF {k : ℕ} {ts : List (Token ℤ)} {e : Ast ℤ} (h : Derives k ts e) :
    Derives k (ts.map Token.toF) e.toF := by
  induction h with
  | number x => exact .number _
  | numberElement x v n => exact .numberElement _ v n
  | identifier s =>
    show Derives 5 [.identifier s] (.atom (ofZ 1) (some s) 0 false)
    rw [F32.ofZ_one]; exact .identifier s
  | identifierElement s v n =>
    show Derives 5 [.identifier s, .element v n] (.atom (ofZ 1) (some s) v n)
    rw [F32.ofZ_one]; exact .identifierElement s v n
  | element v n =>
    show Derives 5 [.element v n] (.atom (ofZ 1) none v n)
    rw [F32.ofZ_one]; exact .element v n
  | @paren ts e _ ih =>
    rw [List.map_append, List.map_cons]
    exact .paren ih
  | plus _ ih => exact .plus ih
  | minus _ ih => exact .minus ih
  | tilde _ ih => exact .tilde ih
  | lift hk _ ih => exact .lift hk ih
  | bin ho _ _ ihl ihr =>
    rw [List.map_append, List.map_cons]
    exact .bin ho ihl ihr

/-! ### C86 -/

/-- C86: the laws of signs the parser relies on hold of `float`, infinities and quiet NaNs included.
(`stof` returns no signalling NaN.) -/
theorem C86_signs : Signs F32.Quiet where
  zero := F32.quiet_of_not_nan (by decide)
  one := F32.quiet_of_not_nan (by decide)
  negOne := F32.quiet_of_not_nan (by decide)
  add := fun {x y} _ _ => F32.quiet_add x y
  mul := fun {x y} _ _ => F32.quiet_mul x y
  twice := fun h => F32.mul_neg_one_twice h
  one_mul := by rw [F32.mul_neg_one (by decide)]

/-- C86: with `float` coefficients too, the parser returns exactly the values of the derivations of
the prefixes followed by `eof` or a parenthesis; the values are those of the operations on `float`,
with their roundings. -/
theorem C86_parse_exact (a : Alg) (ts : List (Token F32)) (hx : ∀ x, Token.number x ∈ ts → F32.Quiet x)
    (hts : EndsEof ts) (m : Mv (List Char) F32) :
    parseTokens a ts = .ok m ↔ ∃ pre t rest e, ts = pre ++ t :: rest ∧
      (t = .eof ∨ ∃ c, t = .delimiter c) ∧ Derives 0 pre e ∧ e.value a = some m :=
  exact_of_signs C86_signs a ts hx hts m

/-- The value of a tree over `float` is defined as long as no exponent can leave `int`, whatever the
coefficients: infinities and NaN included. -/
theorem Ast.value_defined : ∀ e : Ast F32, e.In → e.deg < 2 ^ 31 →
    ∃ m, e.value ⟨3, 0, 1⟩ = some m ∧ m.alg = some ⟨3, 0, 1⟩ ∧ m.Keys ⟨3, 0, 1⟩ ∧ m.Within e.deg
  | .atom x v b n, hi, hd => by
    refine ⟨_, rfl, rfl, ?_, ?_⟩
    · intro ep hep
      simp only [List.mem_singleton] at hep
      subst hep
      exact hi
    · intro ep hep mf hmf
      simp only [List.mem_singleton] at hep
      subst hep
      simp only [List.mem_singleton] at hmf
      subst hmf
      cases v <;> simp [monOf, Mon.norm, Ast.deg]
  | .neg e, hi, hd => by
    obtain ⟨m, h1, h2, h3, h4⟩ := Ast.value_defined e hi hd
    refine ⟨m.neg, by simp [Ast.value, h1], h2, ?_, ?_⟩
    · intro ep hep
      simp only [Mv.neg, List.mem_map] at hep
      obtain ⟨ep', h, rfl⟩ := hep
      exact h3 ep' h
    · intro ep hep
      simp only [Mv.neg, List.mem_map] at hep
      obtain ⟨ep', h, rfl⟩ := hep
      exact Poly.neg_within (h4 ep' h)
  | .rev e, hi, hd => by
    obtain ⟨m, h1, h2, h3, h4⟩ := Ast.value_defined e hi hd
    refine ⟨m.revT, by simp [Ast.value, h1], h2, ?_, ?_⟩
    · intro ep hep
      simp only [Mv.revT, List.mem_map] at hep
      obtain ⟨ep', h, rfl⟩ := hep
      exact h3 ep' h
    · intro ep hep
      simp only [Mv.revT, List.mem_map] at hep
      obtain ⟨ep', h, rfl⟩ := hep
      simp only
      split_ifs
      · exact Poly.neg_within (h4 ep' h)
      · exact h4 ep' h
  | .bin o l r, hi, hd => by
    have hl : l.deg < 2 ^ 31 := by cases o <;> simp only [Ast.deg] at hd <;> omega
    have hr : r.deg < 2 ^ 31 := by cases o <;> simp only [Ast.deg] at hd <;> omega
    obtain ⟨m, h1, h2, h3, h4⟩ := Ast.value_defined l hi.1 hl
    obtain ⟨n, g1, g2, g3, g4⟩ := Ast.value_defined r hi.2 hr
    have hv : (Ast.bin o l r).value ⟨3, 0, 1⟩ = o.apply m n := by
      simp [Ast.value, h1, g1]
    rw [hv]
    cases o with
    | add =>
      obtain ⟨⟨x, k1, k2, k3⟩, -⟩ := Mv.C59_add_defined ⟨3, 0, 1⟩ m n _ hd
        (h4.mono (le_max_left ..)) (g4.mono (le_max_right ..)) h3 g3
      exact ⟨x, k1, (BinOp.apply_alg (o := .add) k1).trans h2, k3, k2⟩
    | sub =>
      obtain ⟨-, ⟨x, k1, k2, k3⟩⟩ := Mv.C59_add_defined ⟨3, 0, 1⟩ m n _ hd
        (h4.mono (le_max_left ..)) (g4.mono (le_max_right ..)) h3 g3
      exact ⟨x, k1, (BinOp.apply_alg (o := .sub) k1).trans h2, k3, k2⟩
    | mul =>
      obtain ⟨⟨x, k1, k2, k3, -⟩, -⟩ := Mv.C59_mul_defined ⟨3, 0, 1⟩ (by decide) m n _ _ hd h2 h4 g4 h3 g3
      exact ⟨x, k1, (Mv.prod_alg k1).trans h2, k3, k2⟩
    | ext =>
      obtain ⟨x, k1, k2, k3, -⟩ := Mv.C59_ext_defined ⟨3, 0, 1⟩ (by decide) m n _ _ hd h2 h4 g4 h3 g3
      exact ⟨x, k1, (Mv.prod_alg k1).trans h2, k3, k2⟩
    | reg =>
      obtain ⟨x, k1, k2, k3, -⟩ := Mv.C59_reg_defined m n _ _ hd h2 h4 g4 h3 g3
      exact ⟨x, k1, (Mv.prod_alg k1).trans h2, k3, k2⟩
    | dot =>
      obtain ⟨-, ⟨x, k1, k2, k3, -⟩⟩ := Mv.C59_mul_defined ⟨3, 0, 1⟩ (by decide) m n _ _ hd h2 h4 g4 h3 g3
      exact ⟨x, k1, (Mv.prod_alg k1).trans h2, k3, k2⟩

/-- C86: so every expression of the grammar is parsed over `float`, whatever its numbers. -/
theorem C86_defined (ts : List (Token F32)) (e : Ast F32) (h : Derives 0 ts e) (hi : e.In)
    (hd : e.deg < 2 ^ 31) (hx : ∀ x, Token.number x ∈ ts → F32.Quiet x) :
    ∃ m, e.value ⟨3, 0, 1⟩ = some m ∧ parseTokens ⟨3, 0, 1⟩ (ts ++ [.eof]) = .ok m := by
  obtain ⟨m, h1, -⟩ := Ast.value_defined e hi hd
  exact ⟨m, h1, complete_of_signs C86_signs _ _ _ e m hx h h1 ⟨Token.eof, [], rfl, Or.inl rfl⟩⟩

/-- C86: polynomials with integer coefficients.  While the sums of the absolute values of the
coefficients, multiplied for a product and added for a sum, do not exceed `2^24`, the operations on
`float` give the exact coefficients. -/
theorem C86_poly {X : Type} [LinearOrder X] (p q : Poly X ℤ) (hp : p.Canon) (hq : q.Canon) :
    (p.l1 + q.l1 ≤ 2 ^ 24 → p.toF.add q.toF = (p.add q).map Poly.toF) ∧
    (p.l1 ≤ 2 ^ 24 → p.toF.neg = p.neg.toF) ∧
    (p.l1 ≤ 2 ^ 24 → p.l1 * q.l1 ≤ 2 ^ 24 → p.toF.mul q.toF = (p.mul q).map Poly.toF) :=
  ⟨fun h => (Poly.add_sim h).1, fun h => (Poly.neg_sim h (Poly.nz hp)).1,
    fun h h' => (Poly.mul_sim (Poly.nz hp) (Poly.nz hq) h' h).1⟩

/-- C86: so do the operations on multivectors. -/
theorem C86_mv {X : Type} [LinearOrder X] (m n : Mv X ℤ) (hm : m.Canon) (hn : n.Canon)
    (op : Alg → ℕ → ℕ → Option ℤ) :
    (m.l1 + n.l1 ≤ 2 ^ 24 → m.toF.add n.toF = (m.add n).map Mv.toF) ∧
    (m.l1 + n.l1 ≤ 2 ^ 24 → m.toF.sub n.toF = (m.sub n).map Mv.toF) ∧
    (m.l1 ≤ 2 ^ 24 → m.toF.neg = m.neg.toF) ∧
    (m.l1 ≤ 2 ^ 24 → m.l1 * n.l1 ≤ 2 ^ 24 → Mv.prod op m.toF n.toF = (Mv.prod op m n).map Mv.toF) :=
  ⟨fun h => (Mv.add_sim h).1, fun h => (Mv.sub_sim hn h).1, fun h => (Mv.neg_sim hm h).1,
    fun h h' => (Mv.prod_sim hm hn h h').1⟩

/-- C86: an expression of the grammar with non-zero integer numbers, of size at most `2^24`, is parsed
over `float` to the exact integer coefficients, and these denote the expression. -/
theorem C86_parse (ts : List (Token ℤ)) (e : Ast ℤ) (h : Derives 0 ts e) (hi : e.In)
    (hd : e.deg < 2 ^ 31) (h0 : ∀ x, Token.number x ∈ ts → x ≠ 0) (hs : e.size ≤ 2 ^ 24) :
    ∃ m : Mv (List Char) ℤ, parseTokens ⟨3, 0, 1⟩ ((ts ++ [Token.eof]).map Token.toF) = .ok m.toF ∧
      m.toPGA = e.den ∧ m.Canon ∧ m.l1 ≤ 2 ^ 24 := by
  obtain ⟨m, h1, h2, -⟩ := C62_meaning_partial e hi hd
  have hn : e.Nums (fun x => x ≠ 0) := derives_nums (by norm_num) h h0
  obtain ⟨h3, h4⟩ := Ast.value_sim ⟨3, 0, 1⟩ e hn hs
  obtain ⟨h5, h6⟩ := h4 m h1
  rw [h1, Option.map_some] at h3
  refine ⟨m, ?_, h2, h5, h6.trans hs⟩
  rw [List.map_append]
  refine complete_of_signs C86_signs _ _ _ e.toF m.toF (fun x hx => ?_) (derives_toF h) h3
    ⟨Token.eof, [], rfl, Or.inl rfl⟩
  rw [List.mem_map] at hx
  obtain ⟨t, -, ht⟩ := hx
  cases t with
  | number z => cases ht; exact F32.quiet_round _ _
  | _ => cases ht

/-- C86 fails past the bound: over `float`, `16777216 + 1` is 16777216 and `16777216 + 1 - 16777216`
is zero (no terms). -/
theorem C86_fails : ∃ m n : Mv (List Char) ℤ, m.Canon ∧ n.Canon ∧ m.l1 + n.l1 = 2 ^ 24 + 1 ∧
    m.toF.add n.toF = some m.toF ∧ (m.toF.add n.toF).bind (·.sub m.toF) = some ⟨some ⟨3, 0, 1⟩, []⟩ ∧
    (m.add n).bind (·.sub m) = some n := by
  refine ⟨⟨some ⟨3, 0, 1⟩, [(0, ⟨[(⟨[]⟩, 16777216)]⟩)]⟩, ⟨some ⟨3, 0, 1⟩, [(0, ⟨[(⟨[]⟩, 1)]⟩)]⟩,
    ?_, ?_, ?_, ?_, ?_, ?_⟩
  · refine ⟨List.pairwise_singleton _ _, fun ep hep => ?_⟩
    simp only [List.mem_singleton] at hep
    subst hep
    refine ⟨⟨List.pairwise_singleton _ _, fun mf hmf => ?_⟩, by simp⟩
    simp only [List.mem_singleton] at hmf
    subst hmf
    exact ⟨⟨List.Pairwise.nil, by simp⟩, by norm_num⟩
  · refine ⟨List.pairwise_singleton _ _, fun ep hep => ?_⟩
    simp only [List.mem_singleton] at hep
    subst hep
    refine ⟨⟨List.pairwise_singleton _ _, fun mf hmf => ?_⟩, by simp⟩
    simp only [List.mem_singleton] at hmf
    subst hmf
    exact ⟨⟨List.Pairwise.nil, by simp⟩, by norm_num⟩
  · rfl
  · decide +kernel
  · decide +kernel
  · decide +kernel

/-- `(x + 2) * (x - 2)` over `float`: the terms in `x` cancel, and the result is `x^2 - 4`. -/
example : (⟨[(⟨[]⟩, ofZ 2), (⟨[("x".toList, 1)]⟩, ofZ 1)]⟩ : Poly (List Char) F32).mul
    ⟨[(⟨[]⟩, ofZ (-2)), (⟨[("x".toList, 1)]⟩, ofZ 1)]⟩
      = some ⟨[(⟨[]⟩, ofZ (-4)), (⟨[("x".toList, 2)]⟩, ofZ 1)]⟩ := by decide +kernel

/-- `x e1 + 3` over the integers and over `float`. -/
example : ∃ (e : Ast ℤ), Derives 0 [.identifier "x".toList, .element 1 false, .op '+', .number 3] e ∧ e.In ∧
    e.deg < 2 ^ 31 ∧ e.size = 4 ∧
    parseTokens ⟨3, 0, 1⟩ [.identifier "x".toList, .element 1 false, .op '+', .number (ofZ 3), .eof] =
      .ok ⟨some ⟨3, 0, 1⟩, [(0, ⟨[(⟨[]⟩, ofZ 3)]⟩), (1, ⟨[(⟨[("x".toList, 1)]⟩, ofZ 1)]⟩)]⟩ := by
  have lift : ∀ {ts : List (Token ℤ)} {e : Ast ℤ}, Derives 5 ts e → Derives 0 ts e ∧ Derives 1 ts e :=
    fun h => by
      have h1 := Derives.lift (by omega : 1 < 5) (Derives.lift (by omega : 2 < 5)
        (Derives.lift (by omega : 3 < 5) (Derives.lift (by omega : 4 < 5) h)))
      exact ⟨Derives.lift (by omega : 0 < 5) h1, h1⟩
  refine ⟨.bin .add (.atom 1 (some "x".toList) 1 false) (.atom 3 none 0 false),
    Derives.bin (k := 0) (c := '+') (o := .add) rfl (lift (.identifierElement _ 1 false)).1
      (lift (.number 3)).2, ?_, ?_, rfl, ?_⟩
  · exact ⟨by show (1 : ℕ) < _; decide, by show (0 : ℕ) < _; decide⟩
  · decide
  · decide +kernel

end Klein.Sym
