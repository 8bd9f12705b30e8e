import Verif.Sym.Poly
import Mathlib.Data.Prod.Lex
import Mathlib.Data.List.Lex
import Mathlib.Algebra.MonoidAlgebra.Basic
import Mathlib.Algebra.BigOperators.Finsupp.Basic
import Mathlib.Tactic.Abel

/-!
# Lemmas about the maps, monomials and polynomials of the symbolic engine
-/

set_option linter.unusedSectionVars false

namespace Klein.Sym

/-! ### folds -/

theorem foldlM_inv {α S : Type} {f : S → α → Option S} (I : S → Prop) :
    ∀ (l : List α) (s s' : S), (∀ s a s', a ∈ l → I s → f s a = some s' → I s') →
      I s → l.foldlM f s = some s' → I s'
  | [], s, s', _, hs, h => by
    simp only [List.foldlM_nil] at h
    cases h; exact hs
  | a :: l, s, s', hf, hs, h => by
    simp only [List.foldlM_cons, Option.bind_eq_bind, Option.bind_eq_some_iff] at h
    obtain ⟨s1, h1, h2⟩ := h
    exact foldlM_inv I l s1 s' (fun s a s' ha => hf s a s' (List.mem_cons_of_mem _ ha))
      (hf s a s1 (List.mem_cons_self ..) hs h1) h2

theorem foldlM_total {α S : Type} {f : S → α → Option S} (I : S → Prop) :
    ∀ (l : List α) (s : S), (∀ s a, a ∈ l → I s → ∃ s', f s a = some s' ∧ I s') →
      I s → ∃ s', l.foldlM f s = some s' ∧ I s'
  | [], s, _, hs => ⟨s, rfl, hs⟩
  | a :: l, s, hf, hs => by
    obtain ⟨s1, h1, hs1⟩ := hf s a (List.mem_cons_self ..) hs
    obtain ⟨s', h2, hs'⟩ := foldlM_total I l s1
      (fun s a ha => hf s a (List.mem_cons_of_mem _ ha)) hs1
    exact ⟨s', by simp [List.foldlM_cons, h1, h2], hs'⟩

theorem foldlM_sum {α S : Type} {M : Type*} [AddCommMonoid M] {f : S → α → Option S} (μ : S → M)
    (δ : α → M) : ∀ (l : List α) (s s' : S),
      (∀ s a s', a ∈ l → f s a = some s' → μ s' = μ s + δ a) →
      l.foldlM f s = some s' → μ s' = μ s + (l.map δ).sum
  | [], s, s', _, h => by
    simp only [List.foldlM_nil] at h
    cases h; simp
  | a :: l, s, s', hf, h => by
    simp only [List.foldlM_cons, Option.bind_eq_bind, Option.bind_eq_some_iff] at h
    obtain ⟨s1, h1, h2⟩ := h
    rw [foldlM_sum μ δ l s1 s' (fun s a s' ha => hf s a s' (List.mem_cons_of_mem _ ha)) h2,
      hf s a s1 (List.mem_cons_self ..) h1, List.map_cons, List.sum_cons, add_assoc]

/-! ### maps -/

section Map
variable {K V : Type} [LinearOrder K] {lt : K → K → Option Bool} {k : K} {new : Option V}
  {upd : V → Option (Option V)}

/-- Where it is defined, the comparison is the order. -/
def Sound (lt : K → K → Option Bool) : Prop := ∀ a b r, lt a b = some r → r = decide (a < b)

/-- The nodes are in increasing order. -/
def Sorted (m : List (K × V)) : Prop := m.Pairwise fun a b => a.1 < b.1

theorem upsert_cons (h : Sound lt) {x : K} {v : V} {m m' : List (K × V)}
    (hm : upsert lt k new upd ((x, v) :: m) = some m') :
    (x < k ∧ ∃ m'', upsert lt k new upd m = some m'' ∧ m' = (x, v) :: m'') ∨
    (k < x ∧ ∃ v0, new = some v0 ∧ m' = (k, v0) :: (x, v) :: m) ∨
    (x = k ∧ ∃ r, upd v = some r ∧ m' = r.elim m fun v' => (x, v') :: m) := by
  simp only [upsert, Option.bind_eq_bind, Option.bind_eq_some_iff] at hm
  obtain ⟨r1, h1, hm⟩ := hm
  have e1 := h _ _ _ h1
  cases hr : r1
  · rw [hr] at hm e1
    simp only [Bool.false_eq_true, if_false, Option.bind_eq_some_iff] at hm
    obtain ⟨r2, h2, hm⟩ := hm
    have e2 := h _ _ _ h2
    have n1 : ¬ x < k := by simpa using e1.symm
    cases hr2 : r2
    · rw [hr2] at hm e2
      have n2 : ¬ k < x := by simpa using e2.symm
      simp only [Bool.false_eq_true, if_false, Option.bind_eq_some_iff] at hm
      obtain ⟨r, hr3, hm⟩ := hm
      refine Or.inr (Or.inr ⟨le_antisymm (not_lt.1 n2) (not_lt.1 n1), r, hr3, ?_⟩)
      cases r <;> simp only [pure, Option.some.injEq] at hm <;> exact hm.symm
    · rw [hr2] at hm e2
      simp only [if_true, Option.bind_eq_some_iff, pure, Option.some.injEq] at hm
      obtain ⟨v0, h3, hm⟩ := hm
      exact Or.inr (Or.inl ⟨by simpa using e2.symm, v0, h3, hm.symm⟩)
  · rw [hr] at hm e1
    simp only [if_true, Option.bind_eq_some_iff, pure, Option.some.injEq] at hm
    obtain ⟨m'', h3, hm⟩ := hm
    exact Or.inl ⟨by simpa using e1.symm, m'', h3, hm.symm⟩

/-- The effect of an insertion on a sum over the nodes. -/
theorem upsert_sum {M : Type*} [AddCommGroup M] (h : Sound lt) (φ : K → V → M) (δ : M)
    (hn : ∀ v, new = some v → φ k v = δ)
    (hu : ∀ v r, upd v = some r → r.elim 0 (φ k) = φ k v + δ) :
    ∀ m m' : List (K × V), upsert lt k new upd m = some m' →
      (m'.map fun kv => φ kv.1 kv.2).sum = (m.map fun kv => φ kv.1 kv.2).sum + δ
  | [], m', hm => by
    simp only [upsert, Option.bind_eq_bind, Option.bind_eq_some_iff, pure, Option.some.injEq] at hm
    obtain ⟨v, hv, rfl⟩ := hm
    simp [hn v hv]
  | (x, v) :: m, m', hm => by
    rcases upsert_cons h hm with ⟨-, m'', h1, rfl⟩ | ⟨-, v0, h1, rfl⟩ | ⟨rfl, r, h1, rfl⟩
    · simp only [List.map_cons, List.sum_cons, upsert_sum h φ δ hn hu m m'' h1, add_assoc]
    · simp only [List.map_cons, List.sum_cons, hn v0 h1]; abel
    · have := hu v r h1
      cases r
      · simp only [Option.elim_none] at this ⊢
        rw [List.map_cons, List.sum_cons, add_right_comm, ← this, zero_add]
      · simp only [Option.elim_some] at this ⊢
        simp only [List.map_cons, List.sum_cons, this]; abel

/-- The nodes after an insertion. -/
theorem upsert_mem (h : Sound lt) : ∀ m m' : List (K × V), upsert lt k new upd m = some m' →
    ∀ kv ∈ m', kv ∈ m ∨ kv.1 = k ∧ (new = some kv.2 ∨ ∃ v, (k, v) ∈ m ∧ upd v = some (some kv.2))
  | [], m', hm, kv, hkv => by
    simp only [upsert, Option.bind_eq_bind, Option.bind_eq_some_iff, pure, Option.some.injEq] at hm
    obtain ⟨v, hv, rfl⟩ := hm
    simp only [List.mem_singleton] at hkv
    subst hkv
    exact Or.inr ⟨rfl, Or.inl hv⟩
  | (x, v) :: m, m', hm, kv, hkv => by
    rcases upsert_cons h hm with ⟨-, m'', h1, rfl⟩ | ⟨-, v0, h1, rfl⟩ | ⟨rfl, r, h1, rfl⟩
    · rcases List.mem_cons.1 hkv with rfl | hkv
      · exact Or.inl (List.mem_cons_self ..)
      · rcases upsert_mem h m m'' h1 kv hkv with h2 | ⟨h2, h3 | ⟨w, h3, h4⟩⟩
        · exact Or.inl (List.mem_cons_of_mem _ h2)
        · exact Or.inr ⟨h2, Or.inl h3⟩
        · exact Or.inr ⟨h2, Or.inr ⟨w, List.mem_cons_of_mem _ h3, h4⟩⟩
    · rcases List.mem_cons.1 hkv with rfl | hkv
      · exact Or.inr ⟨rfl, Or.inl h1⟩
      · exact Or.inl hkv
    · cases r
      · exact Or.inl (List.mem_cons_of_mem _ hkv)
      · rcases List.mem_cons.1 hkv with rfl | hkv
        · exact Or.inr ⟨rfl, Or.inr ⟨v, List.mem_cons_self .., h1⟩⟩
        · exact Or.inl (List.mem_cons_of_mem _ hkv)

/-- Insertion keeps the nodes in order. -/
theorem upsert_sorted (h : Sound lt) : ∀ m m' : List (K × V), Sorted m →
    upsert lt k new upd m = some m' → Sorted m'
  | [], m', _, hm => by
    simp only [upsert, Option.bind_eq_bind, Option.bind_eq_some_iff, pure, Option.some.injEq] at hm
    obtain ⟨v, hv, rfl⟩ := hm
    exact List.pairwise_singleton ..
  | (x, v) :: m, m', hs, hm => by
    have hs' := hs
    unfold Sorted at hs
    rw [List.pairwise_cons] at hs
    rcases upsert_cons h hm with ⟨hx, m'', h1, rfl⟩ | ⟨hx, v0, h1, rfl⟩ | ⟨rfl, r, h1, rfl⟩
    · refine List.pairwise_cons.2 ⟨fun kv hkv => ?_, upsert_sorted h m m'' hs.2 h1⟩
      rcases upsert_mem h m m'' h1 kv hkv with h2 | ⟨h2, -⟩
      · exact hs.1 kv h2
      · rw [h2]; exact hx
    · refine List.pairwise_cons.2 ⟨fun kv hkv => ?_, hs'⟩
      rcases List.mem_cons.1 hkv with rfl | hkv
      · exact hx
      · exact lt_trans hx (hs.1 kv hkv)
    · cases r
      · exact hs.2
      · exact List.pairwise_cons.2 ⟨hs.1, hs.2⟩

/-- An insertion is defined if its comparisons and its update are. -/
theorem upsert_total : ∀ m : List (K × V),
    (∀ kv ∈ m, lt kv.1 k ≠ none ∧ lt k kv.1 ≠ none) → new ≠ none →
    (∀ kv ∈ m, upd kv.2 ≠ none) → ∃ m', upsert lt k new upd m = some m'
  | [], _, hn, _ => by
    obtain ⟨v, hv⟩ := Option.ne_none_iff_exists'.1 hn
    exact ⟨[(k, v)], by simp [upsert, hv]⟩
  | (x, v) :: m, hc, hn, hu => by
    obtain ⟨m'', h2⟩ := upsert_total m (fun kv hkv => hc kv (List.mem_cons_of_mem _ hkv)) hn
      (fun kv hkv => hu kv (List.mem_cons_of_mem _ hkv))
    obtain ⟨c1, c2⟩ := hc (x, v) (List.mem_cons_self ..)
    obtain ⟨r1, h1⟩ := Option.ne_none_iff_exists'.1 c1
    obtain ⟨r2, h3⟩ := Option.ne_none_iff_exists'.1 c2
    obtain ⟨w, hw⟩ := Option.ne_none_iff_exists'.1 hn
    obtain ⟨r, hr⟩ := Option.ne_none_iff_exists'.1 (hu (x, v) (List.mem_cons_self ..))
    simp only at h1 h3 hr
    cases r1
    · cases r2
      · cases r
        · exact ⟨m, by simp [upsert, h1, h3, hr]⟩
        · exact ⟨_, by simp [upsert, h1, h3, hr]; rfl⟩
      · exact ⟨(k, w) :: (x, v) :: m, by simp [upsert, h1, h3, hw]⟩
    · exact ⟨(x, v) :: m'', by simp [upsert, h1, h2]⟩

/-- An ordered list of nodes with non-zero values is determined by its sum of monomials. -/
theorem sorted_mem_iff {I M : Type} [AddCommMonoid M] (f : K → I) (m : List (K × M))
    (hs : Sorted m) (hf : ∀ a ∈ m, ∀ b : K × M, f a.1 = f b.1 → b ∈ m → a.1 = b.1)
    {kv : K × M} (hkv : kv ∈ m) :
    (m.map fun kv => Finsupp.single (f kv.1) kv.2).sum (f kv.1) = kv.2 := by
  induction m with
  | nil => simp at hkv
  | cons a m ih =>
    unfold Sorted at hs
    rw [List.pairwise_cons] at hs
    have zero : ∀ (l : List (K × M)) (i : I), (∀ b ∈ l, f b.1 ≠ i) →
        (l.map fun kv => Finsupp.single (f kv.1) kv.2).sum i = 0 := by
      intro l i hl
      induction l with
      | nil => simp
      | cons b l ih =>
        rw [List.map_cons, List.sum_cons, Finsupp.add_apply,
          ih fun c hc => hl c (List.mem_cons_of_mem _ hc),
          Finsupp.single_eq_of_ne' (hl b (List.mem_cons_self ..)), zero_add]
    rw [List.map_cons, List.sum_cons, Finsupp.add_apply]
    rcases List.mem_cons.1 hkv with rfl | h
    · rw [Finsupp.single_eq_same, zero m _ ?_, add_zero]
      intro b hb he
      have h1 := hs.1 b hb
      have h2 := hf b (List.mem_cons_of_mem _ hb) kv he (List.mem_cons_self ..)
      rw [h2] at h1
      exact lt_irrefl _ h1
    · have hne : f a.1 ≠ f kv.1 := by
        intro he
        have h1 := hs.1 kv h
        have h2 := hf a (List.mem_cons_self ..) kv he hkv
        rw [h2] at h1
        exact lt_irrefl _ h1
      rw [Finsupp.single_eq_of_ne' hne, zero_add]
      exact ih hs.2 (fun a ha b he hb => hf a (List.mem_cons_of_mem _ ha) b he
        (List.mem_cons_of_mem _ hb)) h

theorem sum_single_ne {I M : Type} [AddCommMonoid M] (f : K → I) (m : List (K × M)) (i : I)
    (h : (m.map fun kv => Finsupp.single (f kv.1) kv.2).sum i ≠ 0) : ∃ kv ∈ m, f kv.1 = i := by
  induction m with
  | nil => simp at h
  | cons a m ih =>
    by_cases ha : f a.1 = i
    · exact ⟨a, List.mem_cons_self .., ha⟩
    · rw [List.map_cons, List.sum_cons, Finsupp.add_apply, Finsupp.single_eq_of_ne' ha, zero_add] at h
      obtain ⟨kv, h1, h2⟩ := ih h
      exact ⟨kv, List.mem_cons_of_mem _ h1, h2⟩

theorem sorted_ext {m m' : List (K × V)} (hs : Sorted m) (hs' : Sorted m')
    (h : ∀ kv, kv ∈ m ↔ kv ∈ m') : m = m' := by
  have nd : ∀ {l : List (K × V)}, Sorted l → l.Nodup := by
    intro l hl
    exact hl.imp fun {a b} hab he => by rw [he] at hab; exact lt_irrefl _ hab
  have hp : m.Perm m' := (List.perm_ext_iff_of_nodup (nd hs) (nd hs')).2 h
  exact hp.eq_of_pairwise (fun a b _ _ h1 h2 => absurd (lt_trans h1 h2) (lt_irrefl _)) hs hs'

/-- Uniqueness of the ordered representation. -/
theorem sorted_unique {I M : Type} [AddCommMonoid M] (f : K → I) (P : K → Prop)
    (hf : ∀ a b, P a → P b → f a = f b → a = b) {m m' : List (K × M)}
    (hs : Sorted m) (hs' : Sorted m')
    (hp : ∀ kv ∈ m, P kv.1 ∧ kv.2 ≠ 0) (hp' : ∀ kv ∈ m', P kv.1 ∧ kv.2 ≠ 0)
    (h : (m.map fun kv => Finsupp.single (f kv.1) kv.2).sum
      = (m'.map fun kv => Finsupp.single (f kv.1) kv.2).sum) : m = m' := by
  have key : ∀ {m m' : List (K × M)}, Sorted m → Sorted m' → (∀ kv ∈ m, P kv.1 ∧ kv.2 ≠ 0) →
      (∀ kv ∈ m', P kv.1 ∧ kv.2 ≠ 0) →
      (m.map fun kv => Finsupp.single (f kv.1) kv.2).sum
        = (m'.map fun kv => Finsupp.single (f kv.1) kv.2).sum → ∀ kv ∈ m, kv ∈ m' := by
    intro m m' hs hs' hp hp' h kv hkv
    have e1 := sorted_mem_iff f m hs (fun a ha b he hb => hf _ _ (hp a ha).1 (hp b hb).1 he) hkv
    rw [h] at e1
    obtain ⟨kv', h1, h2⟩ := sum_single_ne f m' (f kv.1) (by rw [e1]; exact (hp kv hkv).2)
    have e2 := sorted_mem_iff f m' hs' (fun a ha b he hb => hf _ _ (hp' a ha).1 (hp' b hb).1 he) h1
    rw [h2, e1] at e2
    have e3 : kv.1 = kv'.1 := hf _ _ (hp kv hkv).1 (hp' kv' h1).1 h2.symm
    rw [show kv = kv' from Prod.ext e3 e2]
    exact h1
  exact sorted_ext hs hs' fun kv => ⟨key hs hs' hp hp' h kv, key hs' hs hp' hp h.symm kv⟩

end Map

/-! ### monomials -/

namespace Mon
variable {X : Type} [LinearOrder X]

theorem ltX_sound : Sound (ltX (X := X)) := by
  intro a b r h
  simp only [ltX, Option.some.injEq] at h
  exact h.symm

/-- The degree, without overflow. -/
def deg (m : Mon X) : ℤ := (m.factors.map Prod.snd).sum

/-- The position in the graded lexicographic order. -/
def key (m : Mon X) : ℤ ×ₗ List (X ×ₗ ℤ) := toLex (m.deg, m.factors.map toLex)

theorem key_inj : Function.Injective (key (X := X)) := by
  intro a b h
  have h' := congrArg (fun k => (ofLex k).2) h
  simp only [key, ofLex_toLex] at h'
  have := List.map_injective_iff.2 (toLex (α := X × ℤ)).injective h'
  cases a; cases b; simp_all

/-- The graded lexicographic order. -/
noncomputable instance : LinearOrder (Mon X) := LinearOrder.lift' key key_inj

theorem lt_iff_key {a b : Mon X} : a < b ↔ key a < key b := Iff.rfl

theorem ltLoop_eq : ∀ s t : List (X × ℤ),
    ltLoop s t = decide (s.map toLex < t.map (toLex : X × ℤ → X ×ₗ ℤ))
  | [], [] => by simp [ltLoop]
  | [], _ :: _ => by simp [ltLoop]
  | _ :: _, [] => by simp [ltLoop]
  | (x, d) :: s, (y, e) :: t => by
    rw [ltLoop, ltLoop_eq s t]
    have : ((x, d) :: s).map toLex < ((y, e) :: t).map (toLex : X × ℤ → X ×ₗ ℤ) ↔
        (x < y ∨ x = y ∧ d < e) ∨ (x = y ∧ d = e) ∧ s.map toLex < t.map (toLex : X × ℤ → X ×ₗ ℤ) := by
      rw [List.map_cons, List.map_cons, List.cons_lt_cons_iff, Prod.Lex.toLex_lt_toLex,
        toLex_inj, Prod.mk.injEq]
    rw [Bool.eq_iff_iff, decide_eq_true_iff, this]
    rcases lt_trichotomy x y with h | h | h
    · simp [h]
    · subst h
      simp only [lt_irrefl, if_false]
      rcases lt_trichotomy d e with h | h | h
      · simp [h]
      · subst h; simp
      · simp [h, not_lt_of_gt h, ne_of_gt h]
    · simp [not_lt_of_gt h, h, ne_of_gt h]

theorem degreeLoop_eq : ∀ (l : List (X × ℤ)) (out r : ℤ), degreeLoop l out = some r →
    r = out + (l.map Prod.snd).sum
  | [], out, r, h => by simp only [degreeLoop, Option.some.injEq] at h; simp [h]
  | (x, d) :: l, out, r, h => by
    simp only [degreeLoop, Option.bind_eq_bind, Option.bind_eq_some_iff, int32] at h
    obtain ⟨o, h1, h2⟩ := h
    split_ifs at h1 with hr
    simp only [Option.some.injEq] at h1
    rw [degreeLoop_eq l o r h2, ← h1, List.map_cons, List.sum_cons]; ring

theorem degree_eq {m : Mon X} {r : ℤ} (h : m.degree = some r) : r = m.deg := by
  have := degreeLoop_eq _ _ _ h
  simpa [deg] using this

theorem lt_eq {a b : Mon X} {r : Bool} (h : a.lt b = some r) : r = decide (a < b) := by
  simp only [lt, Option.bind_eq_bind, Option.bind_eq_some_iff] at h
  obtain ⟨da, h1, db, h2, h⟩ := h
  rw [degree_eq h1, degree_eq h2] at h
  have : a < b ↔ a.deg < b.deg ∨ a.deg = b.deg ∧ a.factors.map toLex < b.factors.map (toLex : X × ℤ → X ×ₗ ℤ) := by
    rw [lt_iff_key, key, key, Prod.Lex.toLex_lt_toLex]
  rw [Bool.eq_iff_iff, decide_eq_true_iff, this]
  split_ifs at h with h3 h4
  · simp only [pure, Option.some.injEq] at h; simp [← h, h3]
  · simp only [pure, Option.some.injEq] at h
    have : a.deg ≠ b.deg := by omega
    simp [← h, h3, this]
  · simp only [pure, Option.some.injEq, ltLoop_eq] at h
    have : a.deg = b.deg := by omega
    simp [← h, this]

theorem lt_sound : Sound (lt (X := X)) := fun _ _ _ h => lt_eq h

/-- Bound on every partial sum of exponents. -/
def norm (m : Mon X) : ℕ := (m.factors.map fun xd => xd.2.natAbs).sum

theorem degreeLoop_total : ∀ (l : List (X × ℤ)) (out : ℤ),
    out.natAbs + (l.map fun xd => xd.2.natAbs).sum < 2 ^ 31 → degreeLoop l out ≠ none
  | [], out, _ => by simp [degreeLoop]
  | (x, d) :: l, out, h => by
    rw [List.map_cons, List.sum_cons] at h
    simp only at h
    have h1 : int32 (out + d) = some (out + d) := by
      rw [int32, if_pos]; omega
    simp only [degreeLoop, h1, Option.bind_eq_bind, Option.bind_some]
    exact degreeLoop_total l _ (by omega)

theorem degree_total {m : Mon X} (h : m.norm < 2 ^ 31) : m.degree ≠ none :=
  degreeLoop_total _ _ (by simpa [norm] using h)

theorem lt_total {a b : Mon X} (ha : a.norm < 2 ^ 31) (hb : b.norm < 2 ^ 31) : a.lt b ≠ none := by
  obtain ⟨da, h1⟩ := Option.ne_none_iff_exists'.1 (degree_total ha)
  obtain ⟨db, h2⟩ := Option.ne_none_iff_exists'.1 (degree_total hb)
  simp only [lt, h1, h2, Option.bind_eq_bind, Option.bind_some]
  split_ifs <;> simp

/-- The exponents as a function. -/
noncomputable def expo (m : Mon X) : X →₀ ℤ := (m.factors.map fun xd => Finsupp.single xd.1 xd.2).sum

/-- Ordered, without zero exponents. -/
def Canon (m : Mon X) : Prop := Sorted m.factors ∧ ∀ xd ∈ m.factors, xd.2 ≠ 0

theorem addDeg_some {d v : ℤ} {r : Option ℤ} (h : addDeg d v = some r) :
    r = if v + d = 0 then none else some (v + d) := by
  simp only [addDeg, int32, Option.bind_eq_bind] at h
  split_ifs at h with h1
  · simpa [eq_comm] using h
  · simp at h

theorem addDeg_elim {x : X} {d v : ℤ} {r : Option ℤ} (h : addDeg d v = some r) :
    r.elim 0 (Finsupp.single x) = Finsupp.single x v + Finsupp.single x d := by
  rw [addDeg_some h, ← Finsupp.single_add]
  by_cases h0 : v + d = 0
  · simp [h0]
  · simp [h0]

theorem mul_expo {a b c : Mon X} (h : a.mul b = some c) : c.expo = a.expo + b.expo := by
  simp only [mul, mulAssign, Option.bind_eq_bind, Option.bind_eq_some_iff, pure,
    Option.some.injEq] at h
  obtain ⟨fs, h1, rfl⟩ := h
  exact foldlM_sum (fun fs : List (X × ℤ) => (fs.map fun xd => Finsupp.single xd.1 xd.2).sum)
    (fun xd => Finsupp.single xd.1 xd.2) _ _ _ (fun s a s' _ hs =>
      upsert_sum ltX_sound Finsupp.single _ (fun v hv => by cases hv; rfl)
        (fun v r hr => addDeg_elim hr) s s' hs) h1

theorem upsert_canon {s s' : List (X × ℤ)} {x : X} {d : ℤ} (hd : d ≠ 0)
    (hs : Sorted s ∧ ∀ xd ∈ s, xd.2 ≠ 0) (h : upsert ltX x (some d) (addDeg d) s = some s') :
    Sorted s' ∧ ∀ xd ∈ s', xd.2 ≠ 0 := by
  refine ⟨upsert_sorted ltX_sound _ _ hs.1 h, fun kv hkv => ?_⟩
  rcases upsert_mem ltX_sound _ _ h kv hkv with h1 | ⟨-, h1 | ⟨v, -, h1⟩⟩
  · exact hs.2 kv h1
  · cases h1; exact hd
  · have := addDeg_some h1
    split_ifs at this with h2
    simp only [Option.some.injEq] at this
    rw [this]; exact h2

theorem mul_canon {a b c : Mon X} (ha : a.Canon) (hb : b.Canon) (h : a.mul b = some c) :
    c.Canon := by
  simp only [mul, mulAssign, Option.bind_eq_bind, Option.bind_eq_some_iff, pure,
    Option.some.injEq] at h
  obtain ⟨fs, h1, rfl⟩ := h
  exact foldlM_inv (fun fs : List (X × ℤ) => Sorted fs ∧ ∀ xd ∈ fs, xd.2 ≠ 0) _ _ _
    (fun s a s' ha hs h => upsert_canon (hb.2 a ha) hs h) ha h1

theorem push_canon {a c : Mon X} {x : X} {d : ℤ} (ha : a.Canon) (h : a.push x d = some c) :
    c.Canon := by
  unfold push at h
  split_ifs at h with hd
  · cases h; exact ha
  · simp only [Option.bind_eq_bind, Option.bind_eq_some_iff, pure, Option.some.injEq] at h
    obtain ⟨fs, h1, rfl⟩ := h
    exact upsert_canon hd ha h1

theorem push_expo {a c : Mon X} {x : X} {d : ℤ} (h : a.push x d = some c) :
    c.expo = a.expo + Finsupp.single x d := by
  unfold push at h
  split_ifs at h with hd
  · cases h; simp [hd]
  · simp only [Option.bind_eq_bind, Option.bind_eq_some_iff, pure, Option.some.injEq] at h
    obtain ⟨fs, h1, rfl⟩ := h
    exact upsert_sum ltX_sound Finsupp.single _ (fun v hv => by cases hv; rfl)
        (fun v r hr => addDeg_elim hr) _ _ h1

theorem expo_inj {a b : Mon X} (ha : a.Canon) (hb : b.Canon) (h : a.expo = b.expo) : a = b := by
  have := sorted_unique (fun x : X => x) (fun _ => True) (fun _ _ _ _ h => h) ha.1 hb.1
    (fun kv hkv => ⟨trivial, ha.2 kv hkv⟩) (fun kv hkv => ⟨trivial, hb.2 kv hkv⟩) h
  cases a; cases b; simp_all

theorem upsert_norm {s s' : List (X × ℤ)} {x : X} {d : ℤ} :
    upsert ltX x (some d) (addDeg d) s = some s' →
    (s'.map fun xd => xd.2.natAbs).sum ≤ (s.map fun xd => xd.2.natAbs).sum + d.natAbs := by
  induction s generalizing s' with
  | nil =>
    intro h
    simp only [upsert, Option.bind_eq_bind, Option.bind_some, pure, Option.some.injEq] at h
    subst h; simp
  | cons a m ih =>
    obtain ⟨y, v⟩ := a
    intro h
    rcases upsert_cons ltX_sound h with ⟨-, m'', h1, rfl⟩ | ⟨-, v0, h1, rfl⟩ | ⟨rfl, r, h1, rfl⟩
    · have := ih h1
      simp only [List.map_cons, List.sum_cons]; omega
    · cases h1
      simp only [List.map_cons, List.sum_cons]; omega
    · have := addDeg_some h1
      split_ifs at this with h2
      · subst this; simp only [Option.elim_none, List.map_cons, List.sum_cons]; omega
      · subst this; simp only [Option.elim_some, List.map_cons, List.sum_cons]; omega

theorem mem_le_norm {s : List (X × ℤ)} {kv : X × ℤ} (h : kv ∈ s) :
    kv.2.natAbs ≤ (s.map fun xd => xd.2.natAbs).sum :=
  List.le_sum_of_mem (List.mem_map.2 ⟨kv, h, rfl⟩)

theorem upsert_defined {s : List (X × ℤ)} {x : X} {d : ℤ}
    (h : (s.map fun xd => xd.2.natAbs).sum + d.natAbs < 2 ^ 31) :
    ∃ s', upsert ltX x (some d) (addDeg d) s = some s' := by
  refine upsert_total s (fun kv _ => ⟨by simp [ltX], by simp [ltX]⟩) (by simp) fun kv hkv => ?_
  have := mem_le_norm hkv
  have h1 : int32 (kv.2 + d) = some (kv.2 + d) := by rw [int32, if_pos]; omega
  simp [addDeg, h1]

theorem mul_total {a b : Mon X} (h : a.norm + b.norm < 2 ^ 31) :
    ∃ c, a.mul b = some c ∧ c.norm ≤ a.norm + b.norm := by
  have key : ∀ (l s : List (X × ℤ)),
      (s.map fun xd => xd.2.natAbs).sum + (l.map fun xd => xd.2.natAbs).sum < 2 ^ 31 →
      ∃ s', l.foldlM (fun fs (vd : X × ℤ) => upsert ltX vd.1 (some vd.2) (addDeg vd.2) fs) s
        = some s' ∧ (s'.map fun xd => xd.2.natAbs).sum
          ≤ (s.map fun xd => xd.2.natAbs).sum + (l.map fun xd => xd.2.natAbs).sum := by
    intro l
    induction l with
    | nil => intro s _; exact ⟨s, rfl, by simp⟩
    | cons a l ih =>
      intro s hs
      rw [List.map_cons, List.sum_cons] at hs
      obtain ⟨s1, h1⟩ := upsert_defined (s := s) (x := a.1) (d := a.2) (by omega)
      have h2 := upsert_norm h1
      obtain ⟨s', h3, h4⟩ := ih s1 (by omega)
      refine ⟨s', by simp only [List.foldlM_cons, h1, Option.bind_eq_bind, Option.bind_some, h3], ?_⟩
      rw [List.map_cons, List.sum_cons]; omega
  obtain ⟨s', h1, h2⟩ := key b.factors a.factors h
  exact ⟨⟨s'⟩, by simp [mul, mulAssign, h1], h2⟩

end Mon

/-! ### polynomials -/

namespace Poly
variable {X F : Type} [LinearOrder X] [CommRing F] [DecidableEq F]

/-- The Laurent polynomial a `poly` denotes. -/
noncomputable def den (p : Poly X F) : AddMonoidAlgebra F (X →₀ ℤ) :=
  (p.terms.map fun mf => AddMonoidAlgebra.single mf.1.expo mf.2).sum

/-- Ordered, with canonical monomials and without zero coefficients. -/
def Canon (p : Poly X F) : Prop := Sorted p.terms ∧ ∀ mf ∈ p.terms, mf.1.Canon ∧ mf.2 ≠ 0

theorem addCoef_elim {m : Mon X} {f v : F} {r : Option F} (h : addCoef f v = some r) :
    r.elim 0 (AddMonoidAlgebra.single m.expo) = AddMonoidAlgebra.single m.expo v
      + (AddMonoidAlgebra.single m.expo f : AddMonoidAlgebra F (X →₀ ℤ)) := by
  simp only [addCoef, isZ_iff, Option.some.injEq] at h
  subst h
  rw [← AddMonoidAlgebra.single_add]
  by_cases h0 : v + f = 0
  · simp [h0]
  · simp [h0]

theorem push_den {p r : Poly X F} {m : Mon X} {f : F} (h : p.push m f = some r) :
    r.den = p.den + AddMonoidAlgebra.single m.expo f := by
  simp only [push, Option.bind_eq_bind, Option.bind_eq_some_iff, pure, Option.some.injEq] at h
  obtain ⟨fs, h1, rfl⟩ := h
  exact upsert_sum Mon.lt_sound (fun m f => AddMonoidAlgebra.single m.expo f) _
    (fun v hv => by cases hv; rfl) (fun v r hr => addCoef_elim hr) _ _ h1

theorem add_den {p q r : Poly X F} (h : p.addAssign q = some r) : r.den = p.den + q.den := by
  simp only [addAssign, Option.bind_eq_bind, Option.bind_eq_some_iff, pure, Option.some.injEq] at h
  obtain ⟨fs, h1, rfl⟩ := h
  exact foldlM_sum (fun ts : List (Mon X × F) =>
      (ts.map fun mf => AddMonoidAlgebra.single mf.1.expo mf.2).sum)
    (fun mf => AddMonoidAlgebra.single mf.1.expo mf.2) _ _ _ (fun s a s' _ hs =>
      upsert_sum Mon.lt_sound (fun m f => AddMonoidAlgebra.single m.expo f) _
        (fun v hv => by cases hv; rfl) (fun v r hr => addCoef_elim hr) s s' hs) h1

theorem neg_den (p : Poly X F) : p.neg.den = -p.den := by
  have : ∀ l : List (Mon X × F), ((l.map fun (m, f) => (m, f * -1)).map fun mf =>
      (AddMonoidAlgebra.single mf.1.expo mf.2 : AddMonoidAlgebra F (X →₀ ℤ))).sum
      = -(l.map fun mf => AddMonoidAlgebra.single mf.1.expo mf.2).sum := by
    intro l
    induction l with
    | nil => simp
    | cons a l ih =>
      rw [List.map_cons, List.map_cons, List.sum_cons, ih, List.map_cons, List.sum_cons, neg_add]
      simp only [mul_neg, mul_one]
      rw [AddMonoidAlgebra.single_neg]
  exact this p.terms

theorem row_den {m1 : Mon X} {f1 : F} {q r : Poly X F} (h : row m1 f1 q = some r) :
    r.den = AddMonoidAlgebra.single m1.expo f1 * q.den := by
  simp only [row, Option.bind_eq_bind, Option.bind_eq_some_iff, pure, Option.some.injEq] at h
  obtain ⟨ts, h1, rfl⟩ := h
  have := foldlM_sum (fun ts : List (Mon X × F) =>
      (ts.map fun mf => (AddMonoidAlgebra.single mf.1.expo mf.2 : AddMonoidAlgebra F (X →₀ ℤ))).sum)
    (fun mf => AddMonoidAlgebra.single m1.expo f1 * AddMonoidAlgebra.single mf.1.expo mf.2)
    _ _ _ (fun s a s' _ hs => ?_) h1
  · simp only [den]
    rw [this, List.map_nil, List.sum_nil, zero_add, List.sum_map_mul_left]
  · rw [AddMonoidAlgebra.single_mul_single]
    split_ifs at hs with h0
    · cases hs; simp [isZ_iff.1 h0]
    · simp only [Option.bind_eq_some_iff] at hs
      obtain ⟨m, h2, h3⟩ := hs
      rw [← Mon.mul_expo h2]
      exact upsert_sum Mon.lt_sound (fun m f => AddMonoidAlgebra.single m.expo f) _
        (fun v hv => by cases hv; simp) (fun v r hr => by
          cases hr
          simp only [Option.elim_some]
          rw [AddMonoidAlgebra.single_add]) s s' h3

theorem mul_den {p q r : Poly X F} (h : p.mul q = some r) : r.den = p.den * q.den := by
  have := foldlM_sum den (fun mf => AddMonoidAlgebra.single mf.1.expo mf.2 * q.den) _ _ _
    (fun s a s' _ hs => by
      simp only [Option.bind_eq_bind, Option.bind_eq_some_iff] at hs
      obtain ⟨t, h2, h3⟩ := hs
      rw [add_den h3, row_den h2]) h
  rw [this, List.sum_map_mul_right]
  simp [den]

theorem upsert_canon {s s' : List (Mon X × F)} {m : Mon X} {f : F} (hm : m.Canon) (hf : f ≠ 0)
    (hs : Sorted s ∧ ∀ mf ∈ s, mf.1.Canon ∧ mf.2 ≠ 0)
    (h : upsert Mon.lt m (some f) (addCoef f) s = some s') :
    Sorted s' ∧ ∀ mf ∈ s', mf.1.Canon ∧ mf.2 ≠ 0 := by
  refine ⟨upsert_sorted Mon.lt_sound _ _ hs.1 h, fun kv hkv => ?_⟩
  rcases upsert_mem Mon.lt_sound _ _ h kv hkv with h1 | ⟨h0, h1 | ⟨v, -, h1⟩⟩
  · exact hs.2 kv h1
  · cases h1; exact ⟨h0 ▸ hm, hf⟩
  · simp only [addCoef, isZ_iff, Option.some.injEq] at h1
    split_ifs at h1 with h2
    simp only [Option.some.injEq] at h1
    exact ⟨h0 ▸ hm, by rw [← h1]; exact h2⟩

theorem add_canon {p q r : Poly X F} (hp : p.Canon) (hq : q.Canon) (h : p.addAssign q = some r) :
    r.Canon := by
  simp only [addAssign, Option.bind_eq_bind, Option.bind_eq_some_iff, pure, Option.some.injEq] at h
  obtain ⟨fs, h1, rfl⟩ := h
  exact foldlM_inv (fun s : List (Mon X × F) => Sorted s ∧ ∀ mf ∈ s, mf.1.Canon ∧ mf.2 ≠ 0) _ _ _
    (fun s a s' ha hs h => upsert_canon (hq.2 a ha).1 (hq.2 a ha).2 hs h) hp h1

theorem push_canon {p r : Poly X F} {m : Mon X} {f : F} (hp : p.Canon) (hm : m.Canon) (hf : f ≠ 0)
    (h : p.push m f = some r) : r.Canon := by
  simp only [push, Option.bind_eq_bind, Option.bind_eq_some_iff, pure, Option.some.injEq] at h
  obtain ⟨fs, h1, rfl⟩ := h
  exact upsert_canon hm hf hp h1

theorem neg_canon {p : Poly X F} (hp : p.Canon) : p.neg.Canon := by
  constructor
  · have : ∀ l : List (Mon X × F), Sorted l → Sorted (l.map fun (m, f) => (m, f * -1)) := by
      intro l hl
      exact List.pairwise_map.2 hl
    exact this _ hp.1
  · intro mf h
    simp only [neg, List.mem_map] at h
    obtain ⟨⟨m, f⟩, h1, rfl⟩ := h
    have := hp.2 _ h1
    exact ⟨this.1, by simpa using this.2⟩

/-- Adding an exponent on the left is injective, so the monomials of a row are distinct. -/
theorem row_canon {m1 : Mon X} {f1 : F} {q r : Poly X F} (hm : m1.Canon) (hq : q.Canon)
    (h : row m1 f1 q = some r) : r.Canon := by
  simp only [row, Option.bind_eq_bind, Option.bind_eq_some_iff, pure, Option.some.injEq] at h
  obtain ⟨ts, h1, rfl⟩ := h
  -- every monomial of `ts` is the product of `m1` with a monomial already processed
  have key : ∀ (l s s' : List (Mon X × F)), Sorted l →
      (∀ mf ∈ l, mf.1.Canon ∧ mf.2 ≠ 0) →
      (Sorted s ∧ ∀ mf ∈ s, mf.1.Canon ∧ mf.2 ≠ 0) →
      (∀ mf ∈ s, ∀ b ∈ l, mf.1.expo ≠ m1.expo + b.1.expo) →
      l.foldlM (fun ts (mf : Mon X × F) =>
        if ZeroTest.IsZ (f1 * mf.2) then some ts
        else do
          let m ← m1.mul mf.1
          upsert Mon.lt m (some (0 + f1 * mf.2)) (fun v => some (some (v + f1 * mf.2))) ts) s = some s' →
      Sorted s' ∧ ∀ mf ∈ s', mf.1.Canon ∧ mf.2 ≠ 0 := by
    intro l
    induction l with
    | nil => intro s s' _ _ hs _ h; cases h; exact hs
    | cons a l ih =>
      intro s s' hl hc hs hd h
      unfold Sorted at hl
      rw [List.pairwise_cons] at hl
      simp only [List.foldlM_cons, Option.bind_eq_bind, Option.bind_eq_some_iff] at h
      obtain ⟨s1, h2, h3⟩ := h
      have hc' := fun mf hmf => hc mf (List.mem_cons_of_mem a hmf)
      split_ifs at h2 with h0
      · cases h2
        exact ih s s' hl.2 hc' hs (fun mf hmf b hb => hd mf hmf b (List.mem_cons_of_mem _ hb)) h3
      · simp only [Option.bind_eq_some_iff] at h2
        obtain ⟨m, hm1, hu⟩ := h2
        have hme := Mon.mul_expo hm1
        have hmc := Mon.mul_canon hm (hc a (List.mem_cons_self ..)).1 hm1
        refine ih s1 s' hl.2 hc' ⟨upsert_sorted Mon.lt_sound _ _ hs.1 hu, fun kv hkv => ?_⟩
          (fun kv hkv b hb => ?_) h3
        · rcases upsert_mem Mon.lt_sound _ _ hu kv hkv with h4 | ⟨h4, h5 | ⟨v, h5, -⟩⟩
          · exact hs.2 kv h4
          · simp only [Option.some.injEq, zero_add] at h5
            exact ⟨h4 ▸ hmc, by rw [← h5]; exact h0⟩
          · exact absurd hme (hd _ h5 a (List.mem_cons_self ..))
        · have hne : m.expo ≠ m1.expo + b.1.expo := by
            rw [hme]
            intro he
            have he' := Mon.expo_inj (hc a (List.mem_cons_self ..)).1 (hc' b hb).1
              (add_left_cancel he)
            have := hl.1 b hb
            rw [he'] at this
            exact lt_irrefl _ this
          rcases upsert_mem Mon.lt_sound _ _ hu kv hkv with h4 | ⟨h4, -⟩
          · exact hd kv h4 b (List.mem_cons_of_mem _ hb)
          · rw [h4]; exact hne
  exact key q.terms [] ts hq.1 hq.2 ⟨List.Pairwise.nil, by simp⟩ (by simp) h1

theorem empty_canon : (⟨[]⟩ : Poly X F).Canon := ⟨List.Pairwise.nil, by simp⟩

theorem mul_canon {p q r : Poly X F} (hp : p.Canon) (hq : q.Canon) (h : p.mul q = some r) :
    r.Canon :=
  foldlM_inv Canon _ _ _ (fun s a s' ha hs h => by
    simp only [Option.bind_eq_bind, Option.bind_eq_some_iff] at h
    obtain ⟨t, h2, h3⟩ := h
    exact add_canon hs (row_canon (hp.2 a ha).1 hq h2) h3) empty_canon h

theorem den_inj {p q : Poly X F} (hp : p.Canon) (hq : q.Canon) (h : p.den = q.den) : p = q := by
  have hc : ∀ l : List (Mon X × F), ((l.map fun mf =>
      (AddMonoidAlgebra.single mf.1.expo mf.2 : AddMonoidAlgebra F (X →₀ ℤ))).sum).coeff
      = (l.map fun mf => Finsupp.single mf.1.expo mf.2).sum := by
    intro l
    induction l with
    | nil => rfl
    | cons a l ih => simp only [List.map_cons, List.sum_cons, AddMonoidAlgebra.coeff_add, ih,
        AddMonoidAlgebra.coeff_single]
  have h' := congrArg AddMonoidAlgebra.coeff h
  rw [den, den, hc, hc] at h'
  have := sorted_unique (fun m : Mon X => m.expo) (fun m => m.Canon)
    (fun _ _ ha hb h => Mon.expo_inj ha hb h) hp.1 hq.1 hp.2 hq.2 h'
  cases p; cases q; simp_all

end Poly

/-! definedness -/

namespace Poly
variable {X F : Type} [LinearOrder X] [Add F] [Mul F] [Neg F] [Zero F] [One F] [DecidableEq F]
  [ZeroTest F]

/-- Every monomial has exponents of absolute sum at most `N`. -/
def Within (p : Poly X F) (N : ℕ) : Prop := ∀ mf ∈ p.terms, mf.1.norm ≤ N

theorem upsert_within {s : List (Mon X × F)} {m : Mon X} {f : F} {upd : F → Option (Option F)}
    (hu : ∀ v, upd v ≠ none) {N : ℕ} (hN : N < 2 ^ 31)
    (hs : ∀ mf ∈ s, mf.1.norm ≤ N) (hm : m.norm ≤ N) :
    ∃ s', upsert Mon.lt m (some f) upd s = some s' ∧ ∀ mf ∈ s', mf.1.norm ≤ N := by
  obtain ⟨s', h⟩ := upsert_total (lt := Mon.lt) (k := m) (new := some f) (upd := upd) s
    (fun kv hkv => ⟨Mon.lt_total (by have := hs kv hkv; omega) (by omega),
      Mon.lt_total (by omega) (by have := hs kv hkv; omega)⟩) (by simp) (fun kv _ => hu kv.2)
  refine ⟨s', h, fun kv hkv => ?_⟩
  rcases upsert_mem Mon.lt_sound _ _ h kv hkv with h1 | ⟨h1, -⟩
  · exact hs kv h1
  · rw [h1]; exact hm

theorem add_total {p q : Poly X F} {N : ℕ} (hN : N < 2 ^ 31) (hp : p.Within N) (hq : q.Within N) :
    ∃ r, p.addAssign q = some r ∧ r.Within N := by
  obtain ⟨s', h1, h2⟩ := foldlM_total (f := fun ts (mf : Mon X × F) =>
      upsert Mon.lt mf.1 (some mf.2) (addCoef mf.2) ts)
    (fun s : List (Mon X × F) => ∀ mf ∈ s, mf.1.norm ≤ N) q.terms p.terms
    (fun s a ha hs => upsert_within (by simp [addCoef]) hN hs (hq a ha)) hp
  exact ⟨⟨s'⟩, by simp [addAssign, h1], h2⟩

theorem row_total {m1 : Mon X} {f1 : F} {q : Poly X F} {N M : ℕ} (hN : N + M < 2 ^ 31)
    (hm : m1.norm ≤ N) (hq : q.Within M) : ∃ r, row m1 f1 q = some r ∧ r.Within (N + M) := by
  obtain ⟨s', h1, h2⟩ := foldlM_total (f := fun ts (mf : Mon X × F) =>
      if ZeroTest.IsZ (f1 * mf.2) then some ts
      else do
        let m ← m1.mul mf.1
        upsert Mon.lt m (some (0 + f1 * mf.2)) (fun v => some (some (v + f1 * mf.2))) ts)
    (fun s : List (Mon X × F) => ∀ mf ∈ s, mf.1.norm ≤ N + M) q.terms []
    (fun s a ha hs => by
      by_cases h0 : ZeroTest.IsZ (f1 * a.2)
      · exact ⟨s, by rw [if_pos h0], hs⟩
      · have hqa := hq a ha
        obtain ⟨m, h2, h3⟩ := Mon.mul_total (a := m1) (b := a.1) (by omega)
        obtain ⟨s', h4, h5⟩ := upsert_within (s := s) (m := m) (f := 0 + f1 * a.2)
          (upd := fun v => some (some (v + f1 * a.2))) (by simp) hN hs (by omega)
        exact ⟨s', by rw [if_neg h0]; simp only [h2, Option.bind_eq_bind, Option.bind_some, h4], h5⟩)
    (by simp)
  exact ⟨⟨s'⟩, by rw [row, h1]; rfl, h2⟩

theorem mul_total {p q : Poly X F} {N M : ℕ} (hN : N + M < 2 ^ 31) (hp : p.Within N)
    (hq : q.Within M) : ∃ r, p.mul q = some r ∧ r.Within (N + M) :=
  foldlM_total (fun r : Poly X F => r.Within (N + M)) p.terms ⟨[]⟩
    (fun s a ha hs => by
      obtain ⟨t, h1, h2⟩ := row_total (f1 := a.2) hN (hp a ha) hq
      obtain ⟨r, h3, h4⟩ := add_total hN hs h2
      exact ⟨r, by simp only [h1, Option.bind_eq_bind, Option.bind_some, h3], h4⟩)
    (by intro mf h; simp at h)

theorem neg_within {p : Poly X F} {N : ℕ} (hp : p.Within N) : p.neg.Within N := by
  intro mf h
  simp only [neg, List.mem_map] at h
  obtain ⟨⟨m, f⟩, h1, rfl⟩ := h
  exact hp (m, f) h1

end Poly
end Klein.Sym
