import Verif.Props.SymParser
import Verif.Props.SymMv

/-!
# C62: what parsed expressions mean; C63: element literals; C64: unread input

In Cl(3,0,1), the algebra of the shell, a tree denotes an element of the 16-coefficient
specification over Laurent polynomials in the variables, with the operators of the specification.
-/

set_option linter.unusedSectionVars false

namespace Klein.Sym

/-! ### the remaining products of Cl(3,0,1), against the specification -/

/-- C56: the exterior product of blades of Cl(3,0,1). -/
theorem C56_pga_ext : ∀ L < 16, ∀ T < 16,
    ((⟨3, 0, 1⟩ : Alg).ext L T).map mvDec = some (PGA.MV.wedge (mvBlade 1 L) (mvBlade 1 T)) := by
  simp only [wedgeZ_eq]
  decide +kernel

/-- C56: the inner product of blades of Cl(3,0,1). -/
theorem C56_pga_dot : ∀ L < 16, ∀ T < 16,
    mvDec ((⟨3, 0, 1⟩ : Alg).dot L T) = PGA.MV.inner (mvBlade 1 L) (mvBlade 1 T) := by
  simp only [innerZ_eq]
  decide +kernel

/-- C56: reversion of blades of Cl(3,0,1). -/
theorem C56_pga_rev : ∀ S < 16,
    (if Alg.rev S then -mvBlade 1 S else mvBlade 1 S) = PGA.MV.rev (mvBlade 1 S) := by
  decide +kernel

namespace Mv
variable {X F : Type} [LinearOrder X] [CommRing F] [DecidableEq F]

theorem pga_wedge_lin {K : Type*} [CommRing K] (x y z : PGA.MV K) (c d : K) :
    PGA.MV.wedge (x + y) z = PGA.MV.wedge x z + PGA.MV.wedge y z ∧
    PGA.MV.wedge x (y + z) = PGA.MV.wedge x y + PGA.MV.wedge x z ∧
    PGA.MV.wedge (c • x) (d • y) = (c * d) • PGA.MV.wedge x y := by
  refine ⟨?_, ?_, ?_⟩ <;> mv_ring

theorem pga_inner_lin {K : Type*} [CommRing K] (x y z : PGA.MV K) (c d : K) :
    PGA.MV.inner (x + y) z = PGA.MV.inner x z + PGA.MV.inner y z ∧
    PGA.MV.inner x (y + z) = PGA.MV.inner x y + PGA.MV.inner x z ∧
    PGA.MV.inner (c • x) (d • y) = (c * d) • PGA.MV.inner x y := by
  refine ⟨?_, ?_, ?_⟩ <;> mv_ring

theorem mapZ_wedge (K : Type*) [CommRing K] (x y : PGA.MV ℤ) :
    mapZ K (PGA.MV.wedge x y) = PGA.MV.wedge (mapZ K x) (mapZ K y) := by
  apply PGA.MV.ext <;> simp only [pga, mapZ] <;> push_cast <;> ring

theorem mapZ_inner (K : Type*) [CommRing K] (x y : PGA.MV ℤ) :
    mapZ K (PGA.MV.inner x y) = PGA.MV.inner (mapZ K x) (mapZ K y) := by
  apply PGA.MV.ext <;> simp only [pga, mapZ] <;> push_cast <;> ring

theorem mapZ_rev (K : Type*) [CommRing K] (x : PGA.MV ℤ) :
    mapZ K (PGA.MV.rev x) = PGA.MV.rev (mapZ K x) := by
  apply PGA.MV.ext <;> simp only [pga, mapZ] <;> push_cast <;> ring

theorem mapZ_neg (K : Type*) [CommRing K] (x : PGA.MV ℤ) : mapZ K (-x) = -mapZ K x := by
  apply PGA.MV.ext <;> simp only [pga, mapZ] <;> push_cast <;> ring

/-- C59: in Cl(3,0,1) the exterior product is that of the specification. -/
theorem C59_pga_ext_partial (m n r : Mv X F) (ha : m.alg = some ⟨3, 0, 1⟩)
    (hm : m.Keys ⟨3, 0, 1⟩) (hn : n.Keys ⟨3, 0, 1⟩) (h : m.ext n = some r) :
    r.toPGA = PGA.MV.wedge m.toPGA n.toPGA := by
  rw [Mv.toPGA, (prod_comb (mvB (LR X F)) (fun e f => PGA.MV.wedge (mvB (LR X F) e) (mvB (LR X F) f)) ha
    (fun ep hep fq hfq z hz => by
      have h1 := C56_pga_ext ep.1 (hm ep hep) fq.1 (hn fq hfq)
      rw [hz, Option.map_some, Option.some.injEq] at h1
      have h2 := congrArg (mapZ (LR X F)) h1
      rw [mapZ_dec, mapZ_wedge, mapZ_blade, mapZ_blade] at h2
      rw [← h2]; rfl) h).2]
  exact bilin (b := mvB (LR X F)) PGA.MV.wedge (fun x y z => (pga_wedge_lin x y z 0 0).1)
    (fun x y z => (pga_wedge_lin x y z 0 0).2.1) (fun c d x y => (pga_wedge_lin x y 0 c d).2.2) _ _

/-- C59: in Cl(3,0,1) the inner product is that of the specification. -/
theorem C59_pga_dot_partial (m n r : Mv X F) (ha : m.alg = some ⟨3, 0, 1⟩)
    (hm : m.Keys ⟨3, 0, 1⟩) (hn : n.Keys ⟨3, 0, 1⟩) (h : m.dot n = some r) :
    r.toPGA = PGA.MV.inner m.toPGA n.toPGA := by
  rw [Mv.toPGA, (prod_comb (mvB (LR X F)) (fun e f => PGA.MV.inner (mvB (LR X F) e) (mvB (LR X F) f)) ha
    (fun ep hep fq hfq z hz => by
      have h1 := C56_pga_dot ep.1 (hm ep hep) fq.1 (hn fq hfq)
      cases hz
      have h2 := congrArg (mapZ (LR X F)) h1
      rw [mapZ_dec, mapZ_inner, mapZ_blade, mapZ_blade] at h2
      rw [← h2]; rfl) h).2]
  exact bilin (b := mvB (LR X F)) PGA.MV.inner (fun x y z => (pga_inner_lin x y z 0 0).1)
    (fun x y z => (pga_inner_lin x y z 0 0).2.1) (fun c d x y => (pga_inner_lin x y 0 c d).2.2) _ _

theorem pga_rev_add {K : Type*} [CommRing K] (x y : PGA.MV K) :
    PGA.MV.rev (x + y) = PGA.MV.rev x + PGA.MV.rev y := by mv_ring

theorem pga_rev_smul {K : Type*} [CommRing K] (c : K) (x : PGA.MV K) :
    PGA.MV.rev (c • x) = c • PGA.MV.rev x := by mv_ring

theorem pga_rev_zero {K : Type*} [CommRing K] : PGA.MV.rev (0 : PGA.MV K) = 0 := by mv_ring

/-- C59: in Cl(3,0,1) reversion is that of the specification. -/
theorem C59_pga_rev (m : Mv (List Char) F) (hm : m.Keys ⟨3, 0, 1⟩) :
    m.revT.toPGA = PGA.MV.rev m.toPGA := by
  have key : ∀ S < 16, (if Alg.rev S then -mvB (LR (List Char) F) S else mvB (LR (List Char) F) S)
      = PGA.MV.rev (mvB (LR (List Char) F) S) := by
    intro S hS
    have := congrArg (mapZ (LR (List Char) F)) (C56_pga_rev S hS)
    rw [mapZ_rev, apply_ite (mapZ _), mapZ_neg, mapZ_blade] at this
    exact this
  have : ∀ l : List (ℕ × Poly (List Char) F), (∀ ep ∈ l, ep.1 < 16) →
      comb (mvB (LR (List Char) F)) (l.map fun (e, p) => (e, if Alg.rev e then p.neg else p))
        = PGA.MV.rev (comb (mvB (LR (List Char) F)) l) := by
    intro l hl
    induction l with
    | nil => exact pga_rev_zero.symm
    | cons ep l ih =>
      have ih := ih fun x hx => hl x (List.mem_cons_of_mem _ hx)
      have hk := key ep.1 (hl ep (List.mem_cons_self ..))
      simp only [comb, List.map_cons, List.sum_cons] at ih ⊢
      rw [ih, pga_rev_add, pga_rev_smul, ← hk]
      congr 1
      split_ifs
      · rw [Poly.neg_den, neg_smul, smul_neg]
      · rfl
  exact this _ hm

theorem toPGA_neg (m : Mv X F) : m.neg.toPGA = -m.toPGA := neg_comb _ m

end Mv

/-! ### C62: the meaning of an expression -/

variable {F : Type} [CommRing F] [DecidableEq F]

/-- The operators of the specification. -/
def BinOp.spec {K : Type} [CommRing K] : BinOp → PGA.MV K → PGA.MV K → PGA.MV K
  | .add => fun x y => x + y
  | .sub => fun x y => x - y
  | .mul => fun x y => x * y
  | .ext => PGA.MV.wedge
  | .reg => PGA.MV.vee
  | .dot => PGA.MV.inner

/-- What a tree denotes. -/
noncomputable def Ast.den : Ast F → PGA.MV (LR (List Char) F)
  | .atom x v b n => AddMonoidAlgebra.single (monOf v).expo (if n then -x else x) • Mv.mvB _ b
  | .neg e => -e.den
  | .rev e => PGA.MV.rev e.den
  | .bin o l r => o.spec l.den r.den

/-- The blades are of Cl(3,0,1). -/
def Ast.In {F : Type} : Ast F → Prop
  | .atom _ _ b _ => b < 16
  | .neg e => e.In
  | .rev e => e.In
  | .bin _ l r => l.In ∧ r.In

/-- A bound on the exponents. -/
def Ast.deg {F : Type} : Ast F → ℕ
  | .atom .. => 1
  | .neg e => e.deg
  | .rev e => e.deg
  | .bin .add l r => max l.deg r.deg
  | .bin .sub l r => max l.deg r.deg
  | .bin _ l r => l.deg + r.deg

theorem Mv.Within.mono {F : Type} [Add F] [Mul F] [Neg F] [Zero F] [One F] [DecidableEq F] [ZeroTest F]
    {m : Mv (List Char) F} {N M : ℕ} (h : m.Within N) (hNM : N ≤ M) :
    m.Within M := fun ep hep mf hmf => (h ep hep mf hmf).trans hNM

/-- C62: as long as no exponent can leave `int`, the value of a tree is defined, and it denotes what
the tree denotes. -/
theorem C62_meaning_partial : ∀ e : Ast F, e.In → e.deg < 2 ^ 31 →
    ∃ m, e.value ⟨3, 0, 1⟩ = some m ∧ m.toPGA = e.den ∧ m.Keys ⟨3, 0, 1⟩ ∧ m.Within e.deg
  | .atom x v b n, hi, hd => by
    refine ⟨_, rfl, ?_, ?_, ?_⟩
    · simp only [Mv.toPGA, Mv.comb, List.map_cons, List.map_nil, List.sum_cons, List.sum_nil,
        add_zero, Ast.den, Poly.den, mul_neg, mul_one]
    · intro ep hep
      simp only [List.mem_singleton] at hep
      subst hep
      exact hi
    · intro ep hep mf hmf
      simp only [List.mem_singleton] at hep
      subst hep
      simp only [List.mem_singleton] at hmf
      subst hmf
      cases v <;> simp [monOf, Mon.norm, Ast.deg]
  | .neg e, hi, hd => by
    obtain ⟨m, h1, h2, h3, h4⟩ := C62_meaning_partial e hi hd
    refine ⟨m.neg, by simp [Ast.value, h1], by rw [Mv.toPGA_neg, h2]; rfl, ?_, ?_⟩
    · intro ep hep
      simp only [Mv.neg, List.mem_map] at hep
      obtain ⟨ep', h, rfl⟩ := hep
      exact h3 ep' h
    · intro ep hep
      simp only [Mv.neg, List.mem_map] at hep
      obtain ⟨ep', h, rfl⟩ := hep
      exact Poly.neg_within (h4 ep' h)
  | .rev e, hi, hd => by
    obtain ⟨m, h1, h2, h3, h4⟩ := C62_meaning_partial e hi hd
    refine ⟨m.revT, by simp [Ast.value, h1], by rw [Mv.C59_pga_rev m h3, h2]; rfl, ?_, ?_⟩
    · intro ep hep
      simp only [Mv.revT, List.mem_map] at hep
      obtain ⟨ep', h, rfl⟩ := hep
      exact h3 ep' h
    · intro ep hep
      simp only [Mv.revT, List.mem_map] at hep
      obtain ⟨ep', h, rfl⟩ := hep
      simp only
      split_ifs
      · exact Poly.neg_within (h4 ep' h)
      · exact h4 ep' h
  | .bin o l r, hi, hd => by
    have hl : l.deg < 2 ^ 31 := by cases o <;> simp only [Ast.deg] at hd <;> omega
    have hr : r.deg < 2 ^ 31 := by cases o <;> simp only [Ast.deg] at hd <;> omega
    obtain ⟨m, h1, h2, h3, h4⟩ := C62_meaning_partial l hi.1 hl
    obtain ⟨n, g1, g2, g3, g4⟩ := C62_meaning_partial r hi.2 hr
    have ha := Ast.value_alg h1
    have hv : (Ast.bin o l r).value ⟨3, 0, 1⟩ = o.apply m n := by
      simp [Ast.value, h1, g1]
    rw [hv]
    cases o with
    | add =>
      obtain ⟨⟨x, k1, k2, k3⟩, -⟩ := Mv.C59_add_defined ⟨3, 0, 1⟩ m n _ hd
        (h4.mono (le_max_left ..)) (g4.mono (le_max_right ..)) h3 g3
      refine ⟨x, k1, ?_, k3, k2⟩
      rw [Mv.toPGA, (Mv.add_comb _ k1).2]
      exact congrArg₂ (fun x y => x + y) h2 g2
    | sub =>
      obtain ⟨-, ⟨x, k1, k2, k3⟩⟩ := Mv.C59_add_defined ⟨3, 0, 1⟩ m n _ hd
        (h4.mono (le_max_left ..)) (g4.mono (le_max_right ..)) h3 g3
      refine ⟨x, k1, ?_, k3, k2⟩
      rw [Mv.toPGA, (Mv.sub_comb _ k1).2]
      exact congrArg₂ (fun x y => x - y) h2 g2
    | mul =>
      obtain ⟨⟨x, k1, k2, k3, -⟩, -⟩ := Mv.C59_mul_defined ⟨3, 0, 1⟩ (by decide) m n _ _ hd ha h4 g4 h3 g3
      exact ⟨x, k1, by rw [Mv.C59_pga_mul_partial m n x ha h3 g3 k1, h2, g2]; rfl, k3, k2⟩
    | ext =>
      obtain ⟨x, k1, k2, k3, -⟩ := Mv.C59_ext_defined ⟨3, 0, 1⟩ (by decide) m n _ _ hd ha h4 g4 h3 g3
      exact ⟨x, k1, by rw [Mv.C59_pga_ext_partial m n x ha h3 g3 k1, h2, g2]; rfl, k3, k2⟩
    | reg =>
      obtain ⟨x, k1, k2, k3, -⟩ := Mv.C59_reg_defined m n _ _ hd ha h4 g4 h3 g3
      exact ⟨x, k1, by rw [Mv.C59_reg_partial m n x ha h3 g3 k1, h2, g2]; rfl, k3, k2⟩
    | dot =>
      obtain ⟨-, ⟨x, k1, k2, k3, -⟩⟩ := Mv.C59_mul_defined ⟨3, 0, 1⟩ (by decide) m n _ _ hd ha h4 g4 h3 g3
      exact ⟨x, k1, by rw [Mv.C59_pga_dot_partial m n x ha h3 g3 k1, h2, g2]; rfl, k3, k2⟩

/-- C62: so an expression of the grammar over the blades of Cl(3,0,1) is parsed to a multivector that
denotes it. -/
theorem C62_denotes_partial (ts : List (Token F)) (e : Ast F) (h : Derives 0 ts e) (hi : e.In)
    (hd : e.deg < 2 ^ 31) :
    ∃ m, parseTokens ⟨3, 0, 1⟩ (ts ++ [.eof]) = .ok m ∧ m.toPGA = e.den := by
  obtain ⟨m, h1, h2, -⟩ := C62_meaning_partial e hi hd
  exact ⟨m, C62_complete _ ts [.eof] e m h h1 ⟨_, _, rfl, Or.inl rfl⟩, h2⟩

/-- `|` binds tighter than `&`, `^`, `*`, and all of them than `+`; operators associate to the left. -/
example (a b c d e f : ℕ) : Derives (F := ℤ) 0
    [.element a false, .op '+', .element b false, .op '*', .element c false, .op '^', .element d false,
      .op '|', .element e false, .op '-', .element f false]
    (.bin .sub (.bin .add (.atom 1 none a false) (.bin .mul (.atom 1 none b false)
      (.bin .ext (.atom 1 none c false) (.bin .dot (.atom 1 none d false) (.atom 1 none e false)))))
      (.atom 1 none f false)) := by
  have up5 : ∀ v, Derives (F := ℤ) 5 [.element v false] (.atom 1 none v false) := fun v => .element v _
  have up : ∀ (v k), k ≤ 5 → Derives (F := ℤ) k [.element v false] (.atom 1 none v false) := by
    intro v k hk
    have h4 := Derives.lift (by omega : 4 < 5) (up5 v)
    have h3 := Derives.lift (by omega : 3 < 5) h4
    have h2 := Derives.lift (by omega : 2 < 5) h3
    have h1 := Derives.lift (by omega : 1 < 5) h2
    have h0 := Derives.lift (by omega : 0 < 5) h1
    interval_cases k
    exacts [h0, h1, h2, h3, h4, up5 v]
  have h4 := Derives.bin (k := 4) (c := '|') (o := .dot) rfl (up d 4 (by omega)) (up e 5 (by omega))
  have h3 := Derives.lift (by omega : 3 < 5) h4
  have h2 := Derives.bin (k := 2) (c := '^') (o := .ext) rfl (up c 2 (by omega)) h3
  have h1 := Derives.bin (k := 1) (c := '*') (o := .mul) rfl (up b 1 (by omega)) h2
  have h0 := Derives.bin (k := 0) (c := '+') (o := .add) rfl (up a 0 (by omega)) h1
  exact Derives.bin (k := 0) (c := '-') (o := .sub) rfl h0 (up f 1 (by omega))

/-! ### C63: element literals -/

/-- The index a digit stands for. -/
def digitVal (c : Char) : ℕ := c.toNat - 48

theorem testBit_or_two_pow (v k i : ℕ) : (v ||| 2 ^ k).testBit i = (v.testBit i || decide (k = i)) := by
  rw [Nat.testBit_or, Nat.testBit_two_pow]

section Element
variable {R A : Type*} [CommRing R] [Ring A] [Algebra R A] {n : ℕ} {w : ℕ → R} {e : ℕ → A}

theorem elementFold_spec (g : Spec.Gens n w e) (hn : n ≤ 8) : ∀ (ds : List Char) (v : ℕ) (neg : Bool)
    {v' : ℕ} {neg' : Bool}, v < 2 ^ n → (∀ d ∈ ds, digitVal d < n) →
    elementFold ds v neg = some (v', neg') →
    (sgn R neg • Spec.blade e n v) * (ds.map fun d => e (digitVal d)).prod
      = sgn R neg' • Spec.blade e n v' ∧ v' < 2 ^ n
  | [], v, neg, v', neg', hv, _, h => by
    simp only [elementFold, Option.some.injEq, Prod.mk.injEq] at h
    obtain ⟨rfl, rfl⟩ := h
    simp [hv]
  | d :: ds, v, neg, v', neg', hv, hd, h => by
    have hk : digitVal d < n := hd d (List.mem_cons_self ..)
    rw [elementFold] at h
    rw [show d.toNat - 48 = digitVal d from rfl] at h
    by_cases hb : v &&& 2 ^ digitVal d > 0
    · rw [if_pos hb] at h; cases h
    rw [if_neg hb] at h
    have hb' : v.testBit (digitVal d) = false := by
      rw [land_bit] at hb; simpa using hb
    have hv2 : v ||| 2 ^ digitVal d < 2 ^ n :=
      Nat.or_lt_two_pow hv (Nat.pow_lt_pow_right (by norm_num) hk)
    have h8 : (2 : ℕ) ^ n ≤ 256 := Nat.pow_le_pow_right (n := 2) (by norm_num) hn
    rw [Nat.mod_eq_of_lt (by omega)] at h
    obtain ⟨ih, ih'⟩ := elementFold_spec g hn ds _ _ hv2
      (fun x hx => hd x (List.mem_cons_of_mem _ hx)) h
    refine ⟨?_, ih'⟩
    rw [← ih, List.map_cons, List.prod_cons, ← mul_assoc, smul_mul_assoc,
      mul_gen g v hb' n hk le_rfl, smul_smul]
    congr 2
    have hpop : popcnt (v &&& (2 ^ 32 - 1 - (2 ^ digitVal d - 1)))
        = pop n v - pop (digitVal d + 1) v := by
      rw [popcnt_above v _ (by omega), pop_high v (by omega : n ≤ 32) hv, pop_succ, hb']
      simp
    have := pow_neg_one (R := R) (popcnt (v &&& (2 ^ 32 - 1 - (2 ^ digitVal d - 1)))) neg
    rw [hpop] at this ⊢
    rw [← this]
    congr 1
    have h1 : ∀ x : ℕ, (x &&& 1 = 1) ↔ (x &&& 1 > 0) := by
      intro x; rw [Nat.and_one_is_mod]; omega
    simp only [h1]

end Element

theorem elementFold_none : ∀ (ds : List Char) (v : ℕ) (neg : Bool), v < 256 →
    (∀ d ∈ ds, isDigit d = true ∧ digitVal d < 8) → (elementFold ds v neg = none ↔
      ¬ (ds.Nodup ∧ ∀ d ∈ ds, v.testBit (digitVal d) = false))
  | [], v, neg, _, _ => by simp [elementFold]
  | d :: ds, v, neg, hv, hd => by
    have hk := (hd d (List.mem_cons_self ..)).2
    rw [elementFold]
    rw [show d.toNat - 48 = digitVal d from rfl]
    by_cases hb : v &&& 2 ^ digitVal d > 0
    · rw [if_pos hb]
      rw [land_bit] at hb
      simp [hb]
    rw [if_neg hb]
    rw [land_bit] at hb
    have hv2 : v ||| 2 ^ digitVal d < 2 ^ 8 :=
      Nat.or_lt_two_pow hv (Nat.pow_lt_pow_right (by norm_num) hk)
    rw [Nat.mod_eq_of_lt (by omega), elementFold_none ds _ _ (by omega)
      (fun x hx => hd x (List.mem_cons_of_mem _ hx))]
    have inj : ∀ x ∈ ds, digitVal d = digitVal x → d = x := by
      intro x hx h
      have h1 := (hd d (List.mem_cons_self ..)).1
      have h2 := (hd x (List.mem_cons_of_mem _ hx)).1
      simp only [isDigit, Bool.and_eq_true, decide_eq_true_eq] at h1 h2
      unfold digitVal at h
      have : d.toNat = x.toNat := by omega
      exact Char.toNat_inj.1 this
    simp only [testBit_or_two_pow, List.nodup_cons, List.mem_cons, forall_eq_or_imp,
      Bool.or_eq_false_iff, decide_eq_false_iff_not]
    have hb' : v.testBit (digitVal d) = false := by simpa using hb
    constructor
    · rintro h ⟨⟨h1, h2⟩, -, h3⟩
      exact h ⟨h2, fun x hx => ⟨h3 x hx, fun h4 => h1 (by rw [inj x hx h4]; exact hx)⟩⟩
    · rintro h ⟨h1, h2⟩
      exact h ⟨⟨fun h3 => (h2 d h3).2 rfl, h1⟩, hb', fun x hx => (h2 x hx).1⟩

/-- C63: with indices of an algebra of at most 8 dimensions, an element literal is the signed blade
equal to the product of its basis vectors in the order written. -/
theorem C63_partial (R : Type*) [CommRing R] (a : Alg) (ha : a.dim ≤ 8) (ds : List Char) (v : ℕ)
    (neg : Bool) (hd : ∀ d ∈ ds, digitVal d < a.dim) (h : elementFold ds 0 false = some (v, neg)) :
    (ds.map fun d => Spec.gen (fun i : Fin a.dim => metric R a i) (digitVal d)).prod = sgn R neg • B R a v := by
  have := (elementFold_spec (R := R) (Spec.gens (n := a.dim) (metric R a)) ha ds 0 false (by positivity) hd h).1
  simpa [sgn, B] using this

/-- C63: it is rejected exactly if an index is repeated. -/
theorem C63_rejected_partial (ds : List Char) (hd : ∀ d ∈ ds, isDigit d = true ∧ digitVal d < 8) :
    elementFold ds 0 false = none ↔ ¬ ds.Nodup := by
  rw [elementFold_none ds 0 false (by norm_num) hd]
  simp

/-- C63 fails for the digits 8 and 9: the index is lost when the value is stored in a `uint8_t`, so
`e8` is 1 and `e88` is not rejected. -/
theorem C63_fails : elementFold ['8'] 0 false = some (0, false) ∧
    elementFold ['8', '8'] 0 false = some (0, false) ∧ elementFold ['1', '9'] 0 false = some (2, false) := by
  decide +kernel

/-- C63: indices are not compared with the dimension of the algebra: in Cl(3,0,1) the elements `e4`
and `e5` are accepted, and they commute. -/
theorem C63_range_fails :
    parse (F := ℤ) (fun _ => 0) ⟨3, 0, 1⟩ "e4*e5".toList
      = parse (F := ℤ) (fun _ => 0) ⟨3, 0, 1⟩ "e5*e4".toList ∧
    parse (F := ℤ) (fun _ => 0) ⟨3, 0, 1⟩ "e4*e5".toList
      = some (.ok ⟨some ⟨3, 0, 1⟩, [(48, ⟨[(⟨[]⟩, 1)]⟩)]⟩) := by
  decide +kernel

/-- `e31 = -e13`, `e120 = e012`, `e102 = -e012`. -/
example : elementFold ['3', '1'] 0 false = some (0b1010, true) ∧
    elementFold ['1', '2', '0'] 0 false = some (0b0111, false) ∧
    elementFold ['1', '0', '2'] 0 false = some (0b0111, true) := by decide +kernel

/-! ### C64: unread input -/

section Raw
variable {F : Type} [Add F] [Mul F] [Neg F] [Zero F] [One F] [DecidableEq F] [ZeroTest F]

theorem lp0_rest (a : Alg) (s : ℕ) : ∀ (n : ℕ) (m : Mv (List Char) F) (ts : List (Token F)) {m' rest},
    lp a 0 s n m ts = .ok (m', rest) →
      rest = [] ∨ (∃ r, rest = .eof :: r) ∨ ∃ c r, rest = .delimiter c :: r
  | 0, m, ts, m', rest, h => by rw [lp_zero a (by omega)] at h; cases h
  | n + 1, m, [], m', rest, h => by
    simp only [lp, exprLoop, R.ok.injEq, Prod.mk.injEq] at h
    exact Or.inl h.2.symm
  | n + 1, m, .eof :: ts, m', rest, h => by
    simp only [lp, exprLoop, R.ok.injEq, Prod.mk.injEq] at h
    exact Or.inr (Or.inl ⟨ts, h.2.symm⟩)
  | n + 1, m, .delimiter c :: ts, m', rest, h => by
    simp only [lp, exprLoop, R.ok.injEq, Prod.mk.injEq] at h
    exact Or.inr (Or.inr ⟨c, ts, h.2.symm⟩)
  | n + 1, m, .number _ :: ts, m', rest, h => by simp [lp, exprLoop] at h
  | n + 1, m, .identifier _ :: ts, m', rest, h => by simp [lp, exprLoop] at h
  | n + 1, m, .element _ _ :: ts, m', rest, h => by simp [lp, exprLoop] at h
  | n + 1, m, .op c :: ts, m', rest, h => by
    cases ho : opAt 0 c with
    | some o =>
      rw [lp_op a (by omega) s n m c ts ho, R.bind_eq_ok] at h
      obtain ⟨⟨mr, r'⟩, -, h⟩ := h
      rw [R.bind_eq_ok] at h
      obtain ⟨out, -, h⟩ := h
      exact lp0_rest a s n out r' h
    | none =>
      unfold opAt at ho
      simp only at ho
      split_ifs at ho with h1 h2
      simp [lp, exprLoop, if_neg h1, if_neg h2] at h

/-- Exactly what is read, for coefficients with the laws of signs. -/
theorem exact_of_signs {P : F → Prop} (hP : Signs P) (a : Alg) (ts : List (Token F))
    (hx : ∀ x, Token.number x ∈ ts → P x) (hts : EndsEof ts) (m : Mv (List Char) F) :
    parseTokens a ts = .ok m ↔ ∃ pre t rest e, ts = pre ++ t :: rest ∧
      (t = .eof ∨ ∃ c, t = .delimiter c) ∧ Derives 0 pre e ∧ e.value a = some m := by
  constructor
  · intro h
    unfold parseTokens at h
    rw [R.bind_eq_ok] at h
    obtain ⟨⟨m', rest⟩, h1, h2⟩ := h
    simp only [R.ok.injEq] at h2
    subst h2
    have hne := ((lv_fine a ts.length 0 (by omega) ts hts le_rfl).2.2 m' rest h1).1.ne_nil
    obtain ⟨pre, e, h3, h4, h5⟩ := lv_sound hP a ts.length 0 (by omega) ts m' rest hx h1
    have h6 : lv a 0 ts.length ts = .ok (m', rest) := h1
    rw [lv_eq a (by omega), R.bind_eq_ok] at h6
    obtain ⟨⟨m0, r0⟩, -, h6⟩ := h6
    rcases lp0_rest a _ _ _ _ h6 with h7 | ⟨r, h7⟩ | ⟨c, r, h7⟩
    · exact absurd h7 hne
    · exact ⟨pre, _, r, e, by rw [h3, h7], Or.inl rfl, h4, h5⟩
    · exact ⟨pre, _, r, e, by rw [h3, h7], Or.inr ⟨c, rfl⟩, h4, h5⟩
  · rintro ⟨pre, t, rest, e, rfl, ht, h1, h2⟩
    exact complete_of_signs hP a pre (t :: rest) e m (fun x h => hx x (by simp [h])) h1 h2
      ⟨t, rest, rfl, ht⟩

end Raw

/-- C64: exactly what is read.  The result is the value of a prefix, and that prefix is followed by
`eof` or by a parenthesis; conversely every such prefix is what is read. -/
theorem C64_exact (a : Alg) (ts : List (Token F)) (hts : EndsEof ts) (m : Mv (List Char) F) :
    parseTokens a ts = .ok m ↔ ∃ pre t rest e, ts = pre ++ t :: rest ∧
      (t = .eof ∨ ∃ c, t = .delimiter c) ∧ Derives 0 pre e ∧ e.value a = some m :=
  exact_of_signs signs_ring a ts (fun _ _ => trivial) hts m

/-- C64: without parentheses everything is read. -/
theorem C64_partial (a : Alg) (ts : List (Token F)) (hts : EndsEof ts)
    (hd : ∀ c, Token.delimiter c ∉ ts) (m : Mv (List Char) F) (h : parseTokens a ts = .ok m) :
    ∃ pre e, ts = pre ++ [.eof] ∧ Derives 0 pre e ∧ e.value a = some m := by
  obtain ⟨pre, t, rest, e, rfl, ht, h1, h2⟩ := (C64_exact a ts hts m).1 h
  rcases ht with rfl | ⟨c, rfl⟩
  · obtain ⟨l, h3, h4⟩ := hts
    refine ⟨pre, e, ?_, h1, h2⟩
    rcases List.eq_nil_or_concat rest with rfl | ⟨r, x, rfl⟩
    · rfl
    · rw [List.concat_eq_append, ← List.cons_append, ← List.append_assoc] at h3
      obtain ⟨h5, -⟩ := List.append_inj' h3 rfl
      exact absurd (by rw [← h5]; simp) h4
  · exact absurd (by simp) (hd c)

/-- C64 fails: `e1) + e2` is read as `e1`, `2(e1 + e2)` as 2 and `(e1)(e2)` as `e1`. -/
theorem C64_fails :
    parse (F := ℤ) (fun _ => 2) ⟨3, 0, 1⟩ "e1) + e2".toList
      = some (.ok ⟨some ⟨3, 0, 1⟩, [(2, ⟨[(⟨[]⟩, 1)]⟩)]⟩) ∧
    parse (F := ℤ) (fun _ => 2) ⟨3, 0, 1⟩ "2(e1 + e2)".toList
      = some (.ok ⟨some ⟨3, 0, 1⟩, [(0, ⟨[(⟨[]⟩, 2)]⟩)]⟩) ∧
    parse (F := ℤ) (fun _ => 2) ⟨3, 0, 1⟩ "(e1)(e2)".toList
      = some (.ok ⟨some ⟨3, 0, 1⟩, [(2, ⟨[(⟨[]⟩, 1)]⟩)]⟩) := by
  decide +kernel

end Klein.Sym
