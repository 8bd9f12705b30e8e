import Verif.Props.SymExt
import Verif.Props.SymPoly
import Verif.Api.Embed

/-!
# C59: multivectors of the symbolic engine

A `mv` denotes an element of the Clifford algebra over the ring of Laurent polynomials: the sum of
its blades scaled by its coefficients.  `evalPoly` commutes with the operations of that ring (C58),
so evaluating the variables commutes with everything proved here.
-/

set_option linter.unusedSectionVars false

namespace Klein.Sym

variable {X F : Type} [LinearOrder X] [CommRing F] [DecidableEq F]

/-- Laurent polynomials. -/
abbrev LR (X F : Type) [CommRing F] := AddMonoidAlgebra F (X →₀ ℤ)

/-- Keys with the order of `elem_comp`. -/
def Bl := ℕ

/-- The order is by grade, then by bit field. -/
noncomputable instance : LinearOrder Bl :=
  LinearOrder.lift' (fun x : ℕ => toLex (popcnt x, x)) fun a b h => by
    exact congrArg (fun k => (ofLex k).2) h

theorem ltE_sound : Sound (K := Bl) Mv.ltE := by
  intro a b r h
  simp only [Mv.ltE, Option.some.injEq] at h
  subst h
  have : a < b ↔ popcnt a < popcnt b ∨ popcnt a = popcnt b ∧ (show ℕ from a) < (show ℕ from b) :=
    Prod.Lex.toLex_lt_toLex (x := (popcnt a, (show ℕ from a))) (y := (popcnt b, (show ℕ from b)))
  rw [Bool.eq_iff_iff, decide_eq_true_iff, this]
  unfold elemComp
  split_ifs with h1 h2
  · simp [h1]
  · simp [h1, ne_of_gt h2]
  · have : popcnt a = popcnt b := by omega
    simp [this]

namespace Mv

section Den
variable {Mo : Type*} [AddCommGroup Mo] [Module (LR X F) Mo]

/-- The combination of the vectors `b e` with the coefficients of the terms. -/
noncomputable def comb (b : ℕ → Mo) (ts : List (ℕ × Poly X F)) : Mo :=
  (ts.map fun ep => ep.2.den • b ep.1).sum

/-- The vector an encoded blade denotes. -/
def decB (b : ℕ → Mo) (z : ℤ) : Mo :=
  if z = 0 then 0 else if z < 0 then -b (z.natAbs - 1) else b (z.natAbs - 1)

theorem empty_den {p : Poly X F} (h : p.terms = []) : p.den = 0 := by
  simp [Poly.den, h]

theorem push_comb (b : ℕ → Mo) {m r : Mv X F} {e : ℕ} {p : Poly X F} (h : m.push e p = some r) :
    r.alg = m.alg ∧ comb b r.terms = comb b m.terms + p.den • b e := by
  simp only [push, Option.bind_eq_bind, Option.bind_eq_some_iff, pure, Option.some.injEq] at h
  obtain ⟨ts, h1, rfl⟩ := h
  refine ⟨rfl, ?_⟩
  refine upsert_sum (K := Bl) ltE_sound (fun e p => p.den • b e) _ (fun v hv => by cases hv; rfl)
    (fun v r hr => ?_) _ _ h1
  simp only [Option.bind_eq_some_iff, Option.some.injEq] at hr
  obtain ⟨s, h2, rfl⟩ := hr
  rw [← add_smul, ← Poly.add_den h2]
  by_cases h0 : s.terms = []
  · simp [h0, empty_den h0]
  · simp [h0]

theorem add_comb (b : ℕ → Mo) {m n r : Mv X F} (h : m.add n = some r) :
    r.alg = m.alg ∧ comb b r.terms = comb b m.terms + comb b n.terms := by
  refine ⟨?_, ?_⟩
  · exact foldlM_inv (fun s : Mv X F => s.alg = m.alg) _ _ _
      (fun s a s' _ hs h => by rw [(push_comb (fun _ => (0 : Mo)) h).1, hs]) rfl h
  · exact foldlM_sum (fun s : Mv X F => comb b s.terms) (fun ep => ep.2.den • b ep.1) _ _ _
      (fun s a s' _ h => (push_comb b h).2) h

theorem sub_comb (b : ℕ → Mo) {m n r : Mv X F} (h : m.sub n = some r) :
    r.alg = m.alg ∧ comb b r.terms = comb b m.terms - comb b n.terms := by
  refine ⟨?_, ?_⟩
  · exact foldlM_inv (fun s : Mv X F => s.alg = m.alg) _ _ _
      (fun s a s' _ hs h => by rw [(push_comb (fun _ => (0 : Mo)) h).1, hs]) rfl h
  · have := foldlM_sum (fun s : Mv X F => comb b s.terms) (fun ep => -(ep.2.den • b ep.1)) _ _ _
      (fun s a s' _ h => by rw [(push_comb b h).2, Poly.neg_den, neg_smul]) h
    rw [this, comb, comb, sub_eq_add_neg, List.sum_neg]
    congr 1
    rw [List.map_map]
    rfl

theorem neg_comb (b : ℕ → Mo) (m : Mv X F) : comb b m.neg.terms = -comb b m.terms := by
  have : ∀ l : List (ℕ × Poly X F), comb b (l.map fun (e, p) => (e, p.neg)) = -comb b l := by
    intro l
    induction l with
    | nil => simp [comb]
    | cons a l ih =>
      simp only [comb] at ih
      simp only [comb, List.map_cons, List.sum_cons]
      rw [ih, Poly.neg_den, neg_smul, neg_add]
  exact this _

theorem prune_comb (b : ℕ → Mo) (ts : List (ℕ × Poly X F)) : comb b (prune ts) = comb b ts := by
  induction ts with
  | nil => rfl
  | cons a l ih =>
    simp only [prune, comb] at ih
    simp only [prune, comb, List.filter_cons]
    by_cases h : a.2.terms = []
    · simp only [h, ne_eq, not_true_eq_false, decide_false, Bool.false_eq_true, if_false,
        List.map_cons, List.sum_cons, empty_den h, zero_smul, zero_add]
      exact ih
    · simp only [h, ne_eq, not_false_eq_true, decide_true, if_true, List.map_cons, List.sum_cons]
      rw [ih]

theorem step_comb (b : ℕ → Mo) {op : ℕ → ℕ → Option ℤ} {D : Mo} {e1 : ℕ} {p1 : Poly X F}
    {ep : ℕ × Poly X F} {s s' : List (ℕ × Poly X F)}
    (hop : ∀ z, op e1 ep.1 = some z → decB b z = D) (h : step op e1 p1 s ep = some s') :
    comb b s' = comb b s + (p1.den * ep.2.den) • D := by
  simp only [step, Option.bind_eq_bind, Option.bind_eq_some_iff] at h
  obtain ⟨z, hz, h⟩ := h
  have hD := hop z hz
  split_ifs at h with h0 h1
  · simp only [pure, Option.some.injEq] at h
    subst h
    rw [← hD, decB, if_pos h0, smul_zero, add_zero]
  · simp only [Option.bind_eq_some_iff] at h
    obtain ⟨p12, hp, h⟩ := h
    have hq : (p1.den * ep.2.den) • D = (p12.neg).den • b (z.natAbs - 1) := by
      rw [← hD, decB, if_neg h0, if_pos h1, Poly.neg_den, Poly.mul_den hp, smul_neg, neg_smul]
    rw [hq]
    refine upsert_sum (K := Bl) ltE_sound (fun e p => p.den • b e) _ (fun v hv => ?_)
      (fun v r hr => ?_) _ _ h
    · rw [Poly.add_den hv, empty_den rfl, zero_add]
    · simp only [Option.bind_eq_some_iff, pure, Option.some.injEq] at hr
      obtain ⟨t, h2, rfl⟩ := hr
      rw [Option.elim_some, Poly.add_den h2, add_smul]
  · simp only [Option.bind_eq_some_iff] at h
    obtain ⟨p12, hp, h⟩ := h
    have hq : (p1.den * ep.2.den) • D = p12.den • b (z.natAbs - 1) := by
      rw [← hD, decB, if_neg h0, if_neg h1, Poly.mul_den hp]
    rw [hq]
    refine upsert_sum (K := Bl) ltE_sound (fun e p => p.den • b e) _ (fun v hv => ?_)
      (fun v r hr => ?_) _ _ h
    · rw [Poly.add_den hv, empty_den rfl, zero_add]
    · simp only [Option.bind_eq_some_iff, pure, Option.some.injEq] at hr
      obtain ⟨t, h2, rfl⟩ := hr
      rw [Option.elim_some, Poly.add_den h2, add_smul]

/-- Every product is the bilinear extension of its blade operation. -/
theorem prod_comb (b : ℕ → Mo) (D : ℕ → ℕ → Mo) {op : Alg → ℕ → ℕ → Option ℤ} {m n r : Mv X F}
    {a : Alg} (ha : m.alg = some a)
    (hop : ∀ ep ∈ m.terms, ∀ fq ∈ n.terms, ∀ z, op a ep.1 fq.1 = some z → decB b z = D ep.1 fq.1)
    (h : prod op m n = some r) :
    r.alg = some a ∧ comb b r.terms = (m.terms.map fun ep => (n.terms.map fun fq =>
      (ep.2.den * fq.2.den) • D ep.1 fq.1).sum).sum := by
  simp only [prod, ha, Option.bind_eq_bind, Option.bind_some, Option.bind_eq_some_iff, pure,
    Option.some.injEq] at h
  obtain ⟨ts, h1, rfl⟩ := h
  refine ⟨rfl, ?_⟩
  have := foldlM_sum (comb b) (fun ep : ℕ × Poly X F => (n.terms.map fun fq =>
      (ep.2.den * fq.2.den) • D ep.1 fq.1).sum) _ _ _ (fun s ep s' hep hs =>
    foldlM_sum (comb b) (fun fq : ℕ × Poly X F => (ep.2.den * fq.2.den) • D ep.1 fq.1) _ _ _
      (fun s fq s' hfq hs => step_comb b (hop ep hep fq hfq) hs) hs) h1
  rw [prune_comb, this]
  simp [comb]

/-- A bilinear extension of a bilinear operation. -/
theorem bilin {b : ℕ → Mo} (f : Mo → Mo → Mo) (hl : ∀ x y z, f (x + y) z = f x z + f y z)
    (hr : ∀ x y z, f x (y + z) = f x y + f x z)
    (hs : ∀ (c d : LR X F) x y, f (c • x) (d • y) = (c * d) • f x y)
    (s t : List (ℕ × Poly X F)) :
    (s.map fun ep => (t.map fun fq => (ep.2.den * fq.2.den) • f (b ep.1) (b fq.1)).sum).sum
      = f (comb b s) (comb b t) := by
  have hl0 : ∀ z, f 0 z = 0 := fun z => by
    have := hl 0 0 z; rw [add_zero] at this; simpa using this
  have hr0 : ∀ z, f z 0 = 0 := fun z => by
    have := hr z 0 0; rw [add_zero] at this; simpa using this
  have inner : ∀ (c : LR X F) (x : Mo) (t : List (ℕ × Poly X F)),
      (t.map fun fq => (c * fq.2.den) • f x (b fq.1)).sum = f (c • x) (comb b t) := by
    intro c x t
    induction t with
    | nil => simp [comb, hr0]
    | cons a l ih =>
      rw [List.map_cons, List.sum_cons, ih, comb, comb, List.map_cons, List.sum_cons, hr, hs]
  induction s with
  | nil => simp [comb, hl0]
  | cons a l ih =>
    rw [List.map_cons, List.sum_cons, ih, inner, ← hl]
    rfl

end Den

/-- What a multivector denotes in the Clifford algebra of `a` over the Laurent polynomials. -/
noncomputable def den (a : Alg) (m : Mv X F) : Cl (LR X F) a := comb (B (LR X F) a) m.terms

/-- Its blades belong to the algebra. -/
def Keys {X F : Type} (a : Alg) (m : Mv X F) : Prop := ∀ ep ∈ m.terms, ep.1 < 2 ^ a.dim

theorem decB_eq (a : Alg) (z : ℤ) : decB (B (LR X F) a) z = dec (LR X F) a z := rfl

/-- C59: sums. -/
theorem C59_add_partial (a : Alg) (m n r : Mv X F) (h : m.add n = some r) :
    r.den a = m.den a + n.den a := (add_comb _ h).2

/-- C59: differences. -/
theorem C59_sub_partial (a : Alg) (m n r : Mv X F) (h : m.sub n = some r) :
    r.den a = m.den a - n.den a := (sub_comb _ h).2

/-- C59: negation. -/
theorem C59_neg (a : Alg) (m : Mv X F) : m.neg.den a = -m.den a := neg_comb _ m

/-- C59: adding one term. -/
theorem C59_push_partial (a : Alg) (m r : Mv X F) (e : ℕ) (p : Poly X F) (h : m.push e p = some r) :
    r.den a = m.den a + p.den • B (LR X F) a e := (push_comb _ h).2

/-- C59: reversion. -/
theorem C59_rev (a : Alg) (hd : a.dim ≤ 32) (m r : Mv X F) (hk : m.Keys a) (h : m.rev = some r) :
    r.den a = CliffordAlgebra.reverse (m.den a) := by
  unfold rev at h
  split_ifs at h
  simp only [Option.some.injEq] at h
  subst h
  have : ∀ l : List (ℕ × Poly X F), (∀ ep ∈ l, ep.1 < 2 ^ a.dim) →
      comb (B (LR X F) a) (l.map fun (e, p) => (e, if Alg.rev e then p.neg else p))
        = CliffordAlgebra.reverse (comb (B (LR X F) a) l) := by
    intro l hl
    induction l with
    | nil => simp [comb]
    | cons x l ih =>
      have ih := ih fun ep h => hl ep (List.mem_cons_of_mem _ h)
      have hx := C56_rev (R := LR X F) a hd x.1 (hl x (List.mem_cons_self ..))
      simp only [comb] at ih ⊢
      rw [List.map_cons, List.map_cons, List.sum_cons, ih, List.map_cons, List.sum_cons, map_add,
        map_smul, hx]
      congr 1
      cases Alg.rev x.1
      · simp [sgn]
      · simp [sgn, Poly.neg_den]
  exact this _ hk

/-- C59: the geometric product, in every algebra with at most eight dimensions. -/
theorem C59_mul_partial (a : Alg) (hd : a.dim ≤ 8) (m n r : Mv X F) (ha : m.alg = some a)
    (hm : m.Keys a) (hn : n.Keys a) (h : m.mul n = some r) :
    r.den a = m.den a * n.den a := by
  rw [den, (prod_comb (B (LR X F) a) (fun e f => B (LR X F) a e * B (LR X F) a f) ha
    (fun ep hep fq hfq z hz => by
      cases hz
      rw [decB_eq, C55_mul_partial a hd _ _ (hm ep hep) (hn fq hfq)]) h).2]
  exact bilin (fun x y => x * y) (fun x y z => add_mul x y z) (fun x y z => mul_add x y z)
    (fun c d x y => smul_mul_smul_comm c x d y) _ _

/-- C59: the exterior product is the product of the Grassmann algebra, up to 30 dimensions. -/
theorem C59_ext_partial (a : Alg) (hd : a.dim ≤ 30) (m n r : Mv X F) (ha : m.alg = some a)
    (hm : m.Keys a) (hn : n.Keys a) (h : m.ext n = some r) :
    r.den a.grassmann = m.den a.grassmann * n.den a.grassmann := by
  rw [den, (prod_comb (B (LR X F) a.grassmann)
    (fun e f => B (LR X F) a.grassmann e * B (LR X F) a.grassmann f) ha
    (fun ep hep fq hfq z hz => by
      obtain ⟨z', h1, h2⟩ := C56_ext_partial (R := LR X F) a hd _ _ (hm ep hep) (hn fq hfq)
      rw [hz] at h1
      cases h1
      rw [decB_eq, h2]) h).2]
  exact bilin (fun x y => x * y) (fun x y z => add_mul x y z) (fun x y z => mul_add x y z)
    (fun c d x y => smul_mul_smul_comm c x d y) _ _

/-- C59: the inner product is the sum, over the pairs of terms, of the geometric products of those
blades of which one contains the other (scalars excluded), up to eight dimensions. -/
theorem C59_dot_partial (a : Alg) (hd : a.dim ≤ 8) (m n r : Mv X F) (ha : m.alg = some a)
    (hm : m.Keys a) (hn : n.Keys a) (h : m.dot n = some r) :
    r.den a = (m.terms.map fun ep => (n.terms.map fun fq =>
      if ep.1 ≠ 0 ∧ fq.1 ≠ 0 ∧ (ep.1 &&& fq.1 = ep.1 ∨ ep.1 &&& fq.1 = fq.1)
      then (ep.2.den • B (LR X F) a ep.1) * (fq.2.den • B (LR X F) a fq.1) else 0).sum).sum := by
  rw [den, (prod_comb (B (LR X F) a) (fun e f =>
      if e ≠ 0 ∧ f ≠ 0 ∧ (e &&& f = e ∨ e &&& f = f)
      then B (LR X F) a e * B (LR X F) a f else 0) ha
    (fun ep hep fq hfq z hz => by
      cases hz
      rw [decB_eq, C56_dot_partial a hd _ _ (hm ep hep) (hn fq hfq)]) h).2]
  congr 1
  refine List.map_congr_left fun ep _ => ?_
  congr 1
  refine List.map_congr_left fun fq _ => ?_
  simp only [smul_ite, smul_zero, smul_mul_smul_comm]

/-! ### the regressive product, in Cl(3,0,1) -/

/-- The basis blade of the specification with bit field `S`. -/
def mvB (K : Type*) [CommRing K] (S : ℕ) : PGA.MV K :=
  let f := fun i => if S = i then (1 : K) else 0
  ⟨f 0, f 1, f 2, f 3, f 4, f 5, f 6, f 7, f 8, f 9, f 10, f 11, f 12, f 13, f 14, f 15⟩

/-- Change of scalars. -/
def mapZ (K : Type*) [CommRing K] (a : PGA.MV ℤ) : PGA.MV K :=
  ⟨a.s, a.e0, a.e1, a.e01, a.e2, a.e02, a.e12, a.e012, a.e3, a.e03, a.e13, a.e013, a.e23, a.e023,
    a.e123, a.e0123⟩

theorem mapZ_blade (K : Type*) [CommRing K] (S : ℕ) : mapZ K (mvBlade 1 S) = mvB K S := by
  simp only [mapZ, mvBlade, mvB, Int.cast_ite, Int.cast_one, Int.cast_zero]

/-- What a multivector denotes in the specification of Cl(3,0,1). -/
noncomputable def toPGA (m : Mv X F) : PGA.MV (LR X F) := comb (mvB (LR X F)) m.terms

theorem pga_vee_add_left {K : Type*} [CommRing K] (x y z : PGA.MV K) :
    PGA.MV.vee (x + y) z = PGA.MV.vee x z + PGA.MV.vee y z := by
  unfold PGA.MV.vee; mv_ring

theorem pga_vee_add_right {K : Type*} [CommRing K] (x y z : PGA.MV K) :
    PGA.MV.vee x (y + z) = PGA.MV.vee x y + PGA.MV.vee x z := by
  unfold PGA.MV.vee; mv_ring

theorem pga_vee_smul {K : Type*} [CommRing K] (c d : K) (x y : PGA.MV K) :
    PGA.MV.vee (c • x) (d • y) = (c * d) • PGA.MV.vee x y := by
  unfold PGA.MV.vee; mv_ring

theorem mapZ_vee (K : Type*) [CommRing K] (x y : PGA.MV ℤ) :
    mapZ K (PGA.MV.vee x y) = PGA.MV.vee (mapZ K x) (mapZ K y) := by
  unfold PGA.MV.vee
  apply PGA.MV.ext <;> simp only [pga, mapZ] <;> push_cast <;> ring

theorem mapZ_mul (K : Type*) [CommRing K] (x y : PGA.MV ℤ) :
    mapZ K (x * y) = mapZ K x * mapZ K y := by
  apply PGA.MV.ext <;> simp only [pga, mapZ] <;> push_cast <;> ring

theorem mapZ_dec (K : Type*) [CommRing K] (z : ℤ) : mapZ K (mvDec z) = 
    if z = 0 then 0 else if z < 0 then -mvB K (z.natAbs - 1) else mvB K (z.natAbs - 1) := by
  unfold mvDec
  split_ifs
  · apply PGA.MV.ext <;> simp [pga, mapZ]
  · apply PGA.MV.ext <;> simp only [pga, mapZ, mvBlade, mvB, Int.cast_ite, Int.cast_neg, Int.cast_one,
      Int.cast_zero, neg_ite, neg_zero]
  · exact mapZ_blade K _

/-- C59: the regressive product of Cl(3,0,1), the only algebra it is written for. -/
theorem C59_reg_partial (m n r : Mv X F) (ha : m.alg = some ⟨3, 0, 1⟩)
    (hm : m.Keys ⟨3, 0, 1⟩) (hn : n.Keys ⟨3, 0, 1⟩) (h : m.reg n = some r) :
    r.toPGA = PGA.MV.vee m.toPGA n.toPGA := by
  rw [Mv.toPGA, (prod_comb (mvB (LR X F)) (fun e f => PGA.MV.vee (mvB (LR X F) e) (mvB (LR X F) f)) ha
    (fun ep hep fq hfq z hz => by
      have h1 := C56_reg ep.1 (hm ep hep) fq.1 (hn fq hfq)
      rw [hz, Option.map_some, Option.some.injEq] at h1
      have h2 := congrArg (mapZ (LR X F)) h1
      rw [mapZ_dec, mapZ_vee, mapZ_blade, mapZ_blade] at h2
      rw [← h2]; rfl) h).2]
  exact bilin (b := mvB (LR X F)) PGA.MV.vee pga_vee_add_left pga_vee_add_right pga_vee_smul _ _

/-- C59: in Cl(3,0,1) the geometric product is also that of the 16-coefficient specification. -/
theorem C59_pga_mul_partial (m n r : Mv X F) (ha : m.alg = some ⟨3, 0, 1⟩)
    (hm : m.Keys ⟨3, 0, 1⟩) (hn : n.Keys ⟨3, 0, 1⟩) (h : m.mul n = some r) :
    r.toPGA = m.toPGA * n.toPGA := by
  rw [Mv.toPGA, (prod_comb (mvB (LR X F)) (fun e f => mvB (LR X F) e * mvB (LR X F) f) ha
    (fun ep hep fq hfq z hz => by
      have h1 := C56_pga_mul ep.1 (hm ep hep) fq.1 (hn fq hfq)
      cases hz
      have h2 := congrArg (mapZ (LR X F)) h1
      rw [mapZ_dec, mapZ_mul, mapZ_blade, mapZ_blade] at h2
      rw [← h2]; rfl) h).2]
  exact bilin (fun x y => x * y) (fun x y z => add_mul x y z) (fun x y z => mul_add x y z)
    (fun c d x y => smul_mul_smul_comm c x d y) _ _

/-! ### the results stay in the algebra, and the operations are defined -/

section Defined
variable {X F : Type} [LinearOrder X] [Add F] [Mul F] [Neg F] [Zero F] [One F] [DecidableEq F]
  [ZeroTest F]

/-- Every coefficient has exponents of absolute sum at most `N`. -/
def Within (m : Mv X F) (N : ℕ) : Prop := ∀ ep ∈ m.terms, ep.2.Within N

theorem push_total {m : Mv X F} {e : ℕ} {p : Poly X F} {N : ℕ} (hN : N < 2 ^ 31)
    (hm : m.Within N) (hp : p.Within N) :
    ∃ r, m.push e p = some r ∧ r.Within N ∧ ∀ a : Alg, e < 2 ^ a.dim → m.Keys a → r.Keys a := by
  have hu : ∀ kv ∈ m.terms, (do
      let s ← kv.2.addAssign p
      return if s.terms = [] then none else some s : Option (Option (Poly X F))) ≠ none := by
    intro kv hkv
    obtain ⟨s, h1, -⟩ := Poly.add_total hN (hm kv hkv) hp
    simp [h1]
  obtain ⟨ts, h⟩ : ∃ ts : List (ℕ × Poly X F), _ = some ts :=
    upsert_total (K := Bl) (lt := ltE) (k := e) (new := some p)
    (upd := fun v => do
      let s ← v.addAssign p
      return if s.terms = [] then none else some s) m.terms
    (fun kv _ => ⟨by simp [ltE], by simp [ltE]⟩) (by simp) hu
  have hmem := upsert_mem (K := Bl) ltE_sound _ _ h
  refine ⟨{ m with terms := ts }, by
    unfold push
    exact congrArg (fun o => o.bind fun ts => some { m with terms := ts }) h,
    fun kv hkv => ?_, fun a he hk kv hkv => ?_⟩
  · rcases hmem kv hkv with h1 | ⟨-, h1 | ⟨v, h1, h2⟩⟩
    · exact hm kv h1
    · cases h1; exact hp
    · obtain ⟨s, h3, h4⟩ := Poly.add_total hN (hm _ h1) hp
      simp only [h3, Option.bind_eq_bind, Option.bind_some, pure, Option.some.injEq] at h2
      split_ifs at h2
      simp only [Option.some.injEq] at h2
      rw [← h2]; exact h4
  · rcases hmem kv hkv with h1 | ⟨h1, -⟩
    · exact hk kv h1
    · exact lt_of_eq_of_lt h1 he

/-- C59: sums and differences are defined and stay in the algebra. -/
theorem C59_add_defined (a : Alg) (m n : Mv X F) (N : ℕ) (hN : N < 2 ^ 31) (hm : m.Within N)
    (hn : n.Within N) (hk : m.Keys a) (hk' : n.Keys a) :
    (∃ r, m.add n = some r ∧ r.Within N ∧ r.Keys a) ∧ ∃ r, m.sub n = some r ∧ r.Within N ∧ r.Keys a := by
  constructor
  · exact foldlM_total (fun s : Mv X F => s.Within N ∧ s.Keys a) n.terms m
      (fun s ep hep hs => by
        obtain ⟨r, h1, h2, h3⟩ := push_total (e := ep.1) hN hs.1 (hn ep hep)
        exact ⟨r, h1, h2, h3 a (hk' ep hep) hs.2⟩) ⟨hm, hk⟩
  · exact foldlM_total (fun s : Mv X F => s.Within N ∧ s.Keys a) n.terms m
      (fun s ep hep hs => by
        obtain ⟨r, h1, h2, h3⟩ := push_total (e := ep.1) hN hs.1 (Poly.neg_within (hn ep hep))
        exact ⟨r, h1, h2, h3 a (hk' ep hep) hs.2⟩) ⟨hm, hk⟩

theorem step_total {op : ℕ → ℕ → Option ℤ} {e1 : ℕ} {p1 : Poly X F} {ep : ℕ × Poly X F}
    {s : List (ℕ × Poly X F)} {N M d : ℕ} (hN : N + M < 2 ^ 31)
    (hop : ∃ z, op e1 ep.1 = some z ∧ (z ≠ 0 → z.natAbs - 1 < 2 ^ d))
    (h1 : p1.Within N) (h2 : ep.2.Within M)
    (hs : ∀ fq ∈ s, fq.2.Within (N + M) ∧ fq.1 < 2 ^ d) :
    ∃ s', step op e1 p1 s ep = some s' ∧ ∀ fq ∈ s', fq.2.Within (N + M) ∧ fq.1 < 2 ^ d := by
  obtain ⟨z, hz, hb⟩ := hop
  by_cases h0 : z = 0
  · exact ⟨s, by simp [step, hz, h0], hs⟩
  · obtain ⟨p12, hp, hw⟩ := Poly.mul_total hN h1 h2
    have hq : (if z < 0 then p12.neg else p12).Within (N + M) := by
      split_ifs
      · exact Poly.neg_within hw
      · exact hw
    obtain ⟨v0, hv0, hw0⟩ := Poly.add_total (p := (⟨[]⟩ : Poly X F)) hN (by intro mf h; simp at h) hq
    obtain ⟨ts, h⟩ := upsert_total (K := Bl) (lt := ltE) (k := z.natAbs - 1)
      (new := Poly.addAssign ⟨[]⟩ (if z < 0 then p12.neg else p12))
      (upd := fun v => do return some (← v.addAssign (if z < 0 then p12.neg else p12))) s
      (fun kv _ => ⟨by simp [ltE], by simp [ltE]⟩) (by simp [hv0]) (fun kv hkv => by
        obtain ⟨r, h3, -⟩ := Poly.add_total hN (hs kv hkv).1 hq
        simp [h3])
    refine ⟨ts, ?_, fun fq hfq => ?_⟩
    · simp only [step, hz, Option.bind_eq_bind, Option.bind_some, h0, if_false, hp]
      exact h
    · rcases upsert_mem (K := Bl) ltE_sound _ _ h fq hfq with h3 | ⟨h3, h4 | ⟨v, h4, h5⟩⟩
      · exact hs fq h3
      · rw [hv0, Option.some.injEq] at h4
        exact ⟨h4 ▸ hw0, lt_of_eq_of_lt h3 (hb h0)⟩
      · obtain ⟨r, h6, h7⟩ := Poly.add_total hN (hs _ h4).1 hq
        simp only [h6, Option.bind_eq_bind, Option.bind_some, pure, Option.some.injEq] at h5
        exact ⟨h5 ▸ h7, lt_of_eq_of_lt h3 (hb h0)⟩

theorem prod_total {op : Alg → ℕ → ℕ → Option ℤ} {a : Alg} {m n : Mv X F} {N M : ℕ}
    (hN : N + M < 2 ^ 31) (ha : m.alg = some a)
    (hop : ∀ e < 2 ^ a.dim, ∀ f < 2 ^ a.dim,
      ∃ z, op a e f = some z ∧ (z ≠ 0 → z.natAbs - 1 < 2 ^ a.dim))
    (hm : m.Within N) (hn : n.Within M) (hk : m.Keys a) (hk' : n.Keys a) :
    ∃ r, prod op m n = some r ∧ r.Within (N + M) ∧ r.Keys a ∧ r.alg = some a := by
  obtain ⟨ts, h1, h2⟩ := foldlM_total (f := fun out (ep : ℕ × Poly X F) =>
      n.terms.foldlM (step (op a) ep.1 ep.2) out)
    (fun s => ∀ fq ∈ s, fq.2.Within (N + M) ∧ fq.1 < 2 ^ a.dim) m.terms []
    (fun s ep hep hs => foldlM_total (fun s => ∀ fq ∈ s, fq.2.Within (N + M) ∧ fq.1 < 2 ^ a.dim)
      n.terms s (fun s fq hfq hs => step_total hN (hop _ (hk ep hep) _ (hk' fq hfq)) (hm ep hep)
        (hn fq hfq) hs) hs) (by simp)
  refine ⟨⟨some a, prune ts⟩, ?_, fun fq hfq => ?_, fun fq hfq => ?_, rfl⟩
  · simp only [prod, ha, Option.bind_eq_bind, Option.bind_some]
    rw [h1]; rfl
  · exact (h2 fq (List.mem_of_mem_filter hfq)).1
  · exact (h2 fq (List.mem_of_mem_filter hfq)).2

theorem ret_key {neg : Bool} {u d : ℕ} (hd : d ≤ 30) (hu : u < 2 ^ d) :
    (ret neg u).natAbs - 1 < 2 ^ d := by
  have hpow : 2 ^ d ≤ 2 ^ 30 := Nat.pow_le_pow_right (by norm_num) hd
  rw [ret_eq neg u (by omega)]
  cases neg <;> simp only [Bool.false_eq_true, if_false, if_true] <;> omega

theorem mul_key (a : Alg) (hd : a.dim ≤ 30) (e f : ℕ) (he : e < 2 ^ a.dim) (hf : f < 2 ^ a.dim) :
    (a.mul e f).natAbs - 1 < 2 ^ a.dim := by
  have hr := fun u (hu : u < 2 ^ a.dim) => ret_key (neg := false) hd hu
  simp only [ret, Bool.false_eq_true, if_false, one_mul] at hr
  unfold Alg.mul
  split_ifs
  · simp
  · exact hr f hf
  · exact hr e he
  · split
    · simp
    · exact ret_key hd (Nat.xor_lt_two_pow he hf)

/-- C59: the geometric and inner products are defined and stay in the algebra. -/
theorem C59_mul_defined (a : Alg) (hd : a.dim ≤ 30) (m n : Mv X F) (N M : ℕ) (hN : N + M < 2 ^ 31)
    (ha : m.alg = some a) (hm : m.Within N) (hn : n.Within M) (hk : m.Keys a) (hk' : n.Keys a) :
    (∃ r, m.mul n = some r ∧ r.Within (N + M) ∧ r.Keys a ∧ r.alg = some a) ∧
    (∃ r, m.dot n = some r ∧ r.Within (N + M) ∧ r.Keys a ∧ r.alg = some a) := by
  constructor
  · exact prod_total hN ha (fun e he f hf => ⟨_, rfl, fun _ => mul_key a hd e f he hf⟩) hm hn hk hk'
  · refine prod_total hN ha (fun e he f hf => ⟨_, rfl, fun _ => ?_⟩) hm hn hk hk'
    unfold Alg.dot
    split_ifs
    · simp
    · simp only
      split_ifs
      · simp
      · exact mul_key a hd e f he hf
      · simp

/-- C59: so is the exterior product. -/
theorem C59_ext_defined (a : Alg) (hd : a.dim ≤ 30) (m n : Mv X F) (N M : ℕ) (hN : N + M < 2 ^ 31)
    (ha : m.alg = some a) (hm : m.Within N) (hn : n.Within M) (hk : m.Keys a) (hk' : n.Keys a) :
    ∃ r, m.ext n = some r ∧ r.Within (N + M) ∧ r.Keys a ∧ r.alg = some a := by
  refine prod_total hN ha (fun e he f hf => ?_) hm hn hk hk'
  by_cases h : e &&& f = 0
  · obtain ⟨s, hs, -⟩ := ext_disjoint (R := ℤ) a rfl hd e f he hf h
      (Spec.gens (n := a.dim) (metric ℤ a))
    exact ⟨_, hs, fun _ => ret_key hd (Nat.or_lt_two_pow he hf)⟩
  · exact ⟨0, by simp [Alg.ext, Nat.pos_of_ne_zero h], by simp⟩

/-- C59: and the regressive product of Cl(3,0,1). -/
theorem C59_reg_defined (m n : Mv X F) (N M : ℕ) (hN : N + M < 2 ^ 31)
    (ha : m.alg = some ⟨3, 0, 1⟩) (hm : m.Within N) (hn : n.Within M)
    (hk : m.Keys ⟨3, 0, 1⟩) (hk' : n.Keys ⟨3, 0, 1⟩) :
    ∃ r, m.reg n = some r ∧ r.Within (N + M) ∧ r.Keys ⟨3, 0, 1⟩ ∧ r.alg = some ⟨3, 0, 1⟩ := by
  refine prod_total hN ha (fun e he f hf => ?_) hm hn hk hk'
  have : ∀ e < 16, ∀ f < 16, ((⟨3, 0, 1⟩ : Alg).reg e f).any
      (fun z => decide (z = 0 ∨ z.natAbs - 1 < 16)) = true := by decide +kernel
  have := this e he f hf
  cases h : (⟨3, 0, 1⟩ : Alg).reg e f with
  | none => rw [h] at this; simp at this
  | some z =>
    rw [h] at this
    simp only [Option.any_some, decide_eq_true_eq] at this
    exact ⟨z, rfl, fun h0 => this.resolve_left h0⟩

end Defined

/-- C59: a product of a multivector without an algebra dereferences a null pointer. -/
theorem C59_null_fails : ∃ m n : Mv ℕ ℤ, m.mul n = none :=
  ⟨⟨none, []⟩, ⟨none, []⟩, by decide⟩

/-! ### canonical forms -/

/-- Ordered by `elem_comp`, with canonical non-empty coefficients. -/
def Canon (m : Mv X F) : Prop :=
  Sorted (K := Bl) m.terms ∧ ∀ ep ∈ m.terms, ep.2.Canon ∧ ep.2.terms ≠ []

theorem den_ne_zero {p : Poly X F} (hp : p.Canon) (h : p.terms ≠ []) : p.den ≠ 0 := by
  intro h0
  have := Poly.den_inj hp Poly.empty_canon (by rw [h0]; rfl)
  exact h (by rw [this])

theorem push_canon {m r : Mv X F} {e : ℕ} {p : Poly X F} (hm : m.Canon) (hp : p.Canon)
    (hp0 : p.terms ≠ []) (h : m.push e p = some r) : r.Canon := by
  simp only [push, Option.bind_eq_bind, Option.bind_eq_some_iff, pure, Option.some.injEq] at h
  obtain ⟨ts, h1, rfl⟩ := h
  refine ⟨upsert_sorted (K := Bl) ltE_sound _ _ hm.1 h1, fun kv hkv => ?_⟩
  rcases upsert_mem (K := Bl) ltE_sound _ _ h1 kv hkv with h2 | ⟨-, h2 | ⟨v, h2, h3⟩⟩
  · exact hm.2 kv h2
  · cases h2; exact ⟨hp, hp0⟩
  · simp only [Option.bind_eq_some_iff, Option.some.injEq] at h3
    obtain ⟨s, h4, h5⟩ := h3
    split_ifs at h5 with h6
    simp only [Option.some.injEq] at h5
    rw [← h5]
    exact ⟨Poly.add_canon (hm.2 _ h2).1 hp h4, h6⟩

/-- C59: sums and differences keep the representation canonical. -/
theorem C59_add_canonical_partial (m n r : Mv X F) (hm : m.Canon) (hn : n.Canon) :
    (m.add n = some r → r.Canon) ∧ (m.sub n = some r → r.Canon) := by
  constructor
  · exact foldlM_inv Canon _ _ _ (fun s ep s' hep hs h =>
      push_canon hs (hn.2 ep hep).1 (hn.2 ep hep).2 h) hm
  · exact foldlM_inv Canon _ _ _ (fun s ep s' hep hs h =>
      push_canon hs (Poly.neg_canon (hn.2 ep hep).1) (by
        have := (hn.2 ep hep).2
        simpa [Poly.neg] using this) h) hm

theorem step_canon {op : ℕ → ℕ → Option ℤ} {e1 : ℕ} {p1 : Poly X F} {ep : ℕ × Poly X F}
    {s s' : List (ℕ × Poly X F)} (h1 : p1.Canon) (h2 : ep.2.Canon)
    (hs : Sorted (K := Bl) s ∧ ∀ fq ∈ s, fq.2.Canon) (h : step op e1 p1 s ep = some s') :
    Sorted (K := Bl) s' ∧ ∀ fq ∈ s', fq.2.Canon := by
  simp only [step, Option.bind_eq_bind, Option.bind_eq_some_iff] at h
  obtain ⟨z, -, h⟩ := h
  by_cases h0 : z = 0
  · rw [if_pos h0] at h
    simp only [pure, Option.some.injEq] at h
    exact h ▸ hs
  · rw [if_neg h0] at h
    simp only [Option.bind_eq_some_iff] at h
    obtain ⟨p12, hp, h⟩ := h
    have hq : (if z < 0 then p12.neg else p12).Canon := by
      split_ifs
      · exact Poly.neg_canon (Poly.mul_canon h1 h2 hp)
      · exact Poly.mul_canon h1 h2 hp
    refine ⟨upsert_sorted (K := Bl) ltE_sound _ _ hs.1 h, fun kv hkv => ?_⟩
    rcases upsert_mem (K := Bl) ltE_sound _ _ h kv hkv with h3 | ⟨-, h3 | ⟨v, h3, h4⟩⟩
    · exact hs.2 kv h3
    · exact Poly.add_canon Poly.empty_canon hq h3
    · simp only [Option.bind_eq_some_iff, pure, Option.some.injEq] at h4
      obtain ⟨t, h5, rfl⟩ := h4
      exact Poly.add_canon (hs.2 _ h3) hq h5

/-- C59: every product is canonical, in particular without empty or zero coefficients. -/
theorem C59_prod_canonical_partial (op : Alg → ℕ → ℕ → Option ℤ) (m n r : Mv X F) (hm : m.Canon)
    (hn : n.Canon) (h : prod op m n = some r) : r.Canon := by
  simp only [prod, Option.bind_eq_bind, Option.bind_eq_some_iff, pure, Option.some.injEq] at h
  obtain ⟨a, -, ts, h1, rfl⟩ := h
  have := foldlM_inv (fun s : List (ℕ × Poly X F) => Sorted (K := Bl) s ∧ ∀ fq ∈ s, fq.2.Canon)
    _ _ _ (fun s ep s' hep hs h => foldlM_inv
      (fun s : List (ℕ × Poly X F) => Sorted (K := Bl) s ∧ ∀ fq ∈ s, fq.2.Canon) _ _ _
      (fun s fq s' hfq hs h => step_canon (hm.2 ep hep).1 (hn.2 fq hfq).1 hs h) hs h)
    ⟨List.Pairwise.nil, fun _ h => absurd h List.not_mem_nil⟩ h1
  refine ⟨List.Pairwise.filter _ this.1, fun fq hfq => ⟨this.2 fq (List.mem_of_mem_filter hfq), ?_⟩⟩
  have := List.of_mem_filter hfq
  simpa using this

/-- C59: multivectors with the same coefficient for every blade have the same representation. -/
theorem C59_unique (m n : Mv X F) (hm : m.Canon) (hn : n.Canon)
    (h : comb (fun e => Finsupp.single e (1 : LR X F)) m.terms
      = comb (fun e => Finsupp.single e (1 : LR X F)) n.terms) : m.terms = n.terms := by
  have conv : ∀ l : List (ℕ × Poly X F), comb (fun e => Finsupp.single e (1 : LR X F)) l
      = ((l.map fun ep => (ep.1, ep.2.den)).map fun kv => Finsupp.single kv.1 kv.2).sum := by
    intro l
    rw [comb, List.map_map]
    congr 1
    refine List.map_congr_left fun ep _ => ?_
    simp [Finsupp.smul_single]
  rw [conv, conv] at h
  have sm : ∀ l : List (ℕ × Poly X F), Sorted (K := Bl) l →
      Sorted (K := Bl) (l.map fun ep => (ep.1, ep.2.den)) := fun l hl => List.pairwise_map.2 hl
  have nz : ∀ k : Mv X F, k.Canon → ∀ kv ∈ k.terms.map (fun ep => (ep.1, ep.2.den)),
      True ∧ kv.2 ≠ 0 := by
    intro k hk kv hkv
    obtain ⟨ep, h1, rfl⟩ := List.mem_map.1 hkv
    exact ⟨trivial, den_ne_zero (hk.2 ep h1).1 (hk.2 ep h1).2⟩
  have key := sorted_unique (K := Bl) (I := ℕ) (fun x => x) (fun _ => True) (fun _ _ _ _ h => h)
    (sm _ hm.1) (sm _ hn.1) (nz m hm) (nz n hn) h
  have inj : ∀ s t : List (ℕ × Poly X F), (∀ ep ∈ s, ep.2.Canon) → (∀ ep ∈ t, ep.2.Canon) →
      s.map (fun ep => (ep.1, ep.2.den)) = t.map (fun ep => (ep.1, ep.2.den)) → s = t := by
    intro s
    induction s with
    | nil => intro t _ _ h; cases t <;> simp_all
    | cons a s ih =>
      intro t hs ht h
      cases t with
      | nil => simp at h
      | cons b t =>
        rw [List.map_cons, List.map_cons, List.cons.injEq, Prod.mk.injEq] at h
        rw [ih t (fun ep h => hs ep (List.mem_cons_of_mem _ h))
          (fun ep h => ht ep (List.mem_cons_of_mem _ h)) h.2]
        congr 1
        exact Prod.ext h.1.1 (Poly.den_inj (hs a (List.mem_cons_self ..))
          (ht b (List.mem_cons_self ..)) h.1.2)
  exact inj _ _ (fun ep h => (hm.2 ep h).1) (fun ep h => (hn.2 ep h).1) key

/-- C59: `m - m` has no term left, so the shell prints `0`. -/
theorem C59_sub_self_partial (m r : Mv X F) (hm : m.Canon) (h : m.sub m = some r) :
    r.terms = [] := by
  have hr := (C59_add_canonical_partial m m r hm hm).2 h
  have h0 := (sub_comb (fun e => Finsupp.single e (1 : LR X F)) h).2
  rw [sub_self] at h0
  exact C59_unique r ⟨none, []⟩ hr ⟨List.Pairwise.nil, by simp⟩ (by rw [h0]; rfl)

/-- `(x e1) * (2 e12) = 2 x e2` with `x` the variable 0. -/
example : (⟨some ⟨3, 0, 1⟩, [(2, ⟨[(⟨[(0, 1)]⟩, 1)]⟩)]⟩ : Mv ℕ ℤ).mul
    ⟨some ⟨3, 0, 1⟩, [(6, ⟨[(⟨[]⟩, 2)]⟩)]⟩
    = some ⟨some ⟨3, 0, 1⟩, [(4, ⟨[(⟨[(0, 1)]⟩, 2)]⟩)]⟩ := by decide +kernel

end Mv
end Klein.Sym
