import Verif.Float.Contracted
import Verif.Props.Accuracy32

/-!
# C113: normalisation and inverses under contraction

C94 allows a compiler to fuse multiplications and additions in products and actions.  Here it may do so in
normalisation and in the inverses (`Fl ω`, `Verif/Float/Contracted.lean`), including the Newton steps: every bound
of C70 and C78 on these operations still holds, for every choice `ω` of what to fuse.  The dot products are allowed to be fused
with SSE4.1 as well, although `dpps` is a single instruction.
-/

set_option linter.unusedSimpArgs false
set_option linter.unusedTactic false
set_option linter.unreachableTactic false

namespace Klein

open F32

variable {ω : Compiler}

/-- The values of the lanes. -/
def V4.f32 (v : V4 (Fl ω)) : V4 F32 := ⟨v.l0.val, v.l1.val, v.l2.val, v.l3.val⟩
def Motor.f32 (m : Motor (Fl ω)) : Motor F32 := ⟨m.p1.f32, m.p2.f32⟩
def Line.f32 (m : Line (Fl ω)) : Line F32 := ⟨m.p1.f32, m.p2.f32⟩

theorem V4.get_val (v : V4 (Fl ω)) (i : Fin 4) : (v.get i).val = v.f32.get i := by fin_cases i <;> rfl

/-! ### dot products -/

section Dot

variable {A B C D : Fl ω} {E1 E2 E3 E4 M1 M2 M3 M4 : ℝ}

theorem ApF.add4 (h1 : ApF A E1 M1 u 126 65) (h2 : ApF B E2 M2 u 126 65) (h3 : ApF C E3 M3 u 126 65)
    (h4 : ApF D E4 M4 u 126 65) : ApF ((A + B) + (C + D)) (E1 + E2 + (E3 + E4)) (M1 + M2 + (M3 + M4)) 2.5e-7 126 67 :=
  have a := h1.add h2 le_rfl le_rfl u_pos.le (by ap_num) (by norm_num) (by norm_num) (by norm_num) (show _ ≤ (1.3e-7 : ℝ) by have := u_pos; have := u_le; nlinarith)
  have b := h3.add h4 le_rfl le_rfl u_pos.le (by ap_num) (by norm_num) (by norm_num) (by norm_num) (show _ ≤ (1.3e-7 : ℝ) by have := u_pos; have := u_le; nlinarith)
  a.add b le_rfl le_rfl (by norm_num) (by norm_num) (by norm_num) (by norm_num) (by norm_num) (by ap_num)

theorem ApF.add3 (h1 : ApF A E1 M1 u 126 65) (h2 : ApF B E2 M2 u 126 65) (h3 : ApF C E3 M3 u 126 65) :
    ApF ((A + B) + C) (E1 + E2 + E3) (M1 + M2 + M3) 2.5e-7 126 67 :=
  have a := h1.add h2 le_rfl le_rfl u_pos.le (by ap_num) (by norm_num) (by norm_num) (by norm_num) (show _ ≤ (1.3e-7 : ℝ) by have := u_pos; have := u_le; nlinarith)
  a.add h3 le_rfl (by ap_num) (by norm_num) (by norm_num) (by norm_num) (by norm_num) (by norm_num) (by ap_num)

theorem ApF.add03 (h1 : ApF A E1 M1 u 126 65) (h2 : ApF B E2 M2 u 126 65) (h3 : ApF C E3 M3 u 126 65) :
    ApF ((0 + A) + (B + C)) (E1 + (E2 + E3)) (M1 + (M2 + M3)) 2.5e-7 126 67 :=
  have a := h1.zero_add' u_pos.le (by ap_num) (by norm_num) (by norm_num) (show _ ≤ (1.3e-7 : ℝ) by have := u_pos; have := u_le; nlinarith)
  have b := h2.add h3 le_rfl le_rfl u_pos.le (by ap_num) (by norm_num) (by norm_num) (by norm_num) (show _ ≤ (1.3e-7 : ℝ) by have := u_pos; have := u_le; nlinarith)
  a.add b le_rfl le_rfl (by norm_num) (by norm_num) (by norm_num) (by norm_num) (by norm_num) (by ap_num)

theorem ApF.dot {X : Fl ω} {E M E' P : ℝ} {m n : ℕ} (h : ApF X E M 2.5e-7 m n) (hE : E = E') (hM : M ≤ P + 4 * (1 / 2 ^ 126))
    (hP : 1 / 2 ^ 60 ≤ P) : X.val.isFinite = true ∧ |r X.val - E'| ≤ 3e-7 * P := by
  refine ⟨h.val.fin, hE ▸ h.val.err.trans ?_⟩
  norm_num at hM hP ⊢
  linarith

private theorem abs30 {v : V4 (Fl ω)} (hv : v.f32.Le2 30) (i : Fin 4) : (v.get i).val.isFinite = true ∧ |r (v.get i).val| ≤ 2 ^ 32 := by
  rw [V4.get_val]
  exact ⟨(hv i (by norm_num)).1, (abs_of_le2 (hv i) (by norm_num)).trans (by norm_num)⟩

/-- The products of the lanes of two vectors. -/
private theorem leaves {v w : V4 (Fl ω)} (hv : ∀ i, i ≠ 0 → (v.get i).val.isFinite = true ∧ |r (v.get i).val| ≤ 2 ^ 32)
    (hw : ∀ i, i ≠ 0 → (w.get i).val.isFinite = true ∧ |r (w.get i).val| ≤ 2 ^ 32) (i : Fin 4) (hi : i ≠ 0) :
    ApF (v.get i * w.get i) (r (v.get i).val * r (w.get i).val) (|r (v.get i).val * r (w.get i).val| + 1 / 2 ^ 126) u 126 65 :=
  .leaf _ _ (hv i hi).1 (hw i hi).1 (hv i hi).2 (hw i hi).2

theorem hi_dot_fl (isa : Isa) {v w : V4 (Fl ω)} (hv : ∀ i, i ≠ 0 → (v.get i).val.isFinite = true ∧ |r (v.get i).val| ≤ 2 ^ 32)
    (hw : ∀ i, i ≠ 0 → (w.get i).val.isFinite = true ∧ |r (w.get i).val| ≤ 2 ^ 32) {P : ℝ} (hP : 1 / 2 ^ 60 ≤ P)
    (h : |r v.l1.val * r w.l1.val| + |r v.l2.val * r w.l2.val| + |r v.l3.val * r w.l3.val| ≤ P) (i : Fin 4) :
    ((hi_dp_bc isa v w).get i).val.isFinite = true ∧
      |r ((hi_dp_bc isa v w).get i).val - (r v.l1.val * r w.l1.val + r v.l2.val * r w.l2.val + r v.l3.val * r w.l3.val)| ≤ 3e-7 * P := by
  have l := leaves hv hw
  have l1 := l 1 (by decide); have l2 := l 2 (by decide); have l3 := l 3 (by decide)
  simp only [V4.get] at l1 l2 l3
  cases isa
  · have g := ((l3.add3 l2 l1).dot (E' := r v.l1.val * r w.l1.val + r v.l2.val * r w.l2.val + r v.l3.val * r w.l3.val) (by ring)
      (show _ ≤ P + _ by norm_num at h ⊢; linarith) hP)
    fin_cases i <;> exact g
  · have g := ((l1.add03 l2 l3).dot (E' := r v.l1.val * r w.l1.val + r v.l2.val * r w.l2.val + r v.l3.val * r w.l3.val) (by ring)
      (show _ ≤ P + _ by norm_num at h ⊢; linarith) hP)
    fin_cases i <;> exact g

theorem dot_fl (isa : Isa) {v w : V4 (Fl ω)} (hv : ∀ i, (v.get i).val.isFinite = true ∧ |r (v.get i).val| ≤ 2 ^ 32)
    (hw : ∀ i, (w.get i).val.isFinite = true ∧ |r (w.get i).val| ≤ 2 ^ 32) {P : ℝ} (hP : 1 / 2 ^ 60 ≤ P)
    (h : |r v.l0.val * r w.l0.val| + |r v.l1.val * r w.l1.val| + |r v.l2.val * r w.l2.val| + |r v.l3.val * r w.l3.val| ≤ P) (i : Fin 4) :
    ((dp_bc isa v w).get i).val.isFinite = true ∧
      |r ((dp_bc isa v w).get i).val -
        (r v.l0.val * r w.l0.val + r v.l1.val * r w.l1.val + r v.l2.val * r w.l2.val + r v.l3.val * r w.l3.val)| ≤ 3e-7 * P := by
  have l : ∀ j, _ := fun j => ApF.leaf (v.get j) (w.get j) (hv j).1 (hw j).1 (hv j).2 (hw j).2
  have l0 := l 0; have l1 := l 1; have l2 := l 2; have l3 := l 3
  simp only [V4.get] at l0 l1 l2 l3
  cases isa
  · have g := ((l1.add4 l0 l3 l2).dot (E' := r v.l0.val * r w.l0.val + r v.l1.val * r w.l1.val + r v.l2.val * r w.l2.val + r v.l3.val * r w.l3.val)
      (by ring) (show _ ≤ P + _ by norm_num at h ⊢; linarith) hP)
    fin_cases i <;> exact g
  · have g := ((l0.add4 l1 l2 l3).dot (E' := r v.l0.val * r w.l0.val + r v.l1.val * r w.l1.val + r v.l2.val * r w.l2.val + r v.l3.val * r w.l3.val)
      (by ring) (show _ ≤ P + _ by norm_num at h ⊢; linarith) hP)
    fin_cases i <;> exact g

theorem sq3_fl (isa : Isa) {v : V4 (Fl ω)} (hv : v.f32.Le2 30) (hN : 1 / 2 ^ 60 ≤ v.f32.sq3) (i : Fin 4) :
    ((hi_dp_bc isa v v).get i).val.isFinite = true ∧ |r ((hi_dp_bc isa v v).get i).val - v.f32.sq3| ≤ 3e-7 * v.f32.sq3 := by
  have e : v.f32.sq3 = r v.l1.val * r v.l1.val + r v.l2.val * r v.l2.val + r v.l3.val * r v.l3.val := by
    simp only [V4.sq3, V4.f32]; ring
  have := hi_dot_fl isa (fun j _ => abs30 hv j) (fun j _ => abs30 hv j) hN (by simp only [abs_mul_self]; exact e.ge) i
  rwa [← e] at this

theorem sq4_fl (isa : Isa) {v : V4 (Fl ω)} (hv : v.f32.Le2 30) (hN : 1 / 2 ^ 60 ≤ v.f32.sq4) (i : Fin 4) :
    ((dp_bc isa v v).get i).val.isFinite = true ∧ |r ((dp_bc isa v v).get i).val - v.f32.sq4| ≤ 3e-7 * v.f32.sq4 := by
  have e : v.f32.sq4 = r v.l0.val * r v.l0.val + r v.l1.val * r v.l1.val + r v.l2.val * r v.l2.val + r v.l3.val * r v.l3.val := by
    simp only [V4.sq4, V4.f32]; ring
  have := dot_fl isa (abs30 hv) (abs30 hv) hN (by simp only [abs_mul_self]; exact e.ge) i
  rwa [← e] at this

end Dot

/-! ### reciprocals -/

private theorem ratio {D N η : ℝ} (hN : 0 < N) (hD : |D - N| ≤ 3e-7 * N) {W : ℝ} (hη : W * √D - 1 = η)
    (hη2 : |η| ≤ 4.6e-7) : |W * √N - 1| ≤ 6.2e-7 := by
  have hD' := abs_le.1 hD
  have hD0 : 0 < D := by norm_num at hD'; linarith
  have hsD : 0 < √D := Real.sqrt_pos.2 hD0
  have hsN : 0 < √N := Real.sqrt_pos.2 hN
  obtain ⟨t, et⟩ : ∃ t, t = √N / √D := ⟨_, rfl⟩
  have ht0 : 0 < t := by rw [et]; positivity
  have ht2 : t ^ 2 * D = N := by
    rw [et, div_pow, Real.sq_sqrt hN.le, Real.sq_sqrt hD0.le]; field_simp
  have hW : W * √N = (1 + η) * t := by rw [← hη, et]; field_simp; ring
  have h1 : t ^ 2 ≤ 1.000000301 := by
    by_contra hc
    push Not at hc
    have : 1.000000301 * D < t ^ 2 * D := by gcongr
    norm_num at *
    linarith
  have h2 : 0.999999699 ≤ t ^ 2 := by
    by_contra hc
    push Not at hc
    have : t ^ 2 * D < 0.999999699 * D := by gcongr
    norm_num at *
    linarith
  have h3 : t ≤ 1.000000151 := by
    by_contra hc
    push Not at hc
    nlinarith
  have h4 : 0.999999849 ≤ t := by
    by_contra hc
    push Not at hc
    nlinarith
  rw [hW, abs_le]
  have := abs_le.1 hη2
  clear * - this h3 h4
  constructor <;> nlinarith

private theorem unit_of_scaled {k x X s : ℝ} (hk0 : 0 ≤ k) (hk : k ≤ 1e-6)
    (h : |x - X / s| ≤ k * |X / s| + 1 / 2 ^ 150) (hle : |X / s| ≤ 1) :
    |x ^ 2 - (X / s) ^ 2| ≤ (2 * k + k ^ 2) * (X / s) ^ 2 + 1 / 2 ^ 140 := by
  generalize X / s = m at *
  have hm := abs_nonneg m
  have e : x ^ 2 - m ^ 2 = (x - m) * (2 * m + (x - m)) := by ring
  rw [e, abs_mul]
  have h1 : |2 * m + (x - m)| ≤ 2 * |m| + (k * |m| + 1 / 2 ^ 150) := by
    refine (abs_add_le _ _).trans ?_
    rw [abs_mul, abs_two]; linarith
  refine (mul_le_mul h h1 (abs_nonneg _) (by positivity)).trans ?_
  have e2 : m ^ 2 = |m| ^ 2 := (sq_abs m).symm
  rw [e2]
  generalize |m| = n at *
  have hkn : k * n ≤ 1 := by nlinarith
  have hkn0 : 0 ≤ k * n := by positivity
  norm_num
  nlinarith

theorem unit4_of_scaled {v w : V4 F32} (hN : 1 / 2 ^ 60 ≤ v.sq4) (h : ∀ i, Scaled 6.8e-7 (w.get i) (r (v.get i)) v.sq4) : |w.sq4 - 1| ≤ 1.4e-6 := by
  have hN0 : 0 < v.sq4 := lt_of_lt_of_le (by positivity) hN
  have hs0 : 0 < √v.sq4 := Real.sqrt_pos.2 hN0
  have hsum : (r v.l0 / √v.sq4) ^ 2 + (r v.l1 / √v.sq4) ^ 2 + (r v.l2 / √v.sq4) ^ 2
      + (r v.l3 / √v.sq4) ^ 2 = 1 := by
    simp only [div_pow, Real.sq_sqrt hN0.le]
    rw [← add_div, ← add_div, ← add_div]
    exact div_self hN0.ne'
  have g0 := (h 0).2; have g1 := (h 1).2; have g2 := (h 2).2; have g3 := (h 3).2
  simp only [V4.get] at g0 g1 g2 g3
  generalize √v.sq4 = s at *
  have ab : ∀ X : ℝ, |X| / s = |X / s| := fun X => by rw [abs_div, abs_of_pos hs0]
  rw [ab] at g0 g1 g2 g3
  have le1 : ∀ m : ℝ, m ^ 2 ≤ 1 → |m| ≤ 1 := fun m h => by rw [← sq_abs] at h; nlinarith [abs_nonneg m]
  have q0 := sq_nonneg (r v.l0 / s); have q1 := sq_nonneg (r v.l1 / s)
  have q2 := sq_nonneg (r v.l2 / s); have q3 := sq_nonneg (r v.l3 / s)
  have k0 := unit_of_scaled (by norm_num) (by norm_num) g0 (le1 _ (by linarith))
  have k1 := unit_of_scaled (by norm_num) (by norm_num) g1 (le1 _ (by linarith))
  have k2 := unit_of_scaled (by norm_num) (by norm_num) g2 (le1 _ (by linarith))
  have k3 := unit_of_scaled (by norm_num) (by norm_num) g3 (le1 _ (by linarith))
  rw [V4.sq4]
  rw [abs_le] at *
  generalize (r v.l0 / s) ^ 2 = m0 at *
  generalize (r v.l1 / s) ^ 2 = m1 at *
  generalize (r v.l2 / s) ^ 2 = m2 at *
  generalize (r v.l3 / s) ^ 2 = m3 at *
  clear h g0 g1 g2 g3 ab le1
  norm_num at k0 k1 k2 k3 ⊢
  constructor <;> linarith

/-- `1 / norm`, with contraction. -/
theorem inv_norm_fl {hw : Hw F32} (hc : hw.Contract32) {D : Fl ω} {N : ℝ} (hf : D.val.isFinite = true)
    (h1 : 1 / 2 ^ 60 ≤ N) (h2 : N ≤ 2 ^ 70) (hD : |r D.val - N| ≤ 3e-7 * N) :
    (rsqrt1 (hw.fl ω) D).val.isFinite = true ∧ |r (rsqrt1 (hw.fl ω) D).val * √N - 1| ≤ 6.2e-7 ∧
      ∀ x y s, (rsqrt1 (hw.fl ω) D).prod = some (x, y, s) →
        x.isFinite = true ∧ y.isFinite = true ∧ |r (sg s x) * r y * √N - 1| ≤ 6.2e-7 := by
  have hN : 0 < N := lt_of_lt_of_le (by positivity) h1
  have hD' := abs_le.1 hD
  obtain ⟨hz, hz2, hz3⟩ := rsqrt1_fl (ω := ω) hc hf (by norm_num at *; linarith) (by norm_num at *; linarith)
  exact ⟨hz, ratio hN hD rfl hz2, fun x y s h => ⟨(hz3 x y s h).1, (hz3 x y s h).2.1, ratio hN hD rfl (hz3 x y s h).2.2⟩⟩

theorem ap_rcp_fl {hw : Hw F32} (hc : hw.Contract32) {D : Fl ω} {S : ℝ} (hS : In2 S 30 32) (hf : D.val.isFinite = true)
    (hD : |r D.val - S * S| ≤ 3e-7 * (S * S)) :
    Ap (rcp1 (hw.fl ω) D).val (1 / S * (1 / S)) (1 / S * (1 / S)) 6.3e-7 64 60 := by
  have hr := hS.mul hS
  have hN := hr.pos
  have hD' := abs_le.1 hD
  have hlo := hr.lo
  have hhi := hr.hi
  obtain ⟨N, eN⟩ : ∃ N, N = S * S := ⟨_, rfl⟩
  have e1 : 1 / S * (1 / S) = 1 / N := by rw [eN, one_div_mul_one_div]
  have hr2 : In2 (1 / N) 64 60 := by rw [eN]; exact hr.inv
  rw [← eN] at hD hN hD' hlo hhi
  have hD0 : 0 < r D.val := by norm_num at hD'; linarith
  obtain ⟨hz, he⟩ := rcp1_fl (ω := ω) hc hf (by rw [abs_of_pos hD0]; norm_num at *; linarith)
    (by rw [abs_of_pos hD0]; norm_num at *; linarith)
  rw [e1]
  refine ⟨hz, (abs_of_pos (by positivity)).le, ?_, hr2⟩
  obtain ⟨w, ew⟩ : ∃ w, w = r (rcp1 (hw.fl ω) D).val := ⟨_, rfl⟩
  rw [← ew] at he ⊢
  obtain ⟨t, et⟩ : ∃ t, t = w * N := ⟨_, rfl⟩
  obtain ⟨d, ed⟩ : ∃ d, d = r D.val / N := ⟨_, rfl⟩
  have hDe : r D.val = d * N := by rw [ed]; field_simp
  have hd : |d - 1| ≤ 3e-7 := by
    have : d - 1 = (r D.val - N) / N := by rw [ed]; field_simp
    rw [this, abs_div, abs_of_pos hN, div_le_iff₀ hN]; exact hD
  have hw1 : w * r D.val = t * d := by rw [et, hDe]; ring
  rw [hw1] at he
  have e : w - 1 / N = (t - 1) * (1 / N) := by rw [et]; field_simp
  rw [e, abs_mul, abs_of_pos (show 0 < 1 / N by positivity)]
  refine mul_le_mul_of_nonneg_right ?_ (by positivity)
  clear * - he hd
  rw [abs_le] at *
  norm_num at *
  have hd1 : (0:ℝ) < d := by linarith
  constructor
  · by_contra hcon
    push Not at hcon
    nlinarith
  · by_contra hcon
    push Not at hcon
    nlinarith

private theorem cs4 {b0 b1 b2 b3 c0 c1 c2 c3 S C : ℝ} (hS : 0 ≤ S) (hC : 0 ≤ C)
    (hb : b0 ^ 2 + b1 ^ 2 + b2 ^ 2 + b3 ^ 2 ≤ S ^ 2) (hc : c0 ^ 2 + c1 ^ 2 + c2 ^ 2 + c3 ^ 2 ≤ C ^ 2) :
    b0 * c0 + b1 * c1 + b2 * c2 + b3 * c3 ≤ S * C := by
  refine abs_le_of_sq_le_sq' ?_ (mul_nonneg hS hC) |>.2
  have h1 : (b0 * c0 + b1 * c1 + b2 * c2 + b3 * c3) ^ 2 ≤
      (b0 ^ 2 + b1 ^ 2 + b2 ^ 2 + b3 ^ 2) * (c0 ^ 2 + c1 ^ 2 + c2 ^ 2 + c3 ^ 2) := by
    nlinarith [sq_nonneg (b0 * c1 - b1 * c0), sq_nonneg (b0 * c2 - b2 * c0), sq_nonneg (b0 * c3 - b3 * c0),
      sq_nonneg (b1 * c2 - b2 * c1), sq_nonneg (b1 * c3 - b3 * c1), sq_nonneg (b2 * c3 - b3 * c2)]
  rw [mul_pow]
  exact h1.trans (mul_le_mul hb hc (by positivity) (by positivity))


section Inv
variable {hw : Hw F32} {v : V4 (Fl ω)}

theorem inv3_fl (hc : hw.Contract32) (isa : Isa) (hv : v.f32.Le2 30) (hN : 1 / 2 ^ 60 ≤ v.f32.sq3) (i : Fin 4) :
    ((rsqrt_nr1 (hw.fl ω) (hi_dp_bc isa v v)).get i).val.isFinite = true ∧
      |r ((rsqrt_nr1 (hw.fl ω) (hi_dp_bc isa v v)).get i).val * √v.f32.sq3 - 1| ≤ 6.2e-7 ∧
      ∀ x y s, ((rsqrt_nr1 (hw.fl ω) (hi_dp_bc isa v v)).get i).prod = some (x, y, s) →
        x.isFinite = true ∧ y.isFinite = true ∧ |r (sg s x) * r y * √v.f32.sq3 - 1| ≤ 6.2e-7 := by
  obtain ⟨h1, h2⟩ := sq3_fl isa hv hN i
  have hS := sq3_rng hv hN
  have hle : v.f32.sq3 ≤ 2 ^ 70 := by
    rw [← Real.sq_sqrt (show 0 ≤ v.f32.sq3 by unfold V4.sq3; positivity)]
    exact (pow_le_pow_left₀ hS.pos.le hS.hi 2).trans (by norm_num)
  have e : (rsqrt_nr1 (hw.fl ω) (hi_dp_bc isa v v)).get i = rsqrt1 (hw.fl ω) ((hi_dp_bc isa v v).get i) := by
    rw [rsqrt_nr1_map]; fin_cases i <;> rfl
  rw [e]; exact inv_norm_fl hc h1 hN hle h2

theorem inv4_fl (hc : hw.Contract32) (isa : Isa) (hv : v.f32.Le2 30) (hN : 1 / 2 ^ 60 ≤ v.f32.sq4) (i : Fin 4) :
    ((rsqrt_nr1 (hw.fl ω) (dp_bc isa v v)).get i).val.isFinite = true ∧
      |r ((rsqrt_nr1 (hw.fl ω) (dp_bc isa v v)).get i).val * √v.f32.sq4 - 1| ≤ 6.2e-7 := by
  obtain ⟨h1, h2⟩ := sq4_fl isa hv hN i
  have hS := sq4_rng hv hN
  have hle : v.f32.sq4 ≤ 2 ^ 70 := by
    rw [← Real.sq_sqrt (show 0 ≤ v.f32.sq4 by unfold V4.sq4; positivity)]
    exact (pow_le_pow_left₀ hS.pos.le hS.hi 2).trans (by norm_num)
  have e : (rsqrt_nr1 (hw.fl ω) (dp_bc isa v v)).get i = rsqrt1 (hw.fl ω) ((dp_bc isa v v).get i) := by
    rw [rsqrt_nr1_map]; fin_cases i <;> rfl
  rw [e]
  obtain ⟨a, b, -⟩ := inv_norm_fl hc h1 hN hle h2
  exact ⟨a, b⟩

/-! ### normalisation -/

/-- C113: `branch.normalize`. -/
theorem C113_branch_normalize (hc : hw.Contract32) (isa : Isa) (b : Branch (Fl ω)) (hv : b.p1.f32.Le2 30)
    (hN : 1 / 2 ^ 60 ≤ b.p1.f32.sq3) (i : Fin 4) :
    Scaled 6.8e-7 ((b.normalize (hw.fl ω) isa).p1.f32.get i) (r (b.p1.f32.get i)) b.p1.f32.sq3 := by
  obtain ⟨h1, h2, -⟩ := inv3_fl hc isa hv hN i
  have e : (b.normalize (hw.fl ω) isa).p1.f32.get i =
      b.p1.f32.get i * ((rsqrt_nr1 (hw.fl ω) (hi_dp_bc isa b.p1 b.p1)).get i).val := by
    fin_cases i <;> rfl
  rw [e]
  exact scale_f32 (hv i) h1 hN h2 (by norm_num) (by norm_num)

theorem C113_line_normalize_p1 (hc : hw.Contract32) (isa : Isa) (l : Line (Fl ω)) (hv : l.p1.f32.Le2 30)
    (hN : 1 / 2 ^ 60 ≤ l.p1.f32.sq3) (i : Fin 4) :
    Scaled 6.8e-7 ((l.normalize (hw.fl ω) isa).p1.f32.get i) (r (l.p1.f32.get i)) l.p1.f32.sq3 :=
  C113_branch_normalize hc isa ⟨l.p1⟩ hv hN i

theorem C113_direction_normalize (hc : hw.Contract32) (isa : Isa) (d : Direction (Fl ω)) (hv : d.p3.f32.Le2 30)
    (hN : 1 / 2 ^ 60 ≤ d.p3.f32.sq3) (i : Fin 4) :
    Scaled 6.8e-7 ((d.normalize (hw.fl ω) isa).p3.f32.get i) (r (d.p3.f32.get i)) d.p3.f32.sq3 :=
  C113_branch_normalize hc isa ⟨d.p3⟩ hv hN i

/-- C113: `rotor.normalize`. -/
theorem C113_rotor_normalize (hc : hw.Contract32) (isa : Isa) (b : Rotor (Fl ω)) (hv : b.p1.f32.Le2 30)
    (hN : 1 / 2 ^ 60 ≤ b.p1.f32.sq4) (i : Fin 4) :
    Scaled 6.8e-7 ((b.normalize (hw.fl ω) isa).p1.f32.get i) (r (b.p1.f32.get i)) b.p1.f32.sq4 := by
  obtain ⟨h1, h2⟩ := inv4_fl hc isa hv hN i
  have e : (b.normalize (hw.fl ω) isa).p1.f32.get i =
      b.p1.f32.get i * ((rsqrt_nr1 (hw.fl ω) (dp_bc isa b.p1 b.p1)).get i).val := by
    fin_cases i <;> rfl
  rw [e]
  exact scale_f32 (hv i) h1 hN h2 (by norm_num) (by norm_num)

theorem C113_motor_normalize_p1 (hc : hw.Contract32) (isa : Isa) (m : Motor (Fl ω)) (hv : m.p1.f32.Le2 30)
    (hN : 1 / 2 ^ 60 ≤ m.p1.f32.sq4) (i : Fin 4) :
    Scaled 6.8e-7 ((m.normalize (hw.fl ω) isa).p1.f32.get i) (r (m.p1.f32.get i)) m.p1.f32.sq4 :=
  C113_rotor_normalize hc isa ⟨m.p1⟩ hv hN i

theorem C113_rotor_normalize_unit (hc : hw.Contract32) (isa : Isa) (b : Rotor (Fl ω)) (hv : b.p1.f32.Le2 30)
    (hN : 1 / 2 ^ 60 ≤ b.p1.f32.sq4) : |(b.normalize (hw.fl ω) isa).p1.f32.sq4 - 1| ≤ 1.4e-6 :=
  unit4_of_scaled hN (C113_rotor_normalize hc isa b hv hN)

/-- C113: `plane.normalize`, the normal; SSE3 adds zero to these lanes of the reciprocal, and that sum may be fused. -/
theorem C113_plane_normalize (hc : hw.Contract32) (isa : Isa) (p : Plane (Fl ω)) (hv : p.p0.f32.Le2 30)
    (hN : 1 / 2 ^ 60 ≤ p.p0.f32.sq3) (i : Fin 4) (hi : i ≠ 0) :
    Scaled 7.4e-7 ((p.normalize (hw.fl ω) isa).p0.f32.get i) (r (p.p0.f32.get i)) p.p0.f32.sq3 := by
  obtain ⟨h1, h2, h2'⟩ := inv3_fl hc isa hv hN i
  have hxf := (hv i (by norm_num)).1
  cases isa
  · obtain ⟨w, ew⟩ : ∃ w, w = (rsqrt_nr1 (hw.fl ω) (hi_dp_bc .sse3 p.p0 p.p0)).get i := ⟨_, rfl⟩
    rw [← ew] at h1 h2 h2'
    have e : (p.normalize (hw.fl ω) .sse3).p0.f32.get i = (w + 0).val * p.p0.f32.get i := by
      rw [ew]; fin_cases i
      · exact absurd rfl hi
      all_goals rfl
    have hN0 : 0 < p.p0.f32.sq3 := lt_of_lt_of_le (by positivity) hN
    have hs0 : 0 < √p.p0.f32.sq3 := Real.sqrt_pos.2 hN0
    have hS := sq3_rng hv hN
    -- a value or a product that is nearly the reciprocal, rounded once more
    have core : ∀ {z : F32} {q : ℝ}, z.isFinite = true → |q * √p.p0.f32.sq3 - 1| ≤ 6.2e-7 →
        |r z - q| ≤ u * max (1 / 2 ^ 126) |q| → |r z * √p.p0.f32.sq3 - 1| ≤ 6.8e-7 := by
      intro z q hz hq hzq
      have hqa := abs_le.1 hq
      norm_num at hqa
      have hq0 : 0 < q := by
        by_contra hcon
        push Not at hcon
        have := mul_nonpos_of_nonpos_of_nonneg hcon hs0.le
        linarith
      have hqt : 1 / 2 ^ 126 ≤ |q| := by
        rw [abs_of_pos hq0]
        by_contra hcon
        push Not at hcon
        have := mul_le_mul hcon.le hS.hi hs0.le (by positivity)
        norm_num at this
        linarith
      rw [max_eq_right hqt, abs_of_pos hq0] at hzq
      have e1 : r z * √p.p0.f32.sq3 - 1 = (r z - q) * √p.p0.f32.sq3 + (q * √p.p0.f32.sq3 - 1) := by ring
      rw [e1]
      refine (abs_add_le _ _).trans ?_
      rw [abs_mul, abs_of_pos hs0]
      have h6 : |r z - q| * √p.p0.f32.sq3 ≤ u * 1.000001 := by
        calc |r z - q| * √p.p0.f32.sq3 ≤ u * q * √p.p0.f32.sq3 := by gcongr
          _ = u * (q * √p.p0.f32.sq3) := by ring
          _ ≤ u * 1.000001 := by have := u_pos; gcongr; norm_num; linarith
      unfold u at h6
      norm_num at *
      linarith
    have bnd : ∀ {q : ℝ}, |q * √p.p0.f32.sq3 - 1| ≤ 6.2e-7 → |q| ≤ 2 ^ 127 := by
      intro q hq
      have hqa := abs_le.1 hq
      have h3 : |q * √p.p0.f32.sq3| ≤ 2 := by rw [abs_le]; constructor <;> norm_num at * <;> linarith
      rw [abs_mul, abs_of_pos hs0] at h3
      by_contra hcon
      push Not at hcon
      have := mul_le_mul hcon.le hS.lo (by positivity) (abs_nonneg _)
      norm_num at this
      linarith
    have z : r (0 : Fl ω).val = 0 := r_zero
    have zf : (0 : Fl ω).val.isFinite = true := show (0 : F32).isFinite = true by decide +kernel
    have h3 : (w + 0).val.isFinite = true ∧ |r (w + 0).val * √p.p0.f32.sq3 - 1| ≤ 6.8e-7 := by
      rcases Fl.add_cases w 0 with h | ⟨x, y, s, hp, h⟩ | ⟨x, y, s, hp, h⟩
      · obtain ⟨a, b⟩ := add_ok (y := (0 : Fl ω).val) h1 zf (by rw [z, add_zero]; exact bnd h2)
        rw [z, add_zero] at b
        rw [h]
        exact ⟨a, core a h2 (b.trans (mul_le_mul_of_nonneg_left (le_max_right _ _) u_pos.le))⟩
      · obtain ⟨g1, g2, g3⟩ := h2' x y s hp
        obtain ⟨a, b⟩ := fma_ok (z := (0 : Fl ω).val) (fin_sg s g1) g2 zf (by rw [z, add_zero]; exact bnd g3)
        rw [z, add_zero] at b
        rw [h]
        exact ⟨a, core a g3 b⟩
      · cases hp
    rw [e, mul_comm_f32 h3.1 hxf]
    exact scale_f32 (hv i) h3.1 hN h3.2 (by norm_num) (by norm_num)
  · have e : (p.normalize (hw.fl ω) .sse41).p0.f32.get i =
        ((rsqrt_nr1 (hw.fl ω) (hi_dp_bc .sse41 p.p0 p.p0)).get i).val * p.p0.f32.get i := by
      fin_cases i
      · exact absurd rfl hi
      all_goals rfl
    rw [e, mul_comm_f32 h1 hxf]
    exact scale_f32 (hv i) h1 hN h2 (by norm_num) (by norm_num)

theorem C113_plane_normalize_unit (hc : hw.Contract32) (isa : Isa) (p : Plane (Fl ω)) (hv : p.p0.f32.Le2 30)
    (hN : 1 / 2 ^ 60 ≤ p.p0.f32.sq3) : |(p.normalize (hw.fl ω) isa).p0.f32.sq3 - 1| ≤ 1.5e-6 :=
  unit3_of_scaled hN (C113_plane_normalize hc isa p hv hN)

/-- C113: `point.normalize`. -/
theorem C113_point_normalize (hc : hw.Contract32) (p : Point (Fl ω)) (hv : p.p3.f32.Le2 30)
    (hw0 : 1 / 2 ^ 30 ≤ |r p.p3.l0.val|) (i : Fin 4) :
    ((p.normalize (hw.fl ω)).p3.f32.get i).isFinite = true ∧
      |r ((p.normalize (hw.fl ω)).p3.f32.get i) - r (p.p3.f32.get i) / r p.p3.l0.val| ≤
        3.8e-7 * |r (p.p3.f32.get i) / r p.p3.l0.val| + 1 / 2 ^ 150 := by
  have hb : ∀ i, |r (p.p3.f32.get i)| ≤ 2 ^ 30 := fun i => abs_of_le2 (hv i) (by norm_num)
  have hb0 : |r p.p3.l0.val| ≤ 2 ^ 30 := hb 0
  obtain ⟨hf, he⟩ := rcp1_fl (ω := ω) hc (show p.p3.l0.val.isFinite = true from (hv 0 (by norm_num)).1) (le_trans (by norm_num) hw0) (hb0.trans (by norm_num))
  have e : (p.normalize (hw.fl ω)).p3.f32.get i = p.p3.f32.get i * (rcp1 (hw.fl ω) p.p3.l0).val := by fin_cases i <;> rfl
  obtain ⟨w, ew⟩ : ∃ w, w = (rcp1 (hw.fl ω) p.p3.l0).val := ⟨_, rfl⟩
  obtain ⟨x, ex⟩ : ∃ x, x = p.p3.f32.get i := ⟨_, rfl⟩
  have hxf := (hv i (by norm_num)).1
  have hX := hb i
  rw [e, ← ew, ← ex]
  rw [← ew] at hf he
  rw [← ex] at hxf hX
  generalize r p.p3.l0.val = W at *
  have hW0 : 0 < |W| := lt_of_lt_of_le (by positivity) hw0
  have hW : W ≠ 0 := abs_pos.1 hW0
  have hq : 0 ≤ |r x / W| := abs_nonneg _
  have h1 : |r x * r w - r x / W| ≤ 3.2e-7 * |r x / W| := by
    have e : r x * r w - r x / W = (r w * W - 1) * (r x / W) := by field_simp
    rw [e, abs_mul]; gcongr
  have h2 : |r x * r w| ≤ 1.000001 * |r x / W| := by
    have := abs_add_le (r x * r w - r x / W) (r x / W)
    rw [sub_add_cancel] at this
    linarith
  have h3 : |r x / W| ≤ 2 ^ 60 := by
    rw [abs_div, div_le_iff₀ hW0]
    refine hX.trans ?_
    calc (2 : ℝ) ^ 30 = 2 ^ 60 * (1 / 2 ^ 30) := by norm_num
      _ ≤ 2 ^ 60 * |W| := by gcongr
  obtain ⟨hzf, hz⟩ := mul_ok hxf hf (h2.trans ((mul_le_mul_of_nonneg_left h3 (by norm_num)).trans (by norm_num)))
  refine ⟨hzf, ?_⟩
  have h5 : u * max (1 / 2 ^ 126) |r x * r w| ≤ 1 / 2 ^ 150 + 6e-8 * |r x / W| := by
    have : max (1 / 2 ^ 126) |r x * r w| ≤ 1 / 2 ^ 126 + 1.000001 * |r x / W| :=
      max_le (by linarith [mul_nonneg (show (0 : ℝ) ≤ 1.000001 by norm_num) hq])
        (h2.trans (by linarith [show (0 : ℝ) ≤ 1 / 2 ^ 126 by positivity]))
    refine (mul_le_mul_of_nonneg_left this u_pos.le).trans ?_
    unfold u
    rw [mul_add]
    refine add_le_add (le_of_eq (by norm_num)) ?_
    rw [← mul_assoc]
    gcongr
    norm_num
  have h6 := abs_add_le (r (x * w) - r x * r w) (r x * r w - r x / W)
  rw [sub_add_sub_cancel] at h6
  have h8 := (h6.trans (add_le_add (hz.trans h5) h1))
  generalize |r x / W| = q at *
  linarith

end Inv

/-! ### motors -/

section Motor

variable {m : Motor (Fl ω)} {C : ℝ} {hw : Hw F32}

private theorem abs32 {v : V4 (Fl ω)} (hf : v.f32.Finite) (h : ∀ i, |r (v.f32.get i)| ≤ 2 ^ 32) (i : Fin 4) :
    (v.get i).val.isFinite = true ∧ |r (v.get i).val| ≤ 2 ^ 32 := by
  rw [V4.get_val]; exact ⟨hf i, h i⟩

/-- The pseudoscalar part, with contraction. -/
theorem motor_bc_fl (h : m.f32.Scale C) (isa : Isa) (i : Fin 4) :
    Ap ((dp_bc isa (xor_ps m.p1 flip_ss) m.p2).get i).val (-(m.f32.real.bc)) (√m.p1.f32.sq4 * C) 3.1e-7 60 64 := by
  have hv : m.p1.f32.Le2 30 := h.p1
  have hS := sq4_rng hv h.norm
  have hP := hS.mul h.rng
  have hC0 := h.rng.pos.le
  have hp2 : ∀ j, |r (m.p2.f32.get j)| ≤ 2 ^ 32 := fun j => (lane_le4 hC0 h.p2 j).trans h.rng.hi
  have hcs : |r m.p1.l0.val| * |r m.p2.l0.val| + |r m.p1.l1.val| * |r m.p2.l1.val| + |r m.p1.l2.val| * |r m.p2.l2.val| +
      |r m.p1.l3.val| * |r m.p2.l3.val| ≤ √m.p1.f32.sq4 * C :=
    cs4 hS.pos.le hC0 (by simp only [sq_abs]; exact sq4_sqrt m.p1.f32) (by simp only [sq_abs]; exact h.p2)
  have hx : ∀ j, ((xor_ps m.p1 flip_ss).get j).val.isFinite = true ∧ |r ((xor_ps m.p1 flip_ss).get j).val| ≤ 2 ^ 32 := by
    intro j
    have g := abs30 hv j
    fin_cases j
    · have g0 : (-m.p1.l0.val).isFinite = true ∧ |r (-m.p1.l0.val)| ≤ 2 ^ 32 := by
        rw [r_neg, abs_neg]; exact ⟨by simpa using g.1, g.2⟩
      exact g0
    all_goals exact g
  obtain ⟨hf, he⟩ := dot_fl isa (v := xor_ps m.p1 flip_ss) (w := m.p2) hx (abs32 h.fin hp2) (P := √m.p1.f32.sq4 * C)
    (hP.lo.trans' (by norm_num))
    (by
      show |r (-m.p1.l0.val) * r m.p2.l0.val| + |r m.p1.l1.val * r m.p2.l1.val| + |r m.p1.l2.val * r m.p2.l2.val| + |r m.p1.l3.val * r m.p2.l3.val| ≤ _
      rw [r_neg]
      simp only [abs_mul, abs_neg]
      exact hcs) i
  have e : -(m.f32.real.bc) = r (xor_ps m.p1 flip_ss).l0.val * r m.p2.l0.val + r (xor_ps m.p1 flip_ss).l1.val * r m.p2.l1.val +
      r (xor_ps m.p1 flip_ss).l2.val * r m.p2.l2.val + r (xor_ps m.p1 flip_ss).l3.val * r m.p2.l3.val := by
    show _ = r (-m.p1.l0.val) * r m.p2.l0.val + r m.p1.l1.val * r m.p2.l1.val + r m.p1.l2.val * r m.p2.l2.val + r m.p1.l3.val * r m.p2.l3.val
    rw [r_neg]
    simp only [Motor.bc, Motor.real, Motor.f32, V4.real, V4.f32]; ring
  rw [← e] at he
  refine ⟨hf, ?_, he.trans (mul_le_mul_of_nonneg_right (by norm_num) hP.pos.le), hP⟩
  refine le_trans ?_ hcs
  rw [abs_neg]
  simp only [Motor.bc, Motor.real, Motor.f32, V4.f32, V4.real, ← abs_mul]
  refine (abs_sub _ _).trans (add_le_add_left ?_ _)
  refine (abs_sub _ _).trans (add_le_add_left ?_ _)
  exact abs_sub _ _

theorem motor_s_fl (h : m.f32.Scale C) (hc : hw.Contract32) (isa : Isa) (i : Fin 4) :
    Ap ((rsqrt_nr1 (hw.fl ω) (dp_bc isa m.p1 m.p1)).get i).val (1 / √m.p1.f32.sq4) (1 / √m.p1.f32.sq4) 6.2e-7 32 30 := by
  obtain ⟨h1, h2⟩ := inv4_fl (v := m.p1) hc isa h.p1 h.norm i
  exact ap_rsqrt (lt_of_lt_of_le (by positivity) h.norm) (sq4_rng h.p1 h.norm) h1 h2

theorem motor_q_fl (h : m.f32.Scale C) (hc : hw.Contract32) (isa : Isa) (i : Fin 4) :
    Ap ((rcp_nr1 (hw.fl ω) (dp_bc isa m.p1 m.p1)).get i).val (1 / √m.p1.f32.sq4 * (1 / √m.p1.f32.sq4))
      (1 / √m.p1.f32.sq4 * (1 / √m.p1.f32.sq4)) 6.3e-7 64 60 := by
  obtain ⟨h1, h2⟩ := sq4_fl (v := m.p1) isa h.p1 h.norm i
  have e : (rcp_nr1 (hw.fl ω) (dp_bc isa m.p1 m.p1)).get i = rcp1 (hw.fl ω) ((dp_bc isa m.p1 m.p1).get i) := by
    rw [rcp_nr1_map]; fin_cases i <;> rfl
  rw [e]
  refine ap_rcp_fl hc (sq4_rng h.p1 h.norm) h1 ?_
  rw [Real.mul_self_sqrt (by unfold V4.sq4; positivity)]; exact h2

end Motor

/-! ### one lane -/

section Lane
variable {b c s q d : Fl ω} {S C D : ℝ}

/-- One moment lane of `normalize`. -/
theorem lane_norm_fl (hS : In2 S 30 32) (hC : In2 C 30 32) (hb : Ap b.val (r b.val) S 0 30 32) (hc : Ap c.val (r c.val) C 0 30 32)
    (hs : Ap s.val (1 / S) (1 / S) 6.2e-7 32 30)
    (hq : Ap q.val (1 / S * (1 / S)) (1 / S * (1 / S)) 6.3e-7 64 60) (hd : Ap d.val D (S * C) 3.1e-7 60 64) :
    ApF (c * s) (r c.val * (1 / S)) (C * (1 / S)) 6.81e-7 62 62 ∧
    ApF (b * (d * q * s)) (r b.val * (D * (1 / S * (1 / S)) * (1 / S))) (C * (1 / S)) 1.76e-6 62 62 := by
  have h0 := hS.pos
  refine ⟨.mul hc hs (by norm_num) (by norm_num) (by norm_num) (by norm_num) (by ap_num), ?_⟩
  have h1 := ApF.mul (A := b) (B := d * q * s) hb (lane_t hS hC hs hq hd) (by norm_num) (by norm_num) (by norm_num) (by norm_num)
    (show _ ≤ (1.76e-6 : ℝ) by ap_num)
  exact h1.le rfl (by field_simp; rfl) (by norm_num) le_rfl (hC.mul hS.inv)

/-- One moment lane of `invert`. -/
theorem lane_inv_fl (hS : In2 S 30 32) (hC : In2 C 30 32) (hb : Ap b.val (r b.val) S 0 30 32) (hc : Ap c.val (r c.val) C 0 30 32)
    (hs : Ap s.val (1 / S) (1 / S) 6.2e-7 32 30)
    (hq : Ap q.val (1 / S * (1 / S)) (1 / S * (1 / S)) 6.3e-7 64 60) (hd : Ap d.val D (S * C) 3.1e-7 60 64) :
    ApF (c * q) (r c.val * (1 / S * (1 / S))) (C * (1 / S) * (1 / S)) 6.91e-7 94 92 ∧
    ApF (b * (s * (d * q * s)) + b * (s * (d * q * s)))
      (2 * (r b.val * (1 / S * (D * (1 / S * (1 / S)) * (1 / S))))) (2 * (C * (1 / S) * (1 / S))) 2.5e-6 94 93 := by
  have h0 := hS.pos
  refine ⟨(ApF.mul hc hq (by norm_num) (by norm_num) (by norm_num) (by norm_num)
    (show _ ≤ (6.91e-7 : ℝ) by ap_num)).le rfl (by rw [mul_assoc]) (by norm_num) le_rfl
      ((hC.mul hS.inv).mul hS.inv), ?_⟩
  have h1 := hs.mul (lane_t hS hC hs hq hd) (by norm_num) (by norm_num) (by norm_num) (by norm_num)
    (show _ ≤ (2.371e-6 : ℝ) by ap_num)
  have h3 : ApF (b * (s * (d * q * s))) (r b.val * (1 / S * (D * (1 / S * (1 / S)) * (1 / S))))
      (C * (1 / S) * (1 / S)) 2.432e-6 94 92 :=
    ApF.mulR (A := b) (B := s * (d * q * s)) hb h1 (by field_simp) ((hC.mul hS.inv).mul hS.inv) (by norm_num) (by norm_num) (by norm_num)
      (by norm_num) (by ap_num)
  have h4 := h3.add h3 le_rfl le_rfl (by norm_num) (by norm_num) (by norm_num) (by norm_num) (by norm_num) (show _ ≤ (2.5e-6 : ℝ) by ap_num)
  exact h4.eq (by ring) (by ring)

end Lane

section Motor2
variable {m : Motor (Fl ω)} {C : ℝ} {hw : Hw F32}

/-- C113: the moment lanes of a normalised motor. -/
theorem C113_motor_normalize_p2 (hc : hw.Contract32) {hwr : Hw ℝ} (hx : hwr.Exact) (isa isa' : Isa) (h : m.f32.Scale C) (i : Fin 4) :
    ((m.normalize (hw.fl ω) isa).p2.f32.get i).isFinite = true ∧
      |r ((m.normalize (hw.fl ω) isa).p2.f32.get i) - (m.f32.real.normalize hwr isa').p2.get i| ≤ 3.7e-6 * (C / √m.p1.f32.sq4) := by
  have hN : 0 < m.p1.f32.sq4 := lt_of_lt_of_le (by positivity) h.norm
  have hS : In2 (√m.p1.f32.sq4) 30 32 := sq4_rng h.p1 h.norm
  have hb : ∀ j, Ap (m.p1.get j).val (r (m.p1.get j).val) (√m.p1.f32.sq4) 0 30 32 := fun j => by
    rw [V4.get_val]; exact h.ap_b j
  have hcc : ∀ j, Ap (m.p2.get j).val (r (m.p2.get j).val) C 0 30 32 := fun j => by
    rw [V4.get_val]; exact h.ap_c j
  have key : ∀ j, _ := fun j => lane_norm_fl hS h.rng (hb j) (hcc j) (motor_s_fl h hc isa j) (motor_q_fl h hc isa j) (motor_bc_fl h isa j)
  have fin : ∀ {x : Fl ω} {E E' : ℝ} {n : ℕ}, ApF x E (C * (1 / √m.p1.f32.sq4) + C * (1 / √m.p1.f32.sq4)) 1.85e-6 62 n → E = E' →
      x.val.isFinite = true ∧ |r x.val - E'| ≤ 3.7e-6 * (C / √m.p1.f32.sq4) := by
    rintro x E E' n hx rfl
    exact ⟨hx.val.fin, hx.val.err.trans (le_of_eq (by ring))⟩
  rw [Motor.normalize_eq, Motor.real_dot4, show m.f32.p1.sq4 = m.p1.f32.sq4 from rfl, exact_rsqrt1 hx hN, exact_rcp1 hx hN.ne', ← inv_sqrt_sq hN]
  fin_cases i
  · obtain ⟨h1, h2⟩ := key 0
    exact fin (h1.sub h2.neg (by norm_num) le_rfl (by norm_num) (by norm_num) (by norm_num) (by norm_num) (by norm_num) (by ap_num))
      (by simp only [Motor.dualSmul, Motor.real, Motor.f32, V4.f32, V4.real, V4.get]; ring)
  · obtain ⟨h1, h2⟩ := key 1
    exact fin (h1.sub h2 (by norm_num) le_rfl (by norm_num) (by norm_num) (by norm_num) (by norm_num) (by norm_num) (by ap_num))
      (by simp only [Motor.dualSmul, Motor.real, Motor.f32, V4.f32, V4.real, V4.get]; ring)
  · obtain ⟨h1, h2⟩ := key 2
    exact fin (h1.sub h2 (by norm_num) le_rfl (by norm_num) (by norm_num) (by norm_num) (by norm_num) (by norm_num) (by ap_num))
      (by simp only [Motor.dualSmul, Motor.real, Motor.f32, V4.f32, V4.real, V4.get]; ring)
  · obtain ⟨h1, h2⟩ := key 3
    exact fin (h1.sub h2 (by norm_num) le_rfl (by norm_num) (by norm_num) (by norm_num) (by norm_num) (by norm_num) (by ap_num))
      (by simp only [Motor.dualSmul, Motor.real, Motor.f32, V4.f32, V4.real, V4.get]; ring)

/-- C113: the inverse of a motor, first part. -/
theorem C113_motor_invert_p1 (hc : hw.Contract32) {hwr : Hw ℝ} (hx : hwr.Exact) (isa isa' : Isa) (h : m.f32.Scale C) (i : Fin 4) :
    ((m.invert (hw.fl ω) isa).p1.f32.get i).isFinite = true ∧
      |r ((m.invert (hw.fl ω) isa).p1.f32.get i) - (m.f32.real.invert hwr isa').p1.get i| ≤ 7e-7 / √m.p1.f32.sq4 := by
  have hN : 0 < m.p1.f32.sq4 := lt_of_lt_of_le (by positivity) h.norm
  have hS : In2 (√m.p1.f32.sq4) 30 32 := sq4_rng h.p1 h.norm
  have hb : ∀ j, Ap (m.p1.get j).val (r (m.p1.get j).val) (√m.p1.f32.sq4) 0 30 32 := fun j => by
    rw [V4.get_val]; exact h.ap_b j
  have hcc : ∀ j, Ap (m.p2.get j).val (r (m.p2.get j).val) C 0 30 32 := fun j => by
    rw [V4.get_val]; exact h.ap_c j
  have hS0 := hS.pos
  have key : ∀ j, _ := fun j => (hb j).mulR (motor_q_fl h hc isa j) (show _ = 1 / √m.p1.f32.sq4 by field_simp) hS.inv
    (by norm_num) (by norm_num) (by norm_num) (by norm_num) (show _ ≤ (7e-7 : ℝ) by ap_num)
  have fin : ∀ {x : F32} {E E' : ℝ} {m' n : ℕ}, Ap x E (1 / √m.p1.f32.sq4) 7e-7 m' n → E = E' →
      x.isFinite = true ∧ |r x - E'| ≤ 7e-7 / √m.p1.f32.sq4 := by
    rintro x E E' m' n hx rfl
    exact ⟨hx.fin, hx.err.trans (le_of_eq (by ring))⟩
  rw [Motor.invert_eq, Motor.real_dot4, show m.f32.p1.sq4 = m.p1.f32.sq4 from rfl, exact_rsqrt1 hx hN, exact_rcp1 hx hN.ne', ← inv_sqrt_sq hN]
  fin_cases i
  · exact fin (key 0) (by simp [Motor.dualSmul, Motor.real, Motor.f32, V4.f32, V4.real, V4.get, kln, sse]; ring)
  · exact fin (key 1).neg (by simp [Motor.dualSmul, Motor.real, Motor.f32, V4.f32, V4.real, V4.get, kln, sse]; ring)
  · exact fin (key 2).neg (by simp [Motor.dualSmul, Motor.real, Motor.f32, V4.f32, V4.real, V4.get, kln, sse]; ring)
  · exact fin (key 3).neg (by simp [Motor.dualSmul, Motor.real, Motor.f32, V4.f32, V4.real, V4.get, kln, sse]; ring)

/-- C113: the inverse of a motor, moment. -/
theorem C113_motor_invert_p2 (hc : hw.Contract32) {hwr : Hw ℝ} (hx : hwr.Exact) (isa isa' : Isa) (h : m.f32.Scale C) (i : Fin 4) :
    ((m.invert (hw.fl ω) isa).p2.f32.get i).isFinite = true ∧
      |r ((m.invert (hw.fl ω) isa).p2.f32.get i) - (m.f32.real.invert hwr isa').p2.get i| ≤ 7.8e-6 * (C / m.p1.f32.sq4) := by
  have hN : 0 < m.p1.f32.sq4 := lt_of_lt_of_le (by positivity) h.norm
  have hS : In2 (√m.p1.f32.sq4) 30 32 := sq4_rng h.p1 h.norm
  have hb : ∀ j, Ap (m.p1.get j).val (r (m.p1.get j).val) (√m.p1.f32.sq4) 0 30 32 := fun j => by
    rw [V4.get_val]; exact h.ap_b j
  have hcc : ∀ j, Ap (m.p2.get j).val (r (m.p2.get j).val) C 0 30 32 := fun j => by
    rw [V4.get_val]; exact h.ap_c j
  have key : ∀ j, _ := fun j => lane_inv_fl hS h.rng (hb j) (hcc j) (motor_s_fl h hc isa j) (motor_q_fl h hc isa j) (motor_bc_fl h isa j)
  have fin : ∀ {x : Fl ω} {E E' : ℝ} {n : ℕ}, ApF x E (C * (1 / √m.p1.f32.sq4) * (1 / √m.p1.f32.sq4) +
        2 * (C * (1 / √m.p1.f32.sq4) * (1 / √m.p1.f32.sq4))) 2.6e-6 94 n → E = E' →
      x.val.isFinite = true ∧ |r x.val - E'| ≤ 7.8e-6 * (C / m.p1.f32.sq4) := by
    rintro x E E' n hx rfl
    refine ⟨hx.val.fin, hx.val.err.trans (le_of_eq ?_)⟩
    rw [mul_assoc C, inv_sqrt_sq hN]
    ring
  rw [Motor.invert_eq, Motor.real_dot4, show m.f32.p1.sq4 = m.p1.f32.sq4 from rfl, exact_rsqrt1 hx hN, exact_rcp1 hx hN.ne', ← inv_sqrt_sq hN]
  fin_cases i
  · obtain ⟨h1, h2⟩ := key 0
    exact fin (h1.sub h2.neg (by norm_num) le_rfl (by norm_num) (by norm_num) (by norm_num) (by norm_num) (by norm_num) (by ap_num))
      (by simp [Motor.dualSmul, Motor.real, Motor.f32, V4.f32, V4.real, V4.get, kln, sse]; ring)
  · obtain ⟨h1, h2⟩ := key 1
    exact fin (h1.sub h2 (by norm_num) le_rfl (by norm_num) (by norm_num) (by norm_num) (by norm_num) (by norm_num) (by ap_num)).neg
      (by simp [Motor.dualSmul, Motor.real, Motor.f32, V4.f32, V4.real, V4.get, kln, sse]; ring)
  · obtain ⟨h1, h2⟩ := key 2
    exact fin (h1.sub h2 (by norm_num) le_rfl (by norm_num) (by norm_num) (by norm_num) (by norm_num) (by norm_num) (by ap_num)).neg
      (by simp [Motor.dualSmul, Motor.real, Motor.f32, V4.f32, V4.real, V4.get, kln, sse]; ring)
  · obtain ⟨h1, h2⟩ := key 3
    exact fin (h1.sub h2 (by norm_num) le_rfl (by norm_num) (by norm_num) (by norm_num) (by norm_num) (by norm_num) (by ap_num)).neg
      (by simp [Motor.dualSmul, Motor.real, Motor.f32, V4.f32, V4.real, V4.get, kln, sse]; ring)

end Motor2

/-! ### lines -/

section Line
variable {m : Line (Fl ω)} {C : ℝ} {hw : Hw F32}

theorem line_bc_fl (h : m.f32.Scale C) (isa : Isa) (i : Fin 4) :
    Ap ((hi_dp_bc isa m.p1 m.p2).get i).val (dot3 m.f32.real.p1 m.f32.real.p2) (√m.p1.f32.sq3 * C) 3.1e-7 60 64 := by
  have hv : m.p1.f32.Le2 30 := h.p1
  have hS := sq3_rng hv h.norm
  have hP := hS.mul h.rng
  have hC0 := h.rng.pos.le
  have hp2 : ∀ j : Fin 4, j ≠ 0 → (m.p2.get j).val.isFinite = true ∧ |r (m.p2.get j).val| ≤ 2 ^ 32 := fun j hj => by
    rw [V4.get_val]; exact ⟨h.fin j, (lane_le3 hC0 h.p2 j hj).trans h.rng.hi⟩
  have hcs : 0 * 0 + |r m.p1.l1.val| * |r m.p2.l1.val| + |r m.p1.l2.val| * |r m.p2.l2.val| +
      |r m.p1.l3.val| * |r m.p2.l3.val| ≤ √m.p1.f32.sq3 * C :=
    cs4 hS.pos.le hC0 (by simp only [sq_abs]; have := sq3_sqrt m.p1.f32; simp only [V4.sq3, V4.f32] at this ⊢; linarith)
      (by simp only [sq_abs]; have := h.p2; simp only [V4.sq3, Line.f32, V4.f32] at this; linarith)
  rw [zero_mul, zero_add] at hcs
  obtain ⟨hf, he⟩ := hi_dot_fl isa (fun j _ => abs30 hv j) hp2 (P := √m.p1.f32.sq3 * C) (hP.lo.trans' (by norm_num))
    (by simp only [abs_mul]; exact hcs) i
  refine ⟨hf, ?_, ?_, hP⟩
  · refine le_trans ?_ hcs
    simp only [dot3, Line.real, Line.f32, V4.f32, V4.real, ← abs_mul]
    refine (abs_add_le _ _).trans (add_le_add_left ?_ _)
    exact abs_add_le _ _
  · exact he.trans (mul_le_mul_of_nonneg_right (by norm_num) hP.pos.le)

theorem line_s_fl (h : m.f32.Scale C) (hc : hw.Contract32) (isa : Isa) (i : Fin 4) :
    Ap ((rsqrt_nr1 (hw.fl ω) (hi_dp_bc isa m.p1 m.p1)).get i).val (1 / √m.p1.f32.sq3) (1 / √m.p1.f32.sq3) 6.2e-7 32 30 := by
  obtain ⟨h1, h2, -⟩ := inv3_fl (v := m.p1) hc isa h.p1 h.norm i
  exact ap_rsqrt (lt_of_lt_of_le (by positivity) h.norm) (sq3_rng h.p1 h.norm) h1 h2

theorem line_q_fl (h : m.f32.Scale C) (hc : hw.Contract32) (isa : Isa) (i : Fin 4) :
    Ap ((rcp_nr1 (hw.fl ω) (hi_dp_bc isa m.p1 m.p1)).get i).val (1 / √m.p1.f32.sq3 * (1 / √m.p1.f32.sq3))
      (1 / √m.p1.f32.sq3 * (1 / √m.p1.f32.sq3)) 6.3e-7 64 60 := by
  obtain ⟨h1, h2⟩ := sq3_fl (v := m.p1) isa h.p1 h.norm i
  have e : (rcp_nr1 (hw.fl ω) (hi_dp_bc isa m.p1 m.p1)).get i = rcp1 (hw.fl ω) ((hi_dp_bc isa m.p1 m.p1).get i) := by
    rw [rcp_nr1_map]; fin_cases i <;> rfl
  rw [e]
  refine ap_rcp_fl hc (sq3_rng h.p1 h.norm) h1 ?_
  rw [Real.mul_self_sqrt (by unfold V4.sq3; positivity)]; exact h2

/-- C113: the moment lanes of a normalised line. -/
theorem C113_line_normalize_p2 (hc : hw.Contract32) {hwr : Hw ℝ} (hx : hwr.Exact) (isa isa' : Isa) (h : m.f32.Scale C) (i : Fin 4) (hi : i ≠ 0) :
    ((m.normalize (hw.fl ω) isa).p2.f32.get i).isFinite = true ∧
      |r ((m.normalize (hw.fl ω) isa).p2.f32.get i) - (m.f32.real.normalize hwr isa').p2.get i| ≤ 3.7e-6 * (C / √m.p1.f32.sq3) := by
  have hN : 0 < m.p1.f32.sq3 := lt_of_lt_of_le (by positivity) h.norm
  have hS : In2 (√m.p1.f32.sq3) 30 32 := sq3_rng h.p1 h.norm
  have hb : ∀ j : Fin 4, j ≠ 0 → Ap (m.p1.get j).val (r (m.p1.get j).val) (√m.p1.f32.sq3) 0 30 32 := fun j hj => by
    rw [V4.get_val]; exact h.ap_b j hj
  have hcc : ∀ j : Fin 4, j ≠ 0 → Ap (m.p2.get j).val (r (m.p2.get j).val) C 0 30 32 := fun j hj => by
    rw [V4.get_val]; exact h.ap_c j hj
  have key : ∀ j : Fin 4, j ≠ 0 → _ := fun j hj => lane_norm_fl hS h.rng (hb j hj) (hcc j hj) (line_s_fl h hc isa j) (line_q_fl h hc isa j) (line_bc_fl h isa j)
  have fin : ∀ {x : Fl ω} {E E' : ℝ} {n : ℕ}, ApF x E (C * (1 / √m.p1.f32.sq3) + C * (1 / √m.p1.f32.sq3)) 1.85e-6 62 n → E = E' →
      x.val.isFinite = true ∧ |r x.val - E'| ≤ 3.7e-6 * (C / √m.p1.f32.sq3) := by
    rintro x E E' n hx rfl
    exact ⟨hx.val.fin, hx.val.err.trans (le_of_eq (by ring))⟩
  rw [Line.normalize_eq, Line.real_dot3, show m.f32.p1.sq3 = m.p1.f32.sq3 from rfl, exact_rsqrt1 hx hN, exact_rcp1 hx hN.ne', ← inv_sqrt_sq hN]
  fin_cases i
  · exact absurd rfl hi
  · obtain ⟨h1, h2⟩ := key 1 (by decide)
    exact fin (h1.sub h2 (by norm_num) le_rfl (by norm_num) (by norm_num) (by norm_num) (by norm_num) (by norm_num) (by ap_num))
      (by simp only [Line.dualSmul, Line.real, Line.f32, V4.f32, V4.real, V4.get]; ring)
  · obtain ⟨h1, h2⟩ := key 2 (by decide)
    exact fin (h1.sub h2 (by norm_num) le_rfl (by norm_num) (by norm_num) (by norm_num) (by norm_num) (by norm_num) (by ap_num))
      (by simp only [Line.dualSmul, Line.real, Line.f32, V4.f32, V4.real, V4.get]; ring)
  · obtain ⟨h1, h2⟩ := key 3 (by decide)
    exact fin (h1.sub h2 (by norm_num) le_rfl (by norm_num) (by norm_num) (by norm_num) (by norm_num) (by norm_num) (by ap_num))
      (by simp only [Line.dualSmul, Line.real, Line.f32, V4.f32, V4.real, V4.get]; ring)

/-- C113: the inverse of a line, first part. -/
theorem C113_line_invert_p1 (hc : hw.Contract32) {hwr : Hw ℝ} (hx : hwr.Exact) (isa isa' : Isa) (h : m.f32.Scale C) (i : Fin 4) (hi : i ≠ 0) :
    ((m.invert (hw.fl ω) isa).p1.f32.get i).isFinite = true ∧
      |r ((m.invert (hw.fl ω) isa).p1.f32.get i) - (m.f32.real.invert hwr isa').p1.get i| ≤ 7e-7 / √m.p1.f32.sq3 := by
  have hN : 0 < m.p1.f32.sq3 := lt_of_lt_of_le (by positivity) h.norm
  have hS : In2 (√m.p1.f32.sq3) 30 32 := sq3_rng h.p1 h.norm
  have hb : ∀ j : Fin 4, j ≠ 0 → Ap (m.p1.get j).val (r (m.p1.get j).val) (√m.p1.f32.sq3) 0 30 32 := fun j hj => by
    rw [V4.get_val]; exact h.ap_b j hj
  have hcc : ∀ j : Fin 4, j ≠ 0 → Ap (m.p2.get j).val (r (m.p2.get j).val) C 0 30 32 := fun j hj => by
    rw [V4.get_val]; exact h.ap_c j hj
  have hS0 := hS.pos
  have key : ∀ j : Fin 4, j ≠ 0 → _ := fun j hj => (hb j hj).mulR (line_q_fl h hc isa j) (show _ = 1 / √m.p1.f32.sq3 by field_simp) hS.inv
    (by norm_num) (by norm_num) (by norm_num) (by norm_num) (show _ ≤ (7e-7 : ℝ) by ap_num)
  have fin : ∀ {x : F32} {E E' : ℝ} {m' n : ℕ}, Ap x E (1 / √m.p1.f32.sq3) 7e-7 m' n → E = E' →
      x.isFinite = true ∧ |r x - E'| ≤ 7e-7 / √m.p1.f32.sq3 := by
    rintro x E E' m' n hx rfl
    exact ⟨hx.fin, hx.err.trans (le_of_eq (by ring))⟩
  rw [Line.invert_eq, Line.real_dot3, show m.f32.p1.sq3 = m.p1.f32.sq3 from rfl, exact_rsqrt1 hx hN, exact_rcp1 hx hN.ne', ← inv_sqrt_sq hN]
  fin_cases i
  · exact absurd rfl hi
  · exact fin (key 1 (by decide)).neg (by simp [Line.dualSmul, Line.real, Line.f32, V4.f32, V4.real, V4.get, kln, sse]; ring)
  · exact fin (key 2 (by decide)).neg (by simp [Line.dualSmul, Line.real, Line.f32, V4.f32, V4.real, V4.get, kln, sse]; ring)
  · exact fin (key 3 (by decide)).neg (by simp [Line.dualSmul, Line.real, Line.f32, V4.f32, V4.real, V4.get, kln, sse]; ring)

/-- C113: the inverse of a line, moment. -/
theorem C113_line_invert_p2 (hc : hw.Contract32) {hwr : Hw ℝ} (hx : hwr.Exact) (isa isa' : Isa) (h : m.f32.Scale C) (i : Fin 4) (hi : i ≠ 0) :
    ((m.invert (hw.fl ω) isa).p2.f32.get i).isFinite = true ∧
      |r ((m.invert (hw.fl ω) isa).p2.f32.get i) - (m.f32.real.invert hwr isa').p2.get i| ≤ 7.8e-6 * (C / m.p1.f32.sq3) := by
  have hN : 0 < m.p1.f32.sq3 := lt_of_lt_of_le (by positivity) h.norm
  have hS : In2 (√m.p1.f32.sq3) 30 32 := sq3_rng h.p1 h.norm
  have hb : ∀ j : Fin 4, j ≠ 0 → Ap (m.p1.get j).val (r (m.p1.get j).val) (√m.p1.f32.sq3) 0 30 32 := fun j hj => by
    rw [V4.get_val]; exact h.ap_b j hj
  have hcc : ∀ j : Fin 4, j ≠ 0 → Ap (m.p2.get j).val (r (m.p2.get j).val) C 0 30 32 := fun j hj => by
    rw [V4.get_val]; exact h.ap_c j hj
  have key : ∀ j : Fin 4, j ≠ 0 → _ := fun j hj => lane_inv_fl hS h.rng (hb j hj) (hcc j hj) (line_s_fl h hc isa j) (line_q_fl h hc isa j) (line_bc_fl h isa j)
  have fin : ∀ {x : Fl ω} {E E' : ℝ} {n : ℕ}, ApF x E (C * (1 / √m.p1.f32.sq3) * (1 / √m.p1.f32.sq3) +
        2 * (C * (1 / √m.p1.f32.sq3) * (1 / √m.p1.f32.sq3))) 2.6e-6 94 n → E = E' →
      x.val.isFinite = true ∧ |r x.val - E'| ≤ 7.8e-6 * (C / m.p1.f32.sq3) := by
    rintro x E E' n hx rfl
    refine ⟨hx.val.fin, hx.val.err.trans (le_of_eq ?_)⟩
    rw [mul_assoc C, inv_sqrt_sq hN]
    ring
  rw [Line.invert_eq, Line.real_dot3, show m.f32.p1.sq3 = m.p1.f32.sq3 from rfl, exact_rsqrt1 hx hN, exact_rcp1 hx hN.ne', ← inv_sqrt_sq hN]
  fin_cases i
  · exact absurd rfl hi
  · obtain ⟨h1, h2⟩ := key 1 (by decide)
    exact fin (h1.sub h2 (by norm_num) le_rfl (by norm_num) (by norm_num) (by norm_num) (by norm_num) (by norm_num) (by ap_num)).neg
      (by simp [Line.dualSmul, Line.real, Line.f32, V4.f32, V4.real, V4.get, kln, sse]; ring)
  · obtain ⟨h1, h2⟩ := key 2 (by decide)
    exact fin (h1.sub h2 (by norm_num) le_rfl (by norm_num) (by norm_num) (by norm_num) (by norm_num) (by norm_num) (by ap_num)).neg
      (by simp [Line.dualSmul, Line.real, Line.f32, V4.f32, V4.real, V4.get, kln, sse]; ring)
  · obtain ⟨h1, h2⟩ := key 3 (by decide)
    exact fin (h1.sub h2 (by norm_num) le_rfl (by norm_num) (by norm_num) (by norm_num) (by norm_num) (by norm_num) (by ap_num)).neg
      (by simp [Line.dualSmul, Line.real, Line.f32, V4.f32, V4.real, V4.get, kln, sse]; ring)

end Line

/-! ### what the compilers do -/

/-- A compiler that fuses nothing. -/
def plainly : Compiler := fun _ => .plain

/-- A compiler that fuses every product that is the left operand of a sum. -/
def eagerly : Compiler := fun _ => .left

/-- Fusing nothing gives the operations of C70 and C78. -/
theorem C113_plain (hw : Hw F32) (isa : Isa) (m : Motor (Fl plainly)) (l : Line (Fl plainly)) :
    (m.normalize (hw.fl plainly) isa).f32 = m.f32.normalize hw isa ∧ (m.invert (hw.fl plainly) isa).f32 = m.f32.invert hw isa ∧
    (l.normalize (hw.fl plainly) isa).f32 = l.f32.normalize hw isa ∧ (l.invert (hw.fl plainly) isa).f32 = l.f32.invert hw isa := by
  cases isa <;> exact ⟨rfl, rfl, rfl, rfl⟩

/-- Fusing makes a difference: the squared norm of these lanes changes by one unit in the last place. -/
theorem C113_contraction_matters : ∃ v : V4 F32,
    (dp_bc .sse3 (v.fl plainly 0) (v.fl plainly 0)).l0.val.mag.val = (dp_bc .sse3 (v.fl eagerly 0) (v.fl eagerly 0)).l0.val.mag.val + 1 :=
  ⟨⟨ofMag false 0x3F800001, ofMag false 0x3F85A6C6, 0, 0⟩, by decide +kernel⟩

/-- The plane with normal (3, 4, 0) is normalised whatever the compiler does. -/
example {hw : Hw F32} (hc : hw.Contract32) (isa : Isa) (ω : Compiler) :
    |r ((Plane.mk (V4.fl ω 0 ⟨1, 3, 4, 0⟩)).normalize (hw.fl ω) isa).p0.l1.val - 3 / 5| ≤ 5e-7 := by
  have r4 : r (4 : F32) = 4 := by
    have : (4 : F32).val = 4 := by decide +kernel
    simp [r, this]
  have hq : (V4.fl ω 0 ⟨1, 3, 4, 0⟩).f32.sq3 = 5 ^ 2 := by
    show r (3 : F32) ^ 2 + r (4 : F32) ^ 2 + r (0 : F32) ^ 2 = _
    rw [r_three, r4, r_zero]; norm_num
  have h := (C113_plane_normalize hc isa (Plane.mk (V4.fl ω 0 ⟨1, 3, 4, 0⟩))
    (fun i => show F32.Le2 (V4.get (⟨1, 3, 4, 0⟩ : V4 F32) i) 30 from match i with
      | 0 => Le2.one.mono (by norm_num) | 1 => fun _ => by decide +kernel | 2 => fun _ => by decide +kernel
      | 3 => Le2.zero.mono (by norm_num)) (by rw [hq]; norm_num) 1 (by decide)).2
  rw [hq, Real.sqrt_sq (by norm_num)] at h
  change |r ((Plane.mk (V4.fl ω 0 ⟨1, 3, 4, 0⟩)).normalize (hw.fl ω) isa).p0.l1.val - r (3 : F32) / 5| ≤ 7.4e-7 * (|r (3 : F32)| / 5) + 1 / 2 ^ 150 at h
  rw [r_three, abs_of_pos (show (0 : ℝ) < 3 by norm_num)] at h
  exact h.trans (by norm_num)

end Klein
