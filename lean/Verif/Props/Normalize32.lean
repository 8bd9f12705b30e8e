import Verif.Float.Newton32
import Verif.Props.Overflow

/-!
# C70: normalisation in binary32

With every operation rounded and with estimates of the accuracy the manual promises, `normalize`
divides by the norm up to a relative error below `7.4e-7`, and the squared norm of the result is within
`1.5e-6` of one, for lanes of magnitude at most `2^30` and norms of at least `2^-30`.
-/

set_option linter.unusedSimpArgs false
set_option linter.unusedTactic false
set_option linter.unreachableTactic false

namespace Klein

open F32

/-! ### the assumption on the estimates can be met -/

/-- There is a float within `2^-20` of every real in the middle of the range. -/
theorem exists_f32 {v : ℝ} (h1 : 1 / 2 ^ 100 ≤ v) (h2 : v ≤ 2 ^ 100) :
    ∃ x : F32, x.isFinite = true ∧ |r x - v| ≤ 1 / 2 ^ 20 * v := by
  have hv : 0 < v := lt_of_lt_of_le (by positivity) h1
  obtain ⟨q, hq1, hq2⟩ := exists_rat_btwn (show v < v * (1 + 1 / 2 ^ 22) by linarith [mul_pos hv (show (0 : ℝ) < 1 / 2 ^ 22 by positivity)])
  have hq0 : (0 : ℝ) < q := hv.trans hq1
  have hq0' : (0 : ℚ) < q := by exact_mod_cast hq0
  have hqu : (q : ℝ) ≤ 2 ^ 101 := by
    refine hq2.le.trans ?_
    calc v * (1 + 1 / 2 ^ 22) ≤ 2 ^ 100 * (1 + 1 / 2 ^ 22) := by gcongr
      _ ≤ 2 ^ 101 := by norm_num
  have hqu' : q ≤ 2 ^ 101 := by
    have : (q : ℝ) ≤ ((2 ^ 101 : ℚ) : ℝ) := by push_cast; exact hqu
    exact_mod_cast this
  have hf := (round_le_two_pow (z := false) (q := q) (n := 101) (by norm_num)
    (by rw [abs_of_pos hq0']; exact hqu')).1
  refine ⟨round false q, hf, ?_⟩
  have he := round_err hf
  have hmin : (minNormal : ℚ) ≤ |q| := by
    rw [abs_of_pos hq0']
    have : ((minNormal : ℚ) : ℝ) ≤ (q : ℝ) := by
      refine le_trans ?_ (h1.trans hq1.le)
      rw [minNormal]; push_cast; norm_num
    exact_mod_cast this
  rw [max_eq_right hmin, abs_of_pos hq0'] at he
  have he' : |r (round false q) - q| ≤ q / 2 ^ 24 := by
    have : ((|(round false q).val - q| : ℚ) : ℝ) ≤ ((q / 2 ^ 24 : ℚ) : ℝ) := by exact_mod_cast he
    push_cast at this
    exact this
  rw [abs_le] at he' ⊢
  norm_num at *
  constructor <;> linarith

/-- Estimates that meet the contract: it is not void. -/
theorem C70_contract_inhabited : ∃ hw : Hw F32, hw.Contract32 := by
  classical
  have h1 : ∀ a : F32, ∃ x : F32, 1 / 2 ^ 100 ≤ r a → r a ≤ 2 ^ 100 →
      x.isFinite = true ∧ |r x * √(r a) - 1| ≤ 3 / 2 ^ 13 := by
    intro a
    by_cases h : 1 / 2 ^ 100 ≤ r a ∧ r a ≤ 2 ^ 100
    · have h0 : 0 < r a := lt_of_lt_of_le (by positivity) h.1
      have hs0 : 0 < √(r a) := Real.sqrt_pos.2 h0
      have hs1 : 1 / 2 ^ 50 ≤ √(r a) := by
        refine Real.le_sqrt_of_sq_le (le_trans (le_of_eq ?_) h.1); norm_num
      have hs2 : √(r a) ≤ 2 ^ 50 := by
        refine Real.sqrt_le_iff.2 ⟨by positivity, h.2.trans (le_of_eq ?_)⟩; norm_num
      obtain ⟨x, hf, hx⟩ := exists_f32 (v := 1 / √(r a))
        (by
          rw [div_le_div_iff₀ (by positivity) hs0]
          refine le_trans (mul_le_mul_of_nonneg_left hs2 (by norm_num)) ?_
          norm_num)
        (by
          rw [div_le_iff₀ hs0]
          refine le_trans ?_ (mul_le_mul_of_nonneg_left hs1 (by positivity))
          norm_num)
      refine ⟨x, fun _ _ => ⟨hf, ?_⟩⟩
      have e : r x * √(r a) - 1 = (r x - 1 / √(r a)) * √(r a) := by field_simp
      rw [e, abs_mul, abs_of_pos hs0]
      calc |r x - 1 / √(r a)| * √(r a) ≤ 1 / 2 ^ 20 * (1 / √(r a)) * √(r a) := by gcongr
        _ = 1 / 2 ^ 20 := by field_simp
        _ ≤ 3 / 2 ^ 13 := by norm_num
    · exact ⟨0, fun h1 h2 => absurd ⟨h1, h2⟩ h⟩
  have h2 : ∀ a : F32, ∃ x : F32, 1 / 2 ^ 100 ≤ |r a| → |r a| ≤ 2 ^ 100 →
      x.isFinite = true ∧ |r x * r a - 1| ≤ 3 / 2 ^ 13 := by
    intro a
    by_cases h : 1 / 2 ^ 100 ≤ |r a| ∧ |r a| ≤ 2 ^ 100
    · have h0 : 0 < |r a| := lt_of_lt_of_le (by positivity) h.1
      obtain ⟨x, hf, hx⟩ := exists_f32 (v := 1 / |r a|)
        (by rw [div_le_div_iff₀ (by positivity) h0]; linarith [h.2])
        (by
          rw [div_le_iff₀ h0]
          refine le_trans ?_ (mul_le_mul_of_nonneg_left h.1 (by positivity))
          norm_num)
      have key : |r x * |r a| - 1| ≤ 3 / 2 ^ 13 := by
        clear h h1
        generalize |r a| = m at *
        have e : r x * m - 1 = (r x - 1 / m) * m := by field_simp
        rw [e, abs_mul, abs_of_pos h0]
        calc |r x - 1 / m| * m ≤ 1 / 2 ^ 20 * (1 / m) * m := by gcongr
          _ = 1 / 2 ^ 20 := by field_simp
          _ ≤ 3 / 2 ^ 13 := by norm_num
      rcases le_or_gt 0 (r a) with hs | hs
      · refine ⟨x, fun _ _ => ⟨hf, ?_⟩⟩
        rwa [abs_of_nonneg hs] at key
      · refine ⟨-x, fun _ _ => ⟨by simpa using hf, ?_⟩⟩
        rw [abs_of_neg hs] at key
        rw [r_neg]
        rwa [show -r x * r a = r x * -r a by ring]
    · exact ⟨0, fun h1 h2 => absurd ⟨h1, h2⟩ h⟩
  exact ⟨⟨fun a => (h2 a).choose, fun a => (h1 a).choose⟩,
    ⟨fun a _ => (h2 a).choose_spec, fun a _ => (h1 a).choose_spec⟩⟩

/-! ### squared norms -/

/-- The exact squared norms of the lanes. -/
noncomputable def V4.sq3 (v : V4 F32) : ℝ := r v.l1 ^ 2 + r v.l2 ^ 2 + r v.l3 ^ 2
noncomputable def V4.sq4 (v : V4 F32) : ℝ := r v.l0 ^ 2 + r v.l1 ^ 2 + r v.l2 ^ 2 + r v.l3 ^ 2

private theorem gamma4 {D N M : ℝ} (h : |D - N| ≤ F32.rounded.γ 4 * M) (hM : M ≤ N + 4 * F32.rounded.tiny)
    (hN : 1 / 2 ^ 60 ≤ N) : |D - N| ≤ 3e-7 * N := by
  have hg := C54_f32_gamma (k := 4) (by norm_num)
  have hg0 := Rounded.γ_nonneg (R := F32.rounded) 4
  have ht : F32.rounded.tiny ≤ 1 / 2 ^ 100 := by show (2⁻¹ : ℝ) ^ 126 ≤ _; norm_num
  generalize F32.rounded.tiny = t at *
  generalize F32.rounded.γ 4 = g at *
  have hM2 : M ≤ N * 1.001 := by norm_num at *; linarith
  have hN0 : 0 < N := lt_of_lt_of_le (by positivity) hN
  refine h.trans ?_
  calc g * M ≤ g * (N * 1.001) := by gcongr
    _ ≤ (4 + 1) / 2 ^ 24 * (N * 1.001) := by gcongr; exact_mod_cast hg
    _ ≤ 3e-7 * N := by norm_num; linarith

theorem sq3_f32 (isa : Isa) {v : V4 F32} (hv : v.Le2 30) (hN : 1 / 2 ^ 60 ≤ v.sq3) (i : Fin 4) :
    ((hi_dp_bc isa v v).get i).isFinite = true ∧ |r ((hi_dp_bc isa v v).get i) - v.sq3| ≤ 3e-7 * v.sq3 := by
  have hf : ((hi_dp_bc isa v v).get i).isFinite = true := by
    le2_get hv
    cases isa <;> fin_cases i <;> le2_lane
  refine ⟨hf, ?_⟩
  have hnear : Near F32.rounded 4 ((hi_dp_bc isa v v).get i) v.sq3 (v.sq3 + 4 * F32.rounded.tiny) := by
    have := F32.rounded.tiny_nonneg
    have e : ∀ x : F32, F32.rounded.val x = r x := fun _ => rfl
    cases isa <;> fin_cases i
    all_goals
      apply Near.le
      · simp only [kln, sse, V4.get, cond_true, cond_false]
        near
      · simp only [e, V4.sq3, V4.get]; ring
      · simp only [e, V4.sq3, V4.get, ← abs_mul, abs_mul_self]; linarith
      · decide
  exact gamma4 (hnear.err hf) le_rfl hN

theorem sq4_f32 (isa : Isa) {v : V4 F32} (hv : v.Le2 30) (hN : 1 / 2 ^ 60 ≤ v.sq4) (i : Fin 4) :
    ((dp_bc isa v v).get i).isFinite = true ∧ |r ((dp_bc isa v v).get i) - v.sq4| ≤ 3e-7 * v.sq4 := by
  have hf : ((dp_bc isa v v).get i).isFinite = true := by
    le2_get hv
    cases isa <;> fin_cases i <;> le2_lane
  refine ⟨hf, ?_⟩
  have hnear : Near F32.rounded 4 ((dp_bc isa v v).get i) v.sq4 (v.sq4 + 4 * F32.rounded.tiny) := by
    have := F32.rounded.tiny_nonneg
    have e : ∀ x : F32, F32.rounded.val x = r x := fun _ => rfl
    cases isa <;> fin_cases i
    all_goals
      apply Near.le
      · simp only [kln, sse, V4.get, cond_true, cond_false]
        near
      · simp only [e, V4.sq4, V4.get]; ring
      · simp only [e, V4.sq4, V4.get, ← abs_mul, abs_mul_self]; linarith
      · decide
  exact gamma4 (hnear.err hf) le_rfl hN

/-! ### division by the norm -/

private theorem ratio {D N η : ℝ} (hN : 0 < N) (hD : |D - N| ≤ 3e-7 * N) {W : ℝ} (hη : W * √D - 1 = η)
    (hη2 : |η| ≤ 4.6e-7) : |W * √N - 1| ≤ 6.2e-7 := by
  have hD' := abs_le.1 hD
  have hD0 : 0 < D := by norm_num at hD'; linarith
  have hsD : 0 < √D := Real.sqrt_pos.2 hD0
  have hsN : 0 < √N := Real.sqrt_pos.2 hN
  obtain ⟨t, et⟩ : ∃ t, t = √N / √D := ⟨_, rfl⟩
  have ht0 : 0 < t := by rw [et]; positivity
  have ht2 : t ^ 2 * D = N := by
    rw [et, div_pow, Real.sq_sqrt hN.le, Real.sq_sqrt hD0.le]; field_simp
  have hW : W * √N = (1 + η) * t := by rw [← hη, et]; field_simp; ring
  have h1 : t ^ 2 ≤ 1.000000301 := by
    by_contra hc
    push Not at hc
    have : 1.000000301 * D < t ^ 2 * D := by gcongr
    norm_num at *
    linarith
  have h2 : 0.999999699 ≤ t ^ 2 := by
    by_contra hc
    push Not at hc
    have : t ^ 2 * D < 0.999999699 * D := by gcongr
    norm_num at *
    linarith
  have h3 : t ≤ 1.000000151 := by
    by_contra hc
    push Not at hc
    nlinarith
  have h4 : 0.999999849 ≤ t := by
    by_contra hc
    push Not at hc
    nlinarith
  rw [hW, abs_le]
  have := abs_le.1 hη2
  clear * - this h3 h4
  constructor <;> nlinarith

/-- `1 / norm`, rounded, estimated and refined: relative error below `6.2e-7`. -/
theorem inv_norm_f32 {hw : Hw F32} (hc : hw.Contract32) {D : F32} {N : ℝ} (hf : D.isFinite = true)
    (h1 : 1 / 2 ^ 60 ≤ N) (h2 : N ≤ 2 ^ 70) (hD : |r D - N| ≤ 3e-7 * N) :
    (rsqrt1 hw D).isFinite = true ∧ |r (rsqrt1 hw D) * √N - 1| ≤ 6.2e-7 := by
  have hN : 0 < N := lt_of_lt_of_le (by positivity) h1
  have hD' := abs_le.1 hD
  obtain ⟨hz, hz2⟩ := rsqrt1_f32 hc hf (by norm_num at *; linarith) (by norm_num at *; linarith)
  exact ⟨hz, ratio hN hD rfl hz2⟩

/-- One lane times an approximation of `1 / √N`. -/
theorem scale_f32 {x w : F32} {N k k' : ℝ} (hx : F32.Le2 x 30) (hw : w.isFinite = true)
    (h1 : 1 / 2 ^ 60 ≤ N) (hk : |r w * √N - 1| ≤ k) (hk1 : k ≤ 1e-6) (hk2 : k + 6e-8 ≤ k') :
    (x * w).isFinite = true ∧ |r (x * w) - r x / √N| ≤ k' * (|r x| / √N) + 1 / 2 ^ 150 := by
  have hN : 0 < N := lt_of_lt_of_le (by positivity) h1
  have hs0 : 0 < √N := Real.sqrt_pos.2 hN
  have hs1 : 1 / 2 ^ 30 ≤ √N := by
    refine Real.le_sqrt_of_sq_le (le_trans (le_of_eq ?_) h1); norm_num
  obtain ⟨hxf, hxq⟩ := hx (by norm_num)
  have hX : |r x| ≤ 2 ^ 30 := by
    have : ((|x.val| : ℚ) : ℝ) ≤ ((2 ^ 30 : ℚ) : ℝ) := by exact_mod_cast hxq
    push_cast at this
    exact this
  have hk' := abs_le.1 hk
  have hXW : |r x * r w - r x / √N| ≤ k * (|r x| / √N) := by
    have e : r x * r w - r x / √N = (r w * √N - 1) * (r x / √N) := by field_simp
    rw [e, abs_mul, abs_div, abs_of_pos hs0]
    gcongr
  have hq : 0 ≤ |r x| / √N := by positivity
  have hXW2 : |r x * r w| ≤ 1.000001 * (|r x| / √N) := by
    have := abs_add_le (r x * r w - r x / √N) (r x / √N)
    rw [sub_add_cancel, abs_div, abs_of_pos hs0] at this
    have h3 : k * (|r x| / √N) ≤ 1e-6 * (|r x| / √N) := by gcongr
    norm_num at *
    linarith
  have hq2 : |r x| / √N ≤ 2 ^ 60 := by
    rw [div_le_iff₀ hs0]
    refine hX.trans ?_
    calc (2 : ℝ) ^ 30 = 2 ^ 60 * (1 / 2 ^ 30) := by norm_num
      _ ≤ 2 ^ 60 * √N := by gcongr
  obtain ⟨hzf, hz⟩ := mul_ok hxf hw (hXW2.trans (by norm_num at *; linarith))
  refine ⟨hzf, ?_⟩
  have h5 : u * max (1 / 2 ^ 126) |r x * r w| ≤ 1 / 2 ^ 150 + 6e-8 * (|r x| / √N) := by
    have : max (1 / 2 ^ 126) |r x * r w| ≤ 1 / 2 ^ 126 + 1.000001 * (|r x| / √N) :=
      max_le (by linarith [mul_nonneg (show (0 : ℝ) ≤ 1.000001 by norm_num) hq])
        (hXW2.trans (by linarith [show (0 : ℝ) ≤ 1 / 2 ^ 126 by positivity]))
    refine (mul_le_mul_of_nonneg_left this u_pos.le).trans ?_
    unfold u
    rw [mul_add]
    refine add_le_add (le_of_eq (by norm_num)) ?_
    rw [← mul_assoc]
    gcongr
    norm_num
  have h6 := abs_add_le (r (x * w) - r x * r w) (r x * r w - r x / √N)
  rw [sub_add_sub_cancel] at h6
  have h7 : (k + 6e-8) * (|r x| / √N) ≤ k' * (|r x| / √N) := by gcongr
  have h8 := (h6.trans (add_le_add (hz.trans h5) hXW))
  generalize |r x| / √N = q at *
  linarith

theorem mul_comm_f32 {x y : F32} (hx : x.isFinite = true) (hy : y.isFinite = true) : x * y = y * x := by
  rw [mul_round hx hy, mul_round hy hx, mul_comm, bne_comm]

private theorem sq3_le {v : V4 F32} (hv : v.Le2 30) : v.sq3 ≤ 2 ^ 70 := by
  have h : ∀ i, |r (v.get i)| ≤ 2 ^ 30 := by
    intro i
    have := (hv i (by norm_num)).2
    have : ((|(v.get i).val| : ℚ) : ℝ) ≤ ((2 ^ 30 : ℚ) : ℝ) := by exact_mod_cast this
    push_cast at this
    exact this
  have h1 := sq_le_sq' (abs_le.1 (h 1)).1 (abs_le.1 (h 1)).2
  have h2 := sq_le_sq' (abs_le.1 (h 2)).1 (abs_le.1 (h 2)).2
  have h3 := sq_le_sq' (abs_le.1 (h 3)).1 (abs_le.1 (h 3)).2
  simp only [V4.get] at h1 h2 h3
  unfold V4.sq3
  norm_num at *
  linarith

private theorem sq4_le {v : V4 F32} (hv : v.Le2 30) : v.sq4 ≤ 2 ^ 70 := by
  have h : ∀ i, |r (v.get i)| ≤ 2 ^ 30 := by
    intro i
    have := (hv i (by norm_num)).2
    have : ((|(v.get i).val| : ℚ) : ℝ) ≤ ((2 ^ 30 : ℚ) : ℝ) := by exact_mod_cast this
    push_cast at this
    exact this
  have h0 := sq_le_sq' (abs_le.1 (h 0)).1 (abs_le.1 (h 0)).2
  have h1 := sq_le_sq' (abs_le.1 (h 1)).1 (abs_le.1 (h 1)).2
  have h2 := sq_le_sq' (abs_le.1 (h 2)).1 (abs_le.1 (h 2)).2
  have h3 := sq_le_sq' (abs_le.1 (h 3)).1 (abs_le.1 (h 3)).2
  simp only [V4.get] at h0 h1 h2 h3
  unfold V4.sq4
  norm_num at *
  linarith

theorem inv3_f32 {hw : Hw F32} (hc : hw.Contract32) (isa : Isa) {v : V4 F32} (hv : v.Le2 30)
    (hN : 1 / 2 ^ 60 ≤ v.sq3) (i : Fin 4) :
    ((rsqrt_nr1 hw (hi_dp_bc isa v v)).get i).isFinite = true ∧
      |r ((rsqrt_nr1 hw (hi_dp_bc isa v v)).get i) * √v.sq3 - 1| ≤ 6.2e-7 := by
  obtain ⟨h1, h2⟩ := sq3_f32 isa hv hN i
  have := inv_norm_f32 hc h1 hN (sq3_le hv) h2
  have e : (rsqrt_nr1 hw (hi_dp_bc isa v v)).get i = rsqrt1 hw ((hi_dp_bc isa v v).get i) := by
    rw [rsqrt_nr1_map]; fin_cases i <;> rfl
  rw [e]; exact this

theorem inv4_f32 {hw : Hw F32} (hc : hw.Contract32) (isa : Isa) {v : V4 F32} (hv : v.Le2 30)
    (hN : 1 / 2 ^ 60 ≤ v.sq4) (i : Fin 4) :
    ((rsqrt_nr1 hw (dp_bc isa v v)).get i).isFinite = true ∧
      |r ((rsqrt_nr1 hw (dp_bc isa v v)).get i) * √v.sq4 - 1| ≤ 6.2e-7 := by
  obtain ⟨h1, h2⟩ := sq4_f32 isa hv hN i
  have := inv_norm_f32 hc h1 hN (sq4_le hv) h2
  have e : (rsqrt_nr1 hw (dp_bc isa v v)).get i = rsqrt1 hw ((dp_bc isa v v).get i) := by
    rw [rsqrt_nr1_map]; fin_cases i <;> rfl
  rw [e]; exact this

/-! ### the operations -/

/-- `x` is `X / √N` up to the stated relative error (and half the smallest subnormal). -/
def Scaled (k : ℝ) (x : F32) (X N : ℝ) : Prop :=
  x.isFinite = true ∧ |r x - X / √N| ≤ k * (|X| / √N) + 1 / 2 ^ 150

/-- `branch.normalize`, also the direction part of `line.normalize`. -/
theorem C70_branch_normalize {hw : Hw F32} (hc : hw.Contract32) (isa : Isa) (b : Branch F32)
    (hv : b.p1.Le2 30) (hN : 1 / 2 ^ 60 ≤ b.p1.sq3) (i : Fin 4) :
    Scaled 6.8e-7 ((b.normalize hw isa).p1.get i) (r (b.p1.get i)) b.p1.sq3 := by
  obtain ⟨h1, h2⟩ := inv3_f32 hc isa hv hN i
  have e : (b.normalize hw isa).p1.get i = b.p1.get i * (rsqrt_nr1 hw (hi_dp_bc isa b.p1 b.p1)).get i := by
    fin_cases i <;> rfl
  rw [e]
  exact scale_f32 (hv i) h1 hN h2 (by norm_num) (by norm_num)

theorem C70_line_normalize_p1 {hw : Hw F32} (hc : hw.Contract32) (isa : Isa) (l : Line F32)
    (hv : l.p1.Le2 30) (hN : 1 / 2 ^ 60 ≤ l.p1.sq3) (i : Fin 4) :
    Scaled 6.8e-7 ((l.normalize hw isa).p1.get i) (r (l.p1.get i)) l.p1.sq3 :=
  C70_branch_normalize hc isa ⟨l.p1⟩ hv hN i

/-- `direction.normalize`. -/
theorem C70_direction_normalize {hw : Hw F32} (hc : hw.Contract32) (isa : Isa) (d : Direction F32)
    (hv : d.p3.Le2 30) (hN : 1 / 2 ^ 60 ≤ d.p3.sq3) (i : Fin 4) :
    Scaled 6.8e-7 ((d.normalize hw isa).p3.get i) (r (d.p3.get i)) d.p3.sq3 :=
  C70_branch_normalize hc isa ⟨d.p3⟩ hv hN i

/-- `rotor.normalize`, also the rotor part of `motor.normalize`. -/
theorem C70_rotor_normalize {hw : Hw F32} (hc : hw.Contract32) (isa : Isa) (b : Rotor F32)
    (hv : b.p1.Le2 30) (hN : 1 / 2 ^ 60 ≤ b.p1.sq4) (i : Fin 4) :
    Scaled 6.8e-7 ((b.normalize hw isa).p1.get i) (r (b.p1.get i)) b.p1.sq4 := by
  obtain ⟨h1, h2⟩ := inv4_f32 hc isa hv hN i
  have e : (b.normalize hw isa).p1.get i = b.p1.get i * (rsqrt_nr1 hw (dp_bc isa b.p1 b.p1)).get i := by
    fin_cases i <;> rfl
  rw [e]
  exact scale_f32 (hv i) h1 hN h2 (by norm_num) (by norm_num)

theorem C70_motor_normalize_p1 {hw : Hw F32} (hc : hw.Contract32) (isa : Isa) (m : Motor F32)
    (hv : m.p1.Le2 30) (hN : 1 / 2 ^ 60 ≤ m.p1.sq4) (i : Fin 4) :
    Scaled 6.8e-7 ((m.normalize hw isa).p1.get i) (r (m.p1.get i)) m.p1.sq4 :=
  C70_rotor_normalize hc isa ⟨m.p1⟩ hv hN i

/-- `plane.normalize`, the normal. -/
theorem C70_plane_normalize {hw : Hw F32} (hc : hw.Contract32) (isa : Isa) (p : Plane F32)
    (hv : p.p0.Le2 30) (hN : 1 / 2 ^ 60 ≤ p.p0.sq3) (i : Fin 4) (hi : i ≠ 0) :
    Scaled 7.4e-7 ((p.normalize hw isa).p0.get i) (r (p.p0.get i)) p.p0.sq3 := by
  obtain ⟨h1, h2⟩ := inv3_f32 hc isa hv hN i
  have hxf := (hv i (by norm_num)).1
  cases isa
  · -- SSE3 adds zero to these lanes of the reciprocal
    obtain ⟨w, ew⟩ : ∃ w, w = (rsqrt_nr1 hw (hi_dp_bc .sse3 p.p0 p.p0)).get i := ⟨_, rfl⟩
    rw [← ew] at h1 h2
    have e : (p.normalize hw .sse3).p0.get i = (w + 0) * p.p0.get i := by
      rw [ew]; fin_cases i
      · exact absurd rfl hi
      all_goals rfl
    have hN0 : 0 < p.p0.sq3 := lt_of_lt_of_le (by positivity) hN
    have hs0 : 0 < √p.p0.sq3 := Real.sqrt_pos.2 hN0
    have hs1 : 1 / 2 ^ 30 ≤ √p.p0.sq3 := by
      refine Real.le_sqrt_of_sq_le (le_trans (le_of_eq ?_) hN); norm_num
    have hwb : |r w * √p.p0.sq3| ≤ 1.000001 := by
      have := abs_le.1 h2
      rw [abs_le]; constructor <;> norm_num at * <;> linarith
    have hwu : |r w| ≤ 2 ^ 31 := by
      rw [abs_mul, abs_of_pos hs0] at hwb
      by_contra hcon
      push Not at hcon
      have : (2 : ℝ) ^ 31 * (1 / 2 ^ 30) ≤ |r w| * √p.p0.sq3 := mul_le_mul hcon.le hs1 (by positivity) (abs_nonneg _)
      norm_num at *
      linarith
    obtain ⟨h3, h4⟩ := add_ok (x := w) (y := 0) h1 (by decide +kernel)
      (by rw [r_zero, add_zero]; exact hwu.trans (by norm_num))
    rw [r_zero, add_zero] at h4
    have h5 : |r (w + 0) * √p.p0.sq3 - 1| ≤ 6.8e-7 := by
      have e1 : r (w + 0) * √p.p0.sq3 - 1 = (r (w + 0) - r w) * √p.p0.sq3 + (r w * √p.p0.sq3 - 1) := by ring
      rw [e1]
      refine (abs_add_le _ _).trans ?_
      rw [abs_mul, abs_of_pos hs0]
      have h6 : |r (w + 0) - r w| * √p.p0.sq3 ≤ u * 1.000001 := by
        calc |r (w + 0) - r w| * √p.p0.sq3 ≤ u * |r w| * √p.p0.sq3 := by gcongr
          _ = u * |r w * √p.p0.sq3| := by rw [abs_mul, abs_of_pos hs0]; ring
          _ ≤ u * 1.000001 := by have := u_pos; gcongr
      unfold u at h6
      norm_num at *
      linarith
    rw [e, mul_comm_f32 h3 hxf]
    exact scale_f32 (hv i) h3 hN h5 (by norm_num) (by norm_num)
  · have e : (p.normalize hw .sse41).p0.get i =
        (rsqrt_nr1 hw (hi_dp_bc .sse41 p.p0 p.p0)).get i * p.p0.get i := by
      fin_cases i
      · exact absurd rfl hi
      all_goals rfl
    rw [e, mul_comm_f32 h1 hxf]
    exact scale_f32 (hv i) h1 hN h2 (by norm_num) (by norm_num)

/-- `point.normalize`: division by the weight. -/
theorem C70_point_normalize {hw : Hw F32} (hc : hw.Contract32) (p : Point F32)
    (hv : p.p3.Le2 30) (hw0 : 1 / 2 ^ 30 ≤ |r p.p3.l0|) (i : Fin 4) :
    ((p.normalize hw).p3.get i).isFinite = true ∧
      |r ((p.normalize hw).p3.get i) - r (p.p3.get i) / r p.p3.l0| ≤
        3.8e-7 * |r (p.p3.get i) / r p.p3.l0| + 1 / 2 ^ 150 := by
  have hb : ∀ i, |r (p.p3.get i)| ≤ 2 ^ 30 := by
    intro i
    have := (hv i (by norm_num)).2
    have : ((|(p.p3.get i).val| : ℚ) : ℝ) ≤ ((2 ^ 30 : ℚ) : ℝ) := by exact_mod_cast this
    push_cast at this
    exact this
  have hb0 : |r p.p3.l0| ≤ 2 ^ 30 := hb 0
  obtain ⟨hf, he⟩ := rcp1_f32 hc (hv 0 (by norm_num)).1 (le_trans (by norm_num) hw0) (hb0.trans (by norm_num))
  have e : (p.normalize hw).p3.get i = p.p3.get i * rcp1 hw p.p3.l0 := by fin_cases i <;> rfl
  simp only [V4.get] at hf he
  obtain ⟨w, ew⟩ : ∃ w, w = rcp1 hw p.p3.l0 := ⟨_, rfl⟩
  obtain ⟨x, ex⟩ : ∃ x, x = p.p3.get i := ⟨_, rfl⟩
  have hxf := (hv i (by norm_num)).1
  have hX := hb i
  rw [e, ← ew, ← ex]
  rw [← ew] at hf he
  rw [← ex] at hxf hX
  generalize r p.p3.l0 = W at *
  have hW0 : 0 < |W| := lt_of_lt_of_le (by positivity) hw0
  have hW : W ≠ 0 := abs_pos.1 hW0
  have hq : 0 ≤ |r x / W| := abs_nonneg _
  have h1 : |r x * r w - r x / W| ≤ 3.2e-7 * |r x / W| := by
    have e : r x * r w - r x / W = (r w * W - 1) * (r x / W) := by field_simp
    rw [e, abs_mul]; gcongr
  have h2 : |r x * r w| ≤ 1.000001 * |r x / W| := by
    have := abs_add_le (r x * r w - r x / W) (r x / W)
    rw [sub_add_cancel] at this
    linarith
  have h3 : |r x / W| ≤ 2 ^ 60 := by
    rw [abs_div, div_le_iff₀ hW0]
    refine hX.trans ?_
    calc (2 : ℝ) ^ 30 = 2 ^ 60 * (1 / 2 ^ 30) := by norm_num
      _ ≤ 2 ^ 60 * |W| := by gcongr
  obtain ⟨hzf, hz⟩ := mul_ok hxf hf (h2.trans ((mul_le_mul_of_nonneg_left h3 (by norm_num)).trans (by norm_num)))
  refine ⟨hzf, ?_⟩
  have h5 : u * max (1 / 2 ^ 126) |r x * r w| ≤ 1 / 2 ^ 150 + 6e-8 * |r x / W| := by
    have : max (1 / 2 ^ 126) |r x * r w| ≤ 1 / 2 ^ 126 + 1.000001 * |r x / W| :=
      max_le (by linarith [mul_nonneg (show (0 : ℝ) ≤ 1.000001 by norm_num) hq])
        (h2.trans (by linarith [show (0 : ℝ) ≤ 1 / 2 ^ 126 by positivity]))
    refine (mul_le_mul_of_nonneg_left this u_pos.le).trans ?_
    unfold u
    rw [mul_add]
    refine add_le_add (le_of_eq (by norm_num)) ?_
    rw [← mul_assoc]
    gcongr
    norm_num
  have h6 := abs_add_le (r (x * w) - r x * r w) (r x * r w - r x / W)
  rw [sub_add_sub_cancel] at h6
  have h8 := (h6.trans (add_le_add (hz.trans h5) h1))
  generalize |r x / W| = q at *
  linarith

/-- The norm after normalisation: if the lanes are `X i / √N` up to `k` and the exact ones have norm
one, the squared norm is one up to `2 k` (and a little). -/
private theorem unit_of_scaled {k x X s : ℝ} (hk0 : 0 ≤ k) (hk : k ≤ 1e-6)
    (h : |x - X / s| ≤ k * |X / s| + 1 / 2 ^ 150) (hle : |X / s| ≤ 1) :
    |x ^ 2 - (X / s) ^ 2| ≤ (2 * k + k ^ 2) * (X / s) ^ 2 + 1 / 2 ^ 140 := by
  generalize X / s = m at *
  have hm := abs_nonneg m
  have e : x ^ 2 - m ^ 2 = (x - m) * (2 * m + (x - m)) := by ring
  rw [e, abs_mul]
  have h1 : |2 * m + (x - m)| ≤ 2 * |m| + (k * |m| + 1 / 2 ^ 150) := by
    refine (abs_add_le _ _).trans ?_
    rw [abs_mul, abs_two]; linarith
  refine (mul_le_mul h h1 (abs_nonneg _) (by positivity)).trans ?_
  have e2 : m ^ 2 = |m| ^ 2 := (sq_abs m).symm
  rw [e2]
  generalize |m| = n at *
  have hkn : k * n ≤ 1 := by nlinarith
  have hkn0 : 0 ≤ k * n := by positivity
  norm_num
  nlinarith

/-- The squared norm of a normalised rotor is within `1.4e-6` of one. -/
theorem C70_rotor_normalize_unit {hw : Hw F32} (hc : hw.Contract32) (isa : Isa) (b : Rotor F32)
    (hv : b.p1.Le2 30) (hN : 1 / 2 ^ 60 ≤ b.p1.sq4) :
    |(b.normalize hw isa).p1.sq4 - 1| ≤ 1.4e-6 := by
  have hN0 : 0 < b.p1.sq4 := lt_of_lt_of_le (by positivity) hN
  have hs0 : 0 < √b.p1.sq4 := Real.sqrt_pos.2 hN0
  have hsum : (r b.p1.l0 / √b.p1.sq4) ^ 2 + (r b.p1.l1 / √b.p1.sq4) ^ 2 + (r b.p1.l2 / √b.p1.sq4) ^ 2
      + (r b.p1.l3 / √b.p1.sq4) ^ 2 = 1 := by
    simp only [div_pow, Real.sq_sqrt hN0.le]
    rw [← add_div, ← add_div, ← add_div]
    exact div_self hN0.ne'
  have g : ∀ i, _ := fun i => (C70_rotor_normalize hc isa b hv hN i).2
  have g0 := g 0; have g1 := g 1; have g2 := g 2; have g3 := g 3
  simp only [V4.get] at g0 g1 g2 g3
  generalize √b.p1.sq4 = s at *
  have ab : ∀ X : ℝ, |X| / s = |X / s| := fun X => by rw [abs_div, abs_of_pos hs0]
  rw [ab] at g0 g1 g2 g3
  have le1 : ∀ m : ℝ, m ^ 2 ≤ 1 → |m| ≤ 1 := fun m h => by rw [← sq_abs] at h; nlinarith [abs_nonneg m]
  have q0 := sq_nonneg (r b.p1.l0 / s); have q1 := sq_nonneg (r b.p1.l1 / s)
  have q2 := sq_nonneg (r b.p1.l2 / s); have q3 := sq_nonneg (r b.p1.l3 / s)
  have k0 := unit_of_scaled (by norm_num) (by norm_num) g0 (le1 _ (by linarith))
  have k1 := unit_of_scaled (by norm_num) (by norm_num) g1 (le1 _ (by linarith))
  have k2 := unit_of_scaled (by norm_num) (by norm_num) g2 (le1 _ (by linarith))
  have k3 := unit_of_scaled (by norm_num) (by norm_num) g3 (le1 _ (by linarith))
  rw [V4.sq4]
  rw [abs_le] at *
  generalize (r b.p1.l0 / s) ^ 2 = m0 at *
  generalize (r b.p1.l1 / s) ^ 2 = m1 at *
  generalize (r b.p1.l2 / s) ^ 2 = m2 at *
  generalize (r b.p1.l3 / s) ^ 2 = m3 at *
  clear g g0 g1 g2 g3 ab le1
  norm_num at k0 k1 k2 k3 ⊢
  constructor <;> linarith

/-- The same for planes, branches and directions. -/
theorem unit3_of_scaled {v w : V4 F32} (hN : 1 / 2 ^ 60 ≤ v.sq3)
    (h : ∀ i, i ≠ 0 → Scaled 7.4e-7 (w.get i) (r (v.get i)) v.sq3) : |w.sq3 - 1| ≤ 1.5e-6 := by
  have hN0 : 0 < v.sq3 := lt_of_lt_of_le (by positivity) hN
  have hs0 : 0 < √v.sq3 := Real.sqrt_pos.2 hN0
  have hsum : (r v.l1 / √v.sq3) ^ 2 + (r v.l2 / √v.sq3) ^ 2 + (r v.l3 / √v.sq3) ^ 2 = 1 := by
    simp only [div_pow, Real.sq_sqrt hN0.le]
    rw [← add_div, ← add_div]
    exact div_self hN0.ne'
  have g1 := (h 1 (by decide)).2; have g2 := (h 2 (by decide)).2; have g3 := (h 3 (by decide)).2
  simp only [V4.get] at g1 g2 g3
  generalize √v.sq3 = s at *
  have ab : ∀ X : ℝ, |X| / s = |X / s| := fun X => by rw [abs_div, abs_of_pos hs0]
  rw [ab] at g1 g2 g3
  have le1 : ∀ m : ℝ, m ^ 2 ≤ 1 → |m| ≤ 1 := fun m h => by rw [← sq_abs] at h; nlinarith [abs_nonneg m]
  have q1 := sq_nonneg (r v.l1 / s)
  have q2 := sq_nonneg (r v.l2 / s); have q3 := sq_nonneg (r v.l3 / s)
  have k1 := unit_of_scaled (by norm_num) (by norm_num) g1 (le1 _ (by linarith))
  have k2 := unit_of_scaled (by norm_num) (by norm_num) g2 (le1 _ (by linarith))
  have k3 := unit_of_scaled (by norm_num) (by norm_num) g3 (le1 _ (by linarith))
  rw [V4.sq3]
  rw [abs_le] at *
  generalize (r v.l1 / s) ^ 2 = m1 at *
  generalize (r v.l2 / s) ^ 2 = m2 at *
  generalize (r v.l3 / s) ^ 2 = m3 at *
  clear h g1 g2 g3 ab le1
  norm_num at k1 k2 k3 ⊢
  constructor <;> linarith

theorem Scaled.mono {k k' : ℝ} {x : F32} {X N : ℝ} (h : Scaled k x X N) (hk : k ≤ k') : Scaled k' x X N :=
  ⟨h.1, h.2.trans (by gcongr)⟩

theorem C70_plane_normalize_unit {hw : Hw F32} (hc : hw.Contract32) (isa : Isa) (p : Plane F32)
    (hv : p.p0.Le2 30) (hN : 1 / 2 ^ 60 ≤ p.p0.sq3) : |(p.normalize hw isa).p0.sq3 - 1| ≤ 1.5e-6 :=
  unit3_of_scaled hN fun i hi => C70_plane_normalize hc isa p hv hN i hi

theorem C70_branch_normalize_unit {hw : Hw F32} (hc : hw.Contract32) (isa : Isa) (b : Branch F32)
    (hv : b.p1.Le2 30) (hN : 1 / 2 ^ 60 ≤ b.p1.sq3) : |(b.normalize hw isa).p1.sq3 - 1| ≤ 1.5e-6 :=
  unit3_of_scaled hN fun i _ => (C70_branch_normalize hc isa b hv hN i).mono (by norm_num)

theorem C70_direction_normalize_unit {hw : Hw F32} (hc : hw.Contract32) (isa : Isa) (d : Direction F32)
    (hv : d.p3.Le2 30) (hN : 1 / 2 ^ 60 ≤ d.p3.sq3) : |(d.normalize hw isa).p3.sq3 - 1| ≤ 1.5e-6 :=
  unit3_of_scaled hN fun i _ => (C70_direction_normalize hc isa d hv hN i).mono (by norm_num)

/-- A normalised point has weight one up to `3.9e-7`. -/
theorem C70_point_normalize_weight {hw : Hw F32} (hc : hw.Contract32) (p : Point F32)
    (hv : p.p3.Le2 30) (hw0 : 1 / 2 ^ 30 ≤ |r p.p3.l0|) : |r (p.normalize hw).p3.l0 - 1| ≤ 3.9e-7 := by
  have h := (C70_point_normalize hc p hv hw0 0).2
  have hW : r p.p3.l0 ≠ 0 := by
    intro h; rw [h] at hw0; norm_num at hw0
  simp only [V4.get] at h
  rw [div_self hW, abs_one] at h
  refine h.trans ?_
  norm_num

/-- A case: the rotor with lanes `(3, 0, 4, 0)`; `hw` any hardware within the contract. -/
example {hw : Hw F32} (hc : hw.Contract32) :
    |r ((Rotor.mk ⟨3, 0, 4, 0⟩ : Rotor F32).normalize hw .sse41).p1.l0 - 3 / 5| ≤ 4.2e-7 := by
  have l3 : F32.Le2 3 30 := fun _ => by decide +kernel
  have l4 : F32.Le2 4 30 := fun _ => by decide +kernel
  have l0 : F32.Le2 0 30 := Le2.zero.mono (by norm_num)
  have r4 : r 4 = 4 := by
    have : (4 : F32).val = 4 := by decide +kernel
    simp [r, this]
  have hsq : (V4.mk 3 0 4 0 : V4 F32).sq4 = 25 := by
    simp only [V4.sq4, r_three, r_zero, r4]; norm_num
  have := (C70_rotor_normalize hc .sse41 (Rotor.mk ⟨3, 0, 4, 0⟩)
    (fun i => match i with | 0 => l3 | 1 => l0 | 2 => l4 | 3 => l0) (by rw [hsq]; norm_num) 0).2
  simp only [V4.get, hsq, r_three] at this
  rw [show (25 : ℝ) = 5 ^ 2 by norm_num, Real.sqrt_sq (by norm_num)] at this
  refine this.trans ?_
  norm_num

end Klein
