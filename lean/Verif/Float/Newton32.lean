import Verif.Float.Range
import Verif.Float.Rounded
import Verif.Lemmas.Newton
import Mathlib.Analysis.SpecialFunctions.Sqrt

/-!
# The Newton-refined estimates in binary32

`Hw.Contract32` is what the Intel manual guarantees of `rcpps` and `rsqrtps` on binary32 operands well
inside the normal range.  Every operation of `rcp_nr1`, `rsqrt_nr1` rounds; the results are finite and
their relative error is still below `5e-7`.
-/

namespace Klein.F32

/-- The real number a finite float stands for. -/
noncomputable def r (x : F32) : ℝ := (x.val : ℝ)

/-- `2^-24`. -/
noncomputable def u : ℝ := 1 / 2 ^ 24

theorem r_neg (x : F32) : r (-x) = -r x := by simp [r]
theorem r_zero : r 0 = 0 := by
  have : (0 : F32).val = 0 := by decide +kernel
  simp [r, this]
theorem r_one : r 1 = 1 := by simp [r, F32.one_val]
theorem r_two : r 2 = 2 := by
  have : (2 : F32).val = 2 := by decide +kernel
  simp [r, this]
theorem r_three : r 3 = 3 := by
  have : (3 : F32).val = 3 := by decide +kernel
  simp [r, this]
theorem r_half : r (1 / 2) = 1 / 2 := by
  have : (1 / 2 : F32).val = 1 / 2 := by decide +kernel
  simp [r, this]

theorem fin_three : (3 : F32).isFinite = true := by decide +kernel
theorem fin_two : (2 : F32).isFinite = true := by decide +kernel
theorem fin_half : (1 / 2 : F32).isFinite = true := by decide +kernel

private theorem cast_le {q : ℚ} (h : |(q : ℝ)| ≤ 2 ^ 127) : |q| ≤ 2 ^ 127 := by
  have : ((|q| : ℚ) : ℝ) ≤ ((2 ^ 127 : ℚ) : ℝ) := by push_cast; exact h
  exact_mod_cast this

/-- A product that does not overflow. -/
theorem mul_ok {x y : F32} (hx : x.isFinite = true) (hy : y.isFinite = true) (h : |r x * r y| ≤ 2 ^ 127) :
    (x * y).isFinite = true ∧ |r (x * y) - r x * r y| ≤ u * max (1 / 2 ^ 126) |r x * r y| := by
  have hq : |x.val * y.val| ≤ 2 ^ 127 := cast_le (by push_cast; exact h)
  have hf : (x * y).isFinite = true := by
    rw [mul_round hx hy]; exact (round_le_two_pow le_rfl hq).1
  refine ⟨hf, ?_⟩
  have := (rounded.mul x y hf).2.2
  refine this.trans (le_of_eq ?_)
  show (2⁻¹ : ℝ) ^ 24 * max (2⁻¹ ^ 126) _ = _
  rw [u, inv_pow, inv_pow, one_div, one_div]
  rfl

theorem sub_ok {x y : F32} (hx : x.isFinite = true) (hy : y.isFinite = true) (h : |r x - r y| ≤ 2 ^ 127) :
    (x - y).isFinite = true ∧ |r (x - y) - (r x - r y)| ≤ u * |r x - r y| := by
  have hq : |x.val - y.val| ≤ 2 ^ 127 := cast_le (by push_cast; exact h)
  have hf : (x - y).isFinite = true := by
    rw [sub_round hx hy]; exact (round_le_two_pow le_rfl hq).1
  refine ⟨hf, ?_⟩
  have := (rounded.sub x y hf).2.2
  refine this.trans (le_of_eq ?_)
  show (2⁻¹ : ℝ) ^ 24 * _ = _
  rw [u, inv_pow, one_div]
  rfl

theorem add_ok {x y : F32} (hx : x.isFinite = true) (hy : y.isFinite = true) (h : |r x + r y| ≤ 2 ^ 127) :
    (x + y).isFinite = true ∧ |r (x + y) - (r x + r y)| ≤ u * |r x + r y| := by
  have hq : |x.val + y.val| ≤ 2 ^ 127 := cast_le (by push_cast; exact h)
  have hf : (x + y).isFinite = true := by
    rw [add_round hx hy]; exact (round_le_two_pow le_rfl hq).1
  refine ⟨hf, ?_⟩
  have := (rounded.add x y hf).2.2
  refine this.trans (le_of_eq ?_)
  show (2⁻¹ : ℝ) ^ 24 * _ = _
  rw [u, inv_pow, one_div]
  rfl

theorem u_pos : 0 < u := by unfold u; positivity

/-- Relative errors as factors. -/
theorem factor {x E ε : ℝ} (hE : E ≠ 0) (h : |x - E| ≤ ε * |E|) : ∃ e, |e| ≤ ε ∧ x = E * (1 + e) := by
  refine ⟨(x - E) / E, ?_, by field_simp; ring⟩
  rw [abs_div, div_le_iff₀ (abs_pos.2 hE)]
  exact h

/-- A product inside the normal range, as a factor. -/
theorem mul_factor {x y : F32} (hx : x.isFinite = true) (hy : y.isFinite = true)
    (h1 : 1 / 2 ^ 126 ≤ |r x * r y|) (h2 : |r x * r y| ≤ 2 ^ 127) :
    (x * y).isFinite = true ∧ ∃ e, |e| ≤ u ∧ r (x * y) = r x * r y * (1 + e) := by
  obtain ⟨hf, h⟩ := mul_ok hx hy h2
  rw [max_eq_right h1] at h
  refine ⟨hf, factor ?_ h⟩
  have : (0 : ℝ) < |r x * r y| := lt_of_lt_of_le (by positivity) h1
  exact abs_pos.1 this

theorem sub_factor {x y : F32} (hx : x.isFinite = true) (hy : y.isFinite = true)
    (h1 : r x - r y ≠ 0) (h2 : |r x - r y| ≤ 2 ^ 127) :
    (x - y).isFinite = true ∧ ∃ e, |e| ≤ u ∧ r (x - y) = (r x - r y) * (1 + e) := by
  obtain ⟨hf, h⟩ := sub_ok hx hy h2
  exact ⟨hf, factor h1 h⟩

/-- A positive number and its rounded version differ by less than a percent. -/
theorem factor_le {E e l h : ℝ} (he : |e| ≤ u) (h0 : 0 ≤ l) (hl : l ≤ E) (hh : E ≤ h) :
    0.999 * l ≤ E * (1 + e) ∧ E * (1 + e) ≤ 1.001 * h := by
  have := abs_le.1 he
  unfold u at this
  norm_num at this
  constructor <;> nlinarith

end Klein.F32

namespace Klein

/-- The accuracy of `rcpps` and `rsqrtps` (Intel SDM: relative error at most `1.5 * 2^-12`) on binary32
operands between `2^-100` and `2^100`. -/
structure Hw.Contract32 (hw : Hw F32) : Prop where
  rcp : ∀ a : F32, a.isFinite = true → 1 / 2 ^ 100 ≤ |F32.r a| → |F32.r a| ≤ 2 ^ 100 →
    (hw.rcp a).isFinite = true ∧ |F32.r (hw.rcp a) * F32.r a - 1| ≤ 3 / 2 ^ 13
  rsqrt : ∀ a : F32, a.isFinite = true → 1 / 2 ^ 100 ≤ F32.r a → F32.r a ≤ 2 ^ 100 →
    (hw.rsqrt a).isFinite = true ∧ |F32.r (hw.rsqrt a) * √(F32.r a) - 1| ≤ 3 / 2 ^ 13

open F32

private theorem rcp_alg {δ e1 e2 e3 : ℝ} (hδ : |δ| ≤ 3 / 2 ^ 13) (h1 : |e1| ≤ u) (h2 : |e2| ≤ u)
    (h3 : |e3| ≤ u) : |(1 + δ) * ((2 - (1 + δ) * (1 + e1)) * (1 + e2)) * (1 + e3) - 1| ≤ 3.2e-7 := by
  unfold u at *
  norm_num at *
  rw [abs_le] at *
  obtain ⟨g, hg⟩ : ∃ g, g = (1 + e2) * (1 + e3) - 1 := ⟨_, rfl⟩
  have hg1 : |g| ≤ 1.1921e-7 * 1.0001 := by
    rw [hg, abs_le]; constructor <;> nlinarith
  obtain ⟨m, hm⟩ : ∃ m, m = -δ ^ 2 - (1 + δ) ^ 2 * e1 := ⟨_, rfl⟩
  have hd2 : δ ^ 2 ≤ 1.3412e-7 := by nlinarith
  have hs : (1 + δ) ^ 2 ≤ 1.0008 := by nlinarith
  have hs0 : 0 ≤ (1 + δ) ^ 2 := sq_nonneg _
  have hm1 : |m| ≤ 1.9380e-7 := by
    rw [hm, abs_le]; constructor <;> nlinarith [sq_nonneg δ]
  have e : (1 + δ) * ((2 - (1 + δ) * (1 + e1)) * (1 + e2)) * (1 + e3) - 1 = m + g + m * g := by
    rw [hm, hg]; ring
  have hmg : |m * g| ≤ 1e-12 := by
    rw [abs_mul]
    calc |m| * |g| ≤ 1.9380e-7 * (1.1921e-7 * 1.0001) := mul_le_mul hm1 hg1 (abs_nonneg _) (by norm_num)
      _ ≤ 1e-12 := by norm_num
  rw [e]
  rw [abs_le] at hm1 hg1 hmg
  constructor <;> linarith

/-- `rcp_nr1` in binary32. -/
theorem rcp1_f32 {hw : Hw F32} (hc : hw.Contract32) {a : F32} (ha : a.isFinite = true)
    (h1 : 1 / 2 ^ 100 ≤ |r a|) (h2 : |r a| ≤ 2 ^ 100) :
    (rcp1 hw a).isFinite = true ∧ |r (rcp1 hw a) * r a - 1| ≤ 3.2e-7 := by
  obtain ⟨hy, hδ⟩ := hc.rcp a ha h1 h2
  obtain ⟨y, ey⟩ : ∃ y, y = hw.rcp a := ⟨_, rfl⟩
  rw [← ey] at hy hδ
  obtain ⟨δ, eδ⟩ : ∃ δ, δ = r y * r a - 1 := ⟨_, rfl⟩
  rw [← eδ] at hδ
  have hA : r a ≠ 0 := by
    intro h; rw [h, abs_zero] at h1; norm_num at h1
  have hya : r a * r y = 1 + δ := by rw [eδ]; ring
  have hδ' := abs_le.1 hδ
  norm_num at hδ'
  have hY : |r y| ≤ 2 ^ 101 := by
    have : |r y| * |r a| ≤ 2 := by rw [← abs_mul, mul_comm, hya, abs_le]; constructor <;> linarith
    by_contra hcon
    push Not at hcon
    have : (2 : ℝ) ^ 101 * (1 / 2 ^ 100) ≤ |r y| * |r a| := mul_le_mul hcon.le h1 (by positivity) (abs_nonneg _)
    have h3 : (2 : ℝ) ^ 101 * (1 / 2 ^ 100) = 2 := by norm_num
    have h4 : (2 : ℝ) ^ 101 * (1 / 2 ^ 100) < |r y| * |r a| :=
      mul_lt_mul hcon h1 (by positivity) (abs_nonneg _)
    linarith
  have hY0 : 1 / 2 ^ 101 ≤ |r y| := by
    have : 1 / 2 ≤ |r y| * |r a| := by
      rw [← abs_mul, mul_comm, hya, le_abs]; left; linarith
    by_contra hcon
    push Not at hcon
    have h4 : |r y| * |r a| < 1 / 2 ^ 101 * 2 ^ 100 :=
      mul_lt_mul hcon h2 (by positivity) (by positivity)
    norm_num at h4
    linarith
  obtain ⟨hq, e1, he1, eq⟩ := mul_factor ha hy
    (by rw [hya, le_abs]; left; norm_num; linarith) (by rw [hya, abs_le]; constructor <;> norm_num <;> linarith)
  rw [hya] at eq
  have hu1 := abs_le.1 he1
  unfold u at hu1
  norm_num at hu1
  have hqb : 0.99 ≤ r (a * y) ∧ r (a * y) ≤ 1.01 := by
    rw [eq]; constructor <;> nlinarith
  obtain ⟨ht, e2, he2, et⟩ := sub_factor fin_two hq (by rw [r_two]; linarith)
    (by rw [r_two, abs_le]; constructor <;> norm_num <;> linarith)
  rw [r_two, eq] at et
  have hu2 := abs_le.1 he2
  unfold u at hu2
  norm_num at hu2
  have htb : 0.98 ≤ r (2 - a * y) ∧ r (2 - a * y) ≤ 1.02 := by
    rw [et, ← eq]; constructor <;> nlinarith
  have htab : |r (2 - a * y)| ≤ 2 ∧ 1 / 2 ≤ |r (2 - a * y)| := by
    rw [abs_of_nonneg (by linarith)]; constructor <;> linarith
  obtain ⟨hz, e3, he3, ez⟩ := mul_factor hy ht
    (by
      rw [abs_mul]
      have := mul_le_mul hY0 htab.2 (by norm_num) (abs_nonneg _)
      refine le_trans ?_ this
      norm_num)
    (by
      rw [abs_mul]
      refine (mul_le_mul hY htab.1 (abs_nonneg _) (by positivity)).trans ?_
      norm_num)
  have e0 : rcp1 hw a = y * (2 - a * y) := by rw [rcp1, ← ey]
  rw [e0]
  refine ⟨hz, ?_⟩
  have : r (y * (2 - a * y)) * r a - 1 = (1 + δ) * ((2 - (1 + δ) * (1 + e1)) * (1 + e2)) * (1 + e3) - 1 := by
    rw [ez, et, ← hya]; ring
  rw [this]
  exact rcp_alg hδ he1 he2 he3

private theorem rsqrt_alg {δ e1 e2 e3 e4 e5 : ℝ} (hδ : |δ| ≤ 3 / 2 ^ 13) (h1 : |e1| ≤ u) (h2 : |e2| ≤ u)
    (h3 : |e3| ≤ u) (h4 : |e4| ≤ u) (h5 : |e5| ≤ u) :
    |1 / 2 * (1 + δ) * (1 + e4) * ((3 - (1 + δ) ^ 2 * (1 + e1) * (1 + e2)) * (1 + e3)) * (1 + e5) - 1| ≤ 4.6e-7 := by
  unfold u at *
  norm_num at *
  rw [abs_le] at *
  obtain ⟨w, hw⟩ : ∃ w, w = (1 + e1) * (1 + e2) - 1 := ⟨_, rfl⟩
  have hw1 : |w| ≤ 1.1922e-7 := by rw [hw, abs_le]; constructor <;> nlinarith
  obtain ⟨g0, hg0⟩ : ∃ g, g = (1 + e3) * (1 + e4) - 1 := ⟨_, rfl⟩
  have hg01 : |g0| ≤ 1.1922e-7 := by rw [hg0, abs_le]; constructor <;> nlinarith
  obtain ⟨g, hg⟩ : ∃ g, g = (1 + g0) * (1 + e5) - 1 := ⟨_, rfl⟩
  have hg1 : |g| ≤ 1.789e-7 := by
    rw [abs_le] at hg01
    rw [hg, abs_le]; constructor <;> nlinarith
  have hd2 : δ ^ 2 ≤ 1.3412e-7 := by nlinarith
  have hd0 : 0 ≤ δ ^ 2 := sq_nonneg _
  have hd3 : |δ ^ 3| ≤ 5e-11 := by
    rw [abs_le]; constructor <;> nlinarith
  have hc : |(1 + δ) ^ 3| ≤ 1.002 := by
    rw [abs_le] at hd3 ⊢
    constructor <;> nlinarith
  obtain ⟨m, hm⟩ : ∃ m, m = -(3 * δ ^ 2 + δ ^ 3) / 2 - (1 + δ) ^ 3 * w / 2 := ⟨_, rfl⟩
  have hcw : |(1 + δ) ^ 3 * w| ≤ 1.1946e-7 := by
    rw [abs_mul]
    calc |(1 + δ) ^ 3| * |w| ≤ 1.002 * 1.1922e-7 := mul_le_mul hc hw1 (abs_nonneg _) (by norm_num)
      _ ≤ 1.1946e-7 := by norm_num
  have hm1 : |m| ≤ 2.61e-7 := by
    rw [abs_le] at hcw hd3
    rw [hm, abs_le]; constructor <;> linarith
  have hmg : |m * g| ≤ 1e-12 := by
    rw [abs_mul]
    calc |m| * |g| ≤ 2.61e-7 * 1.789e-7 := mul_le_mul hm1 hg1 (abs_nonneg _) (by norm_num)
      _ ≤ 1e-12 := by norm_num
  have e : 1 / 2 * (1 + δ) * (1 + e4) * ((3 - (1 + δ) ^ 2 * (1 + e1) * (1 + e2)) * (1 + e3)) * (1 + e5) - 1
      = m + g + m * g := by rw [hm, hg, hg0, hw]; ring
  rw [e]
  rw [abs_le] at hm1 hg1 hmg
  constructor <;> linarith

private theorem sq_bound {δ : ℝ} (h : |δ| ≤ 3 / 2 ^ 13) : 0.999 ≤ (1 + δ) ^ 2 ∧ (1 + δ) ^ 2 ≤ 1.001 := by
  have := abs_le.1 h
  norm_num at this
  constructor <;> nlinarith

private theorem three_sub {q : ℝ} (h1 : 0.999 * (0.999 * 0.999) ≤ q) (h2 : q ≤ 1.001 * (1.001 * 1.001)) :
    1.9 ≤ 3 - q ∧ 3 - q ≤ 2.1 := by constructor <;> norm_num at * <;> linarith

/-- `rsqrt_nr1` in binary32. -/
theorem rsqrt1_f32 {hw : Hw F32} (hc : hw.Contract32) {a : F32} (ha : a.isFinite = true)
    (h1 : 1 / 2 ^ 100 ≤ r a) (h2 : r a ≤ 2 ^ 100) :
    (rsqrt1 hw a).isFinite = true ∧ |r (rsqrt1 hw a) * √(r a) - 1| ≤ 4.6e-7 := by
  obtain ⟨hy, hδ⟩ := hc.rsqrt a ha h1 h2
  obtain ⟨y, ey⟩ : ∃ y, y = hw.rsqrt a := ⟨_, rfl⟩
  rw [← ey] at hy hδ
  obtain ⟨s, es⟩ : ∃ s, s = √(r a) := ⟨_, rfl⟩
  rw [← es] at hδ
  have hA0 : 0 < r a := lt_of_lt_of_le (by positivity) h1
  have hss : s * s = r a := by rw [es]; exact Real.mul_self_sqrt hA0.le
  have hs0 : 0 < s := by rw [es]; exact Real.sqrt_pos.2 hA0
  have hs1 : 1 / 2 ^ 50 ≤ s := by
    rw [es]; refine Real.le_sqrt_of_sq_le ?_
    refine le_trans (le_of_eq ?_) h1
    norm_num
  have hs2 : s ≤ 2 ^ 50 := by
    rw [es]; refine Real.sqrt_le_iff.2 ⟨by positivity, ?_⟩
    refine h2.trans (le_of_eq ?_)
    norm_num
  obtain ⟨δ, eδ⟩ : ∃ δ, δ = r y * s - 1 := ⟨_, rfl⟩
  rw [← eδ] at hδ
  have hys : r y * s = 1 + δ := by rw [eδ]; ring
  have hδ' := abs_le.1 hδ
  norm_num at hδ'
  have hYe : r y = (1 + δ) / s := by rw [← hys]; field_simp
  have hY0 : 0 < r y := by rw [hYe]; apply div_pos _ hs0; linarith
  have hYu : r y ≤ 2 ^ 51 := by
    rw [hYe, div_le_iff₀ hs0]
    have : (2 : ℝ) ^ 51 * (1 / 2 ^ 50) ≤ 2 ^ 51 * s := by gcongr
    norm_num at this ⊢
    linarith
  have hYl : 1 / 2 ^ 51 ≤ r y := by
    rw [hYe, le_div_iff₀ hs0]
    have : 1 / 2 ^ 51 * s ≤ 1 / 2 ^ 51 * (2 : ℝ) ^ 50 := by gcongr
    norm_num at this ⊢
    linarith
  -- y * y
  have hyy0 : (1 / 2 ^ 51) * (1 / 2 ^ 51) ≤ r y * r y := mul_le_mul hYl hYl (by positivity) hY0.le
  have hyy1 : r y * r y ≤ 2 ^ 51 * 2 ^ 51 := mul_le_mul hYu hYu hY0.le (by positivity)
  obtain ⟨hp, e1, he1, ep⟩ := mul_factor hy hy
    (by rw [abs_of_pos (by positivity)]; refine le_trans ?_ hyy0; norm_num)
    (by rw [abs_of_pos (by positivity)]; refine hyy1.trans ?_; norm_num)
  -- a * (y * y)
  have hap : r a * r (y * y) = (1 + δ) ^ 2 * (1 + e1) := by
    rw [ep, ← hys, ← hss]; ring
  have hd2 : 0.999 ≤ (1 + δ) ^ 2 ∧ (1 + δ) ^ 2 ≤ 1.001 := sq_bound hδ
  have hapb := factor_le he1 (by norm_num) hd2.1 hd2.2
  rw [← hap] at hapb
  have hap0 : 0 < r a * r (y * y) := lt_of_lt_of_le (by norm_num) hapb.1
  obtain ⟨hq, e2, he2, eq⟩ := mul_factor ha hp
    (by rw [abs_of_pos hap0]; exact le_trans (by norm_num) hapb.1)
    (by rw [abs_of_pos hap0]; exact hapb.2.trans (by norm_num))
  have hqb := factor_le he2 (by norm_num) hapb.1 hapb.2
  rw [← eq] at hqb
  rw [hap] at eq
  have ht0 := three_sub hqb.1 hqb.2
  have ht00 : 0 < 3 - r (a * (y * y)) := lt_of_lt_of_le (by norm_num) ht0.1
  obtain ⟨ht, e3, he3, et⟩ := sub_factor fin_three hq (by rw [r_three]; exact ht00.ne')
    (by rw [r_three, abs_of_pos ht00]; exact ht0.2.trans (by norm_num))
  have htb := factor_le he3 (by norm_num) ht0.1 ht0.2
  rw [r_three] at et
  rw [← et] at htb
  rw [eq] at et
  have hy1 : 1 / 2 * (1 / 2 ^ 51) ≤ 1 / 2 * r y := by gcongr
  have hy2 : 1 / 2 * r y ≤ 1 / 2 * 2 ^ 51 := by gcongr
  have hy3 : 0 < 1 / 2 * r y := by positivity
  obtain ⟨hh, e4, he4, eh⟩ := mul_factor fin_half hy
    (by rw [r_half, abs_of_pos hy3]; exact le_trans (by norm_num) hy1)
    (by rw [r_half, abs_of_pos hy3]; exact hy2.trans (by norm_num))
  rw [r_half] at eh
  have hhb := factor_le he4 (by positivity) hy1 hy2
  rw [← eh] at hhb
  have hhl : 0 < 0.999 * (1 / 2 * (1 / 2 ^ 51 : ℝ)) := by positivity
  have hh0 : 0 < r (1 / 2 * y) := lt_of_lt_of_le hhl hhb.1
  have htl : (0 : ℝ) < 0.999 * 1.9 := by norm_num
  have ht1 : 0 < r (3 - a * (y * y)) := lt_of_lt_of_le htl htb.1
  have hzl := mul_le_mul hhb.1 htb.1 htl.le hh0.le
  have hzu := mul_le_mul hhb.2 htb.2 ht1.le (by positivity)
  have hz0 : 0 < r (1 / 2 * y) * r (3 - a * (y * y)) := mul_pos hh0 ht1
  obtain ⟨hz, e5, he5, ez⟩ := mul_factor hh ht
    (by rw [abs_of_pos hz0]; exact le_trans (by norm_num) hzl)
    (by rw [abs_of_pos hz0]; exact hzu.trans (by norm_num))
  have e0 : rsqrt1 hw a = 1 / 2 * y * (3 - a * (y * y)) := by rw [rsqrt1, ← ey]
  rw [e0, ← es]
  refine ⟨hz, ?_⟩
  have : r (1 / 2 * y * (3 - a * (y * y))) * s - 1 =
      1 / 2 * (1 + δ) * (1 + e4) * ((3 - (1 + δ) ^ 2 * (1 + e1) * (1 + e2)) * (1 + e3)) * (1 + e5) - 1 := by
    rw [ez, et, eh, ← hys]; ring
  rw [this]
  exact rsqrt_alg hδ he1 he2 he3 he4 he5

end Klein
