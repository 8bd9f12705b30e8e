import Verif.Float.Newton32

/-!
# Relative error against a scale, in binary32

`Ap x E M k m n`: the float `x` is finite and within `k * M` of the real number `E`, whose magnitude is
at most `M`; `M` lies between `2^-m` and `2^n`.  One rule per operation; the exponents show that no
operation overflows or loses accuracy to subnormal numbers.
-/

namespace Klein.F32

/-- `a` is between `2^-m` and `2^n`. -/
structure In2 (a : ℝ) (m n : ℕ) : Prop where
  lo : 1 / 2 ^ m ≤ a
  hi : a ≤ 2 ^ n

theorem In2.pos {a : ℝ} {m n : ℕ} (h : In2 a m n) : 0 < a := lt_of_lt_of_le (by positivity) h.lo

theorem In2.mul {a b : ℝ} {m n m' n' : ℕ} (h : In2 a m n) (h' : In2 b m' n') : In2 (a * b) (m + m') (n + n') where
  lo := by
    rw [pow_add, ← one_div_mul_one_div]
    exact mul_le_mul h.lo h'.lo (by positivity) h.pos.le
  hi := by rw [pow_add]; exact mul_le_mul h.hi h'.hi h'.pos.le (by positivity)

theorem In2.add {a b : ℝ} {m n m' n' : ℕ} (h : In2 a m n) (h' : In2 b m' n') : In2 (a + b) m (max n n' + 1) where
  lo := h.lo.trans (by linarith [h'.pos])
  hi := by
    have h1 := h.hi.trans (pow_le_pow_right₀ (by norm_num : (1 : ℝ) ≤ 2) (le_max_left n n'))
    have h2 := h'.hi.trans (pow_le_pow_right₀ (by norm_num : (1 : ℝ) ≤ 2) (le_max_right n n'))
    rw [pow_succ]; linarith

theorem In2.inv {a : ℝ} {m n : ℕ} (h : In2 a m n) : In2 (1 / a) n m where
  lo := one_div_le_one_div_of_le h.pos h.hi
  hi := by
    rw [div_le_iff₀ h.pos]
    have := mul_le_mul_of_nonneg_left h.lo (show (0 : ℝ) ≤ 2 ^ m by positivity)
    rwa [mul_one_div_cancel (by positivity)] at this

theorem In2.sqrt {a : ℝ} {m n : ℕ} (h : In2 a (2 * m) (2 * n)) : In2 (√a) m n where
  lo := Real.le_sqrt_of_sq_le (le_trans (le_of_eq (by rw [div_pow, one_pow, ← pow_mul, mul_comm m 2])) h.lo)
  hi := Real.sqrt_le_iff.2 ⟨by positivity, h.hi.trans (le_of_eq (by rw [← pow_mul, mul_comm n 2]))⟩

theorem In2.mono {a : ℝ} {m n m' n' : ℕ} (h : In2 a m n) (hm : m ≤ m') (hn : n ≤ n') : In2 a m' n' where
  lo := le_trans (one_div_le_one_div_of_le (by positivity) (pow_le_pow_right₀ (by norm_num) hm)) h.lo
  hi := h.hi.trans (pow_le_pow_right₀ (by norm_num) hn)

/-- See the head of the file. -/
structure Ap (x : F32) (E M k : ℝ) (m n : ℕ) : Prop where
  fin : x.isFinite = true
  mag : |E| ≤ M
  err : |r x - E| ≤ k * M
  rng : In2 M m n

theorem Ap.val_le {x : F32} {E M k : ℝ} {m n : ℕ} (h : Ap x E M k m n) : |r x| ≤ (1 + k) * M := by
  have := abs_add_le (r x - E) E
  rw [sub_add_cancel] at this
  linarith [h.mag, h.err]

/-- An input. -/
theorem Ap.input {x : F32} {M : ℝ} {m n : ℕ} (hf : x.isFinite = true) (h : |r x| ≤ M) (hr : In2 M m n) :
    Ap x (r x) M 0 m n := ⟨hf, h, by simp, hr⟩

theorem Ap.le {x : F32} {E E' M M' k k' : ℝ} {m n m' n' : ℕ} (h : Ap x E M k m n) (hE : E = E') (hM : M ≤ M')
    (hk0 : 0 ≤ k) (hk : k ≤ k') (hr : In2 M' m' n') : Ap x E' M' k' m' n' where
  fin := h.fin
  mag := hE ▸ h.mag.trans hM
  err := hE ▸ h.err.trans (mul_le_mul hk hM h.rng.pos.le (hk0.trans hk))
  rng := hr

theorem Ap.eq {x : F32} {E E' M M' k : ℝ} {m n : ℕ} (h : Ap x E M k m n) (hE : E = E') (hM : M = M') :
    Ap x E' M' k m n := hE ▸ hM ▸ h

theorem Ap.neg {x : F32} {E M k : ℝ} {m n : ℕ} (h : Ap x E M k m n) : Ap (-x) (-E) M k m n where
  fin := by simpa using h.fin
  mag := by rw [abs_neg]; exact h.mag
  err := by rw [r_neg, show -r x - -E = -(r x - E) by ring, abs_neg]; exact h.err
  rng := h.rng

/-- Products, with the range of the scale of the result given. -/
theorem Ap.mulR {x y : F32} {E E' M M' M'' k k' k'' : ℝ} {m n m' n' m'' n'' : ℕ} (hx : Ap x E M k m n)
    (hy : Ap y E' M' k' m' n') (hM'' : M * M' = M'') (hr : In2 M'' m'' n'')
    (hk : 0 ≤ k ∧ k ≤ 1) (hk' : 0 ≤ k' ∧ k' ≤ 1) (hm : m'' ≤ 126) (hn : n'' ≤ 125)
    (hk'' : (1 + k) * (1 + k') * (1 + u) - 1 ≤ k'') : Ap (x * y) (E * E') M'' k'' m'' n'' := by
  subst hM''
  have hM := hx.rng.pos
  have hM' := hy.rng.pos
  have hP := hr.pos
  have h1 : |r x * r y| ≤ (1 + k) * (1 + k') * (M * M') := by
    rw [abs_mul]
    have := mul_le_mul hx.val_le hy.val_le (abs_nonneg _) (mul_nonneg (by linarith) hM.le)
    linarith
  have h2 : |r x * r y - E * E'| ≤ ((1 + k) * (1 + k') - 1) * (M * M') := by
    have e : r x * r y - E * E' = r x * (r y - E') + E' * (r x - E) := by ring
    rw [e]
    refine (abs_add_le _ _).trans ?_
    rw [abs_mul, abs_mul]
    have b1 := mul_le_mul hx.val_le hy.err (abs_nonneg _) (mul_nonneg (by linarith) hM.le)
    have b2 := mul_le_mul hy.mag hx.err (abs_nonneg _) hM'.le
    linarith
  have h4 : (1 + k) * (1 + k') ≤ 4 := by nlinarith [hk.1, hk.2, hk'.1, hk'.2]
  have h5 : 1 ≤ (1 + k) * (1 + k') := by nlinarith [hk.1, hk'.1]
  have hhi : M * M' ≤ 2 ^ 125 := hr.hi.trans (pow_le_pow_right₀ (by norm_num) hn)
  have hlo : 1 / 2 ^ 126 ≤ M * M' :=
    le_trans (one_div_le_one_div_of_le (by positivity) (pow_le_pow_right₀ (by norm_num) hm)) hr.lo
  obtain ⟨hf, he⟩ := mul_ok hx.fin hy.fin (h1.trans (by
    have := mul_le_mul h4 hhi hP.le (by norm_num)
    refine this.trans (le_of_eq ?_)
    norm_num))
  refine ⟨hf, ?_, ?_, hr⟩
  · rw [abs_mul]; exact mul_le_mul hx.mag hy.mag (abs_nonneg _) hM.le
  · have h6 : max (1 / 2 ^ 126) |r x * r y| ≤ (1 + k) * (1 + k') * (M * M') := by
      refine max_le (hlo.trans ?_) h1
      exact le_mul_of_one_le_left hP.le h5
    have h7 := he.trans (mul_le_mul_of_nonneg_left h6 u_pos.le)
    have h8 := abs_add_le (r (x * y) - r x * r y) (r x * r y - E * E')
    rw [sub_add_sub_cancel] at h8
    have h9 : ((1 + k) * (1 + k') * (1 + u) - 1) * (M * M') ≤ k'' * (M * M') :=
      mul_le_mul_of_nonneg_right hk'' hP.le
    generalize M * M' = P at *
    generalize (1 + k) * (1 + k') = K at *
    linarith

theorem Ap.mul {x y : F32} {E E' M M' k k' k'' : ℝ} {m n m' n' : ℕ} (hx : Ap x E M k m n) (hy : Ap y E' M' k' m' n')
    (hk : 0 ≤ k ∧ k ≤ 1) (hk' : 0 ≤ k' ∧ k' ≤ 1) (hm : m + m' ≤ 126) (hn : n + n' ≤ 125)
    (hk'' : (1 + k) * (1 + k') * (1 + u) - 1 ≤ k'') : Ap (x * y) (E * E') (M * M') k'' (m + m') (n + n') :=
  hx.mulR hy rfl (hx.rng.mul hy.rng) hk hk' hm hn hk''

private theorem ap_add_err {vx vy v E E' M M' k k' K k'' : ℝ} (hx : |vx - E| ≤ k * M) (hy : |vy - E'| ≤ k' * M')
    (hE : |E| ≤ M) (hE' : |E'| ≤ M') (hM : 0 ≤ M) (hM' : 0 ≤ M') (hk : k ≤ K) (hk' : k' ≤ K)
    (hv : |v - (vx + vy)| ≤ u * |vx + vy|) (hk'' : (1 + K) * (1 + u) - 1 ≤ k'') :
    |v - (E + E')| ≤ k'' * (M + M') := by
  have h1 : |vx + vy - (E + E')| ≤ K * (M + M') := by
    have := abs_add_le (vx - E) (vy - E')
    rw [show vx - E + (vy - E') = vx + vy - (E + E') by ring] at this
    have a := mul_le_mul_of_nonneg_right hk hM
    have b := mul_le_mul_of_nonneg_right hk' hM'
    linarith
  have h2 : |vx + vy| ≤ (1 + K) * (M + M') := by
    have := abs_add_le (vx + vy - (E + E')) (E + E')
    rw [sub_add_cancel] at this
    have := abs_add_le E E'
    linarith
  have h3 := hv.trans (mul_le_mul_of_nonneg_left h2 u_pos.le)
  have h4 := abs_add_le (v - (vx + vy)) (vx + vy - (E + E'))
  rw [sub_add_sub_cancel] at h4
  have h5 := mul_le_mul_of_nonneg_right hk'' (add_nonneg hM hM')
  linarith

theorem Ap.add {x y : F32} {E E' M M' k k' K k'' : ℝ} {m n m' n' : ℕ} (hx : Ap x E M k m n)
    (hy : Ap y E' M' k' m' n') (hk : k ≤ K) (hk' : k' ≤ K) (hK : K ≤ 1) (hn : max n n' ≤ 125)
    (hk'' : (1 + K) * (1 + u) - 1 ≤ k'') : Ap (x + y) (E + E') (M + M') k'' m (max n n' + 1) := by
  have hr := hx.rng.add hy.rng
  have hM := hx.rng.pos
  have hM' := hy.rng.pos
  have h1 : |r x + r y| ≤ 2 ^ 127 := by
    have a := hx.val_le.trans (mul_le_mul_of_nonneg_right (show 1 + k ≤ 2 by linarith) hM.le)
    have b := hy.val_le.trans (mul_le_mul_of_nonneg_right (show 1 + k' ≤ 2 by linarith) hM'.le)
    have c := hr.hi.trans (pow_le_pow_right₀ (by norm_num : (1 : ℝ) ≤ 2) (show max n n' + 1 ≤ 126 by omega))
    have := abs_add_le (r x) (r y)
    rw [show (2 : ℝ) ^ 127 = 2 * 2 ^ 126 by norm_num]
    linarith
  obtain ⟨hf, he⟩ := add_ok hx.fin hy.fin h1
  exact ⟨hf, (abs_add_le _ _).trans (add_le_add hx.mag hy.mag),
    ap_add_err hx.err hy.err hx.mag hy.mag hM.le hM'.le hk hk' he hk'', hr⟩

theorem Ap.sub {x y : F32} {E E' M M' k k' K k'' : ℝ} {m n m' n' : ℕ} (hx : Ap x E M k m n)
    (hy : Ap y E' M' k' m' n') (hk : k ≤ K) (hk' : k' ≤ K) (hK : K ≤ 1) (hn : max n n' ≤ 125)
    (hk'' : (1 + K) * (1 + u) - 1 ≤ k'') : Ap (x - y) (E - E') (M + M') k'' m (max n n' + 1) := by
  have hr := hx.rng.add hy.rng
  have hM := hx.rng.pos
  have hM' := hy.rng.pos
  have h1 : |r x - r y| ≤ 2 ^ 127 := by
    have a := hx.val_le.trans (mul_le_mul_of_nonneg_right (show 1 + k ≤ 2 by linarith) hM.le)
    have b := hy.val_le.trans (mul_le_mul_of_nonneg_right (show 1 + k' ≤ 2 by linarith) hM'.le)
    have c := hr.hi.trans (pow_le_pow_right₀ (by norm_num : (1 : ℝ) ≤ 2) (show max n n' + 1 ≤ 126 by omega))
    have := abs_sub (r x) (r y)
    rw [show (2 : ℝ) ^ 127 = 2 * 2 ^ 126 by norm_num]
    linarith
  obtain ⟨hf, he⟩ := sub_ok hx.fin hy.fin h1
  refine ⟨hf, (abs_sub _ _).trans (add_le_add hx.mag hy.mag), ?_, hr⟩
  have := ap_add_err (vx := r x) (vy := -r y) (E := E) (E' := -E') (v := r (x - y)) hx.err
    (by rw [← r_neg]; exact hy.neg.err) hx.mag
    (by rw [abs_neg]; exact hy.mag) hM.le hM'.le hk hk' (by rw [← sub_eq_add_neg]; exact he) hk''
  rwa [← sub_eq_add_neg] at this

theorem u_le : u ≤ 5.9605e-8 := by unfold u; norm_num

end Klein.F32
