import Verif.Props.ContractExp32

/-!
# C119: rotors and translators from axes and Euler angles with fused multiply-adds

The bounds of C79 on the constructors, for compilers that fuse products with the sums they enter.
-/

namespace Klein

open F32

variable {ω : Compiler}

/-- The squared norm of an axis (rotor.hpp:74, translator.hpp:58). -/
theorem axis_sq_fl {x y z : Fl ω} (h : AxisDom x.val y.val z.val) :
    (x * x + y * y + z * z).val.isFinite = true ∧ |r (x * x + y * y + z * z).val -
      (r x.val ^ 2 + r y.val ^ 2 + r z.val ^ 2)| ≤ 3.1e-7 * (r x.val ^ 2 + r y.val ^ 2 + r z.val ^ 2) := by
  have lf : ∀ {w : Fl ω}, F32.Le2 w.val 30 → ApF (w * w) (r w.val * r w.val) (|r w.val * r w.val| + 1 / 2 ^ 126) u 126 65 :=
    fun {w} hw => by
      have h3 : |r w.val| ≤ 2 ^ 32 := (abs_of_le2 hw (by norm_num)).trans (by norm_num)
      exact ApF.leaf w w (hw (by norm_num)).1 (hw (by norm_num)).1 h3 h3
  have hu := u_le
  have hu0 := u_pos
  have k := ((lf h.lx).add (lf h.ly) (K := 6e-8) (by norm_num at *; linarith) (by norm_num at *; linarith) (by norm_num) (by norm_num) (by norm_num) (by norm_num)
    (by norm_num) (show _ ≤ (1.21e-7 : ℝ) by ap_num)).add (lf h.lz) (K := 1.21e-7) le_rfl (by norm_num at *; linarith)
    (by norm_num) (by norm_num) (by norm_num) (by norm_num) (by norm_num) (show _ ≤ (1.82e-7 : ℝ) by ap_num)
  refine ⟨k.val.fin, ?_⟩
  have e := k.val.err
  have hN := h.norm
  rw [abs_mul_self, abs_mul_self, abs_mul_self, ← sq, ← sq, ← sq] at e
  norm_num at *
  linarith

/-- The inverse of the norm of the axis, by the library's square root and a division. -/
theorem ap_inv_norm_fl {lm : Libm F32} (hl : lm.Contract32) {x y z : Fl ω} (h : AxisDom x.val y.val z.val) :
    Ap (1 / lm.sqrt (x * x + y * y + z * z).val) (1 / √(r x.val ^ 2 + r y.val ^ 2 + r z.val ^ 2))
      (1 / √(r x.val ^ 2 + r y.val ^ 2 + r z.val ^ 2)) 1.2e-6 32 30 := by
  have hr := h.rng
  have hN : 0 < r x.val ^ 2 + r y.val ^ 2 + r z.val ^ 2 := lt_of_lt_of_le (by positivity) h.norm
  obtain ⟨hf, hD⟩ := axis_sq_fl h
  generalize (x * x + y * y + z * z).val = D at *
  have hS := Real.mul_self_sqrt hN.le
  generalize r x.val ^ 2 + r y.val ^ 2 + r z.val ^ 2 = N at *
  have hD0 : 0 < r D := by
    have := abs_le.1 hD
    norm_num at this; linarith
  obtain ⟨h1, h2⟩ := hl.sqrt D hf hD0
  have hS0 := hr.pos
  -- the square root of the rounded sum
  have h3 : |√(r D) - √N| ≤ 3.1e-7 * √N := by
    have e : (√(r D) - √N) * (√(r D) + √N) = r D - N := by
      have := Real.mul_self_sqrt hD0.le
      linear_combination this - hS
    have h4 : √N ≤ √(r D) + √N := by linarith [Real.sqrt_nonneg (r D)]
    have h5 : |√(r D) - √N| * √N ≤ 3.1e-7 * √N * √N := by
      refine (mul_le_mul_of_nonneg_left h4 (abs_nonneg _)).trans ?_
      rw [← abs_of_pos (lt_of_lt_of_le hS0 h4), ← abs_mul, e, mul_assoc, hS]
      exact hD
    exact le_of_mul_le_mul_right h5 hS0
  have hq : Ap (lm.sqrt D) √N √N 5.6e-7 30 32 := by
    refine ⟨h1, (abs_of_pos hS0).le, ?_, hr⟩
    have h6 : |√(r D)| ≤ 1.001 * √N := by
      have := abs_le.1 h3
      rw [abs_of_nonneg (Real.sqrt_nonneg _)]
      norm_num at *; linarith
    have h7 := h2.trans (mul_le_mul_of_nonneg_left (max_le (by
      have := hr.lo
      norm_num at *; linarith) h6) (by positivity))
    have h8 := abs_add_le (r (lm.sqrt D) - √(r D)) (√(r D) - √N)
    rw [sub_add_sub_cancel] at h8
    generalize √N = S at *
    clear * - h8 h3 h7 hS0
    norm_num at *; linarith
  exact ap_one.div hq (by norm_num) (by norm_num) (by norm_num) (by norm_num) (by ap_num)

/-- C119: the rotor made from an angle and an axis. -/
theorem C119_rotor_mkAxis {lm : Libm F32} (hl : lm.Contract32) {a x y z : Fl ω} (ha : a.val.isFinite = true) (h8 : |r a.val| ≤ 8)
    (h : AxisDom x.val y.val z.val) (i : Fin 4) :
    ((Rotor.mkAxis (lm.fl ω) a x y z).p1.f32.get i).isFinite = true ∧
      |r ((Rotor.mkAxis (lm.fl ω) a x y z).p1.f32.get i) - (Rotor.mkAxis Libm.real (r a.val) (r x.val) (r y.val) (r z.val)).p1.get i| ≤ 2e-6 := by
  obtain ⟨f1, f2, -, -⟩ := half_ang ha h8
  have hs := ap_sin_abs hl f1 f2
  have hc := ap_cos_abs hl f1 f2
  have hi := ap_inv_norm_fl hl h
  have hr := h.rng
  have hS0 := hr.pos
  have hsc := hs.mulR hi (one_mul _) hi.rng (by norm_num) (by norm_num) (by norm_num) (by norm_num)
    (show _ ≤ (1.75e-6 : ℝ) by ap_num)
  have hc1 := hc.mulR ap_one (one_mul 1) ⟨by norm_num, by norm_num⟩ (m'' := 0) (n'' := 0) (by norm_num) (by norm_num)
    (by norm_num) (by norm_num) (show _ ≤ (1.85e-6 : ℝ) by ap_num)
  have key : ∀ w : F32, F32.Le2 w 30 → |r w| ≤ √(r x.val ^ 2 + r y.val ^ 2 + r z.val ^ 2) → _ := fun w hw hle =>
    (Ap.input (hw (by norm_num)).1 hle hr).mulR hsc (show _ = (1 : ℝ) by field_simp) ⟨by norm_num, by norm_num⟩
      (m'' := 0) (n'' := 0) (by norm_num) (by norm_num) (by norm_num) (by norm_num) (show _ ≤ (1.85e-6 : ℝ) by ap_num)
  have fin : ∀ {x : F32} {E E' : ℝ} {m n : ℕ}, Ap x E 1 1.85e-6 m n → E = E' →
      x.isFinite = true ∧ |r x - E'| ≤ 2e-6 := by
    rintro x E E' m n hx rfl
    refine ⟨hx.fin, hx.err.trans ?_⟩
    norm_num
  have x2 := sq_nonneg (r x.val); have y2 := sq_nonneg (r y.val); have z2 := sq_nonneg (r z.val)
  have e : Rotor.mkAxis Libm.real (r a.val) (r x.val) (r y.val) (r z.val) =
      ⟨⟨Real.cos (1 / 2 * r a.val), r x.val * (Real.sin (1 / 2 * r a.val) * (1 / √(r x.val ^ 2 + r y.val ^ 2 + r z.val ^ 2))),
        r y.val * (Real.sin (1 / 2 * r a.val) * (1 / √(r x.val ^ 2 + r y.val ^ 2 + r z.val ^ 2))),
        r z.val * (Real.sin (1 / 2 * r a.val) * (1 / √(r x.val ^ 2 + r y.val ^ 2 + r z.val ^ 2)))⟩⟩ := by
    simp only [Rotor.mkAxis, sse, Libm.real, mul_one, sq]
  rw [e]
  fin_cases i
  · exact fin hc1 (mul_one _)
  · exact fin (key x.val h.lx (Real.abs_le_sqrt (by linarith))) rfl
  · exact fin (key y.val h.ly (Real.abs_le_sqrt (by linarith))) rfl
  · exact fin (key z.val h.lz (Real.abs_le_sqrt (by linarith))) rfl

/-- C119: the translator made from a distance (at most `d`) and an axis. -/
theorem C119_translator_mkAxis {lm : Libm F32} (hl : lm.Contract32) {a x y z : Fl ω} {d : ℝ} (ha : a.val.isFinite = true)
    (hd : |r a.val| ≤ 2 * d) (hd' : In2 d 30 30) (h : AxisDom x.val y.val z.val) (i : Fin 4) :
    ((Translator.mkAxis (lm.fl ω) a x y z).p2.f32.get i).isFinite = true ∧
      |r ((Translator.mkAxis (lm.fl ω) a x y z).p2.f32.get i) - (Translator.mkAxis Libm.real (r a.val) (r x.val) (r y.val) (r z.val)).p2.get i| ≤
        1.5e-6 * d := by
  have hi := ap_inv_norm_fl hl h
  have hr := h.rng
  have hS0 := hr.pos
  have hd0 := hd'.pos
  have hh : Ap (-(1 / 2)) (-(1 / 2)) (1 / 2) 0 1 0 := by
    have e : r (-(1 / 2)) = -(1 / 2) := by rw [r_neg, r_half.2]
    have := Ap.input (x := -(1 / 2)) (M := 1 / 2) (m := 1) (n := 0) (by decide +kernel) (by rw [e]; norm_num)
      ⟨by norm_num, by norm_num⟩
    rwa [e] at this
  have h2d : In2 (2 * d) 30 31 := ⟨hd'.lo.trans (by linarith), by have := hd'.hi; norm_num at *; linarith⟩
  have h1 := hh.mulR (Ap.input ha hd h2d) (show _ = d by ring) hd' (by norm_num) (by norm_num) (by norm_num) (by norm_num)
    (show _ ≤ (6e-8 : ℝ) by ap_num)
  have key : ∀ w : F32, F32.Le2 w 30 → |r w| ≤ √(r x.val ^ 2 + r y.val ^ 2 + r z.val ^ 2) → _ := fun w hw hle =>
    (h1.mul (Ap.input (hw (by norm_num)).1 hle hr) (by norm_num) (by norm_num) (by norm_num) (by norm_num)
      (show _ ≤ (1.3e-7 : ℝ) by ap_num)).mulR hi (show _ = d by field_simp) hd' (by norm_num) (by norm_num) (by norm_num)
      (by norm_num) (show _ ≤ (1.5e-6 : ℝ) by ap_num)
  have fin : ∀ {x : F32} {E E' : ℝ} {m n : ℕ}, Ap x E d 1.5e-6 m n → E = E' →
      x.isFinite = true ∧ |r x - E'| ≤ 1.5e-6 * d := by
    rintro x E E' m n hx rfl
    exact ⟨hx.fin, hx.err⟩
  have x2 := sq_nonneg (r x.val); have y2 := sq_nonneg (r y.val); have z2 := sq_nonneg (r z.val)
  have e : Translator.mkAxis Libm.real (r a.val) (r x.val) (r y.val) (r z.val) =
      ⟨⟨0, -(1 / 2) * r a.val * r x.val * (1 / √(r x.val ^ 2 + r y.val ^ 2 + r z.val ^ 2)),
        -(1 / 2) * r a.val * r y.val * (1 / √(r x.val ^ 2 + r y.val ^ 2 + r z.val ^ 2)),
        -(1 / 2) * r a.val * r z.val * (1 / √(r x.val ^ 2 + r y.val ^ 2 + r z.val ^ 2))⟩⟩ := by
    simp only [Translator.mkAxis, sse, Libm.real, mul_zero, sq]
  rw [e]
  have hz := ap_zero hr
  have h0 := (h1.mul hz (by norm_num) (by norm_num) (by norm_num) (by norm_num)
    (show _ ≤ (1.3e-7 : ℝ) by ap_num)).mulR (ap_zero (M := 1 / √(r x.val ^ 2 + r y.val ^ 2 + r z.val ^ 2)) hi.rng)
    (show _ = d by field_simp) hd' (by norm_num) (by norm_num) (by norm_num)
      (by norm_num) (show _ ≤ (1.5e-6 : ℝ) by ap_num)
  fin_cases i
  · exact fin h0 (by simp only [V4.get]; ring)
  · exact fin (key x.val h.lx (Real.abs_le_sqrt (by linarith))) rfl
  · exact fin (key y.val h.ly (Real.abs_le_sqrt (by linarith))) rfl
  · exact fin (key z.val h.lz (Real.abs_le_sqrt (by linarith))) rfl

/-- Normalising lanes close to those of a unit quaternion. -/
theorem normalize_near_fl {hw : Hw F32} (hc : hw.Contract32) (isa : Isa) {f0 f1 f2 f3 : Fl ω} {g0 g1 g2 g3 : ℝ}
    (q0 : Ap f0.val g0 (1 + 1) 1.64e-6 0 1) (q1 : Ap f1.val g1 (1 + 1) 1.64e-6 0 1) (q2 : Ap f2.val g2 (1 + 1) 1.64e-6 0 1)
    (q3 : Ap f3.val g3 (1 + 1) 1.64e-6 0 1) (hu2 : g0 ^ 2 + g1 ^ 2 + g2 ^ 2 + g3 ^ 2 = 1) (i : Fin 4) :
    (((⟨⟨f0, f1, f2, f3⟩⟩ : Rotor (Fl ω)).normalize (hw.fl ω) isa).p1.f32.get i).isFinite = true ∧
      |r (((⟨⟨f0, f1, f2, f3⟩⟩ : Rotor (Fl ω)).normalize (hw.fl ω) isa).p1.f32.get i) - (⟨g0, g1, g2, g3⟩ : V4 ℝ).get i| ≤ 2e-5 := by
  have fw : ∀ {f : F32} {g : ℝ}, Ap f g (1 + 1) 1.64e-6 0 1 → |r f - g| ≤ 3.28e-6 := fun h =>
    h.err.trans (by norm_num)
  have d0 := fw q0; have d1 := fw q1; have d2 := fw q2; have d3 := fw q3
  have hnu := near_unit hu2 (by norm_num) d0 d1 d2 d3
  have ble : ∀ {f : F32} {g : ℝ}, Ap f g (1 + 1) 1.64e-6 0 1 → F32.Le2 f 30 := fun h =>
    le2_of_abs h.fin (h.val_le.trans (by norm_num))
  have hV : V4.Le2 ⟨f0.val, f1.val, f2.val, f3.val⟩ 30 := fun j => by
    fin_cases j
    · exact ble q0
    · exact ble q1
    · exact ble q2
    · exact ble q3
  have hS : (⟨f0.val, f1.val, f2.val, f3.val⟩ : V4 F32).sq4 = r f0.val ^ 2 + r f1.val ^ 2 + r f2.val ^ 2 + r f3.val ^ 2 := rfl
  have hN : 1 / 2 ^ 60 ≤ (⟨f0.val, f1.val, f2.val, f3.val⟩ : V4 F32).sq4 := by
    rw [hS]
    have := abs_le.1 hnu
    norm_num at this ⊢; linarith
  have hsc := C113_rotor_normalize hc isa (ω := ω) ⟨⟨f0, f1, f2, f3⟩⟩ hV hN i
  obtain ⟨hf, he⟩ := hsc
  refine ⟨hf, ?_⟩
  obtain ⟨n, en⟩ : ∃ n, n = √(⟨f0.val, f1.val, f2.val, f3.val⟩ : V4 F32).sq4 := ⟨_, rfl⟩
  have hn2 : n ^ 2 = r f0.val ^ 2 + r f1.val ^ 2 + r f2.val ^ 2 + r f3.val ^ 2 := by
    rw [en, Real.sq_sqrt (by rw [hS]; positivity), hS]
  have hn0 : 0 ≤ n := by rw [en]; exact Real.sqrt_nonneg _
  change _ ≤ 6.8e-7 * (_ / √(⟨f0.val, f1.val, f2.val, f3.val⟩ : V4 F32).sq4) + _ at he
  change |_ - _ / √(⟨f0.val, f1.val, f2.val, f3.val⟩ : V4 F32).sq4| ≤ _ at he
  rw [← en] at he
  rw [← hn2] at hnu
  have hn1 : |n - 1| ≤ 1.35e-5 := by
    have h1 : |n - 1| * 1 ≤ |n - 1| * (n + 1) := mul_le_mul_of_nonneg_left (by linarith) (abs_nonneg _)
    rw [mul_one] at h1
    refine h1.trans ?_
    rw [← abs_of_nonneg (show 0 ≤ n + 1 by linarith), ← abs_mul, show (n - 1) * (n + 1) = n ^ 2 - 1 by ring]
    refine hnu.trans (by norm_num)
  have lane : ∀ (f : F32) (g x : ℝ), |r f - g| ≤ 3.28e-6 → |g| ≤ 1 →
      |x - r f / n| ≤ 6.8e-7 * (|r f| / n) + 1 / 2 ^ 150 → |x - g| ≤ 2e-5 := fun f g x hd hg hx => by
    have hn1' := abs_le.1 hn1
    have hnp : 0.99 ≤ n := by norm_num at *; linarith
    have hn0' : 0 < n := by norm_num at *; linarith
    have e1 : |r f| ≤ 1.001 := by
      have := abs_add_le (r f - g) g
      rw [sub_add_cancel] at this
      norm_num at *; linarith
    have e2 : |r f| / n ≤ 1.02 := by
      rw [div_le_iff₀ hn0']; norm_num at *; linarith
    have e3 : |r f / n - g| ≤ 1.75e-5 := by
      have : r f / n - g = ((r f - g) - g * (n - 1)) / n := by field_simp; ring
      rw [this, abs_div, abs_of_pos hn0', div_le_iff₀ hn0']
      have h1 := abs_sub (r f - g) (g * (n - 1))
      rw [abs_mul] at h1
      have h2 := mul_le_mul hg hn1 (abs_nonneg _) (by norm_num)
      norm_num at *; linarith
    have h3 := abs_add_le (x - r f / n) (r f / n - g)
    rw [sub_add_sub_cancel] at h3
    norm_num at *; linarith
  have gl : |g0| ≤ 1 ∧ |g1| ≤ 1 ∧ |g2| ≤ 1 ∧ |g3| ≤ 1 := by
    refine ⟨?_, ?_, ?_, ?_⟩ <;> refine abs_le_of_sq_le_sq ?_ (by norm_num) <;>
      nlinarith [sq_nonneg g0, sq_nonneg g1, sq_nonneg g2, sq_nonneg g3]
  generalize ((⟨⟨f0, f1, f2, f3⟩⟩ : Rotor (Fl ω)).normalize (hw.fl ω) isa).p1.f32 = v at *
  fin_cases i
  · exact lane f0.val g0 _ d0 gl.1 he
  · exact lane f1.val g1 _ d1 gl.2.1 he
  · exact lane f2.val g2 _ d2 gl.2.2.1 he
  · exact lane f3.val g3 _ d3 gl.2.2.2 he

/-- C119: the rotor made from Euler angles. -/
theorem C119_rotor_mkEuler {hw : Hw F32} (hc : hw.Contract32) {lm : Libm F32} (hl : lm.Contract32) {hwr : Hw ℝ}
    (hx : hwr.Exact) (isa isa' : Isa) (ea : EulerAngles (Fl ω))
    (hr : ea.roll.val.isFinite = true ∧ |r ea.roll.val| ≤ 8) (hp : ea.pitch.val.isFinite = true ∧ |r ea.pitch.val| ≤ 8)
    (hy : ea.yaw.val.isFinite = true ∧ |r ea.yaw.val| ≤ 8) (i : Fin 4) :
    ((Rotor.mkEuler (hw.fl ω) (lm.fl ω) isa ea).p1.f32.get i).isFinite = true ∧
      |r ((Rotor.mkEuler (hw.fl ω) (lm.fl ω) isa ea).p1.f32.get i) -
        (Rotor.mkEuler hwr Libm.real isa' ⟨r ea.roll.val, r ea.pitch.val, r ea.yaw.val⟩).p1.get i| ≤ 2e-5 := by
  obtain ⟨-, -, r1, r2⟩ := half_ang hr.1 hr.2
  obtain ⟨-, -, p1, p2⟩ := half_ang hp.1 hp.2
  obtain ⟨-, -, y1, y2⟩ := half_ang hy.1 hy.2
  have sr := ap_sin_abs hl r1 r2; have cr := ap_cos_abs hl r1 r2
  have sp := ap_sin_abs hl p1 p2; have cp := ap_cos_abs hl p1 p2
  have sy := ap_sin_abs hl y1 y2; have cy := ap_cos_abs hl y1 y2
  rw [Rotor.mkEuler_eq hx]
  have hu := eulerQuat_norm (r ea.roll.val) (r ea.pitch.val) (r ea.yaw.val)
  have I1 : In2 1 0 0 := ⟨by norm_num, by norm_num⟩
  have m3 : ∀ {a b c : Fl ω} {A B D : ℝ}, Ap a.val A 1 4.8e-7 0 0 → Ap b.val B 1 4.8e-7 0 0 → Ap c.val D 1 4.8e-7 0 0 →
      ApF (a * b * c) (A * B * D) 1 1.57e-6 0 0 := fun {a b c} _ _ _ ha hb hc =>
    ApF.mulR (A := a * b) (B := c) (ha.mulR hb (mul_one 1) I1 (by norm_num) (by norm_num) (by norm_num) (by norm_num)
      (show _ ≤ (1.03e-6 : ℝ) by ap_num)) hc (mul_one 1) I1 (by norm_num) (by norm_num) (by norm_num) (by norm_num)
      (by ap_num)
  have ad : ∀ {a b : Fl ω} {A B : ℝ}, ApF a A 1 1.57e-6 0 0 → ApF b B 1 1.57e-6 0 0 →
      Ap (a + b).val (A + B) (1 + 1) 1.64e-6 0 1 := fun ha hb => (ha.add hb le_rfl le_rfl (by norm_num) (by norm_num)
        (by norm_num) (by norm_num) (by norm_num) (by ap_num)).val
  have sb : ∀ {a b : Fl ω} {A B : ℝ}, ApF a A 1 1.57e-6 0 0 → ApF b B 1 1.57e-6 0 0 →
      Ap (a - b).val (A - B) (1 + 1) 1.64e-6 0 1 := fun ha hb => (ha.sub hb le_rfl le_rfl (by norm_num) (by norm_num)
        (by norm_num) (by norm_num) (by norm_num) (by ap_num)).val
  have q0 := ad (m3 (a := ((lm.fl ω).cos (ea.roll * (1 / 2)))) (b := ((lm.fl ω).cos (ea.pitch * (1 / 2))))
      (c := ((lm.fl ω).cos (ea.yaw * (1 / 2)))) cr cp cy)
    (m3 (a := ((lm.fl ω).sin (ea.roll * (1 / 2)))) (b := ((lm.fl ω).sin (ea.pitch * (1 / 2))))
      (c := ((lm.fl ω).sin (ea.yaw * (1 / 2)))) sr sp sy)
  have q1 := sb (m3 (a := ((lm.fl ω).sin (ea.roll * (1 / 2)))) (b := ((lm.fl ω).cos (ea.pitch * (1 / 2))))
      (c := ((lm.fl ω).cos (ea.yaw * (1 / 2)))) sr cp cy)
    (m3 (a := ((lm.fl ω).cos (ea.roll * (1 / 2)))) (b := ((lm.fl ω).sin (ea.pitch * (1 / 2))))
      (c := ((lm.fl ω).sin (ea.yaw * (1 / 2)))) cr sp sy)
  have q2 := ad (m3 (a := ((lm.fl ω).cos (ea.roll * (1 / 2)))) (b := ((lm.fl ω).sin (ea.pitch * (1 / 2))))
      (c := ((lm.fl ω).cos (ea.yaw * (1 / 2)))) cr sp cy)
    (m3 (a := ((lm.fl ω).sin (ea.roll * (1 / 2)))) (b := ((lm.fl ω).cos (ea.pitch * (1 / 2))))
      (c := ((lm.fl ω).sin (ea.yaw * (1 / 2)))) sr cp sy)
  have q3 := sb (m3 (a := ((lm.fl ω).cos (ea.roll * (1 / 2)))) (b := ((lm.fl ω).cos (ea.pitch * (1 / 2))))
      (c := ((lm.fl ω).sin (ea.yaw * (1 / 2)))) cr cp sy)
    (m3 (a := ((lm.fl ω).sin (ea.roll * (1 / 2)))) (b := ((lm.fl ω).sin (ea.pitch * (1 / 2))))
      (c := ((lm.fl ω).cos (ea.yaw * (1 / 2)))) sr sp cy)
  have eF : Rotor.mkEuler (hw.fl ω) (lm.fl ω) isa ea = Rotor.normalize (hw.fl ω) isa
      ⟨⟨(lm.fl ω).cos (ea.roll * (1 / 2)) * (lm.fl ω).cos (ea.pitch * (1 / 2)) * (lm.fl ω).cos (ea.yaw * (1 / 2)) +
          (lm.fl ω).sin (ea.roll * (1 / 2)) * (lm.fl ω).sin (ea.pitch * (1 / 2)) * (lm.fl ω).sin (ea.yaw * (1 / 2)),
        (lm.fl ω).sin (ea.roll * (1 / 2)) * (lm.fl ω).cos (ea.pitch * (1 / 2)) * (lm.fl ω).cos (ea.yaw * (1 / 2)) -
          (lm.fl ω).cos (ea.roll * (1 / 2)) * (lm.fl ω).sin (ea.pitch * (1 / 2)) * (lm.fl ω).sin (ea.yaw * (1 / 2)),
        (lm.fl ω).cos (ea.roll * (1 / 2)) * (lm.fl ω).sin (ea.pitch * (1 / 2)) * (lm.fl ω).cos (ea.yaw * (1 / 2)) +
          (lm.fl ω).sin (ea.roll * (1 / 2)) * (lm.fl ω).cos (ea.pitch * (1 / 2)) * (lm.fl ω).sin (ea.yaw * (1 / 2)),
        (lm.fl ω).cos (ea.roll * (1 / 2)) * (lm.fl ω).cos (ea.pitch * (1 / 2)) * (lm.fl ω).sin (ea.yaw * (1 / 2)) -
          (lm.fl ω).sin (ea.roll * (1 / 2)) * (lm.fl ω).sin (ea.pitch * (1 / 2)) * (lm.fl ω).cos (ea.yaw * (1 / 2))⟩⟩ := rfl
  rw [eF]
  have w1 : r ea.roll.val / 2 = r ea.roll.val * (1 / 2) := by ring
  have w2 : r ea.pitch.val / 2 = r ea.pitch.val * (1 / 2) := by ring
  have w3 : r ea.yaw.val / 2 = r ea.yaw.val * (1 / 2) := by ring
  simp only [eulerQuat, w1, w2, w3, dot4] at hu ⊢
  clear eF
  exact normalize_near_fl hc isa q0 q1 q2 q3 (by linear_combination hu) i

/-- C119: the compiler that fuses nothing gives the lanes of C79. -/
theorem C119_plain (hw : Hw F32) (lm : Libm F32) (isa : Isa) (a x y z : Fl plainly) (ea : EulerAngles (Fl plainly)) :
    (Rotor.mkAxis (lm.fl plainly) a x y z).p1.f32 = (Rotor.mkAxis lm a.val x.val y.val z.val).p1 ∧
    (Translator.mkAxis (lm.fl plainly) a x y z).p2.f32 = (Translator.mkAxis lm a.val x.val y.val z.val).p2 ∧
    (Rotor.mkEuler (hw.fl plainly) (lm.fl plainly) isa ea).p1.f32 =
      (Rotor.mkEuler hw lm isa ⟨ea.roll.val, ea.pitch.val, ea.yaw.val⟩).p1 :=
  ⟨rfl, rfl, by cases isa <;> rfl⟩

/-! ### cases -/

private theorem r_nat {n : ℕ} (h : (n : F32).val = n) : r n = n := by simp [r, h]
private theorem r_one' : r 1 = 1 := by rw [r, one_val]; norm_num
private theorem r_two' : r 2 = 2 := r_nat (n := 2) (by decide +kernel)
private theorem r_three' : r 3 = 3 := r_nat (n := 3) (by decide +kernel)

private theorem axis221 : AxisDom 2 2 1 where
  lx := fun _ => by decide +kernel
  ly := fun _ => by decide +kernel
  lz := fun _ => by decide +kernel
  norm := by rw [r_two', r_one']; norm_num

private theorem s9 : √((2 : ℝ) ^ 2 + 2 ^ 2 + 1 ^ 2) = 3 := by
  rw [show (2 : ℝ) ^ 2 + 2 ^ 2 + 1 ^ 2 = 3 ^ 2 by norm_num, Real.sqrt_sq (by norm_num)]

/-- A turn by 3 about `(2, 2, 1)`: one lane, whatever the compiler fuses. -/
example {lm : Libm F32} (hl : lm.Contract32) (ω : Compiler) :
    |r (Rotor.mkAxis (lm.fl ω) (.input 0 3) (.input 1 2) (.input 2 2) (.input 3 1)).p1.l1.val - 2 * (Real.sin (3 / 2) / 3)| ≤ 2e-6 := by
  have h := (C119_rotor_mkAxis (ω := ω) hl (a := .input 0 3) (x := .input 1 2) (y := .input 2 2) (z := .input 3 1)
    (by show F32.isFinite 3 = true; decide +kernel) (by show |r 3| ≤ 8; rw [r_three']; norm_num) axis221 1).2
  have e : (Rotor.mkAxis Libm.real (r 3) (r 2) (r 2) (r 1)).p1.get 1 = 2 * (Real.sin (3 / 2) / 3) := by
    show r 2 * (Real.sin (1 / 2 * r 3) * (1 / √(r 2 * r 2 + r 2 * r 2 + r 1 * r 1))) = _
    rw [r_two', r_three', r_one', ← sq, ← sq, s9, show (1 / 2 * 3 : ℝ) = 3 / 2 by norm_num]; ring
  rw [← e]; exact h

/-- A shift by 3 along `(2, 2, 1)`: half of it, negated. -/
example {lm : Libm F32} (hl : lm.Contract32) (ω : Compiler) :
    |r (Translator.mkAxis (lm.fl ω) (.input 0 3) (.input 1 2) (.input 2 2) (.input 3 1)).p2.l1.val - -1| ≤ 2.25e-6 := by
  have h := (C119_translator_mkAxis (ω := ω) hl (a := .input 0 3) (x := .input 1 2) (y := .input 2 2) (z := .input 3 1) (d := 3 / 2)
    (by show F32.isFinite 3 = true; decide +kernel) (by show |r 3| ≤ _; rw [r_three']; norm_num) ⟨by norm_num, by norm_num⟩ axis221 1).2
  have e : (Translator.mkAxis Libm.real (r 3) (r 2) (r 2) (r 1)).p2.get 1 = -1 := by
    show -(1 / 2) * r 3 * r 2 * (1 / √(r 2 * r 2 + r 2 * r 2 + r 1 * r 1)) = _
    rw [r_two', r_three', r_one', ← sq, ← sq, s9]; norm_num
  rw [← e]; exact h.trans (by norm_num)

/-- Roll 2, pitch 0, yaw 0: the scalar lane. -/
example {hw : Hw F32} (hc : hw.Contract32) {lm : Libm F32} (hl : lm.Contract32) (isa : Isa) (ω : Compiler) :
    |r (Rotor.mkEuler (hw.fl ω) (lm.fl ω) isa ⟨.input 0 2, .input 1 0, .input 2 0⟩).p1.l0.val - Real.cos 1| ≤ 2e-5 := by
  have h := (C119_rotor_mkEuler hc hl Hw.ideal_exact isa .sse3 (⟨.input 0 2, .input 1 0, .input 2 0⟩ : EulerAngles (Fl ω))
    ⟨by show F32.isFinite 2 = true; decide +kernel, by show |r 2| ≤ 8; rw [r_two']; norm_num⟩
    ⟨by show F32.isFinite 0 = true; decide +kernel, by show |r 0| ≤ 8; rw [r_zero]; norm_num⟩
    ⟨by show F32.isFinite 0 = true; decide +kernel, by show |r 0| ≤ 8; rw [r_zero]; norm_num⟩ 0).2
  have e : (Rotor.mkEuler Hw.ideal Libm.real .sse3 ⟨r 2, r 0, r 0⟩).p1.get 0 = Real.cos 1 := by
    rw [Rotor.mkEuler_eq Hw.ideal_exact, r_two', r_zero]
    simp [eulerQuat, V4.get]
  rw [← e]; exact h

end Klein
