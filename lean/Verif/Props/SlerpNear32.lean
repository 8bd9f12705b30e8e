import Verif.Props.Slerp32
import Verif.Props.HalfTurn32

/-!
# C97, continued: interpolation between nearly equal rotors

The logarithm of a rotor divides by the sine of the arc cosine of the scalar part.  As long as the scalar part of `b * ~a`
comes out below one the interpolation is accurate (`C97_slerp_near`); once it comes out as one or more, or the bivector part
is zero, every lane of the result is NaN.  All rotations by less than about a fortieth of a degree are affected.
-/

set_option linter.unusedSimpArgs false

namespace Klein

open F32

/-- What the C standard and the processor manual say of the values at one and zero: `acos(1)` and `sin(0)` are zeros
(Annex F.10.1.1, F.10.1.6), `rcpps` and `rsqrtps` of zero are infinite. -/
structure AtOne (hw : Hw F32) (lm : Libm F32) : Prop where
  acos : lm.acos 1 = 0
  sin : lm.sin 0 = 0
  rcp : hw.rcp 0 = F32.inf false
  rsqrt : hw.rsqrt 0 = F32.inf false

/-- Hardware and a library can satisfy this together with the accuracy assumed elsewhere. -/
theorem C97_atOne_inhabited : ∃ (hw : Hw F32) (lm : Libm F32), hw.Contract32 ∧ lm.Contract32 ∧ lm.AcosDomain ∧ AtOne hw lm := by
  classical
  obtain ⟨hw, hc⟩ := C70_contract_inhabited
  obtain ⟨lm, hl, hd⟩ := C97_acos_inhabited
  have o : r 1 = 1 := by rw [r, one_val]; norm_num
  have n0 : ¬ (1 / 2 ^ 100 : ℝ) ≤ |r 0| := by rw [r_zero, abs_zero, not_le]; positivity
  have z0 : ∀ v : ℝ, v = 0 → Ulp2 0 v := fun v hv => ⟨by decide +kernel, by rw [hv, r_zero, sub_zero, abs_zero]; positivity⟩
  refine ⟨{ hw with rcp := fun a => if a = 0 then F32.inf false else hw.rcp a,
                    rsqrt := fun a => if a = 0 then F32.inf false else hw.rsqrt a },
    { lm with acos := fun x => if x = 1 then 0 else lm.acos x, sin := fun x => if x = 0 then 0 else lm.sin x },
    ⟨fun a hf h1 h2 => ?_, fun a hf h1 h2 => ?_⟩, ⟨hl.sqrt, fun x hx => ?_, hl.cos, fun x hx h1 => ?_, hl.atan2, hl.feq, hl.lt6⟩,
    fun x hx h1 => ?_, ⟨by simp, by simp, by simp, by simp⟩⟩
  · have : a ≠ 0 := fun h => n0 (h ▸ h1)
    simp only [if_neg this]; exact hc.rcp a hf h1 h2
  · have : a ≠ 0 := fun h => n0 (h ▸ h1.trans (le_abs_self _))
    simp only [if_neg this]; exact hc.rsqrt a hf h1 h2
  · by_cases h : x = 0
    · simp only [if_pos h]; exact z0 _ (by rw [h, r_zero, Real.sin_zero])
    · simp only [if_neg h]; exact hl.sin x hx
  · by_cases h : x = 1
    · simp only [if_pos h]; exact z0 _ (by rw [h, o, Real.arccos_one])
    · simp only [if_neg h]; exact hl.acos x hx h1
  · have : x ≠ 1 := fun h => by rw [h, o] at h1; norm_num at h1
    simp only [if_neg this]; exact hd x hx h1

section
variable {hw : Hw F32} {lm : Libm F32} (isa : Isa)

/-- If the scalar is one the logarithm consists of NaNs, whatever the bivector part. -/
theorem Rotor.log_one_nan (h1 : AtOne hw lm) {q : Rotor F32} (h : q.p1.l0 = 1) (j : Fin 4) (hj : j ≠ 0) :
    ((q.log hw lm isa).p1.get j).isNaN = true := by
  have e0 : (q.log hw lm isa).p1.get j =
      q.p1.get j * rcp1 hw (lm.sin (lm.acos q.p1.l0)) * lm.acos q.p1.l0 := by
    fin_cases j
    · exact absurd rfl hj
    all_goals cases isa <;> rfl
  have n : (rcp1 hw (0 : F32)).isNaN = true := by
    rw [rcp1, h1.rcp]; decide +kernel
  rw [e0, h, h1.acos, h1.sin]
  exact F32.mul_nan (Or.inl (F32.mul_nan (Or.inr n)))

/-- C97: if the scalar part of `b ~a` rounds to one, nothing is left of the interpolation. -/
theorem C97_slerp_one_nan (h1 : AtOne hw lm) {a b : Rotor F32} (h : (b.mulRotor a.rev).p1.l0 = 1) (t : F32) :
    (slerpRotor hw lm isa a b t).p1.AllNaN := by
  refine Rotor.mul_nan (Branch.exp_nan hw isa fun j hj => ?_)
  have := Rotor.log_one_nan isa h1 h j hj
  match j with
  | 0 => exact absurd rfl hj
  | 1 => exact F32.mul_nan (Or.inl this)
  | 2 => exact F32.mul_nan (Or.inl this)
  | 3 => exact F32.mul_nan (Or.inl this)

/-- The float nearest to a number close to one is one. -/
theorem F32.nearest_one {x : F32} {v : ℝ} (hv : |v - 1| < 1 / 2 ^ 25)
    (hn : ∀ y : F32, y.isFinite = true → |r x - v| ≤ |r y - v|) : x = 1 := by
  have h1 := hn 1 (by decide +kernel)
  have e1 : r 1 = 1 := by rw [r, one_val]; norm_num
  rw [e1, abs_sub_comm 1 v] at h1
  have h2 : |r x - 1| < 1 / 2 ^ 24 := by
    have := abs_sub_le (r x) v 1
    norm_num at *; linarith
  obtain ⟨h3, h4⟩ := abs_lt.1 h2
  have hs : x.sign = false := by
    by_contra hc
    have hc' : x.sign = true := by simpa using hc
    have e : x.val = -magVal x.mag := by rw [val, hc']; rfl
    have : r x ≤ 0 := by
      rw [r, e]; have := magVal_nonneg x.mag.val
      exact_mod_cast (by linarith : -magVal x.mag.val ≤ 0)
    norm_num at h3; linarith
  have e : x.val = magVal x.mag := by rw [val, hs]; rfl
  have a1 : magVal 1065353215 = 1 - 1 / 2 ^ 24 := by decide +kernel
  have a2 : magVal 1065353217 = 1 + 1 / 2 ^ 23 := by decide +kernel
  have b1 : magVal 1065353215 < magVal x.mag := by
    rw [a1, ← e]
    have : ((1 - 1 / 2 ^ 24 : ℚ) : ℝ) < ((x.val : ℚ) : ℝ) := by push_cast; rw [r] at h3; linarith
    exact Rat.cast_lt.1 this
  have b2 : magVal x.mag < magVal 1065353217 := by
    rw [a2, ← e]
    have : ((x.val : ℚ) : ℝ) < ((1 + 1 / 2 ^ 23 : ℚ) : ℝ) := by push_cast; rw [r] at h4; norm_num at h4 ⊢; linarith
    exact Rat.cast_lt.1 this
  have c1 := magVal_strictMono.lt_iff_lt.1 b1
  have c2 := magVal_strictMono.lt_iff_lt.1 b2
  have c : x.mag = ⟨1065353216, by norm_num⟩ := Fin.ext (by show x.mag.val = 1065353216; omega)
  have o : (1 : F32) = ⟨false, ⟨1065353216, by norm_num⟩⟩ := by decide +kernel
  rw [o]
  exact F32.ext hs c

/-- C97: every rotation by less than about a fortieth of a degree (cosine of half the angle above `1 - 2⁻²⁵`) has a
logarithm made of NaNs once its scalar is stored as the nearest float. -/
theorem C97_small_rotation_fails (h1 : AtOne hw lm) {q : Rotor F32} {Q : Rotor ℝ} (hQ : Q.sqNorm = 1)
    (hs : 1 - 1 / 2 ^ 25 < Q.p1.l0)
    (hn : ∀ y : F32, y.isFinite = true → |r q.p1.l0 - Q.p1.l0| ≤ |r y - Q.p1.l0|) (j : Fin 4) (hj : j ≠ 0) :
    ((q.log hw lm isa).p1.get j).isNaN = true := by
  refine Rotor.log_one_nan isa h1 (F32.nearest_one ?_ hn) j hj
  have := (abs_le.1 (Rotor.lane_le hQ 0)).2
  simp only [V4.get] at this
  rw [abs_lt]; norm_num at *
  constructor <;> linarith

theorem Branch.exp_zero_nan (h1 : AtOne hw lm) {b : Branch F32} (h : ∀ j : Fin 4, j ≠ 0 → ∃ s, b.p1.get j = z s) :
    (b.exp hw lm isa).p1.AllNaN := by
  obtain ⟨s1, e1⟩ := h 1 (by decide)
  obtain ⟨s2, e2⟩ := h 2 (by decide)
  obtain ⟨s3, e3⟩ := h 3 (by decide)
  simp only [V4.get] at e1 e2 e3
  have hd : (hi_dp isa b.p1 b.p1).l0 = z false := by
    have q : ∀ s : Bool, z s * z s = z false := by decide +kernel
    cases isa <;> simp only [kln, sse, cond_true, cond_false, e1, e2, e3, q] <;> decide +kernel
  have ha : ((sqrt_nr1 hw (hi_dp isa b.p1 b.p1)).l0).isNaN = true := by
    have : (sqrt_nr1 hw (hi_dp isa b.p1 b.p1)).l0 = (hi_dp isa b.p1 b.p1).l0 * rsqrt1 hw (hi_dp isa b.p1 b.p1).l0 := rfl
    rw [this, hd, show z false = (0 : F32) from rfl, rsqrt1, h1.rsqrt]
    decide +kernel
  intro i
  have hs := div_nan (x := lm.sin (sqrt_nr1 hw (hi_dp isa b.p1 b.p1)).l0) (Or.inr ha)
  match i with
  | 0 => exact add_nan (Or.inl (F32.mul_nan (Or.inl hs)))
  | 1 => exact add_nan (Or.inl (F32.mul_nan (Or.inl hs)))
  | 2 => exact add_nan (Or.inl (F32.mul_nan (Or.inl hs)))
  | 3 => exact add_nan (Or.inl (F32.mul_nan (Or.inl hs)))

/-- C97: if the bivector part of `b ~a` comes out as zero, nothing is left of the interpolation either. -/
theorem C97_slerp_zero_nan (hc : hw.Contract32) (hl : lm.Contract32) (h1 : AtOne hw lm) {a b : Rotor F32}
    (hf : (b.mulRotor a.rev).p1.l0.isFinite = true) (g0 : -(1 / 4) ≤ r (b.mulRotor a.rev).p1.l0) (g1 : r (b.mulRotor a.rev).p1.l0 < 1)
    (h : ∀ j : Fin 4, j ≠ 0 → ∃ s, (b.mulRotor a.rev).p1.get j = z s) {t : F32} (ht : t.isFinite = true) :
    (slerpRotor hw lm isa a b t).p1.AllNaN := by
  have eF : slerpRotor hw lm isa a b t =
      ((((b.mulRotor a.rev).log hw lm isa).mulAssign t).exp hw lm isa).mulRotor a := rfl
  rw [eF]
  refine Rotor.mul_nan (Branch.exp_zero_nan isa h1 fun j hj => ?_)
  generalize b.mulRotor a.rev = q at *
  have g2 := lt_one_le g1
  have hs := Real.sqrt_pos.2 (aos_dom g0 g1)
  have f2 := aos_le g0 g1
  rw [aos, div_le_iff₀ hs] at f2
  have hsn : 1 / 2 ^ 20 ≤ √(1 - r q.p1.l0 ^ 2) := by
    refine Real.le_sqrt_of_sq_le ?_
    norm_num at *; nlinarith
  obtain ⟨a1, a2⟩ := ap_acos hl hf (abs_le.2 ⟨by linarith, g1.le⟩) rfl hsn f2
  have a3 := ap_rcp1 hc a2 ⟨by norm_num, by norm_num⟩ (by norm_num) (by norm_num)
  have e0 : ((q.log hw lm isa).mulAssign t).p1.get j =
      q.p1.get j * rcp1 hw (lm.sin (lm.acos q.p1.l0)) * lm.acos q.p1.l0 * t := by
    match j with
    | 0 => exact absurd rfl hj
    | 1 => cases isa <;> rfl
    | 2 => cases isa <;> rfl
    | 3 => cases isa <;> rfl
  obtain ⟨s, hs⟩ := h j hj
  rw [e0, hs, z_mul a3.fin, z_mul a1.fin, z_mul ht]
  exact ⟨_, rfl⟩

end

/-! ### concrete cases -/

/-- A rotor `(1 - s² + 2 s e23) / (1 + s²)` with `s = 2⁻¹²`: a rotation by 0.056 degrees. -/
noncomputable def tinyB : Rotor ℝ := ⟨⟨16777215 / 16777217, 8192 / 16777217, 0, 0⟩⟩
/-- The same, each lane rounded to nearest. -/
def tinyb : Rotor F32 := ⟨⟨F32.round false (16777215 / 16777217), F32.round false (8192 / 16777217), 0, 0⟩⟩

theorem tinyb_val : tinyb.p1.l0.val = 1 - 1 / 2 ^ 23 ∧ |tinyb.p1.l1.val - 8192 / 16777217| ≤ 1 / 2 ^ 30 := by
  constructor <;> decide +kernel

theorem tinyb_close : tinyb.Close tinyB (1 / 2 ^ 25) := by
  obtain ⟨e0, e1⟩ := tinyb_val
  intro i
  match i with
  | 0 =>
    refine ⟨by decide +kernel, ?_⟩
    simp only [V4.get, r, e0, tinyB]; push_cast; rw [abs_le]; norm_num
  | 1 =>
    refine ⟨by decide +kernel, ?_⟩
    have : ((|tinyb.p1.l1.val - 8192 / 16777217| : ℚ) : ℝ) ≤ ((1 / 2 ^ 30 : ℚ) : ℝ) := Rat.cast_le.2 e1
    push_cast at this
    simp only [V4.get, r, tinyB]
    exact this.trans (by norm_num)
  | 2 => exact ⟨by decide +kernel, by simp only [V4.get, tinyb, tinyB, r_zero]; norm_num⟩
  | 3 => exact ⟨by decide +kernel, by simp only [V4.get, tinyb, tinyB, r_zero]; norm_num⟩

/-- C97 for nearly equal rotors: half-way from the identity to a rotation by 0.056 degrees. -/
theorem C97_near_example {hw : Hw F32} (hc : hw.Contract32) {lm : Libm F32} (hl : lm.Contract32) (isa : Isa) :
    (slerpRotor hw lm isa ⟨⟨1, 0, 0, 0⟩⟩ tinyb (1 / 2)).Close ⟨⟨1, 1 / 4096, 0, 0⟩⟩ 3e-5 := by
  have hB : tinyB.sqNorm = 1 := by simp only [tinyB, Rotor.sqNorm, kln]; norm_num
  have hd : dot4 (⟨1, 0, 0, 0⟩ : V4 ℝ) tinyB.p1 = 16777215 / 16777217 := by simp only [tinyB, dot4]; norm_num
  have ep : tinyb.mulRotor (Rotor.rev ⟨⟨1, 0, 0, 0⟩⟩) = tinyb := by decide +kernel
  obtain ⟨e0, e1⟩ := tinyb_val
  have hl1 : 1 / 2 ^ 12 ≤ r tinyb.p1.l1 := by
    have : (1 / 2 ^ 12 : ℚ) ≤ tinyb.p1.l1.val := by decide +kernel
    have : ((1 / 2 ^ 12 : ℚ) : ℝ) ≤ ((tinyb.p1.l1.val : ℚ) : ℝ) := Rat.cast_le.2 this
    push_cast at this; exact this
  have h := C97_slerp_near hc hl Hw.ideal_exact isa (A := ⟨⟨1, 0, 0, 0⟩⟩) (a := ⟨⟨1, 0, 0, 0⟩⟩) (δ := 1 / 2 ^ 25) (by simp [Rotor.sqNorm, kln]) hB
    (by simp only [hd]; norm_num) (by simp only [hd]; norm_num) (by norm_num)
    (fun i => ⟨(one_close i).1, (one_close i).2.trans (by norm_num)⟩) tinyb_close (t := 1 / 2) r_half.1
    (by rw [r_half.2]; norm_num [abs_of_pos])
    (by rw [ep, r, e0]; norm_num)
    (by
      rw [ep, r_half.2]
      have : 1 / 2 ^ 12 ≤ √tinyb.p1.sq3 := Real.le_sqrt_of_sq_le (by
        unfold V4.sq3
        have := pow_le_pow_left₀ (by norm_num) hl1 2
        nlinarith [sq_nonneg (r tinyb.p1.l2), sq_nonneg (r tinyb.p1.l3)])
      norm_num [abs_of_pos] at this ⊢; linarith)
  simp only [hd, r_half.2] at h
  obtain ⟨θ, hθ⟩ : ∃ θ, θ = Real.arccos (16777215 / 16777217) := ⟨_, rfl⟩
  have hcos : Real.cos θ = 16777215 / 16777217 := by rw [hθ, Real.cos_arccos (by norm_num) (by norm_num)]
  have h0 : 0 ≤ θ := by rw [hθ]; exact Real.arccos_nonneg _
  have hpi : θ ≤ Real.pi := by rw [hθ]; exact Real.arccos_le_pi _
  have hc2 : Real.cos (θ / 2) ^ 2 = 16777216 / 16777217 := by
    have := Real.cos_sq (θ / 2)
    rw [mul_div_cancel₀ θ (by norm_num : (2 : ℝ) ≠ 0), hcos] at this
    rw [this]; norm_num
  have hcp : 0 ≤ Real.cos (θ / 2) := Real.cos_nonneg_of_mem_Icc ⟨by linarith [Real.pi_pos], by linarith⟩
  have hcl : 0.9999999 ≤ Real.cos (θ / 2) := abs_le_of_sq_le_sq' (by rw [hc2]; norm_num) hcp |>.2
  have hcu : Real.cos (θ / 2) ≤ 1 := Real.cos_le_one _
  have hs : Real.sin θ = 2 * Real.sin (θ / 2) * Real.cos (θ / 2) := by
    rw [← Real.sin_two_mul]; congr 1; ring
  have hsp : Real.sin (θ / 2) ≠ 0 := by
    intro h0'
    have := Real.sin_sq_add_cos_sq (θ / 2)
    rw [h0', hc2] at this; norm_num at this
  have hk : Real.sin (θ / 2) / Real.sin θ = 1 / (2 * Real.cos (θ / 2)) := by
    rw [hs]; field_simp
  have e1 : (1 - 1 / 2 : ℝ) * θ = θ / 2 := by ring
  have e2 : (1 / 2 : ℝ) * θ = θ / 2 := by ring
  rw [← hθ, e1, e2, hk] at h
  have k1 : 1 / (2 * Real.cos (θ / 2)) ≤ 0.5000001 := by
    rw [div_le_iff₀ (by norm_num at hcl; linarith)]; norm_num at hcl ⊢; linarith
  have k2 : 0.5 ≤ 1 / (2 * Real.cos (θ / 2)) := by
    rw [le_div_iff₀ (by norm_num at hcl; linarith)]; norm_num; linarith
  generalize 1 / (2 * Real.cos (θ / 2)) = k at *
  have ev : ((Rotor.smul (⟨⟨1, 0, 0, 0⟩⟩ : Rotor ℝ) k).add (tinyB.smul k)) =
      ⟨⟨k + 16777215 / 16777217 * k, 8192 / 16777217 * k, 0, 0⟩⟩ := by
    simp only [Rotor.smul, Rotor.add, tinyB, kln, sse]
    congr 2 <;> ring
  rw [ev] at h
  have fin : ∀ {x : F32} {X Y : ℝ}, |X - Y| ≤ 1e-6 → x.isFinite = true ∧ |r x - X| ≤ 1.43e-5 + |1 / 2| * (2.4e-5 + 60 * (1 / 2 ^ 25)) + 2 * (1 / 2 ^ 25) →
      x.isFinite = true ∧ |r x - Y| ≤ 3e-5 := fun {x X Y} hXY hh => by
    refine ⟨hh.1, ?_⟩
    have := abs_sub_le (r x) X Y
    have h2 := hh.2
    rw [abs_of_pos (by norm_num : (0 : ℝ) < 1 / 2)] at h2
    norm_num at *; linarith
  intro i
  match i with
  | 0 => exact fin (by simp only [V4.get]; rw [abs_le]; norm_num at *; constructor <;> linarith) (h 0)
  | 1 => exact fin (by simp only [V4.get]; rw [abs_le]; norm_num at *; constructor <;> linarith) (h 1)
  | 2 => exact fin (by simp only [V4.get]; norm_num) (h 2)
  | 3 => exact fin (by simp only [V4.get]; norm_num) (h 3)

/-- The same with `s = 2⁻¹⁴`: a rotation by 0.014 degrees. -/
def tinierb : Rotor F32 := ⟨⟨F32.round false (268435455 / 268435457), F32.round false (32768 / 268435457), 0, 0⟩⟩

/-- C97: for a rotation by 0.014 degrees there is no interpolation. -/
theorem C97_tiny_fails {hw : Hw F32} {lm : Libm F32} (isa : Isa) (h1 : AtOne hw lm) (t : F32) :
    (slerpRotor hw lm isa ⟨⟨1, 0, 0, 0⟩⟩ tinierb t).p1.AllNaN ∧ 0 < tinierb.p1.l1.val :=
  ⟨C97_slerp_one_nan isa h1 (by decide +kernel) t, by decide +kernel⟩

end Klein
