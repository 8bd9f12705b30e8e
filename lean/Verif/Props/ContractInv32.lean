import Verif.Props.ContractNorm32

/-!
# C113: further inverses, quotients, norms and roots under contraction

The inverses of branches, planes, rotors and points, quotients by scalars, norms and roots, with the choices of
what to fuse as in `Verif/Props/ContractNorm32.lean`.
-/

set_option linter.unusedSimpArgs false
set_option linter.unusedTactic false
set_option linter.unreachableTactic false

namespace Klein

open F32

variable {ω : Compiler}

def Branch.f32 (b : Branch (Fl ω)) : Branch F32 := ⟨b.p1.f32⟩
def Plane.f32 (b : Plane (Fl ω)) : Plane F32 := ⟨b.p0.f32⟩
def Rotor.f32 (b : Rotor (Fl ω)) : Rotor F32 := ⟨b.p1.f32⟩
def Point.f32 (b : Point (Fl ω)) : Point F32 := ⟨b.p3.f32⟩

/-- C113: the inverse of a branch. -/
theorem C113_branch_invert {hw : Hw F32} (hc : hw.Contract32) {hwr : Hw ℝ} (hx : hwr.Exact) (isa isa' : Isa)
    (b : Branch (Fl ω)) (hv : b.p1.f32.Le2 30) (hn : 1 / 2 ^ 60 ≤ b.p1.f32.sq3) (i : Fin 4) (hi : i ≠ 0) :
    ((b.invert (hw.fl ω) isa).p1.f32.get i).isFinite = true ∧
      |r ((b.invert (hw.fl ω) isa).p1.f32.get i) - (b.f32.real.invert hwr isa').p1.get i| ≤ 1.4e-6 / √b.p1.f32.sq3 := by
  have hN : 0 < b.p1.f32.sq3 := lt_of_lt_of_le (by positivity) hn
  have hS := sq3_rng hv hn
  have hS0 := hS.pos
  have hs := fun j => ap_rsqrt hN hS (inv3_fl hc isa hv hn j).1 (inv3_fl hc isa hv hn j).2.1
  have hb := fun (j : Fin 4) (hj : j ≠ 0) => Ap.input (hv j (by norm_num)).1 (lane_le3 (Real.sqrt_nonneg _) (sq3_sqrt b.p1.f32) j hj) hS
  have key : ∀ j : Fin 4, j ≠ 0 → _ := fun j hj => ((hb j hj).mulR (hs j) (show _ = (1 : ℝ) by field_simp)
      (⟨by norm_num, by norm_num⟩ : In2 1 0 0) (by norm_num) (by norm_num) (by norm_num) (by norm_num)
      (show _ ≤ (6.81e-7 : ℝ) by ap_num)).mulR (hs j) (one_mul _) hS.inv
      (by norm_num) (by norm_num) (by norm_num) (by norm_num) (show _ ≤ (1.4e-6 : ℝ) by ap_num)
  have fin : ∀ {x : F32} {E E' : ℝ} {m' n : ℕ}, Ap x E (1 / √b.p1.f32.sq3) 1.4e-6 m' n → E = E' →
      x.isFinite = true ∧ |r x - E'| ≤ 1.4e-6 / √b.p1.f32.sq3 := by
    rintro x E E' m' n hx rfl
    refine ⟨hx.fin, hx.err.trans (le_of_eq ?_)⟩
    ring
  have e3 : dot3 b.f32.real.p1 b.f32.real.p1 = b.p1.f32.sq3 := by
    simp only [dot3, Branch.real, Branch.f32, V4.f32, V4.real, V4.sq3]; ring
  rw [Branch.invert_eq, e3, exact_rsqrt1 hx hN]
  fin_cases i
  · exact absurd rfl hi
  · exact fin (key 1 (by decide)).neg (by simp [Branch.real, Branch.f32, V4.f32, V4.real, V4.get, kln, sse]; ring)
  · exact fin (key 2 (by decide)).neg (by simp [Branch.real, Branch.f32, V4.f32, V4.real, V4.get, kln, sse]; ring)
  · exact fin (key 3 (by decide)).neg (by simp [Branch.real, Branch.f32, V4.f32, V4.real, V4.get, kln, sse]; ring)

/-- C113: the inverse of a plane, its normal. -/
theorem C113_plane_invert {hw : Hw F32} (hc : hw.Contract32) {hwr : Hw ℝ} (hx : hwr.Exact) (isa isa' : Isa)
    (p : Plane (Fl ω)) (hv : p.p0.f32.Le2 30) (hn : 1 / 2 ^ 60 ≤ p.p0.f32.sq3) (i : Fin 4) (hi : i ≠ 0) :
    ((p.invert (hw.fl ω) isa).p0.f32.get i).isFinite = true ∧
      |r ((p.invert (hw.fl ω) isa).p0.f32.get i) - (p.f32.real.invert hwr isa').p0.get i| ≤ 1.4e-6 / √p.p0.f32.sq3 := by
  have hN : 0 < p.p0.f32.sq3 := lt_of_lt_of_le (by positivity) hn
  have hS := sq3_rng hv hn
  have hS0 := hS.pos
  have hs := fun j => ap_rsqrt hN hS (inv3_fl hc isa hv hn j).1 (inv3_fl hc isa hv hn j).2.1
  have hb := fun (j : Fin 4) (hj : j ≠ 0) => Ap.input (hv j (by norm_num)).1 (lane_le3 (Real.sqrt_nonneg _) (sq3_sqrt p.p0.f32) j hj) hS
  have key : ∀ j : Fin 4, j ≠ 0 → _ := fun j hj => (hs j).mulR ((hs j).mulR (hb j hj) (show _ = (1 : ℝ) by field_simp)
      (⟨by norm_num, by norm_num⟩ : In2 1 0 0) (by norm_num) (by norm_num) (by norm_num) (by norm_num)
      (show _ ≤ (6.81e-7 : ℝ) by ap_num)) (mul_one _) hS.inv
      (by norm_num) (by norm_num) (by norm_num) (by norm_num) (show _ ≤ (1.4e-6 : ℝ) by ap_num)
  have fin : ∀ {x : F32} {E E' : ℝ} {m' n : ℕ}, Ap x E (1 / √p.p0.f32.sq3) 1.4e-6 m' n → E = E' →
      x.isFinite = true ∧ |r x - E'| ≤ 1.4e-6 / √p.p0.f32.sq3 := by
    rintro x E E' m' n hx rfl
    refine ⟨hx.fin, hx.err.trans (le_of_eq ?_)⟩
    ring
  have e3 : dot3 p.f32.real.p0 p.f32.real.p0 = p.p0.f32.sq3 := by
    simp only [dot3, Plane.real, Plane.f32, V4.f32, V4.real, V4.sq3]; ring
  rw [Plane.invert_eq, e3, exact_rsqrt1 hx hN]
  fin_cases i
  · exact absurd rfl hi
  · exact fin (key 1 (by decide)) (by simp [Plane.real, Plane.f32, V4.f32, V4.real, V4.get, kln, sse]; ring)
  · exact fin (key 2 (by decide)) (by simp [Plane.real, Plane.f32, V4.f32, V4.real, V4.get, kln, sse]; ring)
  · exact fin (key 3 (by decide)) (by simp [Plane.real, Plane.f32, V4.f32, V4.real, V4.get, kln, sse]; ring)

/-- C113: the inverse of a plane, its distance lane. -/
theorem C113_plane_invert_d {hw : Hw F32} (hc : hw.Contract32) {hwr : Hw ℝ} (hx : hwr.Exact) (isa isa' : Isa)
    (p : Plane (Fl ω)) {C : ℝ} (hv : p.p0.f32.Le2 30) (hn : 1 / 2 ^ 60 ≤ p.p0.f32.sq3) (hC : In2 C 30 32) (hd : |r p.p0.f32.l0| ≤ C) :
    ((p.invert (hw.fl ω) isa).p0.f32.l0).isFinite = true ∧
      |r (p.invert (hw.fl ω) isa).p0.f32.l0 - (p.f32.real.invert hwr isa').p0.l0| ≤ 1.4e-6 * (C / p.p0.f32.sq3) := by
  have hN : 0 < p.p0.f32.sq3 := lt_of_lt_of_le (by positivity) hn
  have hS := sq3_rng hv hn
  have hS0 := hS.pos
  have hs := ap_rsqrt hN hS (inv3_fl hc isa hv hn 0).1 (inv3_fl hc isa hv hn 0).2.1
  have hb := Ap.input (hv 0 (by norm_num)).1 hd hC
  have key := hs.mulR (hs.mulR hb rfl (hS.inv.mul hC) (by norm_num) (by norm_num) (by norm_num) (by norm_num)
      (show _ ≤ (6.81e-7 : ℝ) by ap_num)) rfl (hS.inv.mul (hS.inv.mul hC))
      (by norm_num) (by norm_num) (by norm_num) (by norm_num) (show _ ≤ (1.4e-6 : ℝ) by ap_num)
  have e3 : dot3 p.f32.real.p0 p.f32.real.p0 = p.p0.f32.sq3 := by
    simp only [dot3, Plane.real, Plane.f32, V4.f32, V4.real, V4.sq3]; ring
  rw [Plane.invert_eq, e3, exact_rsqrt1 hx hN]
  refine ⟨key.fin, ?_⟩
  have e : (p.f32.real.smul (1 / √p.p0.f32.sq3 * (1 / √p.p0.f32.sq3))).p0.l0 =
      1 / √p.p0.f32.sq3 * (1 / √p.p0.f32.sq3 * r (p.p0.f32.get 0)) := by
    simp [Plane.real, Plane.f32, V4.f32, V4.real, V4.get, kln, sse]; ring
  rw [e]
  refine key.err.trans (le_of_eq ?_)
  rw [← mul_assoc (1 / √p.p0.f32.sq3), inv_sqrt_sq hN]; ring

/-- C113: the inverse of a rotor as the code computes it. -/
theorem C113_rotor_invert {hw : Hw F32} (hc : hw.Contract32) {hwr : Hw ℝ} (hx : hwr.Exact) (isa isa' : Isa)
    (b : Rotor (Fl ω)) {C : ℝ} (hv : b.p1.f32.Le2 30) (hn : 1 / 2 ^ 60 ≤ b.p1.f32.sq3) (hC : In2 C 30 32)
    (hl : ∀ i, |r (b.p1.f32.get i)| ≤ C) (i : Fin 4) :
    ((b.invert (hw.fl ω) isa).p1.f32.get i).isFinite = true ∧
      |r ((b.invert (hw.fl ω) isa).p1.f32.get i) - (b.f32.real.invert hwr isa').p1.get i| ≤ 1.4e-6 * (C / b.p1.f32.sq3) := by
  have hN : 0 < b.p1.f32.sq3 := lt_of_lt_of_le (by positivity) hn
  have hS := sq3_rng hv hn
  have hs := fun j => ap_rsqrt hN hS (inv3_fl hc isa hv hn j).1 (inv3_fl hc isa hv hn j).2.1
  have key := fun j : Fin 4 => ((Ap.input (hv j (by norm_num)).1 (hl j) hC).mulR (hs j) rfl (hC.mul hS.inv)
      (by norm_num) (by norm_num) (by norm_num) (by norm_num)
      (show _ ≤ (6.81e-7 : ℝ) by ap_num)).mulR (hs j) rfl ((hC.mul hS.inv).mul hS.inv)
      (by norm_num) (by norm_num) (by norm_num) (by norm_num) (show _ ≤ (1.4e-6 : ℝ) by ap_num)
  have fin : ∀ {x : F32} {E E' : ℝ} {m' n : ℕ}, Ap x E (C * (1 / √b.p1.f32.sq3) * (1 / √b.p1.f32.sq3)) 1.4e-6 m' n → E = E' →
      x.isFinite = true ∧ |r x - E'| ≤ 1.4e-6 * (C / b.p1.f32.sq3) := by
    rintro x E E' m' n hx rfl
    refine ⟨hx.fin, hx.err.trans (le_of_eq ?_)⟩
    rw [mul_assoc C, inv_sqrt_sq hN]; ring
  have e3 : dot3 b.f32.real.p1 b.f32.real.p1 = b.p1.f32.sq3 := by
    simp only [dot3, Rotor.real, Rotor.f32, V4.f32, V4.real, V4.sq3]; ring
  rw [Rotor.invert_eq, e3, exact_rsqrt1 hx hN]
  fin_cases i
  · exact fin (key 0) (by simp [Rotor.real, Rotor.f32, V4.f32, V4.real, V4.get, kln, sse]; ring)
  · exact fin (key 1).neg (by simp [Rotor.real, Rotor.f32, V4.f32, V4.real, V4.get, kln, sse]; ring)
  · exact fin (key 2).neg (by simp [Rotor.real, Rotor.f32, V4.f32, V4.real, V4.get, kln, sse]; ring)
  · exact fin (key 3).neg (by simp [Rotor.real, Rotor.f32, V4.f32, V4.real, V4.get, kln, sse]; ring)

/-- The reciprocal of a lane. -/
theorem ap_rcp_in_fl {hw : Hw F32} (hc : hw.Contract32) {k : Fl ω} (hf : k.val.isFinite = true) (hk : In2 |r k.val| 30 32) :
    Ap (rcp1 (hw.fl ω) k).val (1 / r k.val) (1 / |r k.val|) 3.2e-7 32 30 := by
  have hk0 := hk.pos
  have hk1 : r k.val ≠ 0 := abs_pos.1 hk0
  have hlo := hk.lo; have hhi := hk.hi
  obtain ⟨h1, h2⟩ := rcp1_fl (ω := ω) hc hf (le_trans (by norm_num) hlo) (hhi.trans (by norm_num))
  refine ⟨h1, by rw [abs_div, abs_one], ?_, hk.inv⟩
  have e : r (rcp1 (hw.fl ω) k).val - 1 / r k.val = (r (rcp1 (hw.fl ω) k).val * r k.val - 1) * (1 / r k.val) := by field_simp
  rw [e, abs_mul, abs_div, abs_one]
  exact mul_le_mul_of_nonneg_right h2 (by positivity)

/-- C113: the inverse of a point as the code computes it. -/
theorem C113_point_invert {hw : Hw F32} (hc : hw.Contract32) {hwr : Hw ℝ} (hx : hwr.Exact)
    (b : Point (Fl ω)) {C : ℝ} (hv : b.p3.f32.Finite) (hn : In2 |r b.p3.f32.l0| 30 32) (hC : In2 C 30 32)
    (hl : ∀ i, |r (b.p3.f32.get i)| ≤ C) (i : Fin 4) :
    ((b.invert (hw.fl ω)).p3.f32.get i).isFinite = true ∧
      |r ((b.invert (hw.fl ω)).p3.f32.get i) - (b.f32.real.invert hwr).p3.get i| ≤ 8e-7 * (C / r b.p3.f32.l0 ^ 2) := by
  have hk0 : r b.p3.f32.l0 ≠ 0 := abs_pos.1 hn.pos
  have hs := ap_rcp_in_fl (k := b.p3.l0) hc (hv 0) hn
  have key := fun j : Fin 4 => hs.mulR (hs.mulR (Ap.input (hv j) (hl j) hC) rfl (hn.inv.mul hC)
      (by norm_num) (by norm_num) (by norm_num) (by norm_num)
      (show _ ≤ (3.8e-7 : ℝ) by ap_num)) rfl (hn.inv.mul (hn.inv.mul hC))
      (by norm_num) (by norm_num) (by norm_num) (by norm_num) (show _ ≤ (8e-7 : ℝ) by ap_num)
  have fin : ∀ {x : F32} {E E' : ℝ} {m' n : ℕ}, Ap x E (1 / |r b.p3.f32.l0| * (1 / |r b.p3.f32.l0| * C)) 8e-7 m' n → E = E' →
      x.isFinite = true ∧ |r x - E'| ≤ 8e-7 * (C / r b.p3.f32.l0 ^ 2) := by
    rintro x E E' m' n hx rfl
    refine ⟨hx.fin, hx.err.trans (le_of_eq ?_)⟩
    rw [← sq_abs (r b.p3.f32.l0)]; have := hn.pos; field_simp
  have e3 : rcp1 hwr b.f32.real.w = 1 / r b.p3.f32.l0 := exact_rcp1 hx hk0
  rw [Point.invert_eq, e3]
  fin_cases i
  · exact fin (key 0) (by simp [Point.real, Point.f32, V4.f32, V4.real, V4.get, kln, sse]; ring)
  · exact fin (key 1) (by simp [Point.real, Point.f32, V4.f32, V4.real, V4.get, kln, sse]; ring)
  · exact fin (key 2) (by simp [Point.real, Point.f32, V4.f32, V4.real, V4.get, kln, sse]; ring)
  · exact fin (key 3) (by simp [Point.real, Point.f32, V4.f32, V4.real, V4.get, kln, sse]; ring)

/-! ### lane 0 of a normalised plane -/

/-- C113: the SSE4.1 build keeps lane 0. -/
theorem C113_plane_normalize_d_sse41 {hw : Hw F32} (p : Plane (Fl ω)) (hf : p.p0.l0.val.isFinite = true) :
    r (p.normalize (hw.fl ω) .sse41).p0.l0.val = r p.p0.l0.val := by
  have e : (p.normalize (hw.fl ω) .sse41).p0.l0.val = 1 * p.p0.l0.val := rfl
  rw [e, mul_round (by decide +kernel) hf, one_val, one_mul]
  unfold r
  rw [round_val hf]

/-- C113: the SSE3 build multiplies it by one plus the inverse norm; the addition may take the last multiplication of
the Newton step into it. -/
theorem C113_plane_normalize_d_sse3 {hw : Hw F32} (hc : hw.Contract32) (p : Plane (Fl ω)) {C : ℝ} (hv : p.p0.f32.Le2 30)
    (hn : 1 / 2 ^ 60 ≤ p.p0.f32.sq3) (hC : In2 C 30 32) (hd : |r p.p0.l0.val| ≤ C) :
    ((p.normalize (hw.fl ω) .sse3).p0.l0.val).isFinite = true ∧
      |r (p.normalize (hw.fl ω) .sse3).p0.l0.val - (1 / √p.p0.f32.sq3 + 1) * r p.p0.l0.val| ≤
        7.5e-7 * ((1 / √p.p0.f32.sq3 + 1) * C) := by
  have hN : 0 < p.p0.f32.sq3 := lt_of_lt_of_le (by positivity) hn
  have hS := sq3_rng hv hn
  have hS0 := hS.pos
  obtain ⟨a1, a2, a3⟩ := inv3_fl hc .sse3 hv hn 0
  have hs : ApF ((rsqrt_nr1 (hw.fl ω) (hi_dp_bc .sse3 p.p0 p.p0)).get 0) (1 / √p.p0.f32.sq3) (1 / √p.p0.f32.sq3) 6.2e-7 32 30 := by
    refine ⟨ap_rsqrt hN hS a1 a2, fun x y s e => ?_⟩
    obtain ⟨b1, b2, b3⟩ := a3 x y s e
    refine ⟨b1, b2, ?_⟩
    have e' : r (sg s x) * r y - 1 / √p.p0.f32.sq3 = (r (sg s x) * r y * √p.p0.f32.sq3 - 1) * (1 / √p.p0.f32.sq3) := by field_simp
    rw [e', abs_mul, abs_of_pos (show 0 < 1 / √p.p0.f32.sq3 by positivity)]
    exact mul_le_mul_of_nonneg_right b3 (by positivity)
  have h1 : ApF (1 : Fl ω) (r 1) 1 0 32 0 := .of_none
    (show Ap (1 : F32) (r 1) 1 0 32 0 from Ap.input (by decide +kernel) (by rw [r_one, abs_one]) ⟨by norm_num, by norm_num⟩) rfl
  have key := (hs.add h1 (K := 6.2e-7) (k'' := 6.81e-7) (by norm_num) (by norm_num) (by norm_num) (by norm_num) (by norm_num) (by norm_num)
    (by norm_num) (by ap_num)).val.mul (Ap.input (hv 0 (by norm_num)).1 hd hC) (by norm_num) (by norm_num) (by norm_num)
    (by norm_num) (show _ ≤ (7.5e-7 : ℝ) by ap_num)
  have h := key.err
  rw [r_one] at h
  exact ⟨key.fin, h⟩

/-! ### division by a scalar -/

theorem V4.sdiv_fl {hw : Hw F32} (hc : hw.Contract32) {v : V4 (Fl ω)} {k : Fl ω} {C : ℝ} (hv : v.f32.Finite)
    (hC : In2 C 30 32) (hl : ∀ i, |r (v.f32.get i)| ≤ C) (hf : k.val.isFinite = true) (hk : In2 |r k.val| 30 32) (i : Fin 4) :
    ((mul_ps v (rcp_nr1 (hw.fl ω) (set1_ps k))).f32.get i).isFinite = true ∧
      |r ((mul_ps v (rcp_nr1 (hw.fl ω) (set1_ps k))).f32.get i) - r (v.f32.get i) / r k.val| ≤ 3.8e-7 * (C / |r k.val|) := by
  have e : (mul_ps v (rcp_nr1 (hw.fl ω) (set1_ps k))).f32.get i = v.f32.get i * (rcp1 (hw.fl ω) k).val := by
    rw [rcp_nr1_map]; fin_cases i <;> rfl
  have key := (Ap.input (hv i) (hl i) hC).mulR (ap_rcp_in_fl hc hf hk) rfl (hC.mul hk.inv)
      (by norm_num) (by norm_num) (by norm_num) (by norm_num) (show _ ≤ (3.8e-7 : ℝ) by ap_num)
  rw [e]
  refine ⟨key.fin, ?_⟩
  have h := key.err
  rw [mul_one_div, mul_one_div] at h
  exact h

/-- C113: plane divided by a scalar. -/
theorem C113_plane_sdiv {hw : Hw F32} (hc : hw.Contract32) (x : Plane (Fl ω)) {k : Fl ω} {C : ℝ}
    (hp0 : x.p0.f32.Finite) (lp0 : ∀ i, |r (x.p0.f32.get i)| ≤ C)
    (hC : In2 C 30 32) (hf : k.val.isFinite = true) (hk : In2 |r k.val| 30 32) (i : Fin 4) :
    (((x.sdiv (hw.fl ω) k).p0.f32.get i).isFinite = true ∧
      |r ((x.sdiv (hw.fl ω) k).p0.f32.get i) - r (x.p0.f32.get i) / r k.val| ≤ 3.8e-7 * (C / |r k.val|)) :=
  V4.sdiv_fl hc hp0 hC lp0 hf hk i

/-- C113: point divided by a scalar. -/
theorem C113_point_sdiv {hw : Hw F32} (hc : hw.Contract32) (x : Point (Fl ω)) {k : Fl ω} {C : ℝ}
    (hp3 : x.p3.f32.Finite) (lp3 : ∀ i, |r (x.p3.f32.get i)| ≤ C)
    (hC : In2 C 30 32) (hf : k.val.isFinite = true) (hk : In2 |r k.val| 30 32) (i : Fin 4) :
    (((x.sdiv (hw.fl ω) k).p3.f32.get i).isFinite = true ∧
      |r ((x.sdiv (hw.fl ω) k).p3.f32.get i) - r (x.p3.f32.get i) / r k.val| ≤ 3.8e-7 * (C / |r k.val|)) :=
  V4.sdiv_fl hc hp3 hC lp3 hf hk i

/-- C113: direction divided by a scalar. -/
theorem C113_direction_sdiv {hw : Hw F32} (hc : hw.Contract32) (x : Direction (Fl ω)) {k : Fl ω} {C : ℝ}
    (hp3 : x.p3.f32.Finite) (lp3 : ∀ i, |r (x.p3.f32.get i)| ≤ C)
    (hC : In2 C 30 32) (hf : k.val.isFinite = true) (hk : In2 |r k.val| 30 32) (i : Fin 4) :
    (((x.sdiv (hw.fl ω) k).p3.f32.get i).isFinite = true ∧
      |r ((x.sdiv (hw.fl ω) k).p3.f32.get i) - r (x.p3.f32.get i) / r k.val| ≤ 3.8e-7 * (C / |r k.val|)) :=
  V4.sdiv_fl hc hp3 hC lp3 hf hk i

/-- C113: ideal line divided by a scalar. -/
theorem C113_ideal_line_sdiv {hw : Hw F32} (hc : hw.Contract32) (x : IdealLine (Fl ω)) {k : Fl ω} {C : ℝ}
    (hp2 : x.p2.f32.Finite) (lp2 : ∀ i, |r (x.p2.f32.get i)| ≤ C)
    (hC : In2 C 30 32) (hf : k.val.isFinite = true) (hk : In2 |r k.val| 30 32) (i : Fin 4) :
    (((x.sdiv (hw.fl ω) k).p2.f32.get i).isFinite = true ∧
      |r ((x.sdiv (hw.fl ω) k).p2.f32.get i) - r (x.p2.f32.get i) / r k.val| ≤ 3.8e-7 * (C / |r k.val|)) :=
  V4.sdiv_fl hc hp2 hC lp2 hf hk i

/-- C113: branch divided by a scalar. -/
theorem C113_branch_sdiv {hw : Hw F32} (hc : hw.Contract32) (x : Branch (Fl ω)) {k : Fl ω} {C : ℝ}
    (hp1 : x.p1.f32.Finite) (lp1 : ∀ i, |r (x.p1.f32.get i)| ≤ C)
    (hC : In2 C 30 32) (hf : k.val.isFinite = true) (hk : In2 |r k.val| 30 32) (i : Fin 4) :
    (((x.sdiv (hw.fl ω) k).p1.f32.get i).isFinite = true ∧
      |r ((x.sdiv (hw.fl ω) k).p1.f32.get i) - r (x.p1.f32.get i) / r k.val| ≤ 3.8e-7 * (C / |r k.val|)) :=
  V4.sdiv_fl hc hp1 hC lp1 hf hk i

/-- C113: line divided by a scalar. -/
theorem C113_line_sdiv {hw : Hw F32} (hc : hw.Contract32) (x : Line (Fl ω)) {k : Fl ω} {C : ℝ}
    (hp1 : x.p1.f32.Finite) (lp1 : ∀ i, |r (x.p1.f32.get i)| ≤ C) (hp2 : x.p2.f32.Finite) (lp2 : ∀ i, |r (x.p2.f32.get i)| ≤ C)
    (hC : In2 C 30 32) (hf : k.val.isFinite = true) (hk : In2 |r k.val| 30 32) (i : Fin 4) :
    (((x.sdiv (hw.fl ω) k).p1.f32.get i).isFinite = true ∧
      |r ((x.sdiv (hw.fl ω) k).p1.f32.get i) - r (x.p1.f32.get i) / r k.val| ≤ 3.8e-7 * (C / |r k.val|)) ∧
      (((x.sdiv (hw.fl ω) k).p2.f32.get i).isFinite = true ∧
      |r ((x.sdiv (hw.fl ω) k).p2.f32.get i) - r (x.p2.f32.get i) / r k.val| ≤ 3.8e-7 * (C / |r k.val|)) :=
  ⟨V4.sdiv_fl hc hp1 hC lp1 hf hk i, V4.sdiv_fl hc hp2 hC lp2 hf hk i⟩

/-- C113: rotor divided by a scalar. -/
theorem C113_rotor_sdiv {hw : Hw F32} (hc : hw.Contract32) (x : Rotor (Fl ω)) {k : Fl ω} {C : ℝ}
    (hp1 : x.p1.f32.Finite) (lp1 : ∀ i, |r (x.p1.f32.get i)| ≤ C)
    (hC : In2 C 30 32) (hf : k.val.isFinite = true) (hk : In2 |r k.val| 30 32) (i : Fin 4) :
    (((x.sdiv (hw.fl ω) k).p1.f32.get i).isFinite = true ∧
      |r ((x.sdiv (hw.fl ω) k).p1.f32.get i) - r (x.p1.f32.get i) / r k.val| ≤ 3.8e-7 * (C / |r k.val|)) :=
  V4.sdiv_fl hc hp1 hC lp1 hf hk i

/-- C113: translator divided by a scalar. -/
theorem C113_translator_sdiv {hw : Hw F32} (hc : hw.Contract32) (x : Translator (Fl ω)) {k : Fl ω} {C : ℝ}
    (hp2 : x.p2.f32.Finite) (lp2 : ∀ i, |r (x.p2.f32.get i)| ≤ C)
    (hC : In2 C 30 32) (hf : k.val.isFinite = true) (hk : In2 |r k.val| 30 32) (i : Fin 4) :
    (((x.sdiv (hw.fl ω) k).p2.f32.get i).isFinite = true ∧
      |r ((x.sdiv (hw.fl ω) k).p2.f32.get i) - r (x.p2.f32.get i) / r k.val| ≤ 3.8e-7 * (C / |r k.val|)) :=
  V4.sdiv_fl hc hp2 hC lp2 hf hk i

/-- C113: motor divided by a scalar. -/
theorem C113_motor_sdiv {hw : Hw F32} (hc : hw.Contract32) (x : Motor (Fl ω)) {k : Fl ω} {C : ℝ}
    (hp1 : x.p1.f32.Finite) (lp1 : ∀ i, |r (x.p1.f32.get i)| ≤ C) (hp2 : x.p2.f32.Finite) (lp2 : ∀ i, |r (x.p2.f32.get i)| ≤ C)
    (hC : In2 C 30 32) (hf : k.val.isFinite = true) (hk : In2 |r k.val| 30 32) (i : Fin 4) :
    (((x.sdiv (hw.fl ω) k).p1.f32.get i).isFinite = true ∧
      |r ((x.sdiv (hw.fl ω) k).p1.f32.get i) - r (x.p1.f32.get i) / r k.val| ≤ 3.8e-7 * (C / |r k.val|)) ∧
      (((x.sdiv (hw.fl ω) k).p2.f32.get i).isFinite = true ∧
      |r ((x.sdiv (hw.fl ω) k).p2.f32.get i) - r (x.p2.f32.get i) / r k.val| ≤ 3.8e-7 * (C / |r k.val|)) :=
  ⟨V4.sdiv_fl hc hp1 hC lp1 hf hk i, V4.sdiv_fl hc hp2 hC lp2 hf hk i⟩

/-! ### norms -/

/-- `std::sqrt`: correctly rounded, and never part of a fused operation. -/
def Fl.sqrt (A : Fl ω) : Fl ω := ⟨F32.sqrt A.val, none, .un 3 A.src⟩

theorem hi_dp_l0_fl (isa : Isa) (v : V4 (Fl ω)) : (hi_dp isa v v).l0 = (hi_dp_bc isa v v).get 0 := by
  cases isa <;> rfl

/-- C113: the squared norms of lines, branches and ideal lines. -/
theorem C113_line_squared_norm (isa : Isa) (x : Line (Fl ω)) (hv : x.p1.f32.Le2 30) (hn : 1 / 2 ^ 60 ≤ x.p1.f32.sq3) :
    (x.squared_norm isa).val.isFinite = true ∧ |r (x.squared_norm isa).val - x.p1.f32.sq3| ≤ 3e-7 * x.p1.f32.sq3 := by
  have := sq3_fl isa hv hn 0
  rwa [← hi_dp_l0_fl] at this

theorem C113_branch_squared_norm (isa : Isa) (x : Branch (Fl ω)) (hv : x.p1.f32.Le2 30) (hn : 1 / 2 ^ 60 ≤ x.p1.f32.sq3) :
    (x.squared_norm isa).val.isFinite = true ∧ |r (x.squared_norm isa).val - x.p1.f32.sq3| ≤ 3e-7 * x.p1.f32.sq3 :=
  C113_line_squared_norm isa ⟨x.p1, x.p1⟩ hv hn

theorem C113_ideal_squared_norm (isa : Isa) (x : IdealLine (Fl ω)) (hv : x.p2.f32.Le2 30) (hn : 1 / 2 ^ 60 ≤ x.p2.f32.sq3) :
    (x.squared_ideal_norm isa).val.isFinite = true ∧
      |r (x.squared_ideal_norm isa).val - x.p2.f32.sq3| ≤ 3e-7 * x.p2.f32.sq3 :=
  C113_line_squared_norm isa ⟨x.p2, x.p2⟩ hv hn

/-- C113: the norms of lines, branches and ideal lines, which call `std::sqrt`. -/
theorem C113_line_norm (isa : Isa) (x : Line (Fl ω)) (hv : x.p1.f32.Le2 30) (hn : 1 / 2 ^ 60 ≤ x.p1.f32.sq3) :
    (x.norm isa Fl.sqrt).val.isFinite = true ∧ |r (x.norm isa Fl.sqrt).val - √x.p1.f32.sq3| ≤ 2.3e-7 * √x.p1.f32.sq3 := by
  obtain ⟨h1, h2⟩ := C113_line_squared_norm isa x hv hn
  have hN : 0 < x.p1.f32.sq3 := lt_of_lt_of_le (by positivity) hn
  obtain ⟨h3, h4⟩ := sqrt_near hN h2
  obtain ⟨h5, h6⟩ := F32.sqrt_err h1 h3
  refine ⟨h5, ?_⟩
  have h7 := abs_add_le (r (F32.sqrt (x.squared_norm isa).val) - √(r (x.squared_norm isa).val)) (√(r (x.squared_norm isa).val) - √x.p1.f32.sq3)
  rw [sub_add_sub_cancel] at h7
  have h8 : u + 1 / 2 ^ 100 ≤ 6e-8 := by unfold u; norm_num
  have hs := Real.sqrt_nonneg x.p1.f32.sq3
  have h9 : √(r (x.squared_norm isa).val) ≤ 1.1 * √x.p1.f32.sq3 := by
    have := (abs_le.1 h4).2
    norm_num at this ⊢; linarith
  have h10 : (u + 1 / 2 ^ 100) * √(r (x.squared_norm isa).val) ≤ 6e-8 * (1.1 * √x.p1.f32.sq3) :=
    mul_le_mul h8 h9 (Real.sqrt_nonneg _) (by norm_num)
  refine h7.trans ((add_le_add (h6.trans h10) h4).trans ?_)
  norm_num; linarith

theorem C113_branch_norm (isa : Isa) (x : Branch (Fl ω)) (hv : x.p1.f32.Le2 30) (hn : 1 / 2 ^ 60 ≤ x.p1.f32.sq3) :
    (x.norm isa Fl.sqrt).val.isFinite = true ∧ |r (x.norm isa Fl.sqrt).val - √x.p1.f32.sq3| ≤ 2.3e-7 * √x.p1.f32.sq3 :=
  C113_line_norm isa ⟨x.p1, x.p1⟩ hv hn

theorem C113_ideal_norm (isa : Isa) (x : IdealLine (Fl ω)) (hv : x.p2.f32.Le2 30) (hn : 1 / 2 ^ 60 ≤ x.p2.f32.sq3) :
    (x.ideal_norm isa Fl.sqrt).val.isFinite = true ∧
      |r (x.ideal_norm isa Fl.sqrt).val - √x.p2.f32.sq3| ≤ 2.3e-7 * √x.p2.f32.sq3 :=
  C113_line_norm isa ⟨x.p2, x.p2⟩ hv hn

/-- C113: the norm of a plane, which multiplies by the refined estimate of the inverse root. -/
theorem C113_plane_norm {hw : Hw F32} (hc : hw.Contract32) (isa : Isa) (x : Plane (Fl ω)) (hv : x.p0.f32.Le2 30)
    (hn : 1 / 2 ^ 60 ≤ x.p0.f32.sq3) :
    (x.norm (hw.fl ω) isa).val.isFinite = true ∧ |r (x.norm (hw.fl ω) isa).val - √x.p0.f32.sq3| ≤ 1e-6 * √x.p0.f32.sq3 := by
  have hN : 0 < x.p0.f32.sq3 := lt_of_lt_of_le (by positivity) hn
  have hS := sq3_rng hv hn
  have hs := ap_rsqrt hN hS (inv3_fl hc isa hv hn 0).1 (inv3_fl hc isa hv hn 0).2.1
  obtain ⟨h1, h2⟩ := sq3_fl isa hv hn 0
  have hD : Ap ((hi_dp_bc isa x.p0 x.p0).get 0).val (√x.p0.f32.sq3 * √x.p0.f32.sq3) (√x.p0.f32.sq3 * √x.p0.f32.sq3) 3e-7 60 64 := by
    refine ⟨h1, (abs_of_pos (hS.mul hS).pos).le, ?_, hS.mul hS⟩
    rw [Real.mul_self_sqrt hN.le]; exact h2
  have h0 := hS.pos
  have key := hD.mulR hs (show _ = √x.p0.f32.sq3 by field_simp) hS
      (by norm_num) (by norm_num) (by norm_num) (by norm_num) (show _ ≤ (1e-6 : ℝ) by ap_num)
  have e : (x.norm (hw.fl ω) isa).val = ((hi_dp_bc isa x.p0 x.p0).get 0).val * ((rsqrt_nr1 (hw.fl ω) (hi_dp_bc isa x.p0 x.p0)).get 0).val := by
    have e0 := hi_dp_l0_fl isa x.p0
    rw [Plane.norm]
    show ((hi_dp isa x.p0 x.p0).l0 * rsqrt1 (hw.fl ω) (hi_dp isa x.p0 x.p0).l0).val =
      ((hi_dp_bc isa x.p0 x.p0).get 0 * rsqrt1 (hw.fl ω) ((hi_dp_bc isa x.p0 x.p0).get 0)).val
    rw [e0]
  rw [e]
  refine ⟨key.fin, ?_⟩
  have h := key.err
  rwa [show √x.p0.f32.sq3 * √x.p0.f32.sq3 * (1 / √x.p0.f32.sq3) = √x.p0.f32.sq3 by field_simp] at h

/-! ### roots -/

private theorem cs4 {b0 b1 b2 b3 c0 c1 c2 c3 S C : ℝ} (hS : 0 ≤ S) (hC : 0 ≤ C)
    (hb : b0 ^ 2 + b1 ^ 2 + b2 ^ 2 + b3 ^ 2 ≤ S ^ 2) (hc : c0 ^ 2 + c1 ^ 2 + c2 ^ 2 + c3 ^ 2 ≤ C ^ 2) :
    b0 * c0 + b1 * c1 + b2 * c2 + b3 * c3 ≤ S * C := by
  refine abs_le_of_sq_le_sq' ?_ (mul_nonneg hS hC) |>.2
  have h1 : (b0 * c0 + b1 * c1 + b2 * c2 + b3 * c3) ^ 2 ≤
      (b0 ^ 2 + b1 ^ 2 + b2 ^ 2 + b3 ^ 2) * (c0 ^ 2 + c1 ^ 2 + c2 ^ 2 + c3 ^ 2) := by
    nlinarith [sq_nonneg (b0 * c1 - b1 * c0), sq_nonneg (b0 * c2 - b2 * c0), sq_nonneg (b0 * c3 - b3 * c0),
      sq_nonneg (b1 * c2 - b2 * c1), sq_nonneg (b1 * c3 - b3 * c1), sq_nonneg (b2 * c3 - b3 * c2)]
  rw [mul_pow]
  exact h1.trans (mul_le_mul hb hc (by positivity) (by positivity))

private theorem sqrt_pert {A V e : ℝ} (he : |e| ≤ u) (hV : 0 ≤ V) :
    (1 - u) * √(A ^ 2 + V) ≤ √((A * (1 + e)) ^ 2 + V) ∧ √((A * (1 + e)) ^ 2 + V) ≤ (1 + u) * √(A ^ 2 + V) := by
  have hu := u_le
  have hu0 := u_pos
  have hA := sq_nonneg A
  have he' := abs_le.1 he
  have g1 : (1 - u) ^ 2 ≤ (1 + e) ^ 2 := by
    have : 0 ≤ 1 - u := by norm_num at hu ⊢; linarith
    exact pow_le_pow_left₀ this (by linarith) 2
  have g2 : (1 + e) ^ 2 ≤ (1 + u) ^ 2 := by
    have : 0 ≤ 1 + e := by norm_num at hu ⊢; linarith
    exact pow_le_pow_left₀ this (by linarith) 2
  have g3 : (1 - u) ^ 2 ≤ 1 := by nlinarith
  have g4 : 1 ≤ (1 + u) ^ 2 := by nlinarith
  have s1 : √((1 - u) ^ 2 * (A ^ 2 + V)) = (1 - u) * √(A ^ 2 + V) := by
    rw [Real.sqrt_mul (sq_nonneg _), Real.sqrt_sq (by norm_num at hu ⊢; linarith)]
  have s2 : √((1 + u) ^ 2 * (A ^ 2 + V)) = (1 + u) * √(A ^ 2 + V) := by
    rw [Real.sqrt_mul (sq_nonneg _), Real.sqrt_sq (by linarith)]
  rw [← s1, ← s2, mul_pow]
  constructor <;> apply Real.sqrt_le_sqrt <;> nlinarith

/-- One more than a lane that is not a product. -/
theorem one_add_fl {A : Fl ω} (h : A.prod = none) : (A + 1).val = A.val + 1 := by
  rcases Fl.add_cases A 1 with e | ⟨x, y, s, e, -⟩ | ⟨x, y, s, e, -⟩
  · exact e
  · rw [h] at e; cases e
  · cases e

theorem one_add_v4 {v : V4 (Fl ω)} (h : v.l0.prod = none) :
    (V4.mk (v.l0 + 1) v.l1 v.l2 v.l3).f32 = ⟨v.f32.l0 + 1, v.f32.l1, v.f32.l2, v.f32.l3⟩ := by
  simp only [V4.f32, one_add_fl h]

/-- C113: the square root of a rotor whose scalar lane is not a product that the addition of one could take in. -/
theorem C113_rotor_sqrt {hw : Hw F32} (hc : hw.Contract32) {hwr : Hw ℝ} (hx : hwr.Exact) (isa isa' : Isa)
    (x : Rotor (Fl ω)) (h0 : x.p1.l0.prod = none) (hv : x.p1.f32.Le2 29) (hn : 1 / 2 ^ 59 ≤ (r x.p1.f32.l0 + 1) ^ 2 + x.p1.f32.sq3) (i : Fin 4) :
    ((x.sqrt (hw.fl ω) isa).p1.f32.get i).isFinite = true ∧
      |r ((x.sqrt (hw.fl ω) isa).p1.f32.get i) - (x.f32.real.sqrt hwr isa').p1.get i| ≤ 8.2e-7 := by
  have hV : 0 ≤ x.p1.f32.sq3 := by unfold V4.sq3; positivity
  have hN : 0 < (r x.p1.f32.l0 + 1) ^ 2 + x.p1.f32.sq3 := lt_of_lt_of_le (by positivity) hn
  obtain ⟨e, he, hxe⟩ := one_add_f32 (x := x.p1.f32.l0) (hv 0)
  obtain ⟨p1, p2⟩ := sqrt_pert (A := r x.p1.f32.l0 + 1) he hV
  have hv' := sqrt_le2 hv
  have hsq := sqrt_sq4 (v := x.p1.f32) hxe
  have hs0 := Real.sqrt_pos.2 hN
  have hn' := sqrt_norm he hxe hn
  have hd4 : dot4 (⟨r x.p1.f32.l0 + 1, r x.p1.f32.l1, r x.p1.f32.l2, r x.p1.f32.l3⟩ : V4 ℝ) ⟨r x.p1.f32.l0 + 1, r x.p1.f32.l1, r x.p1.f32.l2, r x.p1.f32.l3⟩ =
      (r x.p1.f32.l0 + 1) ^ 2 + x.p1.f32.sq3 := by simp only [dot4, V4.sq3]; ring
  have eF : x.sqrt (hw.fl ω) isa = Rotor.normalize (hw.fl ω) isa ⟨⟨x.p1.l0 + 1, x.p1.l1, x.p1.l2, x.p1.l3⟩⟩ := rfl
  have eR : x.f32.real.sqrt hwr isa' = (Rotor.mk ⟨r x.p1.f32.l0 + 1, r x.p1.f32.l1, r x.p1.f32.l2, r x.p1.f32.l3⟩).smul
      (1 / √((r x.p1.f32.l0 + 1) ^ 2 + x.p1.f32.sq3)) := by
    rw [← exact_rsqrt1 hx hN, ← hd4, ← Rotor.normalize_eq hwr isa']; rfl
  rw [eF, eR]
  have key := fun j => C113_rotor_normalize hc isa ⟨⟨x.p1.l0 + 1, x.p1.l1, x.p1.l2, x.p1.l3⟩⟩
    (by rw [one_add_v4 h0]; exact hv') (by rw [one_add_v4 h0]; exact hn') j
  simp only [one_add_v4 h0] at key
  have hle' := fun j => lane_le4 (Real.sqrt_nonneg _) (sq4_sqrt (⟨x.p1.f32.l0 + 1, x.p1.f32.l1, x.p1.f32.l2, x.p1.f32.l3⟩ : V4 F32)) j
  simp only [hsq] at key hle'
  have hle := fun (j : Fin 4) (hj : j ≠ 0) => lane_le3 (C := √((r x.p1.f32.l0 + 1) ^ 2 + x.p1.f32.sq3)) (v := x.p1.f32) hs0.le
    (by rw [Real.sq_sqrt hN.le]; have := sq_nonneg (r x.p1.f32.l0 + 1); linarith) j hj
  refine ⟨(key i).1, ?_⟩
  fin_cases i
  · refine sqrt_lane hN (key 0) (hle' 0) (X := r x.p1.f32.l0 + 1) ?_ ?_ p1 p2
    · exact Real.abs_le_sqrt (by linarith)
    · simp only [V4.get]
      rw [hxe, show (r x.p1.f32.l0 + 1) * (1 + e) - (r x.p1.f32.l0 + 1) = e * (r x.p1.f32.l0 + 1) by ring, abs_mul]
      exact mul_le_mul_of_nonneg_right he (abs_nonneg _)
  · exact sqrt_lane hN (key 1) (hle' 1) (X := r x.p1.f32.l1) (hle 1 (by decide))
      (by simp only [V4.get, sub_self, abs_zero]; exact mul_nonneg u_pos.le (abs_nonneg _)) p1 p2
  · exact sqrt_lane hN (key 2) (hle' 2) (X := r x.p1.f32.l2) (hle 2 (by decide))
      (by simp only [V4.get, sub_self, abs_zero]; exact mul_nonneg u_pos.le (abs_nonneg _)) p1 p2
  · exact sqrt_lane hN (key 3) (hle' 3) (X := r x.p1.f32.l3) (hle 3 (by decide))
      (by simp only [V4.get, sub_self, abs_zero]; exact mul_nonneg u_pos.le (abs_nonneg _)) p1 p2

/-- C113: the square root of a branch, the same computation. -/
theorem C113_branch_sqrt {hw : Hw F32} (hc : hw.Contract32) {hwr : Hw ℝ} (hx : hwr.Exact) (isa isa' : Isa)
    (x : Branch (Fl ω)) (h0 : x.p1.l0.prod = none) (hv : x.p1.f32.Le2 29)
    (hn : 1 / 2 ^ 59 ≤ (r x.p1.f32.l0 + 1) ^ 2 + x.p1.f32.sq3) (i : Fin 4) :
    ((x.sqrt (hw.fl ω) isa).p1.f32.get i).isFinite = true ∧
      |r ((x.sqrt (hw.fl ω) isa).p1.f32.get i) - (x.f32.real.sqrt hwr isa').p1.get i| ≤ 8.2e-7 :=
  C113_rotor_sqrt hc hx isa isa' ⟨x.p1⟩ h0 hv hn i

/-- C113: the rotor part of the square root of a motor. -/
theorem C113_motor_sqrt_p1 {hw : Hw F32} (hc : hw.Contract32) {hwr : Hw ℝ} (hx : hwr.Exact) (isa isa' : Isa)
    (x : Motor (Fl ω)) (h0 : x.p1.l0.prod = none) (hv : x.p1.f32.Le2 29)
    (hn : 1 / 2 ^ 59 ≤ (r x.p1.f32.l0 + 1) ^ 2 + x.p1.f32.sq3) (i : Fin 4) :
    ((x.sqrt (hw.fl ω) isa).p1.f32.get i).isFinite = true ∧
      |r ((x.sqrt (hw.fl ω) isa).p1.f32.get i) - (x.f32.real.sqrt hwr isa').p1.get i| ≤ 8.2e-7 :=
  C113_rotor_sqrt hc hx isa isa' ⟨x.p1⟩ h0 hv hn i

/-- C113: the moment part of the square root of a motor. -/
theorem C113_motor_sqrt_p2 {hw : Hw F32} (hc : hw.Contract32) {hwr : Hw ℝ} (hx : hwr.Exact) (isa isa' : Isa)
    (x : Motor (Fl ω)) {C : ℝ} (h0 : x.p1.l0.prod = none) (hv : x.p1.f32.Le2 29) (hn : 1 / 2 ^ 59 ≤ (r x.p1.f32.l0 + 1) ^ 2 + x.p1.f32.sq3)
    (hf : x.p2.f32.Finite) (hC : x.p2.f32.sq4 ≤ C ^ 2) (hr : In2 C 30 32) (i : Fin 4) :
    ((x.sqrt (hw.fl ω) isa).p2.f32.get i).isFinite = true ∧
      |r ((x.sqrt (hw.fl ω) isa).p2.f32.get i) - (x.f32.real.sqrt hwr isa').p2.get i| ≤
        4.7e-6 * (C / √((r x.p1.f32.l0 + 1) ^ 2 + x.p1.f32.sq3)) := by
  have hV : 0 ≤ x.p1.f32.sq3 := by unfold V4.sq3; positivity
  have hN : 0 < (r x.p1.f32.l0 + 1) ^ 2 + x.p1.f32.sq3 := lt_of_lt_of_le (by positivity) hn
  obtain ⟨e, he, hxe⟩ := one_add_f32 (x := x.p1.f32.l0) (hv 0)
  obtain ⟨p1, p2⟩ := sqrt_pert (A := r x.p1.f32.l0 + 1) he hV
  have hv' := sqrt_le2 hv
  have hsq := sqrt_sq4 (v := x.p1.f32) hxe
  have hs0 := Real.sqrt_pos.2 hN
  have hn' := sqrt_norm he hxe hn
  have eV : (Motor.f32 ⟨⟨x.p1.l0 + 1, x.p1.l1, x.p1.l2, x.p1.l3⟩, x.p2⟩ : Motor F32) = ⟨⟨x.p1.f32.l0 + 1, x.p1.f32.l1, x.p1.f32.l2, x.p1.f32.l3⟩, x.p2.f32⟩ := by
    simp only [Motor.f32, one_add_v4 h0]
  have hS : Motor.Scale (Motor.f32 ⟨⟨x.p1.l0 + 1, x.p1.l1, x.p1.l2, x.p1.l3⟩, x.p2⟩ : Motor F32) C := by
    rw [eV]; exact ⟨hv', hn', hf, hC, hr⟩
  have key := C113_motor_normalize_p2 hc hx isa isa' hS i
  have eF : x.sqrt (hw.fl ω) isa = Motor.normalize (hw.fl ω) isa ⟨⟨x.p1.l0 + 1, x.p1.l1, x.p1.l2, x.p1.l3⟩, x.p2⟩ := rfl
  rw [eF]
  refine ⟨key.1, ?_⟩
  have key := key.2
  -- the exact normalisation of the rounded and of the exact argument
  have eR : x.f32.real.sqrt hwr isa' = Motor.normalize hwr isa' ⟨⟨r x.p1.f32.l0 + 1, r x.p1.f32.l1, r x.p1.f32.l2, r x.p1.f32.l3⟩, x.p2.f32.real⟩ := rfl
  have eR' : (Motor.mk ⟨x.p1.f32.l0 + 1, x.p1.f32.l1, x.p1.f32.l2, x.p1.f32.l3⟩ x.p2.f32 : Motor F32).real =
      ⟨⟨(r x.p1.f32.l0 + 1) * (1 + e), r x.p1.f32.l1, r x.p1.f32.l2, r x.p1.f32.l3⟩, x.p2.f32.real⟩ := by
    simp only [Motor.real, V4.real, hxe]
  have hN' : 0 < ((r x.p1.f32.l0 + 1) * (1 + e)) ^ 2 + x.p1.f32.sq3 := by
    rw [← hsq]; exact lt_of_lt_of_le (by positivity) hn'
  have d : ∀ a, dot4 (⟨a, r x.p1.f32.l1, r x.p1.f32.l2, r x.p1.f32.l3⟩ : V4 ℝ) ⟨a, r x.p1.f32.l1, r x.p1.f32.l2, r x.p1.f32.l3⟩ =
      a ^ 2 + x.p1.f32.sq3 := fun a => by simp only [dot4, V4.sq3]; ring
  rw [eV, one_add_v4 h0, eR', Motor.normalize_eq, d, exact_rsqrt1 hx hN', exact_rcp1 hx hN'.ne', ← inv_sqrt_sq hN', hsq] at key
  rw [eR, Motor.normalize_eq, d, exact_rsqrt1 hx hN, exact_rcp1 hx hN.ne', ← inv_sqrt_sq hN]
  have hinv := Pt.inv hs0 p1 p2
  have hC0 := hr.pos.le
  have hA : |r x.p1.f32.l0 + 1| ≤ √((r x.p1.f32.l0 + 1) ^ 2 + x.p1.f32.sq3) := Real.abs_le_sqrt (by linarith)
  have hle := fun (j : Fin 4) (hj : j ≠ 0) => lane_le3 (C := √((r x.p1.f32.l0 + 1) ^ 2 + x.p1.f32.sq3)) (v := x.p1.f32) hs0.le
    (by rw [Real.sq_sqrt hN.le]; have := sq_nonneg (r x.p1.f32.l0 + 1); linarith) j hj
  have hcl := fun j : Fin 4 => lane_le4 hC0 hC j
  have hsum : (r x.p1.f32.l0 + 1) ^ 2 + r x.p1.f32.l1 ^ 2 + r x.p1.f32.l2 ^ 2 + r x.p1.f32.l3 ^ 2 ≤ √((r x.p1.f32.l0 + 1) ^ 2 + x.p1.f32.sq3) ^ 2 := by
    rw [Real.sq_sqrt hN.le]; unfold V4.sq3; linarith
  simp only [V4.sq4] at hC
  simp only [V4.real] at key ⊢
  have k1 := hcl 0; have k2 := hcl 1; have k3 := hcl 2; have k4 := hcl 3
  have b1 := hle 1 (by decide); have b2 := hle 2 (by decide); have b3 := hle 3 (by decide)
  simp only [V4.get] at k1 k2 k3 k4 b1 b2 b3
  obtain ⟨A, eA⟩ : ∃ A, A = r x.p1.f32.l0 + 1 := ⟨_, rfl⟩
  rw [← eA] at hN hs0 hinv hA hsum key b1 b2 b3 ⊢
  clear hsq hxe hn hS eV hv' hn' eR' p1 p2 hle hN' eA eF eR d hv
  have hfin : ∀ {a b c : ℝ}, |a - b| ≤ 3.7e-6 * (C / √((A * (1 + e)) ^ 2 + x.p1.f32.sq3)) →
      |b - c| ≤ 9e-7 * (C / √(A ^ 2 + x.p1.f32.sq3)) → |a - c| ≤ 4.7e-6 * (C / √(A ^ 2 + x.p1.f32.sq3)) := by
    intro a b c h1 h2
    have h3 := abs_add_le (a - b) (b - c)
    rw [sub_add_sub_cancel] at h3
    have h4 := (abs_le.1 hinv.err).2
    have h5 : C / √((A * (1 + e)) ^ 2 + x.p1.f32.sq3) ≤ 1.001 * (C / √(A ^ 2 + x.p1.f32.sq3)) := by
      rw [div_eq_mul_one_div C, div_eq_mul_one_div C (√(A ^ 2 + _)), ← mul_assoc, mul_comm (1.001 : ℝ), mul_assoc]
      refine mul_le_mul_of_nonneg_left ?_ hC0
      have h7 : 0 < 1 / √(A ^ 2 + x.p1.f32.sq3) := by positivity
      generalize 1 / √(A ^ 2 + x.p1.f32.sq3) = q at h4 h7 ⊢
      generalize 1 / √((A * (1 + e)) ^ 2 + x.p1.f32.sq3) = q' at h4 ⊢
      clear * - h4 h7
      norm_num at *; linarith
    have h6 : 0 ≤ C / √(A ^ 2 + x.p1.f32.sq3) := by positivity
    norm_num at *; linarith
  refine hfin key ?_
  clear key hfin
  have hbc : Pt (-Motor.bc ⟨⟨A * (1 + e), r x.p1.f32.l1, r x.p1.f32.l2, r x.p1.f32.l3⟩, ⟨r x.p2.f32.l0, r x.p2.f32.l1, r x.p2.f32.l2, r x.p2.f32.l3⟩⟩)
      (-Motor.bc ⟨⟨A, r x.p1.f32.l1, r x.p1.f32.l2, r x.p1.f32.l3⟩, ⟨r x.p2.f32.l0, r x.p2.f32.l1, r x.p2.f32.l2, r x.p2.f32.l3⟩⟩)
      (√(A ^ 2 + x.p1.f32.sq3) * C) 6e-8 := by
    constructor
    · have hcs : |A| * |r x.p2.f32.l0| + |r x.p1.f32.l1| * |r x.p2.f32.l1| + |r x.p1.f32.l2| * |r x.p2.f32.l2| +
          |r x.p1.f32.l3| * |r x.p2.f32.l3| ≤ √(A ^ 2 + x.p1.f32.sq3) * C :=
        cs4 hs0.le hC0 (by simp only [sq_abs]; exact hsum) (by simp only [sq_abs]; exact hC)
      refine le_trans ?_ hcs
      rw [abs_neg]
      simp only [Motor.bc, ← abs_mul]
      refine (abs_sub _ _).trans (add_le_add_left ?_ _)
      refine (abs_sub _ _).trans (add_le_add_left ?_ _)
      exact abs_sub _ _
    · simp only [Motor.bc]
      rw [show ∀ a b c d : ℝ, -(A * (1 + e) * a - b - c - d) - -(A * a - b - c - d) = -(e * (A * a)) from fun a b c d => by ring,
        abs_neg, abs_mul, abs_mul]
      have h6 : u ≤ 6e-8 := by unfold u; norm_num
      exact mul_le_mul (he.trans h6) (mul_le_mul hA k1 (abs_nonneg _) hs0.le) (by positivity) (by norm_num)
  have ht := (hbc.mul (hinv.mul hinv (by norm_num)) (by norm_num)).mul hinv (by norm_num)
  have hb0 : Pt (A * (1 + e)) A (√(A ^ 2 + x.p1.f32.sq3)) 6e-8 := by
    refine ⟨hA, ?_⟩
    rw [show A * (1 + e) - A = e * A by ring, abs_mul]
    have h6 : u ≤ 6e-8 := by unfold u; norm_num
    exact mul_le_mul (he.trans h6) hA (abs_nonneg _) (by norm_num)
  have same : ∀ {a M : ℝ}, |a| ≤ M → Pt a a M 6e-8 := fun h => ⟨h, by
    rw [sub_self, abs_zero]; exact mul_nonneg (by norm_num) ((abs_nonneg _).trans h)⟩
  have fin2 : ∀ {c b' b : ℝ}, |c| ≤ C → Pt b' b (√(A ^ 2 + x.p1.f32.sq3)) 6e-8 → _ := fun {c b' b} hc hb =>
    ((hinv.mul (same hc) (by norm_num)).mono (k' := 4e-7) (by norm_num)).sub ((ht.mul hb (by norm_num)).mono (by norm_num))
  have hM : 4e-7 * (1 / √(A ^ 2 + x.p1.f32.sq3) * C + √(A ^ 2 + x.p1.f32.sq3) * C *
      (1 / √(A ^ 2 + x.p1.f32.sq3) * (1 / √(A ^ 2 + x.p1.f32.sq3))) * (1 / √(A ^ 2 + x.p1.f32.sq3)) * √(A ^ 2 + x.p1.f32.sq3))
      ≤ 9e-7 * (C / √(A ^ 2 + x.p1.f32.sq3)) := by
    have : √(A ^ 2 + x.p1.f32.sq3) * C *
      (1 / √(A ^ 2 + x.p1.f32.sq3) * (1 / √(A ^ 2 + x.p1.f32.sq3))) * (1 / √(A ^ 2 + x.p1.f32.sq3)) * √(A ^ 2 + x.p1.f32.sq3) =
      C / √(A ^ 2 + x.p1.f32.sq3) := by field_simp
    rw [this, one_div_mul_eq_div]
    have : 0 ≤ C / √(A ^ 2 + x.p1.f32.sq3) := by positivity
    norm_num at *; linarith
  have close : ∀ {v w : ℝ}, v = w → |w| ≤ _ → |v| ≤ 9e-7 * (C / √(A ^ 2 + x.p1.f32.sq3)) := fun h h' => h ▸ (h'.trans hM)
  fin_cases i
  · refine close ?_ (fin2 k1 (b' := -(A * (1 + e))) (b := -A) ⟨by rw [abs_neg]; exact hA, by
      rw [show -(A * (1 + e)) - -A = -(A * (1 + e) - A) by ring, abs_neg]; exact hb0.err⟩)
    simp only [Motor.dualSmul, V4.get]; ring
  · refine close ?_ (fin2 k2 (same b1)); simp only [Motor.dualSmul, V4.get]
  · refine close ?_ (fin2 k3 (same b2)); simp only [Motor.dualSmul, V4.get]
  · refine close ?_ (fin2 k4 (same b3)); simp only [Motor.dualSmul, V4.get]

/-- Fusing nothing gives the operations of C78. -/
theorem C113_plain_invert (hw : Hw F32) (isa : Isa) (b : Branch (Fl plainly)) (p : Plane (Fl plainly)) (q : Rotor (Fl plainly))
    (x : Point (Fl plainly)) (m : Motor (Fl plainly)) (k : Fl plainly) :
    (q.sqrt (hw.fl plainly) isa).f32 = q.f32.sqrt hw isa ∧ (m.sqrt (hw.fl plainly) isa).f32 = m.f32.sqrt hw isa ∧
    (b.invert (hw.fl plainly) isa).f32 = b.f32.invert hw isa ∧ (p.invert (hw.fl plainly) isa).f32 = p.f32.invert hw isa ∧
    (q.invert (hw.fl plainly) isa).f32 = q.f32.invert hw isa ∧ (x.invert (hw.fl plainly)).f32 = x.f32.invert hw ∧
    (p.sdiv (hw.fl plainly) k).f32 = p.f32.sdiv hw k.val ∧ (p.norm (hw.fl plainly) isa).val = p.f32.norm hw isa ∧
    (b.norm isa Fl.sqrt).val = b.f32.norm isa F32.sqrt := by
  cases isa
  all_goals
    refine ⟨rfl, rfl, rfl, rfl, rfl, rfl, rfl, rfl, ?_⟩
    exact congrArg F32.sqrt rfl

/-- The norm of the plane with normal (3, 4, 0) is 5 up to 5e-6 whatever the compiler does. -/
example {hw : Hw F32} (hc : hw.Contract32) (isa : Isa) (ω : Compiler) :
    |r ((Plane.mk (V4.fl ω 0 ⟨1, 3, 4, 0⟩)).norm (hw.fl ω) isa).val - 5| ≤ 5e-6 := by
  have r4 : r (4 : F32) = 4 := by
    have : (4 : F32).val = 4 := by decide +kernel
    simp [r, this]
  have hq : (V4.fl ω 0 ⟨1, 3, 4, 0⟩).f32.sq3 = 5 ^ 2 := by
    show r (3 : F32) ^ 2 + r (4 : F32) ^ 2 + r (0 : F32) ^ 2 = _
    rw [r_three, r4, r_zero]; norm_num
  have h := (C113_plane_norm hc isa (Plane.mk (V4.fl ω 0 ⟨1, 3, 4, 0⟩))
    (fun i => show F32.Le2 (V4.get (⟨1, 3, 4, 0⟩ : V4 F32) i) 30 from match i with
      | 0 => Le2.one.mono (by norm_num) | 1 => fun _ => by decide +kernel | 2 => fun _ => by decide +kernel
      | 3 => Le2.zero.mono (by norm_num)) (by rw [hq]; norm_num)).2
  rw [hq, Real.sqrt_sq (by norm_num)] at h
  exact h.trans (by norm_num)

end Klein
