import Mathlib.Analysis.SpecialFunctions.Trigonometric.ArctanDeriv
import Mathlib.Analysis.Calculus.Deriv.Inv
import Mathlib.Analysis.Calculus.MeanValue
import Mathlib.Analysis.Calculus.Deriv.MeanValue
import Mathlib.Analysis.InnerProductSpace.PiL2

/-!
# The logarithm of a motor is Lipschitz away from half turns

The logarithm of the motor with scalar `p`, bivector `v` and moment `w` is `φ v + (φ w + ψ ⟨v, w⟩ v)` with
`φ = arctan (s / p) / s` and `ψ = (1 / p - φ) / s²`, where `s` is the norm of `v`.  Both coefficients are smooth
where `p` is positive, also where `s` tends to zero.
-/

namespace Klein.LogLip

open Real

noncomputable def phi (p s : ℝ) : ℝ := arctan (s / p) / s
noncomputable def psi (p s : ℝ) : ℝ := (1 / p - arctan (s / p) / s) / s ^ 2

/-! ### bounds of the arc tangent -/

theorem nonneg_of_deriv {f f' : ℝ → ℝ} (h : ∀ x, HasDerivAt f (f' x) x) (h0 : f 0 = 0) (h1 : ∀ x, 0 ≤ f' x) {x : ℝ}
    (hx : 0 ≤ x) : 0 ≤ f x := by
  have hm : Monotone f := monotone_of_deriv_nonneg (fun x => (h x).differentiableAt) (fun x => by rw [(h x).deriv]; exact h1 x)
  rw [← h0]; exact hm hx

theorem arctan_ge {x : ℝ} (hx : 0 ≤ x) : x - x ^ 3 / 3 ≤ arctan x := by
  have := nonneg_of_deriv (f := fun x => arctan x - (x - x ^ 3 / 3)) (f' := fun x => x ^ 4 / (1 + x ^ 2))
    (fun y => ?_) (by simp) (fun y => by positivity) hx
  · linarith
  · have h1 := (hasDerivAt_arctan y).sub ((hasDerivAt_id y).sub ((hasDerivAt_pow 3 y).div_const 3))
    refine h1.congr_deriv ?_
    have : 0 < 1 + y ^ 2 := by positivity
    simp only [Nat.cast_ofNat, Nat.add_one_sub_one]
    field_simp
    ring

theorem arctan_le {x : ℝ} (hx : 0 ≤ x) : arctan x ≤ x - x ^ 3 / (3 * (1 + x ^ 2)) := by
  have := nonneg_of_deriv (f := fun x => x - x ^ 3 / (3 * (1 + x ^ 2)) - arctan x)
    (f' := fun x => 2 * x ^ 4 / (3 * (1 + x ^ 2) ^ 2)) (fun y => ?_) (by simp) (fun y => by positivity) hx
  · linarith
  · have hp : 0 < 1 + y ^ 2 := by positivity
    have h2 : HasDerivAt (fun x : ℝ => 3 * (1 + x ^ 2)) (3 * (2 * y)) y := by
      have := ((hasDerivAt_pow 2 y).const_add 1).const_mul 3
      simpa using this
    have h1 := ((hasDerivAt_id y).sub ((hasDerivAt_pow 3 y).div h2 (by positivity))).sub (hasDerivAt_arctan y)
    refine h1.congr_deriv ?_
    simp only [Nat.cast_ofNat, Nat.add_one_sub_one]
    field_simp
    ring

theorem arctan_le_self {x : ℝ} (hx : 0 ≤ x) : arctan x ≤ x :=
  (arctan_le hx).trans (by have : 0 ≤ x ^ 3 / (3 * (1 + x ^ 2)) := by positivity
                           linarith)

theorem arctan_ge' {x : ℝ} (hx : 0 ≤ x) : x / (1 + x ^ 2) ≤ arctan x := by
  have := nonneg_of_deriv (f := fun x => arctan x - x / (1 + x ^ 2))
    (f' := fun x => 2 * x ^ 2 / (1 + x ^ 2) ^ 2) (fun y => ?_) (by simp) (fun y => by positivity) hx
  · linarith
  · have hp : 0 < 1 + y ^ 2 := by positivity
    have h2 : HasDerivAt (fun x : ℝ => 1 + x ^ 2) (2 * y) y := by
      have := (hasDerivAt_pow 2 y).const_add 1
      simpa using this
    have h1 := (hasDerivAt_arctan y).sub ((hasDerivAt_id y).div h2 hp.ne')
    refine h1.congr_deriv ?_
    simp only [id]
    field_simp
    ring

/-! ### the coefficients -/

section
variable {p s : ℝ} (hp : 0 < p) (hs : 0 < s)
include hp hs

theorem phi_nonneg : 0 ≤ phi p s := by
  have : 0 ≤ arctan (s / p) := arctan_nonneg.2 (by positivity)
  unfold phi; positivity

theorem phi_le : phi p s ≤ 1 / p := by
  rw [phi, div_le_iff₀ hs]
  refine (arctan_le_self (by positivity)).trans (le_of_eq ?_)
  ring

theorem psi_nonneg : 0 ≤ psi p s := by
  have := phi_le hp hs
  unfold phi at this
  unfold psi
  exact div_nonneg (by linarith) (by positivity)

theorem psi_le : psi p s ≤ 1 / (3 * p ^ 3) := by
  have h := arctan_ge (x := s / p) (by positivity)
  rw [psi, div_le_iff₀ (by positivity)]
  have : (s / p - (s / p) ^ 3 / 3) / s ≤ arctan (s / p) / s := div_le_div_of_nonneg_right h hs.le
  have e : (s / p - (s / p) ^ 3 / 3) / s = 1 / p - 1 / (3 * p ^ 3) * s ^ 2 := by field_simp
  linarith

theorem arctan_p : HasDerivAt (fun p => arctan (s / p)) (-(s / (p ^ 2 + s ^ 2))) p := by
  have h1 : HasDerivAt (fun p : ℝ => s / p) (-(s / p ^ 2)) p := by
    have := (hasDerivAt_inv hp.ne').const_mul s
    simpa [div_eq_mul_inv] using this
  refine h1.arctan.congr_deriv ?_
  field_simp

theorem arctan_s : HasDerivAt (fun s => arctan (s / p)) (p / (p ^ 2 + s ^ 2)) s := by
  have h1 : HasDerivAt (fun s : ℝ => s / p) (1 / p) s := (hasDerivAt_id s).div_const p
  refine h1.arctan.congr_deriv ?_
  field_simp

theorem phi_p : HasDerivAt (fun p => phi p s) (-(1 / (p ^ 2 + s ^ 2))) p := by
  refine ((arctan_p hp hs).div_const s).congr_deriv ?_
  field_simp

theorem phi_s : HasDerivAt (fun s => phi p s) ((s / p / (1 + (s / p) ^ 2) - arctan (s / p)) / s ^ 2) s := by
  refine ((arctan_s hp hs).div (hasDerivAt_id s) hs.ne').congr_deriv ?_
  simp only [id]
  field_simp

theorem psi_p : HasDerivAt (fun p => psi p s) (-(1 / (p ^ 2 * (p ^ 2 + s ^ 2)))) p := by
  have h1 : HasDerivAt (fun p : ℝ => 1 / p) (-(1 / p ^ 2)) p := by
    have := hasDerivAt_inv hp.ne'
    simpa [one_div] using this
  refine ((h1.sub ((arctan_p hp hs).div_const s)).div_const (s ^ 2)).congr_deriv ?_
  field_simp
  ring

theorem psi_s : HasDerivAt (fun s => psi p s)
    ((3 * arctan (s / p) - 3 * (s / p) + (s / p) ^ 3 / (1 + (s / p) ^ 2)) / s ^ 4) s := by
  have h1 := (((hasDerivAt_const s (1 / p)).sub ((arctan_s hp hs).div (hasDerivAt_id s) hs.ne')).div (hasDerivAt_pow 2 s)
    (by positivity))
  refine h1.congr_deriv ?_
  simp only [id, Nat.cast_ofNat, Nat.add_one_sub_one, pow_one, Pi.sub_apply, Pi.div_apply]
  field_simp
  ring

end

section
variable {P p p' s s' : ℝ} (hP : 0 < P) (hp : P ≤ p) (hp' : P ≤ p') (hs : 0 < s) (hs' : 0 < s')
include hP hp hp' hs hs'

theorem phi_lip : |phi p s - phi p' s'| ≤ (|p - p'| + |s - s'| / 2) / P ^ 2 := by
  have a := (convex_Ici P).norm_image_sub_le_of_norm_hasDerivWithin_le (f := fun p => phi p s)
    (f' := fun p => -(1 / (p ^ 2 + s ^ 2))) (C := 1 / P ^ 2) (x := p') (y := p)
    (fun x hx => (phi_p (lt_of_lt_of_le hP hx) hs).hasDerivWithinAt) (fun x hx => by
      rw [norm_neg, Real.norm_eq_abs, abs_of_nonneg (by positivity)]
      have : P ^ 2 ≤ x ^ 2 := pow_le_pow_left₀ hP.le hx 2
      exact one_div_le_one_div_of_le (by positivity) (by nlinarith [sq_nonneg s])) hp' hp
  have q' : 0 < p' := lt_of_lt_of_le hP hp'
  have b := (convex_Ioi (0 : ℝ)).norm_image_sub_le_of_norm_hasDerivWithin_le (f := fun s => phi p' s)
    (f' := fun s => (s / p' / (1 + (s / p') ^ 2) - arctan (s / p')) / s ^ 2) (C := 1 / (2 * P ^ 2)) (x := s') (y := s)
    (fun x hx => (phi_s q' hx).hasDerivWithinAt) (fun x hx => by
      have hx : 0 < x := hx
      have g1 := arctan_ge' (x := x / p') (by positivity)
      have g2 := arctan_le_self (x := x / p') (by positivity)
      rw [Real.norm_eq_abs, abs_of_nonpos (div_nonpos_of_nonpos_of_nonneg (by linarith) (by positivity)), ← neg_div, neg_sub,
        div_le_iff₀ (by positivity)]
      have g3 : x / p' - x / p' / (1 + (x / p') ^ 2) ≤ (x / p') ^ 2 / 2 := by
        have hy : 0 < x / p' := by positivity
        generalize x / p' = y at hy
        rw [sub_le_iff_le_add, ← sub_le_iff_le_add', le_div_iff₀ (by positivity)]
        nlinarith [mul_nonneg (sq_nonneg y) (sq_nonneg (y - 1))]
      have g4 : (x / p') ^ 2 / 2 ≤ 1 / (2 * P ^ 2) * x ^ 2 := by
        rw [div_pow]
        have : P ^ 2 ≤ p' ^ 2 := pow_le_pow_left₀ hP.le hp' 2
        have := div_le_div_of_nonneg_left (sq_nonneg x) (by positivity) this
        calc _ ≤ x ^ 2 / P ^ 2 / 2 := by linarith
          _ = _ := by field_simp
      linarith) hs' hs
  rw [Real.norm_eq_abs, Real.norm_eq_abs] at a b
  have c := abs_add_le (phi p s - phi p' s) (phi p' s - phi p' s')
  rw [sub_add_sub_cancel] at c
  refine (c.trans (add_le_add a b)).trans (le_of_eq ?_)
  field_simp

theorem psi_lip : |psi p s - psi p' s'| ≤ (|p - p'| + |s - s'| / 2) / P ^ 4 := by
  have a := (convex_Ici P).norm_image_sub_le_of_norm_hasDerivWithin_le (f := fun p => psi p s)
    (f' := fun p => -(1 / (p ^ 2 * (p ^ 2 + s ^ 2)))) (C := 1 / P ^ 4) (x := p') (y := p)
    (fun x hx => (psi_p (lt_of_lt_of_le hP hx) hs).hasDerivWithinAt) (fun x hx => by
      have hx0 := lt_of_lt_of_le hP hx
      rw [norm_neg, Real.norm_eq_abs, abs_of_nonneg (by positivity)]
      have : P ^ 4 ≤ x ^ 4 := pow_le_pow_left₀ hP.le hx 4
      exact one_div_le_one_div_of_le (by positivity) (by nlinarith [mul_nonneg (sq_nonneg x) (sq_nonneg s)])) hp' hp
  have q' : 0 < p' := lt_of_lt_of_le hP hp'
  have b := (convex_Ioi (0 : ℝ)).norm_image_sub_le_of_norm_hasDerivWithin_le (f := fun s => psi p' s)
    (f' := fun s => (3 * arctan (s / p') - 3 * (s / p') + (s / p') ^ 3 / (1 + (s / p') ^ 2)) / s ^ 4)
    (C := 1 / (2 * P ^ 4)) (x := s') (y := s)
    (fun x hx => (psi_s q' hx).hasDerivWithinAt) (fun x hx => by
      have hx : 0 < x := hx
      have g1 := arctan_ge (x := x / p') (by positivity)
      have g2 := arctan_le (x := x / p') (by positivity)
      have hy : 0 < x / p' := by positivity
      have e : x = x / p' * p' := by field_simp
      generalize x / p' = y at *
      have g3 : y ^ 3 / (3 * (1 + y ^ 2)) = y ^ 3 / (1 + y ^ 2) / 3 := by field_simp
      rw [g3] at g2
      have g4 : y ^ 3 - y ^ 3 / (1 + y ^ 2) ≤ y ^ 4 / 2 := by
        rw [sub_le_iff_le_add, ← sub_le_iff_le_add', le_div_iff₀ (by positivity)]
        nlinarith [mul_nonneg (by positivity : 0 ≤ y ^ 4) (sq_nonneg (y - 1))]
      rw [Real.norm_eq_abs, abs_of_nonpos (div_nonpos_of_nonpos_of_nonneg (by linarith) (by positivity)), ← neg_div,
        div_le_iff₀ (by positivity)]
      have g5 : y ^ 4 / 2 ≤ 1 / (2 * P ^ 4) * x ^ 4 := by
        rw [e, mul_pow]
        have h4 : P ^ 4 ≤ p' ^ 4 := pow_le_pow_left₀ hP.le hp' 4
        have : 1 ≤ p' ^ 4 / P ^ 4 := by rw [one_le_div (by positivity)]; exact h4
        calc y ^ 4 / 2 ≤ y ^ 4 / 2 * (p' ^ 4 / P ^ 4) := le_mul_of_one_le_right (by positivity) this
          _ = _ := by field_simp
      linarith) hs' hs
  rw [Real.norm_eq_abs, Real.norm_eq_abs] at a b
  have c := abs_add_le (psi p s - psi p' s) (psi p' s - psi p' s')
  rw [sub_add_sub_cancel] at c
  refine (c.trans (add_le_add a b)).trans (le_of_eq ?_)
  field_simp

end

/-! ### the two parts of the logarithm -/

section
local notation "E" => EuclideanSpace ℝ (Fin 3)
variable {P p p' : ℝ} {v v' w w' : E} (hP : 0 < P) (hp : P ≤ p) (hp' : P ≤ p') (hv : 0 < ‖v‖) (hv' : 0 < ‖v'‖)
include hP hp hp' hv hv'

theorem coef : |phi p ‖v‖ - phi p' ‖v'‖| ≤ (|p - p'| + ‖v - v'‖ / 2) / P ^ 2 ∧
    |psi p ‖v‖ - psi p' ‖v'‖| ≤ (|p - p'| + ‖v - v'‖ / 2) / P ^ 4 := by
  have h := abs_norm_sub_norm_le v v'
  constructor
  · refine (phi_lip hP hp hp' hv hv').trans (div_le_div_of_nonneg_right ?_ (by positivity)); linarith
  · refine (psi_lip hP hp hp' hv hv').trans (div_le_div_of_nonneg_right ?_ (by positivity)); linarith

theorem dir_lip : ‖phi p ‖v‖ • v - phi p' ‖v'‖ • v'‖ ≤ ‖v - v'‖ / P + ‖v‖ * ((|p - p'| + ‖v - v'‖ / 2) / P ^ 2) := by
  obtain ⟨h1, -⟩ := coef hP hp hp' hv hv'
  have q' : 0 < p' := lt_of_lt_of_le hP hp'
  have e : phi p ‖v‖ • v - phi p' ‖v'‖ • v' = phi p' ‖v'‖ • (v - v') + (phi p ‖v‖ - phi p' ‖v'‖) • v := by
    module
  rw [e]
  refine (norm_add_le _ _).trans (add_le_add ?_ ?_)
  · rw [norm_smul, Real.norm_eq_abs, abs_of_nonneg (phi_nonneg q' hv'), mul_comm, div_eq_mul_one_div]
    exact mul_le_mul_of_nonneg_left ((phi_le q' hv').trans (one_div_le_one_div_of_le hP hp')) (norm_nonneg _)
  · rw [norm_smul, Real.norm_eq_abs, mul_comm]
    exact mul_le_mul_of_nonneg_left h1 (norm_nonneg _)

theorem mom_lip : ‖(phi p ‖v‖ • w + (psi p ‖v‖ * inner ℝ v w) • v) - (phi p' ‖v'‖ • w' + (psi p' ‖v'‖ * inner ℝ v' w') • v')‖ ≤
    ‖w - w'‖ / P + ‖w‖ * ((|p - p'| + ‖v - v'‖ / 2) / P ^ 2) +
    ‖v‖ ^ 2 * ‖w‖ * ((|p - p'| + ‖v - v'‖ / 2) / P ^ 4) +
    (‖v‖ * (‖v - v'‖ * ‖w‖ + ‖v'‖ * ‖w - w'‖) + ‖v'‖ * ‖w'‖ * ‖v - v'‖) / (3 * P ^ 3) := by
  obtain ⟨h1, h2⟩ := coef hP hp hp' hv hv'
  have q' : 0 < p' := lt_of_lt_of_le hP hp'
  have e : (phi p ‖v‖ • w + (psi p ‖v‖ * inner ℝ v w) • v) - (phi p' ‖v'‖ • w' + (psi p' ‖v'‖ * inner ℝ v' w') • v') =
      phi p' ‖v'‖ • (w - w') + (phi p ‖v‖ - phi p' ‖v'‖) • w + ((psi p ‖v‖ - psi p' ‖v'‖) * inner ℝ v w) • v +
      psi p' ‖v'‖ • ((inner ℝ v w - inner ℝ v' w') • v + (inner ℝ v' w') • (v - v')) := by
    module
  rw [e]
  refine (norm_add_le _ _).trans (add_le_add ((norm_add_le _ _).trans (add_le_add ((norm_add_le _ _).trans (add_le_add ?_ ?_)) ?_)) ?_)
  · rw [norm_smul, Real.norm_eq_abs, abs_of_nonneg (phi_nonneg q' hv'), mul_comm, div_eq_mul_one_div]
    exact mul_le_mul_of_nonneg_left ((phi_le q' hv').trans (one_div_le_one_div_of_le hP hp')) (norm_nonneg _)
  · rw [norm_smul, Real.norm_eq_abs, mul_comm]
    exact mul_le_mul_of_nonneg_left h1 (norm_nonneg _)
  · rw [norm_smul, Real.norm_eq_abs, abs_mul]
    have h3 := abs_real_inner_le_norm v w
    have := mul_le_mul h2 h3 (abs_nonneg _) (by positivity)
    calc _ ≤ (|p - p'| + ‖v - v'‖ / 2) / P ^ 4 * (‖v‖ * ‖w‖) * ‖v‖ := mul_le_mul_of_nonneg_right this (norm_nonneg _)
      _ = _ := by ring
  · rw [norm_smul, Real.norm_eq_abs, abs_of_nonneg (psi_nonneg q' hv')]
    have k1 : psi p' ‖v'‖ ≤ 1 / (3 * P ^ 3) := (psi_le q' hv').trans
      (one_div_le_one_div_of_le (by positivity) (by have := pow_le_pow_left₀ hP.le hp' 3; linarith))
    have k2 : |inner ℝ v w - inner ℝ v' w'| ≤ ‖v - v'‖ * ‖w‖ + ‖v'‖ * ‖w - w'‖ := by
      have e : (inner ℝ v w - inner ℝ v' w' : ℝ) = inner ℝ (v - v') w + inner ℝ v' (w - w') := by
        rw [inner_sub_left, inner_sub_right]; ring
      rw [e]
      exact (abs_add_le _ _).trans (add_le_add (abs_real_inner_le_norm _ _) (abs_real_inner_le_norm _ _))
    have k3 : ‖(inner ℝ v w - inner ℝ v' w') • v + (inner ℝ v' w') • (v - v')‖ ≤
        ‖v‖ * (‖v - v'‖ * ‖w‖ + ‖v'‖ * ‖w - w'‖) + ‖v'‖ * ‖w'‖ * ‖v - v'‖ := by
      refine (norm_add_le _ _).trans (add_le_add ?_ ?_)
      · rw [norm_smul, Real.norm_eq_abs, mul_comm]; exact mul_le_mul_of_nonneg_left k2 (norm_nonneg _)
      · rw [norm_smul, Real.norm_eq_abs]
        exact mul_le_mul_of_nonneg_right (abs_real_inner_le_norm _ _) (norm_nonneg _)
    have := mul_le_mul k1 k3 (norm_nonneg _) (by positivity)
    refine this.trans (le_of_eq ?_)
    ring

end

end Klein.LogLip
