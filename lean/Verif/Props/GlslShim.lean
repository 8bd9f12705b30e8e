import Verif.Glsl.Shim
import Verif.Props.Glsl
import Verif.Props.PerfListings
import Verif.Float.Range
import Verif.Float.Order

/-!
# C106: the tests of the shader library, compiled as C++

test/test_glsl.cpp compiles glsl/klein.glsl as C++ with the class `vec4` of test/glsl_shim.hpp.  What the
tests say about the shader depends on the shim giving the statements their meaning in GLSL.  It does except
for two: `v *= v.k` for a component before the last, and an assignment of a component to the same component
of another variable.  klein.glsl has neither, and so the compiled functions are the modelled ones; in binary32
they return the bits of the SSE kernels.
-/

set_option linter.unusedSimpArgs false
set_option linter.unusedSectionVars false

namespace Klein.Glsl

open Asm

section
variable {F : Type} [Add F] [Sub F] [Mul F] [Neg F] [Zero F] [One F] [NatCast F]

theorem get_mul (a b : V4 F) (i : Fin 4) : (mul_ps a b).get i = a.get i * b.get i := by
  match i with | 0 => rfl | 1 => rfl | 2 => rfl | 3 => rfl
theorem get_add (a b : V4 F) (i : Fin 4) : (add_ps a b).get i = a.get i + b.get i := by
  match i with | 0 => rfl | 1 => rfl | 2 => rfl | 3 => rfl
theorem get_sub (a b : V4 F) (i : Fin 4) : (sub_ps a b).get i = a.get i - b.get i := by
  match i with | 0 => rfl | 1 => rfl | 2 => rfl | 3 => rfl
theorem get_set1 (a : F) (i : Fin 4) : (set1_ps a).get i = a := by
  match i with | 0 => rfl | 1 => rfl | 2 => rfl | 3 => rfl
theorem get_setComp (a : V4 F) (k i : Fin 4) (x : F) :
    (setComp a k x).get i = if i = k then x else a.get i := by
  match k, i with
  | 0, 0 => rfl | 0, 1 => rfl | 0, 2 => rfl | 0, 3 => rfl
  | 1, 0 => rfl | 1, 1 => rfl | 1, 2 => rfl | 1, 3 => rfl
  | 2, 0 => rfl | 2, 1 => rfl | 2, 2 => rfl | 2, 3 => rfl
  | 3, 0 => rfl | 3, 1 => rfl | 3, 2 => rfl | 3, 3 => rfl

/-- The shim's `dot` on GLSL values. -/
def shimDot (a b : V4 F) : F := cDot a.get b.get

/-- A compound assignment is the simultaneous one, also when the right hand side is the variable itself. -/
theorem compound_eq (op : F → F → F) (μ : Mem F) (v : ℕ) (e : Ex) :
    compound op μ v e = fun u i => if u = v then op (μ v i) (cEx μ e i) else μ u i := by
  funext u i
  have gen : ∀ x : Fin 4 → F, loop μ (fun μ' i => write μ' v i (op (μ' v i) (x i))) u i =
      if u = v then op (μ v i) (x i) else μ u i := by
    intro x
    by_cases h : u = v
    · subst h
      match i with
      | 0 => simp [loop, write] | 1 => simp [loop, write] | 2 => simp [loop, write] | 3 => simp [loop, write]
    · simp [loop, write, h]
  cases e with
  | var w =>
    by_cases hw : w = v
    · subst hw
      by_cases h : u = w
      · subst h
        match i with
        | 0 => simp [compound, other, cEx, loop, write] | 1 => simp [compound, other, cEx, loop, write]
        | 2 => simp [compound, other, cEx, loop, write] | 3 => simp [compound, other, cEx, loop, write]
      · simp [compound, other, cEx, loop, write, h]
    · by_cases h : u = v
      · subst h
        match i with
        | 0 => simp [compound, other, cEx, loop, write, hw] | 1 => simp [compound, other, cEx, loop, write, hw]
        | 2 => simp [compound, other, cEx, loop, write, hw] | 3 => simp [compound, other, cEx, loop, write, hw]
      · simp [compound, other, cEx, loop, write, h]
  | _ => exact gen _

/-- Statements on which the shim is GLSL: `v *= u.k` unless the component is read again after it was
overwritten, and no assignment of a component to the same component of another variable. -/
def Safe : St → Prop
  | .mulC v u k => u ≠ v ∨ k = 3
  | .setC v k (.comp u l) => k ≠ l ∨ u = v
  | _ => True

instance : DecidablePred Safe := fun s => by
  unfold Safe
  split <;> infer_instance

/-- The memory of the program and the values of GLSL. -/
def Rel (E : F → F → Prop) (μ : Mem F) (σ : ℕ → V4 F) : Prop := ∀ v i, E (μ v i) ((σ v).get i)

variable {E : F → F → Prop} (h : Commutes E) {μ : Mem F} {σ : ℕ → V4 F}
include h

theorem get4 {a b c d a' b' c' d' : F} (ha : E a a') (hb : E b b') (hc : E c c') (hd : E d d') (i : Fin 4) :
    E (V4.get ⟨a, b, c, d⟩ i) (V4.get ⟨a', b', c', d'⟩ i) := by
  match i with | 0 => exact ha | 1 => exact hb | 2 => exact hc | 3 => exact hd

theorem ex_rel (r : Rel E μ σ) (e : Ex) : ∀ i, E (cEx μ e i) ((gEx shimDot σ e).get i) := by
  induction e with
  | var v => exact r v
  | swz v a b c d => exact get4 h (r v a) (r v b) (r v c) (r v d)
  | lit a b c d => exact get4 h (h.refl _) (h.refl _) (h.refl _) (h.refl _)
  | mul e f he hf => intro i; rw [gEx, get_mul]; exact h.mul (he i) (hf i)
  | add e f he hf => intro i; rw [gEx, get_add]; exact h.add (he i) (hf i)
  | sub e f he hf => intro i; rw [gEx, get_sub]; exact h.sub (he i) (hf i)
  | scl v k e he => intro i; rw [gEx, get_mul, get_set1]; exact h.mul' (he i) (r v k)
  | mulS e v k he => intro i; rw [gEx, get_mul, get_set1]; exact h.mul (he i) (r v k)
  | dotX e f he hf =>
    refine get4 h ?_ (h.refl _) (h.refl _) (h.refl _)
    exact h.add (h.add (h.add (h.add (h.refl _) (h.mul (he 0) (hf 0))) (h.mul (he 1) (hf 1)))
      (h.mul (he 2) (hf 2))) (h.mul (he 3) (hf 3))

theorem st_rel (r : Rel E μ σ) (s : St) (hs : Safe s) : Rel E (cSt μ s) (gSt shimDot σ s) := by
  intro u i
  cases s with
  | set v e =>
    simp only [cSt, gSt, setVar]
    split
    · exact ex_rel h r e i
    · exact r u i
  | addA v e =>
    simp only [cSt, gSt, setVar, compound_eq]
    split
    · rw [get_add]; exact h.add (r v i) (ex_rel h r e i)
    · exact r u i
  | subA v e =>
    simp only [cSt, gSt, setVar, compound_eq]
    split
    · rw [get_sub]; exact h.sub (r v i) (ex_rel h r e i)
    · exact r u i
  | mulA v e =>
    simp only [cSt, gSt, setVar, compound_eq]
    split
    · rw [get_mul]; exact h.mul (r v i) (ex_rel h r e i)
    · exact r u i
  | mulC v w k =>
    have e : cSt μ (.mulC v w k) u i = if u = v then μ v i * μ w k else μ u i := by
      by_cases huv : u = v
      · subst huv
        rcases hs with hw | rfl
        · match i with
          | 0 => simp [cSt, loop, write, hw] | 1 => simp [cSt, loop, write, hw]
          | 2 => simp [cSt, loop, write, hw] | 3 => simp [cSt, loop, write, hw]
        · match i with
          | 0 => simp [cSt, loop, write] | 1 => simp [cSt, loop, write]
          | 2 => simp [cSt, loop, write] | 3 => simp [cSt, loop, write]
      · simp [cSt, loop, write, huv]
    rw [e]
    simp only [gSt, setVar]
    split
    · rw [get_mul, get_set1]; exact h.mul (r v i) (r w k)
    · exact r u i
  | setC v k s =>
    have wr : ∀ x y, E x y → E (write μ v k x u i) ((setVar σ v (setComp (σ v) k y) u).get i) := by
      intro x y hxy
      simp only [write, setVar]
      by_cases huv : u = v
      · subst huv
        rw [if_pos rfl, get_setComp]
        by_cases hi : i = k
        · rw [if_pos ⟨rfl, hi⟩, if_pos hi]; exact hxy
        · rw [if_neg fun g => hi g.2, if_neg hi]; exact r u i
      · rw [if_neg fun g => huv g.1, if_neg huv]; exact r u i
    cases s with
    | comp w l =>
      by_cases hkl : k = l
      · subst hkl
        obtain rfl := hs.resolve_left fun g => g rfl
        simp only [cSt, if_true, gSt, gSc, setVar]
        split
        · subst_vars
          rw [get_setComp]
          split
          · subst_vars; exact r _ _
          · exact r _ _
        · exact r u i
      · simp only [cSt, if_neg hkl, gSt, gSc]
        exact wr _ _ (r w l)
    | neg w l => exact wr _ _ (h.neg (r w l))
    | lit a => exact wr _ _ (h.refl _)

/-- C106: shader code without the two unsafe statements has, compiled with the shim, the meaning it has in
GLSL. -/
theorem C106_shim (p : List St) (hp : ∀ s ∈ p, Safe s) {μ : Mem F} {σ : ℕ → V4 F} (r : Rel E μ σ) :
    Rel E (cRun μ p) (gRun shimDot σ p) := by
  induction p generalizing μ σ with
  | nil => exact r
  | cons s p ih =>
    exact ih (fun t ht => hp t (List.mem_cons_of_mem _ ht)) (st_rel h r s (hp s List.mem_cons_self))

end

/-- C106: and those are the only statements on which they differ. -/
theorem C106_safe_iff (s : St) :
    (∀ (μ : Mem ℚ) (σ : ℕ → V4 ℚ), Rel Eq μ σ → Rel Eq (cSt μ s) (gSt shimDot σ s)) ↔ Safe s := by
  refine ⟨fun h => ?_, fun hs μ σ r => st_rel Commutes.eq r s hs⟩
  cases s with
  | mulC v u k =>
    by_contra hn
    simp only [Safe, not_or, not_not] at hn
    obtain ⟨rfl, hk⟩ := hn
    have h3 := h (fun _ _ => 2) (fun _ => ⟨2, 2, 2, 2⟩) (fun _ i => by
      match i with | 0 => rfl | 1 => rfl | 2 => rfl | 3 => rfl) u 3
    match k with
    | 0 => simp [cSt, gSt, loop, write, setVar, mul_ps, V4.get] at h3
    | 1 => simp [cSt, gSt, loop, write, setVar, mul_ps, V4.get] at h3
    | 2 => simp [cSt, gSt, loop, write, setVar, mul_ps, V4.get] at h3
    | 3 => exact hk rfl
  | setC v k s =>
    cases s with
    | comp u l =>
      by_contra hn
      simp only [Safe, not_or, not_not] at hn
      obtain ⟨rfl, hu⟩ := hn
      have h3 := h (fun w _ => if w = u then 1 else 0) (fun w => set1_ps (if w = u then 1 else 0))
        (fun _ i => by rw [get_set1]) v k
      simp only [cSt, if_true, gSt, gSc, setVar, get_setComp, get_set1, if_neg (Ne.symm hu)] at h3
      exact zero_ne_one h3
    | _ => trivial
  | _ => trivial

/-- C106: the two statements. -/
theorem C106_alias_fails :
    cSt (fun _ i => V4.get ⟨2, 3, 5, 7⟩ i : Mem ℚ) (.mulC 0 0 0) 0 = V4.get ⟨4, 12, 20, 28⟩ ∧
    gSt shimDot (fun _ => (⟨2, 3, 5, 7⟩ : V4 ℚ)) (.mulC 0 0 0) 0 = ⟨4, 6, 10, 14⟩ ∧
    cSt (fun v _ => (v : ℚ) : Mem ℚ) (.setC 0 1 (.comp 5 1)) 0 1 = 0 ∧
    (gSt shimDot (fun v => set1_ps (v : ℚ)) (.setC 0 1 (.comp 5 1)) 0).l1 = 5 := by
  refine ⟨?_, ?_, ?_, ?_⟩
  · funext i
    match i with
    | 0 => decide +kernel | 1 => decide +kernel | 2 => decide +kernel | 3 => decide +kernel
  · norm_num [gSt, setVar, mul_ps, V4.get]
  · norm_num [cSt]
  · norm_num [gSt, setVar, setComp, gSc, V4.get]

/-! ## klein.glsl -/

/-- C106: klein.glsl has no unsafe statement. -/
theorem C106_klein_safe : ∀ p ∈ [Prog.mulRotor, Prog.mulTranslator, Prog.mulMotor, Prog.applyRotorPlane,
    Prog.applyMotorPlane, Prog.applyRotorPoint, Prog.applyMotorPoint, Prog.applyMotorOrigin],
    ∀ s ∈ p, Safe s := by decide

section
variable {F : Type} [Add F] [Sub F] [Mul F] [Neg F] [Zero F] [One F] [NatCast F]

/-- C106: in GLSL the programs are the modelled functions, whatever the other variables hold. -/
theorem C106_glsl (σ : ℕ → V4 F) :
    gRun shimDot σ Prog.mulRotor 2 = mulRotor (σ 0) (σ 1) ∧
    gRun shimDot σ Prog.mulTranslator 2 = mulTranslator (σ 0) (σ 1) ∧
    (gRun shimDot σ Prog.mulMotor 4, gRun shimDot σ Prog.mulMotor 5) = mulMotor (σ 0) (σ 1) (σ 2) (σ 3) ∧
    gRun shimDot σ Prog.applyRotorPlane 3 = applyRotorPlane (σ 0) (σ 2) ∧
    gRun shimDot σ Prog.applyRotorPoint 3 = applyRotorPoint (σ 0) (σ 2) ∧
    gRun shimDot σ Prog.applyMotorPoint 3 = applyMotorPoint (σ 0) (σ 1) (σ 2) ∧
    gRun shimDot σ Prog.applyMotorOrigin 3 = applyMotorOrigin (σ 0) (σ 1) :=
  ⟨rfl, rfl, rfl, rfl, rfl, rfl, rfl⟩

end

/-- C106: the motor on a plane uses `dot`, whose sum the shim starts from zero. -/
theorem C106_glsl_motor_plane {K : Type} [CommRing K] (σ : ℕ → V4 K) :
    gRun shimDot σ Prog.applyMotorPlane 3 = applyMotorPlane (σ 0) (σ 1) (σ 2) := by
  have d : (shimDot : V4 K → V4 K → K) = dot := by
    funext a b
    simp [shimDot, cDot, loop, dot, V4.get]
  rw [d]
  rfl

/-! ## The bits -/

/-- A congruence for which multiplications by one and minus one are exact. -/
structure Signs {F : Type} [Add F] [Sub F] [Mul F] [Neg F] [One F] (E : F → F → Prop) : Prop
    extends Commutes E where
  trans : ∀ {x y z}, E x y → E y z → E x z
  one : ∀ {x x'}, E x x' → E (x * 1) x'
  negOne : ∀ {x x'}, E x x' → E (x * -1) (-x')

/-- `commutes` with multiplications by one and minus one. -/
syntax "signs " ident : tactic
macro_rules
  | `(tactic| signs $h) => `(tactic| first
    | with_reducible exact ($h).refl _
    | (with_reducible refine ($h).neg ?_; signs $h)
    | (with_reducible refine ($h).one ?_; signs $h)
    | (with_reducible refine ($h).negOne ?_; signs $h)
    | (with_reducible refine ($h).sub ?_ ?_ <;> signs $h)
    | (with_reducible refine ($h).add ?_ ?_ <;> signs $h)
    | (with_reducible refine ($h).mul ?_ ?_ <;> signs $h))

section
variable {F : Type} [Add F] [Sub F] [Mul F] [Neg F] [Zero F] [One F] [NatCast F]
variable {E : F → F → Prop} (h : Signs E)
include h

theorem rotor_plane_lanes (r p : V4 F) : Lanes E (applyRotorPlane r p) (sw012 .sse3 r none p) := by
  refine ⟨?_, ?_, ?_, ?_⟩ <;> simp only [kln, sse, cond_true, cond_false, Nat.cast_ofNat] <;> signs h

theorem rotor_point_lanes (r p : V4 F) : Lanes E (applyRotorPoint r p) (sw312 r none p) := by
  refine ⟨?_, ?_, ?_, ?_⟩ <;> simp only [kln, sse, cond_true, cond_false, Nat.cast_ofNat] <;> signs h

theorem motor_point_lanes (m1 m2 p : V4 F) : Lanes E (applyMotorPoint m1 m2 p) (sw312 m1 (some m2) p) := by
  refine ⟨?_, ?_, ?_, ?_⟩ <;> simp only [kln, sse, cond_true, cond_false, Nat.cast_ofNat] <;> signs h

theorem motor_plane_lanes (isa : Isa) (σ : ℕ → V4 F) (a : V4 F)
    (ha : a = gRun shimDot σ Prog.applyMotorPlane 3) :
    E a.l1 (sw012 isa (σ 0) (some (σ 1)) (σ 2)).l1 ∧ E a.l2 (sw012 isa (σ 0) (some (σ 1)) (σ 2)).l2 ∧
    E a.l3 (sw012 isa (σ 0) (some (σ 1)) (σ 2)).l3 := by
  have e1 : a.l1 = (applyRotorPlane (σ 0) (σ 2)).l1 + 0 := by rw [ha]; rfl
  have e2 : a.l2 = (applyRotorPlane (σ 0) (σ 2)).l2 + 0 := by rw [ha]; rfl
  have e3 : a.l3 = (applyRotorPlane (σ 0) (σ 2)).l3 + 0 := by rw [ha]; rfl
  obtain ⟨-, h1, h2, h3⟩ := rotor_plane_lanes h (σ 0) (σ 2)
  rw [e1, e2, e3]
  cases isa <;> exact ⟨h.add h1 (h.refl _), h.add h2 (h.refl _), h.add h3 (h.refl _)⟩

end

/-- Rounding a float to a float. -/
theorem round_self {x : F32} (hx : x.isFinite = true) : F32.round x.sign x.val = x := by
  by_cases h0 : x.val = 0
  · have hm : x.mag.val = 0 := by
      apply F32.magVal_strictMono.injective
      rw [F32.magVal_zero]
      unfold F32.val at h0
      split at h0
      · exact neg_eq_zero.1 h0
      · exact h0
    rw [h0]
    refine F32.ext rfl (Fin.ext ?_)
    rw [hm]
    rfl
  · have hv := F32.round_val hx x.sign
    have hs : (F32.round x.sign x.val).sign = x.sign := by
      rw [F32.round, if_neg h0]
      show decide (x.val < 0) = x.sign
      have := F32.magVal_nonneg x.mag.val
      cases hx' : x.sign
      · rw [decide_eq_false_iff_not, not_lt, F32.val, hx']; simpa using this
      · have h1 : x.val = -F32.magVal x.mag.val := by rw [F32.val, hx']; rfl
        rw [decide_eq_true_eq]
        exact lt_of_le_of_ne (by rw [h1]; linarith) h0
    refine F32.ext hs (Fin.ext (F32.magVal_strictMono.injective ?_))
    generalize F32.round x.sign x.val = y at hv hs
    unfold F32.val at hv
    rw [hs] at hv
    split at hv
    · exact neg_inj.1 hv
    · exact hv

/-- C106: multiplication by one and minus one does not round. -/
theorem Signs.same : Signs Same := by
  have nf : ∀ {x : F32}, x.isNaN = false → x.isFinite = true ∨ x.isInf = true := by
    intro x hx
    simp only [F32.isNaN, F32.isFinite, F32.isInf, decide_eq_false_iff_not, decide_eq_true_eq] at *
    omega
  have inf : ∀ {x : F32}, x.isInf = true → x = F32.inf x.sign := by
    intro x hx
    refine F32.ext rfl (Fin.ext ?_)
    rw [of_decide_eq_true hx]
    rfl
  refine ⟨Commutes.same, ?_, ?_, ?_⟩
  · rintro x y z (rfl | ⟨hx, hy⟩) k
    · exact k
    · rcases k with rfl | ⟨-, hz⟩
      · exact .inr ⟨hx, hy⟩
      · exact .inr ⟨hx, hz⟩
  · rintro x x' (rfl | ⟨hx, hy⟩)
    · cases hn : x.isNaN
      · left
        rcases nf hn with hf | hi
        · rw [F32.mul_round hf (by decide +kernel), F32.one_val, mul_one]
          have : (x.sign != (1 : F32).sign) = x.sign := by cases x.sign <;> decide +kernel
          rw [this, round_self hf]
        · rw [inf hi]; cases x.sign <;> decide +kernel
      · exact .inr ⟨F32.mul_nan (.inl hn), hn⟩
    · exact .inr ⟨F32.mul_nan (.inl hx), hy⟩
  · rintro x x' (rfl | ⟨hx, hy⟩)
    · cases hn : x.isNaN
      · left
        rcases nf hn with hf | hi
        · rw [F32.mul_round hf (by decide +kernel)]
          have v : (-1 : F32).val = -1 := by decide +kernel
          have : (x.sign != (-1 : F32).sign) = (-x).sign := by
            show _ = !x.sign
            cases x.sign <;> decide +kernel
          have w : x.val * -1 = (-x).val := by
            show _ = F32.val ⟨!x.sign, x.mag⟩
            unfold F32.val
            cases x.sign <;> simp
          rw [this, v, w, round_self (x := -x) hf]
        · rw [inf hi]; cases x.sign <;> decide +kernel
      · exact .inr ⟨F32.mul_nan (.inl hn), hn⟩
    · exact .inr ⟨F32.mul_nan (.inl hx), hy⟩

/-- The value of a variable. -/
def Mem.v4 {F : Type} (μ : Mem F) (v : ℕ) : V4 F := ⟨μ v 0, μ v 1, μ v 2, μ v 3⟩

theorem rel_v4 {F : Type} [Add F] [Sub F] [Mul F] [Neg F] {E : F → F → Prop} (h : Commutes E) (μ : Mem F) :
    Rel E μ μ.v4 := by
  intro v i
  match i with
  | 0 => exact h.refl _ | 1 => exact h.refl _ | 2 => exact h.refl _ | 3 => exact h.refl _

theorem lanes_of_rel {F : Type} {E : F → F → Prop} {μ : Mem F} {σ : ℕ → V4 F} (h : Rel E μ σ) (v : ℕ) :
    Lanes E (μ.v4 v) (σ v) := ⟨h v 0, h v 1, h v 2, h v 3⟩

theorem Lanes.trans' {F : Type} [Add F] [Sub F] [Mul F] [Neg F] [One F] {E : F → F → Prop} (h : Signs E)
    {a b c : V4 F} (x : Lanes E a b) (y : Lanes E b c) : Lanes E a c :=
  ⟨h.trans x.1 y.1, h.trans x.2.1 y.2.1, h.trans x.2.2.1 y.2.2.1, h.trans x.2.2.2 y.2.2.2⟩

/-- C106: the products of klein.glsl, compiled with the shim, return the bits of the library, except for the
payload of NaNs. -/
theorem C106_products_bits (μ : Mem F32) :
    Lanes Same ((cRun μ Prog.mulRotor).v4 2) ((⟨μ.v4 0⟩ : Rotor F32).mulRotor ⟨μ.v4 1⟩).p1 ∧
    Lanes Same ((cRun μ Prog.mulTranslator).v4 2) ((⟨μ.v4 0⟩ : Translator F32).mulTranslator ⟨μ.v4 1⟩).p2 ∧
    Lanes Same ((cRun μ Prog.mulMotor).v4 4) ((⟨μ.v4 0, μ.v4 1⟩ : Motor F32).mulMotor ⟨μ.v4 2, μ.v4 3⟩).p1 ∧
    Lanes Same ((cRun μ Prog.mulMotor).v4 5) ((⟨μ.v4 0, μ.v4 1⟩ : Motor F32).mulMotor ⟨μ.v4 2, μ.v4 3⟩).p2 := by
  have key : ∀ p, (∀ s ∈ p, Safe s) → ∀ v, Lanes Same ((cRun μ p).v4 v) (gRun shimDot μ.v4 p v) :=
    fun p hp v => lanes_of_rel (C106_shim Commutes.same p hp (rel_v4 Commutes.same μ)) v
  obtain ⟨e1, e2, e3, -⟩ := C106_glsl μ.v4
  obtain ⟨e3, e4⟩ := Prod.ext_iff.1 e3
  refine ⟨?_, ?_, ?_, ?_⟩
  · rw [← C50_mul_rotor, ← e1]; exact key _ (C106_klein_safe _ (by simp)) 2
  · rw [← C50_mul_translator, ← e2]; exact key _ (C106_klein_safe _ (by simp)) 2
  · rw [← C50_mul_motor, ← e3]; exact key _ (C106_klein_safe _ (by simp)) 4
  · rw [← C50_mul_motor, ← e4]; exact key _ (C106_klein_safe _ (by simp)) 5

/-- C106: so do the applications to planes and of motors to points; of the application of a motor to a plane
all but the first coefficient, which is a sum of four products in another order. -/
theorem C106_apply_bits (isa : Isa) (μ : Mem F32) :
    Lanes Same ((cRun μ Prog.applyRotorPlane).v4 3) ((⟨μ.v4 0⟩ : Rotor F32).onPlane isa ⟨μ.v4 2⟩).p0 ∧
    Lanes Same ((cRun μ Prog.applyMotorPoint).v4 3) ((⟨μ.v4 0, μ.v4 1⟩ : Motor F32).onPoint ⟨μ.v4 2⟩).p3 ∧
    (∀ i : Fin 4, i ≠ 0 → Same (cRun μ Prog.applyMotorPlane 3 i)
      (((⟨μ.v4 0, μ.v4 1⟩ : Motor F32).onPlane isa ⟨μ.v4 2⟩).p0.get i)) ∧
    Lanes Same ((cRun μ Prog.applyRotorPoint).v4 3) (sw312 (μ.v4 0) none (μ.v4 2)) := by
  have key : ∀ p, (∀ s ∈ p, Safe s) → ∀ v, Lanes Same ((cRun μ p).v4 v) (gRun shimDot μ.v4 p v) :=
    fun p hp v => lanes_of_rel (C106_shim Commutes.same p hp (rel_v4 Commutes.same μ)) v
  obtain ⟨-, -, -, e1, e2, e3, -⟩ := C106_glsl μ.v4
  refine ⟨?_, ?_, ?_, ?_⟩
  · refine Lanes.trans' Signs.same (key _ (C106_klein_safe _ (by simp)) 3) ?_
    rw [e1]
    exact rotor_plane_lanes Signs.same _ _
  · refine Lanes.trans' Signs.same (key _ (C106_klein_safe _ (by simp)) 3) ?_
    rw [e3]
    exact motor_point_lanes Signs.same _ _ _
  · obtain ⟨-, k1, k2, k3⟩ := key Prog.applyMotorPlane (C106_klein_safe _ (by simp)) 3
    generalize ha : gRun shimDot μ.v4 Prog.applyMotorPlane 3 = a at k1 k2 k3
    obtain ⟨h1, h2, h3⟩ := motor_plane_lanes Signs.same isa μ.v4 a ha.symm
    intro i hi
    match i with
    | 0 => exact absurd rfl hi
    | 1 => exact Signs.same.trans k1 h1
    | 2 => exact Signs.same.trans k2 h2
    | 3 => exact Signs.same.trans k3 h3
  · refine Lanes.trans' Signs.same (key _ (C106_klein_safe _ (by simp)) 3) ?_
    rw [e2]
    exact rotor_point_lanes Signs.same _ _

/-- C106: compiled with the shim and in exact arithmetic, klein.glsl has the functions of the library. -/
theorem C106_exact {K : Type} [CommRing K] (isa : Isa) (μ : Mem K) :
    (cRun μ Prog.mulRotor).v4 2 = ((⟨μ.v4 0⟩ : Rotor K).mulRotor ⟨μ.v4 1⟩).p1 ∧
    (cRun μ Prog.mulTranslator).v4 2 = ((⟨μ.v4 0⟩ : Translator K).mulTranslator ⟨μ.v4 1⟩).p2 ∧
    (⟨(cRun μ Prog.mulMotor).v4 4, (cRun μ Prog.mulMotor).v4 5⟩ : Motor K) =
      (⟨μ.v4 0, μ.v4 1⟩ : Motor K).mulMotor ⟨μ.v4 2, μ.v4 3⟩ ∧
    (cRun μ Prog.applyRotorPlane).v4 3 = ((⟨μ.v4 0⟩ : Rotor K).onPlane isa ⟨μ.v4 2⟩).p0 ∧
    (cRun μ Prog.applyMotorPlane).v4 3 = ((⟨μ.v4 0, μ.v4 1⟩ : Motor K).onPlane isa ⟨μ.v4 2⟩).p0 ∧
    (cRun μ Prog.applyRotorPoint).v4 3 = ((⟨μ.v4 0⟩ : Rotor K).onPoint isa ⟨μ.v4 2⟩).p3 ∧
    (cRun μ Prog.applyMotorPoint).v4 3 = ((⟨μ.v4 0, μ.v4 1⟩ : Motor K).onPoint ⟨μ.v4 2⟩).p3 ∧
    (cRun μ Prog.applyMotorOrigin).v4 3 = (⟨μ.v4 0, μ.v4 1⟩ : Motor K).onOrigin.p3 := by
  have key : ∀ p, (∀ s ∈ p, Safe s) → ∀ v, (cRun μ p).v4 v = gRun shimDot μ.v4 p v :=
    fun p hp v => (lanes_of_rel (C106_shim Commutes.eq p hp (rel_v4 Commutes.eq μ)) v).eq
  obtain ⟨e1, e2, e3, e4, e5, e6, e7⟩ := C106_glsl μ.v4
  obtain ⟨e3, e3'⟩ := Prod.ext_iff.1 e3
  refine ⟨?_, ?_, ?_, ?_, ?_, ?_, ?_, ?_⟩
  · rw [key _ (C106_klein_safe _ (by simp)), e1, ← C50_mul_rotor]
  · rw [key _ (C106_klein_safe _ (by simp)), e2, ← C50_mul_translator]
  · rw [key _ (C106_klein_safe _ (by simp)), key _ (C106_klein_safe _ (by simp)), ← C50_mul_motor]
    exact congrArg₂ Motor.mk e3 e3'
  · rw [key _ (C106_klein_safe _ (by simp)), e4, ← C50_apply_rotor_plane]
  · rw [key _ (C106_klein_safe _ (by simp)), C106_glsl_motor_plane, ← C50_apply_motor_plane]
  · rw [key _ (C106_klein_safe _ (by simp)), e5, ← C50_apply_rotor_point]
  · rw [key _ (C106_klein_safe _ (by simp)), e6, ← C50_apply_motor_point]
  · rw [key _ (C106_klein_safe _ (by simp)), e7, ← C50_apply_motor_origin]

/-- The floats of an initial memory. -/
def memOf {F : Type} [Zero F] (l : List (V4 F)) : Mem F := fun v => (l.getD v ⟨0, 0, 0, 0⟩).get

/-- C106: the two remaining coefficients do differ in their last bit: the application of a rotor to a point,
for which the library uses the kernel for planes, and the first coefficient of a motor applied to a plane. -/
theorem C106_last_bit_fails :
    (∃ r p : V4 F32, ¬ Same (cRun (memOf [r, r, p]) Prog.applyRotorPoint 3 1)
      ((⟨r⟩ : Rotor F32).onPoint .sse3 ⟨p⟩).p3.l1) ∧
    (∃ m1 m2 p : V4 F32, ∀ isa, ¬ Same (cRun (memOf [m1, m2, p]) Prog.applyMotorPlane 3 0)
      ((⟨m1, m2⟩ : Motor F32).onPlane isa ⟨p⟩).p0.l0) := by
  refine ⟨⟨⟨1, (4097 : ℕ), (3 : ℕ), (5 : ℕ)⟩, ⟨1, 1, 0, 0⟩, by unfold Same; decide +kernel⟩,
    ⟨1, 0, 0, 0⟩, ⟨0, (16777216 : ℕ), 1, 1⟩, ⟨0, 1, 1, 1⟩, fun isa => ?_⟩
  cases isa <;> unfold Same <;> decide +kernel

/-- A numeral as a float. -/
abbrev fl (n : ℕ) : F32 := (n : F32)

/-- C106, an instance: test/test_glsl.cpp:9-22 as it is compiled. -/
example : cRun (memOf [⟨fl 2, fl 3, fl 4, fl 5⟩, ⟨fl 6, fl 7, fl 8, fl 9⟩]) Prog.mulRotor 2 =
    V4.get ⟨-fl 86, fl 36, fl 32, fl 52⟩ := by
  funext i
  match i with
  | 0 => decide +kernel | 1 => decide +kernel | 2 => decide +kernel | 3 => decide +kernel

/-- C106, an instance: test/test_glsl.cpp:85-97 as it is compiled. -/
example : cRun (memOf [⟨fl 1, fl 4, -fl 3, fl 2⟩, ⟨fl 8, fl 5, fl 6, fl 7⟩, ⟨fl 2, fl 3, fl 4, fl 5⟩])
    Prog.applyMotorPoint 3 = V4.get ⟨fl 60, -fl 238, -fl 144, -fl 86⟩ := by
  funext i
  match i with
  | 0 => decide +kernel | 1 => decide +kernel | 2 => decide +kernel | 3 => decide +kernel

end Klein.Glsl
