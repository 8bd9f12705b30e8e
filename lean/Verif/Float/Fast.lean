import Verif.Float.Binary32
import Mathlib.Algebra.Order.Floor.Semiring
import Mathlib.Data.Rat.Floor
import Mathlib.Tactic.FieldSimp
import Mathlib.Tactic.Positivity
import Mathlib.Tactic.Linarith

/-!
# Evaluating binary32 operations with natural numbers

The operations of `Verif/Float/Binary32.lean` are defined with rational numbers.  Here they are shown equal
to versions on natural numbers, which the kernel evaluates faster; `f32_decide` decides a closed
statement with these.
-/

namespace Klein.F32.Fast

/-- A finite magnitude in units of the smallest subnormal. -/
def units (m : ℕ) : ℕ :=
  if m / 2 ^ 23 = 0 then m % 2 ^ 23 else (2 ^ 23 + m % 2 ^ 23) * 2 ^ (m / 2 ^ 23 - 1)

theorem magVal_units (m : ℕ) : magVal m = units m / 2 ^ 149 := by
  unfold magVal units; dsimp only
  split <;> push_cast <;> rfl

/-- `roundMag` of `n / d` units. -/
def rnd (n d : ℕ) : ℕ :=
  let k := Nat.log2 (n / d) - 23
  let D := d * 2 ^ k
  let q := n / D
  let t := 2 * (n % D)
  min (k * 2 ^ 23 + (if t < D then q else if D < t then q + 1 else q + q % 2)) infMag

theorem rhe_div (n D : ℕ) (hD : 0 < D) :
    (rhe ((n : ℚ) / D)).toNat =
      (if 2 * (n % D) < D then n / D else if D < 2 * (n % D) then n / D + 1 else n / D + (n / D) % 2) := by
  have hf : ⌊(n : ℚ) / D⌋ = ((n / D : ℕ) : ℤ) := by
    rw [Rat.floor_natCast_div_natCast]; push_cast; rfl
  have hD' : (0 : ℚ) < D := by exact_mod_cast hD
  have hd : (n : ℚ) / D - ((n / D : ℕ) : ℤ) = ((n % D : ℕ) : ℚ) / D := by
    have := Nat.div_add_mod n D
    have h : (n : ℚ) = D * (n / D : ℕ) + (n % D : ℕ) := by exact_mod_cast this.symm
    rw [div_sub' hD'.ne', div_left_inj' hD'.ne']
    rw [Int.cast_natCast]
    linarith
  unfold rhe
  simp only [hf]
  simp only [hd, div_lt_div_iff₀ hD' two_pos, div_lt_div_iff₀ two_pos hD']
  have h1 : ((n % D : ℕ) : ℚ) * 2 < 1 * D ↔ 2 * (n % D) < D := by
    rw [one_mul, mul_comm]; exact_mod_cast Iff.rfl
  have h2 : (1 : ℚ) * D < ((n % D : ℕ) : ℚ) * 2 ↔ D < 2 * (n % D) := by
    rw [one_mul, mul_comm]; exact_mod_cast Iff.rfl
  simp only [h1, h2]
  generalize n / D = f
  split
  · simp
  · split
    · omega
    · split <;> omega

theorem roundMag_units (n d : ℕ) (hd : 0 < d) (q : ℚ) (hq : q * 2 ^ 149 = n / d) :
    roundMag q = rnd n d := by
  unfold roundMag rnd
  simp only [hq]
  have hf : ⌊(n : ℚ) / d⌋.toNat = n / d := by
    rw [Rat.floor_natCast_div_natCast]; rfl
  rw [hf, ← Nat.log2_eq_log_two, div_div]
  have := rhe_div n (d * 2 ^ ((n / d).log2 - 23)) (by positivity)
  push_cast at this ⊢
  rw [this]

theorem val_units (x : F32) : x.val = (if x.sign then -1 else 1) * ((units x.mag : ℕ) / 2 ^ 149) := by
  unfold val; rw [magVal_units]; split <;> ring

theorem units_eq_zero (m : ℕ) : units m = 0 ↔ m = 0 := by
  unfold units
  constructor
  · intro h
    split at h
    · omega
    · exfalso
      have : 0 < (2 ^ 23 + m % 2 ^ 23) * 2 ^ (m / 2 ^ 23 - 1) := by positivity
      omega
  · rintro rfl; rfl

/-- A magnitude as an integer number of units. -/
def zunits (x : F32) : ℤ := if x.sign then -(units x.mag : ℤ) else units x.mag

theorem val_zunits (x : F32) : x.val = zunits x / 2 ^ 149 := by
  unfold zunits; rw [val_units]; split <;> push_cast <;> ring

/-- `round` of an integer number of units. -/
def zround (z : Bool) (n : ℤ) : F32 := if n = 0 then ofMag z 0 else ofMag (decide (n < 0)) (rnd n.natAbs 1)

theorem round_zround (z : Bool) (n : ℤ) (q : ℚ) (h : q = n / 2 ^ 149) : round z q = zround z n := by
  have h0 : q = 0 ↔ n = 0 := by
    rw [h]; simp
  have hlt : q < 0 ↔ n < 0 := by
    rw [h, div_lt_iff₀ (by positivity), zero_mul]; exact_mod_cast Iff.rfl
  unfold round zround
  simp only [h0, hlt]
  split
  · rfl
  · rw [roundMag_units n.natAbs 1 one_pos]
    rw [h, abs_div, abs_of_pos (show (0 : ℚ) < 2 ^ 149 by positivity), div_mul_cancel₀ _ (by positivity)]
    rw [Nat.cast_natAbs]; simp

/-- `round` of a quotient of magnitudes with a sign. -/
def qround (s : Bool) (n d : ℕ) : F32 := if n = 0 then ofMag s 0 else ofMag s (rnd n d)

theorem round_qround (s : Bool) (n d : ℕ) (hd : 0 < d) (q : ℚ) (h : q = (if s then -1 else 1) * (n / (d * 2 ^ 149))) :
    round s q = qround s n d := by
  have hd' : (0 : ℚ) < d := by exact_mod_cast hd
  have h0 : q = 0 ↔ n = 0 := by
    rw [h]; cases s <;> simp [hd'.ne']
  unfold round qround
  simp only [h0]
  split
  · rfl
  · rename_i hn
    have hn' : (0 : ℚ) < n := by exact_mod_cast Nat.pos_of_ne_zero hn
    have hp : (0 : ℚ) < n / (d * 2 ^ 149) := by positivity
    have hs : decide (q < 0) = s := by
      rw [h]; cases s
      · simpa using hp.le
      · simpa using hp
    rw [hs, roundMag_units n d hd]
    have : |q| = n / (d * 2 ^ 149) := by
      rw [h]; cases s
      · simp [abs_of_pos hp]
      · simp only [if_true, neg_one_mul, abs_neg, abs_of_pos hp]
    rw [this]
    field_simp

/-- `addps`, one lane. -/
def addFast (x y : F32) : F32 :=
  nan2 x y <|
    if x.isInf then (if y.isInf && x.sign != y.sign then defaultNaN else x)
    else if y.isInf then y
    else zround (x.sign && y.sign) (zunits x + zunits y)

/-- `subps`, one lane. -/
def subFast (x y : F32) : F32 :=
  nan2 x y <|
    if x.isInf then (if y.isInf && x.sign == y.sign then defaultNaN else x)
    else if y.isInf then neg y
    else zround (x.sign && !y.sign) (zunits x - zunits y)

/-- `mulps`, one lane. -/
def mulFast (x y : F32) : F32 :=
  nan2 x y <|
    let s := x.sign != y.sign
    if x.isInf || y.isInf then (if x.isZero || y.isZero then defaultNaN else inf s)
    else qround s (units x.mag * units y.mag) (2 ^ 149)

/-- `divss`. -/
def divFast (x y : F32) : F32 :=
  nan2 x y <|
    let s := x.sign != y.sign
    if x.isInf then (if y.isInf then defaultNaN else inf s)
    else if y.isInf then ofMag s 0
    else if y.isZero then (if x.isZero then defaultNaN else inf s)
    else qround s (units x.mag * 2 ^ 149) (units y.mag)

theorem add_fast (x y : F32) : add x y = addFast x y := by
  unfold add addFast
  rw [round_zround _ (zunits x + zunits y)]
  rw [val_zunits, val_zunits]; push_cast; ring

theorem sub_fast (x y : F32) : sub x y = subFast x y := by
  unfold sub subFast
  rw [round_zround _ (zunits x - zunits y)]
  rw [val_zunits, val_zunits]; push_cast; ring

theorem mul_fast (x y : F32) : mul x y = mulFast x y := by
  unfold mul mulFast
  dsimp only
  rw [round_qround _ (units x.mag * units y.mag) (2 ^ 149) (by positivity)]
  rw [val_units, val_units]; cases x.sign <;> cases y.sign <;> simp <;> ring

theorem div_fast (x y : F32) : div x y = divFast x y := by
  unfold div divFast
  dsimp only
  congr 1
  split
  · rfl
  · split
    · rfl
    · split
      · rfl
      · rename_i h
        have hy : units y.mag ≠ 0 := by
          rw [Ne, units_eq_zero]; simpa [isZero] using h
        have hy' : (units y.mag : ℚ) ≠ 0 := by exact_mod_cast hy
        rw [round_qround _ (units x.mag * 2 ^ 149) (units y.mag) (Nat.pos_of_ne_zero hy)]
        rw [val_units, val_units]; push_cast
        cases x.sign <;> cases y.sign <;> simp <;> field_simp <;> norm_num

theorem natCast_fast (n : ℕ) : round false (n : ℚ) = zround false (n * 2 ^ 149) := by
  apply round_zround
  push_cast; field_simp; norm_num

@[instance_reducible] def addInst : Add F32 := ⟨addFast⟩
@[instance_reducible] def subInst : Sub F32 := ⟨subFast⟩
@[instance_reducible] def mulInst : Mul F32 := ⟨mulFast⟩
@[instance_reducible] def divInst : Div F32 := ⟨divFast⟩
@[instance_reducible] def castInst : NatCast F32 := ⟨fun n => zround false (n * 2 ^ 149)⟩

theorem addInst_eq : (inferInstance : Add F32) = addInst := congrArg Add.mk (funext₂ add_fast)
theorem subInst_eq : (inferInstance : Sub F32) = subInst := congrArg Sub.mk (funext₂ sub_fast)
theorem mulInst_eq : (inferInstance : Mul F32) = mulInst := congrArg Mul.mk (funext₂ mul_fast)
theorem divInst_eq : (inferInstance : Div F32) = divInst := congrArg Div.mk (funext₂ div_fast)
theorem castInst_eq : (inferInstance : NatCast F32) = castInst := congrArg NatCast.mk (funext natCast_fast)

/-- Decides a closed statement about binary32 arithmetic, with the operations on natural numbers. -/
macro "f32_decide" : tactic => `(tactic| (
  try rw [show F32.instAdd = addInst from addInst_eq]
  try rw [show F32.instSub = subInst from subInst_eq]
  try rw [show F32.instMul = mulInst from mulInst_eq]
  try rw [show F32.instDiv = divInst from divInst_eq]
  try rw [show F32.instNatCast = castInst from castInst_eq]
  decide +kernel))

end Klein.F32.Fast
