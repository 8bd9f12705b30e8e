"""Writes lean/Verif/Props/Linear.lean: C46, C47, C48, C52."""
import os
OUT = os.path.join(os.path.dirname(__file__), "..", "lean", "Verif", "Props", "Linear.lean")
o = []
w = o.append
w('''import Verif.Api.Embed
import Verif.Float.Basic
import Verif.Props.Newton
import Verif.Memory.Floats
import Mathlib.Tactic.Ring
import Mathlib.Tactic.LinearCombination

/-!
# C46, C47, C48, C52: constructors and accessors, conversions, reversion, linear structure

Generated by `tools/gen_linear.py`.  C46 and the agreement of compound assignments with binary
operators hold for every lane arithmetic; the multivector readings hold over any commutative ring.
-/

set_option linter.unusedSimpArgs false
set_option linter.unusedVariables false

namespace Klein

open PGA PGA.MV

/-! ### C46: constructors, accessors, load and store -/

section Raw
variable {F : Type} [Add F] [Sub F] [Mul F] [Neg F] [Zero F] [One F] [NatCast F]

theorem C46_plane (a b c d : F) : (Plane.mk4 a b c d).x = a ∧ (Plane.mk4 a b c d).y = b ∧
    (Plane.mk4 a b c d).z = c ∧ (Plane.mk4 a b c d).d = d := ⟨rfl, rfl, rfl, rfl⟩
theorem C46_point (x y z : F) : (Point.mk3 x y z).x = x ∧ (Point.mk3 x y z).y = y ∧
    (Point.mk3 x y z).z = z ∧ (Point.mk3 x y z).w = 1 := ⟨rfl, rfl, rfl, rfl⟩
theorem C46_origin : (Point.origin : Point F).x = 0 ∧ (Point.origin : Point F).y = 0 ∧
    (Point.origin : Point F).z = 0 ∧ (Point.origin : Point F).w = 1 := ⟨rfl, rfl, rfl, rfl⟩
theorem C46_ideal_line (a b c : F) : (IdealLine.mk3 a b c).e01 = a ∧ (IdealLine.mk3 a b c).e02 = b ∧
    (IdealLine.mk3 a b c).e03 = c ∧ (IdealLine.mk3 a b c).e10 = -a ∧
    (IdealLine.mk3 a b c).e20 = -b ∧ (IdealLine.mk3 a b c).e30 = -c :=
  ⟨rfl, rfl, rfl, rfl, rfl, rfl⟩
theorem C46_branch (a b c : F) : (Branch.mk3 a b c).e23 = a ∧ (Branch.mk3 a b c).e31 = b ∧
    (Branch.mk3 a b c).e12 = c ∧ (Branch.mk3 a b c).e32 = -a ∧
    (Branch.mk3 a b c).e13 = -b ∧ (Branch.mk3 a b c).e21 = -c :=
  ⟨rfl, rfl, rfl, rfl, rfl, rfl⟩
theorem C46_line (a b c d e f : F) :
    (Line.mk6 a b c d e f).e01 = a ∧ (Line.mk6 a b c d e f).e02 = b ∧
    (Line.mk6 a b c d e f).e03 = c ∧ (Line.mk6 a b c d e f).e23 = d ∧
    (Line.mk6 a b c d e f).e31 = e ∧ (Line.mk6 a b c d e f).e12 = f ∧
    (Line.mk6 a b c d e f).e10 = -a ∧ (Line.mk6 a b c d e f).e20 = -b ∧
    (Line.mk6 a b c d e f).e30 = -c ∧ (Line.mk6 a b c d e f).e32 = -d ∧
    (Line.mk6 a b c d e f).e13 = -e ∧ (Line.mk6 a b c d e f).e21 = -f :=
  ⟨rfl, rfl, rfl, rfl, rfl, rfl, rfl, rfl, rfl, rfl, rfl, rfl⟩
theorem C46_motor (a b c d e f g h : F) :
    (Motor.mk8 a b c d e f g h).scalar = a ∧ (Motor.mk8 a b c d e f g h).e23 = b ∧
    (Motor.mk8 a b c d e f g h).e31 = c ∧ (Motor.mk8 a b c d e f g h).e12 = d ∧
    (Motor.mk8 a b c d e f g h).e01 = e ∧ (Motor.mk8 a b c d e f g h).e02 = f ∧
    (Motor.mk8 a b c d e f g h).e03 = g ∧ (Motor.mk8 a b c d e f g h).e0123 = h ∧
    (Motor.mk8 a b c d e f g h).e32 = -b ∧ (Motor.mk8 a b c d e f g h).e13 = -c ∧
    (Motor.mk8 a b c d e f g h).e21 = -d ∧ (Motor.mk8 a b c d e f g h).e10 = -e ∧
    (Motor.mk8 a b c d e f g h).e20 = -f ∧ (Motor.mk8 a b c d e f g h).e30 = -g :=
  ⟨rfl, rfl, rfl, rfl, rfl, rfl, rfl, rfl, rfl, rfl, rfl, rfl, rfl, rfl⟩

/-- The constructor arguments are recovered: no two different argument lists give one motor. -/
theorem C46_motor_surj (m : Motor F) :
    m = Motor.mk8 m.scalar m.e23 m.e31 m.e12 m.e01 m.e02 m.e03 m.e0123 := rfl
theorem C46_plane_surj (p : Plane F) : p = Plane.mk4 p.x p.y p.z p.d := rfl

/-! #### loads and stores through memory

`Mem4 F` is a memory of floats; addresses count floats, so a 16-byte aligned address is a multiple
of 4.  `storePs` is undefined on other addresses (`none`). -/

/-- `load` followed by `store` gives back the same four floats, bit for bit. -/
theorem C46_point_load_store (mem : Mem4 F) (a b : ℕ) (hb : b % 4 = 0) :
    ∃ mem', storePs mem b (Point.load (loadu mem a)).store = some mem' ∧
      (∀ i < 4, mem' (b + i) = mem (a + i)) ∧ ∀ x, (∀ i < 4, x ≠ b + i) → mem' x = mem x :=
  storePs_loadu mem a b hb

theorem C46_rotor_load_store (mem : Mem4 F) (a b : ℕ) (hb : b % 4 = 0) :
    ∃ mem', storePs mem b (Rotor.load_normalized (loadu mem a)).store = some mem' ∧
      (∀ i < 4, mem' (b + i) = mem (a + i)) ∧ ∀ x, (∀ i < 4, x ≠ b + i) → mem' x = mem x :=
  storePs_loadu mem a b hb

theorem C46_motor_load (mem : Mem4 F) (a : ℕ) :
    (Motor.load (loadu mem a) (loadu mem (a + 4))) =
      Motor.mk8 (mem a) (mem (a + 1)) (mem (a + 2)) (mem (a + 3))
        (mem (a + 5)) (mem (a + 6)) (mem (a + 7)) (mem (a + 4)) := rfl

theorem C46_plane_load (mem : Mem4 F) (a : ℕ) :
    Plane.load (loadu mem a) = Plane.mk4 (mem (a + 1)) (mem (a + 2)) (mem (a + 3)) (mem a) := rfl

/-- A rotor loaded from four floats has them as scalar, e23, e31, e12, and the reversed accessors
negate. -/
theorem C46_rotor_load (mem : Mem4 F) (a : ℕ) :
    (Rotor.load_normalized (loadu mem a)).scalar = mem a ∧
    (Rotor.load_normalized (loadu mem a)).e23 = mem (a + 1) ∧
    (Rotor.load_normalized (loadu mem a)).e31 = mem (a + 2) ∧
    (Rotor.load_normalized (loadu mem a)).e12 = mem (a + 3) ∧
    (Rotor.load_normalized (loadu mem a)).e32 = -mem (a + 1) ∧
    (Rotor.load_normalized (loadu mem a)).e13 = -mem (a + 2) ∧
    (Rotor.load_normalized (loadu mem a)).e21 = -mem (a + 3) :=
  ⟨rfl, rfl, rfl, rfl, rfl, rfl, rfl⟩

/-- A translator loaded from `(x, a, b, c)` has scalar 1 and a, b, c as e01, e02, e03. -/
theorem C46_translator_load (mem : Mem4 F) (a : ℕ) :
    (Translator.load_normalized (loadu mem a)).scalar = 1 ∧
    (Translator.load_normalized (loadu mem a)).e01 = mem (a + 1) ∧
    (Translator.load_normalized (loadu mem a)).e02 = mem (a + 2) ∧
    (Translator.load_normalized (loadu mem a)).e03 = mem (a + 3) ∧
    (Translator.load_normalized (loadu mem a)).e10 = -mem (a + 1) ∧
    (Translator.load_normalized (loadu mem a)).e20 = -mem (a + 2) ∧
    (Translator.load_normalized (loadu mem a)).e30 = -mem (a + 3) :=
  ⟨rfl, rfl, rfl, rfl, rfl, rfl, rfl⟩

theorem C46_direction_load (mem : Mem4 F) (a : ℕ) :
    (Direction.load (loadu mem a)).x = mem (a + 1) ∧ (Direction.load (loadu mem a)).y = mem (a + 2) ∧
    (Direction.load (loadu mem a)).z = mem (a + 3) := ⟨rfl, rfl, rfl⟩

theorem C46_branch_store (mem : Mem4 F) (b : ℕ) (hb : b % 4 = 0) (x y z : F) :
    ∃ mem', storePs mem b (Branch.mk3 x y z).store = some mem' ∧
      mem' b = 0 ∧ mem' (b + 1) = x ∧ mem' (b + 2) = y ∧ mem' (b + 3) = z ∧
      ∀ w, (∀ i < 4, w ≠ b + i) → mem' w = mem w :=
  storePs_some mem b _ hb

/-- `store` is undefined exactly at unaligned destinations, although it takes any `float*`. -/
theorem C46_store_ub (mem : Mem4 F) (b : ℕ) (p : Point F) :
    storePs mem b p.store = none ↔ b % 4 ≠ 0 := storePs_none mem b _

/-- An accessor stores the register to a local `float out[4]` with an aligned store and returns
`out[i]`: right when the compiler aligns the array to 16 bytes, undefined otherwise. -/
theorem C46_accessor (mem : Mem4 F) (buf : ℕ) (v : V4 F) (i : Fin 4) :
    accessor mem buf v i = if buf % 4 = 0 then some (v.get i) else none :=
  accessor_eq mem buf v i

theorem C46_accessor_plane (mem : Mem4 F) (buf : ℕ) (h : buf % 4 = 0) (a b c d : F) :
    accessor mem buf (Plane.mk4 a b c d).p0 1 = some a ∧
    accessor mem buf (Plane.mk4 a b c d).p0 2 = some b ∧
    accessor mem buf (Plane.mk4 a b c d).p0 3 = some c := by
  simp only [accessor_eq, h, if_true]; exact ⟨rfl, rfl, rfl⟩
end Raw

/-! ### C47: motors from rotors and translators -/

section C47
variable {F : Type} [Add F] [Sub F] [Mul F] [Neg F] [Zero F] [One F] [NatCast F]

/-- Assigning a rotor is the same as constructing from it. -/
theorem C47_rotor_partial (m : Motor F) (r : Rotor F) : m.assignRotor r = Motor.ofRotor r := rfl
end C47

section C47ring
variable {K : Type} [CommRing K]

theorem C47_ctor_rotor_mv_partial (r : Rotor K) : (Motor.ofRotor r).mv = r.mv := by mv_ring
theorem C47_ctor_translator_mv_partial (t : Translator K) (h : t.WF) :
    (Motor.ofTranslator t).mv = t.mv := by
  simp only [Translator.WF] at h
  apply MV.ext <;> simp only [pga, sse, kln, h, neg_zero]

theorem C47_ctor_rotor_onPoint_partial (isa : Isa) (r : Rotor K) (p : Point K) :
    (Motor.ofRotor r).onPoint p = r.onPoint isa p := by
  apply Point.ext; apply V4.ext <;>
    simp only [kln, sse, V4.get, cond_true, cond_false, mul_zero, zero_mul, sub_zero, add_zero] <;>
    ring

theorem C47_ctor_translator_onPoint_partial (t : Translator K) (p : Point K) (h : t.WF) :
    (Motor.ofTranslator t).onPoint p = t.onPoint p := by
  simp only [Translator.WF] at h
  apply Point.ext; apply V4.ext <;>
    simp only [kln, sse, V4.get, cond_true, cond_false, mul_zero, zero_mul, sub_zero, add_zero, h] <;>
    ring

/-- Assigning a translator drops the scalar 1 of the translator: the motor assigned is not the
motor constructed, ... -/
theorem C47_assign_translator_fails [Nontrivial K] (m : Motor K) (t : Translator K) :
    m.assignTranslator t ≠ Motor.ofTranslator t := by
  intro h
  have := congrArg (fun m : Motor K => m.p1.l0) h
  simp [kln, sse] at this

/-- ... its square is 0, ... -/
theorem C47_assign_translator_degenerate (m : Motor K) (t : Translator K) (h : t.WF) :
    (m.assignTranslator t).mv * (m.assignTranslator t).mv = 0 := by
  simp only [Translator.WF] at h
  apply MV.ext <;> simp only [pga, sse, kln, h] <;> ring

/-- ... and it sends every point to 0 instead of translating it. -/
theorem C47_assign_translator_onPoint (m : Motor K) (t : Translator K) (p : Point K) :
    (m.assignTranslator t).onPoint p = ⟨⟨0, 0, 0, 0⟩⟩ := by
  apply Point.ext; apply V4.ext <;>
    simp only [kln, sse, V4.get, cond_true, cond_false, mul_zero, zero_mul, sub_zero, add_zero,
      neg_zero]
end C47ring

/-! ### C48: reversion and negation -/

section C48
variable {K : Type} [CommRing K]
''')
for t in ("Point", "IdealLine", "Branch", "Line", "Rotor", "Motor"):
    w(f"theorem C48_{t}_rev (x : {t} K) : x.rev.mv = PGA.MV.rev x.mv := by mv_ring")
for t in ("Direction", "IdealLine", "Branch", "Line", "Rotor", "Motor"):
    w(f"theorem C48_{t}_neg (x : {t} K) : x.neg.mv = -x.mv := by mv_ring")
w('''
/-- `~(ab) = ~b ~a`. -/
theorem C48_motor_rev_mul (a b : Motor K) : (a.mulMotor b).rev = b.rev.mulMotor a.rev := by
  apply Motor.ext <;> apply V4.ext <;>
    simp only [kln, sse, V4.get, cond_true, cond_false] <;> ring

theorem C48_rotor_rev_mul (a b : Rotor K) : (a.mulRotor b).rev = b.rev.mulRotor a.rev := by
  apply Rotor.ext; apply V4.ext <;>
    simp only [kln, sse, V4.get, cond_true, cond_false] <;> ring

/-- Unary minus on a plane flips the normal and keeps `d`; on a point it mirrors the coordinates
and keeps the weight. -/
theorem C48_plane_neg (a b c d : K) : (Plane.mk4 a b c d).neg = Plane.mk4 (-a) (-b) (-c) d := rfl
theorem C48_point_neg (x y z : K) : (Point.mk3 x y z).neg = Point.mk3 (-x) (-y) (-z) := rfl

/-- On planes and points it is therefore the negation of the algebra only if `d`, `w` vanish. -/
theorem C48_plane_neg_iff (p : Plane K) (h2 : ∀ x : K, x + x = 0 → x = 0) :
    p.neg.mv = -p.mv ↔ p.d = 0 := by
  constructor
  · intro h
    have := congrArg MV.e0 h
    simp only [pga, kln, sse, cond_true, cond_false] at this
    exact h2 _ (by simp only [kln]; linear_combination this)
  · intro h
    simp only [kln] at h
    apply MV.ext <;> simp [pga, kln, sse, h]

/-- Reversing twice is the identity on all bit patterns (also NaN). -/
theorem C48_motor_rev_rev_f32 (m : Motor F32) : m.rev.rev = m := by
  apply Motor.ext <;> apply V4.ext <;>
    simp only [kln, sse, cond_true, cond_false, F32.neg_neg']
theorem C48_rotor_rev_rev_f32 (m : Rotor F32) : m.rev.rev = m := by
  apply Rotor.ext; apply V4.ext <;>
    simp only [kln, sse, cond_true, cond_false, F32.neg_neg']
theorem C48_line_neg_neg_f32 (m : Line F32) : m.neg.neg = m := by
  apply Line.ext <;> apply V4.ext <;>
    simp only [kln, sse, cond_true, cond_false, F32.neg_neg']
end C48

/-! ### C52: linear operations -/

section C52raw
variable {F : Type} [Add F] [Sub F] [Mul F] [Neg F] [Zero F] [One F] [NatCast F]
''')
T = ["Plane", "Point", "Direction", "IdealLine", "Branch", "Line", "Rotor", "Translator", "Motor"]
for t in T:
    w(f'''theorem C52_{t}_assign (hw : Hw F) (cast : ℤ → F) (a b : {t} F) (k : F) (n : ℤ) :
    a.addAssign b = a.add b ∧ a.subAssign b = a.sub b ∧ a.mulAssign k = a.smul k ∧
      a.divAssign hw k = a.sdiv hw k ∧ a.mulAssignInt cast n = a.smul (cast n) ∧
      a.divAssignInt hw cast n = a.sdiv hw (cast n) ∧ a.smulInt cast n = a.smul (cast n) ∧
      a.sdivInt hw cast n = a.sdiv hw (cast n) := ⟨rfl, rfl, rfl, rfl, rfl, rfl, rfl, rfl⟩''')
w('''end C52raw

section C52
variable {K : Type} [CommRing K]
''')
for t in T + ["Dual"]:
    if t == "Translator":
        continue
    w(f'''theorem C52_{t}_add (a b : {t} K) : (a.add b).mv = a.mv + b.mv := by mv_ring
theorem C52_{t}_sub (a b : {t} K) : (a.sub b).mv = a.mv - b.mv := by mv_ring
theorem C52_{t}_smul (a : {t} K) (k : K) : (a.smul k).mv = k • a.mv := by mv_ring''')
w('''
/-- A translator is `1 + ideal part`: its linear operations act on the ideal part, so `+` composes
translations instead of adding multivectors. -/
theorem C52_Translator_add (a b : Translator K) : (a.add b).mv = a.mv + b.mv - 1 ∧
    (a.add b).mv = a.mv * b.mv := by constructor <;> mv_ring
theorem C52_Translator_sub (a b : Translator K) : (a.sub b).mv = a.mv - b.mv + 1 ∧
    (a.sub b).mv = a.mv * PGA.MV.rev b.mv := by constructor <;> mv_ring
theorem C52_Translator_smul (a : Translator K) (k : K) : (a.smul k).mv = 1 + k • (a.mv - 1) := by
  mv_ring
end C52

section C52div
variable {K : Type} [Field K]

theorem rcp_nr1_set1 (hw : Hw K) {k δ : K} (hk : k ≠ 0) (h : k * hw.rcp k = 1 + δ) :
    rcp_nr1 hw (set1_ps k) = set1_ps ((1 - δ ^ 2) * k⁻¹) := by
  have e : hw.rcp k * (2 - k * hw.rcp k) = (1 - δ ^ 2) * k⁻¹ := by
    have e1 : hw.rcp k = k⁻¹ * (1 + δ) := by rw [← h, inv_mul_cancel_left₀ hk]
    rw [h, e1]; ring
  simp only [kln, sse]
  rw [e]

/-- The estimate of `1/k` is off by the factor `1 + δ`; then `x / k` is `x * k⁻¹` times
`1 - δ^2`. -/''')
for t in ["Plane", "Point", "Direction", "IdealLine", "Branch", "Line", "Rotor", "Motor"]:
    w(f'''theorem C52_{t}_sdiv (hw : Hw K) (a : {t} K) (k δ : K) (hk : k ≠ 0) (h : k * hw.rcp k = 1 + δ) :
    (a.sdiv hw k).mv = ((1 - δ ^ 2) * k⁻¹) • a.mv := by
  have e : rcp_nr1 hw (set1_ps k) = set1_ps ((1 - δ ^ 2) * k⁻¹) := rcp_nr1_set1 hw hk h
  unfold {t}.sdiv
  rw [e]
  mv_ring''')
w('''
theorem C52_Dual_sdiv (a : Dual K) (k : K) : (a.sdiv k).mv = k⁻¹ • a.mv := by
  apply MV.ext <;> simp [pga, kln, div_eq_mul_inv, mul_comm]

/-- Division by a scalar undoes multiplication when the estimate is exact. -/
theorem C52_motor_sdiv_smul (hw : Hw K) (a : Motor K) (k : K) (hk : k ≠ 0)
    (h : k * hw.rcp k = 1) : ((a.smul k).sdiv hw k).mv = a.mv := by
  rw [C52_Motor_sdiv hw _ k 0 hk (by rw [h, add_zero]), C52_Motor_smul, smul_smul]
  simp [hk]
end C52div

/-- Concrete: the sum of two planes. -/
theorem C52_example : ((Plane.mk4 1 2 3 4).add (Plane.mk4 5 6 7 8) : Plane ℤ) = Plane.mk4 6 8 10 12 :=
  rfl

end Klein
''')
open(OUT, "w").write("\n".join(o))
