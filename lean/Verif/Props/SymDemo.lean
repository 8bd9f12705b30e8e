import Verif.Props.SymValue
import Verif.Lemmas.Norm
import Verif.Props.SymSession

/-!
# scripts/demo.klein, scripts/test.klein and the session in docs/shell.md

C102.  The demonstration script in variables, and the script with "computations used in various tests" in numbers: the
engine accepts every line and returns what the library computes for the operation named in the comment above it (or, where
the library has no such operation, the product in the specification).  Lines 14, 20
and 29 of demo.klein are lines 286, 283 and 277 of validation.klein (C73).  The session shown in docs/shell.md is run as well.
-/

namespace Klein
namespace Sym

set_option maxRecDepth 8000

variable {K : Type} [CommRing K]

section
variable (a b c d : V4 K) (u v : K) (ρ : List Char → K)
local notation "a0" => ['a', '0']
local notation "a1" => ['a', '1']
local notation "a2" => ['a', '2']
local notation "a3" => ['a', '3']
local notation "b0" => ['b', '0']
local notation "b1" => ['b', '1']
local notation "b2" => ['b', '2']
local notation "b3" => ['b', '3']
local notation "c0" => ['c', '0']
local notation "c1" => ['c', '1']
local notation "c2" => ['c', '2']
local notation "c3" => ['c', '3']
local notation "d0" => ['d', '0']
local notation "d1" => ['d', '1']
local notation "d2" => ['d', '2']
local notation "d3" => ['d', '3']

/-- `1 + e0 + e1 + e2 + e3 + e12 + e31 + e23 + e01 + e02 + e03 + e123 + e021 + e013 + e032 + e0123`. -/
def denseMv (K : Type) [CommRing K] : PGA.MV K :=
  ⟨1, 1, 1, 1, 1, 1, 1, -1, 1, 1, -1, 1, 1, -1, 1, 1⟩

/-- scripts/demo.klein:2. -/
theorem C102_demo2 : Shows (env a b c d u v)
    "(1 + b1 e01 + b2 e02 + b3 e03) * (a0 e123 + a1 e032 + a2 e013 + a3 e021) * (1 - b1 e01 - b2 e02 - b3 e03)"
    (((⟨b.z0⟩ : Translator K).onPoint ⟨a⟩).mv) := by
  shows [(7, ⟨[(⟨[(a3, 1)]⟩, -1),(⟨[(a0, 1),(b3, 1)]⟩, 2)]⟩),(11, ⟨[(⟨[(a2, 1)]⟩, 1),(⟨[(a0, 1),(b2, 1)]⟩,
    -2)]⟩),(13, ⟨[(⟨[(a1, 1)]⟩, -1),(⟨[(a0, 1),(b1, 1)]⟩, 2)]⟩),(14, ⟨[(⟨[(a0, 1)]⟩, 1)]⟩)]
  sym_ring

/-- scripts/demo.klein:5. The scalar is not one, so this is the action of a motor. -/
theorem C102_demo5 (isa : Isa) : Shows (env a b c d u v)
    "(b0 + b1 e01 + b2 e02 + b3 e03) * (a0 e0 + a1 e1 + a2 e2 + a3 e3) * (b0 - b1 e01 - b2 e02 - b3 e03)"
    (((⟨⟨b.l0, 0, 0, 0⟩, b.z0⟩ : Motor K).onPlane isa ⟨a⟩).mv) := by
  shows [(1, ⟨[(⟨[(a0, 1),(b0, 2)]⟩, 1),(⟨[(a1, 1),(b0, 1),(b1, 1)]⟩, 2),(⟨[(a2, 1),(b0, 1),(b2, 1)]⟩, 2),(⟨[(a3,
    1),(b0, 1),(b3, 1)]⟩, 2)]⟩),(2, ⟨[(⟨[(a1, 1),(b0, 2)]⟩, 1)]⟩),(4, ⟨[(⟨[(a2, 1),(b0, 2)]⟩, 1)]⟩),(8, ⟨[(⟨[(a3,
    1),(b0, 2)]⟩, 1)]⟩)]
  cases isa <;> sym_ring

/-- scripts/demo.klein:8. -/
theorem C102_demo8 (isa : Isa) : Shows (env a b c d u v)
    "(b0 + b1 e23 + b2 e31 + b3 e12) * (a0 e123 + a1 e021 + a2 e013 + a3 e032) * (b0 - b1 e23 - b2 e31 - b3 e12)"
    (((⟨b⟩ : Rotor K).onPoint isa ⟨a.rv⟩).mv) := by
  shows [(7, ⟨[(⟨[(a1, 1),(b0, 2)]⟩, -1),(⟨[(a1, 1),(b1, 2)]⟩, 1),(⟨[(a1, 1),(b2, 2)]⟩, 1),(⟨[(a1, 1),(b3, 2)]⟩,
    -1),(⟨[(a2, 1),(b0, 1),(b1, 1)]⟩, 2),(⟨[(a2, 1),(b2, 1),(b3, 1)]⟩, -2),(⟨[(a3, 1),(b0, 1),(b2, 1)]⟩,
    -2),(⟨[(a3, 1),(b1, 1),(b3, 1)]⟩, -2)]⟩),(11, ⟨[(⟨[(a1, 1),(b0, 1),(b1, 1)]⟩, 2),(⟨[(a1, 1),(b2, 1),(b3, 1)]⟩,
    2),(⟨[(a2, 1),(b0, 2)]⟩, 1),(⟨[(a2, 1),(b1, 2)]⟩, -1),(⟨[(a2, 1),(b2, 2)]⟩, 1),(⟨[(a2, 1),(b3, 2)]⟩,
    -1),(⟨[(a3, 1),(b0, 1),(b3, 1)]⟩, -2),(⟨[(a3, 1),(b1, 1),(b2, 1)]⟩, 2)]⟩),(13, ⟨[(⟨[(a1, 1),(b0, 1),(b2, 1)]⟩,
    2),(⟨[(a1, 1),(b1, 1),(b3, 1)]⟩, -2),(⟨[(a2, 1),(b0, 1),(b3, 1)]⟩, -2),(⟨[(a2, 1),(b1, 1),(b2, 1)]⟩,
    -2),(⟨[(a3, 1),(b0, 2)]⟩, -1),(⟨[(a3, 1),(b1, 2)]⟩, -1),(⟨[(a3, 1),(b2, 2)]⟩, 1),(⟨[(a3, 1),(b3, 2)]⟩,
    1)]⟩),(14, ⟨[(⟨[(a0, 1),(b0, 2)]⟩, 1),(⟨[(a0, 1),(b1, 2)]⟩, 1),(⟨[(a0, 1),(b2, 2)]⟩, 1),(⟨[(a0, 1),(b3, 2)]⟩,
    1)]⟩)]
  cases isa <;> sym_ring

/-- scripts/demo.klein:11. -/
theorem C102_demo11 (isa : Isa) : Shows (env a b c d u v)
    "(b0 + b1 e23 + b2 e31 + b3 e12) * (a3 e0 + a2 e1 + a1 e2 + a0 e3) * (b0 - b1 e23 - b2 e31 - b3 e12)"
    (((⟨b⟩ : Rotor K).onPlane isa ⟨a.mirrored⟩).mv) := by
  shows [(1, ⟨[(⟨[(a3, 1),(b0, 2)]⟩, 1),(⟨[(a3, 1),(b1, 2)]⟩, 1),(⟨[(a3, 1),(b2, 2)]⟩, 1),(⟨[(a3, 1),(b3, 2)]⟩,
    1)]⟩),(2, ⟨[(⟨[(a0, 1),(b0, 1),(b2, 1)]⟩, -2),(⟨[(a0, 1),(b1, 1),(b3, 1)]⟩, 2),(⟨[(a1, 1),(b0, 1),(b3, 1)]⟩,
    2),(⟨[(a1, 1),(b1, 1),(b2, 1)]⟩, 2),(⟨[(a2, 1),(b0, 2)]⟩, 1),(⟨[(a2, 1),(b1, 2)]⟩, 1),(⟨[(a2, 1),(b2, 2)]⟩,
    -1),(⟨[(a2, 1),(b3, 2)]⟩, -1)]⟩),(4, ⟨[(⟨[(a0, 1),(b0, 1),(b1, 1)]⟩, 2),(⟨[(a0, 1),(b2, 1),(b3, 1)]⟩,
    2),(⟨[(a1, 1),(b0, 2)]⟩, 1),(⟨[(a1, 1),(b1, 2)]⟩, -1),(⟨[(a1, 1),(b2, 2)]⟩, 1),(⟨[(a1, 1),(b3, 2)]⟩,
    -1),(⟨[(a2, 1),(b0, 1),(b3, 1)]⟩, -2),(⟨[(a2, 1),(b1, 1),(b2, 1)]⟩, 2)]⟩),(8, ⟨[(⟨[(a0, 1),(b0, 2)]⟩,
    1),(⟨[(a0, 1),(b1, 2)]⟩, -1),(⟨[(a0, 1),(b2, 2)]⟩, -1),(⟨[(a0, 1),(b3, 2)]⟩, 1),(⟨[(a1, 1),(b0, 1),(b1, 1)]⟩,
    -2),(⟨[(a1, 1),(b2, 1),(b3, 1)]⟩, 2),(⟨[(a2, 1),(b0, 1),(b2, 1)]⟩, 2),(⟨[(a2, 1),(b1, 1),(b3, 1)]⟩, 2)]⟩)]
  cases isa <;> sym_ring

/-- scripts/demo.klein:17. -/
theorem C102_demo17 : Shows (fun _ => (0 : ℤ))
    "(1 + 2 e23 + 3 e31 + 4 e12 + 5 e01 + 6 e02 + 7 e03 + 8 e0123) * (1e123 + 2e021 + e013 - e032)* (1 - 2 e23 - 3 e31 - 4 e12 - 5 e01 - 6 e02 - 7 e03 + 8 e0123)"
    (((⟨⟨1, 2, 3, 4⟩, ⟨8, 5, 6, 7⟩⟩ : Motor ℤ).onPoint ⟨⟨1, -1, 1, 2⟩⟩).mv) := by
  shows [(7, ⟨[(⟨[]⟩, 78)]⟩),(11, ⟨[(⟨[]⟩, -6)]⟩),(13, ⟨[(⟨[]⟩, -12)]⟩),(14, ⟨[(⟨[]⟩, 30)]⟩)]
  decide +kernel

/-- scripts/demo.klein:23. -/
theorem C102_demo23 (isa : Isa) : Shows (fun _ => (0 : ℤ))
    "(1 + 2 e23 + 3 e31 + 4 e12 + 5 e01 + 6 e02 + 7 e03 + 8 e0123) * (3e1 + 2e2 + e3 - e0)* (1 - 2 e23 - 3 e31 - 4 e12 - 5 e01 - 6 e02 - 7 e03 + 8 e0123)"
    (((⟨⟨1, 2, 3, 4⟩, ⟨8, 5, 6, 7⟩⟩ : Motor ℤ).onPlane isa ⟨⟨-1, 3, 2, 1⟩⟩).mv) := by
  shows [(1, ⟨[(⟨[]⟩, 294)]⟩),(2, ⟨[(⟨[]⟩, -10)]⟩),(4, ⟨[(⟨[]⟩, 20)]⟩),(8, ⟨[(⟨[]⟩, 110)]⟩)]
  cases isa <;> decide +kernel

/-- scripts/demo.klein:26. -/
theorem C102_demo26 : Shows (env a b c d u v)
    "(a0 + a1 e23 + a2 e31 + a3 e12) * (1 + b0 e01 + b1 e02 + b2 e03)"
    (((⟨a⟩ : Rotor K).mulTranslator ⟨⟨0, b.l0, b.l1, b.l2⟩⟩).mv) := by
  shows [(0, ⟨[(⟨[(a0, 1)]⟩, 1)]⟩),(3, ⟨[(⟨[(a0, 1),(b0, 1)]⟩, 1),(⟨[(a2, 1),(b2, 1)]⟩, -1),(⟨[(a3, 1),(b1, 1)]⟩,
    1)]⟩),(5, ⟨[(⟨[(a0, 1),(b1, 1)]⟩, 1),(⟨[(a1, 1),(b2, 1)]⟩, 1),(⟨[(a3, 1),(b0, 1)]⟩, -1)]⟩),(6, ⟨[(⟨[(a3, 1)]⟩,
    1)]⟩),(9, ⟨[(⟨[(a0, 1),(b2, 1)]⟩, 1),(⟨[(a1, 1),(b1, 1)]⟩, -1),(⟨[(a2, 1),(b0, 1)]⟩, 1)]⟩),(10, ⟨[(⟨[(a2,
    1)]⟩, -1)]⟩),(12, ⟨[(⟨[(a1, 1)]⟩, 1)]⟩),(15, ⟨[(⟨[(a1, 1),(b0, 1)]⟩, 1),(⟨[(a2, 1),(b1, 1)]⟩, 1),(⟨[(a3,
    1),(b2, 1)]⟩, 1)]⟩)]
  sym_ring

/-- scripts/demo.klein:32. -/
theorem C102_demo32 : Shows (fun _ => (0 : ℤ))
    "(1 + 2 e23 + 3 e31 + 4 e12 + 5 e01 + 6 e02 + 7 e03 + 8 e0123) * (3e23 + 2e31 + e12 + 1e01 - 2e02)* (1 - 2 e23 - 3 e31 - 4 e12 - 5 e01 - 6 e02 - 7 e03 + 8 e0123)"
    (((⟨⟨1, 2, 3, 4⟩, ⟨8, 5, 6, 7⟩⟩ : Motor ℤ).onLine ⟨⟨0, 3, 2, 1⟩, ⟨0, 1, -2, 0⟩⟩).mv) := by
  shows [(3, ⟨[(⟨[]⟩, -212)]⟩),(5, ⟨[(⟨[]⟩, 292)]⟩),(6, ⟨[(⟨[]⟩, 110)]⟩),(9, ⟨[(⟨[]⟩, 286)]⟩),(10, ⟨[(⟨[]⟩,
    -20)]⟩),(12, ⟨[(⟨[]⟩, -10)]⟩)]
  decide +kernel

/-- scripts/demo.klein:35. -/
theorem C102_demo35 : Shows (env a b c d u v)
    "(b0 + b1 e23 + b2 e31 + b3 e12 + c1 e01 + c2 e02 + c3 e03 + c0 e0123) * e123 * (b0 - b1 e23 - b2 e31 - b3 e12 - c1 e01 - c2 e02 - c3 e03 + c0 e0123)"
    (((⟨b, c⟩ : Motor K).onPoint Point.origin).mv) := by
  shows [(7, ⟨[(⟨[(b0, 1),(c3, 1)]⟩, 2),(⟨[(b1, 1),(c2, 1)]⟩, -2),(⟨[(b2, 1),(c1, 1)]⟩, 2),(⟨[(b3, 1),(c0, 1)]⟩,
    2)]⟩),(11, ⟨[(⟨[(b0, 1),(c2, 1)]⟩, -2),(⟨[(b1, 1),(c3, 1)]⟩, -2),(⟨[(b2, 1),(c0, 1)]⟩, -2),(⟨[(b3, 1),(c1,
    1)]⟩, 2)]⟩),(13, ⟨[(⟨[(b0, 1),(c1, 1)]⟩, 2),(⟨[(b1, 1),(c0, 1)]⟩, 2),(⟨[(b2, 1),(c3, 1)]⟩, -2),(⟨[(b3, 1),(c2,
    1)]⟩, 2)]⟩),(14, ⟨[(⟨[(b0, 2)]⟩, 1),(⟨[(b1, 2)]⟩, 1),(⟨[(b2, 2)]⟩, 1),(⟨[(b3, 2)]⟩, 1)]⟩)]
  sym_ring

/-- scripts/demo.klein:38. -/
theorem C102_demo38 : Shows (env a b c d u v)
    "(b0 + b1 e23 + b2 e31 + b3 e12 + c1 e01 + c2 e02 + c3 e03 + c0 e0123) * (b0 - b1 e23 - b2 e31 - b3 e12 - c1 e01 - c2 e02 - c3 e03 + c0 e0123)"
    (((⟨b, c⟩ : Motor K).mulMotor (⟨b, c⟩ : Motor K).rev).mv) := by
  shows [(0, ⟨[(⟨[(b0, 2)]⟩, 1),(⟨[(b1, 2)]⟩, 1),(⟨[(b2, 2)]⟩, 1),(⟨[(b3, 2)]⟩, 1)]⟩),(15, ⟨[(⟨[(b0, 1),(c0, 1)]⟩,
    2),(⟨[(b1, 1),(c1, 1)]⟩, -2),(⟨[(b2, 1),(c2, 1)]⟩, -2),(⟨[(b3, 1),(c3, 1)]⟩, -2)]⟩)]
  sym_ring

/-- scripts/demo.klein:44. A "squared norm" up to sign. -/
theorem C102_demo44 : Shows (env a b c d u v)
    "(a1 e23 + a2 e31 + a3 e12 + b1 e01 + b2 e02 + b3 e03) * (a1 e23 + a2 e31 + a3 e12 + b1 e01 + b2 e02 + b3 e03)"
    ((⟨a.z0, b.z0⟩ : Line K).mv * (⟨a.z0, b.z0⟩ : Line K).mv) := by
  shows [(0, ⟨[(⟨[(a1, 2)]⟩, -1),(⟨[(a2, 2)]⟩, -1),(⟨[(a3, 2)]⟩, -1)]⟩),(15, ⟨[(⟨[(a1, 1),(b1, 1)]⟩, 2),(⟨[(a2,
    1),(b2, 1)]⟩, 2),(⟨[(a3, 1),(b3, 1)]⟩, 2)]⟩)]
  sym_ring

/-- scripts/demo.klein:47. -/
theorem C102_demo47 : Shows (env a b c d u v)
    "(a1 e23 + a2 e31 + a3 e12 + b1 e01 + b2 e02 + b3 e03) * (a1 e23 + a2 e31 + a3 e12 + b1 e01 + b2 e02 + b3 e03) * e0123"
    ((⟨a.z0, b.z0⟩ : Line K).mv * ((⟨a.z0, b.z0⟩ : Line K).mulDual ⟨0, 1⟩).mv) := by
  shows [(15, ⟨[(⟨[(a1, 2)]⟩, -1),(⟨[(a2, 2)]⟩, -1),(⟨[(a3, 2)]⟩, -1)]⟩)]
  sym_ring

/-- scripts/demo.klein:49. -/
theorem C102_demo49 : Shows (env a b c d u v)
    "(a1 e23 + a2 e31 + a3 e12 + b1 e01 + b2 e02 + b3 e03) * e0123 * (a1 e23 + a2 e31 + a3 e12 + b1 e01 + b2 e02 + b3 e03)"
    (((⟨a.z0, b.z0⟩ : Line K).mulDual ⟨0, 1⟩).mv * (⟨a.z0, b.z0⟩ : Line K).mv) := by
  shows [(15, ⟨[(⟨[(a1, 2)]⟩, -1),(⟨[(a2, 2)]⟩, -1),(⟨[(a3, 2)]⟩, -1)]⟩)]
  sym_ring

/-- scripts/demo.klein:52. -/
theorem C102_demo52 : Shows (env a b c d u v)
    "(b0 + b1 e23 + b2 e31 + b3 e12) * (b0 - b1 e23 - b2 e31 - b3 e12)"
    (((⟨b⟩ : Rotor K).mulRotor (⟨b⟩ : Rotor K).rev).mv) := by
  shows [(0, ⟨[(⟨[(b0, 2)]⟩, 1),(⟨[(b1, 2)]⟩, 1),(⟨[(b2, 2)]⟩, 1),(⟨[(b3, 2)]⟩, 1)]⟩)]
  sym_ring

/-- scripts/demo.klein:55. -/
theorem C102_demo55 : Shows (fun _ => (0 : ℤ))
    "(4e1 - 2e32) & (3e012 + e10)"
    (PGA.MV.vee { (0 : PGA.MV ℤ) with e1 := 4, e23 := 2 } { (0 : PGA.MV ℤ) with e012 := 3, e01 := -1 }) := by
  shows [(0, ⟨[(⟨[]⟩, -2)]⟩),(4, ⟨[(⟨[]⟩, -6)]⟩)]
  decide +kernel

/-- scripts/demo.klein:58. -/
theorem C102_demo58 : Shows (fun _ => (0 : ℤ))
    "(3e0 + e1 + e3) ^ (e0 + e3)"
    (((⟨⟨3, 1, 0, 1⟩⟩ : Plane ℤ).meetPlane ⟨⟨1, 0, 0, 1⟩⟩).mv) := by
  shows [(3, ⟨[(⟨[]⟩, -1)]⟩),(9, ⟨[(⟨[]⟩, 2)]⟩),(10, ⟨[(⟨[]⟩, 1)]⟩)]
  decide +kernel

/-- scripts/demo.klein:61. -/
theorem C102_demo61 (isa : Isa) : Shows (fun _ => (0 : ℤ))
    "(-e01 + 2e03 - e31) ^ (e1 + e3)"
    (((⟨⟨0, 0, -1, 0⟩, ⟨0, -1, 0, 2⟩⟩ : Line ℤ).meetPlane isa ⟨⟨0, 1, 0, 1⟩⟩).mv) := by
  shows [(11, ⟨[(⟨[]⟩, -3)]⟩)]
  cases isa <;> decide +kernel

/-- scripts/demo.klein:62. -/
theorem C102_demo62 (isa : Isa) : Shows (fun _ => (0 : ℤ))
    "(e1 + e3) ^ (-e01 + 2e03 - e31)"
    (((⟨⟨0, 1, 0, 1⟩⟩ : Plane ℤ).meetLine isa (⟨⟨0, 0, -1, 0⟩, ⟨0, -1, 0, 2⟩⟩ : Line ℤ)).mv) := by
  shows [(11, ⟨[(⟨[]⟩, -3)]⟩)]
  cases isa <;> decide +kernel

/-- scripts/demo.klein:41, the product by which `motor::normalize` scales a motor. -/
theorem C102_demo41 : Shows ρ
    "(s + t e0123) * (b0 + b1 e23 + b2 e31 + b3 e12 + c1 e01 + c2 e02 + c3 e03 + c0 e0123)"
    (((⟨⟨ρ b0, ρ b1, ρ b2, ρ b3⟩, ⟨ρ c0, ρ c1, ρ c2, ρ c3⟩⟩ : Motor K).dualSmul (ρ ['s']) (ρ ['t'])).mv) := by
  shows [(0, ⟨[(⟨[(b0, 1), (['s'], 1)]⟩, 1)]⟩), (3, ⟨[(⟨[(b1, 1), (['t'], 1)]⟩, -1), (⟨[(c1, 1), (['s'], 1)]⟩, 1)]⟩), (5, ⟨[(⟨[(b2, 1), (['t'], 1)]⟩, -1), (⟨[(c2, 1), (['s'], 1)]⟩, 1)]⟩), (6, ⟨[(⟨[(b3, 1), (['s'], 1)]⟩, 1)]⟩), (9, ⟨[(⟨[(b3, 1), (['t'], 1)]⟩, -1), (⟨[(c3, 1), (['s'], 1)]⟩, 1)]⟩), (10, ⟨[(⟨[(b2, 1), (['s'], 1)]⟩, -1)]⟩), (12, ⟨[(⟨[(b1, 1), (['s'], 1)]⟩, 1)]⟩), (15, ⟨[(⟨[(b0, 1), (['t'], 1)]⟩, 1), (⟨[(c0, 1), (['s'], 1)]⟩, 1)]⟩)]
  unfold Motor.dualSmul
  sym_ring

/-- scripts/test.klein:4. -/
theorem C102_test4 : Shows (fun _ => (0 : ℤ))
    "(e02 + e12 + 2 e31 + 3 e23) * (-2 e01 + e02 + 4 e03)"
    ((⟨⟨0, 3, 2, 1⟩, ⟨0, 0, 1, 0⟩⟩ : Line ℤ).mv * (⟨⟨0, -2, 1, 4⟩⟩ : IdealLine ℤ).mv) := by
  shows [(3, ⟨[(⟨[]⟩, -7)]⟩),(5, ⟨[(⟨[]⟩, 14)]⟩),(9, ⟨[(⟨[]⟩, -7)]⟩)]
  decide +kernel

/-- scripts/test.klein:7. -/
theorem C102_test7 : Shows (fun _ => (0 : ℤ))
    "(e03 + e12 + 2 e31 + 3 e23) * (-2 e032 + e013 + 4 e021 + e123)"
    ((⟨⟨0, 3, 2, 1⟩, ⟨0, 0, 0, 1⟩⟩ : Line ℤ).mv * (⟨⟨1, -2, 1, 4⟩⟩ : Point ℤ).mv) := by
  shows [(2, ⟨[(⟨[]⟩, -3)]⟩),(4, ⟨[(⟨[]⟩, -2)]⟩),(8, ⟨[(⟨[]⟩, -1)]⟩),(7, ⟨[(⟨[]⟩, 8)]⟩),(11, ⟨[(⟨[]⟩, 14)]⟩),(13,
    ⟨[(⟨[]⟩, 7)]⟩)]
  decide +kernel

/-- scripts/test.klein:10. -/
theorem C102_test10 : Shows (fun _ => (0 : ℤ))
    "(-2 e032 + e013 + 4 e021 + e123) * (e03 + e12 + 2 e31 + 3 e23)"
    ((⟨⟨1, -2, 1, 4⟩⟩ : Point ℤ).mv * (⟨⟨0, 3, 2, 1⟩, ⟨0, 0, 0, 1⟩⟩ : Line ℤ).mv) := by
  shows [(2, ⟨[(⟨[]⟩, -3)]⟩),(4, ⟨[(⟨[]⟩, -2)]⟩),(8, ⟨[(⟨[]⟩, -1)]⟩),(7, ⟨[(⟨[]⟩, -8)]⟩),(11, ⟨[(⟨[]⟩,
    -14)]⟩),(13, ⟨[(⟨[]⟩, -7)]⟩)]
  decide +kernel

/-- scripts/test.klein:13. -/
theorem C102_test13 : Shows (fun _ => (0 : ℤ))
    "(1 + e0 + e1 + e2 + e3 + e12 + e31 + e23 + e01 + e02 + e03 + e123 + e021 + e013 + e032 + e0123) * (1 + e0 + e1 + e2 + e3 + e12 + e31 + e23 + e01 + e02 + e03 + e123 + e021 + e013 + e032 + e0123)"
    (denseMv ℤ * denseMv ℤ) := by
  shows [(1, ⟨[(⟨[]⟩, 8)]⟩),(6, ⟨[(⟨[]⟩, 4)]⟩),(10, ⟨[(⟨[]⟩, -4)]⟩),(12, ⟨[(⟨[]⟩, 4)]⟩),(14, ⟨[(⟨[]⟩, 8)]⟩),(15,
    ⟨[(⟨[]⟩, 8)]⟩)]
  decide +kernel

/-- scripts/test.klein:16. -/
theorem C102_test16 : Shows (fun _ => (0 : ℤ))
    "(e1 + 2e2 + 3e3 + 4e0) ^ (2e1 + 3e2 - e3 - 2e0)"
    (((⟨⟨4, 1, 2, 3⟩⟩ : Plane ℤ).meetPlane ⟨⟨-2, 2, 3, -1⟩⟩).mv) := by
  shows [(3, ⟨[(⟨[]⟩, 10)]⟩),(5, ⟨[(⟨[]⟩, 16)]⟩),(6, ⟨[(⟨[]⟩, -1)]⟩),(9, ⟨[(⟨[]⟩, 2)]⟩),(10, ⟨[(⟨[]⟩, -7)]⟩),(12,
    ⟨[(⟨[]⟩, -11)]⟩)]
  decide +kernel

/-- scripts/test.klein:19. -/
theorem C102_test19 (isa : Isa) : Shows (fun _ => (0 : ℤ))
    "(e1 + 2e2 + 3e3 + 4e0) ^ (e03 - 2e12 + e31 + 4e23)"
    (((⟨⟨4, 1, 2, 3⟩⟩ : Plane ℤ).meetLine isa (⟨⟨0, 4, 1, -2⟩, ⟨0, 0, 0, 1⟩⟩ : Line ℤ)).mv) := by
  shows [(7, ⟨[(⟨[]⟩, -8)]⟩),(11, ⟨[(⟨[]⟩, -5)]⟩),(13, ⟨[(⟨[]⟩, 14)]⟩)]
  cases isa <;> decide +kernel

/-- scripts/test.klein:22. -/
theorem C102_test22 : Shows (fun _ => (0 : ℤ))
    "(e1 + 2e2 + 3e3 + 4e0) ^ (-2e01 + e02 + 4e03)"
    (((⟨⟨4, 1, 2, 3⟩⟩ : Plane ℤ).meetIdealLine ⟨⟨0, -2, 1, 4⟩⟩).mv) := by
  shows [(7, ⟨[(⟨[]⟩, -5)]⟩),(11, ⟨[(⟨[]⟩, -10)]⟩),(13, ⟨[(⟨[]⟩, -5)]⟩)]
  decide +kernel

/-- scripts/test.klein:25. -/
theorem C102_test25 (isa : Isa) : Shows (fun _ => (0 : ℤ))
    "(e1 + 2e2 + 3e3 + 4e0) ^ (e123 + -2e032 + e013 + 4e021)"
    (((⟨⟨4, 1, 2, 3⟩⟩ : Plane ℤ).meetPoint isa ⟨⟨1, -2, 1, 4⟩⟩).mv) := by
  shows [(15, ⟨[(⟨[]⟩, 16)]⟩)]
  cases isa <;> decide +kernel

/-- scripts/test.klein:28. -/
theorem C102_test28 (isa : Isa) : Shows (fun _ => (0 : ℤ))
    "(e03 - 2e12 + e31 + 4e23) ^ (e1 + 2e2 + 3e3 + 4e0)"
    (((⟨⟨0, 4, 1, -2⟩, ⟨0, 0, 0, 1⟩⟩ : Line ℤ).meetPlane isa ⟨⟨4, 1, 2, 3⟩⟩).mv) := by
  shows [(7, ⟨[(⟨[]⟩, -8)]⟩),(11, ⟨[(⟨[]⟩, -5)]⟩),(13, ⟨[(⟨[]⟩, 14)]⟩)]
  cases isa <;> decide +kernel

/-- scripts/test.klein:31. -/
theorem C102_test31 : Shows (fun _ => (0 : ℤ))
    "(e01 + e12 + 2e31 + 3e23) ^ (e02 - 2e12 + e31 + 4e23)"
    (((⟨⟨0, 3, 2, 1⟩, ⟨0, 1, 0, 0⟩⟩ : Line ℤ).meetLine (⟨⟨0, 4, 1, -2⟩, ⟨0, 0, 1, 0⟩⟩ : Line ℤ)).mv) := by
  shows [(15, ⟨[(⟨[]⟩, 6)]⟩)]
  decide +kernel

/-- scripts/test.klein:34. -/
theorem C102_test34 : Shows (fun _ => (0 : ℤ))
    "(e03 - 2e12 + e31 + 4e23) ^ (-2e01 + e02 + 4e03)"
    (((⟨⟨0, 4, 1, -2⟩, ⟨0, 0, 0, 1⟩⟩ : Line ℤ).meetIdealLine ⟨⟨0, -2, 1, 4⟩⟩).mv) := by
  shows [(15, ⟨[(⟨[]⟩, -15)]⟩)]
  decide +kernel

/-- scripts/test.klein:37. -/
theorem C102_test37 : Shows (fun _ => (0 : ℤ))
    "(e01 + e12 + 2e31 + 3e23) ^ (e123 - 2e032 + e013 + 4e021)"
    (0) := by
  shows []
  decide +kernel

/-- scripts/test.klein:40. -/
theorem C102_test40 : Shows (fun _ => (0 : ℤ))
    "(-2e01 + e02 + 4e03) ^ (e1 + 2e2 + 3e3 + 4e0)"
    (((⟨⟨0, -2, 1, 4⟩⟩ : IdealLine ℤ).meetPlane ⟨⟨4, 1, 2, 3⟩⟩).mv) := by
  shows [(7, ⟨[(⟨[]⟩, -5)]⟩),(11, ⟨[(⟨[]⟩, -10)]⟩),(13, ⟨[(⟨[]⟩, -5)]⟩)]
  decide +kernel

/-- scripts/test.klein:43. -/
theorem C102_test43 : Shows (fun _ => (0 : ℤ))
    "(-2e01 + e02 + 4e03) ^ (e03 - 2e12 + e31 + 4e23)"
    (((⟨⟨0, -2, 1, 4⟩⟩ : IdealLine ℤ).meetLine (⟨⟨0, 4, 1, -2⟩, ⟨0, 0, 0, 1⟩⟩ : Line ℤ)).mv) := by
  shows [(15, ⟨[(⟨[]⟩, -15)]⟩)]
  decide +kernel

/-- scripts/test.klein:46. -/
theorem C102_test46 (isa : Isa) : Shows (fun _ => (0 : ℤ))
    "(e123 + -2e032 + e013 + 4e021) ^ (e1 + 2e2 + 3e3 + 4e0)"
    (((⟨⟨1, -2, 1, 4⟩⟩ : Point ℤ).meetPlane isa ⟨⟨4, 1, 2, 3⟩⟩).mv) := by
  shows [(15, ⟨[(⟨[]⟩, -16)]⟩)]
  cases isa <;> decide +kernel

/-- scripts/test.klein:49. -/
theorem C102_test49 : Shows (fun _ => (0 : ℤ))
    "(e123 - 2e032 + e013 + 4e021) ^ (e01 + e12 + 2e31 + 3e23)"
    (0) := by
  shows []
  decide +kernel

/-- scripts/test.klein:52. -/
theorem C102_test52 : Shows (fun _ => (0 : ℤ))
    "(e01 + 2e02 + 3e03) ^ (e123 - 2e032 + e013 + 4e021)"
    (0) := by
  shows []
  decide +kernel

/-- scripts/test.klein:55. -/
theorem C102_test55 : Shows (fun _ => (0 : ℤ))
    "(e123 + e032 + 2e013 + 3e021) ^ (e123 - 2e032 + e013 + 4e021)"
    (0) := by
  shows []
  decide +kernel

/-- scripts/test.klein:58. -/
theorem C102_test58 (isa : Isa) : Shows (fun _ => (0 : ℤ))
    "(e1 + 2e2 + 3e3 + 4e0) | (2e1 + 3e2 -e3 -2e0)"
    (scalarMv ((⟨⟨4, 1, 2, 3⟩⟩ : Plane ℤ).dotPlane isa ⟨⟨-2, 2, 3, -1⟩⟩)) := by
  shows [(0, ⟨[(⟨[]⟩, 5)]⟩)]
  cases isa <;> decide +kernel

/-- scripts/test.klein:61. -/
theorem C102_test61 : Shows (fun _ => (0 : ℤ))
    "(e1 + 2e2 + 3e3 + 4e0) | (e03 - 2e12 + e31 + 4e23)"
    (((⟨⟨4, 1, 2, 3⟩⟩ : Plane ℤ).dotLine (⟨⟨0, 4, 1, -2⟩, ⟨0, 0, 0, 1⟩⟩ : Line ℤ)).mv) := by
  shows [(1, ⟨[(⟨[]⟩, -3)]⟩),(2, ⟨[(⟨[]⟩, 7)]⟩),(4, ⟨[(⟨[]⟩, -14)]⟩),(8, ⟨[(⟨[]⟩, 7)]⟩)]
  decide +kernel

/-- scripts/test.klein:64. -/
theorem C102_test64 (isa : Isa) : Shows (fun _ => (0 : ℤ))
    "(e1 + 2e2 + 3e3 + 4e0) | (-2e01 + e02 + 4e03)"
    (((⟨⟨4, 1, 2, 3⟩⟩ : Plane ℤ).dotIdealLine isa ⟨⟨0, -2, 1, 4⟩⟩).mv) := by
  shows [(1, ⟨[(⟨[]⟩, -12)]⟩)]
  cases isa <;> decide +kernel

/-- scripts/test.klein:67. -/
theorem C102_test67 (isa : Isa) : Shows (fun _ => (0 : ℤ))
    "(e1 + 2e2 + 3e3 + 4e0) | (e123 -2e032 + e013 + 4e021)"
    (((⟨⟨4, 1, 2, 3⟩⟩ : Plane ℤ).dotPoint isa ⟨⟨1, -2, 1, 4⟩⟩).mv) := by
  shows [(3, ⟨[(⟨[]⟩, -5)]⟩),(5, ⟨[(⟨[]⟩, 10)]⟩),(6, ⟨[(⟨[]⟩, 3)]⟩),(9, ⟨[(⟨[]⟩, -5)]⟩),(10, ⟨[(⟨[]⟩, -2)]⟩),(12,
    ⟨[(⟨[]⟩, 1)]⟩)]
  cases isa <;> decide +kernel

/-- scripts/test.klein:70. -/
theorem C102_test70 : Shows (fun _ => (0 : ℤ))
    "(e03 - 2e12 + e31 + 4e23) | (e1 + 2e2 + 3e3 + 4e0)"
    (((⟨⟨0, 4, 1, -2⟩, ⟨0, 0, 0, 1⟩⟩ : Line ℤ).dotPlane ⟨⟨4, 1, 2, 3⟩⟩).mv) := by
  shows [(1, ⟨[(⟨[]⟩, 3)]⟩),(2, ⟨[(⟨[]⟩, -7)]⟩),(4, ⟨[(⟨[]⟩, 14)]⟩),(8, ⟨[(⟨[]⟩, -7)]⟩)]
  decide +kernel

/-- scripts/test.klein:73. -/
theorem C102_test73 : Shows (fun _ => (0 : ℤ))
    "(e01 + e12 + 2e31 + 3e23) | (e02 - 2e12 + e31 + 4e23)"
    (scalarMv ((⟨⟨0, 3, 2, 1⟩, ⟨0, 1, 0, 0⟩⟩ : Line ℤ).dotLine (⟨⟨0, 4, 1, -2⟩, ⟨0, 0, 1, 0⟩⟩ : Line ℤ))) := by
  shows [(0, ⟨[(⟨[]⟩, -12)]⟩)]
  decide +kernel

/-- scripts/test.klein:76. -/
theorem C102_test76 : Shows (fun _ => (0 : ℤ))
    "(e03 - 2e12 + e31 + 4e23) | (-2e01 + e02 + 4e03)"
    (0) := by
  shows []
  decide +kernel

/-- scripts/test.klein:79. -/
theorem C102_test79 (isa : Isa) : Shows (fun _ => (0 : ℤ))
    "(e03 + e12 + 2e31 + 3e23) | (e123 -2e032 + e013 + 4e021)"
    (((⟨⟨0, 3, 2, 1⟩, ⟨0, 0, 0, 1⟩⟩ : Line ℤ).dotPoint isa ⟨⟨1, -2, 1, 4⟩⟩).mv) := by
  shows [(2, ⟨[(⟨[]⟩, -3)]⟩),(4, ⟨[(⟨[]⟩, -2)]⟩),(8, ⟨[(⟨[]⟩, -1)]⟩)]
  cases isa <;> decide +kernel

/-- scripts/test.klein:82. -/
theorem C102_test82 (isa : Isa) : Shows (fun _ => (0 : ℤ))
    "(-2e01 + e02 + 4e03) | (e1 + 2e2 + 3e3 + 4e0)"
    (((⟨⟨0, -2, 1, 4⟩⟩ : IdealLine ℤ).dotPlane isa ⟨⟨4, 1, 2, 3⟩⟩).mv) := by
  shows [(1, ⟨[(⟨[]⟩, 12)]⟩)]
  cases isa <;> decide +kernel

/-- scripts/test.klein:85. -/
theorem C102_test85 : Shows (fun _ => (0 : ℤ))
    "(-2e01 + e02 + 4e03) | (e03 + e12 + 2e31 + 3e23)"
    (0) := by
  shows []
  decide +kernel

/-- scripts/test.klein:88. -/
theorem C102_test88 : Shows (fun _ => (0 : ℤ))
    "(-2e01 + e02 + 4e03) | (e123 - 2e032 + 1e013 + 4e021)"
    (0) := by
  shows []
  decide +kernel

/-- scripts/test.klein:91. -/
theorem C102_test91 (isa : Isa) : Shows (fun _ => (0 : ℤ))
    "(e123 - 2e032 + e013 + 4e021) | (e1 + 2e2 + 3e3 + 4e0)"
    (((⟨⟨1, -2, 1, 4⟩⟩ : Point ℤ).dotPlane isa ⟨⟨4, 1, 2, 3⟩⟩).mv) := by
  shows [(3, ⟨[(⟨[]⟩, -5)]⟩),(5, ⟨[(⟨[]⟩, 10)]⟩),(6, ⟨[(⟨[]⟩, 3)]⟩),(9, ⟨[(⟨[]⟩, -5)]⟩),(10, ⟨[(⟨[]⟩, -2)]⟩),(12,
    ⟨[(⟨[]⟩, 1)]⟩)]
  cases isa <;> decide +kernel

/-- scripts/test.klein:94. -/
theorem C102_test94 (isa : Isa) : Shows (fun _ => (0 : ℤ))
    "(e123 - 2e032 + e013 + 4e021) | (e03 + e12 + 2e31 + 3e23)"
    (((⟨⟨1, -2, 1, 4⟩⟩ : Point ℤ).dotLine isa (⟨⟨0, 3, 2, 1⟩, ⟨0, 0, 0, 1⟩⟩ : Line ℤ)).mv) := by
  shows [(2, ⟨[(⟨[]⟩, -3)]⟩),(4, ⟨[(⟨[]⟩, -2)]⟩),(8, ⟨[(⟨[]⟩, -1)]⟩)]
  cases isa <;> decide +kernel

/-- scripts/test.klein:97. -/
theorem C102_test97 : Shows (fun _ => (0 : ℤ))
    "(e123 - 2e032 + e013 + 4e021) | (e01 + 2e02 + 3e03)"
    (0) := by
  shows []
  decide +kernel

/-- scripts/test.klein:100. -/
theorem C102_test100 : Shows (fun _ => (0 : ℤ))
    "(e123 + e032 + 2e013 + 3e021) | (e123 - 2e032 + e013 + 4e021)"
    (scalarMv ((⟨⟨1, 1, 2, 3⟩⟩ : Point ℤ).dotPoint ⟨⟨1, -2, 1, 4⟩⟩)) := by
  shows [(0, ⟨[(⟨[]⟩, -1)]⟩)]
  decide +kernel

/-- scripts/test.klein:103. -/
theorem C102_test103 : Shows (fun _ => (0 : ℤ))
    "(1 + e0 + e1 + e2 + e3 + e12 + e31 + e23 + e01 + e02 + e03 + e123 + e021 + e013 + e032 + e0123) | (1 + e0 + e1 + e2 + e3 + e12 + e31 + e23 + e01 + e02 + e03 + e123 + e021 + e013 + e032 + e0123)"
    (PGA.MV.inner (denseMv ℤ) (denseMv ℤ)) := by
  shows [(0, ⟨[(⟨[]⟩, -1)]⟩),(1, ⟨[(⟨[]⟩, 6)]⟩),(2, ⟨[(⟨[]⟩, -2)]⟩),(4, ⟨[(⟨[]⟩, -2)]⟩),(8, ⟨[(⟨[]⟩, -2)]⟩),(3,
    ⟨[(⟨[]⟩, -2)]⟩),(5, ⟨[(⟨[]⟩, -2)]⟩),(6, ⟨[(⟨[]⟩, 2)]⟩),(9, ⟨[(⟨[]⟩, -2)]⟩),(10, ⟨[(⟨[]⟩, -2)]⟩),(12, ⟨[(⟨[]⟩,
    2)]⟩)]
  decide +kernel

/-- scripts/test.klein:106. -/
theorem C102_test106 : Shows (fun _ => (0 : ℤ))
    "(3e1 + 2e2 + e3 - e0) * (e1 + 2e2 - e3 - 3e0) *(3e1 + 2e2 + e3 - e0)"
    (((⟨⟨-1, 3, 2, 1⟩⟩ : Plane ℤ).onPlane ⟨⟨-3, 1, 2, -1⟩⟩).mv) := by
  shows [(1, ⟨[(⟨[]⟩, 30)]⟩),(2, ⟨[(⟨[]⟩, 22)]⟩),(4, ⟨[(⟨[]⟩, -4)]⟩),(8, ⟨[(⟨[]⟩, 26)]⟩)]
  decide +kernel

/-- scripts/test.klein:109. -/
theorem C102_test109 : Shows (fun _ => (0 : ℤ))
    "(3e1 + 2e2 + e3 - e0) * (e01 - 2e02 + 3e03 - 4e12 + 5e31 + 6e23) *(3e1 + 2e2 + e3 - e0)"
    (((⟨⟨-1, 3, 2, 1⟩⟩ : Plane ℤ).onLine (⟨⟨0, 6, 5, -4⟩, ⟨0, 1, -2, 3⟩⟩ : Line ℤ)).mv) := by
  shows [(3, ⟨[(⟨[]⟩, 28)]⟩),(5, ⟨[(⟨[]⟩, -72)]⟩),(6, ⟨[(⟨[]⟩, 104)]⟩),(9, ⟨[(⟨[]⟩, 32)]⟩),(10, ⟨[(⟨[]⟩,
    -26)]⟩),(12, ⟨[(⟨[]⟩, 60)]⟩)]
  decide +kernel

/-- scripts/test.klein:112. -/
theorem C102_test112 : Shows (fun _ => (0 : ℤ))
    "(3e1 + 2e2 + e3 - e0) * (e123 + 4e032 - 2e013 - e021) *(3e1 + 2e2 + e3 - e0)"
    (((⟨⟨-1, 3, 2, 1⟩⟩ : Plane ℤ).onPoint ⟨⟨1, 4, -2, -1⟩⟩).mv) := by
  shows [(7, ⟨[(⟨[]⟩, 26)]⟩),(11, ⟨[(⟨[]⟩, -52)]⟩),(13, ⟨[(⟨[]⟩, -20)]⟩),(14, ⟨[(⟨[]⟩, 14)]⟩)]
  decide +kernel

/-- scripts/test.klein:115. -/
theorem C102_test115 (isa : Isa) : Shows (fun _ => (0 : ℤ))
    "(1 + 2e12 - 3e31 + 4e23) * (2e0 + 3e1 + 4e2 + 5e3) * (1 - 2e12 + 3e31 - 4e23)"
    (((⟨⟨1, 4, -3, 2⟩⟩ : Rotor ℤ).onPlane isa ⟨⟨2, 3, 4, 5⟩⟩).mv) := by
  shows [(1, ⟨[(⟨[]⟩, 60)]⟩),(2, ⟨[(⟨[]⟩, 42)]⟩),(4, ⟨[(⟨[]⟩, -144)]⟩),(8, ⟨[(⟨[]⟩, -150)]⟩)]
  cases isa <;> decide +kernel

/-- scripts/test.klein:118. -/
theorem C102_test118 (isa : Isa) : Shows (fun _ => (0 : ℤ))
    "(1 + 2e12 - 3e31 + 4e23) * (2e123 + 3e032 + 4e013 + 5e021) * (1 - 2e12 + 3e31 - 4e23)"
    (((⟨⟨1, 4, -3, 2⟩⟩ : Rotor ℤ).onPoint isa ⟨⟨2, 3, 4, 5⟩⟩).mv) := by
  shows [(7, ⟨[(⟨[]⟩, 150)]⟩),(11, ⟨[(⟨[]⟩, -144)]⟩),(13, ⟨[(⟨[]⟩, -42)]⟩),(14, ⟨[(⟨[]⟩, 60)]⟩)]
  cases isa <;> decide +kernel

/-- scripts/test.klein:121. -/
theorem C102_test121 : Shows (fun _ => (0 : ℤ))
    "(1 + 2e12 - 3e31 + 4e23) * (-e01 + 2e02 - 3e03 + 4e12 + 5e31 - 6e23) * (1 - 2e12 + 3e31 - 4e23)"
    (((⟨⟨1, 4, -3, 2⟩⟩ : Rotor ℤ).onLine (⟨⟨0, -6, 5, 4⟩, ⟨0, -1, 2, -3⟩⟩ : Line ℤ)).mv) := by
  shows [(3, ⟨[(⟨[]⟩, -110)]⟩),(5, ⟨[(⟨[]⟩, 20)]⟩),(6, ⟨[(⟨[]⟩, -240)]⟩),(9, ⟨[(⟨[]⟩, 10)]⟩),(10, ⟨[(⟨[]⟩,
    -102)]⟩),(12, ⟨[(⟨[]⟩, -36)]⟩)]
  decide +kernel

/-- scripts/test.klein:124. -/
theorem C102_test124 : Shows (fun _ => (0 : ℤ))
    "(1 - 5e01 - 2e02 + 2e03) * (-e01 + 2e02 - 3e03 + 4e12 + 5e31 - 6e23) * (1 + 5e01 + 2e02 - 2e03)"
    (((⟨⟨0, -5, -2, 2⟩⟩ : Translator ℤ).onLine (⟨⟨0, -6, 5, 4⟩, ⟨0, -1, 2, -3⟩⟩ : Line ℤ)).mv) := by
  shows [(3, ⟨[(⟨[]⟩, 35)]⟩),(5, ⟨[(⟨[]⟩, -14)]⟩),(6, ⟨[(⟨[]⟩, 4)]⟩),(9, ⟨[(⟨[]⟩, 71)]⟩),(10, ⟨[(⟨[]⟩, -5)]⟩),(12,
    ⟨[(⟨[]⟩, -6)]⟩)]
  decide +kernel

/-- scripts/test.klein:127. -/
theorem C102_test127 : Shows (fun _ => (0 : ℤ))
    "(2 - e12 + 3e31 + 4e23 - 5e01 - 2e02 + 2e03 - 3e0123) * (-e01 + 2e02 - 3e03 + 4e12 + 5e31 - 6e23) * (2 + e12 - 3e31 - 4e23 + 5e01 + 2e02 - 2e03 - 3e0123)"
    (((⟨⟨2, 4, 3, -1⟩, ⟨-3, -5, -2, 2⟩⟩ : Motor ℤ).onLine (⟨⟨0, -6, 5, 4⟩, ⟨0, -1, 2, -3⟩⟩ : Line ℤ)).mv) := by
  shows [(3, ⟨[(⟨[]⟩, 6)]⟩),(5, ⟨[(⟨[]⟩, 522)]⟩),(6, ⟨[(⟨[]⟩, -214)]⟩),(9, ⟨[(⟨[]⟩, 96)]⟩),(10, ⟨[(⟨[]⟩,
    148)]⟩),(12, ⟨[(⟨[]⟩, -40)]⟩)]
  decide +kernel

/-- scripts/test.klein:130. -/
theorem C102_test130 (isa : Isa) : Shows (fun _ => (0 : ℤ))
    "(1 + 2e12 - 3e31 + 4e23 + 5e01 + 6e02 + 7e03 + 8e0123) * (2e0 + 3e1 + 4e2 + 5e3) * (1 - 2e12 + 3e31 - 4e23 - 5e01 - 6e02 - 7e03 + 8e0123)"
    (((⟨⟨1, 4, -3, 2⟩, ⟨8, 5, 6, 7⟩⟩ : Motor ℤ).onPlane isa ⟨⟨2, 3, 4, 5⟩⟩).mv) := by
  shows [(1, ⟨[(⟨[]⟩, 416)]⟩),(2, ⟨[(⟨[]⟩, 42)]⟩),(4, ⟨[(⟨[]⟩, -144)]⟩),(8, ⟨[(⟨[]⟩, -150)]⟩)]
  cases isa <;> decide +kernel

/-- scripts/test.klein:133. -/
theorem C102_test133 : Shows (fun _ => (0 : ℤ))
    "(1 + 2e12 - 3e31 + 4e23 + 5e01 + 6e02 + 7e03 + 8e0123) * (2e123 + 3e032 + 4e013 + 5e021) * (1 - 2e12 + 3e31 - 4e23 - 5e01 - 6e02 - 7e03 + 8e0123)"
    (((⟨⟨1, 4, -3, 2⟩, ⟨8, 5, 6, 7⟩⟩ : Motor ℤ).onPoint ⟨⟨2, 3, 4, 5⟩⟩).mv) := by
  shows [(7, ⟨[(⟨[]⟩, 86)]⟩),(11, ⟨[(⟨[]⟩, -144)]⟩),(13, ⟨[(⟨[]⟩, 238)]⟩),(14, ⟨[(⟨[]⟩, 60)]⟩)]
  decide +kernel

/-- scripts/test.klein:136. -/
theorem C102_test136 : Shows (fun _ => (0 : ℤ))
    "(1 + 2e12 - 3e31 + 4e23 + 5e01 + 6e02 + 7e03 + 8e0123) * e123 * (1 - 2e12 + 3e31 - 4e23 - 5e01 - 6e02 - 7e03 + 8e0123)"
    (((⟨⟨1, 4, -3, 2⟩, ⟨8, 5, 6, 7⟩⟩ : Motor ℤ).onPoint Point.origin).mv) := by
  shows [(7, ⟨[(⟨[]⟩, -32)]⟩),(13, ⟨[(⟨[]⟩, 140)]⟩),(14, ⟨[(⟨[]⟩, 30)]⟩)]
  decide +kernel

/-- scripts/test.klein:139. -/
theorem C102_test139 : Shows (fun _ => (0 : ℤ))
    "(2 + 3e23 + 4e31 + 5e12) * (6 + 7e23 + 8e31 + 9e12)"
    (((⟨⟨2, 3, 4, 5⟩⟩ : Rotor ℤ).mulRotor (⟨⟨6, 7, 8, 9⟩⟩ : Rotor ℤ)).mv) := by
  shows [(0, ⟨[(⟨[]⟩, -86)]⟩),(6, ⟨[(⟨[]⟩, 52)]⟩),(10, ⟨[(⟨[]⟩, -32)]⟩),(12, ⟨[(⟨[]⟩, 36)]⟩)]
  decide +kernel

/-- scripts/test.klein:142. -/
theorem C102_test142 : Shows (fun _ => (0 : ℤ))
    "(2 + 3e23 + 4e31 + 5e12 + 6e01 + 7e02 + 8e03 + 9e0123) * (6 + 7e23 + 8e31 + 9e12 + 10e01 + 11e02 + 12e03 + 13e0123)"
    (((⟨⟨2, 3, 4, 5⟩, ⟨9, 6, 7, 8⟩⟩ : Motor ℤ).mulMotor (⟨⟨6, 7, 8, 9⟩, ⟨13, 10, 11, 12⟩⟩ : Motor ℤ)).mv) := by
  shows [(0, ⟨[(⟨[]⟩, -86)]⟩),(3, ⟨[(⟨[]⟩, -38)]⟩),(5, ⟨[(⟨[]⟩, -76)]⟩),(6, ⟨[(⟨[]⟩, 52)]⟩),(9, ⟨[(⟨[]⟩,
    -66)]⟩),(10, ⟨[(⟨[]⟩, -32)]⟩),(12, ⟨[(⟨[]⟩, 36)]⟩),(15, ⟨[(⟨[]⟩, 384)]⟩)]
  decide +kernel

/-- scripts/test.klein:145. -/
theorem C102_test145 : Shows (fun _ => (0 : ℤ))
    "(e23 - 2e31 - 3e12) * (2e23 + e31 + 3e12)"
    (((⟨⟨0, 1, -2, -3⟩⟩ : Branch ℤ).mulBranch (⟨⟨0, 2, 1, 3⟩⟩ : Branch ℤ)).mv) := by
  shows [(0, ⟨[(⟨[]⟩, 9)]⟩),(6, ⟨[(⟨[]⟩, -5)]⟩),(10, ⟨[(⟨[]⟩, -9)]⟩),(12, ⟨[(⟨[]⟩, 3)]⟩)]
  decide +kernel

end

theorem toList_of {s : String} {cs : List Char} (h : s = String.ofList cs) : s.toList = cs := by
  rw [h, String.toList_ofList]

open Lean Elab Tactic Meta in
/-- Spells out the characters of a string constant in the goal (the kernel is slow at decoding strings). -/
elab "chars " n:ident : tactic => do
  let c ← Term.elabTerm n none
  let .lit (.strVal s) ← whnfD c | throwError "not a string literal"
  let cs ← Term.exprToSyntax (toExpr s.toList)
  evalTactic (← `(tactic| rw [toList_of (show $n = String.ofList $cs from rfl)]))

/-- The input shown in docs/shell.md:17-22. -/
def shellDoc : String :=
  "# test.klein\n# My klein test\n\n(a0 e123 + a1 e021 + a2 e013 + a3 e032) * (b0 + b1 e12 + b2 e31 + b3 e23)\n"
/-- What the shell prints for it. -/
def shellOut : String :=
  "# test.klein\n# My klein test\n\n(a1 b1 + a2 b2 + a3 b3) e0 + -a0 b3 e1 + -a0 b2 e2 + -a0 b1 e3 + (-a1 b0 + -a2 b3 + a3 b2) e012 + (-a1 b3 + a2 b0 + a3 b1) e013 + (-a1 b2 + a2 b1 + -a3 b0) e023 + a0 b0 e123\n"
/-- What docs/shell.md:28-33 says it prints. -/
def shellSays : String :=
  "# test.klein\n# My klein test\n\na0 b0 e0 + -a0 b3 e012 + a0 b2 e013 + -a0 b1 e023\n"

/-- C102: the documented session: the comments and the empty line are echoed, and the expression is answered by the product of
a point and a rotor. -/
theorem C102_shell : (session (F := ℤ) ival showInt (fun _ => []) shellDoc.toList {}).map (fun r => r.bind fun w => .ok (w.cout, w.cerr)) =
    some (.ok (shellOut.toList, [])) := by
  chars shellDoc
  chars shellOut
  decide +kernel

/-- C102: which is not the documented answer. -/
theorem C102_shell_doc_fails : shellOut ≠ shellSays := by decide +kernel

end Sym

end Klein
