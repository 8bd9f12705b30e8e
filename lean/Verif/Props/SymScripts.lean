import Verif.Props.SymValue

/-!
# scripts/validation.klein against the library: products

C73.  The script holds the expressions from which the kernels were written, as input for the symbolic
engine.  For every line: the engine (tokenizer, parser, evaluation) accepts it, and the multivector it
returns, evaluated at any values of the variables in any commutative ring, is what the library
computes for the operation named in the comment above the line or, where the library has no such
operation, the product in the specification.  Two independent models meet here: that of `sym/` and
that of `public/klein`.

Coefficients are integers instead of `float`; those occurring are small.
-/

namespace Klein
namespace Sym

set_option maxRecDepth 4000

variable {K : Type} [CommRing K]

section
variable (a b c d : V4 K) (u v : K)
local notation "a0" => ['a', '0']
local notation "a1" => ['a', '1']
local notation "a2" => ['a', '2']
local notation "a3" => ['a', '3']
local notation "b0" => ['b', '0']
local notation "b1" => ['b', '1']
local notation "b2" => ['b', '2']
local notation "b3" => ['b', '3']
local notation "c0" => ['c', '0']
local notation "c1" => ['c', '1']
local notation "c2" => ['c', '2']
local notation "c3" => ['c', '3']
local notation "d0" => ['d', '0']
local notation "d1" => ['d', '1']
local notation "d2" => ['d', '2']
local notation "d3" => ['d', '3']

/-- scripts/validation.klein:4. -/
theorem C73_line4 : Shows (env a b c d u v)
    "(a0 e0 + a1 e1 + a2 e2 + a3 e3) * (b0 e0 + b1 e1 + b2 e2 + b3 e3)"
    (((⟨a⟩ : Plane K).mulPlane ⟨b⟩).mv) := by
  shows [(0, ⟨[(⟨[(a1, 1),(b1, 1)]⟩, 1),(⟨[(a2, 1),(b2, 1)]⟩, 1),(⟨[(a3, 1),(b3, 1)]⟩, 1)]⟩),(3,
    ⟨[(⟨[(a0, 1),(b1, 1)]⟩, 1),(⟨[(a1, 1),(b0, 1)]⟩, -1)]⟩),(5, ⟨[(⟨[(a0, 1),(b2, 1)]⟩, 1),(⟨[(a2,
    1),(b0, 1)]⟩, -1)]⟩),(6, ⟨[(⟨[(a1, 1),(b2, 1)]⟩, 1),(⟨[(a2, 1),(b1, 1)]⟩, -1)]⟩),(9, ⟨[(⟨[(a0,
    1),(b3, 1)]⟩, 1),(⟨[(a3, 1),(b0, 1)]⟩, -1)]⟩),(10, ⟨[(⟨[(a1, 1),(b3, 1)]⟩, 1),(⟨[(a3, 1),(b1, 1)]⟩,
    -1)]⟩),(12, ⟨[(⟨[(a2, 1),(b3, 1)]⟩, 1),(⟨[(a3, 1),(b2, 1)]⟩, -1)]⟩)]
  sym_ring

/-- scripts/validation.klein:7. -/
theorem C73_line7 : Shows (env a b c d u v)
    "(a0 e0 + a1 e1 + a2 e2 + a3 e3) * (b0 + b1 e23 + b2 e31 + b3 e12)"
    ((⟨a⟩ : Plane K).mv * (⟨b⟩ : Rotor K).mv) := by
  shows [(1, ⟨[(⟨[(a0, 1),(b0, 1)]⟩, 1)]⟩),(2, ⟨[(⟨[(a1, 1),(b0, 1)]⟩, 1),(⟨[(a2, 1),(b3, 1)]⟩,
    -1),(⟨[(a3, 1),(b2, 1)]⟩, 1)]⟩),(4, ⟨[(⟨[(a1, 1),(b3, 1)]⟩, 1),(⟨[(a2, 1),(b0, 1)]⟩, 1),(⟨[(a3,
    1),(b1, 1)]⟩, -1)]⟩),(8, ⟨[(⟨[(a1, 1),(b2, 1)]⟩, -1),(⟨[(a2, 1),(b1, 1)]⟩, 1),(⟨[(a3, 1),(b0, 1)]⟩,
    1)]⟩),(7, ⟨[(⟨[(a0, 1),(b3, 1)]⟩, 1)]⟩),(11, ⟨[(⟨[(a0, 1),(b2, 1)]⟩, -1)]⟩),(13, ⟨[(⟨[(a0, 1),(b1,
    1)]⟩, 1)]⟩),(14, ⟨[(⟨[(a1, 1),(b1, 1)]⟩, 1),(⟨[(a2, 1),(b2, 1)]⟩, 1),(⟨[(a3, 1),(b3, 1)]⟩, 1)]⟩)]
  sym_ring

/-- scripts/validation.klein:10. -/
theorem C73_line10 : Shows (env a b c d u v)
    "(a0 e0 + a1 e1 + a2 e2 + a3 e3) * (b1 e23 + b2 e31 + b3 e12 + c1 e01 + c2 e02 + c3 e03)"
    ((⟨a⟩ : Plane K).mv * (⟨b.z0, c.z0⟩ : Line K).mv) := by
  shows [(1, ⟨[(⟨[(a1, 1),(c1, 1)]⟩, -1),(⟨[(a2, 1),(c2, 1)]⟩, -1),(⟨[(a3, 1),(c3, 1)]⟩, -1)]⟩),(2,
    ⟨[(⟨[(a2, 1),(b3, 1)]⟩, -1),(⟨[(a3, 1),(b2, 1)]⟩, 1)]⟩),(4, ⟨[(⟨[(a1, 1),(b3, 1)]⟩, 1),(⟨[(a3,
    1),(b1, 1)]⟩, -1)]⟩),(8, ⟨[(⟨[(a1, 1),(b2, 1)]⟩, -1),(⟨[(a2, 1),(b1, 1)]⟩, 1)]⟩),(7, ⟨[(⟨[(a0,
    1),(b3, 1)]⟩, 1),(⟨[(a1, 1),(c2, 1)]⟩, -1),(⟨[(a2, 1),(c1, 1)]⟩, 1)]⟩),(11, ⟨[(⟨[(a0, 1),(b2, 1)]⟩,
    -1),(⟨[(a1, 1),(c3, 1)]⟩, -1),(⟨[(a3, 1),(c1, 1)]⟩, 1)]⟩),(13, ⟨[(⟨[(a0, 1),(b1, 1)]⟩, 1),(⟨[(a2,
    1),(c3, 1)]⟩, -1),(⟨[(a3, 1),(c2, 1)]⟩, 1)]⟩),(14, ⟨[(⟨[(a1, 1),(b1, 1)]⟩, 1),(⟨[(a2, 1),(b2, 1)]⟩,
    1),(⟨[(a3, 1),(b3, 1)]⟩, 1)]⟩)]
  sym_ring

/-- scripts/validation.klein:11. -/
theorem C73_line11 (isa : Isa) : Shows (env a b c d u v)
    "(a0 e0 + a1 e1 + a2 e2 + a3 e3) ^ (b1 e23 + b2 e31 + b3 e12 + c1 e01 + c2 e02 + c3 e03)"
    (((⟨a⟩ : Plane K).meetLine isa (⟨b.z0, c.z0⟩ : Line K)).mv) := by
  shows [(7, ⟨[(⟨[(a0, 1),(b3, 1)]⟩, 1),(⟨[(a1, 1),(c2, 1)]⟩, -1),(⟨[(a2, 1),(c1, 1)]⟩, 1)]⟩),(11,
    ⟨[(⟨[(a0, 1),(b2, 1)]⟩, -1),(⟨[(a1, 1),(c3, 1)]⟩, -1),(⟨[(a3, 1),(c1, 1)]⟩, 1)]⟩),(13, ⟨[(⟨[(a0,
    1),(b1, 1)]⟩, 1),(⟨[(a2, 1),(c3, 1)]⟩, -1),(⟨[(a3, 1),(c2, 1)]⟩, 1)]⟩),(14, ⟨[(⟨[(a1, 1),(b1, 1)]⟩,
    1),(⟨[(a2, 1),(b2, 1)]⟩, 1),(⟨[(a3, 1),(b3, 1)]⟩, 1)]⟩)]
  cases isa <;> sym_ring

/-- scripts/validation.klein:14. -/
theorem C73_line14 : Shows (env a b c d u v)
    "(b1 e23 + b2 e31 + b3 e12 + c1 e01 + c2 e02 + c3 e03) * (a0 e0 + a1 e1 + a2 e2 + a3 e3)"
    ((⟨b.z0, c.z0⟩ : Line K).mv * (⟨a⟩ : Plane K).mv) := by
  shows [(1, ⟨[(⟨[(a1, 1),(c1, 1)]⟩, 1),(⟨[(a2, 1),(c2, 1)]⟩, 1),(⟨[(a3, 1),(c3, 1)]⟩, 1)]⟩),(2,
    ⟨[(⟨[(a2, 1),(b3, 1)]⟩, 1),(⟨[(a3, 1),(b2, 1)]⟩, -1)]⟩),(4, ⟨[(⟨[(a1, 1),(b3, 1)]⟩, -1),(⟨[(a3,
    1),(b1, 1)]⟩, 1)]⟩),(8, ⟨[(⟨[(a1, 1),(b2, 1)]⟩, 1),(⟨[(a2, 1),(b1, 1)]⟩, -1)]⟩),(7, ⟨[(⟨[(a0,
    1),(b3, 1)]⟩, 1),(⟨[(a1, 1),(c2, 1)]⟩, -1),(⟨[(a2, 1),(c1, 1)]⟩, 1)]⟩),(11, ⟨[(⟨[(a0, 1),(b2, 1)]⟩,
    -1),(⟨[(a1, 1),(c3, 1)]⟩, -1),(⟨[(a3, 1),(c1, 1)]⟩, 1)]⟩),(13, ⟨[(⟨[(a0, 1),(b1, 1)]⟩, 1),(⟨[(a2,
    1),(c3, 1)]⟩, -1),(⟨[(a3, 1),(c2, 1)]⟩, 1)]⟩),(14, ⟨[(⟨[(a1, 1),(b1, 1)]⟩, 1),(⟨[(a2, 1),(b2, 1)]⟩,
    1),(⟨[(a3, 1),(b3, 1)]⟩, 1)]⟩)]
  sym_ring

/-- scripts/validation.klein:17. -/
theorem C73_line17 : Shows (env a b c d u v)
    "(u + v e0123) * (b1 e23 + b2 e31 + b3 e12 + c1 e01 + c2 e02 + c3 e03)"
    (((⟨u, v⟩ : Dual K).mulLine (⟨b.z0, c.z0⟩ : Line K)).mv) := by
  shows [(3, ⟨[(⟨[(b1, 1),(['v'], 1)]⟩, -1),(⟨[(c1, 1),(['u'], 1)]⟩, 1)]⟩),(5, ⟨[(⟨[(b2, 1),(['v'],
    1)]⟩, -1),(⟨[(c2, 1),(['u'], 1)]⟩, 1)]⟩),(6, ⟨[(⟨[(b3, 1),(['u'], 1)]⟩, 1)]⟩),(9, ⟨[(⟨[(b3,
    1),(['v'], 1)]⟩, -1),(⟨[(c3, 1),(['u'], 1)]⟩, 1)]⟩),(10, ⟨[(⟨[(b2, 1),(['u'], 1)]⟩, -1)]⟩),(12,
    ⟨[(⟨[(b1, 1),(['u'], 1)]⟩, 1)]⟩)]
  sym_ring

/-- scripts/validation.klein:20. -/
theorem C73_line20 : Shows (env a b c d u v)
    "(b1 e23 + b2 e31 + b3 e12 + c1 e01 + c2 e02 + c3 e03) * (u + v e0123)"
    (((⟨b.z0, c.z0⟩ : Line K).mulDual ⟨u, v⟩).mv) := by
  shows [(3, ⟨[(⟨[(b1, 1),(['v'], 1)]⟩, -1),(⟨[(c1, 1),(['u'], 1)]⟩, 1)]⟩),(5, ⟨[(⟨[(b2, 1),(['v'],
    1)]⟩, -1),(⟨[(c2, 1),(['u'], 1)]⟩, 1)]⟩),(6, ⟨[(⟨[(b3, 1),(['u'], 1)]⟩, 1)]⟩),(9, ⟨[(⟨[(b3,
    1),(['v'], 1)]⟩, -1),(⟨[(c3, 1),(['u'], 1)]⟩, 1)]⟩),(10, ⟨[(⟨[(b2, 1),(['u'], 1)]⟩, -1)]⟩),(12,
    ⟨[(⟨[(b1, 1),(['u'], 1)]⟩, 1)]⟩)]
  sym_ring

/-- scripts/validation.klein:23. `Line.mulLine` gives something else (C05). -/
theorem C73_line23 : Shows (env a b c d u v)
    "(a1 e23 + a2 e31 + a3 e12 + d1 e01 + d2 e02 + d3 e03) * (b1 e23 + b2 e31 + b3 e12 + c1 e01 + c2 e02 + c3 e03)"
    ((⟨a.z0, d.z0⟩ : Line K).mv * (⟨b.z0, c.z0⟩ : Line K).mv) := by
  shows [(0, ⟨[(⟨[(a1, 1),(b1, 1)]⟩, -1),(⟨[(a2, 1),(b2, 1)]⟩, -1),(⟨[(a3, 1),(b3, 1)]⟩, -1)]⟩),(3,
    ⟨[(⟨[(a2, 1),(c3, 1)]⟩, -1),(⟨[(a3, 1),(c2, 1)]⟩, 1),(⟨[(b2, 1),(d3, 1)]⟩, 1),(⟨[(b3, 1),(d2, 1)]⟩,
    -1)]⟩),(5, ⟨[(⟨[(a1, 1),(c3, 1)]⟩, 1),(⟨[(a3, 1),(c1, 1)]⟩, -1),(⟨[(b1, 1),(d3, 1)]⟩, -1),(⟨[(b3,
    1),(d1, 1)]⟩, 1)]⟩),(6, ⟨[(⟨[(a1, 1),(b2, 1)]⟩, -1),(⟨[(a2, 1),(b1, 1)]⟩, 1)]⟩),(9, ⟨[(⟨[(a1,
    1),(c2, 1)]⟩, -1),(⟨[(a2, 1),(c1, 1)]⟩, 1),(⟨[(b1, 1),(d2, 1)]⟩, 1),(⟨[(b2, 1),(d1, 1)]⟩,
    -1)]⟩),(10, ⟨[(⟨[(a1, 1),(b3, 1)]⟩, -1),(⟨[(a3, 1),(b1, 1)]⟩, 1)]⟩),(12, ⟨[(⟨[(a2, 1),(b3, 1)]⟩,
    -1),(⟨[(a3, 1),(b2, 1)]⟩, 1)]⟩),(15, ⟨[(⟨[(a1, 1),(c1, 1)]⟩, 1),(⟨[(a2, 1),(c2, 1)]⟩, 1),(⟨[(a3,
    1),(c3, 1)]⟩, 1),(⟨[(b1, 1),(d1, 1)]⟩, 1),(⟨[(b2, 1),(d2, 1)]⟩, 1),(⟨[(b3, 1),(d3, 1)]⟩, 1)]⟩)]
  sym_ring

/-- scripts/validation.klein:26. -/
theorem C73_line26 : Shows (env a b c d u v)
    "(a1 e23 + a2 e31 + a3 e12 + d1 e01 + d2 e02 + d3 e03) * (c1 e01 + c2 e02 + c3 e03)"
    ((⟨a.z0, d.z0⟩ : Line K).mv * (⟨c.z0⟩ : IdealLine K).mv) := by
  shows [(3, ⟨[(⟨[(a2, 1),(c3, 1)]⟩, -1),(⟨[(a3, 1),(c2, 1)]⟩, 1)]⟩),(5, ⟨[(⟨[(a1, 1),(c3, 1)]⟩,
    1),(⟨[(a3, 1),(c1, 1)]⟩, -1)]⟩),(9, ⟨[(⟨[(a1, 1),(c2, 1)]⟩, -1),(⟨[(a2, 1),(c1, 1)]⟩, 1)]⟩),(15,
    ⟨[(⟨[(a1, 1),(c1, 1)]⟩, 1),(⟨[(a2, 1),(c2, 1)]⟩, 1),(⟨[(a3, 1),(c3, 1)]⟩, 1)]⟩)]
  sym_ring

/-- scripts/validation.klein:29. -/
theorem C73_line29 : Shows (env a b c d u v)
    "(c1 e01 + c2 e02 + c3 e03) * (a1 e23 + a2 e31 + a3 e12 + d1 e01 + d2 e02 + d3 e03)"
    ((⟨c.z0⟩ : IdealLine K).mv * (⟨a.z0, d.z0⟩ : Line K).mv) := by
  shows [(3, ⟨[(⟨[(a2, 1),(c3, 1)]⟩, 1),(⟨[(a3, 1),(c2, 1)]⟩, -1)]⟩),(5, ⟨[(⟨[(a1, 1),(c3, 1)]⟩,
    -1),(⟨[(a3, 1),(c1, 1)]⟩, 1)]⟩),(9, ⟨[(⟨[(a1, 1),(c2, 1)]⟩, 1),(⟨[(a2, 1),(c1, 1)]⟩, -1)]⟩),(15,
    ⟨[(⟨[(a1, 1),(c1, 1)]⟩, 1),(⟨[(a2, 1),(c2, 1)]⟩, 1),(⟨[(a3, 1),(c3, 1)]⟩, 1)]⟩)]
  sym_ring

/-- scripts/validation.klein:32. -/
theorem C73_line32 : Shows (env a b c d u v)
    "(a0 + a1 e23 + a2 e31 + a3 e12) * (1 + b1 e01 + b2 e02 + b3 e03)"
    (((⟨a⟩ : Rotor K).mulTranslator ⟨b.z0⟩).mv) := by
  shows [(0, ⟨[(⟨[(a0, 1)]⟩, 1)]⟩),(3, ⟨[(⟨[(a0, 1),(b1, 1)]⟩, 1),(⟨[(a2, 1),(b3, 1)]⟩, -1),(⟨[(a3,
    1),(b2, 1)]⟩, 1)]⟩),(5, ⟨[(⟨[(a0, 1),(b2, 1)]⟩, 1),(⟨[(a1, 1),(b3, 1)]⟩, 1),(⟨[(a3, 1),(b1, 1)]⟩,
    -1)]⟩),(6, ⟨[(⟨[(a3, 1)]⟩, 1)]⟩),(9, ⟨[(⟨[(a0, 1),(b3, 1)]⟩, 1),(⟨[(a1, 1),(b2, 1)]⟩, -1),(⟨[(a2,
    1),(b1, 1)]⟩, 1)]⟩),(10, ⟨[(⟨[(a2, 1)]⟩, -1)]⟩),(12, ⟨[(⟨[(a1, 1)]⟩, 1)]⟩),(15, ⟨[(⟨[(a1, 1),(b1,
    1)]⟩, 1),(⟨[(a2, 1),(b2, 1)]⟩, 1),(⟨[(a3, 1),(b3, 1)]⟩, 1)]⟩)]
  sym_ring

/-- scripts/validation.klein:33. -/
theorem C73_line33 : Shows (env a b c d u v)
    "(a0 + a1 e23 + a2 e31 + a3 e12) * (b1 e01 + b2 e02 + b3 e03)"
    ((⟨setzero_ps, gpRT false a b.z0⟩ : Motor K).mv) := by
  shows [(3, ⟨[(⟨[(a0, 1),(b1, 1)]⟩, 1),(⟨[(a2, 1),(b3, 1)]⟩, -1),(⟨[(a3, 1),(b2, 1)]⟩, 1)]⟩),(5,
    ⟨[(⟨[(a0, 1),(b2, 1)]⟩, 1),(⟨[(a1, 1),(b3, 1)]⟩, 1),(⟨[(a3, 1),(b1, 1)]⟩, -1)]⟩),(9, ⟨[(⟨[(a0,
    1),(b3, 1)]⟩, 1),(⟨[(a1, 1),(b2, 1)]⟩, -1),(⟨[(a2, 1),(b1, 1)]⟩, 1)]⟩),(15, ⟨[(⟨[(a1, 1),(b1, 1)]⟩,
    1),(⟨[(a2, 1),(b2, 1)]⟩, 1),(⟨[(a3, 1),(b3, 1)]⟩, 1)]⟩)]
  sym_ring

/-- scripts/validation.klein:36. -/
theorem C73_line36 : Shows (env a b c d u v)
    "(1 + b1 e01 + b2 e02 + b3 e03) * (a0 + a1 e23 + a2 e31 + a3 e12)"
    (((⟨b.z0⟩ : Translator K).mulRotor ⟨a⟩).mv) := by
  shows [(0, ⟨[(⟨[(a0, 1)]⟩, 1)]⟩),(3, ⟨[(⟨[(a0, 1),(b1, 1)]⟩, 1),(⟨[(a2, 1),(b3, 1)]⟩, 1),(⟨[(a3,
    1),(b2, 1)]⟩, -1)]⟩),(5, ⟨[(⟨[(a0, 1),(b2, 1)]⟩, 1),(⟨[(a1, 1),(b3, 1)]⟩, -1),(⟨[(a3, 1),(b1, 1)]⟩,
    1)]⟩),(6, ⟨[(⟨[(a3, 1)]⟩, 1)]⟩),(9, ⟨[(⟨[(a0, 1),(b3, 1)]⟩, 1),(⟨[(a1, 1),(b2, 1)]⟩, 1),(⟨[(a2,
    1),(b1, 1)]⟩, -1)]⟩),(10, ⟨[(⟨[(a2, 1)]⟩, -1)]⟩),(12, ⟨[(⟨[(a1, 1)]⟩, 1)]⟩),(15, ⟨[(⟨[(a1, 1),(b1,
    1)]⟩, 1),(⟨[(a2, 1),(b2, 1)]⟩, 1),(⟨[(a3, 1),(b3, 1)]⟩, 1)]⟩)]
  sym_ring

/-- scripts/validation.klein:37. -/
theorem C73_line37 : Shows (env a b c d u v)
    "(b1 e01 + b2 e02 + b3 e03) * (a0 + a1 e23 + a2 e31 + a3 e12)"
    ((⟨setzero_ps, gpRT true a b.z0⟩ : Motor K).mv) := by
  shows [(3, ⟨[(⟨[(a0, 1),(b1, 1)]⟩, 1),(⟨[(a2, 1),(b3, 1)]⟩, 1),(⟨[(a3, 1),(b2, 1)]⟩, -1)]⟩),(5,
    ⟨[(⟨[(a0, 1),(b2, 1)]⟩, 1),(⟨[(a1, 1),(b3, 1)]⟩, -1),(⟨[(a3, 1),(b1, 1)]⟩, 1)]⟩),(9, ⟨[(⟨[(a0,
    1),(b3, 1)]⟩, 1),(⟨[(a1, 1),(b2, 1)]⟩, 1),(⟨[(a2, 1),(b1, 1)]⟩, -1)]⟩),(15, ⟨[(⟨[(a1, 1),(b1, 1)]⟩,
    1),(⟨[(a2, 1),(b2, 1)]⟩, 1),(⟨[(a3, 1),(b3, 1)]⟩, 1)]⟩)]
  sym_ring

/-- scripts/validation.klein:40. -/
theorem C73_line40 : Shows (env a b c d u v)
    "(b0 + b1 e23 + b2 e31 + b3 e12) * (a0 e0 + a1 e1 + a2 e2 + a3 e3)"
    ((⟨b⟩ : Rotor K).mv * (⟨a⟩ : Plane K).mv) := by
  shows [(1, ⟨[(⟨[(a0, 1),(b0, 1)]⟩, 1)]⟩),(2, ⟨[(⟨[(a1, 1),(b0, 1)]⟩, 1),(⟨[(a2, 1),(b3, 1)]⟩,
    1),(⟨[(a3, 1),(b2, 1)]⟩, -1)]⟩),(4, ⟨[(⟨[(a1, 1),(b3, 1)]⟩, -1),(⟨[(a2, 1),(b0, 1)]⟩, 1),(⟨[(a3,
    1),(b1, 1)]⟩, 1)]⟩),(8, ⟨[(⟨[(a1, 1),(b2, 1)]⟩, 1),(⟨[(a2, 1),(b1, 1)]⟩, -1),(⟨[(a3, 1),(b0, 1)]⟩,
    1)]⟩),(7, ⟨[(⟨[(a0, 1),(b3, 1)]⟩, 1)]⟩),(11, ⟨[(⟨[(a0, 1),(b2, 1)]⟩, -1)]⟩),(13, ⟨[(⟨[(a0, 1),(b1,
    1)]⟩, 1)]⟩),(14, ⟨[(⟨[(a1, 1),(b1, 1)]⟩, 1),(⟨[(a2, 1),(b2, 1)]⟩, 1),(⟨[(a3, 1),(b3, 1)]⟩, 1)]⟩)]
  sym_ring

/-- scripts/validation.klein:43. -/
theorem C73_line43 : Shows (env a b c d u v)
    "(a0 e0 + a1 e1 + a2 e2 + a3 e3) * (b0 e0123 + b1 e01 + b2 e02 + b3 e03)"
    ((⟨a⟩ : Plane K).mv * (⟨setzero_ps, b⟩ : Motor K).mv) := by
  shows [(1, ⟨[(⟨[(a1, 1),(b1, 1)]⟩, -1),(⟨[(a2, 1),(b2, 1)]⟩, -1),(⟨[(a3, 1),(b3, 1)]⟩, -1)]⟩),(7,
    ⟨[(⟨[(a1, 1),(b2, 1)]⟩, -1),(⟨[(a2, 1),(b1, 1)]⟩, 1),(⟨[(a3, 1),(b0, 1)]⟩, -1)]⟩),(11, ⟨[(⟨[(a1,
    1),(b3, 1)]⟩, -1),(⟨[(a2, 1),(b0, 1)]⟩, 1),(⟨[(a3, 1),(b1, 1)]⟩, 1)]⟩),(13, ⟨[(⟨[(a1, 1),(b0, 1)]⟩,
    -1),(⟨[(a2, 1),(b3, 1)]⟩, -1),(⟨[(a3, 1),(b2, 1)]⟩, 1)]⟩)]
  sym_ring

/-- scripts/validation.klein:46. -/
theorem C73_line46 : Shows (env a b c d u v)
    "(b0 e0123 + b1 e01 + b2 e02 + b3 e03) * (a0 e0 + a1 e1 + a2 e2 + a3 e3)"
    ((⟨setzero_ps, b⟩ : Motor K).mv * (⟨a⟩ : Plane K).mv) := by
  shows [(1, ⟨[(⟨[(a1, 1),(b1, 1)]⟩, 1),(⟨[(a2, 1),(b2, 1)]⟩, 1),(⟨[(a3, 1),(b3, 1)]⟩, 1)]⟩),(7,
    ⟨[(⟨[(a1, 1),(b2, 1)]⟩, -1),(⟨[(a2, 1),(b1, 1)]⟩, 1),(⟨[(a3, 1),(b0, 1)]⟩, 1)]⟩),(11, ⟨[(⟨[(a1,
    1),(b3, 1)]⟩, -1),(⟨[(a2, 1),(b0, 1)]⟩, -1),(⟨[(a3, 1),(b1, 1)]⟩, 1)]⟩),(13, ⟨[(⟨[(a1, 1),(b0, 1)]⟩,
    1),(⟨[(a2, 1),(b3, 1)]⟩, -1),(⟨[(a3, 1),(b2, 1)]⟩, 1)]⟩)]
  sym_ring

/-- scripts/validation.klein:49. -/
theorem C73_line49 : Shows (env a b c d u v)
    "(a0 e0123 + a1 e01 + a2 e02 + a3 e03) * (b0 e0123 + b1 e01 + b2 e02 + b3 e03)"
    (0) := by
  shows []
  rfl

/-- scripts/validation.klein:52. -/
theorem C73_line52 (isa : Isa) : Shows (env a b c d u v)
    "(a0 e0 + a1 e1 + a2 e2 + a3 e3) * (b0 e123 + b1 e032 + b2 e013 + b3 e021)"
    (((⟨a⟩ : Plane K).mulPoint isa ⟨b⟩).mv) := by
  shows [(3, ⟨[(⟨[(a2, 1),(b3, 1)]⟩, -1),(⟨[(a3, 1),(b2, 1)]⟩, 1)]⟩),(5, ⟨[(⟨[(a1, 1),(b3, 1)]⟩,
    1),(⟨[(a3, 1),(b1, 1)]⟩, -1)]⟩),(6, ⟨[(⟨[(a3, 1),(b0, 1)]⟩, 1)]⟩),(9, ⟨[(⟨[(a1, 1),(b2, 1)]⟩,
    -1),(⟨[(a2, 1),(b1, 1)]⟩, 1)]⟩),(10, ⟨[(⟨[(a2, 1),(b0, 1)]⟩, -1)]⟩),(12, ⟨[(⟨[(a1, 1),(b0, 1)]⟩,
    1)]⟩),(15, ⟨[(⟨[(a0, 1),(b0, 1)]⟩, 1),(⟨[(a1, 1),(b1, 1)]⟩, 1),(⟨[(a2, 1),(b2, 1)]⟩, 1),(⟨[(a3,
    1),(b3, 1)]⟩, 1)]⟩)]
  cases isa <;> sym_ring

/-- scripts/validation.klein:55. -/
theorem C73_line55 (isa : Isa) : Shows (env a b c d u v)
    "(b0 e123 + b1 e032 + b2 e013 + b3 e021) * (a0 e0 + a1 e1 + a2 e2 + a3 e3)"
    (((⟨b⟩ : Point K).mulPlane isa ⟨a⟩).mv) := by
  shows [(3, ⟨[(⟨[(a2, 1),(b3, 1)]⟩, -1),(⟨[(a3, 1),(b2, 1)]⟩, 1)]⟩),(5, ⟨[(⟨[(a1, 1),(b3, 1)]⟩,
    1),(⟨[(a3, 1),(b1, 1)]⟩, -1)]⟩),(6, ⟨[(⟨[(a3, 1),(b0, 1)]⟩, 1)]⟩),(9, ⟨[(⟨[(a1, 1),(b2, 1)]⟩,
    -1),(⟨[(a2, 1),(b1, 1)]⟩, 1)]⟩),(10, ⟨[(⟨[(a2, 1),(b0, 1)]⟩, -1)]⟩),(12, ⟨[(⟨[(a1, 1),(b0, 1)]⟩,
    1)]⟩),(15, ⟨[(⟨[(a0, 1),(b0, 1)]⟩, -1),(⟨[(a1, 1),(b1, 1)]⟩, -1),(⟨[(a2, 1),(b2, 1)]⟩, -1),(⟨[(a3,
    1),(b3, 1)]⟩, -1)]⟩)]
  cases isa <;> sym_ring

/-- scripts/validation.klein:58. -/
theorem C73_line58 (isa : Isa) : Shows (env a b c d u v)
    "(a3 e0 + a2 e1 + a1 e2 + a0 e3) * (b0 e123 + b1 e032 + b2 e013 + b3 e021)"
    (((⟨a.mirrored⟩ : Plane K).mulPoint isa ⟨b⟩).mv) := by
  shows [(3, ⟨[(⟨[(a0, 1),(b2, 1)]⟩, 1),(⟨[(a1, 1),(b3, 1)]⟩, -1)]⟩),(5, ⟨[(⟨[(a0, 1),(b1, 1)]⟩,
    -1),(⟨[(a2, 1),(b3, 1)]⟩, 1)]⟩),(6, ⟨[(⟨[(a0, 1),(b0, 1)]⟩, 1)]⟩),(9, ⟨[(⟨[(a1, 1),(b1, 1)]⟩,
    1),(⟨[(a2, 1),(b2, 1)]⟩, -1)]⟩),(10, ⟨[(⟨[(a1, 1),(b0, 1)]⟩, -1)]⟩),(12, ⟨[(⟨[(a2, 1),(b0, 1)]⟩,
    1)]⟩),(15, ⟨[(⟨[(a0, 1),(b3, 1)]⟩, 1),(⟨[(a1, 1),(b2, 1)]⟩, 1),(⟨[(a2, 1),(b1, 1)]⟩, 1),(⟨[(a3,
    1),(b0, 1)]⟩, 1)]⟩)]
  cases isa <;> sym_ring

/-- scripts/validation.klein:61. -/
theorem C73_line61 : Shows (env a b c d u v)
    "(a0 + a1 e23 + a2 e31 + a3 e12) * (b0 + b1 e23 + b2 e31 + b3 e12)"
    (((⟨a⟩ : Rotor K).mulRotor ⟨b⟩).mv) := by
  shows [(0, ⟨[(⟨[(a0, 1),(b0, 1)]⟩, 1),(⟨[(a1, 1),(b1, 1)]⟩, -1),(⟨[(a2, 1),(b2, 1)]⟩, -1),(⟨[(a3,
    1),(b3, 1)]⟩, -1)]⟩),(6, ⟨[(⟨[(a0, 1),(b3, 1)]⟩, 1),(⟨[(a1, 1),(b2, 1)]⟩, -1),(⟨[(a2, 1),(b1, 1)]⟩,
    1),(⟨[(a3, 1),(b0, 1)]⟩, 1)]⟩),(10, ⟨[(⟨[(a0, 1),(b2, 1)]⟩, -1),(⟨[(a1, 1),(b3, 1)]⟩, -1),(⟨[(a2,
    1),(b0, 1)]⟩, -1),(⟨[(a3, 1),(b1, 1)]⟩, 1)]⟩),(12, ⟨[(⟨[(a0, 1),(b1, 1)]⟩, 1),(⟨[(a1, 1),(b0, 1)]⟩,
    1),(⟨[(a2, 1),(b3, 1)]⟩, -1),(⟨[(a3, 1),(b2, 1)]⟩, 1)]⟩)]
  sym_ring

/-- scripts/validation.klein:64. -/
theorem C73_line64 : Shows (env a b c d u v)
    "(a0 + a1 e23 + a2 e31 + a3 e12) * (b0 e0123 + b1 e01 + b2 e02 + b3 e03)"
    ((⟨setzero_ps, gp12 false a b⟩ : Motor K).mv) := by
  shows [(3, ⟨[(⟨[(a0, 1),(b1, 1)]⟩, 1),(⟨[(a1, 1),(b0, 1)]⟩, -1),(⟨[(a2, 1),(b3, 1)]⟩, -1),(⟨[(a3,
    1),(b2, 1)]⟩, 1)]⟩),(5, ⟨[(⟨[(a0, 1),(b2, 1)]⟩, 1),(⟨[(a1, 1),(b3, 1)]⟩, 1),(⟨[(a2, 1),(b0, 1)]⟩,
    -1),(⟨[(a3, 1),(b1, 1)]⟩, -1)]⟩),(9, ⟨[(⟨[(a0, 1),(b3, 1)]⟩, 1),(⟨[(a1, 1),(b2, 1)]⟩, -1),(⟨[(a2,
    1),(b1, 1)]⟩, 1),(⟨[(a3, 1),(b0, 1)]⟩, -1)]⟩),(15, ⟨[(⟨[(a0, 1),(b0, 1)]⟩, 1),(⟨[(a1, 1),(b1, 1)]⟩,
    1),(⟨[(a2, 1),(b2, 1)]⟩, 1),(⟨[(a3, 1),(b3, 1)]⟩, 1)]⟩)]
  sym_ring

/-- scripts/validation.klein:67. -/
theorem C73_line67 : Shows (env a b c d u v)
    "(b0 e0123 + b1 e01 + b2 e02 + b3 e03) * (a0 + a1 e23 + a2 e31 + a3 e12)"
    ((⟨setzero_ps, gp12 true a b⟩ : Motor K).mv) := by
  shows [(3, ⟨[(⟨[(a0, 1),(b1, 1)]⟩, 1),(⟨[(a1, 1),(b0, 1)]⟩, -1),(⟨[(a2, 1),(b3, 1)]⟩, 1),(⟨[(a3,
    1),(b2, 1)]⟩, -1)]⟩),(5, ⟨[(⟨[(a0, 1),(b2, 1)]⟩, 1),(⟨[(a1, 1),(b3, 1)]⟩, -1),(⟨[(a2, 1),(b0, 1)]⟩,
    -1),(⟨[(a3, 1),(b1, 1)]⟩, 1)]⟩),(9, ⟨[(⟨[(a0, 1),(b3, 1)]⟩, 1),(⟨[(a1, 1),(b2, 1)]⟩, 1),(⟨[(a2,
    1),(b1, 1)]⟩, -1),(⟨[(a3, 1),(b0, 1)]⟩, -1)]⟩),(15, ⟨[(⟨[(a0, 1),(b0, 1)]⟩, 1),(⟨[(a1, 1),(b1, 1)]⟩,
    1),(⟨[(a2, 1),(b2, 1)]⟩, 1),(⟨[(a3, 1),(b3, 1)]⟩, 1)]⟩)]
  sym_ring

/-- scripts/validation.klein:70. -/
theorem C73_line70 : Shows (env a b c d u v)
    "(a0 + a1 e23 + a2 e31 + a3 e12) * (b0 e123 + b1 e032 + b2 e013 + b3 e021)"
    ((⟨a⟩ : Rotor K).mv * (⟨b⟩ : Point K).mv) := by
  shows [(1, ⟨[(⟨[(a1, 1),(b1, 1)]⟩, 1),(⟨[(a2, 1),(b2, 1)]⟩, 1),(⟨[(a3, 1),(b3, 1)]⟩, 1)]⟩),(2,
    ⟨[(⟨[(a1, 1),(b0, 1)]⟩, -1)]⟩),(4, ⟨[(⟨[(a2, 1),(b0, 1)]⟩, -1)]⟩),(8, ⟨[(⟨[(a3, 1),(b0, 1)]⟩,
    -1)]⟩),(7, ⟨[(⟨[(a0, 1),(b3, 1)]⟩, -1),(⟨[(a1, 1),(b2, 1)]⟩, 1),(⟨[(a2, 1),(b1, 1)]⟩, -1)]⟩),(11,
    ⟨[(⟨[(a0, 1),(b2, 1)]⟩, 1),(⟨[(a1, 1),(b3, 1)]⟩, 1),(⟨[(a3, 1),(b1, 1)]⟩, -1)]⟩),(13, ⟨[(⟨[(a0,
    1),(b1, 1)]⟩, -1),(⟨[(a2, 1),(b3, 1)]⟩, 1),(⟨[(a3, 1),(b2, 1)]⟩, -1)]⟩),(14, ⟨[(⟨[(a0, 1),(b0, 1)]⟩,
    1)]⟩)]
  sym_ring

/-- scripts/validation.klein:73. -/
theorem C73_line73 : Shows (env a b c d u v)
    "(b0 e123 + b1 e032 + b2 e013 + b3 e021) * (a0 + a1 e23 + a2 e31 + a3 e12)"
    ((⟨b⟩ : Point K).mv * (⟨a⟩ : Rotor K).mv) := by
  shows [(1, ⟨[(⟨[(a1, 1),(b1, 1)]⟩, 1),(⟨[(a2, 1),(b2, 1)]⟩, 1),(⟨[(a3, 1),(b3, 1)]⟩, 1)]⟩),(2,
    ⟨[(⟨[(a1, 1),(b0, 1)]⟩, -1)]⟩),(4, ⟨[(⟨[(a2, 1),(b0, 1)]⟩, -1)]⟩),(8, ⟨[(⟨[(a3, 1),(b0, 1)]⟩,
    -1)]⟩),(7, ⟨[(⟨[(a0, 1),(b3, 1)]⟩, -1),(⟨[(a1, 1),(b2, 1)]⟩, -1),(⟨[(a2, 1),(b1, 1)]⟩, 1)]⟩),(11,
    ⟨[(⟨[(a0, 1),(b2, 1)]⟩, 1),(⟨[(a1, 1),(b3, 1)]⟩, -1),(⟨[(a3, 1),(b1, 1)]⟩, 1)]⟩),(13, ⟨[(⟨[(a0,
    1),(b1, 1)]⟩, -1),(⟨[(a2, 1),(b3, 1)]⟩, -1),(⟨[(a3, 1),(b2, 1)]⟩, 1)]⟩),(14, ⟨[(⟨[(a0, 1),(b0, 1)]⟩,
    1)]⟩)]
  sym_ring

/-- scripts/validation.klein:76. -/
theorem C73_line76 : Shows (env a b c d u v)
    "(a0 e0123 + a1 e01 + a2 e02 + a3 e03) * (b0 e123 + b1 e032 + b2 e013 + b3 e021)"
    ((⟨setzero_ps, a⟩ : Motor K).mv * (⟨b⟩ : Point K).mv) := by
  shows [(1, ⟨[(⟨[(a0, 1),(b0, 1)]⟩, -1)]⟩),(7, ⟨[(⟨[(a3, 1),(b0, 1)]⟩, 1)]⟩),(11, ⟨[(⟨[(a2, 1),(b0,
    1)]⟩, -1)]⟩),(13, ⟨[(⟨[(a1, 1),(b0, 1)]⟩, 1)]⟩)]
  sym_ring

/-- scripts/validation.klein:79. -/
theorem C73_line79 : Shows (env a b c d u v)
    "(b0 e123 + b1 e032 + b2 e013 + b3 e021) * (a0 e0123 + a1 e01 + a2 e02 + a3 e03)"
    ((⟨b⟩ : Point K).mv * (⟨setzero_ps, a⟩ : Motor K).mv) := by
  shows [(1, ⟨[(⟨[(a0, 1),(b0, 1)]⟩, 1)]⟩),(7, ⟨[(⟨[(a3, 1),(b0, 1)]⟩, -1)]⟩),(11, ⟨[(⟨[(a2, 1),(b0,
    1)]⟩, 1)]⟩),(13, ⟨[(⟨[(a1, 1),(b0, 1)]⟩, -1)]⟩)]
  sym_ring

/-- scripts/validation.klein:82. -/
theorem C73_line82 : Shows (env a b c d u v)
    "(a0 e123 + a1 e032 + a2 e013 + a3 e021) * (b0 e123 + b1 e032 + b2 e013 + b3 e021)"
    ((⟨a⟩ : Point K).mv * (⟨b⟩ : Point K).mv) := by
  shows [(0, ⟨[(⟨[(a0, 1),(b0, 1)]⟩, -1)]⟩),(3, ⟨[(⟨[(a0, 1),(b1, 1)]⟩, -1),(⟨[(a1, 1),(b0, 1)]⟩,
    1)]⟩),(5, ⟨[(⟨[(a0, 1),(b2, 1)]⟩, -1),(⟨[(a2, 1),(b0, 1)]⟩, 1)]⟩),(9, ⟨[(⟨[(a0, 1),(b3, 1)]⟩,
    -1),(⟨[(a3, 1),(b0, 1)]⟩, 1)]⟩)]
  sym_ring

/-- scripts/validation.klein:85. -/
theorem C73_line85 : Shows (env a b c d u v)
    "(a0 e0 + a1 e1 + a2 e2 + a3 e3) ^ (b0 e0 + b1 e1 + b2 e2 + b3 e3)"
    (((⟨a⟩ : Plane K).meetPlane ⟨b⟩).mv) := by
  shows [(3, ⟨[(⟨[(a0, 1),(b1, 1)]⟩, 1),(⟨[(a1, 1),(b0, 1)]⟩, -1)]⟩),(5, ⟨[(⟨[(a0, 1),(b2, 1)]⟩,
    1),(⟨[(a2, 1),(b0, 1)]⟩, -1)]⟩),(6, ⟨[(⟨[(a1, 1),(b2, 1)]⟩, 1),(⟨[(a2, 1),(b1, 1)]⟩, -1)]⟩),(9,
    ⟨[(⟨[(a0, 1),(b3, 1)]⟩, 1),(⟨[(a3, 1),(b0, 1)]⟩, -1)]⟩),(10, ⟨[(⟨[(a1, 1),(b3, 1)]⟩, 1),(⟨[(a3,
    1),(b1, 1)]⟩, -1)]⟩),(12, ⟨[(⟨[(a2, 1),(b3, 1)]⟩, 1),(⟨[(a3, 1),(b2, 1)]⟩, -1)]⟩)]
  sym_ring

/-- scripts/validation.klein:88. -/
theorem C73_line88 (isa : Isa) : Shows (env a b.z0 c d u v)
    "(a0 e0 + a1 e1 + a2 e2 + a3 e3) ^ (b0 + b1 e23 + b2 e31 + b3 e12)"
    (((⟨a⟩ : Plane K).meetBranch isa ⟨b.z0⟩).mv) := by
  shows [(1, ⟨[(⟨[(a0, 1),(b0, 1)]⟩, 1)]⟩),(2, ⟨[(⟨[(a1, 1),(b0, 1)]⟩, 1)]⟩),(4, ⟨[(⟨[(a2, 1),(b0, 1)]⟩,
    1)]⟩),(8, ⟨[(⟨[(a3, 1),(b0, 1)]⟩, 1)]⟩),(7, ⟨[(⟨[(a0, 1),(b3, 1)]⟩, 1)]⟩),(11, ⟨[(⟨[(a0, 1),(b2,
    1)]⟩, -1)]⟩),(13, ⟨[(⟨[(a0, 1),(b1, 1)]⟩, 1)]⟩),(14, ⟨[(⟨[(a1, 1),(b1, 1)]⟩, 1),(⟨[(a2, 1),(b2,
    1)]⟩, 1),(⟨[(a3, 1),(b3, 1)]⟩, 1)]⟩)]
  cases isa <;> sym_ring

/-- scripts/validation.klein:91. -/
theorem C73_line91 (isa : Isa) : Shows (env a b.z0 c d u v)
    "(b0 + b1 e23 + b2 e31 + b3 e12) ^ (a0 e0 + a1 e1 + a2 e2 + a3 e3)"
    (((⟨b.z0⟩ : Branch K).meetPlane isa ⟨a⟩).mv) := by
  shows [(1, ⟨[(⟨[(a0, 1),(b0, 1)]⟩, 1)]⟩),(2, ⟨[(⟨[(a1, 1),(b0, 1)]⟩, 1)]⟩),(4, ⟨[(⟨[(a2, 1),(b0, 1)]⟩,
    1)]⟩),(8, ⟨[(⟨[(a3, 1),(b0, 1)]⟩, 1)]⟩),(7, ⟨[(⟨[(a0, 1),(b3, 1)]⟩, 1)]⟩),(11, ⟨[(⟨[(a0, 1),(b2,
    1)]⟩, -1)]⟩),(13, ⟨[(⟨[(a0, 1),(b1, 1)]⟩, 1)]⟩),(14, ⟨[(⟨[(a1, 1),(b1, 1)]⟩, 1),(⟨[(a2, 1),(b2,
    1)]⟩, 1),(⟨[(a3, 1),(b3, 1)]⟩, 1)]⟩)]
  cases isa <;> sym_ring

/-- scripts/validation.klein:94. -/
theorem C73_line94 : Shows (env a b c d u v)
    "(a0 e0 + a1 e1 + a2 e2 + a3 e3) ^ (b0 e0123 + b1 e01 + b2 e02 + b3 e03)"
    (((⟨a⟩ : Plane K).meetIdealLine ⟨b⟩).mv) := by
  shows [(7, ⟨[(⟨[(a1, 1),(b2, 1)]⟩, -1),(⟨[(a2, 1),(b1, 1)]⟩, 1)]⟩),(11, ⟨[(⟨[(a1, 1),(b3, 1)]⟩,
    -1),(⟨[(a3, 1),(b1, 1)]⟩, 1)]⟩),(13, ⟨[(⟨[(a2, 1),(b3, 1)]⟩, -1),(⟨[(a3, 1),(b2, 1)]⟩, 1)]⟩)]
  sym_ring

/-- scripts/validation.klein:97. -/
theorem C73_line97 : Shows (env a b c d u v)
    "(b0 e0123 + b1 e01 + b2 e02 + b3 e03) ^ (a0 e0 + a1 e1 + a2 e2 + a3 e3)"
    (((⟨b⟩ : IdealLine K).meetPlane ⟨a⟩).mv) := by
  shows [(7, ⟨[(⟨[(a1, 1),(b2, 1)]⟩, -1),(⟨[(a2, 1),(b1, 1)]⟩, 1)]⟩),(11, ⟨[(⟨[(a1, 1),(b3, 1)]⟩,
    -1),(⟨[(a3, 1),(b1, 1)]⟩, 1)]⟩),(13, ⟨[(⟨[(a2, 1),(b3, 1)]⟩, -1),(⟨[(a3, 1),(b2, 1)]⟩, 1)]⟩)]
  sym_ring

/-- scripts/validation.klein:100. -/
theorem C73_line100 (isa : Isa) : Shows (env a b c d u v)
    "(a0 e0 + a1 e1 + a2 e2 + a3 e3) ^ (b0 e123 + b1 e032 + b2 e013 + b3 e021)"
    (((⟨a⟩ : Plane K).meetPoint isa ⟨b⟩).mv) := by
  shows [(15, ⟨[(⟨[(a0, 1),(b0, 1)]⟩, 1),(⟨[(a1, 1),(b1, 1)]⟩, 1),(⟨[(a2, 1),(b2, 1)]⟩, 1),(⟨[(a3,
    1),(b3, 1)]⟩, 1)]⟩)]
  cases isa <;> sym_ring

/-- scripts/validation.klein:103. -/
theorem C73_line103 (isa : Isa) : Shows (env a b c d u v)
    "(b0 e123 + b1 e032 + b2 e013 + b3 e021) ^ (a0 e0 + a1 e1 + a2 e2 + a3 e3)"
    (((⟨b⟩ : Point K).meetPlane isa ⟨a⟩).mv) := by
  shows [(15, ⟨[(⟨[(a0, 1),(b0, 1)]⟩, -1),(⟨[(a1, 1),(b1, 1)]⟩, -1),(⟨[(a2, 1),(b2, 1)]⟩, -1),(⟨[(a3,
    1),(b3, 1)]⟩, -1)]⟩)]
  cases isa <;> sym_ring

/-- scripts/validation.klein:106. -/
theorem C73_line106 : Shows (env a b c d u v)
    "(a0 + a1 e23 + a2 e31 + a3 e12) ^ (b0 + b1 e23 + b2 e31 + b3 e12)"
    (PGA.MV.wedge (⟨a⟩ : Rotor K).mv (⟨b⟩ : Rotor K).mv) := by
  shows [(0, ⟨[(⟨[(a0, 1),(b0, 1)]⟩, 1)]⟩),(6, ⟨[(⟨[(a0, 1),(b3, 1)]⟩, 1),(⟨[(a3, 1),(b0, 1)]⟩,
    1)]⟩),(10, ⟨[(⟨[(a0, 1),(b2, 1)]⟩, -1),(⟨[(a2, 1),(b0, 1)]⟩, -1)]⟩),(12, ⟨[(⟨[(a0, 1),(b1, 1)]⟩,
    1),(⟨[(a1, 1),(b0, 1)]⟩, 1)]⟩)]
  sym_ring

/-- scripts/validation.klein:109. -/
theorem C73_line109 : Shows (env a.z0 b.z0 c d u v)
    "(a0 + a1 e23 + a2 e31 + a3 e12) ^ (b0 e0123 + b1 e01 + b2 e02 + b3 e03)"
    (((⟨a.z0⟩ : Branch K).meetIdealLine ⟨b.z0⟩).mv) := by
  shows [(3, ⟨[(⟨[(a0, 1),(b1, 1)]⟩, 1)]⟩),(5, ⟨[(⟨[(a0, 1),(b2, 1)]⟩, 1)]⟩),(9, ⟨[(⟨[(a0, 1),(b3, 1)]⟩,
    1)]⟩),(15, ⟨[(⟨[(a0, 1),(b0, 1)]⟩, 1),(⟨[(a1, 1),(b1, 1)]⟩, 1),(⟨[(a2, 1),(b2, 1)]⟩, 1),(⟨[(a3,
    1),(b3, 1)]⟩, 1)]⟩)]
  sym_ring

/-- scripts/validation.klein:112. -/
theorem C73_line112 : Shows (env a.z0 b.z0 c d u v)
    "(b0 e0123 + b1 e01 + b2 e02 + b3 e03) ^ (a0 + a1 e23 + a2 e31 + a3 e12)"
    (((⟨b.z0⟩ : IdealLine K).meetBranch ⟨a.z0⟩).mv) := by
  shows [(3, ⟨[(⟨[(a0, 1),(b1, 1)]⟩, 1)]⟩),(5, ⟨[(⟨[(a0, 1),(b2, 1)]⟩, 1)]⟩),(9, ⟨[(⟨[(a0, 1),(b3, 1)]⟩,
    1)]⟩),(15, ⟨[(⟨[(a0, 1),(b0, 1)]⟩, 1),(⟨[(a1, 1),(b1, 1)]⟩, 1),(⟨[(a2, 1),(b2, 1)]⟩, 1),(⟨[(a3,
    1),(b3, 1)]⟩, 1)]⟩)]
  sym_ring

/-- scripts/validation.klein:115. -/
theorem C73_line115 : Shows (env a b c d u v)
    "(a0 + a1 e23 + a2 e31 + a3 e12) ^ (b0 e123 + b1 e032 + b2 e013 + b3 e021)"
    (PGA.MV.wedge (⟨a⟩ : Rotor K).mv (⟨b⟩ : Point K).mv) := by
  shows [(7, ⟨[(⟨[(a0, 1),(b3, 1)]⟩, -1)]⟩),(11, ⟨[(⟨[(a0, 1),(b2, 1)]⟩, 1)]⟩),(13, ⟨[(⟨[(a0, 1),(b1,
    1)]⟩, -1)]⟩),(14, ⟨[(⟨[(a0, 1),(b0, 1)]⟩, 1)]⟩)]
  sym_ring

/-- scripts/validation.klein:118. -/
theorem C73_line118 : Shows (env a b c d u v)
    "(b0 e123 + b1 e032 + b2 e013 + b3 e021) ^ (a0 + a1 e23 + a2 e31 + a3 e12)"
    (PGA.MV.wedge (⟨b⟩ : Point K).mv (⟨a⟩ : Rotor K).mv) := by
  shows [(7, ⟨[(⟨[(a0, 1),(b3, 1)]⟩, -1)]⟩),(11, ⟨[(⟨[(a0, 1),(b2, 1)]⟩, 1)]⟩),(13, ⟨[(⟨[(a0, 1),(b1,
    1)]⟩, -1)]⟩),(14, ⟨[(⟨[(a0, 1),(b0, 1)]⟩, 1)]⟩)]
  sym_ring

/-- scripts/validation.klein:121. -/
theorem C73_line121 : Shows (env a b c d u v)
    "(a0 e0123 + a1 e01 + a2 e02 + a3 e03) ^ (b0 e0123 + b1 e01 + b2 e02 + b3 e03)"
    (0) := by
  shows []
  rfl

/-- scripts/validation.klein:124. -/
theorem C73_line124 : Shows (env a b c d u v)
    "(a0 e0123 + a1 e01 + a2 e02 + a3 e03) ^ (b0 e123 + b1 e032 + b2 e013 + b3 e021)"
    (0) := by
  shows []
  rfl

/-- scripts/validation.klein:127. -/
theorem C73_line127 : Shows (env a b c d u v)
    "(b0 e123 + b1 e032 + b2 e013 + b3 e021) ^ (a0 e0123 + a1 e01 + a2 e02 + a3 e03)"
    (0) := by
  shows []
  rfl

/-- scripts/validation.klein:130. -/
theorem C73_line130 : Shows (env a b c d u v)
    "(a0 e123 + a1 e032 + a2 e013 + a3 e021) ^ (b0 e123 + b1 e032 + b2 e013 + b3 e021)"
    (0) := by
  shows []
  rfl

/-- scripts/validation.klein:133. -/
theorem C73_line133 : Shows (env a b c d u v)
    "(a1 e23 + a2 e31 + a3 e12 + d1 e01 + d2 e02 + d3 e03) ^ (b1 e23 + b2 e31 + b3 e12 + c1 e01 + c2 e02 + c3 e03)"
    (((⟨a.z0, d.z0⟩ : Line K).meetLine (⟨b.z0, c.z0⟩ : Line K)).mv) := by
  shows [(15, ⟨[(⟨[(a1, 1),(c1, 1)]⟩, 1),(⟨[(a2, 1),(c2, 1)]⟩, 1),(⟨[(a3, 1),(c3, 1)]⟩, 1),(⟨[(b1,
    1),(d1, 1)]⟩, 1),(⟨[(b2, 1),(d2, 1)]⟩, 1),(⟨[(b3, 1),(d3, 1)]⟩, 1)]⟩)]
  sym_ring

/-- scripts/validation.klein:136. -/
theorem C73_line136 (isa : Isa) : Shows (env a b c d u v)
    "(a0 e0 + a1 e1 + a2 e2 + a3 e3) ^ (b1 e23 + b2 e31 + b3 e12 + c1 e01 + c2 e02 + c3 e03)"
    (((⟨a⟩ : Plane K).meetLine isa (⟨b.z0, c.z0⟩ : Line K)).mv) := by
  shows [(7, ⟨[(⟨[(a0, 1),(b3, 1)]⟩, 1),(⟨[(a1, 1),(c2, 1)]⟩, -1),(⟨[(a2, 1),(c1, 1)]⟩, 1)]⟩),(11,
    ⟨[(⟨[(a0, 1),(b2, 1)]⟩, -1),(⟨[(a1, 1),(c3, 1)]⟩, -1),(⟨[(a3, 1),(c1, 1)]⟩, 1)]⟩),(13, ⟨[(⟨[(a0,
    1),(b1, 1)]⟩, 1),(⟨[(a2, 1),(c3, 1)]⟩, -1),(⟨[(a3, 1),(c2, 1)]⟩, 1)]⟩),(14, ⟨[(⟨[(a1, 1),(b1, 1)]⟩,
    1),(⟨[(a2, 1),(b2, 1)]⟩, 1),(⟨[(a3, 1),(b3, 1)]⟩, 1)]⟩)]
  cases isa <;> sym_ring

/-- scripts/validation.klein:139. -/
theorem C73_line139 (isa : Isa) : Shows (env a b c d u v)
    "(b1 e23 + b2 e31 + b3 e12 + c1 e01 + c2 e02 + c3 e03) ^ (a0 e0 + a1 e1 + a2 e2 + a3 e3)"
    (((⟨b.z0, c.z0⟩ : Line K).meetPlane isa ⟨a⟩).mv) := by
  shows [(7, ⟨[(⟨[(a0, 1),(b3, 1)]⟩, 1),(⟨[(a1, 1),(c2, 1)]⟩, -1),(⟨[(a2, 1),(c1, 1)]⟩, 1)]⟩),(11,
    ⟨[(⟨[(a0, 1),(b2, 1)]⟩, -1),(⟨[(a1, 1),(c3, 1)]⟩, -1),(⟨[(a3, 1),(c1, 1)]⟩, 1)]⟩),(13, ⟨[(⟨[(a0,
    1),(b1, 1)]⟩, 1),(⟨[(a2, 1),(c3, 1)]⟩, -1),(⟨[(a3, 1),(c2, 1)]⟩, 1)]⟩),(14, ⟨[(⟨[(a1, 1),(b1, 1)]⟩,
    1),(⟨[(a2, 1),(b2, 1)]⟩, 1),(⟨[(a3, 1),(b3, 1)]⟩, 1)]⟩)]
  cases isa <;> sym_ring

/-- scripts/validation.klein:142. -/
theorem C73_line142 : Shows (env a b c d u v)
    "(a0 e3 + a1 e2 + a2 e1 + a3 e0) & (b0 e3 + b1 e2 + b2 e1 + b3 e0)"
    (0) := by
  shows []
  rfl

/-- scripts/validation.klein:145. -/
theorem C73_line145 : Shows (env a b c d u v)
    "(a0 e3 + a1 e2 + a2 e1 + a3 e0) & (b0 + b1 e23 + b2 e31 + b3 e12)"
    (0) := by
  shows []
  rfl

/-- scripts/validation.klein:148. -/
theorem C73_line148 : Shows (env a b c d u v)
    "(a0 e3 + a1 e2 + a2 e1 + a3 e0) & (b0 e0123 + b1 e01 + b2 e02 + b3 e03)"
    (PGA.MV.vee (⟨a.mirrored⟩ : Plane K).mv (⟨setzero_ps, b⟩ : Motor K).mv) := by
  shows [(1, ⟨[(⟨[(a3, 1),(b0, 1)]⟩, 1)]⟩),(2, ⟨[(⟨[(a2, 1),(b0, 1)]⟩, 1)]⟩),(4, ⟨[(⟨[(a1, 1),(b0, 1)]⟩,
    1)]⟩),(8, ⟨[(⟨[(a0, 1),(b0, 1)]⟩, 1)]⟩)]
  unfold PGA.MV.vee; sym_ring

/-- scripts/validation.klein:151. -/
theorem C73_line151 (isa : Isa) : Shows (env a b c d u v)
    "(a0 e3 + a1 e2 + a2 e1 + a3 e0) & (b0 e123 + b1 e032 + b2 e013 + b3 e021)"
    (((⟨a.mirrored⟩ : Plane K).joinPoint isa ⟨b⟩).mv) := by
  shows [(0, ⟨[(⟨[(a0, 1),(b3, 1)]⟩, -1),(⟨[(a1, 1),(b2, 1)]⟩, -1),(⟨[(a2, 1),(b1, 1)]⟩, -1),(⟨[(a3,
    1),(b0, 1)]⟩, -1)]⟩)]
  cases isa <;> sym_ring

/-- scripts/validation.klein:154. -/
theorem C73_line154 (isa : Isa) : Shows (env a b c d u v)
    "(a0 e0 + a1 e1 + a2 e2 + a3 e3) | (b0 e0 + b1 e1 + b2 e2 + b3 e3)"
    (scalarMv ((⟨a⟩ : Plane K).dotPlane isa ⟨b⟩)) := by
  shows [(0, ⟨[(⟨[(a1, 1),(b1, 1)]⟩, 1),(⟨[(a2, 1),(b2, 1)]⟩, 1),(⟨[(a3, 1),(b3, 1)]⟩, 1)]⟩)]
  cases isa <;> sym_ring

/-- scripts/validation.klein:157. -/
theorem C73_line157 : Shows (env a b c d u v)
    "(a0 e0 + a1 e1 + a2 e2 + a3 e3) | (b0 + b1 e23 + b2 e31 + b3 e12)"
    (PGA.MV.inner (⟨a⟩ : Plane K).mv (⟨b⟩ : Rotor K).mv) := by
  shows [(2, ⟨[(⟨[(a2, 1),(b3, 1)]⟩, -1),(⟨[(a3, 1),(b2, 1)]⟩, 1)]⟩),(4, ⟨[(⟨[(a1, 1),(b3, 1)]⟩,
    1),(⟨[(a3, 1),(b1, 1)]⟩, -1)]⟩),(8, ⟨[(⟨[(a1, 1),(b2, 1)]⟩, -1),(⟨[(a2, 1),(b1, 1)]⟩, 1)]⟩)]
  sym_ring

/-- scripts/validation.klein:160. -/
theorem C73_line160 : Shows (env a b c d u v)
    "(b0 + b1 e23 + b2 e31 + b3 e12) | (a0 e0 + a1 e1 + a2 e2 + a3 e3)"
    (PGA.MV.inner (⟨b⟩ : Rotor K).mv (⟨a⟩ : Plane K).mv) := by
  shows [(2, ⟨[(⟨[(a2, 1),(b3, 1)]⟩, 1),(⟨[(a3, 1),(b2, 1)]⟩, -1)]⟩),(4, ⟨[(⟨[(a1, 1),(b3, 1)]⟩,
    -1),(⟨[(a3, 1),(b1, 1)]⟩, 1)]⟩),(8, ⟨[(⟨[(a1, 1),(b2, 1)]⟩, 1),(⟨[(a2, 1),(b1, 1)]⟩, -1)]⟩)]
  sym_ring

/-- scripts/validation.klein:163. -/
theorem C73_line163 (isa : Isa) : Shows (env a b.z0 c d u v)
    "(a0 e0 + a1 e1 + a2 e2 + a3 e3) | (b0 e0123 + b1 e01 + b2 e02 + b3 e03)"
    (((⟨a⟩ : Plane K).dotIdealLine isa ⟨b.z0⟩).mv) := by
  shows [(1, ⟨[(⟨[(a1, 1),(b1, 1)]⟩, -1),(⟨[(a2, 1),(b2, 1)]⟩, -1),(⟨[(a3, 1),(b3, 1)]⟩, -1)]⟩),(7,
    ⟨[(⟨[(a3, 1),(b0, 1)]⟩, -1)]⟩),(11, ⟨[(⟨[(a2, 1),(b0, 1)]⟩, 1)]⟩),(13, ⟨[(⟨[(a1, 1),(b0, 1)]⟩,
    -1)]⟩)]
  cases isa <;> sym_ring

/-- scripts/validation.klein:166. -/
theorem C73_line166 (isa : Isa) : Shows (env a b.z0 c d u v)
    "(b0 e0123 + b1 e01 + b2 e02 + b3 e03) | (a0 e0 + a1 e1 + a2 e2 + a3 e3)"
    (((⟨b.z0⟩ : IdealLine K).dotPlane isa ⟨a⟩).mv) := by
  shows [(1, ⟨[(⟨[(a1, 1),(b1, 1)]⟩, 1),(⟨[(a2, 1),(b2, 1)]⟩, 1),(⟨[(a3, 1),(b3, 1)]⟩, 1)]⟩),(7,
    ⟨[(⟨[(a3, 1),(b0, 1)]⟩, 1)]⟩),(11, ⟨[(⟨[(a2, 1),(b0, 1)]⟩, -1)]⟩),(13, ⟨[(⟨[(a1, 1),(b0, 1)]⟩,
    1)]⟩)]
  cases isa <;> sym_ring

/-- scripts/validation.klein:169. -/
theorem C73_line169 (isa : Isa) : Shows (env a b c d u v)
    "(a0 e0 + a1 e1 + a2 e2 + a3 e3) | (b0 e123 + b1 e032 + b2 e013 + b3 e021)"
    (((⟨a⟩ : Plane K).dotPoint isa ⟨b⟩).mv) := by
  shows [(3, ⟨[(⟨[(a2, 1),(b3, 1)]⟩, -1),(⟨[(a3, 1),(b2, 1)]⟩, 1)]⟩),(5, ⟨[(⟨[(a1, 1),(b3, 1)]⟩,
    1),(⟨[(a3, 1),(b1, 1)]⟩, -1)]⟩),(6, ⟨[(⟨[(a3, 1),(b0, 1)]⟩, 1)]⟩),(9, ⟨[(⟨[(a1, 1),(b2, 1)]⟩,
    -1),(⟨[(a2, 1),(b1, 1)]⟩, 1)]⟩),(10, ⟨[(⟨[(a2, 1),(b0, 1)]⟩, -1)]⟩),(12, ⟨[(⟨[(a1, 1),(b0, 1)]⟩,
    1)]⟩)]
  cases isa <;> sym_ring

/-- scripts/validation.klein:172. -/
theorem C73_line172 (isa : Isa) : Shows (env a b c d u v)
    "(b0 e123 + b1 e032 + b2 e013 + b3 e021) | (a0 e0 + a1 e1 + a2 e2 + a3 e3)"
    (((⟨b⟩ : Point K).dotPlane isa ⟨a⟩).mv) := by
  shows [(3, ⟨[(⟨[(a2, 1),(b3, 1)]⟩, -1),(⟨[(a3, 1),(b2, 1)]⟩, 1)]⟩),(5, ⟨[(⟨[(a1, 1),(b3, 1)]⟩,
    1),(⟨[(a3, 1),(b1, 1)]⟩, -1)]⟩),(6, ⟨[(⟨[(a3, 1),(b0, 1)]⟩, 1)]⟩),(9, ⟨[(⟨[(a1, 1),(b2, 1)]⟩,
    -1),(⟨[(a2, 1),(b1, 1)]⟩, 1)]⟩),(10, ⟨[(⟨[(a2, 1),(b0, 1)]⟩, -1)]⟩),(12, ⟨[(⟨[(a1, 1),(b0, 1)]⟩,
    1)]⟩)]
  cases isa <;> sym_ring

/-- scripts/validation.klein:175. -/
theorem C73_line175 (isa : Isa) : Shows (env a b c d u v)
    "((b0 e123 + b1 e032 + b2 e013 + b3 e021) | (a0 e0 + a1 e1 + a2 e2 + a3 e3)) * (a0 e0 + a1 e1 + a2 e2 + a3 e3)"
    (((⟨b⟩ : Point K).projectPlane isa ⟨a⟩).mv) := by
  shows [(7, ⟨[(⟨[(a0, 1),(a3, 1),(b0, 1)]⟩, 1),(⟨[(a1, 1),(a3, 1),(b1, 1)]⟩, 1),(⟨[(a1, 2),(b3, 1)]⟩,
    -1),(⟨[(a2, 1),(a3, 1),(b2, 1)]⟩, 1),(⟨[(a2, 2),(b3, 1)]⟩, -1)]⟩),(11, ⟨[(⟨[(a0, 1),(a2, 1),(b0,
    1)]⟩, -1),(⟨[(a1, 1),(a2, 1),(b1, 1)]⟩, -1),(⟨[(a1, 2),(b2, 1)]⟩, 1),(⟨[(a2, 1),(a3, 1),(b3, 1)]⟩,
    -1),(⟨[(a3, 2),(b2, 1)]⟩, 1)]⟩),(13, ⟨[(⟨[(a0, 1),(a1, 1),(b0, 1)]⟩, 1),(⟨[(a1, 1),(a2, 1),(b2,
    1)]⟩, 1),(⟨[(a1, 1),(a3, 1),(b3, 1)]⟩, 1),(⟨[(a2, 2),(b1, 1)]⟩, -1),(⟨[(a3, 2),(b1, 1)]⟩,
    -1)]⟩),(14, ⟨[(⟨[(a1, 2),(b0, 1)]⟩, 1),(⟨[(a2, 2),(b0, 1)]⟩, 1),(⟨[(a3, 2),(b0, 1)]⟩, 1)]⟩)]
  cases isa <;> sym_ring

/-- scripts/validation.klein:178. -/
theorem C73_line178 (isa : Isa) : Shows (env a b c d u v)
    "((b0 e123 + b1 e032 + b2 e013 + b3 e021) | (a0 e0 + a1 e1 + a2 e2 + a3 e3)) ^ (a0 e0 + a1 e1 + a2 e2 + a3 e3)"
    (((⟨b⟩ : Point K).projectPlane isa ⟨a⟩).mv) := by
  shows [(7, ⟨[(⟨[(a0, 1),(a3, 1),(b0, 1)]⟩, 1),(⟨[(a1, 1),(a3, 1),(b1, 1)]⟩, 1),(⟨[(a1, 2),(b3, 1)]⟩,
    -1),(⟨[(a2, 1),(a3, 1),(b2, 1)]⟩, 1),(⟨[(a2, 2),(b3, 1)]⟩, -1)]⟩),(11, ⟨[(⟨[(a0, 1),(a2, 1),(b0,
    1)]⟩, -1),(⟨[(a1, 1),(a2, 1),(b1, 1)]⟩, -1),(⟨[(a1, 2),(b2, 1)]⟩, 1),(⟨[(a2, 1),(a3, 1),(b3, 1)]⟩,
    -1),(⟨[(a3, 2),(b2, 1)]⟩, 1)]⟩),(13, ⟨[(⟨[(a0, 1),(a1, 1),(b0, 1)]⟩, 1),(⟨[(a1, 1),(a2, 1),(b2,
    1)]⟩, 1),(⟨[(a1, 1),(a3, 1),(b3, 1)]⟩, 1),(⟨[(a2, 2),(b1, 1)]⟩, -1),(⟨[(a3, 2),(b1, 1)]⟩,
    -1)]⟩),(14, ⟨[(⟨[(a1, 2),(b0, 1)]⟩, 1),(⟨[(a2, 2),(b0, 1)]⟩, 1),(⟨[(a3, 2),(b0, 1)]⟩, 1)]⟩)]
  cases isa <;> sym_ring

/-- scripts/validation.klein:181. -/
theorem C73_line181 : Shows (env a b c d u v)
    "(a0 + a1 e23 + a2 e31 + a3 e12) | (b0 + b1 e23 + b2 e31 + b3 e12)"
    (PGA.MV.inner (⟨a⟩ : Rotor K).mv (⟨b⟩ : Rotor K).mv) := by
  shows [(0, ⟨[(⟨[(a1, 1),(b1, 1)]⟩, -1),(⟨[(a2, 1),(b2, 1)]⟩, -1),(⟨[(a3, 1),(b3, 1)]⟩, -1)]⟩)]
  sym_ring

/-- scripts/validation.klein:184. -/
theorem C73_line184 : Shows (env a b c d u v)
    "(a0 + a1 e23 + a2 e31 + a3 e12) | (b0 e0123 + b1 e01 + b2 e02 + b3 e03)"
    (PGA.MV.inner (⟨a⟩ : Rotor K).mv (⟨setzero_ps, b⟩ : Motor K).mv) := by
  shows [(3, ⟨[(⟨[(a1, 1),(b0, 1)]⟩, -1)]⟩),(5, ⟨[(⟨[(a2, 1),(b0, 1)]⟩, -1)]⟩),(9, ⟨[(⟨[(a3, 1),(b0,
    1)]⟩, -1)]⟩)]
  sym_ring

/-- scripts/validation.klein:187. -/
theorem C73_line187 : Shows (env a b c d u v)
    "(b0 e0123 + b1 e01 + b2 e02 + b3 e03) | (a0 + a1 e23 + a2 e31 + a3 e12)"
    (PGA.MV.inner (⟨setzero_ps, b⟩ : Motor K).mv (⟨a⟩ : Rotor K).mv) := by
  shows [(3, ⟨[(⟨[(a1, 1),(b0, 1)]⟩, -1)]⟩),(5, ⟨[(⟨[(a2, 1),(b0, 1)]⟩, -1)]⟩),(9, ⟨[(⟨[(a3, 1),(b0,
    1)]⟩, -1)]⟩)]
  sym_ring

/-- scripts/validation.klein:190. -/
theorem C73_line190 : Shows (env a b c d u v)
    "(a0 + a1 e23 + a2 e31 + a3 e12) | (b0 e123 + b1 e032 + b2 e013 + b3 e021)"
    (PGA.MV.inner (⟨a⟩ : Rotor K).mv (⟨b⟩ : Point K).mv) := by
  shows [(1, ⟨[(⟨[(a1, 1),(b1, 1)]⟩, 1),(⟨[(a2, 1),(b2, 1)]⟩, 1),(⟨[(a3, 1),(b3, 1)]⟩, 1)]⟩),(2,
    ⟨[(⟨[(a1, 1),(b0, 1)]⟩, -1)]⟩),(4, ⟨[(⟨[(a2, 1),(b0, 1)]⟩, -1)]⟩),(8, ⟨[(⟨[(a3, 1),(b0, 1)]⟩,
    -1)]⟩)]
  sym_ring

/-- scripts/validation.klein:193. -/
theorem C73_line193 : Shows (env a b c d u v)
    "(b0 e123 + b1 e032 + b2 e013 + b3 e021) | (a0 + a1 e23 + a2 e31 + a3 e12)"
    (PGA.MV.inner (⟨b⟩ : Point K).mv (⟨a⟩ : Rotor K).mv) := by
  shows [(1, ⟨[(⟨[(a1, 1),(b1, 1)]⟩, 1),(⟨[(a2, 1),(b2, 1)]⟩, 1),(⟨[(a3, 1),(b3, 1)]⟩, 1)]⟩),(2,
    ⟨[(⟨[(a1, 1),(b0, 1)]⟩, -1)]⟩),(4, ⟨[(⟨[(a2, 1),(b0, 1)]⟩, -1)]⟩),(8, ⟨[(⟨[(a3, 1),(b0, 1)]⟩,
    -1)]⟩)]
  sym_ring

/-- scripts/validation.klein:196. -/
theorem C73_line196 : Shows (env a b c d u v)
    "(a0 e0123 + a1 e01 + a2 e02 + a3 e03) | (b0 e0123 + b1 e01 + b2 e02 + b3 e03)"
    (0) := by
  shows []
  rfl

/-- scripts/validation.klein:199. -/
theorem C73_line199 : Shows (env a b c d u v)
    "(a0 e0123 + a1 e01 + a2 e02 + a3 e03) | (b0 e123 + b1 e032 + b2 e013 + b3 e021)"
    (PGA.MV.inner (⟨setzero_ps, a⟩ : Motor K).mv (⟨b⟩ : Point K).mv) := by
  shows [(1, ⟨[(⟨[(a0, 1),(b0, 1)]⟩, -1)]⟩)]
  sym_ring

/-- scripts/validation.klein:202. -/
theorem C73_line202 : Shows (env a b c d u v)
    "(b0 e123 + b1 e032 + b2 e013 + b3 e021) | (a0 e0123 + a1 e01 + a2 e02 + a3 e03)"
    (PGA.MV.inner (⟨b⟩ : Point K).mv (⟨setzero_ps, a⟩ : Motor K).mv) := by
  shows [(1, ⟨[(⟨[(a0, 1),(b0, 1)]⟩, 1)]⟩)]
  sym_ring

/-- scripts/validation.klein:205. -/
theorem C73_line205 : Shows (env a b c d u v)
    "(a0 e123 + a1 e032 + a2 e013 + a3 e021) | (b0 e123 + b1 e032 + b2 e013 + b3 e021)"
    (scalarMv ((⟨a⟩ : Point K).dotPoint ⟨b⟩)) := by
  shows [(0, ⟨[(⟨[(a0, 1),(b0, 1)]⟩, -1)]⟩)]
  sym_ring

/-- scripts/validation.klein:208. -/
theorem C73_line208 : Shows (env a b c d u v)
    "(a0 e0 + a1 e1 + a2 e2 + a3 e3) | (b1 e23 + b2 e31 + b3 e12 + c1 e01 + c2 e02 + c3 e03)"
    (((⟨a⟩ : Plane K).dotLine (⟨b.z0, c.z0⟩ : Line K)).mv) := by
  shows [(1, ⟨[(⟨[(a1, 1),(c1, 1)]⟩, -1),(⟨[(a2, 1),(c2, 1)]⟩, -1),(⟨[(a3, 1),(c3, 1)]⟩, -1)]⟩),(2,
    ⟨[(⟨[(a2, 1),(b3, 1)]⟩, -1),(⟨[(a3, 1),(b2, 1)]⟩, 1)]⟩),(4, ⟨[(⟨[(a1, 1),(b3, 1)]⟩, 1),(⟨[(a3,
    1),(b1, 1)]⟩, -1)]⟩),(8, ⟨[(⟨[(a1, 1),(b2, 1)]⟩, -1),(⟨[(a2, 1),(b1, 1)]⟩, 1)]⟩)]
  sym_ring

/-- scripts/validation.klein:211. -/
theorem C73_line211 : Shows (env a b c d u v)
    "(b1 e23 + b2 e31 + b3 e12 + c1 e01 + c2 e02 + c3 e03) | (a0 e0 + a1 e1 + a2 e2 + a3 e3)"
    (((⟨b.z0, c.z0⟩ : Line K).dotPlane ⟨a⟩).mv) := by
  shows [(1, ⟨[(⟨[(a1, 1),(c1, 1)]⟩, 1),(⟨[(a2, 1),(c2, 1)]⟩, 1),(⟨[(a3, 1),(c3, 1)]⟩, 1)]⟩),(2,
    ⟨[(⟨[(a2, 1),(b3, 1)]⟩, 1),(⟨[(a3, 1),(b2, 1)]⟩, -1)]⟩),(4, ⟨[(⟨[(a1, 1),(b3, 1)]⟩, -1),(⟨[(a3,
    1),(b1, 1)]⟩, 1)]⟩),(8, ⟨[(⟨[(a1, 1),(b2, 1)]⟩, 1),(⟨[(a2, 1),(b1, 1)]⟩, -1)]⟩)]
  sym_ring

/-- scripts/validation.klein:214. -/
theorem C73_line214 (isa : Isa) : Shows (env a b c d u v)
    "(a0 e0 + a1 e1 + a2 e2 + a3 e3) | (c1 e01 + c2 e02 + c3 e03)"
    (((⟨a⟩ : Plane K).dotIdealLine isa ⟨c.z0⟩).mv) := by
  shows [(1, ⟨[(⟨[(a1, 1),(c1, 1)]⟩, -1),(⟨[(a2, 1),(c2, 1)]⟩, -1),(⟨[(a3, 1),(c3, 1)]⟩, -1)]⟩)]
  cases isa <;> sym_ring

/-- scripts/validation.klein:217. -/
theorem C73_line217 (isa : Isa) : Shows (env a b c d u v)
    "(c1 e01 + c2 e02 + c3 e03) | (a0 e0 + a1 e1 + a2 e2 + a3 e3)"
    (((⟨c.z0⟩ : IdealLine K).dotPlane isa ⟨a⟩).mv) := by
  shows [(1, ⟨[(⟨[(a1, 1),(c1, 1)]⟩, 1),(⟨[(a2, 1),(c2, 1)]⟩, 1),(⟨[(a3, 1),(c3, 1)]⟩, 1)]⟩)]
  cases isa <;> sym_ring

/-- scripts/validation.klein:220. -/
theorem C73_line220 : Shows (env a b c d u v)
    "(a1 e23 + a2 e31 + a3 e12 + d1 e01 + d2 e02 + d3 e03) | (b1 e23 + b2 e31 + b3 e12 + c1 e01 + c2 e02 + c3 e03)"
    (scalarMv ((⟨a.z0, d.z0⟩ : Line K).dotLine (⟨b.z0, c.z0⟩ : Line K))) := by
  shows [(0, ⟨[(⟨[(a1, 1),(b1, 1)]⟩, -1),(⟨[(a2, 1),(b2, 1)]⟩, -1),(⟨[(a3, 1),(b3, 1)]⟩, -1)]⟩)]
  sym_ring

/-- scripts/validation.klein:223. -/
theorem C73_line223 (isa : Isa) : Shows (env a b c d u v)
    "(b1 e23 + b2 e31 + b3 e12 + c1 e01 + c2 e02 + c3 e03) | (a0 e123 + a1 e032 + a2 e013 + a3 e021)"
    (((⟨b.z0, c.z0⟩ : Line K).dotPoint isa ⟨a⟩).mv) := by
  shows [(1, ⟨[(⟨[(a1, 1),(b1, 1)]⟩, 1),(⟨[(a2, 1),(b2, 1)]⟩, 1),(⟨[(a3, 1),(b3, 1)]⟩, 1)]⟩),(2,
    ⟨[(⟨[(a0, 1),(b1, 1)]⟩, -1)]⟩),(4, ⟨[(⟨[(a0, 1),(b2, 1)]⟩, -1)]⟩),(8, ⟨[(⟨[(a0, 1),(b3, 1)]⟩,
    -1)]⟩)]
  cases isa <;> sym_ring

/-- scripts/validation.klein:226. -/
theorem C73_line226 (isa : Isa) : Shows (env a b c d u v)
    "(a0 e123 + a1 e032 + a2 e013 + a3 e021) | (b1 e23 + b2 e31 + b3 e12 + c1 e01 + c2 e02 + c3 e03)"
    (((⟨a⟩ : Point K).dotLine isa (⟨b.z0, c.z0⟩ : Line K)).mv) := by
  shows [(1, ⟨[(⟨[(a1, 1),(b1, 1)]⟩, 1),(⟨[(a2, 1),(b2, 1)]⟩, 1),(⟨[(a3, 1),(b3, 1)]⟩, 1)]⟩),(2,
    ⟨[(⟨[(a0, 1),(b1, 1)]⟩, -1)]⟩),(4, ⟨[(⟨[(a0, 1),(b2, 1)]⟩, -1)]⟩),(8, ⟨[(⟨[(a0, 1),(b3, 1)]⟩,
    -1)]⟩)]
  cases isa <;> sym_ring

/-- The library's `line * line` is not what the script shows (C05). -/
theorem C73_line23_fails : ∃ (a b c d : V4 ℤ) (u v : ℤ), ∃ x, Shows (env a b c d u v)
    "(a1 e23 + a2 e31 + a3 e12 + d1 e01 + d2 e02 + d3 e03) * (b1 e23 + b2 e31 + b3 e12 + c1 e01 + c2 e02 + c3 e03)" x ∧
    x ≠ ((⟨a.z0, d.z0⟩ : Line ℤ).mulLine ⟨b.z0, c.z0⟩).mv :=
  ⟨⟨0, 1, 0, 0⟩, ⟨0, 0, 1, 0⟩, ⟨0, 0, 0, 0⟩, ⟨0, 0, 0, 0⟩, 0, 0, _, C73_line23 _ _ _ _ _ _, by decide⟩

end

end Sym

end Klein
