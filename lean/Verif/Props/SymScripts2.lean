import Verif.Props.SymValue
import Verif.Props.Actions

/-!
# scripts/validation.klein against the library: sandwich products and projections

C73, continued from `Verif.Props.SymScripts`.
-/

namespace Klein
namespace Sym

set_option maxRecDepth 4000

variable {K : Type} [CommRing K]

section
variable (a b c d : V4 K) (u v : K)
local notation "a0" => ['a', '0']
local notation "a1" => ['a', '1']
local notation "a2" => ['a', '2']
local notation "a3" => ['a', '3']
local notation "b0" => ['b', '0']
local notation "b1" => ['b', '1']
local notation "b2" => ['b', '2']
local notation "b3" => ['b', '3']
local notation "c0" => ['c', '0']
local notation "c1" => ['c', '1']
local notation "c2" => ['c', '2']
local notation "c3" => ['c', '3']
local notation "d0" => ['d', '0']
local notation "d1" => ['d', '1']
local notation "d2" => ['d', '2']
local notation "d3" => ['d', '3']

/-- scripts/validation.klein:229. -/
theorem C73_line229 : Shows (env a b c d u v)
    "(a0 e0 + a1 e1 + a2 e2 + a3 e3) * (b0 e0 + b1 e1 + b2 e2 + b3 e3) * (a0 e0 + a1 e1 + a2 e2 + a3 e3)"
    (((⟨a⟩ : Plane K).onPlane ⟨b⟩).mv) := by
  shows [(1, ⟨[(⟨[(a0, 1),(a1, 1),(b1, 1)]⟩, 2),(⟨[(a0, 1),(a2, 1),(b2, 1)]⟩, 2),(⟨[(a0, 1),(a3, 1),(b3,
    1)]⟩, 2),(⟨[(a1, 2),(b0, 1)]⟩, -1),(⟨[(a2, 2),(b0, 1)]⟩, -1),(⟨[(a3, 2),(b0, 1)]⟩, -1)]⟩),(2,
    ⟨[(⟨[(a1, 1),(a2, 1),(b2, 1)]⟩, 2),(⟨[(a1, 1),(a3, 1),(b3, 1)]⟩, 2),(⟨[(a1, 2),(b1, 1)]⟩, 1),(⟨[(a2,
    2),(b1, 1)]⟩, -1),(⟨[(a3, 2),(b1, 1)]⟩, -1)]⟩),(4, ⟨[(⟨[(a1, 1),(a2, 1),(b1, 1)]⟩, 2),(⟨[(a1,
    2),(b2, 1)]⟩, -1),(⟨[(a2, 1),(a3, 1),(b3, 1)]⟩, 2),(⟨[(a2, 2),(b2, 1)]⟩, 1),(⟨[(a3, 2),(b2, 1)]⟩,
    -1)]⟩),(8, ⟨[(⟨[(a1, 1),(a3, 1),(b1, 1)]⟩, 2),(⟨[(a1, 2),(b3, 1)]⟩, -1),(⟨[(a2, 1),(a3, 1),(b2,
    1)]⟩, 2),(⟨[(a2, 2),(b3, 1)]⟩, -1),(⟨[(a3, 2),(b3, 1)]⟩, 1)]⟩)]
  sym_ring

/-- scripts/validation.klein:232. -/
theorem C73_line232 : Shows (env a b.z0 c d u v)
    "(a0 e0 + a1 e1 + a2 e2 + a3 e3) * (b0 + b1 e23 + b2 e31 + b3 e12) * (a0 e0 + a1 e1 + a2 e2 + a3 e3)"
    (((⟨a⟩ : Plane K).onLine ⟨b.z0, setzero_ps⟩).mv) := by
  shows [(0, ⟨[(⟨[(a1, 2),(b0, 1)]⟩, 1),(⟨[(a2, 2),(b0, 1)]⟩, 1),(⟨[(a3, 2),(b0, 1)]⟩, 1)]⟩),(3,
    ⟨[(⟨[(a0, 1),(a2, 1),(b3, 1)]⟩, 2),(⟨[(a0, 1),(a3, 1),(b2, 1)]⟩, -2)]⟩),(5, ⟨[(⟨[(a0, 1),(a1,
    1),(b3, 1)]⟩, -2),(⟨[(a0, 1),(a3, 1),(b1, 1)]⟩, 2)]⟩),(6, ⟨[(⟨[(a1, 1),(a3, 1),(b1, 1)]⟩, 2),(⟨[(a1,
    2),(b3, 1)]⟩, -1),(⟨[(a2, 1),(a3, 1),(b2, 1)]⟩, 2),(⟨[(a2, 2),(b3, 1)]⟩, -1),(⟨[(a3, 2),(b3, 1)]⟩,
    1)]⟩),(9, ⟨[(⟨[(a0, 1),(a1, 1),(b2, 1)]⟩, 2),(⟨[(a0, 1),(a2, 1),(b1, 1)]⟩, -2)]⟩),(10, ⟨[(⟨[(a1,
    1),(a2, 1),(b1, 1)]⟩, -2),(⟨[(a1, 2),(b2, 1)]⟩, 1),(⟨[(a2, 1),(a3, 1),(b3, 1)]⟩, -2),(⟨[(a2, 2),(b2,
    1)]⟩, -1),(⟨[(a3, 2),(b2, 1)]⟩, 1)]⟩),(12, ⟨[(⟨[(a1, 1),(a2, 1),(b2, 1)]⟩, 2),(⟨[(a1, 1),(a3,
    1),(b3, 1)]⟩, 2),(⟨[(a1, 2),(b1, 1)]⟩, 1),(⟨[(a2, 2),(b1, 1)]⟩, -1),(⟨[(a3, 2),(b1, 1)]⟩, -1)]⟩)]
  sym_ring

/-- scripts/validation.klein:235. -/
theorem C73_line235 : Shows (env a b.z0 c d u v)
    "(a0 e0 + a1 e1 + a2 e2 + a3 e3) * (b0 e0123 + b1 e01 + b2 e02 + b3 e03) * (a0 e0 + a1 e1 + a2 e2 + a3 e3)"
    (((⟨a⟩ : Plane K).onLine ⟨setzero_ps, b.z0⟩).mv) := by
  shows [(3, ⟨[(⟨[(a1, 1),(a2, 1),(b2, 1)]⟩, -2),(⟨[(a1, 1),(a3, 1),(b3, 1)]⟩, -2),(⟨[(a1, 2),(b1, 1)]⟩,
    -1),(⟨[(a2, 2),(b1, 1)]⟩, 1),(⟨[(a3, 2),(b1, 1)]⟩, 1)]⟩),(5, ⟨[(⟨[(a1, 1),(a2, 1),(b1, 1)]⟩,
    -2),(⟨[(a1, 2),(b2, 1)]⟩, 1),(⟨[(a2, 1),(a3, 1),(b3, 1)]⟩, -2),(⟨[(a2, 2),(b2, 1)]⟩, -1),(⟨[(a3,
    2),(b2, 1)]⟩, 1)]⟩),(9, ⟨[(⟨[(a1, 1),(a3, 1),(b1, 1)]⟩, -2),(⟨[(a1, 2),(b3, 1)]⟩, 1),(⟨[(a2, 1),(a3,
    1),(b2, 1)]⟩, -2),(⟨[(a2, 2),(b3, 1)]⟩, 1),(⟨[(a3, 2),(b3, 1)]⟩, -1)]⟩),(15, ⟨[(⟨[(a1, 2),(b0, 1)]⟩,
    -1),(⟨[(a2, 2),(b0, 1)]⟩, -1),(⟨[(a3, 2),(b0, 1)]⟩, -1)]⟩)]
  sym_ring

/-- scripts/validation.klein:238. -/
theorem C73_line238 : Shows (env a b c d u v)
    "(a0 e0 + a1 e1 + a2 e2 + a3 e3) * (b0 e123 + b1 e032 + b2 e013 + b3 e021) * (a0 e0 + a1 e1 + a2 e2 + a3 e3)"
    (((⟨a⟩ : Plane K).onPoint ⟨b⟩).mv) := by
  shows [(7, ⟨[(⟨[(a0, 1),(a3, 1),(b0, 1)]⟩, 2),(⟨[(a1, 1),(a3, 1),(b1, 1)]⟩, 2),(⟨[(a1, 2),(b3, 1)]⟩,
    -1),(⟨[(a2, 1),(a3, 1),(b2, 1)]⟩, 2),(⟨[(a2, 2),(b3, 1)]⟩, -1),(⟨[(a3, 2),(b3, 1)]⟩, 1)]⟩),(11,
    ⟨[(⟨[(a0, 1),(a2, 1),(b0, 1)]⟩, -2),(⟨[(a1, 1),(a2, 1),(b1, 1)]⟩, -2),(⟨[(a1, 2),(b2, 1)]⟩,
    1),(⟨[(a2, 1),(a3, 1),(b3, 1)]⟩, -2),(⟨[(a2, 2),(b2, 1)]⟩, -1),(⟨[(a3, 2),(b2, 1)]⟩, 1)]⟩),(13,
    ⟨[(⟨[(a0, 1),(a1, 1),(b0, 1)]⟩, 2),(⟨[(a1, 1),(a2, 1),(b2, 1)]⟩, 2),(⟨[(a1, 1),(a3, 1),(b3, 1)]⟩,
    2),(⟨[(a1, 2),(b1, 1)]⟩, 1),(⟨[(a2, 2),(b1, 1)]⟩, -1),(⟨[(a3, 2),(b1, 1)]⟩, -1)]⟩),(14, ⟨[(⟨[(a1,
    2),(b0, 1)]⟩, 1),(⟨[(a2, 2),(b0, 1)]⟩, 1),(⟨[(a3, 2),(b0, 1)]⟩, 1)]⟩)]
  sym_ring

/-- scripts/validation.klein:244. -/
theorem C73_line244 : Shows (env a b c d u v)
    "(1 + c1 e01 + c2 e02 + c3 e03) * (a0 e123 + a1 e032 + a2 e013 + a3 e021) * (1 - c1 e01 - c2 e02 - c3 e03) "
    (((⟨c.z0⟩ : Translator K).onPoint ⟨a⟩).mv) := by
  shows [(7, ⟨[(⟨[(a3, 1)]⟩, -1),(⟨[(a0, 1),(c3, 1)]⟩, 2)]⟩),(11, ⟨[(⟨[(a2, 1)]⟩, 1),(⟨[(a0, 1),(c2,
    1)]⟩, -2)]⟩),(13, ⟨[(⟨[(a1, 1)]⟩, -1),(⟨[(a0, 1),(c1, 1)]⟩, 2)]⟩),(14, ⟨[(⟨[(a0, 1)]⟩, 1)]⟩)]
  sym_ring

/-- scripts/validation.klein:247. -/
theorem C73_line247 : Shows (env a.z0 b c d u v)
    "(b0 + b1 e12 + b2 e31 + b3 e23) * (a0 + a1 e12 + a2 e31 + a3 e23) * (b0 - b1 e12 - b2 e31 - b3 e23) "
    (((⟨b.rv⟩ : Rotor K).onBranch ⟨a.rv.z0⟩).mv) := by
  shows [(0, ⟨[(⟨[(a0, 1),(b0, 2)]⟩, 1),(⟨[(a0, 1),(b1, 2)]⟩, 1),(⟨[(a0, 1),(b2, 2)]⟩, 1),(⟨[(a0,
    1),(b3, 2)]⟩, 1)]⟩),(6, ⟨[(⟨[(a1, 1),(b0, 2)]⟩, 1),(⟨[(a1, 1),(b1, 2)]⟩, 1),(⟨[(a1, 1),(b2, 2)]⟩,
    -1),(⟨[(a1, 1),(b3, 2)]⟩, -1),(⟨[(a2, 1),(b0, 1),(b3, 1)]⟩, -2),(⟨[(a2, 1),(b1, 1),(b2, 1)]⟩,
    2),(⟨[(a3, 1),(b0, 1),(b2, 1)]⟩, 2),(⟨[(a3, 1),(b1, 1),(b3, 1)]⟩, 2)]⟩),(10, ⟨[(⟨[(a1, 1),(b0,
    1),(b3, 1)]⟩, -2),(⟨[(a1, 1),(b1, 1),(b2, 1)]⟩, -2),(⟨[(a2, 1),(b0, 2)]⟩, -1),(⟨[(a2, 1),(b1, 2)]⟩,
    1),(⟨[(a2, 1),(b2, 2)]⟩, -1),(⟨[(a2, 1),(b3, 2)]⟩, 1),(⟨[(a3, 1),(b0, 1),(b1, 1)]⟩, 2),(⟨[(a3,
    1),(b2, 1),(b3, 1)]⟩, -2)]⟩),(12, ⟨[(⟨[(a1, 1),(b0, 1),(b2, 1)]⟩, -2),(⟨[(a1, 1),(b1, 1),(b3, 1)]⟩,
    2),(⟨[(a2, 1),(b0, 1),(b1, 1)]⟩, 2),(⟨[(a2, 1),(b2, 1),(b3, 1)]⟩, 2),(⟨[(a3, 1),(b0, 2)]⟩,
    1),(⟨[(a3, 1),(b1, 2)]⟩, -1),(⟨[(a3, 1),(b2, 2)]⟩, -1),(⟨[(a3, 1),(b3, 2)]⟩, 1)]⟩)]
  sym_ring

/-- scripts/validation.klein:250. -/
theorem C73_line250 : Shows (env a b c d u v)
    "(b0 e0123 + b1 e021 + b2 e013 + b3 e032) * (a0 + a1 e12 + a2 e31 + a3 e23) * (b0 e0123 - b1 e021 - b2 e013 - b3 e032) "
    (0) := by
  shows []
  rfl

/-- scripts/validation.klein:253. -/
theorem C73_line253 : Shows (env a.z0 b c d u v)
    "(b0 + b1 e12 + b2 e31 + b3 e23) * (a0 e0123 + a1 e01 + a2 e02 + a3 e03) * (b0 - b1 e12 - b2 e31 - b3 e23) "
    (((⟨b.rv⟩ : Rotor K).onLine ⟨setzero_ps, a.z0⟩).mv) := by
  shows [(3, ⟨[(⟨[(a1, 1),(b0, 2)]⟩, 1),(⟨[(a1, 1),(b1, 2)]⟩, -1),(⟨[(a1, 1),(b2, 2)]⟩, -1),(⟨[(a1,
    1),(b3, 2)]⟩, 1),(⟨[(a2, 1),(b0, 1),(b1, 1)]⟩, 2),(⟨[(a2, 1),(b2, 1),(b3, 1)]⟩, 2),(⟨[(a3, 1),(b0,
    1),(b2, 1)]⟩, -2),(⟨[(a3, 1),(b1, 1),(b3, 1)]⟩, 2)]⟩),(5, ⟨[(⟨[(a1, 1),(b0, 1),(b1, 1)]⟩,
    -2),(⟨[(a1, 1),(b2, 1),(b3, 1)]⟩, 2),(⟨[(a2, 1),(b0, 2)]⟩, 1),(⟨[(a2, 1),(b1, 2)]⟩, -1),(⟨[(a2,
    1),(b2, 2)]⟩, 1),(⟨[(a2, 1),(b3, 2)]⟩, -1),(⟨[(a3, 1),(b0, 1),(b3, 1)]⟩, 2),(⟨[(a3, 1),(b1, 1),(b2,
    1)]⟩, 2)]⟩),(9, ⟨[(⟨[(a1, 1),(b0, 1),(b2, 1)]⟩, 2),(⟨[(a1, 1),(b1, 1),(b3, 1)]⟩, 2),(⟨[(a2, 1),(b0,
    1),(b3, 1)]⟩, -2),(⟨[(a2, 1),(b1, 1),(b2, 1)]⟩, 2),(⟨[(a3, 1),(b0, 2)]⟩, 1),(⟨[(a3, 1),(b1, 2)]⟩,
    1),(⟨[(a3, 1),(b2, 2)]⟩, -1),(⟨[(a3, 1),(b3, 2)]⟩, -1)]⟩),(15, ⟨[(⟨[(a0, 1),(b0, 2)]⟩, 1),(⟨[(a0,
    1),(b1, 2)]⟩, 1),(⟨[(a0, 1),(b2, 2)]⟩, 1),(⟨[(a0, 1),(b3, 2)]⟩, 1)]⟩)]
  sym_ring

/-- scripts/validation.klein:256. -/
theorem C73_line256 : Shows (env a b c d u v)
    "(b0 e0123 + b1 e021 + b2 e013 + b3 e032) * (a0 e0123 + a1 e01 + a2 e02 + a3 e03) * (b0 e0123 - b1 e021 - b2 e013 - b3 e032) "
    (0) := by
  shows []
  rfl

/-- scripts/validation.klein:259. -/
theorem C73_line259 : Shows (env a b c d u v)
    "(b0 + b1 e12 + b2 e31 + b3 e23) * (a0 + a1 e12 + a2 e31 + a3 e23) * (c0 e0123 - c1 e01 - c2 e02 - c3 e03) "
    ((⟨b.rv⟩ : Rotor K).mv * (⟨a.rv⟩ : Rotor K).mv * PGA.MV.rev (⟨setzero_ps, c⟩ : Motor K).mv) := by
  shows [(3, ⟨[(⟨[(a0, 1),(b0, 1),(c1, 1)]⟩, -1),(⟨[(a0, 1),(b1, 1),(c2, 1)]⟩, -1),(⟨[(a0, 1),(b2,
    1),(c3, 1)]⟩, 1),(⟨[(a0, 1),(b3, 1),(c0, 1)]⟩, -1),(⟨[(a1, 1),(b0, 1),(c2, 1)]⟩, -1),(⟨[(a1, 1),(b1,
    1),(c1, 1)]⟩, 1),(⟨[(a1, 1),(b2, 1),(c0, 1)]⟩, 1),(⟨[(a1, 1),(b3, 1),(c3, 1)]⟩, 1),(⟨[(a2, 1),(b0,
    1),(c3, 1)]⟩, 1),(⟨[(a2, 1),(b1, 1),(c0, 1)]⟩, -1),(⟨[(a2, 1),(b2, 1),(c1, 1)]⟩, 1),(⟨[(a2, 1),(b3,
    1),(c2, 1)]⟩, 1),(⟨[(a3, 1),(b0, 1),(c0, 1)]⟩, -1),(⟨[(a3, 1),(b1, 1),(c3, 1)]⟩, -1),(⟨[(a3, 1),(b2,
    1),(c2, 1)]⟩, -1),(⟨[(a3, 1),(b3, 1),(c1, 1)]⟩, 1)]⟩),(5, ⟨[(⟨[(a0, 1),(b0, 1),(c2, 1)]⟩,
    -1),(⟨[(a0, 1),(b1, 1),(c1, 1)]⟩, 1),(⟨[(a0, 1),(b2, 1),(c0, 1)]⟩, -1),(⟨[(a0, 1),(b3, 1),(c3, 1)]⟩,
    -1),(⟨[(a1, 1),(b0, 1),(c1, 1)]⟩, 1),(⟨[(a1, 1),(b1, 1),(c2, 1)]⟩, 1),(⟨[(a1, 1),(b2, 1),(c3, 1)]⟩,
    1),(⟨[(a1, 1),(b3, 1),(c0, 1)]⟩, -1),(⟨[(a2, 1),(b0, 1),(c0, 1)]⟩, -1),(⟨[(a2, 1),(b1, 1),(c3, 1)]⟩,
    -1),(⟨[(a2, 1),(b2, 1),(c2, 1)]⟩, 1),(⟨[(a2, 1),(b3, 1),(c1, 1)]⟩, -1),(⟨[(a3, 1),(b0, 1),(c3, 1)]⟩,
    -1),(⟨[(a3, 1),(b1, 1),(c0, 1)]⟩, 1),(⟨[(a3, 1),(b2, 1),(c1, 1)]⟩, 1),(⟨[(a3, 1),(b3, 1),(c2, 1)]⟩,
    1)]⟩),(9, ⟨[(⟨[(a0, 1),(b0, 1),(c3, 1)]⟩, -1),(⟨[(a0, 1),(b1, 1),(c0, 1)]⟩, -1),(⟨[(a0, 1),(b2,
    1),(c1, 1)]⟩, -1),(⟨[(a0, 1),(b3, 1),(c2, 1)]⟩, 1),(⟨[(a1, 1),(b0, 1),(c0, 1)]⟩, -1),(⟨[(a1, 1),(b1,
    1),(c3, 1)]⟩, 1),(⟨[(a1, 1),(b2, 1),(c2, 1)]⟩, -1),(⟨[(a1, 1),(b3, 1),(c1, 1)]⟩, -1),(⟨[(a2, 1),(b0,
    1),(c1, 1)]⟩, -1),(⟨[(a2, 1),(b1, 1),(c2, 1)]⟩, 1),(⟨[(a2, 1),(b2, 1),(c3, 1)]⟩, 1),(⟨[(a2, 1),(b3,
    1),(c0, 1)]⟩, 1),(⟨[(a3, 1),(b0, 1),(c2, 1)]⟩, 1),(⟨[(a3, 1),(b1, 1),(c1, 1)]⟩, 1),(⟨[(a3, 1),(b2,
    1),(c0, 1)]⟩, -1),(⟨[(a3, 1),(b3, 1),(c3, 1)]⟩, 1)]⟩),(15, ⟨[(⟨[(a0, 1),(b0, 1),(c0, 1)]⟩,
    1),(⟨[(a0, 1),(b1, 1),(c3, 1)]⟩, -1),(⟨[(a0, 1),(b2, 1),(c2, 1)]⟩, -1),(⟨[(a0, 1),(b3, 1),(c1, 1)]⟩,
    -1),(⟨[(a1, 1),(b0, 1),(c3, 1)]⟩, -1),(⟨[(a1, 1),(b1, 1),(c0, 1)]⟩, -1),(⟨[(a1, 1),(b2, 1),(c1,
    1)]⟩, 1),(⟨[(a1, 1),(b3, 1),(c2, 1)]⟩, -1),(⟨[(a2, 1),(b0, 1),(c2, 1)]⟩, -1),(⟨[(a2, 1),(b1, 1),(c1,
    1)]⟩, -1),(⟨[(a2, 1),(b2, 1),(c0, 1)]⟩, -1),(⟨[(a2, 1),(b3, 1),(c3, 1)]⟩, 1),(⟨[(a3, 1),(b0, 1),(c1,
    1)]⟩, -1),(⟨[(a3, 1),(b1, 1),(c2, 1)]⟩, 1),(⟨[(a3, 1),(b2, 1),(c3, 1)]⟩, -1),(⟨[(a3, 1),(b3, 1),(c0,
    1)]⟩, -1)]⟩)]
  sym_ring

/-- scripts/validation.klein:262. -/
theorem C73_line262 : Shows (env a b c d u v)
    "(b0 + b1 e12 + b2 e31 + b3 e23) * (a0 e0123 + a1 e01 + a2 e02 + a3 e03) * (c0 e0123 - c1 e01 - c2 e02 - c3 e03) "
    (0) := by
  shows []
  rfl

/-- scripts/validation.klein:265. -/
theorem C73_line265 : Shows (env a b c d u v)
    "(b0 e0123 + b1 e01 + b2 e02 + b3 e03) * (a0 + a1 e12 + a2 e31 + a3 e23) * (c0 - c1 e12 - c2 e31 - c3 e23) "
    ((⟨setzero_ps, b⟩ : Motor K).mv * (⟨a.rv⟩ : Rotor K).mv * PGA.MV.rev (⟨c.rv⟩ : Rotor K).mv) := by
  shows [(3, ⟨[(⟨[(a0, 1),(b0, 1),(c3, 1)]⟩, 1),(⟨[(a0, 1),(b1, 1),(c0, 1)]⟩, 1),(⟨[(a0, 1),(b2, 1),(c1,
    1)]⟩, 1),(⟨[(a0, 1),(b3, 1),(c2, 1)]⟩, -1),(⟨[(a1, 1),(b0, 1),(c2, 1)]⟩, 1),(⟨[(a1, 1),(b1, 1),(c1,
    1)]⟩, 1),(⟨[(a1, 1),(b2, 1),(c0, 1)]⟩, -1),(⟨[(a1, 1),(b3, 1),(c3, 1)]⟩, 1),(⟨[(a2, 1),(b0, 1),(c1,
    1)]⟩, -1),(⟨[(a2, 1),(b1, 1),(c2, 1)]⟩, 1),(⟨[(a2, 1),(b2, 1),(c3, 1)]⟩, 1),(⟨[(a2, 1),(b3, 1),(c0,
    1)]⟩, 1),(⟨[(a3, 1),(b0, 1),(c0, 1)]⟩, -1),(⟨[(a3, 1),(b1, 1),(c3, 1)]⟩, 1),(⟨[(a3, 1),(b2, 1),(c2,
    1)]⟩, -1),(⟨[(a3, 1),(b3, 1),(c1, 1)]⟩, -1)]⟩),(5, ⟨[(⟨[(a0, 1),(b0, 1),(c2, 1)]⟩, 1),(⟨[(a0,
    1),(b1, 1),(c1, 1)]⟩, -1),(⟨[(a0, 1),(b2, 1),(c0, 1)]⟩, 1),(⟨[(a0, 1),(b3, 1),(c3, 1)]⟩, 1),(⟨[(a1,
    1),(b0, 1),(c3, 1)]⟩, -1),(⟨[(a1, 1),(b1, 1),(c0, 1)]⟩, 1),(⟨[(a1, 1),(b2, 1),(c1, 1)]⟩, 1),(⟨[(a1,
    1),(b3, 1),(c2, 1)]⟩, 1),(⟨[(a2, 1),(b0, 1),(c0, 1)]⟩, -1),(⟨[(a2, 1),(b1, 1),(c3, 1)]⟩, -1),(⟨[(a2,
    1),(b2, 1),(c2, 1)]⟩, 1),(⟨[(a2, 1),(b3, 1),(c1, 1)]⟩, -1),(⟨[(a3, 1),(b0, 1),(c1, 1)]⟩, 1),(⟨[(a3,
    1),(b1, 1),(c2, 1)]⟩, 1),(⟨[(a3, 1),(b2, 1),(c3, 1)]⟩, 1),(⟨[(a3, 1),(b3, 1),(c0, 1)]⟩, -1)]⟩),(9,
    ⟨[(⟨[(a0, 1),(b0, 1),(c1, 1)]⟩, 1),(⟨[(a0, 1),(b1, 1),(c2, 1)]⟩, 1),(⟨[(a0, 1),(b2, 1),(c3, 1)]⟩,
    -1),(⟨[(a0, 1),(b3, 1),(c0, 1)]⟩, 1),(⟨[(a1, 1),(b0, 1),(c0, 1)]⟩, -1),(⟨[(a1, 1),(b1, 1),(c3, 1)]⟩,
    -1),(⟨[(a1, 1),(b2, 1),(c2, 1)]⟩, -1),(⟨[(a1, 1),(b3, 1),(c1, 1)]⟩, 1),(⟨[(a2, 1),(b0, 1),(c3, 1)]⟩,
    1),(⟨[(a2, 1),(b1, 1),(c0, 1)]⟩, -1),(⟨[(a2, 1),(b2, 1),(c1, 1)]⟩, 1),(⟨[(a2, 1),(b3, 1),(c2, 1)]⟩,
    1),(⟨[(a3, 1),(b0, 1),(c2, 1)]⟩, -1),(⟨[(a3, 1),(b1, 1),(c1, 1)]⟩, 1),(⟨[(a3, 1),(b2, 1),(c0, 1)]⟩,
    1),(⟨[(a3, 1),(b3, 1),(c3, 1)]⟩, 1)]⟩),(15, ⟨[(⟨[(a0, 1),(b0, 1),(c0, 1)]⟩, 1),(⟨[(a0, 1),(b1,
    1),(c3, 1)]⟩, -1),(⟨[(a0, 1),(b2, 1),(c2, 1)]⟩, -1),(⟨[(a0, 1),(b3, 1),(c1, 1)]⟩, -1),(⟨[(a1,
    1),(b0, 1),(c1, 1)]⟩, 1),(⟨[(a1, 1),(b1, 1),(c2, 1)]⟩, -1),(⟨[(a1, 1),(b2, 1),(c3, 1)]⟩, 1),(⟨[(a1,
    1),(b3, 1),(c0, 1)]⟩, 1),(⟨[(a2, 1),(b0, 1),(c2, 1)]⟩, 1),(⟨[(a2, 1),(b1, 1),(c1, 1)]⟩, 1),(⟨[(a2,
    1),(b2, 1),(c0, 1)]⟩, 1),(⟨[(a2, 1),(b3, 1),(c3, 1)]⟩, -1),(⟨[(a3, 1),(b0, 1),(c3, 1)]⟩, 1),(⟨[(a3,
    1),(b1, 1),(c0, 1)]⟩, 1),(⟨[(a3, 1),(b2, 1),(c1, 1)]⟩, -1),(⟨[(a3, 1),(b3, 1),(c2, 1)]⟩, 1)]⟩)]
  sym_ring

/-- scripts/validation.klein:268. -/
theorem C73_line268 : Shows (env a b c d u v)
    "(b0 e0123 + b1 e01 + b2 e02 + b3 e03) * (a0 e0123 + a1 e01 + a2 e02 + a3 e03) * (c0 - c1 e12 - c2 e31 - c3 e23) "
    (0) := by
  shows []
  rfl

/-- scripts/validation.klein:271. -/
theorem C73_line271 : Shows (env a b c d u v)
    "(a0 + a1 e23 + a2 e31 + a3 e12 + b1 e01 + b2 e02 + b3 e03 + b0 e0123) * (c0 + c1 e23 + c2 e31 + c3 e12 + d1 e01 + d2 e02 + d3 e03 + d0 e0123)"
    (((⟨a, b⟩ : Motor K).mulMotor ⟨c, d⟩).mv) := by
  shows [(0, ⟨[(⟨[(a0, 1),(c0, 1)]⟩, 1),(⟨[(a1, 1),(c1, 1)]⟩, -1),(⟨[(a2, 1),(c2, 1)]⟩, -1),(⟨[(a3,
    1),(c3, 1)]⟩, -1)]⟩),(3, ⟨[(⟨[(a0, 1),(d1, 1)]⟩, 1),(⟨[(a1, 1),(d0, 1)]⟩, -1),(⟨[(a2, 1),(d3, 1)]⟩,
    -1),(⟨[(a3, 1),(d2, 1)]⟩, 1),(⟨[(b0, 1),(c1, 1)]⟩, -1),(⟨[(b1, 1),(c0, 1)]⟩, 1),(⟨[(b2, 1),(c3,
    1)]⟩, -1),(⟨[(b3, 1),(c2, 1)]⟩, 1)]⟩),(5, ⟨[(⟨[(a0, 1),(d2, 1)]⟩, 1),(⟨[(a1, 1),(d3, 1)]⟩,
    1),(⟨[(a2, 1),(d0, 1)]⟩, -1),(⟨[(a3, 1),(d1, 1)]⟩, -1),(⟨[(b0, 1),(c2, 1)]⟩, -1),(⟨[(b1, 1),(c3,
    1)]⟩, 1),(⟨[(b2, 1),(c0, 1)]⟩, 1),(⟨[(b3, 1),(c1, 1)]⟩, -1)]⟩),(6, ⟨[(⟨[(a0, 1),(c3, 1)]⟩,
    1),(⟨[(a1, 1),(c2, 1)]⟩, -1),(⟨[(a2, 1),(c1, 1)]⟩, 1),(⟨[(a3, 1),(c0, 1)]⟩, 1)]⟩),(9, ⟨[(⟨[(a0,
    1),(d3, 1)]⟩, 1),(⟨[(a1, 1),(d2, 1)]⟩, -1),(⟨[(a2, 1),(d1, 1)]⟩, 1),(⟨[(a3, 1),(d0, 1)]⟩,
    -1),(⟨[(b0, 1),(c3, 1)]⟩, -1),(⟨[(b1, 1),(c2, 1)]⟩, -1),(⟨[(b2, 1),(c1, 1)]⟩, 1),(⟨[(b3, 1),(c0,
    1)]⟩, 1)]⟩),(10, ⟨[(⟨[(a0, 1),(c2, 1)]⟩, -1),(⟨[(a1, 1),(c3, 1)]⟩, -1),(⟨[(a2, 1),(c0, 1)]⟩,
    -1),(⟨[(a3, 1),(c1, 1)]⟩, 1)]⟩),(12, ⟨[(⟨[(a0, 1),(c1, 1)]⟩, 1),(⟨[(a1, 1),(c0, 1)]⟩, 1),(⟨[(a2,
    1),(c3, 1)]⟩, -1),(⟨[(a3, 1),(c2, 1)]⟩, 1)]⟩),(15, ⟨[(⟨[(a0, 1),(d0, 1)]⟩, 1),(⟨[(a1, 1),(d1, 1)]⟩,
    1),(⟨[(a2, 1),(d2, 1)]⟩, 1),(⟨[(a3, 1),(d3, 1)]⟩, 1),(⟨[(b0, 1),(c0, 1)]⟩, 1),(⟨[(b1, 1),(c1, 1)]⟩,
    1),(⟨[(b2, 1),(c2, 1)]⟩, 1),(⟨[(b3, 1),(c3, 1)]⟩, 1)]⟩)]
  sym_ring

/-- scripts/validation.klein:274. -/
theorem C73_line274 : Shows (env a.z0 b c d.z0 u v)
    "(b0 + b1 e23 + b2 e31 + b3 e12 + c1 e01 + c2 e02 + c3 e03 + c0 e0123) * (a0 + a1 e23 + a2 e31 + a3 e12 + d1 e01 + d2 e02 + d3 e03 + d0 e0123) * (b0 - b1 e23 - b2 e31 - b3 e12 - c1 e01 - c2 e02 - c3 e03 + c0 e0123) "
    (((⟨b, c⟩ : Motor K).onLine (⟨a.z0, d.z0⟩ : Line K)).mv) := by
  shows [(0, ⟨[(⟨[(a0, 1),(b0, 2)]⟩, 1),(⟨[(a0, 1),(b1, 2)]⟩, 1),(⟨[(a0, 1),(b2, 2)]⟩, 1),(⟨[(a0,
    1),(b3, 2)]⟩, 1)]⟩),(3, ⟨[(⟨[(a1, 1),(b0, 1),(c0, 1)]⟩, -2),(⟨[(a1, 1),(b1, 1),(c1, 1)]⟩, 2),(⟨[(a1,
    1),(b2, 1),(c2, 1)]⟩, -2),(⟨[(a1, 1),(b3, 1),(c3, 1)]⟩, -2),(⟨[(a2, 1),(b0, 1),(c3, 1)]⟩, 2),(⟨[(a2,
    1),(b1, 1),(c2, 1)]⟩, 2),(⟨[(a2, 1),(b2, 1),(c1, 1)]⟩, 2),(⟨[(a2, 1),(b3, 1),(c0, 1)]⟩, -2),(⟨[(a3,
    1),(b0, 1),(c2, 1)]⟩, -2),(⟨[(a3, 1),(b1, 1),(c3, 1)]⟩, 2),(⟨[(a3, 1),(b2, 1),(c0, 1)]⟩, 2),(⟨[(a3,
    1),(b3, 1),(c1, 1)]⟩, 2),(⟨[(b0, 1),(b2, 1),(d3, 1)]⟩, -2),(⟨[(b0, 1),(b3, 1),(d2, 1)]⟩, 2),(⟨[(b0,
    2),(d1, 1)]⟩, 1),(⟨[(b1, 1),(b2, 1),(d2, 1)]⟩, 2),(⟨[(b1, 1),(b3, 1),(d3, 1)]⟩, 2),(⟨[(b1, 2),(d1,
    1)]⟩, 1),(⟨[(b2, 2),(d1, 1)]⟩, -1),(⟨[(b3, 2),(d1, 1)]⟩, -1)]⟩),(5, ⟨[(⟨[(a1, 1),(b0, 1),(c3, 1)]⟩,
    -2),(⟨[(a1, 1),(b1, 1),(c2, 1)]⟩, 2),(⟨[(a1, 1),(b2, 1),(c1, 1)]⟩, 2),(⟨[(a1, 1),(b3, 1),(c0, 1)]⟩,
    2),(⟨[(a2, 1),(b0, 1),(c0, 1)]⟩, -2),(⟨[(a2, 1),(b1, 1),(c1, 1)]⟩, -2),(⟨[(a2, 1),(b2, 1),(c2, 1)]⟩,
    2),(⟨[(a2, 1),(b3, 1),(c3, 1)]⟩, -2),(⟨[(a3, 1),(b0, 1),(c1, 1)]⟩, 2),(⟨[(a3, 1),(b1, 1),(c0, 1)]⟩,
    -2),(⟨[(a3, 1),(b2, 1),(c3, 1)]⟩, 2),(⟨[(a3, 1),(b3, 1),(c2, 1)]⟩, 2),(⟨[(b0, 1),(b1, 1),(d3, 1)]⟩,
    2),(⟨[(b0, 1),(b3, 1),(d1, 1)]⟩, -2),(⟨[(b0, 2),(d2, 1)]⟩, 1),(⟨[(b1, 1),(b2, 1),(d1, 1)]⟩,
    2),(⟨[(b1, 2),(d2, 1)]⟩, -1),(⟨[(b2, 1),(b3, 1),(d3, 1)]⟩, 2),(⟨[(b2, 2),(d2, 1)]⟩, 1),(⟨[(b3,
    2),(d2, 1)]⟩, -1)]⟩),(6, ⟨[(⟨[(a1, 1),(b0, 1),(b2, 1)]⟩, 2),(⟨[(a1, 1),(b1, 1),(b3, 1)]⟩, 2),(⟨[(a2,
    1),(b0, 1),(b1, 1)]⟩, -2),(⟨[(a2, 1),(b2, 1),(b3, 1)]⟩, 2),(⟨[(a3, 1),(b0, 2)]⟩, 1),(⟨[(a3, 1),(b1,
    2)]⟩, -1),(⟨[(a3, 1),(b2, 2)]⟩, -1),(⟨[(a3, 1),(b3, 2)]⟩, 1)]⟩),(9, ⟨[(⟨[(a1, 1),(b0, 1),(c2, 1)]⟩,
    2),(⟨[(a1, 1),(b1, 1),(c3, 1)]⟩, 2),(⟨[(a1, 1),(b2, 1),(c0, 1)]⟩, -2),(⟨[(a1, 1),(b3, 1),(c1, 1)]⟩,
    2),(⟨[(a2, 1),(b0, 1),(c1, 1)]⟩, -2),(⟨[(a2, 1),(b1, 1),(c0, 1)]⟩, 2),(⟨[(a2, 1),(b2, 1),(c3, 1)]⟩,
    2),(⟨[(a2, 1),(b3, 1),(c2, 1)]⟩, 2),(⟨[(a3, 1),(b0, 1),(c0, 1)]⟩, -2),(⟨[(a3, 1),(b1, 1),(c1, 1)]⟩,
    -2),(⟨[(a3, 1),(b2, 1),(c2, 1)]⟩, -2),(⟨[(a3, 1),(b3, 1),(c3, 1)]⟩, 2),(⟨[(b0, 1),(b1, 1),(d2, 1)]⟩,
    -2),(⟨[(b0, 1),(b2, 1),(d1, 1)]⟩, 2),(⟨[(b0, 2),(d3, 1)]⟩, 1),(⟨[(b1, 1),(b3, 1),(d1, 1)]⟩,
    2),(⟨[(b1, 2),(d3, 1)]⟩, -1),(⟨[(b2, 1),(b3, 1),(d2, 1)]⟩, 2),(⟨[(b2, 2),(d3, 1)]⟩, -1),(⟨[(b3,
    2),(d3, 1)]⟩, 1)]⟩),(10, ⟨[(⟨[(a1, 1),(b0, 1),(b3, 1)]⟩, 2),(⟨[(a1, 1),(b1, 1),(b2, 1)]⟩,
    -2),(⟨[(a2, 1),(b0, 2)]⟩, -1),(⟨[(a2, 1),(b1, 2)]⟩, 1),(⟨[(a2, 1),(b2, 2)]⟩, -1),(⟨[(a2, 1),(b3,
    2)]⟩, 1),(⟨[(a3, 1),(b0, 1),(b1, 1)]⟩, -2),(⟨[(a3, 1),(b2, 1),(b3, 1)]⟩, -2)]⟩),(12, ⟨[(⟨[(a1,
    1),(b0, 2)]⟩, 1),(⟨[(a1, 1),(b1, 2)]⟩, 1),(⟨[(a1, 1),(b2, 2)]⟩, -1),(⟨[(a1, 1),(b3, 2)]⟩,
    -1),(⟨[(a2, 1),(b0, 1),(b3, 1)]⟩, 2),(⟨[(a2, 1),(b1, 1),(b2, 1)]⟩, 2),(⟨[(a3, 1),(b0, 1),(b2, 1)]⟩,
    -2),(⟨[(a3, 1),(b1, 1),(b3, 1)]⟩, 2)]⟩),(15, ⟨[(⟨[(a0, 1),(b0, 1),(c0, 1)]⟩, 2),(⟨[(a0, 1),(b1,
    1),(c1, 1)]⟩, -2),(⟨[(a0, 1),(b2, 1),(c2, 1)]⟩, -2),(⟨[(a0, 1),(b3, 1),(c3, 1)]⟩, -2),(⟨[(b0,
    2),(d0, 1)]⟩, 1),(⟨[(b1, 2),(d0, 1)]⟩, 1),(⟨[(b2, 2),(d0, 1)]⟩, 1),(⟨[(b3, 2),(d0, 1)]⟩, 1)]⟩)]
  sym_ring

/-- scripts/validation.klein:277. -/
theorem C73_line277 : Shows (env a b c d u v)
    "(b0 + b1 e23 + b2 e31 + b3 e12 + c1 e01 + c2 e02 + c3 e03 + c0 e0123) * (a1 e23 + a2 e31 + a3 e12) * (b0 - b1 e23 - b2 e31 - b3 e12 - c1 e01 - c2 e02 - c3 e03 + c0 e0123) "
    (((⟨b, c⟩ : Motor K).onLine ⟨a.z0, setzero_ps⟩).mv) := by
  shows [(3, ⟨[(⟨[(a1, 1),(b0, 1),(c0, 1)]⟩, -2),(⟨[(a1, 1),(b1, 1),(c1, 1)]⟩, 2),(⟨[(a1, 1),(b2,
    1),(c2, 1)]⟩, -2),(⟨[(a1, 1),(b3, 1),(c3, 1)]⟩, -2),(⟨[(a2, 1),(b0, 1),(c3, 1)]⟩, 2),(⟨[(a2, 1),(b1,
    1),(c2, 1)]⟩, 2),(⟨[(a2, 1),(b2, 1),(c1, 1)]⟩, 2),(⟨[(a2, 1),(b3, 1),(c0, 1)]⟩, -2),(⟨[(a3, 1),(b0,
    1),(c2, 1)]⟩, -2),(⟨[(a3, 1),(b1, 1),(c3, 1)]⟩, 2),(⟨[(a3, 1),(b2, 1),(c0, 1)]⟩, 2),(⟨[(a3, 1),(b3,
    1),(c1, 1)]⟩, 2)]⟩),(5, ⟨[(⟨[(a1, 1),(b0, 1),(c3, 1)]⟩, -2),(⟨[(a1, 1),(b1, 1),(c2, 1)]⟩, 2),(⟨[(a1,
    1),(b2, 1),(c1, 1)]⟩, 2),(⟨[(a1, 1),(b3, 1),(c0, 1)]⟩, 2),(⟨[(a2, 1),(b0, 1),(c0, 1)]⟩, -2),(⟨[(a2,
    1),(b1, 1),(c1, 1)]⟩, -2),(⟨[(a2, 1),(b2, 1),(c2, 1)]⟩, 2),(⟨[(a2, 1),(b3, 1),(c3, 1)]⟩, -2),(⟨[(a3,
    1),(b0, 1),(c1, 1)]⟩, 2),(⟨[(a3, 1),(b1, 1),(c0, 1)]⟩, -2),(⟨[(a3, 1),(b2, 1),(c3, 1)]⟩, 2),(⟨[(a3,
    1),(b3, 1),(c2, 1)]⟩, 2)]⟩),(6, ⟨[(⟨[(a1, 1),(b0, 1),(b2, 1)]⟩, 2),(⟨[(a1, 1),(b1, 1),(b3, 1)]⟩,
    2),(⟨[(a2, 1),(b0, 1),(b1, 1)]⟩, -2),(⟨[(a2, 1),(b2, 1),(b3, 1)]⟩, 2),(⟨[(a3, 1),(b0, 2)]⟩,
    1),(⟨[(a3, 1),(b1, 2)]⟩, -1),(⟨[(a3, 1),(b2, 2)]⟩, -1),(⟨[(a3, 1),(b3, 2)]⟩, 1)]⟩),(9, ⟨[(⟨[(a1,
    1),(b0, 1),(c2, 1)]⟩, 2),(⟨[(a1, 1),(b1, 1),(c3, 1)]⟩, 2),(⟨[(a1, 1),(b2, 1),(c0, 1)]⟩, -2),(⟨[(a1,
    1),(b3, 1),(c1, 1)]⟩, 2),(⟨[(a2, 1),(b0, 1),(c1, 1)]⟩, -2),(⟨[(a2, 1),(b1, 1),(c0, 1)]⟩, 2),(⟨[(a2,
    1),(b2, 1),(c3, 1)]⟩, 2),(⟨[(a2, 1),(b3, 1),(c2, 1)]⟩, 2),(⟨[(a3, 1),(b0, 1),(c0, 1)]⟩, -2),(⟨[(a3,
    1),(b1, 1),(c1, 1)]⟩, -2),(⟨[(a3, 1),(b2, 1),(c2, 1)]⟩, -2),(⟨[(a3, 1),(b3, 1),(c3, 1)]⟩, 2)]⟩),(10,
    ⟨[(⟨[(a1, 1),(b0, 1),(b3, 1)]⟩, 2),(⟨[(a1, 1),(b1, 1),(b2, 1)]⟩, -2),(⟨[(a2, 1),(b0, 2)]⟩,
    -1),(⟨[(a2, 1),(b1, 2)]⟩, 1),(⟨[(a2, 1),(b2, 2)]⟩, -1),(⟨[(a2, 1),(b3, 2)]⟩, 1),(⟨[(a3, 1),(b0,
    1),(b1, 1)]⟩, -2),(⟨[(a3, 1),(b2, 1),(b3, 1)]⟩, -2)]⟩),(12, ⟨[(⟨[(a1, 1),(b0, 2)]⟩, 1),(⟨[(a1,
    1),(b1, 2)]⟩, 1),(⟨[(a1, 1),(b2, 2)]⟩, -1),(⟨[(a1, 1),(b3, 2)]⟩, -1),(⟨[(a2, 1),(b0, 1),(b3, 1)]⟩,
    2),(⟨[(a2, 1),(b1, 1),(b2, 1)]⟩, 2),(⟨[(a3, 1),(b0, 1),(b2, 1)]⟩, -2),(⟨[(a3, 1),(b1, 1),(b3, 1)]⟩,
    2)]⟩)]
  sym_ring

/-- scripts/validation.klein:280. -/
theorem C73_line280 : Shows (env a b c d u v)
    "(b0 + b1 e23 + b2 e31 + b3 e12) * (a1 e23 + a2 e31 + a3 e12) * (b0 - b1 e23 - b2 e31 - b3 e12) "
    (((⟨b⟩ : Rotor K).onBranch ⟨a.z0⟩).mv) := by
  shows [(6, ⟨[(⟨[(a1, 1),(b0, 1),(b2, 1)]⟩, 2),(⟨[(a1, 1),(b1, 1),(b3, 1)]⟩, 2),(⟨[(a2, 1),(b0, 1),(b1,
    1)]⟩, -2),(⟨[(a2, 1),(b2, 1),(b3, 1)]⟩, 2),(⟨[(a3, 1),(b0, 2)]⟩, 1),(⟨[(a3, 1),(b1, 2)]⟩,
    -1),(⟨[(a3, 1),(b2, 2)]⟩, -1),(⟨[(a3, 1),(b3, 2)]⟩, 1)]⟩),(10, ⟨[(⟨[(a1, 1),(b0, 1),(b3, 1)]⟩,
    2),(⟨[(a1, 1),(b1, 1),(b2, 1)]⟩, -2),(⟨[(a2, 1),(b0, 2)]⟩, -1),(⟨[(a2, 1),(b1, 2)]⟩, 1),(⟨[(a2,
    1),(b2, 2)]⟩, -1),(⟨[(a2, 1),(b3, 2)]⟩, 1),(⟨[(a3, 1),(b0, 1),(b1, 1)]⟩, -2),(⟨[(a3, 1),(b2, 1),(b3,
    1)]⟩, -2)]⟩),(12, ⟨[(⟨[(a1, 1),(b0, 2)]⟩, 1),(⟨[(a1, 1),(b1, 2)]⟩, 1),(⟨[(a1, 1),(b2, 2)]⟩,
    -1),(⟨[(a1, 1),(b3, 2)]⟩, -1),(⟨[(a2, 1),(b0, 1),(b3, 1)]⟩, 2),(⟨[(a2, 1),(b1, 1),(b2, 1)]⟩,
    2),(⟨[(a3, 1),(b0, 1),(b2, 1)]⟩, -2),(⟨[(a3, 1),(b1, 1),(b3, 1)]⟩, 2)]⟩)]
  sym_ring

/-- scripts/validation.klein:283. -/
theorem C73_line283 (isa : Isa) : Shows (env a b c d u v)
    "(b0 + b1 e23 + b2 e31 + b3 e12 + c1 e01 + c2 e02 + c3 e03 + c0 e0123) * (a0 e0 + a1 e1 + a2 e2 + a3 e3) * (b0 - b1 e23 - b2 e31 - b3 e12 - c1 e01 - c2 e02 - c3 e03 + c0 e0123) "
    (((⟨b, c⟩ : Motor K).onPlane isa ⟨a⟩).mv) := by
  shows [(1, ⟨[(⟨[(a0, 1),(b0, 2)]⟩, 1),(⟨[(a0, 1),(b1, 2)]⟩, 1),(⟨[(a0, 1),(b2, 2)]⟩, 1),(⟨[(a0,
    1),(b3, 2)]⟩, 1),(⟨[(a1, 1),(b0, 1),(c1, 1)]⟩, 2),(⟨[(a1, 1),(b1, 1),(c0, 1)]⟩, 2),(⟨[(a1, 1),(b2,
    1),(c3, 1)]⟩, 2),(⟨[(a1, 1),(b3, 1),(c2, 1)]⟩, -2),(⟨[(a2, 1),(b0, 1),(c2, 1)]⟩, 2),(⟨[(a2, 1),(b1,
    1),(c3, 1)]⟩, -2),(⟨[(a2, 1),(b2, 1),(c0, 1)]⟩, 2),(⟨[(a2, 1),(b3, 1),(c1, 1)]⟩, 2),(⟨[(a3, 1),(b0,
    1),(c3, 1)]⟩, 2),(⟨[(a3, 1),(b1, 1),(c2, 1)]⟩, 2),(⟨[(a3, 1),(b2, 1),(c1, 1)]⟩, -2),(⟨[(a3, 1),(b3,
    1),(c0, 1)]⟩, 2)]⟩),(2, ⟨[(⟨[(a1, 1),(b0, 2)]⟩, 1),(⟨[(a1, 1),(b1, 2)]⟩, 1),(⟨[(a1, 1),(b2, 2)]⟩,
    -1),(⟨[(a1, 1),(b3, 2)]⟩, -1),(⟨[(a2, 1),(b0, 1),(b3, 1)]⟩, 2),(⟨[(a2, 1),(b1, 1),(b2, 1)]⟩,
    2),(⟨[(a3, 1),(b0, 1),(b2, 1)]⟩, -2),(⟨[(a3, 1),(b1, 1),(b3, 1)]⟩, 2)]⟩),(4, ⟨[(⟨[(a1, 1),(b0,
    1),(b3, 1)]⟩, -2),(⟨[(a1, 1),(b1, 1),(b2, 1)]⟩, 2),(⟨[(a2, 1),(b0, 2)]⟩, 1),(⟨[(a2, 1),(b1, 2)]⟩,
    -1),(⟨[(a2, 1),(b2, 2)]⟩, 1),(⟨[(a2, 1),(b3, 2)]⟩, -1),(⟨[(a3, 1),(b0, 1),(b1, 1)]⟩, 2),(⟨[(a3,
    1),(b2, 1),(b3, 1)]⟩, 2)]⟩),(8, ⟨[(⟨[(a1, 1),(b0, 1),(b2, 1)]⟩, 2),(⟨[(a1, 1),(b1, 1),(b3, 1)]⟩,
    2),(⟨[(a2, 1),(b0, 1),(b1, 1)]⟩, -2),(⟨[(a2, 1),(b2, 1),(b3, 1)]⟩, 2),(⟨[(a3, 1),(b0, 2)]⟩,
    1),(⟨[(a3, 1),(b1, 2)]⟩, -1),(⟨[(a3, 1),(b2, 2)]⟩, -1),(⟨[(a3, 1),(b3, 2)]⟩, 1)]⟩)]
  cases isa <;> sym_ring

/-- scripts/validation.klein:286. -/
theorem C73_line286 : Shows (env a b c d u v)
    "(b0 + b1 e23 + b2 e31 + b3 e12 + c1 e01 + c2 e02 + c3 e03 + c0 e0123) * (a0 e123 + a1 e032 + a2 e013 + a3 e021) * (b0 - b1 e23 - b2 e31 - b3 e12 - c1 e01 - c2 e02 - c3 e03 + c0 e0123) "
    (((⟨b, c⟩ : Motor K).onPoint ⟨a⟩).mv) := by
  shows [(7, ⟨[(⟨[(a0, 1),(b0, 1),(c3, 1)]⟩, 2),(⟨[(a0, 1),(b1, 1),(c2, 1)]⟩, -2),(⟨[(a0, 1),(b2,
    1),(c1, 1)]⟩, 2),(⟨[(a0, 1),(b3, 1),(c0, 1)]⟩, 2),(⟨[(a1, 1),(b0, 1),(b2, 1)]⟩, -2),(⟨[(a1, 1),(b1,
    1),(b3, 1)]⟩, -2),(⟨[(a2, 1),(b0, 1),(b1, 1)]⟩, 2),(⟨[(a2, 1),(b2, 1),(b3, 1)]⟩, -2),(⟨[(a3, 1),(b0,
    2)]⟩, -1),(⟨[(a3, 1),(b1, 2)]⟩, 1),(⟨[(a3, 1),(b2, 2)]⟩, 1),(⟨[(a3, 1),(b3, 2)]⟩, -1)]⟩),(11,
    ⟨[(⟨[(a0, 1),(b0, 1),(c2, 1)]⟩, -2),(⟨[(a0, 1),(b1, 1),(c3, 1)]⟩, -2),(⟨[(a0, 1),(b2, 1),(c0, 1)]⟩,
    -2),(⟨[(a0, 1),(b3, 1),(c1, 1)]⟩, 2),(⟨[(a1, 1),(b0, 1),(b3, 1)]⟩, -2),(⟨[(a1, 1),(b1, 1),(b2, 1)]⟩,
    2),(⟨[(a2, 1),(b0, 2)]⟩, 1),(⟨[(a2, 1),(b1, 2)]⟩, -1),(⟨[(a2, 1),(b2, 2)]⟩, 1),(⟨[(a2, 1),(b3, 2)]⟩,
    -1),(⟨[(a3, 1),(b0, 1),(b1, 1)]⟩, 2),(⟨[(a3, 1),(b2, 1),(b3, 1)]⟩, 2)]⟩),(13, ⟨[(⟨[(a0, 1),(b0,
    1),(c1, 1)]⟩, 2),(⟨[(a0, 1),(b1, 1),(c0, 1)]⟩, 2),(⟨[(a0, 1),(b2, 1),(c3, 1)]⟩, -2),(⟨[(a0, 1),(b3,
    1),(c2, 1)]⟩, 2),(⟨[(a1, 1),(b0, 2)]⟩, -1),(⟨[(a1, 1),(b1, 2)]⟩, -1),(⟨[(a1, 1),(b2, 2)]⟩,
    1),(⟨[(a1, 1),(b3, 2)]⟩, 1),(⟨[(a2, 1),(b0, 1),(b3, 1)]⟩, -2),(⟨[(a2, 1),(b1, 1),(b2, 1)]⟩,
    -2),(⟨[(a3, 1),(b0, 1),(b2, 1)]⟩, 2),(⟨[(a3, 1),(b1, 1),(b3, 1)]⟩, -2)]⟩),(14, ⟨[(⟨[(a0, 1),(b0,
    2)]⟩, 1),(⟨[(a0, 1),(b1, 2)]⟩, 1),(⟨[(a0, 1),(b2, 2)]⟩, 1),(⟨[(a0, 1),(b3, 2)]⟩, 1)]⟩)]
  sym_ring

/-- scripts/validation.klein:289. -/
theorem C73_line289 : Shows (env a b c d u v)
    "(b0 + b1 e23 + b2 e31 + b3 e12 + c1 e01 + c2 e02 + c3 e03 + c0 e0123) * (e123) * (b0 - b1 e23 - b2 e31 - b3 e12 - c1 e01 - c2 e02 - c3 e03 + c0 e0123) "
    (((⟨b, c⟩ : Motor K).onPoint Point.origin).mv) := by
  shows [(7, ⟨[(⟨[(b0, 1),(c3, 1)]⟩, 2),(⟨[(b1, 1),(c2, 1)]⟩, -2),(⟨[(b2, 1),(c1, 1)]⟩, 2),(⟨[(b3,
    1),(c0, 1)]⟩, 2)]⟩),(11, ⟨[(⟨[(b0, 1),(c2, 1)]⟩, -2),(⟨[(b1, 1),(c3, 1)]⟩, -2),(⟨[(b2, 1),(c0, 1)]⟩,
    -2),(⟨[(b3, 1),(c1, 1)]⟩, 2)]⟩),(13, ⟨[(⟨[(b0, 1),(c1, 1)]⟩, 2),(⟨[(b1, 1),(c0, 1)]⟩, 2),(⟨[(b2,
    1),(c3, 1)]⟩, -2),(⟨[(b3, 1),(c2, 1)]⟩, 2)]⟩),(14, ⟨[(⟨[(b0, 2)]⟩, 1),(⟨[(b1, 2)]⟩, 1),(⟨[(b2, 2)]⟩,
    1),(⟨[(b3, 2)]⟩, 1)]⟩)]
  sym_ring

/-- scripts/validation.klein:292. -/
theorem C73_line292 : Shows (env a.z0 b c.z0 d.z0 u v)
    "(1 + c1 e01 + c2 e02 + c3 e03 + c0 e0123) * (a0 + a1 e23 + a2 e31 + a3 e12 + d1 e01 + d2 e02 + d3 e03 + d0 e0123) * (1 -c1 e01 - c2 e02 - c3 e03 + c0 e0123) "
    (((⟨c.z0⟩ : Translator K).onLine (⟨a.z0, d.z0⟩ : Line K)).mv) := by
  shows [(0, ⟨[(⟨[(a0, 1)]⟩, 1)]⟩),(3, ⟨[(⟨[(d1, 1)]⟩, 1),(⟨[(a1, 1),(c0, 1)]⟩, -2),(⟨[(a2, 1),(c3,
    1)]⟩, 2),(⟨[(a3, 1),(c2, 1)]⟩, -2)]⟩),(5, ⟨[(⟨[(d2, 1)]⟩, 1),(⟨[(a1, 1),(c3, 1)]⟩, -2),(⟨[(a2,
    1),(c0, 1)]⟩, -2),(⟨[(a3, 1),(c1, 1)]⟩, 2)]⟩),(6, ⟨[(⟨[(a3, 1)]⟩, 1)]⟩),(9, ⟨[(⟨[(d3, 1)]⟩,
    1),(⟨[(a1, 1),(c2, 1)]⟩, 2),(⟨[(a2, 1),(c1, 1)]⟩, -2),(⟨[(a3, 1),(c0, 1)]⟩, -2)]⟩),(10, ⟨[(⟨[(a2,
    1)]⟩, -1)]⟩),(12, ⟨[(⟨[(a1, 1)]⟩, 1)]⟩),(15, ⟨[(⟨[(d0, 1)]⟩, 1),(⟨[(a0, 1),(c0, 1)]⟩, 2)]⟩)]
  sym_ring

/-- scripts/validation.klein:295. -/
theorem C73_line295 : Shows (env a b c d u v)
    "(b0 + b1 e12 + b2 e31 + b3 e23 + c1 e01 + c2 e02 + c3 e03 + c0 e0123) * (a1 e021 + a2 e013 + a3 e032) * (b0 - b1 e12 - b2 e31 - b3 e23 - c1 e01 - c2 e02 - c3 e03 + c0 e0123) "
    (((⟨b.rv, c⟩ : Motor K).onDirection ⟨a.rv.z0⟩).mv) := by
  shows [(7, ⟨[(⟨[(a1, 1),(b0, 2)]⟩, -1),(⟨[(a1, 1),(b1, 2)]⟩, -1),(⟨[(a1, 1),(b2, 2)]⟩, 1),(⟨[(a1,
    1),(b3, 2)]⟩, 1),(⟨[(a2, 1),(b0, 1),(b3, 1)]⟩, 2),(⟨[(a2, 1),(b1, 1),(b2, 1)]⟩, -2),(⟨[(a3, 1),(b0,
    1),(b2, 1)]⟩, -2),(⟨[(a3, 1),(b1, 1),(b3, 1)]⟩, -2)]⟩),(11, ⟨[(⟨[(a1, 1),(b0, 1),(b3, 1)]⟩,
    2),(⟨[(a1, 1),(b1, 1),(b2, 1)]⟩, 2),(⟨[(a2, 1),(b0, 2)]⟩, 1),(⟨[(a2, 1),(b1, 2)]⟩, -1),(⟨[(a2,
    1),(b2, 2)]⟩, 1),(⟨[(a2, 1),(b3, 2)]⟩, -1),(⟨[(a3, 1),(b0, 1),(b1, 1)]⟩, -2),(⟨[(a3, 1),(b2, 1),(b3,
    1)]⟩, 2)]⟩),(13, ⟨[(⟨[(a1, 1),(b0, 1),(b2, 1)]⟩, 2),(⟨[(a1, 1),(b1, 1),(b3, 1)]⟩, -2),(⟨[(a2,
    1),(b0, 1),(b1, 1)]⟩, -2),(⟨[(a2, 1),(b2, 1),(b3, 1)]⟩, -2),(⟨[(a3, 1),(b0, 2)]⟩, -1),(⟨[(a3,
    1),(b1, 2)]⟩, 1),(⟨[(a3, 1),(b2, 2)]⟩, 1),(⟨[(a3, 1),(b3, 2)]⟩, -1)]⟩)]
  sym_ring

/-- scripts/validation.klein:298. -/
theorem C73_line298 : Shows (env a b c d u v)
    "(b0 + b1 e12 + b2 e31 + b3 e23) * (a1 e021 + a2 e013 + a3 e032) * (b0 - b1 e12 - b2 e31 - b3 e23) "
    (((⟨b.rv, c⟩ : Motor K).onDirection ⟨a.rv.z0⟩).mv) := by
  shows [(7, ⟨[(⟨[(a1, 1),(b0, 2)]⟩, -1),(⟨[(a1, 1),(b1, 2)]⟩, -1),(⟨[(a1, 1),(b2, 2)]⟩, 1),(⟨[(a1,
    1),(b3, 2)]⟩, 1),(⟨[(a2, 1),(b0, 1),(b3, 1)]⟩, 2),(⟨[(a2, 1),(b1, 1),(b2, 1)]⟩, -2),(⟨[(a3, 1),(b0,
    1),(b2, 1)]⟩, -2),(⟨[(a3, 1),(b1, 1),(b3, 1)]⟩, -2)]⟩),(11, ⟨[(⟨[(a1, 1),(b0, 1),(b3, 1)]⟩,
    2),(⟨[(a1, 1),(b1, 1),(b2, 1)]⟩, 2),(⟨[(a2, 1),(b0, 2)]⟩, 1),(⟨[(a2, 1),(b1, 2)]⟩, -1),(⟨[(a2,
    1),(b2, 2)]⟩, 1),(⟨[(a2, 1),(b3, 2)]⟩, -1),(⟨[(a3, 1),(b0, 1),(b1, 1)]⟩, -2),(⟨[(a3, 1),(b2, 1),(b3,
    1)]⟩, 2)]⟩),(13, ⟨[(⟨[(a1, 1),(b0, 1),(b2, 1)]⟩, 2),(⟨[(a1, 1),(b1, 1),(b3, 1)]⟩, -2),(⟨[(a2,
    1),(b0, 1),(b1, 1)]⟩, -2),(⟨[(a2, 1),(b2, 1),(b3, 1)]⟩, -2),(⟨[(a3, 1),(b0, 2)]⟩, -1),(⟨[(a3,
    1),(b1, 2)]⟩, 1),(⟨[(a3, 1),(b2, 2)]⟩, 1),(⟨[(a3, 1),(b3, 2)]⟩, -1)]⟩)]
  sym_ring

/-- scripts/validation.klein:301. The product, not the exterior product, is the projection only if the
    line satisfies `b · c = 0`. -/
theorem C73_line301 (isa : Isa) : Shows (env a b c d u v)
    "((b1 e23 + b2 e31 + b3 e12 + c1 e01 + c2 e02 + c3 e03) | (a0 e123 + a1 e021 + a2 e013 + a3 e032)) * (b1 e23 + b2 e31 + b3 e12 + c1 e01 + c2 e02 + c3 e03)"
  (((⟨a.rv⟩ : Point K).projectLine isa (⟨b.z0, c.z0⟩ : Line K)).mv + (a.l0 * (b.l1 * c.l1 + b.l2 * c.l2
    + b.l3 * c.l3)) • ({ (0 : PGA.MV K) with e0 := 1 } : PGA.MV K)) := by
  shows [(1, ⟨[(⟨[(a0, 1),(b1, 1),(c1, 1)]⟩, 1),(⟨[(a0, 1),(b2, 1),(c2, 1)]⟩, 1),(⟨[(a0, 1),(b3, 1),(c3,
    1)]⟩, 1)]⟩),(7, ⟨[(⟨[(a0, 1),(b1, 1),(c2, 1)]⟩, 1),(⟨[(a0, 1),(b2, 1),(c1, 1)]⟩, -1),(⟨[(a1, 1),(b3,
    2)]⟩, 1),(⟨[(a2, 1),(b2, 1),(b3, 1)]⟩, 1),(⟨[(a3, 1),(b1, 1),(b3, 1)]⟩, 1)]⟩),(11, ⟨[(⟨[(a0, 1),(b1,
    1),(c3, 1)]⟩, 1),(⟨[(a0, 1),(b3, 1),(c1, 1)]⟩, -1),(⟨[(a1, 1),(b2, 1),(b3, 1)]⟩, -1),(⟨[(a2, 1),(b2,
    2)]⟩, -1),(⟨[(a3, 1),(b1, 1),(b2, 1)]⟩, -1)]⟩),(13, ⟨[(⟨[(a0, 1),(b2, 1),(c3, 1)]⟩, 1),(⟨[(a0,
    1),(b3, 1),(c2, 1)]⟩, -1),(⟨[(a1, 1),(b1, 1),(b3, 1)]⟩, 1),(⟨[(a2, 1),(b1, 1),(b2, 1)]⟩, 1),(⟨[(a3,
    1),(b1, 2)]⟩, 1)]⟩),(14, ⟨[(⟨[(a0, 1),(b1, 2)]⟩, -1),(⟨[(a0, 1),(b2, 2)]⟩, -1),(⟨[(a0, 1),(b3, 2)]⟩,
    -1)]⟩)]
  cases isa <;> sym_ring

/-- scripts/validation.klein:303. -/
theorem C73_line303 (isa : Isa) : Shows (env a b c d u v)
    "(((b0 e0 + b1 e1 + b2 e2 + b3 e3) ^ (c0 e0 + c1 e1 + c2 e2 + c3 e3)) | (a0 e123 + a1 e021 + a2 e013 + a3 e032)) * ((b0 e0 + b1 e1 + b2 e2 + b3 e3) ^ (c0 e0 + c1 e1 + c2 e2 + c3 e3))"
    (((⟨a.rv⟩ : Point K).projectLine isa ((⟨b⟩ : Plane K).meetPlane ⟨c⟩)).mv) := by
  shows [(7, ⟨[(⟨[(a0, 1),(b0, 1),(b1, 1),(c1, 1),(c3, 1)]⟩, 1),(⟨[(a0, 1),(b0, 1),(b2, 1),(c2, 1),(c3,
    1)]⟩, 1),(⟨[(a0, 1),(b0, 1),(b3, 1),(c1, 2)]⟩, -1),(⟨[(a0, 1),(b0, 1),(b3, 1),(c2, 2)]⟩, -1),(⟨[(a0,
    1),(b1, 1),(b3, 1),(c0, 1),(c1, 1)]⟩, 1),(⟨[(a0, 1),(b1, 2),(c0, 1),(c3, 1)]⟩, -1),(⟨[(a0, 1),(b2,
    1),(b3, 1),(c0, 1),(c2, 1)]⟩, 1),(⟨[(a0, 1),(b2, 2),(c0, 1),(c3, 1)]⟩, -1),(⟨[(a1, 1),(b1, 1),(b2,
    1),(c1, 1),(c2, 1)]⟩, -2),(⟨[(a1, 1),(b1, 2),(c2, 2)]⟩, 1),(⟨[(a1, 1),(b2, 2),(c1, 2)]⟩, 1),(⟨[(a2,
    1),(b1, 1),(b2, 1),(c1, 1),(c3, 1)]⟩, 1),(⟨[(a2, 1),(b1, 1),(b3, 1),(c1, 1),(c2, 1)]⟩, 1),(⟨[(a2,
    1),(b1, 2),(c2, 1),(c3, 1)]⟩, -1),(⟨[(a2, 1),(b2, 1),(b3, 1),(c1, 2)]⟩, -1),(⟨[(a3, 1),(b1, 1),(b2,
    1),(c2, 1),(c3, 1)]⟩, 1),(⟨[(a3, 1),(b1, 1),(b3, 1),(c2, 2)]⟩, -1),(⟨[(a3, 1),(b2, 1),(b3, 1),(c1,
    1),(c2, 1)]⟩, 1),(⟨[(a3, 1),(b2, 2),(c1, 1),(c3, 1)]⟩, -1)]⟩),(11, ⟨[(⟨[(a0, 1),(b0, 1),(b1, 1),(c1,
    1),(c2, 1)]⟩, -1),(⟨[(a0, 1),(b0, 1),(b2, 1),(c1, 2)]⟩, 1),(⟨[(a0, 1),(b0, 1),(b2, 1),(c3, 2)]⟩,
    1),(⟨[(a0, 1),(b0, 1),(b3, 1),(c2, 1),(c3, 1)]⟩, -1),(⟨[(a0, 1),(b1, 1),(b2, 1),(c0, 1),(c1, 1)]⟩,
    -1),(⟨[(a0, 1),(b1, 2),(c0, 1),(c2, 1)]⟩, 1),(⟨[(a0, 1),(b2, 1),(b3, 1),(c0, 1),(c3, 1)]⟩,
    -1),(⟨[(a0, 1),(b3, 2),(c0, 1),(c2, 1)]⟩, 1),(⟨[(a1, 1),(b1, 1),(b2, 1),(c1, 1),(c3, 1)]⟩,
    -1),(⟨[(a1, 1),(b1, 1),(b3, 1),(c1, 1),(c2, 1)]⟩, -1),(⟨[(a1, 1),(b1, 2),(c2, 1),(c3, 1)]⟩,
    1),(⟨[(a1, 1),(b2, 1),(b3, 1),(c1, 2)]⟩, 1),(⟨[(a2, 1),(b1, 1),(b3, 1),(c1, 1),(c3, 1)]⟩, 2),(⟨[(a2,
    1),(b1, 2),(c3, 2)]⟩, -1),(⟨[(a2, 1),(b3, 2),(c1, 2)]⟩, -1),(⟨[(a3, 1),(b1, 1),(b2, 1),(c3, 2)]⟩,
    1),(⟨[(a3, 1),(b1, 1),(b3, 1),(c2, 1),(c3, 1)]⟩, -1),(⟨[(a3, 1),(b2, 1),(b3, 1),(c1, 1),(c3, 1)]⟩,
    -1),(⟨[(a3, 1),(b3, 2),(c1, 1),(c2, 1)]⟩, 1)]⟩),(13, ⟨[(⟨[(a0, 1),(b0, 1),(b1, 1),(c2, 2)]⟩,
    -1),(⟨[(a0, 1),(b0, 1),(b1, 1),(c3, 2)]⟩, -1),(⟨[(a0, 1),(b0, 1),(b2, 1),(c1, 1),(c2, 1)]⟩,
    1),(⟨[(a0, 1),(b0, 1),(b3, 1),(c1, 1),(c3, 1)]⟩, 1),(⟨[(a0, 1),(b1, 1),(b2, 1),(c0, 1),(c2, 1)]⟩,
    1),(⟨[(a0, 1),(b1, 1),(b3, 1),(c0, 1),(c3, 1)]⟩, 1),(⟨[(a0, 1),(b2, 2),(c0, 1),(c1, 1)]⟩,
    -1),(⟨[(a0, 1),(b3, 2),(c0, 1),(c1, 1)]⟩, -1),(⟨[(a1, 1),(b1, 1),(b2, 1),(c2, 1),(c3, 1)]⟩,
    1),(⟨[(a1, 1),(b1, 1),(b3, 1),(c2, 2)]⟩, -1),(⟨[(a1, 1),(b2, 1),(b3, 1),(c1, 1),(c2, 1)]⟩,
    1),(⟨[(a1, 1),(b2, 2),(c1, 1),(c3, 1)]⟩, -1),(⟨[(a2, 1),(b1, 1),(b2, 1),(c3, 2)]⟩, -1),(⟨[(a2,
    1),(b1, 1),(b3, 1),(c2, 1),(c3, 1)]⟩, 1),(⟨[(a2, 1),(b2, 1),(b3, 1),(c1, 1),(c3, 1)]⟩, 1),(⟨[(a2,
    1),(b3, 2),(c1, 1),(c2, 1)]⟩, -1),(⟨[(a3, 1),(b2, 1),(b3, 1),(c2, 1),(c3, 1)]⟩, -2),(⟨[(a3, 1),(b2,
    2),(c3, 2)]⟩, 1),(⟨[(a3, 1),(b3, 2),(c2, 2)]⟩, 1)]⟩),(14, ⟨[(⟨[(a0, 1),(b1, 1),(b2, 1),(c1, 1),(c2,
    1)]⟩, 2),(⟨[(a0, 1),(b1, 1),(b3, 1),(c1, 1),(c3, 1)]⟩, 2),(⟨[(a0, 1),(b1, 2),(c2, 2)]⟩, -1),(⟨[(a0,
    1),(b1, 2),(c3, 2)]⟩, -1),(⟨[(a0, 1),(b2, 1),(b3, 1),(c2, 1),(c3, 1)]⟩, 2),(⟨[(a0, 1),(b2, 2),(c1,
    2)]⟩, -1),(⟨[(a0, 1),(b2, 2),(c3, 2)]⟩, -1),(⟨[(a0, 1),(b3, 2),(c1, 2)]⟩, -1),(⟨[(a0, 1),(b3,
    2),(c2, 2)]⟩, -1)]⟩)]
  cases isa <;> sym_ring

/-- scripts/validation.klein:306. -/
theorem C73_line306 (isa : Isa) : Shows (env a b c d u v)
    "((b0 e0 + b1 e1 + b2 e2 + b3 e3) | (a0 e123 + a1 e021 + a2 e013 + a3 e032)) * (b0 e0 + b1 e1 + b2 e2 + b3 e3)"
    (((⟨a.rv⟩ : Point K).projectPlane isa ⟨b⟩).mv) := by
  shows [(7, ⟨[(⟨[(a0, 1),(b0, 1),(b3, 1)]⟩, 1),(⟨[(a1, 1),(b1, 2)]⟩, -1),(⟨[(a1, 1),(b2, 2)]⟩,
    -1),(⟨[(a2, 1),(b2, 1),(b3, 1)]⟩, 1),(⟨[(a3, 1),(b1, 1),(b3, 1)]⟩, 1)]⟩),(11, ⟨[(⟨[(a0, 1),(b0,
    1),(b2, 1)]⟩, -1),(⟨[(a1, 1),(b2, 1),(b3, 1)]⟩, -1),(⟨[(a2, 1),(b1, 2)]⟩, 1),(⟨[(a2, 1),(b3, 2)]⟩,
    1),(⟨[(a3, 1),(b1, 1),(b2, 1)]⟩, -1)]⟩),(13, ⟨[(⟨[(a0, 1),(b0, 1),(b1, 1)]⟩, 1),(⟨[(a1, 1),(b1,
    1),(b3, 1)]⟩, 1),(⟨[(a2, 1),(b1, 1),(b2, 1)]⟩, 1),(⟨[(a3, 1),(b2, 2)]⟩, -1),(⟨[(a3, 1),(b3, 2)]⟩,
    -1)]⟩),(14, ⟨[(⟨[(a0, 1),(b1, 2)]⟩, 1),(⟨[(a0, 1),(b2, 2)]⟩, 1),(⟨[(a0, 1),(b3, 2)]⟩, 1)]⟩)]
  cases isa <;> sym_ring

/-- scripts/validation.klein:308. -/
theorem C73_line308 (isa : Isa) : Shows (env a b c d u v)
    "((b0 e0 + b1 e1 + b2 e2 + b3 e3) | (a0 e123 + a1 e021 + a2 e013 + a3 e032)) ^ (b0 e0 + b1 e1 + b2 e2 + b3 e3)"
    (((⟨a.rv⟩ : Point K).projectPlane isa ⟨b⟩).mv) := by
  shows [(7, ⟨[(⟨[(a0, 1),(b0, 1),(b3, 1)]⟩, 1),(⟨[(a1, 1),(b1, 2)]⟩, -1),(⟨[(a1, 1),(b2, 2)]⟩,
    -1),(⟨[(a2, 1),(b2, 1),(b3, 1)]⟩, 1),(⟨[(a3, 1),(b1, 1),(b3, 1)]⟩, 1)]⟩),(11, ⟨[(⟨[(a0, 1),(b0,
    1),(b2, 1)]⟩, -1),(⟨[(a1, 1),(b2, 1),(b3, 1)]⟩, -1),(⟨[(a2, 1),(b1, 2)]⟩, 1),(⟨[(a2, 1),(b3, 2)]⟩,
    1),(⟨[(a3, 1),(b1, 1),(b2, 1)]⟩, -1)]⟩),(13, ⟨[(⟨[(a0, 1),(b0, 1),(b1, 1)]⟩, 1),(⟨[(a1, 1),(b1,
    1),(b3, 1)]⟩, 1),(⟨[(a2, 1),(b1, 1),(b2, 1)]⟩, 1),(⟨[(a3, 1),(b2, 2)]⟩, -1),(⟨[(a3, 1),(b3, 2)]⟩,
    -1)]⟩),(14, ⟨[(⟨[(a0, 1),(b1, 2)]⟩, 1),(⟨[(a0, 1),(b2, 2)]⟩, 1),(⟨[(a0, 1),(b3, 2)]⟩, 1)]⟩)]
  cases isa <;> sym_ring

/-- scripts/validation.klein:311. The library projects with the factors of the inner product exchanged,
    which is the opposite
orientation. -/
theorem C73_line311 : Shows (env a b c d u v)
    "((b0 e0 + b1 e1 + b2 e2 + b3 e3) | (a1 e23 + a2 e31 + a3 e12 + d1 e01 + d2 e02 + d3 e03)) * (b0 e0 + b1 e1 + b2 e2 + b3 e3)"
    (-((⟨a.z0, d.z0⟩ : Line K).projectPlane ⟨b⟩).mv) := by
  shows [(3, ⟨[(⟨[(a2, 1),(b0, 1),(b3, 1)]⟩, -1),(⟨[(a3, 1),(b0, 1),(b2, 1)]⟩, 1),(⟨[(b1, 1),(b2,
    1),(d2, 1)]⟩, -1),(⟨[(b1, 1),(b3, 1),(d3, 1)]⟩, -1),(⟨[(b1, 2),(d1, 1)]⟩, -1)]⟩),(5, ⟨[(⟨[(a1,
    1),(b0, 1),(b3, 1)]⟩, 1),(⟨[(a3, 1),(b0, 1),(b1, 1)]⟩, -1),(⟨[(b1, 1),(b2, 1),(d1, 1)]⟩, -1),(⟨[(b2,
    1),(b3, 1),(d3, 1)]⟩, -1),(⟨[(b2, 2),(d2, 1)]⟩, -1)]⟩),(6, ⟨[(⟨[(a1, 1),(b1, 1),(b3, 1)]⟩,
    1),(⟨[(a2, 1),(b2, 1),(b3, 1)]⟩, 1),(⟨[(a3, 1),(b1, 2)]⟩, -1),(⟨[(a3, 1),(b2, 2)]⟩, -1)]⟩),(9,
    ⟨[(⟨[(a1, 1),(b0, 1),(b2, 1)]⟩, -1),(⟨[(a2, 1),(b0, 1),(b1, 1)]⟩, 1),(⟨[(b1, 1),(b3, 1),(d1, 1)]⟩,
    -1),(⟨[(b2, 1),(b3, 1),(d2, 1)]⟩, -1),(⟨[(b3, 2),(d3, 1)]⟩, -1)]⟩),(10, ⟨[(⟨[(a1, 1),(b1, 1),(b2,
    1)]⟩, -1),(⟨[(a2, 1),(b1, 2)]⟩, 1),(⟨[(a2, 1),(b3, 2)]⟩, 1),(⟨[(a3, 1),(b2, 1),(b3, 1)]⟩,
    -1)]⟩),(12, ⟨[(⟨[(a1, 1),(b2, 2)]⟩, -1),(⟨[(a1, 1),(b3, 2)]⟩, -1),(⟨[(a2, 1),(b1, 1),(b2, 1)]⟩,
    1),(⟨[(a3, 1),(b1, 1),(b3, 1)]⟩, 1)]⟩)]
  sym_ring

/-- scripts/validation.klein:313. The library projects with the factors of the inner product exchanged,
    which is the opposite
orientation. -/
theorem C73_line313 : Shows (env a b c d u v)
    "((b0 e0 + b1 e1 + b2 e2 + b3 e3) | (a1 e23 + a2 e31 + a3 e12 + d1 e01 + d2 e02 + d3 e03)) ^ (b0 e0 + b1 e1 + b2 e2 + b3 e3)"
    (-((⟨a.z0, d.z0⟩ : Line K).projectPlane ⟨b⟩).mv) := by
  shows [(3, ⟨[(⟨[(a2, 1),(b0, 1),(b3, 1)]⟩, -1),(⟨[(a3, 1),(b0, 1),(b2, 1)]⟩, 1),(⟨[(b1, 1),(b2,
    1),(d2, 1)]⟩, -1),(⟨[(b1, 1),(b3, 1),(d3, 1)]⟩, -1),(⟨[(b1, 2),(d1, 1)]⟩, -1)]⟩),(5, ⟨[(⟨[(a1,
    1),(b0, 1),(b3, 1)]⟩, 1),(⟨[(a3, 1),(b0, 1),(b1, 1)]⟩, -1),(⟨[(b1, 1),(b2, 1),(d1, 1)]⟩, -1),(⟨[(b2,
    1),(b3, 1),(d3, 1)]⟩, -1),(⟨[(b2, 2),(d2, 1)]⟩, -1)]⟩),(6, ⟨[(⟨[(a1, 1),(b1, 1),(b3, 1)]⟩,
    1),(⟨[(a2, 1),(b2, 1),(b3, 1)]⟩, 1),(⟨[(a3, 1),(b1, 2)]⟩, -1),(⟨[(a3, 1),(b2, 2)]⟩, -1)]⟩),(9,
    ⟨[(⟨[(a1, 1),(b0, 1),(b2, 1)]⟩, -1),(⟨[(a2, 1),(b0, 1),(b1, 1)]⟩, 1),(⟨[(b1, 1),(b3, 1),(d1, 1)]⟩,
    -1),(⟨[(b2, 1),(b3, 1),(d2, 1)]⟩, -1),(⟨[(b3, 2),(d3, 1)]⟩, -1)]⟩),(10, ⟨[(⟨[(a1, 1),(b1, 1),(b2,
    1)]⟩, -1),(⟨[(a2, 1),(b1, 2)]⟩, 1),(⟨[(a2, 1),(b3, 2)]⟩, 1),(⟨[(a3, 1),(b2, 1),(b3, 1)]⟩,
    -1)]⟩),(12, ⟨[(⟨[(a1, 1),(b2, 2)]⟩, -1),(⟨[(a1, 1),(b3, 2)]⟩, -1),(⟨[(a2, 1),(b1, 1),(b2, 1)]⟩,
    1),(⟨[(a3, 1),(b1, 1),(b3, 1)]⟩, 1)]⟩)]
  sym_ring

/-- `motor(origin)` is what the script shows for a normalised motor only (C15). -/
theorem C73_line289_fails : ∃ (a b c d : V4 ℤ) (u v : ℤ), ∃ x, Shows (env a b c d u v)
    "(b0 + b1 e23 + b2 e31 + b3 e12 + c1 e01 + c2 e02 + c3 e03 + c0 e0123) * (e123) * (b0 - b1 e23 - b2 e31 - b3 e12 - c1 e01 - c2 e02 - c3 e03 + c0 e0123) " x ∧
    x ≠ (⟨b, c⟩ : Motor ℤ).onOrigin.mv :=
  ⟨⟨0, 0, 0, 0⟩, ⟨2, 0, 0, 0⟩, ⟨0, 0, 0, 0⟩, ⟨0, 0, 0, 0⟩, 0, 0, _, C73_line289 _ _ _ _ _ _, by decide⟩

/-- scripts/validation.klein:241, with an exact reciprocal of one. -/
theorem C73_line241 (hw : Hw K) (isa : Isa) (h : hw.RcpAt 1) : Shows (env a b c d u v)
    "(1 + c1 e01 + c2 e02 + c3 e03) * (a0 e0 + a1 e1 + a2 e2 + a3 e3) * (1 - c1 e01 - c2 e02 - c3 e03) "
    ((⟨c.z0⟩ : Translator K).onPlane hw isa ⟨a⟩).mv := by
  rw [C14_translator_on_plane hw isa _ _ rfl h]
  shows [(1, ⟨[(⟨[(a0, 1)]⟩, 1), (⟨[(a1, 1), (c1, 1)]⟩, 2), (⟨[(a2, 1), (c2, 1)]⟩, 2), (⟨[(a3, 1), (c3, 1)]⟩, 2)]⟩),
    (2, ⟨[(⟨[(a1, 1)]⟩, 1)]⟩), (4, ⟨[(⟨[(a2, 1)]⟩, 1)]⟩), (8, ⟨[(⟨[(a3, 1)]⟩, 1)]⟩)]
  sym_ring

end

end Sym

end Klein
