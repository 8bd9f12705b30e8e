import Verif.Simd
import Mathlib.Logic.Function.Basic

/-!
# Loads and stores of four floats

Memory is a function from float indices (byte address / 4) to floats.  `_mm_loadu_ps` accepts any
address; `_mm_store_ps` requires a 16-byte aligned one and is undefined otherwise (it faults on
hardware), which is the outcome `none`.
-/

namespace Klein

/-- A memory of floats. -/
abbrev Mem4 (F : Type) := ℕ → F

variable {F : Type}

/-- `_mm_loadu_ps`. -/
def loadu (mem : Mem4 F) (a : ℕ) : V4 F := ⟨mem a, mem (a + 1), mem (a + 2), mem (a + 3)⟩

/-- `_mm_store_ps`. -/
def storePs (mem : Mem4 F) (a : ℕ) (v : V4 F) : Option (Mem4 F) :=
  if a % 4 = 0 then
    some (Function.update (Function.update (Function.update (Function.update mem
      a v.l0) (a + 1) v.l1) (a + 2) v.l2) (a + 3) v.l3)
  else none

/-- The component accessors (e.g. plane.hpp:201-206): `float out[4]; _mm_store_ps(out, v); return
out[i];` with `out` placed at `buf`. -/
def accessor (mem : Mem4 F) (buf : ℕ) (v : V4 F) (i : Fin 4) : Option F :=
  (storePs mem buf v).map (fun m => m (buf + i))

theorem storePs_none (mem : Mem4 F) (a : ℕ) (v : V4 F) : storePs mem a v = none ↔ a % 4 ≠ 0 := by
  unfold storePs; split <;> simp_all

theorem storePs_some (mem : Mem4 F) (a : ℕ) (v : V4 F) (h : a % 4 = 0) :
    ∃ mem', storePs mem a v = some mem' ∧ mem' a = v.l0 ∧ mem' (a + 1) = v.l1 ∧
      mem' (a + 2) = v.l2 ∧ mem' (a + 3) = v.l3 ∧ ∀ x, (∀ i < 4, x ≠ a + i) → mem' x = mem x := by
  refine ⟨_, if_pos h, ?_, ?_, ?_, ?_, fun x hx => ?_⟩
  · rw [Function.update_of_ne (by omega), Function.update_of_ne (by omega),
      Function.update_of_ne (by omega), Function.update_self]
  · rw [Function.update_of_ne (by omega), Function.update_of_ne (by omega), Function.update_self]
  · rw [Function.update_of_ne (by omega), Function.update_self]
  · rw [Function.update_self]
  · rw [Function.update_of_ne (hx 3 (by omega)), Function.update_of_ne (hx 2 (by omega)),
      Function.update_of_ne (hx 1 (by omega)), Function.update_of_ne (show x ≠ a from hx 0 (by omega))]

theorem storePs_loadu (mem : Mem4 F) (a b : ℕ) (hb : b % 4 = 0) :
    ∃ mem', storePs mem b (loadu mem a) = some mem' ∧
      (∀ i < 4, mem' (b + i) = mem (a + i)) ∧ ∀ x, (∀ i < 4, x ≠ b + i) → mem' x = mem x := by
  obtain ⟨m, h, h0, h1, h2, h3, h4⟩ := storePs_some mem b (loadu mem a) hb
  refine ⟨m, h, fun i hi => ?_, h4⟩
  match i, hi with
  | 0, _ => exact h0
  | 1, _ => exact h1
  | 2, _ => exact h2
  | 3, _ => exact h3

theorem accessor_eq (mem : Mem4 F) (buf : ℕ) (v : V4 F) (i : Fin 4) :
    accessor mem buf v i = if buf % 4 = 0 then some (v.get i) else none := by
  unfold accessor
  split
  · next h =>
    obtain ⟨m, e, h0, h1, h2, h3, _⟩ := storePs_some mem buf v h
    rw [e, Option.map_some]
    match i with
    | 0 => exact congrArg some h0
    | 1 => exact congrArg some h1
    | 2 => exact congrArg some h2
    | 3 => exact congrArg some h3
  · next h => rw [(storePs_none mem buf v).2 h, Option.map_none]

end Klein
