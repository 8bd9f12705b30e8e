import Verif.Simd
import Mathlib.Logic.Function.Basic

/-!
# Memory

The array overloads work on arrays of `__m128`, which are 16-byte aligned, so memory is indexed by
16-byte slots.  A program is a function on states; besides the memory contents the state records
which slots were read through a pointer declared `__restrict` and which were written.  `__restrict`
makes it undefined behaviour for a slot to be in both sets (C11 6.7.3.1, adopted by the compilers
for C++), so undefined behaviour is a distinct outcome.
-/

namespace Klein.Mem

/-- Memory contents, the slots read through `__restrict` pointers so far, the slots written so far. -/
@[ext] structure St (F : Type) where
  mem : ℕ → V4 F
  reads : List ℕ
  writes : List ℕ

/-- Programs with result type `α`. -/
def M (F α : Type) : Type := St F → α × St F

variable {F : Type}

instance : Monad (M F) where
  pure a s := (a, s)
  bind x f s := let r := x s; f r.1 r.2

/-- Load through a `__restrict` pointer. -/
def rd (a : ℕ) : M F (V4 F) := fun s => (s.mem a, { s with reads := a :: s.reads })
/-- Load through a pointer that is not `__restrict`. -/
def ld (a : ℕ) : M F (V4 F) := fun s => (s.mem a, s)
/-- Store. -/
def wr (a : ℕ) (v : V4 F) : M F Unit :=
  fun s => ((), { s with mem := Function.update s.mem a v, writes := a :: s.writes })

/-- `for (size_t i = 0; i != count; ++i) body(i)`. -/
def loop (body : ℕ → M F Unit) : ℕ → M F Unit
  | 0 => pure ()
  | n + 1 => do loop body n; body n

/-- The result of a call: undefined behaviour, or a final memory. -/
inductive Outcome (F : Type)
  | ub
  | ok (mem : ℕ → V4 F)

/-- Run a program from the memory `mem`. -/
def run (p : M F Unit) (mem : ℕ → V4 F) : Outcome F :=
  let s := (p ⟨mem, [], []⟩).2
  if ∃ a ∈ s.reads, a ∈ s.writes then .ub else .ok s.mem

/-- The final memory when every statement is executed in program order and `__restrict` is
ignored. -/
def exec (p : M F Unit) (mem : ℕ → V4 F) : ℕ → V4 F := (p ⟨mem, [], []⟩).2.mem

theorem run_ub_iff (p : M F Unit) (mem : ℕ → V4 F) :
    run p mem = .ub ↔ ∃ a ∈ (p ⟨mem, [], []⟩).2.reads, a ∈ (p ⟨mem, [], []⟩).2.writes := by
  unfold run; simp only; split <;> simp_all

theorem run_ok (p : M F Unit) (mem : ℕ → V4 F)
    (h : ∀ a ∈ (p ⟨mem, [], []⟩).2.reads, a ∉ (p ⟨mem, [], []⟩).2.writes) :
    run p mem = .ok (exec p mem) := by
  unfold run exec; simp only
  rw [if_neg]; intro ⟨a, h1, h2⟩; exact h a h1 h2

@[simp] theorem pure_apply {α : Type} (a : α) (s : St F) : (pure a : M F α) s = (a, s) := rfl
@[simp] theorem bind_apply {α β : Type} (x : M F α) (f : α → M F β) (s : St F) :
    (x >>= f) s = f (x s).1 (x s).2 := rfl
@[simp] theorem rd_apply (a : ℕ) (s : St F) :
    rd a s = (s.mem a, { s with reads := a :: s.reads }) := rfl
@[simp] theorem ld_apply (a : ℕ) (s : St F) : ld a s = (s.mem a, s) := rfl
@[simp] theorem wr_apply (a : ℕ) (v : V4 F) (s : St F) :
    wr a v s = ((), { s with mem := Function.update s.mem a v, writes := a :: s.writes }) := rfl
theorem loop_zero (b : ℕ → M F Unit) : loop b 0 = pure () := rfl
@[simp] theorem loop_zero_apply (b : ℕ → M F Unit) (s : St F) : loop b 0 s = ((), s) := rfl
@[simp] theorem loop_succ_apply (b : ℕ → M F Unit) (n : ℕ) (s : St F) :
    loop b (n + 1) s = b n (loop b n s).2 := rfl
theorem loop_one (b : ℕ → M F Unit) : loop b 1 = b 0 := rfl

end Klein.Mem
