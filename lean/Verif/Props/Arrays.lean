import Verif.Memory.Arrays
import Mathlib.Tactic.Ring
import Mathlib.Tactic.NormNum
import Mathlib.Tactic.Use

/-!
# C40, C41: array application

`run` executes an array overload on a memory; its outcome is a final memory or undefined behaviour
(a slot read through a `__restrict` pointer is also written).  All statements are about arbitrary
counts and memories and hold for every lane arithmetic, without any law.

* C40: if the output array overlaps neither the input array nor the motor, the final memory holds
  the element-wise results in `out[0..count)` and is unchanged everywhere else.  Conversely any
  overlap is undefined behaviour (`C40_*_ub_iff`).
* C41 is violated: the documented in-place form `in == out` is always undefined behaviour
  (`C41_*_fails`), and executing the statements in program order gives a wrong result
  (`C41_program_order_*`): the identity turns every plane and point into 0.
  In program order lines keep a right direction, and a right moment under translations.
  `C41_hoisted_*_partial`: the result is right if every element is loaded before it is overwritten.
-/

namespace Klein

open Mem

variable {F : Type}

/-! ### arrays in memory -/

/-- The slots of an array of `n` slots at `p`. -/
def Slots (p n a : ℕ) : Prop := ∃ i < n, a = p + i

/-- The two slot ranges have no slot in common. -/
def Disjoint' (p n q m : ℕ) : Prop := ∀ a, ¬ (Slots p n a ∧ Slots q m a)

theorem not_disjoint' (p n q m : ℕ) :
    ¬ Disjoint' p n q m ↔ ∃ x, Slots p n x ∧ Slots q m x := by
  simp [Disjoint']

theorem slots_succ (p n a : ℕ) : Slots p (n + 1) a ↔ Slots p n a ∨ a = p + n := by
  constructor
  · rintro ⟨i, hi, rfl⟩
    rcases Nat.lt_succ_iff_lt_or_eq.1 hi with h | h
    · exact Or.inl ⟨i, h, rfl⟩
    · exact Or.inr (by rw [h])
  · rintro (⟨i, hi, rfl⟩ | rfl)
    · exact ⟨i, by omega, rfl⟩
    · exact ⟨n, by omega, rfl⟩

theorem not_slots_zero (p a : ℕ) : ¬ Slots p 0 a := by rintro ⟨i, hi, _⟩; omega

/-- The rotor / motor stored at an address. -/
def rotorAt (mem : ℕ → V4 F) (p : ℕ) : Rotor F := ⟨mem p⟩
def motorAt (mem : ℕ → V4 F) (p : ℕ) : Motor F := ⟨mem p, mem (p + 1)⟩
/-- Element `i` of an array of planes, points, directions (one slot) or lines (two slots). -/
def planeAt (mem : ℕ → V4 F) (p i : ℕ) : Plane F := ⟨mem (p + i)⟩
def pointAt (mem : ℕ → V4 F) (p i : ℕ) : Point F := ⟨mem (p + i)⟩
def directionAt (mem : ℕ → V4 F) (p i : ℕ) : Direction F := ⟨mem (p + i)⟩
def lineAt (mem : ℕ → V4 F) (p i : ℕ) : Line F := ⟨mem (p + 2 * i), mem (p + (2 * i + 1))⟩

/-! ### one-slot elements -/

/-- What the loop bodies of `sw012` and `sw312` do to the state. -/
structure Body1 (body : ℕ → M F Unit) (f : V4 F → V4 F) (a out : ℕ) : Prop where
  mem : ∀ i s, a + i ≠ out + i →
    (body i s).2.mem = Function.update s.mem (out + i) (f (s.mem (a + i)))
  reads : ∀ i s x, x ∈ (body i s).2.reads ↔ x ∈ s.reads ∨ x = a + i
  writes : ∀ i s x, x ∈ (body i s).2.writes ↔ x ∈ s.writes ∨ x = out + i

theorem Body1.loop_reads {body : ℕ → M F Unit} {f : V4 F → V4 F} {a out : ℕ}
    (h : Body1 body f a out) (n : ℕ) (s : St F) (x : ℕ) :
    x ∈ (loop body n s).2.reads ↔ x ∈ s.reads ∨ Slots a n x := by
  induction n with
  | zero => simp [not_slots_zero]
  | succ n ih => rw [loop_succ_apply, h.reads, ih, slots_succ, or_assoc]

theorem Body1.loop_writes {body : ℕ → M F Unit} {f : V4 F → V4 F} {a out : ℕ}
    (h : Body1 body f a out) (n : ℕ) (s : St F) (x : ℕ) :
    x ∈ (loop body n s).2.writes ↔ x ∈ s.writes ∨ Slots out n x := by
  induction n with
  | zero => simp [not_slots_zero]
  | succ n ih => rw [loop_succ_apply, h.writes, ih, slots_succ, or_assoc]

theorem Body1.loop_mem {body : ℕ → M F Unit} {f : V4 F → V4 F} {a out : ℕ}
    (h : Body1 body f a out) (n : ℕ) (s : St F) (hd : Disjoint' a n out n) :
    (∀ i < n, (loop body n s).2.mem (out + i) = f (s.mem (a + i))) ∧
    (∀ x, ¬ Slots out n x → (loop body n s).2.mem x = s.mem x) := by
  induction n with
  | zero => exact ⟨fun i hi => absurd hi (by omega), fun x _ => rfl⟩
  | succ n ih =>
    have hd' : Disjoint' a n out n := fun x ⟨h1, h2⟩ =>
      hd x ⟨(slots_succ _ _ _).2 (Or.inl h1), (slots_succ _ _ _).2 (Or.inl h2)⟩
    obtain ⟨i1, i2⟩ := ih hd'
    have hne : a + n ≠ out + n := fun e =>
      hd (a + n) ⟨⟨n, by omega, rfl⟩, ⟨n, by omega, e⟩⟩
    have hin : ¬ Slots out n (a + n) := fun hs =>
      hd (a + n) ⟨⟨n, by omega, rfl⟩, (slots_succ _ _ _).2 (Or.inl hs)⟩
    rw [loop_succ_apply, h.mem n _ hne]
    constructor
    · intro i hi
      rcases Nat.lt_succ_iff_lt_or_eq.1 hi with h' | h'
      · rw [Function.update_of_ne (by omega), i1 i h']
      · subst h'; rw [Function.update_self, i2 _ hin]
    · intro x hx
      rw [slots_succ, not_or] at hx
      rw [Function.update_of_ne hx.2, i2 x hx.1]

/-! ### two-slot elements -/

/-- What the loop body of `swMM` does to the state on lines. -/
structure Body2 (body : ℕ → M F Unit) (f : V4 F → V4 F → V4 F × V4 F) (a out : ℕ) : Prop where
  mem : ∀ i s, a + 2 * i ≠ out + 2 * i → a + 2 * i ≠ out + (2 * i + 1) →
      a + (2 * i + 1) ≠ out + 2 * i → a + (2 * i + 1) ≠ out + (2 * i + 1) →
    (body i s).2.mem = Function.update (Function.update s.mem (out + 2 * i)
        (f (s.mem (a + 2 * i)) (s.mem (a + (2 * i + 1)))).1)
      (out + (2 * i + 1)) (f (s.mem (a + 2 * i)) (s.mem (a + (2 * i + 1)))).2
  reads : ∀ i s x, x ∈ (body i s).2.reads ↔
    x ∈ s.reads ∨ x = a + 2 * i ∨ x = a + (2 * i + 1)
  writes : ∀ i s x, x ∈ (body i s).2.writes ↔
    x ∈ s.writes ∨ x = out + 2 * i ∨ x = out + (2 * i + 1)

theorem slots_succ2 (p n a : ℕ) : Slots p (2 * (n + 1)) a ↔
    Slots p (2 * n) a ∨ a = p + 2 * n ∨ a = p + (2 * n + 1) := by
  rw [show 2 * (n + 1) = 2 * n + 1 + 1 from rfl, slots_succ, slots_succ, or_assoc]

theorem Body2.loop_reads {body : ℕ → M F Unit} {f : V4 F → V4 F → V4 F × V4 F} {a out : ℕ}
    (h : Body2 body f a out) (n : ℕ) (s : St F) (x : ℕ) :
    x ∈ (loop body n s).2.reads ↔ x ∈ s.reads ∨ Slots a (2 * n) x := by
  induction n with
  | zero => simp [not_slots_zero]
  | succ n ih => rw [loop_succ_apply, h.reads, ih, slots_succ2, or_assoc]

theorem Body2.loop_writes {body : ℕ → M F Unit} {f : V4 F → V4 F → V4 F × V4 F} {a out : ℕ}
    (h : Body2 body f a out) (n : ℕ) (s : St F) (x : ℕ) :
    x ∈ (loop body n s).2.writes ↔ x ∈ s.writes ∨ Slots out (2 * n) x := by
  induction n with
  | zero => simp [not_slots_zero]
  | succ n ih => rw [loop_succ_apply, h.writes, ih, slots_succ2, or_assoc]

theorem Body2.loop_mem {body : ℕ → M F Unit} {f : V4 F → V4 F → V4 F × V4 F} {a out : ℕ}
    (h : Body2 body f a out) (n : ℕ) (s : St F) (hd : Disjoint' a (2 * n) out (2 * n)) :
    (∀ i < n, (loop body n s).2.mem (out + 2 * i) =
        (f (s.mem (a + 2 * i)) (s.mem (a + (2 * i + 1)))).1 ∧
      (loop body n s).2.mem (out + (2 * i + 1)) =
        (f (s.mem (a + 2 * i)) (s.mem (a + (2 * i + 1)))).2) ∧
    (∀ x, ¬ Slots out (2 * n) x → (loop body n s).2.mem x = s.mem x) := by
  induction n with
  | zero => exact ⟨fun i hi => absurd hi (by omega), fun x _ => rfl⟩
  | succ n ih =>
    have hd' : Disjoint' a (2 * n) out (2 * n) := fun x ⟨h1, h2⟩ =>
      hd x ⟨(slots_succ2 _ _ _).2 (Or.inl h1), (slots_succ2 _ _ _).2 (Or.inl h2)⟩
    obtain ⟨i1, i2⟩ := ih hd'
    have ne : ∀ j k, j < 2 * (n + 1) → k < 2 * (n + 1) → a + j ≠ out + k := fun j k hj hk e =>
      hd (a + j) ⟨⟨j, hj, rfl⟩, ⟨k, hk, e⟩⟩
    have hin : ∀ j, j < 2 * (n + 1) → ¬ Slots out (2 * n) (a + j) := fun j hj hs =>
      hd (a + j) ⟨⟨j, hj, rfl⟩, (slots_succ2 _ _ _).2 (Or.inl hs)⟩
    rw [loop_succ_apply, h.mem n _ (ne _ _ (by omega) (by omega)) (ne _ _ (by omega) (by omega))
      (ne _ _ (by omega) (by omega)) (ne _ _ (by omega) (by omega)), i2 _ (hin (2 * n) (by omega)),
      i2 _ (hin (2 * n + 1) (by omega))]
    constructor
    · intro i hi
      rcases Nat.lt_succ_iff_lt_or_eq.1 hi with h' | h'
      · rw [Function.update_of_ne (by omega), Function.update_of_ne (by omega),
          Function.update_of_ne (by omega), Function.update_of_ne (by omega)]
        exact i1 i h'
      · subst h'
        rw [Function.update_of_ne (by omega), Function.update_self, Function.update_self]
        exact ⟨rfl, rfl⟩
    · intro x hx
      rw [slots_succ2, not_or, not_or] at hx
      rw [Function.update_of_ne hx.2.2, Function.update_of_ne hx.2.1, i2 x hx.1]

variable [Add F] [Sub F] [Mul F] [Neg F] [Zero F] [One F] [NatCast F]

/-! ### the bodies -/

/-- The state after the statements, and the membership tests. -/
macro "body_mem" "[" ls:Lean.Parser.Tactic.simpLemma,* "]" : tactic =>
  `(tactic| simp only [bind_apply, rd_apply, ld_apply, wr_apply, pure_apply, Function.update_self,
      Function.update_idem, $ls,*])

theorem sw012_body1 (isa : Isa) (t : SwRot F) (u : Option (V4 F)) (a out : ℕ) :
    Body1 (sw012_body isa t u a out)
      (fun x => match u with
        | none => sw012_p t x
        | some tmp4 => sw012_pt isa tmp4 x (sw012_p t x)) a out where
  mem i s hne := by
    cases u <;> body_mem [sw012_body, Function.update_of_ne hne] <;> rfl
  reads i s x := by cases u <;> simp [sw012_body] <;> tauto
  writes i s x := by cases u <;> simp [sw012_body] <;> tauto

theorem sw312_body1 (t : SwRot F) (u : Option (V4 F)) (a out : ℕ) :
    Body1 (sw312_body t u a out)
      (fun x => match u with
        | none => sw312_p t x
        | some tmp4 => sw312_pt tmp4 x (sw312_p t x)) a out where
  mem i s hne := by
    cases u <;> body_mem [sw312_body, Function.update_of_ne hne] <;> rfl
  reads i s x := by cases u <;> simp [sw312_body] <;> tauto
  writes i s x := by cases u <;> simp [sw312_body] <;> tauto

theorem swMM_body2 (t : SwMMRot F) (u : Option (SwMMTrans F)) (a out : ℕ) :
    Body2 (swMM_body true t u a out)
      (fun x y => match u with
        | none => (swMM_p1 t x, swMM_p2 t y)
        | some u => (swMM_p1 t x, swMM_p2t u x (swMM_p2 t y))) a out where
  mem i s h1 h2 h3 h4 := by
    have h5 : out + 2 * i ≠ out + (2 * i + 1) := by omega
    cases u <;> body_mem [swMM_body, Function.update_of_ne h1, Function.update_of_ne h2,
      Function.update_of_ne h3, Function.update_of_ne h4] <;> rfl
  reads i s x := by cases u <;> simp [swMM_body] <;> tauto
  writes i s x := by cases u <;> simp [swMM_body] <;> tauto

/-! ### whole calls -/

/-- The call `p` on the memory `mem`, which besides the input array reads the slots `R` through
`__restrict` pointers: undefined behaviour exactly when an output slot is also read, otherwise the
output array holds `f` of the input array and nothing else changes. -/
def Applies1 (p : M F Unit) (mem : ℕ → V4 F) (R : List ℕ) (inp out n : ℕ) (f : V4 F → V4 F) :
    Prop :=
  (run p mem = .ub ↔ ∃ x, Slots out n x ∧ (x ∈ R ∨ Slots inp n x)) ∧
  ((∀ x ∈ R, ¬ Slots out n x) → Disjoint' inp n out n →
    ∃ mem', run p mem = .ok mem' ∧ (∀ i < n, mem' (out + i) = f (mem (inp + i))) ∧
      ∀ x, ¬ Slots out n x → mem' x = mem x)

/-- The same for arrays of lines, two slots per element. -/
def Applies2 (p : M F Unit) (mem : ℕ → V4 F) (R : List ℕ) (inp out n : ℕ)
    (f : V4 F → V4 F → V4 F × V4 F) : Prop :=
  (run p mem = .ub ↔ ∃ x, Slots out (2 * n) x ∧ (x ∈ R ∨ Slots inp (2 * n) x)) ∧
  ((∀ x ∈ R, ¬ Slots out (2 * n) x) → Disjoint' inp (2 * n) out (2 * n) →
    ∃ mem', run p mem = .ok mem' ∧
      (∀ i < n, (mem' (out + 2 * i), mem' (out + (2 * i + 1))) =
        f (mem (inp + 2 * i)) (mem (inp + (2 * i + 1)))) ∧
      ∀ x, ¬ Slots out (2 * n) x → mem' x = mem x)

omit [Add F] [Sub F] [Mul F] [Neg F] [Zero F] [One F] [NatCast F] in
theorem applies1 {p : M F Unit} {mem : ℕ → V4 F} {R : List ℕ} {inp out n : ℕ} {f : V4 F → V4 F}
    {body : ℕ → M F Unit} (hp : p ⟨mem, [], []⟩ = loop body n ⟨mem, R, []⟩)
    (hb : Body1 body f inp out) : Applies1 p mem R inp out n f := by
  constructor
  · rw [run_ub_iff, hp]
    simp only [hb.loop_reads, hb.loop_writes, List.not_mem_nil, false_or]
    exact ⟨fun ⟨x, h1, h2⟩ => ⟨x, h2, h1⟩, fun ⟨x, h1, h2⟩ => ⟨x, h2, h1⟩⟩
  · intro hR hd
    obtain ⟨h1, h2⟩ := hb.loop_mem n ⟨mem, R, []⟩ hd
    refine ⟨(loop body n ⟨mem, R, []⟩).2.mem, ?_, h1, h2⟩
    rw [run_ok]
    · rw [exec, hp]
    · rw [hp]
      simp only [hb.loop_reads, hb.loop_writes, List.not_mem_nil, false_or]
      rintro x (hx | hx)
      · exact hR x hx
      · exact fun hx' => hd x ⟨hx, hx'⟩

omit [Add F] [Sub F] [Mul F] [Neg F] [Zero F] [One F] [NatCast F] in
theorem applies2 {p : M F Unit} {mem : ℕ → V4 F} {R : List ℕ} {inp out n : ℕ}
    {f : V4 F → V4 F → V4 F × V4 F}
    {body : ℕ → M F Unit} (hp : p ⟨mem, [], []⟩ = loop body n ⟨mem, R, []⟩)
    (hb : Body2 body f inp out) : Applies2 p mem R inp out n f := by
  constructor
  · rw [run_ub_iff, hp]
    simp only [hb.loop_reads, hb.loop_writes, List.not_mem_nil, false_or]
    exact ⟨fun ⟨x, h1, h2⟩ => ⟨x, h2, h1⟩, fun ⟨x, h1, h2⟩ => ⟨x, h2, h1⟩⟩
  · intro hR hd
    obtain ⟨h1, h2⟩ := hb.loop_mem n ⟨mem, R, []⟩ hd
    refine ⟨(loop body n ⟨mem, R, []⟩).2.mem, ?_,
      fun i hi => Prod.ext (h1 i hi).1 (h1 i hi).2, h2⟩
    rw [run_ok]
    · rw [exec, hp]
    · rw [hp]
      simp only [hb.loop_reads, hb.loop_writes, List.not_mem_nil, false_or]
      rintro x (hx | hx)
      · exact hR x hx
      · exact fun hx' => hd x ⟨hx, hx'⟩

theorem rotor_onPlanes (isa : Isa) (mem : ℕ → V4 F) (this inp out n : ℕ) :
    Applies1 (Rotor.onPlanes isa this inp out n) mem [] inp out n
      (fun x => ((rotorAt mem this).onPlane isa ⟨x⟩).p0) :=
  applies1 (body := sw012_body isa (sw012_rot (mem this)) none inp out) rfl (sw012_body1 _ _ _ _ _)

theorem rotor_onPoints (isa : Isa) (mem : ℕ → V4 F) (this inp out n : ℕ) :
    Applies1 (Rotor.onPoints isa this inp out n) mem [] inp out n
      (fun x => ((rotorAt mem this).onPoint isa ⟨x⟩).p3) :=
  applies1 (body := sw012_body isa (sw012_rot (mem this)) none inp out) rfl (sw012_body1 _ _ _ _ _)

theorem rotor_onDirections (isa : Isa) (mem : ℕ → V4 F) (this inp out n : ℕ) :
    Applies1 (Rotor.onDirections isa this inp out n) mem [] inp out n
      (fun x => ((rotorAt mem this).onDirection isa ⟨x⟩).p3) :=
  applies1 (body := sw012_body isa (sw012_rot (mem this)) none inp out) rfl (sw012_body1 _ _ _ _ _)

theorem rotor_onLines (mem : ℕ → V4 F) (this inp out n : ℕ) :
    Applies2 (Rotor.onLines this inp out n) mem [this] inp out n
      (fun x y => (((rotorAt mem this).onLine ⟨x, y⟩).p1, ((rotorAt mem this).onLine ⟨x, y⟩).p2)) :=
  applies2 (body := swMM_body true (swMM_rot (mem this)) none inp out) rfl (swMM_body2 _ _ _ _)

theorem motor_onPlanes (isa : Isa) (mem : ℕ → V4 F) (this inp out n : ℕ) :
    Applies1 (Motor.onPlanes isa this inp out n) mem [this + 1] inp out n
      (fun x => ((motorAt mem this).onPlane isa ⟨x⟩).p0) :=
  applies1 (body := sw012_body isa (sw012_rot (mem this))
    (some (sw012_trans (mem this) (mem (this + 1)))) inp out) rfl (sw012_body1 _ _ _ _ _)

theorem motor_onPoints (mem : ℕ → V4 F) (this inp out n : ℕ) :
    Applies1 (Motor.onPoints this inp out n) mem [this + 1] inp out n
      (fun x => ((motorAt mem this).onPoint ⟨x⟩).p3) :=
  applies1 (body := sw312_body (sw312_rot (mem this))
    (some (sw312_trans (mem this) (mem (this + 1)))) inp out) rfl (sw312_body1 _ _ _ _)

theorem motor_onDirections (mem : ℕ → V4 F) (this inp out n : ℕ) :
    Applies1 (Motor.onDirections this inp out n) mem [] inp out n
      (fun x => ((motorAt mem this).onDirection ⟨x⟩).p3) :=
  applies1 (body := sw312_body (sw312_rot (mem this)) none inp out) rfl (sw312_body1 _ _ _ _)

theorem motor_onLines (mem : ℕ → V4 F) (this inp out n : ℕ) :
    Applies2 (Motor.onLines this inp out n) mem [this + 1, this] inp out n
      (fun x y => (((motorAt mem this).onLine ⟨x, y⟩).p1, ((motorAt mem this).onLine ⟨x, y⟩).p2)) :=
  applies2 (body := swMM_body true (swMM_rot (mem this))
    (some (swMM_trans (mem this) (mem (this + 1)))) inp out) rfl (swMM_body2 _ _ _ _)

/-! ### C40: separate output array

For lines the motor itself must not be overwritten; for planes and points only its second partition
(`p1_` is passed by value). -/

theorem C40_rotor_planes (isa : Isa) (mem : ℕ → V4 F) (this inp out n : ℕ)
    (hd : Disjoint' inp n out n) :
    ∃ mem', run (Rotor.onPlanes isa this inp out n) mem = .ok mem' ∧
      (∀ i < n, planeAt mem' out i = (rotorAt mem this).onPlane isa (planeAt mem inp i)) ∧
      ∀ x, ¬ Slots out n x → mem' x = mem x := by
  obtain ⟨m, h1, h2, h3⟩ := (rotor_onPlanes isa mem this inp out n).2 (by simp) hd
  exact ⟨m, h1, fun i hi => congrArg Plane.mk (h2 i hi), h3⟩

theorem C40_rotor_points (isa : Isa) (mem : ℕ → V4 F) (this inp out n : ℕ)
    (hd : Disjoint' inp n out n) :
    ∃ mem', run (Rotor.onPoints isa this inp out n) mem = .ok mem' ∧
      (∀ i < n, pointAt mem' out i = (rotorAt mem this).onPoint isa (pointAt mem inp i)) ∧
      ∀ x, ¬ Slots out n x → mem' x = mem x := by
  obtain ⟨m, h1, h2, h3⟩ := (rotor_onPoints isa mem this inp out n).2 (by simp) hd
  exact ⟨m, h1, fun i hi => congrArg Point.mk (h2 i hi), h3⟩

theorem C40_rotor_directions (isa : Isa) (mem : ℕ → V4 F) (this inp out n : ℕ)
    (hd : Disjoint' inp n out n) :
    ∃ mem', run (Rotor.onDirections isa this inp out n) mem = .ok mem' ∧
      (∀ i < n, directionAt mem' out i =
        (rotorAt mem this).onDirection isa (directionAt mem inp i)) ∧
      ∀ x, ¬ Slots out n x → mem' x = mem x := by
  obtain ⟨m, h1, h2, h3⟩ := (rotor_onDirections isa mem this inp out n).2 (by simp) hd
  exact ⟨m, h1, fun i hi => congrArg Direction.mk (h2 i hi), h3⟩

theorem C40_rotor_lines (mem : ℕ → V4 F) (this inp out n : ℕ)
    (hd : Disjoint' inp (2 * n) out (2 * n)) (ht : ¬ Slots out (2 * n) this) :
    ∃ mem', run (Rotor.onLines this inp out n) mem = .ok mem' ∧
      (∀ i < n, lineAt mem' out i = (rotorAt mem this).onLine (lineAt mem inp i)) ∧
      ∀ x, ¬ Slots out (2 * n) x → mem' x = mem x := by
  obtain ⟨m, h1, h2, h3⟩ := (rotor_onLines mem this inp out n).2 (by simpa using ht) hd
  exact ⟨m, h1, fun i hi =>
    Line.ext (congrArg Prod.fst (h2 i hi)) (congrArg Prod.snd (h2 i hi)), h3⟩

theorem C40_motor_planes (isa : Isa) (mem : ℕ → V4 F) (this inp out n : ℕ)
    (hd : Disjoint' inp n out n) (ht : ¬ Slots out n (this + 1)) :
    ∃ mem', run (Motor.onPlanes isa this inp out n) mem = .ok mem' ∧
      (∀ i < n, planeAt mem' out i = (motorAt mem this).onPlane isa (planeAt mem inp i)) ∧
      ∀ x, ¬ Slots out n x → mem' x = mem x := by
  obtain ⟨m, h1, h2, h3⟩ := (motor_onPlanes isa mem this inp out n).2 (by simpa using ht) hd
  exact ⟨m, h1, fun i hi => congrArg Plane.mk (h2 i hi), h3⟩

theorem C40_motor_points (mem : ℕ → V4 F) (this inp out n : ℕ)
    (hd : Disjoint' inp n out n) (ht : ¬ Slots out n (this + 1)) :
    ∃ mem', run (Motor.onPoints this inp out n) mem = .ok mem' ∧
      (∀ i < n, pointAt mem' out i = (motorAt mem this).onPoint (pointAt mem inp i)) ∧
      ∀ x, ¬ Slots out n x → mem' x = mem x := by
  obtain ⟨m, h1, h2, h3⟩ := (motor_onPoints mem this inp out n).2 (by simpa using ht) hd
  exact ⟨m, h1, fun i hi => congrArg Point.mk (h2 i hi), h3⟩

theorem C40_motor_directions (mem : ℕ → V4 F) (this inp out n : ℕ)
    (hd : Disjoint' inp n out n) :
    ∃ mem', run (Motor.onDirections this inp out n) mem = .ok mem' ∧
      (∀ i < n, directionAt mem' out i = (motorAt mem this).onDirection (directionAt mem inp i)) ∧
      ∀ x, ¬ Slots out n x → mem' x = mem x := by
  obtain ⟨m, h1, h2, h3⟩ := (motor_onDirections mem this inp out n).2 (by simp) hd
  exact ⟨m, h1, fun i hi => congrArg Direction.mk (h2 i hi), h3⟩

theorem C40_motor_lines (mem : ℕ → V4 F) (this inp out n : ℕ)
    (hd : Disjoint' inp (2 * n) out (2 * n)) (ht : ¬ Slots out (2 * n) this)
    (ht' : ¬ Slots out (2 * n) (this + 1)) :
    ∃ mem', run (Motor.onLines this inp out n) mem = .ok mem' ∧
      (∀ i < n, lineAt mem' out i = (motorAt mem this).onLine (lineAt mem inp i)) ∧
      ∀ x, ¬ Slots out (2 * n) x → mem' x = mem x := by
  obtain ⟨m, h1, h2, h3⟩ := (motor_onLines mem this inp out n).2 (by simpa using ⟨ht', ht⟩) hd
  exact ⟨m, h1, fun i hi =>
    Line.ext (congrArg Prod.fst (h2 i hi)) (congrArg Prod.snd (h2 i hi)), h3⟩

/-- The disjointness hypotheses are necessary: any other placement is undefined behaviour. -/
theorem C40_rotor_planes_ub_iff (isa : Isa) (mem : ℕ → V4 F) (this inp out n : ℕ) :
    run (Rotor.onPlanes isa this inp out n) mem = .ub ↔ ¬ Disjoint' inp n out n := by
  rw [(rotor_onPlanes isa mem this inp out n).1]
  simp [Disjoint', and_comm]

theorem C40_motor_points_ub_iff (mem : ℕ → V4 F) (this inp out n : ℕ) :
    run (Motor.onPoints this inp out n) mem = .ub ↔
      ¬ (Disjoint' inp n out n ∧ ¬ Slots out n (this + 1)) := by
  rw [(motor_onPoints mem this inp out n).1]
  simp only [not_and_or, not_disjoint', List.mem_singleton, not_not]
  constructor
  · rintro ⟨x, h, rfl | h'⟩
    · exact Or.inr h
    · exact Or.inl ⟨x, h', h⟩
  · rintro (⟨x, h, h'⟩ | h)
    · exact ⟨x, h', Or.inr h⟩
    · exact ⟨_, h, Or.inl rfl⟩

theorem C40_motor_lines_ub_iff (mem : ℕ → V4 F) (this inp out n : ℕ) :
    run (Motor.onLines this inp out n) mem = .ub ↔
      ¬ (Disjoint' inp (2 * n) out (2 * n) ∧ ¬ Slots out (2 * n) this ∧
        ¬ Slots out (2 * n) (this + 1)) := by
  rw [(motor_onLines mem this inp out n).1]
  simp only [not_and_or, not_disjoint', List.mem_cons, List.not_mem_nil, or_false, not_not]
  constructor
  · rintro ⟨x, h, (rfl | rfl) | h'⟩
    · exact Or.inr (Or.inr h)
    · exact Or.inr (Or.inl h)
    · exact Or.inl ⟨x, h', h⟩
  · rintro (⟨x, h, h'⟩ | h | h)
    · exact ⟨x, h', Or.inr h⟩
    · exact ⟨_, h, Or.inl (Or.inr rfl)⟩
    · exact ⟨_, h, Or.inl (Or.inl rfl)⟩

/-- A concrete call: a motor at slot 0, three points at slots 2-4, output at slots 5-7. -/
theorem C40_example (mem : ℕ → V4 F) : ∃ mem', run (Motor.onPoints 0 2 5 3) mem = .ok mem' ∧
    mem' 6 = ((motorAt mem 0).onPoint ⟨mem 3⟩).p3 ∧ mem' 8 = mem 8 ∧ mem' 0 = mem 0 := by
  obtain ⟨m, h1, h2, h3⟩ := C40_motor_points mem 0 2 5 3
    (by rintro a ⟨⟨i, hi, rfl⟩, ⟨j, hj, h⟩⟩; omega) (by rintro ⟨i, hi, h⟩; omega)
  refine ⟨m, h1, congrArg Point.p3 (h2 1 (by omega)), h3 8 ?_, h3 0 ?_⟩ <;>
    (rintro ⟨i, hi, h⟩; omega)

/-! ### C41: in place -/

theorem C41_rotor_planes_fails (isa : Isa) (mem : ℕ → V4 F) (this inp n : ℕ) (hn : 0 < n) :
    run (Rotor.onPlanes isa this inp inp n) mem = .ub :=
  (rotor_onPlanes isa mem this inp inp n).1.2 ⟨inp, ⟨0, hn, rfl⟩, Or.inr ⟨0, hn, rfl⟩⟩
theorem C41_rotor_points_fails (isa : Isa) (mem : ℕ → V4 F) (this inp n : ℕ) (hn : 0 < n) :
    run (Rotor.onPoints isa this inp inp n) mem = .ub :=
  (rotor_onPoints isa mem this inp inp n).1.2 ⟨inp, ⟨0, hn, rfl⟩, Or.inr ⟨0, hn, rfl⟩⟩
theorem C41_rotor_directions_fails (isa : Isa) (mem : ℕ → V4 F) (this inp n : ℕ) (hn : 0 < n) :
    run (Rotor.onDirections isa this inp inp n) mem = .ub :=
  (rotor_onDirections isa mem this inp inp n).1.2 ⟨inp, ⟨0, hn, rfl⟩, Or.inr ⟨0, hn, rfl⟩⟩
theorem C41_rotor_lines_fails (mem : ℕ → V4 F) (this inp n : ℕ) (hn : 0 < n) :
    run (Rotor.onLines this inp inp n) mem = .ub :=
  (rotor_onLines mem this inp inp n).1.2
    ⟨inp, ⟨0, by omega, rfl⟩, Or.inr ⟨0, by omega, rfl⟩⟩
theorem C41_motor_planes_fails (isa : Isa) (mem : ℕ → V4 F) (this inp n : ℕ) (hn : 0 < n) :
    run (Motor.onPlanes isa this inp inp n) mem = .ub :=
  (motor_onPlanes isa mem this inp inp n).1.2 ⟨inp, ⟨0, hn, rfl⟩, Or.inr ⟨0, hn, rfl⟩⟩
theorem C41_motor_points_fails (mem : ℕ → V4 F) (this inp n : ℕ) (hn : 0 < n) :
    run (Motor.onPoints this inp inp n) mem = .ub :=
  (motor_onPoints mem this inp inp n).1.2 ⟨inp, ⟨0, hn, rfl⟩, Or.inr ⟨0, hn, rfl⟩⟩
theorem C41_motor_directions_fails (mem : ℕ → V4 F) (this inp n : ℕ) (hn : 0 < n) :
    run (Motor.onDirections this inp inp n) mem = .ub :=
  (motor_onDirections mem this inp inp n).1.2 ⟨inp, ⟨0, hn, rfl⟩, Or.inr ⟨0, hn, rfl⟩⟩
theorem C41_motor_lines_fails (mem : ℕ → V4 F) (this inp n : ℕ) (hn : 0 < n) :
    run (Motor.onLines this inp inp n) mem = .ub :=
  (motor_onLines mem this inp inp n).1.2
    ⟨inp, ⟨0, by omega, rfl⟩, Or.inr ⟨0, by omega, rfl⟩⟩

/-! #### ignoring `__restrict`: the statements in program order -/

omit [Add F] [Sub F] [Mul F] [Neg F] [Zero F] [One F] [NatCast F] in
/-- A loop whose body replaces slot `a + i` by `g` of its content. -/
theorem loop_inplace {body : ℕ → M F Unit} {g : V4 F → V4 F} {a : ℕ}
    (h : ∀ i s, (body i s).2.mem = Function.update s.mem (a + i) (g (s.mem (a + i)))) (n : ℕ)
    (s : St F) :
    (∀ i < n, (loop body n s).2.mem (a + i) = g (s.mem (a + i))) ∧
    (∀ x, ¬ Slots a n x → (loop body n s).2.mem x = s.mem x) := by
  induction n with
  | zero => exact ⟨fun i hi => absurd hi (by omega), fun x _ => rfl⟩
  | succ n ih =>
    rw [loop_succ_apply, h]
    have hin : ¬ Slots a n (a + n) := by rintro ⟨i, hi, e⟩; omega
    constructor
    · intro i hi
      rcases Nat.lt_succ_iff_lt_or_eq.1 hi with h' | h'
      · rw [Function.update_of_ne (by omega), ih.1 i h']
      · subst h'; rw [Function.update_self, ih.2 _ hin]
    · intro x hx
      rw [slots_succ, not_or] at hx
      rw [Function.update_of_ne hx.2, ih.2 x hx.1]

/-- What the in-place loop of `sw012` computes for each element in program order. -/
def sw012_inplace (isa : Isa) (t : SwRot F) (u : Option (V4 F)) (x : V4 F) : V4 F :=
  let p := mul_ps t.tmp1 (swz x 1 3 2 0)
  let p := add_ps p (mul_ps t.tmp2 (swz p 2 1 3 0))
  let p := add_ps p (mul_ps t.tmp3 p)
  match u with
  | none => p
  | some u => add_ps p (hi_dp isa u p)

/-- What the in-place loop of `sw312` computes for each element in program order. -/
def sw312_inplace (t : SwRot F) (u : Option (V4 F)) (x : V4 F) : V4 F :=
  let p := mul_ps t.tmp1 (swz x 2 1 3 0)
  let p := add_ps p (mul_ps t.tmp2 (swz p 1 3 2 0))
  let p := add_ps p (mul_ps t.tmp3 p)
  match u with
  | none => p
  | some u => add_ps p (mul_ps u (swz p 0 0 0 0))

/-- In program order the rotor applied to planes in place computes `sw012_inplace`. -/
theorem C41_program_order_rotor_planes (isa : Isa) (mem : ℕ → V4 F) (this inp n i : ℕ)
    (hi : i < n) :
    exec (Rotor.onPlanes isa this inp inp n) mem (inp + i) =
      sw012_inplace isa (sw012_rot (mem this)) none (mem (inp + i)) :=
  (loop_inplace (body := sw012_body isa (sw012_rot (mem this)) none inp inp)
    (g := sw012_inplace isa (sw012_rot (mem this)) none)
    (by intro i s; body_mem [sw012_body]; rfl) n ⟨mem, [], []⟩).1 i hi

/-- In program order a motor applied to points in place computes `sw312_inplace`. -/
theorem C41_program_order_motor_points (mem : ℕ → V4 F) (this inp n i : ℕ) (hi : i < n) :
    exec (Motor.onPoints this inp inp n) mem (inp + i) =
      sw312_inplace (sw312_rot (mem this)) (some (sw312_trans (mem this) (mem (this + 1))))
        (mem (inp + i)) :=
  (loop_inplace (body := sw312_body (sw312_rot (mem this))
      (some (sw312_trans (mem this) (mem (this + 1)))) inp inp)
    (g := sw312_inplace (sw312_rot (mem this)) (some (sw312_trans (mem this) (mem (this + 1)))))
    (by intro i s; body_mem [sw312_body]; rfl) n ⟨mem, [this + 1], []⟩).1 i hi

/-- In program order a motor applied to a line in place (one iteration): `p1_` is right, the moment
is computed from overwritten values. -/
def swMM_inplace (t : SwMMRot F) (u : Option (SwMMTrans F)) (x y : V4 F) : V4 F × V4 F :=
  let p1 := swMM_p1 t x
  let p2 := mul_ps t.tmp y
  let p2 := add_ps p2 (mul_ps t.tmp2 (swz p2 1 3 2 0))
  let p2 := add_ps p2 (mul_ps t.tmp3 (swz p2 2 1 3 0))
  match u with
  | none => (p1, p2)
  | some u =>
    let p2 := add_ps p2 (mul_ps u.tmp4 p1)
    let p2 := add_ps p2 (mul_ps u.tmp5 (swz x 2 1 3 0))
    let p2 := add_ps p2 (mul_ps u.tmp6 (swz x 1 3 2 0))
    (p1, p2)

omit [Add F] [Sub F] [Mul F] [Neg F] [Zero F] [One F] [NatCast F] in
theorem loop_inplace2 {body : ℕ → M F Unit} {g : V4 F → V4 F → V4 F × V4 F} {a : ℕ}
    (h : ∀ i s, (body i s).2.mem = Function.update (Function.update s.mem (a + 2 * i)
        (g (s.mem (a + 2 * i)) (s.mem (a + (2 * i + 1)))).1)
      (a + (2 * i + 1)) (g (s.mem (a + 2 * i)) (s.mem (a + (2 * i + 1)))).2) (n : ℕ)
    (s : St F) :
    (∀ i < n, ((loop body n s).2.mem (a + 2 * i), (loop body n s).2.mem (a + (2 * i + 1))) =
      g (s.mem (a + 2 * i)) (s.mem (a + (2 * i + 1)))) ∧
    (∀ x, ¬ Slots a (2 * n) x → (loop body n s).2.mem x = s.mem x) := by
  induction n with
  | zero => exact ⟨fun i hi => absurd hi (by omega), fun x _ => rfl⟩
  | succ n ih =>
    have h0 : ¬ Slots a (2 * n) (a + 2 * n) := by rintro ⟨i, hi, e⟩; omega
    have h1 : ¬ Slots a (2 * n) (a + (2 * n + 1)) := by rintro ⟨i, hi, e⟩; omega
    rw [loop_succ_apply, h, ih.2 _ h0, ih.2 _ h1]
    constructor
    · intro i hi
      rcases Nat.lt_succ_iff_lt_or_eq.1 hi with h' | h'
      · rw [Function.update_of_ne (by omega), Function.update_of_ne (by omega),
          Function.update_of_ne (by omega), Function.update_of_ne (by omega), ih.1 i h']
      · subst h'
        rw [Function.update_of_ne (by omega), Function.update_self, Function.update_self]
    · intro x hx
      rw [slots_succ2, not_or, not_or] at hx
      rw [Function.update_of_ne hx.2.2, Function.update_of_ne hx.2.1, ih.2 x hx.1]

theorem C41_program_order_motor_lines (mem : ℕ → V4 F) (this inp n i : ℕ) (hi : i < n) :
    (exec (Motor.onLines this inp inp n) mem (inp + 2 * i),
      exec (Motor.onLines this inp inp n) mem (inp + (2 * i + 1))) =
      swMM_inplace (swMM_rot (mem this)) (some (swMM_trans (mem this) (mem (this + 1))))
        (mem (inp + 2 * i)) (mem (inp + (2 * i + 1))) := by
  refine (loop_inplace2 (body := swMM_body true (swMM_rot (mem this))
      (some (swMM_trans (mem this) (mem (this + 1)))) inp inp)
    (g := swMM_inplace (swMM_rot (mem this)) (some (swMM_trans (mem this) (mem (this + 1)))))
    ?_ n ⟨mem, [this + 1, this], []⟩).1 i hi
  intro i s
  have h5 : inp + 2 * i ≠ inp + (2 * i + 1) := by omega
  have h6 : inp + (2 * i + 1) ≠ inp + 2 * i := by omega
  body_mem [swMM_body, Function.update_of_ne h5, Function.update_of_ne h6]
  rfl

/-- In program order the direction part of every line is right. -/
theorem C41_program_order_lines_direction_partial (mem : ℕ → V4 F) (this inp n i : ℕ)
    (hi : i < n) :
    (lineAt (exec (Motor.onLines this inp inp n) mem) inp i).p1 =
      ((motorAt mem this).onLine (lineAt mem inp i)).p1 :=
  congrArg Prod.fst (C41_program_order_motor_lines mem this inp n i hi)

/-! #### loading each element once

If each element is loaded into a register before the first store to it, as a compiler may do thanks
to `__restrict`, the in-place call is right. -/

/-- `sw012` with the element loaded once. -/
def sw012_hoisted (isa : Isa) (t : SwRot F) (u : Option (V4 F)) (a out i : ℕ) : M F Unit := do
  let x ← rd (a + i)
  wr (out + i) (mul_ps t.tmp1 (swz x 1 3 2 0))
  wr (out + i) (add_ps (← ld (out + i)) (mul_ps t.tmp2 (swz x 2 1 3 0)))
  wr (out + i) (add_ps (← ld (out + i)) (mul_ps t.tmp3 x))
  match u with
  | none => pure ()
  | some u => wr (out + i) (add_ps (← ld (out + i)) (hi_dp isa u x))

/-- `sw312` with the element loaded once. -/
def sw312_hoisted (t : SwRot F) (u : Option (V4 F)) (a out i : ℕ) : M F Unit := do
  let x ← rd (a + i)
  wr (out + i) (mul_ps t.tmp1 (swz x 2 1 3 0))
  wr (out + i) (add_ps (← ld (out + i)) (mul_ps t.tmp2 (swz x 1 3 2 0)))
  wr (out + i) (add_ps (← ld (out + i)) (mul_ps t.tmp3 x))
  match u with
  | none => pure ()
  | some u => wr (out + i) (add_ps (← ld (out + i)) (mul_ps u (swz x 0 0 0 0)))

theorem C41_hoisted_planes_partial (isa : Isa) (mem : ℕ → V4 F) (m : Motor F) (inp n i : ℕ)
    (hi : i < n) :
    planeAt (exec (loop (sw012_hoisted isa (sw012_rot m.p1) (some (sw012_trans m.p1 m.p2))
      inp inp) n) mem) inp i = m.onPlane isa (planeAt mem inp i) :=
  congrArg Plane.mk ((loop_inplace (g := fun x => (m.onPlane isa ⟨x⟩).p0)
    (by intro i s; body_mem [sw012_hoisted]; rfl) n ⟨mem, [], []⟩).1 i hi)

theorem C41_hoisted_points_partial (mem : ℕ → V4 F) (m : Motor F) (inp n i : ℕ) (hi : i < n) :
    pointAt (exec (loop (sw312_hoisted (sw312_rot m.p1) (some (sw312_trans m.p1 m.p2))
      inp inp) n) mem) inp i = m.onPoint (pointAt mem inp i) :=
  congrArg Point.mk ((loop_inplace (g := fun x => (m.onPoint ⟨x⟩).p3)
    (by intro i s; body_mem [sw312_hoisted]; rfl) n ⟨mem, [], []⟩).1 i hi)

end Klein

namespace Klein

open Mem

variable {K : Type} [CommRing K]

/-- In program order the identity rotor, applied in place, turns every plane into 0 ... -/
theorem C41_program_order_identity_planes (isa : Isa) (mem : ℕ → V4 K) (this inp n i : ℕ)
    (hi : i < n) (h1 : mem this = ⟨1, 0, 0, 0⟩) :
    exec (Rotor.onPlanes isa this inp inp n) mem (inp + i) = ⟨0, 0, 0, 0⟩ := by
  rw [C41_program_order_rotor_planes isa mem this inp n i hi, h1]
  simp [sw012_inplace, kln, sse]

/-- ... although the identity leaves every plane alone. -/
theorem C41_identity_spec (isa : Isa) (p : Plane K) : (Rotor.mk ⟨1, 0, 0, 0⟩).onPlane isa p = p := by
  cases p; cases isa <;> simp [kln, sse]

/-- In program order the identity motor, applied in place to points, turns every point into 0,
weight included. -/
theorem C41_program_order_identity_points (mem : ℕ → V4 K) (this inp n i : ℕ)
    (hi : i < n) (h1 : mem this = ⟨1, 0, 0, 0⟩) (h2 : mem (this + 1) = ⟨0, 0, 0, 0⟩) :
    exec (Motor.onPoints this inp inp n) mem (inp + i) = ⟨0, 0, 0, 0⟩ := by
  rw [C41_program_order_motor_points mem this inp n i hi, h1, h2]
  simp [sw312_inplace, kln, sse]

/-- In program order the moment of a line is right when the motor is a translation. -/
theorem C41_program_order_lines_translation_partial (mem : ℕ → V4 K) (this inp n i : ℕ)
    (hi : i < n) (h1 : mem this = ⟨1, 0, 0, 0⟩) (hw : (lineAt mem inp i).p1.l0 = 0) :
    lineAt (exec (Motor.onLines this inp inp n) mem) inp i =
      (motorAt mem this).onLine (lineAt mem inp i) := by
  have e := C41_program_order_motor_lines mem this inp n i hi
  rw [Prod.ext_iff] at e
  refine Line.ext e.1 (e.2.trans ?_)
  simp only [lineAt] at hw
  simp only [motorAt, lineAt, h1]
  simp [swMM_inplace, kln, sse, hw]

/-- ... and wrong in general: a quarter turn about the z axis (up to scale) and a line with moment
along x; the moment should turn, in place it does not come out right. -/
theorem C41_program_order_lines_fails :
    ∃ mem : ℕ → V4 ℤ, lineAt (exec (Motor.onLines 0 2 2 1) mem) 2 0 ≠
      (motorAt mem 0).onLine (lineAt mem 2 0) := by
  refine ⟨fun a => match a with
    | 0 => ⟨1, 0, 0, 1⟩ | 1 => ⟨0, 0, 0, 0⟩ | 2 => ⟨0, 0, 0, 1⟩ | _ => ⟨0, 1, 0, 0⟩, fun h => ?_⟩
  have e := C41_program_order_motor_lines (fun a : ℕ => (match a with
    | 0 => ⟨1, 0, 0, 1⟩ | 1 => ⟨0, 0, 0, 0⟩ | 2 => ⟨0, 0, 0, 1⟩ | _ => ⟨0, 1, 0, 0⟩ : V4 ℤ))
    0 2 1 0 (by omega)
  rw [Prod.ext_iff] at e
  have h' := (congrArg Line.p2 h).symm.trans e.2
  revert h'
  simp [swMM_inplace, motorAt, lineAt, kln, sse]

end Klein
