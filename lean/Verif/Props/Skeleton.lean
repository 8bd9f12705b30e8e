import Verif.Props.Arrays
import Verif.Props.Composition

/-!
# C77: the forward kinematics of docs/case_studies/ga_skeletal_animation.md

`animate_keyframe` (lines 123-160) of the case study.  The document says that the pose of a joint is
encoded relative to its parent (lines 100-102), so that the pose of a joint in the world is the world pose of
its parent times its own.

* C77_order: what the loop computes is the product in the opposite order, the motors of the ancestors
  applied root first; C77_order_fails is a skeleton of two joints where the two differ.
* C77_reverse_partial: visiting the joints from the last to the first gives the documented pose.
* C77_in_place_fails: the calls as written have undefined behaviour (C41).
* C77_uint8_fails: with the group sizes stored in a `uint8_t` a skeleton of 256 joints loses the motion of its root.

The code of the case study misspells `instance` as `instances` and would not compile as it is; the
model reads it as intended.
-/

set_option linter.unusedSectionVars false

namespace Klein

/-- ga_skeletal_animation.md:20-26, 62-69: the hierarchy.  Joint `j` has the parent
`j - parentOffset j`, and the group of `j` is the `groupSize j` joints from `j` on. -/
structure Skel where
  size : ℕ
  parentOffset : ℕ → ℕ
  groupSize : ℕ → ℕ

namespace Skel

/-- `*(&j - parent_offset)`. -/
def parent (s : Skel) (j : ℕ) : ℕ := j - s.parentOffset j

/-- `k` is in the group of `i`. -/
def InGroup (s : Skel) (i k : ℕ) : Prop := i ≤ k ∧ k < i + s.groupSize i

instance (s : Skel) (i k : ℕ) : Decidable (s.InGroup i k) := by unfold InGroup; infer_instance

/-- The layout the document describes: joint 0 is the only root, a parent comes before its children,
and the group of a joint is the joint, its children and theirs. -/
structure WF (s : Skel) : Prop where
  root : s.parentOffset 0 = 0
  parent : ∀ j < s.size, j ≠ 0 → s.parent j < j
  inside : ∀ i < s.size, i + s.groupSize i ≤ s.size
  group : ∀ i < s.size, ∀ k < s.size, s.InGroup i k ↔ k = i ∨ (k ≠ 0 ∧ s.InGroup i (s.parent k))

end Skel

section
variable {F : Type} [Add F] [Sub F] [Mul F] [Neg F] [Zero F] [One F] [NatCast F]

/-- The call `target.joint_poses[i](&positions[i], &positions[i], group_size)` with every element read
before it is written, as C41 needs. -/
def applyGroup (s : Skel) (pose : ℕ → Motor F) (pos : ℕ → Point F) (i : ℕ) : ℕ → Point F :=
  fun k => if s.InGroup i k then (pose i).onPoint (pos k) else pos k

/-- ga_skeletal_animation.md:123-160, `animate_keyframe`. -/
def animate (s : Skel) (w : Point F) (pose : ℕ → Motor F) : ℕ → Point F :=
  (List.range s.size).foldl (applyGroup s pose) fun _ => w

/-- The same with the joints visited from the last to the first. -/
def animateReverse (s : Skel) (w : Point F) (pose : ℕ → Motor F) : ℕ → Point F :=
  (List.range s.size).reverse.foldl (applyGroup s pose) fun _ => w

/-- What a sequence of calls does to one joint. -/
theorem foldl_applyGroup (s : Skel) (pose : ℕ → Motor F) (k : ℕ) (l : List ℕ) (pos : ℕ → Point F) :
    l.foldl (applyGroup s pose) pos k =
      (l.filter (s.InGroup · k)).foldl (fun p i => (pose i).onPoint p) (pos k) := by
  induction l generalizing pos with
  | nil => rfl
  | cons i l ih =>
    rw [List.foldl_cons, ih]
    by_cases h : s.InGroup i k
    · rw [List.filter_cons_of_pos (by simpa using h), List.foldl_cons]
      simp [applyGroup, h]
    · rw [List.filter_cons_of_neg (by simpa using h)]
      simp [applyGroup, h]

/-- The joints whose group contains the root. -/
theorem Skel.WF.filter_root {s : Skel} (h : s.WF) (hs : 0 < s.size) :
    (List.range s.size).filter (s.InGroup · 0) = [0] := by
  obtain ⟨n, hn⟩ : ∃ n, s.size = n + 1 := ⟨s.size - 1, by omega⟩
  have h0 : s.InGroup 0 0 := (h.group 0 hs 0 hs).2 (Or.inl rfl)
  rw [hn, List.range_succ_eq_map, List.filter_cons_of_pos (by simpa using h0)]
  simp [Skel.InGroup]

/-- The joints whose group contains `k` are those whose group contains its parent, and `k`. -/
theorem Skel.WF.filter_step {s : Skel} (h : s.WF) {k : ℕ} (hk : k < s.size) (h0 : k ≠ 0) :
    (List.range s.size).filter (s.InGroup · k) =
      (List.range s.size).filter (s.InGroup · (s.parent k)) ++ [k] := by
  have hp := h.parent k hk h0
  obtain ⟨d, hd⟩ : ∃ d, s.size = k + (d + 1) := ⟨s.size - k - 1, by omega⟩
  have e1 : ∀ i ∈ List.range k, decide (s.InGroup i k) = decide (s.InGroup i (s.parent k)) := by
    intro i hi
    have hi := List.mem_range.1 hi
    have := h.group i (by omega) k hk
    refine decide_eq_decide.2 (this.trans ⟨?_, fun h' => Or.inr ⟨h0, h'⟩⟩)
    rintro (rfl | h')
    · omega
    · exact h'.2
  have hkk : s.InGroup k k := (h.group k hk k hk).2 (Or.inl rfl)
  rw [hd, List.range_add, List.filter_append, List.filter_append, List.filter_congr e1,
    List.range_succ_eq_map]
  have e2 : ∀ j, ¬ s.InGroup (k + j) (s.parent k) := fun j h' => by have := h'.1; omega
  have e3 : ∀ j, ¬ s.InGroup (k + (j + 1)) k := fun j h' => by have := h'.1; omega
  have l1 : ∀ l : List ℕ, (l.map (k + ·)).filter (s.InGroup · (s.parent k)) = [] := by
    intro l; simp [List.filter_eq_nil_iff, e2]
  have l2 : ∀ l : List ℕ, ((l.map Nat.succ).map (k + ·)).filter (s.InGroup · k) = [] := by
    intro l; simp [List.filter_eq_nil_iff]; intro a _; exact e3 a
  rw [l1, List.append_nil, List.map_cons, List.filter_cons_of_pos (by simpa using hkk), l2, Nat.add_zero]

/-- C77: the loop applies the motor of a joint to the position its parent ended in. -/
theorem C77_parent (s : Skel) (h : s.WF) (w : Point F) (pose : ℕ → Motor F) (hs : 0 < s.size) :
    animate s w pose 0 = (pose 0).onPoint w ∧
      ∀ k < s.size, k ≠ 0 → animate s w pose k = (pose k).onPoint (animate s w pose (s.parent k)) := by
  refine ⟨?_, fun k hk h0 => ?_⟩
  · rw [animate, foldl_applyGroup, h.filter_root hs]; rfl
  · rw [animate, foldl_applyGroup, foldl_applyGroup, h.filter_step hk h0, List.foldl_append]; rfl

end

variable {F : Type} [CommRing F]

/-- C77: the position of a joint is that of the world location under the product of the motors of
its ancestors, its own motor on the left. -/
theorem C77_order (s : Skel) (h : s.WF) (w : Point F) (pose V : ℕ → Motor F)
    (hV0 : V 0 = pose 0) (hV : ∀ k < s.size, k ≠ 0 → V k = (pose k).mulMotor (V (s.parent k))) :
    ∀ k < s.size, animate s w pose k = (V k).onPoint w := by
  intro k
  induction k using Nat.strong_induction_on with
  | _ k ih =>
    intro hk
    have hc := C77_parent s h w pose (by omega)
    by_cases h0 : k = 0
    · subst h0; rw [hc.1, hV0]
    · have hp := h.parent k hk h0
      rw [hc.2 k hk h0, hV k hk h0, ih _ hp (by omega), C16_motor_motor_point]

/-- C77: visiting the joints from the last to the first gives the documented world pose, that of the
parent times the pose of the joint relative to it. -/
theorem C77_reverse_partial (s : Skel) (h : s.WF) (w : Point F) (pose W : ℕ → Motor F)
    (hW0 : W 0 = pose 0) (hW : ∀ k < s.size, k ≠ 0 → W k = (W (s.parent k)).mulMotor (pose k)) :
    ∀ k < s.size, animateReverse s w pose k = (W k).onPoint w := by
  intro k
  induction k using Nat.strong_induction_on generalizing w with
  | _ k ih =>
    intro hk
    by_cases h0 : k = 0
    · subst h0
      rw [animateReverse, foldl_applyGroup, List.filter_reverse, h.filter_root hk, hW0]; rfl
    · have hp := h.parent k hk h0
      have := ih _ hp ((pose k).onPoint w) (by omega)
      rw [animateReverse, foldl_applyGroup, List.filter_reverse] at this ⊢
      rw [h.filter_step hk h0, List.reverse_append, hW k hk h0, C16_motor_motor_point, ← this]
      rfl

/-- The two orders give the same positions if the motor of each joint commutes with the world pose of
its parent. -/
theorem C77_commuting_partial (s : Skel) (h : s.WF) (w : Point F) (pose W : ℕ → Motor F)
    (hW0 : W 0 = pose 0) (hW : ∀ k < s.size, k ≠ 0 → W k = (W (s.parent k)).mulMotor (pose k))
    (hc : ∀ k < s.size, k ≠ 0 →
      (W (s.parent k)).mulMotor (pose k) = (pose k).mulMotor (W (s.parent k))) :
    ∀ k < s.size, animate s w pose k = animateReverse s w pose k := by
  intro k hk
  rw [C77_reverse_partial s h w pose W hW0 hW k hk,
    C77_order s h w pose W hW0 (fun k hk h0 => (hW k hk h0).trans (hc k hk h0)) k hk]

/-- A chain of `n` joints. -/
def chain (n : ℕ) : Skel := ⟨n, fun j => if j = 0 then 0 else 1, fun j => n - j⟩

theorem chain_wf (n : ℕ) : (chain n).WF where
  root := rfl
  parent j _ h0 := by simp only [Skel.parent, chain, h0, if_false]; omega
  inside i hi := by simp only [chain] at hi ⊢; omega
  group i hi k hk := by
    simp only [Skel.InGroup, Skel.parent, chain] at hi hk ⊢
    by_cases h0 : k = 0
    · subst h0; simp; omega
    · simp only [h0, if_false]; omega

/-- A root with two children, the first of which has a child. -/
def tree : Skel := ⟨4, fun j => [0, 1, 1, 3].getD j 0, fun j => [4, 2, 1, 1].getD j 0⟩

theorem tree_wf : tree.WF where
  root := rfl
  parent := by decide
  inside := by decide
  group := by decide

/-- The root turns half a turn about the `z` axis; joint 1 sits two units along the `x` axis of its
parent. -/
def armPose (i : ℕ) : Motor ℤ :=
  if i = 0 then ⟨⟨0, 0, 0, 1⟩, ⟨0, 0, 0, 0⟩⟩ else ⟨⟨1, 0, 0, 0⟩, ⟨0, -1, 0, 0⟩⟩

/-- C77: the arm does not turn with the root.  Joint 1 ought to be at `(-2, 0, 0)` and is at
`(2, 0, 0)`. -/
theorem C77_order_fails :
    animate (chain 2) (Point.mk3 0 0 0) armPose 1 = Point.mk3 2 0 0 ∧
    animateReverse (chain 2) (Point.mk3 0 0 0) armPose 1 = Point.mk3 (-2) 0 0 ∧
    ((armPose 0).mulMotor (armPose 1)).onPoint (Point.mk3 0 0 0) = Point.mk3 (-2) 0 0 := by
  decide +kernel

/-- C77 on the tree: the second child is not moved by the first, the grandchild is. -/
example (w : Point F) (pose : ℕ → Motor F) :
    animate tree w pose 3 = (pose 3).onPoint ((pose 0).onPoint w) ∧
    animate tree w pose 2 = (pose 2).onPoint ((pose 1).onPoint ((pose 0).onPoint w)) := ⟨rfl, rfl⟩

/-- C77: the group sizes as stored, in a `uint8_t` (ga_skeletal_animation.md:24). -/
def Skel.stored (s : Skel) : Skel := { s with groupSize := fun i => s.groupSize i % 256 }

theorem Skel.WF.groupSize_root {s : Skel} (h : s.WF) (hs : 0 < s.size) : s.groupSize 0 = s.size := by
  have key : ∀ k < s.size, s.InGroup 0 k := by
    intro k
    induction k using Nat.strong_induction_on with
    | _ k ih =>
      intro hk
      refine (h.group 0 hs k hk).2 ?_
      by_cases h0 : k = 0
      · exact Or.inl h0
      · have hp := h.parent k hk h0
        exact Or.inr ⟨h0, ih _ hp (by omega)⟩
  have h1 := h.inside 0 hs
  have h2 := (key (s.size - 1) (by omega)).2
  omega

/-- C77: in a skeleton of 256 joints the group size of the root is stored as 0, and the motor of the
root moves nothing. -/
theorem C77_uint8_fails (s : Skel) (h : s.WF) (hs : s.size = 256) (w : Point F) (pose : ℕ → Motor F) :
    animate s.stored w pose 0 = w ∧ animate s w pose 0 = (pose 0).onPoint w := by
  refine ⟨?_, (C77_parent s h w pose (by omega)).1⟩
  have hg : s.stored.groupSize 0 = 0 := by
    simp [Skel.stored, h.groupSize_root (by omega), hs]
  rw [animate, foldl_applyGroup]
  have : (List.range s.stored.size).filter (s.stored.InGroup · 0) = [] := by
    rw [List.filter_eq_nil_iff]
    intro i _ hi
    have hi := of_decide_eq_true hi
    have : i = 0 := by have := hi.1; omega
    subst this
    have := hi.2
    omega
  rw [this]; rfl

/-- C77: below 256 joints nothing is lost. -/
theorem C77_uint8_partial (s : Skel) (h : s.WF) (hs : s.size < 256) (w : Point F) (pose : ℕ → Motor F) :
    ∀ k < s.size, animate s.stored w pose k = animate s w pose k := by
  intro k _
  rw [animate, animate, foldl_applyGroup, foldl_applyGroup]
  congr 1
  apply List.filter_congr
  intro i hi
  have hi : i < s.size := List.mem_range.1 hi
  have := h.inside i hi
  refine decide_eq_decide.2 ?_
  simp only [Skel.InGroup, Skel.stored]
  rw [Nat.mod_eq_of_lt (by omega)]

/-- The second loop of `animate_keyframe` on memory: motors in two slots each from `poses` on, positions
from `pos` on. -/
def animateMem (s : Skel) (poses pos : ℕ) : List ℕ → (ℕ → V4 F) → Mem.Outcome F
  | [], mem => .ok mem
  | i :: l, mem =>
    match Mem.run (Motor.onPoints (poses + 2 * i) (pos + i) (pos + i) (s.groupSize i)) mem with
    | .ub => .ub
    | .ok mem => animateMem s poses pos l mem

/-- C77: the calls of `animate_keyframe` pass the same array as input and output, which `__restrict`
forbids: the behaviour is undefined for every skeleton that is not empty. -/
theorem C77_in_place_fails (s : Skel) (h : s.WF) (hs : 0 < s.size) (poses pos : ℕ) (mem : ℕ → V4 F) :
    animateMem s poses pos (List.range s.size) mem = .ub := by
  obtain ⟨n, hn⟩ : ∃ n, s.size = n + 1 := ⟨s.size - 1, by omega⟩
  rw [hn, List.range_succ_eq_map, animateMem,
    C41_motor_points_fails _ _ _ _ (by rw [h.groupSize_root hs]; exact hs)]

end Klein
