import Verif.Props.Skeleton
import Verif.Props.Pose32

/-!
# C111: forward kinematics in binary32

`animate_keyframe` of docs/case_studies/ga_skeletal_animation.md (C77) with every operation rounded, in the
order of the document and in the opposite order, which gives the documented poses.  A joint is moved by
the motors of its ancestors and by its own, so that the bounds of C107 apply with the depth of the joint.
-/

namespace Klein

open F32 Products32 Drift32 Orbit32
open scoped Quaternion

namespace Kinematics32

section
variable {F : Type} [Add F] [Sub F] [Mul F] [Neg F] [Zero F] [One F] [NatCast F]

theorem orbit_congr {m m' : ℕ → Motor F} {v : Point F} {n : ℕ} (h : ∀ i < n, m i = m' i) : orbit m v n = orbit m' v n := by
  induction n with
  | zero => rfl
  | succ n ih =>
    show (m n).onPoint (orbit m v n) = (m' n).onPoint (orbit m' v n)
    rw [ih fun i hi => h i (Nat.lt_succ_of_lt hi), h n (Nat.lt_succ_self n)]

/-- The motors of a list applied one after the other. -/
theorem foldl_orbit (pose : ℕ → Motor F) (w : Point F) (l : List ℕ) :
    l.foldl (fun p i => (pose i).onPoint p) w = orbit (fun i => pose (l.getD i 0)) w l.length := by
  induction l using List.reverseRecOn with
  | nil => rfl
  | append_singleton l a ih =>
    rw [List.foldl_append, ih, List.length_append]
    show (pose a).onPoint _ = (pose ((l ++ [a]).getD l.length 0)).onPoint (orbit (fun i => pose ((l ++ [a]).getD i 0)) w l.length)
    rw [show (l ++ [a]).getD l.length 0 = a by simp, orbit_congr (m' := fun i => pose ((l ++ [a]).getD i 0)) fun i hi => ?_]
    rw [List.getD_eq_getElem?_getD, List.getD_eq_getElem?_getD, List.getElem?_append_left hi]

end

/-- The ancestors of joint `k`, root first, and `k` itself. -/
def path (s : Skel) (k : ℕ) : List ℕ := (List.range s.size).filter (s.InGroup · k)

/-- The number of motors that move joint `k`. -/
def depth (s : Skel) (k : ℕ) : ℕ := (path s k).length

section
variable {s : Skel}

theorem depth_root (h : s.WF) (hs : 0 < s.size) : depth s 0 = 1 := by
  rw [depth, path, h.filter_root hs]; rfl

theorem depth_step (h : s.WF) {k : ℕ} (hk : k < s.size) (h0 : k ≠ 0) : depth s k = depth s (s.parent k) + 1 := by
  rw [depth, path, h.filter_step hk h0, List.length_append]; rfl

theorem path_lt {k i : ℕ} (h : i ∈ path s k) : i < s.size := List.mem_range.1 (List.mem_of_mem_filter h)

/-- What the analysis asks: finite lanes, poses normalised to within the accuracy of `normalize` (C70), and a
length `L` of at least twice the distance of the world location plus four times the sum of the half
translations `t i` along the path to any joint. -/
structure Rig (s : Skel) (pose : ℕ → Motor F32) (t : ℕ → ℝ) (w : Point F32) (L : ℝ) : Prop where
  fin : ∀ i < s.size, Fin (pose i)
  unit : ∀ i < s.size, |‖q1 (pose i)‖ ^ 2 - 1| ≤ 1.5e-6
  trans : ∀ i < s.size, ‖q2 (pose i)‖ ≤ ‖q1 (pose i)‖ * t i
  t_nonneg : ∀ i, 0 ≤ t i
  finw : ∀ i, (w.p3.get i).isFinite = true
  weight : In2 (weight w) 19 19
  len : In2 L 20 20
  reach : ∀ k < s.size, 2 * (‖w.real.pure‖ + 2 * Orbit32.weight w * ((path s k).map t).sum) ≤ Orbit32.weight w * L
  deep : ∀ k < s.size, depth s k ≤ 16384

variable {pose : ℕ → Motor F32} {t : ℕ → ℝ} {w : Point F32} {L : ℝ}

theorem sum_getD (l : List ℕ) (t : ℕ → ℝ) : ∑ i ∈ Finset.range l.length, t (l.getD i 0) = (l.map t).sum := by
  induction l with
  | nil => rfl
  | cons a l ih =>
    rw [List.length_cons, Finset.sum_range_succ', List.map_cons, List.sum_cons, ← ih, add_comm]
    rfl

/-- The motors on the way to a joint, in any order. -/
theorem Rig.orbit (h : Rig s pose t w L) {k : ℕ} (hk : k < s.size) {l : List ℕ} (hl : l.Perm (path s k)) :
    Orbit (fun i => pose (l.getD i 0)) (fun i => t (l.getD i 0)) w L l.length := by
  have hm : ∀ i < l.length, l.getD i 0 < s.size := fun i hi => by
    rw [List.getD_eq_getElem?_getD, List.getElem?_eq_getElem hi, Option.getD_some]
    exact path_lt (hl.mem_iff.1 (List.getElem_mem hi))
  refine Orbit.of_unit (fun i hi => h.fin _ (hm i hi)) h.finw (fun i hi => h.unit _ (hm i hi)) h.weight h.len
    (fun i => h.t_nonneg _) (fun i hi => h.trans _ (hm i hi)) ?_ (hl.length_eq.trans_le (h.deep k hk))
  rw [sum_getD, (hl.map t).sum_eq]
  exact h.reach k hk

private theorem real_fold (l : List ℕ) :
    l.foldl (fun p i => (pose i).real.onPoint p) w.real = exact (fun i => pose (l.getD i 0)) w l.length :=
  foldl_orbit (fun i => (pose i).real) w.real l

private theorem place_any (h : Rig s pose t w L) {k : ℕ} (hk : k < s.size) {l : List ℕ} (hl : l.Perm (path s k)) :
    (∀ i, ((l.foldl (fun p i => (pose i).onPoint p) w).p3.get i).isFinite = true) ∧
    ‖(l.foldl (fun p i => (pose i).onPoint p) w).real.position -
      (l.foldl (fun p i => (pose i).real.onPoint p) w.real).position‖ ≤ 2.1e-5 * depth s k * L := by
  have ho := h.orbit hk hl
  have hn : l.length = depth s k := hl.length_eq
  have hN : l.length ≤ 16384 := hn.trans_le (h.deep k hk)
  rw [foldl_orbit, real_fold, ← hn]
  exact ⟨(C107_orbit ho le_rfl hN).1, C107_position ho le_rfl hN⟩

/-- C111: the joints computed in binary32 in the order of the document are finite and within `2.1e-5` of `L` per
joint on the way of the exact ones. -/
theorem C111_joint (h : Rig s pose t w L) {k : ℕ} (hk : k < s.size) :
    (∀ i, ((animate s w pose k).p3.get i).isFinite = true) ∧
    ‖(animate s w pose k).real.position - (animate s w.real (fun i => (pose i).real) k).position‖ ≤ 2.1e-5 * depth s k * L := by
  rw [animate, animate, foldl_applyGroup, foldl_applyGroup]
  exact place_any h hk (List.Perm.refl _)

/-- C111: the same in the opposite order. -/
theorem C111_joint_reverse (h : Rig s pose t w L) {k : ℕ} (hk : k < s.size) :
    (∀ i, ((animateReverse s w pose k).p3.get i).isFinite = true) ∧
    ‖(animateReverse s w pose k).real.position - (animateReverse s w.real (fun i => (pose i).real) k).position‖ ≤
      2.1e-5 * depth s k * L := by
  rw [animateReverse, animateReverse, foldl_applyGroup, foldl_applyGroup, List.filter_reverse]
  exact place_any h hk (List.reverse_perm _)

/-- C111: visiting the joints from the last to the first, the computed joints are close to where the
documented world poses put the world location. -/
theorem C111_world (h : Rig s pose t w L) (wf : s.WF) {W : ℕ → Motor ℝ} (hW0 : W 0 = (pose 0).real)
    (hW : ∀ k < s.size, k ≠ 0 → W k = (W (s.parent k)).mulMotor (pose k).real) {k : ℕ} (hk : k < s.size) :
    ‖(animateReverse s w pose k).real.position - ((W k).onPoint w.real).position‖ ≤ 2.1e-5 * depth s k * L := by
  rw [← C77_reverse_partial s wf w.real (fun i => (pose i).real) W hW0 hW k hk]
  exact (C111_joint_reverse h hk).2

/-! ### the lengths of the bones -/

private theorem fold_weight (hu : ∀ i < s.size, q1 (pose i) ≠ 0) {l : List ℕ} (hl : ∀ i ∈ l, i < s.size) {p : Point ℝ} (hp : p.p3.l0 ≠ 0) :
    (l.foldl (fun p i => (pose i).real.onPoint p) p).p3.l0 ≠ 0 := by
  induction l generalizing p with
  | nil => exact hp
  | cons a l ih =>
    refine ih (fun i hi => hl i (List.mem_cons_of_mem _ hi)) ?_
    rw [(C81_point_quat _ _).2]
    exact mul_ne_zero (pow_ne_zero 2 (norm_ne_zero_iff.2 (hu a (hl a List.mem_cons_self)))) hp

private theorem fold_distance (hu : ∀ i < s.size, q1 (pose i) ≠ 0) {l : List ℕ} (hl : ∀ i ∈ l, i < s.size) {p q : Point ℝ}
    (hp : p.p3.l0 ≠ 0) (hq : q.p3.l0 ≠ 0) :
    ‖(l.foldl (fun p i => (pose i).real.onPoint p) p).position - (l.foldl (fun p i => (pose i).real.onPoint p) q).position‖ =
      ‖p.position - q.position‖ := by
  induction l generalizing p q with
  | nil => rfl
  | cons a l ih =>
    have ha := hu a (hl a List.mem_cons_self)
    have hw : ∀ {x : Point ℝ}, x.p3.l0 ≠ 0 → ((pose a).real.onPoint x).p3.l0 ≠ 0 := fun hx => by
      rw [(C81_point_quat _ _).2]
      exact mul_ne_zero (pow_ne_zero 2 (norm_ne_zero_iff.2 ha)) hx
    rw [List.foldl_cons, List.foldl_cons, ih (fun i hi => hl i (List.mem_cons_of_mem _ hi)) (hw hp) (hw hq),
      Renorm32.position_place ha hp, Renorm32.position_place ha hq]
    exact Renorm32.place_distance (Renorm32.norm_unit ha) _ _

theorem Rig.ne (h : Rig s pose t w L) : ∀ i < s.size, q1 (pose i) ≠ 0 := fun i hi h0 => by
  have := h.unit i hi
  rw [h0, norm_zero] at this
  norm_num at this

/-- In exact arithmetic the length of a bone does not depend on the poses of the ancestors. -/
theorem bone_exact (h : Rig s pose t w L) (wf : s.WF) {k : ℕ} (hk : k < s.size) (h0 : k ≠ 0) :
    ‖(animateReverse s w.real (fun i => (pose i).real) k).position -
      (animateReverse s w.real (fun i => (pose i).real) (s.parent k)).position‖ =
      ‖((pose k).real.onPoint w.real).position - w.real.position‖ := by
  have hw0 : w.real.p3.l0 ≠ 0 := abs_pos.1 h.weight.pos
  rw [animateReverse, foldl_applyGroup, foldl_applyGroup, List.filter_reverse, List.filter_reverse, wf.filter_step hk h0,
    List.reverse_append, List.foldl_append]
  exact fold_distance h.ne (fun i hi => path_lt (List.mem_reverse.1 hi))
    (fold_weight h.ne (l := [k]) (fun i hi => by rw [List.mem_singleton.1 hi]; exact hk) hw0) hw0

/-- C111: a bone has the length its own pose gives it, whatever the poses of its ancestors, to within `4.2e-5` of
`L` per joint on the way. -/
theorem C111_bone (h : Rig s pose t w L) (wf : s.WF) {k : ℕ} (hk : k < s.size) (h0 : k ≠ 0) :
    |‖(animateReverse s w pose k).real.position - (animateReverse s w pose (s.parent k)).real.position‖ -
      ‖((pose k).real.onPoint w.real).position - w.real.position‖| ≤ 4.2e-5 * depth s k * L := by
  have hp := wf.parent k hk h0
  have k1 := (C111_joint_reverse h hk).2
  have k2 := (C111_joint_reverse h (hp.trans hk)).2
  rw [← bone_exact h wf hk h0]
  refine (abs_norm_sub_norm_le _ _).trans ?_
  rw [sub_sub_sub_comm]
  refine (norm_sub_le _ _).trans ((add_le_add k1 k2).trans ?_)
  have hd : (depth s (s.parent k) : ℝ) ≤ depth s k := by
    rw [depth_step wf hk h0]; push_cast; linarith
  have := mul_le_mul_of_nonneg_right hd h.len.pos.le
  norm_num
  linarith

end

/-! ### a concrete skeleton -/

/-- The four joints of the tree of C77, all with the motor of C91, moved from `(1, 0, 0)`. -/
theorem rig_tree : Rig tree (fun _ => sample) (fun _ => 1.01) start 17 := by
  refine ⟨fun _ _ => fin_sample, fun _ _ => unit_sample, fun _ _ => trans_sample, fun _ => by norm_num, by decide +kernel, ?_,
    ⟨by norm_num, by norm_num⟩, fun k hk => ?_, by decide⟩
  · rw [start_weight]; constructor <;> norm_num
  · rw [start_weight, List.map_const', List.sum_replicate]
    have h3 : (path tree k).length ≤ 3 := by revert k; decide
    have h3' : ((path tree k).length : ℝ) ≤ 3 := by exact_mod_cast h3
    have := start_norm
    rw [nsmul_eq_mul]
    norm_num
    linarith

/-- The tip of the longer limb of the tree, and the length of its last bone. -/
example : ‖(animateReverse tree start (fun _ => sample) 2).real.position -
      (animateReverse tree start.real (fun _ => sample.real) 2).position‖ ≤ 1.1e-3 ∧
    |‖(animateReverse tree start (fun _ => sample) 2).real.position - (animateReverse tree start (fun _ => sample) 1).real.position‖ -
      ‖(sample.real.onPoint start.real).position - start.real.position‖| ≤ 2.2e-3 := by
  have k1 := (C111_joint_reverse rig_tree (k := 2) (by decide)).2
  have k2 := C111_bone rig_tree tree_wf (k := 2) (by decide) (by decide)
  rw [show depth tree 2 = 3 by decide] at k1 k2
  norm_num at k1 k2 ⊢
  exact ⟨k1.trans (by norm_num), k2.trans (by norm_num)⟩

end Kinematics32
end Klein
