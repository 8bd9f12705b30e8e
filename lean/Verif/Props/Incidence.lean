import Verif.Props.Sqrt
import Verif.Props.MeetJoin

/-!
# C19: joins contain their operands; C20: meets are the common points

A line with direction `d` and moment `m` is read as the set of `v` with `v × d = m` (Plücker
coordinates).  That this reading is the right one is itself part of the theorems: the points so
described are exactly the common points of two planes (`C20_plane_meet_plane`), exactly the points
`P + t (Q - P)` of the line through two points (`C19_point_join_point`).
-/

set_option linter.unusedSimpArgs false
set_option linter.unusedSectionVars false

namespace Klein

open Euclid

/-- A Euclidean point lies on a line, in Plücker coordinates. -/
def Line.Has {K : Type} [CommRing K] (l : Line K) (v : Vec3 K) : Prop := cross v l.dir = l.mom

/-- A line that is the line of some points: direction orthogonal to moment. -/
def Line.Simple {K : Type} [CommRing K] (l : Line K) : Prop := dot l.dir l.mom = 0

section Lemmas
variable {K : Type} [Field K]

theorem Plane.has_eucl (p : Plane K) (P : Point K) (h : P.w ≠ 0) :
    p.Has P.eucl ↔ dot p.normal P.pos + p.d * P.w = 0 := by
  have e : dot p.normal P.pos + p.d * P.w = P.w * (dot p.normal P.eucl + p.d) := by
    simp only [dot, Point.eucl, smul_x, smul_y, smul_z]
    field_simp
  rw [Plane.Has, OnPlane, e, mul_eq_zero]
  simp [h]

theorem Line.has_eucl (l : Line K) (P : Point K) (h : P.w ≠ 0) :
    l.Has P.eucl ↔ cross P.pos l.dir = P.w • l.mom := by
  simp only [Line.Has, Vec3.ext_iff, cross, Point.eucl, smul_x, smul_y, smul_z]
  have k : ∀ a b c d m : K, P.w⁻¹ * a * b - P.w⁻¹ * c * d = m ↔ a * b - c * d = P.w * m := by
    intro a b c d m
    constructor
    · intro e; rw [← e]; field_simp
    · intro e
      have : P.w⁻¹ * a * b - P.w⁻¹ * c * d = P.w⁻¹ * (a * b - c * d) := by ring
      rw [this, e]; field_simp
  rw [k, k, k]

theorem Point.eucl_eq_iff (P Q : Point K) (hP : P.w ≠ 0) (hQ : Q.w ≠ 0) :
    P.eucl = Q.eucl ↔ P.w • Q.pos = Q.w • P.pos := by
  simp only [Vec3.ext_iff, Point.eucl, smul_x, smul_y, smul_z]
  have k : ∀ a b : K, P.w⁻¹ * a = Q.w⁻¹ * b ↔ P.w * b = Q.w * a := by
    intro a b
    constructor
    · intro e; field_simp at e; linear_combination -e
    · intro e; field_simp; linear_combination -e
  rw [k, k, k]

theorem cross_eq_zero_parallel {a b : Vec3 K} (ha : dot a a ≠ 0) (h : cross a b = 0) :
    ∃ t : K, b = t • a := by
  refine ⟨dot a b / dot a a, ?_⟩
  simp only [Vec3.ext_iff, cross, zero_x, zero_y, zero_z] at h
  obtain ⟨h1, h2, h3⟩ := h
  apply Vec3.ext <;> simp only [smul_x, smul_y, smul_z] <;> field_simp <;> simp only [dot]
  · linear_combination a.z * h2 - a.y * h3
  · linear_combination a.x * h3 - a.z * h1
  · linear_combination a.y * h1 - a.x * h2

end Lemmas

/-! ### C20 -/
section Meet
variable {K : Type} [Field K]

/-- The coordinates of the meet of two planes. -/
theorem C20_meet_coords {K : Type} [CommRing K] (a b : Plane K) :
    (a.meetPlane b).dir = cross a.normal b.normal ∧
    (a.meetPlane b).mom = a.d • b.normal - b.d • a.normal ∧ (a.meetPlane b).Simple := by
  refine ⟨?_, ?_, ?_⟩
  · apply Vec3.ext <;> simp only [Line.dir, cross, Plane.normal, kln, sse] <;> ring
  · apply Vec3.ext <;> simp only [Line.mom, Plane.normal, kln, sse, sub_x, sub_y, sub_z, smul_x,
      smul_y, smul_z] <;> ring
  · simp only [Line.Simple, dot, Line.dir, Line.mom, kln, sse]; ring

/-- C20: if the planes are not parallel, the points of the line `a ^ b` are exactly the points on both
planes. -/
theorem C20_plane_meet_plane (a b : Plane K) (h : cross a.normal b.normal ≠ 0) (v : Vec3 K) :
    (a.meetPlane b).Has v ↔ a.Has v ∧ b.Has v := by
  obtain ⟨hd, hm, -⟩ := C20_meet_coords a b
  rw [Line.Has, hd, hm]
  have e : cross v (cross a.normal b.normal)
      = (dot b.normal v) • a.normal - (dot a.normal v) • b.normal := by
    apply Vec3.ext <;> simp only [cross, dot, sub_x, sub_y, sub_z, smul_x, smul_y, smul_z] <;> ring
  rw [e]
  simp only [Plane.Has, OnPlane]
  generalize dot a.normal v = α
  generalize dot b.normal v = β
  constructor
  · intro hv
    simp only [Vec3.ext_iff, sub_x, sub_y, sub_z, smul_x, smul_y, smul_z] at hv
    obtain ⟨v1, v2, v3⟩ := hv
    have hc : (cross a.normal b.normal).x ≠ 0 ∨ (cross a.normal b.normal).y ≠ 0 ∨
        (cross a.normal b.normal).z ≠ 0 := by
      by_contra hc
      push Not at hc
      exact h (Vec3.ext hc.1 hc.2.1 hc.2.2)
    have a0 : ∀ i, i = (cross a.normal b.normal).x ∨ i = (cross a.normal b.normal).y ∨
        i = (cross a.normal b.normal).z → (α + a.d) * i = 0 ∧ (β + b.d) * i = 0 := by
      rintro i (rfl | rfl | rfl) <;> simp only [cross] <;> constructor
      · linear_combination (a.normal.z) * v2 - (a.normal.y) * v3
      · linear_combination (b.normal.z) * v2 - (b.normal.y) * v3
      · linear_combination (a.normal.x) * v3 - (a.normal.z) * v1
      · linear_combination (b.normal.x) * v3 - (b.normal.z) * v1
      · linear_combination (a.normal.y) * v1 - (a.normal.x) * v2
      · linear_combination (b.normal.y) * v1 - (b.normal.x) * v2
    rcases hc with hc | hc | hc
    · obtain ⟨h1, h2⟩ := a0 _ (Or.inl rfl)
      exact ⟨(mul_eq_zero.1 h1).resolve_right hc, (mul_eq_zero.1 h2).resolve_right hc⟩
    · obtain ⟨h1, h2⟩ := a0 _ (Or.inr (Or.inl rfl))
      exact ⟨(mul_eq_zero.1 h1).resolve_right hc, (mul_eq_zero.1 h2).resolve_right hc⟩
    · obtain ⟨h1, h2⟩ := a0 _ (Or.inr (Or.inr rfl))
      exact ⟨(mul_eq_zero.1 h1).resolve_right hc, (mul_eq_zero.1 h2).resolve_right hc⟩
  · rintro ⟨ha, hb⟩
    have hα : α = -a.d := by linear_combination ha
    have hβ : β = -b.d := by linear_combination hb
    rw [hα, hβ]
    apply Vec3.ext <;> simp only [sub_x, sub_y, sub_z, smul_x, smul_y, smul_z] <;> ring

/-- C20, parallel planes: the meet is an ideal line (direction zero), and it vanishes altogether
exactly when the two planes have the same equation up to scale. -/
theorem C20_parallel_planes (a b : Plane K) (ha : dot a.normal a.normal ≠ 0)
    (h : cross a.normal b.normal = 0) :
    (a.meetPlane b).dir = 0 ∧
    ((a.meetPlane b).mom = 0 ↔ ∃ t : K, b.normal = t • a.normal ∧ b.d = t * a.d) := by
  obtain ⟨hd, hm, -⟩ := C20_meet_coords a b
  refine ⟨hd.trans h, ?_⟩
  rw [hm]
  obtain ⟨t, ht⟩ := cross_eq_zero_parallel ha h
  rw [ht]
  have hne : a.normal ≠ 0 := by
    intro h0; apply ha; rw [h0]; simp [dot]
  constructor
  · intro hz
    refine ⟨t, rfl, ?_⟩
    simp only [Vec3.ext_iff, sub_x, sub_y, sub_z, smul_x, smul_y, smul_z, zero_x, zero_y, zero_z] at hz
    obtain ⟨h1, h2, h3⟩ := hz
    have : (b.d - t * a.d) * dot a.normal a.normal = 0 := by
      simp only [dot]
      linear_combination -a.normal.x * h1 - a.normal.y * h2 - a.normal.z * h3
    have := (mul_eq_zero.1 this).resolve_right ha
    linear_combination this
  · rintro ⟨s, hs, hb⟩
    have hts : t = s := by
      have : (t - s) * dot a.normal a.normal = 0 := by
        simp only [Vec3.ext_iff, smul_x, smul_y, smul_z] at hs
        simp only [dot]
        linear_combination a.normal.x * hs.1 + a.normal.y * hs.2.1 + a.normal.z * hs.2.2
      have := (mul_eq_zero.1 this).resolve_right ha
      linear_combination this
    rw [hb, hts]
    apply Vec3.ext <;> simp only [sub_x, sub_y, sub_z, smul_x, smul_y, smul_z, zero_x, zero_y, zero_z] <;> ring

/-- C20: the points of a simple line with non-zero direction form the Euclidean line through
`(d × m)/(d·d)` with direction `d`. -/
theorem C20_line_points (l : Line K) (hs : l.Simple) (hd : dot l.dir l.dir ≠ 0) (v : Vec3 K) :
    l.Has v ↔ OnLine ((dot l.dir l.dir)⁻¹ • cross l.dir l.mom) l.dir v := by
  simp only [Line.Simple] at hs
  simp only [Line.Has, OnLine]
  generalize l.dir = d at *
  generalize l.mom = m at *
  constructor
  · intro h
    refine ⟨dot d v / dot d d, ?_⟩
    rw [← h]
    apply Vec3.ext <;> simp only [add_x, add_y, add_z, smul_x, smul_y, smul_z] <;> field_simp <;>
      simp only [dot, cross] <;> ring
  · rintro ⟨t, rfl⟩
    apply Vec3.ext <;>
      simp only [cross, add_x, add_y, add_z, smul_x, smul_y, smul_z] <;> field_simp <;>
      simp only [dot] at hs ⊢
    · linear_combination -d.x * hs
    · linear_combination -d.y * hs
    · linear_combination -d.z * hs

/-- The homogeneous coordinates of the meet of a plane and a line. -/
theorem C20_meet_line_coords {K : Type} [CommRing K] (isa : Isa) (p : Plane K) (l : Line K) :
    (p.meetLine isa l).w = dot p.normal l.dir ∧
    (p.meetLine isa l).pos = cross p.normal l.mom - p.d • l.dir ∧
    l.meetPlane isa p = p.meetLine isa l := by
  refine ⟨?_, ?_, ?_⟩
  · cases isa <;> simp only [dot, Line.dir, Plane.normal, kln, sse, cond_true, cond_false] <;> ring
  · cases isa <;> apply Vec3.ext <;> simp only [Point.pos, cross, Line.dir, Line.mom, Plane.normal, kln, sse,
      cond_true, cond_false, sub_x, sub_y, sub_z, smul_x, smul_y, smul_z] <;> ring
  · rfl

/-- C20: if the line is not parallel to the plane, `p ^ l` is the one point that is on both. -/
theorem C20_plane_meet_line (isa : Isa) (p : Plane K) (l : Line K) (hs : l.Simple)
    (h : dot p.normal l.dir ≠ 0) :
    (p.meetLine isa l).w ≠ 0 ∧ ∀ v : Vec3 K, v = (p.meetLine isa l).eucl ↔ p.Has v ∧ l.Has v := by
  obtain ⟨hw, hpos, -⟩ := C20_meet_line_coords isa p l
  have hw0 : (p.meetLine isa l).w ≠ 0 := by rwa [hw]
  refine ⟨hw0, fun v => ?_⟩
  simp only [Line.Simple] at hs
  constructor
  · rintro rfl
    rw [Plane.has_eucl _ _ hw0, Line.has_eucl _ _ hw0, hw, hpos]
    constructor
    · simp only [dot, cross, sub_x, sub_y, sub_z, smul_x, smul_y, smul_z]; ring
    · simp only [dot] at hs
      apply Vec3.ext <;> simp only [dot, cross, sub_x, sub_y, sub_z, smul_x, smul_y, smul_z]
      · linear_combination (-p.normal.x) * hs
      · linear_combination (-p.normal.y) * hs
      · linear_combination (-p.normal.z) * hs
  · rintro ⟨hp, hl⟩
    simp only [Plane.Has, OnPlane, Line.Has] at hp hl
    simp only [Vec3.ext_iff, cross] at hl
    obtain ⟨l1, l2, l3⟩ := hl
    have hd : p.d = -dot p.normal v := by linear_combination hp
    apply Vec3.ext <;> simp only [Point.eucl, hw, hpos, hd, smul_x, smul_y, smul_z, sub_x, sub_y,
      sub_z, cross] <;> field_simp <;> simp only [dot]
    · linear_combination p.normal.y * l3 - p.normal.z * l2
    · linear_combination p.normal.z * l1 - p.normal.x * l3
    · linear_combination p.normal.x * l2 - p.normal.y * l1

/-- C20, parallel case: the meet has weight zero, and it vanishes exactly when every point of the line
is on the plane. -/
theorem C20_plane_meet_line_parallel (isa : Isa) (p : Plane K) (l : Line K) (hs : l.Simple)
    (hd : dot l.dir l.dir ≠ 0) (h : dot p.normal l.dir = 0) :
    (p.meetLine isa l).w = 0 ∧
    ((p.meetLine isa l).pos = 0 ↔ ∀ v, l.Has v → p.Has v) := by
  obtain ⟨hw, hpos, -⟩ := C20_meet_line_coords isa p l
  refine ⟨hw.trans h, ?_⟩
  have key : ∀ v, l.Has v → (p.meetLine isa l).pos = -((dot p.normal v + p.d) • l.dir) := by
    intro v hv
    rw [hpos]
    simp only [Line.Has] at hv
    rw [← hv]
    simp only [dot] at h
    apply Vec3.ext <;> simp only [dot, cross, sub_x, sub_y, sub_z, smul_x, smul_y, smul_z, neg_x,
      neg_y, neg_z]
    · linear_combination v.x * h
    · linear_combination v.y * h
    · linear_combination v.z * h
  constructor
  · intro h0 v hv
    have e := key v hv
    rw [h0] at e
    have : (dot p.normal v + p.d) * dot l.dir l.dir = 0 := by
      simp only [Vec3.ext_iff, zero_x, zero_y, zero_z, neg_x, neg_y, neg_z, smul_x, smul_y, smul_z] at e
      obtain ⟨e1, e2, e3⟩ := e
      have : (dot p.normal v + p.d) * dot l.dir l.dir
        = (dot p.normal v + p.d) * l.dir.x * l.dir.x + (dot p.normal v + p.d) * l.dir.y * l.dir.y
          + (dot p.normal v + p.d) * l.dir.z * l.dir.z := by
        have : dot l.dir l.dir = l.dir.x * l.dir.x + l.dir.y * l.dir.y + l.dir.z * l.dir.z := rfl
        rw [this]; ring
      rw [this]
      linear_combination -l.dir.x * e1.symm - l.dir.y * e2.symm - l.dir.z * e3.symm
    exact (mul_eq_zero.1 this).resolve_right hd
  · intro hall
    have hv := (C20_line_points l hs hd ((dot l.dir l.dir)⁻¹ • cross l.dir l.mom)).2
      ⟨0, by apply Vec3.ext <;> simp⟩
    rw [key _ hv]
    have := hall _ hv
    simp only [Plane.Has, OnPlane] at this
    rw [this]
    apply Vec3.ext <;> simp

/-- C20: three planes with linearly independent normals meet in the one point common to all. -/
theorem C20_three_planes (isa : Isa) (a b c : Plane K)
    (h : dot c.normal (cross a.normal b.normal) ≠ 0) :
    let P := (a.meetPlane b).meetPlane isa c
    P.w ≠ 0 ∧ ∀ v : Vec3 K, v = P.eucl ↔ a.Has v ∧ b.Has v ∧ c.Has v := by
  intro P
  obtain ⟨hd, -, hs⟩ := C20_meet_coords a b
  have hab : cross a.normal b.normal ≠ 0 := by
    intro h0; apply h; rw [h0]; simp [dot]
  have h' : dot c.normal (a.meetPlane b).dir ≠ 0 := by rwa [hd]
  obtain ⟨hw, hall⟩ := C20_plane_meet_line isa c (a.meetPlane b) hs h'
  refine ⟨hw, fun v => ?_⟩
  rw [← and_assoc, ← C20_plane_meet_plane a b hab v, and_comm]
  exact hall v

/-- test/test_ep.cpp-like witness: the planes x = 1, y = 2, z = 3 meet in (1, 2, 3). -/
example : (((Plane.mk4 1 0 0 (-1) : Plane ℚ).meetPlane (Plane.mk4 0 1 0 (-2))).meetPlane .sse3
      (Plane.mk4 0 0 1 (-3))).eucl = ⟨1, 2, 3⟩ ∧ dot (Plane.mk4 0 0 1 (-3) : Plane ℚ).normal
      (cross (Plane.mk4 1 0 0 (-1) : Plane ℚ).normal (Plane.mk4 0 1 0 (-2) : Plane ℚ).normal) ≠ 0 := by
  refine ⟨?_, ?_⟩
  · apply Vec3.ext <;> simp only [Point.eucl, Point.pos, kln, sse, cond_true, cond_false, smul_x, smul_y, smul_z] <;> norm_num
  · simp only [dot, cross, Plane.normal, kln, sse]; norm_num

end Meet

/-! ### C19 -/
section Join
variable {K : Type} [Field K]

theorem C19_join_coords {K : Type} [CommRing K] (P Q : Point K) :
    (P.joinPoint Q).dir = P.w • Q.pos - Q.w • P.pos ∧
    (P.joinPoint Q).mom = cross P.pos Q.pos ∧ (P.joinPoint Q).Simple := by
  refine ⟨?_, ?_, ?_⟩
  · apply Vec3.ext <;> simp only [Line.dir, Point.pos, kln, sse, sub_x, sub_y, sub_z, smul_x,
      smul_y, smul_z] <;> ring
  · apply Vec3.ext <;> simp only [Line.mom, Point.pos, cross, kln, sse] <;> ring
  · simp only [Line.Simple, dot, Line.dir, Line.mom, kln, sse]; ring

/-- C19: `P & Q` goes through both points. -/
theorem C19_point_join_point_contains (P Q : Point K) (hP : P.w ≠ 0) (hQ : Q.w ≠ 0) :
    (P.joinPoint Q).Has P.eucl ∧ (P.joinPoint Q).Has Q.eucl := by
  obtain ⟨hd, hm, -⟩ := C19_join_coords P Q
  rw [Line.has_eucl _ _ hP, Line.has_eucl _ _ hQ, hd, hm]
  constructor <;> apply Vec3.ext <;> simp only [cross, sub_x, sub_y, sub_z, smul_x, smul_y, smul_z] <;> ring

/-- C19: the points of `P & Q` are exactly the points `P + t (Q - P)`, for distinct points. -/
theorem C19_point_join_point (P Q : Point K) (hP : P.w ≠ 0) (hQ : Q.w ≠ 0)
    (hne : sqDist P.eucl Q.eucl ≠ 0) (v : Vec3 K) :
    (P.joinPoint Q).Has v ↔ OnLine P.eucl (Q.eucl - P.eucl) v := by
  obtain ⟨hd, hm, -⟩ := C19_join_coords P Q
  have eP : P.pos = P.w • P.eucl := by
    apply Vec3.ext <;> simp only [Point.eucl, smul_x, smul_y, smul_z] <;> field_simp
  have eQ : Q.pos = Q.w • Q.eucl := by
    apply Vec3.ext <;> simp only [Point.eucl, smul_x, smul_y, smul_z] <;> field_simp
  rw [Line.Has, hd, hm, eP, eQ]
  generalize P.eucl = p at *
  generalize Q.eucl = q at *
  generalize P.w = a at *
  generalize Q.w = b at *
  constructor
  · intro h
    have h2 : cross (q - p) (v - p) = 0 := by
      simp only [Vec3.ext_iff, cross, sub_x, sub_y, sub_z, smul_x, smul_y, smul_z] at h
      obtain ⟨h1, h2, h3⟩ := h
      have hab : a * b ≠ 0 := mul_ne_zero hP hQ
      apply Vec3.ext <;> simp only [cross, sub_x, sub_y, sub_z, zero_x, zero_y, zero_z] <;>
        apply mul_left_cancel₀ hab
      · linear_combination -h1
      · linear_combination -h2
      · linear_combination -h3
    have hne' : dot (q - p) (q - p) ≠ 0 := by
      have : dot (q - p) (q - p) = sqDist p q := by
        simp only [sqDist, dot, sub_x, sub_y, sub_z]; ring
      rwa [this]
    obtain ⟨t, ht⟩ := cross_eq_zero_parallel hne' h2
    refine ⟨t, ?_⟩
    rw [← ht]
    apply Vec3.ext <;> simp only [add_x, add_y, add_z, sub_x, sub_y, sub_z] <;> ring
  · rintro ⟨t, rfl⟩
    apply Vec3.ext <;> simp only [cross, add_x, add_y, add_z, sub_x, sub_y, sub_z, smul_x, smul_y,
      smul_z] <;> ring

/-- C19: `P & Q` vanishes exactly when the points coincide. -/
theorem C19_point_join_point_zero (P Q : Point K) (hP : P.w ≠ 0) (hQ : Q.w ≠ 0) :
    ((P.joinPoint Q).dir = 0 ∧ (P.joinPoint Q).mom = 0) ↔ P.eucl = Q.eucl := by
  obtain ⟨hd, hm, -⟩ := C19_join_coords P Q
  rw [Point.eucl_eq_iff _ _ hP hQ, hd, hm]
  constructor
  · rintro ⟨h, -⟩
    simp only [Vec3.ext_iff, sub_x, sub_y, sub_z, zero_x, zero_y, zero_z, sub_eq_zero] at h
    exact Vec3.ext h.1 h.2.1 h.2.2
  · intro h
    refine ⟨by rw [h]; apply Vec3.ext <;> simp, ?_⟩
    simp only [Vec3.ext_iff, smul_x, smul_y, smul_z] at h
    obtain ⟨h1, h2, h3⟩ := h
    apply Vec3.ext <;> simp only [cross, zero_x, zero_y, zero_z] <;> apply mul_left_cancel₀ hP
    · linear_combination P.pos.y * h3 - P.pos.z * h2
    · linear_combination P.pos.z * h1 - P.pos.x * h3
    · linear_combination P.pos.x * h2 - P.pos.y * h1

theorem C19_join_line_coords {K : Type} [CommRing K] (isa : Isa) (P : Point K) (l : Line K) :
    (P.joinLine isa l).normal = cross P.pos l.dir - P.w • l.mom ∧
    (P.joinLine isa l).d = dot P.pos l.mom ∧ l.joinPoint isa P = P.joinLine isa l := by
  refine ⟨?_, ?_, rfl⟩
  · cases isa <;> apply Vec3.ext <;> simp only [Plane.normal, Line.dir, Line.mom, cross, Point.pos, kln,
      sse, cond_true, cond_false, sub_x, sub_y, sub_z, smul_x, smul_y, smul_z] <;> ring
  · cases isa <;> simp only [dot, Line.mom, Point.pos, kln, sse, cond_true, cond_false] <;> ring

/-- C19: the plane `P & l` contains the point and every point of the line. -/
theorem C19_point_join_line_contains (isa : Isa) (P : Point K) (l : Line K) (hP : P.w ≠ 0) :
    (P.joinLine isa l).Has P.eucl ∧ ∀ v, l.Has v → (P.joinLine isa l).Has v := by
  obtain ⟨hn, hd, -⟩ := C19_join_line_coords isa P l
  refine ⟨?_, ?_⟩
  · rw [Plane.has_eucl _ _ hP, hn, hd]
    simp only [dot, cross, sub_x, sub_y, sub_z, smul_x, smul_y, smul_z]; ring
  · intro v hv
    simp only [Line.Has] at hv
    rw [Plane.Has, OnPlane, hn, hd, ← hv]
    simp only [dot, cross, sub_x, sub_y, sub_z, smul_x, smul_y, smul_z]; ring

/-- C19: the plane `P & l` vanishes exactly when the point is on the line. -/
theorem C19_point_join_line_zero (isa : Isa) (P : Point K) (l : Line K) (hP : P.w ≠ 0) :
    ((P.joinLine isa l).normal = 0 ∧ (P.joinLine isa l).d = 0) ↔ l.Has P.eucl := by
  obtain ⟨hn, hd, -⟩ := C19_join_line_coords isa P l
  rw [hn, hd, Line.has_eucl _ _ hP]
  constructor
  · rintro ⟨h, -⟩
    simp only [Vec3.ext_iff, sub_x, sub_y, sub_z, zero_x, zero_y, zero_z, sub_eq_zero] at h
    exact Vec3.ext h.1 h.2.1 h.2.2
  · intro h
    refine ⟨by rw [h]; apply Vec3.ext <;> simp, ?_⟩
    simp only [Vec3.ext_iff, smul_x, smul_y, smul_z, cross] at h
    obtain ⟨h1, h2, h3⟩ := h
    apply mul_left_cancel₀ hP
    simp only [dot]
    linear_combination -P.pos.x * h1 - P.pos.y * h2 - P.pos.z * h3

/-- C19: the plane `P & Q & R` contains the three points, and vanishes exactly when they are
collinear. -/
theorem C19_three_points (isa : Isa) (P Q R : Point K) (hP : P.w ≠ 0) (hQ : Q.w ≠ 0)
    (hR : R.w ≠ 0) :
    let π := (P.joinPoint Q).joinPoint isa R
    (π.Has P.eucl ∧ π.Has Q.eucl ∧ π.Has R.eucl) ∧
    ((π.normal = 0 ∧ π.d = 0) ↔ cross (Q.eucl - P.eucl) (R.eucl - P.eucl) = 0) := by
  intro π
  obtain ⟨hd, hm, hs⟩ := C19_join_coords P Q
  have h1 := C19_point_join_point_contains P Q hP hQ
  have h2 := C19_point_join_line_contains isa R (P.joinPoint Q) hR
  refine ⟨⟨h2.2 _ h1.1, h2.2 _ h1.2, h2.1⟩, ?_⟩
  have h3 := C19_point_join_line_zero isa R (P.joinPoint Q) hR
  have e : π = R.joinLine isa (P.joinPoint Q) := rfl
  rw [e, h3, Line.Has, hd, hm]
  have eP : P.pos = P.w • P.eucl := by
    apply Vec3.ext <;> simp only [Point.eucl, smul_x, smul_y, smul_z] <;> field_simp
  have eQ : Q.pos = Q.w • Q.eucl := by
    apply Vec3.ext <;> simp only [Point.eucl, smul_x, smul_y, smul_z] <;> field_simp
  rw [eP, eQ]
  generalize P.eucl = p at *
  generalize Q.eucl = q at *
  generalize R.eucl = r at *
  generalize P.w = a at *
  generalize Q.w = b at *
  have hab : a * b ≠ 0 := mul_ne_zero hP hQ
  constructor
  · intro h
    simp only [Vec3.ext_iff, cross, sub_x, sub_y, sub_z, smul_x, smul_y, smul_z] at h
    obtain ⟨h1, h2, h3⟩ := h
    apply Vec3.ext <;> simp only [cross, sub_x, sub_y, sub_z, zero_x, zero_y, zero_z] <;>
      apply mul_left_cancel₀ hab
    · linear_combination -h1
    · linear_combination -h2
    · linear_combination -h3
  · intro h
    simp only [Vec3.ext_iff, cross, sub_x, sub_y, sub_z, zero_x, zero_y, zero_z] at h
    obtain ⟨h1, h2, h3⟩ := h
    apply Vec3.ext <;> simp only [cross, sub_x, sub_y, sub_z, smul_x, smul_y, smul_z]
    · linear_combination -(a * b) * h1
    · linear_combination -(a * b) * h2
    · linear_combination -(a * b) * h3

/-- C19: the join of a point and a plane vanishes exactly when the point is on the plane. -/
theorem C19_point_join_plane_zero (isa : Isa) (P : Point K) (p : Plane K) (hP : P.w ≠ 0) :
    (P.joinPlane isa p = ⟨0, 0⟩ ↔ p.Has P.eucl) ∧ (p.joinPoint isa P = ⟨0, 0⟩ ↔ p.Has P.eucl) := by
  rw [Plane.has_eucl _ _ hP]
  have e1 : P.joinPlane isa p = ⟨dot p.normal P.pos + p.d * P.w, 0⟩ := by
    cases isa <;> simp only [dot, Plane.normal, Point.pos, kln, sse, cond_true, cond_false, Dual.mk.injEq, and_true] <;> ring
  have e2 : p.joinPoint isa P = ⟨-(dot p.normal P.pos + p.d * P.w), 0⟩ := by
    cases isa <;> simp only [dot, Plane.normal, Point.pos, kln, sse, cond_true, cond_false, Dual.mk.injEq, and_true] <;> ring
  rw [e1, e2]
  simp only [Dual.mk.injEq, and_true, neg_eq_zero, and_self]

/-- The plane through (1,0,0), (0,1,0), (0,0,1) is x + y + z = 1 (up to sign). -/
example : (((Point.mk3 1 0 0 : Point ℤ).joinPoint (Point.mk3 0 1 0)).joinPoint .sse41 (Point.mk3 0 0 1))
    = Plane.mk4 (-1) (-1) (-1) 1 := by decide

end Join

end Klein
