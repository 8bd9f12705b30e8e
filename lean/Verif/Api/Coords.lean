import Verif.Api.Embed
import Verif.Spec.Euclid

/-!
# Euclidean reading of the entities

A point of weight 1 stands for the Euclidean point with its coordinates (point.hpp:9-14), a plane
`a e1 + b e2 + c e3 + d e0` for the solutions of `a x + b y + c z + d = 0` (plane.hpp:17-20).
-/

namespace Klein
open Euclid
variable {K : Type} [CommRing K]

/-- The three coordinates of a point (its position if the weight is 1). -/
def Point.pos (p : Point K) : Vec3 K := ⟨p.x, p.y, p.z⟩

omit [CommRing K] in
theorem Point.ext_pos {a b : Point K} (hw : a.w = b.w) (hp : a.pos = b.pos) : a = b := by
  have hx := congrArg Vec3.x hp
  have hy := congrArg Vec3.y hp
  have hz := congrArg Vec3.z hp
  exact Point.ext (V4.ext hw hx hy hz)

/-- The weight-1 point at a position. -/
def Point.at (v : Vec3 K) : Point K := Point.mk3 v.x v.y v.z

/-- The normal of a plane. -/
def Plane.normal (p : Plane K) : Vec3 K := ⟨p.x, p.y, p.z⟩

/-- A Euclidean point lies on a plane. -/
def Plane.Has (p : Plane K) (v : Vec3 K) : Prop := OnPlane p.normal p.d v

/-- The components of a direction. -/
def Direction.vec (d : Direction K) : Vec3 K := ⟨d.x, d.y, d.z⟩

/-- The direction vector of a line, `(e23, e31, e12)`. -/
def Line.dir (l : Line K) : Vec3 K := ⟨l.e23, l.e31, l.e12⟩

/-- The moment of a line, `(e01, e02, e03)`. -/
def Line.mom (l : Line K) : Vec3 K := ⟨l.e01, l.e02, l.e03⟩

@[simp] theorem Point.at_pos (v : Vec3 K) : (Point.at v).pos = v := rfl
@[simp] theorem Point.at_w (v : Vec3 K) : (Point.at v).w = 1 := rfl
@[simp] theorem Point.smul_w (p : Point K) (k : K) : (p.smul k).w = p.w * k := rfl

theorem Point.smul_pos (p : Point K) (k : K) : (p.smul k).pos = k • p.pos := by
  apply Vec3.ext <;> simp only [Point.pos, kln, sse, smul_x, smul_y, smul_z] <;> ring

end Klein
