import Mathlib.Tactic.Ring

/-!
# Specification: elementary Euclidean geometry of 3-space

Vectors over a commutative ring, dot and cross product, squared distance, signed volume, incidence
with a plane given by its equation.  Nothing here refers to the model or to the algebra.
-/

namespace Euclid

/-- A point or vector of 3-space. -/
@[ext] structure Vec3 (K : Type) where
  x : K
  y : K
  z : K
  deriving DecidableEq, Repr

variable {K : Type} [CommRing K]

instance : Add (Vec3 K) := ⟨fun a b => ⟨a.x + b.x, a.y + b.y, a.z + b.z⟩⟩
instance : Sub (Vec3 K) := ⟨fun a b => ⟨a.x - b.x, a.y - b.y, a.z - b.z⟩⟩
instance : Neg (Vec3 K) := ⟨fun a => ⟨-a.x, -a.y, -a.z⟩⟩
instance : Zero (Vec3 K) := ⟨⟨0, 0, 0⟩⟩
instance : SMul K (Vec3 K) := ⟨fun k a => ⟨k * a.x, k * a.y, k * a.z⟩⟩

@[simp] theorem add_x (a b : Vec3 K) : (a + b).x = a.x + b.x := rfl
@[simp] theorem add_y (a b : Vec3 K) : (a + b).y = a.y + b.y := rfl
@[simp] theorem add_z (a b : Vec3 K) : (a + b).z = a.z + b.z := rfl
@[simp] theorem sub_x (a b : Vec3 K) : (a - b).x = a.x - b.x := rfl
@[simp] theorem sub_y (a b : Vec3 K) : (a - b).y = a.y - b.y := rfl
@[simp] theorem sub_z (a b : Vec3 K) : (a - b).z = a.z - b.z := rfl
@[simp] theorem neg_x (a : Vec3 K) : (-a).x = -a.x := rfl
@[simp] theorem neg_y (a : Vec3 K) : (-a).y = -a.y := rfl
@[simp] theorem neg_z (a : Vec3 K) : (-a).z = -a.z := rfl
@[simp] theorem zero_x : (0 : Vec3 K).x = 0 := rfl
@[simp] theorem zero_y : (0 : Vec3 K).y = 0 := rfl
@[simp] theorem zero_z : (0 : Vec3 K).z = 0 := rfl
@[simp] theorem smul_x (k : K) (a : Vec3 K) : (k • a).x = k * a.x := rfl
@[simp] theorem smul_y (k : K) (a : Vec3 K) : (k • a).y = k * a.y := rfl
@[simp] theorem smul_z (k : K) (a : Vec3 K) : (k • a).z = k * a.z := rfl

/-- Dot product. -/
def dot (a b : Vec3 K) : K := a.x * b.x + a.y * b.y + a.z * b.z

/-- Cross product. -/
def cross (a b : Vec3 K) : Vec3 K :=
  ⟨a.y * b.z - a.z * b.y, a.z * b.x - a.x * b.z, a.x * b.y - a.y * b.x⟩

/-- Squared Euclidean distance. -/
def sqDist (a b : Vec3 K) : K := dot (a - b) (a - b)

/-- Six times the signed volume of the tetrahedron `a b c d`. -/
def vol (a b c d : Vec3 K) : K := dot (b - a) (cross (c - a) (d - a))

/-- `p` satisfies the plane equation `n · p + d = 0`. -/
def OnPlane (n : Vec3 K) (d : K) (p : Vec3 K) : Prop := dot n p + d = 0

/-- `p` lies on the line through `a` with direction `v`. -/
def OnLine (a v p : Vec3 K) : Prop := ∃ t : K, p = a + t • v

end Euclid
