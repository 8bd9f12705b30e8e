import Verif.Kernels.InnerProduct
import Verif.Kernels.ExteriorProduct
import Verif.Kernels.GeometricProduct
import Verif.Kernels.Sandwich
import Verif.Kernels.Matrix

/-!
# The public classes

One structure per class of `/repo/public/klein`, with the same data members, and the member
functions that are straight-line lane arithmetic.  Mutating members (`normalize`, `invert`,
`operator+=`, ...) are modelled as functions returning the new value of `*this`.  Conversions from
`int` take the conversion function `static_cast<float>` as the argument `cast`.
-/

set_option linter.unusedVariables false

namespace Klein

variable {F : Type}

/-- plane.hpp:24-250, `p0_ = (e0, e1, e2, e3)`. -/
@[ext] structure Plane (F : Type) where
  p0 : V4 F
  deriving DecidableEq, Repr

/-- point.hpp:18-180, `p3_ = (e123, e032, e013, e021)`. -/
@[ext] structure Point (F : Type) where
  p3 : V4 F
  deriving DecidableEq, Repr

/-- direction.hpp:18-128, `p3_ = (e123, e032, e013, e021)` with `e123 = 0`. -/
@[ext] structure Direction (F : Type) where
  p3 : V4 F
  deriving DecidableEq, Repr

/-- line.hpp:25-131, `p2_ = (e0123, e01, e02, e03)`. -/
@[ext] structure IdealLine (F : Type) where
  p2 : V4 F
  deriving DecidableEq, Repr

/-- line.hpp:233-400, `p1_ = (1, e23, e31, e12)`. -/
@[ext] structure Branch (F : Type) where
  p1 : V4 F
  deriving DecidableEq, Repr

/-- line.hpp:479-738. -/
@[ext] structure Line (F : Type) where
  p1 : V4 F
  p2 : V4 F
  deriving DecidableEq, Repr

/-- rotor.hpp:65-443. -/
@[ext] structure Rotor (F : Type) where
  p1 : V4 F
  deriving DecidableEq, Repr

/-- translator.hpp:51-210; the scalar part 1 is implicit. -/
@[ext] structure Translator (F : Type) where
  p2 : V4 F
  deriving DecidableEq, Repr

/-- motor.hpp:80-526. -/
@[ext] structure Motor (F : Type) where
  p1 : V4 F
  p2 : V4 F
  deriving DecidableEq, Repr

/-- dual.hpp:12-55, `p + q e0123`. -/
@[ext] structure Dual (F : Type) where
  p : F
  q : F
  deriving DecidableEq, Repr

variable [Add F] [Sub F] [Mul F] [Neg F] [Zero F] [One F] [NatCast F]

/-- The sign mask `_mm_set_ps(-0.f, -0.f, -0.f, 0.f)`. -/
@[simp, sse] def flip_hi : SMask := ⟨false, true, true, true⟩

/-- The sign mask `_mm_set1_ps(-0.f)`. -/
@[simp, sse] def flip_all : SMask := ⟨true, true, true, true⟩

/-! ### plane -/
namespace Plane

/-- plane.hpp:35-37. -/
@[kln] def mk4 (a b c d : F) : Plane F := ⟨set_ps c b a d⟩

/-- plane.hpp:41-43 and 54-57, from four floats at increasing addresses. -/
@[kln] def load (data : V4 F) : Plane F := ⟨data⟩

/-- plane.hpp:65-74. -/
@[kln] def normalize [Div F] (hw : Hw F) (isa : Isa) (s : Plane F) : Plane F :=
  let inv_norm := rsqrt_nr1 hw (hi_dp_bc isa s.p0 s.p0)
  let inv_norm := match isa with
    | .sse41 => blend_ps inv_norm (set_ss 1) false false false true
    | .sse3 => add_ps inv_norm (set_ss 1)
  ⟨mul_ps inv_norm s.p0⟩

/-- plane.hpp:90-95. -/
@[kln] def norm [Div F] (hw : Hw F) (isa : Isa) (s : Plane F) : F :=
  (sqrt_nr1 hw (hi_dp isa s.p0 s.p0)).l0

/-- plane.hpp:97-102. -/
@[kln] def invert [Div F] (hw : Hw F) (isa : Isa) (s : Plane F) : Plane F :=
  let inv_norm := rsqrt_nr1 hw (hi_dp_bc isa s.p0 s.p0)
  let p0 := mul_ps inv_norm s.p0
  ⟨mul_ps inv_norm p0⟩

/-- plane.hpp:128-133 reflect a plane. -/
@[kln] def onPlane (s p : Plane F) : Plane F := ⟨sw00 s.p0 p.p0⟩

/-- plane.hpp:138-146 reflect a line. -/
@[kln] def onLine (s : Plane F) (l : Line F) : Line F :=
  let out := sw10 s.p0 l.p1
  let p2_tmp := sw20 s.p0 l.p2
  ⟨out.1, add_ps out.2 p2_tmp⟩

/-- plane.hpp:151-156 reflect a point. -/
@[kln] def onPoint (s : Plane F) (p : Point F) : Point F := ⟨sw30 s.p0 p.p3⟩

/-- plane.hpp:159-163. -/
@[kln] def addAssign (s b : Plane F) : Plane F := ⟨add_ps s.p0 b.p0⟩
/-- plane.hpp:166-170. -/
@[kln] def subAssign (s b : Plane F) : Plane F := ⟨sub_ps s.p0 b.p0⟩
/-- plane.hpp:173-177. -/
@[kln] def mulAssign (s : Plane F) (k : F) : Plane F := ⟨mul_ps s.p0 (set1_ps k)⟩
/-- plane.hpp:180-184. -/
@[kln] def mulAssignInt (cast : ℤ → F) (s : Plane F) (k : ℤ) : Plane F :=
  ⟨mul_ps s.p0 (set1_ps (cast k))⟩
/-- plane.hpp:187-191. -/
@[kln] def divAssign (hw : Hw F) (s : Plane F) (k : F) : Plane F :=
  ⟨mul_ps s.p0 (rcp_nr1 hw (set1_ps k))⟩
/-- plane.hpp:194-199. -/
@[kln] def divAssignInt (hw : Hw F) (cast : ℤ → F) (s : Plane F) (k : ℤ) : Plane F :=
  ⟨mul_ps s.p0 (rcp_nr1 hw (set1_ps (cast k)))⟩

/-- plane.hpp:201-211. -/
@[kln] def x (s : Plane F) : F := s.p0.l1
/-- plane.hpp:213-223. -/
@[kln] def y (s : Plane F) : F := s.p0.l2
/-- plane.hpp:225-235. -/
@[kln] def z (s : Plane F) : F := s.p0.l3
/-- plane.hpp:237-247. -/
@[kln] def d (s : Plane F) : F := s.p0.l0

/-- plane.hpp:253-258. -/
@[kln] def add (a b : Plane F) : Plane F := ⟨add_ps a.p0 b.p0⟩
/-- plane.hpp:261-266. -/
@[kln] def sub (a b : Plane F) : Plane F := ⟨sub_ps a.p0 b.p0⟩
/-- plane.hpp:269-280. -/
@[kln] def smul (p : Plane F) (s : F) : Plane F := ⟨mul_ps p.p0 (set1_ps s)⟩
/-- plane.hpp:283-292. -/
@[kln] def smulInt (cast : ℤ → F) (p : Plane F) (s : ℤ) : Plane F := smul p (cast s)
/-- plane.hpp:295-300. -/
@[kln] def sdiv (hw : Hw F) (p : Plane F) (s : F) : Plane F :=
  ⟨mul_ps p.p0 (rcp_nr1 hw (set1_ps s))⟩
/-- plane.hpp:303-306. -/
@[kln] def sdivInt (hw : Hw F) (cast : ℤ → F) (p : Plane F) (s : ℤ) : Plane F := sdiv hw p (cast s)
/-- plane.hpp:308-313, unary minus. -/
@[kln] def neg (p : Plane F) : Plane F := ⟨xor_ps p.p0 flip_hi⟩

end Plane

/-! ### point -/
namespace Point

/-- point.hpp:29-31. -/
@[kln] def mk3 (x y z : F) : Point F := ⟨set_ps z y x 1⟩

/-- point.hpp:46-49. -/
@[kln] def load (data : V4 F) : Point F := ⟨data⟩

/-- point.hpp:52-55: the four floats written at increasing addresses. -/
@[kln] def store (s : Point F) : V4 F := s.p3

/-- point.hpp:59-63. -/
@[kln] def normalize (hw : Hw F) (s : Point F) : Point F :=
  let tmp := rcp_nr1 hw (swz s.p3 0 0 0 0)
  ⟨mul_ps s.p3 tmp⟩

/-- point.hpp:73-78. -/
@[kln] def invert (hw : Hw F) (s : Point F) : Point F :=
  let inv_norm := rcp_nr1 hw (swz s.p3 0 0 0 0)
  let p3 := mul_ps inv_norm s.p3
  ⟨mul_ps inv_norm p3⟩

/-- point.hpp:87-97. -/
@[kln] def x (s : Point F) : F := s.p3.l1
/-- point.hpp:99-109. -/
@[kln] def y (s : Point F) : F := s.p3.l2
/-- point.hpp:111-121. -/
@[kln] def z (s : Point F) : F := s.p3.l3
/-- point.hpp:124-134. -/
@[kln] def w (s : Point F) : F := s.p3.l0

/-- point.hpp:137-141. -/
@[kln] def addAssign (s b : Point F) : Point F := ⟨add_ps s.p3 b.p3⟩
/-- point.hpp:144-148. -/
@[kln] def subAssign (s b : Point F) : Point F := ⟨sub_ps s.p3 b.p3⟩
/-- point.hpp:151-155. -/
@[kln] def mulAssign (s : Point F) (k : F) : Point F := ⟨mul_ps s.p3 (set1_ps k)⟩
/-- point.hpp:158-162. -/
@[kln] def mulAssignInt (cast : ℤ → F) (s : Point F) (k : ℤ) : Point F :=
  ⟨mul_ps s.p3 (set1_ps (cast k))⟩
/-- point.hpp:165-169. -/
@[kln] def divAssign (hw : Hw F) (s : Point F) (k : F) : Point F :=
  ⟨mul_ps s.p3 (rcp_nr1 hw (set1_ps k))⟩
/-- point.hpp:172-177. -/
@[kln] def divAssignInt (hw : Hw F) (cast : ℤ → F) (s : Point F) (k : ℤ) : Point F :=
  ⟨mul_ps s.p3 (rcp_nr1 hw (set1_ps (cast k)))⟩

/-- point.hpp:183-188. -/
@[kln] def add (a b : Point F) : Point F := ⟨add_ps a.p3 b.p3⟩
/-- point.hpp:191-196. -/
@[kln] def sub (a b : Point F) : Point F := ⟨sub_ps a.p3 b.p3⟩
/-- point.hpp:199-210. -/
@[kln] def smul (p : Point F) (s : F) : Point F := ⟨mul_ps p.p3 (set1_ps s)⟩
/-- point.hpp:213-222. -/
@[kln] def smulInt (cast : ℤ → F) (p : Point F) (s : ℤ) : Point F := smul p (cast s)
/-- point.hpp:225-230. -/
@[kln] def sdiv (hw : Hw F) (p : Point F) (s : F) : Point F :=
  ⟨mul_ps p.p3 (rcp_nr1 hw (set1_ps s))⟩
/-- point.hpp:233-236. -/
@[kln] def sdivInt (hw : Hw F) (cast : ℤ → F) (p : Point F) (s : ℤ) : Point F := sdiv hw p (cast s)
/-- point.hpp:239-242, unary minus. -/
@[kln] def neg (p : Point F) : Point F := ⟨xor_ps p.p3 flip_hi⟩
/-- point.hpp:245-249, reversion. -/
@[kln] def rev (p : Point F) : Point F := ⟨xor_ps p.p3 flip_all⟩

/-- point.hpp:254-265, `origin` converted to a point. -/
@[kln] def origin : Point F := ⟨set_ss 1⟩

end Point

/-! ### direction -/
namespace Direction

/-- direction.hpp:70-74. -/
@[kln] def normalize [Div F] (hw : Hw F) (isa : Isa) (s : Direction F) : Direction F :=
  let tmp := rsqrt_nr1 hw (hi_dp_bc isa s.p3 s.p3)
  ⟨mul_ps s.p3 tmp⟩

/-- direction.hpp:24-28. -/
@[kln] def mk3 [Div F] (hw : Hw F) (isa : Isa) (x y z : F) : Direction F :=
  normalize hw isa ⟨set_ps z y x 0⟩

/-- direction.hpp:36-44 (the assertion is only compiled under `KLEIN_VALIDATE`). -/
@[kln] def load (data : V4 F) : Direction F := ⟨data⟩

/-- direction.hpp:46-51. -/
@[kln] def x (s : Direction F) : F := s.p3.l1
/-- direction.hpp:53-58. -/
@[kln] def y (s : Direction F) : F := s.p3.l2
/-- direction.hpp:60-65. -/
@[kln] def z (s : Direction F) : F := s.p3.l3

/-- direction.hpp:85-89. -/
@[kln] def addAssign (s b : Direction F) : Direction F := ⟨add_ps s.p3 b.p3⟩
/-- direction.hpp:92-96. -/
@[kln] def subAssign (s b : Direction F) : Direction F := ⟨sub_ps s.p3 b.p3⟩
/-- direction.hpp:99-103. -/
@[kln] def mulAssign (s : Direction F) (k : F) : Direction F := ⟨mul_ps s.p3 (set1_ps k)⟩
/-- direction.hpp:106-110. -/
@[kln] def mulAssignInt (cast : ℤ → F) (s : Direction F) (k : ℤ) : Direction F :=
  ⟨mul_ps s.p3 (set1_ps (cast k))⟩
/-- direction.hpp:113-117. -/
@[kln] def divAssign (hw : Hw F) (s : Direction F) (k : F) : Direction F :=
  ⟨mul_ps s.p3 (rcp_nr1 hw (set1_ps k))⟩
/-- direction.hpp:120-125. -/
@[kln] def divAssignInt (hw : Hw F) (cast : ℤ → F) (s : Direction F) (k : ℤ) : Direction F :=
  ⟨mul_ps s.p3 (rcp_nr1 hw (set1_ps (cast k)))⟩
/-- direction.hpp:131-137. -/
@[kln] def add (a b : Direction F) : Direction F := ⟨add_ps a.p3 b.p3⟩
/-- direction.hpp:140-146. -/
@[kln] def sub (a b : Direction F) : Direction F := ⟨sub_ps a.p3 b.p3⟩
/-- direction.hpp:149-160. -/
@[kln] def smul (p : Direction F) (s : F) : Direction F := ⟨mul_ps p.p3 (set1_ps s)⟩
/-- direction.hpp:163-172. -/
@[kln] def smulInt (cast : ℤ → F) (p : Direction F) (s : ℤ) : Direction F := smul p (cast s)
/-- direction.hpp:175-180. -/
@[kln] def sdiv (hw : Hw F) (p : Direction F) (s : F) : Direction F :=
  ⟨mul_ps p.p3 (rcp_nr1 hw (set1_ps s))⟩
/-- direction.hpp:183-186. -/
@[kln] def sdivInt (hw : Hw F) (cast : ℤ → F) (p : Direction F) (s : ℤ) : Direction F :=
  sdiv hw p (cast s)
/-- direction.hpp:189-192. -/
@[kln] def neg (p : Direction F) : Direction F := ⟨xor_ps p.p3 flip_all⟩

end Direction

/-! ### ideal_line -/
namespace IdealLine

/-- line.hpp:30-32. -/
@[kln] def mk3 (a b c : F) : IdealLine F := ⟨set_ps c b a 0⟩
/-- line.hpp:38-44. -/
@[kln] def squared_ideal_norm (isa : Isa) (s : IdealLine F) : F := (hi_dp isa s.p2 s.p2).l0
/-- line.hpp:46-49. -/
@[kln] def ideal_norm (isa : Isa) (sqrt : F → F) (s : IdealLine F) : F :=
  sqrt (squared_ideal_norm isa s)
/-- line.hpp:52-56. -/
@[kln] def addAssign (s b : IdealLine F) : IdealLine F := ⟨add_ps s.p2 b.p2⟩
/-- line.hpp:59-63. -/
@[kln] def subAssign (s b : IdealLine F) : IdealLine F := ⟨sub_ps s.p2 b.p2⟩
/-- line.hpp:66-70. -/
@[kln] def mulAssign (s : IdealLine F) (k : F) : IdealLine F := ⟨mul_ps s.p2 (set1_ps k)⟩
/-- line.hpp:73-77. -/
@[kln] def mulAssignInt (cast : ℤ → F) (s : IdealLine F) (k : ℤ) : IdealLine F :=
  ⟨mul_ps s.p2 (set1_ps (cast k))⟩
/-- line.hpp:80-84. -/
@[kln] def divAssign (hw : Hw F) (s : IdealLine F) (k : F) : IdealLine F :=
  ⟨mul_ps s.p2 (rcp_nr1 hw (set1_ps k))⟩
/-- line.hpp:87-92. -/
@[kln] def divAssignInt (hw : Hw F) (cast : ℤ → F) (s : IdealLine F) (k : ℤ) : IdealLine F :=
  ⟨mul_ps s.p2 (rcp_nr1 hw (set1_ps (cast k)))⟩
/-- line.hpp:94-99. -/
@[kln] def e01 (s : IdealLine F) : F := s.p2.l1
/-- line.hpp:101-104. -/
@[kln] def e10 (s : IdealLine F) : F := -s.e01
/-- line.hpp:106-111. -/
@[kln] def e02 (s : IdealLine F) : F := s.p2.l2
/-- line.hpp:113-116. -/
@[kln] def e20 (s : IdealLine F) : F := -s.e02
/-- line.hpp:118-123. -/
@[kln] def e03 (s : IdealLine F) : F := s.p2.l3
/-- line.hpp:125-128. -/
@[kln] def e30 (s : IdealLine F) : F := -s.e03
/-- line.hpp:134-140. -/
@[kln] def add (a b : IdealLine F) : IdealLine F := ⟨add_ps a.p2 b.p2⟩
/-- line.hpp:143-149. -/
@[kln] def sub (a b : IdealLine F) : IdealLine F := ⟨sub_ps a.p2 b.p2⟩
/-- line.hpp:152-158, 169-173. -/
@[kln] def smul (p : IdealLine F) (s : F) : IdealLine F := ⟨mul_ps p.p2 (set1_ps s)⟩
/-- line.hpp:161-166, 176-179. -/
@[kln] def smulInt (cast : ℤ → F) (p : IdealLine F) (s : ℤ) : IdealLine F :=
  ⟨mul_ps p.p2 (set1_ps (cast s))⟩
/-- line.hpp:182-188. -/
@[kln] def sdiv (hw : Hw F) (p : IdealLine F) (s : F) : IdealLine F :=
  ⟨mul_ps p.p2 (rcp_nr1 hw (set1_ps s))⟩
/-- line.hpp:190-193. -/
@[kln] def sdivInt (hw : Hw F) (cast : ℤ → F) (p : IdealLine F) (s : ℤ) : IdealLine F :=
  sdiv hw p (cast s)
/-- line.hpp:196-199. -/
@[kln] def neg (p : IdealLine F) : IdealLine F := ⟨xor_ps p.p2 flip_all⟩
/-- line.hpp:202-206. -/
@[kln] def rev (p : IdealLine F) : IdealLine F := ⟨xor_ps p.p2 flip_hi⟩

end IdealLine

/-! ### branch -/
namespace Branch

/-- line.hpp:245-247. -/
@[kln] def mk3 (a b c : F) : Branch F := ⟨set_ps c b a 0⟩
/-- line.hpp:257-263. -/
@[kln] def squared_norm (isa : Isa) (s : Branch F) : F := (hi_dp isa s.p1 s.p1).l0
/-- line.hpp:266-269. -/
@[kln] def norm (isa : Isa) (sqrt : F → F) (s : Branch F) : F := sqrt (squared_norm isa s)
/-- line.hpp:271-275. -/
@[kln] def normalize [Div F] (hw : Hw F) (isa : Isa) (s : Branch F) : Branch F :=
  let inv_norm := rsqrt_nr1 hw (hi_dp_bc isa s.p1 s.p1)
  ⟨mul_ps s.p1 inv_norm⟩
/-- line.hpp:284-290. -/
@[kln] def invert [Div F] (hw : Hw F) (isa : Isa) (s : Branch F) : Branch F :=
  let inv_norm := rsqrt_nr1 hw (hi_dp_bc isa s.p1 s.p1)
  let p1 := mul_ps s.p1 inv_norm
  let p1 := mul_ps p1 inv_norm
  ⟨xor_ps p1 flip_hi⟩
/-- line.hpp:300-304. -/
@[kln] def addAssign (s b : Branch F) : Branch F := ⟨add_ps s.p1 b.p1⟩
/-- line.hpp:307-311. -/
@[kln] def subAssign (s b : Branch F) : Branch F := ⟨sub_ps s.p1 b.p1⟩
/-- line.hpp:314-318. -/
@[kln] def mulAssign (s : Branch F) (k : F) : Branch F := ⟨mul_ps s.p1 (set1_ps k)⟩
/-- line.hpp:321-325. -/
@[kln] def mulAssignInt (cast : ℤ → F) (s : Branch F) (k : ℤ) : Branch F :=
  ⟨mul_ps s.p1 (set1_ps (cast k))⟩
/-- line.hpp:328-332. -/
@[kln] def divAssign (hw : Hw F) (s : Branch F) (k : F) : Branch F :=
  ⟨mul_ps s.p1 (rcp_nr1 hw (set1_ps k))⟩
/-- line.hpp:335-340. -/
@[kln] def divAssignInt (hw : Hw F) (cast : ℤ → F) (s : Branch F) (k : ℤ) : Branch F :=
  ⟨mul_ps s.p1 (rcp_nr1 hw (set1_ps (cast k)))⟩
/-- line.hpp:343-346. -/
@[kln] def store (s : Branch F) : V4 F := s.p1
/-- line.hpp:348-353, `z` 360-363. -/
@[kln] def e12 (s : Branch F) : F := s.p1.l3
/-- line.hpp:355-358. -/
@[kln] def e21 (s : Branch F) : F := -s.e12
/-- line.hpp:365-370, `y` 377-380. -/
@[kln] def e31 (s : Branch F) : F := s.p1.l2
/-- line.hpp:372-375. -/
@[kln] def e13 (s : Branch F) : F := -s.e31
/-- line.hpp:382-387, `x` 394-397. -/
@[kln] def e23 (s : Branch F) : F := s.p1.l1
/-- line.hpp:389-392. -/
@[kln] def e32 (s : Branch F) : F := -s.e23
/-- line.hpp:403-408. -/
@[kln] def add (a b : Branch F) : Branch F := ⟨add_ps a.p1 b.p1⟩
/-- line.hpp:411-416. -/
@[kln] def sub (a b : Branch F) : Branch F := ⟨sub_ps a.p1 b.p1⟩
/-- line.hpp:419-424, 433-436. -/
@[kln] def smul (p : Branch F) (s : F) : Branch F := ⟨mul_ps p.p1 (set1_ps s)⟩
/-- line.hpp:427-430, 439-442. -/
@[kln] def smulInt (cast : ℤ → F) (p : Branch F) (s : ℤ) : Branch F := smul p (cast s)
/-- line.hpp:445-450. -/
@[kln] def sdiv (hw : Hw F) (p : Branch F) (s : F) : Branch F :=
  ⟨mul_ps p.p1 (rcp_nr1 hw (set1_ps s))⟩
/-- line.hpp:453-456. -/
@[kln] def sdivInt (hw : Hw F) (cast : ℤ → F) (p : Branch F) (s : ℤ) : Branch F :=
  sdiv hw p (cast s)
/-- line.hpp:459-462. -/
@[kln] def neg (p : Branch F) : Branch F := ⟨xor_ps p.p1 flip_all⟩
/-- line.hpp:465-469. -/
@[kln] def rev (p : Branch F) : Branch F := ⟨xor_ps p.p1 flip_hi⟩

end Branch

/-! ### line -/
namespace Line

/-- line.hpp:492-495: `a e01 + b e02 + c e03 + d e23 + e e31 + f e12`. -/
@[kln] def mk6 (a b c d e f : F) : Line F := ⟨set_ps f e d 0, set_ps c b a 0⟩
/-- line.hpp:502-505. -/
@[kln] def ofIdealLine (o : IdealLine F) : Line F := ⟨setzero_ps, o.p2⟩
/-- line.hpp:507-510. -/
@[kln] def ofBranch (o : Branch F) : Line F := ⟨o.p1, setzero_ps⟩
/-- line.hpp:523-529. -/
@[kln] def squared_norm (isa : Isa) (s : Line F) : F := (hi_dp isa s.p1 s.p1).l0
/-- line.hpp:514-517. -/
@[kln] def norm (isa : Isa) (sqrt : F → F) (s : Line F) : F := sqrt (squared_norm isa s)
/-- line.hpp:532-550. -/
@[kln] def normalize [Div F] (hw : Hw F) (isa : Isa) (x : Line F) : Line F :=
  let b2 := hi_dp_bc isa x.p1 x.p1
  let s := rsqrt_nr1 hw b2
  let bc := hi_dp_bc isa x.p1 x.p2
  let t := mul_ps (mul_ps bc (rcp_nr1 hw b2)) s
  let tmp := mul_ps x.p2 s
  let p2 := sub_ps tmp (mul_ps x.p1 t)
  let p1 := mul_ps x.p1 s
  ⟨p1, p2⟩
/-- line.hpp:560-581. -/
@[kln] def invert [Div F] (hw : Hw F) (isa : Isa) (x : Line F) : Line F :=
  let b2 := hi_dp_bc isa x.p1 x.p1
  let s := rsqrt_nr1 hw b2
  let bc := hi_dp_bc isa x.p1 x.p2
  let b2_inv := rcp_nr1 hw b2
  let t := mul_ps (mul_ps bc b2_inv) s
  let neg : SMask := flip_hi
  let st := mul_ps s t
  let st := mul_ps x.p1 st
  let p2 := sub_ps (mul_ps x.p2 b2_inv) (add_ps st st)
  let p2 := xor_ps p2 neg
  let p1 := xor_ps (mul_ps x.p1 b2_inv) neg
  ⟨p1, p2⟩
/-- line.hpp:613-618. -/
@[kln] def addAssign (s b : Line F) : Line F := ⟨add_ps s.p1 b.p1, add_ps s.p2 b.p2⟩
/-- line.hpp:621-626. -/
@[kln] def subAssign (s b : Line F) : Line F := ⟨sub_ps s.p1 b.p1, sub_ps s.p2 b.p2⟩
/-- line.hpp:629-635. -/
@[kln] def mulAssign (s : Line F) (k : F) : Line F :=
  ⟨mul_ps s.p1 (set1_ps k), mul_ps s.p2 (set1_ps k)⟩
/-- line.hpp:638-644. -/
@[kln] def mulAssignInt (cast : ℤ → F) (s : Line F) (k : ℤ) : Line F :=
  ⟨mul_ps s.p1 (set1_ps (cast k)), mul_ps s.p2 (set1_ps (cast k))⟩
/-- line.hpp:647-653. -/
@[kln] def divAssign (hw : Hw F) (s : Line F) (k : F) : Line F :=
  let vs := rcp_nr1 hw (set1_ps k)
  ⟨mul_ps s.p1 vs, mul_ps s.p2 vs⟩
/-- line.hpp:656-662. -/
@[kln] def divAssignInt (hw : Hw F) (cast : ℤ → F) (s : Line F) (k : ℤ) : Line F :=
  let vs := rcp_nr1 hw (set1_ps (cast k))
  ⟨mul_ps s.p1 vs, mul_ps s.p2 vs⟩
/-- line.hpp:664-669. -/
@[kln] def e12 (s : Line F) : F := s.p1.l3
/-- line.hpp:671-674. -/
@[kln] def e21 (s : Line F) : F := -s.e12
/-- line.hpp:676-681. -/
@[kln] def e31 (s : Line F) : F := s.p1.l2
/-- line.hpp:683-686. -/
@[kln] def e13 (s : Line F) : F := -s.e31
/-- line.hpp:688-693. -/
@[kln] def e23 (s : Line F) : F := s.p1.l1
/-- line.hpp:695-698. -/
@[kln] def e32 (s : Line F) : F := -s.e23
/-- line.hpp:700-705. -/
@[kln] def e01 (s : Line F) : F := s.p2.l1
/-- line.hpp:707-710. -/
@[kln] def e10 (s : Line F) : F := -s.e01
/-- line.hpp:712-717. -/
@[kln] def e02 (s : Line F) : F := s.p2.l2
/-- line.hpp:719-722. -/
@[kln] def e20 (s : Line F) : F := -s.e02
/-- line.hpp:724-729. -/
@[kln] def e03 (s : Line F) : F := s.p2.l3
/-- line.hpp:731-734. -/
@[kln] def e30 (s : Line F) : F := -s.e03
/-- line.hpp:741-747. -/
@[kln] def add (a b : Line F) : Line F := ⟨add_ps a.p1 b.p1, add_ps a.p2 b.p2⟩
/-- line.hpp:750-756. -/
@[kln] def sub (a b : Line F) : Line F := ⟨sub_ps a.p1 b.p1, sub_ps a.p2 b.p2⟩
/-- line.hpp:759-766, 775-778. -/
@[kln] def smul (l : Line F) (s : F) : Line F :=
  let vs := set1_ps s
  ⟨mul_ps l.p1 vs, mul_ps l.p2 vs⟩
/-- line.hpp:769-772, 781-784. -/
@[kln] def smulInt (cast : ℤ → F) (l : Line F) (s : ℤ) : Line F := smul l (cast s)
/-- line.hpp:787-794. -/
@[kln] def sdiv (hw : Hw F) (l : Line F) (s : F) : Line F :=
  let vs := rcp_nr1 hw (set1_ps s)
  ⟨mul_ps l.p1 vs, mul_ps l.p2 vs⟩
/-- line.hpp:797-800. -/
@[kln] def sdivInt (hw : Hw F) (cast : ℤ → F) (l : Line F) (s : ℤ) : Line F := sdiv hw l (cast s)
/-- line.hpp:803-807. -/
@[kln] def neg (l : Line F) : Line F := ⟨xor_ps l.p1 flip_all, xor_ps l.p2 flip_all⟩
/-- line.hpp:810-814. -/
@[kln] def rev (l : Line F) : Line F := ⟨xor_ps l.p1 flip_hi, xor_ps l.p2 flip_hi⟩

end Line

/-! ### rotor -/
namespace Rotor

/-- rotor.hpp:119-122. -/
@[kln] def load_normalized (data : V4 F) : Rotor F := ⟨data⟩
/-- rotor.hpp:125-130. -/
@[kln] def normalize [Div F] (hw : Hw F) (isa : Isa) (s : Rotor F) : Rotor F :=
  let inv_norm := rsqrt_nr1 hw (dp_bc isa s.p1 s.p1)
  ⟨mul_ps s.p1 inv_norm⟩
/-- rotor.hpp:140-146. -/
@[kln] def invert [Div F] (hw : Hw F) (isa : Isa) (s : Rotor F) : Rotor F :=
  let inv_norm := rsqrt_nr1 hw (hi_dp_bc isa s.p1 s.p1)
  let p1 := mul_ps s.p1 inv_norm
  let p1 := mul_ps p1 inv_norm
  ⟨xor_ps p1 flip_hi⟩
/-- rotor.hpp:247-252. -/
@[kln] def onPlane (isa : Isa) (s : Rotor F) (p : Plane F) : Plane F := ⟨sw012 isa s.p1 none p.p0⟩
/-- rotor.hpp:268-273. -/
@[kln] def onBranch (s : Rotor F) (b : Branch F) : Branch F := ⟨swMM_branch s.p1 b.p1⟩
/-- rotor.hpp:277-282. -/
@[kln] def onLine (s : Rotor F) (l : Line F) : Line F :=
  let r := swMM_line s.p1 none l.p1 l.p2
  ⟨r.1, r.2⟩
/-- rotor.hpp:300-306. -/
@[kln] def onPoint (isa : Isa) (s : Rotor F) (p : Point F) : Point F := ⟨sw012 isa s.p1 none p.p3⟩
/-- rotor.hpp:325-331. -/
@[kln] def onDirection (isa : Isa) (s : Rotor F) (d : Direction F) : Direction F :=
  ⟨sw012 isa s.p1 none d.p3⟩
/-- rotor.hpp:351-355. -/
@[kln] def addAssign (s b : Rotor F) : Rotor F := ⟨add_ps s.p1 b.p1⟩
/-- rotor.hpp:358-362. -/
@[kln] def subAssign (s b : Rotor F) : Rotor F := ⟨sub_ps s.p1 b.p1⟩
/-- rotor.hpp:365-369. -/
@[kln] def mulAssign (s : Rotor F) (k : F) : Rotor F := ⟨mul_ps s.p1 (set1_ps k)⟩
/-- rotor.hpp:372-376. -/
@[kln] def mulAssignInt (cast : ℤ → F) (s : Rotor F) (k : ℤ) : Rotor F :=
  ⟨mul_ps s.p1 (set1_ps (cast k))⟩
/-- rotor.hpp:379-383. -/
@[kln] def divAssign (hw : Hw F) (s : Rotor F) (k : F) : Rotor F :=
  ⟨mul_ps s.p1 (rcp_nr1 hw (set1_ps k))⟩
/-- rotor.hpp:386-391. -/
@[kln] def divAssignInt (hw : Hw F) (cast : ℤ → F) (s : Rotor F) (k : ℤ) : Rotor F :=
  ⟨mul_ps s.p1 (rcp_nr1 hw (set1_ps (cast k)))⟩
/-- rotor.hpp:394-397. -/
@[kln] def store (s : Rotor F) : V4 F := s.p1
/-- rotor.hpp:399-404. -/
@[kln] def scalar (s : Rotor F) : F := s.p1.l0
/-- rotor.hpp:406-411. -/
@[kln] def e12 (s : Rotor F) : F := s.p1.l3
/-- rotor.hpp:413-416. -/
@[kln] def e21 (s : Rotor F) : F := -s.e12
/-- rotor.hpp:418-423. -/
@[kln] def e31 (s : Rotor F) : F := s.p1.l2
/-- rotor.hpp:425-428. -/
@[kln] def e13 (s : Rotor F) : F := -s.e31
/-- rotor.hpp:430-435. -/
@[kln] def e23 (s : Rotor F) : F := s.p1.l1
/-- rotor.hpp:437-440. -/
@[kln] def e32 (s : Rotor F) : F := -s.e23
/-- rotor.hpp:446-451. -/
@[kln] def add (a b : Rotor F) : Rotor F := ⟨add_ps a.p1 b.p1⟩
/-- rotor.hpp:454-459. -/
@[kln] def sub (a b : Rotor F) : Rotor F := ⟨sub_ps a.p1 b.p1⟩
/-- rotor.hpp:462-467, 476-479. -/
@[kln] def smul (p : Rotor F) (s : F) : Rotor F := ⟨mul_ps p.p1 (set1_ps s)⟩
/-- rotor.hpp:470-473, 482-485. -/
@[kln] def smulInt (cast : ℤ → F) (p : Rotor F) (s : ℤ) : Rotor F := smul p (cast s)
/-- rotor.hpp:488-493. -/
@[kln] def sdiv (hw : Hw F) (p : Rotor F) (s : F) : Rotor F :=
  ⟨mul_ps p.p1 (rcp_nr1 hw (set1_ps s))⟩
/-- rotor.hpp:496-499. -/
@[kln] def sdivInt (hw : Hw F) (cast : ℤ → F) (p : Rotor F) (s : ℤ) : Rotor F := sdiv hw p (cast s)
/-- rotor.hpp:502-506. -/
@[kln] def rev (p : Rotor F) : Rotor F := ⟨xor_ps p.p1 flip_hi⟩
/-- rotor.hpp:509-512. -/
@[kln] def neg (p : Rotor F) : Rotor F := ⟨xor_ps p.p1 flip_all⟩

end Rotor

/-! ### translator -/
namespace Translator

/-- translator.hpp:76-79. -/
@[kln] def load_normalized (data : V4 F) : Translator F := ⟨data⟩
/-- translator.hpp:81-84. -/
@[kln] def invert (s : Translator F) : Translator F := ⟨xor_ps s.p2 flip_hi⟩
/-- translator.hpp:95-105. -/
@[kln] def onPlane (hw : Hw F) (isa : Isa) (s : Translator F) (p : Plane F) : Plane F :=
  let tmp := match isa with
    | .sse41 => blend_ps s.p2 (set_ss 1) false false false true
    | .sse3 => add_ps s.p2 (set_ss 1)
  ⟨sw02 hw isa p.p0 tmp⟩
/-- translator.hpp:109-114. -/
@[kln] def onLine (s : Translator F) (l : Line F) : Line F :=
  let r := swL2 l.p1 l.p2 s.p2
  ⟨r.1, r.2⟩
/-- translator.hpp:118-123. -/
@[kln] def onPoint (s : Translator F) (p : Point F) : Point F := ⟨sw32 p.p3 s.p2⟩
/-- translator.hpp:126-130. -/
@[kln] def addAssign (s b : Translator F) : Translator F := ⟨add_ps s.p2 b.p2⟩
/-- translator.hpp:133-137. -/
@[kln] def subAssign (s b : Translator F) : Translator F := ⟨sub_ps s.p2 b.p2⟩
/-- translator.hpp:140-144. -/
@[kln] def mulAssign (s : Translator F) (k : F) : Translator F := ⟨mul_ps s.p2 (set1_ps k)⟩
/-- translator.hpp:147-151. -/
@[kln] def mulAssignInt (cast : ℤ → F) (s : Translator F) (k : ℤ) : Translator F :=
  ⟨mul_ps s.p2 (set1_ps (cast k))⟩
/-- translator.hpp:154-158. -/
@[kln] def divAssign (hw : Hw F) (s : Translator F) (k : F) : Translator F :=
  ⟨mul_ps s.p2 (rcp_nr1 hw (set1_ps k))⟩
/-- translator.hpp:161-166. -/
@[kln] def divAssignInt (hw : Hw F) (cast : ℤ → F) (s : Translator F) (k : ℤ) : Translator F :=
  ⟨mul_ps s.p2 (rcp_nr1 hw (set1_ps (cast k)))⟩
/-- translator.hpp:168-171. -/
@[kln] def scalar (_s : Translator F) : F := 1
/-- translator.hpp:173-178. -/
@[kln] def e01 (s : Translator F) : F := s.p2.l1
/-- translator.hpp:180-183. -/
@[kln] def e10 (s : Translator F) : F := -s.e01
/-- translator.hpp:185-190. -/
@[kln] def e02 (s : Translator F) : F := s.p2.l2
/-- translator.hpp:192-195. -/
@[kln] def e20 (s : Translator F) : F := -s.e02
/-- translator.hpp:197-202. -/
@[kln] def e03 (s : Translator F) : F := s.p2.l3
/-- translator.hpp:204-207. -/
@[kln] def e30 (s : Translator F) : F := -s.e03
/-- translator.hpp:213-219. -/
@[kln] def add (a b : Translator F) : Translator F := ⟨add_ps a.p2 b.p2⟩
/-- translator.hpp:222-228. -/
@[kln] def sub (a b : Translator F) : Translator F := ⟨sub_ps a.p2 b.p2⟩
/-- translator.hpp:231-237, 248-252. -/
@[kln] def smul (p : Translator F) (s : F) : Translator F := ⟨mul_ps p.p2 (set1_ps s)⟩
/-- translator.hpp:240-245, 255-258. -/
@[kln] def smulInt (cast : ℤ → F) (p : Translator F) (s : ℤ) : Translator F :=
  ⟨mul_ps p.p2 (set1_ps (cast s))⟩
/-- translator.hpp:261-267. -/
@[kln] def sdiv (hw : Hw F) (p : Translator F) (s : F) : Translator F :=
  ⟨mul_ps p.p2 (rcp_nr1 hw (set1_ps s))⟩
/-- translator.hpp:270-273. -/
@[kln] def sdivInt (hw : Hw F) (cast : ℤ → F) (p : Translator F) (s : ℤ) : Translator F :=
  sdiv hw p (cast s)

end Translator

/-! ### motor -/
namespace Motor

/-- motor.hpp:91-94: `a + b e23 + c e31 + d e12 + e e01 + f e02 + g e03 + h e0123`. -/
@[kln] def mk8 (a b c d e f g h : F) : Motor F := ⟨set_ps d c b a, set_ps g f e h⟩
/-- motor.hpp:111-114. -/
@[kln] def ofRotor (r : Rotor F) : Motor F := ⟨r.p1, setzero_ps⟩
/-- motor.hpp:116-119. -/
@[kln] def ofTranslator (t : Translator F) : Motor F := ⟨set_ss 1, t.p2⟩
/-- motor.hpp:121-126, `operator=(rotor)`. -/
@[kln] def assignRotor (_s : Motor F) (r : Rotor F) : Motor F := ⟨r.p1, setzero_ps⟩
/-- motor.hpp:128-133, `operator=(translator)`. -/
@[kln] def assignTranslator (_s : Motor F) (t : Translator F) : Motor F := ⟨setzero_ps, t.p2⟩
/-- motor.hpp:137-143, from eight floats at increasing addresses. -/
@[kln] def load (lo hi : V4 F) : Motor F := ⟨lo, hi⟩
/-- motor.hpp:146-179. -/
@[kln] def normalize [Div F] (hw : Hw F) (isa : Isa) (x : Motor F) : Motor F :=
  let b2 := dp_bc isa x.p1 x.p1
  let s := rsqrt_nr1 hw b2
  let bc := dp_bc isa (xor_ps x.p1 flip_ss) x.p2
  let t := mul_ps (mul_ps bc (rcp_nr1 hw b2)) s
  let tmp := mul_ps x.p2 s
  let p2 := sub_ps tmp (xor_ps (mul_ps x.p1 t) flip_ss)
  let p1 := mul_ps x.p1 s
  ⟨p1, p2⟩
/-- motor.hpp:189-211. -/
@[kln] def invert [Div F] (hw : Hw F) (isa : Isa) (x : Motor F) : Motor F :=
  let b2 := dp_bc isa x.p1 x.p1
  let s := rsqrt_nr1 hw b2
  let bc := dp_bc isa (xor_ps x.p1 flip_ss) x.p2
  let b2_inv := rcp_nr1 hw b2
  let t := mul_ps (mul_ps bc b2_inv) s
  let neg : SMask := flip_hi
  let st := mul_ps s t
  let st := mul_ps x.p1 st
  let p2 := sub_ps (mul_ps x.p2 b2_inv) (xor_ps (add_ps st st) flip_ss)
  let p2 := xor_ps p2 neg
  let p1 := xor_ps (mul_ps x.p1 b2_inv) neg
  ⟨p1, p2⟩
/-- motor.hpp:279-284. -/
@[kln] def onPlane (isa : Isa) (s : Motor F) (p : Plane F) : Plane F :=
  ⟨sw012 isa s.p1 (some s.p2) p.p0⟩
/-- motor.hpp:302-307. -/
@[kln] def onLine (s : Motor F) (l : Line F) : Line F :=
  let r := swMM_line s.p1 (some s.p2) l.p1 l.p2
  ⟨r.1, r.2⟩
/-- motor.hpp:325-330. -/
@[kln] def onPoint (s : Motor F) (p : Point F) : Point F := ⟨sw312 s.p1 (some s.p2) p.p3⟩
/-- motor.hpp:348-353. -/
@[kln] def onOrigin (s : Motor F) : Point F := ⟨swo12 s.p1 s.p2⟩
/-- motor.hpp:360-365. -/
@[kln] def onDirection (s : Motor F) (d : Direction F) : Direction F := ⟨sw312 s.p1 none d.p3⟩
/-- motor.hpp:387-392. -/
@[kln] def addAssign (s b : Motor F) : Motor F := ⟨add_ps s.p1 b.p1, add_ps s.p2 b.p2⟩
/-- motor.hpp:395-400. -/
@[kln] def subAssign (s b : Motor F) : Motor F := ⟨sub_ps s.p1 b.p1, sub_ps s.p2 b.p2⟩
/-- motor.hpp:403-409. -/
@[kln] def mulAssign (s : Motor F) (k : F) : Motor F :=
  ⟨mul_ps s.p1 (set1_ps k), mul_ps s.p2 (set1_ps k)⟩
/-- motor.hpp:412-418. -/
@[kln] def mulAssignInt (cast : ℤ → F) (s : Motor F) (k : ℤ) : Motor F :=
  ⟨mul_ps s.p1 (set1_ps (cast k)), mul_ps s.p2 (set1_ps (cast k))⟩
/-- motor.hpp:421-427. -/
@[kln] def divAssign (hw : Hw F) (s : Motor F) (k : F) : Motor F :=
  let vs := rcp_nr1 hw (set1_ps k)
  ⟨mul_ps s.p1 vs, mul_ps s.p2 vs⟩
/-- motor.hpp:430-436. -/
@[kln] def divAssignInt (hw : Hw F) (cast : ℤ → F) (s : Motor F) (k : ℤ) : Motor F :=
  let vs := rcp_nr1 hw (set1_ps (cast k))
  ⟨mul_ps s.p1 vs, mul_ps s.p2 vs⟩
/-- motor.hpp:438-443. -/
@[kln] def scalar (s : Motor F) : F := s.p1.l0
/-- motor.hpp:445-450. -/
@[kln] def e12 (s : Motor F) : F := s.p1.l3
/-- motor.hpp:452-455. -/
@[kln] def e21 (s : Motor F) : F := -s.e12
/-- motor.hpp:457-462. -/
@[kln] def e31 (s : Motor F) : F := s.p1.l2
/-- motor.hpp:464-467. -/
@[kln] def e13 (s : Motor F) : F := -s.e31
/-- motor.hpp:469-474. -/
@[kln] def e23 (s : Motor F) : F := s.p1.l1
/-- motor.hpp:476-479. -/
@[kln] def e32 (s : Motor F) : F := -s.e23
/-- motor.hpp:481-486. -/
@[kln] def e01 (s : Motor F) : F := s.p2.l1
/-- motor.hpp:488-491. -/
@[kln] def e10 (s : Motor F) : F := -s.e01
/-- motor.hpp:493-498. -/
@[kln] def e02 (s : Motor F) : F := s.p2.l2
/-- motor.hpp:500-503. -/
@[kln] def e20 (s : Motor F) : F := -s.e02
/-- motor.hpp:505-510. -/
@[kln] def e03 (s : Motor F) : F := s.p2.l3
/-- motor.hpp:512-515. -/
@[kln] def e30 (s : Motor F) : F := -s.e03
/-- motor.hpp:517-522. -/
@[kln] def e0123 (s : Motor F) : F := s.p2.l0
/-- motor.hpp:529-535. -/
@[kln] def add (a b : Motor F) : Motor F := ⟨add_ps a.p1 b.p1, add_ps a.p2 b.p2⟩
/-- motor.hpp:538-544. -/
@[kln] def sub (a b : Motor F) : Motor F := ⟨sub_ps a.p1 b.p1, sub_ps a.p2 b.p2⟩
/-- motor.hpp:547-554, 563-566. -/
@[kln] def smul (l : Motor F) (s : F) : Motor F :=
  let vs := set1_ps s
  ⟨mul_ps l.p1 vs, mul_ps l.p2 vs⟩
/-- motor.hpp:557-560, 569-572. -/
@[kln] def smulInt (cast : ℤ → F) (l : Motor F) (s : ℤ) : Motor F := smul l (cast s)
/-- motor.hpp:575-582. -/
@[kln] def sdiv (hw : Hw F) (l : Motor F) (s : F) : Motor F :=
  let vs := rcp_nr1 hw (set1_ps s)
  ⟨mul_ps l.p1 vs, mul_ps l.p2 vs⟩
/-- motor.hpp:585-588. -/
@[kln] def sdivInt (hw : Hw F) (cast : ℤ → F) (l : Motor F) (s : ℤ) : Motor F := sdiv hw l (cast s)
/-- motor.hpp:591-595. -/
@[kln] def neg (m : Motor F) : Motor F := ⟨xor_ps m.p1 flip_all, xor_ps m.p2 flip_all⟩
/-- motor.hpp:598-602. -/
@[kln] def rev (m : Motor F) : Motor F := ⟨xor_ps m.p1 flip_hi, xor_ps m.p2 flip_hi⟩

end Motor

/-! ### dual -/
namespace Dual

/-- dual.hpp:25-30, 57-60. -/
@[kln] def add (a b : Dual F) : Dual F := ⟨a.p + b.p, a.q + b.q⟩
/-- dual.hpp:32-37, 62-65. -/
@[kln] def sub (a b : Dual F) : Dual F := ⟨a.p - b.p, a.q - b.q⟩
/-- dual.hpp:39-44, 67-75. -/
@[kln] def smul (a : Dual F) (s : F) : Dual F := ⟨a.p * s, a.q * s⟩
/-- dual.hpp:46-51, 77-80 (true division, not `rcp_nr1`). -/
@[kln] def sdiv [Div F] (a : Dual F) (s : F) : Dual F := ⟨a.p / s, a.q / s⟩

end Dual

end Klein
