import Verif.Simd

/-!
# `/repo/glsl/klein.glsl`

The shader library, statement by statement.  A `vec4` has components `x y z w`; `v4 * v4`, `+`, `-`
are component-wise and `scalar * vec4` broadcasts, as in the GLSL specification (5.9), so the
register operations of `Verif/Simd` are reused (`x` is lane 0).  Compound assignments become
rebindings.  GLSL does not fix rounding (operations may be fused or have reduced precision), so
statements about these functions are in exact arithmetic.
-/

namespace Klein.Glsl

variable {F : Type}

/-! Swizzles (GLSL 5.5), the ones that occur. -/
section Swizzle
variable (v : V4 F)
@[kln] def _root_.Klein.V4.zyzw : V4 F := ⟨v.l2, v.l1, v.l2, v.l3⟩
@[kln] def _root_.Klein.V4.ywyz : V4 F := ⟨v.l1, v.l3, v.l1, v.l2⟩
@[kln] def _root_.Klein.V4.wzwy : V4 F := ⟨v.l3, v.l2, v.l3, v.l1⟩
@[kln] def _root_.Klein.V4.wwyz : V4 F := ⟨v.l3, v.l3, v.l1, v.l2⟩
@[kln] def _root_.Klein.V4.yzwy : V4 F := ⟨v.l1, v.l2, v.l3, v.l1⟩
@[kln] def _root_.Klein.V4.zxxx : V4 F := ⟨v.l2, v.l0, v.l0, v.l0⟩
@[kln] def _root_.Klein.V4.xzwy : V4 F := ⟨v.l0, v.l2, v.l3, v.l1⟩
@[kln] def _root_.Klein.V4.xwyz : V4 F := ⟨v.l0, v.l3, v.l1, v.l2⟩
@[kln] def _root_.Klein.V4.zwyz : V4 F := ⟨v.l2, v.l3, v.l1, v.l2⟩
@[kln] def _root_.Klein.V4.yyzw : V4 F := ⟨v.l1, v.l1, v.l2, v.l3⟩
@[kln] def _root_.Klein.V4.wxxx : V4 F := ⟨v.l3, v.l0, v.l0, v.l0⟩
@[kln] def _root_.Klein.V4.yxxx : V4 F := ⟨v.l1, v.l0, v.l0, v.l0⟩
@[kln] def _root_.Klein.V4.xxxx : V4 F := ⟨v.l0, v.l0, v.l0, v.l0⟩
end Swizzle

variable [Add F] [Sub F] [Mul F] [Neg F] [Zero F] [One F] [NatCast F]

/-- `t.x = -t.x`. -/
@[kln] def negX (t : V4 F) : V4 F := ⟨-t.l0, t.l1, t.l2, t.l3⟩

/-- `scalar * vec4`. -/
@[kln] def scl (k : F) (v : V4 F) : V4 F := mul_ps (set1_ps k) v

/-- GLSL 8.5 `dot`. -/
@[kln] def dot (a b : V4 F) : F := a.l0 * b.l0 + a.l1 * b.l1 + a.l2 * b.l2 + a.l3 * b.l3

/-- klein.glsl:44-56 `kln_mul(rotor, rotor)`. -/
@[kln] def mulRotor (a b : V4 F) : V4 F :=
  let c := scl a.l0 b
  let c := sub_ps c (mul_ps a.yzwy b.ywyz)
  let t := mul_ps a.zyzw b.zxxx
  let t := add_ps t (mul_ps a.wwyz b.wzwy)
  let t := negX t
  add_ps c t

/-- klein.glsl:58-64 `kln_mul(translator, translator)`. -/
@[kln] def mulTranslator (a b : V4 F) : V4 F := add_ps a b

/-- klein.glsl:66-93 `kln_mul(motor, motor)`. -/
@[kln] def mulMotor (a1 a2 b1 b2 : V4 F) : V4 F × V4 F :=
  let a_zyzw := a1.zyzw
  let a_ywyz := a1.ywyz
  let a_wzwy := a1.wzwy
  let c_wwyz := b1.wwyz
  let c_yzwy := b1.yzwy
  let c1 := scl a1.l0 b1
  let t := mul_ps a_ywyz c_yzwy
  let t := add_ps t (mul_ps a_zyzw b1.zxxx)
  let t := negX t
  let c1 := add_ps c1 t
  let c1 := sub_ps c1 (mul_ps a_wzwy c_wwyz)
  let c2 := scl a1.l0 b2
  let c2 := add_ps c2 (mul_ps a2 (set1_ps b1.l0))
  let c2 := add_ps c2 (mul_ps a_ywyz b2.yzwy)
  let c2 := add_ps c2 (mul_ps a2.ywyz c_yzwy)
  let t := mul_ps a_zyzw b2.zxxx
  let t := add_ps t (mul_ps a_wzwy b2.wwyz)
  let t := add_ps t (mul_ps a2.zxxx b1.zyzw)
  let t := add_ps t (mul_ps a2.wzwy c_wwyz)
  let t := negX t
  let c2 := sub_ps c2 t
  (c1, c2)

/-- klein.glsl:97-112 (= 123-138): the three coefficient vectors of the plane rotation. -/
@[kln] def planeCoef (r : V4 F) : V4 F × V4 F × V4 F :=
  let dc_scale : V4 F := ⟨1, (2 : ℕ), (2 : ℕ), (2 : ℕ)⟩
  let neg_low : V4 F := ⟨-1, 1, 1, 1⟩
  let t1 := mul_ps r.zxxx r.zwyz
  let t1 := add_ps t1 (mul_ps r.yzwy r.yyzw)
  let t1 := mul_ps t1 dc_scale
  let t2 := mul_ps r r.xwyz
  let t2 := sub_ps t2 (mul_ps (mul_ps r.wxxx r.wzwy) neg_low)
  let t2 := mul_ps t2 dc_scale
  let t3 := mul_ps r r
  let t3 := sub_ps t3 (mul_ps r.xwyz r.xwyz)
  let t3 := add_ps t3 (mul_ps r.xxxx r.xxxx)
  let t3 := sub_ps t3 (mul_ps r.xzwy r.xzwy)
  (t1, t2, t3)

/-- klein.glsl:95-119 `kln_apply(rotor, plane)`. -/
@[kln] def applyRotorPlane (r p : V4 F) : V4 F :=
  let t := planeCoef r
  let q := mul_ps t.1 p.xzwy
  let q := add_ps q (mul_ps t.2.1 p.xwyz)
  add_ps q (mul_ps t.2.2 p)

/-- klein.glsl:121-152 `kln_apply(motor, plane)`. -/
@[kln] def applyMotorPlane (m1 m2 p : V4 F) : V4 F :=
  let t := planeCoef m1
  let t4 := scl m1.l0 m2
  let t4 := add_ps t4 (mul_ps m1.xzwy m2.xwyz)
  let t4 := add_ps t4 (mul_ps m1 (set1_ps m2.l0))
  let t4 := sub_ps t4 (mul_ps m1.xwyz m2.xzwy)
  let t4 := mul_ps t4 ⟨0, (2 : ℕ), (2 : ℕ), (2 : ℕ)⟩
  let q := mul_ps t.1 p.xzwy
  let q := add_ps q (mul_ps t.2.1 p.xwyz)
  let q := add_ps q (mul_ps t.2.2 p)
  add_ps q ⟨dot t4 p, 0, 0, 0⟩

/-- klein.glsl:156-170 (= 182-196): the coefficient vectors of the point rotation. -/
@[kln] def pointCoef (r : V4 F) : V4 F × V4 F × V4 F :=
  let scale : V4 F := ⟨0, (2 : ℕ), (2 : ℕ), (2 : ℕ)⟩
  let t1 := mul_ps r r.xwyz
  let t1 := sub_ps t1 (scl r.l0 r.xzwy)
  let t1 := mul_ps t1 scale
  let t2 := scl r.l0 r.xwyz
  let t2 := add_ps t2 (mul_ps r.xzwy r)
  let t2 := mul_ps t2 scale
  let t3 := mul_ps r r
  let t3 := add_ps t3 (mul_ps r.yxxx r.yxxx)
  let t4 := mul_ps r.zwyz r.zwyz
  let t4 := add_ps t4 (mul_ps r.wzwy r.wzwy)
  let t3 := sub_ps t3 (mul_ps t4 ⟨-1, 1, 1, 1⟩)
  (t1, t2, t3)

/-- klein.glsl:154-178 `kln_apply(rotor, point)`. -/
@[kln] def applyRotorPoint (r p : V4 F) : V4 F :=
  let t := pointCoef r
  let q := mul_ps t.1 p.xwyz
  let q := add_ps q (mul_ps t.2.1 p.xzwy)
  add_ps q (mul_ps t.2.2 p)

/-- klein.glsl:180-212 `kln_apply(motor, point)`. -/
@[kln] def applyMotorPoint (m1 m2 p : V4 F) : V4 F :=
  let t := pointCoef m1
  let t4 := mul_ps m1.xzwy m2.xwyz
  let t4 := sub_ps t4 (scl m1.l0 m2)
  let t4 := sub_ps t4 (mul_ps m1.xwyz m2.xzwy)
  let t4 := sub_ps t4 (mul_ps m1 (set1_ps m2.l0))
  let t4 := mul_ps t4 ⟨0, (2 : ℕ), (2 : ℕ), (2 : ℕ)⟩
  let q := mul_ps t.1 p.xwyz
  let q := add_ps q (mul_ps t.2.1 p.xzwy)
  let q := add_ps q (mul_ps t.2.2 p)
  add_ps q (mul_ps t4 (set1_ps p.l0))

/-- klein.glsl:217-227 `kln_apply(motor)`: the image of the origin. -/
@[kln] def applyMotorOrigin (m1 m2 : V4 F) : V4 F :=
  let p := mul_ps m1 (set1_ps m2.l0)
  let p := add_ps p (scl m1.l0 m2)
  let p := add_ps p (mul_ps m1.xwyz m2.xzwy)
  let p := sub_ps (mul_ps m1.xzwy m2.xwyz) p
  let p := mul_ps p ⟨0, (2 : ℕ), (2 : ℕ), (2 : ℕ)⟩
  ⟨1, p.l1, p.l2, p.l3⟩

end Klein.Glsl
