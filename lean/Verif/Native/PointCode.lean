import Verif.Native.Scalars

/-!
# `Double` and `Add` of the native curves (generated by `tools/gopoint.py`)

A line-by-line translation of the straight-line bodies; `b` is the stored curve coefficient and `A` the base-field
arithmetic.  The lemmas follow the same lines.
-/

set_option maxRecDepth 20000
set_option linter.unusedVariables false

namespace Verif.Native

/-- The coordinates of an `EllipticPoint` (crypto/core/curves/native/point.go:41-47), as stored limbs. -/
structure EP where
  X : L4
  Y : L4
  Z : L4
deriving DecidableEq

/-- `k256PointArithmetic.Double` (crypto/core/curves/native/k256/point.go:279-321). -/
def K256.double (A : Arith) (b : L4) (arg : EP) : EP :=
  let v_yy := A.square arg.Y
  let v_zz := A.square arg.Z
  let v_xy2 := A.mul arg.X arg.Y
  let v_xy2 := A.add v_xy2 v_xy2
  let v_bzz := A.mul v_zz b
  let v_bzz3 := A.add v_bzz v_bzz
  let v_bzz3 := A.add v_bzz3 v_bzz
  let v_bzz9 := A.add v_bzz3 v_bzz3
  let v_bzz9 := A.add v_bzz9 v_bzz3
  let v_yyMBzz9 := A.neg v_bzz9
  let v_yyMBzz9 := A.add v_yyMBzz9 v_yy
  let v_yyPBzz3 := A.add v_yy v_bzz3
  let v_yyzz := A.mul v_yy v_zz
  let v_yyzz8 := A.add v_yyzz v_yyzz
  let v_yyzz8 := A.add v_yyzz8 v_yyzz8
  let v_yyzz8 := A.add v_yyzz8 v_yyzz8
  let v_t := A.add v_yyzz8 v_yyzz8
  let v_t := A.add v_t v_yyzz8
  let v_t := A.mul v_t b
  let v_x := A.mul v_xy2 v_yyMBzz9
  let v_y := A.mul v_yyMBzz9 v_yyPBzz3
  let v_y := A.add v_y v_t
  let v_z := A.mul v_yy arg.Y
  let v_z := A.mul v_z arg.Z
  let v_z := A.add v_z v_z
  let v_z := A.add v_z v_z
  let v_z := A.add v_z v_z
  ⟨v_x, v_y, v_z⟩

/-- `k256PointArithmetic.Add` (crypto/core/curves/native/k256/point.go:323-408). -/
def K256.add (A : Arith) (b : L4) (arg1 arg2 : EP) : EP :=
  let v_xx := A.mul arg1.X arg2.X
  let v_yy := A.mul arg1.Y arg2.Y
  let v_zz := A.mul arg1.Z arg2.Z
  let v_nXxYy := A.add v_xx v_yy
  let v_nXxYy := A.neg v_nXxYy
  let v_nYyZz := A.add v_yy v_zz
  let v_nYyZz := A.neg v_nYyZz
  let v_nXxZz := A.add v_xx v_zz
  let v_nXxZz := A.neg v_nXxZz
  let v_tv1 := A.add arg1.X arg1.Y
  let v_tv2 := A.add arg2.X arg2.Y
  let v_xyPairs := A.mul v_tv1 v_tv2
  let v_xyPairs := A.add v_xyPairs v_nXxYy
  let v_tv1 := A.add arg1.Y arg1.Z
  let v_tv2 := A.add arg2.Y arg2.Z
  let v_yzPairs := A.mul v_tv1 v_tv2
  let v_yzPairs := A.add v_yzPairs v_nYyZz
  let v_tv1 := A.add arg1.X arg1.Z
  let v_tv2 := A.add arg2.X arg2.Z
  let v_xzPairs := A.mul v_tv1 v_tv2
  let v_xzPairs := A.add v_xzPairs v_nXxZz
  let v_bzz := A.mul v_zz b
  let v_bzz3 := A.add v_bzz v_bzz
  let v_bzz3 := A.add v_bzz3 v_bzz
  let v_yyMBzz3 := A.neg v_bzz3
  let v_yyMBzz3 := A.add v_yyMBzz3 v_yy
  let v_yyPBzz3 := A.add v_yy v_bzz3
  let v_byz := A.mul v_yzPairs b
  let v_byz3 := A.add v_byz v_byz
  let v_byz3 := A.add v_byz3 v_byz
  let v_xx3 := A.add v_xx v_xx
  let v_xx3 := A.add v_xx3 v_xx
  let v_bxx9 := A.add v_xx3 v_xx3
  let v_bxx9 := A.add v_bxx9 v_xx3
  let v_bxx9 := A.mul v_bxx9 b
  let v_tv1 := A.mul v_xyPairs v_yyMBzz3
  let v_tv2 := A.mul v_byz3 v_xzPairs
  let v_tv2 := A.neg v_tv2
  let v_x := A.add v_tv1 v_tv2
  let v_tv1 := A.mul v_yyPBzz3 v_yyMBzz3
  let v_tv2 := A.mul v_bxx9 v_xzPairs
  let v_y := A.add v_tv1 v_tv2
  let v_tv1 := A.mul v_yzPairs v_yyPBzz3
  let v_tv2 := A.mul v_xx3 v_xyPairs
  let v_z := A.add v_tv1 v_tv2
  let v_e1 := isZero arg1.Z
  let v_e2 := isZero arg2.Z
  let v_z := selectznz (uint1 v_e1) v_z arg2.Z
  let v_y := selectznz (uint1 v_e1) v_y arg2.Y
  let v_x := selectznz (uint1 v_e1) v_x arg2.X
  let v_z := selectznz (uint1 v_e2) v_z arg1.Z
  let v_y := selectznz (uint1 v_e2) v_y arg1.Y
  let v_x := selectznz (uint1 v_e2) v_x arg1.X
  ⟨v_x, v_y, v_z⟩

/-- `p256PointArithmetic.Double` (crypto/core/curves/native/p256/point.go:134-194). -/
def P256.double (A : Arith) (b : L4) (arg : EP) : EP :=
  let v_xx := A.square arg.X
  let v_yy := A.square arg.Y
  let v_zz := A.square arg.Z
  let v_xy2 := A.mul arg.X arg.Y
  let v_xy2 := A.add v_xy2 v_xy2
  let v_yz2 := A.mul arg.Y arg.Z
  let v_yz2 := A.add v_yz2 v_yz2
  let v_xz2 := A.mul arg.X arg.Z
  let v_xz2 := A.add v_xz2 v_xz2
  let v_bzz := A.mul b v_zz
  let v_bzz := A.sub v_bzz v_xz2
  let v_bzz3 := A.add v_bzz v_bzz
  let v_bzz3 := A.add v_bzz3 v_bzz
  let v_yyMBzz3 := A.sub v_yy v_bzz3
  let v_yyPBzz3 := A.add v_yy v_bzz3
  let v_yFrag := A.mul v_yyPBzz3 v_yyMBzz3
  let v_xFrag := A.mul v_yyMBzz3 v_xy2
  let v_zz3 := A.add v_zz v_zz
  let v_zz3 := A.add v_zz3 v_zz
  let v_bxz2 := A.mul b v_xz2
  let v_bxz2 := A.sub v_bxz2 v_zz3
  let v_bxz2 := A.sub v_bxz2 v_xx
  let v_bxz6 := A.add v_bxz2 v_bxz2
  let v_bxz6 := A.add v_bxz6 v_bxz2
  let v_xx3Mzz3 := A.add v_xx v_xx
  let v_xx3Mzz3 := A.add v_xx3Mzz3 v_xx
  let v_xx3Mzz3 := A.sub v_xx3Mzz3 v_zz3
  let v_x := A.mul v_bxz6 v_yz2
  let v_x := A.sub v_xFrag v_x
  let v_y := A.mul v_xx3Mzz3 v_bxz6
  let v_y := A.add v_yFrag v_y
  let v_z := A.mul v_yz2 v_yy
  let v_z := A.add v_z v_z
  let v_z := A.add v_z v_z
  ⟨v_x, v_y, v_z⟩

/-- `p256PointArithmetic.Add` (crypto/core/curves/native/p256/point.go:196-278). -/
def P256.add (A : Arith) (b : L4) (arg1 arg2 : EP) : EP :=
  let v_xx := A.mul arg1.X arg2.X
  let v_yy := A.mul arg1.Y arg2.Y
  let v_zz := A.mul arg1.Z arg2.Z
  let v_tv1 := A.add arg2.X arg2.Y
  let v_xyPairs := A.add arg1.X arg1.Y
  let v_xyPairs := A.mul v_xyPairs v_tv1
  let v_xyPairs := A.sub v_xyPairs v_xx
  let v_xyPairs := A.sub v_xyPairs v_yy
  let v_tv1 := A.add arg2.Y arg2.Z
  let v_yzPairs := A.add arg1.Y arg1.Z
  let v_yzPairs := A.mul v_yzPairs v_tv1
  let v_yzPairs := A.sub v_yzPairs v_yy
  let v_yzPairs := A.sub v_yzPairs v_zz
  let v_tv1 := A.add arg2.X arg2.Z
  let v_xzPairs := A.add arg1.X arg1.Z
  let v_xzPairs := A.mul v_xzPairs v_tv1
  let v_xzPairs := A.sub v_xzPairs v_xx
  let v_xzPairs := A.sub v_xzPairs v_zz
  let v_bzz := A.mul b v_zz
  let v_bzz := A.sub v_xzPairs v_bzz
  let v_bzz3 := A.add v_bzz v_bzz
  let v_bzz3 := A.add v_bzz3 v_bzz
  let v_yyMBzz3 := A.sub v_yy v_bzz3
  let v_yyPBzz3 := A.add v_yy v_bzz3
  let v_zz3 := A.add v_zz v_zz
  let v_zz3 := A.add v_zz3 v_zz
  let v_bxz := A.mul b v_xzPairs
  let v_bxz := A.sub v_bxz v_zz3
  let v_bxz := A.sub v_bxz v_xx
  let v_bxz3 := A.add v_bxz v_bxz
  let v_bxz3 := A.add v_bxz3 v_bxz
  let v_xx3Mzz3 := A.add v_xx v_xx
  let v_xx3Mzz3 := A.add v_xx3Mzz3 v_xx
  let v_xx3Mzz3 := A.sub v_xx3Mzz3 v_zz3
  let v_tv1 := A.mul v_yzPairs v_bxz3
  let v_x := A.mul v_yyPBzz3 v_xyPairs
  let v_x := A.sub v_x v_tv1
  let v_tv1 := A.mul v_xx3Mzz3 v_bxz3
  let v_y := A.mul v_yyPBzz3 v_yyMBzz3
  let v_y := A.add v_y v_tv1
  let v_tv1 := A.mul v_xyPairs v_xx3Mzz3
  let v_z := A.mul v_yyMBzz3 v_yzPairs
  let v_z := A.add v_z v_tv1
  let v_e1 := isZero arg1.Z
  let v_e2 := isZero arg2.Z
  let v_z := selectznz (uint1 v_e1) v_z arg2.Z
  let v_y := selectznz (uint1 v_e1) v_y arg2.Y
  let v_x := selectznz (uint1 v_e1) v_x arg2.X
  let v_z := selectznz (uint1 v_e2) v_z arg1.Z
  let v_y := selectznz (uint1 v_e2) v_y arg1.Y
  let v_x := selectznz (uint1 v_e2) v_x arg1.X
  ⟨v_x, v_y, v_z⟩

section
variable {A : Arith} {P : Params} {p : Nat} (L : Lawful A P p)
include L

theorem K256.double_code {b : L4} {arg : EP} {vb x y z : ZMod p} (hb : Rep p b vb) (hx : Rep p arg.X x) (hy : Rep p arg.Y y) (hz : Rep p arg.Z z) :
    Rep p (K256.double A b arg).X (((x * y) + (x * y)) * ((-((((((z * z) * vb) + ((z * z) * vb)) + ((z * z) * vb)) + ((((z * z) * vb) + ((z * z) * vb)) + ((z * z) * vb))) + ((((z * z) * vb) + ((z * z) * vb)) + ((z * z) * vb)))) + (y * y))) ∧
    Rep p (K256.double A b arg).Y ((((-((((((z * z) * vb) + ((z * z) * vb)) + ((z * z) * vb)) + ((((z * z) * vb) + ((z * z) * vb)) + ((z * z) * vb))) + ((((z * z) * vb) + ((z * z) * vb)) + ((z * z) * vb)))) + (y * y)) * ((y * y) + ((((z * z) * vb) + ((z * z) * vb)) + ((z * z) * vb)))) + ((((((((y * y) * (z * z)) + ((y * y) * (z * z))) + (((y * y) * (z * z)) + ((y * y) * (z * z)))) + ((((y * y) * (z * z)) + ((y * y) * (z * z))) + (((y * y) * (z * z)) + ((y * y) * (z * z))))) + (((((y * y) * (z * z)) + ((y * y) * (z * z))) + (((y * y) * (z * z)) + ((y * y) * (z * z)))) + ((((y * y) * (z * z)) + ((y * y) * (z * z))) + (((y * y) * (z * z)) + ((y * y) * (z * z)))))) + (((((y * y) * (z * z)) + ((y * y) * (z * z))) + (((y * y) * (z * z)) + ((y * y) * (z * z)))) + ((((y * y) * (z * z)) + ((y * y) * (z * z))) + (((y * y) * (z * z)) + ((y * y) * (z * z)))))) * vb)) ∧
    Rep p (K256.double A b arg).Z ((((((y * y) * y) * z) + (((y * y) * y) * z)) + ((((y * y) * y) * z) + (((y * y) * y) * z))) + (((((y * y) * y) * z) + (((y * y) * y) * z)) + ((((y * y) * y) * z) + (((y * y) * y) * z)))) := by
  have h_yy := C50_square L hy
  have h_zz := C50_square L hz
  have h_xy2 := C50_mul L hx hy
  have h_xy2' := C50_add L h_xy2 h_xy2
  have h_bzz := C50_mul L h_zz hb
  have h_bzz3 := C50_add L h_bzz h_bzz
  have h_bzz3' := C50_add L h_bzz3 h_bzz
  have h_bzz9 := C50_add L h_bzz3' h_bzz3'
  have h_bzz9' := C50_add L h_bzz9 h_bzz3'
  have h_yyMBzz9 := C50_neg L h_bzz9'
  have h_yyMBzz9' := C50_add L h_yyMBzz9 h_yy
  have h_yyPBzz3 := C50_add L h_yy h_bzz3'
  have h_yyzz := C50_mul L h_yy h_zz
  have h_yyzz8 := C50_add L h_yyzz h_yyzz
  have h_yyzz8' := C50_add L h_yyzz8 h_yyzz8
  have h_yyzz8'' := C50_add L h_yyzz8' h_yyzz8'
  have h_t := C50_add L h_yyzz8'' h_yyzz8''
  have h_t' := C50_add L h_t h_yyzz8''
  have h_t'' := C50_mul L h_t' hb
  have h_x := C50_mul L h_xy2' h_yyMBzz9'
  have h_y := C50_mul L h_yyMBzz9' h_yyPBzz3
  have h_y' := C50_add L h_y h_t''
  have h_z := C50_mul L h_yy hy
  have h_z' := C50_mul L h_z hz
  have h_z'' := C50_add L h_z' h_z'
  have h_z''' := C50_add L h_z'' h_z''
  have h_z'''' := C50_add L h_z''' h_z'''
  exact ⟨h_x, h_y', h_z''''⟩

theorem K256.add_code {b : L4} {arg1 arg2 : EP} {vb x1 y1 z1 x2 y2 z2 : ZMod p} (hb : Rep p b vb) (hx1 : Rep p arg1.X x1) (hy1 : Rep p arg1.Y y1) (hz1 : Rep p arg1.Z z1) (hx2 : Rep p arg2.X x2) (hy2 : Rep p arg2.Y y2) (hz2 : Rep p arg2.Z z2) (n1 : z1 ≠ 0) (n2 : z2 ≠ 0) :
    Rep p (K256.add A b arg1 arg2).X (((((x1 + y1) * (x2 + y2)) + (-((x1 * x2) + (y1 * y2)))) * ((-((((z1 * z2) * vb) + ((z1 * z2) * vb)) + ((z1 * z2) * vb))) + (y1 * y2))) + (-(((((((y1 + z1) * (y2 + z2)) + (-((y1 * y2) + (z1 * z2)))) * vb) + ((((y1 + z1) * (y2 + z2)) + (-((y1 * y2) + (z1 * z2)))) * vb)) + ((((y1 + z1) * (y2 + z2)) + (-((y1 * y2) + (z1 * z2)))) * vb)) * (((x1 + z1) * (x2 + z2)) + (-((x1 * x2) + (z1 * z2))))))) ∧
    Rep p (K256.add A b arg1 arg2).Y ((((y1 * y2) + ((((z1 * z2) * vb) + ((z1 * z2) * vb)) + ((z1 * z2) * vb))) * ((-((((z1 * z2) * vb) + ((z1 * z2) * vb)) + ((z1 * z2) * vb))) + (y1 * y2))) + (((((((x1 * x2) + (x1 * x2)) + (x1 * x2)) + (((x1 * x2) + (x1 * x2)) + (x1 * x2))) + (((x1 * x2) + (x1 * x2)) + (x1 * x2))) * vb) * (((x1 + z1) * (x2 + z2)) + (-((x1 * x2) + (z1 * z2)))))) ∧
    Rep p (K256.add A b arg1 arg2).Z (((((y1 + z1) * (y2 + z2)) + (-((y1 * y2) + (z1 * z2)))) * ((y1 * y2) + ((((z1 * z2) * vb) + ((z1 * z2) * vb)) + ((z1 * z2) * vb)))) + ((((x1 * x2) + (x1 * x2)) + (x1 * x2)) * (((x1 + y1) * (x2 + y2)) + (-((x1 * x2) + (y1 * y2)))))) := by
  have h_xx := C50_mul L hx1 hx2
  have h_yy := C50_mul L hy1 hy2
  have h_zz := C50_mul L hz1 hz2
  have h_nXxYy := C50_add L h_xx h_yy
  have h_nXxYy' := C50_neg L h_nXxYy
  have h_nYyZz := C50_add L h_yy h_zz
  have h_nYyZz' := C50_neg L h_nYyZz
  have h_nXxZz := C50_add L h_xx h_zz
  have h_nXxZz' := C50_neg L h_nXxZz
  have h_tv1 := C50_add L hx1 hy1
  have h_tv2 := C50_add L hx2 hy2
  have h_xyPairs := C50_mul L h_tv1 h_tv2
  have h_xyPairs' := C50_add L h_xyPairs h_nXxYy'
  have h_tv1' := C50_add L hy1 hz1
  have h_tv2' := C50_add L hy2 hz2
  have h_yzPairs := C50_mul L h_tv1' h_tv2'
  have h_yzPairs' := C50_add L h_yzPairs h_nYyZz'
  have h_tv1'' := C50_add L hx1 hz1
  have h_tv2'' := C50_add L hx2 hz2
  have h_xzPairs := C50_mul L h_tv1'' h_tv2''
  have h_xzPairs' := C50_add L h_xzPairs h_nXxZz'
  have h_bzz := C50_mul L h_zz hb
  have h_bzz3 := C50_add L h_bzz h_bzz
  have h_bzz3' := C50_add L h_bzz3 h_bzz
  have h_yyMBzz3 := C50_neg L h_bzz3'
  have h_yyMBzz3' := C50_add L h_yyMBzz3 h_yy
  have h_yyPBzz3 := C50_add L h_yy h_bzz3'
  have h_byz := C50_mul L h_yzPairs' hb
  have h_byz3 := C50_add L h_byz h_byz
  have h_byz3' := C50_add L h_byz3 h_byz
  have h_xx3 := C50_add L h_xx h_xx
  have h_xx3' := C50_add L h_xx3 h_xx
  have h_bxx9 := C50_add L h_xx3' h_xx3'
  have h_bxx9' := C50_add L h_bxx9 h_xx3'
  have h_bxx9'' := C50_mul L h_bxx9' hb
  have h_tv1''' := C50_mul L h_xyPairs' h_yyMBzz3'
  have h_tv2''' := C50_mul L h_byz3' h_xzPairs'
  have h_tv2'''' := C50_neg L h_tv2'''
  have h_x := C50_add L h_tv1''' h_tv2''''
  have h_tv1'''' := C50_mul L h_yyPBzz3 h_yyMBzz3'
  have h_tv2''''' := C50_mul L h_bxx9'' h_xzPairs'
  have h_y := C50_add L h_tv1'''' h_tv2'''''
  have h_tv1''''' := C50_mul L h_yzPairs' h_yyPBzz3
  have h_tv2'''''' := C50_mul L h_xx3' h_xyPairs'
  have h_z := C50_add L h_tv1''''' h_tv2''''''
  have f1 : isZero arg1.Z = 0 := by rw [(C50_equal L hz1 hz1).2.2.1, if_neg n1]
  have f2 : isZero arg2.Z = 0 := by rw [(C50_equal L hz2 hz2).2.2.1, if_neg n2]
  simp only [K256.add, f1, f2, uint1_zero, selectznz_zero]
  exact ⟨h_x, h_y, h_z⟩

theorem K256.add_left {b : L4} {arg1 arg2 : EP} {z1 z2 : ZMod p} (hz1 : Rep p arg1.Z z1) (hz2 : Rep p arg2.Z z2)
    (n1 : z1 = 0) (n2 : z2 ≠ 0) : K256.add A b arg1 arg2 = arg2 := by
  have f1 : isZero arg1.Z = 1 := by rw [(C50_equal L hz1 hz1).2.2.1, if_pos n1]
  have f2 : isZero arg2.Z = 0 := by rw [(C50_equal L hz2 hz2).2.2.1, if_neg n2]
  simp only [K256.add, f1, f2, uint1_zero, uint1_one, selectznz_zero, selectznz_one]

theorem K256.add_right {b : L4} {arg1 arg2 : EP} {z2 : ZMod p} (hz2 : Rep p arg2.Z z2)
    (n2 : z2 = 0) : K256.add A b arg1 arg2 = arg1 := by
  have f2 : isZero arg2.Z = 1 := by rw [(C50_equal L hz2 hz2).2.2.1, if_pos n2]
  simp only [K256.add, f2, uint1_one, selectznz_one]

theorem P256.double_code {b : L4} {arg : EP} {vb x y z : ZMod p} (hb : Rep p b vb) (hx : Rep p arg.X x) (hy : Rep p arg.Y y) (hz : Rep p arg.Z z) :
    Rep p (P256.double A b arg).X ((((y * y) - ((((vb * (z * z)) - ((x * z) + (x * z))) + ((vb * (z * z)) - ((x * z) + (x * z)))) + ((vb * (z * z)) - ((x * z) + (x * z))))) * ((x * y) + (x * y))) - ((((((vb * ((x * z) + (x * z))) - (((z * z) + (z * z)) + (z * z))) - (x * x)) + (((vb * ((x * z) + (x * z))) - (((z * z) + (z * z)) + (z * z))) - (x * x))) + (((vb * ((x * z) + (x * z))) - (((z * z) + (z * z)) + (z * z))) - (x * x))) * ((y * z) + (y * z)))) ∧
    Rep p (P256.double A b arg).Y ((((y * y) + ((((vb * (z * z)) - ((x * z) + (x * z))) + ((vb * (z * z)) - ((x * z) + (x * z)))) + ((vb * (z * z)) - ((x * z) + (x * z))))) * ((y * y) - ((((vb * (z * z)) - ((x * z) + (x * z))) + ((vb * (z * z)) - ((x * z) + (x * z)))) + ((vb * (z * z)) - ((x * z) + (x * z)))))) + (((((x * x) + (x * x)) + (x * x)) - (((z * z) + (z * z)) + (z * z))) * (((((vb * ((x * z) + (x * z))) - (((z * z) + (z * z)) + (z * z))) - (x * x)) + (((vb * ((x * z) + (x * z))) - (((z * z) + (z * z)) + (z * z))) - (x * x))) + (((vb * ((x * z) + (x * z))) - (((z * z) + (z * z)) + (z * z))) - (x * x))))) ∧
    Rep p (P256.double A b arg).Z (((((y * z) + (y * z)) * (y * y)) + (((y * z) + (y * z)) * (y * y))) + ((((y * z) + (y * z)) * (y * y)) + (((y * z) + (y * z)) * (y * y)))) := by
  have h_xx := C50_square L hx
  have h_yy := C50_square L hy
  have h_zz := C50_square L hz
  have h_xy2 := C50_mul L hx hy
  have h_xy2' := C50_add L h_xy2 h_xy2
  have h_yz2 := C50_mul L hy hz
  have h_yz2' := C50_add L h_yz2 h_yz2
  have h_xz2 := C50_mul L hx hz
  have h_xz2' := C50_add L h_xz2 h_xz2
  have h_bzz := C50_mul L hb h_zz
  have h_bzz' := C50_sub L h_bzz h_xz2'
  have h_bzz3 := C50_add L h_bzz' h_bzz'
  have h_bzz3' := C50_add L h_bzz3 h_bzz'
  have h_yyMBzz3 := C50_sub L h_yy h_bzz3'
  have h_yyPBzz3 := C50_add L h_yy h_bzz3'
  have h_yFrag := C50_mul L h_yyPBzz3 h_yyMBzz3
  have h_xFrag := C50_mul L h_yyMBzz3 h_xy2'
  have h_zz3 := C50_add L h_zz h_zz
  have h_zz3' := C50_add L h_zz3 h_zz
  have h_bxz2 := C50_mul L hb h_xz2'
  have h_bxz2' := C50_sub L h_bxz2 h_zz3'
  have h_bxz2'' := C50_sub L h_bxz2' h_xx
  have h_bxz6 := C50_add L h_bxz2'' h_bxz2''
  have h_bxz6' := C50_add L h_bxz6 h_bxz2''
  have h_xx3Mzz3 := C50_add L h_xx h_xx
  have h_xx3Mzz3' := C50_add L h_xx3Mzz3 h_xx
  have h_xx3Mzz3'' := C50_sub L h_xx3Mzz3' h_zz3'
  have h_x := C50_mul L h_bxz6' h_yz2'
  have h_x' := C50_sub L h_xFrag h_x
  have h_y := C50_mul L h_xx3Mzz3'' h_bxz6'
  have h_y' := C50_add L h_yFrag h_y
  have h_z := C50_mul L h_yz2' h_yy
  have h_z' := C50_add L h_z h_z
  have h_z'' := C50_add L h_z' h_z'
  exact ⟨h_x', h_y', h_z''⟩

theorem P256.add_code {b : L4} {arg1 arg2 : EP} {vb x1 y1 z1 x2 y2 z2 : ZMod p} (hb : Rep p b vb) (hx1 : Rep p arg1.X x1) (hy1 : Rep p arg1.Y y1) (hz1 : Rep p arg1.Z z1) (hx2 : Rep p arg2.X x2) (hy2 : Rep p arg2.Y y2) (hz2 : Rep p arg2.Z z2) (n1 : z1 ≠ 0) (n2 : z2 ≠ 0) :
    Rep p (P256.add A b arg1 arg2).X ((((y1 * y2) + (((((((x1 + z1) * (x2 + z2)) - (x1 * x2)) - (z1 * z2)) - (vb * (z1 * z2))) + (((((x1 + z1) * (x2 + z2)) - (x1 * x2)) - (z1 * z2)) - (vb * (z1 * z2)))) + (((((x1 + z1) * (x2 + z2)) - (x1 * x2)) - (z1 * z2)) - (vb * (z1 * z2))))) * ((((x1 + y1) * (x2 + y2)) - (x1 * x2)) - (y1 * y2))) - (((((y1 + z1) * (y2 + z2)) - (y1 * y2)) - (z1 * z2)) * (((((vb * ((((x1 + z1) * (x2 + z2)) - (x1 * x2)) - (z1 * z2))) - (((z1 * z2) + (z1 * z2)) + (z1 * z2))) - (x1 * x2)) + (((vb * ((((x1 + z1) * (x2 + z2)) - (x1 * x2)) - (z1 * z2))) - (((z1 * z2) + (z1 * z2)) + (z1 * z2))) - (x1 * x2))) + (((vb * ((((x1 + z1) * (x2 + z2)) - (x1 * x2)) - (z1 * z2))) - (((z1 * z2) + (z1 * z2)) + (z1 * z2))) - (x1 * x2))))) ∧
    Rep p (P256.add A b arg1 arg2).Y ((((y1 * y2) + (((((((x1 + z1) * (x2 + z2)) - (x1 * x2)) - (z1 * z2)) - (vb * (z1 * z2))) + (((((x1 + z1) * (x2 + z2)) - (x1 * x2)) - (z1 * z2)) - (vb * (z1 * z2)))) + (((((x1 + z1) * (x2 + z2)) - (x1 * x2)) - (z1 * z2)) - (vb * (z1 * z2))))) * ((y1 * y2) - (((((((x1 + z1) * (x2 + z2)) - (x1 * x2)) - (z1 * z2)) - (vb * (z1 * z2))) + (((((x1 + z1) * (x2 + z2)) - (x1 * x2)) - (z1 * z2)) - (vb * (z1 * z2)))) + (((((x1 + z1) * (x2 + z2)) - (x1 * x2)) - (z1 * z2)) - (vb * (z1 * z2)))))) + (((((x1 * x2) + (x1 * x2)) + (x1 * x2)) - (((z1 * z2) + (z1 * z2)) + (z1 * z2))) * (((((vb * ((((x1 + z1) * (x2 + z2)) - (x1 * x2)) - (z1 * z2))) - (((z1 * z2) + (z1 * z2)) + (z1 * z2))) - (x1 * x2)) + (((vb * ((((x1 + z1) * (x2 + z2)) - (x1 * x2)) - (z1 * z2))) - (((z1 * z2) + (z1 * z2)) + (z1 * z2))) - (x1 * x2))) + (((vb * ((((x1 + z1) * (x2 + z2)) - (x1 * x2)) - (z1 * z2))) - (((z1 * z2) + (z1 * z2)) + (z1 * z2))) - (x1 * x2))))) ∧
    Rep p (P256.add A b arg1 arg2).Z ((((y1 * y2) - (((((((x1 + z1) * (x2 + z2)) - (x1 * x2)) - (z1 * z2)) - (vb * (z1 * z2))) + (((((x1 + z1) * (x2 + z2)) - (x1 * x2)) - (z1 * z2)) - (vb * (z1 * z2)))) + (((((x1 + z1) * (x2 + z2)) - (x1 * x2)) - (z1 * z2)) - (vb * (z1 * z2))))) * ((((y1 + z1) * (y2 + z2)) - (y1 * y2)) - (z1 * z2))) + (((((x1 + y1) * (x2 + y2)) - (x1 * x2)) - (y1 * y2)) * ((((x1 * x2) + (x1 * x2)) + (x1 * x2)) - (((z1 * z2) + (z1 * z2)) + (z1 * z2))))) := by
  have h_xx := C50_mul L hx1 hx2
  have h_yy := C50_mul L hy1 hy2
  have h_zz := C50_mul L hz1 hz2
  have h_tv1 := C50_add L hx2 hy2
  have h_xyPairs := C50_add L hx1 hy1
  have h_xyPairs' := C50_mul L h_xyPairs h_tv1
  have h_xyPairs'' := C50_sub L h_xyPairs' h_xx
  have h_xyPairs''' := C50_sub L h_xyPairs'' h_yy
  have h_tv1' := C50_add L hy2 hz2
  have h_yzPairs := C50_add L hy1 hz1
  have h_yzPairs' := C50_mul L h_yzPairs h_tv1'
  have h_yzPairs'' := C50_sub L h_yzPairs' h_yy
  have h_yzPairs''' := C50_sub L h_yzPairs'' h_zz
  have h_tv1'' := C50_add L hx2 hz2
  have h_xzPairs := C50_add L hx1 hz1
  have h_xzPairs' := C50_mul L h_xzPairs h_tv1''
  have h_xzPairs'' := C50_sub L h_xzPairs' h_xx
  have h_xzPairs''' := C50_sub L h_xzPairs'' h_zz
  have h_bzz := C50_mul L hb h_zz
  have h_bzz' := C50_sub L h_xzPairs''' h_bzz
  have h_bzz3 := C50_add L h_bzz' h_bzz'
  have h_bzz3' := C50_add L h_bzz3 h_bzz'
  have h_yyMBzz3 := C50_sub L h_yy h_bzz3'
  have h_yyPBzz3 := C50_add L h_yy h_bzz3'
  have h_zz3 := C50_add L h_zz h_zz
  have h_zz3' := C50_add L h_zz3 h_zz
  have h_bxz := C50_mul L hb h_xzPairs'''
  have h_bxz' := C50_sub L h_bxz h_zz3'
  have h_bxz'' := C50_sub L h_bxz' h_xx
  have h_bxz3 := C50_add L h_bxz'' h_bxz''
  have h_bxz3' := C50_add L h_bxz3 h_bxz''
  have h_xx3Mzz3 := C50_add L h_xx h_xx
  have h_xx3Mzz3' := C50_add L h_xx3Mzz3 h_xx
  have h_xx3Mzz3'' := C50_sub L h_xx3Mzz3' h_zz3'
  have h_tv1''' := C50_mul L h_yzPairs''' h_bxz3'
  have h_x := C50_mul L h_yyPBzz3 h_xyPairs'''
  have h_x' := C50_sub L h_x h_tv1'''
  have h_tv1'''' := C50_mul L h_xx3Mzz3'' h_bxz3'
  have h_y := C50_mul L h_yyPBzz3 h_yyMBzz3
  have h_y' := C50_add L h_y h_tv1''''
  have h_tv1''''' := C50_mul L h_xyPairs''' h_xx3Mzz3''
  have h_z := C50_mul L h_yyMBzz3 h_yzPairs'''
  have h_z' := C50_add L h_z h_tv1'''''
  have f1 : isZero arg1.Z = 0 := by rw [(C50_equal L hz1 hz1).2.2.1, if_neg n1]
  have f2 : isZero arg2.Z = 0 := by rw [(C50_equal L hz2 hz2).2.2.1, if_neg n2]
  simp only [P256.add, f1, f2, uint1_zero, selectznz_zero]
  exact ⟨h_x', h_y', h_z'⟩

theorem P256.add_left {b : L4} {arg1 arg2 : EP} {z1 z2 : ZMod p} (hz1 : Rep p arg1.Z z1) (hz2 : Rep p arg2.Z z2)
    (n1 : z1 = 0) (n2 : z2 ≠ 0) : P256.add A b arg1 arg2 = arg2 := by
  have f1 : isZero arg1.Z = 1 := by rw [(C50_equal L hz1 hz1).2.2.1, if_pos n1]
  have f2 : isZero arg2.Z = 0 := by rw [(C50_equal L hz2 hz2).2.2.1, if_neg n2]
  simp only [P256.add, f1, f2, uint1_zero, uint1_one, selectznz_zero, selectznz_one]

theorem P256.add_right {b : L4} {arg1 arg2 : EP} {z2 : ZMod p} (hz2 : Rep p arg2.Z z2)
    (n2 : z2 = 0) : P256.add A b arg1 arg2 = arg1 := by
  have f2 : isZero arg2.Z = 1 := by rw [(C50_equal L hz2 hz2).2.2.1, if_pos n2]
  simp only [P256.add, f2, uint1_one, selectznz_one]

end

end Verif.Native
