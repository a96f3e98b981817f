import Verif.Native.PallasCurve
import Verif.Native.Sswu
import Verif.Hash.Props

/-!
# Hashing to Pallas (`crypto/core/curves/pallas_curve.go`, `Ep.Hash`): the simplified SWU map, the 3-isogeny, the hash
-/

set_option maxRecDepth 20000
set_option linter.unusedSectionVars false

namespace Verif.Native.Pallas
open Verif.Bytes Weier Sswu

/-- `isomapper` (crypto/core/curves/pallas_curve.go:35-49). -/
def isomapper : List L4 :=
  [ Field.setLimbs A ⟨0x775f6034aaaaaaab, 0x4081775473d8375b, 0xe38e38e38e38e38e, 0x0e38e38e38e38e38⟩,
    Field.setLimbs A ⟨0x8cf863b02814fb76, 0x0f93b82ee4b99495, 0x267c7ffa51cf412a, 0x3509afd51872d88e⟩,
    Field.setLimbs A ⟨0x0eb64faef37ea4f7, 0x380af066cfeb6d69, 0x98c7d7ac3d98fd13, 0x17329b9ec5253753⟩,
    Field.setLimbs A ⟨0xeebec06955555580, 0x8102eea8e7b06eb6, 0xc71c71c71c71c71c, 0x1c71c71c71c71c71⟩,
    Field.setLimbs A ⟨0xc47f2ab668bcd71f, 0x9c434ac1c96b6980, 0x5a607fcce0494a79, 0x1d572e7ddc099cff⟩,
    Field.setLimbs A ⟨0x2aa3af1eae5b6604, 0xb4abf9fb9a1fc81c, 0x1d13bf2a7f22b105, 0x325669becaecd5d1⟩,
    Field.setLimbs A ⟨0x5ad985b5e38e38e4, 0x7642b01ad461bad2, 0x4bda12f684bda12f, 0x1a12f684bda12f68⟩,
    Field.setLimbs A ⟨0xc67c31d8140a7dbb, 0x07c9dc17725cca4a, 0x133e3ffd28e7a095, 0x1a84d7ea8c396c47⟩,
    Field.setLimbs A ⟨0x02e2be87d225b234, 0x1765e924f7459378, 0x303216cce1db9ff1, 0x3fb98ff0d2ddcadd⟩,
    Field.setLimbs A ⟨0x93e53ab371c71c4f, 0x0ac03e8e134eb3e4, 0x7b425ed097b425ed, 0x025ed097b425ed09⟩,
    Field.setLimbs A ⟨0x5a28279b1d1b42ae, 0x5941a3a4a97aa1b3, 0x0790bfb3506defb6, 0x0c02c5bcca0e6b7f⟩,
    Field.setLimbs A ⟨0x4d90ab820b12320a, 0xd976bbfabbc5661d, 0x573b3d7f7d681310, 0x17033d3c60c68173⟩,
    Field.setLimbs A ⟨0x992d30ecfffffde5, 0x224698fc094cf91b, 0x0000000000000000, 0x4000000000000000⟩ ]

/-- `isomapper[i]`. -/
def iso (i : Nat) : L4 := isomapper.getD i Field.zero

/-- `isoa` (crypto/core/curves/pallas_curve.go:52). -/
def isoa : L4 := Field.setLimbs A ⟨0x92bb4b0b657a014b, 0xb74134581a27a59f, 0x49be2d7258370742, 0x18354a2eb0ea8c9c⟩
/-- `isob` (crypto/core/curves/pallas_curve.go:53). -/
def isob : L4 := Field.setLimbs A ⟨1265, 0, 0, 0⟩
/-- `z` (crypto/core/curves/pallas_curve.go:54). -/
def zz : L4 := Field.setLimbs A ⟨0x992d30ecfffffff4, 0x224698fc094cf91b, 0x0000000000000000, 0x4000000000000000⟩

/-- `fp.CMove(lhs, rhs, bool2int[b])` (crypto/core/curves/native/pasta/fp/fp.go:357-362, crypto/core/curves/pallas_curve.go:29-32). -/
def cmoveB (l r : L4) (b : Bool) : L4 := Pasta.cmove l r (if b then 1 else 0)

/-- `mapSswu` (crypto/core/curves/pallas_curve.go:1131-1176). -/
def mapSswu (u : L4) : EP :=
  let c1 : L4 := ⟨0x1ee770ce078456ec, 0x48cfd64c2ce76be0, 0x43d5774c0ab79e2f, 0x23368d2bdce28cf3⟩
  let c2 : L4 := ⟨0x03df915f89d89d8a, 0x8f1e8db09ef82653, 0xd89d89d89d89d89d, 0x1d89d89d89d89d89⟩
  let u2 := A.square u
  let tv1 := A.mul zz u2
  let tv2 := A.square tv1
  let x1 := A.add tv1 tv2
  let x1 := (Pasta.invert pastaFp x1).1
  let e1 := Pasta.isZero x1
  let x1 := A.add x1 (Field.one PastaFp.params)
  let x1 := cmoveB x1 c2 e1
  let x1 := A.mul x1 c1
  let gx1 := A.square x1
  let gx1 := A.add gx1 isoa
  let gx1 := A.mul gx1 x1
  let gx1 := A.add gx1 isob
  let x2 := A.mul tv1 x1
  let tv2 := A.mul tv1 tv2
  let gx2 := A.mul gx1 tv2
  let s1 := Pasta.sqrt pastaFp gx1
  let x := cmoveB x2 x1 s1.2
  let s2 := Pasta.sqrt pastaFp gx2
  let y := cmoveB s2.1 s1.1 s1.2
  let e3 := Pasta.isOdd pastaFp u == Pasta.isOdd pastaFp y
  let y := cmoveB (A.neg y) y e3
  ⟨x, y, Field.one PastaFp.params⟩

/-- `isoMap` (crypto/core/curves/pallas_curve.go:1075-1129). -/
def isoMap (e : EP) : EP :=
  let z0 := A.square e.Z
  let z1 := A.mul z0 e.Z
  let z2 := A.square z0
  let z3 := A.square z1
  let numX := iso 0
  let numX := A.mul numX e.X
  let numX := A.add numX (A.mul (iso 1) z0)
  let numX := A.mul numX e.X
  let numX := A.add numX (A.mul (iso 2) z2)
  let numX := A.mul numX e.X
  let numX := A.add numX (A.mul (iso 3) z3)
  let divX := z0
  let divX := A.mul divX e.X
  let divX := A.add divX (A.mul (iso 4) z2)
  let divX := A.mul divX e.X
  let divX := A.add divX (A.mul (iso 5) z3)
  let numY := iso 6
  let numY := A.mul numY e.X
  let numY := A.add numY (A.mul (iso 7) z0)
  let numY := A.mul numY e.X
  let numY := A.add numY (A.mul (iso 8) z2)
  let numY := A.mul numY e.X
  let numY := A.add numY (A.mul (iso 9) z3)
  let numY := A.mul numY e.Y
  let divY := e.X
  let divY := A.add divY (A.mul (iso 10) z0)
  let divY := A.mul divY e.X
  let divY := A.add divY (A.mul (iso 11) z2)
  let divY := A.mul divY e.X
  let divY := A.add divY (A.mul (iso 12) z3)
  let divY := A.mul divY z1
  let z0 := A.mul divX divY
  let x := A.mul numX divY
  let x := A.mul x z0
  let y := A.mul numY divX
  let y := A.mul y (A.square z0)
  ⟨x, y, z0⟩

/-- `expandMsgXmd` (crypto/core/curves/curve.go:718-764).  `domainLen` is a byte, so the check on it (line 720) never fires; the
state of the loop is the output buffer and the current block, as in the model of the other expander. -/
def expandMsgXmd (H : Hash.HashFn) (msg domain : List UInt8) (outLen : Nat) : Res (List UInt8) :=
  let domainLen := UInt8.ofNat domain.length
  let b0 := H.h (List.replicate H.block (0 : UInt8) ++ msg ++ [UInt8.ofNat (outLen >>> 8), UInt8.ofNat outLen] ++
    ([0] : List UInt8) ++ domain ++ [domainLen])
  let b1 := H.h (b0 ++ ([1] : List UInt8) ++ domain ++ [domainLen])
  let ell := (outLen + H.size - 1) / H.size
  let st := (List.range' 1 (ell - 1)).foldl (fun (st : List UInt8 × List UInt8) (i : Nat) =>
    (Hash.copyAt st.1 ((i - 1) * H.size) st.2,
      H.h (Hash.xorB b0 st.2 ++ [1 + UInt8.ofNat i] ++ domain ++ [domainLen])))
    (List.replicate outLen 0, b1)
  if ell < 1 then .panic
  else .ok ((Hash.copyAt st.1 ((ell - 1) * H.size) st.2).take outLen)

/-- The tag: the bytes of "pallas_XMD:BLAKE2b_SSWU_RO_". -/
def tag : List UInt8 := [112, 97, 108, 108, 97, 115, 95, 88, 77, 68, 58, 66, 76, 65, 75, 69, 50, 98, 95, 83, 83, 87, 85, 95, 82, 79, 95]

/-- `Ep.Hash` (crypto/core/curves/pallas_curve.go:711-729); `H` is BLAKE2b-512, and the error of the expander is ignored (it
returns nothing then, and slicing that panics). -/
def hash (H : Hash.HashFn) (bytes : List UInt8) : Res EP :=
  match expandMsgXmd H bytes tag 128 with
  | .ok u =>
    let u0 := Field.setBytesWide A PastaFp.params (u.take 64)
    let u1 := Field.setBytesWide A PastaFp.params (u.drop 64)
    let q0 := mapSswu u0
    let q1 := mapSswu u1
    let r1 := isoMap q0
    let r2 := isoMap q1
    .ok (add r1 r2)
  | _ => .panic

/-! ## Specification -/

/-- The isogenous curve `y² = x³ + ia x + ib` of the map, and the non-square. -/
def ia : Nat := 10949663248450308183708987909873589833737836120165333298109615750520499732811
/-- See `ia`. -/
def ib : Nat := 1265
/-- `-13`. -/
def sz : ZMod p := -13

/-- The isogeny, as coefficient lists, constant term first: `x ↦ nx/dx`. -/
def nx : List Nat := [12865787693035132824841220556520878650383580658640693651535411895266652280192, 10492611921771203378452795982353351666191589197598957448093274638589204800759, 23989696149150192365340222745168215001509815558210986772351135915822265203574, 6432893846517566412420610278260439325191790329320346825767705947633326140075]
/-- See `nx`. -/
def dx : List Nat := [22768321103861051515190775253992702316905399997697804654926324362758820947460, 13271109177048389296812780941310096270046944650307955939477485891950613419807, 1]
/-- `y ↦ y·ny/dy`. -/
def ny : List Nat := [1072148974419594402070101713043406554198631721553391137627950991272221023311, 28823569610051396102362669851238297121581474897215657071023781420043761726004, 11994848074575096182670111372584107500754907779105493386175567957911132601787, 11793638718615538422771118843477472096184948937087302513907460903994431256804]
/-- See `ny`. -/
def dy : List Nat := [28948022309329048855892746252171976963363056481941560715954676764349967629797, 10408918692925056833786833257634153023990087029210292532869619559576527581706, 5432652610908059517272798285879155923388888734491153551238890455750936314542, 1]

/-- The abscissa of the kernel of the isogeny. -/
def xQ : Nat := 7838456566140329779539982655430940346658055915816802388238595436199677105265

theorem iso_check : isoCheck p ia ib 5 nx dx ny dy = true := by decide +kernel

theorem xQ_nonsquare : ¬ IsSquare (rhs (ia : ZMod p) (ib : ZMod p) (xQ : ZMod p)) := by
  have h : ¬ IsSquare (((xQ ^ 3 + ia * xQ + ib : Nat)) : ZMod p) :=
    Sswu.not_square (by decide +kernel) (by decide +kernel) (by decide +kernel) (by decide +kernel)
  have e : ((xQ ^ 3 + ia * xQ + ib : Nat) : ZMod p) = rhs (ia : ZMod p) (ib : ZMod p) (xQ : ZMod p) := by
    unfold rhs
    rw [Nat.cast_add, Nat.cast_add, Nat.cast_mul, Nat.cast_pow]
  rwa [e] at h

/-- The denominators do not vanish on the isogenous curve: the map is defined at every affine point. -/
theorem den_ok {x y : ZMod p} (hy : y ^ 2 = rhs (ia : ZMod p) (ib : ZMod p) x) : ev dx x ≠ 0 ∧ ev dy x ≠ 0 :=
  ⟨den_ne_zero (m := [p - xQ, 1]) rfl (by decide +kernel) (Or.inl (by decide +kernel)) xQ_nonsquare hy,
    den_ne_zero (m := [p - xQ, 1]) rfl (by decide +kernel) (Or.inr (by decide +kernel)) xQ_nonsquare hy⟩

/-- The image of a point of the isogenous curve. -/
theorem image_eqn {x y : ZMod p} (hy : y ^ 2 = rhs (ia : ZMod p) (ib : ZMod p) x) :
    (y * (ev ny x / ev dy x)) ^ 2 = (ev nx x / ev dx x) ^ 3 + 0 * (ev nx x / ev dx x) + ((5 : Nat) : ZMod p) := by
  rw [iso_image iso_check hy (den_ok hy).1 (den_ok hy).2, zero_mul, add_zero]

/-- SPEC: the isogeny on affine points. -/
def phi (x y : ZMod p) (hy : y ^ 2 = rhs (ia : ZMod p) (ib : ZMod p) x) : PP :=
  .some (ev nx x / ev dx x) (y * (ev ny x / ev dy x)) (nonsing two noTwo (image_eqn hy))

/-! ## The constants -/

theorem rep_iso0 : Rep p (iso 0) ((6432893846517566412420610278260439325191790329320346825767705947633326140075 : Nat) : ZMod p) := rep_setLimbs LP _ _ (by decide +kernel)
theorem rep_iso1 : Rep p (iso 1) ((23989696149150192365340222745168215001509815558210986772351135915822265203574 : Nat) : ZMod p) := rep_setLimbs LP _ _ (by decide +kernel)
theorem rep_iso2 : Rep p (iso 2) ((10492611921771203378452795982353351666191589197598957448093274638589204800759 : Nat) : ZMod p) := rep_setLimbs LP _ _ (by decide +kernel)
theorem rep_iso3 : Rep p (iso 3) ((12865787693035132824841220556520878650383580658640693651535411895266652280192 : Nat) : ZMod p) := rep_setLimbs LP _ _ (by decide +kernel)
theorem rep_iso4 : Rep p (iso 4) ((13271109177048389296812780941310096270046944650307955939477485891950613419807 : Nat) : ZMod p) := rep_setLimbs LP _ _ (by decide +kernel)
theorem rep_iso5 : Rep p (iso 5) ((22768321103861051515190775253992702316905399997697804654926324362758820947460 : Nat) : ZMod p) := rep_setLimbs LP _ _ (by decide +kernel)
theorem rep_iso6 : Rep p (iso 6) ((11793638718615538422771118843477472096184948937087302513907460903994431256804 : Nat) : ZMod p) := rep_setLimbs LP _ _ (by decide +kernel)
theorem rep_iso7 : Rep p (iso 7) ((11994848074575096182670111372584107500754907779105493386175567957911132601787 : Nat) : ZMod p) := rep_setLimbs LP _ _ (by decide +kernel)
theorem rep_iso8 : Rep p (iso 8) ((28823569610051396102362669851238297121581474897215657071023781420043761726004 : Nat) : ZMod p) := rep_setLimbs LP _ _ (by decide +kernel)
theorem rep_iso9 : Rep p (iso 9) ((1072148974419594402070101713043406554198631721553391137627950991272221023311 : Nat) : ZMod p) := rep_setLimbs LP _ _ (by decide +kernel)
theorem rep_iso10 : Rep p (iso 10) ((5432652610908059517272798285879155923388888734491153551238890455750936314542 : Nat) : ZMod p) := rep_setLimbs LP _ _ (by decide +kernel)
theorem rep_iso11 : Rep p (iso 11) ((10408918692925056833786833257634153023990087029210292532869619559576527581706 : Nat) : ZMod p) := rep_setLimbs LP _ _ (by decide +kernel)
theorem rep_iso12 : Rep p (iso 12) ((28948022309329048855892746252171976963363056481941560715954676764349967629797 : Nat) : ZMod p) := rep_setLimbs LP _ _ (by decide +kernel)
theorem rep_isoa : Rep p isoa (ia : ZMod p) := rep_setLimbs LP _ _ (by decide +kernel)
theorem rep_isob : Rep p isob (ib : ZMod p) := rep_setLimbs LP _ _ (by decide +kernel)
theorem rep_zz : Rep p zz sz := by
  have h : Rep p zz ((p - 13 : Nat) : ZMod p) := rep_setLimbs LP _ _ (by decide +kernel)
  have e : ((p - 13 : Nat) : ZMod p) = sz := by
    rw [Nat.cast_sub (by decide +kernel), ZMod.natCast_self, zero_sub]
    rfl
  rwa [e] at h

/-- The value of `c1`. -/
def c1N : Nat := 27621765684163866304428113419920337701748135220098833891977502098763220572152
/-- The value of `c2`. -/
def c2N : Nat := 11133854734357326483035671635450760370524252493054446429213337217057679857822

theorem rep_c1 : Rep p ⟨0x1ee770ce078456ec, 0x48cfd64c2ce76be0, 0x43d5774c0ab79e2f, 0x23368d2bdce28cf3⟩ (c1N : ZMod p) :=
  rep_of_powMod LP (by decide +kernel) (by decide +kernel)
theorem rep_c2 : Rep p ⟨0x03df915f89d89d8a, 0x8f1e8db09ef82653, 0xd89d89d89d89d89d, 0x1d89d89d89d89d89⟩ (c2N : ZMod p) :=
  rep_of_powMod LP (by decide +kernel) (by decide +kernel)

theorem ia_ne : (ia : ZMod p) ≠ 0 := by
  rw [Ne, ZMod.natCast_eq_zero_iff]
  decide +kernel

theorem cast_eq_of_mod {m n : Nat} (h : m % p = n % p) : (m : ZMod p) = (n : ZMod p) := (ZMod.natCast_eq_natCast_iff _ _ _).2 h

theorem c1_eq : (c1N : ZMod p) = -(ib : ZMod p) / (ia : ZMod p) := by
  have h := cast_eq_of_mod (m := c1N * ia + ib) (n := 0) (by decide +kernel)
  rw [Nat.cast_add, Nat.cast_mul, Nat.cast_zero] at h
  rw [eq_div_iff ia_ne]
  exact eq_neg_of_add_eq_zero_left h

theorem sz_ne : sz ≠ 0 := by
  have h : ((p - 13 : Nat) : ZMod p) = sz := by
    rw [Nat.cast_sub (by decide +kernel), ZMod.natCast_self, zero_sub]
    rfl
  rw [← h, Ne, ZMod.natCast_eq_zero_iff]
  decide +kernel

theorem c2_eq : (c2N : ZMod p) = -1 / sz := by
  have h := cast_eq_of_mod (m := 13 * c2N) (n := 1) (by decide +kernel)
  rw [Nat.cast_mul, Nat.cast_one] at h
  rw [eq_div_iff sz_ne]
  unfold sz
  have h13 : ((13 : Nat) : ZMod p) = 13 := by push_cast; rfl
  rw [h13] at h
  generalize (c2N : ZMod p) = c at h
  linear_combination -h

theorem sz_nonsquare : ¬ IsSquare sz := by
  have h : ((p - 13 : Nat) : ZMod p) = sz := by
    rw [Nat.cast_sub (by decide +kernel), ZMod.natCast_self, zero_sub]
    rfl
  rw [← h]
  exact Sswu.not_square (by decide +kernel) (by decide +kernel) (by decide +kernel) (by decide +kernel)

theorem exc_eq : (ib : ZMod p) / (sz * (ia : ZMod p)) = (c2N : ZMod p) * (c1N : ZMod p) := by
  rw [c1_eq, c2_eq]
  have := ia_ne
  have := sz_ne
  field_simp

theorem exc_square : IsSquare (rhs (ia : ZMod p) (ib : ZMod p) ((ib : ZMod p) / (sz * (ia : ZMod p)))) := by
  rw [exc_eq]
  have h := cast_eq_of_mod (m := 1448774895934493446148762800986014913165975534940595774801697325542407056356 ^ 2) (n := (c2N * c1N) ^ 3 + ia * (c2N * c1N) + ib) (by decide +kernel)
  rw [Nat.cast_add, Nat.cast_add, Nat.cast_mul, Nat.cast_pow, Nat.cast_pow, Nat.cast_mul] at h
  exact ⟨_, by rw [← pow_two, h]; rfl⟩

theorem cmoveB_eq (l r : L4) (b : Bool) : cmoveB l r b = if b then r else l := by
  unfold cmoveB Pasta.cmove
  cases b
  · exact (selectznzS_eq 0 (by decide) l r).trans (selectznz_zero l r)
  · exact (selectznzS_eq 1 (by decide) l r).trans (selectznz_one l r)

theorem sqrt_spec {a : L4} {x : ZMod p} (ha : Rep p a x) :
    ∃ y, Rep p (Pasta.sqrt pastaFp a).1 y ∧ ((Pasta.sqrt pastaFp a).2 = true ↔ y * y = x) ∧
      ((Pasta.sqrt pastaFp a).2 = true ↔ IsSquare x) := by
  obtain ⟨-, -, -, -, -, -, hc3, -, ⟨g, hg1, hg2⟩, -⟩ := C67_instances
  exact C67_sqrt (F := pastaFp) LF hc3 hg1 hg2 ha

theorem invert_spec {a : L4} {x : ZMod p} (ha : Rep p a x) : Rep p (Pasta.invert pastaFp a).1 x⁻¹ :=
  (C67_invert (F := pastaFp) LF C67_instances.2.2.2.2.1 (by decide +kernel) ha).1

/-- The sign used by the map: the parity of the least representative. -/
def sgn (y : ZMod p) : Nat := y.val % 2

/-- **C86.** The map to the isogenous curve is the simplified SWU map of RFC 9380 for the non-square `-13`, for every field
element, the exceptional ones (`u = 0`) included; the result has `z = 1`. -/
theorem C86_sswu {u : L4} {w : ZMod p} (hu : Rep p u w) :
    ∃ x y, Rep p (mapSswu u).X x ∧ Rep p (mapSswu u).Y y ∧ Rep p (mapSswu u).Z 1 ∧
      IsSwu (ia : ZMod p) (ib : ZMod p) sz sgn w x y := by
  have h1 := (C50_constants LP).1
  have hu2 := C50_square LP hu
  have htv1 := C50_mul LP rep_zz hu2
  have htv2 := C50_square LP htv1
  have hd := invert_spec (C50_add LP htv1 htv2)
  have hz := (C67_equal LF hd hd).2.1
  have hx1 : Rep p (A.mul (cmoveB (A.add (Pasta.invert pastaFp (A.add (A.mul zz (A.square u)) (A.square (A.mul zz (A.square u))))).1
      (Field.one PastaFp.params)) ⟨0x03df915f89d89d8a, 0x8f1e8db09ef82653, 0xd89d89d89d89d89d, 0x1d89d89d89d89d89⟩
      (Pasta.isZero (Pasta.invert pastaFp (A.add (A.mul zz (A.square u)) (A.square (A.mul zz (A.square u))))).1))
      ⟨0x1ee770ce078456ec, 0x48cfd64c2ce76be0, 0x43d5774c0ab79e2f, 0x23368d2bdce28cf3⟩)
      (cand1 (ia : ZMod p) (ib : ZMod p) sz w) := by
    rw [cmoveB_eq]
    unfold cand1
    dsimp only
    have et : (sz * w ^ 2) ^ 2 + sz * w ^ 2 = sz * (w * w) + sz * (w * w) * (sz * (w * w)) := by ring
    rw [et]
    by_cases hc : sz * (w * w) + sz * (w * w) * (sz * (w * w)) = 0
    · rw [if_pos (hz.2 (by rw [hc, inv_zero])), if_pos hc, exc_eq]
      exact C50_mul LP rep_c2 rep_c1
    · rw [if_neg (fun h => hc (inv_eq_zero.1 (hz.1 h))), if_neg hc]
      have := C50_mul LP (C50_add LP hd h1) rep_c1
      rw [c1_eq] at this
      have e : ∀ d k : ZMod p, (d⁻¹ + 1) * k = k * (1 + 1 / d) := fun d k => by rw [one_div]; ring
      rw [e] at this
      exact this
  unfold mapSswu
  dsimp only
  generalize A.mul (cmoveB _ _ _) _ = x1 at hx1 ⊢
  have hgx1 := C50_add LP (C50_mul LP (C50_add LP (C50_square LP hx1) rep_isoa) hx1) rep_isob
  have eg : ∀ X a b : ZMod p, (X * X + a) * X + b = rhs a b X := fun X a b => by unfold rhs; ring
  rw [eg] at hgx1
  have hgx2 := C50_mul LP hgx1 (C50_mul LP htv1 htv2)
  have hx2 := C50_mul LP htv1 hx1
  generalize A.add (A.mul (A.add (A.square x1) isoa) x1) isob = gx1 at hgx1 hgx2 ⊢
  generalize A.mul gx1 (A.mul (A.mul zz (A.square u)) (A.square (A.mul zz (A.square u)))) = gx2 at hgx2 ⊢
  generalize A.mul (A.mul zz (A.square u)) x1 = x2 at hx2 ⊢
  obtain ⟨y1, hy1, a1, b1⟩ := sqrt_spec hgx1
  obtain ⟨y2, hy2, a2, b2⟩ := sqrt_spec hgx2
  -- the choice of the abscissa and a root
  obtain ⟨x, y, hx, hy, hsel, hyy⟩ : ∃ x y, Rep p (cmoveB x2 x1 (Pasta.sqrt pastaFp gx1).2) x ∧
      Rep p (cmoveB (Pasta.sqrt pastaFp gx2).1 (Pasta.sqrt pastaFp gx1).1 (Pasta.sqrt pastaFp gx1).2) y ∧
      ((IsSquare (rhs (ia : ZMod p) (ib : ZMod p) (cand1 (ia : ZMod p) (ib : ZMod p) sz w)) ∧ x = cand1 (ia : ZMod p) (ib : ZMod p) sz w) ∨
       (¬ IsSquare (rhs (ia : ZMod p) (ib : ZMod p) (cand1 (ia : ZMod p) (ib : ZMod p) sz w)) ∧
          x = sz * w ^ 2 * cand1 (ia : ZMod p) (ib : ZMod p) sz w)) ∧ y ^ 2 = rhs (ia : ZMod p) (ib : ZMod p) x := by
    rw [cmoveB_eq, cmoveB_eq]
    by_cases hs : IsSquare (rhs (ia : ZMod p) (ib : ZMod p) (cand1 (ia : ZMod p) (ib : ZMod p) sz w))
    · rw [b1.2 hs]
      exact ⟨_, y1, hx1, hy1, Or.inl ⟨hs, rfl⟩, by rw [pow_two]; exact a1.1 (b1.2 hs)⟩
    · have hf : (Pasta.sqrt pastaFp gx1).2 = false := by
        rw [← Bool.not_eq_true]
        exact fun h => hs (b1.1 h)
      rw [hf]
      obtain ⟨k1, k2, -⟩ := cand2_square ia_ne sz_nonsquare exc_square hs
      have e2 : rhs (ia : ZMod p) (ib : ZMod p) (cand1 (ia : ZMod p) (ib : ZMod p) sz w) *
          (sz * (w * w) * (sz * (w * w) * (sz * (w * w)))) = rhs (ia : ZMod p) (ib : ZMod p) (sz * w ^ 2 * cand1 (ia : ZMod p) (ib : ZMod p) sz w) := by
        rw [k1]; ring
      rw [e2] at a2 b2
      refine ⟨_, y2, hx2, hy2, Or.inr ⟨hs, by rw [pow_two]⟩, ?_⟩
      rw [← pow_two w] at *
      rw [pow_two]
      exact a2.1 (b2.2 k2)
  generalize cmoveB x2 x1 (Pasta.sqrt pastaFp gx1).2 = X at hx ⊢
  generalize cmoveB (Pasta.sqrt pastaFp gx2).1 (Pasta.sqrt pastaFp gx1).1 (Pasta.sqrt pastaFp gx1).2 = Y at hy ⊢
  have ou := C67_isOdd LF hu
  have oy := C67_isOdd LF hy
  rw [cmoveB_eq]
  by_cases hpar : w.val % 2 = y.val % 2
  · have : (Pasta.isOdd pastaFp u == Pasta.isOdd pastaFp Y) = true := by
      rw [beq_iff_eq, Bool.eq_iff_iff, ou, oy, hpar]
    rw [this]
    exact ⟨x, y, hx, hy, h1, hsel, hyy, Or.inr hpar.symm⟩
  · have : (Pasta.isOdd pastaFp u == Pasta.isOdd pastaFp Y) = false := by
      rw [← Bool.not_eq_true, beq_iff_eq, Bool.eq_iff_iff, ou, oy]
      omega
    rw [this]
    refine ⟨x, -y, hx, C50_neg LP hy, h1, hsel, by rw [neg_sq]; exact hyy, ?_⟩
    by_cases h0 : y = 0
    · exact Or.inl (by rw [h0, neg_zero])
    · refine Or.inr ?_
      have := neg_parity odd h0
      unfold sgn
      omega

/-- Quotients from Jacobian pieces. -/
theorem iso_jac {F : Type} [Field F] {NX DX NY DY η Z : F} (hZ : Z ≠ 0) (h1 : DX ≠ 0) (h2 : DY ≠ 0) :
    (Z ^ 6 * NX) * (Z ^ 9 * DY) * ((Z ^ 6 * DX) * (Z ^ 9 * DY)) = NX / DX * ((Z ^ 6 * DX) * (Z ^ 9 * DY)) ^ 2 ∧
    (Z ^ 9 * NY * η) * (Z ^ 6 * DX) * (((Z ^ 6 * DX) * (Z ^ 9 * DY)) * ((Z ^ 6 * DX) * (Z ^ 9 * DY))) =
      η * (NY / DY) * ((Z ^ 6 * DX) * (Z ^ 9 * DY)) ^ 3 ∧ (Z ^ 6 * DX) * (Z ^ 9 * DY) ≠ 0 := by
  refine ⟨by field_simp, by field_simp, by simp [hZ, h1, h2]⟩

theorem horner4 {F : Type} [Field F] (c0 c1 c2 c3 : Nat) (ξ Z : F) :
    (((c0 : F) * (ξ * Z ^ 2) + (c1 : F) * (Z * Z)) * (ξ * Z ^ 2) + (c2 : F) * ((Z * Z) * (Z * Z))) * (ξ * Z ^ 2) +
      (c3 : F) * ((Z * Z * Z) * (Z * Z * Z)) = Z ^ 6 * ev [c3, c2, c1, c0] ξ := by
  simp only [ev_cons, ev_nil]
  ring

theorem horner3 {F : Type} [Field F] (c1 c2 : Nat) (ξ Z : F) :
    (((Z * Z) * (ξ * Z ^ 2)) + (c1 : F) * ((Z * Z) * (Z * Z))) * (ξ * Z ^ 2) + (c2 : F) * ((Z * Z * Z) * (Z * Z * Z)) =
      Z ^ 6 * ev [c2, c1, 1] ξ := by
  simp only [ev_cons, ev_nil]
  push_cast
  ring

theorem horner4' {F : Type} [Field F] (c1 c2 c3 : Nat) (ξ Z : F) :
    ((((ξ * Z ^ 2) + (c1 : F) * (Z * Z)) * (ξ * Z ^ 2) + (c2 : F) * ((Z * Z) * (Z * Z))) * (ξ * Z ^ 2) +
      (c3 : F) * ((Z * Z * Z) * (Z * Z * Z))) * (Z * Z * Z) = Z ^ 9 * ev [c3, c2, c1, 1] ξ := by
  simp only [ev_cons, ev_nil]
  push_cast
  ring

/-- **C86.** The isogeny map: on Jacobian coordinates of a point `(ξ, η)` of the isogenous curve it returns Jacobian coordinates of
the point of Pallas given by the quotients of polynomials; the image is never the neutral element. -/
theorem C86_isogeny {e : EP} {ξ η Z : ZMod p} (hX : Rep p e.X (ξ * Z ^ 2)) (hY : Rep p e.Y (η * Z ^ 3)) (hZ : Rep p e.Z Z)
    (hz : Z ≠ 0) (hc : η ^ 2 = rhs (ia : ZMod p) (ib : ZMod p) ξ) : ERep (isoMap e) (phi ξ η hc) := by
  have z0 := C50_square LP hZ
  have z1 := C50_mul LP z0 hZ
  have z2 := C50_square LP z0
  have z3 := C50_square LP z1
  have n := C50_add LP (C50_mul LP (C50_add LP (C50_mul LP (C50_add LP (C50_mul LP rep_iso0 hX) (C50_mul LP rep_iso1 z0)) hX)
    (C50_mul LP rep_iso2 z2)) hX) (C50_mul LP rep_iso3 z3)
  rw [horner4] at n
  have d := C50_add LP (C50_mul LP (C50_add LP (C50_mul LP z0 hX) (C50_mul LP rep_iso4 z2)) hX) (C50_mul LP rep_iso5 z3)
  rw [horner3] at d
  have m := C50_add LP (C50_mul LP (C50_add LP (C50_mul LP (C50_add LP (C50_mul LP rep_iso6 hX) (C50_mul LP rep_iso7 z0)) hX)
    (C50_mul LP rep_iso8 z2)) hX) (C50_mul LP rep_iso9 z3)
  rw [horner4] at m
  have m' := C50_mul LP m hY
  have f := C50_mul LP (C50_add LP (C50_mul LP (C50_add LP (C50_mul LP (C50_add LP hX (C50_mul LP rep_iso10 z0)) hX)
    (C50_mul LP rep_iso11 z2)) hX) (C50_mul LP rep_iso12 z3)) z1
  rw [horner4'] at f
  have em : Z ^ 6 * ev ny ξ * (η * Z ^ 3) = Z ^ 9 * ev ny ξ * η := by ring
  have hm : Rep p _ (Z ^ 9 * ev ny ξ * η) := em ▸ m'
  have r := C50_mul LP d f
  have x := C50_mul LP (C50_mul LP n f) r
  have y := C50_mul LP (C50_mul LP hm d) (C50_square LP r)
  obtain ⟨j1, j2, j3⟩ := iso_jac (NX := ev nx ξ) (NY := ev ny ξ) (η := η) hz (den_ok hc).1 (den_ok hc).2
  exact ⟨_, _, _, x, y, r, Or.inr ⟨j3, _, _, _, rfl, j1, j2⟩⟩

/-- No point of the isogenous curve has ordinate zero, so the SWU image has the sign of its argument. -/
theorem ordinate_ne {x y : ZMod p} (hy : y ^ 2 = rhs (ia : ZMod p) (ib : ZMod p) x) : y ≠ 0 := by
  intro h
  exact y_ne_zero noTwo (image_eqn hy) (by rw [h, zero_mul])

/-- SPEC: the point a field element is mapped to. -/
def IsMap (w : ZMod p) (P : PP) : Prop :=
  ∃ x y, IsSwu (ia : ZMod p) (ib : ZMod p) sz sgn w x y ∧ sgn y = sgn w ∧ ∃ hc, P = phi x y hc

/-- **C86.** The point a field element is mapped to exists, is unique and is not the neutral element. -/
theorem C86_map_unique (w : ZMod p) : ∃! P : PP, IsMap w P := by
  have hw : Rep p (Field.setLimbs A (L4.ofNat w.val)) w := by
    have := C50_setLimbs LP (L4.ofNat w.val)
    rw [L4.val_ofNat _ (lt_trans (ZMod.val_lt w) LP.lt), ZMod.natCast_zmod_val] at this
    exact this
  obtain ⟨x, y, -, -, -, hs⟩ := C86_sswu hw
  refine ⟨phi x y hs.2.1, ⟨x, y, hs, hs.2.2.resolve_left (ordinate_ne hs.2.1), hs.2.1, rfl⟩, ?_⟩
  rintro Q ⟨x', y', hs', -, hc', rfl⟩
  obtain ⟨rfl, rfl⟩ := swu_unique (sgn := sgn) (fun y hy => neg_parity odd hy) hs hs'
  rfl

theorem map_spec {u : L4} {w : ZMod p} (hu : Rep p u w) : ∃ P, ERep (isoMap (mapSswu u)) P ∧ IsMap w P ∧ P ≠ 0 := by
  obtain ⟨x, y, hx, hy, h1, hs⟩ := C86_sswu hu
  refine ⟨phi x y hs.2.1, C86_isogeny (Z := 1) (by rw [one_pow, mul_one]; exact hx) (by rw [one_pow, mul_one]; exact hy) h1
    one_ne_zero hs.2.1, ⟨x, y, hs, hs.2.2.resolve_left (ordinate_ne hs.2.1), hs.2.1, rfl⟩, WeierstrassCurve.Affine.Point.some_ne_zero _⟩

theorem expand_eq (H : Hash.HashFn) (msg dst : List UInt8) (hd : dst.length ≤ 255) (len : Nat) :
    expandMsgXmd H msg dst len = Hash.expandNative H msg dst len := by
  have : Hash.getDomainXmd H dst = dst := if_neg (by omega)
  unfold expandMsgXmd Hash.expandNative
  rw [this]

/-- SPEC: the tag, spelled out. -/
def suiteTag : List UInt8 := "pallas_XMD:BLAKE2b_SSWU_RO_".toList.map fun c => UInt8.ofNat c.toNat

theorem tag_eq : tag = suiteTag := by decide +kernel

/-- **C86.** `Hash` never fails: for every message the result is the sum of the points the two field elements are mapped to, these
being the two 64-byte halves, little-endian, of the 128 bytes RFC 9380's `expand_message_xmd` yields for the message and the tag. -/
theorem C86_hash (H : Hash.HashFn) (hs : H.size ≤ 255) (msg : List UInt8) :
    ∃ e P Q, hash H msg = .ok e ∧ ERep e (P + Q) ∧
      IsMap (leToNat ((Hash.rfcExpand H msg suiteTag 128).take 64) : ZMod p) P ∧
      IsMap (leToNat ((Hash.rfcExpand H msg suiteTag 128).drop 64) : ZMod p) Q := by
  rw [← tag_eq]
  have hx : expandMsgXmd H msg tag 128 = .ok (Hash.rfcExpand H msg tag 128) := by
    rw [expand_eq H msg tag (by decide), Hash.C55_native_rfc H hs msg tag 128 (by decide), if_neg (by decide)]
  obtain ⟨out, ho, hl⟩ := Hash.C55_native_never_refuses H msg tag hs 128 (by decide)
  rw [← expand_eq H msg tag (by decide), hx] at ho
  obtain rfl := Res.ok.inj ho
  unfold hash
  rw [hx]
  dsimp only
  generalize Hash.rfcExpand H msg tag 128 = u at hl
  obtain ⟨P, hP, mP, -⟩ := map_spec (C50_setBytesWide LP (u.take 64) (by rw [List.length_take]; omega))
  obtain ⟨Q, hQ, mQ, -⟩ := map_spec (C50_setBytesWide LP (u.drop 64) (by rw [List.length_drop]; omega))
  exact ⟨_, P, Q, rfl, add_spec hP hQ, mP, mQ⟩

end Verif.Native.Pallas
