import Verif.Bls381.HashBase
import Verif.Bls381.G1Api

/-!
# Hashing to G1
(`crypto/core/curves/native/bls12381/g1.go`)
-/

set_option maxRecDepth 20000
set_option linter.unusedSectionVars false
set_option exponentiation.threshold 1000

namespace Verif.Bls381.G1
open Verif.Bytes Verif.Native Verif.Native.Weier Verif.Native.Sswu P3

/-- `osswuMapA` (crypto/core/curves/native/bls12381/g1.go:39-46). -/
def mapA : L6 := ⟨0x2f65aa0e9af5aa51, 0x86464c2d1e8416c3, 0xb85ce591b7bd31e2, 0x27e11c91b5f24e7c, 0x28376eda6bfc1835, 0x155455c3e5071d85⟩
/-- `osswuMapB` (crypto/core/curves/native/bls12381/g1.go:47-54). -/
def mapB : L6 := ⟨0xfb996971fe22a1e0, 0x9aa93eb35b742d6f, 0x8c476013de99c5c4, 0x873e27c3a221e571, 0xca72b5e45a52d888, 0x06824061418a386b⟩
/-- `osswuMapC1` (crypto/core/curves/native/bls12381/g1.go:55-62). -/
def mapC1 : L6 := ⟨0xee7fbfffffffeaaa, 0x07aaffffac54ffff, 0xd9cc34a83dac3d89, 0xd91dd2e13ce144af, 0x92c6e9ed90d2eb35, 0x0680447a8e5ff9a6⟩
/-- `osswuMapC2` (crypto/core/curves/native/bls12381/g1.go:63-70). -/
def mapC2 : L6 := ⟨0x43b571cad3215f1f, 0xccb460ef1c702dc2, 0x742d884f4f97100b, 0xdb2c3e3238a3382b, 0xe40f3fa13fce8f88, 0x0073a2af9892a2ff⟩
/-- `oswwuMapZ` (crypto/core/curves/native/bls12381/g1.go:71-78). -/
def mapZ : L6 := ⟨0x886c00000023ffdc, 0x0f70008d3090001d, 0x77672417ed5828c3, 0x9dac23e943dc1740, 0x50553f1b9c131521, 0x078c712fbe0ab6e8⟩
/-- `oswwuMapXd1` (crypto/core/curves/native/bls12381/g1.go:79). -/
def mapXd1 : L6 := Fp.mul mapZ mapA
/-- `negOsswuMapA` (crypto/core/curves/native/bls12381/g1.go:80). -/
def negMapA : L6 := Fp.neg mapA

/-- `g1IsoXNum`, `g1IsoXDen`, `g1IsoYNum`, `g1IsoYDen` (crypto/core/curves/native/bls12381/g1.go:82-529). -/
def isoTab : IsoTab L6 where
  xNum := [⟨0x4d18b6f3af00131c, 0x19fa219793fee28c, 0x3f2885f1467f19ae, 0x23dcea34f2ffb304, 0xd15b58d2ffc00054, 0x0913be200a20bef4⟩,
    ⟨0x898985385cdbbd8b, 0x3c79e43cc7d966aa, 0x1597e193f4cd233a, 0x8637ef1e4d6623ad, 0x11b22deed20d827b, 0x07097bc5998784ad⟩,
    ⟨0xa542583a480b664b, 0xfc7169c026e568c6, 0x5ba2ef314ed8b5a6, 0x5b5491c05102f0e7, 0xdf6e99707d2a0079, 0x0784151ed7605524⟩,
    ⟨0x494e212870f72741, 0xab9be52fbda43021, 0x26f5577994e34c3d, 0x049dfee82aefbd60, 0x65dadd7828505289, 0x0e93d431ea011aeb⟩,
    ⟨0x90ee774bd6a74d45, 0x7ada1c8a41bfb185, 0x0f1a8953b325f464, 0x104c24211be4805c, 0x169139d319ea7a8f, 0x09f20ead8e532bf6⟩,
    ⟨0x6ddd93e2f43626b7, 0xa5482c9aa1ccd7bd, 0x143245631883f4bd, 0x2e0a94ccf77ec0db, 0xb0282d480e56489f, 0x18f4bfcbb4368929⟩,
    ⟨0x23c5f0c953402dfd, 0x7a43ff6958ce4fe9, 0x2c390d3d2da5df63, 0xd0df5c98e1f9d70f, 0xffd89869a572b297, 0x1277ffc72f25e8fe⟩,
    ⟨0x79f4f0490f06a8a6, 0x85f894a88030fd81, 0x12da3054b18b6410, 0xe2a57f6505880d65, 0xbba074f260e400f1, 0x08b76279f621d028⟩,
    ⟨0xe67245ba78d5b00b, 0x8456ba9a1f186475, 0x7888bff6e6b33bb4, 0xe21585b9a30f86cb, 0x05a69cdcef55feee, 0x09e699dd9adfa5ac⟩,
    ⟨0x0de5c357bff57107, 0x0a0db4ae6b1a10b2, 0xe256bb67b3b3cd8d, 0x8ad456574e9db24f, 0x0443915f50fd4179, 0x098c4bf7de8b6375⟩,
    ⟨0xe6b0617e7dd929c7, 0xfe6e37d442537375, 0x1dafdeda137a489e, 0xe4efd1ad3f767ceb, 0x4a51d8667f0fe1cf, 0x054fdf4bbf1d821c⟩,
    ⟨0x72db2a50658d767b, 0x8abf91faa257b3d5, 0xe969d6833764ab47, 0x464170142a1009eb, 0xb14f01aadb30be2f, 0x18ae6a856f40715d⟩]
  xDen := [⟨0xb962a077fdb0f945, 0xa6a9740fefda13a0, 0xc14d568c3ed6c544, 0xb43fc37b908b133e, 0x9c0b3ac929599016, 0x0165aa6c93ad115f⟩,
    ⟨0x23279a3ba506c1d9, 0x92cfca0a9465176a, 0x3b294ab13755f0ff, 0x116dda1c5070ae93, 0xed4530924cec2045, 0x083383d6ed81f1ce⟩,
    ⟨0x9885c2a6449fecfc, 0x4a2b54ccd37733f0, 0x17da9ffd8738c142, 0xa0fba72732b3fafd, 0xff364f36e54b6812, 0x0f29c13c660523e2⟩,
    ⟨0xe349cc118278f041, 0xd487228f2f3204fb, 0xc9d325849ade5150, 0x43a92bd69c15c2df, 0x1c2c7844bc417be4, 0x12025184f407440c⟩,
    ⟨0x587f65ae6acb057b, 0x1444ef325140201f, 0xfbf995e71270da49, 0xccda066072436a42, 0x7408904f0f186bb2, 0x13b93c63edf6c015⟩,
    ⟨0xfb918622cd141920, 0x4a4c64423ecaddb4, 0x0beb232927f7fb26, 0x30f94df6f83a3dc2, 0xaeedd424d780f388, 0x06cc402dd594bbeb⟩,
    ⟨0xd41f761151b23f8f, 0x32a92465435719b3, 0x64f436e888c62cb9, 0xdf70a9a1f757c6e4, 0x6933a38d5b594c81, 0x0c6f7f7237b46606⟩,
    ⟨0x693c08747876c8f7, 0x22c9850bf9cf80f0, 0x8e9071dab950c124, 0x89bc62d61c7baf23, 0xbc6be2d8dad57c23, 0x17916987aa14a122⟩,
    ⟨0x1be3ff439c1316fd, 0x9965243a7571dfa7, 0xc7f7f62962f5cd81, 0x32c6aa9af394361c, 0xbbc2ee18e1c227f4, 0x0c102cbac531bb34⟩,
    ⟨0x997614c97bacbf07, 0x61f86372b99192c0, 0x5b8c95fc14353fc3, 0xca2b066c2a87492f, 0x16178f5bbf698711, 0x12a6dcd7f0f4e0e8⟩,
    ⟨0x760900000002fffd, 0xebf4000bc40c0002, 0x5f48985753c758ba, 0x77ce585370525745, 0x5c071a97a256ec6d, 0x15f65ec3fa80e493⟩]
  yNum := [⟨0x2b567ff3e2837267, 0x1d4d9e57b958a767, 0xce028fea04bd7373, 0xcc31a30a0b6cd3df, 0x7d7b18a682692693, 0x0d300744d42a0310⟩,
    ⟨0x99c2555fa542493f, 0xfe7f53cc4874f878, 0x5df0608b8f97608a, 0x14e03832052b49c8, 0x706326a6957dd5a4, 0x0a8dadd9c2414555⟩,
    ⟨0x13d942922a5cf63a, 0x357e33e36e261e7d, 0xcf05a27c8456088d, 0x0000bd1de7ba50f0, 0x83d0c7532f8c1fde, 0x13f70bf38bbf2905⟩,
    ⟨0x5c57fd95bfafbdbb, 0x28a359a65e541707, 0x3983ceb4f6360b6d, 0xafe19ff6f97e6d53, 0xb3468f4550192bf7, 0x0bb6cde49d8ba257⟩,
    ⟨0x590b62c7ff8a513f, 0x314b4ce372cacefd, 0x6bef32ce94b8a800, 0x6ddf84a095713d5f, 0x64eace4cb0982191, 0x0386213c651b888d⟩,
    ⟨0xa5310a31111bbcdd, 0xa14ac0f5da148982, 0xf9ad9cc95423d2e9, 0xaa6ec095283ee4a7, 0xcf5b1f022e1c9107, 0x01fddf5aed881793⟩,
    ⟨0x65a572b0d7a7d950, 0xe25c2d8183473a19, 0xc2fcebe7cb877dbd, 0x05b2d36c769a89b0, 0xba12961be86e9efb, 0x07eb1b29c1dfde1f⟩,
    ⟨0x93e09572f7c4cd24, 0x364e929076795091, 0x8569467e68af51b5, 0xa47da89439f5340f, 0xf4fa918082e44d64, 0x0ad52ba3e6695a79⟩,
    ⟨0x911429844e0d5f54, 0xd03f51a3516bb233, 0x3d587e5640536e66, 0xfa86d2a3a9a73482, 0xa90ed5adf1ed5537, 0x149c9c326a5e7393⟩,
    ⟨0x462bbeb03c12921a, 0xdc9af5fa0a274a17, 0x9a558ebde836ebed, 0x649ef8f11a4fae46, 0x8100e1652b3cdc62, 0x1862bd62c291dacb⟩,
    ⟨0x05c9b8ca89f12c26, 0x0194160fa9b9ac4f, 0x6a643d5a6879fa2c, 0x14665bdd8846e19d, 0xbb1d0d53af3ff6bf, 0x12c7e1c3b28962e5⟩,
    ⟨0xb55ebf900b8a3e17, 0xfedc77ec1a9201c4, 0x1f07db10ea1a4df4, 0x0dfbd15dc41a594d, 0x389547f2334a5391, 0x02419f98165871a4⟩,
    ⟨0xb416af000745fc20, 0x8e563e9d1ea6d0f5, 0x7c763e17763a0652, 0x01458ef0159ebbef, 0x8346fe421f96bb13, 0x0d2d7b829ce324d2⟩,
    ⟨0x93096bb538d64615, 0x6f2a2619951d823a, 0x8f66b3ea59514fa4, 0xf563e63704f7092f, 0x724b136c4cf2d9fa, 0x046959cfcfd0bf49⟩,
    ⟨0xea748d4b6e405346, 0x91e9079c2c02d58f, 0x41064965946d9b59, 0xa06731f1d2bbe1ee, 0x07f897e267a33f1b, 0x1017290919210e5f⟩,
    ⟨0x872aa6c17d985097, 0xeecc53161264562a, 0x07afe37afff55002, 0x54759078e5be6838, 0xc4b92d15db8acca8, 0x106d87d1b51d13b9⟩]
  yDen := [⟨0xeb6c359d47e52b1c, 0x18ef5f8a10634d60, 0xddfa71a0889d5b7e, 0x723e71dcc5fc1323, 0x52f45700b70d5c69, 0x0a8b981ee47691f1⟩,
    ⟨0x616a3c4f5535b9fb, 0x6f5f037395dbd911, 0xf25f4cc5e35c65da, 0x3e50dffea3c62658, 0x6a33dca523560776, 0x0fadeff77b6bfe3e⟩,
    ⟨0x2be9b66df470059c, 0x24a2c159a3d36742, 0x115dbe7ad10c2a37, 0xb6634a652ee5884d, 0x04fe8bb2b8d81af4, 0x01c2a7a256fe9c41⟩,
    ⟨0xf27bf8ef3b75a386, 0x898b367476c9073f, 0x24482e6b8c2f4e5f, 0xc8e0bbd6fe110806, 0x59b0c17f7631448a, 0x11037cd58b3dbfbd⟩,
    ⟨0x31c7912ea267eec6, 0x1dbf6f1c5fcdb700, 0xd30d4fe3ba86fdb1, 0x3cae528fbee9a2a4, 0xb1cce69b6aa9ad9a, 0x044393bb632d94fb⟩,
    ⟨0xc66ef6efeeb5c7e8, 0x9824c289dd72bb55, 0x71b1a4d2f119981d, 0x104fc1aafb0919cc, 0x0e49df01d942a628, 0x096c3a09773272d4⟩,
    ⟨0x9abc11eb5fadeff4, 0x32dca50a885728f0, 0xfb1fa3721569734c, 0xc4b76271ea6506b3, 0xd466a75599ce728e, 0x0c81d4645f4cb6ed⟩,
    ⟨0x4199f10e5b8be45b, 0xda64e495b1e87930, 0xcb353efe9b33e4ff, 0x9e9efb24aa6424c6, 0xf08d33680a237465, 0x0d3378023e4c7406⟩,
    ⟨0x7eb4ae92ec74d3a5, 0xc341b4aa9fac3497, 0x5be603899e907687, 0x03bfd9cca75cbdeb, 0x564c2935a96bfa93, 0x0ef3c33371e2fdb5⟩,
    ⟨0x7ee91fd449f6ac2e, 0xe5d5bd5cb9357a30, 0x773a8ca5196b1380, 0xd0fda172174ed023, 0x6cb95e0fa776aead, 0x0d22d5a40cec7cff⟩,
    ⟨0xf727e09285fd8519, 0xdc9d55a83017897b, 0x7549d8bd057894ae, 0x178419613d90d8f8, 0xfce95ebdeb5b490a, 0x0467ffaef23fc49e⟩,
    ⟨0xc1769e6a7c385f1b, 0x79bc930deac01c03, 0x5461c75a23ede3b5, 0x6e20829e5c230c45, 0x828e0f1e772a53cd, 0x116aefa749127bff⟩,
    ⟨0x101c10bf2744c10a, 0xbbf18d053a6a3154, 0xa0ecf39ef026f602, 0xfc009d4996dc5153, 0xb9000209d5bd08d3, 0x189e5fe4470cd73c⟩,
    ⟨0x7ebd546ca1575ed2, 0xe47d5a981d081b55, 0x57b2b625b6d4ca21, 0xb0a1ba04228520cc, 0x98738983c2107ff3, 0x13dddbc4799d81d6⟩,
    ⟨0x09319f2e39834935, 0x039e952cbdb05c21, 0x55ba77a9a2f76493, 0xfd04e3dfc6086467, 0xfb95832e7d78742e, 0x0ef9c24eccaf5e0e⟩,
    ⟨0x760900000002fffd, 0xebf4000bc40c0002, 0x5f48985753c758ba, 0x77ce585370525745, 0x5c071a97a256ec6d, 0x15f65ec3fa80e493⟩]

/-- `osswu3mod4` (crypto/core/curves/native/bls12381/g1.go:1032-1090). -/
def osswu3mod4 (u : L6) : Point :=
  let tv1 := Fp.square u
  let tv3 := Fp.mul mapZ tv1
  let tv2 := Fp.square tv3
  let xd := Fp.add tv2 tv3
  let x1n := Fp.add xd Fp.r
  let x1n := Fp.mul x1n mapB
  let xd := Fp.mul negMapA xd
  let xd := Fp.cmove xd mapXd1 (Fp.isZero xd)
  let tv2 := Fp.square xd
  let gxd := Fp.mul tv2 xd
  let tv2 := Fp.mul tv2 mapA
  let gx1 := Fp.square x1n
  let gx1 := Fp.add gx1 tv2
  let gx1 := Fp.mul gx1 x1n
  let tv2 := Fp.mul mapB gxd
  let gx1 := Fp.add gx1 tv2
  let tv4 := Fp.square gxd
  let tv2 := Fp.mul gx1 gxd
  let tv4 := Fp.mul tv4 tv2
  let y1 := Fp.pow tv4 mapC1
  let y1 := Fp.mul y1 tv2
  let x2n := Fp.mul tv3 x1n
  let y2 := Fp.mul y1 mapC2
  let y2 := Fp.mul y2 tv1
  let y2 := Fp.mul y2 u
  let tv2 := Fp.square y1
  let tv2 := Fp.mul tv2 gxd
  let e2 := Fp.equal tv2 gx1
  let x2n := Fp.cmove x2n x1n e2
  let y2 := Fp.cmove y2 y1 e2
  let e3 := Fp.sgn0 u ^^^ Fp.sgn0 y2
  let y2 := Fp.cneg y2 y2 e3
  let x := (Fp.invert xd).1
  let x := Fp.mul x x2n
  ⟨x, y2, Fp.one⟩

/-- `Hash` (crypto/core/curves/native/bls12381/g1.go:552-578). -/
def hash (h : Hasher) (msg dst : List UInt8) : Res Point := do
  let u ← h.expand msg dst 128
  let u0 := Fp.setBytesWide (wideBuf64 (u.take 64))
  let u1 := Fp.setBytesWide (wideBuf64 (u.drop 64))
  let r0 := osswu3mod4 u0
  let r1 := osswu3mod4 u1
  let q0 := isogenyMap F isoTab r0
  let q1 := isogenyMap F isoTab r1
  .ok (clearCofactor (P3.add F q0 q1))

/-- `Random` (crypto/core/curves/native/bls12381/g1.go:536-550): 64 bytes are read, `native.WideFieldBytes`. -/
def random (L : HashLib) (r : Read) : Res Point :=
  if r.failed then .err
  else if r.data.length ≠ 64 then .err
  else hash (newHasher L .sha256) r.buf (strBytes "BLS12381G1_XMD:SHA-256_SSWU_RO_")

/-! ## Specification -/

/-- The isogenous curve `y² = x³ + a' x + b'` (RFC 9380, 8.8.1). -/
def ia : Nat := 0x144698a3b8e9433d693a02c96d4982b0ea985383ee66a8d8e8981aefd881ac98936f8da0e0f97f5cf428082d584c1d
/-- See `ia`. -/
def ib : Nat := 0x12e2908d11688030018b12e8753eee3b2016c1f0f24f4070a0b9c14fcef35ef55a23215a316ceaa5d1cc48e98e172be0

/-- The isogeny, constant term first (RFC 9380, E.2): `x ↦ nx/dx`. -/
def nx : List Nat := [0x11a05f2b1e833340b809101dd99815856b303e88a2d7005ff2627b56cdb4e2c85610c2d5f2e62d6eaeac1662734649b7,
  0x17294ed3e943ab2f0588bab22147a81c7c17e75b2f6a8417f565e33c70d1e86b4838f2a6f318c356e834eef1b3cb83bb,
  0xd54005db97678ec1d1048c5d10a9a1bce032473295983e56878e501ec68e25c958c3e3d2a09729fe0179f9dac9edcb0,
  0x1778e7166fcc6db74e0609d307e55412d7f5e4656a8dbf25f1b33289f1b330835336e25ce3107193c5b388641d9b6861,
  0xe99726a3199f4436642b4b3e4118e5499db995a1257fb3f086eeb65982fac18985a286f301e77c451154ce9ac8895d9,
  0x1630c3250d7313ff01d1201bf7a74ab5db3cb17dd952799b9ed3ab9097e68f90a0870d2dcae73d19cd13c1c66f652983,
  0xd6ed6553fe44d296a3726c38ae652bfb11586264f0f8ce19008e218f9c86b2a8da25128c1052ecaddd7f225a139ed84,
  0x17b81e7701abdbe2e8743884d1117e53356de5ab275b4db1a682c62ef0f2753339b7c8f8c8f475af9ccb5618e3f0c88e,
  0x80d3cf1f9a78fc47b90b33563be990dc43b756ce79f5574a2c596c928c5d1de4fa295f296b74e956d71986a8497e317,
  0x169b1f8e1bcfa7c42e0c37515d138f22dd2ecb803a0c5c99676314baf4bb1b7fa3190b2edc0327797f241067be390c9e,
  0x10321da079ce07e272d8ec09d2565b0dfa7dccdde6787f96d50af36003b14866f69b771f8c285decca67df3f1605fb7b,
  0x6e08c248e260e70bd1e962381edee3d31d79d7e22c837bc23c0bf1bc24c6b68c24b1b80b64d391fa9c8ba2e8ba2d229]
/-- See `nx`. -/
def dx : List Nat := [0x8ca8d548cff19ae18b2e62f4bd3fa6f01d5ef4ba35b48ba9c9588617fc8ac62b558d681be343df8993cf9fa40d21b1c,
  0x12561a5deb559c4348b4711298e536367041e8ca0cf0800c0126c2588c48bf5713daa8846cb026e9e5c8276ec82b3bff,
  0xb2962fe57a3225e8137e629bff2991f6f89416f5a718cd1fca64e00b11aceacd6a3d0967c94fedcfcc239ba5cb83e19,
  0x3425581a58ae2fec83aafef7c40eb545b08243f16b1655154cca8abc28d6fd04976d5243eecf5c4130de8938dc62cd8,
  0x13a8e162022914a80a6f1d5f43e7a07dffdfc759a12062bb8d6b44e833b306da9bd29ba81f35781d539d395b3532a21e,
  0xe7355f8e4e667b955390f7f0506c6e9395735e9ce9cad4d0a43bcef24b8982f7400d24bc4228f11c02df9a29f6304a5,
  0x772caacf16936190f3e0c63e0596721570f5799af53a1894e2e073062aede9cea73b3538f0de06cec2574496ee84a3a,
  0x14a7ac2a9d64a8b230b3f5b074cf01996e7f63c21bca68a81996e1cdf9822c580fa5b9489d11e2d311f7d99bbdcc5a5e,
  0xa10ecf6ada54f825e920b3dafc7a3cce07f8d1d7161366b74100da67f39883503826692abba43704776ec3a79a1d641,
  0x95fc13ab9e92ad4476d6e3eb3a56680f682b4ee96f7d03776df533978f31c1593174e4b4b7865002d6384d168ecdd0a,
  0x1]
/-- `y ↦ y·ny/dy`. -/
def ny : List Nat := [0x90d97c81ba24ee0259d1f094980dcfa11ad138e48a869522b52af6c956543d3cd0c7aee9b3ba3c2be9845719707bb33,
  0x134996a104ee5811d51036d776fb46831223e96c254f383d0f906343eb67ad34d6c56711962fa8bfe097e75a2e41c696,
  0xcc786baa966e66f4a384c86a3b49942552e2d658a31ce2c344be4b91400da7d26d521628b00523b8dfe240c72de1f6,
  0x1f86376e8981c217898751ad8746757d42aa7b90eeb791c09e4a3ec03251cf9de405aba9ec61deca6355c77b0e5f4cb,
  0x8cc03fdefe0ff135caf4fe2a21529c4195536fbe3ce50b879833fd221351adc2ee7f8dc099040a841b6daecf2e8fedb,
  0x16603fca40634b6a2211e11db8f0a6a074a7d0d4afadb7bd76505c3d3ad5544e203f6326c95a807299b23ab13633a5f0,
  0x4ab0b9bcfac1bbcb2c977d027796b3ce75bb8ca2be184cb5231413c4d634f3747a87ac2460f415ec961f8855fe9d6f2,
  0x987c8d5333ab86fde9926bd2ca6c674170a05bfe3bdd81ffd038da6c26c842642f64550fedfe935a15e4ca31870fb29,
  0x9fc4018bd96684be88c9e221e4da1bb8f3abd16679dc26c1e8b6e6a1f20cabe69d65201c78607a360370e577bdba587,
  0xe1bba7a1186bdb5223abde7ada14a23c42a0ca7915af6fe06985e7ed1e4d43b9b3f7055dd4eba6f2bafaaebca731c30,
  0x19713e47937cd1be0dfd0b8f1d43fb93cd2fcbcb6caf493fd1183e416389e61031bf3a5cce3fbafce813711ad011c132,
  0x18b46a908f36f6deb918c143fed2edcc523559b8aaf0c2462e6bfe7f911f643249d9cdf41b44d606ce07c8a4d0074d8e,
  0xb182cac101b9399d155096004f53f447aa7b12a3426b08ec02710e807b4633f06c851c1919211f20d4c04f00b971ef8,
  0x245a394ad1eca9b72fc00ae7be315dc757b3b080d4c158013e6632d3c40659cc6cf90ad1c232a6442d9d3f5db980133,
  0x5c129645e44cf1102a159f748c4a3fc5e673d81d7e86568d9ab0f5d396a7ce46ba1049b6579afb7866b1e715475224b,
  0x15e6be4e990f03ce4ea50b3b42df2eb5cb181d8f84965a3957add4fa95af01b2b665027efec01c7704b456be69c8b604]
/-- See `ny`. -/
def dy : List Nat := [0x16112c4c3a9c98b252181140fad0eae9601a6de578980be6eec3232b5be72e7a07f3688ef60c206d01479253b03663c1,
  0x1962d75c2381201e1a0cbd6c43c348b885c84ff731c4d59ca4a10356f453e01f78a4260763529e3532f6102c2e49a03d,
  0x58df3306640da276faaae7d6e8eb15778c4855551ae7f310c35a5dd279cd2eca6757cd636f96f891e2538b53dbf67f2,
  0x16b7d288798e5395f20d23bf89edb4d1d115c5dbddbcd30e123da489e726af41727364f2c28297ada8d26d98445f5416,
  0xbe0e079545f43e4b00cc912f8228ddcc6d19c9f0f69bbb0542eda0fc9dec916a20b15dc0fd2ededda39142311a5001d,
  0x8d9e5297186db2d9fb266eaac783182b70152c65550d881c5ecd87b6f0f5a6449f38db9dfa9cce202c6477faaf9b7ac,
  0x166007c08a99db2fc3ba8734ace9824b5eecfdfa8d0cf8ef5dd365bc400a0051d5fa9c01a58b1fb93d1a1399126a775c,
  0x16a3ef08be3ea7ea03bcddfabba6ff6ee5a4375efa1f4fd7feb34fd206357132b920f5b00801dee460ee415a15812ed9,
  0x1866c8ed336c61231a1be54fd1d74cc4f9fb0ce4c6af5920abc5750c4bf39b4852cfe2f7bb9248836b233d9d55535d4a,
  0x167a55cda70a6e1cea820597d94a84903216f763e13d87bb5308592e7ea7d4fbc7385ea3d529b35e346ef48bb8913f55,
  0x4d2f259eea405bd48f010a01ad2911d9c6dd039bb61a6290e591b36e636a5c871a5c29f4f83060400f8b49cba8f6aa8,
  0xaccbb67481d033ff5852c1e48c50c477f94ff8aefce42d28c0f9a88cea7913516f968986f7ebbea9684b529e2561092,
  0xad6b9514c767fe3c3613144b45f1496543346d98adf02267d5ceef9a00d9b8693000763e3b90ac11e99b138573345cc,
  0x2660400eb2e4f3b628bdd0d53cd76f2bf565b94e72927c1cb748df27942480e420517bd8714cc80d1fadc1326ed06f7,
  0xe0fa1d816ddc03e6b24255e0d7819c171c40f65e273b853324efcd6356caa205ca2f570f13497804415473a1d634b8f,
  0x1]

/-- The polynomial of the kernel. -/
def ker : List Nat := [0x133341fb0962a34cb0504a9c4fada0a5090d38679b4c040d5d1c3afb023a3409fcc0815fea66d8b02bbef9c8b5a66e07,
  0x264908af037bcede00d054cf5d4775e83eb6cf63c76b969f8ed174fb59fcff78d201f46f6cfc4ed6552e59ce75177b0,
  0x1335c502c1f54c49aceea65e87fd7203ba0f626f305fc0cfd606a5dae9f3c8e81a4b3b69600129fabd307c69bf319d39,
  0x94440f65f408a6e930e16e3e92dd17bf60d6e9679a8d3d58593de55ac23703042d609537eb3549aac234d896ca82944,
  0x4afe09d5cf4956a23b6b71f59d2b3407b415a774b7be81bbb6fa99cbc798e0ac98ba725a5bc328016b1c268b4766e85,
  0x1]

/-- SPEC: `(x, y)` is the simplified SWU image of `w` on the isogenous curve, for the non-square 11 and the sign `w mod 2`. -/
def Swu (w x y : ZMod Fp.p) : Prop := IsSwu (ia : ZMod Fp.p) (ib : ZMod Fp.p) ((11 : Nat) : ZMod Fp.p) par w x y

/-- SPEC: `P` is the image of `w`: the image of its simplified SWU image under the isogeny, which is the neutral element where a denominator
vanishes (RFC 9380, 6.6.3: "exceptional cases" of `iso_map`). -/
def IsMap (w : ZMod Fp.p) (P : PP) : Prop :=
  ∃ x y, Swu w x y ∧ ((ev dx x = 0 ∧ P = 0) ∨
    (ev dx x ≠ 0 ∧ ∃ hn, P = .some (ev nx x / ev dx x) (y * (ev ny x / ev dy x)) hn))

/-- `w` is one of the elements whose image under the simplified SWU map is in the kernel of the isogeny. -/
def Exceptional (w : ZMod Fp.p) : Prop := ∃ x y, Swu w x y ∧ ev dx x = 0

/-- SPEC: the field elements of a message (RFC 9380, 5.2, `count = 2`, `L = 64`). -/
def elem (h : Hasher) (msg dst : List UInt8) (i : Nat) : ZMod Fp.p := piece64 (uniformN 128 h msg dst) i

/-! ## Constants -/

theorem rA : Fp.Rep mapA (ia : ZMod Fp.p) := Fp6.rep_check _ _ (by decide +kernel)
theorem rB : Fp.Rep mapB (ib : ZMod Fp.p) := Fp6.rep_check _ _ (by decide +kernel)
theorem rZ : Fp.Rep mapZ ((11 : Nat) : ZMod Fp.p) := Fp6.rep_check _ _ (by decide +kernel)
theorem c1_val : mapC1.val = (Fp.p - 3) / 4 := by decide +kernel

theorem cast_eq {m n : Nat} (h : m % Fp.p = n % Fp.p) : (m : ZMod Fp.p) = (n : ZMod Fp.p) := (ZMod.natCast_eq_natCast_iff _ _ _).2 h

theorem rC2 : ∃ c, Fp.Rep mapC2 c ∧ c ^ 2 = -((11 : Nat) : ZMod Fp.p) ^ 3 := by
  refine ⟨_, Fp6.rep_check _ 0x3d689d1e0e762cef9f2bec6130316806b4c80eda6fc10ce77ae83eab1ea8b8b8a407c9c6db195e06f2dbeabc2baeff5 (by decide +kernel), ?_⟩
  have h := cast_eq (m := 0x3d689d1e0e762cef9f2bec6130316806b4c80eda6fc10ce77ae83eab1ea8b8b8a407c9c6db195e06f2dbeabc2baeff5 ^ 2 + 11 ^ 3) (n := 0) (by decide +kernel)
  rw [Nat.cast_add, Nat.cast_pow, Nat.cast_pow, Nat.cast_zero] at h
  exact eq_neg_of_add_eq_zero_left h

theorem ia_ne : (ia : ZMod Fp.p) ≠ 0 := by
  rw [Ne, ZMod.natCast_eq_zero_iff]
  decide +kernel

theorem eleven_ns : ¬ IsSquare ((11 : Nat) : ZMod Fp.p) := fp_not_square (by decide +kernel) (by decide +kernel)

theorem eleven_ne : ((11 : Nat) : ZMod Fp.p) ≠ 0 := fun h => eleven_ns (h ▸ ⟨0, by ring⟩)

theorem exc_eq : (ib : ZMod Fp.p) / (((11 : Nat) : ZMod Fp.p) * (ia : ZMod Fp.p)) =
    ((0x123939a31626a32de772bc7a591ea140683bca0c62efb105310d5ce1d27d1aadf79a5d5cbe8e2c4ff7d4816af76d2814 : Nat) : ZMod Fp.p) := by
  have h := cast_eq (m := ib) (n := 0x123939a31626a32de772bc7a591ea140683bca0c62efb105310d5ce1d27d1aadf79a5d5cbe8e2c4ff7d4816af76d2814 * (11 * ia)) (by decide +kernel)
  rw [Nat.cast_mul, Nat.cast_mul] at h
  rw [div_eq_iff (mul_ne_zero eleven_ne ia_ne)]
  exact h

theorem rhs_cast (n : Nat) : rhs (ia : ZMod Fp.p) (ib : ZMod Fp.p) (n : ZMod Fp.p) = ((n ^ 3 + ia * n + ib : Nat) : ZMod Fp.p) := by
  unfold rhs
  rw [Nat.cast_add, Nat.cast_add, Nat.cast_mul, Nat.cast_pow]

theorem rhs_sq {n y : Nat} (h : y ^ 2 % Fp.p = (n ^ 3 + ia * n + ib) % Fp.p) :
    (y : ZMod Fp.p) ^ 2 = rhs (ia : ZMod Fp.p) (ib : ZMod Fp.p) (n : ZMod Fp.p) := by
  rw [rhs_cast, ← cast_eq h, Nat.cast_pow]

theorem exc_sq : IsSquare (rhs (ia : ZMod Fp.p) (ib : ZMod Fp.p) ((ib : ZMod Fp.p) / (((11 : Nat) : ZMod Fp.p) * (ia : ZMod Fp.p)))) := by
  rw [exc_eq, ← rhs_sq (y := 0x5be3446f07e910e291153e84f1dabd3dfe5c2b1080d8b6a640425c3826f2a429373f9bab7e8308f6dd10ffa11124dbc) (by decide +kernel), pow_two]
  exact ⟨_, rfl⟩

theorem iso_check : isoCheck Fp.p ia ib 4 nx dx ny dy = true := by decide +kernel

theorem dx_eq : dx = pmul Fp.p ker ker := by decide +kernel
theorem dy_eq : dy = pmul Fp.p ker (pmul Fp.p ker ker) := by decide +kernel

theorem ev_dx (x : ZMod Fp.p) : ev dx x = ev ker x ^ 2 := by rw [dx_eq, ev_pmul, pow_two]
theorem ev_dy (x : ZMod Fp.p) : ev dy x = ev ker x ^ 3 := by rw [dy_eq, ev_pmul, ev_pmul]; ring

theorem dy_iff (x : ZMod Fp.p) : ev dy x = 0 ↔ ev dx x = 0 := by
  rw [ev_dx, ev_dy, pow_eq_zero_iff (by decide), pow_eq_zero_iff (by decide)]

/-- The coefficients in the field. -/
def toK (l : List Nat) : List (ZMod Fp.p) := List.map Nat.cast l

theorem ev_evk (l : List Nat) (x : ZMod Fp.p) : evk (toK l) x = ev l x := by
  induction l with
  | nil => rfl
  | cons a l ih => rw [toK, List.map_cons, evk_cons, ev_cons, ← ih, toK]

/-- The kernel's check of a table. -/
def tabOk : List L6 → List Nat → Bool
  | [], [] => true
  | a :: l, n :: m => a.val == n * 2 ^ 384 % Fp.p && tabOk l m
  | _, _ => false

theorem tabOk_spec : ∀ {l : List L6} {m : List Nat}, tabOk l m = true → List.Forall₂ Fp.Rep l (toK m)
  | [], [], _ => .nil
  | [], _ :: _, h => by cases h
  | _ :: _, [], h => by cases h
  | a :: l, n :: m, h => by
    unfold tabOk at h
    rw [Bool.and_eq_true, beq_iff_eq] at h
    exact .cons (Fp6.rep_check a n h.1) (tabOk_spec h.2)

theorem t1 : List.Forall₂ Fp.Rep isoTab.xNum (toK nx) := tabOk_spec (by decide +kernel)
theorem t2 : List.Forall₂ Fp.Rep isoTab.xDen (toK dx) := tabOk_spec (by decide +kernel)
theorem t3 : List.Forall₂ Fp.Rep isoTab.yNum (toK ny) := tabOk_spec (by decide +kernel)
theorem t4 : List.Forall₂ Fp.Rep isoTab.yDen (toK dy) := tabOk_spec (by decide +kernel)

/-! ## The simplified SWU map -/

theorem mod4 : Fp.p % 4 = 3 := by decide +kernel

theorem xor_bits (m n : Nat) : UInt64.ofNat (m % 2) ^^^ UInt64.ofNat (n % 2) = if m % 2 = n % 2 then 0 else 1 := by
  rcases Nat.mod_two_eq_zero_or_one m with h | h <;> rcases Nat.mod_two_eq_zero_or_one n with k | k <;> rw [h, k] <;> decide

theorem osswu_gen {a b z c : ZMod Fp.p} (rA : Fp.Rep mapA a) (rB : Fp.Rep mapB b) (rZ : Fp.Rep mapZ z) (hc2 : Fp.Rep mapC2 c)
    (hcc : c ^ 2 = -z ^ 3) (hz : ¬ IsSquare z) (hz0 : z ≠ 0) (ha : a ≠ 0) (hexc : IsSquare (rhs a b (b / (z * a))))
    {u : L6} {w : ZMod Fp.p} (hu : Fp.Rep u w) :
    ∃ x y, Fp.Rep (osswu3mod4 u).x x ∧ Fp.Rep (osswu3mod4 u).y y ∧ Fp.Rep (osswu3mod4 u).z 1 ∧ IsSwu a b z par w x y := by
  unfold osswu3mod4 negMapA mapXd1
  have htv1 := Fp.square_spec hu
  have htv3 := Fp.mul_spec rZ htv1
  have htv2 := Fp.square_spec htv3
  have hxd0 := Fp.add_spec htv2 htv3
  have hx1n := Fp.mul_spec (Fp.add_spec hxd0 Fp.one_spec) rB
  have hxd1 := Fp.mul_spec (Fp.neg_spec rA) hxd0
  have hzA := Fp.mul_spec rZ rA
  obtain ⟨hD, hc⟩ := cand1_frac (a := a) (b := b) (z := z) (u := w) ha hz0
  dsimp only at hD hc ⊢
  rw [add_comm] at hx1n
  rw [mul_comm] at hxd1
  have hxd : Fp.Rep (Fp.cmove (Fp.mul (Fp.neg mapA) (Fp.add (Fp.square (Fp.mul mapZ (Fp.square u))) (Fp.mul mapZ (Fp.square u)))) (Fp.mul mapZ mapA)
      (Fp.isZero (Fp.mul (Fp.neg mapA) (Fp.add (Fp.square (Fp.mul mapZ (Fp.square u))) (Fp.mul mapZ (Fp.square u))))))
      (if (z * (w * w) * (z * (w * w)) + z * (w * w)) * (-a) = 0 then z * a else (z * (w * w) * (z * (w * w)) + z * (w * w)) * (-a)) := by
    rw [(Fp.isZero_spec hxd1).1]
    split
    · rw [Fp.cmove_one]; exact hzA
    · rw [Fp.cmove_zero]; exact hxd1
  generalize Fp.cmove (Fp.mul (Fp.neg mapA) (Fp.add (Fp.square (Fp.mul mapZ (Fp.square u))) (Fp.mul mapZ (Fp.square u)))) (Fp.mul mapZ mapA)
      (Fp.isZero (Fp.mul (Fp.neg mapA) (Fp.add (Fp.square (Fp.mul mapZ (Fp.square u))) (Fp.mul mapZ (Fp.square u))))) = xd at hxd ⊢
  generalize (if (z * (w * w) * (z * (w * w)) + z * (w * w)) * (-a) = 0 then z * a else
        (z * (w * w) * (z * (w * w)) + z * (w * w)) * (-a)) = D at hD hc hxd
  have hr : Fp.r = Fp.one := rfl
  rw [hr]
  generalize Fp.mul (Fp.add (Fp.add (Fp.square (Fp.mul mapZ (Fp.square u))) (Fp.mul mapZ (Fp.square u))) Fp.one) mapB = x1n at hx1n ⊢
  generalize hN : (1 + (z * (w * w) * (z * (w * w)) + z * (w * w))) * b = N at hc hx1n
  have hgxd := Fp.mul_spec (Fp.square_spec hxd) hxd
  have hgx1 := Fp.add_spec (Fp.mul_spec (Fp.add_spec (Fp.square_spec hx1n) (Fp.mul_spec (Fp.square_spec hxd) rA)) hx1n) (Fp.mul_spec rB hgxd)
  generalize Fp.mul (Fp.square xd) xd = gxd at hgxd hgx1 ⊢
  generalize Fp.add (Fp.mul (Fp.add (Fp.square x1n) (Fp.mul (Fp.square xd) mapA)) x1n) (Fp.mul mapB gxd) = gx1 at hgx1 ⊢
  have hg : rhs a b (cand1 a b z w) = ((N * N + D * D * a) * N + b * (D * D * D)) / (D * D * D) := by
    rw [hc]
    unfold rhs
    field_simp
  have hD3 : D * D * D ≠ 0 := mul_ne_zero (mul_ne_zero hD hD) hD
  generalize (N * N + D * D * a) * N + b * (D * D * D) = g at hgx1 hg
  generalize D * D * D = d at hgxd hg hD3
  have htv4 := Fp.mul_spec (Fp.square_spec hgxd) (Fp.mul_spec hgx1 hgxd)
  have hy1 := Fp.mul_spec (Fp.pow_spec htv4 mapC1) (Fp.mul_spec hgx1 hgxd)
  rw [c1_val] at hy1
  obtain ⟨r1, r2⟩ := root_alg (N := g) (D := d) mod4 hD3
  generalize Fp.mul (Fp.pow (Fp.mul (Fp.square gxd) (Fp.mul gx1 gxd)) mapC1) (Fp.mul gx1 gxd) = y1 at hy1 ⊢
  generalize (d * d * (g * d)) ^ ((Fp.p - 3) / 4) * (g * d) = v at hy1 r1 r2
  have hy2 := Fp.mul_spec (Fp.mul_spec (Fp.mul_spec hy1 hc2) htv1) hu
  have hx2n := Fp.mul_spec htv3 hx1n
  have he2 := Fp.equal_spec (Fp.mul_spec (Fp.square_spec hy1) hgxd) hgx1
  rw [he2]
  have hrep := (Fp.invert_spec hxd).1
  generalize (Fp.invert xd).1 = ri at hrep ⊢
  obtain ⟨x, y, hx, hy, hsel, hyy⟩ : ∃ x y,
      Fp.Rep (Fp.mul ri (Fp.cmove (Fp.mul (Fp.mul mapZ (Fp.square u)) x1n) x1n (if v * v * d = g then 1 else 0))) x ∧
      Fp.Rep (Fp.cmove (Fp.mul (Fp.mul (Fp.mul y1 mapC2) (Fp.square u)) u) y1 (if v * v * d = g then 1 else 0)) y ∧
      ((IsSquare (rhs a b (cand1 a b z w)) ∧ x = cand1 a b z w) ∨
       (¬ IsSquare (rhs a b (cand1 a b z w)) ∧ x = z * w ^ 2 * cand1 a b z w)) ∧ y ^ 2 = rhs a b x := by
    by_cases hs : IsSquare (rhs a b (cand1 a b z w))
    · rw [if_pos (r1 (hg ▸ hs)), Fp.cmove_one, Fp.cmove_one]
      refine ⟨_, _, Fp.mul_spec hrep hx1n, hy1, Or.inl ⟨hs, by rw [hc, div_eq_mul_inv, mul_comm]⟩, ?_⟩
      have := r1 (hg ▸ hs)
      rw [mul_comm, ← div_eq_mul_inv, ← hc, hg, eq_div_iff hD3]
      linear_combination this
    · obtain ⟨k1, k2⟩ := r2 (hg ▸ hs)
      have hne : ¬ (v * v * d = g) := by
        intro h
        have h2 : (2 : ZMod Fp.p) * g = 0 := by linear_combination k1 - h
        rcases mul_eq_zero.1 h2 with h2 | h2
        · exact FOk.two h2
        · exact k2 h2
      rw [if_neg hne, Fp.cmove_zero, Fp.cmove_zero]
      obtain ⟨m1, -, -⟩ := cand2_square ha hz hexc hs
      have ex : D⁻¹ * (z * (w * w) * N) = z * w ^ 2 * cand1 a b z w := by rw [hc]; ring
      refine ⟨_, _, Fp.mul_spec hrep hx2n, hy2, Or.inr ⟨hs, ex⟩, ?_⟩
      rw [ex, m1, hg, mul_div_assoc', eq_div_iff hD3]
      linear_combination (c ^ 2 * w ^ 6) * k1 - (g * w ^ 6) * hcc
  generalize Fp.mul ri (Fp.cmove (Fp.mul (Fp.mul mapZ (Fp.square u)) x1n) x1n (if v * v * d = g then 1 else 0)) = X at hx ⊢
  generalize Fp.cmove (Fp.mul (Fp.mul (Fp.mul y1 mapC2) (Fp.square u)) u) y1 (if v * v * d = g then 1 else 0) = Y at hy ⊢
  rw [Fp.sgn0_spec hu, Fp.sgn0_spec hy, xor_bits]
  unfold Fp.cneg
  by_cases hpar : w.val % 2 = y.val % 2
  · rw [if_pos hpar, Fp.cmove_zero]
    exact ⟨x, y, hx, hy, Fp.one_spec, hsel, hyy, Or.inr hpar.symm⟩
  · rw [if_neg hpar, Fp.cmove_one]
    refine ⟨x, -y, hx, Fp.neg_spec hy, Fp.one_spec, hsel, by rw [neg_sq]; exact hyy, ?_⟩
    by_cases h0 : y = 0
    · exact Or.inl (by rw [h0, neg_zero])
    · refine Or.inr ?_
      have := neg_parity (p := Fp.p) odd h0
      unfold par
      omega

theorem osswu_spec {u : L6} {w : ZMod Fp.p} (hu : Fp.Rep u w) :
    ∃ x y, Fp.Rep (osswu3mod4 u).x x ∧ Fp.Rep (osswu3mod4 u).y y ∧ Fp.Rep (osswu3mod4 u).z 1 ∧ Swu w x y := by
  obtain ⟨c, hc2, hcc⟩ := rC2
  exact osswu_gen rA rB rZ hc2 hcc eleven_ns eleven_ne ia_ne exc_sq hu

theorem inv_ok {a : L6} {x : ZMod Fp.p} (h : Fp.Rep a x) : Fp.Rep (F.invert a).1 x⁻¹ := (Fp.invert_spec h).1

theorem image_eqn {x y : ZMod Fp.p} (hy : y ^ 2 = rhs (ia : ZMod Fp.p) (ib : ZMod Fp.p) x) (h : ev dx x ≠ 0) :
    (y * (ev ny x / ev dy x)) ^ 2 = (ev nx x / ev dx x) ^ 3 + 0 * (ev nx x / ev dx x) + ((4 : Nat) : ZMod Fp.p) := by
  rw [iso_image iso_check hy h (fun e => h ((dy_iff x).1 e)), zero_mul, add_zero]

/-- The map of one field element: the coordinates of the code, and the specified point unless the element is exceptional. -/
theorem map_coords {u : L6} {w : ZMod Fp.p} (hu : Fp.Rep u w) :
    ∃ x y, Swu w x y ∧ Fp.Rep (isogenyMap F isoTab (osswu3mod4 u)).x (ev nx x / ev dx x) ∧
      Fp.Rep (isogenyMap F isoTab (osswu3mod4 u)).y (y * (ev ny x / ev dy x)) ∧ Fp.Rep (isogenyMap F isoTab (osswu3mod4 u)).z 1 := by
  obtain ⟨x, y, hx, hy, -, hs⟩ := osswu_spec hu
  obtain ⟨h1, h2, h3⟩ := isogenyMap_spec FOk inv_ok t1 t2 t3 t4 hx hy
  rw [ev_evk, ev_evk] at h1 h2
  exact ⟨x, y, hs, h1, h2, h3⟩

theorem par_neg (y : ZMod Fp.p) (hy : y ≠ 0) : par (-y) ≠ par y := neg_parity odd hy

theorem swu_fun {w x y x' y' : ZMod Fp.p} (h : Swu w x y) (h' : Swu w x' y') : x = x' ∧ y = y' := swu_unique' par_neg h h'

theorem map_spec {u : L6} {w : ZMod Fp.p} (hu : Fp.Rep u w) (he : ¬ Exceptional w) :
    ∃ P, Rep (isogenyMap F isoTab (osswu3mod4 u)) P ∧ IsMap w P := by
  obtain ⟨x, y, hs, h1, h2, h3⟩ := map_coords hu
  have hd : ev dx x ≠ 0 := fun e => he ⟨x, y, hs, e⟩
  have hn := nonsing FOk.two noTwo (image_eqn hs.2.1 hd)
  exact ⟨.some _ _ hn, ⟨_, _, 1, h1, h2, h3, Or.inr ⟨one_ne_zero, _, _, hn, rfl, (mul_one _).symm, (mul_one _).symm⟩,
    fun h => absurd h one_ne_zero⟩, x, y, hs, Or.inr ⟨hd, hn, rfl⟩⟩

theorem rep_val (w : ZMod Fp.p) : ∃ u, Fp.Rep u w := by
  obtain ⟨a, -, h⟩ := Fp.setBigInt_spec Fp.zero (w.val : Int)
  have e : (((w.val : Nat) : Int) : ZMod Fp.p) = w := by rw [Int.cast_natCast]; exact ZMod.natCast_zmod_val w
  rw [e] at h
  exact ⟨a, h⟩

end Verif.Bls381.G1
