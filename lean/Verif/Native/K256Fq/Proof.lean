import Verif.Native.K256Fq.Code

/-!
# Arithmetic of `crypto/core/curves/native/k256/fq/secp256k1_fq.go`: proofs (generated by `tools/gofield.py`)
-/

set_option linter.unusedVariables false
set_option linter.unusedSectionVars false
set_option maxRecDepth 100000
set_option maxHeartbeats 4000000

namespace Verif.Native.K256Fq

theorem mul_spec (a b : L4) (h : a.val * b.val < 2 ^ 256 * 115792089237316195423570985008687907852837564279074904382605163141518161494337) : Redc 115792089237316195423570985008687907852837564279074904382605163141518161494337 (a.val * b.val) (mul a b) := by
  suffices H : ∀ P : L4 → Prop, (∀ r, Redc 115792089237316195423570985008687907852837564279074904382605163141518161494337 (a.val * b.val) r → P r) → P (mul a b) from H _ (fun _ h => h)
  intro P hP
  have zl_0 : z 0x0 = 0 := rfl
  have zl_4b0dff665588b13f : z 0x4b0dff665588b13f = 5408259542528602431 := rfl
  have zl_baaedce6af48a03b : z 0xbaaedce6af48a03b = 13451932020343611451 := rfl
  have zl_bfd25e8cd0364141 : z 0xbfd25e8cd0364141 = 13822214165235122497 := rfl
  have zl_fffffffffffffffe : z 0xfffffffffffffffe = 18446744073709551614 := rfl
  have zl_ffffffffffffffff : z 0xffffffffffffffff = 18446744073709551615 := rfl
  unfold mul
  refine wp_mul P _ _ _ fun x6 x5 h_x5 => ?_
  refine wp_mul P _ _ _ fun x8 x7 h_x7 => ?_
  refine wp_mul P _ _ _ fun x10 x9 h_x9 => ?_
  refine wp_mul P _ _ _ fun x12 x11 h_x11 => ?_
  refine wp_add P _ _ _ _ (by rw [zl_0]; norm_num) fun x13 x14 h_x13 c_x14 => ?_
  refine wp_add P _ _ _ _ c_x14 fun x15 x16 h_x15 c_x16 => ?_
  refine wp_add P _ _ _ _ c_x16 fun x17 x18 h_x17 c_x18 => ?_
  refine wp_plus P 1 18446744073709551614 _ _ _ c_x18 (mulhi_le h_x5) (by norm_num) fun x19 h_x19 c_x19 => ?_
  refine wp_mul P _ _ _ fun y2 x20 h_x20 => ?_
  refine wp_mul P _ _ _ fun x23 x22 h_x22 => ?_
  refine wp_mul P _ _ _ fun x25 x24 h_x24 => ?_
  refine wp_mul P _ _ _ fun x27 x26 h_x26 => ?_
  refine wp_mul P _ _ _ fun x29 x28 h_x28 => ?_
  refine wp_add P _ _ _ _ (by rw [zl_0]; norm_num) fun x30 x31 h_x30 c_x31 => ?_
  refine wp_add P _ _ _ _ c_x31 fun x32 x33 h_x32 c_x33 => ?_
  refine wp_add P _ _ _ _ c_x33 fun x34 x35 h_x34 c_x35 => ?_
  refine wp_plus P 1 18446744073709551614 _ _ _ c_x35 (mulhi_lt 18446744073709551614 (by rw [zl_ffffffffffffffff]; norm_num) (by norm_num) h_x22) (by norm_num) fun x36 h_x36 c_x36 => ?_
  refine wp_add P _ _ _ _ (by rw [zl_0]; norm_num) fun y4 x38 h_y4 c_x38 => ?_
  refine wp_add P _ _ _ _ c_x38 fun x39 x40 h_x39 c_x40 => ?_
  refine wp_add P _ _ _ _ c_x40 fun x41 x42 h_x41 c_x42 => ?_
  refine wp_add P _ _ _ _ c_x42 fun x43 x44 h_x43 c_x44 => ?_
  refine wp_add P _ _ _ _ c_x44 fun x45 x46 h_x45 c_x46 => ?_
  refine wp_mul P _ _ _ fun x48 x47 h_x47 => ?_
  refine wp_mul P _ _ _ fun x50 x49 h_x49 => ?_
  refine wp_mul P _ _ _ fun x52 x51 h_x51 => ?_
  refine wp_mul P _ _ _ fun x54 x53 h_x53 => ?_
  refine wp_add P _ _ _ _ (by rw [zl_0]; norm_num) fun x55 x56 h_x55 c_x56 => ?_
  refine wp_add P _ _ _ _ c_x56 fun x57 x58 h_x57 c_x58 => ?_
  refine wp_add P _ _ _ _ c_x58 fun x59 x60 h_x59 c_x60 => ?_
  refine wp_plus P 1 18446744073709551614 _ _ _ c_x60 (mulhi_le h_x47) (by norm_num) fun x61 h_x61 c_x61 => ?_
  refine wp_add P _ _ _ _ (by rw [zl_0]; norm_num) fun x62 x63 h_x62 c_x63 => ?_
  refine wp_add P _ _ _ _ c_x63 fun x64 x65 h_x64 c_x65 => ?_
  refine wp_add P _ _ _ _ c_x65 fun x66 x67 h_x66 c_x67 => ?_
  refine wp_add P _ _ _ _ c_x67 fun x68 x69 h_x68 c_x69 => ?_
  refine wp_add P _ _ _ _ c_x69 fun x70 x71 h_x70 c_x71 => ?_
  refine wp_mul P _ _ _ fun y6 x72 h_x72 => ?_
  refine wp_mul P _ _ _ fun x75 x74 h_x74 => ?_
  refine wp_mul P _ _ _ fun x77 x76 h_x76 => ?_
  refine wp_mul P _ _ _ fun x79 x78 h_x78 => ?_
  refine wp_mul P _ _ _ fun x81 x80 h_x80 => ?_
  refine wp_add P _ _ _ _ (by rw [zl_0]; norm_num) fun x82 x83 h_x82 c_x83 => ?_
  refine wp_add P _ _ _ _ c_x83 fun x84 x85 h_x84 c_x85 => ?_
  refine wp_add P _ _ _ _ c_x85 fun x86 x87 h_x86 c_x87 => ?_
  refine wp_plus P 1 18446744073709551614 _ _ _ c_x87 (mulhi_lt 18446744073709551614 (by rw [zl_ffffffffffffffff]; norm_num) (by norm_num) h_x74) (by norm_num) fun x88 h_x88 c_x88 => ?_
  refine wp_add P _ _ _ _ (by rw [zl_0]; norm_num) fun y8 x90 h_y8 c_x90 => ?_
  refine wp_add P _ _ _ _ c_x90 fun x91 x92 h_x91 c_x92 => ?_
  refine wp_add P _ _ _ _ c_x92 fun x93 x94 h_x93 c_x94 => ?_
  refine wp_add P _ _ _ _ c_x94 fun x95 x96 h_x95 c_x96 => ?_
  refine wp_add P _ _ _ _ c_x96 fun x97 x98 h_x97 c_x98 => ?_
  refine wp_plus P 1 1 _ _ _ c_x98 c_x71 (by norm_num) fun x99 h_x99 c_x99 => ?_
  refine wp_mul P _ _ _ fun x101 x100 h_x100 => ?_
  refine wp_mul P _ _ _ fun x103 x102 h_x102 => ?_
  refine wp_mul P _ _ _ fun x105 x104 h_x104 => ?_
  refine wp_mul P _ _ _ fun x107 x106 h_x106 => ?_
  refine wp_add P _ _ _ _ (by rw [zl_0]; norm_num) fun x108 x109 h_x108 c_x109 => ?_
  refine wp_add P _ _ _ _ c_x109 fun x110 x111 h_x110 c_x111 => ?_
  refine wp_add P _ _ _ _ c_x111 fun x112 x113 h_x112 c_x113 => ?_
  refine wp_plus P 1 18446744073709551614 _ _ _ c_x113 (mulhi_le h_x100) (by norm_num) fun x114 h_x114 c_x114 => ?_
  refine wp_add P _ _ _ _ (by rw [zl_0]; norm_num) fun x115 x116 h_x115 c_x116 => ?_
  refine wp_add P _ _ _ _ c_x116 fun x117 x118 h_x117 c_x118 => ?_
  refine wp_add P _ _ _ _ c_x118 fun x119 x120 h_x119 c_x120 => ?_
  refine wp_add P _ _ _ _ c_x120 fun x121 x122 h_x121 c_x122 => ?_
  refine wp_add P _ _ _ _ c_x122 fun x123 x124 h_x123 c_x124 => ?_
  refine wp_mul P _ _ _ fun y11 x125 h_x125 => ?_
  refine wp_mul P _ _ _ fun x128 x127 h_x127 => ?_
  refine wp_mul P _ _ _ fun x130 x129 h_x129 => ?_
  refine wp_mul P _ _ _ fun x132 x131 h_x131 => ?_
  refine wp_mul P _ _ _ fun x134 x133 h_x133 => ?_
  refine wp_add P _ _ _ _ (by rw [zl_0]; norm_num) fun x135 x136 h_x135 c_x136 => ?_
  refine wp_add P _ _ _ _ c_x136 fun x137 x138 h_x137 c_x138 => ?_
  refine wp_add P _ _ _ _ c_x138 fun x139 x140 h_x139 c_x140 => ?_
  refine wp_plus P 1 18446744073709551614 _ _ _ c_x140 (mulhi_lt 18446744073709551614 (by rw [zl_ffffffffffffffff]; norm_num) (by norm_num) h_x127) (by norm_num) fun x141 h_x141 c_x141 => ?_
  refine wp_add P _ _ _ _ (by rw [zl_0]; norm_num) fun y13 x143 h_y13 c_x143 => ?_
  refine wp_add P _ _ _ _ c_x143 fun x144 x145 h_x144 c_x145 => ?_
  refine wp_add P _ _ _ _ c_x145 fun x146 x147 h_x146 c_x147 => ?_
  refine wp_add P _ _ _ _ c_x147 fun x148 x149 h_x148 c_x149 => ?_
  refine wp_add P _ _ _ _ c_x149 fun x150 x151 h_x150 c_x151 => ?_
  refine wp_plus P 1 1 _ _ _ c_x151 c_x124 (by norm_num) fun x152 h_x152 c_x152 => ?_
  refine wp_mul P _ _ _ fun x154 x153 h_x153 => ?_
  refine wp_mul P _ _ _ fun x156 x155 h_x155 => ?_
  refine wp_mul P _ _ _ fun x158 x157 h_x157 => ?_
  refine wp_mul P _ _ _ fun x160 x159 h_x159 => ?_
  refine wp_add P _ _ _ _ (by rw [zl_0]; norm_num) fun x161 x162 h_x161 c_x162 => ?_
  refine wp_add P _ _ _ _ c_x162 fun x163 x164 h_x163 c_x164 => ?_
  refine wp_add P _ _ _ _ c_x164 fun x165 x166 h_x165 c_x166 => ?_
  refine wp_plus P 1 18446744073709551614 _ _ _ c_x166 (mulhi_le h_x153) (by norm_num) fun x167 h_x167 c_x167 => ?_
  refine wp_add P _ _ _ _ (by rw [zl_0]; norm_num) fun x168 x169 h_x168 c_x169 => ?_
  refine wp_add P _ _ _ _ c_x169 fun x170 x171 h_x170 c_x171 => ?_
  refine wp_add P _ _ _ _ c_x171 fun x172 x173 h_x172 c_x173 => ?_
  refine wp_add P _ _ _ _ c_x173 fun x174 x175 h_x174 c_x175 => ?_
  refine wp_add P _ _ _ _ c_x175 fun x176 x177 h_x176 c_x177 => ?_
  refine wp_mul P _ _ _ fun y16 x178 h_x178 => ?_
  refine wp_mul P _ _ _ fun x181 x180 h_x180 => ?_
  refine wp_mul P _ _ _ fun x183 x182 h_x182 => ?_
  refine wp_mul P _ _ _ fun x185 x184 h_x184 => ?_
  refine wp_mul P _ _ _ fun x187 x186 h_x186 => ?_
  refine wp_add P _ _ _ _ (by rw [zl_0]; norm_num) fun x188 x189 h_x188 c_x189 => ?_
  refine wp_add P _ _ _ _ c_x189 fun x190 x191 h_x190 c_x191 => ?_
  refine wp_add P _ _ _ _ c_x191 fun x192 x193 h_x192 c_x193 => ?_
  refine wp_plus P 1 18446744073709551614 _ _ _ c_x193 (mulhi_lt 18446744073709551614 (by rw [zl_ffffffffffffffff]; norm_num) (by norm_num) h_x180) (by norm_num) fun x194 h_x194 c_x194 => ?_
  refine wp_add P _ _ _ _ (by rw [zl_0]; norm_num) fun y18 x196 h_y18 c_x196 => ?_
  refine wp_add P _ _ _ _ c_x196 fun x197 x198 h_x197 c_x198 => ?_
  refine wp_add P _ _ _ _ c_x198 fun x199 x200 h_x199 c_x200 => ?_
  refine wp_add P _ _ _ _ c_x200 fun x201 x202 h_x201 c_x202 => ?_
  refine wp_add P _ _ _ _ c_x202 fun x203 x204 h_x203 c_x204 => ?_
  refine wp_plus P 1 1 _ _ _ c_x204 c_x177 (by norm_num) fun x205 h_x205 c_x205 => ?_
  refine wp_sub P _ _ _ _ (by rw [zl_0]; norm_num) fun x206 x207 h_x206 c_x207 => ?_
  refine wp_sub P _ _ _ _ c_x207 fun x208 x209 h_x208 c_x209 => ?_
  refine wp_sub P _ _ _ _ c_x209 fun x210 x211 h_x210 c_x211 => ?_
  refine wp_sub P _ _ _ _ c_x211 fun x212 x213 h_x212 c_x213 => ?_
  refine wp_sub P _ _ _ _ c_x213 fun y20 x215 h_y20 c_x215 => ?_
  refine wp_cmov P _ _ _ _ c_x215 fun x216 ra_x216 rb_x216 => ?_
  refine wp_cmov P _ _ _ _ c_x215 fun x217 ra_x217 rb_x217 => ?_
  refine wp_cmov P _ _ _ _ c_x215 fun x218 ra_x218 rb_x218 => ?_
  refine wp_cmov P _ _ _ _ c_x215 fun x219 ra_x219 rb_x219 => ?_
  have e_y4 : z y4 = 0 := redc_low (by rw [zl_4b0dff665588b13f, zl_bfd25e8cd0364141]; norm_num) h_x20 h_x28 zl_0 h_y4
  have e_y8 : z y8 = 0 := redc_low (by rw [zl_4b0dff665588b13f, zl_bfd25e8cd0364141]; norm_num) h_x72 h_x80 zl_0 h_y8
  have e_y13 : z y13 = 0 := redc_low (by rw [zl_4b0dff665588b13f, zl_bfd25e8cd0364141]; norm_num) h_x125 h_x133 zl_0 h_y13
  have e_y18 : z y18 = 0 := redc_low (by rw [zl_4b0dff665588b13f, zl_bfd25e8cd0364141]; norm_num) h_x178 h_x186 zl_0 h_y18
  have hI : (z x197 + 18446744073709551616 * z x199 + 18446744073709551616 ^ 2 * z x201 + 18446744073709551616 ^ 3 * z x203 + 18446744073709551616 ^ 4 * z x205) * 18446744073709551616 ^ 4 = a.zval * b.zval + (z x20 + 18446744073709551616 * z x72 + 18446744073709551616 ^ 2 * z x125 + 18446744073709551616 ^ 3 * z x178) * 115792089237316195423570985008687907852837564279074904382605163141518161494337 := by
    unfold L4.zval
    linear_combination 18446744073709551616 ^ 3 * h_x5 + 18446744073709551616 ^ 2 * h_x7 + 18446744073709551616 ^ 1 * h_x9 + 18446744073709551616 ^ 0 * h_x11 + 18446744073709551616 ^ 1 * h_x13 + (18446744073709551616 ^ 1) * zl_0 + 18446744073709551616 ^ 2 * h_x15 + 18446744073709551616 ^ 3 * h_x17 + 18446744073709551616 ^ 4 * h_x19 + 18446744073709551616 ^ 3 * h_x22 + 18446744073709551616 ^ 3 * z x20 * zl_ffffffffffffffff + 18446744073709551616 ^ 2 * h_x24 + 18446744073709551616 ^ 2 * z x20 * zl_fffffffffffffffe + 18446744073709551616 ^ 1 * h_x26 + 18446744073709551616 ^ 1 * z x20 * zl_baaedce6af48a03b + 18446744073709551616 ^ 0 * h_x28 + 18446744073709551616 ^ 0 * z x20 * zl_bfd25e8cd0364141 + 18446744073709551616 ^ 1 * h_x30 + (18446744073709551616 ^ 1) * zl_0 + 18446744073709551616 ^ 2 * h_x32 + 18446744073709551616 ^ 3 * h_x34 + 18446744073709551616 ^ 4 * h_x36 + 18446744073709551616 ^ 0 * h_y4 + (18446744073709551616 ^ 0) * zl_0 + 18446744073709551616 ^ 1 * h_x39 + 18446744073709551616 ^ 2 * h_x41 + 18446744073709551616 ^ 3 * h_x43 + 18446744073709551616 ^ 4 * h_x45 + 18446744073709551616 ^ 4 * h_x47 + 18446744073709551616 ^ 3 * h_x49 + 18446744073709551616 ^ 2 * h_x51 + 18446744073709551616 ^ 1 * h_x53 + 18446744073709551616 ^ 2 * h_x55 + (18446744073709551616 ^ 2) * zl_0 + 18446744073709551616 ^ 3 * h_x57 + 18446744073709551616 ^ 4 * h_x59 + 18446744073709551616 ^ 5 * h_x61 + 18446744073709551616 ^ 1 * h_x62 + (18446744073709551616 ^ 1) * zl_0 + 18446744073709551616 ^ 2 * h_x64 + 18446744073709551616 ^ 3 * h_x66 + 18446744073709551616 ^ 4 * h_x68 + 18446744073709551616 ^ 5 * h_x70 + 18446744073709551616 ^ 4 * h_x74 + 18446744073709551616 ^ 4 * z x72 * zl_ffffffffffffffff + 18446744073709551616 ^ 3 * h_x76 + 18446744073709551616 ^ 3 * z x72 * zl_fffffffffffffffe + 18446744073709551616 ^ 2 * h_x78 + 18446744073709551616 ^ 2 * z x72 * zl_baaedce6af48a03b + 18446744073709551616 ^ 1 * h_x80 + 18446744073709551616 ^ 1 * z x72 * zl_bfd25e8cd0364141 + 18446744073709551616 ^ 2 * h_x82 + (18446744073709551616 ^ 2) * zl_0 + 18446744073709551616 ^ 3 * h_x84 + 18446744073709551616 ^ 4 * h_x86 + 18446744073709551616 ^ 5 * h_x88 + 18446744073709551616 ^ 1 * h_y8 + (18446744073709551616 ^ 1) * zl_0 + 18446744073709551616 ^ 2 * h_x91 + 18446744073709551616 ^ 3 * h_x93 + 18446744073709551616 ^ 4 * h_x95 + 18446744073709551616 ^ 5 * h_x97 + 18446744073709551616 ^ 6 * h_x99 + 18446744073709551616 ^ 5 * h_x100 + 18446744073709551616 ^ 4 * h_x102 + 18446744073709551616 ^ 3 * h_x104 + 18446744073709551616 ^ 2 * h_x106 + 18446744073709551616 ^ 3 * h_x108 + (18446744073709551616 ^ 3) * zl_0 + 18446744073709551616 ^ 4 * h_x110 + 18446744073709551616 ^ 5 * h_x112 + 18446744073709551616 ^ 6 * h_x114 + 18446744073709551616 ^ 2 * h_x115 + (18446744073709551616 ^ 2) * zl_0 + 18446744073709551616 ^ 3 * h_x117 + 18446744073709551616 ^ 4 * h_x119 + 18446744073709551616 ^ 5 * h_x121 + 18446744073709551616 ^ 6 * h_x123 + 18446744073709551616 ^ 5 * h_x127 + 18446744073709551616 ^ 5 * z x125 * zl_ffffffffffffffff + 18446744073709551616 ^ 4 * h_x129 + 18446744073709551616 ^ 4 * z x125 * zl_fffffffffffffffe + 18446744073709551616 ^ 3 * h_x131 + 18446744073709551616 ^ 3 * z x125 * zl_baaedce6af48a03b + 18446744073709551616 ^ 2 * h_x133 + 18446744073709551616 ^ 2 * z x125 * zl_bfd25e8cd0364141 + 18446744073709551616 ^ 3 * h_x135 + (18446744073709551616 ^ 3) * zl_0 + 18446744073709551616 ^ 4 * h_x137 + 18446744073709551616 ^ 5 * h_x139 + 18446744073709551616 ^ 6 * h_x141 + 18446744073709551616 ^ 2 * h_y13 + (18446744073709551616 ^ 2) * zl_0 + 18446744073709551616 ^ 3 * h_x144 + 18446744073709551616 ^ 4 * h_x146 + 18446744073709551616 ^ 5 * h_x148 + 18446744073709551616 ^ 6 * h_x150 + 18446744073709551616 ^ 7 * h_x152 + 18446744073709551616 ^ 6 * h_x153 + 18446744073709551616 ^ 5 * h_x155 + 18446744073709551616 ^ 4 * h_x157 + 18446744073709551616 ^ 3 * h_x159 + 18446744073709551616 ^ 4 * h_x161 + (18446744073709551616 ^ 4) * zl_0 + 18446744073709551616 ^ 5 * h_x163 + 18446744073709551616 ^ 6 * h_x165 + 18446744073709551616 ^ 7 * h_x167 + 18446744073709551616 ^ 3 * h_x168 + (18446744073709551616 ^ 3) * zl_0 + 18446744073709551616 ^ 4 * h_x170 + 18446744073709551616 ^ 5 * h_x172 + 18446744073709551616 ^ 6 * h_x174 + 18446744073709551616 ^ 7 * h_x176 + 18446744073709551616 ^ 6 * h_x180 + 18446744073709551616 ^ 6 * z x178 * zl_ffffffffffffffff + 18446744073709551616 ^ 5 * h_x182 + 18446744073709551616 ^ 5 * z x178 * zl_fffffffffffffffe + 18446744073709551616 ^ 4 * h_x184 + 18446744073709551616 ^ 4 * z x178 * zl_baaedce6af48a03b + 18446744073709551616 ^ 3 * h_x186 + 18446744073709551616 ^ 3 * z x178 * zl_bfd25e8cd0364141 + 18446744073709551616 ^ 4 * h_x188 + (18446744073709551616 ^ 4) * zl_0 + 18446744073709551616 ^ 5 * h_x190 + 18446744073709551616 ^ 6 * h_x192 + 18446744073709551616 ^ 7 * h_x194 + 18446744073709551616 ^ 3 * h_y18 + (18446744073709551616 ^ 3) * zl_0 + 18446744073709551616 ^ 4 * h_x197 + 18446744073709551616 ^ 5 * h_x199 + 18446744073709551616 ^ 6 * h_x201 + 18446744073709551616 ^ 7 * h_x203 + 18446744073709551616 ^ 8 * h_x205 + -(18446744073709551616 ^ 0) * e_y4 + -(18446744073709551616 ^ 1) * e_y8 + -(18446744073709551616 ^ 2) * e_y13 + -(18446744073709551616 ^ 3) * e_y18
  have hD : z x206 + 18446744073709551616 * z x208 + 18446744073709551616 ^ 2 * z x210 + 18446744073709551616 ^ 3 * z x212 + 18446744073709551616 ^ 4 * z y20 - 18446744073709551616 ^ 5 * z x215 = z x197 + 18446744073709551616 * z x199 + 18446744073709551616 ^ 2 * z x201 + 18446744073709551616 ^ 3 * z x203 + 18446744073709551616 ^ 4 * z x205 - 115792089237316195423570985008687907852837564279074904382605163141518161494337 := by
    linear_combination 18446744073709551616 ^ 0 * h_x206 - 18446744073709551616 ^ 0 * zl_bfd25e8cd0364141 + -(18446744073709551616 ^ 0) * zl_0 + 18446744073709551616 ^ 1 * h_x208 - 18446744073709551616 ^ 1 * zl_baaedce6af48a03b + 18446744073709551616 ^ 2 * h_x210 - 18446744073709551616 ^ 2 * zl_fffffffffffffffe + 18446744073709551616 ^ 3 * h_x212 - 18446744073709551616 ^ 3 * zl_ffffffffffffffff + 18446744073709551616 ^ 4 * h_y20 - 18446744073709551616 ^ 4 * zl_0
  have hU : z x20 + 18446744073709551616 * z x72 + 18446744073709551616 ^ 2 * z x125 + 18446744073709551616 ^ 3 * z x178 ≤ 18446744073709551616 ^ 4 - 1 := zsum_le _ _ _ _
  have hX : a.zval * b.zval < 18446744073709551616 ^ 4 * 115792089237316195423570985008687907852837564279074904382605163141518161494337 := by rw [L4.zval_eq, L4.zval_eq]; exact_mod_cast h
  have hT : z x197 + 18446744073709551616 * z x199 + 18446744073709551616 ^ 2 * z x201 + 18446744073709551616 ^ 3 * z x203 + 18446744073709551616 ^ 4 * z x205 < 2 * 115792089237316195423570985008687907852837564279074904382605163141518161494337 := by
    generalize a.zval * b.zval = X at hI hX
    linarith only [hI, hX, hU]
  obtain ⟨hlt, hk⟩ := condsub 115792089237316195423570985008687907852837564279074904382605163141518161494337 hD c_x215 (by norm_num) (by norm_num) hT ra_x216 rb_x216 ra_x217 rb_x217 ra_x218 rb_x218 ra_x219 rb_x219
  refine hP _ (redc_of _ _ _ _ _ _ _ (by norm_num) ?_ hlt hk hI)
  rw [L4.zval_eq, L4.zval_eq]; exact (Nat.cast_mul _ _).symm

theorem square_spec (a : L4) (h : a.val * a.val < 2 ^ 256 * 115792089237316195423570985008687907852837564279074904382605163141518161494337) : Redc 115792089237316195423570985008687907852837564279074904382605163141518161494337 (a.val * a.val) (square a) := by
  suffices H : ∀ P : L4 → Prop, (∀ r, Redc 115792089237316195423570985008687907852837564279074904382605163141518161494337 (a.val * a.val) r → P r) → P (square a) from H _ (fun _ h => h)
  intro P hP
  have zl_0 : z 0x0 = 0 := rfl
  have zl_4b0dff665588b13f : z 0x4b0dff665588b13f = 5408259542528602431 := rfl
  have zl_baaedce6af48a03b : z 0xbaaedce6af48a03b = 13451932020343611451 := rfl
  have zl_bfd25e8cd0364141 : z 0xbfd25e8cd0364141 = 13822214165235122497 := rfl
  have zl_fffffffffffffffe : z 0xfffffffffffffffe = 18446744073709551614 := rfl
  have zl_ffffffffffffffff : z 0xffffffffffffffff = 18446744073709551615 := rfl
  unfold square
  refine wp_mul P _ _ _ fun x6 x5 h_x5 => ?_
  refine wp_mul P _ _ _ fun x8 x7 h_x7 => ?_
  refine wp_mul P _ _ _ fun x10 x9 h_x9 => ?_
  refine wp_mul P _ _ _ fun x12 x11 h_x11 => ?_
  refine wp_add P _ _ _ _ (by rw [zl_0]; norm_num) fun x13 x14 h_x13 c_x14 => ?_
  refine wp_add P _ _ _ _ c_x14 fun x15 x16 h_x15 c_x16 => ?_
  refine wp_add P _ _ _ _ c_x16 fun x17 x18 h_x17 c_x18 => ?_
  refine wp_plus P 1 18446744073709551614 _ _ _ c_x18 (mulhi_le h_x5) (by norm_num) fun x19 h_x19 c_x19 => ?_
  refine wp_mul P _ _ _ fun y2 x20 h_x20 => ?_
  refine wp_mul P _ _ _ fun x23 x22 h_x22 => ?_
  refine wp_mul P _ _ _ fun x25 x24 h_x24 => ?_
  refine wp_mul P _ _ _ fun x27 x26 h_x26 => ?_
  refine wp_mul P _ _ _ fun x29 x28 h_x28 => ?_
  refine wp_add P _ _ _ _ (by rw [zl_0]; norm_num) fun x30 x31 h_x30 c_x31 => ?_
  refine wp_add P _ _ _ _ c_x31 fun x32 x33 h_x32 c_x33 => ?_
  refine wp_add P _ _ _ _ c_x33 fun x34 x35 h_x34 c_x35 => ?_
  refine wp_plus P 1 18446744073709551614 _ _ _ c_x35 (mulhi_lt 18446744073709551614 (by rw [zl_ffffffffffffffff]; norm_num) (by norm_num) h_x22) (by norm_num) fun x36 h_x36 c_x36 => ?_
  refine wp_add P _ _ _ _ (by rw [zl_0]; norm_num) fun y4 x38 h_y4 c_x38 => ?_
  refine wp_add P _ _ _ _ c_x38 fun x39 x40 h_x39 c_x40 => ?_
  refine wp_add P _ _ _ _ c_x40 fun x41 x42 h_x41 c_x42 => ?_
  refine wp_add P _ _ _ _ c_x42 fun x43 x44 h_x43 c_x44 => ?_
  refine wp_add P _ _ _ _ c_x44 fun x45 x46 h_x45 c_x46 => ?_
  refine wp_mul P _ _ _ fun x48 x47 h_x47 => ?_
  refine wp_mul P _ _ _ fun x50 x49 h_x49 => ?_
  refine wp_mul P _ _ _ fun x52 x51 h_x51 => ?_
  refine wp_mul P _ _ _ fun x54 x53 h_x53 => ?_
  refine wp_add P _ _ _ _ (by rw [zl_0]; norm_num) fun x55 x56 h_x55 c_x56 => ?_
  refine wp_add P _ _ _ _ c_x56 fun x57 x58 h_x57 c_x58 => ?_
  refine wp_add P _ _ _ _ c_x58 fun x59 x60 h_x59 c_x60 => ?_
  refine wp_plus P 1 18446744073709551614 _ _ _ c_x60 (mulhi_le h_x47) (by norm_num) fun x61 h_x61 c_x61 => ?_
  refine wp_add P _ _ _ _ (by rw [zl_0]; norm_num) fun x62 x63 h_x62 c_x63 => ?_
  refine wp_add P _ _ _ _ c_x63 fun x64 x65 h_x64 c_x65 => ?_
  refine wp_add P _ _ _ _ c_x65 fun x66 x67 h_x66 c_x67 => ?_
  refine wp_add P _ _ _ _ c_x67 fun x68 x69 h_x68 c_x69 => ?_
  refine wp_add P _ _ _ _ c_x69 fun x70 x71 h_x70 c_x71 => ?_
  refine wp_mul P _ _ _ fun y6 x72 h_x72 => ?_
  refine wp_mul P _ _ _ fun x75 x74 h_x74 => ?_
  refine wp_mul P _ _ _ fun x77 x76 h_x76 => ?_
  refine wp_mul P _ _ _ fun x79 x78 h_x78 => ?_
  refine wp_mul P _ _ _ fun x81 x80 h_x80 => ?_
  refine wp_add P _ _ _ _ (by rw [zl_0]; norm_num) fun x82 x83 h_x82 c_x83 => ?_
  refine wp_add P _ _ _ _ c_x83 fun x84 x85 h_x84 c_x85 => ?_
  refine wp_add P _ _ _ _ c_x85 fun x86 x87 h_x86 c_x87 => ?_
  refine wp_plus P 1 18446744073709551614 _ _ _ c_x87 (mulhi_lt 18446744073709551614 (by rw [zl_ffffffffffffffff]; norm_num) (by norm_num) h_x74) (by norm_num) fun x88 h_x88 c_x88 => ?_
  refine wp_add P _ _ _ _ (by rw [zl_0]; norm_num) fun y8 x90 h_y8 c_x90 => ?_
  refine wp_add P _ _ _ _ c_x90 fun x91 x92 h_x91 c_x92 => ?_
  refine wp_add P _ _ _ _ c_x92 fun x93 x94 h_x93 c_x94 => ?_
  refine wp_add P _ _ _ _ c_x94 fun x95 x96 h_x95 c_x96 => ?_
  refine wp_add P _ _ _ _ c_x96 fun x97 x98 h_x97 c_x98 => ?_
  refine wp_plus P 1 1 _ _ _ c_x98 c_x71 (by norm_num) fun x99 h_x99 c_x99 => ?_
  refine wp_mul P _ _ _ fun x101 x100 h_x100 => ?_
  refine wp_mul P _ _ _ fun x103 x102 h_x102 => ?_
  refine wp_mul P _ _ _ fun x105 x104 h_x104 => ?_
  refine wp_mul P _ _ _ fun x107 x106 h_x106 => ?_
  refine wp_add P _ _ _ _ (by rw [zl_0]; norm_num) fun x108 x109 h_x108 c_x109 => ?_
  refine wp_add P _ _ _ _ c_x109 fun x110 x111 h_x110 c_x111 => ?_
  refine wp_add P _ _ _ _ c_x111 fun x112 x113 h_x112 c_x113 => ?_
  refine wp_plus P 1 18446744073709551614 _ _ _ c_x113 (mulhi_le h_x100) (by norm_num) fun x114 h_x114 c_x114 => ?_
  refine wp_add P _ _ _ _ (by rw [zl_0]; norm_num) fun x115 x116 h_x115 c_x116 => ?_
  refine wp_add P _ _ _ _ c_x116 fun x117 x118 h_x117 c_x118 => ?_
  refine wp_add P _ _ _ _ c_x118 fun x119 x120 h_x119 c_x120 => ?_
  refine wp_add P _ _ _ _ c_x120 fun x121 x122 h_x121 c_x122 => ?_
  refine wp_add P _ _ _ _ c_x122 fun x123 x124 h_x123 c_x124 => ?_
  refine wp_mul P _ _ _ fun y11 x125 h_x125 => ?_
  refine wp_mul P _ _ _ fun x128 x127 h_x127 => ?_
  refine wp_mul P _ _ _ fun x130 x129 h_x129 => ?_
  refine wp_mul P _ _ _ fun x132 x131 h_x131 => ?_
  refine wp_mul P _ _ _ fun x134 x133 h_x133 => ?_
  refine wp_add P _ _ _ _ (by rw [zl_0]; norm_num) fun x135 x136 h_x135 c_x136 => ?_
  refine wp_add P _ _ _ _ c_x136 fun x137 x138 h_x137 c_x138 => ?_
  refine wp_add P _ _ _ _ c_x138 fun x139 x140 h_x139 c_x140 => ?_
  refine wp_plus P 1 18446744073709551614 _ _ _ c_x140 (mulhi_lt 18446744073709551614 (by rw [zl_ffffffffffffffff]; norm_num) (by norm_num) h_x127) (by norm_num) fun x141 h_x141 c_x141 => ?_
  refine wp_add P _ _ _ _ (by rw [zl_0]; norm_num) fun y13 x143 h_y13 c_x143 => ?_
  refine wp_add P _ _ _ _ c_x143 fun x144 x145 h_x144 c_x145 => ?_
  refine wp_add P _ _ _ _ c_x145 fun x146 x147 h_x146 c_x147 => ?_
  refine wp_add P _ _ _ _ c_x147 fun x148 x149 h_x148 c_x149 => ?_
  refine wp_add P _ _ _ _ c_x149 fun x150 x151 h_x150 c_x151 => ?_
  refine wp_plus P 1 1 _ _ _ c_x151 c_x124 (by norm_num) fun x152 h_x152 c_x152 => ?_
  refine wp_mul P _ _ _ fun x154 x153 h_x153 => ?_
  refine wp_mul P _ _ _ fun x156 x155 h_x155 => ?_
  refine wp_mul P _ _ _ fun x158 x157 h_x157 => ?_
  refine wp_mul P _ _ _ fun x160 x159 h_x159 => ?_
  refine wp_add P _ _ _ _ (by rw [zl_0]; norm_num) fun x161 x162 h_x161 c_x162 => ?_
  refine wp_add P _ _ _ _ c_x162 fun x163 x164 h_x163 c_x164 => ?_
  refine wp_add P _ _ _ _ c_x164 fun x165 x166 h_x165 c_x166 => ?_
  refine wp_plus P 1 18446744073709551614 _ _ _ c_x166 (mulhi_le h_x153) (by norm_num) fun x167 h_x167 c_x167 => ?_
  refine wp_add P _ _ _ _ (by rw [zl_0]; norm_num) fun x168 x169 h_x168 c_x169 => ?_
  refine wp_add P _ _ _ _ c_x169 fun x170 x171 h_x170 c_x171 => ?_
  refine wp_add P _ _ _ _ c_x171 fun x172 x173 h_x172 c_x173 => ?_
  refine wp_add P _ _ _ _ c_x173 fun x174 x175 h_x174 c_x175 => ?_
  refine wp_add P _ _ _ _ c_x175 fun x176 x177 h_x176 c_x177 => ?_
  refine wp_mul P _ _ _ fun y16 x178 h_x178 => ?_
  refine wp_mul P _ _ _ fun x181 x180 h_x180 => ?_
  refine wp_mul P _ _ _ fun x183 x182 h_x182 => ?_
  refine wp_mul P _ _ _ fun x185 x184 h_x184 => ?_
  refine wp_mul P _ _ _ fun x187 x186 h_x186 => ?_
  refine wp_add P _ _ _ _ (by rw [zl_0]; norm_num) fun x188 x189 h_x188 c_x189 => ?_
  refine wp_add P _ _ _ _ c_x189 fun x190 x191 h_x190 c_x191 => ?_
  refine wp_add P _ _ _ _ c_x191 fun x192 x193 h_x192 c_x193 => ?_
  refine wp_plus P 1 18446744073709551614 _ _ _ c_x193 (mulhi_lt 18446744073709551614 (by rw [zl_ffffffffffffffff]; norm_num) (by norm_num) h_x180) (by norm_num) fun x194 h_x194 c_x194 => ?_
  refine wp_add P _ _ _ _ (by rw [zl_0]; norm_num) fun y18 x196 h_y18 c_x196 => ?_
  refine wp_add P _ _ _ _ c_x196 fun x197 x198 h_x197 c_x198 => ?_
  refine wp_add P _ _ _ _ c_x198 fun x199 x200 h_x199 c_x200 => ?_
  refine wp_add P _ _ _ _ c_x200 fun x201 x202 h_x201 c_x202 => ?_
  refine wp_add P _ _ _ _ c_x202 fun x203 x204 h_x203 c_x204 => ?_
  refine wp_plus P 1 1 _ _ _ c_x204 c_x177 (by norm_num) fun x205 h_x205 c_x205 => ?_
  refine wp_sub P _ _ _ _ (by rw [zl_0]; norm_num) fun x206 x207 h_x206 c_x207 => ?_
  refine wp_sub P _ _ _ _ c_x207 fun x208 x209 h_x208 c_x209 => ?_
  refine wp_sub P _ _ _ _ c_x209 fun x210 x211 h_x210 c_x211 => ?_
  refine wp_sub P _ _ _ _ c_x211 fun x212 x213 h_x212 c_x213 => ?_
  refine wp_sub P _ _ _ _ c_x213 fun y20 x215 h_y20 c_x215 => ?_
  refine wp_cmov P _ _ _ _ c_x215 fun x216 ra_x216 rb_x216 => ?_
  refine wp_cmov P _ _ _ _ c_x215 fun x217 ra_x217 rb_x217 => ?_
  refine wp_cmov P _ _ _ _ c_x215 fun x218 ra_x218 rb_x218 => ?_
  refine wp_cmov P _ _ _ _ c_x215 fun x219 ra_x219 rb_x219 => ?_
  have e_y4 : z y4 = 0 := redc_low (by rw [zl_4b0dff665588b13f, zl_bfd25e8cd0364141]; norm_num) h_x20 h_x28 zl_0 h_y4
  have e_y8 : z y8 = 0 := redc_low (by rw [zl_4b0dff665588b13f, zl_bfd25e8cd0364141]; norm_num) h_x72 h_x80 zl_0 h_y8
  have e_y13 : z y13 = 0 := redc_low (by rw [zl_4b0dff665588b13f, zl_bfd25e8cd0364141]; norm_num) h_x125 h_x133 zl_0 h_y13
  have e_y18 : z y18 = 0 := redc_low (by rw [zl_4b0dff665588b13f, zl_bfd25e8cd0364141]; norm_num) h_x178 h_x186 zl_0 h_y18
  have hI : (z x197 + 18446744073709551616 * z x199 + 18446744073709551616 ^ 2 * z x201 + 18446744073709551616 ^ 3 * z x203 + 18446744073709551616 ^ 4 * z x205) * 18446744073709551616 ^ 4 = a.zval * a.zval + (z x20 + 18446744073709551616 * z x72 + 18446744073709551616 ^ 2 * z x125 + 18446744073709551616 ^ 3 * z x178) * 115792089237316195423570985008687907852837564279074904382605163141518161494337 := by
    unfold L4.zval
    linear_combination 18446744073709551616 ^ 3 * h_x5 + 18446744073709551616 ^ 2 * h_x7 + 18446744073709551616 ^ 1 * h_x9 + 18446744073709551616 ^ 0 * h_x11 + 18446744073709551616 ^ 1 * h_x13 + (18446744073709551616 ^ 1) * zl_0 + 18446744073709551616 ^ 2 * h_x15 + 18446744073709551616 ^ 3 * h_x17 + 18446744073709551616 ^ 4 * h_x19 + 18446744073709551616 ^ 3 * h_x22 + 18446744073709551616 ^ 3 * z x20 * zl_ffffffffffffffff + 18446744073709551616 ^ 2 * h_x24 + 18446744073709551616 ^ 2 * z x20 * zl_fffffffffffffffe + 18446744073709551616 ^ 1 * h_x26 + 18446744073709551616 ^ 1 * z x20 * zl_baaedce6af48a03b + 18446744073709551616 ^ 0 * h_x28 + 18446744073709551616 ^ 0 * z x20 * zl_bfd25e8cd0364141 + 18446744073709551616 ^ 1 * h_x30 + (18446744073709551616 ^ 1) * zl_0 + 18446744073709551616 ^ 2 * h_x32 + 18446744073709551616 ^ 3 * h_x34 + 18446744073709551616 ^ 4 * h_x36 + 18446744073709551616 ^ 0 * h_y4 + (18446744073709551616 ^ 0) * zl_0 + 18446744073709551616 ^ 1 * h_x39 + 18446744073709551616 ^ 2 * h_x41 + 18446744073709551616 ^ 3 * h_x43 + 18446744073709551616 ^ 4 * h_x45 + 18446744073709551616 ^ 4 * h_x47 + 18446744073709551616 ^ 3 * h_x49 + 18446744073709551616 ^ 2 * h_x51 + 18446744073709551616 ^ 1 * h_x53 + 18446744073709551616 ^ 2 * h_x55 + (18446744073709551616 ^ 2) * zl_0 + 18446744073709551616 ^ 3 * h_x57 + 18446744073709551616 ^ 4 * h_x59 + 18446744073709551616 ^ 5 * h_x61 + 18446744073709551616 ^ 1 * h_x62 + (18446744073709551616 ^ 1) * zl_0 + 18446744073709551616 ^ 2 * h_x64 + 18446744073709551616 ^ 3 * h_x66 + 18446744073709551616 ^ 4 * h_x68 + 18446744073709551616 ^ 5 * h_x70 + 18446744073709551616 ^ 4 * h_x74 + 18446744073709551616 ^ 4 * z x72 * zl_ffffffffffffffff + 18446744073709551616 ^ 3 * h_x76 + 18446744073709551616 ^ 3 * z x72 * zl_fffffffffffffffe + 18446744073709551616 ^ 2 * h_x78 + 18446744073709551616 ^ 2 * z x72 * zl_baaedce6af48a03b + 18446744073709551616 ^ 1 * h_x80 + 18446744073709551616 ^ 1 * z x72 * zl_bfd25e8cd0364141 + 18446744073709551616 ^ 2 * h_x82 + (18446744073709551616 ^ 2) * zl_0 + 18446744073709551616 ^ 3 * h_x84 + 18446744073709551616 ^ 4 * h_x86 + 18446744073709551616 ^ 5 * h_x88 + 18446744073709551616 ^ 1 * h_y8 + (18446744073709551616 ^ 1) * zl_0 + 18446744073709551616 ^ 2 * h_x91 + 18446744073709551616 ^ 3 * h_x93 + 18446744073709551616 ^ 4 * h_x95 + 18446744073709551616 ^ 5 * h_x97 + 18446744073709551616 ^ 6 * h_x99 + 18446744073709551616 ^ 5 * h_x100 + 18446744073709551616 ^ 4 * h_x102 + 18446744073709551616 ^ 3 * h_x104 + 18446744073709551616 ^ 2 * h_x106 + 18446744073709551616 ^ 3 * h_x108 + (18446744073709551616 ^ 3) * zl_0 + 18446744073709551616 ^ 4 * h_x110 + 18446744073709551616 ^ 5 * h_x112 + 18446744073709551616 ^ 6 * h_x114 + 18446744073709551616 ^ 2 * h_x115 + (18446744073709551616 ^ 2) * zl_0 + 18446744073709551616 ^ 3 * h_x117 + 18446744073709551616 ^ 4 * h_x119 + 18446744073709551616 ^ 5 * h_x121 + 18446744073709551616 ^ 6 * h_x123 + 18446744073709551616 ^ 5 * h_x127 + 18446744073709551616 ^ 5 * z x125 * zl_ffffffffffffffff + 18446744073709551616 ^ 4 * h_x129 + 18446744073709551616 ^ 4 * z x125 * zl_fffffffffffffffe + 18446744073709551616 ^ 3 * h_x131 + 18446744073709551616 ^ 3 * z x125 * zl_baaedce6af48a03b + 18446744073709551616 ^ 2 * h_x133 + 18446744073709551616 ^ 2 * z x125 * zl_bfd25e8cd0364141 + 18446744073709551616 ^ 3 * h_x135 + (18446744073709551616 ^ 3) * zl_0 + 18446744073709551616 ^ 4 * h_x137 + 18446744073709551616 ^ 5 * h_x139 + 18446744073709551616 ^ 6 * h_x141 + 18446744073709551616 ^ 2 * h_y13 + (18446744073709551616 ^ 2) * zl_0 + 18446744073709551616 ^ 3 * h_x144 + 18446744073709551616 ^ 4 * h_x146 + 18446744073709551616 ^ 5 * h_x148 + 18446744073709551616 ^ 6 * h_x150 + 18446744073709551616 ^ 7 * h_x152 + 18446744073709551616 ^ 6 * h_x153 + 18446744073709551616 ^ 5 * h_x155 + 18446744073709551616 ^ 4 * h_x157 + 18446744073709551616 ^ 3 * h_x159 + 18446744073709551616 ^ 4 * h_x161 + (18446744073709551616 ^ 4) * zl_0 + 18446744073709551616 ^ 5 * h_x163 + 18446744073709551616 ^ 6 * h_x165 + 18446744073709551616 ^ 7 * h_x167 + 18446744073709551616 ^ 3 * h_x168 + (18446744073709551616 ^ 3) * zl_0 + 18446744073709551616 ^ 4 * h_x170 + 18446744073709551616 ^ 5 * h_x172 + 18446744073709551616 ^ 6 * h_x174 + 18446744073709551616 ^ 7 * h_x176 + 18446744073709551616 ^ 6 * h_x180 + 18446744073709551616 ^ 6 * z x178 * zl_ffffffffffffffff + 18446744073709551616 ^ 5 * h_x182 + 18446744073709551616 ^ 5 * z x178 * zl_fffffffffffffffe + 18446744073709551616 ^ 4 * h_x184 + 18446744073709551616 ^ 4 * z x178 * zl_baaedce6af48a03b + 18446744073709551616 ^ 3 * h_x186 + 18446744073709551616 ^ 3 * z x178 * zl_bfd25e8cd0364141 + 18446744073709551616 ^ 4 * h_x188 + (18446744073709551616 ^ 4) * zl_0 + 18446744073709551616 ^ 5 * h_x190 + 18446744073709551616 ^ 6 * h_x192 + 18446744073709551616 ^ 7 * h_x194 + 18446744073709551616 ^ 3 * h_y18 + (18446744073709551616 ^ 3) * zl_0 + 18446744073709551616 ^ 4 * h_x197 + 18446744073709551616 ^ 5 * h_x199 + 18446744073709551616 ^ 6 * h_x201 + 18446744073709551616 ^ 7 * h_x203 + 18446744073709551616 ^ 8 * h_x205 + -(18446744073709551616 ^ 0) * e_y4 + -(18446744073709551616 ^ 1) * e_y8 + -(18446744073709551616 ^ 2) * e_y13 + -(18446744073709551616 ^ 3) * e_y18
  have hD : z x206 + 18446744073709551616 * z x208 + 18446744073709551616 ^ 2 * z x210 + 18446744073709551616 ^ 3 * z x212 + 18446744073709551616 ^ 4 * z y20 - 18446744073709551616 ^ 5 * z x215 = z x197 + 18446744073709551616 * z x199 + 18446744073709551616 ^ 2 * z x201 + 18446744073709551616 ^ 3 * z x203 + 18446744073709551616 ^ 4 * z x205 - 115792089237316195423570985008687907852837564279074904382605163141518161494337 := by
    linear_combination 18446744073709551616 ^ 0 * h_x206 - 18446744073709551616 ^ 0 * zl_bfd25e8cd0364141 + -(18446744073709551616 ^ 0) * zl_0 + 18446744073709551616 ^ 1 * h_x208 - 18446744073709551616 ^ 1 * zl_baaedce6af48a03b + 18446744073709551616 ^ 2 * h_x210 - 18446744073709551616 ^ 2 * zl_fffffffffffffffe + 18446744073709551616 ^ 3 * h_x212 - 18446744073709551616 ^ 3 * zl_ffffffffffffffff + 18446744073709551616 ^ 4 * h_y20 - 18446744073709551616 ^ 4 * zl_0
  have hU : z x20 + 18446744073709551616 * z x72 + 18446744073709551616 ^ 2 * z x125 + 18446744073709551616 ^ 3 * z x178 ≤ 18446744073709551616 ^ 4 - 1 := zsum_le _ _ _ _
  have hX : a.zval * a.zval < 18446744073709551616 ^ 4 * 115792089237316195423570985008687907852837564279074904382605163141518161494337 := by rw [L4.zval_eq]; exact_mod_cast h
  have hT : z x197 + 18446744073709551616 * z x199 + 18446744073709551616 ^ 2 * z x201 + 18446744073709551616 ^ 3 * z x203 + 18446744073709551616 ^ 4 * z x205 < 2 * 115792089237316195423570985008687907852837564279074904382605163141518161494337 := by
    generalize a.zval * a.zval = X at hI hX
    linarith only [hI, hX, hU]
  obtain ⟨hlt, hk⟩ := condsub 115792089237316195423570985008687907852837564279074904382605163141518161494337 hD c_x215 (by norm_num) (by norm_num) hT ra_x216 rb_x216 ra_x217 rb_x217 ra_x218 rb_x218 ra_x219 rb_x219
  refine hP _ (redc_of _ _ _ _ _ _ _ (by norm_num) ?_ hlt hk hI)
  rw [L4.zval_eq]; exact (Nat.cast_mul _ _).symm

theorem add_spec (a b : L4) (ha : a.val < 115792089237316195423570985008687907852837564279074904382605163141518161494337) (hb : b.val < 115792089237316195423570985008687907852837564279074904382605163141518161494337) : Reduced 115792089237316195423570985008687907852837564279074904382605163141518161494337 (a.val + b.val) (add a b) := by
  suffices H : ∀ P : L4 → Prop, (∀ r, Reduced 115792089237316195423570985008687907852837564279074904382605163141518161494337 (a.val + b.val) r → P r) → P (add a b) from H _ (fun _ h => h)
  intro P hP
  have zl_0 : z 0x0 = 0 := rfl
  have zl_baaedce6af48a03b : z 0xbaaedce6af48a03b = 13451932020343611451 := rfl
  have zl_bfd25e8cd0364141 : z 0xbfd25e8cd0364141 = 13822214165235122497 := rfl
  have zl_fffffffffffffffe : z 0xfffffffffffffffe = 18446744073709551614 := rfl
  have zl_ffffffffffffffff : z 0xffffffffffffffff = 18446744073709551615 := rfl
  unfold add
  refine wp_add P _ _ _ _ (by rw [zl_0]; norm_num) fun x1 x2 h_x1 c_x2 => ?_
  refine wp_add P _ _ _ _ c_x2 fun x3 x4 h_x3 c_x4 => ?_
  refine wp_add P _ _ _ _ c_x4 fun x5 x6 h_x5 c_x6 => ?_
  refine wp_add P _ _ _ _ c_x6 fun x7 x8 h_x7 c_x8 => ?_
  refine wp_sub P _ _ _ _ (by rw [zl_0]; norm_num) fun x9 x10 h_x9 c_x10 => ?_
  refine wp_sub P _ _ _ _ c_x10 fun x11 x12 h_x11 c_x12 => ?_
  refine wp_sub P _ _ _ _ c_x12 fun x13 x14 h_x13 c_x14 => ?_
  refine wp_sub P _ _ _ _ c_x14 fun x15 x16 h_x15 c_x16 => ?_
  refine wp_sub P _ _ _ _ c_x16 fun y1 x18 h_y1 c_x18 => ?_
  refine wp_cmov P _ _ _ _ c_x18 fun x19 ra_x19 rb_x19 => ?_
  refine wp_cmov P _ _ _ _ c_x18 fun x20 ra_x20 rb_x20 => ?_
  refine wp_cmov P _ _ _ _ c_x18 fun x21 ra_x21 rb_x21 => ?_
  refine wp_cmov P _ _ _ _ c_x18 fun x22 ra_x22 rb_x22 => ?_
  have hI : z x1 + 18446744073709551616 * z x3 + 18446744073709551616 ^ 2 * z x5 + 18446744073709551616 ^ 3 * z x7 + 18446744073709551616 ^ 4 * z x8 = a.zval + b.zval := by
    unfold L4.zval
    linear_combination 18446744073709551616 ^ 0 * h_x1 + 18446744073709551616 ^ 0 * zl_0 + 18446744073709551616 ^ 1 * h_x3 + 18446744073709551616 ^ 2 * h_x5 + 18446744073709551616 ^ 3 * h_x7
  have hD : z x9 + 18446744073709551616 * z x11 + 18446744073709551616 ^ 2 * z x13 + 18446744073709551616 ^ 3 * z x15 + 18446744073709551616 ^ 4 * z y1 - 18446744073709551616 ^ 5 * z x18 = z x1 + 18446744073709551616 * z x3 + 18446744073709551616 ^ 2 * z x5 + 18446744073709551616 ^ 3 * z x7 + 18446744073709551616 ^ 4 * z x8 - 115792089237316195423570985008687907852837564279074904382605163141518161494337 := by
    linear_combination 18446744073709551616 ^ 0 * h_x9 - 18446744073709551616 ^ 0 * zl_bfd25e8cd0364141 + -(18446744073709551616 ^ 0) * zl_0 + 18446744073709551616 ^ 1 * h_x11 - 18446744073709551616 ^ 1 * zl_baaedce6af48a03b + 18446744073709551616 ^ 2 * h_x13 - 18446744073709551616 ^ 2 * zl_fffffffffffffffe + 18446744073709551616 ^ 3 * h_x15 - 18446744073709551616 ^ 3 * zl_ffffffffffffffff + 18446744073709551616 ^ 4 * h_y1 - 18446744073709551616 ^ 4 * zl_0
  have hT : z x1 + 18446744073709551616 * z x3 + 18446744073709551616 ^ 2 * z x5 + 18446744073709551616 ^ 3 * z x7 + 18446744073709551616 ^ 4 * z x8 < 2 * 115792089237316195423570985008687907852837564279074904382605163141518161494337 := by
    rw [hI, L4.zval_eq, L4.zval_eq]; omega
  obtain ⟨hlt, hk⟩ := condsub 115792089237316195423570985008687907852837564279074904382605163141518161494337 hD c_x18 (by norm_num) (by norm_num) hT ra_x19 rb_x19 ra_x20 rb_x20 ra_x21 rb_x21 ra_x22 rb_x22
  refine hP _ (reduced_of _ _ _ _ _ (by norm_num) ?_ hlt hk)
  rw [hI, L4.zval_eq, L4.zval_eq]; exact (Nat.cast_add _ _).symm

theorem sub_spec (a b : L4) (ha : a.val < 115792089237316195423570985008687907852837564279074904382605163141518161494337) (hb : b.val < 115792089237316195423570985008687907852837564279074904382605163141518161494337) : Reduced 115792089237316195423570985008687907852837564279074904382605163141518161494337 (a.val + (115792089237316195423570985008687907852837564279074904382605163141518161494337 - b.val)) (sub a b) := by
  suffices H : ∀ P : L4 → Prop, (∀ r, Reduced 115792089237316195423570985008687907852837564279074904382605163141518161494337 (a.val + (115792089237316195423570985008687907852837564279074904382605163141518161494337 - b.val)) r → P r) → P (sub a b) from H _ (fun _ h => h)
  intro P hP
  have zl_0 : z 0x0 = 0 := rfl
  have zl_baaedce6af48a03b : z 0xbaaedce6af48a03b = 13451932020343611451 := rfl
  have zl_bfd25e8cd0364141 : z 0xbfd25e8cd0364141 = 13822214165235122497 := rfl
  have zl_fffffffffffffffe : z 0xfffffffffffffffe = 18446744073709551614 := rfl
  have zl_ffffffffffffffff : z 0xffffffffffffffff = 18446744073709551615 := rfl
  unfold sub
  refine wp_sub P _ _ _ _ (by rw [zl_0]; norm_num) fun x1 x2 h_x1 c_x2 => ?_
  refine wp_sub P _ _ _ _ c_x2 fun x3 x4 h_x3 c_x4 => ?_
  refine wp_sub P _ _ _ _ c_x4 fun x5 x6 h_x5 c_x6 => ?_
  refine wp_sub P _ _ _ _ c_x6 fun x7 x8 h_x7 c_x8 => ?_
  refine wp_cmov P _ _ _ _ c_x8 fun x9 ra_x9 rb_x9 => ?_
  refine wp_and P _ _ _ fun y1 ra_y1 rb_y1 => ?_
  refine wp_add P _ _ _ _ (by rw [zl_0]; norm_num) fun x10 x11 h_x10 c_x11 => ?_
  refine wp_and P _ _ _ fun y2 ra_y2 rb_y2 => ?_
  refine wp_add P _ _ _ _ c_x11 fun x12 x13 h_x12 c_x13 => ?_
  refine wp_and P _ _ _ fun y3 ra_y3 rb_y3 => ?_
  refine wp_add P _ _ _ _ c_x13 fun x14 x15 h_x14 c_x15 => ?_
  refine wp_add P _ _ _ _ c_x15 fun x16 y4 h_x16 c_y4 => ?_
  have hD : z x1 + 18446744073709551616 * z x3 + 18446744073709551616 ^ 2 * z x5 + 18446744073709551616 ^ 3 * z x7 - 18446744073709551616 ^ 4 * z x8 = a.zval - b.zval := by
    unfold L4.zval
    linear_combination 18446744073709551616 ^ 0 * h_x1 + -(18446744073709551616 ^ 0) * zl_0 + 18446744073709551616 ^ 1 * h_x3 + 18446744073709551616 ^ 2 * h_x5 + 18446744073709551616 ^ 3 * h_x7
  have hS : z x10 + 18446744073709551616 * z x12 + 18446744073709551616 ^ 2 * z x14 + 18446744073709551616 ^ 3 * z x16 + 18446744073709551616 ^ 4 * z y4 = z x1 + 18446744073709551616 * z x3 + 18446744073709551616 ^ 2 * z x5 + 18446744073709551616 ^ 3 * z x7 + z y1 + 18446744073709551616 * z y2 + 18446744073709551616 ^ 2 * z y3 + 18446744073709551616 ^ 3 * z x9 := by
    linear_combination 18446744073709551616 ^ 0 * h_x10 + 18446744073709551616 ^ 0 * zl_0 + 18446744073709551616 ^ 1 * h_x12 + 18446744073709551616 ^ 2 * h_x14 + 18446744073709551616 ^ 3 * h_x16
  have hk0 : z x8 = 0 → z y1 = 0 ∧ z y2 = 0 ∧ z y3 = 0 ∧ z x9 = 0 := by
    intro e
    have e1 : x9 = 0 := ra_x9 e
    exact ⟨by rw [ra_y1 e1]; rfl, by rw [ra_y2 e1]; rfl, by rw [ra_y3 e1]; rfl, by rw [e1]; rfl⟩
  have hk1 : z x8 = 1 → z y1 + 18446744073709551616 * z y2 + 18446744073709551616 ^ 2 * z y3 + 18446744073709551616 ^ 3 * z x9 = 115792089237316195423570985008687907852837564279074904382605163141518161494337 := by
    intro e
    have e1 : x9 = 0xffffffffffffffff := rb_x9 e
    rw [rb_y1 e1, rb_y2 e1, rb_y3 e1, e1]; simp only [zl_baaedce6af48a03b, zl_fffffffffffffffe, zl_0, zl_ffffffffffffffff, zl_bfd25e8cd0364141]; norm_num only
  have ha' : a.zval < 115792089237316195423570985008687907852837564279074904382605163141518161494337 := by rw [L4.zval_eq]; exact_mod_cast ha
  have ha0 : 0 ≤ a.zval := by rw [L4.zval_eq]; omega
  have hb' : b.zval < 115792089237316195423570985008687907852837564279074904382605163141518161494337 := by rw [L4.zval_eq]; exact_mod_cast hb
  have hb0 : 0 ≤ b.zval := by rw [L4.zval_eq]; omega
  obtain ⟨hlt, kk, hk⟩ := condadd _ 115792089237316195423570985008687907852837564279074904382605163141518161494337 _ _ _ _ hD hS c_x8 c_y4 hk0 hk1 (by linarith only [ha', ha0, hb', hb0]) (by linarith only [ha', ha0, hb', hb0]) (by norm_num)
  refine hP _ (reduced_of 115792089237316195423570985008687907852837564279074904382605163141518161494337 _ _ 115792089237316195423570985008687907852837564279074904382605163141518161494337 (a.zval - b.zval + 115792089237316195423570985008687907852837564279074904382605163141518161494337) (by norm_num) ?_ hlt ⟨1 - kk, ?_⟩)
  · rw [L4.zval_eq, L4.zval_eq]; omega
  · rw [hk]; ring

theorem opp_spec (a : L4) (ha : a.val < 115792089237316195423570985008687907852837564279074904382605163141518161494337) : Reduced 115792089237316195423570985008687907852837564279074904382605163141518161494337 (115792089237316195423570985008687907852837564279074904382605163141518161494337 - a.val) (opp a) := by
  suffices H : ∀ P : L4 → Prop, (∀ r, Reduced 115792089237316195423570985008687907852837564279074904382605163141518161494337 (115792089237316195423570985008687907852837564279074904382605163141518161494337 - a.val) r → P r) → P (opp a) from H _ (fun _ h => h)
  intro P hP
  have zl_0 : z 0x0 = 0 := rfl
  have zl_baaedce6af48a03b : z 0xbaaedce6af48a03b = 13451932020343611451 := rfl
  have zl_bfd25e8cd0364141 : z 0xbfd25e8cd0364141 = 13822214165235122497 := rfl
  have zl_fffffffffffffffe : z 0xfffffffffffffffe = 18446744073709551614 := rfl
  have zl_ffffffffffffffff : z 0xffffffffffffffff = 18446744073709551615 := rfl
  unfold opp
  refine wp_sub P _ _ _ _ (by rw [zl_0]; norm_num) fun x1 x2 h_x1 c_x2 => ?_
  refine wp_sub P _ _ _ _ c_x2 fun x3 x4 h_x3 c_x4 => ?_
  refine wp_sub P _ _ _ _ c_x4 fun x5 x6 h_x5 c_x6 => ?_
  refine wp_sub P _ _ _ _ c_x6 fun x7 x8 h_x7 c_x8 => ?_
  refine wp_cmov P _ _ _ _ c_x8 fun x9 ra_x9 rb_x9 => ?_
  refine wp_and P _ _ _ fun y1 ra_y1 rb_y1 => ?_
  refine wp_add P _ _ _ _ (by rw [zl_0]; norm_num) fun x10 x11 h_x10 c_x11 => ?_
  refine wp_and P _ _ _ fun y2 ra_y2 rb_y2 => ?_
  refine wp_add P _ _ _ _ c_x11 fun x12 x13 h_x12 c_x13 => ?_
  refine wp_and P _ _ _ fun y3 ra_y3 rb_y3 => ?_
  refine wp_add P _ _ _ _ c_x13 fun x14 x15 h_x14 c_x15 => ?_
  refine wp_add P _ _ _ _ c_x15 fun x16 y4 h_x16 c_y4 => ?_
  have hD : z x1 + 18446744073709551616 * z x3 + 18446744073709551616 ^ 2 * z x5 + 18446744073709551616 ^ 3 * z x7 - 18446744073709551616 ^ 4 * z x8 = 0 - a.zval := by
    unfold L4.zval
    linear_combination 18446744073709551616 ^ 0 * h_x1 + (18446744073709551616 ^ 0) * zl_0 + -(18446744073709551616 ^ 0) * zl_0 + 18446744073709551616 ^ 1 * h_x3 + (18446744073709551616 ^ 1) * zl_0 + 18446744073709551616 ^ 2 * h_x5 + (18446744073709551616 ^ 2) * zl_0 + 18446744073709551616 ^ 3 * h_x7 + (18446744073709551616 ^ 3) * zl_0
  have hS : z x10 + 18446744073709551616 * z x12 + 18446744073709551616 ^ 2 * z x14 + 18446744073709551616 ^ 3 * z x16 + 18446744073709551616 ^ 4 * z y4 = z x1 + 18446744073709551616 * z x3 + 18446744073709551616 ^ 2 * z x5 + 18446744073709551616 ^ 3 * z x7 + z y1 + 18446744073709551616 * z y2 + 18446744073709551616 ^ 2 * z y3 + 18446744073709551616 ^ 3 * z x9 := by
    linear_combination 18446744073709551616 ^ 0 * h_x10 + 18446744073709551616 ^ 0 * zl_0 + 18446744073709551616 ^ 1 * h_x12 + 18446744073709551616 ^ 2 * h_x14 + 18446744073709551616 ^ 3 * h_x16
  have hk0 : z x8 = 0 → z y1 = 0 ∧ z y2 = 0 ∧ z y3 = 0 ∧ z x9 = 0 := by
    intro e
    have e1 : x9 = 0 := ra_x9 e
    exact ⟨by rw [ra_y1 e1]; rfl, by rw [ra_y2 e1]; rfl, by rw [ra_y3 e1]; rfl, by rw [e1]; rfl⟩
  have hk1 : z x8 = 1 → z y1 + 18446744073709551616 * z y2 + 18446744073709551616 ^ 2 * z y3 + 18446744073709551616 ^ 3 * z x9 = 115792089237316195423570985008687907852837564279074904382605163141518161494337 := by
    intro e
    have e1 : x9 = 0xffffffffffffffff := rb_x9 e
    rw [rb_y1 e1, rb_y2 e1, rb_y3 e1, e1]; simp only [zl_baaedce6af48a03b, zl_fffffffffffffffe, zl_0, zl_ffffffffffffffff, zl_bfd25e8cd0364141]; norm_num only
  have ha' : a.zval < 115792089237316195423570985008687907852837564279074904382605163141518161494337 := by rw [L4.zval_eq]; exact_mod_cast ha
  have ha0 : 0 ≤ a.zval := by rw [L4.zval_eq]; omega
  obtain ⟨hlt, kk, hk⟩ := condadd _ 115792089237316195423570985008687907852837564279074904382605163141518161494337 _ _ _ _ hD hS c_x8 c_y4 hk0 hk1 (by linarith only [ha', ha0]) (by linarith only [ha', ha0]) (by norm_num)
  refine hP _ (reduced_of 115792089237316195423570985008687907852837564279074904382605163141518161494337 _ _ 115792089237316195423570985008687907852837564279074904382605163141518161494337 (0 - a.zval + 115792089237316195423570985008687907852837564279074904382605163141518161494337) (by norm_num) ?_ hlt ⟨1 - kk, ?_⟩)
  · rw [L4.zval_eq]; omega
  · rw [hk]; ring

theorem fromMont_spec (a : L4)  : Redc 115792089237316195423570985008687907852837564279074904382605163141518161494337 (a.val) (fromMont a) := by
  suffices H : ∀ P : L4 → Prop, (∀ r, Redc 115792089237316195423570985008687907852837564279074904382605163141518161494337 (a.val) r → P r) → P (fromMont a) from H _ (fun _ h => h)
  intro P hP
  have zl_0 : z 0x0 = 0 := rfl
  have zl_4b0dff665588b13f : z 0x4b0dff665588b13f = 5408259542528602431 := rfl
  have zl_baaedce6af48a03b : z 0xbaaedce6af48a03b = 13451932020343611451 := rfl
  have zl_bfd25e8cd0364141 : z 0xbfd25e8cd0364141 = 13822214165235122497 := rfl
  have zl_fffffffffffffffe : z 0xfffffffffffffffe = 18446744073709551614 := rfl
  have zl_ffffffffffffffff : z 0xffffffffffffffff = 18446744073709551615 := rfl
  unfold fromMont
  refine wp_mul P _ _ _ fun y1 x2 h_x2 => ?_
  refine wp_mul P _ _ _ fun x5 x4 h_x4 => ?_
  refine wp_mul P _ _ _ fun x7 x6 h_x6 => ?_
  refine wp_mul P _ _ _ fun x9 x8 h_x8 => ?_
  refine wp_mul P _ _ _ fun x11 x10 h_x10 => ?_
  refine wp_add P _ _ _ _ (by rw [zl_0]; norm_num) fun x12 x13 h_x12 c_x13 => ?_
  refine wp_add P _ _ _ _ c_x13 fun x14 x15 h_x14 c_x15 => ?_
  refine wp_add P _ _ _ _ c_x15 fun x16 x17 h_x16 c_x17 => ?_
  refine wp_add P _ _ _ _ (by rw [zl_0]; norm_num) fun y2 x19 h_y2 c_x19 => ?_
  refine wp_add P _ _ _ _ c_x19 fun x20 x21 h_x20 c_x21 => ?_
  refine wp_add P _ _ _ _ c_x21 fun x22 x23 h_x22 c_x23 => ?_
  refine wp_add P _ _ _ _ c_x23 fun x24 x25 h_x24 c_x25 => ?_
  refine wp_plus P 1 18446744073709551614 _ _ _ c_x17 (mulhi_lt 18446744073709551614 (by rw [zl_ffffffffffffffff]; norm_num) (by norm_num) h_x4) (by norm_num) fun y3 h_y3 c_y3 => ?_
  refine wp_add P _ _ _ _ c_x25 fun x26 x27 h_x26 c_x27 => ?_
  refine wp_add P _ _ _ _ (by rw [zl_0]; norm_num) fun x28 x29 h_x28 c_x29 => ?_
  refine wp_add P _ _ _ _ c_x29 fun x30 x31 h_x30 c_x31 => ?_
  refine wp_add P _ _ _ _ c_x31 fun x32 x33 h_x32 c_x33 => ?_
  refine wp_add P _ _ _ _ c_x33 fun x34 x35 h_x34 c_x35 => ?_
  refine wp_mul P _ _ _ fun y4 x36 h_x36 => ?_
  refine wp_mul P _ _ _ fun x39 x38 h_x38 => ?_
  refine wp_mul P _ _ _ fun x41 x40 h_x40 => ?_
  refine wp_mul P _ _ _ fun x43 x42 h_x42 => ?_
  refine wp_mul P _ _ _ fun x45 x44 h_x44 => ?_
  refine wp_add P _ _ _ _ (by rw [zl_0]; norm_num) fun x46 x47 h_x46 c_x47 => ?_
  refine wp_add P _ _ _ _ c_x47 fun x48 x49 h_x48 c_x49 => ?_
  refine wp_add P _ _ _ _ c_x49 fun x50 x51 h_x50 c_x51 => ?_
  refine wp_add P _ _ _ _ (by rw [zl_0]; norm_num) fun y5 x53 h_y5 c_x53 => ?_
  refine wp_add P _ _ _ _ c_x53 fun x54 x55 h_x54 c_x55 => ?_
  refine wp_add P _ _ _ _ c_x55 fun x56 x57 h_x56 c_x57 => ?_
  refine wp_add P _ _ _ _ c_x57 fun x58 x59 h_x58 c_x59 => ?_
  refine wp_plus P 1 1 _ _ _ c_x35 c_x27 (by norm_num) fun y6 h_y6 c_y6 => ?_
  refine wp_plus P 1 18446744073709551614 _ _ _ c_x51 (mulhi_lt 18446744073709551614 (by rw [zl_ffffffffffffffff]; norm_num) (by norm_num) h_x38) (by norm_num) fun y7 h_y7 c_y7 => ?_
  refine wp_add P _ _ _ _ c_x59 fun x60 x61 h_x60 c_x61 => ?_
  refine wp_add P _ _ _ _ (by rw [zl_0]; norm_num) fun x62 x63 h_x62 c_x63 => ?_
  refine wp_add P _ _ _ _ c_x63 fun x64 x65 h_x64 c_x65 => ?_
  refine wp_add P _ _ _ _ c_x65 fun x66 x67 h_x66 c_x67 => ?_
  refine wp_add P _ _ _ _ c_x67 fun x68 x69 h_x68 c_x69 => ?_
  refine wp_mul P _ _ _ fun y8 x70 h_x70 => ?_
  refine wp_mul P _ _ _ fun x73 x72 h_x72 => ?_
  refine wp_mul P _ _ _ fun x75 x74 h_x74 => ?_
  refine wp_mul P _ _ _ fun x77 x76 h_x76 => ?_
  refine wp_mul P _ _ _ fun x79 x78 h_x78 => ?_
  refine wp_add P _ _ _ _ (by rw [zl_0]; norm_num) fun x80 x81 h_x80 c_x81 => ?_
  refine wp_add P _ _ _ _ c_x81 fun x82 x83 h_x82 c_x83 => ?_
  refine wp_add P _ _ _ _ c_x83 fun x84 x85 h_x84 c_x85 => ?_
  refine wp_add P _ _ _ _ (by rw [zl_0]; norm_num) fun y9 x87 h_y9 c_x87 => ?_
  refine wp_add P _ _ _ _ c_x87 fun x88 x89 h_x88 c_x89 => ?_
  refine wp_add P _ _ _ _ c_x89 fun x90 x91 h_x90 c_x91 => ?_
  refine wp_add P _ _ _ _ c_x91 fun x92 x93 h_x92 c_x93 => ?_
  refine wp_plus P 1 1 _ _ _ c_x69 c_x61 (by norm_num) fun y10 h_y10 c_y10 => ?_
  refine wp_plus P 1 18446744073709551614 _ _ _ c_x85 (mulhi_lt 18446744073709551614 (by rw [zl_ffffffffffffffff]; norm_num) (by norm_num) h_x72) (by norm_num) fun y11 h_y11 c_y11 => ?_
  refine wp_add P _ _ _ _ c_x93 fun x94 x95 h_x94 c_x95 => ?_
  refine wp_add P _ _ _ _ (by rw [zl_0]; norm_num) fun x96 x97 h_x96 c_x97 => ?_
  refine wp_add P _ _ _ _ c_x97 fun x98 x99 h_x98 c_x99 => ?_
  refine wp_add P _ _ _ _ c_x99 fun x100 x101 h_x100 c_x101 => ?_
  refine wp_add P _ _ _ _ c_x101 fun x102 x103 h_x102 c_x103 => ?_
  refine wp_mul P _ _ _ fun y12 x104 h_x104 => ?_
  refine wp_mul P _ _ _ fun x107 x106 h_x106 => ?_
  refine wp_mul P _ _ _ fun x109 x108 h_x108 => ?_
  refine wp_mul P _ _ _ fun x111 x110 h_x110 => ?_
  refine wp_mul P _ _ _ fun x113 x112 h_x112 => ?_
  refine wp_add P _ _ _ _ (by rw [zl_0]; norm_num) fun x114 x115 h_x114 c_x115 => ?_
  refine wp_add P _ _ _ _ c_x115 fun x116 x117 h_x116 c_x117 => ?_
  refine wp_add P _ _ _ _ c_x117 fun x118 x119 h_x118 c_x119 => ?_
  refine wp_add P _ _ _ _ (by rw [zl_0]; norm_num) fun y13 x121 h_y13 c_x121 => ?_
  refine wp_add P _ _ _ _ c_x121 fun x122 x123 h_x122 c_x123 => ?_
  refine wp_add P _ _ _ _ c_x123 fun x124 x125 h_x124 c_x125 => ?_
  refine wp_add P _ _ _ _ c_x125 fun x126 x127 h_x126 c_x127 => ?_
  refine wp_plus P 1 1 _ _ _ c_x103 c_x95 (by norm_num) fun y14 h_y14 c_y14 => ?_
  refine wp_plus P 1 18446744073709551614 _ _ _ c_x119 (mulhi_lt 18446744073709551614 (by rw [zl_ffffffffffffffff]; norm_num) (by norm_num) h_x106) (by norm_num) fun y15 h_y15 c_y15 => ?_
  refine wp_add P _ _ _ _ c_x127 fun x128 x129 h_x128 c_x129 => ?_
  refine wp_sub P _ _ _ _ (by rw [zl_0]; norm_num) fun x130 x131 h_x130 c_x131 => ?_
  refine wp_sub P _ _ _ _ c_x131 fun x132 x133 h_x132 c_x133 => ?_
  refine wp_sub P _ _ _ _ c_x133 fun x134 x135 h_x134 c_x135 => ?_
  refine wp_sub P _ _ _ _ c_x135 fun x136 x137 h_x136 c_x137 => ?_
  refine wp_sub P _ _ _ _ c_x137 fun y16 x139 h_y16 c_x139 => ?_
  refine wp_cmov P _ _ _ _ c_x139 fun x140 ra_x140 rb_x140 => ?_
  refine wp_cmov P _ _ _ _ c_x139 fun x141 ra_x141 rb_x141 => ?_
  refine wp_cmov P _ _ _ _ c_x139 fun x142 ra_x142 rb_x142 => ?_
  refine wp_cmov P _ _ _ _ c_x139 fun x143 ra_x143 rb_x143 => ?_
  have e_y2 : z y2 = 0 := redc_low (by rw [zl_4b0dff665588b13f, zl_bfd25e8cd0364141]; norm_num) h_x2 h_x10 zl_0 h_y2
  have e_y5 : z y5 = 0 := redc_low (by rw [zl_4b0dff665588b13f, zl_bfd25e8cd0364141]; norm_num) h_x36 h_x44 zl_0 h_y5
  have e_y9 : z y9 = 0 := redc_low (by rw [zl_4b0dff665588b13f, zl_bfd25e8cd0364141]; norm_num) h_x70 h_x78 zl_0 h_y9
  have e_y13 : z y13 = 0 := redc_low (by rw [zl_4b0dff665588b13f, zl_bfd25e8cd0364141]; norm_num) h_x104 h_x112 zl_0 h_y13
  have hI : (z x122 + 18446744073709551616 * z x124 + 18446744073709551616 ^ 2 * z x126 + 18446744073709551616 ^ 3 * z x128 + 18446744073709551616 ^ 4 * z x129) * 18446744073709551616 ^ 4 = a.zval + (z x2 + 18446744073709551616 * z x36 + 18446744073709551616 ^ 2 * z x70 + 18446744073709551616 ^ 3 * z x104) * 115792089237316195423570985008687907852837564279074904382605163141518161494337 := by
    unfold L4.zval
    linear_combination 18446744073709551616 ^ 3 * h_x4 + 18446744073709551616 ^ 3 * z x2 * zl_ffffffffffffffff + 18446744073709551616 ^ 2 * h_x6 + 18446744073709551616 ^ 2 * z x2 * zl_fffffffffffffffe + 18446744073709551616 ^ 1 * h_x8 + 18446744073709551616 ^ 1 * z x2 * zl_baaedce6af48a03b + 18446744073709551616 ^ 0 * h_x10 + 18446744073709551616 ^ 0 * z x2 * zl_bfd25e8cd0364141 + 18446744073709551616 ^ 1 * h_x12 + (18446744073709551616 ^ 1) * zl_0 + 18446744073709551616 ^ 2 * h_x14 + 18446744073709551616 ^ 3 * h_x16 + 18446744073709551616 ^ 0 * h_y2 + (18446744073709551616 ^ 0) * zl_0 + 18446744073709551616 ^ 1 * h_x20 + (18446744073709551616 ^ 1) * zl_0 + 18446744073709551616 ^ 2 * h_x22 + (18446744073709551616 ^ 2) * zl_0 + 18446744073709551616 ^ 3 * h_x24 + (18446744073709551616 ^ 3) * zl_0 + 18446744073709551616 ^ 4 * h_y3 + 18446744073709551616 ^ 4 * h_x26 + (18446744073709551616 ^ 4) * zl_0 + 18446744073709551616 ^ 1 * h_x28 + (18446744073709551616 ^ 1) * zl_0 + 18446744073709551616 ^ 2 * h_x30 + (18446744073709551616 ^ 2) * zl_0 + 18446744073709551616 ^ 3 * h_x32 + (18446744073709551616 ^ 3) * zl_0 + 18446744073709551616 ^ 4 * h_x34 + (18446744073709551616 ^ 4) * zl_0 + 18446744073709551616 ^ 4 * h_x38 + 18446744073709551616 ^ 4 * z x36 * zl_ffffffffffffffff + 18446744073709551616 ^ 3 * h_x40 + 18446744073709551616 ^ 3 * z x36 * zl_fffffffffffffffe + 18446744073709551616 ^ 2 * h_x42 + 18446744073709551616 ^ 2 * z x36 * zl_baaedce6af48a03b + 18446744073709551616 ^ 1 * h_x44 + 18446744073709551616 ^ 1 * z x36 * zl_bfd25e8cd0364141 + 18446744073709551616 ^ 2 * h_x46 + (18446744073709551616 ^ 2) * zl_0 + 18446744073709551616 ^ 3 * h_x48 + 18446744073709551616 ^ 4 * h_x50 + 18446744073709551616 ^ 1 * h_y5 + (18446744073709551616 ^ 1) * zl_0 + 18446744073709551616 ^ 2 * h_x54 + 18446744073709551616 ^ 3 * h_x56 + 18446744073709551616 ^ 4 * h_x58 + 18446744073709551616 ^ 5 * h_y6 + 18446744073709551616 ^ 5 * h_y7 + 18446744073709551616 ^ 5 * h_x60 + 18446744073709551616 ^ 2 * h_x62 + (18446744073709551616 ^ 2) * zl_0 + 18446744073709551616 ^ 3 * h_x64 + (18446744073709551616 ^ 3) * zl_0 + 18446744073709551616 ^ 4 * h_x66 + (18446744073709551616 ^ 4) * zl_0 + 18446744073709551616 ^ 5 * h_x68 + (18446744073709551616 ^ 5) * zl_0 + 18446744073709551616 ^ 5 * h_x72 + 18446744073709551616 ^ 5 * z x70 * zl_ffffffffffffffff + 18446744073709551616 ^ 4 * h_x74 + 18446744073709551616 ^ 4 * z x70 * zl_fffffffffffffffe + 18446744073709551616 ^ 3 * h_x76 + 18446744073709551616 ^ 3 * z x70 * zl_baaedce6af48a03b + 18446744073709551616 ^ 2 * h_x78 + 18446744073709551616 ^ 2 * z x70 * zl_bfd25e8cd0364141 + 18446744073709551616 ^ 3 * h_x80 + (18446744073709551616 ^ 3) * zl_0 + 18446744073709551616 ^ 4 * h_x82 + 18446744073709551616 ^ 5 * h_x84 + 18446744073709551616 ^ 2 * h_y9 + (18446744073709551616 ^ 2) * zl_0 + 18446744073709551616 ^ 3 * h_x88 + 18446744073709551616 ^ 4 * h_x90 + 18446744073709551616 ^ 5 * h_x92 + 18446744073709551616 ^ 6 * h_y10 + 18446744073709551616 ^ 6 * h_y11 + 18446744073709551616 ^ 6 * h_x94 + 18446744073709551616 ^ 3 * h_x96 + (18446744073709551616 ^ 3) * zl_0 + 18446744073709551616 ^ 4 * h_x98 + (18446744073709551616 ^ 4) * zl_0 + 18446744073709551616 ^ 5 * h_x100 + (18446744073709551616 ^ 5) * zl_0 + 18446744073709551616 ^ 6 * h_x102 + (18446744073709551616 ^ 6) * zl_0 + 18446744073709551616 ^ 6 * h_x106 + 18446744073709551616 ^ 6 * z x104 * zl_ffffffffffffffff + 18446744073709551616 ^ 5 * h_x108 + 18446744073709551616 ^ 5 * z x104 * zl_fffffffffffffffe + 18446744073709551616 ^ 4 * h_x110 + 18446744073709551616 ^ 4 * z x104 * zl_baaedce6af48a03b + 18446744073709551616 ^ 3 * h_x112 + 18446744073709551616 ^ 3 * z x104 * zl_bfd25e8cd0364141 + 18446744073709551616 ^ 4 * h_x114 + (18446744073709551616 ^ 4) * zl_0 + 18446744073709551616 ^ 5 * h_x116 + 18446744073709551616 ^ 6 * h_x118 + 18446744073709551616 ^ 3 * h_y13 + (18446744073709551616 ^ 3) * zl_0 + 18446744073709551616 ^ 4 * h_x122 + 18446744073709551616 ^ 5 * h_x124 + 18446744073709551616 ^ 6 * h_x126 + 18446744073709551616 ^ 7 * h_y14 + 18446744073709551616 ^ 7 * h_y15 + 18446744073709551616 ^ 7 * h_x128 + -(18446744073709551616 ^ 0) * e_y2 + -(18446744073709551616 ^ 1) * e_y5 + -(18446744073709551616 ^ 2) * e_y9 + -(18446744073709551616 ^ 3) * e_y13
  have hD : z x130 + 18446744073709551616 * z x132 + 18446744073709551616 ^ 2 * z x134 + 18446744073709551616 ^ 3 * z x136 + 18446744073709551616 ^ 4 * z y16 - 18446744073709551616 ^ 5 * z x139 = z x122 + 18446744073709551616 * z x124 + 18446744073709551616 ^ 2 * z x126 + 18446744073709551616 ^ 3 * z x128 + 18446744073709551616 ^ 4 * z x129 - 115792089237316195423570985008687907852837564279074904382605163141518161494337 := by
    linear_combination 18446744073709551616 ^ 0 * h_x130 - 18446744073709551616 ^ 0 * zl_bfd25e8cd0364141 + -(18446744073709551616 ^ 0) * zl_0 + 18446744073709551616 ^ 1 * h_x132 - 18446744073709551616 ^ 1 * zl_baaedce6af48a03b + 18446744073709551616 ^ 2 * h_x134 - 18446744073709551616 ^ 2 * zl_fffffffffffffffe + 18446744073709551616 ^ 3 * h_x136 - 18446744073709551616 ^ 3 * zl_ffffffffffffffff + 18446744073709551616 ^ 4 * h_y16 - 18446744073709551616 ^ 4 * zl_0
  have hU : z x2 + 18446744073709551616 * z x36 + 18446744073709551616 ^ 2 * z x70 + 18446744073709551616 ^ 3 * z x104 ≤ 18446744073709551616 ^ 4 - 1 := zsum_le _ _ _ _
  have hX : a.zval < 18446744073709551616 ^ 4 * 115792089237316195423570985008687907852837564279074904382605163141518161494337 := by linarith only [zval_le a]
  have hT : z x122 + 18446744073709551616 * z x124 + 18446744073709551616 ^ 2 * z x126 + 18446744073709551616 ^ 3 * z x128 + 18446744073709551616 ^ 4 * z x129 < 2 * 115792089237316195423570985008687907852837564279074904382605163141518161494337 := by
    generalize a.zval = X at hI hX
    linarith only [hI, hX, hU]
  obtain ⟨hlt, hk⟩ := condsub 115792089237316195423570985008687907852837564279074904382605163141518161494337 hD c_x139 (by norm_num) (by norm_num) hT ra_x140 rb_x140 ra_x141 rb_x141 ra_x142 rb_x142 ra_x143 rb_x143
  refine hP _ (redc_of _ _ _ _ _ _ _ (by norm_num) ?_ hlt hk hI)
  exact L4.zval_eq a

theorem toMont_spec (a : L4)  : Redc 115792089237316195423570985008687907852837564279074904382605163141518161494337 (a.val * 71195301480278335217902614543643724933430614355449737089222010364394701574464) (toMont a) := by
  suffices H : ∀ P : L4 → Prop, (∀ r, Redc 115792089237316195423570985008687907852837564279074904382605163141518161494337 (a.val * 71195301480278335217902614543643724933430614355449737089222010364394701574464) r → P r) → P (toMont a) from H _ (fun _ h => h)
  intro P hP
  have zl_0 : z 0x0 = 0 := rfl
  have zl_4b0dff665588b13f : z 0x4b0dff665588b13f = 5408259542528602431 := rfl
  have zl_741496c20e7cf878 : z 0x741496c20e7cf878 = 8364476168144746616 := rfl
  have zl_896cf21467d7d140 : z 0x896cf21467d7d140 = 9902555850136342848 := rfl
  have zl_9d671cd581c69bc5 : z 0x9d671cd581c69bc5 = 11342065889886772165 := rfl
  have zl_baaedce6af48a03b : z 0xbaaedce6af48a03b = 13451932020343611451 := rfl
  have zl_bfd25e8cd0364141 : z 0xbfd25e8cd0364141 = 13822214165235122497 := rfl
  have zl_e697f5e45bcd07c6 : z 0xe697f5e45bcd07c6 = 16616019711348246470 := rfl
  have zl_fffffffffffffffe : z 0xfffffffffffffffe = 18446744073709551614 := rfl
  have zl_ffffffffffffffff : z 0xffffffffffffffff = 18446744073709551615 := rfl
  unfold toMont
  refine wp_mul P _ _ _ fun x6 x5 h_x5 => ?_
  refine wp_mul P _ _ _ fun x8 x7 h_x7 => ?_
  refine wp_mul P _ _ _ fun x10 x9 h_x9 => ?_
  refine wp_mul P _ _ _ fun x12 x11 h_x11 => ?_
  refine wp_add P _ _ _ _ (by rw [zl_0]; norm_num) fun x13 x14 h_x13 c_x14 => ?_
  refine wp_add P _ _ _ _ c_x14 fun x15 x16 h_x15 c_x16 => ?_
  refine wp_add P _ _ _ _ c_x16 fun x17 x18 h_x17 c_x18 => ?_
  refine wp_mul P _ _ _ fun y1 x19 h_x19 => ?_
  refine wp_mul P _ _ _ fun x22 x21 h_x21 => ?_
  refine wp_mul P _ _ _ fun x24 x23 h_x23 => ?_
  refine wp_mul P _ _ _ fun x26 x25 h_x25 => ?_
  refine wp_mul P _ _ _ fun x28 x27 h_x27 => ?_
  refine wp_add P _ _ _ _ (by rw [zl_0]; norm_num) fun x29 x30 h_x29 c_x30 => ?_
  refine wp_add P _ _ _ _ c_x30 fun x31 x32 h_x31 c_x32 => ?_
  refine wp_add P _ _ _ _ c_x32 fun x33 x34 h_x33 c_x34 => ?_
  refine wp_add P _ _ _ _ (by rw [zl_0]; norm_num) fun y2 x36 h_y2 c_x36 => ?_
  refine wp_add P _ _ _ _ c_x36 fun x37 x38 h_x37 c_x38 => ?_
  refine wp_add P _ _ _ _ c_x38 fun x39 x40 h_x39 c_x40 => ?_
  refine wp_add P _ _ _ _ c_x40 fun x41 x42 h_x41 c_x42 => ?_
  refine wp_plus P 1 11342065889886772164 _ _ _ c_x18 (mulhi_lt 11342065889886772164 (by rw [zl_9d671cd581c69bc5]; norm_num) (by norm_num) h_x5) (by norm_num) fun y3 h_y3 c_y3 => ?_
  refine wp_plus P 1 18446744073709551614 _ _ _ c_x34 (mulhi_lt 18446744073709551614 (by rw [zl_ffffffffffffffff]; norm_num) (by norm_num) h_x21) (by norm_num) fun y4 h_y4 c_y4 => ?_
  refine wp_add P _ _ _ _ c_x42 fun x43 x44 h_x43 c_x44 => ?_
  refine wp_mul P _ _ _ fun x46 x45 h_x45 => ?_
  refine wp_mul P _ _ _ fun x48 x47 h_x47 => ?_
  refine wp_mul P _ _ _ fun x50 x49 h_x49 => ?_
  refine wp_mul P _ _ _ fun x52 x51 h_x51 => ?_
  refine wp_add P _ _ _ _ (by rw [zl_0]; norm_num) fun x53 x54 h_x53 c_x54 => ?_
  refine wp_add P _ _ _ _ c_x54 fun x55 x56 h_x55 c_x56 => ?_
  refine wp_add P _ _ _ _ c_x56 fun x57 x58 h_x57 c_x58 => ?_
  refine wp_add P _ _ _ _ (by rw [zl_0]; norm_num) fun x59 x60 h_x59 c_x60 => ?_
  refine wp_add P _ _ _ _ c_x60 fun x61 x62 h_x61 c_x62 => ?_
  refine wp_add P _ _ _ _ c_x62 fun x63 x64 h_x63 c_x64 => ?_
  refine wp_add P _ _ _ _ c_x64 fun x65 x66 h_x65 c_x66 => ?_
  refine wp_mul P _ _ _ fun y5 x67 h_x67 => ?_
  refine wp_mul P _ _ _ fun x70 x69 h_x69 => ?_
  refine wp_mul P _ _ _ fun x72 x71 h_x71 => ?_
  refine wp_mul P _ _ _ fun x74 x73 h_x73 => ?_
  refine wp_mul P _ _ _ fun x76 x75 h_x75 => ?_
  refine wp_add P _ _ _ _ (by rw [zl_0]; norm_num) fun x77 x78 h_x77 c_x78 => ?_
  refine wp_add P _ _ _ _ c_x78 fun x79 x80 h_x79 c_x80 => ?_
  refine wp_add P _ _ _ _ c_x80 fun x81 x82 h_x81 c_x82 => ?_
  refine wp_add P _ _ _ _ (by rw [zl_0]; norm_num) fun y6 x84 h_y6 c_x84 => ?_
  refine wp_add P _ _ _ _ c_x84 fun x85 x86 h_x85 c_x86 => ?_
  refine wp_add P _ _ _ _ c_x86 fun x87 x88 h_x87 c_x88 => ?_
  refine wp_add P _ _ _ _ c_x88 fun x89 x90 h_x89 c_x90 => ?_
  refine wp_plus P 1 1 _ _ _ c_x66 c_x44 (by norm_num) fun y7 h_y7 c_y7 => ?_
  refine wp_plus P 1 11342065889886772164 _ _ _ c_x58 (mulhi_lt 11342065889886772164 (by rw [zl_9d671cd581c69bc5]; norm_num) (by norm_num) h_x45) (by norm_num) fun y8 h_y8 c_y8 => ?_
  refine wp_plus P 2 11342065889886772165 _ _ _ c_y7 c_y8 (by norm_num) fun y9 h_y9 c_y9 => ?_
  refine wp_plus P 1 18446744073709551614 _ _ _ c_x82 (mulhi_lt 18446744073709551614 (by rw [zl_ffffffffffffffff]; norm_num) (by norm_num) h_x69) (by norm_num) fun y10 h_y10 c_y10 => ?_
  refine wp_add P _ _ _ _ c_x90 fun x91 x92 h_x91 c_x92 => ?_
  refine wp_mul P _ _ _ fun x94 x93 h_x93 => ?_
  refine wp_mul P _ _ _ fun x96 x95 h_x95 => ?_
  refine wp_mul P _ _ _ fun x98 x97 h_x97 => ?_
  refine wp_mul P _ _ _ fun x100 x99 h_x99 => ?_
  refine wp_add P _ _ _ _ (by rw [zl_0]; norm_num) fun x101 x102 h_x101 c_x102 => ?_
  refine wp_add P _ _ _ _ c_x102 fun x103 x104 h_x103 c_x104 => ?_
  refine wp_add P _ _ _ _ c_x104 fun x105 x106 h_x105 c_x106 => ?_
  refine wp_add P _ _ _ _ (by rw [zl_0]; norm_num) fun x107 x108 h_x107 c_x108 => ?_
  refine wp_add P _ _ _ _ c_x108 fun x109 x110 h_x109 c_x110 => ?_
  refine wp_add P _ _ _ _ c_x110 fun x111 x112 h_x111 c_x112 => ?_
  refine wp_add P _ _ _ _ c_x112 fun x113 x114 h_x113 c_x114 => ?_
  refine wp_mul P _ _ _ fun y11 x115 h_x115 => ?_
  refine wp_mul P _ _ _ fun x118 x117 h_x117 => ?_
  refine wp_mul P _ _ _ fun x120 x119 h_x119 => ?_
  refine wp_mul P _ _ _ fun x122 x121 h_x121 => ?_
  refine wp_mul P _ _ _ fun x124 x123 h_x123 => ?_
  refine wp_add P _ _ _ _ (by rw [zl_0]; norm_num) fun x125 x126 h_x125 c_x126 => ?_
  refine wp_add P _ _ _ _ c_x126 fun x127 x128 h_x127 c_x128 => ?_
  refine wp_add P _ _ _ _ c_x128 fun x129 x130 h_x129 c_x130 => ?_
  refine wp_add P _ _ _ _ (by rw [zl_0]; norm_num) fun y12 x132 h_y12 c_x132 => ?_
  refine wp_add P _ _ _ _ c_x132 fun x133 x134 h_x133 c_x134 => ?_
  refine wp_add P _ _ _ _ c_x134 fun x135 x136 h_x135 c_x136 => ?_
  refine wp_add P _ _ _ _ c_x136 fun x137 x138 h_x137 c_x138 => ?_
  refine wp_plus P 1 1 _ _ _ c_x114 c_x92 (by norm_num) fun y13 h_y13 c_y13 => ?_
  refine wp_plus P 1 11342065889886772164 _ _ _ c_x106 (mulhi_lt 11342065889886772164 (by rw [zl_9d671cd581c69bc5]; norm_num) (by norm_num) h_x93) (by norm_num) fun y14 h_y14 c_y14 => ?_
  refine wp_plus P 2 11342065889886772165 _ _ _ c_y13 c_y14 (by norm_num) fun y15 h_y15 c_y15 => ?_
  refine wp_plus P 1 18446744073709551614 _ _ _ c_x130 (mulhi_lt 18446744073709551614 (by rw [zl_ffffffffffffffff]; norm_num) (by norm_num) h_x117) (by norm_num) fun y16 h_y16 c_y16 => ?_
  refine wp_add P _ _ _ _ c_x138 fun x139 x140 h_x139 c_x140 => ?_
  refine wp_mul P _ _ _ fun x142 x141 h_x141 => ?_
  refine wp_mul P _ _ _ fun x144 x143 h_x143 => ?_
  refine wp_mul P _ _ _ fun x146 x145 h_x145 => ?_
  refine wp_mul P _ _ _ fun x148 x147 h_x147 => ?_
  refine wp_add P _ _ _ _ (by rw [zl_0]; norm_num) fun x149 x150 h_x149 c_x150 => ?_
  refine wp_add P _ _ _ _ c_x150 fun x151 x152 h_x151 c_x152 => ?_
  refine wp_add P _ _ _ _ c_x152 fun x153 x154 h_x153 c_x154 => ?_
  refine wp_add P _ _ _ _ (by rw [zl_0]; norm_num) fun x155 x156 h_x155 c_x156 => ?_
  refine wp_add P _ _ _ _ c_x156 fun x157 x158 h_x157 c_x158 => ?_
  refine wp_add P _ _ _ _ c_x158 fun x159 x160 h_x159 c_x160 => ?_
  refine wp_add P _ _ _ _ c_x160 fun x161 x162 h_x161 c_x162 => ?_
  refine wp_mul P _ _ _ fun y17 x163 h_x163 => ?_
  refine wp_mul P _ _ _ fun x166 x165 h_x165 => ?_
  refine wp_mul P _ _ _ fun x168 x167 h_x167 => ?_
  refine wp_mul P _ _ _ fun x170 x169 h_x169 => ?_
  refine wp_mul P _ _ _ fun x172 x171 h_x171 => ?_
  refine wp_add P _ _ _ _ (by rw [zl_0]; norm_num) fun x173 x174 h_x173 c_x174 => ?_
  refine wp_add P _ _ _ _ c_x174 fun x175 x176 h_x175 c_x176 => ?_
  refine wp_add P _ _ _ _ c_x176 fun x177 x178 h_x177 c_x178 => ?_
  refine wp_add P _ _ _ _ (by rw [zl_0]; norm_num) fun y18 x180 h_y18 c_x180 => ?_
  refine wp_add P _ _ _ _ c_x180 fun x181 x182 h_x181 c_x182 => ?_
  refine wp_add P _ _ _ _ c_x182 fun x183 x184 h_x183 c_x184 => ?_
  refine wp_add P _ _ _ _ c_x184 fun x185 x186 h_x185 c_x186 => ?_
  refine wp_plus P 1 1 _ _ _ c_x162 c_x140 (by norm_num) fun y19 h_y19 c_y19 => ?_
  refine wp_plus P 1 11342065889886772164 _ _ _ c_x154 (mulhi_lt 11342065889886772164 (by rw [zl_9d671cd581c69bc5]; norm_num) (by norm_num) h_x141) (by norm_num) fun y20 h_y20 c_y20 => ?_
  refine wp_plus P 2 11342065889886772165 _ _ _ c_y19 c_y20 (by norm_num) fun y21 h_y21 c_y21 => ?_
  refine wp_plus P 1 18446744073709551614 _ _ _ c_x178 (mulhi_lt 18446744073709551614 (by rw [zl_ffffffffffffffff]; norm_num) (by norm_num) h_x165) (by norm_num) fun y22 h_y22 c_y22 => ?_
  refine wp_add P _ _ _ _ c_x186 fun x187 x188 h_x187 c_x188 => ?_
  refine wp_sub P _ _ _ _ (by rw [zl_0]; norm_num) fun x189 x190 h_x189 c_x190 => ?_
  refine wp_sub P _ _ _ _ c_x190 fun x191 x192 h_x191 c_x192 => ?_
  refine wp_sub P _ _ _ _ c_x192 fun x193 x194 h_x193 c_x194 => ?_
  refine wp_sub P _ _ _ _ c_x194 fun x195 x196 h_x195 c_x196 => ?_
  refine wp_sub P _ _ _ _ c_x196 fun y23 x198 h_y23 c_x198 => ?_
  refine wp_cmov P _ _ _ _ c_x198 fun x199 ra_x199 rb_x199 => ?_
  refine wp_cmov P _ _ _ _ c_x198 fun x200 ra_x200 rb_x200 => ?_
  refine wp_cmov P _ _ _ _ c_x198 fun x201 ra_x201 rb_x201 => ?_
  refine wp_cmov P _ _ _ _ c_x198 fun x202 ra_x202 rb_x202 => ?_
  have e_y2 : z y2 = 0 := redc_low (by rw [zl_4b0dff665588b13f, zl_bfd25e8cd0364141]; norm_num) h_x19 h_x27 zl_0 h_y2
  have e_y6 : z y6 = 0 := redc_low (by rw [zl_4b0dff665588b13f, zl_bfd25e8cd0364141]; norm_num) h_x67 h_x75 zl_0 h_y6
  have e_y12 : z y12 = 0 := redc_low (by rw [zl_4b0dff665588b13f, zl_bfd25e8cd0364141]; norm_num) h_x115 h_x123 zl_0 h_y12
  have e_y18 : z y18 = 0 := redc_low (by rw [zl_4b0dff665588b13f, zl_bfd25e8cd0364141]; norm_num) h_x163 h_x171 zl_0 h_y18
  have hI : (z x181 + 18446744073709551616 * z x183 + 18446744073709551616 ^ 2 * z x185 + 18446744073709551616 ^ 3 * z x187 + 18446744073709551616 ^ 4 * z x188) * 18446744073709551616 ^ 4 = a.zval * 71195301480278335217902614543643724933430614355449737089222010364394701574464 + (z x19 + 18446744073709551616 * z x67 + 18446744073709551616 ^ 2 * z x115 + 18446744073709551616 ^ 3 * z x163) * 115792089237316195423570985008687907852837564279074904382605163141518161494337 := by
    unfold L4.zval
    linear_combination 18446744073709551616 ^ 3 * h_x5 + 18446744073709551616 ^ 3 * z a.l0 * zl_9d671cd581c69bc5 + 18446744073709551616 ^ 2 * h_x7 + 18446744073709551616 ^ 2 * z a.l0 * zl_e697f5e45bcd07c6 + 18446744073709551616 ^ 1 * h_x9 + 18446744073709551616 ^ 1 * z a.l0 * zl_741496c20e7cf878 + 18446744073709551616 ^ 0 * h_x11 + 18446744073709551616 ^ 0 * z a.l0 * zl_896cf21467d7d140 + 18446744073709551616 ^ 1 * h_x13 + (18446744073709551616 ^ 1) * zl_0 + 18446744073709551616 ^ 2 * h_x15 + 18446744073709551616 ^ 3 * h_x17 + 18446744073709551616 ^ 3 * h_x21 + 18446744073709551616 ^ 3 * z x19 * zl_ffffffffffffffff + 18446744073709551616 ^ 2 * h_x23 + 18446744073709551616 ^ 2 * z x19 * zl_fffffffffffffffe + 18446744073709551616 ^ 1 * h_x25 + 18446744073709551616 ^ 1 * z x19 * zl_baaedce6af48a03b + 18446744073709551616 ^ 0 * h_x27 + 18446744073709551616 ^ 0 * z x19 * zl_bfd25e8cd0364141 + 18446744073709551616 ^ 1 * h_x29 + (18446744073709551616 ^ 1) * zl_0 + 18446744073709551616 ^ 2 * h_x31 + 18446744073709551616 ^ 3 * h_x33 + 18446744073709551616 ^ 0 * h_y2 + (18446744073709551616 ^ 0) * zl_0 + 18446744073709551616 ^ 1 * h_x37 + 18446744073709551616 ^ 2 * h_x39 + 18446744073709551616 ^ 3 * h_x41 + 18446744073709551616 ^ 4 * h_y3 + 18446744073709551616 ^ 4 * h_y4 + 18446744073709551616 ^ 4 * h_x43 + 18446744073709551616 ^ 4 * h_x45 + 18446744073709551616 ^ 4 * z a.l1 * zl_9d671cd581c69bc5 + 18446744073709551616 ^ 3 * h_x47 + 18446744073709551616 ^ 3 * z a.l1 * zl_e697f5e45bcd07c6 + 18446744073709551616 ^ 2 * h_x49 + 18446744073709551616 ^ 2 * z a.l1 * zl_741496c20e7cf878 + 18446744073709551616 ^ 1 * h_x51 + 18446744073709551616 ^ 1 * z a.l1 * zl_896cf21467d7d140 + 18446744073709551616 ^ 2 * h_x53 + (18446744073709551616 ^ 2) * zl_0 + 18446744073709551616 ^ 3 * h_x55 + 18446744073709551616 ^ 4 * h_x57 + 18446744073709551616 ^ 1 * h_x59 + (18446744073709551616 ^ 1) * zl_0 + 18446744073709551616 ^ 2 * h_x61 + 18446744073709551616 ^ 3 * h_x63 + 18446744073709551616 ^ 4 * h_x65 + 18446744073709551616 ^ 4 * h_x69 + 18446744073709551616 ^ 4 * z x67 * zl_ffffffffffffffff + 18446744073709551616 ^ 3 * h_x71 + 18446744073709551616 ^ 3 * z x67 * zl_fffffffffffffffe + 18446744073709551616 ^ 2 * h_x73 + 18446744073709551616 ^ 2 * z x67 * zl_baaedce6af48a03b + 18446744073709551616 ^ 1 * h_x75 + 18446744073709551616 ^ 1 * z x67 * zl_bfd25e8cd0364141 + 18446744073709551616 ^ 2 * h_x77 + (18446744073709551616 ^ 2) * zl_0 + 18446744073709551616 ^ 3 * h_x79 + 18446744073709551616 ^ 4 * h_x81 + 18446744073709551616 ^ 1 * h_y6 + (18446744073709551616 ^ 1) * zl_0 + 18446744073709551616 ^ 2 * h_x85 + 18446744073709551616 ^ 3 * h_x87 + 18446744073709551616 ^ 4 * h_x89 + 18446744073709551616 ^ 5 * h_y7 + 18446744073709551616 ^ 5 * h_y8 + 18446744073709551616 ^ 5 * h_y9 + 18446744073709551616 ^ 5 * h_y10 + 18446744073709551616 ^ 5 * h_x91 + 18446744073709551616 ^ 5 * h_x93 + 18446744073709551616 ^ 5 * z a.l2 * zl_9d671cd581c69bc5 + 18446744073709551616 ^ 4 * h_x95 + 18446744073709551616 ^ 4 * z a.l2 * zl_e697f5e45bcd07c6 + 18446744073709551616 ^ 3 * h_x97 + 18446744073709551616 ^ 3 * z a.l2 * zl_741496c20e7cf878 + 18446744073709551616 ^ 2 * h_x99 + 18446744073709551616 ^ 2 * z a.l2 * zl_896cf21467d7d140 + 18446744073709551616 ^ 3 * h_x101 + (18446744073709551616 ^ 3) * zl_0 + 18446744073709551616 ^ 4 * h_x103 + 18446744073709551616 ^ 5 * h_x105 + 18446744073709551616 ^ 2 * h_x107 + (18446744073709551616 ^ 2) * zl_0 + 18446744073709551616 ^ 3 * h_x109 + 18446744073709551616 ^ 4 * h_x111 + 18446744073709551616 ^ 5 * h_x113 + 18446744073709551616 ^ 5 * h_x117 + 18446744073709551616 ^ 5 * z x115 * zl_ffffffffffffffff + 18446744073709551616 ^ 4 * h_x119 + 18446744073709551616 ^ 4 * z x115 * zl_fffffffffffffffe + 18446744073709551616 ^ 3 * h_x121 + 18446744073709551616 ^ 3 * z x115 * zl_baaedce6af48a03b + 18446744073709551616 ^ 2 * h_x123 + 18446744073709551616 ^ 2 * z x115 * zl_bfd25e8cd0364141 + 18446744073709551616 ^ 3 * h_x125 + (18446744073709551616 ^ 3) * zl_0 + 18446744073709551616 ^ 4 * h_x127 + 18446744073709551616 ^ 5 * h_x129 + 18446744073709551616 ^ 2 * h_y12 + (18446744073709551616 ^ 2) * zl_0 + 18446744073709551616 ^ 3 * h_x133 + 18446744073709551616 ^ 4 * h_x135 + 18446744073709551616 ^ 5 * h_x137 + 18446744073709551616 ^ 6 * h_y13 + 18446744073709551616 ^ 6 * h_y14 + 18446744073709551616 ^ 6 * h_y15 + 18446744073709551616 ^ 6 * h_y16 + 18446744073709551616 ^ 6 * h_x139 + 18446744073709551616 ^ 6 * h_x141 + 18446744073709551616 ^ 6 * z a.l3 * zl_9d671cd581c69bc5 + 18446744073709551616 ^ 5 * h_x143 + 18446744073709551616 ^ 5 * z a.l3 * zl_e697f5e45bcd07c6 + 18446744073709551616 ^ 4 * h_x145 + 18446744073709551616 ^ 4 * z a.l3 * zl_741496c20e7cf878 + 18446744073709551616 ^ 3 * h_x147 + 18446744073709551616 ^ 3 * z a.l3 * zl_896cf21467d7d140 + 18446744073709551616 ^ 4 * h_x149 + (18446744073709551616 ^ 4) * zl_0 + 18446744073709551616 ^ 5 * h_x151 + 18446744073709551616 ^ 6 * h_x153 + 18446744073709551616 ^ 3 * h_x155 + (18446744073709551616 ^ 3) * zl_0 + 18446744073709551616 ^ 4 * h_x157 + 18446744073709551616 ^ 5 * h_x159 + 18446744073709551616 ^ 6 * h_x161 + 18446744073709551616 ^ 6 * h_x165 + 18446744073709551616 ^ 6 * z x163 * zl_ffffffffffffffff + 18446744073709551616 ^ 5 * h_x167 + 18446744073709551616 ^ 5 * z x163 * zl_fffffffffffffffe + 18446744073709551616 ^ 4 * h_x169 + 18446744073709551616 ^ 4 * z x163 * zl_baaedce6af48a03b + 18446744073709551616 ^ 3 * h_x171 + 18446744073709551616 ^ 3 * z x163 * zl_bfd25e8cd0364141 + 18446744073709551616 ^ 4 * h_x173 + (18446744073709551616 ^ 4) * zl_0 + 18446744073709551616 ^ 5 * h_x175 + 18446744073709551616 ^ 6 * h_x177 + 18446744073709551616 ^ 3 * h_y18 + (18446744073709551616 ^ 3) * zl_0 + 18446744073709551616 ^ 4 * h_x181 + 18446744073709551616 ^ 5 * h_x183 + 18446744073709551616 ^ 6 * h_x185 + 18446744073709551616 ^ 7 * h_y19 + 18446744073709551616 ^ 7 * h_y20 + 18446744073709551616 ^ 7 * h_y21 + 18446744073709551616 ^ 7 * h_y22 + 18446744073709551616 ^ 7 * h_x187 + -(18446744073709551616 ^ 0) * e_y2 + -(18446744073709551616 ^ 1) * e_y6 + -(18446744073709551616 ^ 2) * e_y12 + -(18446744073709551616 ^ 3) * e_y18
  have hD : z x189 + 18446744073709551616 * z x191 + 18446744073709551616 ^ 2 * z x193 + 18446744073709551616 ^ 3 * z x195 + 18446744073709551616 ^ 4 * z y23 - 18446744073709551616 ^ 5 * z x198 = z x181 + 18446744073709551616 * z x183 + 18446744073709551616 ^ 2 * z x185 + 18446744073709551616 ^ 3 * z x187 + 18446744073709551616 ^ 4 * z x188 - 115792089237316195423570985008687907852837564279074904382605163141518161494337 := by
    linear_combination 18446744073709551616 ^ 0 * h_x189 - 18446744073709551616 ^ 0 * zl_bfd25e8cd0364141 + -(18446744073709551616 ^ 0) * zl_0 + 18446744073709551616 ^ 1 * h_x191 - 18446744073709551616 ^ 1 * zl_baaedce6af48a03b + 18446744073709551616 ^ 2 * h_x193 - 18446744073709551616 ^ 2 * zl_fffffffffffffffe + 18446744073709551616 ^ 3 * h_x195 - 18446744073709551616 ^ 3 * zl_ffffffffffffffff + 18446744073709551616 ^ 4 * h_y23 - 18446744073709551616 ^ 4 * zl_0
  have hU : z x19 + 18446744073709551616 * z x67 + 18446744073709551616 ^ 2 * z x115 + 18446744073709551616 ^ 3 * z x163 ≤ 18446744073709551616 ^ 4 - 1 := zsum_le _ _ _ _
  have hX : a.zval * 71195301480278335217902614543643724933430614355449737089222010364394701574464 < 18446744073709551616 ^ 4 * 115792089237316195423570985008687907852837564279074904382605163141518161494337 := by linarith only [zval_le a]
  have hT : z x181 + 18446744073709551616 * z x183 + 18446744073709551616 ^ 2 * z x185 + 18446744073709551616 ^ 3 * z x187 + 18446744073709551616 ^ 4 * z x188 < 2 * 115792089237316195423570985008687907852837564279074904382605163141518161494337 := by
    generalize a.zval * 71195301480278335217902614543643724933430614355449737089222010364394701574464 = X at hI hX
    linarith only [hI, hX, hU]
  obtain ⟨hlt, hk⟩ := condsub 115792089237316195423570985008687907852837564279074904382605163141518161494337 hD c_x198 (by norm_num) (by norm_num) hT ra_x199 rb_x199 ra_x200 rb_x200 ra_x201 rb_x201 ra_x202 rb_x202
  refine hP _ (redc_of _ _ _ _ _ _ _ (by norm_num) ?_ hlt hk hI)
  rw [L4.zval_eq, Nat.cast_mul, Nat.cast_ofNat]

end Verif.Native.K256Fq
