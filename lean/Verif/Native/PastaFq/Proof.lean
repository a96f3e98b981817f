import Verif.Native.PastaFq.Code

/-!
# Arithmetic of `crypto/core/curves/native/pasta/fq/pasta_fq.go`: proofs (generated by `tools/gofield.py`)
-/

set_option linter.unusedVariables false
set_option linter.unusedSectionVars false
set_option maxRecDepth 100000
set_option maxHeartbeats 4000000

namespace Verif.Native.PastaFq

theorem mul_spec (a b : L4) (h : a.val * b.val < 2 ^ 256 * 28948022309329048855892746252171976963363056481941647379679742748393362948097) : Redc 28948022309329048855892746252171976963363056481941647379679742748393362948097 (a.val * b.val) (mul a b) := by
  suffices H : ∀ P : L4 → Prop, (∀ r, Redc 28948022309329048855892746252171976963363056481941647379679742748393362948097 (a.val * b.val) r → P r) → P (mul a b) from H _ (fun _ h => h)
  intro P hP
  have zl_0 : z 0x0 = 0 := rfl
  have zl_224698fc0994a8dd : z 0x224698fc0994a8dd = 2469829653919213789 := rfl
  have zl_4000000000000000 : z 0x4000000000000000 = 4611686018427387904 := rfl
  have zl_8c46eb20ffffffff : z 0x8c46eb20ffffffff = 10108024940646105087 := rfl
  have zl_8c46eb2100000001 : z 0x8c46eb2100000001 = 10108024940646105089 := rfl
  unfold mul
  refine wp_mul P _ _ _ fun x6 x5 h_x5 => ?_
  refine wp_mul P _ _ _ fun x8 x7 h_x7 => ?_
  refine wp_mul P _ _ _ fun x10 x9 h_x9 => ?_
  refine wp_mul P _ _ _ fun x12 x11 h_x11 => ?_
  refine wp_add P _ _ _ _ (by rw [zl_0]; norm_num) fun x13 x14 h_x13 c_x14 => ?_
  refine wp_add P _ _ _ _ c_x14 fun x15 x16 h_x15 c_x16 => ?_
  refine wp_add P _ _ _ _ c_x16 fun x17 x18 h_x17 c_x18 => ?_
  refine wp_plus P 1 18446744073709551614 _ _ _ c_x18 (mulhi_le h_x5) (by norm_num) fun x19 h_x19 c_x19 => ?_
  refine wp_mul P _ _ _ fun y2 x20 h_x20 => ?_
  refine wp_mul P _ _ _ fun x23 x22 h_x22 => ?_
  refine wp_mul P _ _ _ fun x25 x24 h_x24 => ?_
  refine wp_mul P _ _ _ fun x27 x26 h_x26 => ?_
  refine wp_add P _ _ _ _ (by rw [zl_0]; norm_num) fun x28 x29 h_x28 c_x29 => ?_
  refine wp_plus P 1 2469829653919213788 _ _ _ c_x29 (mulhi_lt 2469829653919213788 (by rw [zl_224698fc0994a8dd]; norm_num) (by norm_num) h_x24) (by norm_num) fun x30 h_x30 c_x30 => ?_
  refine wp_add P _ _ _ _ (by rw [zl_0]; norm_num) fun y4 x32 h_y4 c_x32 => ?_
  refine wp_add P _ _ _ _ c_x32 fun x33 x34 h_x33 c_x34 => ?_
  refine wp_add P _ _ _ _ c_x34 fun x35 x36 h_x35 c_x36 => ?_
  refine wp_add P _ _ _ _ c_x36 fun x37 x38 h_x37 c_x38 => ?_
  refine wp_add P _ _ _ _ c_x38 fun x39 x40 h_x39 c_x40 => ?_
  refine wp_mul P _ _ _ fun x42 x41 h_x41 => ?_
  refine wp_mul P _ _ _ fun x44 x43 h_x43 => ?_
  refine wp_mul P _ _ _ fun x46 x45 h_x45 => ?_
  refine wp_mul P _ _ _ fun x48 x47 h_x47 => ?_
  refine wp_add P _ _ _ _ (by rw [zl_0]; norm_num) fun x49 x50 h_x49 c_x50 => ?_
  refine wp_add P _ _ _ _ c_x50 fun x51 x52 h_x51 c_x52 => ?_
  refine wp_add P _ _ _ _ c_x52 fun x53 x54 h_x53 c_x54 => ?_
  refine wp_plus P 1 18446744073709551614 _ _ _ c_x54 (mulhi_le h_x41) (by norm_num) fun x55 h_x55 c_x55 => ?_
  refine wp_add P _ _ _ _ (by rw [zl_0]; norm_num) fun x56 x57 h_x56 c_x57 => ?_
  refine wp_add P _ _ _ _ c_x57 fun x58 x59 h_x58 c_x59 => ?_
  refine wp_add P _ _ _ _ c_x59 fun x60 x61 h_x60 c_x61 => ?_
  refine wp_add P _ _ _ _ c_x61 fun x62 x63 h_x62 c_x63 => ?_
  refine wp_add P _ _ _ _ c_x63 fun x64 x65 h_x64 c_x65 => ?_
  refine wp_mul P _ _ _ fun y6 x66 h_x66 => ?_
  refine wp_mul P _ _ _ fun x69 x68 h_x68 => ?_
  refine wp_mul P _ _ _ fun x71 x70 h_x70 => ?_
  refine wp_mul P _ _ _ fun x73 x72 h_x72 => ?_
  refine wp_add P _ _ _ _ (by rw [zl_0]; norm_num) fun x74 x75 h_x74 c_x75 => ?_
  refine wp_plus P 1 2469829653919213788 _ _ _ c_x75 (mulhi_lt 2469829653919213788 (by rw [zl_224698fc0994a8dd]; norm_num) (by norm_num) h_x70) (by norm_num) fun x76 h_x76 c_x76 => ?_
  refine wp_add P _ _ _ _ (by rw [zl_0]; norm_num) fun y8 x78 h_y8 c_x78 => ?_
  refine wp_add P _ _ _ _ c_x78 fun x79 x80 h_x79 c_x80 => ?_
  refine wp_add P _ _ _ _ c_x80 fun x81 x82 h_x81 c_x82 => ?_
  refine wp_add P _ _ _ _ c_x82 fun x83 x84 h_x83 c_x84 => ?_
  refine wp_add P _ _ _ _ c_x84 fun x85 x86 h_x85 c_x86 => ?_
  refine wp_plus P 1 1 _ _ _ c_x86 c_x65 (by norm_num) fun x87 h_x87 c_x87 => ?_
  refine wp_mul P _ _ _ fun x89 x88 h_x88 => ?_
  refine wp_mul P _ _ _ fun x91 x90 h_x90 => ?_
  refine wp_mul P _ _ _ fun x93 x92 h_x92 => ?_
  refine wp_mul P _ _ _ fun x95 x94 h_x94 => ?_
  refine wp_add P _ _ _ _ (by rw [zl_0]; norm_num) fun x96 x97 h_x96 c_x97 => ?_
  refine wp_add P _ _ _ _ c_x97 fun x98 x99 h_x98 c_x99 => ?_
  refine wp_add P _ _ _ _ c_x99 fun x100 x101 h_x100 c_x101 => ?_
  refine wp_plus P 1 18446744073709551614 _ _ _ c_x101 (mulhi_le h_x88) (by norm_num) fun x102 h_x102 c_x102 => ?_
  refine wp_add P _ _ _ _ (by rw [zl_0]; norm_num) fun x103 x104 h_x103 c_x104 => ?_
  refine wp_add P _ _ _ _ c_x104 fun x105 x106 h_x105 c_x106 => ?_
  refine wp_add P _ _ _ _ c_x106 fun x107 x108 h_x107 c_x108 => ?_
  refine wp_add P _ _ _ _ c_x108 fun x109 x110 h_x109 c_x110 => ?_
  refine wp_add P _ _ _ _ c_x110 fun x111 x112 h_x111 c_x112 => ?_
  refine wp_mul P _ _ _ fun y11 x113 h_x113 => ?_
  refine wp_mul P _ _ _ fun x116 x115 h_x115 => ?_
  refine wp_mul P _ _ _ fun x118 x117 h_x117 => ?_
  refine wp_mul P _ _ _ fun x120 x119 h_x119 => ?_
  refine wp_add P _ _ _ _ (by rw [zl_0]; norm_num) fun x121 x122 h_x121 c_x122 => ?_
  refine wp_plus P 1 2469829653919213788 _ _ _ c_x122 (mulhi_lt 2469829653919213788 (by rw [zl_224698fc0994a8dd]; norm_num) (by norm_num) h_x117) (by norm_num) fun x123 h_x123 c_x123 => ?_
  refine wp_add P _ _ _ _ (by rw [zl_0]; norm_num) fun y13 x125 h_y13 c_x125 => ?_
  refine wp_add P _ _ _ _ c_x125 fun x126 x127 h_x126 c_x127 => ?_
  refine wp_add P _ _ _ _ c_x127 fun x128 x129 h_x128 c_x129 => ?_
  refine wp_add P _ _ _ _ c_x129 fun x130 x131 h_x130 c_x131 => ?_
  refine wp_add P _ _ _ _ c_x131 fun x132 x133 h_x132 c_x133 => ?_
  refine wp_plus P 1 1 _ _ _ c_x133 c_x112 (by norm_num) fun x134 h_x134 c_x134 => ?_
  refine wp_mul P _ _ _ fun x136 x135 h_x135 => ?_
  refine wp_mul P _ _ _ fun x138 x137 h_x137 => ?_
  refine wp_mul P _ _ _ fun x140 x139 h_x139 => ?_
  refine wp_mul P _ _ _ fun x142 x141 h_x141 => ?_
  refine wp_add P _ _ _ _ (by rw [zl_0]; norm_num) fun x143 x144 h_x143 c_x144 => ?_
  refine wp_add P _ _ _ _ c_x144 fun x145 x146 h_x145 c_x146 => ?_
  refine wp_add P _ _ _ _ c_x146 fun x147 x148 h_x147 c_x148 => ?_
  refine wp_plus P 1 18446744073709551614 _ _ _ c_x148 (mulhi_le h_x135) (by norm_num) fun x149 h_x149 c_x149 => ?_
  refine wp_add P _ _ _ _ (by rw [zl_0]; norm_num) fun x150 x151 h_x150 c_x151 => ?_
  refine wp_add P _ _ _ _ c_x151 fun x152 x153 h_x152 c_x153 => ?_
  refine wp_add P _ _ _ _ c_x153 fun x154 x155 h_x154 c_x155 => ?_
  refine wp_add P _ _ _ _ c_x155 fun x156 x157 h_x156 c_x157 => ?_
  refine wp_add P _ _ _ _ c_x157 fun x158 x159 h_x158 c_x159 => ?_
  refine wp_mul P _ _ _ fun y16 x160 h_x160 => ?_
  refine wp_mul P _ _ _ fun x163 x162 h_x162 => ?_
  refine wp_mul P _ _ _ fun x165 x164 h_x164 => ?_
  refine wp_mul P _ _ _ fun x167 x166 h_x166 => ?_
  refine wp_add P _ _ _ _ (by rw [zl_0]; norm_num) fun x168 x169 h_x168 c_x169 => ?_
  refine wp_plus P 1 2469829653919213788 _ _ _ c_x169 (mulhi_lt 2469829653919213788 (by rw [zl_224698fc0994a8dd]; norm_num) (by norm_num) h_x164) (by norm_num) fun x170 h_x170 c_x170 => ?_
  refine wp_add P _ _ _ _ (by rw [zl_0]; norm_num) fun y18 x172 h_y18 c_x172 => ?_
  refine wp_add P _ _ _ _ c_x172 fun x173 x174 h_x173 c_x174 => ?_
  refine wp_add P _ _ _ _ c_x174 fun x175 x176 h_x175 c_x176 => ?_
  refine wp_add P _ _ _ _ c_x176 fun x177 x178 h_x177 c_x178 => ?_
  refine wp_add P _ _ _ _ c_x178 fun x179 x180 h_x179 c_x180 => ?_
  refine wp_plus P 1 1 _ _ _ c_x180 c_x159 (by norm_num) fun x181 h_x181 c_x181 => ?_
  refine wp_sub P _ _ _ _ (by rw [zl_0]; norm_num) fun x182 x183 h_x182 c_x183 => ?_
  refine wp_sub P _ _ _ _ c_x183 fun x184 x185 h_x184 c_x185 => ?_
  refine wp_sub P _ _ _ _ c_x185 fun x186 x187 h_x186 c_x187 => ?_
  refine wp_sub P _ _ _ _ c_x187 fun x188 x189 h_x188 c_x189 => ?_
  refine wp_sub P _ _ _ _ c_x189 fun y20 x191 h_y20 c_x191 => ?_
  refine wp_cmovS P _ _ _ _ c_x191 fun x192 ra_x192 rb_x192 => ?_
  refine wp_cmovS P _ _ _ _ c_x191 fun x193 ra_x193 rb_x193 => ?_
  refine wp_cmovS P _ _ _ _ c_x191 fun x194 ra_x194 rb_x194 => ?_
  refine wp_cmovS P _ _ _ _ c_x191 fun x195 ra_x195 rb_x195 => ?_
  have e_y4 : z y4 = 0 := redc_low (by rw [zl_8c46eb20ffffffff, zl_8c46eb2100000001]; norm_num) h_x20 h_x26 zl_0 h_y4
  have e_y8 : z y8 = 0 := redc_low (by rw [zl_8c46eb20ffffffff, zl_8c46eb2100000001]; norm_num) h_x66 h_x72 zl_0 h_y8
  have e_y13 : z y13 = 0 := redc_low (by rw [zl_8c46eb20ffffffff, zl_8c46eb2100000001]; norm_num) h_x113 h_x119 zl_0 h_y13
  have e_y18 : z y18 = 0 := redc_low (by rw [zl_8c46eb20ffffffff, zl_8c46eb2100000001]; norm_num) h_x160 h_x166 zl_0 h_y18
  have hI : (z x173 + 18446744073709551616 * z x175 + 18446744073709551616 ^ 2 * z x177 + 18446744073709551616 ^ 3 * z x179 + 18446744073709551616 ^ 4 * z x181) * 18446744073709551616 ^ 4 = a.zval * b.zval + (z x20 + 18446744073709551616 * z x66 + 18446744073709551616 ^ 2 * z x113 + 18446744073709551616 ^ 3 * z x160) * 28948022309329048855892746252171976963363056481941647379679742748393362948097 := by
    unfold L4.zval
    linear_combination 18446744073709551616 ^ 3 * h_x5 + 18446744073709551616 ^ 2 * h_x7 + 18446744073709551616 ^ 1 * h_x9 + 18446744073709551616 ^ 0 * h_x11 + 18446744073709551616 ^ 1 * h_x13 + (18446744073709551616 ^ 1) * zl_0 + 18446744073709551616 ^ 2 * h_x15 + 18446744073709551616 ^ 3 * h_x17 + 18446744073709551616 ^ 4 * h_x19 + 18446744073709551616 ^ 3 * h_x22 + 18446744073709551616 ^ 3 * z x20 * zl_4000000000000000 + 18446744073709551616 ^ 1 * h_x24 + 18446744073709551616 ^ 1 * z x20 * zl_224698fc0994a8dd + 18446744073709551616 ^ 0 * h_x26 + 18446744073709551616 ^ 0 * z x20 * zl_8c46eb2100000001 + 18446744073709551616 ^ 1 * h_x28 + (18446744073709551616 ^ 1) * zl_0 + 18446744073709551616 ^ 2 * h_x30 + 18446744073709551616 ^ 0 * h_y4 + (18446744073709551616 ^ 0) * zl_0 + 18446744073709551616 ^ 1 * h_x33 + 18446744073709551616 ^ 2 * h_x35 + 18446744073709551616 ^ 3 * h_x37 + 18446744073709551616 ^ 4 * h_x39 + 18446744073709551616 ^ 4 * h_x41 + 18446744073709551616 ^ 3 * h_x43 + 18446744073709551616 ^ 2 * h_x45 + 18446744073709551616 ^ 1 * h_x47 + 18446744073709551616 ^ 2 * h_x49 + (18446744073709551616 ^ 2) * zl_0 + 18446744073709551616 ^ 3 * h_x51 + 18446744073709551616 ^ 4 * h_x53 + 18446744073709551616 ^ 5 * h_x55 + 18446744073709551616 ^ 1 * h_x56 + (18446744073709551616 ^ 1) * zl_0 + 18446744073709551616 ^ 2 * h_x58 + 18446744073709551616 ^ 3 * h_x60 + 18446744073709551616 ^ 4 * h_x62 + 18446744073709551616 ^ 5 * h_x64 + 18446744073709551616 ^ 4 * h_x68 + 18446744073709551616 ^ 4 * z x66 * zl_4000000000000000 + 18446744073709551616 ^ 2 * h_x70 + 18446744073709551616 ^ 2 * z x66 * zl_224698fc0994a8dd + 18446744073709551616 ^ 1 * h_x72 + 18446744073709551616 ^ 1 * z x66 * zl_8c46eb2100000001 + 18446744073709551616 ^ 2 * h_x74 + (18446744073709551616 ^ 2) * zl_0 + 18446744073709551616 ^ 3 * h_x76 + 18446744073709551616 ^ 1 * h_y8 + (18446744073709551616 ^ 1) * zl_0 + 18446744073709551616 ^ 2 * h_x79 + 18446744073709551616 ^ 3 * h_x81 + 18446744073709551616 ^ 4 * h_x83 + 18446744073709551616 ^ 5 * h_x85 + 18446744073709551616 ^ 6 * h_x87 + 18446744073709551616 ^ 5 * h_x88 + 18446744073709551616 ^ 4 * h_x90 + 18446744073709551616 ^ 3 * h_x92 + 18446744073709551616 ^ 2 * h_x94 + 18446744073709551616 ^ 3 * h_x96 + (18446744073709551616 ^ 3) * zl_0 + 18446744073709551616 ^ 4 * h_x98 + 18446744073709551616 ^ 5 * h_x100 + 18446744073709551616 ^ 6 * h_x102 + 18446744073709551616 ^ 2 * h_x103 + (18446744073709551616 ^ 2) * zl_0 + 18446744073709551616 ^ 3 * h_x105 + 18446744073709551616 ^ 4 * h_x107 + 18446744073709551616 ^ 5 * h_x109 + 18446744073709551616 ^ 6 * h_x111 + 18446744073709551616 ^ 5 * h_x115 + 18446744073709551616 ^ 5 * z x113 * zl_4000000000000000 + 18446744073709551616 ^ 3 * h_x117 + 18446744073709551616 ^ 3 * z x113 * zl_224698fc0994a8dd + 18446744073709551616 ^ 2 * h_x119 + 18446744073709551616 ^ 2 * z x113 * zl_8c46eb2100000001 + 18446744073709551616 ^ 3 * h_x121 + (18446744073709551616 ^ 3) * zl_0 + 18446744073709551616 ^ 4 * h_x123 + 18446744073709551616 ^ 2 * h_y13 + (18446744073709551616 ^ 2) * zl_0 + 18446744073709551616 ^ 3 * h_x126 + 18446744073709551616 ^ 4 * h_x128 + 18446744073709551616 ^ 5 * h_x130 + 18446744073709551616 ^ 6 * h_x132 + 18446744073709551616 ^ 7 * h_x134 + 18446744073709551616 ^ 6 * h_x135 + 18446744073709551616 ^ 5 * h_x137 + 18446744073709551616 ^ 4 * h_x139 + 18446744073709551616 ^ 3 * h_x141 + 18446744073709551616 ^ 4 * h_x143 + (18446744073709551616 ^ 4) * zl_0 + 18446744073709551616 ^ 5 * h_x145 + 18446744073709551616 ^ 6 * h_x147 + 18446744073709551616 ^ 7 * h_x149 + 18446744073709551616 ^ 3 * h_x150 + (18446744073709551616 ^ 3) * zl_0 + 18446744073709551616 ^ 4 * h_x152 + 18446744073709551616 ^ 5 * h_x154 + 18446744073709551616 ^ 6 * h_x156 + 18446744073709551616 ^ 7 * h_x158 + 18446744073709551616 ^ 6 * h_x162 + 18446744073709551616 ^ 6 * z x160 * zl_4000000000000000 + 18446744073709551616 ^ 4 * h_x164 + 18446744073709551616 ^ 4 * z x160 * zl_224698fc0994a8dd + 18446744073709551616 ^ 3 * h_x166 + 18446744073709551616 ^ 3 * z x160 * zl_8c46eb2100000001 + 18446744073709551616 ^ 4 * h_x168 + (18446744073709551616 ^ 4) * zl_0 + 18446744073709551616 ^ 5 * h_x170 + 18446744073709551616 ^ 3 * h_y18 + (18446744073709551616 ^ 3) * zl_0 + 18446744073709551616 ^ 4 * h_x173 + 18446744073709551616 ^ 5 * h_x175 + 18446744073709551616 ^ 6 * h_x177 + 18446744073709551616 ^ 7 * h_x179 + 18446744073709551616 ^ 8 * h_x181 + -(18446744073709551616 ^ 0) * e_y4 + -(18446744073709551616 ^ 1) * e_y8 + -(18446744073709551616 ^ 2) * e_y13 + -(18446744073709551616 ^ 3) * e_y18
  have hD : z x182 + 18446744073709551616 * z x184 + 18446744073709551616 ^ 2 * z x186 + 18446744073709551616 ^ 3 * z x188 + 18446744073709551616 ^ 4 * z y20 - 18446744073709551616 ^ 5 * z x191 = z x173 + 18446744073709551616 * z x175 + 18446744073709551616 ^ 2 * z x177 + 18446744073709551616 ^ 3 * z x179 + 18446744073709551616 ^ 4 * z x181 - 28948022309329048855892746252171976963363056481941647379679742748393362948097 := by
    linear_combination 18446744073709551616 ^ 0 * h_x182 - 18446744073709551616 ^ 0 * zl_8c46eb2100000001 + -(18446744073709551616 ^ 0) * zl_0 + 18446744073709551616 ^ 1 * h_x184 - 18446744073709551616 ^ 1 * zl_224698fc0994a8dd + 18446744073709551616 ^ 2 * h_x186 - 18446744073709551616 ^ 2 * zl_0 + 18446744073709551616 ^ 3 * h_x188 - 18446744073709551616 ^ 3 * zl_4000000000000000 + 18446744073709551616 ^ 4 * h_y20 - 18446744073709551616 ^ 4 * zl_0
  have hU : z x20 + 18446744073709551616 * z x66 + 18446744073709551616 ^ 2 * z x113 + 18446744073709551616 ^ 3 * z x160 ≤ 18446744073709551616 ^ 4 - 1 := zsum_le _ _ _ _
  have hX : a.zval * b.zval < 18446744073709551616 ^ 4 * 28948022309329048855892746252171976963363056481941647379679742748393362948097 := by rw [L4.zval_eq, L4.zval_eq]; exact_mod_cast h
  have hT : z x173 + 18446744073709551616 * z x175 + 18446744073709551616 ^ 2 * z x177 + 18446744073709551616 ^ 3 * z x179 + 18446744073709551616 ^ 4 * z x181 < 2 * 28948022309329048855892746252171976963363056481941647379679742748393362948097 := by
    generalize a.zval * b.zval = X at hI hX
    linarith only [hI, hX, hU]
  obtain ⟨hlt, hk⟩ := condsub 28948022309329048855892746252171976963363056481941647379679742748393362948097 hD c_x191 (by norm_num) (by norm_num) hT ra_x192 rb_x192 ra_x193 rb_x193 ra_x194 rb_x194 ra_x195 rb_x195
  refine hP _ (redc_of _ _ _ _ _ _ _ (by norm_num) ?_ hlt hk hI)
  rw [L4.zval_eq, L4.zval_eq]; exact (Nat.cast_mul _ _).symm

theorem square_spec (a : L4) (h : a.val * a.val < 2 ^ 256 * 28948022309329048855892746252171976963363056481941647379679742748393362948097) : Redc 28948022309329048855892746252171976963363056481941647379679742748393362948097 (a.val * a.val) (square a) := by
  suffices H : ∀ P : L4 → Prop, (∀ r, Redc 28948022309329048855892746252171976963363056481941647379679742748393362948097 (a.val * a.val) r → P r) → P (square a) from H _ (fun _ h => h)
  intro P hP
  have zl_0 : z 0x0 = 0 := rfl
  have zl_224698fc0994a8dd : z 0x224698fc0994a8dd = 2469829653919213789 := rfl
  have zl_4000000000000000 : z 0x4000000000000000 = 4611686018427387904 := rfl
  have zl_8c46eb20ffffffff : z 0x8c46eb20ffffffff = 10108024940646105087 := rfl
  have zl_8c46eb2100000001 : z 0x8c46eb2100000001 = 10108024940646105089 := rfl
  unfold square
  refine wp_mul P _ _ _ fun x6 x5 h_x5 => ?_
  refine wp_mul P _ _ _ fun x8 x7 h_x7 => ?_
  refine wp_mul P _ _ _ fun x10 x9 h_x9 => ?_
  refine wp_mul P _ _ _ fun x12 x11 h_x11 => ?_
  refine wp_add P _ _ _ _ (by rw [zl_0]; norm_num) fun x13 x14 h_x13 c_x14 => ?_
  refine wp_add P _ _ _ _ c_x14 fun x15 x16 h_x15 c_x16 => ?_
  refine wp_add P _ _ _ _ c_x16 fun x17 x18 h_x17 c_x18 => ?_
  refine wp_plus P 1 18446744073709551614 _ _ _ c_x18 (mulhi_le h_x5) (by norm_num) fun x19 h_x19 c_x19 => ?_
  refine wp_mul P _ _ _ fun y2 x20 h_x20 => ?_
  refine wp_mul P _ _ _ fun x23 x22 h_x22 => ?_
  refine wp_mul P _ _ _ fun x25 x24 h_x24 => ?_
  refine wp_mul P _ _ _ fun x27 x26 h_x26 => ?_
  refine wp_add P _ _ _ _ (by rw [zl_0]; norm_num) fun x28 x29 h_x28 c_x29 => ?_
  refine wp_plus P 1 2469829653919213788 _ _ _ c_x29 (mulhi_lt 2469829653919213788 (by rw [zl_224698fc0994a8dd]; norm_num) (by norm_num) h_x24) (by norm_num) fun x30 h_x30 c_x30 => ?_
  refine wp_add P _ _ _ _ (by rw [zl_0]; norm_num) fun y4 x32 h_y4 c_x32 => ?_
  refine wp_add P _ _ _ _ c_x32 fun x33 x34 h_x33 c_x34 => ?_
  refine wp_add P _ _ _ _ c_x34 fun x35 x36 h_x35 c_x36 => ?_
  refine wp_add P _ _ _ _ c_x36 fun x37 x38 h_x37 c_x38 => ?_
  refine wp_add P _ _ _ _ c_x38 fun x39 x40 h_x39 c_x40 => ?_
  refine wp_mul P _ _ _ fun x42 x41 h_x41 => ?_
  refine wp_mul P _ _ _ fun x44 x43 h_x43 => ?_
  refine wp_mul P _ _ _ fun x46 x45 h_x45 => ?_
  refine wp_mul P _ _ _ fun x48 x47 h_x47 => ?_
  refine wp_add P _ _ _ _ (by rw [zl_0]; norm_num) fun x49 x50 h_x49 c_x50 => ?_
  refine wp_add P _ _ _ _ c_x50 fun x51 x52 h_x51 c_x52 => ?_
  refine wp_add P _ _ _ _ c_x52 fun x53 x54 h_x53 c_x54 => ?_
  refine wp_plus P 1 18446744073709551614 _ _ _ c_x54 (mulhi_le h_x41) (by norm_num) fun x55 h_x55 c_x55 => ?_
  refine wp_add P _ _ _ _ (by rw [zl_0]; norm_num) fun x56 x57 h_x56 c_x57 => ?_
  refine wp_add P _ _ _ _ c_x57 fun x58 x59 h_x58 c_x59 => ?_
  refine wp_add P _ _ _ _ c_x59 fun x60 x61 h_x60 c_x61 => ?_
  refine wp_add P _ _ _ _ c_x61 fun x62 x63 h_x62 c_x63 => ?_
  refine wp_add P _ _ _ _ c_x63 fun x64 x65 h_x64 c_x65 => ?_
  refine wp_mul P _ _ _ fun y6 x66 h_x66 => ?_
  refine wp_mul P _ _ _ fun x69 x68 h_x68 => ?_
  refine wp_mul P _ _ _ fun x71 x70 h_x70 => ?_
  refine wp_mul P _ _ _ fun x73 x72 h_x72 => ?_
  refine wp_add P _ _ _ _ (by rw [zl_0]; norm_num) fun x74 x75 h_x74 c_x75 => ?_
  refine wp_plus P 1 2469829653919213788 _ _ _ c_x75 (mulhi_lt 2469829653919213788 (by rw [zl_224698fc0994a8dd]; norm_num) (by norm_num) h_x70) (by norm_num) fun x76 h_x76 c_x76 => ?_
  refine wp_add P _ _ _ _ (by rw [zl_0]; norm_num) fun y8 x78 h_y8 c_x78 => ?_
  refine wp_add P _ _ _ _ c_x78 fun x79 x80 h_x79 c_x80 => ?_
  refine wp_add P _ _ _ _ c_x80 fun x81 x82 h_x81 c_x82 => ?_
  refine wp_add P _ _ _ _ c_x82 fun x83 x84 h_x83 c_x84 => ?_
  refine wp_add P _ _ _ _ c_x84 fun x85 x86 h_x85 c_x86 => ?_
  refine wp_plus P 1 1 _ _ _ c_x86 c_x65 (by norm_num) fun x87 h_x87 c_x87 => ?_
  refine wp_mul P _ _ _ fun x89 x88 h_x88 => ?_
  refine wp_mul P _ _ _ fun x91 x90 h_x90 => ?_
  refine wp_mul P _ _ _ fun x93 x92 h_x92 => ?_
  refine wp_mul P _ _ _ fun x95 x94 h_x94 => ?_
  refine wp_add P _ _ _ _ (by rw [zl_0]; norm_num) fun x96 x97 h_x96 c_x97 => ?_
  refine wp_add P _ _ _ _ c_x97 fun x98 x99 h_x98 c_x99 => ?_
  refine wp_add P _ _ _ _ c_x99 fun x100 x101 h_x100 c_x101 => ?_
  refine wp_plus P 1 18446744073709551614 _ _ _ c_x101 (mulhi_le h_x88) (by norm_num) fun x102 h_x102 c_x102 => ?_
  refine wp_add P _ _ _ _ (by rw [zl_0]; norm_num) fun x103 x104 h_x103 c_x104 => ?_
  refine wp_add P _ _ _ _ c_x104 fun x105 x106 h_x105 c_x106 => ?_
  refine wp_add P _ _ _ _ c_x106 fun x107 x108 h_x107 c_x108 => ?_
  refine wp_add P _ _ _ _ c_x108 fun x109 x110 h_x109 c_x110 => ?_
  refine wp_add P _ _ _ _ c_x110 fun x111 x112 h_x111 c_x112 => ?_
  refine wp_mul P _ _ _ fun y11 x113 h_x113 => ?_
  refine wp_mul P _ _ _ fun x116 x115 h_x115 => ?_
  refine wp_mul P _ _ _ fun x118 x117 h_x117 => ?_
  refine wp_mul P _ _ _ fun x120 x119 h_x119 => ?_
  refine wp_add P _ _ _ _ (by rw [zl_0]; norm_num) fun x121 x122 h_x121 c_x122 => ?_
  refine wp_plus P 1 2469829653919213788 _ _ _ c_x122 (mulhi_lt 2469829653919213788 (by rw [zl_224698fc0994a8dd]; norm_num) (by norm_num) h_x117) (by norm_num) fun x123 h_x123 c_x123 => ?_
  refine wp_add P _ _ _ _ (by rw [zl_0]; norm_num) fun y13 x125 h_y13 c_x125 => ?_
  refine wp_add P _ _ _ _ c_x125 fun x126 x127 h_x126 c_x127 => ?_
  refine wp_add P _ _ _ _ c_x127 fun x128 x129 h_x128 c_x129 => ?_
  refine wp_add P _ _ _ _ c_x129 fun x130 x131 h_x130 c_x131 => ?_
  refine wp_add P _ _ _ _ c_x131 fun x132 x133 h_x132 c_x133 => ?_
  refine wp_plus P 1 1 _ _ _ c_x133 c_x112 (by norm_num) fun x134 h_x134 c_x134 => ?_
  refine wp_mul P _ _ _ fun x136 x135 h_x135 => ?_
  refine wp_mul P _ _ _ fun x138 x137 h_x137 => ?_
  refine wp_mul P _ _ _ fun x140 x139 h_x139 => ?_
  refine wp_mul P _ _ _ fun x142 x141 h_x141 => ?_
  refine wp_add P _ _ _ _ (by rw [zl_0]; norm_num) fun x143 x144 h_x143 c_x144 => ?_
  refine wp_add P _ _ _ _ c_x144 fun x145 x146 h_x145 c_x146 => ?_
  refine wp_add P _ _ _ _ c_x146 fun x147 x148 h_x147 c_x148 => ?_
  refine wp_plus P 1 18446744073709551614 _ _ _ c_x148 (mulhi_le h_x135) (by norm_num) fun x149 h_x149 c_x149 => ?_
  refine wp_add P _ _ _ _ (by rw [zl_0]; norm_num) fun x150 x151 h_x150 c_x151 => ?_
  refine wp_add P _ _ _ _ c_x151 fun x152 x153 h_x152 c_x153 => ?_
  refine wp_add P _ _ _ _ c_x153 fun x154 x155 h_x154 c_x155 => ?_
  refine wp_add P _ _ _ _ c_x155 fun x156 x157 h_x156 c_x157 => ?_
  refine wp_add P _ _ _ _ c_x157 fun x158 x159 h_x158 c_x159 => ?_
  refine wp_mul P _ _ _ fun y16 x160 h_x160 => ?_
  refine wp_mul P _ _ _ fun x163 x162 h_x162 => ?_
  refine wp_mul P _ _ _ fun x165 x164 h_x164 => ?_
  refine wp_mul P _ _ _ fun x167 x166 h_x166 => ?_
  refine wp_add P _ _ _ _ (by rw [zl_0]; norm_num) fun x168 x169 h_x168 c_x169 => ?_
  refine wp_plus P 1 2469829653919213788 _ _ _ c_x169 (mulhi_lt 2469829653919213788 (by rw [zl_224698fc0994a8dd]; norm_num) (by norm_num) h_x164) (by norm_num) fun x170 h_x170 c_x170 => ?_
  refine wp_add P _ _ _ _ (by rw [zl_0]; norm_num) fun y18 x172 h_y18 c_x172 => ?_
  refine wp_add P _ _ _ _ c_x172 fun x173 x174 h_x173 c_x174 => ?_
  refine wp_add P _ _ _ _ c_x174 fun x175 x176 h_x175 c_x176 => ?_
  refine wp_add P _ _ _ _ c_x176 fun x177 x178 h_x177 c_x178 => ?_
  refine wp_add P _ _ _ _ c_x178 fun x179 x180 h_x179 c_x180 => ?_
  refine wp_plus P 1 1 _ _ _ c_x180 c_x159 (by norm_num) fun x181 h_x181 c_x181 => ?_
  refine wp_sub P _ _ _ _ (by rw [zl_0]; norm_num) fun x182 x183 h_x182 c_x183 => ?_
  refine wp_sub P _ _ _ _ c_x183 fun x184 x185 h_x184 c_x185 => ?_
  refine wp_sub P _ _ _ _ c_x185 fun x186 x187 h_x186 c_x187 => ?_
  refine wp_sub P _ _ _ _ c_x187 fun x188 x189 h_x188 c_x189 => ?_
  refine wp_sub P _ _ _ _ c_x189 fun y20 x191 h_y20 c_x191 => ?_
  refine wp_cmovS P _ _ _ _ c_x191 fun x192 ra_x192 rb_x192 => ?_
  refine wp_cmovS P _ _ _ _ c_x191 fun x193 ra_x193 rb_x193 => ?_
  refine wp_cmovS P _ _ _ _ c_x191 fun x194 ra_x194 rb_x194 => ?_
  refine wp_cmovS P _ _ _ _ c_x191 fun x195 ra_x195 rb_x195 => ?_
  have e_y4 : z y4 = 0 := redc_low (by rw [zl_8c46eb20ffffffff, zl_8c46eb2100000001]; norm_num) h_x20 h_x26 zl_0 h_y4
  have e_y8 : z y8 = 0 := redc_low (by rw [zl_8c46eb20ffffffff, zl_8c46eb2100000001]; norm_num) h_x66 h_x72 zl_0 h_y8
  have e_y13 : z y13 = 0 := redc_low (by rw [zl_8c46eb20ffffffff, zl_8c46eb2100000001]; norm_num) h_x113 h_x119 zl_0 h_y13
  have e_y18 : z y18 = 0 := redc_low (by rw [zl_8c46eb20ffffffff, zl_8c46eb2100000001]; norm_num) h_x160 h_x166 zl_0 h_y18
  have hI : (z x173 + 18446744073709551616 * z x175 + 18446744073709551616 ^ 2 * z x177 + 18446744073709551616 ^ 3 * z x179 + 18446744073709551616 ^ 4 * z x181) * 18446744073709551616 ^ 4 = a.zval * a.zval + (z x20 + 18446744073709551616 * z x66 + 18446744073709551616 ^ 2 * z x113 + 18446744073709551616 ^ 3 * z x160) * 28948022309329048855892746252171976963363056481941647379679742748393362948097 := by
    unfold L4.zval
    linear_combination 18446744073709551616 ^ 3 * h_x5 + 18446744073709551616 ^ 2 * h_x7 + 18446744073709551616 ^ 1 * h_x9 + 18446744073709551616 ^ 0 * h_x11 + 18446744073709551616 ^ 1 * h_x13 + (18446744073709551616 ^ 1) * zl_0 + 18446744073709551616 ^ 2 * h_x15 + 18446744073709551616 ^ 3 * h_x17 + 18446744073709551616 ^ 4 * h_x19 + 18446744073709551616 ^ 3 * h_x22 + 18446744073709551616 ^ 3 * z x20 * zl_4000000000000000 + 18446744073709551616 ^ 1 * h_x24 + 18446744073709551616 ^ 1 * z x20 * zl_224698fc0994a8dd + 18446744073709551616 ^ 0 * h_x26 + 18446744073709551616 ^ 0 * z x20 * zl_8c46eb2100000001 + 18446744073709551616 ^ 1 * h_x28 + (18446744073709551616 ^ 1) * zl_0 + 18446744073709551616 ^ 2 * h_x30 + 18446744073709551616 ^ 0 * h_y4 + (18446744073709551616 ^ 0) * zl_0 + 18446744073709551616 ^ 1 * h_x33 + 18446744073709551616 ^ 2 * h_x35 + 18446744073709551616 ^ 3 * h_x37 + 18446744073709551616 ^ 4 * h_x39 + 18446744073709551616 ^ 4 * h_x41 + 18446744073709551616 ^ 3 * h_x43 + 18446744073709551616 ^ 2 * h_x45 + 18446744073709551616 ^ 1 * h_x47 + 18446744073709551616 ^ 2 * h_x49 + (18446744073709551616 ^ 2) * zl_0 + 18446744073709551616 ^ 3 * h_x51 + 18446744073709551616 ^ 4 * h_x53 + 18446744073709551616 ^ 5 * h_x55 + 18446744073709551616 ^ 1 * h_x56 + (18446744073709551616 ^ 1) * zl_0 + 18446744073709551616 ^ 2 * h_x58 + 18446744073709551616 ^ 3 * h_x60 + 18446744073709551616 ^ 4 * h_x62 + 18446744073709551616 ^ 5 * h_x64 + 18446744073709551616 ^ 4 * h_x68 + 18446744073709551616 ^ 4 * z x66 * zl_4000000000000000 + 18446744073709551616 ^ 2 * h_x70 + 18446744073709551616 ^ 2 * z x66 * zl_224698fc0994a8dd + 18446744073709551616 ^ 1 * h_x72 + 18446744073709551616 ^ 1 * z x66 * zl_8c46eb2100000001 + 18446744073709551616 ^ 2 * h_x74 + (18446744073709551616 ^ 2) * zl_0 + 18446744073709551616 ^ 3 * h_x76 + 18446744073709551616 ^ 1 * h_y8 + (18446744073709551616 ^ 1) * zl_0 + 18446744073709551616 ^ 2 * h_x79 + 18446744073709551616 ^ 3 * h_x81 + 18446744073709551616 ^ 4 * h_x83 + 18446744073709551616 ^ 5 * h_x85 + 18446744073709551616 ^ 6 * h_x87 + 18446744073709551616 ^ 5 * h_x88 + 18446744073709551616 ^ 4 * h_x90 + 18446744073709551616 ^ 3 * h_x92 + 18446744073709551616 ^ 2 * h_x94 + 18446744073709551616 ^ 3 * h_x96 + (18446744073709551616 ^ 3) * zl_0 + 18446744073709551616 ^ 4 * h_x98 + 18446744073709551616 ^ 5 * h_x100 + 18446744073709551616 ^ 6 * h_x102 + 18446744073709551616 ^ 2 * h_x103 + (18446744073709551616 ^ 2) * zl_0 + 18446744073709551616 ^ 3 * h_x105 + 18446744073709551616 ^ 4 * h_x107 + 18446744073709551616 ^ 5 * h_x109 + 18446744073709551616 ^ 6 * h_x111 + 18446744073709551616 ^ 5 * h_x115 + 18446744073709551616 ^ 5 * z x113 * zl_4000000000000000 + 18446744073709551616 ^ 3 * h_x117 + 18446744073709551616 ^ 3 * z x113 * zl_224698fc0994a8dd + 18446744073709551616 ^ 2 * h_x119 + 18446744073709551616 ^ 2 * z x113 * zl_8c46eb2100000001 + 18446744073709551616 ^ 3 * h_x121 + (18446744073709551616 ^ 3) * zl_0 + 18446744073709551616 ^ 4 * h_x123 + 18446744073709551616 ^ 2 * h_y13 + (18446744073709551616 ^ 2) * zl_0 + 18446744073709551616 ^ 3 * h_x126 + 18446744073709551616 ^ 4 * h_x128 + 18446744073709551616 ^ 5 * h_x130 + 18446744073709551616 ^ 6 * h_x132 + 18446744073709551616 ^ 7 * h_x134 + 18446744073709551616 ^ 6 * h_x135 + 18446744073709551616 ^ 5 * h_x137 + 18446744073709551616 ^ 4 * h_x139 + 18446744073709551616 ^ 3 * h_x141 + 18446744073709551616 ^ 4 * h_x143 + (18446744073709551616 ^ 4) * zl_0 + 18446744073709551616 ^ 5 * h_x145 + 18446744073709551616 ^ 6 * h_x147 + 18446744073709551616 ^ 7 * h_x149 + 18446744073709551616 ^ 3 * h_x150 + (18446744073709551616 ^ 3) * zl_0 + 18446744073709551616 ^ 4 * h_x152 + 18446744073709551616 ^ 5 * h_x154 + 18446744073709551616 ^ 6 * h_x156 + 18446744073709551616 ^ 7 * h_x158 + 18446744073709551616 ^ 6 * h_x162 + 18446744073709551616 ^ 6 * z x160 * zl_4000000000000000 + 18446744073709551616 ^ 4 * h_x164 + 18446744073709551616 ^ 4 * z x160 * zl_224698fc0994a8dd + 18446744073709551616 ^ 3 * h_x166 + 18446744073709551616 ^ 3 * z x160 * zl_8c46eb2100000001 + 18446744073709551616 ^ 4 * h_x168 + (18446744073709551616 ^ 4) * zl_0 + 18446744073709551616 ^ 5 * h_x170 + 18446744073709551616 ^ 3 * h_y18 + (18446744073709551616 ^ 3) * zl_0 + 18446744073709551616 ^ 4 * h_x173 + 18446744073709551616 ^ 5 * h_x175 + 18446744073709551616 ^ 6 * h_x177 + 18446744073709551616 ^ 7 * h_x179 + 18446744073709551616 ^ 8 * h_x181 + -(18446744073709551616 ^ 0) * e_y4 + -(18446744073709551616 ^ 1) * e_y8 + -(18446744073709551616 ^ 2) * e_y13 + -(18446744073709551616 ^ 3) * e_y18
  have hD : z x182 + 18446744073709551616 * z x184 + 18446744073709551616 ^ 2 * z x186 + 18446744073709551616 ^ 3 * z x188 + 18446744073709551616 ^ 4 * z y20 - 18446744073709551616 ^ 5 * z x191 = z x173 + 18446744073709551616 * z x175 + 18446744073709551616 ^ 2 * z x177 + 18446744073709551616 ^ 3 * z x179 + 18446744073709551616 ^ 4 * z x181 - 28948022309329048855892746252171976963363056481941647379679742748393362948097 := by
    linear_combination 18446744073709551616 ^ 0 * h_x182 - 18446744073709551616 ^ 0 * zl_8c46eb2100000001 + -(18446744073709551616 ^ 0) * zl_0 + 18446744073709551616 ^ 1 * h_x184 - 18446744073709551616 ^ 1 * zl_224698fc0994a8dd + 18446744073709551616 ^ 2 * h_x186 - 18446744073709551616 ^ 2 * zl_0 + 18446744073709551616 ^ 3 * h_x188 - 18446744073709551616 ^ 3 * zl_4000000000000000 + 18446744073709551616 ^ 4 * h_y20 - 18446744073709551616 ^ 4 * zl_0
  have hU : z x20 + 18446744073709551616 * z x66 + 18446744073709551616 ^ 2 * z x113 + 18446744073709551616 ^ 3 * z x160 ≤ 18446744073709551616 ^ 4 - 1 := zsum_le _ _ _ _
  have hX : a.zval * a.zval < 18446744073709551616 ^ 4 * 28948022309329048855892746252171976963363056481941647379679742748393362948097 := by rw [L4.zval_eq]; exact_mod_cast h
  have hT : z x173 + 18446744073709551616 * z x175 + 18446744073709551616 ^ 2 * z x177 + 18446744073709551616 ^ 3 * z x179 + 18446744073709551616 ^ 4 * z x181 < 2 * 28948022309329048855892746252171976963363056481941647379679742748393362948097 := by
    generalize a.zval * a.zval = X at hI hX
    linarith only [hI, hX, hU]
  obtain ⟨hlt, hk⟩ := condsub 28948022309329048855892746252171976963363056481941647379679742748393362948097 hD c_x191 (by norm_num) (by norm_num) hT ra_x192 rb_x192 ra_x193 rb_x193 ra_x194 rb_x194 ra_x195 rb_x195
  refine hP _ (redc_of _ _ _ _ _ _ _ (by norm_num) ?_ hlt hk hI)
  rw [L4.zval_eq]; exact (Nat.cast_mul _ _).symm

theorem add_spec (a b : L4) (ha : a.val < 28948022309329048855892746252171976963363056481941647379679742748393362948097) (hb : b.val < 28948022309329048855892746252171976963363056481941647379679742748393362948097) : Reduced 28948022309329048855892746252171976963363056481941647379679742748393362948097 (a.val + b.val) (add a b) := by
  suffices H : ∀ P : L4 → Prop, (∀ r, Reduced 28948022309329048855892746252171976963363056481941647379679742748393362948097 (a.val + b.val) r → P r) → P (add a b) from H _ (fun _ h => h)
  intro P hP
  have zl_0 : z 0x0 = 0 := rfl
  have zl_224698fc0994a8dd : z 0x224698fc0994a8dd = 2469829653919213789 := rfl
  have zl_4000000000000000 : z 0x4000000000000000 = 4611686018427387904 := rfl
  have zl_8c46eb2100000001 : z 0x8c46eb2100000001 = 10108024940646105089 := rfl
  unfold add
  refine wp_add P _ _ _ _ (by rw [zl_0]; norm_num) fun x1 x2 h_x1 c_x2 => ?_
  refine wp_add P _ _ _ _ c_x2 fun x3 x4 h_x3 c_x4 => ?_
  refine wp_add P _ _ _ _ c_x4 fun x5 x6 h_x5 c_x6 => ?_
  refine wp_add P _ _ _ _ c_x6 fun x7 x8 h_x7 c_x8 => ?_
  refine wp_sub P _ _ _ _ (by rw [zl_0]; norm_num) fun x9 x10 h_x9 c_x10 => ?_
  refine wp_sub P _ _ _ _ c_x10 fun x11 x12 h_x11 c_x12 => ?_
  refine wp_sub P _ _ _ _ c_x12 fun x13 x14 h_x13 c_x14 => ?_
  refine wp_sub P _ _ _ _ c_x14 fun x15 x16 h_x15 c_x16 => ?_
  refine wp_sub P _ _ _ _ c_x16 fun y1 x18 h_y1 c_x18 => ?_
  refine wp_cmovS P _ _ _ _ c_x18 fun x19 ra_x19 rb_x19 => ?_
  refine wp_cmovS P _ _ _ _ c_x18 fun x20 ra_x20 rb_x20 => ?_
  refine wp_cmovS P _ _ _ _ c_x18 fun x21 ra_x21 rb_x21 => ?_
  refine wp_cmovS P _ _ _ _ c_x18 fun x22 ra_x22 rb_x22 => ?_
  have hI : z x1 + 18446744073709551616 * z x3 + 18446744073709551616 ^ 2 * z x5 + 18446744073709551616 ^ 3 * z x7 + 18446744073709551616 ^ 4 * z x8 = a.zval + b.zval := by
    unfold L4.zval
    linear_combination 18446744073709551616 ^ 0 * h_x1 + 18446744073709551616 ^ 0 * zl_0 + 18446744073709551616 ^ 1 * h_x3 + 18446744073709551616 ^ 2 * h_x5 + 18446744073709551616 ^ 3 * h_x7
  have hD : z x9 + 18446744073709551616 * z x11 + 18446744073709551616 ^ 2 * z x13 + 18446744073709551616 ^ 3 * z x15 + 18446744073709551616 ^ 4 * z y1 - 18446744073709551616 ^ 5 * z x18 = z x1 + 18446744073709551616 * z x3 + 18446744073709551616 ^ 2 * z x5 + 18446744073709551616 ^ 3 * z x7 + 18446744073709551616 ^ 4 * z x8 - 28948022309329048855892746252171976963363056481941647379679742748393362948097 := by
    linear_combination 18446744073709551616 ^ 0 * h_x9 - 18446744073709551616 ^ 0 * zl_8c46eb2100000001 + -(18446744073709551616 ^ 0) * zl_0 + 18446744073709551616 ^ 1 * h_x11 - 18446744073709551616 ^ 1 * zl_224698fc0994a8dd + 18446744073709551616 ^ 2 * h_x13 - 18446744073709551616 ^ 2 * zl_0 + 18446744073709551616 ^ 3 * h_x15 - 18446744073709551616 ^ 3 * zl_4000000000000000 + 18446744073709551616 ^ 4 * h_y1 - 18446744073709551616 ^ 4 * zl_0
  have hT : z x1 + 18446744073709551616 * z x3 + 18446744073709551616 ^ 2 * z x5 + 18446744073709551616 ^ 3 * z x7 + 18446744073709551616 ^ 4 * z x8 < 2 * 28948022309329048855892746252171976963363056481941647379679742748393362948097 := by
    rw [hI, L4.zval_eq, L4.zval_eq]; omega
  obtain ⟨hlt, hk⟩ := condsub 28948022309329048855892746252171976963363056481941647379679742748393362948097 hD c_x18 (by norm_num) (by norm_num) hT ra_x19 rb_x19 ra_x20 rb_x20 ra_x21 rb_x21 ra_x22 rb_x22
  refine hP _ (reduced_of _ _ _ _ _ (by norm_num) ?_ hlt hk)
  rw [hI, L4.zval_eq, L4.zval_eq]; exact (Nat.cast_add _ _).symm

theorem sub_spec (a b : L4) (ha : a.val < 28948022309329048855892746252171976963363056481941647379679742748393362948097) (hb : b.val < 28948022309329048855892746252171976963363056481941647379679742748393362948097) : Reduced 28948022309329048855892746252171976963363056481941647379679742748393362948097 (a.val + (28948022309329048855892746252171976963363056481941647379679742748393362948097 - b.val)) (sub a b) := by
  suffices H : ∀ P : L4 → Prop, (∀ r, Reduced 28948022309329048855892746252171976963363056481941647379679742748393362948097 (a.val + (28948022309329048855892746252171976963363056481941647379679742748393362948097 - b.val)) r → P r) → P (sub a b) from H _ (fun _ h => h)
  intro P hP
  have zl_0 : z 0x0 = 0 := rfl
  have zl_224698fc0994a8dd : z 0x224698fc0994a8dd = 2469829653919213789 := rfl
  have zl_4000000000000000 : z 0x4000000000000000 = 4611686018427387904 := rfl
  have zl_8c46eb2100000001 : z 0x8c46eb2100000001 = 10108024940646105089 := rfl
  have zl_ffffffffffffffff : z 0xffffffffffffffff = 18446744073709551615 := rfl
  unfold sub
  refine wp_sub P _ _ _ _ (by rw [zl_0]; norm_num) fun x1 x2 h_x1 c_x2 => ?_
  refine wp_sub P _ _ _ _ c_x2 fun x3 x4 h_x3 c_x4 => ?_
  refine wp_sub P _ _ _ _ c_x4 fun x5 x6 h_x5 c_x6 => ?_
  refine wp_sub P _ _ _ _ c_x6 fun x7 x8 h_x7 c_x8 => ?_
  refine wp_cmovS P _ _ _ _ c_x8 fun x9 ra_x9 rb_x9 => ?_
  refine wp_and P _ _ _ fun y1 ra_y1 rb_y1 => ?_
  refine wp_add P _ _ _ _ (by rw [zl_0]; norm_num) fun x10 x11 h_x10 c_x11 => ?_
  refine wp_and P _ _ _ fun y2 ra_y2 rb_y2 => ?_
  refine wp_add P _ _ _ _ c_x11 fun x12 x13 h_x12 c_x13 => ?_
  refine wp_add P _ _ _ _ c_x13 fun x14 x15 h_x14 c_x15 => ?_
  refine wp_and P _ _ _ fun y3 ra_y3 rb_y3 => ?_
  refine wp_add P _ _ _ _ c_x15 fun x16 y4 h_x16 c_y4 => ?_
  have hD : z x1 + 18446744073709551616 * z x3 + 18446744073709551616 ^ 2 * z x5 + 18446744073709551616 ^ 3 * z x7 - 18446744073709551616 ^ 4 * z x8 = a.zval - b.zval := by
    unfold L4.zval
    linear_combination 18446744073709551616 ^ 0 * h_x1 + -(18446744073709551616 ^ 0) * zl_0 + 18446744073709551616 ^ 1 * h_x3 + 18446744073709551616 ^ 2 * h_x5 + 18446744073709551616 ^ 3 * h_x7
  have hS : z x10 + 18446744073709551616 * z x12 + 18446744073709551616 ^ 2 * z x14 + 18446744073709551616 ^ 3 * z x16 + 18446744073709551616 ^ 4 * z y4 = z x1 + 18446744073709551616 * z x3 + 18446744073709551616 ^ 2 * z x5 + 18446744073709551616 ^ 3 * z x7 + z y1 + 18446744073709551616 * z y2 + 18446744073709551616 ^ 2 * z 0x0 + 18446744073709551616 ^ 3 * z y3 := by
    linear_combination 18446744073709551616 ^ 0 * h_x10 + 18446744073709551616 ^ 0 * zl_0 + 18446744073709551616 ^ 1 * h_x12 + 18446744073709551616 ^ 2 * h_x14 + 18446744073709551616 ^ 3 * h_x16
  have hk0 : z x8 = 0 → z y1 = 0 ∧ z y2 = 0 ∧ z 0x0 = 0 ∧ z y3 = 0 := by
    intro e
    have e1 : x9 = 0 := ra_x9 e
    exact ⟨by rw [ra_y1 e1]; rfl, by rw [ra_y2 e1]; rfl, zl_0, by rw [ra_y3 e1]; rfl⟩
  have hk1 : z x8 = 1 → z y1 + 18446744073709551616 * z y2 + 18446744073709551616 ^ 2 * z 0x0 + 18446744073709551616 ^ 3 * z y3 = 28948022309329048855892746252171976963363056481941647379679742748393362948097 := by
    intro e
    have e1 : x9 = 0xffffffffffffffff := rb_x9 e
    rw [rb_y1 e1, rb_y2 e1, rb_y3 e1]; simp only [zl_8c46eb2100000001, zl_ffffffffffffffff, zl_0, zl_224698fc0994a8dd, zl_4000000000000000]; norm_num only
  have ha' : a.zval < 28948022309329048855892746252171976963363056481941647379679742748393362948097 := by rw [L4.zval_eq]; exact_mod_cast ha
  have ha0 : 0 ≤ a.zval := by rw [L4.zval_eq]; omega
  have hb' : b.zval < 28948022309329048855892746252171976963363056481941647379679742748393362948097 := by rw [L4.zval_eq]; exact_mod_cast hb
  have hb0 : 0 ≤ b.zval := by rw [L4.zval_eq]; omega
  obtain ⟨hlt, kk, hk⟩ := condadd _ 28948022309329048855892746252171976963363056481941647379679742748393362948097 _ _ _ _ hD hS c_x8 c_y4 hk0 hk1 (by linarith only [ha', ha0, hb', hb0]) (by linarith only [ha', ha0, hb', hb0]) (by norm_num)
  refine hP _ (reduced_of 28948022309329048855892746252171976963363056481941647379679742748393362948097 _ _ 28948022309329048855892746252171976963363056481941647379679742748393362948097 (a.zval - b.zval + 28948022309329048855892746252171976963363056481941647379679742748393362948097) (by norm_num) ?_ hlt ⟨1 - kk, ?_⟩)
  · rw [L4.zval_eq, L4.zval_eq]; omega
  · rw [hk]; ring

theorem opp_spec (a : L4) (ha : a.val < 28948022309329048855892746252171976963363056481941647379679742748393362948097) : Reduced 28948022309329048855892746252171976963363056481941647379679742748393362948097 (28948022309329048855892746252171976963363056481941647379679742748393362948097 - a.val) (opp a) := by
  suffices H : ∀ P : L4 → Prop, (∀ r, Reduced 28948022309329048855892746252171976963363056481941647379679742748393362948097 (28948022309329048855892746252171976963363056481941647379679742748393362948097 - a.val) r → P r) → P (opp a) from H _ (fun _ h => h)
  intro P hP
  have zl_0 : z 0x0 = 0 := rfl
  have zl_224698fc0994a8dd : z 0x224698fc0994a8dd = 2469829653919213789 := rfl
  have zl_4000000000000000 : z 0x4000000000000000 = 4611686018427387904 := rfl
  have zl_8c46eb2100000001 : z 0x8c46eb2100000001 = 10108024940646105089 := rfl
  have zl_ffffffffffffffff : z 0xffffffffffffffff = 18446744073709551615 := rfl
  unfold opp
  refine wp_sub P _ _ _ _ (by rw [zl_0]; norm_num) fun x1 x2 h_x1 c_x2 => ?_
  refine wp_sub P _ _ _ _ c_x2 fun x3 x4 h_x3 c_x4 => ?_
  refine wp_sub P _ _ _ _ c_x4 fun x5 x6 h_x5 c_x6 => ?_
  refine wp_sub P _ _ _ _ c_x6 fun x7 x8 h_x7 c_x8 => ?_
  refine wp_cmovS P _ _ _ _ c_x8 fun x9 ra_x9 rb_x9 => ?_
  refine wp_and P _ _ _ fun y1 ra_y1 rb_y1 => ?_
  refine wp_add P _ _ _ _ (by rw [zl_0]; norm_num) fun x10 x11 h_x10 c_x11 => ?_
  refine wp_and P _ _ _ fun y2 ra_y2 rb_y2 => ?_
  refine wp_add P _ _ _ _ c_x11 fun x12 x13 h_x12 c_x13 => ?_
  refine wp_add P _ _ _ _ c_x13 fun x14 x15 h_x14 c_x15 => ?_
  refine wp_and P _ _ _ fun y3 ra_y3 rb_y3 => ?_
  refine wp_add P _ _ _ _ c_x15 fun x16 y4 h_x16 c_y4 => ?_
  have hD : z x1 + 18446744073709551616 * z x3 + 18446744073709551616 ^ 2 * z x5 + 18446744073709551616 ^ 3 * z x7 - 18446744073709551616 ^ 4 * z x8 = 0 - a.zval := by
    unfold L4.zval
    linear_combination 18446744073709551616 ^ 0 * h_x1 + (18446744073709551616 ^ 0) * zl_0 + -(18446744073709551616 ^ 0) * zl_0 + 18446744073709551616 ^ 1 * h_x3 + (18446744073709551616 ^ 1) * zl_0 + 18446744073709551616 ^ 2 * h_x5 + (18446744073709551616 ^ 2) * zl_0 + 18446744073709551616 ^ 3 * h_x7 + (18446744073709551616 ^ 3) * zl_0
  have hS : z x10 + 18446744073709551616 * z x12 + 18446744073709551616 ^ 2 * z x14 + 18446744073709551616 ^ 3 * z x16 + 18446744073709551616 ^ 4 * z y4 = z x1 + 18446744073709551616 * z x3 + 18446744073709551616 ^ 2 * z x5 + 18446744073709551616 ^ 3 * z x7 + z y1 + 18446744073709551616 * z y2 + 18446744073709551616 ^ 2 * z 0x0 + 18446744073709551616 ^ 3 * z y3 := by
    linear_combination 18446744073709551616 ^ 0 * h_x10 + 18446744073709551616 ^ 0 * zl_0 + 18446744073709551616 ^ 1 * h_x12 + 18446744073709551616 ^ 2 * h_x14 + 18446744073709551616 ^ 3 * h_x16
  have hk0 : z x8 = 0 → z y1 = 0 ∧ z y2 = 0 ∧ z 0x0 = 0 ∧ z y3 = 0 := by
    intro e
    have e1 : x9 = 0 := ra_x9 e
    exact ⟨by rw [ra_y1 e1]; rfl, by rw [ra_y2 e1]; rfl, zl_0, by rw [ra_y3 e1]; rfl⟩
  have hk1 : z x8 = 1 → z y1 + 18446744073709551616 * z y2 + 18446744073709551616 ^ 2 * z 0x0 + 18446744073709551616 ^ 3 * z y3 = 28948022309329048855892746252171976963363056481941647379679742748393362948097 := by
    intro e
    have e1 : x9 = 0xffffffffffffffff := rb_x9 e
    rw [rb_y1 e1, rb_y2 e1, rb_y3 e1]; simp only [zl_8c46eb2100000001, zl_ffffffffffffffff, zl_0, zl_224698fc0994a8dd, zl_4000000000000000]; norm_num only
  have ha' : a.zval < 28948022309329048855892746252171976963363056481941647379679742748393362948097 := by rw [L4.zval_eq]; exact_mod_cast ha
  have ha0 : 0 ≤ a.zval := by rw [L4.zval_eq]; omega
  obtain ⟨hlt, kk, hk⟩ := condadd _ 28948022309329048855892746252171976963363056481941647379679742748393362948097 _ _ _ _ hD hS c_x8 c_y4 hk0 hk1 (by linarith only [ha', ha0]) (by linarith only [ha', ha0]) (by norm_num)
  refine hP _ (reduced_of 28948022309329048855892746252171976963363056481941647379679742748393362948097 _ _ 28948022309329048855892746252171976963363056481941647379679742748393362948097 (0 - a.zval + 28948022309329048855892746252171976963363056481941647379679742748393362948097) (by norm_num) ?_ hlt ⟨1 - kk, ?_⟩)
  · rw [L4.zval_eq]; omega
  · rw [hk]; ring

theorem fromMont_spec (a : L4)  : Redc 28948022309329048855892746252171976963363056481941647379679742748393362948097 (a.val) (fromMont a) := by
  suffices H : ∀ P : L4 → Prop, (∀ r, Redc 28948022309329048855892746252171976963363056481941647379679742748393362948097 (a.val) r → P r) → P (fromMont a) from H _ (fun _ h => h)
  intro P hP
  have zl_0 : z 0x0 = 0 := rfl
  have zl_224698fc0994a8dd : z 0x224698fc0994a8dd = 2469829653919213789 := rfl
  have zl_4000000000000000 : z 0x4000000000000000 = 4611686018427387904 := rfl
  have zl_8c46eb20ffffffff : z 0x8c46eb20ffffffff = 10108024940646105087 := rfl
  have zl_8c46eb2100000001 : z 0x8c46eb2100000001 = 10108024940646105089 := rfl
  unfold fromMont
  refine wp_mul P _ _ _ fun y1 x2 h_x2 => ?_
  refine wp_mul P _ _ _ fun x5 x4 h_x4 => ?_
  refine wp_mul P _ _ _ fun x7 x6 h_x6 => ?_
  refine wp_mul P _ _ _ fun x9 x8 h_x8 => ?_
  refine wp_add P _ _ _ _ (by rw [zl_0]; norm_num) fun x10 x11 h_x10 c_x11 => ?_
  refine wp_add P _ _ _ _ (by rw [zl_0]; norm_num) fun y2 x13 h_y2 c_x13 => ?_
  refine wp_add P _ _ _ _ c_x13 fun x14 x15 h_x14 c_x15 => ?_
  refine wp_add P _ _ _ _ (by rw [zl_0]; norm_num) fun x16 x17 h_x16 c_x17 => ?_
  refine wp_mul P _ _ _ fun y3 x18 h_x18 => ?_
  refine wp_mul P _ _ _ fun x21 x20 h_x20 => ?_
  refine wp_mul P _ _ _ fun x23 x22 h_x22 => ?_
  refine wp_mul P _ _ _ fun x25 x24 h_x24 => ?_
  refine wp_add P _ _ _ _ (by rw [zl_0]; norm_num) fun x26 x27 h_x26 c_x27 => ?_
  refine wp_add P _ _ _ _ (by rw [zl_0]; norm_num) fun y4 x29 h_y4 c_x29 => ?_
  refine wp_plus P 1 2469829653919213788 _ _ _ c_x11 (mulhi_lt 2469829653919213788 (by rw [zl_224698fc0994a8dd]; norm_num) (by norm_num) h_x6) (by norm_num) fun y5 h_y5 c_y5 => ?_
  refine wp_plus P 1 2469829653919213789 _ _ _ c_x15 c_y5 (by norm_num) fun y6 h_y6 c_y6 => ?_
  refine wp_plus P 1 2469829653919213790 _ _ _ c_x17 c_y6 (by norm_num) fun y7 h_y7 c_y7 => ?_
  refine wp_add P _ _ _ _ c_x29 fun x30 x31 h_x30 c_x31 => ?_
  refine wp_plus P 1 2469829653919213788 _ _ _ c_x27 (mulhi_lt 2469829653919213788 (by rw [zl_224698fc0994a8dd]; norm_num) (by norm_num) h_x22) (by norm_num) fun y8 h_y8 c_y8 => ?_
  refine wp_add P _ _ _ _ c_x31 fun x32 x33 h_x32 c_x33 => ?_
  refine wp_add P _ _ _ _ c_x33 fun x34 x35 h_x34 c_x35 => ?_
  refine wp_add P _ _ _ _ (by rw [zl_0]; norm_num) fun x36 x37 h_x36 c_x37 => ?_
  refine wp_add P _ _ _ _ c_x37 fun x38 x39 h_x38 c_x39 => ?_
  refine wp_add P _ _ _ _ c_x39 fun x40 x41 h_x40 c_x41 => ?_
  refine wp_mul P _ _ _ fun y9 x42 h_x42 => ?_
  refine wp_mul P _ _ _ fun x45 x44 h_x44 => ?_
  refine wp_mul P _ _ _ fun x47 x46 h_x46 => ?_
  refine wp_mul P _ _ _ fun x49 x48 h_x48 => ?_
  refine wp_add P _ _ _ _ (by rw [zl_0]; norm_num) fun x50 x51 h_x50 c_x51 => ?_
  refine wp_add P _ _ _ _ (by rw [zl_0]; norm_num) fun y10 x53 h_y10 c_x53 => ?_
  refine wp_add P _ _ _ _ c_x53 fun x54 x55 h_x54 c_x55 => ?_
  refine wp_plus P 1 2469829653919213788 _ _ _ c_x51 (mulhi_lt 2469829653919213788 (by rw [zl_224698fc0994a8dd]; norm_num) (by norm_num) h_x46) (by norm_num) fun y11 h_y11 c_y11 => ?_
  refine wp_add P _ _ _ _ c_x55 fun x56 x57 h_x56 c_x57 => ?_
  refine wp_plus P 1 4611686018427387903 _ _ _ c_x35 (mulhi_lt 4611686018427387903 (by rw [zl_4000000000000000]; norm_num) (by norm_num) h_x20) (by norm_num) fun y12 h_y12 c_y12 => ?_
  refine wp_plus P 1 4611686018427387904 _ _ _ c_x41 c_y12 (by norm_num) fun y13 h_y13 c_y13 => ?_
  refine wp_add P _ _ _ _ c_x57 fun x58 x59 h_x58 c_x59 => ?_
  refine wp_add P _ _ _ _ (by rw [zl_0]; norm_num) fun x60 x61 h_x60 c_x61 => ?_
  refine wp_add P _ _ _ _ c_x61 fun x62 x63 h_x62 c_x63 => ?_
  refine wp_add P _ _ _ _ c_x63 fun x64 x65 h_x64 c_x65 => ?_
  refine wp_mul P _ _ _ fun y14 x66 h_x66 => ?_
  refine wp_mul P _ _ _ fun x69 x68 h_x68 => ?_
  refine wp_mul P _ _ _ fun x71 x70 h_x70 => ?_
  refine wp_mul P _ _ _ fun x73 x72 h_x72 => ?_
  refine wp_add P _ _ _ _ (by rw [zl_0]; norm_num) fun x74 x75 h_x74 c_x75 => ?_
  refine wp_add P _ _ _ _ (by rw [zl_0]; norm_num) fun y15 x77 h_y15 c_x77 => ?_
  refine wp_add P _ _ _ _ c_x77 fun x78 x79 h_x78 c_x79 => ?_
  refine wp_plus P 1 2469829653919213788 _ _ _ c_x75 (mulhi_lt 2469829653919213788 (by rw [zl_224698fc0994a8dd]; norm_num) (by norm_num) h_x70) (by norm_num) fun y16 h_y16 c_y16 => ?_
  refine wp_add P _ _ _ _ c_x79 fun x80 x81 h_x80 c_x81 => ?_
  refine wp_plus P 1 4611686018427387903 _ _ _ c_x59 (mulhi_lt 4611686018427387903 (by rw [zl_4000000000000000]; norm_num) (by norm_num) h_x44) (by norm_num) fun y17 h_y17 c_y17 => ?_
  refine wp_plus P 1 4611686018427387904 _ _ _ c_x65 c_y17 (by norm_num) fun y18 h_y18 c_y18 => ?_
  refine wp_add P _ _ _ _ c_x81 fun x82 x83 h_x82 c_x83 => ?_
  refine wp_plus P 1 4611686018427387903 _ _ _ c_x83 (mulhi_lt 4611686018427387903 (by rw [zl_4000000000000000]; norm_num) (by norm_num) h_x68) (by norm_num) fun x84 h_x84 c_x84 => ?_
  refine wp_sub P _ _ _ _ (by rw [zl_0]; norm_num) fun x85 x86 h_x85 c_x86 => ?_
  refine wp_sub P _ _ _ _ c_x86 fun x87 x88 h_x87 c_x88 => ?_
  refine wp_sub P _ _ _ _ c_x88 fun x89 x90 h_x89 c_x90 => ?_
  refine wp_sub P _ _ _ _ c_x90 fun x91 x92 h_x91 c_x92 => ?_
  refine wp_sub P _ _ _ _ c_x92 fun y20 x94 h_y20 c_x94 => ?_
  refine wp_cmovS P _ _ _ _ c_x94 fun x95 ra_x95 rb_x95 => ?_
  refine wp_cmovS P _ _ _ _ c_x94 fun x96 ra_x96 rb_x96 => ?_
  refine wp_cmovS P _ _ _ _ c_x94 fun x97 ra_x97 rb_x97 => ?_
  refine wp_cmovS P _ _ _ _ c_x94 fun x98 ra_x98 rb_x98 => ?_
  have e_y2 : z y2 = 0 := redc_low (by rw [zl_8c46eb20ffffffff, zl_8c46eb2100000001]; norm_num) h_x2 h_x8 zl_0 h_y2
  have e_y4 : z y4 = 0 := redc_low (by rw [zl_8c46eb20ffffffff, zl_8c46eb2100000001]; norm_num) h_x18 h_x24 zl_0 h_y4
  have e_y10 : z y10 = 0 := redc_low (by rw [zl_8c46eb20ffffffff, zl_8c46eb2100000001]; norm_num) h_x42 h_x48 zl_0 h_y10
  have e_y15 : z y15 = 0 := redc_low (by rw [zl_8c46eb20ffffffff, zl_8c46eb2100000001]; norm_num) h_x66 h_x72 zl_0 h_y15
  have hI : (z x78 + 18446744073709551616 * z x80 + 18446744073709551616 ^ 2 * z x82 + 18446744073709551616 ^ 3 * z x84 + 18446744073709551616 ^ 4 * z 0x0) * 18446744073709551616 ^ 4 = a.zval + (z x2 + 18446744073709551616 * z x18 + 18446744073709551616 ^ 2 * z x42 + 18446744073709551616 ^ 3 * z x66) * 28948022309329048855892746252171976963363056481941647379679742748393362948097 := by
    unfold L4.zval
    linear_combination 18446744073709551616 ^ 3 * h_x4 + 18446744073709551616 ^ 3 * z x2 * zl_4000000000000000 + 18446744073709551616 ^ 1 * h_x6 + 18446744073709551616 ^ 1 * z x2 * zl_224698fc0994a8dd + 18446744073709551616 ^ 0 * h_x8 + 18446744073709551616 ^ 0 * z x2 * zl_8c46eb2100000001 + 18446744073709551616 ^ 1 * h_x10 + (18446744073709551616 ^ 1) * zl_0 + 18446744073709551616 ^ 0 * h_y2 + (18446744073709551616 ^ 0) * zl_0 + 18446744073709551616 ^ 1 * h_x14 + (18446744073709551616 ^ 1) * zl_0 + 18446744073709551616 ^ 1 * h_x16 + (18446744073709551616 ^ 1) * zl_0 + 18446744073709551616 ^ 4 * h_x20 + 18446744073709551616 ^ 4 * z x18 * zl_4000000000000000 + 18446744073709551616 ^ 2 * h_x22 + 18446744073709551616 ^ 2 * z x18 * zl_224698fc0994a8dd + 18446744073709551616 ^ 1 * h_x24 + 18446744073709551616 ^ 1 * z x18 * zl_8c46eb2100000001 + 18446744073709551616 ^ 2 * h_x26 + (18446744073709551616 ^ 2) * zl_0 + 18446744073709551616 ^ 1 * h_y4 + (18446744073709551616 ^ 1) * zl_0 + 18446744073709551616 ^ 2 * h_y5 + 18446744073709551616 ^ 2 * h_y6 + 18446744073709551616 ^ 2 * h_y7 + 18446744073709551616 ^ 2 * h_x30 + 18446744073709551616 ^ 3 * h_y8 + 18446744073709551616 ^ 3 * h_x32 + 18446744073709551616 ^ 4 * h_x34 + 18446744073709551616 ^ 2 * h_x36 + (18446744073709551616 ^ 2) * zl_0 + 18446744073709551616 ^ 3 * h_x38 + (18446744073709551616 ^ 3) * zl_0 + 18446744073709551616 ^ 4 * h_x40 + (18446744073709551616 ^ 4) * zl_0 + 18446744073709551616 ^ 5 * h_x44 + 18446744073709551616 ^ 5 * z x42 * zl_4000000000000000 + 18446744073709551616 ^ 3 * h_x46 + 18446744073709551616 ^ 3 * z x42 * zl_224698fc0994a8dd + 18446744073709551616 ^ 2 * h_x48 + 18446744073709551616 ^ 2 * z x42 * zl_8c46eb2100000001 + 18446744073709551616 ^ 3 * h_x50 + (18446744073709551616 ^ 3) * zl_0 + 18446744073709551616 ^ 2 * h_y10 + (18446744073709551616 ^ 2) * zl_0 + 18446744073709551616 ^ 3 * h_x54 + 18446744073709551616 ^ 4 * h_y11 + 18446744073709551616 ^ 4 * h_x56 + 18446744073709551616 ^ 5 * h_y12 + 18446744073709551616 ^ 5 * h_y13 + 18446744073709551616 ^ 5 * h_x58 + 18446744073709551616 ^ 3 * h_x60 + (18446744073709551616 ^ 3) * zl_0 + 18446744073709551616 ^ 4 * h_x62 + (18446744073709551616 ^ 4) * zl_0 + 18446744073709551616 ^ 5 * h_x64 + (18446744073709551616 ^ 5) * zl_0 + 18446744073709551616 ^ 6 * h_x68 + 18446744073709551616 ^ 6 * z x66 * zl_4000000000000000 + 18446744073709551616 ^ 4 * h_x70 + 18446744073709551616 ^ 4 * z x66 * zl_224698fc0994a8dd + 18446744073709551616 ^ 3 * h_x72 + 18446744073709551616 ^ 3 * z x66 * zl_8c46eb2100000001 + 18446744073709551616 ^ 4 * h_x74 + (18446744073709551616 ^ 4) * zl_0 + 18446744073709551616 ^ 3 * h_y15 + (18446744073709551616 ^ 3) * zl_0 + 18446744073709551616 ^ 4 * h_x78 + 18446744073709551616 ^ 5 * h_y16 + 18446744073709551616 ^ 5 * h_x80 + 18446744073709551616 ^ 6 * h_y17 + 18446744073709551616 ^ 6 * h_y18 + 18446744073709551616 ^ 6 * h_x82 + 18446744073709551616 ^ 7 * h_x84 + -(18446744073709551616 ^ 0) * e_y2 + -(18446744073709551616 ^ 1) * e_y4 + -(18446744073709551616 ^ 2) * e_y10 + -(18446744073709551616 ^ 3) * e_y15 + 18446744073709551616 ^ 8 * zl_0
  have hD : z x85 + 18446744073709551616 * z x87 + 18446744073709551616 ^ 2 * z x89 + 18446744073709551616 ^ 3 * z x91 + 18446744073709551616 ^ 4 * z y20 - 18446744073709551616 ^ 5 * z x94 = z x78 + 18446744073709551616 * z x80 + 18446744073709551616 ^ 2 * z x82 + 18446744073709551616 ^ 3 * z x84 + 18446744073709551616 ^ 4 * z 0x0 - 28948022309329048855892746252171976963363056481941647379679742748393362948097 := by
    linear_combination 18446744073709551616 ^ 0 * h_x85 - 18446744073709551616 ^ 0 * zl_8c46eb2100000001 + -(18446744073709551616 ^ 0) * zl_0 + 18446744073709551616 ^ 1 * h_x87 - 18446744073709551616 ^ 1 * zl_224698fc0994a8dd + 18446744073709551616 ^ 2 * h_x89 - 18446744073709551616 ^ 2 * zl_0 + 18446744073709551616 ^ 3 * h_x91 - 18446744073709551616 ^ 3 * zl_4000000000000000 + 18446744073709551616 ^ 4 * h_y20 - 18446744073709551616 ^ 4 * zl_0
  have hU : z x2 + 18446744073709551616 * z x18 + 18446744073709551616 ^ 2 * z x42 + 18446744073709551616 ^ 3 * z x66 ≤ 18446744073709551616 ^ 4 - 1 := zsum_le _ _ _ _
  have hX : a.zval < 18446744073709551616 ^ 4 * 28948022309329048855892746252171976963363056481941647379679742748393362948097 := by linarith only [zval_le a]
  have hT : z x78 + 18446744073709551616 * z x80 + 18446744073709551616 ^ 2 * z x82 + 18446744073709551616 ^ 3 * z x84 + 18446744073709551616 ^ 4 * z 0x0 < 2 * 28948022309329048855892746252171976963363056481941647379679742748393362948097 := by
    generalize a.zval = X at hI hX
    linarith only [hI, hX, hU]
  obtain ⟨hlt, hk⟩ := condsub 28948022309329048855892746252171976963363056481941647379679742748393362948097 hD c_x94 (by norm_num) (by norm_num) hT ra_x95 rb_x95 ra_x96 rb_x96 ra_x97 rb_x97 ra_x98 rb_x98
  refine hP _ (redc_of _ _ _ _ _ _ _ (by norm_num) ?_ hlt hk hI)
  exact L4.zval_eq a

theorem toMont_spec (a : L4)  : Redc 28948022309329048855892746252171976963363056481941647379679742748393362948097 (a.val * 4263855311957679929489659445116329028194309752796460188622876710448966664207) (toMont a) := by
  suffices H : ∀ P : L4 → Prop, (∀ r, Redc 28948022309329048855892746252171976963363056481941647379679742748393362948097 (a.val * 4263855311957679929489659445116329028194309752796460188622876710448966664207) r → P r) → P (toMont a) from H _ (fun _ h => h)
  intro P hP
  have zl_0 : z 0x0 = 0 := rfl
  have zl_96d41af7ccfdaa9 : z 0x96d41af7ccfdaa9 = 679271340771891881 := rfl
  have zl_224698fc0994a8dd : z 0x224698fc0994a8dd = 2469829653919213789 := rfl
  have zl_4000000000000000 : z 0x4000000000000000 = 4611686018427387904 := rfl
  have zl_67bb433d891a16e3 : z 0x67bb433d891a16e3 = 7474641938123724515 := rfl
  have zl_7fae231004ccf590 : z 0x7fae231004ccf590 = 9200329640471491984 := rfl
  have zl_8c46eb20ffffffff : z 0x8c46eb20ffffffff = 10108024940646105087 := rfl
  have zl_8c46eb2100000001 : z 0x8c46eb2100000001 = 10108024940646105089 := rfl
  have zl_fc9678ff0000000f : z 0xfc9678ff0000000f = 18200867980676431887 := rfl
  unfold toMont
  refine wp_mul P _ _ _ fun x6 x5 h_x5 => ?_
  refine wp_mul P _ _ _ fun x8 x7 h_x7 => ?_
  refine wp_mul P _ _ _ fun x10 x9 h_x9 => ?_
  refine wp_mul P _ _ _ fun x12 x11 h_x11 => ?_
  refine wp_add P _ _ _ _ (by rw [zl_0]; norm_num) fun x13 x14 h_x13 c_x14 => ?_
  refine wp_add P _ _ _ _ c_x14 fun x15 x16 h_x15 c_x16 => ?_
  refine wp_add P _ _ _ _ c_x16 fun x17 x18 h_x17 c_x18 => ?_
  refine wp_mul P _ _ _ fun y1 x19 h_x19 => ?_
  refine wp_mul P _ _ _ fun x22 x21 h_x21 => ?_
  refine wp_mul P _ _ _ fun x24 x23 h_x23 => ?_
  refine wp_mul P _ _ _ fun x26 x25 h_x25 => ?_
  refine wp_add P _ _ _ _ (by rw [zl_0]; norm_num) fun x27 x28 h_x27 c_x28 => ?_
  refine wp_add P _ _ _ _ (by rw [zl_0]; norm_num) fun y2 x30 h_y2 c_x30 => ?_
  refine wp_add P _ _ _ _ c_x30 fun x31 x32 h_x31 c_x32 => ?_
  refine wp_plus P 1 2469829653919213788 _ _ _ c_x28 (mulhi_lt 2469829653919213788 (by rw [zl_224698fc0994a8dd]; norm_num) (by norm_num) h_x23) (by norm_num) fun y3 h_y3 c_y3 => ?_
  refine wp_add P _ _ _ _ c_x32 fun x33 x34 h_x33 c_x34 => ?_
  refine wp_add P _ _ _ _ c_x34 fun x35 x36 h_x35 c_x36 => ?_
  refine wp_mul P _ _ _ fun x38 x37 h_x37 => ?_
  refine wp_mul P _ _ _ fun x40 x39 h_x39 => ?_
  refine wp_mul P _ _ _ fun x42 x41 h_x41 => ?_
  refine wp_mul P _ _ _ fun x44 x43 h_x43 => ?_
  refine wp_add P _ _ _ _ (by rw [zl_0]; norm_num) fun x45 x46 h_x45 c_x46 => ?_
  refine wp_add P _ _ _ _ c_x46 fun x47 x48 h_x47 c_x48 => ?_
  refine wp_add P _ _ _ _ c_x48 fun x49 x50 h_x49 c_x50 => ?_
  refine wp_add P _ _ _ _ (by rw [zl_0]; norm_num) fun x51 x52 h_x51 c_x52 => ?_
  refine wp_add P _ _ _ _ c_x52 fun x53 x54 h_x53 c_x54 => ?_
  refine wp_add P _ _ _ _ c_x54 fun x55 x56 h_x55 c_x56 => ?_
  refine wp_plus P 1 679271340771891880 _ _ _ c_x18 (mulhi_lt 679271340771891880 (by rw [zl_96d41af7ccfdaa9]; norm_num) (by norm_num) h_x5) (by norm_num) fun y4 h_y4 c_y4 => ?_
  refine wp_plus P 1 679271340771891881 _ _ _ c_x36 c_y4 (by norm_num) fun y5 h_y5 c_y5 => ?_
  refine wp_plus P 679271340771891882 4611686018427387903 _ _ _ c_y5 (mulhi_lt 4611686018427387903 (by rw [zl_4000000000000000]; norm_num) (by norm_num) h_x21) (by norm_num) fun y6 h_y6 c_y6 => ?_
  refine wp_add P _ _ _ _ c_x56 fun x57 x58 h_x57 c_x58 => ?_
  refine wp_mul P _ _ _ fun y7 x59 h_x59 => ?_
  refine wp_mul P _ _ _ fun x62 x61 h_x61 => ?_
  refine wp_mul P _ _ _ fun x64 x63 h_x63 => ?_
  refine wp_mul P _ _ _ fun x66 x65 h_x65 => ?_
  refine wp_add P _ _ _ _ (by rw [zl_0]; norm_num) fun x67 x68 h_x67 c_x68 => ?_
  refine wp_add P _ _ _ _ (by rw [zl_0]; norm_num) fun y8 x70 h_y8 c_x70 => ?_
  refine wp_add P _ _ _ _ c_x70 fun x71 x72 h_x71 c_x72 => ?_
  refine wp_plus P 1 2469829653919213788 _ _ _ c_x68 (mulhi_lt 2469829653919213788 (by rw [zl_224698fc0994a8dd]; norm_num) (by norm_num) h_x63) (by norm_num) fun y9 h_y9 c_y9 => ?_
  refine wp_add P _ _ _ _ c_x72 fun x73 x74 h_x73 c_x74 => ?_
  refine wp_add P _ _ _ _ c_x74 fun x75 x76 h_x75 c_x76 => ?_
  refine wp_mul P _ _ _ fun x78 x77 h_x77 => ?_
  refine wp_mul P _ _ _ fun x80 x79 h_x79 => ?_
  refine wp_mul P _ _ _ fun x82 x81 h_x81 => ?_
  refine wp_mul P _ _ _ fun x84 x83 h_x83 => ?_
  refine wp_add P _ _ _ _ (by rw [zl_0]; norm_num) fun x85 x86 h_x85 c_x86 => ?_
  refine wp_add P _ _ _ _ c_x86 fun x87 x88 h_x87 c_x88 => ?_
  refine wp_add P _ _ _ _ c_x88 fun x89 x90 h_x89 c_x90 => ?_
  refine wp_add P _ _ _ _ (by rw [zl_0]; norm_num) fun x91 x92 h_x91 c_x92 => ?_
  refine wp_add P _ _ _ _ c_x92 fun x93 x94 h_x93 c_x94 => ?_
  refine wp_add P _ _ _ _ c_x94 fun x95 x96 h_x95 c_x96 => ?_
  refine wp_plus P 1 679271340771891880 _ _ _ c_x50 (mulhi_lt 679271340771891880 (by rw [zl_96d41af7ccfdaa9]; norm_num) (by norm_num) h_x37) (by norm_num) fun y10 h_y10 c_y10 => ?_
  refine wp_plus P 1 679271340771891881 _ _ _ c_x58 c_y10 (by norm_num) fun y11 h_y11 c_y11 => ?_
  refine wp_plus P 1 679271340771891882 _ _ _ c_x76 c_y11 (by norm_num) fun y12 h_y12 c_y12 => ?_
  refine wp_plus P 679271340771891883 4611686018427387903 _ _ _ c_y12 (mulhi_lt 4611686018427387903 (by rw [zl_4000000000000000]; norm_num) (by norm_num) h_x61) (by norm_num) fun y13 h_y13 c_y13 => ?_
  refine wp_add P _ _ _ _ c_x96 fun x97 x98 h_x97 c_x98 => ?_
  refine wp_mul P _ _ _ fun y14 x99 h_x99 => ?_
  refine wp_mul P _ _ _ fun x102 x101 h_x101 => ?_
  refine wp_mul P _ _ _ fun x104 x103 h_x103 => ?_
  refine wp_mul P _ _ _ fun x106 x105 h_x105 => ?_
  refine wp_add P _ _ _ _ (by rw [zl_0]; norm_num) fun x107 x108 h_x107 c_x108 => ?_
  refine wp_add P _ _ _ _ (by rw [zl_0]; norm_num) fun y15 x110 h_y15 c_x110 => ?_
  refine wp_add P _ _ _ _ c_x110 fun x111 x112 h_x111 c_x112 => ?_
  refine wp_plus P 1 2469829653919213788 _ _ _ c_x108 (mulhi_lt 2469829653919213788 (by rw [zl_224698fc0994a8dd]; norm_num) (by norm_num) h_x103) (by norm_num) fun y16 h_y16 c_y16 => ?_
  refine wp_add P _ _ _ _ c_x112 fun x113 x114 h_x113 c_x114 => ?_
  refine wp_add P _ _ _ _ c_x114 fun x115 x116 h_x115 c_x116 => ?_
  refine wp_mul P _ _ _ fun x118 x117 h_x117 => ?_
  refine wp_mul P _ _ _ fun x120 x119 h_x119 => ?_
  refine wp_mul P _ _ _ fun x122 x121 h_x121 => ?_
  refine wp_mul P _ _ _ fun x124 x123 h_x123 => ?_
  refine wp_add P _ _ _ _ (by rw [zl_0]; norm_num) fun x125 x126 h_x125 c_x126 => ?_
  refine wp_add P _ _ _ _ c_x126 fun x127 x128 h_x127 c_x128 => ?_
  refine wp_add P _ _ _ _ c_x128 fun x129 x130 h_x129 c_x130 => ?_
  refine wp_add P _ _ _ _ (by rw [zl_0]; norm_num) fun x131 x132 h_x131 c_x132 => ?_
  refine wp_add P _ _ _ _ c_x132 fun x133 x134 h_x133 c_x134 => ?_
  refine wp_add P _ _ _ _ c_x134 fun x135 x136 h_x135 c_x136 => ?_
  refine wp_plus P 1 679271340771891880 _ _ _ c_x90 (mulhi_lt 679271340771891880 (by rw [zl_96d41af7ccfdaa9]; norm_num) (by norm_num) h_x77) (by norm_num) fun y17 h_y17 c_y17 => ?_
  refine wp_plus P 1 679271340771891881 _ _ _ c_x98 c_y17 (by norm_num) fun y18 h_y18 c_y18 => ?_
  refine wp_plus P 1 679271340771891882 _ _ _ c_x116 c_y18 (by norm_num) fun y19 h_y19 c_y19 => ?_
  refine wp_plus P 679271340771891883 4611686018427387903 _ _ _ c_y19 (mulhi_lt 4611686018427387903 (by rw [zl_4000000000000000]; norm_num) (by norm_num) h_x101) (by norm_num) fun y20 h_y20 c_y20 => ?_
  refine wp_add P _ _ _ _ c_x136 fun x137 x138 h_x137 c_x138 => ?_
  refine wp_mul P _ _ _ fun y21 x139 h_x139 => ?_
  refine wp_mul P _ _ _ fun x142 x141 h_x141 => ?_
  refine wp_mul P _ _ _ fun x144 x143 h_x143 => ?_
  refine wp_mul P _ _ _ fun x146 x145 h_x145 => ?_
  refine wp_add P _ _ _ _ (by rw [zl_0]; norm_num) fun x147 x148 h_x147 c_x148 => ?_
  refine wp_add P _ _ _ _ (by rw [zl_0]; norm_num) fun y22 x150 h_y22 c_x150 => ?_
  refine wp_add P _ _ _ _ c_x150 fun x151 x152 h_x151 c_x152 => ?_
  refine wp_plus P 1 2469829653919213788 _ _ _ c_x148 (mulhi_lt 2469829653919213788 (by rw [zl_224698fc0994a8dd]; norm_num) (by norm_num) h_x143) (by norm_num) fun y23 h_y23 c_y23 => ?_
  refine wp_add P _ _ _ _ c_x152 fun x153 x154 h_x153 c_x154 => ?_
  refine wp_add P _ _ _ _ c_x154 fun x155 x156 h_x155 c_x156 => ?_
  refine wp_plus P 1 679271340771891880 _ _ _ c_x130 (mulhi_lt 679271340771891880 (by rw [zl_96d41af7ccfdaa9]; norm_num) (by norm_num) h_x117) (by norm_num) fun y24 h_y24 c_y24 => ?_
  refine wp_plus P 1 679271340771891881 _ _ _ c_x138 c_y24 (by norm_num) fun y25 h_y25 c_y25 => ?_
  refine wp_plus P 1 679271340771891882 _ _ _ c_x156 c_y25 (by norm_num) fun y26 h_y26 c_y26 => ?_
  refine wp_plus P 679271340771891883 4611686018427387903 _ _ _ c_y26 (mulhi_lt 4611686018427387903 (by rw [zl_4000000000000000]; norm_num) (by norm_num) h_x141) (by norm_num) fun x157 h_x157 c_x157 => ?_
  refine wp_sub P _ _ _ _ (by rw [zl_0]; norm_num) fun x158 x159 h_x158 c_x159 => ?_
  refine wp_sub P _ _ _ _ c_x159 fun x160 x161 h_x160 c_x161 => ?_
  refine wp_sub P _ _ _ _ c_x161 fun x162 x163 h_x162 c_x163 => ?_
  refine wp_sub P _ _ _ _ c_x163 fun x164 x165 h_x164 c_x165 => ?_
  refine wp_sub P _ _ _ _ c_x165 fun y28 x167 h_y28 c_x167 => ?_
  refine wp_cmovS P _ _ _ _ c_x167 fun x168 ra_x168 rb_x168 => ?_
  refine wp_cmovS P _ _ _ _ c_x167 fun x169 ra_x169 rb_x169 => ?_
  refine wp_cmovS P _ _ _ _ c_x167 fun x170 ra_x170 rb_x170 => ?_
  refine wp_cmovS P _ _ _ _ c_x167 fun x171 ra_x171 rb_x171 => ?_
  have e_y2 : z y2 = 0 := redc_low (by rw [zl_8c46eb20ffffffff, zl_8c46eb2100000001]; norm_num) h_x19 h_x25 zl_0 h_y2
  have e_y8 : z y8 = 0 := redc_low (by rw [zl_8c46eb20ffffffff, zl_8c46eb2100000001]; norm_num) h_x59 h_x65 zl_0 h_y8
  have e_y15 : z y15 = 0 := redc_low (by rw [zl_8c46eb20ffffffff, zl_8c46eb2100000001]; norm_num) h_x99 h_x105 zl_0 h_y15
  have e_y22 : z y22 = 0 := redc_low (by rw [zl_8c46eb20ffffffff, zl_8c46eb2100000001]; norm_num) h_x139 h_x145 zl_0 h_y22
  have hI : (z x151 + 18446744073709551616 * z x153 + 18446744073709551616 ^ 2 * z x155 + 18446744073709551616 ^ 3 * z x157 + 18446744073709551616 ^ 4 * z 0x0) * 18446744073709551616 ^ 4 = a.zval * 4263855311957679929489659445116329028194309752796460188622876710448966664207 + (z x19 + 18446744073709551616 * z x59 + 18446744073709551616 ^ 2 * z x99 + 18446744073709551616 ^ 3 * z x139) * 28948022309329048855892746252171976963363056481941647379679742748393362948097 := by
    unfold L4.zval
    linear_combination 18446744073709551616 ^ 3 * h_x5 + 18446744073709551616 ^ 3 * z a.l0 * zl_96d41af7ccfdaa9 + 18446744073709551616 ^ 2 * h_x7 + 18446744073709551616 ^ 2 * z a.l0 * zl_7fae231004ccf590 + 18446744073709551616 ^ 1 * h_x9 + 18446744073709551616 ^ 1 * z a.l0 * zl_67bb433d891a16e3 + 18446744073709551616 ^ 0 * h_x11 + 18446744073709551616 ^ 0 * z a.l0 * zl_fc9678ff0000000f + 18446744073709551616 ^ 1 * h_x13 + (18446744073709551616 ^ 1) * zl_0 + 18446744073709551616 ^ 2 * h_x15 + 18446744073709551616 ^ 3 * h_x17 + 18446744073709551616 ^ 3 * h_x21 + 18446744073709551616 ^ 3 * z x19 * zl_4000000000000000 + 18446744073709551616 ^ 1 * h_x23 + 18446744073709551616 ^ 1 * z x19 * zl_224698fc0994a8dd + 18446744073709551616 ^ 0 * h_x25 + 18446744073709551616 ^ 0 * z x19 * zl_8c46eb2100000001 + 18446744073709551616 ^ 1 * h_x27 + (18446744073709551616 ^ 1) * zl_0 + 18446744073709551616 ^ 0 * h_y2 + (18446744073709551616 ^ 0) * zl_0 + 18446744073709551616 ^ 1 * h_x31 + 18446744073709551616 ^ 2 * h_y3 + 18446744073709551616 ^ 2 * h_x33 + 18446744073709551616 ^ 3 * h_x35 + 18446744073709551616 ^ 4 * h_x37 + 18446744073709551616 ^ 4 * z a.l1 * zl_96d41af7ccfdaa9 + 18446744073709551616 ^ 3 * h_x39 + 18446744073709551616 ^ 3 * z a.l1 * zl_7fae231004ccf590 + 18446744073709551616 ^ 2 * h_x41 + 18446744073709551616 ^ 2 * z a.l1 * zl_67bb433d891a16e3 + 18446744073709551616 ^ 1 * h_x43 + 18446744073709551616 ^ 1 * z a.l1 * zl_fc9678ff0000000f + 18446744073709551616 ^ 2 * h_x45 + (18446744073709551616 ^ 2) * zl_0 + 18446744073709551616 ^ 3 * h_x47 + 18446744073709551616 ^ 4 * h_x49 + 18446744073709551616 ^ 1 * h_x51 + (18446744073709551616 ^ 1) * zl_0 + 18446744073709551616 ^ 2 * h_x53 + 18446744073709551616 ^ 3 * h_x55 + 18446744073709551616 ^ 4 * h_y4 + 18446744073709551616 ^ 4 * h_y5 + 18446744073709551616 ^ 4 * h_y6 + 18446744073709551616 ^ 4 * h_x57 + 18446744073709551616 ^ 4 * h_x61 + 18446744073709551616 ^ 4 * z x59 * zl_4000000000000000 + 18446744073709551616 ^ 2 * h_x63 + 18446744073709551616 ^ 2 * z x59 * zl_224698fc0994a8dd + 18446744073709551616 ^ 1 * h_x65 + 18446744073709551616 ^ 1 * z x59 * zl_8c46eb2100000001 + 18446744073709551616 ^ 2 * h_x67 + (18446744073709551616 ^ 2) * zl_0 + 18446744073709551616 ^ 1 * h_y8 + (18446744073709551616 ^ 1) * zl_0 + 18446744073709551616 ^ 2 * h_x71 + 18446744073709551616 ^ 3 * h_y9 + 18446744073709551616 ^ 3 * h_x73 + 18446744073709551616 ^ 4 * h_x75 + 18446744073709551616 ^ 5 * h_x77 + 18446744073709551616 ^ 5 * z a.l2 * zl_96d41af7ccfdaa9 + 18446744073709551616 ^ 4 * h_x79 + 18446744073709551616 ^ 4 * z a.l2 * zl_7fae231004ccf590 + 18446744073709551616 ^ 3 * h_x81 + 18446744073709551616 ^ 3 * z a.l2 * zl_67bb433d891a16e3 + 18446744073709551616 ^ 2 * h_x83 + 18446744073709551616 ^ 2 * z a.l2 * zl_fc9678ff0000000f + 18446744073709551616 ^ 3 * h_x85 + (18446744073709551616 ^ 3) * zl_0 + 18446744073709551616 ^ 4 * h_x87 + 18446744073709551616 ^ 5 * h_x89 + 18446744073709551616 ^ 2 * h_x91 + (18446744073709551616 ^ 2) * zl_0 + 18446744073709551616 ^ 3 * h_x93 + 18446744073709551616 ^ 4 * h_x95 + 18446744073709551616 ^ 5 * h_y10 + 18446744073709551616 ^ 5 * h_y11 + 18446744073709551616 ^ 5 * h_y12 + 18446744073709551616 ^ 5 * h_y13 + 18446744073709551616 ^ 5 * h_x97 + 18446744073709551616 ^ 5 * h_x101 + 18446744073709551616 ^ 5 * z x99 * zl_4000000000000000 + 18446744073709551616 ^ 3 * h_x103 + 18446744073709551616 ^ 3 * z x99 * zl_224698fc0994a8dd + 18446744073709551616 ^ 2 * h_x105 + 18446744073709551616 ^ 2 * z x99 * zl_8c46eb2100000001 + 18446744073709551616 ^ 3 * h_x107 + (18446744073709551616 ^ 3) * zl_0 + 18446744073709551616 ^ 2 * h_y15 + (18446744073709551616 ^ 2) * zl_0 + 18446744073709551616 ^ 3 * h_x111 + 18446744073709551616 ^ 4 * h_y16 + 18446744073709551616 ^ 4 * h_x113 + 18446744073709551616 ^ 5 * h_x115 + 18446744073709551616 ^ 6 * h_x117 + 18446744073709551616 ^ 6 * z a.l3 * zl_96d41af7ccfdaa9 + 18446744073709551616 ^ 5 * h_x119 + 18446744073709551616 ^ 5 * z a.l3 * zl_7fae231004ccf590 + 18446744073709551616 ^ 4 * h_x121 + 18446744073709551616 ^ 4 * z a.l3 * zl_67bb433d891a16e3 + 18446744073709551616 ^ 3 * h_x123 + 18446744073709551616 ^ 3 * z a.l3 * zl_fc9678ff0000000f + 18446744073709551616 ^ 4 * h_x125 + (18446744073709551616 ^ 4) * zl_0 + 18446744073709551616 ^ 5 * h_x127 + 18446744073709551616 ^ 6 * h_x129 + 18446744073709551616 ^ 3 * h_x131 + (18446744073709551616 ^ 3) * zl_0 + 18446744073709551616 ^ 4 * h_x133 + 18446744073709551616 ^ 5 * h_x135 + 18446744073709551616 ^ 6 * h_y17 + 18446744073709551616 ^ 6 * h_y18 + 18446744073709551616 ^ 6 * h_y19 + 18446744073709551616 ^ 6 * h_y20 + 18446744073709551616 ^ 6 * h_x137 + 18446744073709551616 ^ 6 * h_x141 + 18446744073709551616 ^ 6 * z x139 * zl_4000000000000000 + 18446744073709551616 ^ 4 * h_x143 + 18446744073709551616 ^ 4 * z x139 * zl_224698fc0994a8dd + 18446744073709551616 ^ 3 * h_x145 + 18446744073709551616 ^ 3 * z x139 * zl_8c46eb2100000001 + 18446744073709551616 ^ 4 * h_x147 + (18446744073709551616 ^ 4) * zl_0 + 18446744073709551616 ^ 3 * h_y22 + (18446744073709551616 ^ 3) * zl_0 + 18446744073709551616 ^ 4 * h_x151 + 18446744073709551616 ^ 5 * h_y23 + 18446744073709551616 ^ 5 * h_x153 + 18446744073709551616 ^ 6 * h_x155 + 18446744073709551616 ^ 7 * h_y24 + 18446744073709551616 ^ 7 * h_y25 + 18446744073709551616 ^ 7 * h_y26 + 18446744073709551616 ^ 7 * h_x157 + -(18446744073709551616 ^ 0) * e_y2 + -(18446744073709551616 ^ 1) * e_y8 + -(18446744073709551616 ^ 2) * e_y15 + -(18446744073709551616 ^ 3) * e_y22 + 18446744073709551616 ^ 8 * zl_0
  have hD : z x158 + 18446744073709551616 * z x160 + 18446744073709551616 ^ 2 * z x162 + 18446744073709551616 ^ 3 * z x164 + 18446744073709551616 ^ 4 * z y28 - 18446744073709551616 ^ 5 * z x167 = z x151 + 18446744073709551616 * z x153 + 18446744073709551616 ^ 2 * z x155 + 18446744073709551616 ^ 3 * z x157 + 18446744073709551616 ^ 4 * z 0x0 - 28948022309329048855892746252171976963363056481941647379679742748393362948097 := by
    linear_combination 18446744073709551616 ^ 0 * h_x158 - 18446744073709551616 ^ 0 * zl_8c46eb2100000001 + -(18446744073709551616 ^ 0) * zl_0 + 18446744073709551616 ^ 1 * h_x160 - 18446744073709551616 ^ 1 * zl_224698fc0994a8dd + 18446744073709551616 ^ 2 * h_x162 - 18446744073709551616 ^ 2 * zl_0 + 18446744073709551616 ^ 3 * h_x164 - 18446744073709551616 ^ 3 * zl_4000000000000000 + 18446744073709551616 ^ 4 * h_y28 - 18446744073709551616 ^ 4 * zl_0
  have hU : z x19 + 18446744073709551616 * z x59 + 18446744073709551616 ^ 2 * z x99 + 18446744073709551616 ^ 3 * z x139 ≤ 18446744073709551616 ^ 4 - 1 := zsum_le _ _ _ _
  have hX : a.zval * 4263855311957679929489659445116329028194309752796460188622876710448966664207 < 18446744073709551616 ^ 4 * 28948022309329048855892746252171976963363056481941647379679742748393362948097 := by linarith only [zval_le a]
  have hT : z x151 + 18446744073709551616 * z x153 + 18446744073709551616 ^ 2 * z x155 + 18446744073709551616 ^ 3 * z x157 + 18446744073709551616 ^ 4 * z 0x0 < 2 * 28948022309329048855892746252171976963363056481941647379679742748393362948097 := by
    generalize a.zval * 4263855311957679929489659445116329028194309752796460188622876710448966664207 = X at hI hX
    linarith only [hI, hX, hU]
  obtain ⟨hlt, hk⟩ := condsub 28948022309329048855892746252171976963363056481941647379679742748393362948097 hD c_x167 (by norm_num) (by norm_num) hT ra_x168 rb_x168 ra_x169 rb_x169 ra_x170 rb_x170 ra_x171 rb_x171
  refine hP _ (redc_of _ _ _ _ _ _ _ (by norm_num) ?_ hlt hk hI)
  rw [L4.zval_eq, Nat.cast_mul, Nat.cast_ofNat]

end Verif.Native.PastaFq
