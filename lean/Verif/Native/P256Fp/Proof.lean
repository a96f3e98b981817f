import Verif.Native.P256Fp.Code

/-!
# Arithmetic of `crypto/core/curves/native/p256/fp/p256_fp.go`: proofs (generated by `tools/gofield.py`)
-/

set_option linter.unusedVariables false
set_option linter.unusedSectionVars false
set_option maxRecDepth 100000
set_option maxHeartbeats 4000000

namespace Verif.Native.P256Fp

theorem mul_spec (a b : L4) (h : a.val * b.val < 2 ^ 256 * 115792089210356248762697446949407573530086143415290314195533631308867097853951) : Redc 115792089210356248762697446949407573530086143415290314195533631308867097853951 (a.val * b.val) (mul a b) := by
  suffices H : ∀ P : L4 → Prop, (∀ r, Redc 115792089210356248762697446949407573530086143415290314195533631308867097853951 (a.val * b.val) r → P r) → P (mul a b) from H _ (fun _ h => h)
  intro P hP
  have zl_0 : z 0x0 = 0 := rfl
  have zl_ffffffff : z 0xffffffff = 4294967295 := rfl
  have zl_ffffffff00000001 : z 0xffffffff00000001 = 18446744069414584321 := rfl
  have zl_ffffffffffffffff : z 0xffffffffffffffff = 18446744073709551615 := rfl
  unfold mul
  refine wp_mul P _ _ _ fun x6 x5 h_x5 => ?_
  refine wp_mul P _ _ _ fun x8 x7 h_x7 => ?_
  refine wp_mul P _ _ _ fun x10 x9 h_x9 => ?_
  refine wp_mul P _ _ _ fun x12 x11 h_x11 => ?_
  refine wp_add P _ _ _ _ (by rw [zl_0]; norm_num) fun x13 x14 h_x13 c_x14 => ?_
  refine wp_add P _ _ _ _ c_x14 fun x15 x16 h_x15 c_x16 => ?_
  refine wp_add P _ _ _ _ c_x16 fun x17 x18 h_x17 c_x18 => ?_
  refine wp_plus P 1 18446744073709551614 _ _ _ c_x18 (mulhi_le h_x5) (by norm_num) fun x19 h_x19 c_x19 => ?_
  refine wp_mul P _ _ _ fun x21 x20 h_x20 => ?_
  refine wp_mul P _ _ _ fun x23 x22 h_x22 => ?_
  refine wp_mul P _ _ _ fun x25 x24 h_x24 => ?_
  refine wp_add P _ _ _ _ (by rw [zl_0]; norm_num) fun x26 x27 h_x26 c_x27 => ?_
  refine wp_plus P 1 4294967294 _ _ _ c_x27 (mulhi_lt 4294967294 (by rw [zl_ffffffff]; norm_num) (by norm_num) h_x22) (by norm_num) fun x28 h_x28 c_x28 => ?_
  refine wp_add P _ _ _ _ (by rw [zl_0]; norm_num) fun y3 x30 h_y3 c_x30 => ?_
  refine wp_add P _ _ _ _ c_x30 fun x31 x32 h_x31 c_x32 => ?_
  refine wp_add P _ _ _ _ c_x32 fun x33 x34 h_x33 c_x34 => ?_
  refine wp_add P _ _ _ _ c_x34 fun x35 x36 h_x35 c_x36 => ?_
  refine wp_add P _ _ _ _ c_x36 fun x37 x38 h_x37 c_x38 => ?_
  refine wp_mul P _ _ _ fun x40 x39 h_x39 => ?_
  refine wp_mul P _ _ _ fun x42 x41 h_x41 => ?_
  refine wp_mul P _ _ _ fun x44 x43 h_x43 => ?_
  refine wp_mul P _ _ _ fun x46 x45 h_x45 => ?_
  refine wp_add P _ _ _ _ (by rw [zl_0]; norm_num) fun x47 x48 h_x47 c_x48 => ?_
  refine wp_add P _ _ _ _ c_x48 fun x49 x50 h_x49 c_x50 => ?_
  refine wp_add P _ _ _ _ c_x50 fun x51 x52 h_x51 c_x52 => ?_
  refine wp_plus P 1 18446744073709551614 _ _ _ c_x52 (mulhi_le h_x39) (by norm_num) fun x53 h_x53 c_x53 => ?_
  refine wp_add P _ _ _ _ (by rw [zl_0]; norm_num) fun x54 x55 h_x54 c_x55 => ?_
  refine wp_add P _ _ _ _ c_x55 fun x56 x57 h_x56 c_x57 => ?_
  refine wp_add P _ _ _ _ c_x57 fun x58 x59 h_x58 c_x59 => ?_
  refine wp_add P _ _ _ _ c_x59 fun x60 x61 h_x60 c_x61 => ?_
  refine wp_add P _ _ _ _ c_x61 fun x62 x63 h_x62 c_x63 => ?_
  refine wp_mul P _ _ _ fun x65 x64 h_x64 => ?_
  refine wp_mul P _ _ _ fun x67 x66 h_x66 => ?_
  refine wp_mul P _ _ _ fun x69 x68 h_x68 => ?_
  refine wp_add P _ _ _ _ (by rw [zl_0]; norm_num) fun x70 x71 h_x70 c_x71 => ?_
  refine wp_plus P 1 4294967294 _ _ _ c_x71 (mulhi_lt 4294967294 (by rw [zl_ffffffff]; norm_num) (by norm_num) h_x66) (by norm_num) fun x72 h_x72 c_x72 => ?_
  refine wp_add P _ _ _ _ (by rw [zl_0]; norm_num) fun y6 x74 h_y6 c_x74 => ?_
  refine wp_add P _ _ _ _ c_x74 fun x75 x76 h_x75 c_x76 => ?_
  refine wp_add P _ _ _ _ c_x76 fun x77 x78 h_x77 c_x78 => ?_
  refine wp_add P _ _ _ _ c_x78 fun x79 x80 h_x79 c_x80 => ?_
  refine wp_add P _ _ _ _ c_x80 fun x81 x82 h_x81 c_x82 => ?_
  refine wp_plus P 1 1 _ _ _ c_x82 c_x63 (by norm_num) fun x83 h_x83 c_x83 => ?_
  refine wp_mul P _ _ _ fun x85 x84 h_x84 => ?_
  refine wp_mul P _ _ _ fun x87 x86 h_x86 => ?_
  refine wp_mul P _ _ _ fun x89 x88 h_x88 => ?_
  refine wp_mul P _ _ _ fun x91 x90 h_x90 => ?_
  refine wp_add P _ _ _ _ (by rw [zl_0]; norm_num) fun x92 x93 h_x92 c_x93 => ?_
  refine wp_add P _ _ _ _ c_x93 fun x94 x95 h_x94 c_x95 => ?_
  refine wp_add P _ _ _ _ c_x95 fun x96 x97 h_x96 c_x97 => ?_
  refine wp_plus P 1 18446744073709551614 _ _ _ c_x97 (mulhi_le h_x84) (by norm_num) fun x98 h_x98 c_x98 => ?_
  refine wp_add P _ _ _ _ (by rw [zl_0]; norm_num) fun x99 x100 h_x99 c_x100 => ?_
  refine wp_add P _ _ _ _ c_x100 fun x101 x102 h_x101 c_x102 => ?_
  refine wp_add P _ _ _ _ c_x102 fun x103 x104 h_x103 c_x104 => ?_
  refine wp_add P _ _ _ _ c_x104 fun x105 x106 h_x105 c_x106 => ?_
  refine wp_add P _ _ _ _ c_x106 fun x107 x108 h_x107 c_x108 => ?_
  refine wp_mul P _ _ _ fun x110 x109 h_x109 => ?_
  refine wp_mul P _ _ _ fun x112 x111 h_x111 => ?_
  refine wp_mul P _ _ _ fun x114 x113 h_x113 => ?_
  refine wp_add P _ _ _ _ (by rw [zl_0]; norm_num) fun x115 x116 h_x115 c_x116 => ?_
  refine wp_plus P 1 4294967294 _ _ _ c_x116 (mulhi_lt 4294967294 (by rw [zl_ffffffff]; norm_num) (by norm_num) h_x111) (by norm_num) fun x117 h_x117 c_x117 => ?_
  refine wp_add P _ _ _ _ (by rw [zl_0]; norm_num) fun y10 x119 h_y10 c_x119 => ?_
  refine wp_add P _ _ _ _ c_x119 fun x120 x121 h_x120 c_x121 => ?_
  refine wp_add P _ _ _ _ c_x121 fun x122 x123 h_x122 c_x123 => ?_
  refine wp_add P _ _ _ _ c_x123 fun x124 x125 h_x124 c_x125 => ?_
  refine wp_add P _ _ _ _ c_x125 fun x126 x127 h_x126 c_x127 => ?_
  refine wp_plus P 1 1 _ _ _ c_x127 c_x108 (by norm_num) fun x128 h_x128 c_x128 => ?_
  refine wp_mul P _ _ _ fun x130 x129 h_x129 => ?_
  refine wp_mul P _ _ _ fun x132 x131 h_x131 => ?_
  refine wp_mul P _ _ _ fun x134 x133 h_x133 => ?_
  refine wp_mul P _ _ _ fun x136 x135 h_x135 => ?_
  refine wp_add P _ _ _ _ (by rw [zl_0]; norm_num) fun x137 x138 h_x137 c_x138 => ?_
  refine wp_add P _ _ _ _ c_x138 fun x139 x140 h_x139 c_x140 => ?_
  refine wp_add P _ _ _ _ c_x140 fun x141 x142 h_x141 c_x142 => ?_
  refine wp_plus P 1 18446744073709551614 _ _ _ c_x142 (mulhi_le h_x129) (by norm_num) fun x143 h_x143 c_x143 => ?_
  refine wp_add P _ _ _ _ (by rw [zl_0]; norm_num) fun x144 x145 h_x144 c_x145 => ?_
  refine wp_add P _ _ _ _ c_x145 fun x146 x147 h_x146 c_x147 => ?_
  refine wp_add P _ _ _ _ c_x147 fun x148 x149 h_x148 c_x149 => ?_
  refine wp_add P _ _ _ _ c_x149 fun x150 x151 h_x150 c_x151 => ?_
  refine wp_add P _ _ _ _ c_x151 fun x152 x153 h_x152 c_x153 => ?_
  refine wp_mul P _ _ _ fun x155 x154 h_x154 => ?_
  refine wp_mul P _ _ _ fun x157 x156 h_x156 => ?_
  refine wp_mul P _ _ _ fun x159 x158 h_x158 => ?_
  refine wp_add P _ _ _ _ (by rw [zl_0]; norm_num) fun x160 x161 h_x160 c_x161 => ?_
  refine wp_plus P 1 4294967294 _ _ _ c_x161 (mulhi_lt 4294967294 (by rw [zl_ffffffff]; norm_num) (by norm_num) h_x156) (by norm_num) fun x162 h_x162 c_x162 => ?_
  refine wp_add P _ _ _ _ (by rw [zl_0]; norm_num) fun y14 x164 h_y14 c_x164 => ?_
  refine wp_add P _ _ _ _ c_x164 fun x165 x166 h_x165 c_x166 => ?_
  refine wp_add P _ _ _ _ c_x166 fun x167 x168 h_x167 c_x168 => ?_
  refine wp_add P _ _ _ _ c_x168 fun x169 x170 h_x169 c_x170 => ?_
  refine wp_add P _ _ _ _ c_x170 fun x171 x172 h_x171 c_x172 => ?_
  refine wp_plus P 1 1 _ _ _ c_x172 c_x153 (by norm_num) fun x173 h_x173 c_x173 => ?_
  refine wp_sub P _ _ _ _ (by rw [zl_0]; norm_num) fun x174 x175 h_x174 c_x175 => ?_
  refine wp_sub P _ _ _ _ c_x175 fun x176 x177 h_x176 c_x177 => ?_
  refine wp_sub P _ _ _ _ c_x177 fun x178 x179 h_x178 c_x179 => ?_
  refine wp_sub P _ _ _ _ c_x179 fun x180 x181 h_x180 c_x181 => ?_
  refine wp_sub P _ _ _ _ c_x181 fun y16 x183 h_y16 c_x183 => ?_
  refine wp_cmov P _ _ _ _ c_x183 fun x184 ra_x184 rb_x184 => ?_
  refine wp_cmov P _ _ _ _ c_x183 fun x185 ra_x185 rb_x185 => ?_
  refine wp_cmov P _ _ _ _ c_x183 fun x186 ra_x186 rb_x186 => ?_
  refine wp_cmov P _ _ _ _ c_x183 fun x187 ra_x187 rb_x187 => ?_
  have e_y3 : z y3 = 0 := redc_low' (by rw [zl_ffffffffffffffff]; norm_num) h_x24 zl_0 h_y3
  have e_y6 : z y6 = 0 := redc_low' (by rw [zl_ffffffffffffffff]; norm_num) h_x68 zl_0 h_y6
  have e_y10 : z y10 = 0 := redc_low' (by rw [zl_ffffffffffffffff]; norm_num) h_x113 zl_0 h_y10
  have e_y14 : z y14 = 0 := redc_low' (by rw [zl_ffffffffffffffff]; norm_num) h_x158 zl_0 h_y14
  have hI : (z x165 + 18446744073709551616 * z x167 + 18446744073709551616 ^ 2 * z x169 + 18446744073709551616 ^ 3 * z x171 + 18446744073709551616 ^ 4 * z x173) * 18446744073709551616 ^ 4 = a.zval * b.zval + (z x11 + 18446744073709551616 * z x54 + 18446744073709551616 ^ 2 * z x99 + 18446744073709551616 ^ 3 * z x144) * 115792089210356248762697446949407573530086143415290314195533631308867097853951 := by
    unfold L4.zval
    linear_combination 18446744073709551616 ^ 3 * h_x5 + 18446744073709551616 ^ 2 * h_x7 + 18446744073709551616 ^ 1 * h_x9 + 18446744073709551616 ^ 0 * h_x11 + 18446744073709551616 ^ 1 * h_x13 + (18446744073709551616 ^ 1) * zl_0 + 18446744073709551616 ^ 2 * h_x15 + 18446744073709551616 ^ 3 * h_x17 + 18446744073709551616 ^ 4 * h_x19 + 18446744073709551616 ^ 3 * h_x20 + 18446744073709551616 ^ 3 * z x11 * zl_ffffffff00000001 + 18446744073709551616 ^ 1 * h_x22 + 18446744073709551616 ^ 1 * z x11 * zl_ffffffff + 18446744073709551616 ^ 0 * h_x24 + 18446744073709551616 ^ 0 * z x11 * zl_ffffffffffffffff + 18446744073709551616 ^ 1 * h_x26 + (18446744073709551616 ^ 1) * zl_0 + 18446744073709551616 ^ 2 * h_x28 + 18446744073709551616 ^ 0 * h_y3 + (18446744073709551616 ^ 0) * zl_0 + 18446744073709551616 ^ 1 * h_x31 + 18446744073709551616 ^ 2 * h_x33 + 18446744073709551616 ^ 3 * h_x35 + 18446744073709551616 ^ 4 * h_x37 + 18446744073709551616 ^ 4 * h_x39 + 18446744073709551616 ^ 3 * h_x41 + 18446744073709551616 ^ 2 * h_x43 + 18446744073709551616 ^ 1 * h_x45 + 18446744073709551616 ^ 2 * h_x47 + (18446744073709551616 ^ 2) * zl_0 + 18446744073709551616 ^ 3 * h_x49 + 18446744073709551616 ^ 4 * h_x51 + 18446744073709551616 ^ 5 * h_x53 + 18446744073709551616 ^ 1 * h_x54 + (18446744073709551616 ^ 1) * zl_0 + 18446744073709551616 ^ 2 * h_x56 + 18446744073709551616 ^ 3 * h_x58 + 18446744073709551616 ^ 4 * h_x60 + 18446744073709551616 ^ 5 * h_x62 + 18446744073709551616 ^ 4 * h_x64 + 18446744073709551616 ^ 4 * z x54 * zl_ffffffff00000001 + 18446744073709551616 ^ 2 * h_x66 + 18446744073709551616 ^ 2 * z x54 * zl_ffffffff + 18446744073709551616 ^ 1 * h_x68 + 18446744073709551616 ^ 1 * z x54 * zl_ffffffffffffffff + 18446744073709551616 ^ 2 * h_x70 + (18446744073709551616 ^ 2) * zl_0 + 18446744073709551616 ^ 3 * h_x72 + 18446744073709551616 ^ 1 * h_y6 + (18446744073709551616 ^ 1) * zl_0 + 18446744073709551616 ^ 2 * h_x75 + 18446744073709551616 ^ 3 * h_x77 + 18446744073709551616 ^ 4 * h_x79 + 18446744073709551616 ^ 5 * h_x81 + 18446744073709551616 ^ 6 * h_x83 + 18446744073709551616 ^ 5 * h_x84 + 18446744073709551616 ^ 4 * h_x86 + 18446744073709551616 ^ 3 * h_x88 + 18446744073709551616 ^ 2 * h_x90 + 18446744073709551616 ^ 3 * h_x92 + (18446744073709551616 ^ 3) * zl_0 + 18446744073709551616 ^ 4 * h_x94 + 18446744073709551616 ^ 5 * h_x96 + 18446744073709551616 ^ 6 * h_x98 + 18446744073709551616 ^ 2 * h_x99 + (18446744073709551616 ^ 2) * zl_0 + 18446744073709551616 ^ 3 * h_x101 + 18446744073709551616 ^ 4 * h_x103 + 18446744073709551616 ^ 5 * h_x105 + 18446744073709551616 ^ 6 * h_x107 + 18446744073709551616 ^ 5 * h_x109 + 18446744073709551616 ^ 5 * z x99 * zl_ffffffff00000001 + 18446744073709551616 ^ 3 * h_x111 + 18446744073709551616 ^ 3 * z x99 * zl_ffffffff + 18446744073709551616 ^ 2 * h_x113 + 18446744073709551616 ^ 2 * z x99 * zl_ffffffffffffffff + 18446744073709551616 ^ 3 * h_x115 + (18446744073709551616 ^ 3) * zl_0 + 18446744073709551616 ^ 4 * h_x117 + 18446744073709551616 ^ 2 * h_y10 + (18446744073709551616 ^ 2) * zl_0 + 18446744073709551616 ^ 3 * h_x120 + 18446744073709551616 ^ 4 * h_x122 + 18446744073709551616 ^ 5 * h_x124 + 18446744073709551616 ^ 6 * h_x126 + 18446744073709551616 ^ 7 * h_x128 + 18446744073709551616 ^ 6 * h_x129 + 18446744073709551616 ^ 5 * h_x131 + 18446744073709551616 ^ 4 * h_x133 + 18446744073709551616 ^ 3 * h_x135 + 18446744073709551616 ^ 4 * h_x137 + (18446744073709551616 ^ 4) * zl_0 + 18446744073709551616 ^ 5 * h_x139 + 18446744073709551616 ^ 6 * h_x141 + 18446744073709551616 ^ 7 * h_x143 + 18446744073709551616 ^ 3 * h_x144 + (18446744073709551616 ^ 3) * zl_0 + 18446744073709551616 ^ 4 * h_x146 + 18446744073709551616 ^ 5 * h_x148 + 18446744073709551616 ^ 6 * h_x150 + 18446744073709551616 ^ 7 * h_x152 + 18446744073709551616 ^ 6 * h_x154 + 18446744073709551616 ^ 6 * z x144 * zl_ffffffff00000001 + 18446744073709551616 ^ 4 * h_x156 + 18446744073709551616 ^ 4 * z x144 * zl_ffffffff + 18446744073709551616 ^ 3 * h_x158 + 18446744073709551616 ^ 3 * z x144 * zl_ffffffffffffffff + 18446744073709551616 ^ 4 * h_x160 + (18446744073709551616 ^ 4) * zl_0 + 18446744073709551616 ^ 5 * h_x162 + 18446744073709551616 ^ 3 * h_y14 + (18446744073709551616 ^ 3) * zl_0 + 18446744073709551616 ^ 4 * h_x165 + 18446744073709551616 ^ 5 * h_x167 + 18446744073709551616 ^ 6 * h_x169 + 18446744073709551616 ^ 7 * h_x171 + 18446744073709551616 ^ 8 * h_x173 + -(18446744073709551616 ^ 0) * e_y3 + -(18446744073709551616 ^ 1) * e_y6 + -(18446744073709551616 ^ 2) * e_y10 + -(18446744073709551616 ^ 3) * e_y14
  have hD : z x174 + 18446744073709551616 * z x176 + 18446744073709551616 ^ 2 * z x178 + 18446744073709551616 ^ 3 * z x180 + 18446744073709551616 ^ 4 * z y16 - 18446744073709551616 ^ 5 * z x183 = z x165 + 18446744073709551616 * z x167 + 18446744073709551616 ^ 2 * z x169 + 18446744073709551616 ^ 3 * z x171 + 18446744073709551616 ^ 4 * z x173 - 115792089210356248762697446949407573530086143415290314195533631308867097853951 := by
    linear_combination 18446744073709551616 ^ 0 * h_x174 - 18446744073709551616 ^ 0 * zl_ffffffffffffffff + -(18446744073709551616 ^ 0) * zl_0 + 18446744073709551616 ^ 1 * h_x176 - 18446744073709551616 ^ 1 * zl_ffffffff + 18446744073709551616 ^ 2 * h_x178 - 18446744073709551616 ^ 2 * zl_0 + 18446744073709551616 ^ 3 * h_x180 - 18446744073709551616 ^ 3 * zl_ffffffff00000001 + 18446744073709551616 ^ 4 * h_y16 - 18446744073709551616 ^ 4 * zl_0
  have hU : z x11 + 18446744073709551616 * z x54 + 18446744073709551616 ^ 2 * z x99 + 18446744073709551616 ^ 3 * z x144 ≤ 18446744073709551616 ^ 4 - 1 := zsum_le _ _ _ _
  have hX : a.zval * b.zval < 18446744073709551616 ^ 4 * 115792089210356248762697446949407573530086143415290314195533631308867097853951 := by rw [L4.zval_eq, L4.zval_eq]; exact_mod_cast h
  have hT : z x165 + 18446744073709551616 * z x167 + 18446744073709551616 ^ 2 * z x169 + 18446744073709551616 ^ 3 * z x171 + 18446744073709551616 ^ 4 * z x173 < 2 * 115792089210356248762697446949407573530086143415290314195533631308867097853951 := by
    generalize a.zval * b.zval = X at hI hX
    linarith only [hI, hX, hU]
  obtain ⟨hlt, hk⟩ := condsub 115792089210356248762697446949407573530086143415290314195533631308867097853951 hD c_x183 (by norm_num) (by norm_num) hT ra_x184 rb_x184 ra_x185 rb_x185 ra_x186 rb_x186 ra_x187 rb_x187
  refine hP _ (redc_of _ _ _ _ _ _ _ (by norm_num) ?_ hlt hk hI)
  rw [L4.zval_eq, L4.zval_eq]; exact (Nat.cast_mul _ _).symm

theorem square_spec (a : L4) (h : a.val * a.val < 2 ^ 256 * 115792089210356248762697446949407573530086143415290314195533631308867097853951) : Redc 115792089210356248762697446949407573530086143415290314195533631308867097853951 (a.val * a.val) (square a) := by
  suffices H : ∀ P : L4 → Prop, (∀ r, Redc 115792089210356248762697446949407573530086143415290314195533631308867097853951 (a.val * a.val) r → P r) → P (square a) from H _ (fun _ h => h)
  intro P hP
  have zl_0 : z 0x0 = 0 := rfl
  have zl_ffffffff : z 0xffffffff = 4294967295 := rfl
  have zl_ffffffff00000001 : z 0xffffffff00000001 = 18446744069414584321 := rfl
  have zl_ffffffffffffffff : z 0xffffffffffffffff = 18446744073709551615 := rfl
  unfold square
  refine wp_mul P _ _ _ fun x6 x5 h_x5 => ?_
  refine wp_mul P _ _ _ fun x8 x7 h_x7 => ?_
  refine wp_mul P _ _ _ fun x10 x9 h_x9 => ?_
  refine wp_mul P _ _ _ fun x12 x11 h_x11 => ?_
  refine wp_add P _ _ _ _ (by rw [zl_0]; norm_num) fun x13 x14 h_x13 c_x14 => ?_
  refine wp_add P _ _ _ _ c_x14 fun x15 x16 h_x15 c_x16 => ?_
  refine wp_add P _ _ _ _ c_x16 fun x17 x18 h_x17 c_x18 => ?_
  refine wp_plus P 1 18446744073709551614 _ _ _ c_x18 (mulhi_le h_x5) (by norm_num) fun x19 h_x19 c_x19 => ?_
  refine wp_mul P _ _ _ fun x21 x20 h_x20 => ?_
  refine wp_mul P _ _ _ fun x23 x22 h_x22 => ?_
  refine wp_mul P _ _ _ fun x25 x24 h_x24 => ?_
  refine wp_add P _ _ _ _ (by rw [zl_0]; norm_num) fun x26 x27 h_x26 c_x27 => ?_
  refine wp_plus P 1 4294967294 _ _ _ c_x27 (mulhi_lt 4294967294 (by rw [zl_ffffffff]; norm_num) (by norm_num) h_x22) (by norm_num) fun x28 h_x28 c_x28 => ?_
  refine wp_add P _ _ _ _ (by rw [zl_0]; norm_num) fun y3 x30 h_y3 c_x30 => ?_
  refine wp_add P _ _ _ _ c_x30 fun x31 x32 h_x31 c_x32 => ?_
  refine wp_add P _ _ _ _ c_x32 fun x33 x34 h_x33 c_x34 => ?_
  refine wp_add P _ _ _ _ c_x34 fun x35 x36 h_x35 c_x36 => ?_
  refine wp_add P _ _ _ _ c_x36 fun x37 x38 h_x37 c_x38 => ?_
  refine wp_mul P _ _ _ fun x40 x39 h_x39 => ?_
  refine wp_mul P _ _ _ fun x42 x41 h_x41 => ?_
  refine wp_mul P _ _ _ fun x44 x43 h_x43 => ?_
  refine wp_mul P _ _ _ fun x46 x45 h_x45 => ?_
  refine wp_add P _ _ _ _ (by rw [zl_0]; norm_num) fun x47 x48 h_x47 c_x48 => ?_
  refine wp_add P _ _ _ _ c_x48 fun x49 x50 h_x49 c_x50 => ?_
  refine wp_add P _ _ _ _ c_x50 fun x51 x52 h_x51 c_x52 => ?_
  refine wp_plus P 1 18446744073709551614 _ _ _ c_x52 (mulhi_le h_x39) (by norm_num) fun x53 h_x53 c_x53 => ?_
  refine wp_add P _ _ _ _ (by rw [zl_0]; norm_num) fun x54 x55 h_x54 c_x55 => ?_
  refine wp_add P _ _ _ _ c_x55 fun x56 x57 h_x56 c_x57 => ?_
  refine wp_add P _ _ _ _ c_x57 fun x58 x59 h_x58 c_x59 => ?_
  refine wp_add P _ _ _ _ c_x59 fun x60 x61 h_x60 c_x61 => ?_
  refine wp_add P _ _ _ _ c_x61 fun x62 x63 h_x62 c_x63 => ?_
  refine wp_mul P _ _ _ fun x65 x64 h_x64 => ?_
  refine wp_mul P _ _ _ fun x67 x66 h_x66 => ?_
  refine wp_mul P _ _ _ fun x69 x68 h_x68 => ?_
  refine wp_add P _ _ _ _ (by rw [zl_0]; norm_num) fun x70 x71 h_x70 c_x71 => ?_
  refine wp_plus P 1 4294967294 _ _ _ c_x71 (mulhi_lt 4294967294 (by rw [zl_ffffffff]; norm_num) (by norm_num) h_x66) (by norm_num) fun x72 h_x72 c_x72 => ?_
  refine wp_add P _ _ _ _ (by rw [zl_0]; norm_num) fun y6 x74 h_y6 c_x74 => ?_
  refine wp_add P _ _ _ _ c_x74 fun x75 x76 h_x75 c_x76 => ?_
  refine wp_add P _ _ _ _ c_x76 fun x77 x78 h_x77 c_x78 => ?_
  refine wp_add P _ _ _ _ c_x78 fun x79 x80 h_x79 c_x80 => ?_
  refine wp_add P _ _ _ _ c_x80 fun x81 x82 h_x81 c_x82 => ?_
  refine wp_plus P 1 1 _ _ _ c_x82 c_x63 (by norm_num) fun x83 h_x83 c_x83 => ?_
  refine wp_mul P _ _ _ fun x85 x84 h_x84 => ?_
  refine wp_mul P _ _ _ fun x87 x86 h_x86 => ?_
  refine wp_mul P _ _ _ fun x89 x88 h_x88 => ?_
  refine wp_mul P _ _ _ fun x91 x90 h_x90 => ?_
  refine wp_add P _ _ _ _ (by rw [zl_0]; norm_num) fun x92 x93 h_x92 c_x93 => ?_
  refine wp_add P _ _ _ _ c_x93 fun x94 x95 h_x94 c_x95 => ?_
  refine wp_add P _ _ _ _ c_x95 fun x96 x97 h_x96 c_x97 => ?_
  refine wp_plus P 1 18446744073709551614 _ _ _ c_x97 (mulhi_le h_x84) (by norm_num) fun x98 h_x98 c_x98 => ?_
  refine wp_add P _ _ _ _ (by rw [zl_0]; norm_num) fun x99 x100 h_x99 c_x100 => ?_
  refine wp_add P _ _ _ _ c_x100 fun x101 x102 h_x101 c_x102 => ?_
  refine wp_add P _ _ _ _ c_x102 fun x103 x104 h_x103 c_x104 => ?_
  refine wp_add P _ _ _ _ c_x104 fun x105 x106 h_x105 c_x106 => ?_
  refine wp_add P _ _ _ _ c_x106 fun x107 x108 h_x107 c_x108 => ?_
  refine wp_mul P _ _ _ fun x110 x109 h_x109 => ?_
  refine wp_mul P _ _ _ fun x112 x111 h_x111 => ?_
  refine wp_mul P _ _ _ fun x114 x113 h_x113 => ?_
  refine wp_add P _ _ _ _ (by rw [zl_0]; norm_num) fun x115 x116 h_x115 c_x116 => ?_
  refine wp_plus P 1 4294967294 _ _ _ c_x116 (mulhi_lt 4294967294 (by rw [zl_ffffffff]; norm_num) (by norm_num) h_x111) (by norm_num) fun x117 h_x117 c_x117 => ?_
  refine wp_add P _ _ _ _ (by rw [zl_0]; norm_num) fun y10 x119 h_y10 c_x119 => ?_
  refine wp_add P _ _ _ _ c_x119 fun x120 x121 h_x120 c_x121 => ?_
  refine wp_add P _ _ _ _ c_x121 fun x122 x123 h_x122 c_x123 => ?_
  refine wp_add P _ _ _ _ c_x123 fun x124 x125 h_x124 c_x125 => ?_
  refine wp_add P _ _ _ _ c_x125 fun x126 x127 h_x126 c_x127 => ?_
  refine wp_plus P 1 1 _ _ _ c_x127 c_x108 (by norm_num) fun x128 h_x128 c_x128 => ?_
  refine wp_mul P _ _ _ fun x130 x129 h_x129 => ?_
  refine wp_mul P _ _ _ fun x132 x131 h_x131 => ?_
  refine wp_mul P _ _ _ fun x134 x133 h_x133 => ?_
  refine wp_mul P _ _ _ fun x136 x135 h_x135 => ?_
  refine wp_add P _ _ _ _ (by rw [zl_0]; norm_num) fun x137 x138 h_x137 c_x138 => ?_
  refine wp_add P _ _ _ _ c_x138 fun x139 x140 h_x139 c_x140 => ?_
  refine wp_add P _ _ _ _ c_x140 fun x141 x142 h_x141 c_x142 => ?_
  refine wp_plus P 1 18446744073709551614 _ _ _ c_x142 (mulhi_le h_x129) (by norm_num) fun x143 h_x143 c_x143 => ?_
  refine wp_add P _ _ _ _ (by rw [zl_0]; norm_num) fun x144 x145 h_x144 c_x145 => ?_
  refine wp_add P _ _ _ _ c_x145 fun x146 x147 h_x146 c_x147 => ?_
  refine wp_add P _ _ _ _ c_x147 fun x148 x149 h_x148 c_x149 => ?_
  refine wp_add P _ _ _ _ c_x149 fun x150 x151 h_x150 c_x151 => ?_
  refine wp_add P _ _ _ _ c_x151 fun x152 x153 h_x152 c_x153 => ?_
  refine wp_mul P _ _ _ fun x155 x154 h_x154 => ?_
  refine wp_mul P _ _ _ fun x157 x156 h_x156 => ?_
  refine wp_mul P _ _ _ fun x159 x158 h_x158 => ?_
  refine wp_add P _ _ _ _ (by rw [zl_0]; norm_num) fun x160 x161 h_x160 c_x161 => ?_
  refine wp_plus P 1 4294967294 _ _ _ c_x161 (mulhi_lt 4294967294 (by rw [zl_ffffffff]; norm_num) (by norm_num) h_x156) (by norm_num) fun x162 h_x162 c_x162 => ?_
  refine wp_add P _ _ _ _ (by rw [zl_0]; norm_num) fun y14 x164 h_y14 c_x164 => ?_
  refine wp_add P _ _ _ _ c_x164 fun x165 x166 h_x165 c_x166 => ?_
  refine wp_add P _ _ _ _ c_x166 fun x167 x168 h_x167 c_x168 => ?_
  refine wp_add P _ _ _ _ c_x168 fun x169 x170 h_x169 c_x170 => ?_
  refine wp_add P _ _ _ _ c_x170 fun x171 x172 h_x171 c_x172 => ?_
  refine wp_plus P 1 1 _ _ _ c_x172 c_x153 (by norm_num) fun x173 h_x173 c_x173 => ?_
  refine wp_sub P _ _ _ _ (by rw [zl_0]; norm_num) fun x174 x175 h_x174 c_x175 => ?_
  refine wp_sub P _ _ _ _ c_x175 fun x176 x177 h_x176 c_x177 => ?_
  refine wp_sub P _ _ _ _ c_x177 fun x178 x179 h_x178 c_x179 => ?_
  refine wp_sub P _ _ _ _ c_x179 fun x180 x181 h_x180 c_x181 => ?_
  refine wp_sub P _ _ _ _ c_x181 fun y16 x183 h_y16 c_x183 => ?_
  refine wp_cmov P _ _ _ _ c_x183 fun x184 ra_x184 rb_x184 => ?_
  refine wp_cmov P _ _ _ _ c_x183 fun x185 ra_x185 rb_x185 => ?_
  refine wp_cmov P _ _ _ _ c_x183 fun x186 ra_x186 rb_x186 => ?_
  refine wp_cmov P _ _ _ _ c_x183 fun x187 ra_x187 rb_x187 => ?_
  have e_y3 : z y3 = 0 := redc_low' (by rw [zl_ffffffffffffffff]; norm_num) h_x24 zl_0 h_y3
  have e_y6 : z y6 = 0 := redc_low' (by rw [zl_ffffffffffffffff]; norm_num) h_x68 zl_0 h_y6
  have e_y10 : z y10 = 0 := redc_low' (by rw [zl_ffffffffffffffff]; norm_num) h_x113 zl_0 h_y10
  have e_y14 : z y14 = 0 := redc_low' (by rw [zl_ffffffffffffffff]; norm_num) h_x158 zl_0 h_y14
  have hI : (z x165 + 18446744073709551616 * z x167 + 18446744073709551616 ^ 2 * z x169 + 18446744073709551616 ^ 3 * z x171 + 18446744073709551616 ^ 4 * z x173) * 18446744073709551616 ^ 4 = a.zval * a.zval + (z x11 + 18446744073709551616 * z x54 + 18446744073709551616 ^ 2 * z x99 + 18446744073709551616 ^ 3 * z x144) * 115792089210356248762697446949407573530086143415290314195533631308867097853951 := by
    unfold L4.zval
    linear_combination 18446744073709551616 ^ 3 * h_x5 + 18446744073709551616 ^ 2 * h_x7 + 18446744073709551616 ^ 1 * h_x9 + 18446744073709551616 ^ 0 * h_x11 + 18446744073709551616 ^ 1 * h_x13 + (18446744073709551616 ^ 1) * zl_0 + 18446744073709551616 ^ 2 * h_x15 + 18446744073709551616 ^ 3 * h_x17 + 18446744073709551616 ^ 4 * h_x19 + 18446744073709551616 ^ 3 * h_x20 + 18446744073709551616 ^ 3 * z x11 * zl_ffffffff00000001 + 18446744073709551616 ^ 1 * h_x22 + 18446744073709551616 ^ 1 * z x11 * zl_ffffffff + 18446744073709551616 ^ 0 * h_x24 + 18446744073709551616 ^ 0 * z x11 * zl_ffffffffffffffff + 18446744073709551616 ^ 1 * h_x26 + (18446744073709551616 ^ 1) * zl_0 + 18446744073709551616 ^ 2 * h_x28 + 18446744073709551616 ^ 0 * h_y3 + (18446744073709551616 ^ 0) * zl_0 + 18446744073709551616 ^ 1 * h_x31 + 18446744073709551616 ^ 2 * h_x33 + 18446744073709551616 ^ 3 * h_x35 + 18446744073709551616 ^ 4 * h_x37 + 18446744073709551616 ^ 4 * h_x39 + 18446744073709551616 ^ 3 * h_x41 + 18446744073709551616 ^ 2 * h_x43 + 18446744073709551616 ^ 1 * h_x45 + 18446744073709551616 ^ 2 * h_x47 + (18446744073709551616 ^ 2) * zl_0 + 18446744073709551616 ^ 3 * h_x49 + 18446744073709551616 ^ 4 * h_x51 + 18446744073709551616 ^ 5 * h_x53 + 18446744073709551616 ^ 1 * h_x54 + (18446744073709551616 ^ 1) * zl_0 + 18446744073709551616 ^ 2 * h_x56 + 18446744073709551616 ^ 3 * h_x58 + 18446744073709551616 ^ 4 * h_x60 + 18446744073709551616 ^ 5 * h_x62 + 18446744073709551616 ^ 4 * h_x64 + 18446744073709551616 ^ 4 * z x54 * zl_ffffffff00000001 + 18446744073709551616 ^ 2 * h_x66 + 18446744073709551616 ^ 2 * z x54 * zl_ffffffff + 18446744073709551616 ^ 1 * h_x68 + 18446744073709551616 ^ 1 * z x54 * zl_ffffffffffffffff + 18446744073709551616 ^ 2 * h_x70 + (18446744073709551616 ^ 2) * zl_0 + 18446744073709551616 ^ 3 * h_x72 + 18446744073709551616 ^ 1 * h_y6 + (18446744073709551616 ^ 1) * zl_0 + 18446744073709551616 ^ 2 * h_x75 + 18446744073709551616 ^ 3 * h_x77 + 18446744073709551616 ^ 4 * h_x79 + 18446744073709551616 ^ 5 * h_x81 + 18446744073709551616 ^ 6 * h_x83 + 18446744073709551616 ^ 5 * h_x84 + 18446744073709551616 ^ 4 * h_x86 + 18446744073709551616 ^ 3 * h_x88 + 18446744073709551616 ^ 2 * h_x90 + 18446744073709551616 ^ 3 * h_x92 + (18446744073709551616 ^ 3) * zl_0 + 18446744073709551616 ^ 4 * h_x94 + 18446744073709551616 ^ 5 * h_x96 + 18446744073709551616 ^ 6 * h_x98 + 18446744073709551616 ^ 2 * h_x99 + (18446744073709551616 ^ 2) * zl_0 + 18446744073709551616 ^ 3 * h_x101 + 18446744073709551616 ^ 4 * h_x103 + 18446744073709551616 ^ 5 * h_x105 + 18446744073709551616 ^ 6 * h_x107 + 18446744073709551616 ^ 5 * h_x109 + 18446744073709551616 ^ 5 * z x99 * zl_ffffffff00000001 + 18446744073709551616 ^ 3 * h_x111 + 18446744073709551616 ^ 3 * z x99 * zl_ffffffff + 18446744073709551616 ^ 2 * h_x113 + 18446744073709551616 ^ 2 * z x99 * zl_ffffffffffffffff + 18446744073709551616 ^ 3 * h_x115 + (18446744073709551616 ^ 3) * zl_0 + 18446744073709551616 ^ 4 * h_x117 + 18446744073709551616 ^ 2 * h_y10 + (18446744073709551616 ^ 2) * zl_0 + 18446744073709551616 ^ 3 * h_x120 + 18446744073709551616 ^ 4 * h_x122 + 18446744073709551616 ^ 5 * h_x124 + 18446744073709551616 ^ 6 * h_x126 + 18446744073709551616 ^ 7 * h_x128 + 18446744073709551616 ^ 6 * h_x129 + 18446744073709551616 ^ 5 * h_x131 + 18446744073709551616 ^ 4 * h_x133 + 18446744073709551616 ^ 3 * h_x135 + 18446744073709551616 ^ 4 * h_x137 + (18446744073709551616 ^ 4) * zl_0 + 18446744073709551616 ^ 5 * h_x139 + 18446744073709551616 ^ 6 * h_x141 + 18446744073709551616 ^ 7 * h_x143 + 18446744073709551616 ^ 3 * h_x144 + (18446744073709551616 ^ 3) * zl_0 + 18446744073709551616 ^ 4 * h_x146 + 18446744073709551616 ^ 5 * h_x148 + 18446744073709551616 ^ 6 * h_x150 + 18446744073709551616 ^ 7 * h_x152 + 18446744073709551616 ^ 6 * h_x154 + 18446744073709551616 ^ 6 * z x144 * zl_ffffffff00000001 + 18446744073709551616 ^ 4 * h_x156 + 18446744073709551616 ^ 4 * z x144 * zl_ffffffff + 18446744073709551616 ^ 3 * h_x158 + 18446744073709551616 ^ 3 * z x144 * zl_ffffffffffffffff + 18446744073709551616 ^ 4 * h_x160 + (18446744073709551616 ^ 4) * zl_0 + 18446744073709551616 ^ 5 * h_x162 + 18446744073709551616 ^ 3 * h_y14 + (18446744073709551616 ^ 3) * zl_0 + 18446744073709551616 ^ 4 * h_x165 + 18446744073709551616 ^ 5 * h_x167 + 18446744073709551616 ^ 6 * h_x169 + 18446744073709551616 ^ 7 * h_x171 + 18446744073709551616 ^ 8 * h_x173 + -(18446744073709551616 ^ 0) * e_y3 + -(18446744073709551616 ^ 1) * e_y6 + -(18446744073709551616 ^ 2) * e_y10 + -(18446744073709551616 ^ 3) * e_y14
  have hD : z x174 + 18446744073709551616 * z x176 + 18446744073709551616 ^ 2 * z x178 + 18446744073709551616 ^ 3 * z x180 + 18446744073709551616 ^ 4 * z y16 - 18446744073709551616 ^ 5 * z x183 = z x165 + 18446744073709551616 * z x167 + 18446744073709551616 ^ 2 * z x169 + 18446744073709551616 ^ 3 * z x171 + 18446744073709551616 ^ 4 * z x173 - 115792089210356248762697446949407573530086143415290314195533631308867097853951 := by
    linear_combination 18446744073709551616 ^ 0 * h_x174 - 18446744073709551616 ^ 0 * zl_ffffffffffffffff + -(18446744073709551616 ^ 0) * zl_0 + 18446744073709551616 ^ 1 * h_x176 - 18446744073709551616 ^ 1 * zl_ffffffff + 18446744073709551616 ^ 2 * h_x178 - 18446744073709551616 ^ 2 * zl_0 + 18446744073709551616 ^ 3 * h_x180 - 18446744073709551616 ^ 3 * zl_ffffffff00000001 + 18446744073709551616 ^ 4 * h_y16 - 18446744073709551616 ^ 4 * zl_0
  have hU : z x11 + 18446744073709551616 * z x54 + 18446744073709551616 ^ 2 * z x99 + 18446744073709551616 ^ 3 * z x144 ≤ 18446744073709551616 ^ 4 - 1 := zsum_le _ _ _ _
  have hX : a.zval * a.zval < 18446744073709551616 ^ 4 * 115792089210356248762697446949407573530086143415290314195533631308867097853951 := by rw [L4.zval_eq]; exact_mod_cast h
  have hT : z x165 + 18446744073709551616 * z x167 + 18446744073709551616 ^ 2 * z x169 + 18446744073709551616 ^ 3 * z x171 + 18446744073709551616 ^ 4 * z x173 < 2 * 115792089210356248762697446949407573530086143415290314195533631308867097853951 := by
    generalize a.zval * a.zval = X at hI hX
    linarith only [hI, hX, hU]
  obtain ⟨hlt, hk⟩ := condsub 115792089210356248762697446949407573530086143415290314195533631308867097853951 hD c_x183 (by norm_num) (by norm_num) hT ra_x184 rb_x184 ra_x185 rb_x185 ra_x186 rb_x186 ra_x187 rb_x187
  refine hP _ (redc_of _ _ _ _ _ _ _ (by norm_num) ?_ hlt hk hI)
  rw [L4.zval_eq]; exact (Nat.cast_mul _ _).symm

theorem add_spec (a b : L4) (ha : a.val < 115792089210356248762697446949407573530086143415290314195533631308867097853951) (hb : b.val < 115792089210356248762697446949407573530086143415290314195533631308867097853951) : Reduced 115792089210356248762697446949407573530086143415290314195533631308867097853951 (a.val + b.val) (add a b) := by
  suffices H : ∀ P : L4 → Prop, (∀ r, Reduced 115792089210356248762697446949407573530086143415290314195533631308867097853951 (a.val + b.val) r → P r) → P (add a b) from H _ (fun _ h => h)
  intro P hP
  have zl_0 : z 0x0 = 0 := rfl
  have zl_ffffffff : z 0xffffffff = 4294967295 := rfl
  have zl_ffffffff00000001 : z 0xffffffff00000001 = 18446744069414584321 := rfl
  have zl_ffffffffffffffff : z 0xffffffffffffffff = 18446744073709551615 := rfl
  unfold add
  refine wp_add P _ _ _ _ (by rw [zl_0]; norm_num) fun x1 x2 h_x1 c_x2 => ?_
  refine wp_add P _ _ _ _ c_x2 fun x3 x4 h_x3 c_x4 => ?_
  refine wp_add P _ _ _ _ c_x4 fun x5 x6 h_x5 c_x6 => ?_
  refine wp_add P _ _ _ _ c_x6 fun x7 x8 h_x7 c_x8 => ?_
  refine wp_sub P _ _ _ _ (by rw [zl_0]; norm_num) fun x9 x10 h_x9 c_x10 => ?_
  refine wp_sub P _ _ _ _ c_x10 fun x11 x12 h_x11 c_x12 => ?_
  refine wp_sub P _ _ _ _ c_x12 fun x13 x14 h_x13 c_x14 => ?_
  refine wp_sub P _ _ _ _ c_x14 fun x15 x16 h_x15 c_x16 => ?_
  refine wp_sub P _ _ _ _ c_x16 fun y1 x18 h_y1 c_x18 => ?_
  refine wp_cmov P _ _ _ _ c_x18 fun x19 ra_x19 rb_x19 => ?_
  refine wp_cmov P _ _ _ _ c_x18 fun x20 ra_x20 rb_x20 => ?_
  refine wp_cmov P _ _ _ _ c_x18 fun x21 ra_x21 rb_x21 => ?_
  refine wp_cmov P _ _ _ _ c_x18 fun x22 ra_x22 rb_x22 => ?_
  have hI : z x1 + 18446744073709551616 * z x3 + 18446744073709551616 ^ 2 * z x5 + 18446744073709551616 ^ 3 * z x7 + 18446744073709551616 ^ 4 * z x8 = a.zval + b.zval := by
    unfold L4.zval
    linear_combination 18446744073709551616 ^ 0 * h_x1 + 18446744073709551616 ^ 0 * zl_0 + 18446744073709551616 ^ 1 * h_x3 + 18446744073709551616 ^ 2 * h_x5 + 18446744073709551616 ^ 3 * h_x7
  have hD : z x9 + 18446744073709551616 * z x11 + 18446744073709551616 ^ 2 * z x13 + 18446744073709551616 ^ 3 * z x15 + 18446744073709551616 ^ 4 * z y1 - 18446744073709551616 ^ 5 * z x18 = z x1 + 18446744073709551616 * z x3 + 18446744073709551616 ^ 2 * z x5 + 18446744073709551616 ^ 3 * z x7 + 18446744073709551616 ^ 4 * z x8 - 115792089210356248762697446949407573530086143415290314195533631308867097853951 := by
    linear_combination 18446744073709551616 ^ 0 * h_x9 - 18446744073709551616 ^ 0 * zl_ffffffffffffffff + -(18446744073709551616 ^ 0) * zl_0 + 18446744073709551616 ^ 1 * h_x11 - 18446744073709551616 ^ 1 * zl_ffffffff + 18446744073709551616 ^ 2 * h_x13 - 18446744073709551616 ^ 2 * zl_0 + 18446744073709551616 ^ 3 * h_x15 - 18446744073709551616 ^ 3 * zl_ffffffff00000001 + 18446744073709551616 ^ 4 * h_y1 - 18446744073709551616 ^ 4 * zl_0
  have hT : z x1 + 18446744073709551616 * z x3 + 18446744073709551616 ^ 2 * z x5 + 18446744073709551616 ^ 3 * z x7 + 18446744073709551616 ^ 4 * z x8 < 2 * 115792089210356248762697446949407573530086143415290314195533631308867097853951 := by
    rw [hI, L4.zval_eq, L4.zval_eq]; omega
  obtain ⟨hlt, hk⟩ := condsub 115792089210356248762697446949407573530086143415290314195533631308867097853951 hD c_x18 (by norm_num) (by norm_num) hT ra_x19 rb_x19 ra_x20 rb_x20 ra_x21 rb_x21 ra_x22 rb_x22
  refine hP _ (reduced_of _ _ _ _ _ (by norm_num) ?_ hlt hk)
  rw [hI, L4.zval_eq, L4.zval_eq]; exact (Nat.cast_add _ _).symm

theorem sub_spec (a b : L4) (ha : a.val < 115792089210356248762697446949407573530086143415290314195533631308867097853951) (hb : b.val < 115792089210356248762697446949407573530086143415290314195533631308867097853951) : Reduced 115792089210356248762697446949407573530086143415290314195533631308867097853951 (a.val + (115792089210356248762697446949407573530086143415290314195533631308867097853951 - b.val)) (sub a b) := by
  suffices H : ∀ P : L4 → Prop, (∀ r, Reduced 115792089210356248762697446949407573530086143415290314195533631308867097853951 (a.val + (115792089210356248762697446949407573530086143415290314195533631308867097853951 - b.val)) r → P r) → P (sub a b) from H _ (fun _ h => h)
  intro P hP
  have zl_0 : z 0x0 = 0 := rfl
  have zl_ffffffff : z 0xffffffff = 4294967295 := rfl
  have zl_ffffffff00000001 : z 0xffffffff00000001 = 18446744069414584321 := rfl
  have zl_ffffffffffffffff : z 0xffffffffffffffff = 18446744073709551615 := rfl
  unfold sub
  refine wp_sub P _ _ _ _ (by rw [zl_0]; norm_num) fun x1 x2 h_x1 c_x2 => ?_
  refine wp_sub P _ _ _ _ c_x2 fun x3 x4 h_x3 c_x4 => ?_
  refine wp_sub P _ _ _ _ c_x4 fun x5 x6 h_x5 c_x6 => ?_
  refine wp_sub P _ _ _ _ c_x6 fun x7 x8 h_x7 c_x8 => ?_
  refine wp_cmov P _ _ _ _ c_x8 fun x9 ra_x9 rb_x9 => ?_
  refine wp_add P _ _ _ _ (by rw [zl_0]; norm_num) fun x10 x11 h_x10 c_x11 => ?_
  refine wp_and P _ _ _ fun y1 ra_y1 rb_y1 => ?_
  refine wp_add P _ _ _ _ c_x11 fun x12 x13 h_x12 c_x13 => ?_
  refine wp_add P _ _ _ _ c_x13 fun x14 x15 h_x14 c_x15 => ?_
  refine wp_and P _ _ _ fun y2 ra_y2 rb_y2 => ?_
  refine wp_add P _ _ _ _ c_x15 fun x16 y3 h_x16 c_y3 => ?_
  have hD : z x1 + 18446744073709551616 * z x3 + 18446744073709551616 ^ 2 * z x5 + 18446744073709551616 ^ 3 * z x7 - 18446744073709551616 ^ 4 * z x8 = a.zval - b.zval := by
    unfold L4.zval
    linear_combination 18446744073709551616 ^ 0 * h_x1 + -(18446744073709551616 ^ 0) * zl_0 + 18446744073709551616 ^ 1 * h_x3 + 18446744073709551616 ^ 2 * h_x5 + 18446744073709551616 ^ 3 * h_x7
  have hS : z x10 + 18446744073709551616 * z x12 + 18446744073709551616 ^ 2 * z x14 + 18446744073709551616 ^ 3 * z x16 + 18446744073709551616 ^ 4 * z y3 = z x1 + 18446744073709551616 * z x3 + 18446744073709551616 ^ 2 * z x5 + 18446744073709551616 ^ 3 * z x7 + z x9 + 18446744073709551616 * z y1 + 18446744073709551616 ^ 2 * z 0x0 + 18446744073709551616 ^ 3 * z y2 := by
    linear_combination 18446744073709551616 ^ 0 * h_x10 + 18446744073709551616 ^ 0 * zl_0 + 18446744073709551616 ^ 1 * h_x12 + 18446744073709551616 ^ 2 * h_x14 + 18446744073709551616 ^ 3 * h_x16
  have hk0 : z x8 = 0 → z x9 = 0 ∧ z y1 = 0 ∧ z 0x0 = 0 ∧ z y2 = 0 := by
    intro e
    have e1 : x9 = 0 := ra_x9 e
    exact ⟨by rw [e1]; rfl, by rw [ra_y1 e1]; rfl, zl_0, by rw [ra_y2 e1]; rfl⟩
  have hk1 : z x8 = 1 → z x9 + 18446744073709551616 * z y1 + 18446744073709551616 ^ 2 * z 0x0 + 18446744073709551616 ^ 3 * z y2 = 115792089210356248762697446949407573530086143415290314195533631308867097853951 := by
    intro e
    have e1 : x9 = 0xffffffffffffffff := rb_x9 e
    rw [rb_y1 e1, rb_y2 e1, e1]; simp only [zl_0, zl_ffffffff, zl_ffffffffffffffff, zl_ffffffff00000001]; norm_num only
  have ha' : a.zval < 115792089210356248762697446949407573530086143415290314195533631308867097853951 := by rw [L4.zval_eq]; exact_mod_cast ha
  have ha0 : 0 ≤ a.zval := by rw [L4.zval_eq]; omega
  have hb' : b.zval < 115792089210356248762697446949407573530086143415290314195533631308867097853951 := by rw [L4.zval_eq]; exact_mod_cast hb
  have hb0 : 0 ≤ b.zval := by rw [L4.zval_eq]; omega
  obtain ⟨hlt, kk, hk⟩ := condadd _ 115792089210356248762697446949407573530086143415290314195533631308867097853951 _ _ _ _ hD hS c_x8 c_y3 hk0 hk1 (by linarith only [ha', ha0, hb', hb0]) (by linarith only [ha', ha0, hb', hb0]) (by norm_num)
  refine hP _ (reduced_of 115792089210356248762697446949407573530086143415290314195533631308867097853951 _ _ 115792089210356248762697446949407573530086143415290314195533631308867097853951 (a.zval - b.zval + 115792089210356248762697446949407573530086143415290314195533631308867097853951) (by norm_num) ?_ hlt ⟨1 - kk, ?_⟩)
  · rw [L4.zval_eq, L4.zval_eq]; omega
  · rw [hk]; ring

theorem opp_spec (a : L4) (ha : a.val < 115792089210356248762697446949407573530086143415290314195533631308867097853951) : Reduced 115792089210356248762697446949407573530086143415290314195533631308867097853951 (115792089210356248762697446949407573530086143415290314195533631308867097853951 - a.val) (opp a) := by
  suffices H : ∀ P : L4 → Prop, (∀ r, Reduced 115792089210356248762697446949407573530086143415290314195533631308867097853951 (115792089210356248762697446949407573530086143415290314195533631308867097853951 - a.val) r → P r) → P (opp a) from H _ (fun _ h => h)
  intro P hP
  have zl_0 : z 0x0 = 0 := rfl
  have zl_ffffffff : z 0xffffffff = 4294967295 := rfl
  have zl_ffffffff00000001 : z 0xffffffff00000001 = 18446744069414584321 := rfl
  have zl_ffffffffffffffff : z 0xffffffffffffffff = 18446744073709551615 := rfl
  unfold opp
  refine wp_sub P _ _ _ _ (by rw [zl_0]; norm_num) fun x1 x2 h_x1 c_x2 => ?_
  refine wp_sub P _ _ _ _ c_x2 fun x3 x4 h_x3 c_x4 => ?_
  refine wp_sub P _ _ _ _ c_x4 fun x5 x6 h_x5 c_x6 => ?_
  refine wp_sub P _ _ _ _ c_x6 fun x7 x8 h_x7 c_x8 => ?_
  refine wp_cmov P _ _ _ _ c_x8 fun x9 ra_x9 rb_x9 => ?_
  refine wp_add P _ _ _ _ (by rw [zl_0]; norm_num) fun x10 x11 h_x10 c_x11 => ?_
  refine wp_and P _ _ _ fun y1 ra_y1 rb_y1 => ?_
  refine wp_add P _ _ _ _ c_x11 fun x12 x13 h_x12 c_x13 => ?_
  refine wp_add P _ _ _ _ c_x13 fun x14 x15 h_x14 c_x15 => ?_
  refine wp_and P _ _ _ fun y2 ra_y2 rb_y2 => ?_
  refine wp_add P _ _ _ _ c_x15 fun x16 y3 h_x16 c_y3 => ?_
  have hD : z x1 + 18446744073709551616 * z x3 + 18446744073709551616 ^ 2 * z x5 + 18446744073709551616 ^ 3 * z x7 - 18446744073709551616 ^ 4 * z x8 = 0 - a.zval := by
    unfold L4.zval
    linear_combination 18446744073709551616 ^ 0 * h_x1 + (18446744073709551616 ^ 0) * zl_0 + -(18446744073709551616 ^ 0) * zl_0 + 18446744073709551616 ^ 1 * h_x3 + (18446744073709551616 ^ 1) * zl_0 + 18446744073709551616 ^ 2 * h_x5 + (18446744073709551616 ^ 2) * zl_0 + 18446744073709551616 ^ 3 * h_x7 + (18446744073709551616 ^ 3) * zl_0
  have hS : z x10 + 18446744073709551616 * z x12 + 18446744073709551616 ^ 2 * z x14 + 18446744073709551616 ^ 3 * z x16 + 18446744073709551616 ^ 4 * z y3 = z x1 + 18446744073709551616 * z x3 + 18446744073709551616 ^ 2 * z x5 + 18446744073709551616 ^ 3 * z x7 + z x9 + 18446744073709551616 * z y1 + 18446744073709551616 ^ 2 * z 0x0 + 18446744073709551616 ^ 3 * z y2 := by
    linear_combination 18446744073709551616 ^ 0 * h_x10 + 18446744073709551616 ^ 0 * zl_0 + 18446744073709551616 ^ 1 * h_x12 + 18446744073709551616 ^ 2 * h_x14 + 18446744073709551616 ^ 3 * h_x16
  have hk0 : z x8 = 0 → z x9 = 0 ∧ z y1 = 0 ∧ z 0x0 = 0 ∧ z y2 = 0 := by
    intro e
    have e1 : x9 = 0 := ra_x9 e
    exact ⟨by rw [e1]; rfl, by rw [ra_y1 e1]; rfl, zl_0, by rw [ra_y2 e1]; rfl⟩
  have hk1 : z x8 = 1 → z x9 + 18446744073709551616 * z y1 + 18446744073709551616 ^ 2 * z 0x0 + 18446744073709551616 ^ 3 * z y2 = 115792089210356248762697446949407573530086143415290314195533631308867097853951 := by
    intro e
    have e1 : x9 = 0xffffffffffffffff := rb_x9 e
    rw [rb_y1 e1, rb_y2 e1, e1]; simp only [zl_0, zl_ffffffff, zl_ffffffffffffffff, zl_ffffffff00000001]; norm_num only
  have ha' : a.zval < 115792089210356248762697446949407573530086143415290314195533631308867097853951 := by rw [L4.zval_eq]; exact_mod_cast ha
  have ha0 : 0 ≤ a.zval := by rw [L4.zval_eq]; omega
  obtain ⟨hlt, kk, hk⟩ := condadd _ 115792089210356248762697446949407573530086143415290314195533631308867097853951 _ _ _ _ hD hS c_x8 c_y3 hk0 hk1 (by linarith only [ha', ha0]) (by linarith only [ha', ha0]) (by norm_num)
  refine hP _ (reduced_of 115792089210356248762697446949407573530086143415290314195533631308867097853951 _ _ 115792089210356248762697446949407573530086143415290314195533631308867097853951 (0 - a.zval + 115792089210356248762697446949407573530086143415290314195533631308867097853951) (by norm_num) ?_ hlt ⟨1 - kk, ?_⟩)
  · rw [L4.zval_eq]; omega
  · rw [hk]; ring

theorem fromMont_spec (a : L4)  : Redc 115792089210356248762697446949407573530086143415290314195533631308867097853951 (a.val) (fromMont a) := by
  suffices H : ∀ P : L4 → Prop, (∀ r, Redc 115792089210356248762697446949407573530086143415290314195533631308867097853951 (a.val) r → P r) → P (fromMont a) from H _ (fun _ h => h)
  intro P hP
  have zl_0 : z 0x0 = 0 := rfl
  have zl_ffffffff : z 0xffffffff = 4294967295 := rfl
  have zl_ffffffff00000001 : z 0xffffffff00000001 = 18446744069414584321 := rfl
  have zl_ffffffffffffffff : z 0xffffffffffffffff = 18446744073709551615 := rfl
  unfold fromMont
  refine wp_mul P _ _ _ fun x3 x2 h_x2 => ?_
  refine wp_mul P _ _ _ fun x5 x4 h_x4 => ?_
  refine wp_mul P _ _ _ fun x7 x6 h_x6 => ?_
  refine wp_add P _ _ _ _ (by rw [zl_0]; norm_num) fun x8 x9 h_x8 c_x9 => ?_
  refine wp_add P _ _ _ _ (by rw [zl_0]; norm_num) fun y1 x11 h_y1 c_x11 => ?_
  refine wp_add P _ _ _ _ c_x11 fun x12 x13 h_x12 c_x13 => ?_
  refine wp_add P _ _ _ _ (by rw [zl_0]; norm_num) fun x14 x15 h_x14 c_x15 => ?_
  refine wp_mul P _ _ _ fun x17 x16 h_x16 => ?_
  refine wp_mul P _ _ _ fun x19 x18 h_x18 => ?_
  refine wp_mul P _ _ _ fun x21 x20 h_x20 => ?_
  refine wp_add P _ _ _ _ (by rw [zl_0]; norm_num) fun x22 x23 h_x22 c_x23 => ?_
  refine wp_add P _ _ _ _ (by rw [zl_0]; norm_num) fun y2 x25 h_y2 c_x25 => ?_
  refine wp_plus P 1 4294967294 _ _ _ c_x9 (mulhi_lt 4294967294 (by rw [zl_ffffffff]; norm_num) (by norm_num) h_x4) (by norm_num) fun y3 h_y3 c_y3 => ?_
  refine wp_plus P 1 4294967295 _ _ _ c_x13 c_y3 (by norm_num) fun y4 h_y4 c_y4 => ?_
  refine wp_plus P 1 4294967296 _ _ _ c_x15 c_y4 (by norm_num) fun y5 h_y5 c_y5 => ?_
  refine wp_add P _ _ _ _ c_x25 fun x26 x27 h_x26 c_x27 => ?_
  refine wp_plus P 1 4294967294 _ _ _ c_x23 (mulhi_lt 4294967294 (by rw [zl_ffffffff]; norm_num) (by norm_num) h_x18) (by norm_num) fun y6 h_y6 c_y6 => ?_
  refine wp_add P _ _ _ _ c_x27 fun x28 x29 h_x28 c_x29 => ?_
  refine wp_add P _ _ _ _ c_x29 fun x30 x31 h_x30 c_x31 => ?_
  refine wp_add P _ _ _ _ (by rw [zl_0]; norm_num) fun x32 x33 h_x32 c_x33 => ?_
  refine wp_add P _ _ _ _ c_x33 fun x34 x35 h_x34 c_x35 => ?_
  refine wp_add P _ _ _ _ c_x35 fun x36 x37 h_x36 c_x37 => ?_
  refine wp_mul P _ _ _ fun x39 x38 h_x38 => ?_
  refine wp_mul P _ _ _ fun x41 x40 h_x40 => ?_
  refine wp_mul P _ _ _ fun x43 x42 h_x42 => ?_
  refine wp_add P _ _ _ _ (by rw [zl_0]; norm_num) fun x44 x45 h_x44 c_x45 => ?_
  refine wp_add P _ _ _ _ (by rw [zl_0]; norm_num) fun y7 x47 h_y7 c_x47 => ?_
  refine wp_add P _ _ _ _ c_x47 fun x48 x49 h_x48 c_x49 => ?_
  refine wp_plus P 1 4294967294 _ _ _ c_x45 (mulhi_lt 4294967294 (by rw [zl_ffffffff]; norm_num) (by norm_num) h_x40) (by norm_num) fun y8 h_y8 c_y8 => ?_
  refine wp_add P _ _ _ _ c_x49 fun x50 x51 h_x50 c_x51 => ?_
  refine wp_plus P 1 18446744069414584320 _ _ _ c_x31 (mulhi_lt 18446744069414584320 (by rw [zl_ffffffff00000001]; norm_num) (by norm_num) h_x16) (by norm_num) fun y9 h_y9 c_y9 => ?_
  refine wp_plus P 1 18446744069414584321 _ _ _ c_x37 c_y9 (by norm_num) fun y10 h_y10 c_y10 => ?_
  refine wp_add P _ _ _ _ c_x51 fun x52 x53 h_x52 c_x53 => ?_
  refine wp_add P _ _ _ _ (by rw [zl_0]; norm_num) fun x54 x55 h_x54 c_x55 => ?_
  refine wp_add P _ _ _ _ c_x55 fun x56 x57 h_x56 c_x57 => ?_
  refine wp_add P _ _ _ _ c_x57 fun x58 x59 h_x58 c_x59 => ?_
  refine wp_mul P _ _ _ fun x61 x60 h_x60 => ?_
  refine wp_mul P _ _ _ fun x63 x62 h_x62 => ?_
  refine wp_mul P _ _ _ fun x65 x64 h_x64 => ?_
  refine wp_add P _ _ _ _ (by rw [zl_0]; norm_num) fun x66 x67 h_x66 c_x67 => ?_
  refine wp_add P _ _ _ _ (by rw [zl_0]; norm_num) fun y11 x69 h_y11 c_x69 => ?_
  refine wp_add P _ _ _ _ c_x69 fun x70 x71 h_x70 c_x71 => ?_
  refine wp_plus P 1 4294967294 _ _ _ c_x67 (mulhi_lt 4294967294 (by rw [zl_ffffffff]; norm_num) (by norm_num) h_x62) (by norm_num) fun y12 h_y12 c_y12 => ?_
  refine wp_add P _ _ _ _ c_x71 fun x72 x73 h_x72 c_x73 => ?_
  refine wp_plus P 1 18446744069414584320 _ _ _ c_x53 (mulhi_lt 18446744069414584320 (by rw [zl_ffffffff00000001]; norm_num) (by norm_num) h_x38) (by norm_num) fun y13 h_y13 c_y13 => ?_
  refine wp_plus P 1 18446744069414584321 _ _ _ c_x59 c_y13 (by norm_num) fun y14 h_y14 c_y14 => ?_
  refine wp_add P _ _ _ _ c_x73 fun x74 x75 h_x74 c_x75 => ?_
  refine wp_plus P 1 18446744069414584320 _ _ _ c_x75 (mulhi_lt 18446744069414584320 (by rw [zl_ffffffff00000001]; norm_num) (by norm_num) h_x60) (by norm_num) fun x76 h_x76 c_x76 => ?_
  refine wp_sub P _ _ _ _ (by rw [zl_0]; norm_num) fun x77 x78 h_x77 c_x78 => ?_
  refine wp_sub P _ _ _ _ c_x78 fun x79 x80 h_x79 c_x80 => ?_
  refine wp_sub P _ _ _ _ c_x80 fun x81 x82 h_x81 c_x82 => ?_
  refine wp_sub P _ _ _ _ c_x82 fun x83 x84 h_x83 c_x84 => ?_
  refine wp_sub P _ _ _ _ c_x84 fun y16 x86 h_y16 c_x86 => ?_
  refine wp_cmov P _ _ _ _ c_x86 fun x87 ra_x87 rb_x87 => ?_
  refine wp_cmov P _ _ _ _ c_x86 fun x88 ra_x88 rb_x88 => ?_
  refine wp_cmov P _ _ _ _ c_x86 fun x89 ra_x89 rb_x89 => ?_
  refine wp_cmov P _ _ _ _ c_x86 fun x90 ra_x90 rb_x90 => ?_
  have e_y1 : z y1 = 0 := redc_low' (by rw [zl_ffffffffffffffff]; norm_num) h_x6 zl_0 h_y1
  have e_y2 : z y2 = 0 := redc_low' (by rw [zl_ffffffffffffffff]; norm_num) h_x20 zl_0 h_y2
  have e_y7 : z y7 = 0 := redc_low' (by rw [zl_ffffffffffffffff]; norm_num) h_x42 zl_0 h_y7
  have e_y11 : z y11 = 0 := redc_low' (by rw [zl_ffffffffffffffff]; norm_num) h_x64 zl_0 h_y11
  have hI : (z x70 + 18446744073709551616 * z x72 + 18446744073709551616 ^ 2 * z x74 + 18446744073709551616 ^ 3 * z x76 + 18446744073709551616 ^ 4 * z 0x0) * 18446744073709551616 ^ 4 = a.zval + (z a.l0 + 18446744073709551616 * z x14 + 18446744073709551616 ^ 2 * z x32 + 18446744073709551616 ^ 3 * z x54) * 115792089210356248762697446949407573530086143415290314195533631308867097853951 := by
    unfold L4.zval
    linear_combination 18446744073709551616 ^ 3 * h_x2 + 18446744073709551616 ^ 3 * z a.l0 * zl_ffffffff00000001 + 18446744073709551616 ^ 1 * h_x4 + 18446744073709551616 ^ 1 * z a.l0 * zl_ffffffff + 18446744073709551616 ^ 0 * h_x6 + 18446744073709551616 ^ 0 * z a.l0 * zl_ffffffffffffffff + 18446744073709551616 ^ 1 * h_x8 + (18446744073709551616 ^ 1) * zl_0 + 18446744073709551616 ^ 0 * h_y1 + (18446744073709551616 ^ 0) * zl_0 + 18446744073709551616 ^ 1 * h_x12 + (18446744073709551616 ^ 1) * zl_0 + 18446744073709551616 ^ 1 * h_x14 + (18446744073709551616 ^ 1) * zl_0 + 18446744073709551616 ^ 4 * h_x16 + 18446744073709551616 ^ 4 * z x14 * zl_ffffffff00000001 + 18446744073709551616 ^ 2 * h_x18 + 18446744073709551616 ^ 2 * z x14 * zl_ffffffff + 18446744073709551616 ^ 1 * h_x20 + 18446744073709551616 ^ 1 * z x14 * zl_ffffffffffffffff + 18446744073709551616 ^ 2 * h_x22 + (18446744073709551616 ^ 2) * zl_0 + 18446744073709551616 ^ 1 * h_y2 + (18446744073709551616 ^ 1) * zl_0 + 18446744073709551616 ^ 2 * h_y3 + 18446744073709551616 ^ 2 * h_y4 + 18446744073709551616 ^ 2 * h_y5 + 18446744073709551616 ^ 2 * h_x26 + 18446744073709551616 ^ 3 * h_y6 + 18446744073709551616 ^ 3 * h_x28 + 18446744073709551616 ^ 4 * h_x30 + 18446744073709551616 ^ 2 * h_x32 + (18446744073709551616 ^ 2) * zl_0 + 18446744073709551616 ^ 3 * h_x34 + (18446744073709551616 ^ 3) * zl_0 + 18446744073709551616 ^ 4 * h_x36 + (18446744073709551616 ^ 4) * zl_0 + 18446744073709551616 ^ 5 * h_x38 + 18446744073709551616 ^ 5 * z x32 * zl_ffffffff00000001 + 18446744073709551616 ^ 3 * h_x40 + 18446744073709551616 ^ 3 * z x32 * zl_ffffffff + 18446744073709551616 ^ 2 * h_x42 + 18446744073709551616 ^ 2 * z x32 * zl_ffffffffffffffff + 18446744073709551616 ^ 3 * h_x44 + (18446744073709551616 ^ 3) * zl_0 + 18446744073709551616 ^ 2 * h_y7 + (18446744073709551616 ^ 2) * zl_0 + 18446744073709551616 ^ 3 * h_x48 + 18446744073709551616 ^ 4 * h_y8 + 18446744073709551616 ^ 4 * h_x50 + 18446744073709551616 ^ 5 * h_y9 + 18446744073709551616 ^ 5 * h_y10 + 18446744073709551616 ^ 5 * h_x52 + 18446744073709551616 ^ 3 * h_x54 + (18446744073709551616 ^ 3) * zl_0 + 18446744073709551616 ^ 4 * h_x56 + (18446744073709551616 ^ 4) * zl_0 + 18446744073709551616 ^ 5 * h_x58 + (18446744073709551616 ^ 5) * zl_0 + 18446744073709551616 ^ 6 * h_x60 + 18446744073709551616 ^ 6 * z x54 * zl_ffffffff00000001 + 18446744073709551616 ^ 4 * h_x62 + 18446744073709551616 ^ 4 * z x54 * zl_ffffffff + 18446744073709551616 ^ 3 * h_x64 + 18446744073709551616 ^ 3 * z x54 * zl_ffffffffffffffff + 18446744073709551616 ^ 4 * h_x66 + (18446744073709551616 ^ 4) * zl_0 + 18446744073709551616 ^ 3 * h_y11 + (18446744073709551616 ^ 3) * zl_0 + 18446744073709551616 ^ 4 * h_x70 + 18446744073709551616 ^ 5 * h_y12 + 18446744073709551616 ^ 5 * h_x72 + 18446744073709551616 ^ 6 * h_y13 + 18446744073709551616 ^ 6 * h_y14 + 18446744073709551616 ^ 6 * h_x74 + 18446744073709551616 ^ 7 * h_x76 + -(18446744073709551616 ^ 0) * e_y1 + -(18446744073709551616 ^ 1) * e_y2 + -(18446744073709551616 ^ 2) * e_y7 + -(18446744073709551616 ^ 3) * e_y11 + 18446744073709551616 ^ 8 * zl_0
  have hD : z x77 + 18446744073709551616 * z x79 + 18446744073709551616 ^ 2 * z x81 + 18446744073709551616 ^ 3 * z x83 + 18446744073709551616 ^ 4 * z y16 - 18446744073709551616 ^ 5 * z x86 = z x70 + 18446744073709551616 * z x72 + 18446744073709551616 ^ 2 * z x74 + 18446744073709551616 ^ 3 * z x76 + 18446744073709551616 ^ 4 * z 0x0 - 115792089210356248762697446949407573530086143415290314195533631308867097853951 := by
    linear_combination 18446744073709551616 ^ 0 * h_x77 - 18446744073709551616 ^ 0 * zl_ffffffffffffffff + -(18446744073709551616 ^ 0) * zl_0 + 18446744073709551616 ^ 1 * h_x79 - 18446744073709551616 ^ 1 * zl_ffffffff + 18446744073709551616 ^ 2 * h_x81 - 18446744073709551616 ^ 2 * zl_0 + 18446744073709551616 ^ 3 * h_x83 - 18446744073709551616 ^ 3 * zl_ffffffff00000001 + 18446744073709551616 ^ 4 * h_y16 - 18446744073709551616 ^ 4 * zl_0
  have hU : z a.l0 + 18446744073709551616 * z x14 + 18446744073709551616 ^ 2 * z x32 + 18446744073709551616 ^ 3 * z x54 ≤ 18446744073709551616 ^ 4 - 1 := zsum_le _ _ _ _
  have hX : a.zval < 18446744073709551616 ^ 4 * 115792089210356248762697446949407573530086143415290314195533631308867097853951 := by linarith only [zval_le a]
  have hT : z x70 + 18446744073709551616 * z x72 + 18446744073709551616 ^ 2 * z x74 + 18446744073709551616 ^ 3 * z x76 + 18446744073709551616 ^ 4 * z 0x0 < 2 * 115792089210356248762697446949407573530086143415290314195533631308867097853951 := by
    generalize a.zval = X at hI hX
    linarith only [hI, hX, hU]
  obtain ⟨hlt, hk⟩ := condsub 115792089210356248762697446949407573530086143415290314195533631308867097853951 hD c_x86 (by norm_num) (by norm_num) hT ra_x87 rb_x87 ra_x88 rb_x88 ra_x89 rb_x89 ra_x90 rb_x90
  refine hP _ (redc_of _ _ _ _ _ _ _ (by norm_num) ?_ hlt hk hI)
  exact L4.zval_eq a

theorem toMont_spec (a : L4)  : Redc 115792089210356248762697446949407573530086143415290314195533631308867097853951 (a.val * 134799733323198995502561713907086292154532538166959272814710328655875) (toMont a) := by
  suffices H : ∀ P : L4 → Prop, (∀ r, Redc 115792089210356248762697446949407573530086143415290314195533631308867097853951 (a.val * 134799733323198995502561713907086292154532538166959272814710328655875) r → P r) → P (toMont a) from H _ (fun _ h => h)
  intro P hP
  have zl_0 : z 0x0 = 0 := rfl
  have zl_3 : z 0x3 = 3 := rfl
  have zl_ffffffff : z 0xffffffff = 4294967295 := rfl
  have zl_4fffffffd : z 0x4fffffffd = 21474836477 := rfl
  have zl_fffffffbffffffff : z 0xfffffffbffffffff = 18446744056529682431 := rfl
  have zl_ffffffff00000001 : z 0xffffffff00000001 = 18446744069414584321 := rfl
  have zl_fffffffffffffffe : z 0xfffffffffffffffe = 18446744073709551614 := rfl
  have zl_ffffffffffffffff : z 0xffffffffffffffff = 18446744073709551615 := rfl
  unfold toMont
  refine wp_mul P _ _ _ fun x6 x5 h_x5 => ?_
  refine wp_mul P _ _ _ fun x8 x7 h_x7 => ?_
  refine wp_mul P _ _ _ fun x10 x9 h_x9 => ?_
  refine wp_mul P _ _ _ fun x12 x11 h_x11 => ?_
  refine wp_add P _ _ _ _ (by rw [zl_0]; norm_num) fun x13 x14 h_x13 c_x14 => ?_
  refine wp_add P _ _ _ _ c_x14 fun x15 x16 h_x15 c_x16 => ?_
  refine wp_add P _ _ _ _ c_x16 fun x17 x18 h_x17 c_x18 => ?_
  refine wp_mul P _ _ _ fun x20 x19 h_x19 => ?_
  refine wp_mul P _ _ _ fun x22 x21 h_x21 => ?_
  refine wp_mul P _ _ _ fun x24 x23 h_x23 => ?_
  refine wp_add P _ _ _ _ (by rw [zl_0]; norm_num) fun x25 x26 h_x25 c_x26 => ?_
  refine wp_add P _ _ _ _ (by rw [zl_0]; norm_num) fun y1 x28 h_y1 c_x28 => ?_
  refine wp_add P _ _ _ _ c_x28 fun x29 x30 h_x29 c_x30 => ?_
  refine wp_plus P 1 4294967294 _ _ _ c_x26 (mulhi_lt 4294967294 (by rw [zl_ffffffff]; norm_num) (by norm_num) h_x21) (by norm_num) fun y2 h_y2 c_y2 => ?_
  refine wp_add P _ _ _ _ c_x30 fun x31 x32 h_x31 c_x32 => ?_
  refine wp_add P _ _ _ _ c_x32 fun x33 x34 h_x33 c_x34 => ?_
  refine wp_plus P 1 21474836476 _ _ _ c_x18 (mulhi_lt 21474836476 (by rw [zl_4fffffffd]; norm_num) (by norm_num) h_x5) (by norm_num) fun y3 h_y3 c_y3 => ?_
  refine wp_add P _ _ _ _ c_x34 fun x35 x36 h_x35 c_x36 => ?_
  refine wp_mul P _ _ _ fun x38 x37 h_x37 => ?_
  refine wp_mul P _ _ _ fun x40 x39 h_x39 => ?_
  refine wp_mul P _ _ _ fun x42 x41 h_x41 => ?_
  refine wp_mul P _ _ _ fun x44 x43 h_x43 => ?_
  refine wp_add P _ _ _ _ (by rw [zl_0]; norm_num) fun x45 x46 h_x45 c_x46 => ?_
  refine wp_add P _ _ _ _ c_x46 fun x47 x48 h_x47 c_x48 => ?_
  refine wp_add P _ _ _ _ c_x48 fun x49 x50 h_x49 c_x50 => ?_
  refine wp_add P _ _ _ _ (by rw [zl_0]; norm_num) fun x51 x52 h_x51 c_x52 => ?_
  refine wp_add P _ _ _ _ c_x52 fun x53 x54 h_x53 c_x54 => ?_
  refine wp_add P _ _ _ _ c_x54 fun x55 x56 h_x55 c_x56 => ?_
  refine wp_add P _ _ _ _ c_x56 fun x57 x58 h_x57 c_x58 => ?_
  refine wp_mul P _ _ _ fun x60 x59 h_x59 => ?_
  refine wp_mul P _ _ _ fun x62 x61 h_x61 => ?_
  refine wp_mul P _ _ _ fun x64 x63 h_x63 => ?_
  refine wp_add P _ _ _ _ (by rw [zl_0]; norm_num) fun x65 x66 h_x65 c_x66 => ?_
  refine wp_add P _ _ _ _ (by rw [zl_0]; norm_num) fun y4 x68 h_y4 c_x68 => ?_
  refine wp_add P _ _ _ _ c_x68 fun x69 x70 h_x69 c_x70 => ?_
  refine wp_plus P 1 4294967294 _ _ _ c_x66 (mulhi_lt 4294967294 (by rw [zl_ffffffff]; norm_num) (by norm_num) h_x61) (by norm_num) fun y5 h_y5 c_y5 => ?_
  refine wp_add P _ _ _ _ c_x70 fun x71 x72 h_x71 c_x72 => ?_
  refine wp_add P _ _ _ _ c_x72 fun x73 x74 h_x73 c_x74 => ?_
  refine wp_plus P 1 1 _ _ _ c_x58 c_x36 (by norm_num) fun y6 h_y6 c_y6 => ?_
  refine wp_plus P 1 21474836476 _ _ _ c_x50 (mulhi_lt 21474836476 (by rw [zl_4fffffffd]; norm_num) (by norm_num) h_x37) (by norm_num) fun y7 h_y7 c_y7 => ?_
  refine wp_plus P 2 21474836477 _ _ _ c_y6 c_y7 (by norm_num) fun y8 h_y8 c_y8 => ?_
  refine wp_add P _ _ _ _ c_x74 fun x75 x76 h_x75 c_x76 => ?_
  refine wp_mul P _ _ _ fun x78 x77 h_x77 => ?_
  refine wp_mul P _ _ _ fun x80 x79 h_x79 => ?_
  refine wp_mul P _ _ _ fun x82 x81 h_x81 => ?_
  refine wp_mul P _ _ _ fun x84 x83 h_x83 => ?_
  refine wp_add P _ _ _ _ (by rw [zl_0]; norm_num) fun x85 x86 h_x85 c_x86 => ?_
  refine wp_add P _ _ _ _ c_x86 fun x87 x88 h_x87 c_x88 => ?_
  refine wp_add P _ _ _ _ c_x88 fun x89 x90 h_x89 c_x90 => ?_
  refine wp_add P _ _ _ _ (by rw [zl_0]; norm_num) fun x91 x92 h_x91 c_x92 => ?_
  refine wp_add P _ _ _ _ c_x92 fun x93 x94 h_x93 c_x94 => ?_
  refine wp_add P _ _ _ _ c_x94 fun x95 x96 h_x95 c_x96 => ?_
  refine wp_add P _ _ _ _ c_x96 fun x97 x98 h_x97 c_x98 => ?_
  refine wp_mul P _ _ _ fun x100 x99 h_x99 => ?_
  refine wp_mul P _ _ _ fun x102 x101 h_x101 => ?_
  refine wp_mul P _ _ _ fun x104 x103 h_x103 => ?_
  refine wp_add P _ _ _ _ (by rw [zl_0]; norm_num) fun x105 x106 h_x105 c_x106 => ?_
  refine wp_add P _ _ _ _ (by rw [zl_0]; norm_num) fun y9 x108 h_y9 c_x108 => ?_
  refine wp_add P _ _ _ _ c_x108 fun x109 x110 h_x109 c_x110 => ?_
  refine wp_plus P 1 4294967294 _ _ _ c_x106 (mulhi_lt 4294967294 (by rw [zl_ffffffff]; norm_num) (by norm_num) h_x101) (by norm_num) fun y10 h_y10 c_y10 => ?_
  refine wp_add P _ _ _ _ c_x110 fun x111 x112 h_x111 c_x112 => ?_
  refine wp_add P _ _ _ _ c_x112 fun x113 x114 h_x113 c_x114 => ?_
  refine wp_plus P 1 1 _ _ _ c_x98 c_x76 (by norm_num) fun y11 h_y11 c_y11 => ?_
  refine wp_plus P 1 21474836476 _ _ _ c_x90 (mulhi_lt 21474836476 (by rw [zl_4fffffffd]; norm_num) (by norm_num) h_x77) (by norm_num) fun y12 h_y12 c_y12 => ?_
  refine wp_plus P 2 21474836477 _ _ _ c_y11 c_y12 (by norm_num) fun y13 h_y13 c_y13 => ?_
  refine wp_add P _ _ _ _ c_x114 fun x115 x116 h_x115 c_x116 => ?_
  refine wp_mul P _ _ _ fun x118 x117 h_x117 => ?_
  refine wp_mul P _ _ _ fun x120 x119 h_x119 => ?_
  refine wp_mul P _ _ _ fun x122 x121 h_x121 => ?_
  refine wp_mul P _ _ _ fun x124 x123 h_x123 => ?_
  refine wp_add P _ _ _ _ (by rw [zl_0]; norm_num) fun x125 x126 h_x125 c_x126 => ?_
  refine wp_add P _ _ _ _ c_x126 fun x127 x128 h_x127 c_x128 => ?_
  refine wp_add P _ _ _ _ c_x128 fun x129 x130 h_x129 c_x130 => ?_
  refine wp_add P _ _ _ _ (by rw [zl_0]; norm_num) fun x131 x132 h_x131 c_x132 => ?_
  refine wp_add P _ _ _ _ c_x132 fun x133 x134 h_x133 c_x134 => ?_
  refine wp_add P _ _ _ _ c_x134 fun x135 x136 h_x135 c_x136 => ?_
  refine wp_add P _ _ _ _ c_x136 fun x137 x138 h_x137 c_x138 => ?_
  refine wp_mul P _ _ _ fun x140 x139 h_x139 => ?_
  refine wp_mul P _ _ _ fun x142 x141 h_x141 => ?_
  refine wp_mul P _ _ _ fun x144 x143 h_x143 => ?_
  refine wp_add P _ _ _ _ (by rw [zl_0]; norm_num) fun x145 x146 h_x145 c_x146 => ?_
  refine wp_add P _ _ _ _ (by rw [zl_0]; norm_num) fun y14 x148 h_y14 c_x148 => ?_
  refine wp_add P _ _ _ _ c_x148 fun x149 x150 h_x149 c_x150 => ?_
  refine wp_plus P 1 4294967294 _ _ _ c_x146 (mulhi_lt 4294967294 (by rw [zl_ffffffff]; norm_num) (by norm_num) h_x141) (by norm_num) fun y15 h_y15 c_y15 => ?_
  refine wp_add P _ _ _ _ c_x150 fun x151 x152 h_x151 c_x152 => ?_
  refine wp_add P _ _ _ _ c_x152 fun x153 x154 h_x153 c_x154 => ?_
  refine wp_plus P 1 1 _ _ _ c_x138 c_x116 (by norm_num) fun y16 h_y16 c_y16 => ?_
  refine wp_plus P 1 21474836476 _ _ _ c_x130 (mulhi_lt 21474836476 (by rw [zl_4fffffffd]; norm_num) (by norm_num) h_x117) (by norm_num) fun y17 h_y17 c_y17 => ?_
  refine wp_plus P 2 21474836477 _ _ _ c_y16 c_y17 (by norm_num) fun y18 h_y18 c_y18 => ?_
  refine wp_add P _ _ _ _ c_x154 fun x155 x156 h_x155 c_x156 => ?_
  refine wp_sub P _ _ _ _ (by rw [zl_0]; norm_num) fun x157 x158 h_x157 c_x158 => ?_
  refine wp_sub P _ _ _ _ c_x158 fun x159 x160 h_x159 c_x160 => ?_
  refine wp_sub P _ _ _ _ c_x160 fun x161 x162 h_x161 c_x162 => ?_
  refine wp_sub P _ _ _ _ c_x162 fun x163 x164 h_x163 c_x164 => ?_
  refine wp_sub P _ _ _ _ c_x164 fun y19 x166 h_y19 c_x166 => ?_
  refine wp_cmov P _ _ _ _ c_x166 fun x167 ra_x167 rb_x167 => ?_
  refine wp_cmov P _ _ _ _ c_x166 fun x168 ra_x168 rb_x168 => ?_
  refine wp_cmov P _ _ _ _ c_x166 fun x169 ra_x169 rb_x169 => ?_
  refine wp_cmov P _ _ _ _ c_x166 fun x170 ra_x170 rb_x170 => ?_
  have e_y1 : z y1 = 0 := redc_low' (by rw [zl_ffffffffffffffff]; norm_num) h_x23 zl_0 h_y1
  have e_y4 : z y4 = 0 := redc_low' (by rw [zl_ffffffffffffffff]; norm_num) h_x63 zl_0 h_y4
  have e_y9 : z y9 = 0 := redc_low' (by rw [zl_ffffffffffffffff]; norm_num) h_x103 zl_0 h_y9
  have e_y14 : z y14 = 0 := redc_low' (by rw [zl_ffffffffffffffff]; norm_num) h_x143 zl_0 h_y14
  have hI : (z x149 + 18446744073709551616 * z x151 + 18446744073709551616 ^ 2 * z x153 + 18446744073709551616 ^ 3 * z x155 + 18446744073709551616 ^ 4 * z x156) * 18446744073709551616 ^ 4 = a.zval * 134799733323198995502561713907086292154532538166959272814710328655875 + (z x11 + 18446744073709551616 * z x51 + 18446744073709551616 ^ 2 * z x91 + 18446744073709551616 ^ 3 * z x131) * 115792089210356248762697446949407573530086143415290314195533631308867097853951 := by
    unfold L4.zval
    linear_combination 18446744073709551616 ^ 3 * h_x5 + 18446744073709551616 ^ 3 * z a.l0 * zl_4fffffffd + 18446744073709551616 ^ 2 * h_x7 + 18446744073709551616 ^ 2 * z a.l0 * zl_fffffffffffffffe + 18446744073709551616 ^ 1 * h_x9 + 18446744073709551616 ^ 1 * z a.l0 * zl_fffffffbffffffff + 18446744073709551616 ^ 0 * h_x11 + 18446744073709551616 ^ 0 * z a.l0 * zl_3 + 18446744073709551616 ^ 1 * h_x13 + (18446744073709551616 ^ 1) * zl_0 + 18446744073709551616 ^ 2 * h_x15 + 18446744073709551616 ^ 3 * h_x17 + 18446744073709551616 ^ 3 * h_x19 + 18446744073709551616 ^ 3 * z x11 * zl_ffffffff00000001 + 18446744073709551616 ^ 1 * h_x21 + 18446744073709551616 ^ 1 * z x11 * zl_ffffffff + 18446744073709551616 ^ 0 * h_x23 + 18446744073709551616 ^ 0 * z x11 * zl_ffffffffffffffff + 18446744073709551616 ^ 1 * h_x25 + (18446744073709551616 ^ 1) * zl_0 + 18446744073709551616 ^ 0 * h_y1 + (18446744073709551616 ^ 0) * zl_0 + 18446744073709551616 ^ 1 * h_x29 + 18446744073709551616 ^ 2 * h_y2 + 18446744073709551616 ^ 2 * h_x31 + 18446744073709551616 ^ 3 * h_x33 + 18446744073709551616 ^ 4 * h_y3 + 18446744073709551616 ^ 4 * h_x35 + 18446744073709551616 ^ 4 * h_x37 + 18446744073709551616 ^ 4 * z a.l1 * zl_4fffffffd + 18446744073709551616 ^ 3 * h_x39 + 18446744073709551616 ^ 3 * z a.l1 * zl_fffffffffffffffe + 18446744073709551616 ^ 2 * h_x41 + 18446744073709551616 ^ 2 * z a.l1 * zl_fffffffbffffffff + 18446744073709551616 ^ 1 * h_x43 + 18446744073709551616 ^ 1 * z a.l1 * zl_3 + 18446744073709551616 ^ 2 * h_x45 + (18446744073709551616 ^ 2) * zl_0 + 18446744073709551616 ^ 3 * h_x47 + 18446744073709551616 ^ 4 * h_x49 + 18446744073709551616 ^ 1 * h_x51 + (18446744073709551616 ^ 1) * zl_0 + 18446744073709551616 ^ 2 * h_x53 + 18446744073709551616 ^ 3 * h_x55 + 18446744073709551616 ^ 4 * h_x57 + 18446744073709551616 ^ 4 * h_x59 + 18446744073709551616 ^ 4 * z x51 * zl_ffffffff00000001 + 18446744073709551616 ^ 2 * h_x61 + 18446744073709551616 ^ 2 * z x51 * zl_ffffffff + 18446744073709551616 ^ 1 * h_x63 + 18446744073709551616 ^ 1 * z x51 * zl_ffffffffffffffff + 18446744073709551616 ^ 2 * h_x65 + (18446744073709551616 ^ 2) * zl_0 + 18446744073709551616 ^ 1 * h_y4 + (18446744073709551616 ^ 1) * zl_0 + 18446744073709551616 ^ 2 * h_x69 + 18446744073709551616 ^ 3 * h_y5 + 18446744073709551616 ^ 3 * h_x71 + 18446744073709551616 ^ 4 * h_x73 + 18446744073709551616 ^ 5 * h_y6 + 18446744073709551616 ^ 5 * h_y7 + 18446744073709551616 ^ 5 * h_y8 + 18446744073709551616 ^ 5 * h_x75 + 18446744073709551616 ^ 5 * h_x77 + 18446744073709551616 ^ 5 * z a.l2 * zl_4fffffffd + 18446744073709551616 ^ 4 * h_x79 + 18446744073709551616 ^ 4 * z a.l2 * zl_fffffffffffffffe + 18446744073709551616 ^ 3 * h_x81 + 18446744073709551616 ^ 3 * z a.l2 * zl_fffffffbffffffff + 18446744073709551616 ^ 2 * h_x83 + 18446744073709551616 ^ 2 * z a.l2 * zl_3 + 18446744073709551616 ^ 3 * h_x85 + (18446744073709551616 ^ 3) * zl_0 + 18446744073709551616 ^ 4 * h_x87 + 18446744073709551616 ^ 5 * h_x89 + 18446744073709551616 ^ 2 * h_x91 + (18446744073709551616 ^ 2) * zl_0 + 18446744073709551616 ^ 3 * h_x93 + 18446744073709551616 ^ 4 * h_x95 + 18446744073709551616 ^ 5 * h_x97 + 18446744073709551616 ^ 5 * h_x99 + 18446744073709551616 ^ 5 * z x91 * zl_ffffffff00000001 + 18446744073709551616 ^ 3 * h_x101 + 18446744073709551616 ^ 3 * z x91 * zl_ffffffff + 18446744073709551616 ^ 2 * h_x103 + 18446744073709551616 ^ 2 * z x91 * zl_ffffffffffffffff + 18446744073709551616 ^ 3 * h_x105 + (18446744073709551616 ^ 3) * zl_0 + 18446744073709551616 ^ 2 * h_y9 + (18446744073709551616 ^ 2) * zl_0 + 18446744073709551616 ^ 3 * h_x109 + 18446744073709551616 ^ 4 * h_y10 + 18446744073709551616 ^ 4 * h_x111 + 18446744073709551616 ^ 5 * h_x113 + 18446744073709551616 ^ 6 * h_y11 + 18446744073709551616 ^ 6 * h_y12 + 18446744073709551616 ^ 6 * h_y13 + 18446744073709551616 ^ 6 * h_x115 + 18446744073709551616 ^ 6 * h_x117 + 18446744073709551616 ^ 6 * z a.l3 * zl_4fffffffd + 18446744073709551616 ^ 5 * h_x119 + 18446744073709551616 ^ 5 * z a.l3 * zl_fffffffffffffffe + 18446744073709551616 ^ 4 * h_x121 + 18446744073709551616 ^ 4 * z a.l3 * zl_fffffffbffffffff + 18446744073709551616 ^ 3 * h_x123 + 18446744073709551616 ^ 3 * z a.l3 * zl_3 + 18446744073709551616 ^ 4 * h_x125 + (18446744073709551616 ^ 4) * zl_0 + 18446744073709551616 ^ 5 * h_x127 + 18446744073709551616 ^ 6 * h_x129 + 18446744073709551616 ^ 3 * h_x131 + (18446744073709551616 ^ 3) * zl_0 + 18446744073709551616 ^ 4 * h_x133 + 18446744073709551616 ^ 5 * h_x135 + 18446744073709551616 ^ 6 * h_x137 + 18446744073709551616 ^ 6 * h_x139 + 18446744073709551616 ^ 6 * z x131 * zl_ffffffff00000001 + 18446744073709551616 ^ 4 * h_x141 + 18446744073709551616 ^ 4 * z x131 * zl_ffffffff + 18446744073709551616 ^ 3 * h_x143 + 18446744073709551616 ^ 3 * z x131 * zl_ffffffffffffffff + 18446744073709551616 ^ 4 * h_x145 + (18446744073709551616 ^ 4) * zl_0 + 18446744073709551616 ^ 3 * h_y14 + (18446744073709551616 ^ 3) * zl_0 + 18446744073709551616 ^ 4 * h_x149 + 18446744073709551616 ^ 5 * h_y15 + 18446744073709551616 ^ 5 * h_x151 + 18446744073709551616 ^ 6 * h_x153 + 18446744073709551616 ^ 7 * h_y16 + 18446744073709551616 ^ 7 * h_y17 + 18446744073709551616 ^ 7 * h_y18 + 18446744073709551616 ^ 7 * h_x155 + -(18446744073709551616 ^ 0) * e_y1 + -(18446744073709551616 ^ 1) * e_y4 + -(18446744073709551616 ^ 2) * e_y9 + -(18446744073709551616 ^ 3) * e_y14
  have hD : z x157 + 18446744073709551616 * z x159 + 18446744073709551616 ^ 2 * z x161 + 18446744073709551616 ^ 3 * z x163 + 18446744073709551616 ^ 4 * z y19 - 18446744073709551616 ^ 5 * z x166 = z x149 + 18446744073709551616 * z x151 + 18446744073709551616 ^ 2 * z x153 + 18446744073709551616 ^ 3 * z x155 + 18446744073709551616 ^ 4 * z x156 - 115792089210356248762697446949407573530086143415290314195533631308867097853951 := by
    linear_combination 18446744073709551616 ^ 0 * h_x157 - 18446744073709551616 ^ 0 * zl_ffffffffffffffff + -(18446744073709551616 ^ 0) * zl_0 + 18446744073709551616 ^ 1 * h_x159 - 18446744073709551616 ^ 1 * zl_ffffffff + 18446744073709551616 ^ 2 * h_x161 - 18446744073709551616 ^ 2 * zl_0 + 18446744073709551616 ^ 3 * h_x163 - 18446744073709551616 ^ 3 * zl_ffffffff00000001 + 18446744073709551616 ^ 4 * h_y19 - 18446744073709551616 ^ 4 * zl_0
  have hU : z x11 + 18446744073709551616 * z x51 + 18446744073709551616 ^ 2 * z x91 + 18446744073709551616 ^ 3 * z x131 ≤ 18446744073709551616 ^ 4 - 1 := zsum_le _ _ _ _
  have hX : a.zval * 134799733323198995502561713907086292154532538166959272814710328655875 < 18446744073709551616 ^ 4 * 115792089210356248762697446949407573530086143415290314195533631308867097853951 := by linarith only [zval_le a]
  have hT : z x149 + 18446744073709551616 * z x151 + 18446744073709551616 ^ 2 * z x153 + 18446744073709551616 ^ 3 * z x155 + 18446744073709551616 ^ 4 * z x156 < 2 * 115792089210356248762697446949407573530086143415290314195533631308867097853951 := by
    generalize a.zval * 134799733323198995502561713907086292154532538166959272814710328655875 = X at hI hX
    linarith only [hI, hX, hU]
  obtain ⟨hlt, hk⟩ := condsub 115792089210356248762697446949407573530086143415290314195533631308867097853951 hD c_x166 (by norm_num) (by norm_num) hT ra_x167 rb_x167 ra_x168 rb_x168 ra_x169 rb_x169 ra_x170 rb_x170
  refine hP _ (redc_of _ _ _ _ _ _ _ (by norm_num) ?_ hlt hk hI)
  rw [L4.zval_eq, Nat.cast_mul, Nat.cast_ofNat]

end Verif.Native.P256Fp
