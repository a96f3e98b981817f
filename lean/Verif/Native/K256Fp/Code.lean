import Verif.Native.Word

/-!
# Generated code of `crypto/core/curves/native/k256/fp/secp256k1_fp.go`

Translated statement by statement by `tools/gofield.py`; see `Verif.Native.Word` for the instructions.
-/

namespace Verif.Native.K256Fp

set_option maxRecDepth 100000
set_option linter.unusedVariables false

/-- `Mul` (crypto/core/curves/native/k256/fp/secp256k1_fp.go:85-404). -/
def mul (a b : L4) : L4 :=
  Mul64 a.l0 b.l3 fun x6 x5 =>
  Mul64 a.l0 b.l2 fun x8 x7 =>
  Mul64 a.l0 b.l1 fun x10 x9 =>
  Mul64 a.l0 b.l0 fun x12 x11 =>
  Add64 x12 x9 0x0 fun x13 x14 =>
  Add64 x10 x7 x14 fun x15 x16 =>
  Add64 x8 x5 x16 fun x17 x18 =>
  Plus x18 x6 fun x19 =>
  Mul64 x11 0xd838091dd2253531 fun y2 x20 =>
  Mul64 x20 0xffffffffffffffff fun x23 x22 =>
  Mul64 x20 0xffffffffffffffff fun x25 x24 =>
  Mul64 x20 0xffffffffffffffff fun x27 x26 =>
  Mul64 x20 0xfffffffefffffc2f fun x29 x28 =>
  Add64 x29 x26 0x0 fun x30 x31 =>
  Add64 x27 x24 x31 fun x32 x33 =>
  Add64 x25 x22 x33 fun x34 x35 =>
  Plus x35 x23 fun x36 =>
  Add64 x11 x28 0x0 fun y4 x38 =>
  Add64 x13 x30 x38 fun x39 x40 =>
  Add64 x15 x32 x40 fun x41 x42 =>
  Add64 x17 x34 x42 fun x43 x44 =>
  Add64 x19 x36 x44 fun x45 x46 =>
  Mul64 a.l1 b.l3 fun x48 x47 =>
  Mul64 a.l1 b.l2 fun x50 x49 =>
  Mul64 a.l1 b.l1 fun x52 x51 =>
  Mul64 a.l1 b.l0 fun x54 x53 =>
  Add64 x54 x51 0x0 fun x55 x56 =>
  Add64 x52 x49 x56 fun x57 x58 =>
  Add64 x50 x47 x58 fun x59 x60 =>
  Plus x60 x48 fun x61 =>
  Add64 x39 x53 0x0 fun x62 x63 =>
  Add64 x41 x55 x63 fun x64 x65 =>
  Add64 x43 x57 x65 fun x66 x67 =>
  Add64 x45 x59 x67 fun x68 x69 =>
  Add64 x46 x61 x69 fun x70 x71 =>
  Mul64 x62 0xd838091dd2253531 fun y6 x72 =>
  Mul64 x72 0xffffffffffffffff fun x75 x74 =>
  Mul64 x72 0xffffffffffffffff fun x77 x76 =>
  Mul64 x72 0xffffffffffffffff fun x79 x78 =>
  Mul64 x72 0xfffffffefffffc2f fun x81 x80 =>
  Add64 x81 x78 0x0 fun x82 x83 =>
  Add64 x79 x76 x83 fun x84 x85 =>
  Add64 x77 x74 x85 fun x86 x87 =>
  Plus x87 x75 fun x88 =>
  Add64 x62 x80 0x0 fun y8 x90 =>
  Add64 x64 x82 x90 fun x91 x92 =>
  Add64 x66 x84 x92 fun x93 x94 =>
  Add64 x68 x86 x94 fun x95 x96 =>
  Add64 x70 x88 x96 fun x97 x98 =>
  Plus x98 x71 fun x99 =>
  Mul64 a.l2 b.l3 fun x101 x100 =>
  Mul64 a.l2 b.l2 fun x103 x102 =>
  Mul64 a.l2 b.l1 fun x105 x104 =>
  Mul64 a.l2 b.l0 fun x107 x106 =>
  Add64 x107 x104 0x0 fun x108 x109 =>
  Add64 x105 x102 x109 fun x110 x111 =>
  Add64 x103 x100 x111 fun x112 x113 =>
  Plus x113 x101 fun x114 =>
  Add64 x91 x106 0x0 fun x115 x116 =>
  Add64 x93 x108 x116 fun x117 x118 =>
  Add64 x95 x110 x118 fun x119 x120 =>
  Add64 x97 x112 x120 fun x121 x122 =>
  Add64 x99 x114 x122 fun x123 x124 =>
  Mul64 x115 0xd838091dd2253531 fun y11 x125 =>
  Mul64 x125 0xffffffffffffffff fun x128 x127 =>
  Mul64 x125 0xffffffffffffffff fun x130 x129 =>
  Mul64 x125 0xffffffffffffffff fun x132 x131 =>
  Mul64 x125 0xfffffffefffffc2f fun x134 x133 =>
  Add64 x134 x131 0x0 fun x135 x136 =>
  Add64 x132 x129 x136 fun x137 x138 =>
  Add64 x130 x127 x138 fun x139 x140 =>
  Plus x140 x128 fun x141 =>
  Add64 x115 x133 0x0 fun y13 x143 =>
  Add64 x117 x135 x143 fun x144 x145 =>
  Add64 x119 x137 x145 fun x146 x147 =>
  Add64 x121 x139 x147 fun x148 x149 =>
  Add64 x123 x141 x149 fun x150 x151 =>
  Plus x151 x124 fun x152 =>
  Mul64 a.l3 b.l3 fun x154 x153 =>
  Mul64 a.l3 b.l2 fun x156 x155 =>
  Mul64 a.l3 b.l1 fun x158 x157 =>
  Mul64 a.l3 b.l0 fun x160 x159 =>
  Add64 x160 x157 0x0 fun x161 x162 =>
  Add64 x158 x155 x162 fun x163 x164 =>
  Add64 x156 x153 x164 fun x165 x166 =>
  Plus x166 x154 fun x167 =>
  Add64 x144 x159 0x0 fun x168 x169 =>
  Add64 x146 x161 x169 fun x170 x171 =>
  Add64 x148 x163 x171 fun x172 x173 =>
  Add64 x150 x165 x173 fun x174 x175 =>
  Add64 x152 x167 x175 fun x176 x177 =>
  Mul64 x168 0xd838091dd2253531 fun y16 x178 =>
  Mul64 x178 0xffffffffffffffff fun x181 x180 =>
  Mul64 x178 0xffffffffffffffff fun x183 x182 =>
  Mul64 x178 0xffffffffffffffff fun x185 x184 =>
  Mul64 x178 0xfffffffefffffc2f fun x187 x186 =>
  Add64 x187 x184 0x0 fun x188 x189 =>
  Add64 x185 x182 x189 fun x190 x191 =>
  Add64 x183 x180 x191 fun x192 x193 =>
  Plus x193 x181 fun x194 =>
  Add64 x168 x186 0x0 fun y18 x196 =>
  Add64 x170 x188 x196 fun x197 x198 =>
  Add64 x172 x190 x198 fun x199 x200 =>
  Add64 x174 x192 x200 fun x201 x202 =>
  Add64 x176 x194 x202 fun x203 x204 =>
  Plus x204 x177 fun x205 =>
  Sub64 x197 0xfffffffefffffc2f 0x0 fun x206 x207 =>
  Sub64 x199 0xffffffffffffffff x207 fun x208 x209 =>
  Sub64 x201 0xffffffffffffffff x209 fun x210 x211 =>
  Sub64 x203 0xffffffffffffffff x211 fun x212 x213 =>
  Sub64 x205 0x0 x213 fun y20 x215 =>
  Cmov x215 x206 x197 fun x216 =>
  Cmov x215 x208 x199 fun x217 =>
  Cmov x215 x210 x201 fun x218 =>
  Cmov x215 x212 x203 fun x219 =>
  L4.mk x216 x217 x218 x219

/-- `Square` (crypto/core/curves/native/k256/fp/secp256k1_fp.go:416-735). -/
def square (a : L4) : L4 :=
  Mul64 a.l0 a.l3 fun x6 x5 =>
  Mul64 a.l0 a.l2 fun x8 x7 =>
  Mul64 a.l0 a.l1 fun x10 x9 =>
  Mul64 a.l0 a.l0 fun x12 x11 =>
  Add64 x12 x9 0x0 fun x13 x14 =>
  Add64 x10 x7 x14 fun x15 x16 =>
  Add64 x8 x5 x16 fun x17 x18 =>
  Plus x18 x6 fun x19 =>
  Mul64 x11 0xd838091dd2253531 fun y2 x20 =>
  Mul64 x20 0xffffffffffffffff fun x23 x22 =>
  Mul64 x20 0xffffffffffffffff fun x25 x24 =>
  Mul64 x20 0xffffffffffffffff fun x27 x26 =>
  Mul64 x20 0xfffffffefffffc2f fun x29 x28 =>
  Add64 x29 x26 0x0 fun x30 x31 =>
  Add64 x27 x24 x31 fun x32 x33 =>
  Add64 x25 x22 x33 fun x34 x35 =>
  Plus x35 x23 fun x36 =>
  Add64 x11 x28 0x0 fun y4 x38 =>
  Add64 x13 x30 x38 fun x39 x40 =>
  Add64 x15 x32 x40 fun x41 x42 =>
  Add64 x17 x34 x42 fun x43 x44 =>
  Add64 x19 x36 x44 fun x45 x46 =>
  Mul64 a.l1 a.l3 fun x48 x47 =>
  Mul64 a.l1 a.l2 fun x50 x49 =>
  Mul64 a.l1 a.l1 fun x52 x51 =>
  Mul64 a.l1 a.l0 fun x54 x53 =>
  Add64 x54 x51 0x0 fun x55 x56 =>
  Add64 x52 x49 x56 fun x57 x58 =>
  Add64 x50 x47 x58 fun x59 x60 =>
  Plus x60 x48 fun x61 =>
  Add64 x39 x53 0x0 fun x62 x63 =>
  Add64 x41 x55 x63 fun x64 x65 =>
  Add64 x43 x57 x65 fun x66 x67 =>
  Add64 x45 x59 x67 fun x68 x69 =>
  Add64 x46 x61 x69 fun x70 x71 =>
  Mul64 x62 0xd838091dd2253531 fun y6 x72 =>
  Mul64 x72 0xffffffffffffffff fun x75 x74 =>
  Mul64 x72 0xffffffffffffffff fun x77 x76 =>
  Mul64 x72 0xffffffffffffffff fun x79 x78 =>
  Mul64 x72 0xfffffffefffffc2f fun x81 x80 =>
  Add64 x81 x78 0x0 fun x82 x83 =>
  Add64 x79 x76 x83 fun x84 x85 =>
  Add64 x77 x74 x85 fun x86 x87 =>
  Plus x87 x75 fun x88 =>
  Add64 x62 x80 0x0 fun y8 x90 =>
  Add64 x64 x82 x90 fun x91 x92 =>
  Add64 x66 x84 x92 fun x93 x94 =>
  Add64 x68 x86 x94 fun x95 x96 =>
  Add64 x70 x88 x96 fun x97 x98 =>
  Plus x98 x71 fun x99 =>
  Mul64 a.l2 a.l3 fun x101 x100 =>
  Mul64 a.l2 a.l2 fun x103 x102 =>
  Mul64 a.l2 a.l1 fun x105 x104 =>
  Mul64 a.l2 a.l0 fun x107 x106 =>
  Add64 x107 x104 0x0 fun x108 x109 =>
  Add64 x105 x102 x109 fun x110 x111 =>
  Add64 x103 x100 x111 fun x112 x113 =>
  Plus x113 x101 fun x114 =>
  Add64 x91 x106 0x0 fun x115 x116 =>
  Add64 x93 x108 x116 fun x117 x118 =>
  Add64 x95 x110 x118 fun x119 x120 =>
  Add64 x97 x112 x120 fun x121 x122 =>
  Add64 x99 x114 x122 fun x123 x124 =>
  Mul64 x115 0xd838091dd2253531 fun y11 x125 =>
  Mul64 x125 0xffffffffffffffff fun x128 x127 =>
  Mul64 x125 0xffffffffffffffff fun x130 x129 =>
  Mul64 x125 0xffffffffffffffff fun x132 x131 =>
  Mul64 x125 0xfffffffefffffc2f fun x134 x133 =>
  Add64 x134 x131 0x0 fun x135 x136 =>
  Add64 x132 x129 x136 fun x137 x138 =>
  Add64 x130 x127 x138 fun x139 x140 =>
  Plus x140 x128 fun x141 =>
  Add64 x115 x133 0x0 fun y13 x143 =>
  Add64 x117 x135 x143 fun x144 x145 =>
  Add64 x119 x137 x145 fun x146 x147 =>
  Add64 x121 x139 x147 fun x148 x149 =>
  Add64 x123 x141 x149 fun x150 x151 =>
  Plus x151 x124 fun x152 =>
  Mul64 a.l3 a.l3 fun x154 x153 =>
  Mul64 a.l3 a.l2 fun x156 x155 =>
  Mul64 a.l3 a.l1 fun x158 x157 =>
  Mul64 a.l3 a.l0 fun x160 x159 =>
  Add64 x160 x157 0x0 fun x161 x162 =>
  Add64 x158 x155 x162 fun x163 x164 =>
  Add64 x156 x153 x164 fun x165 x166 =>
  Plus x166 x154 fun x167 =>
  Add64 x144 x159 0x0 fun x168 x169 =>
  Add64 x146 x161 x169 fun x170 x171 =>
  Add64 x148 x163 x171 fun x172 x173 =>
  Add64 x150 x165 x173 fun x174 x175 =>
  Add64 x152 x167 x175 fun x176 x177 =>
  Mul64 x168 0xd838091dd2253531 fun y16 x178 =>
  Mul64 x178 0xffffffffffffffff fun x181 x180 =>
  Mul64 x178 0xffffffffffffffff fun x183 x182 =>
  Mul64 x178 0xffffffffffffffff fun x185 x184 =>
  Mul64 x178 0xfffffffefffffc2f fun x187 x186 =>
  Add64 x187 x184 0x0 fun x188 x189 =>
  Add64 x185 x182 x189 fun x190 x191 =>
  Add64 x183 x180 x191 fun x192 x193 =>
  Plus x193 x181 fun x194 =>
  Add64 x168 x186 0x0 fun y18 x196 =>
  Add64 x170 x188 x196 fun x197 x198 =>
  Add64 x172 x190 x198 fun x199 x200 =>
  Add64 x174 x192 x200 fun x201 x202 =>
  Add64 x176 x194 x202 fun x203 x204 =>
  Plus x204 x177 fun x205 =>
  Sub64 x197 0xfffffffefffffc2f 0x0 fun x206 x207 =>
  Sub64 x199 0xffffffffffffffff x207 fun x208 x209 =>
  Sub64 x201 0xffffffffffffffff x209 fun x210 x211 =>
  Sub64 x203 0xffffffffffffffff x211 fun x212 x213 =>
  Sub64 x205 0x0 x213 fun y20 x215 =>
  Cmov x215 x206 x197 fun x216 =>
  Cmov x215 x208 x199 fun x217 =>
  Cmov x215 x210 x201 fun x218 =>
  Cmov x215 x212 x203 fun x219 =>
  L4.mk x216 x217 x218 x219

/-- `Add` (crypto/core/curves/native/k256/fp/secp256k1_fp.go:748-787). -/
def add (a b : L4) : L4 :=
  Add64 a.l0 b.l0 0x0 fun x1 x2 =>
  Add64 a.l1 b.l1 x2 fun x3 x4 =>
  Add64 a.l2 b.l2 x4 fun x5 x6 =>
  Add64 a.l3 b.l3 x6 fun x7 x8 =>
  Sub64 x1 0xfffffffefffffc2f 0x0 fun x9 x10 =>
  Sub64 x3 0xffffffffffffffff x10 fun x11 x12 =>
  Sub64 x5 0xffffffffffffffff x12 fun x13 x14 =>
  Sub64 x7 0xffffffffffffffff x14 fun x15 x16 =>
  Sub64 x8 0x0 x16 fun y1 x18 =>
  Cmov x18 x9 x1 fun x19 =>
  Cmov x18 x11 x3 fun x20 =>
  Cmov x18 x13 x5 fun x21 =>
  Cmov x18 x15 x7 fun x22 =>
  L4.mk x19 x20 x21 x22

/-- `Sub` (crypto/core/curves/native/k256/fp/secp256k1_fp.go:800-830). -/
def sub (a b : L4) : L4 :=
  Sub64 a.l0 b.l0 0x0 fun x1 x2 =>
  Sub64 a.l1 b.l1 x2 fun x3 x4 =>
  Sub64 a.l2 b.l2 x4 fun x5 x6 =>
  Sub64 a.l3 b.l3 x6 fun x7 x8 =>
  Cmov x8 0x0 0xffffffffffffffff fun x9 =>
  And x9 0xfffffffefffffc2f fun y1 =>
  Add64 x1 y1 0x0 fun x10 x11 =>
  Add64 x3 x9 x11 fun x12 x13 =>
  Add64 x5 x9 x13 fun x14 x15 =>
  Add64 x7 x9 x15 fun x16 y2 =>
  L4.mk x10 x12 x14 x16

/-- `Opp` (crypto/core/curves/native/k256/fp/secp256k1_fp.go:842-872). -/
def opp (a : L4) : L4 :=
  Sub64 0x0 a.l0 0x0 fun x1 x2 =>
  Sub64 0x0 a.l1 x2 fun x3 x4 =>
  Sub64 0x0 a.l2 x4 fun x5 x6 =>
  Sub64 0x0 a.l3 x6 fun x7 x8 =>
  Cmov x8 0x0 0xffffffffffffffff fun x9 =>
  And x9 0xfffffffefffffc2f fun y1 =>
  Add64 x1 y1 0x0 fun x10 x11 =>
  Add64 x3 x9 x11 fun x12 x13 =>
  Add64 x5 x9 x13 fun x14 x15 =>
  Add64 x7 x9 x15 fun x16 y2 =>
  L4.mk x10 x12 x14 x16

/-- `FromMontgomery` (crypto/core/curves/native/k256/fp/secp256k1_fp.go:884-1096). -/
def fromMont (a : L4) : L4 :=
  Mul64 a.l0 0xd838091dd2253531 fun y1 x2 =>
  Mul64 x2 0xffffffffffffffff fun x5 x4 =>
  Mul64 x2 0xffffffffffffffff fun x7 x6 =>
  Mul64 x2 0xffffffffffffffff fun x9 x8 =>
  Mul64 x2 0xfffffffefffffc2f fun x11 x10 =>
  Add64 x11 x8 0x0 fun x12 x13 =>
  Add64 x9 x6 x13 fun x14 x15 =>
  Add64 x7 x4 x15 fun x16 x17 =>
  Add64 a.l0 x10 0x0 fun y2 x19 =>
  Add64 0x0 x12 x19 fun x20 x21 =>
  Add64 0x0 x14 x21 fun x22 x23 =>
  Add64 0x0 x16 x23 fun x24 x25 =>
  Plus x17 x5 fun y3 =>
  Add64 0x0 y3 x25 fun x26 x27 =>
  Add64 x20 a.l1 0x0 fun x28 x29 =>
  Add64 x22 0x0 x29 fun x30 x31 =>
  Add64 x24 0x0 x31 fun x32 x33 =>
  Add64 x26 0x0 x33 fun x34 x35 =>
  Mul64 x28 0xd838091dd2253531 fun y4 x36 =>
  Mul64 x36 0xffffffffffffffff fun x39 x38 =>
  Mul64 x36 0xffffffffffffffff fun x41 x40 =>
  Mul64 x36 0xffffffffffffffff fun x43 x42 =>
  Mul64 x36 0xfffffffefffffc2f fun x45 x44 =>
  Add64 x45 x42 0x0 fun x46 x47 =>
  Add64 x43 x40 x47 fun x48 x49 =>
  Add64 x41 x38 x49 fun x50 x51 =>
  Add64 x28 x44 0x0 fun y5 x53 =>
  Add64 x30 x46 x53 fun x54 x55 =>
  Add64 x32 x48 x55 fun x56 x57 =>
  Add64 x34 x50 x57 fun x58 x59 =>
  Plus x35 x27 fun y6 =>
  Plus x51 x39 fun y7 =>
  Add64 y6 y7 x59 fun x60 x61 =>
  Add64 x54 a.l2 0x0 fun x62 x63 =>
  Add64 x56 0x0 x63 fun x64 x65 =>
  Add64 x58 0x0 x65 fun x66 x67 =>
  Add64 x60 0x0 x67 fun x68 x69 =>
  Mul64 x62 0xd838091dd2253531 fun y8 x70 =>
  Mul64 x70 0xffffffffffffffff fun x73 x72 =>
  Mul64 x70 0xffffffffffffffff fun x75 x74 =>
  Mul64 x70 0xffffffffffffffff fun x77 x76 =>
  Mul64 x70 0xfffffffefffffc2f fun x79 x78 =>
  Add64 x79 x76 0x0 fun x80 x81 =>
  Add64 x77 x74 x81 fun x82 x83 =>
  Add64 x75 x72 x83 fun x84 x85 =>
  Add64 x62 x78 0x0 fun y9 x87 =>
  Add64 x64 x80 x87 fun x88 x89 =>
  Add64 x66 x82 x89 fun x90 x91 =>
  Add64 x68 x84 x91 fun x92 x93 =>
  Plus x69 x61 fun y10 =>
  Plus x85 x73 fun y11 =>
  Add64 y10 y11 x93 fun x94 x95 =>
  Add64 x88 a.l3 0x0 fun x96 x97 =>
  Add64 x90 0x0 x97 fun x98 x99 =>
  Add64 x92 0x0 x99 fun x100 x101 =>
  Add64 x94 0x0 x101 fun x102 x103 =>
  Mul64 x96 0xd838091dd2253531 fun y12 x104 =>
  Mul64 x104 0xffffffffffffffff fun x107 x106 =>
  Mul64 x104 0xffffffffffffffff fun x109 x108 =>
  Mul64 x104 0xffffffffffffffff fun x111 x110 =>
  Mul64 x104 0xfffffffefffffc2f fun x113 x112 =>
  Add64 x113 x110 0x0 fun x114 x115 =>
  Add64 x111 x108 x115 fun x116 x117 =>
  Add64 x109 x106 x117 fun x118 x119 =>
  Add64 x96 x112 0x0 fun y13 x121 =>
  Add64 x98 x114 x121 fun x122 x123 =>
  Add64 x100 x116 x123 fun x124 x125 =>
  Add64 x102 x118 x125 fun x126 x127 =>
  Plus x103 x95 fun y14 =>
  Plus x119 x107 fun y15 =>
  Add64 y14 y15 x127 fun x128 x129 =>
  Sub64 x122 0xfffffffefffffc2f 0x0 fun x130 x131 =>
  Sub64 x124 0xffffffffffffffff x131 fun x132 x133 =>
  Sub64 x126 0xffffffffffffffff x133 fun x134 x135 =>
  Sub64 x128 0xffffffffffffffff x135 fun x136 x137 =>
  Sub64 x129 0x0 x137 fun y16 x139 =>
  Cmov x139 x130 x122 fun x140 =>
  Cmov x139 x132 x124 fun x141 =>
  Cmov x139 x134 x126 fun x142 =>
  Cmov x139 x136 x128 fun x143 =>
  L4.mk x140 x141 x142 x143

/-- `ToMontgomery` (crypto/core/curves/native/k256/fp/secp256k1_fp.go:1108-1347). -/
def toMont (a : L4) : L4 :=
  Mul64 a.l0 0x7a2000e90a1 fun x6 x5 =>
  Add64 x6 a.l0 0x0 fun x7 x8 =>
  Mul64 x5 0xd838091dd2253531 fun y1 x9 =>
  Mul64 x9 0xffffffffffffffff fun x12 x11 =>
  Mul64 x9 0xffffffffffffffff fun x14 x13 =>
  Mul64 x9 0xffffffffffffffff fun x16 x15 =>
  Mul64 x9 0xfffffffefffffc2f fun x18 x17 =>
  Add64 x18 x15 0x0 fun x19 x20 =>
  Add64 x16 x13 x20 fun x21 x22 =>
  Add64 x14 x11 x22 fun x23 x24 =>
  Add64 x5 x17 0x0 fun y2 x26 =>
  Add64 x7 x19 x26 fun x27 x28 =>
  Add64 x8 x21 x28 fun x29 x30 =>
  Add64 0x0 x23 x30 fun x31 x32 =>
  Plus x24 x12 fun y3 =>
  Add64 0x0 y3 x32 fun x33 x34 =>
  Mul64 a.l1 0x7a2000e90a1 fun x36 x35 =>
  Add64 x36 a.l1 0x0 fun x37 x38 =>
  Add64 x27 x35 0x0 fun x39 x40 =>
  Add64 x29 x37 x40 fun x41 x42 =>
  Add64 x31 x38 x42 fun x43 x44 =>
  Add64 x33 0x0 x44 fun x45 x46 =>
  Mul64 x39 0xd838091dd2253531 fun y4 x47 =>
  Mul64 x47 0xffffffffffffffff fun x50 x49 =>
  Mul64 x47 0xffffffffffffffff fun x52 x51 =>
  Mul64 x47 0xffffffffffffffff fun x54 x53 =>
  Mul64 x47 0xfffffffefffffc2f fun x56 x55 =>
  Add64 x56 x53 0x0 fun x57 x58 =>
  Add64 x54 x51 x58 fun x59 x60 =>
  Add64 x52 x49 x60 fun x61 x62 =>
  Add64 x39 x55 0x0 fun y5 x64 =>
  Add64 x41 x57 x64 fun x65 x66 =>
  Add64 x43 x59 x66 fun x67 x68 =>
  Add64 x45 x61 x68 fun x69 x70 =>
  Plus x46 x34 fun y6 =>
  Plus x62 x50 fun y7 =>
  Add64 y6 y7 x70 fun x71 x72 =>
  Mul64 a.l2 0x7a2000e90a1 fun x74 x73 =>
  Add64 x74 a.l2 0x0 fun x75 x76 =>
  Add64 x65 x73 0x0 fun x77 x78 =>
  Add64 x67 x75 x78 fun x79 x80 =>
  Add64 x69 x76 x80 fun x81 x82 =>
  Add64 x71 0x0 x82 fun x83 x84 =>
  Mul64 x77 0xd838091dd2253531 fun y8 x85 =>
  Mul64 x85 0xffffffffffffffff fun x88 x87 =>
  Mul64 x85 0xffffffffffffffff fun x90 x89 =>
  Mul64 x85 0xffffffffffffffff fun x92 x91 =>
  Mul64 x85 0xfffffffefffffc2f fun x94 x93 =>
  Add64 x94 x91 0x0 fun x95 x96 =>
  Add64 x92 x89 x96 fun x97 x98 =>
  Add64 x90 x87 x98 fun x99 x100 =>
  Add64 x77 x93 0x0 fun y9 x102 =>
  Add64 x79 x95 x102 fun x103 x104 =>
  Add64 x81 x97 x104 fun x105 x106 =>
  Add64 x83 x99 x106 fun x107 x108 =>
  Plus x84 x72 fun y10 =>
  Plus x100 x88 fun y11 =>
  Add64 y10 y11 x108 fun x109 x110 =>
  Mul64 a.l3 0x7a2000e90a1 fun x112 x111 =>
  Add64 x112 a.l3 0x0 fun x113 x114 =>
  Add64 x103 x111 0x0 fun x115 x116 =>
  Add64 x105 x113 x116 fun x117 x118 =>
  Add64 x107 x114 x118 fun x119 x120 =>
  Add64 x109 0x0 x120 fun x121 x122 =>
  Mul64 x115 0xd838091dd2253531 fun y12 x123 =>
  Mul64 x123 0xffffffffffffffff fun x126 x125 =>
  Mul64 x123 0xffffffffffffffff fun x128 x127 =>
  Mul64 x123 0xffffffffffffffff fun x130 x129 =>
  Mul64 x123 0xfffffffefffffc2f fun x132 x131 =>
  Add64 x132 x129 0x0 fun x133 x134 =>
  Add64 x130 x127 x134 fun x135 x136 =>
  Add64 x128 x125 x136 fun x137 x138 =>
  Add64 x115 x131 0x0 fun y13 x140 =>
  Add64 x117 x133 x140 fun x141 x142 =>
  Add64 x119 x135 x142 fun x143 x144 =>
  Add64 x121 x137 x144 fun x145 x146 =>
  Plus x122 x110 fun y14 =>
  Plus x138 x126 fun y15 =>
  Add64 y14 y15 x146 fun x147 x148 =>
  Sub64 x141 0xfffffffefffffc2f 0x0 fun x149 x150 =>
  Sub64 x143 0xffffffffffffffff x150 fun x151 x152 =>
  Sub64 x145 0xffffffffffffffff x152 fun x153 x154 =>
  Sub64 x147 0xffffffffffffffff x154 fun x155 x156 =>
  Sub64 x148 0x0 x156 fun y16 x158 =>
  Cmov x158 x149 x141 fun x159 =>
  Cmov x158 x151 x143 fun x160 =>
  Cmov x158 x153 x145 fun x161 =>
  Cmov x158 x155 x147 fun x162 =>
  L4.mk x159 x160 x161 x162

end Verif.Native.K256Fp
