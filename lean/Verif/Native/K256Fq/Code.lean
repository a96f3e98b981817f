import Verif.Native.Word

/-!
# Generated code of `crypto/core/curves/native/k256/fq/secp256k1_fq.go`

Translated statement by statement by `tools/gofield.py`; see `Verif.Native.Word` for the instructions.
-/

namespace Verif.Native.K256Fq

set_option maxRecDepth 100000
set_option linter.unusedVariables false

/-- `Mul` (crypto/core/curves/native/k256/fq/secp256k1_fq.go:85-404). -/
def mul (a b : L4) : L4 :=
  Mul64 a.l0 b.l3 fun x6 x5 =>
  Mul64 a.l0 b.l2 fun x8 x7 =>
  Mul64 a.l0 b.l1 fun x10 x9 =>
  Mul64 a.l0 b.l0 fun x12 x11 =>
  Add64 x12 x9 0x0 fun x13 x14 =>
  Add64 x10 x7 x14 fun x15 x16 =>
  Add64 x8 x5 x16 fun x17 x18 =>
  Plus x18 x6 fun x19 =>
  Mul64 x11 0x4b0dff665588b13f fun y2 x20 =>
  Mul64 x20 0xffffffffffffffff fun x23 x22 =>
  Mul64 x20 0xfffffffffffffffe fun x25 x24 =>
  Mul64 x20 0xbaaedce6af48a03b fun x27 x26 =>
  Mul64 x20 0xbfd25e8cd0364141 fun x29 x28 =>
  Add64 x29 x26 0x0 fun x30 x31 =>
  Add64 x27 x24 x31 fun x32 x33 =>
  Add64 x25 x22 x33 fun x34 x35 =>
  Plus x35 x23 fun x36 =>
  Add64 x11 x28 0x0 fun y4 x38 =>
  Add64 x13 x30 x38 fun x39 x40 =>
  Add64 x15 x32 x40 fun x41 x42 =>
  Add64 x17 x34 x42 fun x43 x44 =>
  Add64 x19 x36 x44 fun x45 x46 =>
  Mul64 a.l1 b.l3 fun x48 x47 =>
  Mul64 a.l1 b.l2 fun x50 x49 =>
  Mul64 a.l1 b.l1 fun x52 x51 =>
  Mul64 a.l1 b.l0 fun x54 x53 =>
  Add64 x54 x51 0x0 fun x55 x56 =>
  Add64 x52 x49 x56 fun x57 x58 =>
  Add64 x50 x47 x58 fun x59 x60 =>
  Plus x60 x48 fun x61 =>
  Add64 x39 x53 0x0 fun x62 x63 =>
  Add64 x41 x55 x63 fun x64 x65 =>
  Add64 x43 x57 x65 fun x66 x67 =>
  Add64 x45 x59 x67 fun x68 x69 =>
  Add64 x46 x61 x69 fun x70 x71 =>
  Mul64 x62 0x4b0dff665588b13f fun y6 x72 =>
  Mul64 x72 0xffffffffffffffff fun x75 x74 =>
  Mul64 x72 0xfffffffffffffffe fun x77 x76 =>
  Mul64 x72 0xbaaedce6af48a03b fun x79 x78 =>
  Mul64 x72 0xbfd25e8cd0364141 fun x81 x80 =>
  Add64 x81 x78 0x0 fun x82 x83 =>
  Add64 x79 x76 x83 fun x84 x85 =>
  Add64 x77 x74 x85 fun x86 x87 =>
  Plus x87 x75 fun x88 =>
  Add64 x62 x80 0x0 fun y8 x90 =>
  Add64 x64 x82 x90 fun x91 x92 =>
  Add64 x66 x84 x92 fun x93 x94 =>
  Add64 x68 x86 x94 fun x95 x96 =>
  Add64 x70 x88 x96 fun x97 x98 =>
  Plus x98 x71 fun x99 =>
  Mul64 a.l2 b.l3 fun x101 x100 =>
  Mul64 a.l2 b.l2 fun x103 x102 =>
  Mul64 a.l2 b.l1 fun x105 x104 =>
  Mul64 a.l2 b.l0 fun x107 x106 =>
  Add64 x107 x104 0x0 fun x108 x109 =>
  Add64 x105 x102 x109 fun x110 x111 =>
  Add64 x103 x100 x111 fun x112 x113 =>
  Plus x113 x101 fun x114 =>
  Add64 x91 x106 0x0 fun x115 x116 =>
  Add64 x93 x108 x116 fun x117 x118 =>
  Add64 x95 x110 x118 fun x119 x120 =>
  Add64 x97 x112 x120 fun x121 x122 =>
  Add64 x99 x114 x122 fun x123 x124 =>
  Mul64 x115 0x4b0dff665588b13f fun y11 x125 =>
  Mul64 x125 0xffffffffffffffff fun x128 x127 =>
  Mul64 x125 0xfffffffffffffffe fun x130 x129 =>
  Mul64 x125 0xbaaedce6af48a03b fun x132 x131 =>
  Mul64 x125 0xbfd25e8cd0364141 fun x134 x133 =>
  Add64 x134 x131 0x0 fun x135 x136 =>
  Add64 x132 x129 x136 fun x137 x138 =>
  Add64 x130 x127 x138 fun x139 x140 =>
  Plus x140 x128 fun x141 =>
  Add64 x115 x133 0x0 fun y13 x143 =>
  Add64 x117 x135 x143 fun x144 x145 =>
  Add64 x119 x137 x145 fun x146 x147 =>
  Add64 x121 x139 x147 fun x148 x149 =>
  Add64 x123 x141 x149 fun x150 x151 =>
  Plus x151 x124 fun x152 =>
  Mul64 a.l3 b.l3 fun x154 x153 =>
  Mul64 a.l3 b.l2 fun x156 x155 =>
  Mul64 a.l3 b.l1 fun x158 x157 =>
  Mul64 a.l3 b.l0 fun x160 x159 =>
  Add64 x160 x157 0x0 fun x161 x162 =>
  Add64 x158 x155 x162 fun x163 x164 =>
  Add64 x156 x153 x164 fun x165 x166 =>
  Plus x166 x154 fun x167 =>
  Add64 x144 x159 0x0 fun x168 x169 =>
  Add64 x146 x161 x169 fun x170 x171 =>
  Add64 x148 x163 x171 fun x172 x173 =>
  Add64 x150 x165 x173 fun x174 x175 =>
  Add64 x152 x167 x175 fun x176 x177 =>
  Mul64 x168 0x4b0dff665588b13f fun y16 x178 =>
  Mul64 x178 0xffffffffffffffff fun x181 x180 =>
  Mul64 x178 0xfffffffffffffffe fun x183 x182 =>
  Mul64 x178 0xbaaedce6af48a03b fun x185 x184 =>
  Mul64 x178 0xbfd25e8cd0364141 fun x187 x186 =>
  Add64 x187 x184 0x0 fun x188 x189 =>
  Add64 x185 x182 x189 fun x190 x191 =>
  Add64 x183 x180 x191 fun x192 x193 =>
  Plus x193 x181 fun x194 =>
  Add64 x168 x186 0x0 fun y18 x196 =>
  Add64 x170 x188 x196 fun x197 x198 =>
  Add64 x172 x190 x198 fun x199 x200 =>
  Add64 x174 x192 x200 fun x201 x202 =>
  Add64 x176 x194 x202 fun x203 x204 =>
  Plus x204 x177 fun x205 =>
  Sub64 x197 0xbfd25e8cd0364141 0x0 fun x206 x207 =>
  Sub64 x199 0xbaaedce6af48a03b x207 fun x208 x209 =>
  Sub64 x201 0xfffffffffffffffe x209 fun x210 x211 =>
  Sub64 x203 0xffffffffffffffff x211 fun x212 x213 =>
  Sub64 x205 0x0 x213 fun y20 x215 =>
  Cmov x215 x206 x197 fun x216 =>
  Cmov x215 x208 x199 fun x217 =>
  Cmov x215 x210 x201 fun x218 =>
  Cmov x215 x212 x203 fun x219 =>
  L4.mk x216 x217 x218 x219

/-- `Square` (crypto/core/curves/native/k256/fq/secp256k1_fq.go:416-735). -/
def square (a : L4) : L4 :=
  Mul64 a.l0 a.l3 fun x6 x5 =>
  Mul64 a.l0 a.l2 fun x8 x7 =>
  Mul64 a.l0 a.l1 fun x10 x9 =>
  Mul64 a.l0 a.l0 fun x12 x11 =>
  Add64 x12 x9 0x0 fun x13 x14 =>
  Add64 x10 x7 x14 fun x15 x16 =>
  Add64 x8 x5 x16 fun x17 x18 =>
  Plus x18 x6 fun x19 =>
  Mul64 x11 0x4b0dff665588b13f fun y2 x20 =>
  Mul64 x20 0xffffffffffffffff fun x23 x22 =>
  Mul64 x20 0xfffffffffffffffe fun x25 x24 =>
  Mul64 x20 0xbaaedce6af48a03b fun x27 x26 =>
  Mul64 x20 0xbfd25e8cd0364141 fun x29 x28 =>
  Add64 x29 x26 0x0 fun x30 x31 =>
  Add64 x27 x24 x31 fun x32 x33 =>
  Add64 x25 x22 x33 fun x34 x35 =>
  Plus x35 x23 fun x36 =>
  Add64 x11 x28 0x0 fun y4 x38 =>
  Add64 x13 x30 x38 fun x39 x40 =>
  Add64 x15 x32 x40 fun x41 x42 =>
  Add64 x17 x34 x42 fun x43 x44 =>
  Add64 x19 x36 x44 fun x45 x46 =>
  Mul64 a.l1 a.l3 fun x48 x47 =>
  Mul64 a.l1 a.l2 fun x50 x49 =>
  Mul64 a.l1 a.l1 fun x52 x51 =>
  Mul64 a.l1 a.l0 fun x54 x53 =>
  Add64 x54 x51 0x0 fun x55 x56 =>
  Add64 x52 x49 x56 fun x57 x58 =>
  Add64 x50 x47 x58 fun x59 x60 =>
  Plus x60 x48 fun x61 =>
  Add64 x39 x53 0x0 fun x62 x63 =>
  Add64 x41 x55 x63 fun x64 x65 =>
  Add64 x43 x57 x65 fun x66 x67 =>
  Add64 x45 x59 x67 fun x68 x69 =>
  Add64 x46 x61 x69 fun x70 x71 =>
  Mul64 x62 0x4b0dff665588b13f fun y6 x72 =>
  Mul64 x72 0xffffffffffffffff fun x75 x74 =>
  Mul64 x72 0xfffffffffffffffe fun x77 x76 =>
  Mul64 x72 0xbaaedce6af48a03b fun x79 x78 =>
  Mul64 x72 0xbfd25e8cd0364141 fun x81 x80 =>
  Add64 x81 x78 0x0 fun x82 x83 =>
  Add64 x79 x76 x83 fun x84 x85 =>
  Add64 x77 x74 x85 fun x86 x87 =>
  Plus x87 x75 fun x88 =>
  Add64 x62 x80 0x0 fun y8 x90 =>
  Add64 x64 x82 x90 fun x91 x92 =>
  Add64 x66 x84 x92 fun x93 x94 =>
  Add64 x68 x86 x94 fun x95 x96 =>
  Add64 x70 x88 x96 fun x97 x98 =>
  Plus x98 x71 fun x99 =>
  Mul64 a.l2 a.l3 fun x101 x100 =>
  Mul64 a.l2 a.l2 fun x103 x102 =>
  Mul64 a.l2 a.l1 fun x105 x104 =>
  Mul64 a.l2 a.l0 fun x107 x106 =>
  Add64 x107 x104 0x0 fun x108 x109 =>
  Add64 x105 x102 x109 fun x110 x111 =>
  Add64 x103 x100 x111 fun x112 x113 =>
  Plus x113 x101 fun x114 =>
  Add64 x91 x106 0x0 fun x115 x116 =>
  Add64 x93 x108 x116 fun x117 x118 =>
  Add64 x95 x110 x118 fun x119 x120 =>
  Add64 x97 x112 x120 fun x121 x122 =>
  Add64 x99 x114 x122 fun x123 x124 =>
  Mul64 x115 0x4b0dff665588b13f fun y11 x125 =>
  Mul64 x125 0xffffffffffffffff fun x128 x127 =>
  Mul64 x125 0xfffffffffffffffe fun x130 x129 =>
  Mul64 x125 0xbaaedce6af48a03b fun x132 x131 =>
  Mul64 x125 0xbfd25e8cd0364141 fun x134 x133 =>
  Add64 x134 x131 0x0 fun x135 x136 =>
  Add64 x132 x129 x136 fun x137 x138 =>
  Add64 x130 x127 x138 fun x139 x140 =>
  Plus x140 x128 fun x141 =>
  Add64 x115 x133 0x0 fun y13 x143 =>
  Add64 x117 x135 x143 fun x144 x145 =>
  Add64 x119 x137 x145 fun x146 x147 =>
  Add64 x121 x139 x147 fun x148 x149 =>
  Add64 x123 x141 x149 fun x150 x151 =>
  Plus x151 x124 fun x152 =>
  Mul64 a.l3 a.l3 fun x154 x153 =>
  Mul64 a.l3 a.l2 fun x156 x155 =>
  Mul64 a.l3 a.l1 fun x158 x157 =>
  Mul64 a.l3 a.l0 fun x160 x159 =>
  Add64 x160 x157 0x0 fun x161 x162 =>
  Add64 x158 x155 x162 fun x163 x164 =>
  Add64 x156 x153 x164 fun x165 x166 =>
  Plus x166 x154 fun x167 =>
  Add64 x144 x159 0x0 fun x168 x169 =>
  Add64 x146 x161 x169 fun x170 x171 =>
  Add64 x148 x163 x171 fun x172 x173 =>
  Add64 x150 x165 x173 fun x174 x175 =>
  Add64 x152 x167 x175 fun x176 x177 =>
  Mul64 x168 0x4b0dff665588b13f fun y16 x178 =>
  Mul64 x178 0xffffffffffffffff fun x181 x180 =>
  Mul64 x178 0xfffffffffffffffe fun x183 x182 =>
  Mul64 x178 0xbaaedce6af48a03b fun x185 x184 =>
  Mul64 x178 0xbfd25e8cd0364141 fun x187 x186 =>
  Add64 x187 x184 0x0 fun x188 x189 =>
  Add64 x185 x182 x189 fun x190 x191 =>
  Add64 x183 x180 x191 fun x192 x193 =>
  Plus x193 x181 fun x194 =>
  Add64 x168 x186 0x0 fun y18 x196 =>
  Add64 x170 x188 x196 fun x197 x198 =>
  Add64 x172 x190 x198 fun x199 x200 =>
  Add64 x174 x192 x200 fun x201 x202 =>
  Add64 x176 x194 x202 fun x203 x204 =>
  Plus x204 x177 fun x205 =>
  Sub64 x197 0xbfd25e8cd0364141 0x0 fun x206 x207 =>
  Sub64 x199 0xbaaedce6af48a03b x207 fun x208 x209 =>
  Sub64 x201 0xfffffffffffffffe x209 fun x210 x211 =>
  Sub64 x203 0xffffffffffffffff x211 fun x212 x213 =>
  Sub64 x205 0x0 x213 fun y20 x215 =>
  Cmov x215 x206 x197 fun x216 =>
  Cmov x215 x208 x199 fun x217 =>
  Cmov x215 x210 x201 fun x218 =>
  Cmov x215 x212 x203 fun x219 =>
  L4.mk x216 x217 x218 x219

/-- `Add` (crypto/core/curves/native/k256/fq/secp256k1_fq.go:748-787). -/
def add (a b : L4) : L4 :=
  Add64 a.l0 b.l0 0x0 fun x1 x2 =>
  Add64 a.l1 b.l1 x2 fun x3 x4 =>
  Add64 a.l2 b.l2 x4 fun x5 x6 =>
  Add64 a.l3 b.l3 x6 fun x7 x8 =>
  Sub64 x1 0xbfd25e8cd0364141 0x0 fun x9 x10 =>
  Sub64 x3 0xbaaedce6af48a03b x10 fun x11 x12 =>
  Sub64 x5 0xfffffffffffffffe x12 fun x13 x14 =>
  Sub64 x7 0xffffffffffffffff x14 fun x15 x16 =>
  Sub64 x8 0x0 x16 fun y1 x18 =>
  Cmov x18 x9 x1 fun x19 =>
  Cmov x18 x11 x3 fun x20 =>
  Cmov x18 x13 x5 fun x21 =>
  Cmov x18 x15 x7 fun x22 =>
  L4.mk x19 x20 x21 x22

/-- `Sub` (crypto/core/curves/native/k256/fq/secp256k1_fq.go:800-830). -/
def sub (a b : L4) : L4 :=
  Sub64 a.l0 b.l0 0x0 fun x1 x2 =>
  Sub64 a.l1 b.l1 x2 fun x3 x4 =>
  Sub64 a.l2 b.l2 x4 fun x5 x6 =>
  Sub64 a.l3 b.l3 x6 fun x7 x8 =>
  Cmov x8 0x0 0xffffffffffffffff fun x9 =>
  And x9 0xbfd25e8cd0364141 fun y1 =>
  Add64 x1 y1 0x0 fun x10 x11 =>
  And x9 0xbaaedce6af48a03b fun y2 =>
  Add64 x3 y2 x11 fun x12 x13 =>
  And x9 0xfffffffffffffffe fun y3 =>
  Add64 x5 y3 x13 fun x14 x15 =>
  Add64 x7 x9 x15 fun x16 y4 =>
  L4.mk x10 x12 x14 x16

/-- `Opp` (crypto/core/curves/native/k256/fq/secp256k1_fq.go:842-872). -/
def opp (a : L4) : L4 :=
  Sub64 0x0 a.l0 0x0 fun x1 x2 =>
  Sub64 0x0 a.l1 x2 fun x3 x4 =>
  Sub64 0x0 a.l2 x4 fun x5 x6 =>
  Sub64 0x0 a.l3 x6 fun x7 x8 =>
  Cmov x8 0x0 0xffffffffffffffff fun x9 =>
  And x9 0xbfd25e8cd0364141 fun y1 =>
  Add64 x1 y1 0x0 fun x10 x11 =>
  And x9 0xbaaedce6af48a03b fun y2 =>
  Add64 x3 y2 x11 fun x12 x13 =>
  And x9 0xfffffffffffffffe fun y3 =>
  Add64 x5 y3 x13 fun x14 x15 =>
  Add64 x7 x9 x15 fun x16 y4 =>
  L4.mk x10 x12 x14 x16

/-- `FromMontgomery` (crypto/core/curves/native/k256/fq/secp256k1_fq.go:884-1096). -/
def fromMont (a : L4) : L4 :=
  Mul64 a.l0 0x4b0dff665588b13f fun y1 x2 =>
  Mul64 x2 0xffffffffffffffff fun x5 x4 =>
  Mul64 x2 0xfffffffffffffffe fun x7 x6 =>
  Mul64 x2 0xbaaedce6af48a03b fun x9 x8 =>
  Mul64 x2 0xbfd25e8cd0364141 fun x11 x10 =>
  Add64 x11 x8 0x0 fun x12 x13 =>
  Add64 x9 x6 x13 fun x14 x15 =>
  Add64 x7 x4 x15 fun x16 x17 =>
  Add64 a.l0 x10 0x0 fun y2 x19 =>
  Add64 0x0 x12 x19 fun x20 x21 =>
  Add64 0x0 x14 x21 fun x22 x23 =>
  Add64 0x0 x16 x23 fun x24 x25 =>
  Plus x17 x5 fun y3 =>
  Add64 0x0 y3 x25 fun x26 x27 =>
  Add64 x20 a.l1 0x0 fun x28 x29 =>
  Add64 x22 0x0 x29 fun x30 x31 =>
  Add64 x24 0x0 x31 fun x32 x33 =>
  Add64 x26 0x0 x33 fun x34 x35 =>
  Mul64 x28 0x4b0dff665588b13f fun y4 x36 =>
  Mul64 x36 0xffffffffffffffff fun x39 x38 =>
  Mul64 x36 0xfffffffffffffffe fun x41 x40 =>
  Mul64 x36 0xbaaedce6af48a03b fun x43 x42 =>
  Mul64 x36 0xbfd25e8cd0364141 fun x45 x44 =>
  Add64 x45 x42 0x0 fun x46 x47 =>
  Add64 x43 x40 x47 fun x48 x49 =>
  Add64 x41 x38 x49 fun x50 x51 =>
  Add64 x28 x44 0x0 fun y5 x53 =>
  Add64 x30 x46 x53 fun x54 x55 =>
  Add64 x32 x48 x55 fun x56 x57 =>
  Add64 x34 x50 x57 fun x58 x59 =>
  Plus x35 x27 fun y6 =>
  Plus x51 x39 fun y7 =>
  Add64 y6 y7 x59 fun x60 x61 =>
  Add64 x54 a.l2 0x0 fun x62 x63 =>
  Add64 x56 0x0 x63 fun x64 x65 =>
  Add64 x58 0x0 x65 fun x66 x67 =>
  Add64 x60 0x0 x67 fun x68 x69 =>
  Mul64 x62 0x4b0dff665588b13f fun y8 x70 =>
  Mul64 x70 0xffffffffffffffff fun x73 x72 =>
  Mul64 x70 0xfffffffffffffffe fun x75 x74 =>
  Mul64 x70 0xbaaedce6af48a03b fun x77 x76 =>
  Mul64 x70 0xbfd25e8cd0364141 fun x79 x78 =>
  Add64 x79 x76 0x0 fun x80 x81 =>
  Add64 x77 x74 x81 fun x82 x83 =>
  Add64 x75 x72 x83 fun x84 x85 =>
  Add64 x62 x78 0x0 fun y9 x87 =>
  Add64 x64 x80 x87 fun x88 x89 =>
  Add64 x66 x82 x89 fun x90 x91 =>
  Add64 x68 x84 x91 fun x92 x93 =>
  Plus x69 x61 fun y10 =>
  Plus x85 x73 fun y11 =>
  Add64 y10 y11 x93 fun x94 x95 =>
  Add64 x88 a.l3 0x0 fun x96 x97 =>
  Add64 x90 0x0 x97 fun x98 x99 =>
  Add64 x92 0x0 x99 fun x100 x101 =>
  Add64 x94 0x0 x101 fun x102 x103 =>
  Mul64 x96 0x4b0dff665588b13f fun y12 x104 =>
  Mul64 x104 0xffffffffffffffff fun x107 x106 =>
  Mul64 x104 0xfffffffffffffffe fun x109 x108 =>
  Mul64 x104 0xbaaedce6af48a03b fun x111 x110 =>
  Mul64 x104 0xbfd25e8cd0364141 fun x113 x112 =>
  Add64 x113 x110 0x0 fun x114 x115 =>
  Add64 x111 x108 x115 fun x116 x117 =>
  Add64 x109 x106 x117 fun x118 x119 =>
  Add64 x96 x112 0x0 fun y13 x121 =>
  Add64 x98 x114 x121 fun x122 x123 =>
  Add64 x100 x116 x123 fun x124 x125 =>
  Add64 x102 x118 x125 fun x126 x127 =>
  Plus x103 x95 fun y14 =>
  Plus x119 x107 fun y15 =>
  Add64 y14 y15 x127 fun x128 x129 =>
  Sub64 x122 0xbfd25e8cd0364141 0x0 fun x130 x131 =>
  Sub64 x124 0xbaaedce6af48a03b x131 fun x132 x133 =>
  Sub64 x126 0xfffffffffffffffe x133 fun x134 x135 =>
  Sub64 x128 0xffffffffffffffff x135 fun x136 x137 =>
  Sub64 x129 0x0 x137 fun y16 x139 =>
  Cmov x139 x130 x122 fun x140 =>
  Cmov x139 x132 x124 fun x141 =>
  Cmov x139 x134 x126 fun x142 =>
  Cmov x139 x136 x128 fun x143 =>
  L4.mk x140 x141 x142 x143

/-- `ToMontgomery` (crypto/core/curves/native/k256/fq/secp256k1_fq.go:1108-1407). -/
def toMont (a : L4) : L4 :=
  Mul64 a.l0 0x9d671cd581c69bc5 fun x6 x5 =>
  Mul64 a.l0 0xe697f5e45bcd07c6 fun x8 x7 =>
  Mul64 a.l0 0x741496c20e7cf878 fun x10 x9 =>
  Mul64 a.l0 0x896cf21467d7d140 fun x12 x11 =>
  Add64 x12 x9 0x0 fun x13 x14 =>
  Add64 x10 x7 x14 fun x15 x16 =>
  Add64 x8 x5 x16 fun x17 x18 =>
  Mul64 x11 0x4b0dff665588b13f fun y1 x19 =>
  Mul64 x19 0xffffffffffffffff fun x22 x21 =>
  Mul64 x19 0xfffffffffffffffe fun x24 x23 =>
  Mul64 x19 0xbaaedce6af48a03b fun x26 x25 =>
  Mul64 x19 0xbfd25e8cd0364141 fun x28 x27 =>
  Add64 x28 x25 0x0 fun x29 x30 =>
  Add64 x26 x23 x30 fun x31 x32 =>
  Add64 x24 x21 x32 fun x33 x34 =>
  Add64 x11 x27 0x0 fun y2 x36 =>
  Add64 x13 x29 x36 fun x37 x38 =>
  Add64 x15 x31 x38 fun x39 x40 =>
  Add64 x17 x33 x40 fun x41 x42 =>
  Plus x18 x6 fun y3 =>
  Plus x34 x22 fun y4 =>
  Add64 y3 y4 x42 fun x43 x44 =>
  Mul64 a.l1 0x9d671cd581c69bc5 fun x46 x45 =>
  Mul64 a.l1 0xe697f5e45bcd07c6 fun x48 x47 =>
  Mul64 a.l1 0x741496c20e7cf878 fun x50 x49 =>
  Mul64 a.l1 0x896cf21467d7d140 fun x52 x51 =>
  Add64 x52 x49 0x0 fun x53 x54 =>
  Add64 x50 x47 x54 fun x55 x56 =>
  Add64 x48 x45 x56 fun x57 x58 =>
  Add64 x37 x51 0x0 fun x59 x60 =>
  Add64 x39 x53 x60 fun x61 x62 =>
  Add64 x41 x55 x62 fun x63 x64 =>
  Add64 x43 x57 x64 fun x65 x66 =>
  Mul64 x59 0x4b0dff665588b13f fun y5 x67 =>
  Mul64 x67 0xffffffffffffffff fun x70 x69 =>
  Mul64 x67 0xfffffffffffffffe fun x72 x71 =>
  Mul64 x67 0xbaaedce6af48a03b fun x74 x73 =>
  Mul64 x67 0xbfd25e8cd0364141 fun x76 x75 =>
  Add64 x76 x73 0x0 fun x77 x78 =>
  Add64 x74 x71 x78 fun x79 x80 =>
  Add64 x72 x69 x80 fun x81 x82 =>
  Add64 x59 x75 0x0 fun y6 x84 =>
  Add64 x61 x77 x84 fun x85 x86 =>
  Add64 x63 x79 x86 fun x87 x88 =>
  Add64 x65 x81 x88 fun x89 x90 =>
  Plus x66 x44 fun y7 =>
  Plus x58 x46 fun y8 =>
  Plus y7 y8 fun y9 =>
  Plus x82 x70 fun y10 =>
  Add64 y9 y10 x90 fun x91 x92 =>
  Mul64 a.l2 0x9d671cd581c69bc5 fun x94 x93 =>
  Mul64 a.l2 0xe697f5e45bcd07c6 fun x96 x95 =>
  Mul64 a.l2 0x741496c20e7cf878 fun x98 x97 =>
  Mul64 a.l2 0x896cf21467d7d140 fun x100 x99 =>
  Add64 x100 x97 0x0 fun x101 x102 =>
  Add64 x98 x95 x102 fun x103 x104 =>
  Add64 x96 x93 x104 fun x105 x106 =>
  Add64 x85 x99 0x0 fun x107 x108 =>
  Add64 x87 x101 x108 fun x109 x110 =>
  Add64 x89 x103 x110 fun x111 x112 =>
  Add64 x91 x105 x112 fun x113 x114 =>
  Mul64 x107 0x4b0dff665588b13f fun y11 x115 =>
  Mul64 x115 0xffffffffffffffff fun x118 x117 =>
  Mul64 x115 0xfffffffffffffffe fun x120 x119 =>
  Mul64 x115 0xbaaedce6af48a03b fun x122 x121 =>
  Mul64 x115 0xbfd25e8cd0364141 fun x124 x123 =>
  Add64 x124 x121 0x0 fun x125 x126 =>
  Add64 x122 x119 x126 fun x127 x128 =>
  Add64 x120 x117 x128 fun x129 x130 =>
  Add64 x107 x123 0x0 fun y12 x132 =>
  Add64 x109 x125 x132 fun x133 x134 =>
  Add64 x111 x127 x134 fun x135 x136 =>
  Add64 x113 x129 x136 fun x137 x138 =>
  Plus x114 x92 fun y13 =>
  Plus x106 x94 fun y14 =>
  Plus y13 y14 fun y15 =>
  Plus x130 x118 fun y16 =>
  Add64 y15 y16 x138 fun x139 x140 =>
  Mul64 a.l3 0x9d671cd581c69bc5 fun x142 x141 =>
  Mul64 a.l3 0xe697f5e45bcd07c6 fun x144 x143 =>
  Mul64 a.l3 0x741496c20e7cf878 fun x146 x145 =>
  Mul64 a.l3 0x896cf21467d7d140 fun x148 x147 =>
  Add64 x148 x145 0x0 fun x149 x150 =>
  Add64 x146 x143 x150 fun x151 x152 =>
  Add64 x144 x141 x152 fun x153 x154 =>
  Add64 x133 x147 0x0 fun x155 x156 =>
  Add64 x135 x149 x156 fun x157 x158 =>
  Add64 x137 x151 x158 fun x159 x160 =>
  Add64 x139 x153 x160 fun x161 x162 =>
  Mul64 x155 0x4b0dff665588b13f fun y17 x163 =>
  Mul64 x163 0xffffffffffffffff fun x166 x165 =>
  Mul64 x163 0xfffffffffffffffe fun x168 x167 =>
  Mul64 x163 0xbaaedce6af48a03b fun x170 x169 =>
  Mul64 x163 0xbfd25e8cd0364141 fun x172 x171 =>
  Add64 x172 x169 0x0 fun x173 x174 =>
  Add64 x170 x167 x174 fun x175 x176 =>
  Add64 x168 x165 x176 fun x177 x178 =>
  Add64 x155 x171 0x0 fun y18 x180 =>
  Add64 x157 x173 x180 fun x181 x182 =>
  Add64 x159 x175 x182 fun x183 x184 =>
  Add64 x161 x177 x184 fun x185 x186 =>
  Plus x162 x140 fun y19 =>
  Plus x154 x142 fun y20 =>
  Plus y19 y20 fun y21 =>
  Plus x178 x166 fun y22 =>
  Add64 y21 y22 x186 fun x187 x188 =>
  Sub64 x181 0xbfd25e8cd0364141 0x0 fun x189 x190 =>
  Sub64 x183 0xbaaedce6af48a03b x190 fun x191 x192 =>
  Sub64 x185 0xfffffffffffffffe x192 fun x193 x194 =>
  Sub64 x187 0xffffffffffffffff x194 fun x195 x196 =>
  Sub64 x188 0x0 x196 fun y23 x198 =>
  Cmov x198 x189 x181 fun x199 =>
  Cmov x198 x191 x183 fun x200 =>
  Cmov x198 x193 x185 fun x201 =>
  Cmov x198 x195 x187 fun x202 =>
  L4.mk x199 x200 x201 x202

end Verif.Native.K256Fq
