import Verif.Native.Word

/-!
# Generated code of `crypto/core/curves/native/p256/fp/p256_fp.go`

Translated statement by statement by `tools/gofield.py`; see `Verif.Native.Word` for the instructions.
-/

namespace Verif.Native.P256Fp

set_option maxRecDepth 100000
set_option linter.unusedVariables false

/-- `Mul` (crypto/core/curves/native/p256/fp/p256_fp.go:87-362). -/
def mul (a b : L4) : L4 :=
  Mul64 a.l0 b.l3 fun x6 x5 =>
  Mul64 a.l0 b.l2 fun x8 x7 =>
  Mul64 a.l0 b.l1 fun x10 x9 =>
  Mul64 a.l0 b.l0 fun x12 x11 =>
  Add64 x12 x9 0x0 fun x13 x14 =>
  Add64 x10 x7 x14 fun x15 x16 =>
  Add64 x8 x5 x16 fun x17 x18 =>
  Plus x18 x6 fun x19 =>
  Mul64 x11 0xffffffff00000001 fun x21 x20 =>
  Mul64 x11 0xffffffff fun x23 x22 =>
  Mul64 x11 0xffffffffffffffff fun x25 x24 =>
  Add64 x25 x22 0x0 fun x26 x27 =>
  Plus x27 x23 fun x28 =>
  Add64 x11 x24 0x0 fun y3 x30 =>
  Add64 x13 x26 x30 fun x31 x32 =>
  Add64 x15 x28 x32 fun x33 x34 =>
  Add64 x17 x20 x34 fun x35 x36 =>
  Add64 x19 x21 x36 fun x37 x38 =>
  Mul64 a.l1 b.l3 fun x40 x39 =>
  Mul64 a.l1 b.l2 fun x42 x41 =>
  Mul64 a.l1 b.l1 fun x44 x43 =>
  Mul64 a.l1 b.l0 fun x46 x45 =>
  Add64 x46 x43 0x0 fun x47 x48 =>
  Add64 x44 x41 x48 fun x49 x50 =>
  Add64 x42 x39 x50 fun x51 x52 =>
  Plus x52 x40 fun x53 =>
  Add64 x31 x45 0x0 fun x54 x55 =>
  Add64 x33 x47 x55 fun x56 x57 =>
  Add64 x35 x49 x57 fun x58 x59 =>
  Add64 x37 x51 x59 fun x60 x61 =>
  Add64 x38 x53 x61 fun x62 x63 =>
  Mul64 x54 0xffffffff00000001 fun x65 x64 =>
  Mul64 x54 0xffffffff fun x67 x66 =>
  Mul64 x54 0xffffffffffffffff fun x69 x68 =>
  Add64 x69 x66 0x0 fun x70 x71 =>
  Plus x71 x67 fun x72 =>
  Add64 x54 x68 0x0 fun y6 x74 =>
  Add64 x56 x70 x74 fun x75 x76 =>
  Add64 x58 x72 x76 fun x77 x78 =>
  Add64 x60 x64 x78 fun x79 x80 =>
  Add64 x62 x65 x80 fun x81 x82 =>
  Plus x82 x63 fun x83 =>
  Mul64 a.l2 b.l3 fun x85 x84 =>
  Mul64 a.l2 b.l2 fun x87 x86 =>
  Mul64 a.l2 b.l1 fun x89 x88 =>
  Mul64 a.l2 b.l0 fun x91 x90 =>
  Add64 x91 x88 0x0 fun x92 x93 =>
  Add64 x89 x86 x93 fun x94 x95 =>
  Add64 x87 x84 x95 fun x96 x97 =>
  Plus x97 x85 fun x98 =>
  Add64 x75 x90 0x0 fun x99 x100 =>
  Add64 x77 x92 x100 fun x101 x102 =>
  Add64 x79 x94 x102 fun x103 x104 =>
  Add64 x81 x96 x104 fun x105 x106 =>
  Add64 x83 x98 x106 fun x107 x108 =>
  Mul64 x99 0xffffffff00000001 fun x110 x109 =>
  Mul64 x99 0xffffffff fun x112 x111 =>
  Mul64 x99 0xffffffffffffffff fun x114 x113 =>
  Add64 x114 x111 0x0 fun x115 x116 =>
  Plus x116 x112 fun x117 =>
  Add64 x99 x113 0x0 fun y10 x119 =>
  Add64 x101 x115 x119 fun x120 x121 =>
  Add64 x103 x117 x121 fun x122 x123 =>
  Add64 x105 x109 x123 fun x124 x125 =>
  Add64 x107 x110 x125 fun x126 x127 =>
  Plus x127 x108 fun x128 =>
  Mul64 a.l3 b.l3 fun x130 x129 =>
  Mul64 a.l3 b.l2 fun x132 x131 =>
  Mul64 a.l3 b.l1 fun x134 x133 =>
  Mul64 a.l3 b.l0 fun x136 x135 =>
  Add64 x136 x133 0x0 fun x137 x138 =>
  Add64 x134 x131 x138 fun x139 x140 =>
  Add64 x132 x129 x140 fun x141 x142 =>
  Plus x142 x130 fun x143 =>
  Add64 x120 x135 0x0 fun x144 x145 =>
  Add64 x122 x137 x145 fun x146 x147 =>
  Add64 x124 x139 x147 fun x148 x149 =>
  Add64 x126 x141 x149 fun x150 x151 =>
  Add64 x128 x143 x151 fun x152 x153 =>
  Mul64 x144 0xffffffff00000001 fun x155 x154 =>
  Mul64 x144 0xffffffff fun x157 x156 =>
  Mul64 x144 0xffffffffffffffff fun x159 x158 =>
  Add64 x159 x156 0x0 fun x160 x161 =>
  Plus x161 x157 fun x162 =>
  Add64 x144 x158 0x0 fun y14 x164 =>
  Add64 x146 x160 x164 fun x165 x166 =>
  Add64 x148 x162 x166 fun x167 x168 =>
  Add64 x150 x154 x168 fun x169 x170 =>
  Add64 x152 x155 x170 fun x171 x172 =>
  Plus x172 x153 fun x173 =>
  Sub64 x165 0xffffffffffffffff 0x0 fun x174 x175 =>
  Sub64 x167 0xffffffff x175 fun x176 x177 =>
  Sub64 x169 0x0 x177 fun x178 x179 =>
  Sub64 x171 0xffffffff00000001 x179 fun x180 x181 =>
  Sub64 x173 0x0 x181 fun y16 x183 =>
  Cmov x183 x174 x165 fun x184 =>
  Cmov x183 x176 x167 fun x185 =>
  Cmov x183 x178 x169 fun x186 =>
  Cmov x183 x180 x171 fun x187 =>
  L4.mk x184 x185 x186 x187

/-- `Square` (crypto/core/curves/native/p256/fp/p256_fp.go:374-649). -/
def square (a : L4) : L4 :=
  Mul64 a.l0 a.l3 fun x6 x5 =>
  Mul64 a.l0 a.l2 fun x8 x7 =>
  Mul64 a.l0 a.l1 fun x10 x9 =>
  Mul64 a.l0 a.l0 fun x12 x11 =>
  Add64 x12 x9 0x0 fun x13 x14 =>
  Add64 x10 x7 x14 fun x15 x16 =>
  Add64 x8 x5 x16 fun x17 x18 =>
  Plus x18 x6 fun x19 =>
  Mul64 x11 0xffffffff00000001 fun x21 x20 =>
  Mul64 x11 0xffffffff fun x23 x22 =>
  Mul64 x11 0xffffffffffffffff fun x25 x24 =>
  Add64 x25 x22 0x0 fun x26 x27 =>
  Plus x27 x23 fun x28 =>
  Add64 x11 x24 0x0 fun y3 x30 =>
  Add64 x13 x26 x30 fun x31 x32 =>
  Add64 x15 x28 x32 fun x33 x34 =>
  Add64 x17 x20 x34 fun x35 x36 =>
  Add64 x19 x21 x36 fun x37 x38 =>
  Mul64 a.l1 a.l3 fun x40 x39 =>
  Mul64 a.l1 a.l2 fun x42 x41 =>
  Mul64 a.l1 a.l1 fun x44 x43 =>
  Mul64 a.l1 a.l0 fun x46 x45 =>
  Add64 x46 x43 0x0 fun x47 x48 =>
  Add64 x44 x41 x48 fun x49 x50 =>
  Add64 x42 x39 x50 fun x51 x52 =>
  Plus x52 x40 fun x53 =>
  Add64 x31 x45 0x0 fun x54 x55 =>
  Add64 x33 x47 x55 fun x56 x57 =>
  Add64 x35 x49 x57 fun x58 x59 =>
  Add64 x37 x51 x59 fun x60 x61 =>
  Add64 x38 x53 x61 fun x62 x63 =>
  Mul64 x54 0xffffffff00000001 fun x65 x64 =>
  Mul64 x54 0xffffffff fun x67 x66 =>
  Mul64 x54 0xffffffffffffffff fun x69 x68 =>
  Add64 x69 x66 0x0 fun x70 x71 =>
  Plus x71 x67 fun x72 =>
  Add64 x54 x68 0x0 fun y6 x74 =>
  Add64 x56 x70 x74 fun x75 x76 =>
  Add64 x58 x72 x76 fun x77 x78 =>
  Add64 x60 x64 x78 fun x79 x80 =>
  Add64 x62 x65 x80 fun x81 x82 =>
  Plus x82 x63 fun x83 =>
  Mul64 a.l2 a.l3 fun x85 x84 =>
  Mul64 a.l2 a.l2 fun x87 x86 =>
  Mul64 a.l2 a.l1 fun x89 x88 =>
  Mul64 a.l2 a.l0 fun x91 x90 =>
  Add64 x91 x88 0x0 fun x92 x93 =>
  Add64 x89 x86 x93 fun x94 x95 =>
  Add64 x87 x84 x95 fun x96 x97 =>
  Plus x97 x85 fun x98 =>
  Add64 x75 x90 0x0 fun x99 x100 =>
  Add64 x77 x92 x100 fun x101 x102 =>
  Add64 x79 x94 x102 fun x103 x104 =>
  Add64 x81 x96 x104 fun x105 x106 =>
  Add64 x83 x98 x106 fun x107 x108 =>
  Mul64 x99 0xffffffff00000001 fun x110 x109 =>
  Mul64 x99 0xffffffff fun x112 x111 =>
  Mul64 x99 0xffffffffffffffff fun x114 x113 =>
  Add64 x114 x111 0x0 fun x115 x116 =>
  Plus x116 x112 fun x117 =>
  Add64 x99 x113 0x0 fun y10 x119 =>
  Add64 x101 x115 x119 fun x120 x121 =>
  Add64 x103 x117 x121 fun x122 x123 =>
  Add64 x105 x109 x123 fun x124 x125 =>
  Add64 x107 x110 x125 fun x126 x127 =>
  Plus x127 x108 fun x128 =>
  Mul64 a.l3 a.l3 fun x130 x129 =>
  Mul64 a.l3 a.l2 fun x132 x131 =>
  Mul64 a.l3 a.l1 fun x134 x133 =>
  Mul64 a.l3 a.l0 fun x136 x135 =>
  Add64 x136 x133 0x0 fun x137 x138 =>
  Add64 x134 x131 x138 fun x139 x140 =>
  Add64 x132 x129 x140 fun x141 x142 =>
  Plus x142 x130 fun x143 =>
  Add64 x120 x135 0x0 fun x144 x145 =>
  Add64 x122 x137 x145 fun x146 x147 =>
  Add64 x124 x139 x147 fun x148 x149 =>
  Add64 x126 x141 x149 fun x150 x151 =>
  Add64 x128 x143 x151 fun x152 x153 =>
  Mul64 x144 0xffffffff00000001 fun x155 x154 =>
  Mul64 x144 0xffffffff fun x157 x156 =>
  Mul64 x144 0xffffffffffffffff fun x159 x158 =>
  Add64 x159 x156 0x0 fun x160 x161 =>
  Plus x161 x157 fun x162 =>
  Add64 x144 x158 0x0 fun y14 x164 =>
  Add64 x146 x160 x164 fun x165 x166 =>
  Add64 x148 x162 x166 fun x167 x168 =>
  Add64 x150 x154 x168 fun x169 x170 =>
  Add64 x152 x155 x170 fun x171 x172 =>
  Plus x172 x153 fun x173 =>
  Sub64 x165 0xffffffffffffffff 0x0 fun x174 x175 =>
  Sub64 x167 0xffffffff x175 fun x176 x177 =>
  Sub64 x169 0x0 x177 fun x178 x179 =>
  Sub64 x171 0xffffffff00000001 x179 fun x180 x181 =>
  Sub64 x173 0x0 x181 fun y16 x183 =>
  Cmov x183 x174 x165 fun x184 =>
  Cmov x183 x176 x167 fun x185 =>
  Cmov x183 x178 x169 fun x186 =>
  Cmov x183 x180 x171 fun x187 =>
  L4.mk x184 x185 x186 x187

/-- `Add` (crypto/core/curves/native/p256/fp/p256_fp.go:662-701). -/
def add (a b : L4) : L4 :=
  Add64 a.l0 b.l0 0x0 fun x1 x2 =>
  Add64 a.l1 b.l1 x2 fun x3 x4 =>
  Add64 a.l2 b.l2 x4 fun x5 x6 =>
  Add64 a.l3 b.l3 x6 fun x7 x8 =>
  Sub64 x1 0xffffffffffffffff 0x0 fun x9 x10 =>
  Sub64 x3 0xffffffff x10 fun x11 x12 =>
  Sub64 x5 0x0 x12 fun x13 x14 =>
  Sub64 x7 0xffffffff00000001 x14 fun x15 x16 =>
  Sub64 x8 0x0 x16 fun y1 x18 =>
  Cmov x18 x9 x1 fun x19 =>
  Cmov x18 x11 x3 fun x20 =>
  Cmov x18 x13 x5 fun x21 =>
  Cmov x18 x15 x7 fun x22 =>
  L4.mk x19 x20 x21 x22

/-- `Sub` (crypto/core/curves/native/p256/fp/p256_fp.go:714-744). -/
def sub (a b : L4) : L4 :=
  Sub64 a.l0 b.l0 0x0 fun x1 x2 =>
  Sub64 a.l1 b.l1 x2 fun x3 x4 =>
  Sub64 a.l2 b.l2 x4 fun x5 x6 =>
  Sub64 a.l3 b.l3 x6 fun x7 x8 =>
  Cmov x8 0x0 0xffffffffffffffff fun x9 =>
  Add64 x1 x9 0x0 fun x10 x11 =>
  And x9 0xffffffff fun y1 =>
  Add64 x3 y1 x11 fun x12 x13 =>
  Add64 x5 0x0 x13 fun x14 x15 =>
  And x9 0xffffffff00000001 fun y2 =>
  Add64 x7 y2 x15 fun x16 y3 =>
  L4.mk x10 x12 x14 x16

/-- `Opp` (crypto/core/curves/native/p256/fp/p256_fp.go:756-786). -/
def opp (a : L4) : L4 :=
  Sub64 0x0 a.l0 0x0 fun x1 x2 =>
  Sub64 0x0 a.l1 x2 fun x3 x4 =>
  Sub64 0x0 a.l2 x4 fun x5 x6 =>
  Sub64 0x0 a.l3 x6 fun x7 x8 =>
  Cmov x8 0x0 0xffffffffffffffff fun x9 =>
  Add64 x1 x9 0x0 fun x10 x11 =>
  And x9 0xffffffff fun y1 =>
  Add64 x3 y1 x11 fun x12 x13 =>
  Add64 x5 0x0 x13 fun x14 x15 =>
  And x9 0xffffffff00000001 fun y2 =>
  Add64 x7 y2 x15 fun x16 y3 =>
  L4.mk x10 x12 x14 x16

/-- `FromMontgomery` (crypto/core/curves/native/p256/fp/p256_fp.go:798-934). -/
def fromMont (a : L4) : L4 :=
  Mul64 a.l0 0xffffffff00000001 fun x3 x2 =>
  Mul64 a.l0 0xffffffff fun x5 x4 =>
  Mul64 a.l0 0xffffffffffffffff fun x7 x6 =>
  Add64 x7 x4 0x0 fun x8 x9 =>
  Add64 a.l0 x6 0x0 fun y1 x11 =>
  Add64 0x0 x8 x11 fun x12 x13 =>
  Add64 x12 a.l1 0x0 fun x14 x15 =>
  Mul64 x14 0xffffffff00000001 fun x17 x16 =>
  Mul64 x14 0xffffffff fun x19 x18 =>
  Mul64 x14 0xffffffffffffffff fun x21 x20 =>
  Add64 x21 x18 0x0 fun x22 x23 =>
  Add64 x14 x20 0x0 fun y2 x25 =>
  Plus x9 x5 fun y3 =>
  Plus x13 y3 fun y4 =>
  Plus x15 y4 fun y5 =>
  Add64 y5 x22 x25 fun x26 x27 =>
  Plus x23 x19 fun y6 =>
  Add64 x2 y6 x27 fun x28 x29 =>
  Add64 x3 x16 x29 fun x30 x31 =>
  Add64 x26 a.l2 0x0 fun x32 x33 =>
  Add64 x28 0x0 x33 fun x34 x35 =>
  Add64 x30 0x0 x35 fun x36 x37 =>
  Mul64 x32 0xffffffff00000001 fun x39 x38 =>
  Mul64 x32 0xffffffff fun x41 x40 =>
  Mul64 x32 0xffffffffffffffff fun x43 x42 =>
  Add64 x43 x40 0x0 fun x44 x45 =>
  Add64 x32 x42 0x0 fun y7 x47 =>
  Add64 x34 x44 x47 fun x48 x49 =>
  Plus x45 x41 fun y8 =>
  Add64 x36 y8 x49 fun x50 x51 =>
  Plus x31 x17 fun y9 =>
  Plus x37 y9 fun y10 =>
  Add64 y10 x38 x51 fun x52 x53 =>
  Add64 x48 a.l3 0x0 fun x54 x55 =>
  Add64 x50 0x0 x55 fun x56 x57 =>
  Add64 x52 0x0 x57 fun x58 x59 =>
  Mul64 x54 0xffffffff00000001 fun x61 x60 =>
  Mul64 x54 0xffffffff fun x63 x62 =>
  Mul64 x54 0xffffffffffffffff fun x65 x64 =>
  Add64 x65 x62 0x0 fun x66 x67 =>
  Add64 x54 x64 0x0 fun y11 x69 =>
  Add64 x56 x66 x69 fun x70 x71 =>
  Plus x67 x63 fun y12 =>
  Add64 x58 y12 x71 fun x72 x73 =>
  Plus x53 x39 fun y13 =>
  Plus x59 y13 fun y14 =>
  Add64 y14 x60 x73 fun x74 x75 =>
  Plus x75 x61 fun x76 =>
  Sub64 x70 0xffffffffffffffff 0x0 fun x77 x78 =>
  Sub64 x72 0xffffffff x78 fun x79 x80 =>
  Sub64 x74 0x0 x80 fun x81 x82 =>
  Sub64 x76 0xffffffff00000001 x82 fun x83 x84 =>
  Sub64 0x0 0x0 x84 fun y16 x86 =>
  Cmov x86 x77 x70 fun x87 =>
  Cmov x86 x79 x72 fun x88 =>
  Cmov x86 x81 x74 fun x89 =>
  Cmov x86 x83 x76 fun x90 =>
  L4.mk x87 x88 x89 x90

/-- `ToMontgomery` (crypto/core/curves/native/p256/fp/p256_fp.go:946-1201). -/
def toMont (a : L4) : L4 :=
  Mul64 a.l0 0x4fffffffd fun x6 x5 =>
  Mul64 a.l0 0xfffffffffffffffe fun x8 x7 =>
  Mul64 a.l0 0xfffffffbffffffff fun x10 x9 =>
  Mul64 a.l0 0x3 fun x12 x11 =>
  Add64 x12 x9 0x0 fun x13 x14 =>
  Add64 x10 x7 x14 fun x15 x16 =>
  Add64 x8 x5 x16 fun x17 x18 =>
  Mul64 x11 0xffffffff00000001 fun x20 x19 =>
  Mul64 x11 0xffffffff fun x22 x21 =>
  Mul64 x11 0xffffffffffffffff fun x24 x23 =>
  Add64 x24 x21 0x0 fun x25 x26 =>
  Add64 x11 x23 0x0 fun y1 x28 =>
  Add64 x13 x25 x28 fun x29 x30 =>
  Plus x26 x22 fun y2 =>
  Add64 x15 y2 x30 fun x31 x32 =>
  Add64 x17 x19 x32 fun x33 x34 =>
  Plus x18 x6 fun y3 =>
  Add64 y3 x20 x34 fun x35 x36 =>
  Mul64 a.l1 0x4fffffffd fun x38 x37 =>
  Mul64 a.l1 0xfffffffffffffffe fun x40 x39 =>
  Mul64 a.l1 0xfffffffbffffffff fun x42 x41 =>
  Mul64 a.l1 0x3 fun x44 x43 =>
  Add64 x44 x41 0x0 fun x45 x46 =>
  Add64 x42 x39 x46 fun x47 x48 =>
  Add64 x40 x37 x48 fun x49 x50 =>
  Add64 x29 x43 0x0 fun x51 x52 =>
  Add64 x31 x45 x52 fun x53 x54 =>
  Add64 x33 x47 x54 fun x55 x56 =>
  Add64 x35 x49 x56 fun x57 x58 =>
  Mul64 x51 0xffffffff00000001 fun x60 x59 =>
  Mul64 x51 0xffffffff fun x62 x61 =>
  Mul64 x51 0xffffffffffffffff fun x64 x63 =>
  Add64 x64 x61 0x0 fun x65 x66 =>
  Add64 x51 x63 0x0 fun y4 x68 =>
  Add64 x53 x65 x68 fun x69 x70 =>
  Plus x66 x62 fun y5 =>
  Add64 x55 y5 x70 fun x71 x72 =>
  Add64 x57 x59 x72 fun x73 x74 =>
  Plus x58 x36 fun y6 =>
  Plus x50 x38 fun y7 =>
  Plus y6 y7 fun y8 =>
  Add64 y8 x60 x74 fun x75 x76 =>
  Mul64 a.l2 0x4fffffffd fun x78 x77 =>
  Mul64 a.l2 0xfffffffffffffffe fun x80 x79 =>
  Mul64 a.l2 0xfffffffbffffffff fun x82 x81 =>
  Mul64 a.l2 0x3 fun x84 x83 =>
  Add64 x84 x81 0x0 fun x85 x86 =>
  Add64 x82 x79 x86 fun x87 x88 =>
  Add64 x80 x77 x88 fun x89 x90 =>
  Add64 x69 x83 0x0 fun x91 x92 =>
  Add64 x71 x85 x92 fun x93 x94 =>
  Add64 x73 x87 x94 fun x95 x96 =>
  Add64 x75 x89 x96 fun x97 x98 =>
  Mul64 x91 0xffffffff00000001 fun x100 x99 =>
  Mul64 x91 0xffffffff fun x102 x101 =>
  Mul64 x91 0xffffffffffffffff fun x104 x103 =>
  Add64 x104 x101 0x0 fun x105 x106 =>
  Add64 x91 x103 0x0 fun y9 x108 =>
  Add64 x93 x105 x108 fun x109 x110 =>
  Plus x106 x102 fun y10 =>
  Add64 x95 y10 x110 fun x111 x112 =>
  Add64 x97 x99 x112 fun x113 x114 =>
  Plus x98 x76 fun y11 =>
  Plus x90 x78 fun y12 =>
  Plus y11 y12 fun y13 =>
  Add64 y13 x100 x114 fun x115 x116 =>
  Mul64 a.l3 0x4fffffffd fun x118 x117 =>
  Mul64 a.l3 0xfffffffffffffffe fun x120 x119 =>
  Mul64 a.l3 0xfffffffbffffffff fun x122 x121 =>
  Mul64 a.l3 0x3 fun x124 x123 =>
  Add64 x124 x121 0x0 fun x125 x126 =>
  Add64 x122 x119 x126 fun x127 x128 =>
  Add64 x120 x117 x128 fun x129 x130 =>
  Add64 x109 x123 0x0 fun x131 x132 =>
  Add64 x111 x125 x132 fun x133 x134 =>
  Add64 x113 x127 x134 fun x135 x136 =>
  Add64 x115 x129 x136 fun x137 x138 =>
  Mul64 x131 0xffffffff00000001 fun x140 x139 =>
  Mul64 x131 0xffffffff fun x142 x141 =>
  Mul64 x131 0xffffffffffffffff fun x144 x143 =>
  Add64 x144 x141 0x0 fun x145 x146 =>
  Add64 x131 x143 0x0 fun y14 x148 =>
  Add64 x133 x145 x148 fun x149 x150 =>
  Plus x146 x142 fun y15 =>
  Add64 x135 y15 x150 fun x151 x152 =>
  Add64 x137 x139 x152 fun x153 x154 =>
  Plus x138 x116 fun y16 =>
  Plus x130 x118 fun y17 =>
  Plus y16 y17 fun y18 =>
  Add64 y18 x140 x154 fun x155 x156 =>
  Sub64 x149 0xffffffffffffffff 0x0 fun x157 x158 =>
  Sub64 x151 0xffffffff x158 fun x159 x160 =>
  Sub64 x153 0x0 x160 fun x161 x162 =>
  Sub64 x155 0xffffffff00000001 x162 fun x163 x164 =>
  Sub64 x156 0x0 x164 fun y19 x166 =>
  Cmov x166 x157 x149 fun x167 =>
  Cmov x166 x159 x151 fun x168 =>
  Cmov x166 x161 x153 fun x169 =>
  Cmov x166 x163 x155 fun x170 =>
  L4.mk x167 x168 x169 x170

end Verif.Native.P256Fp
