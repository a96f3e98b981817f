import Verif.Native.Word

/-!
# Generated code of `crypto/core/curves/native/pasta/fq/pasta_fq.go`

Translated statement by statement by `tools/gofield.py`; see `Verif.Native.Word` for the instructions.
-/

namespace Verif.Native.PastaFq

set_option maxRecDepth 100000
set_option linter.unusedVariables false

/-- `fiat_pasta_fq_mul` (crypto/core/curves/native/pasta/fq/pasta_fq.go:105-388). -/
def mul (a b : L4) : L4 :=
  Mul64 a.l0 b.l3 fun x6 x5 =>
  Mul64 a.l0 b.l2 fun x8 x7 =>
  Mul64 a.l0 b.l1 fun x10 x9 =>
  Mul64 a.l0 b.l0 fun x12 x11 =>
  Add64 x12 x9 0x0 fun x13 x14 =>
  Add64 x10 x7 x14 fun x15 x16 =>
  Add64 x8 x5 x16 fun x17 x18 =>
  Plus x18 x6 fun x19 =>
  Mul64 x11 0x8c46eb20ffffffff fun y2 x20 =>
  Mul64 x20 0x4000000000000000 fun x23 x22 =>
  Mul64 x20 0x224698fc0994a8dd fun x25 x24 =>
  Mul64 x20 0x8c46eb2100000001 fun x27 x26 =>
  Add64 x27 x24 0x0 fun x28 x29 =>
  Plus x29 x25 fun x30 =>
  Add64 x11 x26 0x0 fun y4 x32 =>
  Add64 x13 x28 x32 fun x33 x34 =>
  Add64 x15 x30 x34 fun x35 x36 =>
  Add64 x17 x22 x36 fun x37 x38 =>
  Add64 x19 x23 x38 fun x39 x40 =>
  Mul64 a.l1 b.l3 fun x42 x41 =>
  Mul64 a.l1 b.l2 fun x44 x43 =>
  Mul64 a.l1 b.l1 fun x46 x45 =>
  Mul64 a.l1 b.l0 fun x48 x47 =>
  Add64 x48 x45 0x0 fun x49 x50 =>
  Add64 x46 x43 x50 fun x51 x52 =>
  Add64 x44 x41 x52 fun x53 x54 =>
  Plus x54 x42 fun x55 =>
  Add64 x33 x47 0x0 fun x56 x57 =>
  Add64 x35 x49 x57 fun x58 x59 =>
  Add64 x37 x51 x59 fun x60 x61 =>
  Add64 x39 x53 x61 fun x62 x63 =>
  Add64 x40 x55 x63 fun x64 x65 =>
  Mul64 x56 0x8c46eb20ffffffff fun y6 x66 =>
  Mul64 x66 0x4000000000000000 fun x69 x68 =>
  Mul64 x66 0x224698fc0994a8dd fun x71 x70 =>
  Mul64 x66 0x8c46eb2100000001 fun x73 x72 =>
  Add64 x73 x70 0x0 fun x74 x75 =>
  Plus x75 x71 fun x76 =>
  Add64 x56 x72 0x0 fun y8 x78 =>
  Add64 x58 x74 x78 fun x79 x80 =>
  Add64 x60 x76 x80 fun x81 x82 =>
  Add64 x62 x68 x82 fun x83 x84 =>
  Add64 x64 x69 x84 fun x85 x86 =>
  Plus x86 x65 fun x87 =>
  Mul64 a.l2 b.l3 fun x89 x88 =>
  Mul64 a.l2 b.l2 fun x91 x90 =>
  Mul64 a.l2 b.l1 fun x93 x92 =>
  Mul64 a.l2 b.l0 fun x95 x94 =>
  Add64 x95 x92 0x0 fun x96 x97 =>
  Add64 x93 x90 x97 fun x98 x99 =>
  Add64 x91 x88 x99 fun x100 x101 =>
  Plus x101 x89 fun x102 =>
  Add64 x79 x94 0x0 fun x103 x104 =>
  Add64 x81 x96 x104 fun x105 x106 =>
  Add64 x83 x98 x106 fun x107 x108 =>
  Add64 x85 x100 x108 fun x109 x110 =>
  Add64 x87 x102 x110 fun x111 x112 =>
  Mul64 x103 0x8c46eb20ffffffff fun y11 x113 =>
  Mul64 x113 0x4000000000000000 fun x116 x115 =>
  Mul64 x113 0x224698fc0994a8dd fun x118 x117 =>
  Mul64 x113 0x8c46eb2100000001 fun x120 x119 =>
  Add64 x120 x117 0x0 fun x121 x122 =>
  Plus x122 x118 fun x123 =>
  Add64 x103 x119 0x0 fun y13 x125 =>
  Add64 x105 x121 x125 fun x126 x127 =>
  Add64 x107 x123 x127 fun x128 x129 =>
  Add64 x109 x115 x129 fun x130 x131 =>
  Add64 x111 x116 x131 fun x132 x133 =>
  Plus x133 x112 fun x134 =>
  Mul64 a.l3 b.l3 fun x136 x135 =>
  Mul64 a.l3 b.l2 fun x138 x137 =>
  Mul64 a.l3 b.l1 fun x140 x139 =>
  Mul64 a.l3 b.l0 fun x142 x141 =>
  Add64 x142 x139 0x0 fun x143 x144 =>
  Add64 x140 x137 x144 fun x145 x146 =>
  Add64 x138 x135 x146 fun x147 x148 =>
  Plus x148 x136 fun x149 =>
  Add64 x126 x141 0x0 fun x150 x151 =>
  Add64 x128 x143 x151 fun x152 x153 =>
  Add64 x130 x145 x153 fun x154 x155 =>
  Add64 x132 x147 x155 fun x156 x157 =>
  Add64 x134 x149 x157 fun x158 x159 =>
  Mul64 x150 0x8c46eb20ffffffff fun y16 x160 =>
  Mul64 x160 0x4000000000000000 fun x163 x162 =>
  Mul64 x160 0x224698fc0994a8dd fun x165 x164 =>
  Mul64 x160 0x8c46eb2100000001 fun x167 x166 =>
  Add64 x167 x164 0x0 fun x168 x169 =>
  Plus x169 x165 fun x170 =>
  Add64 x150 x166 0x0 fun y18 x172 =>
  Add64 x152 x168 x172 fun x173 x174 =>
  Add64 x154 x170 x174 fun x175 x176 =>
  Add64 x156 x162 x176 fun x177 x178 =>
  Add64 x158 x163 x178 fun x179 x180 =>
  Plus x180 x159 fun x181 =>
  Sub64 x173 0x8c46eb2100000001 0x0 fun x182 x183 =>
  Sub64 x175 0x224698fc0994a8dd x183 fun x184 x185 =>
  Sub64 x177 0x0 x185 fun x186 x187 =>
  Sub64 x179 0x4000000000000000 x187 fun x188 x189 =>
  Sub64 x181 0x0 x189 fun y20 x191 =>
  CmovS x191 x182 x173 fun x192 =>
  CmovS x191 x184 x175 fun x193 =>
  CmovS x191 x186 x177 fun x194 =>
  CmovS x191 x188 x179 fun x195 =>
  L4.mk x192 x193 x194 x195

/-- `fiat_pasta_fq_square` (crypto/core/curves/native/pasta/fq/pasta_fq.go:400-683). -/
def square (a : L4) : L4 :=
  Mul64 a.l0 a.l3 fun x6 x5 =>
  Mul64 a.l0 a.l2 fun x8 x7 =>
  Mul64 a.l0 a.l1 fun x10 x9 =>
  Mul64 a.l0 a.l0 fun x12 x11 =>
  Add64 x12 x9 0x0 fun x13 x14 =>
  Add64 x10 x7 x14 fun x15 x16 =>
  Add64 x8 x5 x16 fun x17 x18 =>
  Plus x18 x6 fun x19 =>
  Mul64 x11 0x8c46eb20ffffffff fun y2 x20 =>
  Mul64 x20 0x4000000000000000 fun x23 x22 =>
  Mul64 x20 0x224698fc0994a8dd fun x25 x24 =>
  Mul64 x20 0x8c46eb2100000001 fun x27 x26 =>
  Add64 x27 x24 0x0 fun x28 x29 =>
  Plus x29 x25 fun x30 =>
  Add64 x11 x26 0x0 fun y4 x32 =>
  Add64 x13 x28 x32 fun x33 x34 =>
  Add64 x15 x30 x34 fun x35 x36 =>
  Add64 x17 x22 x36 fun x37 x38 =>
  Add64 x19 x23 x38 fun x39 x40 =>
  Mul64 a.l1 a.l3 fun x42 x41 =>
  Mul64 a.l1 a.l2 fun x44 x43 =>
  Mul64 a.l1 a.l1 fun x46 x45 =>
  Mul64 a.l1 a.l0 fun x48 x47 =>
  Add64 x48 x45 0x0 fun x49 x50 =>
  Add64 x46 x43 x50 fun x51 x52 =>
  Add64 x44 x41 x52 fun x53 x54 =>
  Plus x54 x42 fun x55 =>
  Add64 x33 x47 0x0 fun x56 x57 =>
  Add64 x35 x49 x57 fun x58 x59 =>
  Add64 x37 x51 x59 fun x60 x61 =>
  Add64 x39 x53 x61 fun x62 x63 =>
  Add64 x40 x55 x63 fun x64 x65 =>
  Mul64 x56 0x8c46eb20ffffffff fun y6 x66 =>
  Mul64 x66 0x4000000000000000 fun x69 x68 =>
  Mul64 x66 0x224698fc0994a8dd fun x71 x70 =>
  Mul64 x66 0x8c46eb2100000001 fun x73 x72 =>
  Add64 x73 x70 0x0 fun x74 x75 =>
  Plus x75 x71 fun x76 =>
  Add64 x56 x72 0x0 fun y8 x78 =>
  Add64 x58 x74 x78 fun x79 x80 =>
  Add64 x60 x76 x80 fun x81 x82 =>
  Add64 x62 x68 x82 fun x83 x84 =>
  Add64 x64 x69 x84 fun x85 x86 =>
  Plus x86 x65 fun x87 =>
  Mul64 a.l2 a.l3 fun x89 x88 =>
  Mul64 a.l2 a.l2 fun x91 x90 =>
  Mul64 a.l2 a.l1 fun x93 x92 =>
  Mul64 a.l2 a.l0 fun x95 x94 =>
  Add64 x95 x92 0x0 fun x96 x97 =>
  Add64 x93 x90 x97 fun x98 x99 =>
  Add64 x91 x88 x99 fun x100 x101 =>
  Plus x101 x89 fun x102 =>
  Add64 x79 x94 0x0 fun x103 x104 =>
  Add64 x81 x96 x104 fun x105 x106 =>
  Add64 x83 x98 x106 fun x107 x108 =>
  Add64 x85 x100 x108 fun x109 x110 =>
  Add64 x87 x102 x110 fun x111 x112 =>
  Mul64 x103 0x8c46eb20ffffffff fun y11 x113 =>
  Mul64 x113 0x4000000000000000 fun x116 x115 =>
  Mul64 x113 0x224698fc0994a8dd fun x118 x117 =>
  Mul64 x113 0x8c46eb2100000001 fun x120 x119 =>
  Add64 x120 x117 0x0 fun x121 x122 =>
  Plus x122 x118 fun x123 =>
  Add64 x103 x119 0x0 fun y13 x125 =>
  Add64 x105 x121 x125 fun x126 x127 =>
  Add64 x107 x123 x127 fun x128 x129 =>
  Add64 x109 x115 x129 fun x130 x131 =>
  Add64 x111 x116 x131 fun x132 x133 =>
  Plus x133 x112 fun x134 =>
  Mul64 a.l3 a.l3 fun x136 x135 =>
  Mul64 a.l3 a.l2 fun x138 x137 =>
  Mul64 a.l3 a.l1 fun x140 x139 =>
  Mul64 a.l3 a.l0 fun x142 x141 =>
  Add64 x142 x139 0x0 fun x143 x144 =>
  Add64 x140 x137 x144 fun x145 x146 =>
  Add64 x138 x135 x146 fun x147 x148 =>
  Plus x148 x136 fun x149 =>
  Add64 x126 x141 0x0 fun x150 x151 =>
  Add64 x128 x143 x151 fun x152 x153 =>
  Add64 x130 x145 x153 fun x154 x155 =>
  Add64 x132 x147 x155 fun x156 x157 =>
  Add64 x134 x149 x157 fun x158 x159 =>
  Mul64 x150 0x8c46eb20ffffffff fun y16 x160 =>
  Mul64 x160 0x4000000000000000 fun x163 x162 =>
  Mul64 x160 0x224698fc0994a8dd fun x165 x164 =>
  Mul64 x160 0x8c46eb2100000001 fun x167 x166 =>
  Add64 x167 x164 0x0 fun x168 x169 =>
  Plus x169 x165 fun x170 =>
  Add64 x150 x166 0x0 fun y18 x172 =>
  Add64 x152 x168 x172 fun x173 x174 =>
  Add64 x154 x170 x174 fun x175 x176 =>
  Add64 x156 x162 x176 fun x177 x178 =>
  Add64 x158 x163 x178 fun x179 x180 =>
  Plus x180 x159 fun x181 =>
  Sub64 x173 0x8c46eb2100000001 0x0 fun x182 x183 =>
  Sub64 x175 0x224698fc0994a8dd x183 fun x184 x185 =>
  Sub64 x177 0x0 x185 fun x186 x187 =>
  Sub64 x179 0x4000000000000000 x187 fun x188 x189 =>
  Sub64 x181 0x0 x189 fun y20 x191 =>
  CmovS x191 x182 x173 fun x192 =>
  CmovS x191 x184 x175 fun x193 =>
  CmovS x191 x186 x177 fun x194 =>
  CmovS x191 x188 x179 fun x195 =>
  L4.mk x192 x193 x194 x195

/-- `fiat_pasta_fq_add` (crypto/core/curves/native/pasta/fq/pasta_fq.go:696-735). -/
def add (a b : L4) : L4 :=
  Add64 a.l0 b.l0 0x0 fun x1 x2 =>
  Add64 a.l1 b.l1 x2 fun x3 x4 =>
  Add64 a.l2 b.l2 x4 fun x5 x6 =>
  Add64 a.l3 b.l3 x6 fun x7 x8 =>
  Sub64 x1 0x8c46eb2100000001 0x0 fun x9 x10 =>
  Sub64 x3 0x224698fc0994a8dd x10 fun x11 x12 =>
  Sub64 x5 0x0 x12 fun x13 x14 =>
  Sub64 x7 0x4000000000000000 x14 fun x15 x16 =>
  Sub64 x8 0x0 x16 fun y1 x18 =>
  CmovS x18 x9 x1 fun x19 =>
  CmovS x18 x11 x3 fun x20 =>
  CmovS x18 x13 x5 fun x21 =>
  CmovS x18 x15 x7 fun x22 =>
  L4.mk x19 x20 x21 x22

/-- `fiat_pasta_fq_sub` (crypto/core/curves/native/pasta/fq/pasta_fq.go:748-778). -/
def sub (a b : L4) : L4 :=
  Sub64 a.l0 b.l0 0x0 fun x1 x2 =>
  Sub64 a.l1 b.l1 x2 fun x3 x4 =>
  Sub64 a.l2 b.l2 x4 fun x5 x6 =>
  Sub64 a.l3 b.l3 x6 fun x7 x8 =>
  CmovS x8 0x0 0xffffffffffffffff fun x9 =>
  And x9 0x8c46eb2100000001 fun y1 =>
  Add64 x1 y1 0x0 fun x10 x11 =>
  And x9 0x224698fc0994a8dd fun y2 =>
  Add64 x3 y2 x11 fun x12 x13 =>
  Add64 x5 0x0 x13 fun x14 x15 =>
  And x9 0x4000000000000000 fun y3 =>
  Add64 x7 y3 x15 fun x16 y4 =>
  L4.mk x10 x12 x14 x16

/-- `fiat_pasta_fq_opp` (crypto/core/curves/native/pasta/fq/pasta_fq.go:790-820). -/
def opp (a : L4) : L4 :=
  Sub64 0x0 a.l0 0x0 fun x1 x2 =>
  Sub64 0x0 a.l1 x2 fun x3 x4 =>
  Sub64 0x0 a.l2 x4 fun x5 x6 =>
  Sub64 0x0 a.l3 x6 fun x7 x8 =>
  CmovS x8 0x0 0xffffffffffffffff fun x9 =>
  And x9 0x8c46eb2100000001 fun y1 =>
  Add64 x1 y1 0x0 fun x10 x11 =>
  And x9 0x224698fc0994a8dd fun y2 =>
  Add64 x3 y2 x11 fun x12 x13 =>
  Add64 x5 0x0 x13 fun x14 x15 =>
  And x9 0x4000000000000000 fun y3 =>
  Add64 x7 y3 x15 fun x16 y4 =>
  L4.mk x10 x12 x14 x16

/-- `fiat_pasta_fq_from_montgomery` (crypto/core/curves/native/pasta/fq/pasta_fq.go:832-976). -/
def fromMont (a : L4) : L4 :=
  Mul64 a.l0 0x8c46eb20ffffffff fun y1 x2 =>
  Mul64 x2 0x4000000000000000 fun x5 x4 =>
  Mul64 x2 0x224698fc0994a8dd fun x7 x6 =>
  Mul64 x2 0x8c46eb2100000001 fun x9 x8 =>
  Add64 x9 x6 0x0 fun x10 x11 =>
  Add64 a.l0 x8 0x0 fun y2 x13 =>
  Add64 0x0 x10 x13 fun x14 x15 =>
  Add64 x14 a.l1 0x0 fun x16 x17 =>
  Mul64 x16 0x8c46eb20ffffffff fun y3 x18 =>
  Mul64 x18 0x4000000000000000 fun x21 x20 =>
  Mul64 x18 0x224698fc0994a8dd fun x23 x22 =>
  Mul64 x18 0x8c46eb2100000001 fun x25 x24 =>
  Add64 x25 x22 0x0 fun x26 x27 =>
  Add64 x16 x24 0x0 fun y4 x29 =>
  Plus x11 x7 fun y5 =>
  Plus x15 y5 fun y6 =>
  Plus x17 y6 fun y7 =>
  Add64 y7 x26 x29 fun x30 x31 =>
  Plus x27 x23 fun y8 =>
  Add64 x4 y8 x31 fun x32 x33 =>
  Add64 x5 x20 x33 fun x34 x35 =>
  Add64 x30 a.l2 0x0 fun x36 x37 =>
  Add64 x32 0x0 x37 fun x38 x39 =>
  Add64 x34 0x0 x39 fun x40 x41 =>
  Mul64 x36 0x8c46eb20ffffffff fun y9 x42 =>
  Mul64 x42 0x4000000000000000 fun x45 x44 =>
  Mul64 x42 0x224698fc0994a8dd fun x47 x46 =>
  Mul64 x42 0x8c46eb2100000001 fun x49 x48 =>
  Add64 x49 x46 0x0 fun x50 x51 =>
  Add64 x36 x48 0x0 fun y10 x53 =>
  Add64 x38 x50 x53 fun x54 x55 =>
  Plus x51 x47 fun y11 =>
  Add64 x40 y11 x55 fun x56 x57 =>
  Plus x35 x21 fun y12 =>
  Plus x41 y12 fun y13 =>
  Add64 y13 x44 x57 fun x58 x59 =>
  Add64 x54 a.l3 0x0 fun x60 x61 =>
  Add64 x56 0x0 x61 fun x62 x63 =>
  Add64 x58 0x0 x63 fun x64 x65 =>
  Mul64 x60 0x8c46eb20ffffffff fun y14 x66 =>
  Mul64 x66 0x4000000000000000 fun x69 x68 =>
  Mul64 x66 0x224698fc0994a8dd fun x71 x70 =>
  Mul64 x66 0x8c46eb2100000001 fun x73 x72 =>
  Add64 x73 x70 0x0 fun x74 x75 =>
  Add64 x60 x72 0x0 fun y15 x77 =>
  Add64 x62 x74 x77 fun x78 x79 =>
  Plus x75 x71 fun y16 =>
  Add64 x64 y16 x79 fun x80 x81 =>
  Plus x59 x45 fun y17 =>
  Plus x65 y17 fun y18 =>
  Add64 y18 x68 x81 fun x82 x83 =>
  Plus x83 x69 fun x84 =>
  Sub64 x78 0x8c46eb2100000001 0x0 fun x85 x86 =>
  Sub64 x80 0x224698fc0994a8dd x86 fun x87 x88 =>
  Sub64 x82 0x0 x88 fun x89 x90 =>
  Sub64 x84 0x4000000000000000 x90 fun x91 x92 =>
  Sub64 0x0 0x0 x92 fun y20 x94 =>
  CmovS x94 x85 x78 fun x95 =>
  CmovS x94 x87 x80 fun x96 =>
  CmovS x94 x89 x82 fun x97 =>
  CmovS x94 x91 x84 fun x98 =>
  L4.mk x95 x96 x97 x98

/-- `fiat_pasta_fq_to_montgomery` (crypto/core/curves/native/pasta/fq/pasta_fq.go:988-1240). -/
def toMont (a : L4) : L4 :=
  Mul64 a.l0 0x96d41af7ccfdaa9 fun x6 x5 =>
  Mul64 a.l0 0x7fae231004ccf590 fun x8 x7 =>
  Mul64 a.l0 0x67bb433d891a16e3 fun x10 x9 =>
  Mul64 a.l0 0xfc9678ff0000000f fun x12 x11 =>
  Add64 x12 x9 0x0 fun x13 x14 =>
  Add64 x10 x7 x14 fun x15 x16 =>
  Add64 x8 x5 x16 fun x17 x18 =>
  Mul64 x11 0x8c46eb20ffffffff fun y1 x19 =>
  Mul64 x19 0x4000000000000000 fun x22 x21 =>
  Mul64 x19 0x224698fc0994a8dd fun x24 x23 =>
  Mul64 x19 0x8c46eb2100000001 fun x26 x25 =>
  Add64 x26 x23 0x0 fun x27 x28 =>
  Add64 x11 x25 0x0 fun y2 x30 =>
  Add64 x13 x27 x30 fun x31 x32 =>
  Plus x28 x24 fun y3 =>
  Add64 x15 y3 x32 fun x33 x34 =>
  Add64 x17 x21 x34 fun x35 x36 =>
  Mul64 a.l1 0x96d41af7ccfdaa9 fun x38 x37 =>
  Mul64 a.l1 0x7fae231004ccf590 fun x40 x39 =>
  Mul64 a.l1 0x67bb433d891a16e3 fun x42 x41 =>
  Mul64 a.l1 0xfc9678ff0000000f fun x44 x43 =>
  Add64 x44 x41 0x0 fun x45 x46 =>
  Add64 x42 x39 x46 fun x47 x48 =>
  Add64 x40 x37 x48 fun x49 x50 =>
  Add64 x31 x43 0x0 fun x51 x52 =>
  Add64 x33 x45 x52 fun x53 x54 =>
  Add64 x35 x47 x54 fun x55 x56 =>
  Plus x18 x6 fun y4 =>
  Plus x36 y4 fun y5 =>
  Plus y5 x22 fun y6 =>
  Add64 y6 x49 x56 fun x57 x58 =>
  Mul64 x51 0x8c46eb20ffffffff fun y7 x59 =>
  Mul64 x59 0x4000000000000000 fun x62 x61 =>
  Mul64 x59 0x224698fc0994a8dd fun x64 x63 =>
  Mul64 x59 0x8c46eb2100000001 fun x66 x65 =>
  Add64 x66 x63 0x0 fun x67 x68 =>
  Add64 x51 x65 0x0 fun y8 x70 =>
  Add64 x53 x67 x70 fun x71 x72 =>
  Plus x68 x64 fun y9 =>
  Add64 x55 y9 x72 fun x73 x74 =>
  Add64 x57 x61 x74 fun x75 x76 =>
  Mul64 a.l2 0x96d41af7ccfdaa9 fun x78 x77 =>
  Mul64 a.l2 0x7fae231004ccf590 fun x80 x79 =>
  Mul64 a.l2 0x67bb433d891a16e3 fun x82 x81 =>
  Mul64 a.l2 0xfc9678ff0000000f fun x84 x83 =>
  Add64 x84 x81 0x0 fun x85 x86 =>
  Add64 x82 x79 x86 fun x87 x88 =>
  Add64 x80 x77 x88 fun x89 x90 =>
  Add64 x71 x83 0x0 fun x91 x92 =>
  Add64 x73 x85 x92 fun x93 x94 =>
  Add64 x75 x87 x94 fun x95 x96 =>
  Plus x50 x38 fun y10 =>
  Plus x58 y10 fun y11 =>
  Plus x76 y11 fun y12 =>
  Plus y12 x62 fun y13 =>
  Add64 y13 x89 x96 fun x97 x98 =>
  Mul64 x91 0x8c46eb20ffffffff fun y14 x99 =>
  Mul64 x99 0x4000000000000000 fun x102 x101 =>
  Mul64 x99 0x224698fc0994a8dd fun x104 x103 =>
  Mul64 x99 0x8c46eb2100000001 fun x106 x105 =>
  Add64 x106 x103 0x0 fun x107 x108 =>
  Add64 x91 x105 0x0 fun y15 x110 =>
  Add64 x93 x107 x110 fun x111 x112 =>
  Plus x108 x104 fun y16 =>
  Add64 x95 y16 x112 fun x113 x114 =>
  Add64 x97 x101 x114 fun x115 x116 =>
  Mul64 a.l3 0x96d41af7ccfdaa9 fun x118 x117 =>
  Mul64 a.l3 0x7fae231004ccf590 fun x120 x119 =>
  Mul64 a.l3 0x67bb433d891a16e3 fun x122 x121 =>
  Mul64 a.l3 0xfc9678ff0000000f fun x124 x123 =>
  Add64 x124 x121 0x0 fun x125 x126 =>
  Add64 x122 x119 x126 fun x127 x128 =>
  Add64 x120 x117 x128 fun x129 x130 =>
  Add64 x111 x123 0x0 fun x131 x132 =>
  Add64 x113 x125 x132 fun x133 x134 =>
  Add64 x115 x127 x134 fun x135 x136 =>
  Plus x90 x78 fun y17 =>
  Plus x98 y17 fun y18 =>
  Plus x116 y18 fun y19 =>
  Plus y19 x102 fun y20 =>
  Add64 y20 x129 x136 fun x137 x138 =>
  Mul64 x131 0x8c46eb20ffffffff fun y21 x139 =>
  Mul64 x139 0x4000000000000000 fun x142 x141 =>
  Mul64 x139 0x224698fc0994a8dd fun x144 x143 =>
  Mul64 x139 0x8c46eb2100000001 fun x146 x145 =>
  Add64 x146 x143 0x0 fun x147 x148 =>
  Add64 x131 x145 0x0 fun y22 x150 =>
  Add64 x133 x147 x150 fun x151 x152 =>
  Plus x148 x144 fun y23 =>
  Add64 x135 y23 x152 fun x153 x154 =>
  Add64 x137 x141 x154 fun x155 x156 =>
  Plus x130 x118 fun y24 =>
  Plus x138 y24 fun y25 =>
  Plus x156 y25 fun y26 =>
  Plus y26 x142 fun x157 =>
  Sub64 x151 0x8c46eb2100000001 0x0 fun x158 x159 =>
  Sub64 x153 0x224698fc0994a8dd x159 fun x160 x161 =>
  Sub64 x155 0x0 x161 fun x162 x163 =>
  Sub64 x157 0x4000000000000000 x163 fun x164 x165 =>
  Sub64 0x0 0x0 x165 fun y28 x167 =>
  CmovS x167 x158 x151 fun x168 =>
  CmovS x167 x160 x153 fun x169 =>
  CmovS x167 x162 x155 fun x170 =>
  CmovS x167 x164 x157 fun x171 =>
  L4.mk x168 x169 x170 x171

end Verif.Native.PastaFq
