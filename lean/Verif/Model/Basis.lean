import Verif.Model.Seed

/-!
# The basis matrix method — `/repo/test/BasisMatrixMethod_test.c`

Generated by `tools/gen_basis.py`.

The program draws with `srand` and `rand` of the C library.  Nothing is assumed about them: `lc s k` is the
value of the `k`-th call of `rand` after `srand(s)`, an arbitrary function (`rand` returns no negative
numbers).  `seed` and `cnt` of `LW` are the state of that generator.
-/
namespace WB.basis

/-- The global variables and the state of the C library's generator. -/
structure LW where
  w : World
  seed : BitVec 32
  cnt : Nat

abbrev BM := StateT LW (Except Fault)

def liftB {α : Type} (x : C α) : BM α := fun s =>
  match x with
  | .ok a => .ok (a, s)
  | .error e => .error e

def ofCM {α : Type} (x : CM α) : BM α := fun s =>
  match x s.w with
  | .ok (a, w) => .ok (a, { s with w := w })
  | .error e => .error e

/-- `srand(v)` -/
def srand (v : BitVec 32) : BM Unit := fun s => .ok ((), { s with seed := v, cnt := 0 })

/-- `rand()` -/
def rand (lc : BitVec 32 → Nat → Nat) : BM Nat := fun s => .ok (lc s.seed s.cnt, { s with cnt := s.cnt + 1 })

/-- The statement `srand((randseed++) ^ time(NULL));` (e.g. line 584); `randseed` is an `int` (line 39). -/
def srandReseed : BM Unit := do
  srand ((← ofCM randseedPostIncInt) ^^^ (← ofCM timeNow))

/-- An initialiser `{r0, r1, ...}` of a matrix with rows of one word. -/
def rowsM {w n : Nat} (L : List Nat) : Vector (BitVec w) n :=
  Vector.ofFn fun i => BitVec.ofNat w (L.getD i.val 0)

/-- An initialiser `{{a0, b0}, {a1, b1}, ...}` of a matrix with rows of two words. -/
def rowsM2 {n : Nat} (L : List (Nat × Nat)) : Vector (Vector (BitVec 64) 2) n :=
  Vector.ofFn fun i => #v[BitVec.ofNat 64 (L.getD i.val (0, 0)).1, BitVec.ofNat 64 (L.getD i.val (0, 0)).2]

/-- Rows of `TM8` to `TM128` (line 11). -/
abbrev TEST : Nat := 100

/-- `MatrixM8[0]` -/
def LMatrixM8_0 : List Nat := [0xbc, 0x3e, 0x7a, 0x1e, 0x38, 0x8a, 0x9d, 0xbe]

/-- `MatrixM8[1]` -/
def LMatrixM8_1 : List Nat := [0x9c, 0xa8, 0x1, 0x98, 0x84, 0x36, 0x40, 0x8c]

/-- `MatrixM8[2]` -/
def LMatrixM8_2 : List Nat := [0xee, 0x80, 0x28, 0xfc, 0x8, 0x1f, 0x94, 0x84]

/-- `MatrixM8[3]` -/
def LMatrixM8_3 : List Nat := [0xa8, 0x1c, 0xec, 0xd0, 0x10, 0x1, 0xac, 0x2a]

/-- `MatrixM8[4]` -/
def LMatrixM8_4 : List Nat := [0x8e, 0x6e, 0x19, 0xa0, 0x2, 0x2f, 0xa, 0x60]

/-- `MatrixM8[5]` -/
def LMatrixM8_5 : List Nat := [0x80, 0xd2, 0xa2, 0xf2, 0x11, 0x2a, 0xf3, 0x95]

/-- `MatrixM8[6]` -/
def LMatrixM8_6 : List Nat := [0x88, 0x97, 0x80, 0x31, 0x91, 0x3, 0xfb, 0x2]

/-- `MatrixM8[7]` -/
def LMatrixM8_7 : List Nat := [0xf0, 0xfc, 0x50, 0xfb, 0xf4, 0xe7, 0xd2, 0x1d]

/-- `MatrixM8[8]` -/
def LMatrixM8_8 : List Nat := [0x80, 0xd4, 0x69, 0x81, 0x45, 0x42, 0xa6, 0x4c]

/-- `MatrixM8[9]` -/
def LMatrixM8_9 : List Nat := [0xda, 0x3d, 0x24, 0x5a, 0xc4, 0xc5, 0xfa, 0x11]

/-- `MatrixM8[10]` -/
def LMatrixM8_10 : List Nat := [0xc9, 0xd6, 0x80, 0x1b, 0x20, 0x8, 0x40, 0x26]

/-- `MatrixM8[11]` -/
def LMatrixM8_11 : List Nat := [0x59, 0xd6, 0xc9, 0x40, 0xf6, 0xd2, 0x84, 0xe]

/-- `MatrixM8[12]` -/
def LMatrixM8_12 : List Nat := [0xcd, 0xd6, 0x81, 0x90, 0x40, 0xe9, 0xd, 0xc9]

/-- `MatrixM8[13]` -/
def LMatrixM8_13 : List Nat := [0xa0, 0x80, 0x5e, 0x8b, 0x4, 0x89, 0xc9, 0xd6]

/-- `MatrixM8[14]` -/
def LMatrixM8_14 : List Nat := [0x40, 0x90, 0x49, 0x46, 0xf0, 0xde, 0xc9, 0xcd]

/-- `MatrixM8[15]` -/
def LMatrixM8_15 : List Nat := [0xc9, 0xd6, 0x90, 0x1b, 0x4d, 0x40, 0x24, 0x4e]

/-- `MatrixM8` — `/repo/test/BasisMatrixMethod_test.c:41-58`. -/
def MatrixM8 : Vector M8 16 := #v[rowsM LMatrixM8_0, rowsM LMatrixM8_1, rowsM LMatrixM8_2, rowsM LMatrixM8_3,
  rowsM LMatrixM8_4, rowsM LMatrixM8_5, rowsM LMatrixM8_6, rowsM LMatrixM8_7,
  rowsM LMatrixM8_8, rowsM LMatrixM8_9, rowsM LMatrixM8_10, rowsM LMatrixM8_11,
  rowsM LMatrixM8_12, rowsM LMatrixM8_13, rowsM LMatrixM8_14, rowsM LMatrixM8_15]

/-- `MatrixM8_inv[0]` -/
def LMatrixM8_inv_0 : List Nat := [0x41, 0xa9, 0x50, 0x9c, 0xc4, 0xc9, 0x81, 0xd2]

/-- `MatrixM8_inv[1]` -/
def LMatrixM8_inv_1 : List Nat := [0x98, 0x2, 0xd1, 0x81, 0x9, 0x90, 0xc4, 0x20]

/-- `MatrixM8_inv[2]` -/
def LMatrixM8_inv_2 : List Nat := [0x40, 0x32, 0x28, 0x3, 0x8, 0x41, 0x93, 0xdd]

/-- `MatrixM8_inv[3]` -/
def LMatrixM8_inv_3 : List Nat := [0x3a, 0x22, 0x70, 0x8, 0xca, 0x82, 0xbb, 0x4]

/-- `MatrixM8_inv[4]` -/
def LMatrixM8_inv_4 : List Nat := [0xc1, 0xd0, 0xd1, 0xbe, 0xa, 0x43, 0x8, 0x94]

/-- `MatrixM8_inv[5]` -/
def LMatrixM8_inv_5 : List Nat := [0x80, 0x2a, 0x50, 0x1a, 0xa4, 0x89, 0xf0, 0x12]

/-- `MatrixM8_inv[6]` -/
def LMatrixM8_inv_6 : List Nat := [0x20, 0x93, 0x38, 0x2d, 0xa0, 0x49, 0x1, 0x5]

/-- `MatrixM8_inv[7]` -/
def LMatrixM8_inv_7 : List Nat := [0xef, 0xf4, 0x4f, 0xd4, 0x48, 0x88, 0xcd, 0x15]

/-- `MatrixM8_inv[8]` -/
def LMatrixM8_inv_8 : List Nat := [0x80, 0x37, 0x1e, 0x58, 0x99, 0xaf, 0x33, 0x90]

/-- `MatrixM8_inv[9]` -/
def LMatrixM8_inv_9 : List Nat := [0x90, 0x3a, 0x82, 0xd, 0x61, 0xa2, 0x46, 0xc]

/-- `MatrixM8_inv[10]` -/
def LMatrixM8_inv_10 : List Nat := [0x20, 0x2, 0x8, 0x6b, 0x4, 0xd0, 0xd9, 0xa6]

/-- `MatrixM8_inv[11]` -/
def LMatrixM8_inv_11 : List Nat := [0x46, 0x10, 0x48, 0xe6, 0xf1, 0x44, 0xb4, 0x87]

/-- `MatrixM8_inv[12]` -/
def LMatrixM8_inv_12 : List Nat := [0x8a, 0x8, 0x5, 0x9a, 0x29, 0x81, 0xd9, 0xaa]

/-- `MatrixM8_inv[13]` -/
def LMatrixM8_inv_13 : List Nat := [0x40, 0x6, 0xc0, 0x5b, 0x61, 0x8, 0x14, 0x25]

/-- `MatrixM8_inv[14]` -/
def LMatrixM8_inv_14 : List Nat := [0x22, 0x80, 0xc8, 0x62, 0x54, 0x3, 0x93, 0xf4]

/-- `MatrixM8_inv[15]` -/
def LMatrixM8_inv_15 : List Nat := [0x58, 0x4, 0xd2, 0x78, 0x61, 0xd0, 0xb4, 0xbd]

/-- `MatrixM8_inv` — `/repo/test/BasisMatrixMethod_test.c:59-76`. -/
def MatrixM8_inv : Vector M8 16 := #v[rowsM LMatrixM8_inv_0, rowsM LMatrixM8_inv_1, rowsM LMatrixM8_inv_2, rowsM LMatrixM8_inv_3,
  rowsM LMatrixM8_inv_4, rowsM LMatrixM8_inv_5, rowsM LMatrixM8_inv_6, rowsM LMatrixM8_inv_7,
  rowsM LMatrixM8_inv_8, rowsM LMatrixM8_inv_9, rowsM LMatrixM8_inv_10, rowsM LMatrixM8_inv_11,
  rowsM LMatrixM8_inv_12, rowsM LMatrixM8_inv_13, rowsM LMatrixM8_inv_14, rowsM LMatrixM8_inv_15]

/-- `MatrixM16[0]` -/
def LMatrixM16_0 : List Nat := [0xaaa9, 0x664d, 0xcc31, 0x287e, 0xc180, 0x8100, 0x88a0, 0x603a,
  0x62ed, 0xa230, 0xc1f8, 0x4a8, 0xa36f, 0xf7ed, 0xcd28, 0x830]

/-- `MatrixM16[1]` -/
def LMatrixM16_1 : List Nat := [0x62ef, 0x8200, 0x2fdc, 0xcc31, 0xaaa9, 0x4a0, 0xc9b0, 0xc180,
  0xa230, 0x8100, 0x44ec, 0x88a0, 0x76ed, 0xe784, 0x4a8, 0x6798]

/-- `MatrixM16[2]` -/
def LMatrixM16_2 : List Nat := [0x88a0, 0x4388, 0x475, 0x62ed, 0x8100, 0xabb2, 0xaaa9, 0x7edd,
  0x4a0, 0xc180, 0x76ed, 0xe324, 0xa71a, 0x2a90, 0x4c31, 0xc528]

/-- `MatrixM16[3]` -/
def LMatrixM16_3 : List Nat := [0xaaa9, 0x5782, 0xaedc, 0x216f, 0xc180, 0x62ed, 0x88a0, 0x4a8,
  0xc51d, 0xe784, 0xef8c, 0x8200, 0x8100, 0x89c4, 0xd122, 0xfbb2]

/-- `MatrixM16[4]` -/
def LMatrixM16_4 : List Nat := [0x4844, 0x7a45, 0x62ed, 0xe784, 0x830, 0xc858, 0xc180, 0x4a8,
  0x86a0, 0x4a0, 0x22a0, 0xd001, 0x5091, 0xaedc, 0xaaa9, 0x9c6]

/-- `MatrixM16[5]` -/
def LMatrixM16_5 : List Nat := [0x2209, 0xca8, 0xaedc, 0x2a90, 0x8100, 0xaaa9, 0x6b29, 0x4a91,
  0x4a0, 0x6a4d, 0xa4a9, 0x2bcf, 0x54e4, 0xeaea, 0xab5f, 0x4a8]

/-- `MatrixM16[6]` -/
def LMatrixM16_6 : List Nat := [0xaaa9, 0x4d88, 0xe784, 0x2c09, 0x714d, 0xaedc, 0x4844, 0xc180,
  0x4a0, 0x8c00, 0x2a90, 0xc944, 0xa36f, 0x7de5, 0x830, 0x8569]

/-- `MatrixM16[7]` -/
def LMatrixM16_7 : List Nat := [0xe784, 0x830, 0x8100, 0xaedc, 0xcd28, 0xca8, 0x6645, 0x1439,
  0x4a8, 0x4844, 0x2a90, 0xcee4, 0x62ef, 0x2209, 0xc90, 0xc0e4]

/-- `MatrixM16[8]` -/
def LMatrixM16_8 : List Nat := [0xaaa9, 0x1400, 0xaedc, 0x62ed, 0x830, 0x4844, 0x267c, 0x22d4,
  0x4a0, 0x2a90, 0xc1f8, 0x8100, 0x2c09, 0xc180, 0xc9ff, 0x808]

/-- `MatrixM16[9]` -/
def LMatrixM16_9 : List Nat := [0xaedc, 0x86a0, 0x4a0, 0xa36f, 0x62ed, 0xa7c7, 0x88a0, 0x85a0,
  0xc180, 0xf5f, 0x4844, 0xaaa9, 0x76ed, 0xcd2d, 0x800, 0x6fb4]

/-- `MatrixM16[10]` -/
def LMatrixM16_10 : List Nat := [0xbf10, 0xd8ec, 0x586c, 0x98ec, 0x8112, 0x1e67, 0x44e5, 0x26e4,
  0x4a3d, 0x6767, 0xe807, 0x9b09, 0xcc9, 0x493c, 0x4a7d, 0xce4]

/-- `MatrixM16[11]` -/
def LMatrixM16_11 : List Nat := [0xbf10, 0x8f20, 0x40, 0x4cc9, 0x44e5, 0xc68b, 0x9d8a, 0xb3f4,
  0x8112, 0xdb09, 0x9143, 0xf91b, 0x2541, 0xaf49, 0x586c, 0xd6e]

/-- `MatrixM16[12]` -/
def LMatrixM16_12 : List Nat := [0x4a3d, 0xcc9, 0xad93, 0xaf49, 0x9f54, 0xe77c, 0x92d1, 0xbf10,
  0xc112, 0x44e5, 0xbe08, 0xe5a2, 0x9b09, 0x40, 0x8ddb, 0x2069]

/-- `MatrixM16[13]` -/
def LMatrixM16_13 : List Nat := [0x4040, 0x9d8a, 0xd8ac, 0xbf10, 0xb95b, 0x83e9, 0xcc9, 0xaf6c,
  0x8112, 0xaf49, 0x40, 0xb2c1, 0x3c35, 0x44e5, 0xe77c, 0xf435]

/-- `MatrixM16[14]` -/
def LMatrixM16_14 : List Nat := [0xcc9, 0xa380, 0xf5ff, 0x44e5, 0x4566, 0x7b64, 0x586c, 0xd8ec,
  0x66e4, 0xfa76, 0x858, 0x1fe4, 0x727f, 0x4000, 0xf435, 0xfa07]

/-- `MatrixM16[15]` -/
def LMatrixM16_15 : List Nat := [0xb399, 0xaf49, 0xd425, 0x9b09, 0xd8ec, 0x1e67, 0x9352, 0x8112,
  0xc898, 0x586c, 0x6b35, 0xf435, 0x4000, 0xbe08, 0xbd05, 0x2382]

/-- `MatrixM16` — `/repo/test/BasisMatrixMethod_test.c:78-95`. -/
def MatrixM16 : Vector M16 16 := #v[rowsM LMatrixM16_0, rowsM LMatrixM16_1, rowsM LMatrixM16_2, rowsM LMatrixM16_3,
  rowsM LMatrixM16_4, rowsM LMatrixM16_5, rowsM LMatrixM16_6, rowsM LMatrixM16_7,
  rowsM LMatrixM16_8, rowsM LMatrixM16_9, rowsM LMatrixM16_10, rowsM LMatrixM16_11,
  rowsM LMatrixM16_12, rowsM LMatrixM16_13, rowsM LMatrixM16_14, rowsM LMatrixM16_15]

/-- `MatrixM16_inv[0]` -/
def LMatrixM16_inv_0 : List Nat := [0x9180, 0x31d0, 0x70db, 0xdf96, 0x812, 0xdb12, 0xe908, 0x9580,
  0x3dd0, 0x40a3, 0xa642, 0xae51, 0x4090, 0x6861, 0x888, 0x5b43]

/-- `MatrixM16_inv[1]` -/
def LMatrixM16_inv_1 : List Nat := [0x1841, 0xc3, 0x63a3, 0xc3a, 0x2023, 0x3c72, 0x5841, 0x1801,
  0x183, 0x675, 0x39f1, 0x1ad2, 0x402, 0x694, 0xb040, 0x37f0]

/-- `MatrixM16_inv[2]` -/
def LMatrixM16_inv_2 : List Nat := [0x3202, 0x8247, 0xc5ec, 0xa6eb, 0x449, 0xb6cb, 0x7283, 0x3a02,
  0x8a07, 0xa778, 0x3c4c, 0x3925, 0xc1, 0x174, 0x3048, 0x35ae]

/-- `MatrixM16_inv[3]` -/
def LMatrixM16_inv_3 : List Nat := [0x8c04, 0x2b07, 0x4fa5, 0xdb64, 0x4172, 0x8f64, 0x8c14, 0x8c0c,
  0x230f, 0x26e4, 0xec79, 0xa1cf, 0x4112, 0x4495, 0x1c10, 0xa3]

/-- `MatrixM16_inv[4]` -/
def LMatrixM16_inv_4 : List Nat := [0xa002, 0x813c, 0x41ec, 0xc95a, 0x4914, 0xe14e, 0xa0c2, 0xb406,
  0x9738, 0x5a48, 0x7636, 0x3722, 0x140, 0x1260, 0x2203, 0xe874]

/-- `MatrixM16_inv[5]` -/
def LMatrixM16_inv_5 : List Nat := [0x2560, 0x3441, 0xd0b3, 0xc0c9, 0x4001, 0xe1e1, 0xa5c0, 0x2d60,
  0x3a41, 0xe687, 0xdb20, 0x1f33, 0x81, 0x1287, 0x2330, 0xf5f2]

/-- `MatrixM16_inv[6]` -/
def LMatrixM16_inv_6 : List Nat := [0xa201, 0x4720, 0xd9a6, 0x5194, 0x49c4, 0xeb85, 0x3281, 0xa011,
  0x4430, 0x2d46, 0xaf35, 0xe6f3, 0x4140, 0x21a2, 0x2109, 0x2aa7]

/-- `MatrixM16_inv[7]` -/
def LMatrixM16_inv_7 : List Nat := [0x285, 0x10a1, 0x4b3, 0x45a6, 0x480, 0x4646, 0x42d7, 0x2285,
  0x3ca1, 0x9843, 0x3ae5, 0x7e65, 0x4082, 0x8c22, 0x288, 0x6e2]

/-- `MatrixM16_inv[8]` -/
def LMatrixM16_inv_8 : List Nat := [0x9400, 0x540, 0xa949, 0xf501, 0x381, 0xb501, 0x1488, 0x9410,
  0x554, 0x825, 0xb0d5, 0xbb54, 0x380, 0xae4, 0x1506, 0x1c41]

/-- `MatrixM16_inv[9]` -/
def LMatrixM16_inv_9 : List Nat := [0x830, 0xc660, 0x3257, 0x223a, 0x2, 0x2a32, 0x6830, 0x2930,
  0xe7e0, 0xbeb3, 0xedd2, 0xedc5, 0x3400, 0x78f1, 0x1880, 0x6c77]

/-- `MatrixM16_inv[10]` -/
def LMatrixM16_inv_10 : List Nat := [0x945c, 0x5000, 0x1f87, 0x228a, 0x254e, 0x35db, 0x3bc8, 0x4c03,
  0xf45c, 0x82, 0xf3e0, 0x4e0f, 0x930c, 0x17aa, 0x9e50, 0x774f]

/-- `MatrixM16_inv[11]` -/
def LMatrixM16_inv_11 : List Nat := [0x86e4, 0x1220, 0x2316, 0x2a22, 0x1497, 0x3b50, 0x12db, 0xb7f9,
  0x2f4, 0x2000, 0x4c01, 0x8535, 0x80a4, 0xc032, 0xb4a8, 0x8fb7]

/-- `MatrixM16_inv[12]` -/
def LMatrixM16_inv_12 : List Nat := [0xbb89, 0x4082, 0x3d14, 0x4544, 0x3fa5, 0x685c, 0x8912, 0x6306,
  0x3c89, 0x4, 0x1665, 0x7f34, 0x1d12, 0x3410, 0xe7b9, 0x3666]

/-- `MatrixM16_inv[13]` -/
def LMatrixM16_inv_13 : List Nat := [0xbac8, 0x8020, 0x99e2, 0x1226, 0x3ae1, 0xbae, 0x5093, 0xfb13,
  0x8aea, 0x20, 0x2607, 0xbbc3, 0x52c0, 0xcc02, 0xfa98, 0xeb45]

/-- `MatrixM16_inv[14]` -/
def LMatrixM16_inv_14 : List Nat := [0x671c, 0x4, 0x9b74, 0xea34, 0x2762, 0xfb7c, 0x8ec2, 0x56b6,
  0x641c, 0x7834, 0x6735, 0x1a76, 0x4500, 0x9553, 0x2f9c, 0x536]

/-- `MatrixM16_inv[15]` -/
def LMatrixM16_inv_15 : List Nat := [0x5528, 0x8, 0x8c85, 0xa271, 0xed78, 0xf6d4, 0x2951, 0xc594,
  0x5d68, 0x8820, 0x8463, 0xac95, 0x4925, 0xa27, 0x3d29, 0xafc1]

/-- `MatrixM16_inv` — `/repo/test/BasisMatrixMethod_test.c:96-113`. -/
def MatrixM16_inv : Vector M16 16 := #v[rowsM LMatrixM16_inv_0, rowsM LMatrixM16_inv_1, rowsM LMatrixM16_inv_2, rowsM LMatrixM16_inv_3,
  rowsM LMatrixM16_inv_4, rowsM LMatrixM16_inv_5, rowsM LMatrixM16_inv_6, rowsM LMatrixM16_inv_7,
  rowsM LMatrixM16_inv_8, rowsM LMatrixM16_inv_9, rowsM LMatrixM16_inv_10, rowsM LMatrixM16_inv_11,
  rowsM LMatrixM16_inv_12, rowsM LMatrixM16_inv_13, rowsM LMatrixM16_inv_14, rowsM LMatrixM16_inv_15]

/-- `MatrixM32[0]` -/
def LMatrixM32_0 : List Nat := [0x838f1fae, 0x134e13dc, 0x8b3b8e08, 0xc0040010, 0x26f280dc, 0xc80af13e, 0x4b794318, 0x2307498c,
  0x2cea5412, 0x2d9cbbc1, 0x4f16d49, 0xbb4901a, 0x45fb0b01, 0x404800, 0x2848561b, 0xcaf64810,
  0xc628a750, 0xae0edd12, 0x8ca8ea93, 0x25b5ca10, 0x6708bef7, 0x6d1eaef1, 0xb23a4f81, 0x923f9a8b,
  0x9d4f8d89, 0xed28e297, 0xab67585d, 0xe6935387, 0xb8e10499, 0x2ad25a97, 0xac8a1012, 0x4d436158]

/-- `MatrixM32[1]` -/
def LMatrixM32_1 : List Nat := [0x4d436158, 0xcadec652, 0x2ad25a97, 0x404800, 0x640270d2, 0xac8a1012, 0xe6935387, 0x134e13dc,
  0x27f624c5, 0xbb4901a, 0x4b794318, 0x26f280dc, 0xb23a4f81, 0x47f7208b, 0x4d541a32, 0x51c2f1a,
  0x25ae8910, 0xe7b59e0a, 0x838f1fae, 0x25b5ca10, 0xb4cb8c3c, 0x9d4f8d89, 0x4d132958, 0xcaf64810,
  0x2cea5412, 0xcb6a3b0d, 0xc0040010, 0x411d00c4, 0xedcb377a, 0x81718957, 0xae0edd12, 0x45fb0b01]

/-- `MatrixM32[2]` -/
def LMatrixM32_2 : List Nat := [0x45fb0b01, 0xe6935387, 0x2cea5412, 0xc0040010, 0x4b794318, 0x9d4f8d89, 0xab67585d, 0x134e13dc,
  0xac8a1012, 0x600d6350, 0x27f624c5, 0xe6243905, 0x8d172948, 0x404800, 0x838f1fae, 0xcaf64810,
  0xaf684bdf, 0xe7b59e0a, 0xbb4901a, 0xa5145fcf, 0x2a1b97af, 0x2848561b, 0x31f5182f, 0x25b5ca10,
  0x1b670ab8, 0xbbbb110, 0xae0edd12, 0x4468b5c8, 0x28393a91, 0x25ae8910, 0x11e7671a, 0x2d4610c6]

/-- `MatrixM32[3]` -/
def LMatrixM32_3 : List Nat := [0x640270d2, 0xcaf64810, 0x2cea5412, 0xc0040010, 0xae0edd12, 0x774c630e, 0x385bd246, 0x838f1fae,
  0x81718957, 0xcb6a3b0d, 0x46ffe38c, 0x8ca8ea93, 0x4d132958, 0x25f58210, 0xaaf6ff52, 0xab67585d,
  0x636c5896, 0x650b3743, 0xe6935387, 0x404800, 0xbb4901a, 0xea03ee87, 0xed28e297, 0x80604400,
  0x5ad0ed2, 0x2a1b97af, 0x4d436158, 0x4b794318, 0x6e0460d4, 0x25ae8910, 0xb23a4f81, 0x27f624c5]

/-- `MatrixM32[4]` -/
def LMatrixM32_4 : List Nat := [0x640270d2, 0xe7b59e0a, 0x6b23104d, 0x8ca8ea93, 0x4d436158, 0x134e13dc, 0xe6935387, 0xc0040010,
  0x9d4f8d89, 0xd82428d1, 0x838f1fae, 0xeedff11d, 0xe1b8619a, 0x81718957, 0x2848561b, 0x87b52948,
  0x85ff0b11, 0x43c5ea68, 0x46f7f142, 0xab67585d, 0x27f624c5, 0x2cea5412, 0x6708bef7, 0xb23a4f81,
  0x4d132958, 0xedcb377a, 0x4b794318, 0xce374f82, 0xed28e297, 0x25ae8910, 0xbfc403ce, 0xed98bbd1]

/-- `MatrixM32[5]` -/
def LMatrixM32_5 : List Nat := [0x640270d2, 0x838f1fae, 0x2cea5412, 0x45fb0b01, 0x4d436158, 0x134e13dc, 0xe7b59e0a, 0xc04af5c6,
  0x6e4428d4, 0x619cc45f, 0x27f624c5, 0x8ca8ea93, 0x44290e4f, 0xa5145fcf, 0x7bdcde0e, 0xed28e297,
  0x2a1b97af, 0x2ad25a97, 0x4df40bda, 0x4d132958, 0xbb4901a, 0x35bc9300, 0x25ae8910, 0x81718957,
  0x404800, 0xaf24800, 0x30a59d16, 0x6b63584d, 0x2848561b, 0xb23a4f81, 0xe6935387, 0xac8a1012]

/-- `MatrixM32[6]` -/
def LMatrixM32_6 : List Nat := [0x27f624c5, 0xc0040010, 0x2cea5412, 0xde6df0b, 0x4d436158, 0x134e13dc, 0x8ca8ea93, 0x41f7f2c2,
  0x81718957, 0xcb6a3b0d, 0xbb4901a, 0xed28e297, 0xb23a4f81, 0x6ff6a8c8, 0xa5145fcf, 0xae0edd12,
  0x56b518dd, 0x49bb4318, 0x640270d2, 0x26f280dc, 0x39558473, 0xab67585d, 0x4d132958, 0x75a22cd,
  0x9d4f8d89, 0x9285b6ac, 0x2f7b33ca, 0x2848561b, 0x6e4428d4, 0xcaf64810, 0x838f1fae, 0x7482acfa]

/-- `MatrixM32[7]` -/
def LMatrixM32_7 : List Nat := [0xcb6a3b0d, 0x640270d2, 0xaaa6b752, 0x4b794318, 0x4d436158, 0xab67585d, 0x27f624c5, 0x81718957,
  0xe6935387, 0x4d132958, 0x838f1fae, 0xf27f53d, 0x134e13dc, 0x404800, 0x6253e441, 0xcab60010,
  0x45fb0b01, 0x2cea5412, 0xbb4901a, 0xef03ca00, 0xac8a1012, 0xfaad5759, 0xb23a4f81, 0x2a1b97af,
  0x6e4428d4, 0xa55417cf, 0x26975397, 0xed28e297, 0x2ad25a97, 0xb8e10499, 0xae0edd12, 0x26f280dc]

/-- `MatrixM32[8]` -/
def LMatrixM32_8 : List Nat := [0xac8a1012, 0x6fb6e0c8, 0x2cea5412, 0x3fa447ce, 0x4d436158, 0x404800, 0xe6935387, 0xab67585d,
  0x9d4f8d89, 0xcb6a3b0d, 0xed28e297, 0x8ca8ea93, 0x6705f852, 0xb23a4f81, 0x4f4dae49, 0x4b87c147,
  0x45fb0b01, 0x61ab198f, 0x838f1fae, 0x25b5ca10, 0x50e1842c, 0x81718957, 0xc6c0a00f, 0x21f97bd3,
  0x1852630b, 0xae0edd12, 0xe7b59e0a, 0xee2bd1d7, 0xf30ba55d, 0x7f5d8b1c, 0x25ae8910, 0xaa5a6a4f]

/-- `MatrixM32[9]` -/
def LMatrixM32_9 : List Nat := [0x8ca8ea93, 0x45fb0b01, 0x2cea5412, 0xc0040010, 0x2ad25a97, 0x134e13dc, 0x66a6a40, 0x54a91c06,
  0x81718957, 0xcb6a3b0d, 0xae0edd12, 0x4d436158, 0x725b9cda, 0x640270d2, 0x2848561b, 0xcaf64810,
  0x1a63f0b, 0xe7b59e0a, 0x22a5c990, 0x25b5ca10, 0xed28e297, 0x9d4f8d89, 0x8ce8a293, 0xab6a1ef8,
  0x838f1fae, 0xac8a1012, 0xf5dd405b, 0x6e4428d4, 0xa62196be, 0x27f624c5, 0x5e5d3a84, 0xab67585d]

/-- `MatrixM32[10]` -/
def LMatrixM32_10 : List Nat := [0x5538ed67, 0x663acacf, 0x40100040, 0x218b1ff, 0x55a3bc0a, 0x5ac24e44, 0xcddb557d, 0xe67cbb9a,
  0xfe415efc, 0x6b45f2e, 0x2ee082f4, 0xdf5202a2, 0xd329a13e, 0x7a938499, 0xcafa956a, 0x12e428a6,
  0x48c458db, 0x8a39fe69, 0x4c726633, 0x1d205079, 0xf4a1fbc2, 0x8562f43, 0x87aab56e, 0x9c83abf5,
  0x2e67a14f, 0xe8965325, 0x40d3779, 0x8bfcb579, 0x6cdbc20c, 0xe94cfa83, 0x32e934a4, 0x3c2d52da]

/-- `MatrixM32[11]` -/
def LMatrixM32_11 : List Nat := [0x9695e140, 0xf566606b, 0x98f7a837, 0x2143f29, 0x79ebeb92, 0x6fa7a687, 0xea1612c9, 0x681a8ec,
  0xa41ecd41, 0xf498933c, 0xcfbb706d, 0x4fb4317e, 0xa950005e, 0xd491de29, 0x32e934a4, 0xc3ad0c27,
  0x4c726633, 0x7dcaf40, 0xa2742cee, 0xc7c4bf95, 0xb3df0790, 0x83787c5f, 0x171c9369, 0x35de11ef,
  0xec093dda, 0xc9e1b358, 0x553d3bf5, 0xc74615ab, 0x3167f368, 0x147f1f2f, 0x147ebe5a, 0x408ab077]

/-- `MatrixM32[12]` -/
def LMatrixM32_12 : List Nat := [0xe67cbb9a, 0x55418233, 0x5214500e, 0x94e50e3e, 0x7ef7aa6b, 0x4c726633, 0x15214209, 0x87aab56e,
  0x202a41, 0xd491de29, 0xdd68fb2a, 0x95c85428, 0x4e5cf019, 0x5ff63a3d, 0x19d1da39, 0x689083cc,
  0x9c65ce0e, 0x11702154, 0xb49d2f2f, 0x7321c2f0, 0x41d6701a, 0x482666e2, 0x792b5d9d, 0x40100040,
  0x6b739afe, 0x4cc3757b, 0xae8cfaaa, 0x3a8384d9, 0xdef436b8, 0x4b922219, 0xd813fa29, 0xd6896fd6]

/-- `MatrixM32[13]` -/
def LMatrixM32_13 : List Nat := [0xfe415efc, 0x536a8114, 0x9fe72609, 0xcde8777, 0x8e027a3e, 0xf232511f, 0x7a0934ae, 0x462e14fc,
  0x689083cc, 0x145b7df, 0x1cbfc265, 0xe678ea8d, 0x6192f0eb, 0xd86467e1, 0x5171753b, 0x657403b6,
  0x4f15f57e, 0x3dc3a0f3, 0xe64bbea1, 0xaa0a8cbe, 0x87aab56e, 0x218b1ff, 0x68d4bfbc, 0x5c15ae07,
  0xdb57e820, 0x8df38aa1, 0x4208b1bf, 0x9e7b6f57, 0x1b4e9e1a, 0x9a2338b6, 0x14114446, 0x5c306d70]

/-- `MatrixM32[14]` -/
def LMatrixM32_14 : List Nat := [0xd491de29, 0x8aea952a, 0xf8a8003, 0x218b1ff, 0xd375bf40, 0xa4a073d4, 0xc82a4d5b, 0x657f17ba,
  0x78e7a190, 0x9495ce44, 0xf1989eb3, 0x7277f221, 0xe67cbb9a, 0x72d20aa9, 0x5c41ebf, 0xdaff1988,
  0x9aa48365, 0xd805964e, 0x32c20ae9, 0x5712a961, 0x5ac24e44, 0x6293f583, 0x46619c1e, 0x91a6ab52,
  0xdf4bc74d, 0x35aa6529, 0xc5ff6054, 0x264788cc, 0xeb55235f, 0x46bf3b03, 0xd017a83d, 0xe447ebe9]

/-- `MatrixM32[15]` -/
def LMatrixM32_15 : List Nat := [0x3a8384d9, 0x13c22014, 0xe67cbb9a, 0x4978aa31, 0x55a3bc0a, 0x274e98c3, 0xf9dd1c36, 0x676a20ef,
  0xe2fe9c99, 0xea1a8cfe, 0x9d3d3b29, 0x5ac24e44, 0x3e8b52d7, 0x218b1ff, 0x2b541661, 0x7a74ab6a,
  0x45e08f46, 0xf81c9a61, 0xd028db6e, 0xba278b00, 0x80761a2e, 0xb2c21173, 0x1b666be1, 0x32e934a4,
  0xf01ab43f, 0x91b0a5d3, 0xbdaddc47, 0x81f984b, 0xa81eb397, 0x87aab56e, 0xf3253f54, 0xdeef517d]

/-- `MatrixM32` — `/repo/test/BasisMatrixMethod_test.c:115-148`. -/
def MatrixM32 : Vector M32 16 := #v[rowsM LMatrixM32_0, rowsM LMatrixM32_1, rowsM LMatrixM32_2, rowsM LMatrixM32_3,
  rowsM LMatrixM32_4, rowsM LMatrixM32_5, rowsM LMatrixM32_6, rowsM LMatrixM32_7,
  rowsM LMatrixM32_8, rowsM LMatrixM32_9, rowsM LMatrixM32_10, rowsM LMatrixM32_11,
  rowsM LMatrixM32_12, rowsM LMatrixM32_13, rowsM LMatrixM32_14, rowsM LMatrixM32_15]

/-- `MatrixM32_inv[0]` -/
def LMatrixM32_inv_0 : List Nat := [0x57534868, 0x7d90c6af, 0xea1949c, 0xd1b0f618, 0x85620342, 0x33264cfc, 0x1da84619, 0xf8f565df,
  0xaa70da3c, 0xeda9ac82, 0x6aca6fc3, 0x20048001, 0xc9d1a75b, 0xf9c306fd, 0x687170a5, 0x820cf454,
  0xae894070, 0xc203c8a0, 0x32646f65, 0xe34ce40c, 0x2fae6422, 0x12b3438b, 0xde270e20, 0x1f8c75a3,
  0x36c488b8, 0x2ba3539d, 0x92a23228, 0xc300883a, 0x33bdcd7d, 0xe1aa9b2, 0xc42af2bc, 0x76f54afb]

/-- `MatrixM32_inv[1]` -/
def LMatrixM32_inv_1 : List Nat := [0x61f187d2, 0xf5b823a, 0x86b2d3b8, 0x8fc49e8a, 0xef1008fc, 0xf623c28a, 0xa29aa4b3, 0xfa4ca9e6,
  0xa8e19c6a, 0x259e4d91, 0x4aae064f, 0x90000200, 0xcac4afc4, 0xe783c9e0, 0x2fc5354a, 0xfeac1a2b,
  0xe4bb69bb, 0xd2b4d22, 0xf73d0266, 0x393cee63, 0x38b500b3, 0x7ea81ae, 0xb9b10b38, 0x3f3754bf,
  0xb0338058, 0xa5baf1a6, 0x88aff4a8, 0x8929cc28, 0x7161a52f, 0xa375243d, 0x785bab3, 0xf17be372]

/-- `MatrixM32_inv[2]` -/
def LMatrixM32_inv_2 : List Nat := [0x5f099465, 0x21c210ad, 0x68f5738d, 0x73b4eb2e, 0x51bcae59, 0x18b0c6ec, 0xf6363225, 0x3673faf6,
  0x5c3829ac, 0xa1a33803, 0xfa06d67a, 0x121c0000, 0x325dfa56, 0x3191ccc4, 0x3ad63aa, 0x8e92cbea,
  0xb89bf869, 0x1f834c20, 0x4dfef0f3, 0x890aaaa7, 0xbe247423, 0x3baf363c, 0xb713e09, 0xb98c213b,
  0x6a5cb00d, 0x7bf375b5, 0x3a7c070e, 0x5f5a480c, 0xbf69b2fc, 0xd958c41b, 0xc5e8dda6, 0x293bd265]

/-- `MatrixM32_inv[3]` -/
def LMatrixM32_inv_3 : List Nat := [0x4e284a34, 0x92e81d8e, 0x5eef259d, 0x91e2d4f, 0x33a1574b, 0xa08b63bd, 0x2a618027, 0xf1523ac5,
  0x15c52cff, 0xd771a141, 0xbcdaf61a, 0x81020, 0xe5da2e46, 0x5dc363e6, 0xe0d70da9, 0xa19e93d8,
  0xcf629758, 0xf9034550, 0x343a1393, 0x1b9b4d4, 0x2e72f411, 0xdc80593f, 0xd368445b, 0x8ef4b118,
  0xa620243c, 0xd46771b7, 0x3515441f, 0x9103345c, 0x60018e9d, 0x6f2d838, 0x239fd5c7, 0x7a2a3e17]

/-- `MatrixM32_inv[4]` -/
def LMatrixM32_inv_4 : List Nat := [0xa48370fd, 0x29287597, 0x63790cf7, 0xd6d06f06, 0xa9060bdb, 0xeb6a48ae, 0x2ec0cd55, 0xfa2d7ecc,
  0x7d87ba4, 0x3de18e93, 0xd5e6c5a8, 0x29001080, 0xdee5270c, 0xc32b178e, 0x54f97802, 0xff18d22a,
  0xe241d6bb, 0x49a352e2, 0xfc4c49eb, 0xb1e8d265, 0x5542cc71, 0x1276d26, 0x430b71, 0x11b4c433,
  0x8b200475, 0x475f4d67, 0x1dd21d64, 0x4f8012e4, 0xa3edec2c, 0xf2e6b071, 0xf23adb56, 0xce016dfd]

/-- `MatrixM32_inv[5]` -/
def LMatrixM32_inv_5 : List Nat := [0x8bc51e7a, 0x21045e15, 0x2eee5663, 0xef7a9a05, 0xc2e5a51f, 0x8b2372a9, 0x3da62616, 0xe1f1cbc2,
  0x4328ca34, 0x7036a451, 0xb951112e, 0x8001080, 0xe053bb56, 0xe441e24d, 0xd3a4853, 0xdb5bf0b1,
  0xff07a461, 0x4780a069, 0x81f355b5, 0xdbd0f6b0, 0x37b604b8, 0x25220b6d, 0x48a6b4ee, 0x315c05b3,
  0xa6c626a0, 0x2bea476f, 0x68f8023e, 0x4e808230, 0xb5216be2, 0x9a940d38, 0xd7fcd21f, 0xa1e73ee4]

/-- `MatrixM32_inv[6]` -/
def LMatrixM32_inv_6 : List Nat := [0x147316a4, 0x752b0759, 0xf0276b3d, 0xb30c6b9a, 0xc8da315a, 0x91347f29, 0xf40b98d0, 0xf7d45857,
  0xd44d3cfb, 0xa60291c6, 0x26d8c2b8, 0x8242200, 0x36f962d6, 0x71597507, 0x864455cd, 0x4210f32b,
  0x6012dd2e, 0x400065f6, 0xcffc6761, 0x5765a2b3, 0xe626d430, 0xf4a9296c, 0xc82e1e3e, 0x63839de8,
  0x30663c78, 0xf4ac6925, 0xfb2c24aa, 0x500164fa, 0xf995b4fd, 0x42a3dcf8, 0xde2ef703, 0xf45e7e74]

/-- `MatrixM32_inv[7]` -/
def LMatrixM32_inv_7 : List Nat := [0x554b2057, 0x54c6eef, 0x3b805ced, 0x6a997b86, 0x4aae0bf1, 0xfe060c9e, 0xa04c267, 0xead1653e,
  0x9e2133ae, 0x399cd41, 0x71b2c692, 0x8440000, 0xe9956314, 0x6cef4f3c, 0xa7fc3c8a, 0x781599ba,
  0x7c61c9f3, 0xb46f0d22, 0xffbc0a3b, 0xd0dc812f, 0xb7f2c063, 0x930f6ea6, 0x9fef03e1, 0x1439dce3,
  0xdd0044c5, 0xbbce5e2f, 0x9f9352a4, 0x3c6801a4, 0x5709e0be, 0xfdfea4e1, 0xe69f9f6e, 0xff8d6677]

/-- `MatrixM32_inv[8]` -/
def LMatrixM32_inv_8 : List Nat := [0xf0f74057, 0x5899875f, 0x3398529b, 0xcb9c3cca, 0x207faf99, 0x9ea2c5ea, 0xb29582f3, 0x76f42ae6,
  0x53c5fbea, 0x1ac91, 0x2172414c, 0xd080400, 0x6b7d2c02, 0x93eaaf26, 0xe15595cc, 0x87397f48,
  0x23346f5d, 0xb90e6e64, 0xa46dc3e1, 0x3d496f63, 0xbd0fc2f5, 0xc88ac3ee, 0xa4126abd, 0x1d05d65d,
  0xafd4c11f, 0x821e52e3, 0x311b72ae, 0x33856a2e, 0x4f20c2ca, 0xf30fc63d, 0x2a933fd6, 0xc67842f7]

/-- `MatrixM32_inv[9]` -/
def LMatrixM32_inv_9 : List Nat := [0x36aac9b, 0x382da0e9, 0x3f18d0ec, 0xa5b0755c, 0x105f89e4, 0x8e364afd, 0x7039849c, 0x38716b2e,
  0x1bf4351d, 0xe58885d4, 0xe7e64c30, 0x84100202, 0xa1516d08, 0x3dd74949, 0x88657457, 0x5eb45bf0,
  0x73bcc9e3, 0x12a345c3, 0x1afc4a65, 0x5fec0708, 0x772bc217, 0x33a720fc, 0x929a83a5, 0x73a99643,
  0xa35d82ab, 0x3abb50ce, 0xb312143f, 0x1690453b, 0xfaa12ebd, 0xd39be421, 0xd9a7d15f, 0xb278ea9f]

/-- `MatrixM32_inv[10]` -/
def LMatrixM32_inv_10 : List Nat := [0x2083e8f5, 0xd3bc6402, 0x4af5cdd9, 0xbb30f300, 0xac1c961, 0x47ec5740, 0xef23dbb2, 0x8bb24d7b,
  0xd1034f0b, 0x2c8a0c36, 0x5d0ea34, 0xc96b8ce5, 0xe3223ed6, 0x3c3c9284, 0x4e80816b, 0xd85d5b89,
  0x3621a1d1, 0x10a3dee8, 0x45a4c19f, 0xc14becd7, 0x7c046f8a, 0xf02d58f, 0xd6713f99, 0xb4a48fb4,
  0x30091a3b, 0x3ad7e8e7, 0xd3403fd7, 0x9c288614, 0xd0eea8aa, 0xb564f414, 0xfffa6cd2, 0xcc611df]

/-- `MatrixM32_inv[11]` -/
def LMatrixM32_inv_11 : List Nat := [0xcb512c66, 0x6c682462, 0xba5249f0, 0xd4691c83, 0xf026c20, 0xceb29ad1, 0x978036cb, 0xbd3c5813,
  0xb0477343, 0xcf346e74, 0x7f4bf2cc, 0xc4ef289c, 0xb611e9b4, 0x521ad4ff, 0x994197d2, 0xa66343e2,
  0x274e0e11, 0xe9493093, 0xa9fe44b4, 0x4284118f, 0x10adaf5a, 0xa768dcf4, 0xa3ceafe9, 0x19a126f5,
  0x42890233, 0x38830cfe, 0xe4b8a524, 0xb0ed94c6, 0x4d69da60, 0x3d008cd, 0xe395dd8, 0x5e741a65]

/-- `MatrixM32_inv[12]` -/
def LMatrixM32_inv_12 : List Nat := [0x37295547, 0x98e72034, 0xdbe27dbf, 0xde4c3ca8, 0xa575b28c, 0xa3a3c10d, 0x8bd05489, 0x521b448e,
  0x6eed6aa9, 0xed217465, 0x802f86f7, 0x9888e862, 0xcc97e362, 0x6c5280c1, 0xfc96c68d, 0x488724ba,
  0xdc02ad8a, 0x897b3425, 0x67d7dd4e, 0x26fb8b40, 0xeba7e498, 0xf33a02e9, 0x5dad2c8a, 0x2163176e,
  0xa707e90, 0x6fc956, 0x6bbbf57a, 0xe55a34f0, 0x60975934, 0xda501550, 0xce6d3b7, 0x511d5afd]

/-- `MatrixM32_inv[13]` -/
def LMatrixM32_inv_13 : List Nat := [0x3a12125c, 0x387b704a, 0x25ed70d8, 0x27081012, 0xe948d179, 0x1a41128c, 0x56774bf5, 0xd0a1797,
  0x7281ccb9, 0x973647ad, 0xb552fd8b, 0xc26f5d87, 0x50bbc730, 0xf64847ef, 0x5eb39d2c, 0xa899361d,
  0x381c00c2, 0x2a141297, 0x2579587e, 0x22dbc948, 0x7aa53662, 0xfd06977a, 0x72b316d2, 0xf276da3d,
  0xfd08b7af, 0xfa1429ed, 0x8fbb7522, 0x94506ea3, 0x8d2d7ae6, 0x7658685c, 0xce1ad5a, 0xe208a4a8]

/-- `MatrixM32_inv[14]` -/
def LMatrixM32_inv_14 : List Nat := [0xf719e8d7, 0xff5c9eb3, 0x6faac5fc, 0xd493fbce, 0xf7f362b7, 0xcb67d090, 0x38436964, 0x36b9441a,
  0xc2517d0, 0xdaba58d4, 0xf6f0a058, 0x450933ab, 0x311a6050, 0x3528a240, 0xcb728dc8, 0x6057a151,
  0xd6c4081, 0x423bbbd4, 0xe6c7e45e, 0xa42b2bb3, 0x5471ebd2, 0xa4d1cd02, 0x3c5953d3, 0xdf381f95,
  0xd5a1fd76, 0xba518d18, 0x48c56b3f, 0xec46e58f, 0x23d59685, 0xcd01e7ad, 0x1b10a5df, 0xf25f804f]

/-- `MatrixM32_inv[15]` -/
def LMatrixM32_inv_15 : List Nat := [0x7e3264d8, 0x9cc19272, 0xa78aed8c, 0xbb5e27f9, 0x6f4d298c, 0x71cc1b90, 0xa3e9f783, 0x798b68,
  0x6c017f06, 0x67476adc, 0x213980bf, 0x249d17ba, 0xac19acc9, 0xed83e237, 0x70473206, 0x4050e09,
  0x89d8916b, 0x366766f0, 0xe3c3b7ad, 0x60c1555e, 0xc989946e, 0x71302ea8, 0x8498d46f, 0xd273ef4f,
  0xb69abcfc, 0x385484c1, 0xdbcebb34, 0x62340ba3, 0xefde6cf8, 0xa238c0c0, 0x3aed4363, 0xb3ffb7d6]

/-- `MatrixM32_inv` — `/repo/test/BasisMatrixMethod_test.c:149-182`. -/
def MatrixM32_inv : Vector M32 16 := #v[rowsM LMatrixM32_inv_0, rowsM LMatrixM32_inv_1, rowsM LMatrixM32_inv_2, rowsM LMatrixM32_inv_3,
  rowsM LMatrixM32_inv_4, rowsM LMatrixM32_inv_5, rowsM LMatrixM32_inv_6, rowsM LMatrixM32_inv_7,
  rowsM LMatrixM32_inv_8, rowsM LMatrixM32_inv_9, rowsM LMatrixM32_inv_10, rowsM LMatrixM32_inv_11,
  rowsM LMatrixM32_inv_12, rowsM LMatrixM32_inv_13, rowsM LMatrixM32_inv_14, rowsM LMatrixM32_inv_15]

/-- `MatrixM64[0]` -/
def LMatrixM64_0 : List Nat := [0xa89baaf5f6f083a9, 0x3c480f359ae2b2dd, 0xc6fa029817b03bc3, 0x17277f85519017a1, 0x9300a7cbe56a5155, 0x8e3ae36f74fb310, 0x7d1519885d9d83cc, 0xb9e26673a9c6af37,
  0xe673de0a2fc4ae7a, 0x6fa49ed967b0a536, 0xacc8b4309798cc1, 0xc6c81ded6a48532a, 0x77319d45eb70e704, 0x31137194b6149cea, 0xe1a794469d486ed8, 0x9907a3dc137659bd,
  0x485b443cc5e56ba2, 0x5438f0400a48b230, 0x67100afdc82fb7d3, 0x9b15e34aed367cd7, 0x273d98fcd5d07584, 0x53464be7f1ef1479, 0x6876f54c61032933, 0x138fd57966213185,
  0x5246ba2ecf675843, 0x48642c41e219a538, 0x716be4d959c53a94, 0xcdd63af7948d20a6, 0x98cd9d5c388d432c, 0x2936b1c9ba591988, 0xfa9fe02cc51883e1, 0x40aff6d898ecb6db,
  0x37fb0de8e4c837e, 0x32bbce85f1654b8c, 0x8daa1892faed2e29, 0xd78194a2f41e73cb, 0x2868de3f54fa887a, 0xce3b0b90cf3f7df5, 0x358c94125a41e01f, 0x1d5c337c8f19f92,
  0x84400e9b3a7b2b77, 0x97b275ba79e9b048, 0x71fa9a140156883b, 0x3878d505d0f30c70, 0x1d592d7d40c19954, 0x90d71a1bffd87f81, 0x22cac8d5a9019793, 0x276c8d4e47547173,
  0x535e5a150f7341f5, 0x4fd0150ebadb8b4, 0x3bfc566adf5ac503, 0xa9fa0edddba9e49b, 0xe23e6a35eab54bf2, 0xa01f6b569ef628a5, 0xf4566f0d39b36b4d, 0x1f7186b9c7d1e3b9,
  0x6fea909b5d50c1de, 0xd3589d3a3bffe4ac, 0xd147384f7198b819, 0xe8f5249ad4c0b392, 0xbc2ec240d3d94d37, 0x10342c8e294f37e9, 0x250f073888222535, 0x19ebfe8755eaa2a]

/-- `MatrixM64[1]` -/
def LMatrixM64_1 : List Nat := [0xa89baaf5f6f083a9, 0xc6c81ded6a48532a, 0xfdc72d4db804dd3d, 0x250f073888222535, 0x6fa49ed967b0a536, 0x716be4d959c53a94, 0xa0b54859e87e4f5c, 0xb9e26673a9c6af37,
  0x48642c41e219a538, 0xce3b0b90cf3f7df5, 0xa98bbe026b8f8a4b, 0x3c480f359ae2b2dd, 0x77319d45eb70e704, 0xc6fa029817b03bc3, 0xe1a794469d486ed8, 0x406e8e6f2230303b,
  0x5438f0400a48b230, 0x85deb1734f25815d, 0x642f936df911b634, 0x9b15e34aed367cd7, 0x273d98fcd5d07584, 0x71fa9a140156883b, 0x6876f54c61032933, 0x8f864eaef63c536a,
  0x138fd57966213185, 0xa1d19b0b926fbc2b, 0xd36bf7f1ec631ec9, 0xcdd63af7948d20a6, 0x98cd9d5c388d432c, 0x67100afdc82fb7d3, 0x9300a7cbe56a5155, 0x7d1519885d9d83cc,
  0x37fb0de8e4c837e, 0x276c8d4e47547173, 0x3c57fdc1af50d0cb, 0xa24fd4a7d919198c, 0xf441cc1de6d5704f, 0x8daa1892faed2e29, 0x31137194b6149cea, 0x1d5c337c8f19f92,
  0x97cfdbe25c5a1af2, 0x90d71a1bffd87f81, 0xf39de6d780f8067c, 0x44eae880421654e4, 0x1d592d7d40c19954, 0x80bd0fcbd1d693c3, 0x22cac8d5a9019793, 0xe5bee4c8c077a8dc,
  0x358c94125a41e01f, 0xc5f4cf94b68ee80b, 0xd78194a2f41e73cb, 0xa9fa0edddba9e49b, 0xe23e6a35eab54bf2, 0x59e3a9a91a385f07, 0x8e3ae36f74fb310, 0xbbb2d982ee299e1e,
  0x6044ae438d53ee27, 0x40aff6d898ecb6db, 0xb6f6e48ec3ffab8a, 0x53464be7f1ef1479, 0xbc2ec240d3d94d37, 0xacc8b4309798cc1, 0x9907a3dc137659bd, 0x485b443cc5e56ba2]

/-- `MatrixM64[2]` -/
def LMatrixM64_2 : List Nat := [0x6876f54c61032933, 0xf52bea4263be11e3, 0x31137194b6149cea, 0x250f073888222535, 0xce3b0b90cf3f7df5, 0x126ac4b611d83073, 0x84400e9b3a7b2b77, 0xb9e26673a9c6af37,
  0x4ee874ffd9342dd3, 0x6fa49ed967b0a536, 0xacc8b4309798cc1, 0x3c480f359ae2b2dd, 0x6fea909b5d50c1de, 0xc6fa029817b03bc3, 0xcdd63af7948d20a6, 0xe23e6a35eab54bf2,
  0x5438f0400a48b230, 0x485b443cc5e56ba2, 0x67100afdc82fb7d3, 0x9b15e34aed367cd7, 0x273d98fcd5d07584, 0x71fa9a140156883b, 0x61feea53fa0c83ab, 0x3878d505d0f30c70,
  0x2936b1c9ba591988, 0x77319d45eb70e704, 0xf4566f0d39b36b4d, 0xe1a794469d486ed8, 0x98cd9d5c388d432c, 0xc552e77bade13a81, 0x9300a7cbe56a5155, 0xd3589d3a3bffe4ac,
  0x6b094592ef4faa4d, 0xd78194a2f41e73cb, 0x8daa1892faed2e29, 0x642f936df911b634, 0x6f542f570be30c98, 0x8e3ae36f74fb310, 0x358c94125a41e01f, 0x1d5c337c8f19f92,
  0x7d1519885d9d83cc, 0x90d71a1bffd87f81, 0x80bd0fcbd1d693c3, 0x6f765f7ae826a99b, 0x1d592d7d40c19954, 0x97b275ba79e9b048, 0x7c5cfed2123b2a6, 0xa89baaf5f6f083a9,
  0x8010fd6327a05680, 0x40aff6d898ecb6db, 0xa24fd4a7d919198c, 0x6f000c45cc19df58, 0xe8f5249ad4c0b392, 0x49bb8a0adc95e16, 0xc6c81ded6a48532a, 0x59e3a9a91a385f07,
  0xbc25e05c04ccd577, 0x9b7c862cb6ced415, 0x22abeb970bd1f7be, 0x53464be7f1ef1479, 0xa1db5cf94f9f5e3f, 0x10342c8e294f37e9, 0xc7303c183c4b2152, 0xc764bd7062ee91e9]

/-- `MatrixM64[3]` -/
def LMatrixM64_3 : List Nat := [0xa89baaf5f6f083a9, 0xcf99a9d49394c2e1, 0x31137194b6149cea, 0x250f073888222535, 0xce3b0b90cf3f7df5, 0xc6d8a5a63870cee5, 0xd42b0054c7098ec7, 0xfa9fe02cc51883e1,
  0x98cd9d5c388d432c, 0x6fa49ed967b0a536, 0xacc8b4309798cc1, 0x3c480f359ae2b2dd, 0x77319d45eb70e704, 0xc6fa029817b03bc3, 0xe1a794469d486ed8, 0x19ebfe8755eaa2a,
  0x10342c8e294f37e9, 0x6876f54c61032933, 0x67100afdc82fb7d3, 0x4ee874ffd9342dd3, 0x273d98fcd5d07584, 0x71fa9a140156883b, 0xe8f5249ad4c0b392, 0x138fd57966213185,
  0x9300a7cbe56a5155, 0x6fea909b5d50c1de, 0xf4566f0d39b36b4d, 0xcdd63af7948d20a6, 0xf441cc1de6d5704f, 0x553ce2f94f052ade, 0x5438f0400a48b230, 0x40aff6d898ecb6db,
  0x7d1519885d9d83cc, 0xc6c81ded6a48532a, 0x8daa1892faed2e29, 0xdd4d1fe1fd67ff0a, 0x5defe1d2fa864714, 0x84400e9b3a7b2b77, 0x1d592d7d40c19954, 0x1d5c337c8f19f92,
  0x22cac8d5a9019793, 0xb9e26673a9c6af37, 0x9332dab2b7f7a246, 0xd3589d3a3bffe4ac, 0x1c5cdc01e8511708, 0x97b275ba79e9b048, 0xc84bb95fe2453d22, 0xe5bee4c8c077a8dc,
  0x244228225b9cf6fa, 0xc5f4cf94b68ee80b, 0xa8835fe4d060954d, 0xe23e6a35eab54bf2, 0xa9fa0edddba9e49b, 0x250bff147ef3129, 0x716be4d959c53a94, 0x59e3a9a91a385f07,
  0xbc2f95112ee0356, 0xc0203024f44a7de6, 0x17277f85519017a1, 0xaa5e24eebd74b7e, 0x73b76b94404d8fd6, 0x2936b1c9ba591988, 0x9907a3dc137659bd, 0x485b443cc5e56ba2]

/-- `MatrixM64[4]` -/
def LMatrixM64_4 : List Nat := [0x1d5c337c8f19f92, 0xc6c81ded6a48532a, 0xf441cc1de6d5704f, 0x98cd9d5c388d432c, 0xe8f5249ad4c0b392, 0x8e3ae36f74fb310, 0x250bff147ef3129, 0x6fea909b5d50c1de,
  0x37fb0de8e4c837e, 0x6fa49ed967b0a536, 0xfa9fe02cc51883e1, 0x358c94125a41e01f, 0x77319d45eb70e704, 0x97b275ba79e9b048, 0xe1a794469d486ed8, 0xce3b0b90cf3f7df5,
  0x4ee874ffd9342dd3, 0x326cc14a38581f94, 0x67100afdc82fb7d3, 0x9b15e34aed367cd7, 0x273d98fcd5d07584, 0x5438f0400a48b230, 0x6876f54c61032933, 0x138fd57966213185,
  0x10342c8e294f37e9, 0xd008be2a8ed1b3f0, 0xf4566f0d39b36b4d, 0xbc2ca0e395dba89d, 0x7d1519885d9d83cc, 0x642f936df911b634, 0x9300a7cbe56a5155, 0x40aff6d898ecb6db,
  0x716be4d959c53a94, 0xd78194a2f41e73cb, 0x8daa1892faed2e29, 0x71fa9a140156883b, 0xa9fa0edddba9e49b, 0x6568159a6ec929f7, 0x3c480f359ae2b2dd, 0xe23e6a35eab54bf2,
  0xa89baaf5f6f083a9, 0x90d71a1bffd87f81, 0xc84bb95fe2453d22, 0xd3589d3a3bffe4ac, 0x1d592d7d40c19954, 0xc72fc1afdf41a451, 0x22cac8d5a9019793, 0xe5bee4c8c077a8dc,
  0x2826a53e2726106a, 0xc5f4cf94b68ee80b, 0xa24fd4a7d919198c, 0xbc2ec240d3d94d37, 0xec36fbd75b780244, 0x250f073888222535, 0x276c8d4e47547173, 0xe82f33207a02946f,
  0xea2bf8e63b00bcb4, 0x3878d505d0f30c70, 0xb9e26673a9c6af37, 0xc6a481accfe99518, 0x485b443cc5e56ba2, 0x2936b1c9ba591988, 0x9907a3dc137659bd, 0x19ebfe8755eaa2a]

/-- `MatrixM64[5]` -/
def LMatrixM64_5 : List Nat := [0x1c8d93c702f6685b, 0x6fea909b5d50c1de, 0x31137194b6149cea, 0x250f073888222535, 0x4ee874ffd9342dd3, 0x642f936df911b634, 0x7d1519885d9d83cc, 0xfa6e2cf381a6fd24,
  0x37fb0de8e4c837e, 0x4aab99e1ef928003, 0xf0a2a7b088df71e5, 0x3c480f359ae2b2dd, 0xc6c81ded6a48532a, 0xc6fa029817b03bc3, 0xe1a794469d486ed8, 0xe8f5249ad4c0b392,
  0x5438f0400a48b230, 0xcdd63af7948d20a6, 0x67100afdc82fb7d3, 0x9b15e34aed367cd7, 0x273d98fcd5d07584, 0x358c94125a41e01f, 0x6876f54c61032933, 0x9f41416709487099,
  0x10342c8e294f37e9, 0x77319d45eb70e704, 0x89437685642ee881, 0xc5f4cf94b68ee80b, 0x80bd0fcbd1d693c3, 0x8e3ae36f74fb310, 0x40aff6d898ecb6db, 0xf441cc1de6d5704f,
  0xce3b0b90cf3f7df5, 0x276c8d4e47547173, 0x8daa1892faed2e29, 0xd78194a2f41e73cb, 0x9300a7cbe56a5155, 0xfa9fe02cc51883e1, 0x71fa9a140156883b, 0x1d5c337c8f19f92,
  0xa89baaf5f6f083a9, 0x724f58c10e02e6f9, 0x5e379fc42f3d78ef, 0xd3589d3a3bffe4ac, 0x1d592d7d40c19954, 0x59e3a9a91a385f07, 0x4d20584ef451564d, 0x9907a3dc137659bd,
  0xb9e26673a9c6af37, 0x485b443cc5e56ba2, 0x1badb2d470dfb6bb, 0x8cf509e5538bc1ae, 0xe23e6a35eab54bf2, 0x250bff147ef3129, 0xc92fd936deb50b4b, 0x97b275ba79e9b048,
  0x48642c41e219a538, 0xcc2eba08e940673d, 0x17277f85519017a1, 0x2477d6a21a9ff37d, 0xcb1f5f0538a9aa33, 0xc84bb95fe2453d22, 0xe5bee4c8c077a8dc, 0x138fd57966213185]

/-- `MatrixM64[6]` -/
def LMatrixM64_6 : List Nat := [0x2c74d7513cf4dd96, 0xc6c81ded6a48532a, 0x31137194b6149cea, 0x84400e9b3a7b2b77, 0xce3b0b90cf3f7df5, 0x8e3ae36f74fb310, 0x7d1519885d9d83cc, 0x80bd0fcbd1d693c3,
  0x4ee874ffd9342dd3, 0xc6fa029817b03bc3, 0xacc8b4309798cc1, 0x53464be7f1ef1479, 0x9e07db9243fbab51, 0x642f936df911b634, 0xe1a794469d486ed8, 0x6876f54c61032933,
  0x5438f0400a48b230, 0xf4566f0d39b36b4d, 0x67100afdc82fb7d3, 0x9b15e34aed367cd7, 0x273d98fcd5d07584, 0x250f073888222535, 0xe8f5249ad4c0b392, 0x138fd57966213185,
  0x358c94125a41e01f, 0xa89baaf5f6f083a9, 0xe5bee4c8c077a8dc, 0xb568ab2288890e2d, 0x98cd9d5c388d432c, 0xb9e26673a9c6af37, 0x9300a7cbe56a5155, 0x40aff6d898ecb6db,
  0x37fb0de8e4c837e, 0x276c8d4e47547173, 0x8daa1892faed2e29, 0xd78194a2f41e73cb, 0xcdd63af7948d20a6, 0x34b453f7581f63db, 0x59e3a9a91a385f07, 0x1d5c337c8f19f92,
  0x71fa9a140156883b, 0xdd40de3aa8a0d12c, 0xf4b17d938a86d9e1, 0x40583af1de95b5f9, 0x1d592d7d40c19954, 0x97b275ba79e9b048, 0x22cac8d5a9019793, 0x6fea909b5d50c1de,
  0xc84bb95fe2453d22, 0xe0fbc8ac3eaccd3e, 0xc55fde5a1136ae5f, 0x2936b1c9ba591988, 0xe23e6a35eab54bf2, 0xa01f6b569ef628a5, 0x716be4d959c53a94, 0x10342c8e294f37e9,
  0x6f000c45cc19df58, 0x3878d505d0f30c70, 0xf441cc1de6d5704f, 0x77319d45eb70e704, 0xbc2ec240d3d94d37, 0x48642c41e219a538, 0xbe3a3b20c6a62c39, 0x8ef7e87a1a941917]

/-- `MatrixM64[7]` -/
def LMatrixM64_7 : List Nat := [0xa89baaf5f6f083a9, 0x9300a7cbe56a5155, 0x31137194b6149cea, 0x250f073888222535, 0xe8f5249ad4c0b392, 0x8e3ae36f74fb310, 0xc5f4cf94b68ee80b, 0xb9e26673a9c6af37,
  0x4ee874ffd9342dd3, 0x6fa49ed967b0a536, 0x53464be7f1ef1479, 0x3c480f359ae2b2dd, 0xce3b0b90cf3f7df5, 0x642f936df911b634, 0xf4566f0d39b36b4d, 0x876693d1f394a2e8,
  0xd84e1c3e4db8af33, 0x485b443cc5e56ba2, 0x67100afdc82fb7d3, 0xf39de6d780f8067c, 0x273d98fcd5d07584, 0x22bcd1f3f0b99c42, 0x6876f54c61032933, 0x138fd57966213185,
  0x10342c8e294f37e9, 0xd3589d3a3bffe4ac, 0xcdd63af7948d20a6, 0xe1a794469d486ed8, 0x98cd9d5c388d432c, 0xc6fa029817b03bc3, 0xc6c81ded6a48532a, 0x40aff6d898ecb6db,
  0x37fb0de8e4c837e, 0x276c8d4e47547173, 0x8daa1892faed2e29, 0xd78194a2f41e73cb, 0xf441cc1de6d5704f, 0x1d51f94845ecc22b, 0x80bd0fcbd1d693c3, 0x1d5c337c8f19f92,
  0xa37d9667efab5ef3, 0xedda9633a38e1d07, 0x358c94125a41e01f, 0x6fea909b5d50c1de, 0x7d1519885d9d83cc, 0xab311c7b0a08239, 0x48642c41e219a538, 0xe5bee4c8c077a8dc,
  0xb55ea0d7bfd8beee, 0x1d592d7d40c19954, 0xbde3a043748e19de, 0xa24fd4a7d919198c, 0xe23e6a35eab54bf2, 0x2936b1c9ba591988, 0x716be4d959c53a94, 0x59e3a9a91a385f07,
  0x22cac8d5a9019793, 0x3878d505d0f30c70, 0x17277f85519017a1, 0x77319d45eb70e704, 0xbc2ec240d3d94d37, 0xf980f60a5e1cd78, 0x573ca84cdc492448, 0x19ebfe8755eaa2a]

/-- `MatrixM64[8]` -/
def LMatrixM64_8 : List Nat := [0x19ebfe8755eaa2a, 0xc6c81ded6a48532a, 0x273d98fcd5d07584, 0x250f073888222535, 0xce3b0b90cf3f7df5, 0x17277f85519017a1, 0xacc8b4309798cc1, 0xb9e26673a9c6af37,
  0x4ee874ffd9342dd3, 0x6fa49ed967b0a536, 0xc84bb95fe2453d22, 0x34bb19483f959c02, 0x77319d45eb70e704, 0xc6fa029817b03bc3, 0xe1a794469d486ed8, 0x6876f54c61032933,
  0x5438f0400a48b230, 0x485b443cc5e56ba2, 0xa1d81710a267e4f9, 0x9b15e34aed367cd7, 0xbc2ec240d3d94d37, 0x71fa9a140156883b, 0x5ef285a8c112ca85, 0xaa6db30acfe79eb2,
  0x10342c8e294f37e9, 0x4ae597a3d572e4eb, 0xf4566f0d39b36b4d, 0xcdd63af7948d20a6, 0x98cd9d5c388d432c, 0x642f936df911b634, 0x9300a7cbe56a5155, 0x22cac8d5a9019793,
  0x37fb0de8e4c837e, 0x276c8d4e47547173, 0x990fbe8ed5963ba9, 0x4f4c09fecc9330e7, 0xf441cc1de6d5704f, 0xfa9fe02cc51883e1, 0x48642c41e219a538, 0x4b7cdfbdaf35b8,
  0x9474221513341c9e, 0x90d71a1bffd87f81, 0x80bd0fcbd1d693c3, 0xb1e217a7600f9cf4, 0x864cce37adf7e583, 0x97b275ba79e9b048, 0xcf13743e9f5963fe, 0xe5bee4c8c077a8dc,
  0xe5d884d46510c0e0, 0x24535bd22bc686d3, 0xa24fd4a7d919198c, 0xa9fa0edddba9e49b, 0x6e21ff0e287794da, 0x250bff147ef3129, 0x716be4d959c53a94, 0x9f19ab310d8864c4,
  0x8e3ae36f74fb310, 0xcc2eba08e940673d, 0x40aff6d898ecb6db, 0x53464be7f1ef1479, 0x31137194b6149cea, 0x4d1922a44348afbc, 0x9907a3dc137659bd, 0xb7baae11f39fa894]

/-- `MatrixM64[9]` -/
def LMatrixM64_9 : List Nat := [0xa89baaf5f6f083a9, 0x80bd0fcbd1d693c3, 0xe1a794469d486ed8, 0x250f073888222535, 0x37fb0de8e4c837e, 0x5438f0400a48b230, 0x7d1519885d9d83cc, 0xb9e26673a9c6af37,
  0x716be4d959c53a94, 0x214cea26be8488e5, 0xacc8b4309798cc1, 0x3c480f359ae2b2dd, 0xd5d12b53b3f142e2, 0xe23e6a35eab54bf2, 0x720c9172b99e1894, 0xe8f5249ad4c0b392,
  0x8e3ae36f74fb310, 0x485b443cc5e56ba2, 0x358c94125a41e01f, 0x9b15e34aed367cd7, 0x273d98fcd5d07584, 0x71fa9a140156883b, 0x6876f54c61032933, 0x6e9accf13bbcb249,
  0x4ee874ffd9342dd3, 0x53a29faec7b27303, 0x90d71a1bffd87f81, 0x642f936df911b634, 0x98cd9d5c388d432c, 0xcdd63af7948d20a6, 0x9300a7cbe56a5155, 0x40aff6d898ecb6db,
  0x5d3bac5b2a552ca0, 0x31137194b6149cea, 0x8daa1892faed2e29, 0xd78194a2f41e73cb, 0xf441cc1de6d5704f, 0x6a48fa373ac0fc60, 0xf4566f0d39b36b4d, 0x76e45e7223817896,
  0x84400e9b3a7b2b77, 0xc6fa029817b03bc3, 0xc6c81ded6a48532a, 0xd3589d3a3bffe4ac, 0x1d592d7d40c19954, 0x97b275ba79e9b048, 0xf5aeeff2447e2cd6, 0xa32c83d57d2f5a04,
  0xc84bb95fe2453d22, 0x27caa5a15c3ba3f9, 0xde3892da4dc8bdc9, 0xa9fa0edddba9e49b, 0x67100afdc82fb7d3, 0x77319d45eb70e704, 0x22cac8d5a9019793, 0x59e3a9a91a385f07,
  0x42a8a702eb6029f9, 0xa1ca94b063afc33f, 0x9907a3dc137659bd, 0x6f0e44d26b0da6a4, 0xbc2ec240d3d94d37, 0x2936b1c9ba591988, 0x17277f85519017a1, 0x19ebfe8755eaa2a]

/-- `MatrixM64[10]` -/
def LMatrixM64_10 : List Nat := [0x961aaa31f5eff2d9, 0xb02d84637277625c, 0x643acd2a8bec2d6c, 0x2b772b76b1241cc2, 0x35a099cf808689c0, 0xddc035818c7b1947, 0x5ed3133636445847, 0x1064e56ec832582,
  0xe4670d9ae46ceedc, 0xc08756400d249bf6, 0xd61a6914f643cf1d, 0xb320351e1a7061db, 0x522dbd17e68db05, 0x2982442987ce7abe, 0xe62102ddfdb27b25, 0xfb270c16a7c7a201,
  0x5a77fd419acf75cf, 0x92865f57bd513d3d, 0x149f13763cb1a361, 0x11b43289fc3cff42, 0x1f8b89aad662071, 0xeb9dee5de2e1aa28, 0x4e626ec3e640a9bf, 0x1ebc0ea2232122f6,
  0x7ee7d2970788b1b4, 0x265ceaafae209558, 0x5eb899699009ac77, 0x1f47226afe461d20, 0x4cfcc4e4dcd5eaf8, 0x99634e4dceebc8f, 0x4a3f1e9c1e3fe84e, 0x7b0d327ebc08c88d,
  0xbb7711d8ba8191ec, 0x58e0abff1bb7eee6, 0xa048de758ad02fbd, 0x86674d4c6e63605b, 0xff140ad08f06ccd6, 0x432bfcec6db98c59, 0x8e6d37de215dee37, 0xc02ba36cb9cd2d87,
  0xf64037d58a70d379, 0x34a20ed85732985f, 0x57778bcb664b5ea3, 0x4398d6955975cd99, 0x970fefb0df1a6c4, 0x89dfce74d94bb00e, 0x9c7e4de208bed189, 0x71268e8fb4db41f2,
  0xf6cc8f759bd4c5fe, 0x96971b7ae795bcec, 0x7a1ee9ce0224487b, 0xa81c40a6604b3c63, 0xd13d9db58210b24b, 0x2e94476e475dfc4e, 0xc69f4e52662e841b, 0xb12ceb2d5b410250,
  0x2b534fa57893c945, 0x94e7e10657da0262, 0xa71e9e64936c478f, 0xb498d58a517a0715, 0xfb13f41fb4423476, 0xfd81e79b6463cef, 0x932bf64517598449, 0x4b9f20c3bae5b022]

/-- `MatrixM64[11]` -/
def LMatrixM64_11 : List Nat := [0x442cda68241ea59d, 0x7fa91f90d2c7201a, 0xd89653749f7bc2c9, 0x675d40ffaae965c2, 0x8c46eb7a22c138d8, 0xe5f24245fb69802d, 0x56cd5de1a4b22731, 0x4b3fa310e6f89460,
  0xdc892441f7fe89c8, 0x25ded0682784ef6f, 0x55d4c636b85a776c, 0x7f69a65674c52643, 0xaa3e8d3ede800bb1, 0x8564f254ee18954d, 0xba50194a41140fd2, 0xdd50180cb7f806c6,
  0x56f59823d5b827b6, 0x8aef3793ea8505f4, 0x2b0b7a65ab9b9ab, 0x4a6221e1a255d1b2, 0x4fba3eca71b16542, 0x65267f3fb73533fd, 0x478ca3bff43bfe2d, 0x3ce89c949640e46a,
  0x211552ed2d865d1f, 0x2b3bf28be7d9dcc1, 0xfeef4b85a4220689, 0xb61e75043342bc18, 0xc5752d5f8e880880, 0x8d97a6b00691aac9, 0x94345659211b570e, 0x8fce7a9ef8029c69,
  0x2a0c0fdce09849db, 0xe7faed94e03af86e, 0x75ebd6cce89a6532, 0x537c3d37ff68a251, 0xcfda5839a85d2319, 0x90cc4dae95aa03ff, 0x38d699d30be3f2be, 0x764d1c0bab745a1b,
  0x6a86bc295b81cd02, 0xed519d08df7c8897, 0x42b374375384126b, 0x9e7253bc0d0aabee, 0x940234ec0745f15f, 0xfc2eec00cf718c12, 0xfee4c7f2fb91c62e, 0xdfd920d8bf0abacb,
  0xa5fce523713db543, 0x61408eef05d6b28, 0x9dd9abf3ab595c4b, 0x2869f3fceae218e3, 0xe58e64326cf39b2b, 0x41739797111f5c4a, 0xe60deddec5f16546, 0xca5f786fc7d3ae15,
  0x961eb6291220b6c3, 0x228527fd8f03e470, 0xc39b6e9130fd8da1, 0xc457cf1fc1d69934, 0x2818f8b74cf439f8, 0xe9a8caf59f3b780c, 0x9f54ebd69b930cdd, 0xe72e00bcc5883b62]

/-- `MatrixM64[12]` -/
def LMatrixM64_12 : List Nat := [0x857ded5aee9d6a29, 0x58429b183ed47065, 0x5be1ca625c41737c, 0x4213225aee12a390, 0xab3f308e6f4d0032, 0x549f8fccad55fe81, 0xec013c493976de58, 0x8a6f69caee6dd728,
  0x6f3ef9867cc4197, 0x1fce6db91865d9b7, 0xebf07d36bc008734, 0xc8d6f61bf028c537, 0xd6f44c23c7426ef9, 0x6f916fa743a38ab2, 0x1484e95893aca218, 0xd213f97d823b2d3,
  0x4c289687e430763c, 0xf020437a9ef37454, 0x99c879e1b9a193f1, 0x7897ebc5dc1d4f1e, 0x4d392ba4ad66e42a, 0x4a72c018d546d4a9, 0x9bfb82587211f8bf, 0x921552f4cec44013,
  0x48ec8cd15162e813, 0xe9a74282f9670f76, 0x174095a530d0a870, 0x8f50f493779c7a91, 0xd916ceee4ea180e2, 0x41431eaf9b84395e, 0x75f525048ac85aa8, 0xcabd6bac9ca965ae,
  0xd4ffe93f74b9b8da, 0x58a50dae2610ec82, 0x7c5dc4e0da069e6b, 0xfc89a2eb95fcf2d1, 0x9c4ddc782f898436, 0xd000a48ad2afdb51, 0x2c5d3ce20b879887, 0xbbd20504f897a02e,
  0xf806aedab6227200, 0x9aaaa18b7e1484c4, 0x681d61ba0fe6880a, 0xe98b915ef5307114, 0x5f5eca5c12e017b1, 0xb3159ac622d1aa37, 0xc8751d5fd8510474, 0x5919d957d9042229,
  0x8457490c19b1f6a0, 0x3259a8004a7cf4bd, 0x96a8cf865fe6e3fb, 0x74a9e69d0fb7a8ee, 0x86138a30a00503e7, 0xef5c05df63d348b6, 0x81abcf98911586ac, 0x1925df6e804b4ca3,
  0xfe7adec53dc5cf66, 0xa36d4499eeb39dc8, 0x5103f8b6afcffdf, 0xcf40965d904f5ae3, 0xe60bf92e7be93e85, 0x450116b9079c62f5, 0x1770a314ab3e044, 0x1810ee3f0f0d7b83]

/-- `MatrixM64[13]` -/
def LMatrixM64_13 : List Nat := [0xe2077a8aa02ff394, 0xbaae32a4287bac61, 0x2a76237483754570, 0xb75b402323b37ad7, 0x1ae8ee08218194f1, 0xf01ce58edb62161b, 0x75bb8d35cb113f5f, 0xa81c40a6604b3c63,
  0xc397c3a0c9fa6304, 0x917fee8f0960ee, 0x6a35cda251da7ce5, 0xcbd17b1677b56c84, 0xfa1b7fab9c8c223d, 0x74fdd3f9e01c8559, 0x681d61ba0fe6880a, 0xe325565ba0f8525,
  0x6ddc34cf1c8e674, 0xbb2e261a574d1237, 0x5d261051faca2e95, 0xcdcb38bc15279dc5, 0x35a94df2cdbb603e, 0x65fec6d2ec7f6569, 0xc7d5695b704a65c6, 0xaf3d2d36702e1723,
  0x768a88d895d0d5b, 0xaa2525bef63ac54, 0x57dabcf77ebeeff6, 0xdaa0d9497507eb45, 0x34b69cfa880069ab, 0x9be0eb7e33ecc715, 0xe4c5b19ebf56b0c0, 0xaff3d75de4923b66,
  0x3522698162b792ac, 0x96b65d58c783a301, 0x8f4cef83e1c52d3f, 0x3e0cd204df2cb8c8, 0xd2462d5a2f766cd7, 0x4a558d2064ba6c35, 0xe899cd8248474b90, 0x3256fa8b2d747573,
  0x3e15a33ece4687e8, 0x957463e09558abaa, 0xbfbd8eaf0b68e102, 0x4efd35c341615f06, 0xf8c2d55726bff01f, 0x14e8724408549fc2, 0xfe2a05b7243a47ce, 0x8d11c5b6b0e41422,
  0x235d71bd268e2bc4, 0xa4d7df8c749443e3, 0x89109808d41de09f, 0xa8292f1ff793fae, 0x463c50cd83072e69, 0x4e4634521cd4e2cd, 0x26755361c277bc76, 0x6b2a124203a81e97,
  0xd3744dbdef3dde02, 0x788e8d00f144850f, 0x380d1164bd674282, 0xf0b3a62ed437d524, 0xf0ca0e7bf7e5738b, 0x6ea8b8d96d349357, 0x92783fe90aabcb8f, 0xf656ee9fd2e1315c]

/-- `MatrixM64[14]` -/
def LMatrixM64_14 : List Nat := [0x6fdce19e268ecb18, 0x1a39887137741cda, 0x4e9f4383e7258d8b, 0x8784751b7a907960, 0x4b9fd0178fdc814c, 0x843542d26613eaa, 0xd534dde2df71b44, 0xeaf7197df6f9f81b,
  0xdd6066cfd6fcb859, 0x50534de222e7e546, 0x98b2d619654e59a5, 0xa1254eed78b35aa7, 0xce5b514408e0012d, 0x4a558d2064ba6c35, 0x698886bcb45dceaa, 0xeb925e1d503eb8e7,
  0xeebe03b272fa91ea, 0x4cb6bfc07b4a9bf7, 0x2cd139470dc97f9e, 0xbb45a7a7aeafe402, 0xcafff1e8e995863e, 0x8cbec65a09a8824a, 0xcfc3600781e8bb3a, 0x68b8f9847090ecec,
  0x9cb3954b777bef4, 0x6f0bb55a1734575f, 0x84cd3b2dbb752f75, 0x83805c30b5a3d658, 0xf53cf860c366f52e, 0x96c1ec26d2669af, 0x9eb980d777dcc1d6, 0xf8e769724281d12c,
  0x6849921a43b0725d, 0x6c8c35621f356dcb, 0xd8055bd589c334d1, 0xacb250d50964127e, 0x531205c539795081, 0xedac1627447854ef, 0x1ec71426ac8287bc, 0x57c8fe21ce6587e2,
  0x4b55a195c368539f, 0xf28d508039720d4d, 0xba8864b24ddb7f28, 0x613c0d6a87148d96, 0xf6947390ca323066, 0xc3ca12b18eb97d16, 0x83fc4c09b1fc1c0c, 0x7aa04cf2c83a77e2,
  0x9d0b3c17ee92d7a4, 0x4144f3152c3d3b9c, 0xa8f5eaf1bd1cd8e8, 0x95038dea6e0c15bc, 0x72fed28572a5ccbe, 0x7e9d1fc076071204, 0xe4e6279ff8c477ee, 0xf96a23316daa5476,
  0xce3ae7552e333fa5, 0x1b609e9dfbcce8ce, 0xda26ad366d94f722, 0x8de5c86da3a47fa1, 0x144fdb4a7fb3cdcc, 0xa2026a65436ade0a, 0xc78f53570ae24134, 0x8e7fd429f2d59a41]

/-- `MatrixM64[15]` -/
def LMatrixM64_15 : List Nat := [0x4bb0fedf6ac416c3, 0xa85a64abca9e6f4d, 0x30e2a88ffc8e193, 0x7201d2b3e8fbfb2f, 0x676ba7a7a3e3dedf, 0xd405b0268bf8e105, 0xd54d01d11111f169, 0x5913dfca99456a6b,
  0x5eee0021b64ca24e, 0x681d61ba0fe6880a, 0xeb8b437c80c6d60e, 0x568ca3892323a3b3, 0xb7c5e7b47b45d6ab, 0x34402eef946c2310, 0xebf07d36bc008734, 0xb95303690ed34f3c,
  0xc7d1f7a7aeb76387, 0xb16d9616b91f2ab5, 0xa27b0c13e7efb1e0, 0x149426c5c120b857, 0xd110c68708283ef8, 0x16c12e138d18485a, 0xadbc3d8f2a78348e, 0x67f46a6c274f5769,
  0xd5bb466a02231ed8, 0x97925e1b667d5cda, 0x80b7dc28ac591fa8, 0xed747a3513dbb54d, 0xebe6564e34d353ea, 0x27c144b8bf52cdc2, 0x87027d6587d93463, 0xcc6d538acc7d1e7a,
  0xe3910087781e762c, 0xfc2eec00cf718c12, 0x474060c9be1f9705, 0x4d34c9be64ea19d4, 0xca6dd4764b32147e, 0xa408ea0f6f6a3f28, 0x2057cb3e3d7da864, 0x51d1cadb768e04e,
  0xdb17d53bfaf4442, 0x29e8926cd3ccca03, 0xbe952665affe8e20, 0x83805c30b5a3d658, 0xff7c607de832e64f, 0x88c2ddccc1642424, 0x258cdba5d5746fac, 0x37da7e2be71d60ff,
  0xe85969d053422dcf, 0x2d9bb5735ca9eca2, 0x8fd4b45ce157ce4d, 0xaecd40165e1fc93, 0x3beb08caacb2aa7e, 0xa908af0d4061185a, 0xc1f0314f3e4aae8e, 0xc05431951a73bb02,
  0x37d8f7065e08abd5, 0x8c00e1dff0b328c1, 0xd4f78de4fbd3671e, 0xd2462d5a2f766cd7, 0xed9e3cd7788163d7, 0x627194d02b79281d, 0x8078f4e90bd1277c, 0xa7c5cc52c8494981]

/-- `MatrixM64` — `/repo/test/BasisMatrixMethod_test.c:184-249`. -/
def MatrixM64 : Vector M64 16 := #v[rowsM LMatrixM64_0, rowsM LMatrixM64_1, rowsM LMatrixM64_2, rowsM LMatrixM64_3,
  rowsM LMatrixM64_4, rowsM LMatrixM64_5, rowsM LMatrixM64_6, rowsM LMatrixM64_7,
  rowsM LMatrixM64_8, rowsM LMatrixM64_9, rowsM LMatrixM64_10, rowsM LMatrixM64_11,
  rowsM LMatrixM64_12, rowsM LMatrixM64_13, rowsM LMatrixM64_14, rowsM LMatrixM64_15]

/-- `MatrixM64_inv[0]` -/
def LMatrixM64_inv_0 : List Nat := [0x941b3d1a14490655, 0xac14f1d0f72c9e7d, 0x814a406555ab337b, 0x42b4a7ba77a9eb15, 0x1069f8a0eed0645, 0x36961c4bc7c78cc6, 0x1a51bc970c59280d, 0x3daa1ca9dff9ca0e,
  0xdb211cc7b95b3be4, 0x9b399336921e862d, 0xdf0e4c3b0f7fbb0e, 0x995306bca1784c55, 0x242f920e5cf5244c, 0x924d7aa1fec8604c, 0x8504c325376316d9, 0xeed81255ec0b1a49,
  0xa7bd04fb586a6978, 0x790bdbb4b37bfe36, 0x21cc2a0819be1006, 0xc0a1aae61fdf0d45, 0x36639dc1758045ba, 0x93446994698f064e, 0x4fdd57a35b33b57c, 0x1a046c5e6ea785f3,
  0x6b513ac4d1a583c8, 0x8ecf0219eaab2da4, 0xa653a13db6410e53, 0x13ab6f7c6102348f, 0xf2f362de3e38939e, 0xb6125a6535382370, 0x252c426a40285287, 0xe483397b3ebde35f,
  0x2b1813e24a255ee, 0x3f49c0844d80dda3, 0x9802b0f73aaa8ce9, 0xa39d1b9c5941ae9a, 0x876694d6d7f245a7, 0x9a96b7d26bba4186, 0x3188b3880e80a044, 0x5d7194b533ea83a1,
  0x54d3ca1aa623dcd1, 0x6b7b9968d168acd2, 0x9ac2561704506230, 0x7c11787bd04eb048, 0xae71f2ad43b67fa4, 0x1c54f3facb8cc590, 0xe107c786f846b0f6, 0x7a4affc1657809c9,
  0x1bbd379ae90da9af, 0x93517d0bb1e9e9ae, 0x9f9d23eb270b0373, 0xb66bb8f717e50388, 0x3fbf4d0628f48664, 0x8cb6f978ced847b8, 0x6d14f12b5d77a13f, 0x6a1f89d667b4ccc2,
  0x67c583f33c48ef, 0xb6c415b021071d29, 0x1b3146605302d80c, 0x3cdad8462e516be2, 0xecf5e3a2fa7ea8d3, 0x8d6ab8e460e4ff0e, 0xed98ff0f83fb0d71, 0xfbf976501d36a4c4]

/-- `MatrixM64_inv[1]` -/
def LMatrixM64_inv_1 : List Nat := [0x214b55fc70982332, 0x41c1e9f68fd87b29, 0x158fcc20493a3408, 0x2c357bdd7fa86cf5, 0x604273387279c111, 0xb1820d29fbd20bf0, 0x2a205d0f708d481b, 0xb74a01d2c90d6afc,
  0xeb9015bbe53b7c36, 0x86286fbba0ce210f, 0xdf3ab1a3736f1e18, 0x6e2363d295384932, 0x632a13506ad5236f, 0xac0cbf959e3de00a, 0x421ce605796b349, 0x68f87a83ccbf1ac8,
  0xade904a92abb6e9e, 0x967fa3fad58a7963, 0x9b0c0b3403cb3080, 0x4fd06fbc717bed87, 0x91a318c10d20675f, 0xb82485e55fdf4128, 0x267da33b7b17779a, 0xf985dc4f6e730510,
  0x61d006e7c9d0e40a, 0x12e236bde8f8f82, 0x5d67483dd494ab43, 0x94aecffd0d8611de, 0xb297bb85242974ae, 0x4e87966905382620, 0x75c8cbe82a0c1204, 0xfeb761c474f926aa,
  0x9d000139243615af, 0x3008d0d309a5df03, 0xe5e26446241f6949, 0xd02902894b05e9ea, 0xf2867119ab86e735, 0x1ae6332f2f2bc4b1, 0xa10c07bc109140c1, 0x65506c72150a6657,
  0x913fe38f4361ba3, 0xfc9b0c8b8918a967, 0xea239adb20a000b0, 0x24d0881eb85ab20a, 0xe7009be71966df07, 0xa5e5a28ebb694721, 0x51339750ae77f053, 0x2bafe0f0dbc4c79,
  0xb92c47afefedccfe, 0x9120890de528ac3a, 0xbde96a0f779ec6c2, 0xc48e14b561c0e66f, 0xa22eb19b26d58396, 0xefa790868a2987ad, 0x9f31c1966be7a609, 0x33ba1cdb3f504903,
  0x7a46e108bf5ce87f, 0x2524503147e65f98, 0x458497430986383e, 0xb2ceb09a64958ee1, 0x9e11f63ebefb6ae7, 0x94ce01e60c44df6d, 0xaa1dfee6e11a8ff1, 0x6adca3ef0173a1d6]

/-- `MatrixM64_inv[2]` -/
def LMatrixM64_inv_2 : List Nat := [0xc033c35420da677, 0xa803a062e15d1eed, 0x41058474511b1981, 0xe6f224ac7dad637d, 0xad075a7d1648ac5d, 0xae884c5d85c7eeb4, 0x6407b8f10982a1f, 0xd9a25f7fdd39c03c,
  0x9f7a0b2feb8b19be, 0x572205abd6db0e47, 0x6554dfff07dfb914, 0x414301d3b3292e3f, 0xa42743944e544c26, 0x6042aa48fab9200e, 0xfb09c0e46317fc41, 0x1ad012e6a49a5281,
  0x7fe506c044ba039a, 0x491689bee52a7c6e, 0xa1c22f48414b1004, 0xdef27f4d5b4a2d8f, 0x182c5cd961b4cdda, 0x2145bee43fdfa46c, 0xfd97d38e4b97375e, 0x2c49fa4f32c28591,
  0x31d6c2ed1d4838a, 0x38881296be8a2506, 0xda4664f5e285ee43, 0xcbaaac912593d4d7, 0x9ebce731789c93ae, 0xc2448d317f890ba0, 0xf528846804281885, 0x54d57fb4687821e7,
  0x4eea404036b39f66, 0x1b0f860a0da4950b, 0x560d32d26a1fcc89, 0xbb8c5ea55f904e6a, 0xad2a5150c5a30dbd, 0xa6cc779235ae8bfc, 0x818622491605604c, 0x513a042a670ae31b,
  0x1ede9855a423b623, 0xdb7d0813c78c4ee2, 0x86c291b212a40030, 0xde12e802c45eba82, 0xda29e1620fe7370e, 0x640ca6ca916c27e8, 0x2f1a8299ec43505e, 0x881dfdd23798c1f9,
  0x3fec72c7afdd4b7f, 0x9d0cec85f7bd0b76, 0xefc130e72b8ee3cb, 0x4c2b6c7d5dd149aa, 0x25a2dbbb30c50e56, 0xe8ecfffb903c8fe0, 0x6557b78f59560345, 0x3c1f199b37e42eca,
  0xb66dd518ed7ce87f, 0x728614c521d69559, 0xd125d00b41b292b6, 0x148ecb773c254ba0, 0x6cfba70bf84a626b, 0x5b2128333671d5ac, 0x17d0f90f910ec771, 0x93f8f30b49c2c696]

/-- `MatrixM64_inv[3]` -/
def LMatrixM64_inv_3 : List Nat := [0xc58fa9305a142532, 0xc627afbc7b1edca9, 0xb02f042c17d80b08, 0xe3f3f439fb267235, 0x6ba1cf3006516591, 0xf7a4924bcd9eb5b0, 0x165aac0ca05715f, 0x968897f91367d378,
  0xe95482b6bbddd872, 0xe30fc9f4dac686cf, 0xbff88ee283c33adc, 0x80e3cfd06774f776, 0x2d8ac659141104ef, 0xe24ae11aba31e20a, 0xa603456331d42e0d, 0x45d5aabea99980c,
  0x45c8170ed6f9521e, 0x7a1cc4f737e6fe67, 0xb0e8fc501fc508c0, 0x4b77fa521f9d77c3, 0x74060a4fb92c441f, 0xb060ab2aafd564ac, 0x871ed5ded1d36e5e, 0x5bc72ccca49b0490,
  0x3466eadd5ec18a, 0x46acdecca681b506, 0xd6c52931f014b607, 0xd8aff959a1c80f1e, 0x5b90f620fa0b496a, 0xac624e64fb1c0360, 0x3da9c56806680a00, 0x1fd1bc623a3f23ee,
  0xf9e09454e0b00f2b, 0x340d01de89675d03, 0xe32124c7369f560d, 0x38a85969d143542e, 0x97018d1e99ecc471, 0x3340f48aeba94075, 0x82aef11104576001, 0x2e3304f577c26213,
  0xc7f555526cb2bc23, 0x18da07cbd35e9623, 0x214653f68c200174, 0x459420985a9eaa8a, 0xa682e5aec1a07fc3, 0x2fa26ac84b2fe7a5, 0x9932cb5f30d3c997, 0x481f6d89ab1c507d,
  0x99e9fbcdeb47d0be, 0xb9a0a646f366903e, 0x57eb71a7e3dc6306, 0x870c2e73950843ab, 0x8d2e9df6e45305d6, 0x46e032ac4a29876d, 0x1df5a5de59c303cd, 0x3b380c9ae13a74c7,
  0x53618c0f3f30f1fb, 0xc051314a1845e9c, 0x4202c188ddea1b3a, 0xff081bb56c391161, 0x37737f9b7297f2e3, 0xd42aadab286a5fa9, 0x6fdb75c74fd09471, 0x58f481d9df05d2]

/-- `MatrixM64_inv[4]` -/
def LMatrixM64_inv_4 : List Nat := [0x5c2b39f0509c2213, 0xee1565f669fc7089, 0x281a0424d89e37a1, 0x7aa0f1f9e728eb1d, 0x10b759b000596a39, 0xf533cac901f60e90, 0x4264388a0109725f, 0xb6df88f3c52dd670,
  0x83b51afe7f9f6bf2, 0x42f803bed4ea106f, 0x96ea5eaa9beb3f74, 0xd8c600d2a11ce877, 0x36ee50d144551a4e, 0xa0587e98f01df002, 0x8f954721f892322d, 0x64c9922b2b1b3285,
  0x7ebdc00cd59bf1b6, 0xa9b0df7ebaaee6e, 0x10c8e89048cf0c60, 0x8221aa90d75b43cb, 0xad531b0d6480fd9e, 0x22c46fe820db7e24, 0x6ca9c59ecab77b76, 0xb9e57c0e30772791,
  0xe1942a2a527073a2, 0xb70bc28e310f2306, 0xded72139f194260f, 0x314faf99bc8634b7, 0xd967b4e87e297dc2, 0x4c521c6cf09829c0, 0x35e844a09c88aca1, 0x9c62abe0f2f99fc7,
  0x533183dcac169d0a, 0xa71d161e19a1cd2b, 0x3362207f1bb788d, 0xfb89cb6941255626, 0x256752dc4402edf9, 0x63e2f1ca308beddc, 0x901ca19110b56828, 0xc7440037e62a613b,
  0x5ff39c502b36aa0b, 0xfb8f094bd73c24aa, 0xa62947e10848854, 0x74a52c12da7a1082, 0xf74534ae9d42e94a, 0x7f24654280e9c98c, 0x2b2757957af3443e, 0xa31f3d4b331c79dd,
  0x7339e1cf25e95f37, 0xd3b12fcc712c9f36, 0xdcede12fa01a4fa7, 0x56b3879c4c0738a, 0xc4eadfbe24f50876, 0xff07ff668489b9cc, 0xfcf46796c2631f6d, 0xe3bf591a23f0c4ce,
  0x233247c575d8fc5b, 0x490d31cb9465b15, 0x625414cacda2b8b2, 0xc52e9c773111a7c8, 0x6d31f753e77f644b, 0xa65b2ae3bd60fda8, 0x5ce8bf47131a0379, 0x410ca68b567720f2]

/-- `MatrixM64_inv[5]` -/
def LMatrixM64_inv_5 : List Nat := [0x20f71a4d4b92531, 0x3689ede5fbd8ddad, 0xc601892153ba1288, 0x387b7ffb77b86b35, 0xa20257e08658e413, 0xba8a0cd785d2adb4, 0x114831b04c19685a, 0x19a44cdfdbac8a7e,
  0x7f058d0fd9f98f2, 0x46aa4f905cdf464d, 0x73549cd40ffa3b5e, 0x93c94bf82b8dae70, 0xa22252b71641456a, 0x32c6fe99309da20a, 0x33038f66f386f709, 0x49d81b27e80a988a,
  0xfe6b005d960b8a9a, 0xc591cedafb3f7e65, 0xfa446af053ca9042, 0xdb7667a0957b6ec2, 0x5623181fb1154599, 0xe140a8e121ea252b, 0x7d1fc6f5df83375f, 0xa645b551ae568496,
  0xc09c2a611b75818c, 0xaf8606c5ea1fac02, 0x1c96d26f0a56f01, 0xa20e3c3a1b71699, 0x4b3bb6d0b62d11ee, 0x164d9a04339802e0, 0xe3228bed060c1280, 0x95125dc366922ef,
  0x1f6e40c8a6b35629, 0x4600d95d89055d06, 0x85042d523eaecf8e, 0x790d0a33d1318c2f, 0x35a65dfd978644f0, 0x294e36f92f1e41f3, 0x880466d200906107, 0x873e4d763b2be214,
  0x88dbd70ce6937c24, 0x43fd08439b3dcfa5, 0x9f47d2480c300170, 0x509ee855dc7fb38c, 0x172eb68dcbe3ff40, 0x618ba60d4d78e7a7, 0x2593d2c3f4c3d017, 0x4112b373ab0cc8f9,
  0x6ee82bc3adfd093f, 0x578ca888f7bd893d, 0x6d4f2f76ed2ba381, 0xc1207c2697e142a8, 0xae2ad8946ee18557, 0x7ce9bc4d883847eb, 0x675fe9f51f72434f, 0x711a5c69ef41edc5,
  0xe7e28dab77796979, 0x7f06590421529f19, 0xd32a968919279abc, 0xdc0adc4e6cb449e2, 0x2bfbff27fe5f6a67, 0x32428afeac0deac, 0xdeddb7264f1e4d71, 0x197ca2b25b5384d6]

/-- `MatrixM64_inv[6]` -/
def LMatrixM64_inv_6 : List Nat := [0x4a12535a581c2513, 0xaec0e7d03ddccdad, 0x5206c646579a02bd, 0xe5fd47d97bacfb21, 0xbe975daec8d84501, 0x3a122cdb4557ad24, 0xc41404224028794b, 0xdb268ffd988eb78,
  0x4e7c4474ff3b49c6, 0xc4a169c6184ab75b, 0x62dacceec7ee9bd8, 0x13133e5cadb87f43, 0xf0a7183bdcd4157a, 0x234184e2b838633a, 0xee45c3c775971689, 0xcc96021e43a38bd,
  0x3bb41e2e16ba5a3e, 0x990bc397f98adfd2, 0x30013c6c99ea01d0, 0x9e2d14a2db7a6f47, 0x8f3233013305742e, 0x32c0d976e17e7528, 0x2a9dafe45f96f7fa, 0x3cd48ea8e2f3a425,
  0x5289440453d5e02e, 0x3ec708aae28b1d32, 0x8c467fcbfc341e03, 0x48b3854d2d0337bf, 0xeabfab8368dc1ce, 0x4647ea5233b82244, 0x3361c40c008903b5, 0x34a57baf2f8b34f,
  0x8fe01d5a2eb3078a, 0xcd40b8260f05ecb3, 0x960204e1309ffe0d, 0x6a81433d5101dc3a, 0xa97210d49b834565, 0xa7d701b227af7164, 0x90c505ef0814e110, 0x96384c873f8bc203,
  0xdbcf82dae8b38c83, 0xca2e371d91bdae36, 0x5797e2120c243040, 0x8c8a0081c5e82ae, 0xcfe1fcca83c74fe2, 0xa1c587ba074df624, 0xecdbbb673c53f1a2, 0xc81fbd112799587d,
  0x6c75197f636df93b, 0xf14855cf78db90a, 0x68855b8d633e7217, 0xdae654d1dfc1621e, 0x3276f164acd4b552, 0xede2ebba822d166c, 0xe288972edbe6b369, 0xaf8e3180add5fc76,
  0xb7f2999331fd496b, 0x64143500ef467e89, 0x5331b8961102abae, 0x91c2fcf16e152854, 0xea2d8bb138fbea63, 0x8da66857a2c0cfbc, 0xd2d98b9dc3be2c51, 0x4279b82591f38556]

/-- `MatrixM64_inv[7]` -/
def LMatrixM64_inv_7 : List Nat := [0x882608fa5c045037, 0xab6afde2996ae829, 0xd8260c5479c66399, 0xaad746af5720df25, 0x274afef84ca55005, 0xb0ec99dbc5b698a0, 0x426859824c095c4f, 0xd78b0cb9fb29ca78,
  0x837739e0fd1f69e6, 0xc54fcaa2bc24c6db, 0xb416a5986d65ffdc, 0xcf480efaa3845e63, 0x206de7f97485047e, 0xa3481ae4ba69521e, 0xe82e574151703689, 0x4da3243c80f6c9d,
  0x2fc50d4a368b4f9a, 0x1e3647b5d3e8fef2, 0xf1a0aeac318560d0, 0x691ebe07da75bc3, 0x1a2169111b1e050e, 0xb606b9c469cd54a8, 0xaa9016e67561b7da, 0x7d0c9d4c64f78185,
  0x437ebe42d992810a, 0x60a40e9ce8bd5d92, 0x9846717ff02c1e03, 0xd4a12bbd295a269b, 0x5bb7079e3c77e16e, 0x8d663e56314a4364, 0x74230f8806d66211, 0x1cbaa4dc7e2bd76b,
  0xd4e544ea2e1823aa, 0x120060202b51a917, 0xc6207d513cbfce89, 0x3f820b0b59158c3a, 0xb30d75b4b73e01e5, 0x72c44696273b45e4, 0x83847bed00a99010, 0x471f4c2311b8d383,
  0xc9f0777acef8b8a7, 0x5d755d5bb916ca32, 0x49e22b300ec80464, 0x554b16ab44ef28a, 0x8363ce8a0b783bc6, 0x6b44fa0e877fd720, 0xfa74faf1945da486, 0x43185f51295a4d7d,
  0xf3a1ba8fc511cd3b, 0x90003c8aff50cd2a, 0x7fc2324b6d2a5793, 0x8663dd357dba033e, 0xe0cbacf60cc58456, 0x69cb491eaa77476c, 0x7c30fcaa554987c9, 0x7674e47227369c56,
  0x3309d4d597f0586b, 0x62e0a92441082f8d, 0x293a861be6aaae, 0xd58261776ef30974, 0x7fb1de639479dae7, 0x936be4952a0aab38, 0x48d0464fcde449f5, 0x4499aec7315780d2]

/-- `MatrixM64_inv[8]` -/
def LMatrixM64_inv_8 : List Nat := [0xe51a27b0701d2493, 0xd26fbfebb4f5c89, 0x591a9aad7f991301, 0x7e761fc7d3feb3d, 0xe011473840db6418, 0xa4b60201cfd7acb9, 0xa04668ee4409e856, 0xbfac1cd2d92a4af1,
  0xf7520297d308d953, 0xc2295993944b8647, 0xf97a8cc7454ebbdd, 0x4545127ea5a96e57, 0x4e1b5e345cd504ee, 0x604faa90982ae20b, 0x1801cb6d710736ad, 0x80dd0a6fca0998a4,
  0x3da1ac93eb9cb9e, 0xbc29d15bf5ba7e66, 0xf1cd343115c81049, 0x6ac3727953db6f42, 0xe3145d403b34c5b6, 0xf446bb2d4dcce40d, 0xc8ab8bb37d16f7df, 0xe860b2c76ac38518,
  0xb1272ee2dbd4c102, 0x509f1403cc9bad8e, 0x9942677cf007aea7, 0x229fa9d50f119637, 0xea1a8c8321fd142, 0xe4438204370983c1, 0x830994680ea81288, 0xbdf23b84726b23c6,
  0x4fc44fd500219703, 0x92ad01e0925dd82, 0xd0247e8b168e4e25, 0xecaf0d2c7901cc2e, 0xf0054f59f23c5d9, 0xcdd165ef0b3fc15c, 0x8bf631800966021, 0x532654ff159a63b2,
  0xb4f7d299e4a33c83, 0xee6e530abb1c8e22, 0x4c3949a24a48054, 0x2820ba139e5c3282, 0x9a03f4870967ffc3, 0x9523f54eab6f678c, 0x4031d7d9b840503f, 0x3519ef2e0b08c974,
  0x46ff3982c95cc93f, 0xe430bd88d13d8917, 0x18cf3723630ee3ae, 0xfe087cf057c3c3a3, 0x62ae971a00c484df, 0x3fc2ed4aae2f07cc, 0x5874e9b37d4503cc, 0xa13c573e0b66ec4e,
  0x740df2c99ee687a, 0x499619594154df9c, 0xc72198431fa29a12, 0x648ed29646a609e1, 0xc7f7e33bb84b6aea, 0x373c6ce20e715fa1, 0x24cde3efe19e0df0, 0x93eda6e313518472]

/-- `MatrixM64_inv[9]` -/
def LMatrixM64_inv_9 : List Nat := [0xa251993e06bd2c73, 0x8e21e524eb3cdccb, 0xb5a104101b591389, 0xc0a9773dffeded57, 0x23567f1e561d6051, 0xba64a8db5d35a6d2, 0x21a58b684af687d, 0xf9baac999b8fc05a,
  0x8b5a18e0b79f57f2, 0x89a06302062a866d, 0xb78ebc9ec78bb35c, 0xe991069ab1ba6477, 0x2022d6194c13046e, 0xce8e3a94f85c6c68, 0x87d9e7436395360d, 0xa769201aabd168d,
  0x43d3843adcbc47bc, 0x7fd16f01234bf266, 0x914a0e3851ce1a40, 0x926a12051f6fe1, 0x700dd953a90445bc, 0x950609b0fb596e4e, 0x85c7a7a04df3f37c, 0x166b3cd8fc558b91,
  0xb240e621b35cda8, 0x2a56a6c8784d2764, 0xb88de18f22f52825, 0xb5800bdfb9401afd, 0x360f36feb66ad9ea, 0xa6e19e94337a0582, 0x559886784e8814c1, 0x72bbad1cb6dfa9ef,
  0xd0f0456eb430136a, 0x571ad0549900d121, 0xa0ba64732498ca8d, 0x111b0bcbcba5c02e, 0xfb04f462cd4247d3, 0x706e77766d6a4fd6, 0x834e639d80d0ec40, 0x1f4e457b3a8e731,
  0xec0dfe6e3431b223, 0x39cd4dc9893c80a2, 0x6651123206860016, 0xcf0880c1c3cbaa8, 0xc6f0f66c1b267f60, 0x4effe34add68ed86, 0xbf1f5347fc14d274, 0x24305f45a91a499f,
  0x996a0349ede9c97f, 0xdd0c0d6ab5ad8d7e, 0x11a5a33967bd6ba5, 0xa294fc47974149aa, 0xa5329d8276f28474, 0x6edbf95cda6a098e, 0x17dbc58a5da38f4d, 0x70687d407d36e0a4,
  0x7e2865c5fdde647b, 0x9891b471c5571d, 0x479c321219e096fa, 0xf436f8f326730582, 0x1ea3f7417c3eea23, 0xf180cc31ba40ddca, 0xf4dff3f157f0b13, 0x752067701768af0]

/-- `MatrixM64_inv[10]` -/
def LMatrixM64_inv_10 : List Nat := [0x5f894d2c6165c08b, 0xe6db0f2654773708, 0xce1fdb97ecf2e08e, 0xfa03ab8fa0a65963, 0x39e7b9eae2ad1f5a, 0x58fd208d65115f1b, 0x59d3ec9127965688, 0xc03097bb78d18c74,
  0x78256585ab5bdaf8, 0x180aa1f26efb4059, 0xa2ad348f391bbf0d, 0x70f7a55f70c9eb19, 0xe6744945e69f6db, 0x39d18bde7a48ce3f, 0xbe6b1163b748eabd, 0x1897961fccccbe9e,
  0x7726cfcb709dcd12, 0x42ff700dc43ea608, 0xb041b723756180ea, 0x8f898cf17c39f2ad, 0xfd124f3d36bef80c, 0x746961dba57fbe62, 0x1e2f0689d69668f4, 0xe780a1e696edf029,
  0xc67476fe7dff8776, 0xbc9692f060020181, 0xf943ccabab919966, 0xff80742b8d3278c0, 0xb83dc0b5d774623b, 0x934b3b1743f5bb83, 0xa27d5d7ac12f07b9, 0x9420cf6d0e878501,
  0x1c4257ce5469a6c7, 0xf704ed01f089490f, 0x7ab46924c756ce12, 0xc280c6af90da2ee7, 0x508d34b120e216ae, 0x9b64f3a6a14dd5be, 0xca57b43e07e16b2c, 0x7cc370a4129144aa,
  0xb9067320580cc1fe, 0xee6b5eb7bc23494b, 0x742b796c965f9475, 0x1c97b36e581ab0d0, 0xbcd750737507f3bb, 0x1d781947aa25df57, 0x7769208f7e3798b0, 0x72ced15653a67bef,
  0xabed7bb50fa870db, 0x96bd8b6496ffa2fd, 0xc79d26555afa4c6a, 0xb0826fd3158691d2, 0x158dcb11321d4b30, 0x4ff372339bf19648, 0xeb8568f48cf62641, 0xcd62226b6a09de81,
  0x4aae04cde0ae1336, 0xd543d5a46923398, 0x850e6334a2253766, 0x50674853be6a44b8, 0x36d4b05a8cbcedd, 0x294a43e468e8cb25, 0x8193117877a32e1, 0xd4470d94fd6f10ed]

/-- `MatrixM64_inv[11]` -/
def LMatrixM64_inv_11 : List Nat := [0x5ff7641e149d04f8, 0x7cb9066bffb4f1a3, 0xf66e437fc543912b, 0xb306dd321ea2f46c, 0xc7e9a6c7d904e74b, 0xe16483b8eb75b04c, 0x30f3c8c1e4fed2d1, 0xf2c42d250aff5f4d,
  0x88c9f4a56f2cce40, 0xcf57864a73c07eb7, 0x44c838c53c158e9a, 0xb1aaade52e4a780e, 0x9abc6fd1da98efcc, 0x71efa41709331ebc, 0xde5a15db112b56ca, 0xfad0b9c009d4cf8e,
  0xe4a855702c2f9b72, 0x5dc0a582c7bc8532, 0x18cec68b566c3b8a, 0xc135998def71bb2, 0x9051c753ff10c964, 0x1d5fc1769d7b3e83, 0x1869a583f94037a4, 0x7fef45d8e91a8cb2,
  0x11b45fb3eff1f7ce, 0xc0e8a77939ceb318, 0x43cff48e5d57cc9f, 0xfd7548822e6ce560, 0x426390dba26d35e6, 0xd85f17ac92797ca3, 0xd54ee5dda56c62f5, 0x24d5b3a7784f0cbb,
  0x671239ce4da93f01, 0xb0fc6c12903aa067, 0x1df379f01d6e2ee4, 0x1ec6c9206dd470f7, 0xdd281fa5895c8e08, 0x11252710d188c484, 0x84e29aae63ef4ec0, 0x3688754d9c890ba,
  0x9b6f6e2d8c6fac89, 0x3d95a1f412d1e277, 0x2582a036cdd9d258, 0x61280e8b59f132a5, 0x5b985af8317e813b, 0xdd0351be42253242, 0x53126035d2fb4ce2, 0x7822acaa40867c44,
  0xee9f8dde5acc871a, 0x6e2e84ad19c6e210, 0x2d2be2ee9d6b0a1e, 0x1bf4d09d59dd395f, 0xafaa93571ec17949, 0x244bf9ce62ae67d6, 0x23ec54f4bae83cd1, 0x1082fd1e7484fe98,
  0x7d51458a99111d51, 0x8bbbfe8dc0ac983, 0x1bc03dfca108ffb4, 0xeb7cb525848e6fa4, 0xeebc67abe92e5c92, 0xb3ad4ef09fbf03f, 0xeb48ed1788ebf69, 0x72e06d5516cf621a]

/-- `MatrixM64_inv[12]` -/
def LMatrixM64_inv_12 : List Nat := [0xc84df5197481eab9, 0x2ce19951ff4da81b, 0x1b296f798ae5851c, 0xc3e35f6ae2689528, 0xf5850032c63b4d08, 0xffc557c7e8c1e2e1, 0x505da06e1dba00e0, 0x6df51f29f894b5ce,
  0x626d8e996b25e5c, 0x73cd364534549fc, 0xc54e91f33358aa63, 0x7b8e02a6cec8c3df, 0xddc38baf935aa0f6, 0x44c370dad0bbd496, 0xa5f33676d30630df, 0x4373be197934b06d,
  0xfba4fa6fff2253fa, 0xcec452e46df94c90, 0xf1799530a6d5a02b, 0x13bec28b445afe96, 0x18d2dce5353a3743, 0xc79f6bcad97b58ed, 0x1ddc8648f28377e6, 0x1225a11d09d0b68a,
  0x7446ee96f24e94ca, 0x281e395020cd3e95, 0x7697b11343f363d5, 0x63e4c2203d3cd581, 0xddd906f78b60e1a3, 0x5b7a4c8864142b3c, 0x64a2177140db8425, 0xcadd9541b81991cc,
  0x15967ab3dee41c77, 0xf948fe46a0651253, 0x48824beccefdfa59, 0xa42b18edb3961c7e, 0xc6edf3e2ccfdbd75, 0x34380fd7e3023604, 0x50900a38ac6b2529, 0xc94923390a694486,
  0xc29ec10b530a5637, 0x627331084428ab33, 0x28ab41faf4de323b, 0x2c2bab47a075c2b7, 0xb42807436e9180b7, 0xe1b9d72b67e61ed1, 0xa51e545a6785d926, 0x7a0e4146714441da,
  0x6f62138ce138db9c, 0x97d0418d68e64c12, 0xf50068db2d6fcde, 0x73e2f08d1c2b1b67, 0xb493adc62747ba1a, 0x368d770e88c0735e, 0x9d18ceedfcd0a3dd, 0xbd16b648f0ec5140,
  0x4dc6f934e9824b1, 0xafcf10683e181450, 0x973f3e7ddb6fd770, 0x245a8e46e1430213, 0x68bc5336f97bd47c, 0x82fc66a0f9246ddd, 0x82c651fa970e2d18, 0xcbb9f2c36c160a32]

/-- `MatrixM64_inv[13]` -/
def LMatrixM64_inv_13 : List Nat := [0x65621a7e8991029b, 0xcd8f8f51b2d1d90b, 0x1765c0bd39353763, 0xecc3adf6e5520d03, 0x5af894cd614a014f, 0xee2cc8b3c4a3aae9, 0xd9bd20774870d052, 0x4d14d577261e5827,
  0x15ac37d0aad8e52e, 0xf29da5c784fd8f3c, 0xafd6988ea1a7b70b, 0x6109c0b8e8dc7156, 0xea2da8e9e9e205c8, 0xa4e927095f709af7, 0xe7b44debd187796b, 0xdc4b00cc72d0286c,
  0x1fb9975a3beee107, 0x41fed476ee7d38ae, 0x1be3598661c8af66, 0xfb02e68e6dc11e91, 0xd698cb1b6a3a707c, 0x422ca3962f316b7, 0x827db04044a5735e, 0x205c9f12af9a0c7b,
  0x5ee2ecb649acc9d6, 0x6f37022d7d58d6c3, 0x9a8423f6d70a13e5, 0xcc64ff5f828aee2, 0x2ddd3ae21d2745ea, 0xb94b0e0207575854, 0xffffc78a348ff68f, 0x2f37144bec3ef41c,
  0xf3a75d40b4fae3ea, 0x784d1c7f3a88d6a0, 0xc47b463ce27c55ef, 0xa7cee9121c26d596, 0x871e641c0ec5e251, 0x78ed20da7445d87, 0xbbffe3c72a6ba8a, 0x58f9d49be3100ba4,
  0x88d1e1ad813e4b22, 0xf1f3c6994973b883, 0xbd7797d42b7374fc, 0x4b44d94e8358445e, 0xa01786a27b861bf5, 0xb1826507cf51fd2d, 0xcac6210c65f9dc2, 0xf1441c99aec10815,
  0x2a2f4c4f7bed1002, 0x2aa969c250cd9448, 0x1c7ba25e516b9320, 0x5df72922c0ece220, 0x98ceb40bda614ff3, 0x87f193450febc2a, 0x25cc9656560c1aac, 0xf6a9cef344d450ab,
  0x91be5f0ff3183f4, 0xe9b9b4366bc5db2, 0x8f1cfb0a01258b16, 0x80dcadda0a5e2ee0, 0xe185c823f08dbe2e, 0x7d67b1cae661a436, 0xea9ce0ac2a3f7db0, 0x6f0211bf18820abb]

/-- `MatrixM64_inv[14]` -/
def LMatrixM64_inv_14 : List Nat := [0x6d4ef89336c3136b, 0x59c94edd4d3b7d9, 0xe775acbb3d62a18e, 0x944309e858efe62f, 0xa4040edc2e78645b, 0x29ee3e63d2f25b2c, 0xc975a05803f31f8b, 0xe4bf49ac4ab4cac4,
  0xcfcf72915dcbb1b, 0xbe02200e85ffeafa, 0xba3c59b4c1d52cb0, 0x4e59079685f5f8ad, 0xfaa1b6bb4f38f879, 0x233e91803af8fc2a, 0x2f2bd40c6224d7f5, 0x2fc5f115e8c48856,
  0x154cd7767bf6bb8b, 0x405476d3f3b41653, 0x65ed5f9d4f4ed903, 0xab72d0fab23105fd, 0x51004c88c856d8c7, 0x8f83660ab340c499, 0x5accd7ee9fcb8740, 0x64b80f02f31e0575,
  0x6f7aca129493064f, 0x780d21fa5518c66a, 0x43cc523bfc6baa1f, 0x1a1aa08b78d0cfc8, 0xb563f336d28331, 0x5637dbf726bf9e3a, 0x415b73ef82c11574, 0xe6b847f5f489cafe,
  0xe18357f8d7def137, 0x90e471664d9badf9, 0x8ea472f97df4f3d4, 0xeeb0f9ebaac2f920, 0x528ecdecdfeea701, 0x5819a14863929a97, 0x560951ce56d6f084, 0xbde2557fc72b30f,
  0x8396fe89443ad958, 0x7d699458b233f6, 0x5e210c1ecd785e2a, 0x228b425e704917c9, 0xe2f4e2a8ee3b4b6c, 0x7b0480d7019826be, 0xdaa17b51c036695a, 0xf562450d57e0caee,
  0x5e8aed75aa8de1e7, 0xb2e646d461403cb2, 0x8689c706e7416a11, 0xab1e01e71e586d52, 0xe703dad01e9db017, 0x150820c3667acad1, 0xad0e3293c9a75c71, 0x6aef020b322e322d,
  0xc1f056f9f8e325db, 0xa2a3d68354f5610d, 0x6b407a9f3374a4d4, 0x3940d532f2f90a12, 0x64b8b7dc89a8ac3d, 0x760fc9b9c92b39b3, 0x1eab51014bd149ec, 0x1ba94b9b56406fba]

/-- `MatrixM64_inv[15]` -/
def LMatrixM64_inv_15 : List Nat := [0x39b0dceb06a096c8, 0x9adaf00c942a325c, 0x5a9f6890553bcef2, 0x1ad6ab21502b2719, 0xd03b4dd4a1b9540c, 0x187a4c254f26573f, 0x7eb5cfbfc736790b, 0xe300252c50f5c545,
  0x676ee91812ddafea, 0x96076af5f2be0c16, 0xceee20695c3d59b8, 0x87b32bcb47df2a5a, 0x19e0bd82034aabbf, 0x6e0a352db5a5b76e, 0x6c38e7c981bb07ae, 0xfedb727c29a57964,
  0xbfc34ebd7a093e00, 0xedb1b5a1b0f70bbf, 0xdb39e3501dd129f, 0xdfb45dd45673fbf0, 0xeab7e1934bf46842, 0xe7572d60ca21329d, 0x56162703890fa3e3, 0x3f881dc265671916,
  0xffa632d687cbbc94, 0x43ba912bdb47fbb9, 0xa1220377d6aee92, 0x2ab5da61b55511e6, 0xed9df74dad480df7, 0x10fa9e12efa7f4eb, 0x9d9ab6bfb2550b5b, 0x7355b107420490e7,
  0xd0ea8cf77bcc20b1, 0x7e9d3bdb1a769bd2, 0x259442cbf73eb558, 0x3c210f48f8ba4128, 0xa0e26fc92bd089bd, 0x9a9fd42da2fefbcf, 0xecd5c56f34810459, 0x4c202a7ed45d79fa,
  0x984024f40bf060d, 0x220692d448538dad, 0x5326d175c107c898, 0xfbb3f8c4c3463f59, 0xb591cf2277efde46, 0x69975abed27c19b0, 0x38553285fdefd6a7, 0xababc7946ca0543f,
  0xc938544e00c41482, 0x35f5732cff731e1f, 0x29f6ed911c6823d7, 0x892a0c9c78062f2f, 0x5a5d771de19d513d, 0x38afcd0f62f277d8, 0x7424f9a78a3301b9, 0xfc51cd708ca2df9d,
  0x2a1c22671cf4e44, 0x6f309bebb62d2426, 0xfea8cdc8140f78b1, 0x4722256035617718, 0x1bebb961d2e0ca9c, 0x9f1e215b24c3e783, 0x55505c6680aaaeea, 0x8fae558b9a84bb29]

/-- `MatrixM64_inv` — `/repo/test/BasisMatrixMethod_test.c:250-315`. -/
def MatrixM64_inv : Vector M64 16 := #v[rowsM LMatrixM64_inv_0, rowsM LMatrixM64_inv_1, rowsM LMatrixM64_inv_2, rowsM LMatrixM64_inv_3,
  rowsM LMatrixM64_inv_4, rowsM LMatrixM64_inv_5, rowsM LMatrixM64_inv_6, rowsM LMatrixM64_inv_7,
  rowsM LMatrixM64_inv_8, rowsM LMatrixM64_inv_9, rowsM LMatrixM64_inv_10, rowsM LMatrixM64_inv_11,
  rowsM LMatrixM64_inv_12, rowsM LMatrixM64_inv_13, rowsM LMatrixM64_inv_14, rowsM LMatrixM64_inv_15]

/-- `MatrixM128[0]` -/
def LMatrixM128_0 : List (Nat × Nat) := [(0x96172a14ba73ec3e, 0xfd740ed701a55f0a), (0x43a77b1289aa5048, 0x3195e27fff542d2f), (0x48a5c97eedf7b91, 0x4b892da375d40354), (0xbe82b4a180cab4b1, 0x1aef9b6697725fa7),
  (0xe98bf621313dbb15, 0xc7f56f688230198a), (0x520b46124de80797, 0xebe366ff07e2d9e6), (0x4389c804c7da4ff0, 0xa91ff50f96b26a4d), (0xbabc11870f14f49c, 0x9ba00f62f9822140),
  (0x533df13594084797, 0x9964d65895852788), (0xf4b642a39af40bae, 0xd11a8b8b4bc1f8b9), (0xdad5ad8df84ee8a7, 0x6b102b150373ca20), (0xc514c861659cbc73, 0xdb219895e9844c1d),
  (0x68e47963f849f8e8, 0x760ecbc0079c411), (0x9f84050f9af258b1, 0x64d4196f9a49cc8e), (0x2ff9332cd1ec25a3, 0xeaef9ee339de9c57), (0x941d083d599e6a31, 0x8a007900e911ff6d),
  (0xdb1477809dee1a81, 0xe47102422dfec456), (0xf3dff35af2ddd7fa, 0x3ec897f8b3ea0fb1), (0x73432af081ed9c53, 0xf1017f5fff15c1c2), (0xe4ade4e2c6fa3530, 0xfeb00a7a318e297),
  (0x909dc2e5fa446886, 0x6932dcc154a411a4), (0x9b0a5e712bf90769, 0x65a46fa166225c9e), (0xb920d64eae0a0d9b, 0x45bf2debd6cfc63f), (0xe6bbd7053aceb7f1, 0x639a5f248d67677a),
  (0xe1a4e9233a4f780d, 0x9bfe9f3c99a26960), (0x138535ee75048188, 0xa8d38ca771fa3aec), (0x47e2f08f2f7cbebb, 0x995f093186b69490), (0xc2f19bdb3ce71ff9, 0x4ea1b98e0ea0aa30),
  (0x88b68f8a6ceb8451, 0x5660c19655754256), (0x4a6b7d759376f5dd, 0x96d1309598b5f860), (0x36508f60e0b77c8c, 0x7b3eda7f360f6aff), (0xbffd11be40a5b59b, 0xf6315778babf4f63),
  (0xd207a683d07ca874, 0x22a622b362a6a551), (0xcd012712a8301bca, 0x64799ca318552230), (0x6516b87aca407c17, 0xee84ec4cb74ca91d), (0x75702a182d7cde0, 0x112214c9cf3fd2c),
  (0x2129bdc03f0a511f, 0xf5136b4dba09f09a), (0x6a0438a72944cbf1, 0xbb5e12b86121c30c), (0x1b89a5b42adf99aa, 0x5f5ec1b1d3bcea90), (0x3a744dc97c94fe5d, 0xa4f93f9015375da1),
  (0x5c33fb27e5d0ec80, 0xeed062a5cee44508), (0x82396937d971a1c8, 0x9badcb8cfbb22fcd), (0xe42872fee0cc10bc, 0x82d125fd5464fd21), (0x3bbd4460243a8bd8, 0x8a0260b8cbfd08b2),
  (0x48fb4677ba0eced7, 0x60779fd4ab7a036), (0xf7e86650e45697af, 0xa6f17e42f3365d26), (0xca48f64c6fa64aaf, 0xf786f0b0b9df7e24), (0x5b478f24c1bd6101, 0xfc61f1f6c0d83cc8),
  (0x6ff4be37fe1a4142, 0x184bd417959a72ec), (0x1bce3a0a60c75cd9, 0x6a32770c59465b31), (0xa240e251fdb43537, 0xe88e0a99dcba42d7), (0xd5fd70e6b31bddea, 0xc4bc1751b8bacbc8),
  (0xa68ee0a8b9321380, 0xb033ab9d7e288534), (0xfdc30c2d8dfaa6ed, 0x6804d0a8d69ea919), (0x6ae3104493190d2c, 0x9ef7898f6e9ee904), (0xd5a23f0ba55a4132, 0xe9a2125c2990bd88),
  (0xbfc1ba45b6c50771, 0x3f587f93b4ca0d48), (0x3d36832b55079ae, 0xe7655b7064d741e4), (0xf9d3100ca740eeab, 0xcfbe9cbf8872bc18), (0x636f66eb66c93c92, 0xa6dd445e02b67cbb),
  (0x94488999288c16c2, 0x6e26e412e5eb0436), (0x6322e9d03270c32f, 0x1a6e96bc1c644ae5), (0x2bc4961351fcbd11, 0xca87428331147300), (0xec64b7fa6527f8ff, 0xb5faf39fa3ba9eae),
  (0xcc1a5f4b57c74c49, 0xa35002659bf215df), (0x6ce9c26e8284a71d, 0xe7ac2b861f9af538), (0xecdeeb9575920741, 0x84d1cf6fe9f7790c), (0xc6af9f723f3295b4, 0x357ed85e23d35b77),
  (0xfa38e0d1247cd408, 0xa301e51e1270eb94), (0x6bdd7188c64e0a4a, 0x7a8647b08703398d), (0x73d3bd67cf55941f, 0x1249b0956394be43), (0xc84f48171ea90072, 0x3ca6bcc58b3fabcc),
  (0xf8f5358a346b7395, 0x53be9451ba4a4f0b), (0x337393ccd02867e5, 0xe568501090f27aa9), (0x572df169d7f30863, 0xe4a405a98353f2c), (0x2fc6d8b7c2534598, 0xe2d921d1da6d644f),
  (0x7ffa5e73d8cfb887, 0xbb7595f8bce8ef1f), (0x7c5f1511957ddefa, 0xc5bc580968b612e8), (0xb41b2afeab5761ba, 0x5490644115ad5938), (0x4b8ade8bea2f4dfc, 0xdff108b30276c919),
  (0xf93358bc82fa64fc, 0xcea94908930e1e30), (0xf85f4e8fbb55c491, 0x8d9103f3c69b91ec), (0xede02a8bd4e255f0, 0xd549abb366d1c454), (0x90162226f62730ce, 0x7f81f49d55f56c45),
  (0xdfc8db2c34e7ad1e, 0x58ef0e6e81e9052f), (0x8e1e8ee3da3d06f5, 0xaba803c9540079c0), (0x64d9648d22bdd11e, 0xedaff431dd6fc502), (0x1e1f8af18747692f, 0xe4d9865585b9f3b1),
  (0x36be8bf066927e4a, 0xf648a6b63fe173f3), (0xcff127e75fa2dd67, 0x5bf79e533ed5b396), (0xee268001adf50137, 0x2de6d8e870bc8713), (0xcc1612bc8567805e, 0x6502a52bd26692e9),
  (0xfdcbb9ab7410cc55, 0x1af08048ac581f32), (0x1fde2941a1a7b929, 0x2aa7325ad0587f30), (0xd6c439b74cbc912f, 0x26010cf47d77d350), (0x3f09ea1991dbf5de, 0x13ef89bcd19f7776),
  (0x6b3b1445b4261d70, 0xff4eb967c1736f6a), (0x17e92b477d3ef4cf, 0x53e1f6ba4ecdb549), (0x125205633c0a2049, 0x508f6ab2091de15f), (0x18b490a9c28cd22b, 0x7c0e9b893b8553f1),
  (0x4fb7d887550d98f8, 0xdd7db52feab2b100), (0x393793bd7da92e1f, 0xdf6b80fb1b939ffd), (0xefe127ac917fea0a, 0xd30125c45805b801), (0x15de5f5e03267188, 0x4d472d918946cf3d),
  (0xe7c93fda2fc17e2b, 0x24b0137b417f52e2), (0xaaa660730f3a79e3, 0x908196d29de472de), (0x7083d07ec4ea7efe, 0x5f18a06dee93ac4b), (0xc85dee4cab1c13ee, 0x5e53ca1fbc6dd480),
  (0x104b33a19ec7ab1, 0x9655cacafeabd7e4), (0x95e3cbfeb4d44cd2, 0xbb0607e1f8178604), (0x3ae64fe660862ef1, 0x27ad3c9fbed270a0), (0x6b3b1445b4261d70, 0xff4eb967c1736f6a),
  (0x8750aa266f61ded9, 0x1d322052b219d2a3), (0xf2e4fd0c93f35776, 0x3229d6777f43cf7b), (0x8c498d4251798ad9, 0x9ec657eaf92d7d40), (0x8213a2bdfe275231, 0xc51fbf73739f8529),
  (0x3e73f055dbc9794, 0x9857f3e526d27171), (0x931afdbb0ae58146, 0xbe7a40560f47de4d), (0x6de3e5c8ef4fd539, 0x4bfc97438b79f353), (0x30e9d96b17bca82b, 0x67a51c506b51b5),
  (0x496fbc33b20b8b3d, 0x4f09b27c385bdd58), (0xc67ac87f9b72dcd2, 0xa392be4f96e0da7d), (0x2195809c2ef0a26c, 0xe744c38d4fbe266a), (0x1c305f7c0184404e, 0x251d07fb950a1d7b),
  (0x9c75e520a9b150b7, 0xaacc4e136d5a3aa3), (0x7fdfaa3b052c51ab, 0x7ee34ba96309d82f), (0x21b23da2b85f0f36, 0x4792d1a04e1d9cd9), (0xb2105d35ffa65c4c, 0x33a0c09674c356)]

/-- `MatrixM128[1]` -/
def LMatrixM128_1 : List (Nat × Nat) := [(0x8213a2bdfe275231, 0xc51fbf73739f8529), (0x43a77b1289aa5048, 0x3195e27fff542d2f), (0x4c64b0b5e05de156, 0x3a18ee5f8e65f0e4), (0xbe82b4a180cab4b1, 0x1aef9b6697725fa7),
  (0xd2f7ceafd306d9ed, 0x42e0b8ba21a6d30), (0x520b46124de80797, 0xebe366ff07e2d9e6), (0xdb1477809dee1a81, 0xe47102422dfec456), (0xbabc11870f14f49c, 0x9ba00f62f9822140),
  (0xf3dff35af2ddd7fa, 0x3ec897f8b3ea0fb1), (0xf4b642a39af40bae, 0xd11a8b8b4bc1f8b9), (0xf2e4fd0c93f35776, 0x3229d6777f43cf7b), (0x125205633c0a2049, 0x508f6ab2091de15f),
  (0x68e47963f849f8e8, 0x760ecbc0079c411), (0x9f84050f9af258b1, 0x64d4196f9a49cc8e), (0x2ff9332cd1ec25a3, 0xeaef9ee339de9c57), (0x941d083d599e6a31, 0x8a007900e911ff6d),
  (0xe42872fee0cc10bc, 0x82d125fd5464fd21), (0x533df13594084797, 0x9964d65895852788), (0x6516b87aca407c17, 0xee84ec4cb74ca91d), (0xe4ade4e2c6fa3530, 0xfeb00a7a318e297),
  (0x909dc2e5fa446886, 0x6932dcc154a411a4), (0x9b0a5e712bf90769, 0x65a46fa166225c9e), (0x2fc6d8b7c2534598, 0xe2d921d1da6d644f), (0xe6bbd7053aceb7f1, 0x639a5f248d67677a),
  (0x45abe7f279b8aff6, 0xda1a7439763e858e), (0x5710013a7c3e4b20, 0xc6f46dc4fdd04941), (0x47e2f08f2f7cbebb, 0x995f093186b69490), (0xd0a39eb800ed3fb0, 0x1e2ed33c07bd4b6f),
  (0x88b68f8a6ceb8451, 0x5660c19655754256), (0x4a6b7d759376f5dd, 0x96d1309598b5f860), (0xd6c439b74cbc912f, 0x26010cf47d77d350), (0x6a0438a72944cbf1, 0xbb5e12b86121c30c),
  (0xd207a683d07ca874, 0x22a622b362a6a551), (0xbffd11be40a5b59b, 0xf6315778babf4f63), (0x73432af081ed9c53, 0xf1017f5fff15c1c2), (0x75702a182d7cde0, 0x112214c9cf3fd2c),
  (0x2129bdc03f0a511f, 0xf5136b4dba09f09a), (0x17e92b477d3ef4cf, 0x53e1f6ba4ecdb549), (0x96172a14ba73ec3e, 0xfd740ed701a55f0a), (0xd811557c35bab20c, 0x4c1ee0a1cae8c171),
  (0x5c33fb27e5d0ec80, 0xeed062a5cee44508), (0x104b33a19ec7ab1, 0x9655cacafeabd7e4), (0xca48f64c6fa64aaf, 0xf786f0b0b9df7e24), (0x3bbd4460243a8bd8, 0x8a0260b8cbfd08b2),
  (0x36508f60e0b77c8c, 0x7b3eda7f360f6aff), (0x6de3e5c8ef4fd539, 0x4bfc97438b79f353), (0x4389c804c7da4ff0, 0xa91ff50f96b26a4d), (0x910f7968ae1b2bae, 0xbe70146790742ec),
  (0xf4fee046d5e3462b, 0x7defbbb6f3b82e72), (0x1bce3a0a60c75cd9, 0x6a32770c59465b31), (0xc498fa806fbd1f44, 0xb88c42cfb3ef573), (0xe3adff8653aca166, 0xbf82cd2e8eb5a137),
  (0x1c305f7c0184404e, 0x251d07fb950a1d7b), (0x73d3bd67cf55941f, 0x1249b0956394be43), (0x6ae3104493190d2c, 0x9ef7898f6e9ee904), (0xd5a23f0ba55a4132, 0xe9a2125c2990bd88),
  (0xbfc1ba45b6c50771, 0x3f587f93b4ca0d48), (0x6ce9c26e8284a71d, 0xe7ac2b861f9af538), (0xf9d3100ca740eeab, 0xcfbe9cbf8872bc18), (0x636f66eb66c93c92, 0xa6dd445e02b67cbb),
  (0x36be8bf066927e4a, 0xf648a6b63fe173f3), (0x6322e9d03270c32f, 0x1a6e96bc1c644ae5), (0x2bc4961351fcbd11, 0xca87428331147300), (0xec64b7fa6527f8ff, 0xb5faf39fa3ba9eae),
  (0x138535ee75048188, 0xa8d38ca771fa3aec), (0x3d36832b55079ae, 0xe7655b7064d741e4), (0xda8e64f595257bcd, 0xffef1510dff813f3), (0xc6af9f723f3295b4, 0x357ed85e23d35b77),
  (0xfa38e0d1247cd408, 0xa301e51e1270eb94), (0xd161600fc95afed6, 0xe12648d27e8118cd), (0xfcc7bf179416dc5c, 0xfe511a6228357efd), (0x496fbc33b20b8b3d, 0x4f09b27c385bdd58),
  (0x10b6f76ac0c6fd41, 0x32838ac9c014f195), (0x337393ccd02867e5, 0xe568501090f27aa9), (0x572df169d7f30863, 0xe4a405a98353f2c), (0xa2eeec44cecd5142, 0x2f8d5ae78f899d0e),
  (0x339eeec6389259d1, 0x816d7ba7328d1ffb), (0x7c5f1511957ddefa, 0xc5bc580968b612e8), (0x46cdcdcea5669698, 0x641e1503a77b70e2), (0xf8f5358a346b7395, 0x53be9451ba4a4f0b),
  (0xb41b2afeab5761ba, 0x5490644115ad5938), (0xf85f4e8fbb55c491, 0x8d9103f3c69b91ec), (0xede02a8bd4e255f0, 0xd549abb366d1c454), (0x90162226f62730ce, 0x7f81f49d55f56c45),
  (0xdfc8db2c34e7ad1e, 0x58ef0e6e81e9052f), (0x627a3919bf1afe0a, 0x1e52f056f7bae76e), (0x64d9648d22bdd11e, 0xedaff431dd6fc502), (0x6dcc37964812fd30, 0xf69036c0e62d4df2),
  (0x15de5f5e03267188, 0x4d472d918946cf3d), (0x549a9186a2e1f5ab, 0xb646d78a893ea653), (0x4b8ade8bea2f4dfc, 0xdff108b30276c919), (0x673d9ec0785d8b4f, 0xe4de582c90dac479),
  (0xfdcbb9ab7410cc55, 0x1af08048ac581f32), (0x1fde2941a1a7b929, 0x2aa7325ad0587f30), (0x5c00309a7340b090, 0x1a8351b68793feac), (0xf091ed140a31c7dc, 0x838910233884c134),
  (0x92e804491366f3db, 0x30f025d84901d372), (0x2a2271bb02114ba3, 0x845e78724cdd8b4c), (0xcff127e75fa2dd67, 0x5bf79e533ed5b396), (0x18b490a9c28cd22b, 0x7c0e9b893b8553f1),
  (0x48a5c97eedf7b91, 0x4b892da375d40354), (0x4e659f50be350e16, 0xadfe944423fc4e3d), (0xefe127ac917fea0a, 0xd30125c45805b801), (0x716c916d8aa9630d, 0xf85c342cbca4b9b9),
  (0xe7c93fda2fc17e2b, 0x24b0137b417f52e2), (0xaaa660730f3a79e3, 0x908196d29de472de), (0xa240e251fdb43537, 0xe88e0a99dcba42d7), (0x584bcc6a5d3b2320, 0x21d23e82e998b8c5),
  (0x82396937d971a1c8, 0x9badcb8cfbb22fcd), (0xcd012712a8301bca, 0x64799ca318552230), (0x3f09ea1991dbf5de, 0x13ef89bcd19f7776), (0x92e804491366f3db, 0x30f025d84901d372),
  (0x8750aa266f61ded9, 0x1d322052b219d2a3), (0xe5dc479469951d79, 0x78ffa2a9d2ecbd56), (0x8c498d4251798ad9, 0x9ec657eaf92d7d40), (0x1b89a5b42adf99aa, 0x5f5ec1b1d3bcea90),
  (0x3e73f055dbc9794, 0x9857f3e526d27171), (0xc84f48171ea90072, 0x3ca6bcc58b3fabcc), (0xa45cac4933e1f293, 0x92aa257f3ed12930), (0x30e9d96b17bca82b, 0x67a51c506b51b5),
  (0x931afdbb0ae58146, 0xbe7a40560f47de4d), (0xe35806885dbdca0, 0x9f34028a1ddf71b1), (0x2195809c2ef0a26c, 0xe744c38d4fbe266a), (0xa68ee0a8b9321380, 0xb033ab9d7e288534),
  (0x448f48ec31fbef03, 0x9061b9e15f217621), (0xe1a4e9233a4f780d, 0x9bfe9f3c99a26960), (0xecb31ab0106f14fc, 0x23eb4d035648bee9), (0xd09e9820e036d8ff, 0xefcedcb80e018e94)]

/-- `MatrixM128[2]` -/
def LMatrixM128_2 : List (Nat × Nat) := [(0x8213a2bdfe275231, 0xc51fbf73739f8529), (0x43a77b1289aa5048, 0x3195e27fff542d2f), (0x48a5c97eedf7b91, 0x4b892da375d40354), (0xbe82b4a180cab4b1, 0x1aef9b6697725fa7),
  (0xd2f7ceafd306d9ed, 0x42e0b8ba21a6d30), (0x520b46124de80797, 0xebe366ff07e2d9e6), (0x96172a14ba73ec3e, 0xfd740ed701a55f0a), (0x1bce3a0a60c75cd9, 0x6a32770c59465b31),
  (0x533df13594084797, 0x9964d65895852788), (0xf4b642a39af40bae, 0xd11a8b8b4bc1f8b9), (0x47e2f08f2f7cbebb, 0x995f093186b69490), (0xc514c861659cbc73, 0xdb219895e9844c1d),
  (0xf091ed140a31c7dc, 0x838910233884c134), (0x9b0e5998742d2320, 0x2f5d34ccef9dcfda), (0x2ff9332cd1ec25a3, 0xeaef9ee339de9c57), (0x941d083d599e6a31, 0x8a007900e911ff6d),
  (0xdb1477809dee1a81, 0xe47102422dfec456), (0x8750aa266f61ded9, 0x1d322052b219d2a3), (0x73432af081ed9c53, 0xf1017f5fff15c1c2), (0xcd012712a8301bca, 0x64799ca318552230),
  (0x909dc2e5fa446886, 0x6932dcc154a411a4), (0x9b0a5e712bf90769, 0x65a46fa166225c9e), (0x4722a1d43a1abd70, 0xe5b9cd6dda14a05e), (0x18b490a9c28cd22b, 0x7c0e9b893b8553f1),
  (0xe1a4e9233a4f780d, 0x9bfe9f3c99a26960), (0xf3dff35af2ddd7fa, 0x3ec897f8b3ea0fb1), (0xf2e4fd0c93f35776, 0x3229d6777f43cf7b), (0xc2f19bdb3ce71ff9, 0x4ea1b98e0ea0aa30),
  (0x88b68f8a6ceb8451, 0x5660c19655754256), (0x4a6b7d759376f5dd, 0x96d1309598b5f860), (0x5c00309a7340b090, 0x1a8351b68793feac), (0xe4ade4e2c6fa3530, 0xfeb00a7a318e297),
  (0xd207a683d07ca874, 0x22a622b362a6a551), (0xbffd11be40a5b59b, 0xf6315778babf4f63), (0x6516b87aca407c17, 0xee84ec4cb74ca91d), (0xf3e140021823c64e, 0xd008aac7d7320595),
  (0x2129bdc03f0a511f, 0xf5136b4dba09f09a), (0x6a0438a72944cbf1, 0xbb5e12b86121c30c), (0x910f7968ae1b2bae, 0xbe70146790742ec), (0x6de3e5c8ef4fd539, 0x4bfc97438b79f353),
  (0x68e47963f849f8e8, 0x760ecbc0079c411), (0x82396937d971a1c8, 0x9badcb8cfbb22fcd), (0xe42872fee0cc10bc, 0x82d125fd5464fd21), (0x3bbd4460243a8bd8, 0x8a0260b8cbfd08b2),
  (0xe7c93fda2fc17e2b, 0x24b0137b417f52e2), (0xd811557c35bab20c, 0x4c1ee0a1cae8c171), (0xb73f8aa75d2e445e, 0x78057e84dd7392f4), (0x1929d84fa725c40f, 0x9ac875c999a4305b),
  (0xf4fee046d5e3462b, 0x7defbbb6f3b82e72), (0xbabc11870f14f49c, 0x9ba00f62f9822140), (0xa240e251fdb43537, 0xe88e0a99dcba42d7), (0xe3adff8653aca166, 0xbf82cd2e8eb5a137),
  (0x1c305f7c0184404e, 0x251d07fb950a1d7b), (0x907e42e19cf93579, 0xadcb7dbbed211f74), (0xca48f64c6fa64aaf, 0xf786f0b0b9df7e24), (0xd5a23f0ba55a4132, 0xe9a2125c2990bd88),
  (0x8c498d4251798ad9, 0x9ec657eaf92d7d40), (0xfa38e0d1247cd408, 0xa301e51e1270eb94), (0xf9d3100ca740eeab, 0xcfbe9cbf8872bc18), (0x636f66eb66c93c92, 0xa6dd445e02b67cbb),
  (0x15de5f5e03267188, 0x4d472d918946cf3d), (0x3d36832b55079ae, 0xe7655b7064d741e4), (0x2bc4961351fcbd11, 0xca87428331147300), (0xec64b7fa6527f8ff, 0xb5faf39fa3ba9eae),
  (0xcc1a5f4b57c74c49, 0xa35002659bf215df), (0x6322e9d03270c32f, 0x1a6e96bc1c644ae5), (0xda8e64f595257bcd, 0xffef1510dff813f3), (0xc6af9f723f3295b4, 0x357ed85e23d35b77),
  (0x6ce9c26e8284a71d, 0xe7ac2b861f9af538), (0x6bdd7188c64e0a4a, 0x7a8647b08703398d), (0xfdc30c2d8dfaa6ed, 0x6804d0a8d69ea919), (0xc84f48171ea90072, 0x3ca6bcc58b3fabcc),
  (0x4b8ade8bea2f4dfc, 0xdff108b30276c919), (0x337393ccd02867e5, 0xe568501090f27aa9), (0x3e73f055dbc9794, 0x9857f3e526d27171), (0xb920d64eae0a0d9b, 0x45bf2debd6cfc63f),
  (0x7ffa5e73d8cfb887, 0xbb7595f8bce8ef1f), (0x7c5f1511957ddefa, 0xc5bc580968b612e8), (0xb41b2afeab5761ba, 0x5490644115ad5938), (0xf8f5358a346b7395, 0x53be9451ba4a4f0b),
  (0xa20128aadb12f6e9, 0x180467db8046d093), (0xd17f3bde996f60de, 0xa6eee49e94c2bfed), (0xede02a8bd4e255f0, 0xd549abb366d1c454), (0x90162226f62730ce, 0x7f81f49d55f56c45),
  (0x3a744dc97c94fe5d, 0xa4f93f9015375da1), (0x627a3919bf1afe0a, 0x1e52f056f7bae76e), (0x64d9648d22bdd11e, 0xedaff431dd6fc502), (0xaf3dac4d74f5e2c9, 0xb8318f4ee88de7c2),
  (0x36be8bf066927e4a, 0xf648a6b63fe173f3), (0x125205633c0a2049, 0x508f6ab2091de15f), (0xd59bc46189cf8aef, 0xa7e4b850bb418fa1), (0xbfc1ba45b6c50771, 0x3f587f93b4ca0d48),
  (0x7fd81b168a379e64, 0xdfef3f3bdfc79a1b), (0x1fde2941a1a7b929, 0x2aa7325ad0587f30), (0xd6c439b74cbc912f, 0x26010cf47d77d350), (0x3f09ea1991dbf5de, 0x13ef89bcd19f7776),
  (0x92e804491366f3db, 0x30f025d84901d372), (0x2a2271bb02114ba3, 0x845e78724cdd8b4c), (0xcff127e75fa2dd67, 0x5bf79e533ed5b396), (0xe6bbd7053aceb7f1, 0x639a5f248d67677a),
  (0x4c64b0b5e05de156, 0x3a18ee5f8e65f0e4), (0x2b2e28064a2943a1, 0x2fe282402c0283b1), (0xf03f0eed30d85323, 0xf9a6179e885dc731), (0x73cac80b343cc923, 0x43ffc46f73ad95f),
  (0x36508f60e0b77c8c, 0x7b3eda7f360f6aff), (0xaaa660730f3a79e3, 0x908196d29de472de), (0xc498fa806fbd1f44, 0xb88c42cfb3ef573), (0x5353b7d4df3130ce, 0x710efed353f01b5a),
  (0x104b33a19ec7ab1, 0x9655cacafeabd7e4), (0x17e92b477d3ef4cf, 0x53e1f6ba4ecdb549), (0x8999a4e7bec21098, 0xabe2a07d06eef6b2), (0x92e804491366f3db, 0x30f025d84901d372),
  (0x138535ee75048188, 0xa8d38ca771fa3aec), (0xdbd11eb7e1a29216, 0xfd45e1dffdd81dc4), (0x405e822510f661ae, 0xdc837b198d36f858), (0x1b89a5b42adf99aa, 0x5f5ec1b1d3bcea90),
  (0x572df169d7f30863, 0xe4a405a98353f2c), (0x931afdbb0ae58146, 0xbe7a40560f47de4d), (0xdfc8db2c34e7ad1e, 0x58ef0e6e81e9052f), (0x30e9d96b17bca82b, 0x67a51c506b51b5),
  (0x496fbc33b20b8b3d, 0x4f09b27c385bdd58), (0xe35806885dbdca0, 0x9f34028a1ddf71b1), (0x2195809c2ef0a26c, 0xe744c38d4fbe266a), (0x79463b848dd5be9e, 0xe8dca5f3ffc1801b),
  (0x65a6f52c0ef1be1c, 0x6572d2ace52886bb), (0x45abe7f279b8aff6, 0xda1a7439763e858e), (0xbb84c72a579c1db1, 0xc4ff567d26ea3326), (0xf85f4e8fbb55c491, 0x8d9103f3c69b91ec)]

/-- `MatrixM128[3]` -/
def LMatrixM128_3 : List (Nat × Nat) := [(0x8213a2bdfe275231, 0xc51fbf73739f8529), (0x43a77b1289aa5048, 0x3195e27fff542d2f), (0x48a5c97eedf7b91, 0x4b892da375d40354), (0xbe82b4a180cab4b1, 0x1aef9b6697725fa7),
  (0xb920d64eae0a0d9b, 0x45bf2debd6cfc63f), (0xdb1477809dee1a81, 0xe47102422dfec456), (0xca48f64c6fa64aaf, 0xf786f0b0b9df7e24), (0xbabc11870f14f49c, 0x9ba00f62f9822140),
  (0x533df13594084797, 0x9964d65895852788), (0xf4b642a39af40bae, 0xd11a8b8b4bc1f8b9), (0xf2e4fd0c93f35776, 0x3229d6777f43cf7b), (0xc514c861659cbc73, 0xdb219895e9844c1d),
  (0x68e47963f849f8e8, 0x760ecbc0079c411), (0x9f84050f9af258b1, 0x64d4196f9a49cc8e), (0x99291fe71c8f2b85, 0xce7af76f20ac3edc), (0x931afdbb0ae58146, 0xbe7a40560f47de4d),
  (0xede02a8bd4e255f0, 0xd549abb366d1c454), (0x4b8ade8bea2f4dfc, 0xdff108b30276c919), (0x73432af081ed9c53, 0xf1017f5fff15c1c2), (0xe4ade4e2c6fa3530, 0xfeb00a7a318e297),
  (0xb41b2afeab5761ba, 0x5490644115ad5938), (0x1b89a5b42adf99aa, 0x5f5ec1b1d3bcea90), (0x909dc2e5fa446886, 0x6932dcc154a411a4), (0xe6bbd7053aceb7f1, 0x639a5f248d67677a),
  (0xe1a4e9233a4f780d, 0x9bfe9f3c99a26960), (0x138535ee75048188, 0xa8d38ca771fa3aec), (0x47e2f08f2f7cbebb, 0x995f093186b69490), (0xc2f19bdb3ce71ff9, 0x4ea1b98e0ea0aa30),
  (0x88b68f8a6ceb8451, 0x5660c19655754256), (0xa240e251fdb43537, 0xe88e0a99dcba42d7), (0x5c00309a7340b090, 0x1a8351b68793feac), (0xcd012712a8301bca, 0x64799ca318552230),
  (0xd207a683d07ca874, 0x22a622b362a6a551), (0x216590e8cd17e335, 0xd1836f3cbbefbc9e), (0x520b46124de80797, 0xebe366ff07e2d9e6), (0x14d2374ff7d34c68, 0xa9c1adebed09c7c0),
  (0xf4fee046d5e3462b, 0x7defbbb6f3b82e72), (0x6a0438a72944cbf1, 0xbb5e12b86121c30c), (0x96172a14ba73ec3e, 0xfd740ed701a55f0a), (0x6de3e5c8ef4fd539, 0x4bfc97438b79f353),
  (0x5c33fb27e5d0ec80, 0xeed062a5cee44508), (0xa35cf9df146642fd, 0x4a2ea4b0405d9353), (0xe42872fee0cc10bc, 0x82d125fd5464fd21), (0x3bbd4460243a8bd8, 0x8a0260b8cbfd08b2),
  (0x36508f60e0b77c8c, 0x7b3eda7f360f6aff), (0xd811557c35bab20c, 0x4c1ee0a1cae8c171), (0x6bdd7188c64e0a4a, 0x7a8647b08703398d), (0x910f7968ae1b2bae, 0xbe70146790742ec),
  (0x2fc6d8b7c2534598, 0xe2d921d1da6d644f), (0x8ac14362cedc7777, 0x61d5764a204119dd), (0x4a6b7d759376f5dd, 0x96d1309598b5f860), (0xe3adff8653aca166, 0xbf82cd2e8eb5a137),
  (0x1c305f7c0184404e, 0x251d07fb950a1d7b), (0x73d3bd67cf55941f, 0x1249b0956394be43), (0x6ae3104493190d2c, 0x9ef7898f6e9ee904), (0xd5a23f0ba55a4132, 0xe9a2125c2990bd88),
  (0xbfc1ba45b6c50771, 0x3f587f93b4ca0d48), (0xc85dee4cab1c13ee, 0x5e53ca1fbc6dd480), (0xaefee16570b3e6c8, 0xc1f4dce510478334), (0x636f66eb66c93c92, 0xa6dd445e02b67cbb),
  (0x15de5f5e03267188, 0x4d472d918946cf3d), (0x6322e9d03270c32f, 0x1a6e96bc1c644ae5), (0x2bc4961351fcbd11, 0xca87428331147300), (0xbffd11be40a5b59b, 0xf6315778babf4f63),
  (0xcc1a5f4b57c74c49, 0xa35002659bf215df), (0x3d36832b55079ae, 0xe7655b7064d741e4), (0xc942e429eb229252, 0x8975c1c7b4b9fb2d), (0xc6af9f723f3295b4, 0x357ed85e23d35b77),
  (0xfa38e0d1247cd408, 0xa301e51e1270eb94), (0x4389c804c7da4ff0, 0xa91ff50f96b26a4d), (0xfdc30c2d8dfaa6ed, 0x6804d0a8d69ea919), (0xc84f48171ea90072, 0x3ca6bcc58b3fabcc),
  (0xc498fa806fbd1f44, 0xb88c42cfb3ef573), (0x17e92b477d3ef4cf, 0x53e1f6ba4ecdb549), (0x2129bdc03f0a511f, 0xf5136b4dba09f09a), (0xd2f7ceafd306d9ed, 0x42e0b8ba21a6d30),
  (0x543ec86089330596, 0x71f2d77b8dfc9c1f), (0xe7554b60be84d993, 0xa01837a80e944e76), (0x572df169d7f30863, 0xe4a405a98353f2c), (0xf8f5358a346b7395, 0x53be9451ba4a4f0b),
  (0xa20128aadb12f6e9, 0x180467db8046d093), (0x6516b87aca407c17, 0xee84ec4cb74ca91d), (0xf85f4e8fbb55c491, 0x8d9103f3c69b91ec), (0x2feb3398b6828555, 0x89b0a3e5ef4a2326),
  (0xe4759f4c10dd26c6, 0xd2ed6ed64a140d9d), (0xecb31ab0106f14fc, 0x23eb4d035648bee9), (0x64d9648d22bdd11e, 0xedaff431dd6fc502), (0x6dcc37964812fd30, 0xf69036c0e62d4df2),
  (0x36be8bf066927e4a, 0xf648a6b63fe173f3), (0x125205633c0a2049, 0x508f6ab2091de15f), (0xee268001adf50137, 0x2de6d8e870bc8713), (0x673d9ec0785d8b4f, 0xe4de582c90dac479),
  (0xfdcbb9ab7410cc55, 0x1af08048ac581f32), (0x1fde2941a1a7b929, 0x2aa7325ad0587f30), (0xd6c439b74cbc912f, 0x26010cf47d77d350), (0x3f09ea1991dbf5de, 0x13ef89bcd19f7776),
  (0x92e804491366f3db, 0x30f025d84901d372), (0x2a2271bb02114ba3, 0x845e78724cdd8b4c), (0xcff127e75fa2dd67, 0x5bf79e533ed5b396), (0x18b490a9c28cd22b, 0x7c0e9b893b8553f1),
  (0x4c64b0b5e05de156, 0x3a18ee5f8e65f0e4), (0x46cdcdcea5669698, 0x641e1503a77b70e2), (0x63f57bc35644e53c, 0x2eaf06fed5bc0c1f), (0xe314d8fa7f354654, 0x2b5a9c84497efbd8),
  (0xe7c93fda2fc17e2b, 0x24b0137b417f52e2), (0xaaa660730f3a79e3, 0x908196d29de472de), (0xf3dff35af2ddd7fa, 0x3ec897f8b3ea0fb1), (0x6ce9c26e8284a71d, 0xe7ac2b861f9af538),
  (0x104b33a19ec7ab1, 0x9655cacafeabd7e4), (0x337393ccd02867e5, 0xe568501090f27aa9), (0x716c916d8aa9630d, 0xf85c342cbca4b9b9), (0x92e804491366f3db, 0x30f025d84901d372),
  (0x8750aa266f61ded9, 0x1d322052b219d2a3), (0xefe127ac917fea0a, 0xd30125c45805b801), (0x8c498d4251798ad9, 0x9ec657eaf92d7d40), (0x9b0a5e712bf90769, 0x65a46fa166225c9e),
  (0xac34a8c25ec92a49, 0x873065519d99a122), (0x941d083d599e6a31, 0x8a007900e911ff6d), (0x3a744dc97c94fe5d, 0xa4f93f9015375da1), (0x30e9d96b17bca82b, 0x67a51c506b51b5),
  (0x496fbc33b20b8b3d, 0x4f09b27c385bdd58), (0x3e73f055dbc9794, 0x9857f3e526d27171), (0x256a82541362ace4, 0x2fe255f1e3e6197c), (0xa68ee0a8b9321380, 0xb033ab9d7e288534),
  (0x65a6f52c0ef1be1c, 0x6572d2ace52886bb), (0x2e76967abff6a5bc, 0xa09c3389f13dbc03), (0x627a3919bf1afe0a, 0x1e52f056f7bae76e), (0xd17f3bde996f60de, 0xa6eee49e94c2bfed)]

/-- `MatrixM128[4]` -/
def LMatrixM128_4 : List (Nat × Nat) := [(0x8213a2bdfe275231, 0xc51fbf73739f8529), (0xc498fa806fbd1f44, 0xb88c42cfb3ef573), (0x48a5c97eedf7b91, 0x4b892da375d40354), (0x104b33a19ec7ab1, 0x9655cacafeabd7e4),
  (0xd2f7ceafd306d9ed, 0x42e0b8ba21a6d30), (0x5c00309a7340b090, 0x1a8351b68793feac), (0xca48f64c6fa64aaf, 0xf786f0b0b9df7e24), (0xbabc11870f14f49c, 0x9ba00f62f9822140),
  (0x533df13594084797, 0x9964d65895852788), (0x4c64b0b5e05de156, 0x3a18ee5f8e65f0e4), (0xf2e4fd0c93f35776, 0x3229d6777f43cf7b), (0x8c498d4251798ad9, 0x9ec657eaf92d7d40),
  (0x2fc6d8b7c2534598, 0xe2d921d1da6d644f), (0x9f84050f9af258b1, 0x64d4196f9a49cc8e), (0xf9d3100ca740eeab, 0xcfbe9cbf8872bc18), (0x18b490a9c28cd22b, 0x7c0e9b893b8553f1),
  (0x47e2f08f2f7cbebb, 0x995f093186b69490), (0xf3dff35af2ddd7fa, 0x3ec897f8b3ea0fb1), (0x73432af081ed9c53, 0xf1017f5fff15c1c2), (0xe4ade4e2c6fa3530, 0xfeb00a7a318e297),
  (0x909dc2e5fa446886, 0x6932dcc154a411a4), (0x9b0a5e712bf90769, 0x65a46fa166225c9e), (0x68e47963f849f8e8, 0x760ecbc0079c411), (0xe6bbd7053aceb7f1, 0x639a5f248d67677a),
  (0xe1a4e9233a4f780d, 0x9bfe9f3c99a26960), (0x138535ee75048188, 0xa8d38ca771fa3aec), (0xdb1477809dee1a81, 0xe47102422dfec456), (0xc2f19bdb3ce71ff9, 0x4ea1b98e0ea0aa30),
  (0x88b68f8a6ceb8451, 0x5660c19655754256), (0xf4b642a39af40bae, 0xd11a8b8b4bc1f8b9), (0x520b46124de80797, 0xebe366ff07e2d9e6), (0xcd012712a8301bca, 0x64799ca318552230),
  (0xe42872fee0cc10bc, 0x82d125fd5464fd21), (0xbffd11be40a5b59b, 0xf6315778babf4f63), (0x6516b87aca407c17, 0xee84ec4cb74ca91d), (0x75702a182d7cde0, 0x112214c9cf3fd2c),
  (0xfa38e0d1247cd408, 0xa301e51e1270eb94), (0x6a0438a72944cbf1, 0xbb5e12b86121c30c), (0x96172a14ba73ec3e, 0xfd740ed701a55f0a), (0x6de3e5c8ef4fd539, 0x4bfc97438b79f353),
  (0x5c33fb27e5d0ec80, 0xeed062a5cee44508), (0x82396937d971a1c8, 0x9badcb8cfbb22fcd), (0x673d9ec0785d8b4f, 0xe4de582c90dac479), (0xecb31ab0106f14fc, 0x23eb4d035648bee9),
  (0xb07888487b7787b2, 0xf5d75874cbe229e), (0x3bbd4460243a8bd8, 0x8a0260b8cbfd08b2), (0x4389c804c7da4ff0, 0xa91ff50f96b26a4d), (0x910f7968ae1b2bae, 0xbe70146790742ec),
  (0xf4fee046d5e3462b, 0x7defbbb6f3b82e72), (0x1bce3a0a60c75cd9, 0x6a32770c59465b31), (0xa240e251fdb43537, 0xe88e0a99dcba42d7), (0xe3adff8653aca166, 0xbf82cd2e8eb5a137),
  (0x8d3f2614af9f6be0, 0x2efa06bdec0d5f97), (0x73d3bd67cf55941f, 0x1249b0956394be43), (0x6ae3104493190d2c, 0x9ef7898f6e9ee904), (0xd5a23f0ba55a4132, 0xe9a2125c2990bd88),
  (0xbfc1ba45b6c50771, 0x3f587f93b4ca0d48), (0x6ce9c26e8284a71d, 0xe7ac2b861f9af538), (0xa20128aadb12f6e9, 0x180467db8046d093), (0x636f66eb66c93c92, 0xa6dd445e02b67cbb),
  (0x15de5f5e03267188, 0x4d472d918946cf3d), (0xfdc30c2d8dfaa6ed, 0x6804d0a8d69ea919), (0x2bc4961351fcbd11, 0xca87428331147300), (0xec64b7fa6527f8ff, 0xb5faf39fa3ba9eae),
  (0xcc1a5f4b57c74c49, 0xa35002659bf215df), (0x3d36832b55079ae, 0xe7655b7064d741e4), (0xda8e64f595257bcd, 0xffef1510dff813f3), (0xc6af9f723f3295b4, 0x357ed85e23d35b77),
  (0x2129bdc03f0a511f, 0xf5136b4dba09f09a), (0x6bdd7188c64e0a4a, 0x7a8647b08703398d), (0x6322e9d03270c32f, 0x1a6e96bc1c644ae5), (0xc84f48171ea90072, 0x3ca6bcc58b3fabcc),
  (0xed987feed6777dc6, 0x20b6cfa4936ad086), (0x337393ccd02867e5, 0xe568501090f27aa9), (0x572df169d7f30863, 0xe4a405a98353f2c), (0xdfc8db2c34e7ad1e, 0x58ef0e6e81e9052f),
  (0x7ffa5e73d8cfb887, 0xbb7595f8bce8ef1f), (0x7c5f1511957ddefa, 0xc5bc580968b612e8), (0xb41b2afeab5761ba, 0x5490644115ad5938), (0xf8f5358a346b7395, 0x53be9451ba4a4f0b),
  (0x2ff9332cd1ec25a3, 0xeaef9ee339de9c57), (0xf85f4e8fbb55c491, 0x8d9103f3c69b91ec), (0xede02a8bd4e255f0, 0xd549abb366d1c454), (0xcff127e75fa2dd67, 0x5bf79e533ed5b396),
  (0xb920d64eae0a0d9b, 0x45bf2debd6cfc63f), (0x627a3919bf1afe0a, 0x1e52f056f7bae76e), (0x64d9648d22bdd11e, 0xedaff431dd6fc502), (0x6dcc37964812fd30, 0xf69036c0e62d4df2),
  (0x7cd5f685f5e48b97, 0x60999623a7548b93), (0x125205633c0a2049, 0x508f6ab2091de15f), (0xee268001adf50137, 0x2de6d8e870bc8713), (0xd207a683d07ca874, 0x22a622b362a6a551),
  (0xfdcbb9ab7410cc55, 0x1af08048ac581f32), (0xf23e03ca7545ecd9, 0xffee99e9b689bb64), (0xd17f3bde996f60de, 0xa6eee49e94c2bfed), (0xbb49bfc7f544cb9d, 0x6fdcbe7ca0dd30a7),
  (0x92e804491366f3db, 0x30f025d84901d372), (0x2a2271bb02114ba3, 0x845e78724cdd8b4c), (0x90162226f62730ce, 0x7f81f49d55f56c45), (0x941d083d599e6a31, 0x8a007900e911ff6d),
  (0x4a6b7d759376f5dd, 0x96d1309598b5f860), (0x46cdcdcea5669698, 0x641e1503a77b70e2), (0xefe127ac917fea0a, 0xd30125c45805b801), (0xf091ed140a31c7dc, 0x838910233884c134),
  (0x84a65931490842b9, 0x826d572543c92e59), (0xaaa660730f3a79e3, 0x908196d29de472de), (0xdad5ad8df84ee8a7, 0x6b102b150373ca20), (0xc85dee4cab1c13ee, 0x5e53ca1fbc6dd480),
  (0x36508f60e0b77c8c, 0x7b3eda7f360f6aff), (0x17e92b477d3ef4cf, 0x53e1f6ba4ecdb549), (0x716c916d8aa9630d, 0xf85c342cbca4b9b9), (0x92e804491366f3db, 0x30f025d84901d372),
  (0xa68ee0a8b9321380, 0xb033ab9d7e288534), (0xbe82b4a180cab4b1, 0x1aef9b6697725fa7), (0x11b24450d92a87f0, 0xa4d640033ebf2671), (0x4982e3a667379e3d, 0xb4bda74ed45e3376),
  (0x65a6f52c0ef1be1c, 0x6572d2ace52886bb), (0x931afdbb0ae58146, 0xbe7a40560f47de4d), (0x282648aa409ede14, 0xf47655221c2abcfe), (0x30e9d96b17bca82b, 0x67a51c506b51b5),
  (0x496fbc33b20b8b3d, 0x4f09b27c385bdd58), (0x4b8ade8bea2f4dfc, 0xdff108b30276c919), (0x2195809c2ef0a26c, 0xe744c38d4fbe266a), (0x6ab080adbb838b29, 0xc87b8be1d4c816f7),
  (0x486de18eb793da68, 0x47a6fb5624a4b868), (0x45abe7f279b8aff6, 0xda1a7439763e858e), (0xd811557c35bab20c, 0x4c1ee0a1cae8c171), (0xd6c439b74cbc912f, 0x26010cf47d77d350)]

/-- `MatrixM128[5]` -/
def LMatrixM128_5 : List (Nat × Nat) := [(0x8213a2bdfe275231, 0xc51fbf73739f8529), (0xf3dff35af2ddd7fa, 0x3ec897f8b3ea0fb1), (0x48a5c97eedf7b91, 0x4b892da375d40354), (0xbe82b4a180cab4b1, 0x1aef9b6697725fa7),
  (0xca48f64c6fa64aaf, 0xf786f0b0b9df7e24), (0x520b46124de80797, 0xebe366ff07e2d9e6), (0x47e2f08f2f7cbebb, 0x995f093186b69490), (0xbabc11870f14f49c, 0x9ba00f62f9822140),
  (0xdb1477809dee1a81, 0xe47102422dfec456), (0xf4b642a39af40bae, 0xd11a8b8b4bc1f8b9), (0xf2e4fd0c93f35776, 0x3229d6777f43cf7b), (0xc514c861659cbc73, 0xdb219895e9844c1d),
  (0x68e47963f849f8e8, 0x760ecbc0079c411), (0xb920d64eae0a0d9b, 0x45bf2debd6cfc63f), (0xd2f7ceafd306d9ed, 0x42e0b8ba21a6d30), (0x941d083d599e6a31, 0x8a007900e911ff6d),
  (0x533df13594084797, 0x9964d65895852788), (0x43a77b1289aa5048, 0x3195e27fff542d2f), (0xd6c439b74cbc912f, 0x26010cf47d77d350), (0xe4ade4e2c6fa3530, 0xfeb00a7a318e297),
  (0x909dc2e5fa446886, 0x6932dcc154a411a4), (0x9b0a5e712bf90769, 0x65a46fa166225c9e), (0x931afdbb0ae58146, 0xbe7a40560f47de4d), (0xd5a23f0ba55a4132, 0xe9a2125c2990bd88),
  (0xe1a4e9233a4f780d, 0x9bfe9f3c99a26960), (0x138535ee75048188, 0xa8d38ca771fa3aec), (0xc6af9f723f3295b4, 0x357ed85e23d35b77), (0x18b490a9c28cd22b, 0x7c0e9b893b8553f1),
  (0x88b68f8a6ceb8451, 0x5660c19655754256), (0x4a6b7d759376f5dd, 0x96d1309598b5f860), (0x5c00309a7340b090, 0x1a8351b68793feac), (0xcd012712a8301bca, 0x64799ca318552230),
  (0xd207a683d07ca874, 0x22a622b362a6a551), (0x2129bdc03f0a511f, 0xf5136b4dba09f09a), (0x73432af081ed9c53, 0xf1017f5fff15c1c2), (0xc85dee4cab1c13ee, 0x5e53ca1fbc6dd480),
  (0xbffd11be40a5b59b, 0xf6315778babf4f63), (0xc84f48171ea90072, 0x3ca6bcc58b3fabcc), (0x96172a14ba73ec3e, 0xfd740ed701a55f0a), (0x6de3e5c8ef4fd539, 0x4bfc97438b79f353),
  (0x5c33fb27e5d0ec80, 0xeed062a5cee44508), (0x82396937d971a1c8, 0x9badcb8cfbb22fcd), (0xb3575ce296775f35, 0xec0857622a2b36cc), (0xa0b71a110fc38cb1, 0xefa60f19addf542c),
  (0x36508f60e0b77c8c, 0x7b3eda7f360f6aff), (0xd811557c35bab20c, 0x4c1ee0a1cae8c171), (0x4389c804c7da4ff0, 0xa91ff50f96b26a4d), (0x910f7968ae1b2bae, 0xbe70146790742ec),
  (0xf4fee046d5e3462b, 0x7defbbb6f3b82e72), (0x1bce3a0a60c75cd9, 0x6a32770c59465b31), (0xa240e251fdb43537, 0xe88e0a99dcba42d7), (0xe3adff8653aca166, 0xbf82cd2e8eb5a137),
  (0x1c305f7c0184404e, 0x251d07fb950a1d7b), (0x73d3bd67cf55941f, 0x1249b0956394be43), (0x6ae3104493190d2c, 0x9ef7898f6e9ee904), (0x5946c6bb7a6b026a, 0x95ab085c37d82819),
  (0xbfc1ba45b6c50771, 0x3f587f93b4ca0d48), (0x59c42a236af627c, 0xe595d35b100538f5), (0xf9d3100ca740eeab, 0xcfbe9cbf8872bc18), (0x636f66eb66c93c92, 0xa6dd445e02b67cbb),
  (0x15de5f5e03267188, 0x4d472d918946cf3d), (0x6322e9d03270c32f, 0x1a6e96bc1c644ae5), (0x2bc4961351fcbd11, 0xca87428331147300), (0xec64b7fa6527f8ff, 0xb5faf39fa3ba9eae),
  (0xcc1a5f4b57c74c49, 0xa35002659bf215df), (0x3d36832b55079ae, 0xe7655b7064d741e4), (0x9907acf152ff343d, 0x56f0e01f494a79be), (0xdad5ad8df84ee8a7, 0x6b102b150373ca20),
  (0xaf6ddc648d4ef09a, 0x64b3bc73ca229d3b), (0x6bdd7188c64e0a4a, 0x7a8647b08703398d), (0xfdc30c2d8dfaa6ed, 0x6804d0a8d69ea919), (0x627a3919bf1afe0a, 0x1e52f056f7bae76e),
  (0x4b8ade8bea2f4dfc, 0xdff108b30276c919), (0xc498fa806fbd1f44, 0xb88c42cfb3ef573), (0x572df169d7f30863, 0xe4a405a98353f2c), (0x9f84050f9af258b1, 0x64d4196f9a49cc8e),
  (0x7ffa5e73d8cfb887, 0xbb7595f8bce8ef1f), (0x3a744dc97c94fe5d, 0xa4f93f9015375da1), (0xb41b2afeab5761ba, 0x5490644115ad5938), (0xf8f5358a346b7395, 0x53be9451ba4a4f0b),
  (0xa20128aadb12f6e9, 0x180467db8046d093), (0x2ff9332cd1ec25a3, 0xeaef9ee339de9c57), (0xbedddbbe40ea1267, 0x4c2d7debf354e3dc), (0x90162226f62730ce, 0x7f81f49d55f56c45),
  (0xdfc8db2c34e7ad1e, 0x58ef0e6e81e9052f), (0x977e980be00489de, 0xc6e68d2c6d210dff), (0x7cb95feafc232354, 0x909da25b4238e484), (0x6dcc37964812fd30, 0xf69036c0e62d4df2),
  (0x36be8bf066927e4a, 0xf648a6b63fe173f3), (0x713d63885ac31cdb, 0xf6522eec0bab9de4), (0xee268001adf50137, 0x2de6d8e870bc8713), (0x673d9ec0785d8b4f, 0xe4de582c90dac479),
  (0xfdcbb9ab7410cc55, 0x1af08048ac581f32), (0x1fde2941a1a7b929, 0x2aa7325ad0587f30), (0x6516b87aca407c17, 0xee84ec4cb74ca91d), (0x3f09ea1991dbf5de, 0x13ef89bcd19f7776),
  (0x92e804491366f3db, 0x30f025d84901d372), (0x2a2271bb02114ba3, 0x845e78724cdd8b4c), (0xcff127e75fa2dd67, 0x5bf79e533ed5b396), (0xc2f19bdb3ce71ff9, 0x4ea1b98e0ea0aa30),
  (0x4c64b0b5e05de156, 0x3a18ee5f8e65f0e4), (0x46cdcdcea5669698, 0x641e1503a77b70e2), (0xefe127ac917fea0a, 0xd30125c45805b801), (0xf091ed140a31c7dc, 0x838910233884c134),
  (0xe7c93fda2fc17e2b, 0x24b0137b417f52e2), (0xaaa660730f3a79e3, 0x908196d29de472de), (0x337393ccd02867e5, 0xe568501090f27aa9), (0x75702a182d7cde0, 0x112214c9cf3fd2c),
  (0x104b33a19ec7ab1, 0x9655cacafeabd7e4), (0x66d448cf27fde814, 0xa5b3d856456628ad), (0x716c916d8aa9630d, 0xf85c342cbca4b9b9), (0x92e804491366f3db, 0x30f025d84901d372),
  (0x8750aa266f61ded9, 0x1d322052b219d2a3), (0x6ce9c26e8284a71d, 0xe7ac2b861f9af538), (0x8c498d4251798ad9, 0x9ec657eaf92d7d40), (0x1b89a5b42adf99aa, 0x5f5ec1b1d3bcea90),
  (0x3e73f055dbc9794, 0x9857f3e526d27171), (0x2fc6d8b7c2534598, 0xe2d921d1da6d644f), (0x7c5f1511957ddefa, 0xc5bc580968b612e8), (0xfa38e0d1247cd408, 0xa301e51e1270eb94),
  (0xce0a0345e2dd5b1f, 0x68f5d8f18b9766d), (0x6431b8cfac9f1751, 0x246a10327cfeb2bd), (0x2195809c2ef0a26c, 0xe744c38d4fbe266a), (0xa68ee0a8b9321380, 0xb033ab9d7e288534),
  (0x65a6f52c0ef1be1c, 0x6572d2ace52886bb), (0x45abe7f279b8aff6, 0xda1a7439763e858e), (0xa918fd4269d7bb0a, 0xf9f1393a20763b67), (0x562f91f8f60ebe07, 0xbbdcc4cc26db6d4e)]

/-- `MatrixM128[6]` -/
def LMatrixM128_6 : List (Nat × Nat) := [(0x1bce3a0a60c75cd9, 0x6a32770c59465b31), (0x43a77b1289aa5048, 0x3195e27fff542d2f), (0x48a5c97eedf7b91, 0x4b892da375d40354), (0xbe82b4a180cab4b1, 0x1aef9b6697725fa7),
  (0x2fc6d8b7c2534598, 0xe2d921d1da6d644f), (0x520b46124de80797, 0xebe366ff07e2d9e6), (0xca48f64c6fa64aaf, 0xf786f0b0b9df7e24), (0xbabc11870f14f49c, 0x9ba00f62f9822140),
  (0x533df13594084797, 0x9964d65895852788), (0xede02a8bd4e255f0, 0xd549abb366d1c454), (0xf2e4fd0c93f35776, 0x3229d6777f43cf7b), (0xc6af9f723f3295b4, 0x357ed85e23d35b77),
  (0x68e47963f849f8e8, 0x760ecbc0079c411), (0x9f84050f9af258b1, 0x64d4196f9a49cc8e), (0x2ff9332cd1ec25a3, 0xeaef9ee339de9c57), (0x941d083d599e6a31, 0x8a007900e911ff6d),
  (0xdb1477809dee1a81, 0xe47102422dfec456), (0xbfc1ba45b6c50771, 0x3f587f93b4ca0d48), (0xd55c3e00d7f5c164, 0x2bf4032a210c9dc1), (0xe4ade4e2c6fa3530, 0xfeb00a7a318e297),
  (0x909dc2e5fa446886, 0x6932dcc154a411a4), (0xc84f48171ea90072, 0x3ca6bcc58b3fabcc), (0xd2f7ceafd306d9ed, 0x42e0b8ba21a6d30), (0x3f09ea1991dbf5de, 0x13ef89bcd19f7776),
  (0xe1a4e9233a4f780d, 0x9bfe9f3c99a26960), (0x138535ee75048188, 0xa8d38ca771fa3aec), (0x47e2f08f2f7cbebb, 0x995f093186b69490), (0xc2f19bdb3ce71ff9, 0x4ea1b98e0ea0aa30),
  (0x88b68f8a6ceb8451, 0x5660c19655754256), (0x4a6b7d759376f5dd, 0x96d1309598b5f860), (0x5c00309a7340b090, 0x1a8351b68793feac), (0xcd012712a8301bca, 0x64799ca318552230),
  (0xd207a683d07ca874, 0x22a622b362a6a551), (0xbffd11be40a5b59b, 0xf6315778babf4f63), (0x6516b87aca407c17, 0xee84ec4cb74ca91d), (0x75702a182d7cde0, 0x112214c9cf3fd2c),
  (0x910f7968ae1b2bae, 0xbe70146790742ec), (0x6a0438a72944cbf1, 0xbb5e12b86121c30c), (0x96172a14ba73ec3e, 0xfd740ed701a55f0a), (0x6de3e5c8ef4fd539, 0x4bfc97438b79f353),
  (0x5c33fb27e5d0ec80, 0xeed062a5cee44508), (0x40c8f2ece596be31, 0xd50c7202f51285fd), (0xe42872fee0cc10bc, 0x82d125fd5464fd21), (0x3bbd4460243a8bd8, 0x8a0260b8cbfd08b2),
  (0xf8f5358a346b7395, 0x53be9451ba4a4f0b), (0xd811557c35bab20c, 0x4c1ee0a1cae8c171), (0x4389c804c7da4ff0, 0xa91ff50f96b26a4d), (0x2129bdc03f0a511f, 0xf5136b4dba09f09a),
  (0xf4fee046d5e3462b, 0x7defbbb6f3b82e72), (0x8213a2bdfe275231, 0xc51fbf73739f8529), (0xa240e251fdb43537, 0xe88e0a99dcba42d7), (0xe3adff8653aca166, 0xbf82cd2e8eb5a137),
  (0x1c305f7c0184404e, 0x251d07fb950a1d7b), (0x73d3bd67cf55941f, 0x1249b0956394be43), (0x6ae3104493190d2c, 0x9ef7898f6e9ee904), (0x1feac947cafc0b9d, 0x1e24e2ec904fc3ac),
  (0xafdfc3c0819d676a, 0x244bc64e3479f11d), (0x6ce9c26e8284a71d, 0xe7ac2b861f9af538), (0x4c64b0b5e05de156, 0x3a18ee5f8e65f0e4), (0x80c2996d35659df4, 0x195f89708c03dd8c),
  (0x15de5f5e03267188, 0x4d472d918946cf3d), (0x6322e9d03270c32f, 0x1a6e96bc1c644ae5), (0xe9350dc86d1ba2e8, 0x8426fb0d3fb4d930), (0x1b89a5b42adf99aa, 0x5f5ec1b1d3bcea90),
  (0xcc1a5f4b57c74c49, 0xa35002659bf215df), (0x443198bd9a2cc715, 0x7e3a5241e261d574), (0x6dcc37964812fd30, 0xf69036c0e62d4df2), (0xc514c861659cbc73, 0xdb219895e9844c1d),
  (0x9b0a5e712bf90769, 0x65a46fa166225c9e), (0x6bdd7188c64e0a4a, 0x7a8647b08703398d), (0xfdc30c2d8dfaa6ed, 0x6804d0a8d69ea919), (0x36508f60e0b77c8c, 0x7b3eda7f360f6aff),
  (0x4b8ade8bea2f4dfc, 0xdff108b30276c919), (0x572df169d7f30863, 0xe4a405a98353f2c), (0xda8e64f595257bcd, 0xffef1510dff813f3), (0xb920d64eae0a0d9b, 0x45bf2debd6cfc63f),
  (0xaaa660730f3a79e3, 0x908196d29de472de), (0x7c5f1511957ddefa, 0xc5bc580968b612e8), (0xb41b2afeab5761ba, 0x5490644115ad5938), (0x5b54fb1efba51234, 0xedf308207ec00709),
  (0xa20128aadb12f6e9, 0x180467db8046d093), (0xf85f4e8fbb55c491, 0x8d9103f3c69b91ec), (0xf4b642a39af40bae, 0xd11a8b8b4bc1f8b9), (0x90162226f62730ce, 0x7f81f49d55f56c45),
  (0xdfc8db2c34e7ad1e, 0x58ef0e6e81e9052f), (0x627a3919bf1afe0a, 0x1e52f056f7bae76e), (0x64d9648d22bdd11e, 0xedaff431dd6fc502), (0x337393ccd02867e5, 0xe568501090f27aa9),
  (0x36be8bf066927e4a, 0xf648a6b63fe173f3), (0xd6c439b74cbc912f, 0x26010cf47d77d350), (0xee268001adf50137, 0x2de6d8e870bc8713), (0x673d9ec0785d8b4f, 0xe4de582c90dac479),
  (0xfdcbb9ab7410cc55, 0x1af08048ac581f32), (0xe5e6c99085db6d21, 0x89a6d744c22894a4), (0xe7c93fda2fc17e2b, 0x24b0137b417f52e2), (0xe6bbd7053aceb7f1, 0x639a5f248d67677a),
  (0x92e804491366f3db, 0x30f025d84901d372), (0x2a2271bb02114ba3, 0x845e78724cdd8b4c), (0xe037ff509df198ff, 0xb92ebf82e4b8d7d9), (0x7f09e45395f6e963, 0xec8faa8777eba5ef),
  (0x9eee8eccdf1d65e4, 0x2b60c49318a87861), (0x46cdcdcea5669698, 0x641e1503a77b70e2), (0xefe127ac917fea0a, 0xd30125c45805b801), (0xf091ed140a31c7dc, 0x838910233884c134),
  (0x125205633c0a2049, 0x508f6ab2091de15f), (0x73432af081ed9c53, 0xf1017f5fff15c1c2), (0xc498fa806fbd1f44, 0xb88c42cfb3ef573), (0xc85dee4cab1c13ee, 0x5e53ca1fbc6dd480),
  (0x104b33a19ec7ab1, 0x9655cacafeabd7e4), (0x17e92b477d3ef4cf, 0x53e1f6ba4ecdb549), (0x716c916d8aa9630d, 0xf85c342cbca4b9b9), (0x92e804491366f3db, 0x30f025d84901d372),
  (0x8750aa266f61ded9, 0x1d322052b219d2a3), (0xdad5ad8df84ee8a7, 0x6b102b150373ca20), (0x9079d23e50fdca97, 0xbbdb50116c27603b), (0xec64b7fa6527f8ff, 0xb5faf39fa3ba9eae),
  (0xfb120a8f69d7e401, 0xcbe967b49c983e7a), (0x931afdbb0ae58146, 0xbe7a40560f47de4d), (0x3a744dc97c94fe5d, 0xa4f93f9015375da1), (0x30e9d96b17bca82b, 0x67a51c506b51b5),
  (0x562c0328bb1c4726, 0x18c973c2b98a1035), (0xe35806885dbdca0, 0x9f34028a1ddf71b1), (0x52d6aa6caf1d3e3f, 0x1645bcd2b0abe7a8), (0xa55d889a0c626a2e, 0x5756f0ed1affc4d0),
  (0x65a6f52c0ef1be1c, 0x6572d2ace52886bb), (0x45abe7f279b8aff6, 0xda1a7439763e858e), (0xecb31ab0106f14fc, 0x23eb4d035648bee9), (0x534652e9401ec116, 0x3d432f126f709020)]

/-- `MatrixM128[7]` -/
def LMatrixM128_7 : List (Nat × Nat) := [(0x8213a2bdfe275231, 0xc51fbf73739f8529), (0x43a77b1289aa5048, 0x3195e27fff542d2f), (0xd6c439b74cbc912f, 0x26010cf47d77d350), (0xbe82b4a180cab4b1, 0x1aef9b6697725fa7),
  (0xfa38e0d1247cd408, 0xa301e51e1270eb94), (0x520b46124de80797, 0xebe366ff07e2d9e6), (0xca48f64c6fa64aaf, 0xf786f0b0b9df7e24), (0xbabc11870f14f49c, 0x9ba00f62f9822140),
  (0xf9d3100ca740eeab, 0xcfbe9cbf8872bc18), (0xf4b642a39af40bae, 0xd11a8b8b4bc1f8b9), (0xf2e4fd0c93f35776, 0x3229d6777f43cf7b), (0xc514c861659cbc73, 0xdb219895e9844c1d),
  (0x68e47963f849f8e8, 0x760ecbc0079c411), (0x9f84050f9af258b1, 0x64d4196f9a49cc8e), (0x2ff9332cd1ec25a3, 0xeaef9ee339de9c57), (0x941d083d599e6a31, 0x8a007900e911ff6d),
  (0xdb1477809dee1a81, 0xe47102422dfec456), (0xf3dff35af2ddd7fa, 0x3ec897f8b3ea0fb1), (0xd2f7ceafd306d9ed, 0x42e0b8ba21a6d30), (0xe4ade4e2c6fa3530, 0xfeb00a7a318e297),
  (0x909dc2e5fa446886, 0x6932dcc154a411a4), (0x9b0a5e712bf90769, 0x65a46fa166225c9e), (0x2fc6d8b7c2534598, 0xe2d921d1da6d644f), (0x120d95a6a03abc5f, 0xb280d4afc6a69fc3),
  (0xe1a4e9233a4f780d, 0x9bfe9f3c99a26960), (0x81d7c69fecb65f6c, 0xa1d03d78790f4659), (0x47e2f08f2f7cbebb, 0x995f093186b69490), (0x36508f60e0b77c8c, 0x7b3eda7f360f6aff),
  (0x88b68f8a6ceb8451, 0x5660c19655754256), (0x4a6b7d759376f5dd, 0x96d1309598b5f860), (0x5c00309a7340b090, 0x1a8351b68793feac), (0x2ca5ce31927f63c7, 0xff87039f81f74b50),
  (0xdad5ad8df84ee8a7, 0x6b102b150373ca20), (0xbffd11be40a5b59b, 0xf6315778babf4f63), (0x6516b87aca407c17, 0xee84ec4cb74ca91d), (0x75702a182d7cde0, 0x112214c9cf3fd2c),
  (0x2129bdc03f0a511f, 0xf5136b4dba09f09a), (0x8cbfefa2138a7c00, 0xd8c44d9cec46a476), (0x96172a14ba73ec3e, 0xfd740ed701a55f0a), (0x6de3e5c8ef4fd539, 0x4bfc97438b79f353),
  (0x5c33fb27e5d0ec80, 0xeed062a5cee44508), (0x82396937d971a1c8, 0x9badcb8cfbb22fcd), (0xe42872fee0cc10bc, 0x82d125fd5464fd21), (0x3bbd4460243a8bd8, 0x8a0260b8cbfd08b2),
  (0xc2f19bdb3ce71ff9, 0x4ea1b98e0ea0aa30), (0x2ca717dfaf4eb9a2, 0x9d046b2a812939c8), (0x3a744dc97c94fe5d, 0xa4f93f9015375da1), (0x910f7968ae1b2bae, 0xbe70146790742ec),
  (0xf4fee046d5e3462b, 0x7defbbb6f3b82e72), (0xfa6ad3295a8824d4, 0xf1cce830c0e43251), (0xa240e251fdb43537, 0xe88e0a99dcba42d7), (0xe3adff8653aca166, 0xbf82cd2e8eb5a137),
  (0xbfc1ba45b6c50771, 0x3f587f93b4ca0d48), (0x73d3bd67cf55941f, 0x1249b0956394be43), (0x8b47f967a9567521, 0x50916b3f73c8064), (0x4a263a043fa81983, 0x8d760b33b3d97106),
  (0x1c305f7c0184404e, 0x251d07fb950a1d7b), (0x6ce9c26e8284a71d, 0xe7ac2b861f9af538), (0x138535ee75048188, 0xa8d38ca771fa3aec), (0x636f66eb66c93c92, 0xa6dd445e02b67cbb),
  (0x15de5f5e03267188, 0x4d472d918946cf3d), (0x6322e9d03270c32f, 0x1a6e96bc1c644ae5), (0x2bc4961351fcbd11, 0xca87428331147300), (0x86608f5d4c63330e, 0xea4e127c29b5da2),
  (0xb41b2afeab5761ba, 0x5490644115ad5938), (0x3d36832b55079ae, 0xe7655b7064d741e4), (0xda8e64f595257bcd, 0xffef1510dff813f3), (0xc6af9f723f3295b4, 0x357ed85e23d35b77),
  (0x73432af081ed9c53, 0xf1017f5fff15c1c2), (0xc498fa806fbd1f44, 0xb88c42cfb3ef573), (0x25d25951b84014e1, 0x241a30091c766868), (0xc84f48171ea90072, 0x3ca6bcc58b3fabcc),
  (0x4b8ade8bea2f4dfc, 0xdff108b30276c919), (0x337393ccd02867e5, 0xe568501090f27aa9), (0x572df169d7f30863, 0xe4a405a98353f2c), (0xfdcbb9ab7410cc55, 0x1af08048ac581f32),
  (0x7ffa5e73d8cfb887, 0xbb7595f8bce8ef1f), (0xfa22f0239403e6ad, 0x1a6cbc37f614a35), (0x2a2271bb02114ba3, 0x845e78724cdd8b4c), (0xf8f5358a346b7395, 0x53be9451ba4a4f0b),
  (0xa20128aadb12f6e9, 0x180467db8046d093), (0xf85f4e8fbb55c491, 0x8d9103f3c69b91ec), (0x1fde2941a1a7b929, 0x2aa7325ad0587f30), (0x90162226f62730ce, 0x7f81f49d55f56c45),
  (0xdfc8db2c34e7ad1e, 0x58ef0e6e81e9052f), (0x30e9d96b17bca82b, 0x67a51c506b51b5), (0x64d9648d22bdd11e, 0xedaff431dd6fc502), (0x95937919f34739a1, 0x7b01353320b6dc1e),
  (0x36be8bf066927e4a, 0xf648a6b63fe173f3), (0x125205633c0a2049, 0x508f6ab2091de15f), (0xe7c93fda2fc17e2b, 0x24b0137b417f52e2), (0x673d9ec0785d8b4f, 0xe4de582c90dac479),
  (0xb920d64eae0a0d9b, 0x45bf2debd6cfc63f), (0xede02a8bd4e255f0, 0xd549abb366d1c454), (0x48a5c97eedf7b91, 0x4b892da375d40354), (0x3f09ea1991dbf5de, 0x13ef89bcd19f7776),
  (0x92e804491366f3db, 0x30f025d84901d372), (0xcc1a5f4b57c74c49, 0xa35002659bf215df), (0xcff127e75fa2dd67, 0x5bf79e533ed5b396), (0xe28c7078e6f00623, 0xdf0f7e9729f5b865),
  (0xce7712081e7ab367, 0xff07512cfdfa75cd), (0x46cdcdcea5669698, 0x641e1503a77b70e2), (0xefe127ac917fea0a, 0xd30125c45805b801), (0xf091ed140a31c7dc, 0x838910233884c134),
  (0x1ad860477816471c, 0x5009635e8304a961), (0xaaa660730f3a79e3, 0x908196d29de472de), (0x6bdd7188c64e0a4a, 0x7a8647b08703398d), (0xc85dee4cab1c13ee, 0x5e53ca1fbc6dd480),
  (0x104b33a19ec7ab1, 0x9655cacafeabd7e4), (0x17e92b477d3ef4cf, 0x53e1f6ba4ecdb549), (0x716c916d8aa9630d, 0xf85c342cbca4b9b9), (0x92e804491366f3db, 0x30f025d84901d372),
  (0x8750aa266f61ded9, 0x1d322052b219d2a3), (0xd207a683d07ca874, 0x22a622b362a6a551), (0x8c498d4251798ad9, 0x9ec657eaf92d7d40), (0x1b89a5b42adf99aa, 0x5f5ec1b1d3bcea90),
  (0x3e73f055dbc9794, 0x9857f3e526d27171), (0x931afdbb0ae58146, 0xbe7a40560f47de4d), (0x4389c804c7da4ff0, 0xa91ff50f96b26a4d), (0x533df13594084797, 0x9964d65895852788),
  (0x496fbc33b20b8b3d, 0x4f09b27c385bdd58), (0xe35806885dbdca0, 0x9f34028a1ddf71b1), (0x98b556d280faaff7, 0xa2fbee669971e055), (0xa68ee0a8b9321380, 0xb033ab9d7e288534),
  (0x5cbc4e9ed6f221f8, 0xd533accd755378c2), (0x45abe7f279b8aff6, 0xda1a7439763e858e), (0x77cebdef994a1342, 0xb414d84c8cb765e0), (0xd17f3bde996f60de, 0xa6eee49e94c2bfed)]

/-- `MatrixM128[8]` -/
def LMatrixM128_8 : List (Nat × Nat) := [(0x8213a2bdfe275231, 0xc51fbf73739f8529), (0x6ce9c26e8284a71d, 0xe7ac2b861f9af538), (0x65a6f52c0ef1be1c, 0x6572d2ace52886bb), (0x2ff9332cd1ec25a3, 0xeaef9ee339de9c57),
  (0x17e92b477d3ef4cf, 0x53e1f6ba4ecdb549), (0x520b46124de80797, 0xebe366ff07e2d9e6), (0x6322e9d03270c32f, 0x1a6e96bc1c644ae5), (0xbabc11870f14f49c, 0x9ba00f62f9822140),
  (0x533df13594084797, 0x9964d65895852788), (0x48a5c97eedf7b91, 0x4b892da375d40354), (0xf2e4fd0c93f35776, 0x3229d6777f43cf7b), (0x46cdcdcea5669698, 0x641e1503a77b70e2),
  (0xdfc8db2c34e7ad1e, 0x58ef0e6e81e9052f), (0x9f84050f9af258b1, 0x64d4196f9a49cc8e), (0xbe82b4a180cab4b1, 0x1aef9b6697725fa7), (0x2fc6d8b7c2534598, 0xe2d921d1da6d644f),
  (0xdb1477809dee1a81, 0xe47102422dfec456), (0xf3dff35af2ddd7fa, 0x3ec897f8b3ea0fb1), (0x73432af081ed9c53, 0xf1017f5fff15c1c2), (0xe4ade4e2c6fa3530, 0xfeb00a7a318e297),
  (0x909dc2e5fa446886, 0x6932dcc154a411a4), (0x9b0a5e712bf90769, 0x65a46fa166225c9e), (0x941d083d599e6a31, 0x8a007900e911ff6d), (0xe6bbd7053aceb7f1, 0x639a5f248d67677a),
  (0xe1a4e9233a4f780d, 0x9bfe9f3c99a26960), (0x138535ee75048188, 0xa8d38ca771fa3aec), (0x3a744dc97c94fe5d, 0xa4f93f9015375da1), (0xc2f19bdb3ce71ff9, 0x4ea1b98e0ea0aa30),
  (0x88b68f8a6ceb8451, 0x5660c19655754256), (0x4a6b7d759376f5dd, 0x96d1309598b5f860), (0x5c00309a7340b090, 0x1a8351b68793feac), (0xd4788253757d44cd, 0x4a95fe2ed695906),
  (0xd207a683d07ca874, 0x22a622b362a6a551), (0xbffd11be40a5b59b, 0xf6315778babf4f63), (0x34a1da7fae9122e8, 0x685e766e79a35552), (0xf8f5358a346b7395, 0x53be9451ba4a4f0b),
  (0x2129bdc03f0a511f, 0xf5136b4dba09f09a), (0x6a0438a72944cbf1, 0xbb5e12b86121c30c), (0x96172a14ba73ec3e, 0xfd740ed701a55f0a), (0x6de3e5c8ef4fd539, 0x4bfc97438b79f353),
  (0x5c33fb27e5d0ec80, 0xeed062a5cee44508), (0x82396937d971a1c8, 0x9badcb8cfbb22fcd), (0xe42872fee0cc10bc, 0x82d125fd5464fd21), (0x3bbd4460243a8bd8, 0x8a0260b8cbfd08b2),
  (0x36508f60e0b77c8c, 0x7b3eda7f360f6aff), (0xd811557c35bab20c, 0x4c1ee0a1cae8c171), (0xc6af9f723f3295b4, 0x357ed85e23d35b77), (0x910f7968ae1b2bae, 0xbe70146790742ec),
  (0xf4fee046d5e3462b, 0x7defbbb6f3b82e72), (0x1bce3a0a60c75cd9, 0x6a32770c59465b31), (0xa240e251fdb43537, 0xe88e0a99dcba42d7), (0xe3adff8653aca166, 0xbf82cd2e8eb5a137),
  (0x1c305f7c0184404e, 0x251d07fb950a1d7b), (0x73d3bd67cf55941f, 0x1249b0956394be43), (0x6ae3104493190d2c, 0x9ef7898f6e9ee904), (0xd5a23f0ba55a4132, 0xe9a2125c2990bd88),
  (0xf9d3100ca740eeab, 0xcfbe9cbf8872bc18), (0xefe127ac917fea0a, 0xd30125c45805b801), (0x1b89a5b42adf99aa, 0x5f5ec1b1d3bcea90), (0x636f66eb66c93c92, 0xa6dd445e02b67cbb),
  (0x97e73669da57d040, 0xd6eae61d72f4e0f0), (0xca48f64c6fa64aaf, 0xf786f0b0b9df7e24), (0x2bc4961351fcbd11, 0xca87428331147300), (0xec64b7fa6527f8ff, 0xb5faf39fa3ba9eae),
  (0xcc1a5f4b57c74c49, 0xa35002659bf215df), (0x1fde2941a1a7b929, 0x2aa7325ad0587f30), (0xda8e64f595257bcd, 0xffef1510dff813f3), (0x4389c804c7da4ff0, 0xa91ff50f96b26a4d),
  (0xfa38e0d1247cd408, 0xa301e51e1270eb94), (0x6bdd7188c64e0a4a, 0x7a8647b08703398d), (0x716c916d8aa9630d, 0xf85c342cbca4b9b9), (0xc84f48171ea90072, 0x3ca6bcc58b3fabcc),
  (0x4b8ade8bea2f4dfc, 0xdff108b30276c919), (0x337393ccd02867e5, 0xe568501090f27aa9), (0x572df169d7f30863, 0xe4a405a98353f2c), (0xdad5ad8df84ee8a7, 0x6b102b150373ca20),
  (0x7ffa5e73d8cfb887, 0xbb7595f8bce8ef1f), (0x7c5f1511957ddefa, 0xc5bc580968b612e8), (0xb41b2afeab5761ba, 0x5490644115ad5938), (0x75702a182d7cde0, 0x112214c9cf3fd2c),
  (0xa20128aadb12f6e9, 0x180467db8046d093), (0xf85f4e8fbb55c491, 0x8d9103f3c69b91ec), (0xede02a8bd4e255f0, 0xd549abb366d1c454), (0x90162226f62730ce, 0x7f81f49d55f56c45),
  (0x68e47963f849f8e8, 0x760ecbc0079c411), (0x627a3919bf1afe0a, 0x1e52f056f7bae76e), (0x64d9648d22bdd11e, 0xedaff431dd6fc502), (0x6dcc37964812fd30, 0xf69036c0e62d4df2),
  (0x559c622054e2bd65, 0xec26300a23853916), (0x125205633c0a2049, 0x508f6ab2091de15f), (0xee268001adf50137, 0x2de6d8e870bc8713), (0x30e9d96b17bca82b, 0x67a51c506b51b5),
  (0xd2f7ceafd306d9ed, 0x42e0b8ba21a6d30), (0x3d36832b55079ae, 0xe7655b7064d741e4), (0xbe2040d4b4f569c7, 0x2161e0487d0e1741), (0x3f09ea1991dbf5de, 0x13ef89bcd19f7776),
  (0x92e804491366f3db, 0x30f025d84901d372), (0x104b33a19ec7ab1, 0x9655cacafeabd7e4), (0xf091ed140a31c7dc, 0x838910233884c134), (0x18b490a9c28cd22b, 0x7c0e9b893b8553f1),
  (0x4c64b0b5e05de156, 0x3a18ee5f8e65f0e4), (0xc514c861659cbc73, 0xdb219895e9844c1d), (0x43a77b1289aa5048, 0x3195e27fff542d2f), (0xa68ee0a8b9321380, 0xb033ab9d7e288534),
  (0x6516b87aca407c17, 0xee84ec4cb74ca91d), (0xce7f04fe2d87a8fd, 0x7d2e62e3408bb7dc), (0xc498fa806fbd1f44, 0xb88c42cfb3ef573), (0xc85dee4cab1c13ee, 0x5e53ca1fbc6dd480),
  (0x2a2271bb02114ba3, 0x845e78724cdd8b4c), (0xfdcbb9ab7410cc55, 0x1af08048ac581f32), (0xfdc30c2d8dfaa6ed, 0x6804d0a8d69ea919), (0x92e804491366f3db, 0x30f025d84901d372),
  (0x8750aa266f61ded9, 0x1d322052b219d2a3), (0xb920d64eae0a0d9b, 0x45bf2debd6cfc63f), (0x8c498d4251798ad9, 0x9ec657eaf92d7d40), (0xbfc1ba45b6c50771, 0x3f587f93b4ca0d48),
  (0x3e73f055dbc9794, 0x9857f3e526d27171), (0x84f3d6fc77db7589, 0xed9bb6ec418a6b04), (0xdc747bba0bfbf5f3, 0xaeb273c38a825a50), (0x673d9ec0785d8b4f, 0xe4de582c90dac479),
  (0x496fbc33b20b8b3d, 0x4f09b27c385bdd58), (0xe35806885dbdca0, 0x9f34028a1ddf71b1), (0xe53582beca3e7f4, 0x59de25c95d34225), (0x1615509235de014b, 0x80089ee135abe666),
  (0xd3a0e303ef4045e4, 0xd20e70369e2c9b80), (0x45abe7f279b8aff6, 0xda1a7439763e858e), (0xf73abf043ab08d56, 0x7cb58cb285f45479), (0xdf4abbb61cb4bc7e, 0x39dae614891dce5c)]

/-- `MatrixM128[9]` -/
def LMatrixM128_9 : List (Nat × Nat) := [(0x6dcc37964812fd30, 0xf69036c0e62d4df2), (0x4708243474cec60e, 0xa58fc32900f50068), (0x48a5c97eedf7b91, 0x4b892da375d40354), (0xf2e4fd0c93f35776, 0x3229d6777f43cf7b),
  (0xd2f7ceafd306d9ed, 0x42e0b8ba21a6d30), (0x6ae3104493190d2c, 0x9ef7898f6e9ee904), (0xb41b2afeab5761ba, 0x5490644115ad5938), (0xbabc11870f14f49c, 0x9ba00f62f9822140),
  (0x533df13594084797, 0x9964d65895852788), (0xe1a4e9233a4f780d, 0x9bfe9f3c99a26960), (0xbe82b4a180cab4b1, 0x1aef9b6697725fa7), (0xc514c861659cbc73, 0xdb219895e9844c1d),
  (0x68e47963f849f8e8, 0x760ecbc0079c411), (0x36508f60e0b77c8c, 0x7b3eda7f360f6aff), (0x2ff9332cd1ec25a3, 0xeaef9ee339de9c57), (0x941d083d599e6a31, 0x8a007900e911ff6d),
  (0xdb1477809dee1a81, 0xe47102422dfec456), (0xf3dff35af2ddd7fa, 0x3ec897f8b3ea0fb1), (0x73432af081ed9c53, 0xf1017f5fff15c1c2), (0xe4ade4e2c6fa3530, 0xfeb00a7a318e297),
  (0x909dc2e5fa446886, 0x6932dcc154a411a4), (0x9b0a5e712bf90769, 0x65a46fa166225c9e), (0x2fc6d8b7c2534598, 0xe2d921d1da6d644f), (0xe6bbd7053aceb7f1, 0x639a5f248d67677a),
  (0xf4b642a39af40bae, 0xd11a8b8b4bc1f8b9), (0x138535ee75048188, 0xa8d38ca771fa3aec), (0x47e2f08f2f7cbebb, 0x995f093186b69490), (0x520b46124de80797, 0xebe366ff07e2d9e6),
  (0x88b68f8a6ceb8451, 0x5660c19655754256), (0x17e92b477d3ef4cf, 0x53e1f6ba4ecdb549), (0x5c00309a7340b090, 0x1a8351b68793feac), (0xcd012712a8301bca, 0x64799ca318552230),
  (0xd207a683d07ca874, 0x22a622b362a6a551), (0xbffd11be40a5b59b, 0xf6315778babf4f63), (0x6516b87aca407c17, 0xee84ec4cb74ca91d), (0x1c305f7c0184404e, 0x251d07fb950a1d7b),
  (0x104b33a19ec7ab1, 0x9655cacafeabd7e4), (0x6a0438a72944cbf1, 0xbb5e12b86121c30c), (0x96172a14ba73ec3e, 0xfd740ed701a55f0a), (0x6de3e5c8ef4fd539, 0x4bfc97438b79f353),
  (0x5c33fb27e5d0ec80, 0xeed062a5cee44508), (0x768f2b944385aa66, 0x4ab74007b073d774), (0x813eca842a8c6cab, 0x6c55c9b1e328543c), (0x3bbd4460243a8bd8, 0x8a0260b8cbfd08b2),
  (0x9f84050f9af258b1, 0x64d4196f9a49cc8e), (0xd811557c35bab20c, 0x4c1ee0a1cae8c171), (0x296ad84054c342dc, 0x37e87c80f82c8349), (0x59fbc5aa171e1890, 0x2b05d62f6882f6ae),
  (0xf4fee046d5e3462b, 0x7defbbb6f3b82e72), (0x1bce3a0a60c75cd9, 0x6a32770c59465b31), (0x337393ccd02867e5, 0xe568501090f27aa9), (0xe3adff8653aca166, 0xbf82cd2e8eb5a137),
  (0x46cdcdcea5669698, 0x641e1503a77b70e2), (0x73d3bd67cf55941f, 0x1249b0956394be43), (0xa240e251fdb43537, 0xe88e0a99dcba42d7), (0xd5a23f0ba55a4132, 0xe9a2125c2990bd88),
  (0xbfc1ba45b6c50771, 0x3f587f93b4ca0d48), (0x6ce9c26e8284a71d, 0xe7ac2b861f9af538), (0xf9d3100ca740eeab, 0xcfbe9cbf8872bc18), (0x636f66eb66c93c92, 0xa6dd445e02b67cbb),
  (0x15de5f5e03267188, 0x4d472d918946cf3d), (0xecb31ab0106f14fc, 0x23eb4d035648bee9), (0x2bc4961351fcbd11, 0xca87428331147300), (0x34091794658cd898, 0x8801d40fc3ba3447),
  (0xcc1a5f4b57c74c49, 0xa35002659bf215df), (0x6bdd7188c64e0a4a, 0x7a8647b08703398d), (0xda8e64f595257bcd, 0xffef1510dff813f3), (0xc6af9f723f3295b4, 0x357ed85e23d35b77),
  (0xbdda105e0b006ab3, 0x3a5eec2f94c67f04), (0x3d36832b55079ae, 0xe7655b7064d741e4), (0xfdc30c2d8dfaa6ed, 0x6804d0a8d69ea919), (0xc84f48171ea90072, 0x3ca6bcc58b3fabcc),
  (0x627a3919bf1afe0a, 0x1e52f056f7bae76e), (0x45abe7f279b8aff6, 0xda1a7439763e858e), (0x572df169d7f30863, 0xe4a405a98353f2c), (0xb920d64eae0a0d9b, 0x45bf2debd6cfc63f),
  (0x7ffa5e73d8cfb887, 0xbb7595f8bce8ef1f), (0x7c5f1511957ddefa, 0xc5bc580968b612e8), (0xca48f64c6fa64aaf, 0xf786f0b0b9df7e24), (0x43a77b1289aa5048, 0x3195e27fff542d2f),
  (0xa20128aadb12f6e9, 0x180467db8046d093), (0xf85f4e8fbb55c491, 0x8d9103f3c69b91ec), (0xede02a8bd4e255f0, 0xd549abb366d1c454), (0x90162226f62730ce, 0x7f81f49d55f56c45),
  (0x4fdef90ac2c09dd0, 0x276efaf3d41c696a), (0x4b8ade8bea2f4dfc, 0xdff108b30276c919), (0x64d9648d22bdd11e, 0xedaff431dd6fc502), (0x8213a2bdfe275231, 0xc51fbf73739f8529),
  (0x36be8bf066927e4a, 0xf648a6b63fe173f3), (0x125205633c0a2049, 0x508f6ab2091de15f), (0xee268001adf50137, 0x2de6d8e870bc8713), (0x673d9ec0785d8b4f, 0xe4de582c90dac479),
  (0xfdcbb9ab7410cc55, 0x1af08048ac581f32), (0x4dd56f53ec4fbebe, 0xc14454a5d7baa6d6), (0xb3d281cd86fced38, 0xc885e0b8ca3b7a4d), (0x3f09ea1991dbf5de, 0x13ef89bcd19f7776),
  (0x92e804491366f3db, 0x30f025d84901d372), (0xe26d39ac1cb84bd1, 0xb8f8c4b7c7e22080), (0xcff127e75fa2dd67, 0x5bf79e533ed5b396), (0xc457c89b94f9d69a, 0xb3b1c3fcac2f093b),
  (0x4c64b0b5e05de156, 0x3a18ee5f8e65f0e4), (0xec64b7fa6527f8ff, 0xb5faf39fa3ba9eae), (0xefe127ac917fea0a, 0xd30125c45805b801), (0x931afdbb0ae58146, 0xbe7a40560f47de4d),
  (0xe7c93fda2fc17e2b, 0x24b0137b417f52e2), (0xaaa660730f3a79e3, 0x908196d29de472de), (0x75702a182d7cde0, 0x112214c9cf3fd2c), (0xa5be0b844453c6d7, 0x15af5d5c371427d3),
  (0x2129bdc03f0a511f, 0xf5136b4dba09f09a), (0x4a6b7d759376f5dd, 0x96d1309598b5f860), (0x716c916d8aa9630d, 0xf85c342cbca4b9b9), (0x92e804491366f3db, 0x30f025d84901d372),
  (0x8750aa266f61ded9, 0x1d322052b219d2a3), (0xdad5ad8df84ee8a7, 0x6b102b150373ca20), (0x8c498d4251798ad9, 0x9ec657eaf92d7d40), (0x1b89a5b42adf99aa, 0x5f5ec1b1d3bcea90),
  (0x3e73f055dbc9794, 0x9857f3e526d27171), (0xf091ed140a31c7dc, 0x838910233884c134), (0x3a744dc97c94fe5d, 0xa4f93f9015375da1), (0x580da008eff550c3, 0x70749a0501295a4),
  (0x496fbc33b20b8b3d, 0x4f09b27c385bdd58), (0xe35806885dbdca0, 0x9f34028a1ddf71b1), (0xd24a73c6dc2d7596, 0xd98c5475fc5429db), (0x249d4215471541b1, 0x752c14ee0db7001d),
  (0x65a6f52c0ef1be1c, 0x6572d2ace52886bb), (0x910f7968ae1b2bae, 0xbe70146790742ec), (0xdda05d71b2ba779e, 0x810dda8b161542), (0xd17f3bde996f60de, 0xa6eee49e94c2bfed)]

/-- `MatrixM128[10]` -/
def LMatrixM128_10 : List (Nat × Nat) := [(0x5d962bc6bfeba366, 0xb2dba6d8e0dc78fd), (0xc1d7e264e892a359, 0x27357d0645f967c), (0x4838c29ab6f08cc6, 0x54a47b5c1c2af020), (0xaf226b2d7fba661a, 0xcecb974f1b07e873),
  (0x912d9bd99c5110d1, 0x57bc58b1ca019864), (0xd29261e059f6c56d, 0x575b4619a1f99660), (0x692f44762c770e1a, 0x89eba3fbbabedfdf), (0x9c90298f83e78d08, 0xc43605a06202c0b2),
  (0x926c3082028d96a6, 0x43682bc1042eb149), (0x2b734a98868e42fa, 0xf0ded2117d2c0483), (0x357d6d807b52b430, 0x1bca4f6daa045dc8), (0xae3765852394fe98, 0xa5a612f6588429c6),
  (0xe2c4ef4053feceae, 0x760328af6659e807), (0x777ca8beabee373, 0x38c8ce472bba9879), (0xb9401f71024d18b2, 0xfd9b5128d482979c), (0x6520e33136fa6d0, 0xc820c80d2d7299e7),
  (0x8dd343712d7534bb, 0x92e13f938e2ba67e), (0x6f894703fffc288f, 0x8fbe5b86d302b6ed), (0xa7bbaba777dab68c, 0xdf196b4ebf2734bb), (0x2ba4de022f1ce751, 0x11bc6265ffe2bfc6),
  (0xc6ac190a36d11668, 0xd7fe052b52b3fe17), (0x11b31838c71fbc3e, 0x67499d75ce0da087), (0xd9c34afedcdcdabe, 0x810abfd79f6194fd), (0x248ad8a79981e3a9, 0xe1e1f25480403dc4),
  (0x72006c6233801d96, 0x1a16e4331714c9b6), (0xf91082085eff8ce9, 0x4801629046ae167a), (0xbe71e805bcfb10d6, 0x1049ba64e7b916ad), (0xb8190c406a0e3292, 0x33472a6a8fd640b7),
  (0x8446f14011e5a84e, 0xcc7655dddad977f0), (0x23768b5d7ecf2906, 0x79d8474990438dee), (0x631568ab5fb27527, 0xe83047f4adf2f48), (0x9f42c9276dbcce5e, 0x4792b959ef8cd98d),
  (0x53bd8a2118fb5e81, 0xc3344f030b202fd), (0x6252a4c4ff028efa, 0x50c1dc3b3b74a8b7), (0x5f62bc1f1c36c411, 0xcba3391d45d307e9), (0xb4b6dd181eab0869, 0xbc782190769b0c4),
  (0xbdb76def3fadfd02, 0x21d1cf7d08916dd3), (0xd3bcc78882e9df49, 0x29cd230e3f67d8ad), (0x64b63fd23039bf94, 0x7051c47d592d1c40), (0x8a58295e12a09a82, 0xbfe3257f3d57d9ff),
  (0x40e84b77e0e9adde, 0x11045c617ea05edf), (0x624c907657182474, 0x58f4249af4b58b77), (0x65387e82560e735c, 0x4bb5a4f67d3647f7), (0xa74e43a2c35fb1de, 0x5435a18f22cec2de),
  (0x6e6514cd1a83b79f, 0x9afaa91dc3088a39), (0x8af65a9a0f2b1eab, 0x3f821d14475f6936), (0x68979e743309e93e, 0x9b249b00d787f340), (0xb1cfb22c79856c87, 0x57968b03caf1515b),
  (0x153970819568d7e4, 0xc16e82226731253e), (0x537372b97bb61387, 0x32f17a69162afb3f), (0x70b08e66c38c699f, 0x277ed31b6b6050a0), (0x355c8ee694fa4624, 0xc8486c4f62ddcf3a),
  (0x459a2394d3c98423, 0xd8b8d026c924946b), (0xb8b64688933738be, 0x8016fd68fb5c87cd), (0xeecdce52305db859, 0xb1f5cf40d441896f), (0x4d3fa5b2c92f035, 0x5340d7c94dfc3283),
  (0x96894dc48338f8ce, 0x7424460ea55d7dcd), (0x5f12e99ae0fbfa72, 0xc67646d9abaa9d52), (0xba6f06dd89cb8d5a, 0xd06131cdfd819a20), (0xfc482b5ff3ff7560, 0x1c5a023a46b492ee),
  (0x4f6525f6838bd65d, 0x41d80620d489ee03), (0xe4862cf839e2d0df, 0x3f22ee57112637fd), (0x27df35891259238c, 0x94382eed55054811), (0x8df59dd55a045d78, 0xde3cb1dd17bc381b),
  (0x8ec75608e2dfc042, 0x4224e6547b32b3e6), (0x7a1698be52e3e35b, 0x24e36352a92b6775), (0x859700195bb1a4ea, 0x4d56d5215e5cd94a), (0x8410cafd1a373bf5, 0x3bbfe9345be9c1a4),
  (0x2243bb9394267606, 0x47d09824f89a16ba), (0xdf1a7ce953c5bd9d, 0x8894c1cd20a7c914), (0xd21f49dfb5aa666d, 0x2199149b4b833966), (0xc7ab3671c8f61ac7, 0xc7420dc21d80ba85),
  (0x1434676722fe168d, 0x750d8d59b25da8e1), (0x4ab8827b037ffdd6, 0x41e2a0b177adbb3e), (0x512a0b32e106ab6e, 0xefb3e74f533f2ffc), (0x12ecef033c550a13, 0x3b2cd0d1a9bd6c77),
  (0x51378b7768f710f8, 0xf88f56fc6d3aea0b), (0x8a12d1deb0635a42, 0xbbee53e13becb049), (0xd7f25f1a08ca4744, 0xe590b9416556452), (0xfd0d7fdcbbb0fb90, 0x9dad8257a16fca36),
  (0xe64f80d987be32cb, 0xd2142612e6352e4b), (0x3323f9c2bb3c077d, 0xdaf411161d96ddb5), (0xea133085756eb65f, 0xf12147a43af98f32), (0x92605f639984096e, 0xe79a4278220e1173),
  (0x9e96017df12e373a, 0x6656a353b8e96273), (0xc09c01bef39a689c, 0xf1d505f1d0ad22a), (0x6387ddb5a73c01ce, 0x146b05a7928b6dcd), (0xa28fc90ac604765f, 0xf81ab5763119ed2b),
  (0xa6bb25e00f7bf03, 0x44715e5eec46bc2e), (0xd3b2b0b20aa81478, 0x45ecfee57ebbb316), (0x6eab4e491583f76d, 0xc86c88a4d5d0320a), (0x59d5dafb84da59eb, 0x2eb8c8fe7838744b),
  (0xebcaf744630e0cbf, 0xc00c812014955c41), (0x2b504fecd35ed8f2, 0x1c4a22a8115d5deb), (0x61a0ca3901171496, 0x4b9181dc3027d56d), (0x645d7db568819aea, 0x21a15640565d02),
  (0x1e23e6c17dbc6c6a, 0x3e24751d4c1a9e2e), (0xff03557c4d038b06, 0x9c23c398a25b5dc9), (0x1b15bc3160db40bc, 0x55276f1942e8878b), (0x321dff2490bb8280, 0x337dd1cf0978eb98),
  (0x6c68ac5bc6ad63fa, 0xc18af6f4e2ff92a5), (0x2f2494453936bfb, 0xddcee1c7fc119b15), (0xbfbf7438a3b2f46e, 0x209d4b7cb1c3b4ba), (0x23bce1935c076903, 0xb060fa96d3a0e292),
  (0xeb86115c19ec2c20, 0xd860b26a5ce6419a), (0x5ec8789fd6cb5d25, 0xd14baee2c8720160), (0xf051334f444562f6, 0xdc65736bea5beae6), (0x93045023a1108384, 0xf6b007054a02952e),
  (0x54696bb156bf0d8f, 0xf79fe9536fc7ab9b), (0xe06b06cda9299f6f, 0x7c25de7bb19c8488), (0x3ac5069887f0eeaf, 0x52efe62a45ae7521), (0xa2e63dec35ab40cd, 0x67f701eb50fecbaa),
  (0xa2a20c3f5c6e11d0, 0x49d65f53cca4add6), (0x26912e6965786913, 0xbba6a0e1ddc9bd3d), (0xab4341e56232c2b2, 0x4eeeb9181eb050ee), (0xa09779db899648f7, 0xc18e277ade07c71c),
  (0x31ab5bb5c7a88caa, 0x7af5b1b99f8221e0), (0x68579cfe83ec7098, 0x85b20a964c7b035f), (0x97e7793d2fea03af, 0x4a7c6fd743263fbf), (0xf3b5ee9121b9c2d7, 0x323a87e44b96dc0f),
  (0x8b47dc5f1a4109d8, 0x6b4a210fb648dc82), (0xb4ea54654140359, 0x77a623f811d10617), (0xa47f2e33de9c9be8, 0xb293ea46a26b962f), (0xe917873f0c2774b5, 0x3f852e4ec3daa678),
  (0x43d7f739352dab15, 0xe73f0989beca604f), (0x5695548f3583e58d, 0xbc9131fd11b9e01), (0xa802a9e56b25c5af, 0x74cba476b57d1473), (0xfc0645dc1ab74f17, 0x95b8132bc7a9bd75)]

/-- `MatrixM128[11]` -/
def LMatrixM128_11 : List (Nat × Nat) := [(0xeb7145b6431ef79e, 0xf6123bb1c8fae72e), (0x9d5690e5bc187cb1, 0x8cdbb0761fdb6137), (0xa3c33720d35749ff, 0xa4a8dc4f20ba10e3), (0x71be2b41f8b90b89, 0x4c73fed9ab83a16a),
  (0x2c8d07a81edb0a7, 0x1c23195c9c94e427), (0xa83927594c3fbe53, 0xaec340250aa2c3e4), (0x5596f5496fe3680, 0x2b2e812afb0513d1), (0xf06342a85455bd6a, 0xac2df3bf28e71434),
  (0xf96c1eabbb8dc70d, 0xc7555d8c54b89cea), (0x87a50cf4966a68b5, 0x7d7b3896ba95bdcf), (0x444cf1c452bbd90e, 0xf8a2473ee8fb7acf), (0x3614a9a4abcffea9, 0x2357edfbdda1780),
  (0x5ceea5ddad117d1e, 0xb4bf0ac3bfd02149), (0xa9d73db436c80d2d, 0x6394e2f360457dd6), (0xf1cba9ee188aac71, 0x74959592f1563b70), (0x56f1bbacb70df44c, 0xf1c6c41f8b798fff),
  (0x89524f0222cf0505, 0xa9a599d83c0b59d2), (0xf11d654bc2496d54, 0x35ab759f500e115f), (0xdf6a8fd78fb95a67, 0x7d1d94e1800bb442), (0x90e5953d3b66d810, 0x575329967815cbf6),
  (0x887d7da06443985e, 0x6da151e80369dc8c), (0xa68600856ffff7b, 0x883929f27e3df363), (0x62d15025e9b8ff91, 0xa8f111690eb634e9), (0x2257fd10d31bca75, 0x29e2233206aca02e),
  (0xc8c371024803960b, 0x72f84395b1571ac2), (0x81e884bcbf194bc5, 0xa9feafe7c8ffde5), (0xf841daad806611a2, 0xfd4ca74574eaf466), (0xaa19f64920ca0db7, 0x9b763c03a8350de1),
  (0xd66d128dfec7af6b, 0xef83b24187ce3627), (0x9fba4576166690c9, 0x54bb57bae6632348), (0x841c202915a228ee, 0x92be8fbd8e884c53), (0xc1127a2cc27a367, 0x8f8dcc8eaf73034d),
  (0xe93d507e4ad599ea, 0x8d520a4f98858ff6), (0xcfcf3b19f374b198, 0xda83c39b625392c7), (0x88a85ab9d1521b76, 0xbb89dbd62013d91e), (0x311adb950dc0d4a9, 0xebcc44857a92183f),
  (0xf072ba3af362dd85, 0x1f661e2787266f61), (0xd153e4428ba3026, 0xec6b64dee343250f), (0xd5af61ef69dae31c, 0xa928def286b7407f), (0x21a94f2e7774cf3d, 0x748172daf8a498ac),
  (0x70ddda46dc883274, 0xa3a4deab9ac90f29), (0xbfd4a7be7553880b, 0xa44aa98b344bdb3d), (0xd13576873941da4b, 0x3b160c6d01307481), (0xbf23786ceb981139, 0x9d6b3085fe5d96ae),
  (0x74197d686f4746a6, 0xfda239f62927ef6e), (0xf0344363e705837f, 0xe6ba5bc6f2020ae1), (0xc7ec36cea3ca6419, 0x3fe70319be4160c5), (0xe3ac95e5e1ab3387, 0xba155ce2a8139deb),
  (0x32ca810ce708f186, 0xcf8b755123f5edfd), (0x67bb01c1a6213994, 0xc1f431b5ed823815), (0x2bcccc2507afdbb9, 0xe32ed1c707d9ad0b), (0x153ed0cd607778d3, 0x5baac17587e59b39),
  (0x268876ef5d10bc1f, 0x1f506d72a6cf94c7), (0xd5484a63fa2e3d61, 0xfe742cb96db15719), (0x1d76112229e238ec, 0xfabe2ad90b81845d), (0xc3471ea96743a774, 0x92e8b5e319d50070),
  (0x56f46b1749963f54, 0x5f4cf074398d975c), (0xc29dc10663d295d, 0xd5a63fe56d13fa94), (0x8d3da57b70052f8a, 0xf5a1c1ae14cf4bdd), (0x9fea419731fc2c6f, 0x758e92c40ca70d33),
  (0xff32e05755080dea, 0xccba56d05bcda8e1), (0xc52745273ee54657, 0xcd234570ff098483), (0xb74ca609bf935b0d, 0xc66ad40c7b5f1989), (0x3acec7ac346b05a6, 0xc390d1b84b0f14af),
  (0x34f84d5cd65a761e, 0x6eac5f2579b70e97), (0x1fe53ad4b7f66847, 0x5c72b3719c47d31c), (0x890b25b8fd21f6d4, 0x8e2fb5b1c4762f1d), (0xdb925e9414244b56, 0x91ebca03ff5ced2),
  (0xd7f580edf25746cf, 0xe470145a2acf431e), (0x787dada378eed7ec, 0xd321cc021a7eb8cc), (0xe2eee0efcb049984, 0x132edb40882fdfe3), (0xde11a1800b7123ae, 0x71ddee7effd225fe),
  (0x4a81044d74bb3be0, 0xdf0a6e48b6275f44), (0x20c6eb84a2c97ab7, 0x9a504766c5c4e0fb), (0x9e7e204e6f04b485, 0xd571029595b1c4c6), (0x49952f2d7651738d, 0x9bb12732c447f56e),
  (0xa28b9f99b9f1f40d, 0x9a93f6f0e6fbaa9c), (0x188ab2846f5c7150, 0x5290252878abc6af), (0xe44982ed5fa6d963, 0xb75845773426106), (0xe24f827b4ba999c5, 0x55a69430f1d169be),
  (0xd5d4195354889107, 0x922cc83f6e407de9), (0x102f8f693540b65d, 0x91fc014e50facd68), (0xb5c410673725ecce, 0x7db018742b27812a), (0x14c6169abafd3e34, 0xcadbbfb5355b16aa),
  (0x7b77b31b64956426, 0xd4096ebdfe7d4bdd), (0x30c7e626f9804906, 0xcf2206d9095d0321), (0x31178416df908e64, 0x9be988895bff6b03), (0x6aa492ccfd35e2a8, 0x7f086457dbebd2f3),
  (0x5b9fb76bcff17a4, 0x8f3caadb1663cca6), (0x187a85bf7c5b675d, 0x9325316f3190c6d0), (0x5e6a10560d20aefc, 0x23d0371d5ab9daef), (0x8a9da453225a9e0d, 0xb2035b3d642d9b42),
  (0x806fd2ba8608f295, 0xad31b9aaec4ca5af), (0xc3ccd7f8f792c373, 0x5342a16bd9144b46), (0xcbebd35ceb785a4d, 0xcf0c0a5f65aee5d6), (0x935e52f891c702f5, 0x9ce39f4a01941c55),
  (0x3108c0b7f7003ce6, 0xcb660927f88bcca1), (0xb46cda057f2a7480, 0x9344c9d67f2f149a), (0xf71750fd284457b6, 0x5d9f7eaa138a2033), (0x7d27219dd2d86f04, 0xe8b1cf8c2f7e6d80),
  (0x395942693c643411, 0x486a44f7c03f6f01), (0x4a41b8064ea1678e, 0xcb5c36c85b0f9783), (0x3e872f8044875261, 0x40917878724e28d8), (0x57e4056137fae633, 0x5d3114f76665d3f7),
  (0x7e96ddecfc59033f, 0x1b5cc9cd2a951056), (0xef9aee7ef758dc7d, 0x13683a1cced98e0e), (0x3690b3a1733e6284, 0xee5a35cb054029b5), (0xd15e73c48104a004, 0xa85fd4f1518a795c),
  (0x4159547b27c3f07a, 0x3aa96631976df595), (0xba4ce6a0858d3721, 0x678111bc0bbb2ec4), (0xe0a961394935f5d9, 0xad1a8656e6a28a67), (0xe3eb50ecd81aba5, 0x8b696e4083cd405a),
  (0xefed1d7c7686bd2f, 0xb787db7c0a7c2255), (0x9d30b06e7bb2a762, 0x60a91a3d5f3e2233), (0xae6677f9ece386a0, 0x95d2af0f647d01a6), (0x5bbaf6116f616edf, 0xd830cd348454d6b),
  (0x34293f7e35e35a63, 0x76deafe6e858c904), (0x431ad886e09f9375, 0xa71346efc4674db4), (0x1764013091432d37, 0xdcce9e648d5e764c), (0x4bf9111370d08f19, 0x1a3689915c502d19),
  (0x720f0e6b832d5615, 0xa63130b9441e75b7), (0xd88b8d174f085dcc, 0xc3a3fd5a9404a49), (0x966fba1b2e14d744, 0xf9a4b5d32d3f9dcb), (0xa8d9d8bb04735f0e, 0xaa3173580e6fd26a),
  (0xccbacd5e0f07fb59, 0x1ba1e63f55c5333e), (0x2f44f20473d83fe, 0x38a18357267243b7), (0x4ad8a4ac500b3454, 0x6c9fe089ca269635), (0x5d0856f5e96d4ca2, 0x52afc8a0f0148fc2)]

/-- `MatrixM128[12]` -/
def LMatrixM128_12 : List (Nat × Nat) := [(0x8ad38e5c08aee029, 0x1932931d76fc4e3), (0x741a39ecb3d68a9b, 0x51d4df33ddcc1a4a), (0xe3d8b683cd5b9326, 0x52f7dc7ca940f044), (0x92d09f8634d1084c, 0xd9bec397a1d9b58b),
  (0xafb44986cfd8ec4e, 0x4401e57a26014c35), (0xc590d5b63e1a1829, 0xd78349542ace6422), (0x2010f18b663a463c, 0x7a82a5238114c42c), (0xd1f1602904ae039a, 0xa056688c56fa94a6),
  (0x3bcbddbbea190f18, 0x4bb1971f4ed407bf), (0xe7b15901fcf1a2f0, 0x3a69dd9959154e53), (0x702c2383ef7ce04f, 0xb3c41cd7a77a89bf), (0xbffcafb2898859a9, 0xd8e5fdc9ec0808f8),
  (0x8816727eb9513e14, 0xf2f143d4d4921bd5), (0xedcd9247d7f5bb83, 0xc5a336ef08987a79), (0x44ee54f3b817cc, 0x44327820c566eb82), (0x234b6d15a7e9d320, 0x9b301cdcdfee2115),
  (0xaf5084381fd0a3d8, 0x9ef2042efb1e8a5a), (0xca1f63f695cd69bc, 0xc902e0db3adc2995), (0x9fa3e29caa0ceaa3, 0x1947e54b9612ee1e), (0x17ca0fddf2dcb203, 0xd5dbb6a1ae8fd9fb),
  (0x5bb9125639e963e3, 0xd6ef5a5f9be896c6), (0x8d0b90ece13cb44c, 0x9a29cc7fff12e31), (0xf37bde7e636f6ce2, 0x2ac902a3ebe6bd8), (0xdf7b64095958d2c0, 0x9fd66768933c6349),
  (0x5ab6ee0be1567809, 0x374173e5e0a4454d), (0x9a94952e8a323fb, 0x318639ce6dfe1ead), (0x22f5cfbb602d84f5, 0xd857b2e2f473bdd5), (0xe0403d5034e99979, 0x4ff8d3b1ee9acb96),
  (0x6fa908f08cabb2d1, 0xd055fe6297786092), (0x62d6e59a53344b54, 0xcbb6413f0c481ff9), (0x9b01e38bc6515870, 0x5f24115a27758b67), (0x4fda5f68affc3f75, 0xb5756a113dcaab01),
  (0x9fb562d92048f803, 0x522868426c60d6b4), (0x4426e5bc7d3b01d2, 0xde4e06c952b0f9e8), (0xbfbcc7f2601bce82, 0x7ea29097b73d28a1), (0xd0b65a932db30979, 0xb0d833b7e36da134),
  (0xad63d7c35159832, 0xef431f313a8e7c66), (0x12b3198d97819493, 0xea61cf7987ff974b), (0xc6c41819d3976d01, 0x319d94fb5904b39d), (0xf0e40e8cae5885a7, 0x1860bee705db0db7),
  (0x61695fda6c09b20a, 0xc33472bc08c1eb73), (0x4b512fc2e3a28be0, 0x23cad1a08ba31847), (0x705e3197a34231c9, 0x76adbe65fa7710d8), (0x331d901c4c68f2c2, 0x34bd60969f328660),
  (0xf6b94e6ec6a044f1, 0x612a7d85f7166918), (0xa4f1986fded7a8b1, 0xebae08e370ecc59), (0x62b9c42a2bdf5469, 0x2769d27311417d07), (0x9521ae8883339864, 0x5d024a514c48571a),
  (0x296c1b6172254935, 0xd3145ce676c1d53a), (0xdc1d37389a6d8343, 0x1966f3abc3f53d0e), (0xdff0c211420a5e1f, 0xef6d8f7821c24225), (0xa342ae78673251dd, 0xba693e9c25a3413c),
  (0xf8288e7861f99878, 0x9700ca2f0daed5d8), (0xeadb9444f70a00e1, 0x5fc1e9010e456dd), (0x3e3b41c1a548900a, 0xca03d24c9fbf2dc2), (0x219b08625751a7fd, 0x5ce437848a251649),
  (0xc7df7aa2d4173bc, 0x107c8c79be048a32), (0xeb51c46b7b0af8b, 0x38586bd3c3fd4dcd), (0x892e13934d992da7, 0x76802cc03f3430d), (0x63912c8b7b5e6e38, 0x2cd5e11e9df4b748),
  (0xf7a6a2b0bf3b863d, 0x18979e1b41c0d480), (0xfaeab6b90651f2eb, 0x6445ba355d5732a2), (0xb6d86d501608f291, 0x87e686752f7b285c), (0x2fe2d51c6e109825, 0x1927220fc27289fe),
  (0x1ccb9559a9bf9704, 0x4db3ee2c801c3e14), (0x7d81e4f0bcfe0539, 0x5f4e0b403e11db08), (0x2b515c9ae358d57b, 0xa21fbfee113d3f20), (0x79dbcc8dc8ba7a76, 0x483fc917c8b8b09d),
  (0xdaf97e9ffe7733c0, 0x1c3eac7f866402a0), (0x3288451795d4a932, 0xee31d0935ba708f1), (0x900d21950f369602, 0x5d6a72bead593299), (0xc7fa7f56eacdddff, 0xea898c1597f1ab3c),
  (0x687562fc0bda0eb9, 0xb0481d1654a11366), (0x1d659d6abfa81993, 0xef2d9b2e409f68a6), (0x27b47c309065cc1d, 0x42d0a4008da1136), (0xc20fdfb045f66377, 0x4e84be7bf16a782a),
  (0x7520f82740191a1, 0xa30c94c14c9286f6), (0x2d87ba1a6b84eb9f, 0x62b22b95ff4647e7), (0x646a50e8eb66dac8, 0x22a787faf2bd8dad), (0x3a078109127e8b4f, 0x2286e67b651f9ea7),
  (0x8e9152fd144bcefe, 0x2844dadb8942bc19), (0x36b49ad43566c4b, 0x74d10765e29ec61b), (0xc61de26f14ade83e, 0x10d6aaec6a82c63e), (0x5829322d0314b644, 0x4754830c251b7dbd),
  (0xd2c1291bc111d3fb, 0xeb287552099dea80), (0x3957458efe911476, 0x9b66cd67ea81d24d), (0x386c4fc9c79152cb, 0xe1ed31be26510886), (0x35ec05fb83346ef6, 0x441939082195a9f5),
  (0x6d5f094b96cc4947, 0x6311edca5b7d3642), (0x539b6d0bc78e008, 0x4b47295b8949874b), (0x373bf6d39129c1c4, 0x989b9b55620c5e30), (0x12cc406dd08f7003, 0x651795d84b544ce8),
  (0xe3b9cd84a29b70e5, 0x3e6608e9d425b031), (0x7d52fbb0baa839d9, 0xe298688cf7bc248a), (0xcd2005f2b4b98d80, 0x81da0988e039da75), (0x6e5910520187c160, 0x6ac54b2adbbaf299),
  (0x9a1aca75d86b4054, 0xc6d2d902e27db183), (0xf7c64eb18bbc4045, 0x6e14f646474d8dd4), (0xdea65a0226f63203, 0xc12983f29ef692ae), (0x467196d13d682370, 0xd28ac07862d1bde4),
  (0x94be4228387270b6, 0xe270975f0285a7ba), (0x702c60a350c3d61e, 0xb59db4689671fd4b), (0x41da61dc608365a1, 0x8f7fd7069cd9e823), (0xf1b29e34cd1b5606, 0x23f7f2d0b21e3e16),
  (0x4d9d3d1a6b682f27, 0xe60b3ec6f965423a), (0x3945ece1a3dd7150, 0x87e54a4e15a93001), (0xb913578a9aaa0e24, 0x41e862637ce6eb7c), (0xf48e59e4e8c41173, 0x7251e419433d5764),
  (0xb8a52ac4299b1f77, 0x931d948c1977a30d), (0x3a91ebd96c03815c, 0x3efd95da88c727b), (0x4c48f8913eaa77f9, 0x8b10320f91cab3bd), (0x920edcc6afb12bb0, 0x43afeecf37722149),
  (0x96876699d8f9096c, 0x74439e2dd51961ca), (0x2eeabeef17e4cc95, 0x59fa7350753e29e3), (0xda80585cfaeb1e13, 0xbd9ae25c2f743630), (0xf7a9951e3b6d143, 0xc785513aa9b0c67),
  (0x7223aea085a3ba25, 0x443053cbbc98d565), (0x63eefe4bd785b324, 0x8e89a14b8b055ded), (0xc486c4f4f1527837, 0x119f7b3f1ade2096), (0x3a1948155b9fc9a0, 0xada2e2c8757be0d4),
  (0x913a1e88412abfbc, 0x7fb391e69e555a16), (0x7cd2293142597926, 0xbcf973d92f5ba472), (0x57ac6ff37f4d9caf, 0xe4202ae4e35aad3f), (0x79ed68b84ff3e316, 0xfbae3f3f6c9ef42c),
  (0xb036ca2aebc6dea2, 0xef22288bedd4fdbf), (0x413fa4530480820d, 0x3f042aa0709534a2), (0x992f489f586419a7, 0xbc6779ffc08ce5fb), (0xe270b69dc935d976, 0xee493e388e4cd3e6)]

/-- `MatrixM128[13]` -/
def LMatrixM128_13 : List (Nat × Nat) := [(0x9b06b92f51c7e268, 0x59481b80ba99bba9), (0xf897f5cc6e3dd533, 0xd6d10402507376dc), (0x71871f9a7e8d689e, 0x52ddc874deb90ebc), (0xf741b82a6e487061, 0x17689632bf36ae8),
  (0x8f3d3e36542d426f, 0x5cf1ddee2502551b), (0xae0e031ed2495b3a, 0xda2b4e9c6eec6e5a), (0xc575401fbf23e12a, 0xad2822bc0c7e83b8), (0x82391a34684d600f, 0xf6cbe062efde4560),
  (0x7e06d89c5b2efe95, 0x5178446aae315ec2), (0xb1fbd933df618bc3, 0x561dc005d36e5446), (0xa701898b1fb745e1, 0x6592ea1f7f5e1e55), (0x60730ff904a8a4c3, 0x130e91fb32ca6709),
  (0xe647e4059c319086, 0xa699c2542e9eca24), (0x98e67042c15bf9e9, 0xfc536e4f2b14fc7e), (0x926cbaedfcb9740d, 0xceba443aadff3bc2), (0xea5be961c19f032b, 0x83fd401e3c8a43d4),
  (0x20591f2381b8ac38, 0x22b83f0e0056921b), (0x68c3077cce743aba, 0xf801bbf8451f1cb1), (0x21be12bf03782031, 0xe201b7aeae4a007d), (0x1a4ae13ff3f5e04c, 0xb991d571eb0ae7cd),
  (0x3484aadb2cff7be7, 0x7fee0c96e44f26cb), (0x5ecbc7dd327123a7, 0x365b1cfe3a703f2d), (0x1f01c84b49c89f99, 0x7af294f6365ef9b7), (0x4aee8d401946277b, 0x5f801da328e29413),
  (0x89a48363d0024ae, 0xf9ab8c332e36cb1), (0x4c6b2815fe604f36, 0x13739581877b664a), (0x9c6f2ed5b9bb450, 0x1f1ac49883fd3ad5), (0x130522d52bb83d3, 0x7ee468e0a266a3fa),
  (0x2496106cc532d947, 0xee2b99ef5f275d3f), (0x2f444211b9b35008, 0xda1bc66b3f3fcebf), (0xd80f91e9c38a380e, 0xdda59b9c7f350ead), (0xfe5a0c49d10e9a8f, 0x93f39c9bdfa80e0),
  (0xc133f790a8490c4a, 0xda8e82739972245a), (0x70f58cab76fd8e46, 0x1629be7bf158e405), (0x2fab32249977aac8, 0xfa5613a604e80c8f), (0x72aaffd65e55c4a6, 0xfaec9630bf105181),
  (0x89da5efab933f5ab, 0x7c55bf9d12c0fb35), (0xb368004978892f7b, 0x208e487b0e89b172), (0x778c81071ef9027b, 0x23ae7849cbe8e986), (0x4d2820d83ed42487, 0xd9733b2385a2e2c),
  (0x8fe192cea1d50a6c, 0x40230c117cd3d7ea), (0x9520a142d0c598f7, 0xf3c2210016a87f02), (0xfb13d70da994be39, 0xfbcd58e6e938d216), (0x829cbcc14c471389, 0x82ee5b3b6030d2cc),
  (0x32f859ae6bcb8858, 0x235af22c23f56e04), (0x2e18f00ec441ab7e, 0xcb94f5960a84c07f), (0x667a05f66ab7ac32, 0x1dc70e3ca429261b), (0x3853398965cb6f5a, 0xe650515280ba8bb3),
  (0xce34d63f51221fc8, 0x8a10e148e16eadf3), (0x7a547e6cf3e213b6, 0x2a3c728d972d34aa), (0xb1f406afd0422e95, 0x8a69164b02a1bbb1), (0xa6a860c38bfa4d57, 0x666a624d8894b0c9),
  (0xdfda18d1b970ff44, 0xa3df9dfd21dbf5af), (0x9853c925b2bb9305, 0xadf48af77544e3e3), (0xe243cc126ea1ff7e, 0xdf918ac7cb58b6ac), (0xe4cd9a8fdc3fb483, 0xf2f1f2b65c664d5d),
  (0xc537b9611cfce0f3, 0x492f8df4dc10ec4d), (0xc920c9a75729aa52, 0x26fbe19c883749a6), (0x82dcb7fa5c87b9c4, 0x7aea8463ba32d078), (0xd6dac7be59eb8f1, 0xde85763a9a137bf),
  (0xe55796e30e703b14, 0xd0f45dd06f48ae21), (0x6b0b4c3c511c5842, 0x57cb9701f502b18a), (0x1013bf2c13d9fe4b, 0x19729cc30ae79904), (0xe130de3e168e2223, 0xba12d2d9ac14f453),
  (0x6124155541bc9d1f, 0xd8f31366fdc80fb5), (0x342f66eb2158bc46, 0xc6b76f84b1aa325e), (0x15845d38a58c2d7a, 0xa30154a444be599c), (0x3af8a6b26ba55cb4, 0xeb6e12020482e50c),
  (0xda1ece821705a1a8, 0xd60b8b6b78771095), (0xb8f92d60ef61bcbe, 0x18939d6481674f7f), (0x31a76d30a36d8d48, 0x7e0b810e22511aa6), (0x8a064084f833890d, 0x737c5aa21b91550),
  (0x3bb3af8aa963b5d3, 0xdd8b82578ebb55c), (0x7f7dfbf8377bbec5, 0xff55718dcbada668), (0xe6503f563f46f1fe, 0xbbfb0bf9897cea83), (0x2178b030fdbe45f2, 0x630b93a13ec6aa2e),
  (0xcaaff7ceb9b4de6d, 0xff10d4b18174cf68), (0x152e107c17be516, 0xcc1f4cea184f565), (0x26f67734e77937cb, 0x3f13d35ea0d66d26), (0xee0ea7457b36a23e, 0xc23ad69f123f290c),
  (0xdd782819e7f212d7, 0x3b044d8ff183ee8), (0xaa123099723cfbd3, 0x2db7abd0fbf52012), (0x120b73d6c0ac32a4, 0x5374241f1e330325), (0xd5de30883a966a7d, 0xeba21ba08812fae7),
  (0xc3b93b3150690053, 0x51dbe9876f7a84df), (0xb33b4d460dbb74ec, 0x311f455dfe3cc947), (0xfda62e39f441e2, 0x6f9fd60396f5a75a), (0x23d8f15eb1fdfb0b, 0xbb1ca8008256c5e6),
  (0xc212d0db1f4ad702, 0xd9e2ae47b5b34cd8), (0x5d19e5058b151265, 0xa8d16ee29b060311), (0x9437f2b6e28622cb, 0x95291478086d60c), (0x75bb330de644e40d, 0x6e8f02c2d9041daf),
  (0x88c278b9c091411a, 0xf9cac9784a5c452c), (0xc3b059d3d0902f2b, 0x4e735ca83695738e), (0x49f9ca3fc05c016f, 0x10ab9ff0a452a39f), (0xf57d98fc94e5de53, 0xf535e652a945741c),
  (0x2d97c5d15e6ecdeb, 0x5cd3b8063452829c), (0x4555211024b8a2f1, 0xd2d67a1183c34824), (0xabd24e5fe21fb4d6, 0x9e9046f1453c610f), (0xf5a86cd63e166dc2, 0x455633ed478d13bd),
  (0xb5533095f1b18cdb, 0x49e68d05a862b0e4), (0x593b7e3b7623f996, 0x14271e3f9ae9b5e1), (0x1e28f08e9a17d37c, 0x3bf1e48fc8e058c8), (0xdafc2031ee32a04e, 0x381c0eb9558e297a),
  (0x702c60cf74ff6ace, 0x1ea0981debec3c23), (0x83361d67fe57bb78, 0xd6c28c1a3fcd081b), (0x7f2269d8612d6319, 0x1bd3f11a41d1d34a), (0xf40cf460b20d2840, 0x658d255f86302092),
  (0xe1ba52d90cbf7550, 0x6cf24cb8bd3dbc05), (0x218ce89b1dacb596, 0xdcbf4f995dc296b4), (0xbf5cce7e170fee33, 0x16e372a2b14233e9), (0xfa0ef9cdf4c4ef4f, 0x4029de6164b9d1da),
  (0xdca208e4e128b278, 0xac1e386777cd1e1d), (0xb2bca0024c4fe67d, 0x6d6419b1183bd235), (0x5c6e0ff101791dd2, 0x8c2d51d7222285cb), (0x555a9b1bd16a7784, 0x571acd1a828437aa),
  (0xdeb39df735a9dee, 0xb6081755ad5fb73a), (0x64b0f1a2315f5df8, 0x11c57686022d2e23), (0x2b0a80b6224cfcc3, 0xd68720b00f53f291), (0x86a9c4e5117d416e, 0xf7713de876b29803),
  (0x53923900c179a0c8, 0x4274ce9329ed7e69), (0x97b9fb7a1216aeb8, 0xe482b3aec76af64a), (0xcc8bac01c61721ca, 0x5682c35432fb9b52), (0x690d4e2f6e8d86ca, 0x3f76bc4b22a2211e),
  (0x46138d0dd7922e7f, 0x88c822dc3e730f97), (0x99e590345707c90a, 0xb6447f02451fdc71), (0xf653051fdce349e0, 0x7d3c9e6b6fa5fac8), (0x763cca99594dda86, 0x78d4b458b48d951d)]

/-- `MatrixM128[14]` -/
def LMatrixM128_14 : List (Nat × Nat) := [(0xb2fec1da378aa11, 0x83a910c3dfad3823), (0xf944aca142d34885, 0x6109bd62612b6a55), (0x94eeede24ff8e329, 0x505a46f1d6831499), (0x2d7ec8b886d8e24c, 0xf474cf5272ac4a12),
  (0x6c5a336e244f07fa, 0xe540b904ddb6a1a6), (0xc0d2939a4e5cb174, 0x442a0bd2f1db5728), (0x231a370ec50c801e, 0x3bfd3bc8e5d749c3), (0xd7a8c91c4c1775c4, 0xdd9d3a36239d9a6d),
  (0x8db0cd8f9868a23e, 0x92be0e2bbc9f9e0b), (0x74f4a5b98d58dbb3, 0x928fcc7b8357e683), (0x101f9c585ec52af5, 0x43f68c58a4a945ad), (0xfa3c4826a2526df6, 0xcaba85462dfb4c61),
  (0x6ade524b26f0094c, 0xa3a46947697dee2f), (0x74bf148f54e42f5d, 0xf2a4b3c224a6b8ef), (0xda8af8218218f3e0, 0x5189d99c7e75d620), (0x974a9c80cac73708, 0xd55cafd89c1fdabf),
  (0xeb30c8c551273b29, 0x8907fd86c6bea0a6), (0xff35fb722fbe1f1f, 0xba7ccfd50111f2bb), (0xc213c44531ea217a, 0xf991b674adf928cc), (0xbd444fd1256279dc, 0xcddc227f13d34e38),
  (0xa3f03ac53c1e2cb8, 0x2188d8a03b50161f), (0x8e1f7aff01c81ae1, 0xadc83ebad8032bfb), (0x4887f06cbfd76cfc, 0x2facbbf1887392bf), (0x5f01574b294c1fa, 0x4c39343d6e014882),
  (0x12ade00bbb599f3f, 0x7007c7c25766156), (0x868dda32006d7dcd, 0x54b4b503296ecaf1), (0x65bbc77a911c0751, 0x939de39b302081ef), (0x407b3673e3fe4faa, 0xf2bfb4d0d9957d7c),
  (0xaf98131048d54090, 0x5299f760199c6693), (0x2832b7e3cc2a0115, 0x72bf3513d8099110), (0xb750cc5914deec87, 0x106cff237bdc2a01), (0x60ba71f556a16b05, 0xfaa148fe4837ed28),
  (0xa3b501e35fe99254, 0x48c395f63c7d1dce), (0x531a3a20e3d711c, 0x27c5db4fd4ad310a), (0x41d61434dc075278, 0xc8b1e2c65dc1c49d), (0x282ee62d6254dacd, 0x2429c37d1145e512),
  (0x1db71abb224e4f62, 0x653f4cb7eae7e58d), (0xef2a81a516a95104, 0x635df69c9c79d753), (0xe5cb4bc993b709c1, 0x39a3ba1a96fb9195), (0x6ab20b27fb530e7b, 0xe02b133b53ac30bb),
  (0x4929044e3853f3db, 0x532eedfff0683cf8), (0x3b3076b09437ab45, 0x9f0367b9c4d97e44), (0x7b23a0e818e4c685, 0x94d120621e5ca4ca), (0x57ecbaa32240ea08, 0x40b78f36eb1933cf),
  (0x40e57edcce263c60, 0x409c753bc3d9b21f), (0xea50e8e4c265bf5b, 0x9851fcc8feff971d), (0xf48b87b7881618b8, 0x3f3ff9bc10fdd673), (0xbbfb8cebb9f03a18, 0x64e54379be0689d5),
  (0x88f09cc1b9c73eaf, 0xaf28405b37da165b), (0xad72660518673c5f, 0x1693b35b472a5a7e), (0x52af16b92d8345a, 0x13f9cdc9f33c33e), (0xe5f1ce5ebe045014, 0xb890d139ac6805a9),
  (0x385e8a55edb976c8, 0xed4b7d1df9bcc0e6), (0xc31d162948355a39, 0x70276241eb1e8694), (0xcd29f3a2e23e332, 0xec96b6a90c750199), (0xa7ead2bf21f19e84, 0x514a86fb6c35341c),
  (0x8257df1e8c34cb32, 0x94bea6fc250e349e), (0xdbd501ecf61e49d6, 0x52db1ff9f3898b1a), (0x600305e159699656, 0xf5950477ba61854), (0x80f17f89bd95b07, 0x3da1cc3e9bcab103),
  (0x35d1b0af18e2c7f1, 0xee902235133000da), (0xc8f6370c9bca2d1c, 0xa011b2df448b1e41), (0x3217debd404d23a, 0x969559d74399e59c), (0x1deebcf56aa40d0e, 0xf167e995ee6567ab),
  (0xa2907398e66cd1da, 0x97990ca8b02518d0), (0xf32f71c24718032, 0xe63be14d9a5d0419), (0x25d3c411d65903e2, 0x4f94246889ca27f3), (0x9201913fdcbc233, 0x4433b28d2ac71383),
  (0x768a60c2424d1f8b, 0x27ad6cf11f0ed54e), (0xfdeabe9ad166cc8a, 0xc51cf17ec9ef53a0), (0x137750fce148b148, 0x5e0289245e5526c0), (0xd525401d6bf79477, 0x34d8f8807df82548),
  (0x43ec0c9655c1faef, 0x6f3bd3ef1e0da63d), (0x1c2f4f2d32d629ff, 0x42a7eda05e880627), (0xca16f3a94329c3a2, 0xfe436c6aaacdd4c5), (0x8486e14850ee0272, 0xdc22055ea2c8109d),
  (0xa2cdb840df58cc08, 0x9e7982a4baebe79c), (0x5777712495ba7dc7, 0xc90fd7a2aaa6078c), (0x4dd2f1002074d9fc, 0x42960e44635f6421), (0xcaae788b83af09b2, 0x71101fc440629fed),
  (0x6a8728542d06cec1, 0xa0e170eb20f45418), (0x873aec48502681dc, 0x8f38208cfd5fe84a), (0x1761416ce6dd1732, 0xbcc23b06d313a73e), (0xac557c8b68e780cb, 0xea955fe66cfb3625),
  (0x6dcb03aa9cafa50b, 0x5feace0c45057dfb), (0x6c500aa5cc767e9c, 0x95a4870bc9fea8f), (0x71849286cb4eea87, 0xb7e828ac228cbdf8), (0x54bab8b2212c4769, 0xdf0cf08da6bd9cc),
  (0x9f625ae7ed7b77b6, 0x646028e3e20e16eb), (0x3578a69fce5659a4, 0x292fe33e10ddb5c7), (0x4abce01ea8c26ec1, 0x1da594e0948bb99f), (0x3ec1c075c53815ec, 0x745062148627b40d),
  (0xa569df64c2bffd2c, 0x5164e795170a8dd2), (0x24a6e3a97cc1e267, 0x67d9873f369f18ea), (0x31ad884888c72a08, 0xb0adfa908b14b254), (0xc3d51775f5d2a8f0, 0x6ea503fcdd4683fc),
  (0xad2f2b60a80154a8, 0x82570669fa290156), (0x58d369228c4800f0, 0x17f1aca727ebaf25), (0x44a6b4d59553b5a9, 0x6bacd959026a2a55), (0xd9cfa68ea2e37af8, 0x91f3d8e861631e2a),
  (0xb45157bc4cd25f4e, 0xc9a608fde50e3629), (0x49705634cfcc7889, 0xf82b4a2d5650bf0b), (0xcc4da967e455f407, 0xc130da0c97644e51), (0xea04a900f3f9fb23, 0x89243fe47eb1ee02),
  (0xbf20076f70ab9f7d, 0x87a5ff9a11a4f9fc), (0x32d737fddd5e7feb, 0x976fbea738455339), (0xf97e289b270bfdc5, 0x29f69340a52b225b), (0x8137375b15f80627, 0x97d172559f393085),
  (0x7f53cd33b1dd2b78, 0x4ee6c03554a81e46), (0x754b7d911d162270, 0x43b7f4b065080bf7), (0x39703a643ebb7546, 0xff7fce9443b6b5b7), (0x5c51b2199d9b799, 0xb903fae4ce100b57),
  (0x41f17e7a7fa3c13d, 0x6e7914c611611452), (0x56c52e00020d610, 0x340e81d2ece56a7), (0x41cc45759e2b34fa, 0x21e05be3cf336e50), (0x2a7462d872e27991, 0x15af21723a5d2701),
  (0x2a238eaebdc8e5a4, 0xcbceb55d3fd3c42e), (0x5fa18bdce6e13210, 0x130ababbd4180d33), (0x7b1548ea221c4b8b, 0x9202afed4c5f2f8a), (0x555dc02ecff3ad0c, 0xe8fce72ab4c1a201),
  (0xb83e627bfdfec01c, 0xf27fd6f83acd280e), (0x7795a728cf7f9ea5, 0xdfb540a826a195d6), (0xdc826bd24ec3cee7, 0x4c913806f73b4cb), (0xd8fb7e565de1e1f3, 0xcf93ddee92470c39),
  (0x856b994d8367b0f2, 0x7964c5ce9ba3cb49), (0xba859a0942e5e4b8, 0xc54f2d732c1f5d6c), (0x28f7c1721bd14fac, 0xd268b3bde11da155), (0x8079b15cddd51f90, 0xd0e3ab160586a5d2)]

/-- `MatrixM128[15]` -/
def LMatrixM128_15 : List (Nat × Nat) := [(0xba5814d75f217a8c, 0x6cbdb6b13005cf2e), (0xb6168972c49c6e58, 0xa40a8c866fa26fba), (0x77051498e9d73d42, 0x592d199ccd66631f), (0x78b2ad170f16853e, 0xbb63c61c9b58a4),
  (0xef39a62ac4366159, 0xbfe23377bec2ce91), (0xb2a765dcd57c0e82, 0x1b69e3c8f2cf024c), (0xa95e47fd8acf7a9, 0x87785d6171220d2e), (0xc100237351f686c9, 0xe9a2cb342e0c4762),
  (0xa2812bab51fdefec, 0xb204a8c907f85e71), (0x511bf75e76784fdb, 0xff7711fd5737b193), (0xc2f7e5a583e1bd5f, 0x4d1fa8995a77084c), (0x46acb687e9a11ef5, 0xb383bf65700d33cd),
  (0x894cae9fe5d31309, 0x186e7496013cb514), (0xe3099ea33dbaa94b, 0x1e3367844826c968), (0x72b73aaf753c720, 0x4e04feaad0da3168), (0x766386761911d2be, 0x8dbedd65afe3323f),
  (0x2951b16a37f47faa, 0x651d4f848df04815), (0xa0f2f15f32dfb38c, 0xd8c81949ac72511b), (0x21d685e326b23a34, 0xf700b49fa9d999e0), (0x922f0fa305611941, 0xe9d88a9f07beaf5d),
  (0x65a82ee4253523b1, 0xfc4668f0ba810639), (0xab7c7d7a30dc66dc, 0xfa2c3a5e352c9f61), (0x425092edaf6c6c7b, 0x2743cc8d26bc4987), (0x29eb8239b4e232fc, 0x8b52542f2aa96e19),
  (0x7f265e76434ba1ab, 0x51c5da78e644103c), (0x59ff4aee88d46b3d, 0xd5aefafb798e2241), (0xc7522d4042992019, 0x21820339037ede85), (0x869e220df9942d59, 0x58c8e6b245c8596a),
  (0x53c09b663fe039a3, 0x94e2199421d0f8ec), (0xf8ea695af9f8a03, 0x796c4747161991bb), (0xb69b42f6e0f170be, 0xb68871c4205fffc9), (0xf3cc71d56556c18c, 0x315c39ec0fc95531),
  (0xf339fa5fa81fdf1a, 0xf257886e59b04d33), (0x398899d4a1358fe2, 0x105a6584495db670), (0xda6a8949252bedbc, 0xee89726805a0155d), (0x2056e0bc5d5fffe3, 0x98716c01963b61a0),
  (0x9b5f7ba48f20486, 0x674b670d4ef6b337), (0x250da7f5b5d9294c, 0xc3d74c0d720a9092), (0x7f95dece537b3948, 0x55f97012e27c331e), (0x7917baf8c34d01de, 0xbbb04ff2710a22b5),
  (0x4f0f5315198ff896, 0xab3b200b7f8b3897), (0xbf0b3f9db5ac2cc, 0x125d18564fe18d96), (0x3f0af2ee91fd0501, 0x302f7de35f5ab366), (0x78e115227660ed3f, 0x336d5ceaff74c6d5),
  (0xe621477435754633, 0x6ad3dbf974ec589), (0x27205ccd9e861d1e, 0x397c5742c48caca1), (0xe59301099899abea, 0x229961b97e9664af), (0x603c336b47ae6999, 0xd1304b167c22f1d9),
  (0x16d64876f74b064b, 0x5bfd50a77421d220), (0xa0de86cb89de1a0a, 0xdfaa7b557a533ebd), (0x23db6559c254161a, 0x5d8d52749b1a488e), (0xde9b8aa535dd2135, 0xec77a4c415bb28c0),
  (0x221eb35608201895, 0xbe44414137bf9d84), (0x5ae7fdfb0e20652f, 0x9018006aa127f9bd), (0xdf70868366e82833, 0xd6b298ffedf7b48e), (0x8da4df1c7f4ad452, 0x387bb19e23f2992d),
  (0x71c07d891f2f5349, 0xee04234e6e7b351a), (0xc134cc8b8602293f, 0x88c30fe76a7eb8f6), (0xdc456c828776ff5e, 0x8ee48d59e50dba77), (0xbc822f6c058b305c, 0xe23363d5d36b5660),
  (0xf45288fdf196128b, 0x24c98404c2162d5f), (0x5daa3a99a2b6eece, 0x5f8bd3befbec0dc6), (0x6cb8cbac27fc37e5, 0xae91f418852de24b), (0x78669ee63b2d3693, 0x907fe4b5e77c1957),
  (0x5d4dd13f5f89ec87, 0x97625fbade320b9d), (0x53340841b9df0d4d, 0xbf0d340359eebef5), (0xcd28606daec537d3, 0x992e2974dce93e70), (0x2c574af6be6366a5, 0x427febb68462bef0),
  (0x23defc3f3f050937, 0x5f952861cecb7af1), (0xfd740d7736ca9424, 0xfde68a8fe52e8720), (0x5599b3cfaddad019, 0xcf66f83a4f18058a), (0xaafeb17e67f98cb7, 0x71396684a08b91e6),
  (0x5d9a48b22307fa5b, 0x746936df289268a5), (0x746ad13f6b93688, 0xc2cc7289ca517cdd), (0x4ef79ba37da4c05e, 0xd3c077a607590181), (0x4b86405bac5c5e56, 0x9205fd63f44feff0),
  (0xf7b1fa5f8af010de, 0x81ca10b25408bf64), (0xcf809bf744dca60, 0xac9dba1a9e630ef8), (0xa379ecaafa364c80, 0xcb7f11370e97abe5), (0x679dfc384132506e, 0xc48c1ff414ea7ae7),
  (0x613696f99de181f7, 0xf8ec7ab73fa005fd), (0xc63605444a85dbb4, 0xb096fd7db85f8d60), (0x573416f146cc5586, 0x242ecf78ed27ed6b), (0x52031888962e584a, 0x25860147dfb5dac5),
  (0x339533a2041ee0c9, 0x7f2d427a0aeb3c4b), (0x90b74add072a8512, 0xa09ef92bbcacfd9c), (0x3684e54ebd83c37f, 0x7a100ff770e91c11), (0x8aa9295c43fae2d8, 0x2e82e34fca363562),
  (0xc4b5b7496ae1f3dd, 0x1da8dffa9d668377), (0xa64a5a11ac7c26e6, 0x8b3463880be00f45), (0xde66718309647656, 0xa70a567b478beb9b), (0xe50f7c5fec0acd2d, 0x558a76bf4182b7a),
  (0x7a2189c531284da, 0xc99856ffdace8dcc), (0x95a5501646c3c6ba, 0x95211f4de3a608c8), (0x213e839f24fa2408, 0x2408c87432b85c16), (0x7aeb2202027dbf53, 0xe074170e4ca91972),
  (0xc50dae1c8f40f139, 0x5abda3ec5434eb14), (0x30aa2f8e9a5ade6e, 0xe560e5c141cba648), (0xd2015952211167d0, 0x8344de99fcdb9b21), (0xd49fedea6fe67b5f, 0x84a726d3e2f5dcfe),
  (0xe50947d87a89ec42, 0xdc9078e1d2c184ea), (0x7b0be685e22e9811, 0x1fe0cb459587aeab), (0x597939c807cf632f, 0xb0e53e20b3b2126f), (0x5118a28386a53c6e, 0xce6de062863ccceb),
  (0xed98b3fe742a1d1, 0x38cd85c5d5642961), (0xd72775e13c8dc1bc, 0x1a18ea517f8ad58a), (0xb800aa361717e970, 0xa4375c450ee780c3), (0x462509885ad52199, 0xecd0eb26aef344ff),
  (0xc15dc1e4ba39ace9, 0xbc7274364c545383), (0x92f9dea65ee93d9a, 0x2d95f83601e00f38), (0x6fd252fddeb01bdb, 0x2a1d3cbc2dbdef64), (0x1c8684df4abf27d6, 0x1534f4eb3d3bbadd),
  (0x6528616e96dbd8a4, 0x98d993bc6d9765bc), (0x9ec1249b587908b1, 0x45df687aeb61e9cc), (0x79156ff7d9efe140, 0xf868c6e4af89c3c0), (0x2eee3b6fe62a4bdb, 0x8fb800900beae173),
  (0x603bd1b8e9975fcf, 0x85ded1f9067d203c), (0x2903d3d5ce2a17a4, 0x67588bf20f94ca01), (0x9ff307201c190249, 0xab1ab7e266144779), (0x7d46c0e410b0266f, 0x4d1c490bd5e37cb3),
  (0x41d9b07385a8aeb6, 0xafa011e4759aa6ce), (0x2b0abdb26c059239, 0xdda89a230927664), (0x33f01904ccc6e4f3, 0xe94e61528c482004), (0x612f4e5e2ca3878b, 0xe9a9c8b23adba72d),
  (0xa98e14fb6bb0d578, 0x1468dcb02e5564e1), (0x405d67cdb0c6ead3, 0x3bf39920b9719a9c), (0x48f3767e9c353ddd, 0xe8c517fd5119569b), (0x19fea4e31c0450ce, 0x607100ef00a46c7b)]

/-- `MatrixM128` — `/repo/test/BasisMatrixMethod_test.c:317-446`. -/
def MatrixM128 : Vector M128 16 := #v[rowsM2 LMatrixM128_0, rowsM2 LMatrixM128_1, rowsM2 LMatrixM128_2, rowsM2 LMatrixM128_3,
  rowsM2 LMatrixM128_4, rowsM2 LMatrixM128_5, rowsM2 LMatrixM128_6, rowsM2 LMatrixM128_7,
  rowsM2 LMatrixM128_8, rowsM2 LMatrixM128_9, rowsM2 LMatrixM128_10, rowsM2 LMatrixM128_11,
  rowsM2 LMatrixM128_12, rowsM2 LMatrixM128_13, rowsM2 LMatrixM128_14, rowsM2 LMatrixM128_15]

/-- `MatrixM128_inv[0]` -/
def LMatrixM128_inv_0 : List (Nat × Nat) := [(0xca1a4fa66fdad7ff, 0x37b67e76c31fb4f2), (0x3c5958db922da017, 0xb20fb912b76ec787), (0x2729e92b8a0aaff3, 0x6f343c896bee9ed6), (0x202620754f5f3fe0, 0x6ba0c2a072d427a3),
  (0x45ebbaad1b07a843, 0xeb6b8707260b1c4), (0x1ad24d72f2542f8, 0x8f65cbec92fc4dcb), (0x32ac5b146d9428e, 0x57f6162682748b57), (0x45cfd1f1f764ed26, 0x1e2e431c009d5bd8),
  (0x7d1326c2524b21d5, 0x1e61db78a1df368f), (0xcbc227cdcc6fd5af, 0x2dc0e30c4a4c933f), (0xc139dc5cc0df1389, 0xa163a63e43c03353), (0xdda5aec2ee01246d, 0xeefbb7d715f7428f),
  (0x1fa86728ee4ecc0f, 0x6b2feef39c7410aa), (0x60fed046cd86c2be, 0x4712c0cee867252e), (0x15fd9604dd0fd192, 0xf290dd4aa3691ee8), (0xde29f4e938d0fdf1, 0xf59d166430158aeb),
  (0x3a3e0684338e2fe5, 0x6b5cf889709ce106), (0xd3be83d5235b4a0e, 0x6f077594601b82d2), (0x65548f6b248e0c55, 0x7fbab6c414c2e080), (0xcb854f6dbaf338d3, 0xc40f5aa0ff863a09),
  (0x3a1086dda1d8ddb9, 0x370dcfcfff1f4e88), (0xcbb1a6f1b5dfec43, 0x1fd038ec8d7d7b0d), (0x23698227ce71a7f, 0xf3ea4fc84eba867c), (0xe74d61640f23dd5f, 0xf4b1fd5f7b3ec615),
  (0x63b92a79b58890b3, 0xfafd82b14af73c4a), (0x170c4180e1de5f40, 0x651603a89a7943bf), (0x5c34616769cef71c, 0xde8827c765d4c103), (0x66cf2ec27cbf5f4e, 0x33cbc3d2b4bb1042),
  (0xc1f32d6f827e81dd, 0x5351d34ff26040ae), (0xaccad932b7ae4a05, 0xe1c8882a17008002), (0xf79b550cdfcea0c6, 0x29ab82a7a7fca2a6), (0x90f95cccc5c7073c, 0x97c9ac15c73efb64),
  (0x19e42a431a740e7d, 0x55e009b870cd9c5e), (0x9c64915ce32a7f14, 0x7eb1dde38e4f39b1), (0xbe2ec43d0cb0d6af, 0x53d3c9f100c47cc0), (0x7eef189cb740e65b, 0x934de8f199c69a39),
  (0x2a20747e25fa14f5, 0x780efe5a6d080afb), (0x3f08c0ec291fe465, 0x1d7bf51b662c4dcf), (0x107df5e1e21ab0d1, 0x745fc53b124b26ee), (0xc817a5ad8ef84681, 0xbf0e2a0722f01987),
  (0x34a078806c168d33, 0x9ce616021078bdcc), (0xfd0bbdf496793e2f, 0x36b0a0ea45e56ae7), (0x492458f8ce22afbc, 0x407671b04d3a8e48), (0xea71bfd5802d20d4, 0x982552d3383e7a5),
  (0x71a89e398f08c0b0, 0xbe7d5a4e1cda8192), (0x7e48cc262734c072, 0xacfeb1358f2c5779), (0x1cdfd0a7b70e4707, 0xee92f7c664cc172), (0xc084a15e865b1da8, 0xec34c2236cac8bb6),
  (0x79c045b032818611, 0x6176f4a2920e9e1b), (0xeb0e536edd73f9be, 0x4a2a831f0b8add1e), (0xf58db3fbc3106425, 0xcf576f548128f854), (0xff63fbb7bb64d984, 0xdc74b686e2b8e248),
  (0xf5de66c90b433107, 0xf6238da4ff205df7), (0xe1a0625f7b16621e, 0x4f5425c31a7519f7), (0x9116b2f664aa0b0e, 0x673aba907fd35d2e), (0x4e715c1ee57820eb, 0x3bd957f1e9167a89),
  (0x791de20aa97e1b43, 0x85f9ebac7896217), (0x4b30148dcc9cf09b, 0xf899ea005d57ffe5), (0x3b14a0e319fe0050, 0xc892f9adb6eb02da), (0xe5c09f9bf4daf497, 0xe648240f5fb891b5),
  (0x9e9d441d26205757, 0x341868d34088a5f), (0x89903f15a2e8a7cd, 0xece1719130352cd1), (0x983fa9698d416057, 0xa433a62506faec54), (0xf2ae78309d718054, 0x999f2aa1dc9e2),
  (0xcad4117ecad1965a, 0xa4a7bf59dd47bdbe), (0xc7f7d3a7f7e97848, 0xbda13acb0dc3acbe), (0xd8b47053dac3910a, 0x18623dacfb4f0fd1), (0xe1178ec700d18cdf, 0x797412215d0f313b),
  (0x36714158f4edcbab, 0x76f708440777589b), (0xa61df3ab5400cae5, 0xb3779845bce7e8e1), (0xa40a344611dcedc6, 0x2c71ca47a5244021), (0x269da9f44ae0c567, 0x9eb2d1aba230bbae),
  (0xafa48aff69061ff8, 0xf4c7299fe851847e), (0xeec0daa544828e03, 0x9d3e92218f73d7ad), (0x4593b29e82624f51, 0xe82957eafbbc40c1), (0x390615a6425e7e9f, 0xc678a6e33108d694),
  (0x326c8a9e7cdff615, 0x35f0cd144508869c), (0x494f5a9927ac83f3, 0x7ca34b07a29f0828), (0x2bab6b55d844dd87, 0x4597c8dad686a78f), (0xd5326877c0331cce, 0xbc9caa42ea6e1ca8),
  (0x2864a634051675d9, 0x2efa037f2ec7c858), (0xe9dfa3cb9aa213a5, 0x4fa4245687c9ea62), (0x56f8450753aa5d4b, 0x9f5d39dd25b9e69a), (0x6637f3cfb7648d71, 0xb609463916518f45),
  (0x91277ff45a88bc22, 0x6b3d07a38ad243a3), (0x7265219f8fb74c99, 0x8dcc93dc54044bec), (0xbb07870a784333dd, 0xfe43910f23ecdf5d), (0x2a50a627ee5bcd9e, 0xf7300548f869bb8e),
  (0x4651ee816583d5f9, 0x4699ba450085a3cd), (0x239278e9c48f8523, 0xa99567d5662e8135), (0xbd773cc285c22b01, 0x13dd79bdeaf4c73b), (0x619fdd3f4270050, 0xa36fa185db9f1c41),
  (0xc21ffe9865d12df7, 0x88f4d7e6b5d56615), (0x15e7702cd5f91e9b, 0xd2483866ccb03f48), (0xf2c34488889a39f2, 0x7b72bff7c4b88970), (0x72ce123d7e0e766d, 0xa71fa34d16028a23),
  (0x4e717643adaf08ff, 0x7d710f1ef94726fe), (0x1823710c1c1f0670, 0xfe78881c7cfd5c18), (0x6a69772dc96ca22a, 0xbad09dba62552668), (0xacc68f272a977d42, 0x126d8da5596ad781),
  (0x362b5bd059bfa578, 0x88d2a9637ba54231), (0x8e7a77fe03a1b8a9, 0x36c8c9b20c117286), (0x8af862fb47abf4e1, 0xff22b95d276aeaee), (0xd183c2f2738f5f85, 0x4aaef215287eb106),
  (0x8341a4b5dbaf99b1, 0x38dbd5c22a8c6a51), (0x1f15f75f512cabc5, 0x2074a64247acc23d), (0xa516ac43be505b3c, 0x3d918ab974b60971), (0x4a0be1f64b8edf9d, 0xceebf70fad292e3b),
  (0x472bd1c26e3e1c5b, 0xf0834d525df330fb), (0x2601d52b7e1e5d72, 0x48e437f920e73bc3), (0x42c0f87e092d5b22, 0x63596c3ba050e766), (0x4e717643adaf08ff, 0x7d710f1ef94726fe),
  (0xb6bfcd49d57ee2f9, 0x49ec88e9f04c0d85), (0x358199eadd59ff9a, 0xce7f11e0309c4ec5), (0xb8438e491a27cfee, 0x83d6f8ccc35c56cc), (0x28356ec273e2b096, 0x770573a79e677dfc),
  (0xed69e294b7cf9557, 0x664ef92176af92f3), (0x62ec6f600028391d, 0xc7a2cebe70415e74), (0xacb9fb671c7c30fc, 0xb0f2812a75901791), (0xdb925c16d77ac5a6, 0xd0fe757e71b7ac1f),
  (0x6090dbf5412eec88, 0x7cd994ea228b0ac3), (0x5db8f0994f0a796, 0x35581631e084c606), (0x7af9e1b93b36c76f, 0x546051cae307c05b), (0x75fabbc6769528b0, 0x64e385835eab25fd),
  (0x9367375648a0bd8b, 0xd0651cc2aa2991e), (0xb314ac355a1a4b71, 0xbc3854890bac3658), (0x4ef4efbae40924db, 0xdb846c6fb879224d), (0x3a4208e006b537d7, 0xb1f9a2ec62a7650e)]

/-- `MatrixM128_inv[1]` -/
def LMatrixM128_inv_1 : List (Nat × Nat) := [(0xc08a29270eba9f17, 0xf7b5fcf7e719b2e6), (0x1ceb9aded165a0a4, 0xb18629b2df649387), (0xa6990da8ec26ae7a, 0x2f24bc984be4dad2), (0x90402316d55167a, 0xeb2152505afa77b3),
  (0xcf595eac7d01e401, 0x4d3528423262f554), (0x93fe0516169632a, 0xcd64d96df2d65bcf), (0x39a05b740b76f77, 0x14650455c25adb47), (0xe6fdf531d904c886, 0x1f2cc32e40bd1f5c),
  (0xdd130684384d4106, 0x5df05bfaedf9328f), (0xe840c389e7079c14, 0xee51613d4648872f), (0xca9b1a5a87951a92, 0xa0e0b4df02ca6143), (0x5e256ac7a26561df, 0x6f7335a775f1520f),
  (0xbc8a632ba16aa4cd, 0x6b366c53f458543a), (0x6bdc568785a8e77c, 0x4480422de94365aa), (0x9f5f54479145b1d1, 0xb191ddb8a2474ee8), (0x7699366c72d6d141, 0x770d0664743fc87f),
  (0x383c248415aa466e, 0x6adc68385cb4f516), (0x520e6314465f0a4f, 0x2d94f737011fd256), (0x4e662d2941e0455e, 0xffb3b63439c0a410), (0xe195e968d69f504a, 0x8416dac0d7a83819),
  (0x3b20221ecc96913b, 0x77965d9dff1b0e9c), (0xc33360b5fb97a59a, 0x1edba8dce47b6d1d), (0x2204bce115cf3a5e, 0x30e35d09239ec2f8), (0x6cfd83e32e07fdc4, 0xb621ffaf7b129091),
  (0xc8196879fc82f459, 0x78fd82724bd56eca), (0x35ae218489b67f58, 0xa70413789259053f), (0x55b623626de0d3cc, 0x9e8335b564f8c303), (0xcc5dee03399b332c, 0x72534113b9910056),
  (0x4971c9aeef38a1d7, 0xd1c0d11db24c562a), (0xfd8ff7393a04346, 0x204308d81e049612), (0x5c99538f9beea12c, 0x69a312f4cafab422), (0x99eb58cd87852697, 0x96c3ae87c31ce964),
  (0x9156c88075184fdc, 0x56711b4b54cfdada), (0x9e54b11a82205aee, 0x7f2b5d70e7657b31), (0x9fbe823d4adad26c, 0x1341db436cc068c0), (0xdd5f78599846cf88, 0x124c7ae3fde8de2d),
  (0x2880b63b2cbe19c7, 0xbb06eeba2c0e4e6b), (0x1eba24aa0513e497, 0xdf62653a4e2609cf), (0x3acd31a2e87494f2, 0x75ccd57a136176ee), (0xe31783ebead86690, 0x3f8c3a3406de1f07),
  (0x958278c32130a012, 0x1f6506201856efdc), (0x7f3b9db3b67537bc, 0x372ba2f96ced3e77), (0x40949e398424a7dd, 0xc26e73c30536dcdc), (0x43639f90e3274484, 0x4991d5dc1fa1e7a5),
  (0x72185c7bc8488db0, 0x7d764a3c39d6d302), (0xfeeaae610956eda1, 0x2c6721e6ce0217e9), (0x16fd7225d5284b87, 0xee33f7e66449766), (0x4a0445dfa61d3862, 0xef2ec071408e9b32),
  (0xd8d0633618ad8acb, 0x2264f460df049c8f), (0xc9ae95af925399d5, 0xc838918f0faa899a), (0xd63d57f8e2182844, 0x8e547fa6a824b844), (0x5ee1bb76f746b0ce, 0x1c74a6048e9af65c),
  (0xddfe40cc6e01787c, 0xf5ba0dc49a2c1de7), (0xe092629a7b382acf, 0x4d54b7217a715963), (0xba26b0b52ea0476c, 0x64b2b89313d10fbe), (0xc5e1bc198c16003b, 0x39c955f3e53c6e09),
  (0x5aafa08ead745a39, 0xc8d68efa8e8d2013), (0xe92214c9cd96d040, 0xf98378b15577efe5), (0x3a16846071fe2c5b, 0x498b797c9fcf064e), (0xe6507fdfd6b8bdc6, 0x6752b49c1abe8325),
  (0x3c8de4994a0e5f2d, 0x42ca060c14069a4b), (0xff50e2c8ee5c, 0xeff1f333543b3cc1), (0x3a2f0fe9ea696915, 0xe4aa366407f8ecc0), (0x59aedc33ba7385be, 0x81081942ea1fcf62),
  (0xc95451fc86fb9e90, 0x27afad8bf54bbbaa), (0x46c7f7e7daab1928, 0xbdbb389921e9fcbe), (0x71845414fec59cba, 0x59e0bfedd74f5dc1), (0xc2070a004eb1c967, 0x3afe10c1590f253f),
  (0xb5f3a51d99abee53, 0x35ef1ab56b5b481b), (0xebd136d7202a717, 0xb1fe1824f9c7a875), (0x2d38100233d0e034, 0xee6acab4e82a0231), (0x8e0dcbf620c6e12d, 0xdfa141688a1abb2e),
  (0x26066cfe476a5ff9, 0x3655ab0f8c51c4fe), (0xeee05ae14ae6e310, 0xdf3602c08f5787bd), (0x4623d45aa42026e8, 0x2bb8c7c8f2981455), (0xb93411e601345fdd, 0x76824d13c2e9294),
  (0x3b5e2c9d159f9f36, 0x377b5db6082ec68c), (0x40cdbe1b49c8c672, 0xfc31db14c7931a2c), (0x28994f92f54e905c, 0x871fd82aff8ae79b), (0xdc828e76ee193104, 0xbf8da821e34648b8),
  (0x2266063729701830, 0xae73916f6fe1ce48), (0x626fc10afae456c5, 0xcbf34a6aec5b866), (0x55f8c14458a6792b, 0xdfc6bb9f2091f69a), (0x4685b1c9f146c420, 0x7692464a1a59ddd5),
  (0x10b719323ac4d05b, 0xeb3c177083f05537), (0x597785dde5df443b, 0xf47010f7802597c), (0x9a3721ce124f7a66, 0x7c50138d4eee8fc9), (0xa35024e5e417a1d6, 0xf7b08719bc49bf1a),
  (0x6fc12a8568cf9443, 0xc79938056087a54d), (0x219058ede58badba, 0xaa8ff7166b068725), (0x14771e05aeac2b98, 0xd0cdf94ecefcc7bf), (0x8e9bb955f54301aa, 0x20ecb1a4d39708c5),
  (0x6baf3adf22f74c0c, 0xcaff47e4f0fd2095), (0xb4c7d66fbcfd37d3, 0x5242aa75a09e6fd8), (0x79c3440a8ef239d9, 0x786a3f56a8b28974), (0x595c747959661237, 0x6616a13d3b229c23),
  (0x65d3b483e5874d77, 0x3df01dbfd54760fa), (0xb9b1154d35192ed3, 0xbe62883e54d34888), (0x49db956ee50ec388, 0xb8511f5b4e7f66e8), (0x8f646d204f953118, 0x137c8dc41d629191),
  (0x3da999561dd7eca2, 0xa512bd17aa54225), (0xacfa91be22afd1aa, 0x75d34b6304377016), (0x29e8c2f96a8fb1c2, 0xffba299e2760f86e), (0xdb8162b013813747, 0xca3d72364152b116),
  (0xb638032fbc79c2a, 0x7849d53062843e55), (0x3fb7919a7d46ea37, 0xe0fea69066a48039), (0x2f162e05fe187aae, 0xbc8b886b599a1971), (0x6b89037221a6fac7, 0x4e63759d84033abf),
  (0xc789b747057a3c62, 0x330b4fb331d3747f), (0x8793372d597675eb, 0xcb65a75a69c33d53), (0x63e2d8be292f5743, 0xa0486c7a8056a1f2), (0x65d3b483e5874d77, 0x3df01dbfd54760fa),
  (0x3f9dcb8dd772c34b, 0xc9ed0a79f86c4d81), (0x373159ed9835d34a, 0x8f6c835178bc0cd5), (0x9a618ec85705862d, 0xc355ea8dee5012d8), (0x80a5a88238a8f95f, 0x759ef364df6d79ec),
  (0xcfcb2611b785f8c4, 0xe75679505f8dd667), (0xc8fccbe2240e5c5e, 0x431dc7f18634af0), (0xaf9bdd637f1c5da7, 0xf1fb93d91cba4181), (0x7082dcd39e7aec56, 0x92ed75fe7599b88b),
  (0x6a82dd32412c80db, 0x3fd916592ba10e57), (0x277bcb89d4dcc337, 0x36d80662c0ae8682), (0x53ebe53e7572cffe, 0xd6e05389ef07d64f), (0x5e4879833df16ccb, 0x65fb05001ba577fd),
  (0xb047919422c2fcab, 0xce14530d23a2cf1a), (0x92140874727e6a98, 0x3ca8d4984a8634d8), (0x67c46bffa82f64c3, 0x9a95fe7db475624d), (0x39708ee10df3323c, 0x7269a24c6fa5378e)]

/-- `MatrixM128_inv[2]` -/
def LMatrixM128_inv_2 : List (Nat × Nat) := [(0xc37c48e42cc38fbe, 0x7e96ac22f29f3ee3), (0x3c135fc9d224a209, 0xf805e956c66ab786), (0x2461fc6ac98bff5a, 0x26273ccd5b667cd6), (0x82023364fcd25d6, 0x23814ae4435cffb3),
  (0xcca1ef8f5a14f4c5, 0x5152064226c59d4), (0xa98b35866ebd4246, 0x84e649a8e3f0dfcb), (0x16cc4f247c35e13, 0x54e55c22d2787946), (0x65a194e3f5ece942, 0x572e1b1c50199bd9),
  (0x7c5726b013d861ef, 0x5c51cb68e0dbbe8f), (0x4b8862becfe6cd75, 0x6f51e9085a4ca12f), (0x4a198e7d834d59ba, 0xa842743a024ce942), (0x7e89af90ae88627e, 0xeed0ed97647bd88e),
  (0x9dee2368ad56d664, 0x6394b4b3fcf878bb), (0xc9de86678c059694, 0x4d8102cee8efc52f), (0x3d9790159f84d119, 0xb1b31d5ea26166e9), (0x5727f3eb7942b124, 0xbe2dd6646119c2fa),
  (0x98125586308f37c7, 0x635cb0c940947117), (0x73dad2a463534863, 0x64972fc41197f2d3), (0x4c74cd28650c56d6, 0x771236843542aa90), (0xe2a70d4cfa6a708b, 0x8cb7d2e4df869019),
  (0xb95e83ace0d2913e, 0x3f358dcbef1fa499), (0x43b5a0b0f646f4db, 0x1f7bf0bced71e11c), (0xa03ad8113e6f1812, 0xf8c00d8c2eb64c7d), (0xcf2967760f22cd08, 0xfe02675b7a3e9c15),
  (0xe8b73c38f49ac4f5, 0xb1fe1aa54b7fec4a), (0xb54001d2a1c74f30, 0x278443ac9a7923be), (0x7538665669cdb369, 0xd601edd7745ce102), (0xcdcb2fb03f3f1104, 0x7ad011c2a4bba253),
  (0xcaf9391ec074c337, 0x5142195bb2ecf0af), (0xafa2db73b535022b, 0xe141882e16003012), (0x7e97426f9c5ee2cc, 0x690102e3d7f838a6), (0x9add5cef86c5159b, 0xd6623611c636c364),
  (0x308e7930586d5c35, 0x5ef19bf841c5dc5e), (0xbf44900da1313be7, 0x7628ddb7ff43f9b1), (0x9f6c826e4c2b90a1, 0x5a6393a160c846c1), (0xddcf4d9fb5dbbc09, 0x93edfab1e94a5229),
  (0xa862367d24f21a6a, 0x7326ee5a2d84e2eb), (0xbd6294dc2b96f476, 0x5ee0e55f462cadcf), (0xb875a1f1e180a696, 0x35cf1d3f1243f4ef), (0xe331b6aeccf91471, 0xbf2cea5312f03386),
  (0xb4867dc12c1483d2, 0x97651e0200704fdc), (0xfe6bbc9796e96699, 0x7f2beaba7565baf6), (0x60285ecb8cb1f71c, 0x4b6da3b00d36de59), (0xe213efa5c3be36cd, 0x4992dd79120be5a5),
  (0xf1a4d93bcd88dc54, 0xbcd51a1e2cd27b83), (0xfd228a7624269c68, 0xa5c5e931ce281d68), (0xb5b5d2d5f5150b62, 0x4fc1bf7867cc3b62), (0x6a8cf03e86481946, 0xa6ae08635cacbbb7),
  (0xf8a253f23391ca22, 0x2b67f4b6d28a1c0b), (0x4b2e445d9efaf97c, 0x483b911b1a0a8f1e), (0xd7a5f2abc01068c8, 0xcef43704b0a89245), (0x7f65eef5f9eed1c3, 0xddd6bed292345a58),
  (0xded635da4bd0791c, 0xfdb845e08e249fe6), (0xe3ce236e78956a67, 0x4c7667976bf9d1e6), (0xba38a1952529570c, 0x653328c40e57ad3e), (0xc41d1c6fa56220fa, 0x3968cde1e81e6089),
  (0xd817b048a8ed5bdc, 0x8d6c6ae870d2016), (0xc95c51adcc16f0cd, 0xb120e8004d5f67e5), (0x9834b1b2586e5e76, 0x8188b9e987eba2cb), (0x6786db99f5d8ee0e, 0xe6d26c1b1fbc21a4),
  (0xbfd5557e64a30d04, 0x4268cecd0588104e), (0x29e2b07e0e1fdd5, 0xe7f3e3c150b13cc1), (0x3b33ea28cf582a94, 0xe5a9a62116f2cc44), (0x5aa27c419ee29612, 0x41a809f6ea1143e2),
  (0x6abe452d8b538eb9, 0xa6aead19fcc79fae), (0xe7fdc2e7f7ea7ac8, 0xbdb8308b3dcb7cbe), (0xf2de3541db508d7f, 0x1163f7f8cb47dfc0), (0xc21d9ba643c0cacb, 0x7bdd50214d0f8b3a),
  (0xb55d045ab7679f3b, 0x34ec420076fbe89a), (0xf35f7e9550b9493, 0xf07d5045fd6308f0), (0x2f42202511d4a17c, 0x6e4a4a47e520a831), (0xdf3eea6097281c5, 0xd62119ef933099af),
  (0x86eac8ac68074f10, 0xbf57b3df89ddc47e), (0xeea6dee54493825d, 0x9715da258e730fbc), (0xc597a1ad80795768, 0xab9a57feeb3c1ad1), (0x992c55a501456e18, 0xc648acf331083e94),
  (0x1944dc8e3ed7ac3a, 0x7fd91d0404846e8d), (0x60430ec9642dd577, 0x34328b43c29b3a29), (0xa9816f74d84ed1b1, 0x4f9ed88ef68ec59f), (0xde3a3a54c2b05040, 0xf6ae2046eae6c4b8),
  (0x816ee626058c3b71, 0x2772996b6e4b4848), (0x4295f088d8a947e8, 0x4cbdb412b6499862), (0xd5de445450aa1bcf, 0x9f462bcd3531749a), (0xc411e5cff4769524, 0xb7b0562d1659d755),
  (0x326128c71918f077, 0x239d47a79b5afbb2), (0xd90d21aece361473, 0x8665018c758c53fc), (0x1a0fd4383b4b796f, 0xfd70db4b53e8054c), (0x2138e136ef5281b7, 0xf7328f58a86d3b9e),
  (0x4d1bfac0678a8587, 0xf997005618103cc), (0x20f27cdbc706dd72, 0xab8e7fd167aea125), (0x96517e9185d96b35, 0x114fe9f9cafcc53b), (0x8c17bdc1f6ae002a, 0xa06f6191da1f8c40),
  (0x6a51bfe9264a3fcc, 0xc25d57e6e5510e15), (0xb4a9324d96e94697, 0x93e23a36acbc6558), (0x7a8544da890a3b55, 0x30e827b7a53c2970), (0xd9ec412f7c873217, 0xefb7610927023022),
  (0xc4193571ef261cda, 0x7451954ec94fecfe), (0x1845216f1f1d1c52, 0xb662905c5df56e08), (0xe82f305fc9f7a0c1, 0xb9518ffe53dd6668), (0x8fe6cd346b043119, 0x12dfc5a5196e1d90),
  (0x3c0b1de11baebd6a, 0x8ad16b777b2de220), (0x8e3c30cd02b2b287, 0x34d193b21d99d097), (0x8bb266c84622b0ef, 0xb6b9a15927e2faee), (0xdbe7c2f0328545e7, 0x421c2245487abb17),
  (0xa61b0a4db2ecde6, 0x396b5dc66b083251), (0x3c17f07d502fe93e, 0x685ee606772caa3c), (0x8f5aaf02fdc95962, 0x742a50f945b69170), (0xc96ba6e608079bee, 0xc6e1fd5f9c29be3b),
  (0xc44d83f12d3e4e8a, 0xb38857023cfff0fb), (0x252386797d8e07c7, 0x36667f970633bd2), (0xc1a6f85d0b3707a3, 0x2048346b81d0a577), (0xc4193571ef261cda, 0x7451954ec94fecfe),
  (0x9f9d9b48d467a247, 0x1ed42e9f144ef84), (0x35ed9db99f49f342, 0x876e53e07118aed4), (0x3b0d8a285ba5952c, 0xc2d7ba88e35c94dd), (0x805739f03170ba96, 0x7cbfb3a3cfebd5ed),
  (0xee01f7e6b65cd925, 0x67d5f975472772e3), (0x48ac2f6201322d12, 0xc4b31cee10cdec75), (0x2effa9555cec2c2e, 0xf85bc37a149ced80), (0xd3964965946adfbb, 0xd2ece56e60b73c0f),
  (0xe9ba8cf7413ca273, 0x37f85efe328ba2d2), (0x491da08d569e113, 0x77580e61d0840406), (0xf1fbf4ca78b79f1f, 0x5f41dbdef30f584b), (0x7c92b995379c7e87, 0x2d584d971f27dffc),
  (0x320d6027082aed47, 0x7b51bd83b2ac31f), (0x1334bc14591b4bd8, 0xbd8a149d4ba83e59), (0xe4b8bfd8a79236c2, 0x9217ee7fb8f1624d), (0xb8221a8206af3395, 0xf3caaae862279d0e)]

/-- `MatrixM128_inv[3]` -/
def LMatrixM128_inv_3 : List (Nat × Nat) := [(0x8a1b8eea4ecb7f5e, 0x76676c36e12bdaa2), (0x727bd79ef93780ad, 0xb0968d52d46ac785), (0xef0bef2da9100f3a, 0xee49cd94afaced6), (0x6807247c4555b773, 0x4b7126f052d043b1),
  (0xc5c8b6ef7815a401, 0x49f788603240ed94), (0xbad6d91043e6263, 0xe8b4edacf3cc4fc9), (0xf0804f105d04e76, 0x34859436c374cb47), (0xc5ec1db7fd6749c4, 0x1b0ef30c40a90fd8),
  (0xf91165873159814e, 0x7812af78e0cf368d), (0x89c2e1818f64fd15, 0x4f71a51c494ce32d), (0x8d1adb1ac3d5bb9b, 0xa052943e03e47d03), (0x17a6e686a70180de, 0xcab3c58777d7168f),
  (0xd38aa462ec5dc4c5, 0x6fb6fcb3ff7030ba), (0x6edd50088c8de634, 0x41f226ceeb73112c), (0xd5df1948fd147199, 0xb1b1b95aa2596eea), (0x1c0a30a57bd3d142, 0xd62d56647231bcfb),
  (0x723ec4c4509e2765, 0x4f5efcd9529ca114), (0x159e8c92035aea47, 0x2c44e7d4031b9a92), (0x2f76ca6824860416, 0x7b13529434d2b092), (0xc9844f2d93eb300a, 0x8464fae0dcb26459),
  (0x7c334098c9c3f17b, 0x5756e9dffd0b52da), (0xc5b0e9b59fc444d8, 0x3f89d8bcee4d255d), (0x4c17522955ff1a56, 0x94e3e9882f9eea3e), (0x216fad222f30fdcc, 0x96f32b4f793ad417),
  (0xa19b2a3adc801452, 0xdddfd6b14ad76e48), (0x532e0088e1d55f50, 0x278447b8987971bd), (0x5a34e02528c7f3cd, 0xba61c5d767f09303), (0xa8ce22c234bcd365, 0x56b3f5d2b58f1c10),
  (0x4bf06f208a7e2196, 0x51d0355fb35466ac), (0x66ca5770f6b5c20e, 0x8111cc3a1434c210), (0x339a5544ffcea06c, 0x4db106f7c4e8c4a4), (0x98f89b8287d527df, 0xb2d19a05c72edd66),
  (0x91c56742106c0e94, 0x72631fe853dd8a5c), (0xde465554e2337ba5, 0x5a19f9b3ee5b43f3), (0xbc2d097b6ea9f224, 0x36333ba163f428c0), (0xf8ccd797bd516e8b, 0xb71cfaa1fbc6a669),
  (0x6a02f87345e8b88e, 0x1f546e5a2e382aeb), (0x352981ef28146496, 0x7ef2655b442c59cf), (0x5e5f3dee891014b0, 0x511ef53b127f5eae), (0x8416e4a886e9e6d3, 0xbbac8e5700c047c5),
  (0xba8133812c140153, 0xbba7d202126cabde), (0x372afefcb77136be, 0x33d906ba65c11ef5), (0x4b0596bf8d2087de, 0x43ee23a00f3e8858), (0x66713addc327a48c, 0x6d01b17d1283d7a7),
  (0x358a16398c1b4cf0, 0xd8243e1e3ece9380), (0xb46bc72a2d37eca8, 0xad954125cc2c7b29), (0x16fc94ebb41feb86, 0xb435f7c646cef22), (0x4862d11c7593920, 0xcadc24734d98b3f4),
  (0xb3c38df119898a83, 0x316f4a2d03ed04b), (0xe92d186ede72799f, 0x6c3a950f09bad15c), (0xfdacf5ffa209c80c, 0x8a84bb04a01cbc46), (0x7560fff1bb67f1c6, 0x9df652c682bcee1a),
  (0xb9ff65c56251193f, 0xf1f88de49c3079e7), (0xe380ad55521deac7, 0x68a4c7837b7579e7), (0xdf37f9ba06b0276c, 0x61504cd01dd3637c), (0x8872525fe5702078, 0x1d4be1f1eb2636cb),
  (0x7f3c290bc1661b38, 0x6876ceba84ad7417), (0x8933d1c4cd877049, 0xfd7128105f538be5), (0x3714a1a151ec0c10, 0xedb93dfd94db4a88), (0xafc29bd5fed9dccf, 0xc2c0401f1c9ce3a7),
  (0x109c0419272b7f27, 0x461a46cd142c9e4f), (0x4993bf578aeaaf55, 0xcb8363d1511528c1), (0x5e3fe26cc648c857, 0xe1ba022506caec46), (0x7aac737bde6104f4, 0x253a8de2ea29fbe0),
  (0x82d7dd338ac93e9a, 0x867f8d09fd4383ee), (0x7d794acf6f8f82a, 0xbd095c9b2fe384fc), (0x5895bc509bd11dba, 0x59601becdb6f59c3), (0xaf1643880ad1a82c, 0x3b4c14215d1f1539),
  (0xfa720059bcfe4f58, 0x348f4e14677744d9), (0x6c3e31e07e11c614, 0x949e9845fce78cf1), (0x602a780c7ac7613e, 0x4a982a57e4042231), (0xa49c27f929e1e165, 0xdeb135eb8000d7ec),
  (0x67878bb2221c3ff0, 0xb7675fcf8b55b83c), (0xeee112a86f80a258, 0xdf9692218c63e3bd), (0xfb27d98e06167eb, 0xabc8b3eaf8984c93), (0xb325d5e541557e9e, 0x821a80f3311c9296),
  (0x744f03df5dcc7e3d, 0x37797914060c928e), (0x94e5e914cbe8773, 0x5801eb57c0bb7668), (0x21896b13995df116, 0x77dbc8af6b2e79d), (0x9913eb39a22bb007, 0xbadd0842eb6a70f8),
  (0x666629774417f931, 0x2b01116f6fc7da48), (0x6ffce48393a2178e, 0x282f1406a4d9dc62), (0x5af9cd0371b3796b, 0xdf860fdd27ada298), (0x2417758afd642560, 0xd702f2291661dd57),
  (0x512636bd5b803050, 0x6b2e07b38af275b3), (0x786424d3c5bc6433, 0xae77818c77043dfc), (0xfd27000c13491b2f, 0xfdb2534f41dcdf4d), (0xec526c618d506197, 0xd7e2c758b959a3de),
  (0x4c50e2c06d98d500, 0x4719d80561b1ad8d), (0x6192bae38c8f0db0, 0x8fcf33d5642ae327), (0x3b75bbcea7d88bd2, 0x71cdadedcac4e739), (0xc41bba91b42500e9, 0xa45cc185d8af4c41),
  (0x4e3d339d47d38d4f, 0xee1f73e6f4e52417), (0x9bc5b928b5e9b6d3, 0xf3c09a36afb42f58), (0x32c28187c28019d2, 0x7cfa8bb7a4bcbd72), (0x3ace9c3555077237, 0xc736451d3502f061),
  (0x53710ba5b50c3e, 0x3c605d5edb771cbe), (0xd823794a140f2ed3, 0x9af2985c5efd0448), (0x204b7066897c22c1, 0xbd710bfa43654e2a), (0xace54f256384711b, 0x12fec9a5184e8193),
  (0x302893dd39a50daa, 0x8ef30b737ba57621), (0xc27a74be6bb930e3, 0x7413bfa20f252094), (0x40faa4f74fb8d089, 0xde9a0d5d267ad8ec), (0xdd80c4b35286d744, 0x4a9f6655487ab514),
  (0x45626df19ba53d20, 0x7d3bb1d2688c6e53), (0x5d36f81539262b3d, 0x64dc821264acf43f), (0x65162f4af64bdbe4, 0x38fbd8e955823971), (0x4609a5b80987fb8f, 0xceb3b55f8d3d167b),
  (0x8f0a158a242c9c69, 0x97ebff123ff30cbb), (0xa600dc6b7515d5a3, 0x6fa5c7f960f72dd3), (0x6e3f372413e7741, 0x2428bc7b80748936), (0x53710ba5b50c3e, 0x3c605d5edb771cbe),
  (0x3e9d034cbe67c201, 0x4d5f0af9f37c15c5), (0x37a15bedfd505341, 0x8b2e93f0719c0cd5), (0xbc61ce481b36c76c, 0xc2773a8ce14c5e9c), (0xe237ee8d58e81815, 0x508c73a7de735dec),
  (0xa54aa5d8bfd7b985, 0x63d47d7156bfeea1), (0xe0ed2b2e01389d17, 0x8453b8fe13713a76), (0xe49b7a64777c3ced, 0xf079837a17a40581), (0x539197539e7b6d5c, 0xb6cfa57e70b7b04f),
  (0x2e9212b5492f6090, 0x3b1996fa21bf5ad3), (0x4dfb024ebdf88335, 0x334a0661c0848606), (0x7ef824b858374fbe, 0x776077cae337de09), (0x37db378c74952c80, 0x41dbc1831e9f4bbf),
  (0x914470154aa03da3, 0x6fa637cc2b82d75c), (0xf7172e71131b6b9a, 0x9daab0994888781a), (0x46d4ebfda51b84c2, 0x9e856a7fbb792a0f), (0x7263cee444b79336, 0xd7d986ec6087630c)]

/-- `MatrixM128_inv[4]` -/
def LMatrixM128_inv_4 : List (Nat × Nat) := [(0x86108b8226ffce3e, 0x7eb7fc64cb1f36b1), (0x6e2b5eddd131a1a9, 0xb2148112d64277d7), (0xf342ef290937bf4e, 0x2cb604997ae6969c), (0x281fa0524d753746, 0x692142a242f497a2),
  (0xcd99feac5809b401, 0x4db518601a649196), (0x5ba726d3ec115212, 0xccf6f1eed3f81f8a), (0x4302c7b245f65e53, 0x16e58466e370135d), (0x95a497f5fd49f996, 0x17ae635c70919bca),
  (0xad1864c01979203b, 0x5670db2ad0db7ec4), (0x99c861cccf7add35, 0x6f41695e4b440b76), (0x9d181e7803fc0a8a, 0xa0e2843e3be42143), (0x4fad6ce06f1d20ee, 0xee611dd75df35ac5),
  (0xcfc9e3086c76c4e4, 0x6b34fcb1ed78d8a3), (0x7ade16640498c750, 0x4f0072dcc16f2d67), (0xc98412271521c0d9, 0xb993dd18ba616eeb), (0x9b2eb73dee164, 0xfc8d16667031c8f8),
  (0x2a37068378b62677, 0x635c48c960bcf156), (0x58c43f36b7e5b43, 0x2686ef84013ff290), (0x3b35cd6e6ca80546, 0x7723be842cc2a0d2), (0x81d58d4af3cf307b, 0x8c164af2f68e9808),
  (0x286b00f821e2d03e, 0x75147d9dc717ee89), (0xc1f0e0f07fefe5bf, 0x155b98befc71a90e), (0x40449821b5c20b42, 0xbaf175c80fbeae76), (0x7d6da744c70eddcc, 0xbe33774f5b169415),
  (0xfdd0ee593cbe8541, 0xf1ef0af17af72e48), (0x5365438221f75f54, 0x250483ba8a51c9a6), (0x122ca54228fcf2fd, 0x9e01b58745f46353), (0xfc8f6ec6b4bf4314, 0x7ac159c0bd9b8003),
  (0x5ba1e94f827880d3, 0x5342711dbb6c3ae7), (0x2a89db35b6b0426b, 0xa351207806009253), (0x6b9a13085ffea118, 0x6b2102f5d6d870f7), (0xccb05ecd47c5169f, 0x96d3a615ff36617e),
  (0x95852847d0551ee5, 0x5ef1aba869edde1e), (0x9a56117dea257be7, 0x763955f3e663d3a9), (0xac3ec23a8682c275, 0x1ad3d3a161e844c8), (0xacc55e9c754feebd, 0x915cd2f3f1e25a38),
  (0x3e48f459adf708ee, 0x3396760a0c2c0aa9), (0x7d20c6eb6833f4b6, 0x5ee0e54b4e044dcf), (0xe17f3e62130a5d2, 0x75ce457932637ea5), (0xd00ce5ab8ef847a5, 0xbd1c82171ad8338d),
  (0xf2917c832c049116, 0x9de5a6402070cfdf), (0x6b32fff1977d26ad, 0x37abb2fa55c5d2ad), (0x574c9cdb8508b7fc, 0x4bec43b00d369c58), (0x32397df48b2f25b9, 0x4303cd3f3aa327b6),
  (0x31c3da3b4c39cc80, 0xfc745a5c24fa5391), (0xfc6a8a24ed0bdca8, 0xa5e58167ce005f62), (0x6acd2a57c315aa6, 0x7f1373c7e4c7332), (0x58c6617b4f781956, 0xe42e60314d8c93fd),
  (0xbb89819731988ae6, 0x216644a2ea0a5c59), (0xbd649748de5af9e8, 0x4a2a891d2b828d5d), (0xf5bcf3f94a0d784c, 0x86d47f14b008501c), (0x7938bdb4fb4ac1f3, 0x9fe62e94b2b4da53),
  (0xf9e726cd42582858, 0xffb8ade68e0475ac), (0xe3c9205a3a197ac3, 0x4ec6bf83437911ef), (0x9f67b0f0a6b00658, 0x6732a88007d7ef2c), (0x94721c1fed6a213a, 0x314955b3d1362a88),
  (0x2f362229a97d1a28, 0x48568eba9e85e007), (0x997150894daee169, 0xf991c0524d7727be), (0x6b05a0e199f31d62, 0xc999c1adaecb6a82), (0xf3c959bf36e9fcde, 0xe6422c5f069c03b5),
  (0x8874619a7174e24, 0x42c8068f14087a5c), (0x55993912aae5be75, 0xe7e36bd3411934c8), (0x4a3cab6806447920, 0xefa8a63516fa641c), (0x3ee6be11965f9492, 0xb98b1b0ca3143b9),
  (0x9ed5d55e42da9fbd, 0xac3f1559cd4f3fbc), (0x13de91a4befe7918, 0xb539989935ebbcfd), (0xc734535bc88cbb, 0x59f207feeb6775c8), (0xa35f48e10ad8894f, 0x336c88237d07a960),
  (0xf220455eb4f2ce5b, 0x347db216577be8ca), (0x787df7ab1606d703, 0xb2fc1847f4c3a0f8), (0x682232425ae0e11c, 0x667a7207cc008263), (0xf89eaff0c9d6c005, 0xde2161a9b2103bfd),
  (0x27c688fa22170ff4, 0xbdd7abcda17d8c37), (0xeae89ca70f8e823d, 0xd5242a63ae538fb4), (0x43e370b8884856dc, 0xa1aadffaf294b0c1), (0xbb25958341617efc, 0x866814a10100d6d7),
  (0x3c060ebd35e6fe1e, 0x3f79cd442c2c4e96), (0x110e1e9eacac8763, 0x74336b05d29b1a2b), (0x2d996f505152d165, 0xf1f78daf6ae8fd7), (0xc948a853ca0d1104, 0xb61fb050cb6eeca9),
  (0x266ea4344c016925, 0x25e3992d6fe30a5b), (0x27b463efdb9806f8, 0xeadbc14b6c13039), (0x46b2070499bf581f, 0xd556338d05b1fed0), (0x340735e8b54e9404, 0xf5806e3b3e71b51e),
  (0x164f9d25bb4b047, 0x692c8fa392f2d1a1), (0x2c27619ecd8f5417, 0x8cc5b19c552cd9ee), (0xf92605297b462b7b, 0xffc08b0f73c84f5d), (0xe051a0266577c0f7, 0xff223f188945bb9c),
  (0x181828a7258fc457, 0x45993807718929d4), (0x6582fcc90ca68c96, 0xa10f77976e0e2336), (0x776c3cc747d52aa1, 0x515fe1bfdafcef30), (0x88437ff3b407119a, 0xa0ee8197da97244a),
  (0x1a3d3eb92fce2c1c, 0xc26dffe6fcd1a405), (0xc3dcf00f95e506c7, 0xd1d29274bdbccf49), (0x7e80048c4aab29c1, 0x78f8b7b59c94c179), (0x2a87d21e353e7217, 0xef06390f0f02507a),
  (0x14533447edba1d7a, 0x3ef0ad5cf167ace7), (0xdc6171081c240ee6, 0xbc72204c7cfd4c0a), (0x2c10b30dc96ab2a1, 0xb9d18fb8537d0e63), (0xf8e58d242381713d, 0x187e0da7004695d2),
  (0x68635fd3d9a2ad9e, 0x88513b2353a54223), (0x9e72f3dd8393b1a3, 0x7451cba02539b0c5), (0x4cb8e6de8fb7e1ef, 0xf4b8394d066a38fc), (0xddd880f27abd5747, 0x422d6a455052d156),
  (0x1972a0b7dba28d12, 0x79cbd5927280920b), (0x4926717bd123aa2a, 0x626e9e025e84e877), (0x7d0f2c603e414a92, 0x3e9b80fb6d9eb168), (0x5a58a7f249bfdbee, 0xce61450fbd019e6b),
  (0xc75b13e0a43f0c5e, 0xb999570235ff98a3), (0xe61ad5283d3245d7, 0x49e7b7eb58c3918a), (0x6b0b87dc13f4743, 0x28d8c469a8588577), (0x14533447edba1d7a, 0x3ef0ad5cf167ace7),
  (0x2a8d4b6b9e62e343, 0x417d12fbd96465ce), (0x33a19deb1d65e356, 0x8dee13f27990c48c), (0xb82a086ed301d72c, 0xcad75accfb54dec6), (0xf27568c3f0c5a972, 0x768e4ba5fe6b3dad),
  (0xf90926b577fc89f5, 0x67d4c9337ea712b2), (0xacadaf44812b2d52, 0x86b36cac296d866d), (0xb883fb62d7653dba, 0xfa6b8b6a1dbc25c3), (0x57911812967fcc6f, 0x926df57e489f7c5d),
  (0x2a809df0c938f1c7, 0x35c99eaa238ba2cb), (0x15aa0b2f95d0a207, 0x3748ae31d08c2614), (0x32a2a7bff01fdeff, 0x5fe0f38afb277a13), (0x6bd17be574883dd3, 0x65e90dc306a7ffa7),
  (0xc14631548a93bd97, 0x4d04db8c33a2cb1c), (0xe354ac331b235a88, 0xbdaa44896288fc00), (0x42ddadbf6d2f35e6, 0x90975e3f81792a45), (0x6a3a88c784973325, 0xf36b12ac4a875f46)]

/-- `MatrixM128_inv[5]` -/
def LMatrixM128_inv_5 : List (Nat × Nat) := [(0xca1cefa65af8df5e, 0x6527e876e30fb366), (0x7c7bbefb8927a0bd, 0xa8d4e950965a1783), (0xef89cf09e120af2a, 0x37e61c994aceda52), (0x260247507d773662, 0x782526b052c4f437),
  (0x87cf1c9e6c25a411, 0x5c710c202254b654), (0x92b86d5782d4262, 0xdee649aeb3e89acf), (0x4b8820a011d34f37, 0x1d755034d3605a43), (0xc3e9d5e79564e9c6, 0xc2e130e10991ad8),
  (0xb11747e63169205f, 0x46a4cb78e0fbb40b), (0x814601cce745dd55, 0x6c95855c0b6c05ab), (0xc19bb94e83d71a9a, 0xb9b2547c13e4a447), (0x1da72cd2f323209e, 0xf7f5858765e3d40b),
  (0xdf0e601afc6cc5c4, 0x7160dcb3ed40563e), (0x6cdab640c48cc664, 0x5ec0268ce947642a), (0x95dfb325c527d0c9, 0xb3575958a2594968), (0x528915fd7bf0f010, 0xf709b66660114f7f),
  (0x383e8595148c2677, 0x7888b89b40bcf312), (0x159c04c313794b57, 0x37164796110fd656), (0x2bf68c7c04a60516, 0x67b3569624c2e010), (0xc705c858c3db315b, 0x86929aa28e96fa99),
  (0x30b627fc9df0d06a, 0x6584899fff0f0f18), (0x83b504e0bfd7e49b, 0x1edbdcbefc79a91d), (0x2901a2151cd1a56, 0xb3f509ca6fbec0fc), (0x636ba7727b01dddc, 0xa5730f0d2b0e5495),
  (0xa71fce6fbc809411, 0xf06f12f35af76b4e), (0x592805949df45f10, 0x2e4043ba8a49c33b), (0x5e30e56470c4f39d, 0x9f85e19765c44507), (0xa44fe9f2709d5274, 0x605111d2e5bb04d6),
  (0xb73ed7da67c81c7, 0x52c6111de36451aa), (0x6ecaf8118e86430f, 0xa085ac3a5630d496), (0x791bb008dfeca13c, 0x60e126f5c6d8b422), (0xd47b1deb93c5069f, 0x9f537a45c72ea864),
  (0x9544ce77685c0e85, 0x56b5ffa801fdd8da), (0x9cc2316d8a227be7, 0x7dad99b3be4bf8b1), (0xf2aa062a4abad265, 0x1013dba131e06dc0), (0xb04b1cba8542eec9, 0x909cdea3f9f21a29),
  (0x6e02b06b25f818de, 0x3186aa1a7c0cceef), (0x77aae2ef4037e4c6, 0x4d70c51b462c884b), (0x5adb76f2a532b5f2, 0x771e353b026b736a), (0x8691a0a9f6fa4781, 0xaeccce5542c09e83),
  (0xf800bbb574348012, 0x9f7552020068aa5c), (0x3babf8e1af7337bd, 0x26efe2f835d5b9f3), (0x4f00dfcfd500a6dc, 0x5078a3e05d2eded8), (0x28f55ed4a72725dd, 0x5b17d17d528324a5),
  (0x378cb83dd82accf0, 0xfe343e1c3cea9206), (0xf6eace060514cca8, 0xacf5e1278e2897e9), (0x5af911838c0c4a96, 0xf25bb3e667c9566), (0x82a54dab7b1972, 0xec6e24315d8cda32),
  (0xfb4262910d8b8bc2, 0x2122b0a2d23a5e0f), (0xe32e334eca53f99c, 0x482af50d4b9ac99a), (0xb3ad14cfa218694c, 0x85d01f04b028ff44), (0x73e7bda0f746d197, 0x95e69686d2bcf7d8),
  (0xf57e87f96e63382c, 0xede86da48e04d963), (0xed0424587a3c6a87, 0x5d5247837b71de63), (0x9bb6d3d63682063c, 0x6ca64c925fc748ba), (0xc471182f9570206a, 0x338da5b3b926a889),
  (0x7dbf650fe1541a38, 0x4112cafac6ada393), (0x8132d6bdddb4f049, 0xfa95e8504d476865), (0x3b92c4d16dfe0c42, 0xc25dddfdc6db40ce), (0xadc43c9992fafd8e, 0xef56045f1ebc4525),
  (0x501b85190b0a5e34, 0x431c82cf542818cb), (0x5145b12b6eaaf45, 0xe46387d31121fcc1), (0x1ebb8a4cf64b6914, 0xf5f8e22506caac44), (0x7a2af803f67384a6, 0x188c49e0ba1989e6),
  (0x8a52525ecaf99f99, 0xafafa949fd47bb2a), (0x4fd532a486e97928, 0xb4395c9b6dd3bcba), (0x54101775efe19cab, 0x59229facdb7f9841), (0xa9954cf50ed3882f, 0x2aa850614d2fe73f),
  (0xf871456c98edcf1b, 0x34696e163773cb9f), (0x66bf14b92220c707, 0xa0781845ecf32f71), (0x202a354022d6e06c, 0x64ee0a55e4308131), (0xa69bade479e2c175, 0xcc6511e9d200bcaa),
  (0x2b846bea5e0c1ea0, 0xb613df8f9965c27a), (0xeae69ea11fa28219, 0xce74b6218e43063d), (0x9b5b198b46246f8, 0xa1ea77a8ba8cd0d1), (0xbb22b29509747f8c, 0x87bca0f12128d114),
  (0x30ce4aaf45fdfe7e, 0x353d7d56143c810c), (0x454d3dac188e8663, 0x66b7af57928b5da8), (0x610faf56e56ed155, 0x1c9f98c8f696671b), (0xd712ee65aa3b1014, 0xb6cb6800bb4e0eb8),
  (0x2ae4210624167821, 0x3637d16d7fe38d48), (0x29fd21cbe380178c, 0x5b9d404e6d9fbe6), (0x5878472215a2593b, 0xd6c62bdd65b9b29e), (0x609557fab5448560, 0xfd80122b465118d5),
  (0x572538c07fa2b113, 0x7b2843b19ad2d237), (0x3063449ee1bf4533, 0x9e0141cc35241afc), (0xb5a7672d4f493b3f, 0xec44f74f43f8494d), (0xa6d44530ed71c087, 0xeff6a71aa94df91a),
  (0x44d7c9812dabd403, 0x4e9938076181654d), (0x67105dcfac8d8ce2, 0xa95f1795660e0325), (0x3d71dfe3b7c82ac1, 0x5a4fcdadcae4063f), (0xc49b9ed1b00501aa, 0xa02a61c79abf8ac1),
  (0x4cbf3b9d33d32c5c, 0xc13977e6f4e1a715), (0xdb413629b5d91693, 0xda467a74edb46cd8), (0x7c4321aed2903891, 0x69784ff5a4acc970), (0x3a4e101c4d047237, 0xe612051f37121a27),
  (0x44557673e9a50c2e, 0x35a0d91e896760fa), (0xd023563e781f0f82, 0xb6e2bc1c4cfd4908), (0x664f322bf54ca391, 0xb185efb8036521e8), (0xa6e68b3443b57119, 0xbea89e7086e1311),
  (0x702fb9d54997adba, 0x92452b313bb581a1), (0xca7e30eb3ba9b1e3, 0x7681dba05d213192), (0x427e04ea2ba9f09b, 0xf668a95d764afcea), (0xd78741c612855657, 0x48f92257585af712),
  (0x3e361a5ef859c72, 0x638f75d03ab8b9d1), (0x51b7b1492104ab3e, 0x61fae25036bc02bd), (0x25920972fa5a5ab6, 0x2c4b58ab45969d71), (0x4a8be7c46986dbde, 0xc565b15d9d29fd3f),
  (0xc98974f65c3c1d6a, 0xb1491b526dc7f5ff), (0xea81910e453655b3, 0x4bf363fb60f3fe57), (0x4ae03b4f710d5653, 0x2b985c79d060e0f2), (0x44557673e9a50c2e, 0x35a0d91e896760fa),
  (0x789bce5d8676e313, 0x58292eb9a17cce85), (0x3ba19bdddd71f312, 0x86aa13f061b8ca55), (0xb4e7cb4c5b25c66c, 0xc0879ecca37c17dc), (0xec35eaf520eab856, 0x7eca97a78e537bec),
  (0xe5cfc595a7e798d5, 0x7444f93356bf5767), (0xe26eaf52290a3d46, 0x97373cbc41454cf4), (0xe29ffe70737e3dbe, 0xf8bbe73845b48181), (0x59103f36925acc4f, 0x8169c53c30b77a8b),
  (0x6e96bce0052ee183, 0x270d76f873abc8d7), (0x1fdcf2f85daa327, 0x270c662180b48482), (0x7ef9a1ad6416cfef, 0x5424f78ab33750cf), (0x3ddefed52cb72d83, 0x7d7d01c30ebff17d),
  (0x954511406e82bdf3, 0x5cc453cc7b828b9a), (0xbb904b256f184ad8, 0xa77a34995a983158), (0x4ad46cbdb90b25d2, 0x91d7aa7fb949e74d), (0x3e62cfe504953225, 0xeaff86ac22a7348a)]

/-- `MatrixM128_inv[6]` -/
def LMatrixM128_inv_6 : List (Nat × Nat) := [(0xc85a0804269bc79f, 0x5777cc75e35ea6e2), (0x3e7b5acbd974a08d, 0xb8aca840deab9787), (0x2549899bc14bfffb, 0x4eef1c8b4aefced6), (0x2a0406e64d4d2f53, 0x26942a25a9567b3),
  (0x45c99e2c585dec01, 0xc5d282032e5f1d4), (0x8baf02f76c7d0203, 0xedce49befb794fcb), (0x831a80224dd21ed7, 0xc4d1565cb30db47), (0xc7bdf4d1f56ce987, 0x6e4e720f40180bd8),
  (0x771302721940690f, 0x7dd9cb3ae0da368f), (0xcbc006eccf2fcd34, 0x66b8e11d430c932f), (0x4b4bdacc8bd4439a, 0x98eb157e03046143), (0x57e5cbe0af59305f, 0xeef885c67572428f),
  (0x97ca47baa417c4e5, 0x37ddcf1f53140ba), (0xe28c96e684c59ef4, 0x5d8962dce9e7652e), (0x9f9fd6059d05c158, 0xb03a7c58a2e85ee8), (0xd619b06973c3b1c0, 0x862d96247090c8fb),
  (0x306c271730d62f47, 0x1bbdd98a589cf116), (0xd9ce80f76b520a47, 0x75364695019ed2d2), (0x6f768e7a649c1c56, 0x1efa36973403a090), (0x4185085cfbab78eb, 0xcd96daa3d6863819),
  (0xb230875ee18a813a, 0x36b5ccccff9e0e98), (0xc9f3e4c0ff96fc3a, 0x569299bce479791d), (0x81498013def0a76, 0xf1e04d8a277ec67c), (0xe77d43d60f3b9ded, 0xee636e4d73fe8415),
  (0x61992fdbf4c2cc70, 0xd87713b242777e4a), (0x952e04a0a1860ff0, 0x662c02b9927801bf), (0xd4764166608db3cc, 0xbe8884d765d4d303), (0xe69d0ac03caf5304, 0x2b3071c2bdfb0052),
  (0x49b14fcfc2249157, 0x718b715db3a552ae), (0xae889e01b6bc02cf, 0xc0a0a97916009212), (0x7f89173e97cfa88d, 0x51e802e7cef9a0a6), (0x12fb5b4d8f845f9e, 0x9e033f04c77ef964),
  (0x1196485150655e55, 0x27d8bbaa51cdde5e), (0x9c14f3dda2207367, 0x26e1fce1ee4a7bb1), (0xb43e833c46b3dac4, 0x230adbb269017cc0), (0xfcdf7f9cb51aee29, 0x8a84fba2f142da29),
  (0x225056ed25fa18ee, 0xba7ce58248d4aeb), (0xb57ac34d281fb496, 0x6e41c55846ad0dcf), (0x121df7d2e100acd3, 0x742675691a0a66ee), (0xc857e5adc6b95611, 0x9fa48a5702f11b87),
  (0x34921c312445d992, 0xce4d17401079efdc), (0x7f7bfed59f302e1d, 0x4ee282eb6d243af7), (0x49447cf98529b7fd, 0x2a4cc3a0053ecc58), (0x6a23dde6cb7e2c0c, 0x7812f43f1282f7a5),
  (0xf998d81bc4119c31, 0xc57c5b4e3c1bc382), (0xfc6acf34257ecca9, 0xa4e4a134ce680769), (0x94edd4b5f40c0b87, 0x3748bf3c66cc8362), (0x4284a3dd8f181963, 0x876f40634dad8bb6),
  (0x7bc046b139d8cac3, 0x366f5e1d20a8c0b), (0xe32e737c9e7be9fc, 0x285a904f030a8d1e), (0xf5ed90fbc218604d, 0xa7945f05a068a844), (0xff71de96f36799c7, 0xccd6b7c782fcf258),
  (0x77be26694a5969fd, 0xfcf92cb49ea50de7), (0xe3c241fc720d6ae7, 0x651f07c0733059e7), (0x116696f426b8476c, 0x14fa08821f970f3e), (0x4c313d8da57278ba, 0x38a9e5a0e9976a89),
  (0x712f8289a1750398, 0x10178fea8e4d2017), (0xc172163fc587f868, 0xd0a9c8105556ffe5), (0x3346a7c351ef1c52, 0xf100d8be96ea02ca), (0xefc0d92bf6c0fc6e, 0xc733255f167d83a5),
  (0x968d23ad673a1f85, 0x5b09879c1c888a4f), (0xbc01db4e2f0b755, 0xf773c39151f03cc1), (0x9a6fafd8ce093014, 0xd5e18627067aec44), (0x7aae7e319e7b94b6, 0x288808f0ea98cbe2),
  (0x4ac4736c8ac3c639, 0xbfe6ac09f546bfae), (0xc7d7b516fea230a9, 0xd57138cb2d42ecbe), (0x52d45461db998dbb, 0x784a9fbcdbce5dc1), (0x6b17ad774ac0c06e, 0x52fd11305d4f313b),
  (0xbc3320eabce6dfda, 0x5d652b156732589b), (0xa43db309561a9eb6, 0xd8751907f4a2b8f1), (0xae2833441294b11c, 0x6ea4b44eca00231), (0xae9d8b4401a3c905, 0xfe4150f98ab1bbae),
  (0x25d6cd5e624f0f70, 0xe73f9bdc89d5c47e), (0x6eb09f374782d2b8, 0x8e5db220867297bd), (0xcda3f43e80700769, 0xf2fb56fafafd00d1), (0xbb64739701446e5d, 0xcec885f131898694),
  (0xb01eae1f3d9fae1e, 0x2f797d040c0dc68c), (0x4b1d19aa64a497d3, 0x6df2ea46cadb1a28), (0xa3892e76d11f89d4, 0x4f9ed8cbf647f79f), (0x55522ad7ca7050a4, 0xd7a70840e3af4cb8),
  (0xa026853604142930, 0x2e7ab17e6fc3da48), (0x69efe0cbd3a11f4d, 0x14d4b447a609a862), (0xdcf8051451a2118b, 0xbe862b8f2db8f69a), (0x661595cef53e8581, 0x9eb856391e51cd55),
  (0x11273d761381a0f3, 0x227506f3821351b3), (0xf82702accda71413, 0xe704219d7d0559fc), (0x333787393b0b7b4e, 0xed38935f4ba89f4d), (0xaa10c426ed4bd977, 0xb6faa618b1ecbb9e),
  (0xc641af236d8a9dc2, 0x579938066140b1cd), (0x2bc07de9ccce9d92, 0xbb2e56846eae8325), (0x3d777d4387c83b30, 0x3907e9aec2b4d73b), (0x44bfb51fc3e40aa, 0xb86f0197da5f0c41),
  (0x402fba992f8a258c, 0xba5457e6f4d12415), (0x17d754af9db84ef2, 0x83033b76a5747f58), (0x78d36388829b29d0, 0x28682ff6a47c9970), (0xfacc179e751f2217, 0xe637200c3f429823),
  (0x44131073edb714fe, 0x7cf8bd4cd98664fe), (0x1031521e1c0d5ef2, 0x87ea991f54fd4c08), (0x601b56bdc12faa80, 0xa1b9aff943957668), (0xa6b4ab966b856139, 0x6ad7ada5102f9591),
  (0x3e695b5119afadaa, 0xaa110b637be54221), (0x63a52ed0baaf8a3, 0x35b0fbf10d507096), (0x80f863c84faab8cb, 0xff70a81c26abf8ee), (0xdbc1a3e03a8c5fe7, 0x2d4421440bab116),
  (0xb33a635dba79523, 0x20ab75c26ac82a51), (0x1f67b25f5166bb9e, 0x10fe87436e2c803d), (0xaf16ebf0f6411b07, 0x5d2b18ba5db60971), (0xc849c3f601c793ef, 0xae40d55d85a92e3b),
  (0x4719b4e2246f54eb, 0xe3205e433d7660fb), (0xa443d5a875175dc3, 0x2acf07ab68a239d3), (0xc0e2b94d09271fc2, 0x41a07d788090b576), (0x44131073edb714fe, 0x7cf8bd4cd98664fe),
  (0xb68daff9d666a2c2, 0x50450bb9f18d5d85), (0xbda1bc5b9d49b342, 0xeecf13b371990cd5), (0xb2618ac85b6dc70d, 0x829ffb9ceb1d06dc), (0x2275296130b8e0f7, 0x75b7d2e4d6226dec),
  (0x6f4bc7b5bf94d9c5, 0x6e34f93256aed2e3), (0x6aac0ad201726dd6, 0xcd5b7cfd11854e74), (0x249bfa54572d7c8e, 0xf1fa836b1dd54581), (0xd9d23886966295df, 0xb34dc57e70b7bc0f),
  (0xea92fe564124b0d2, 0x5f3917fb238a1ad3), (0xfbbad0bd5f0b316, 0x17382733c8849606), (0xf8bbc49b70779fdf, 0x7e40f3d9ebc7d24b), (0x7788ffc73ccc2463, 0x347825c3162e77fd),
  (0x1b07544402abfd22, 0x2694729f2be2db1e), (0xb114ed9553535339, 0xdd6b549a42682458), (0x46d4c9b9ad5a2ce2, 0x9b9eee7db1f9624d), (0x30702e410cfe2b15, 0xc2eba3be6aa7370e)]

/-- `MatrixM128_inv[7]` -/
def LMatrixM128_inv_7 : List (Nat × Nat) := [(0xe23a48f62ed2479a, 0xf223a814a3bff6ea), (0x3edb7f0b552fa829, 0x34828d56d64a948f), (0xfadcd69c906b7de, 0xaeb258f70a6e9ede), (0xc023a4cd5bb776, 0x6b2306fa12d434b3),
  (0xc569bfaedc052401, 0x4d210c4c32e4f1dc), (0x38b2515ec2fc226, 0xccf66da0f3f85dcb), (0x23eac5e0c1dbd6d3, 0x1463741083f0da4f), (0xcd09d4a3756ee9a6, 0x933e3720003919d8),
  (0xdd1727921547a12b, 0x58f6cb7aa0fb3487), (0x4900230c4b63d5b1, 0x6bd7e5140b6cc327), (0xe15ffece83dd8bbe, 0xa0f0743443c46043), (0x7765afc2af03387a, 0x6ee7a1ad75735187),
  (0x372e62faac405c40, 0x6f269895bdd013ba), (0xe29cf7148c80c670, 0x459626caa9676526), (0xb55bb0459903c959, 0xb5151950e2494de0), (0x5c2dd2e9fbd06164, 0x7a0ff24870b1cafb),
  (0x12d82595b4802743, 0x63da9cff101cf21e), (0x597a8257e75f52e3, 0xa00063dc013fd3da), (0x4776ac6864801476, 0xf3a132be3462a090), (0x49214c3c7ff1b06b, 0x8086dae8dea63b19),
  (0xb894a24c61dac13a, 0x7396a9dbbf3f0e98), (0x49738020f3dd6c3b, 0x9fdfbc9cacf96b15), (0x80109971bde702d6, 0x34f509a86f1e8674), (0xed2966e60f25cdec, 0xbe332b477b3e9615),
  (0x49792cabf08e1475, 0xfd6f52bb4ad72f4a), (0x9f0a418021d4d7d4, 0x271407989af902bf), (0x7e324664ecc2eb69, 0x1a83a5f565748003), (0xeccd2f923cb55320, 0x7e4151fab51b0352),
  (0x6b3128bdc6768973, 0xddd47159b34451a6), (0x2e48fba132aec24b, 0x21d1c8125680d112), (0x7fd9721c1fc42008, 0x65a362fb86d8f3a6), (0x907f7ccf83c11f3f, 0x96433e0dc73ee964),
  (0x99460913dc768ef1, 0x5af79be811ed9d56), (0x3ec4b0cda62aebe7, 0x72ab9d99aeeb78b1), (0x94eee23ecabc5245, 0x92439ba321c02ec0), (0x5c2b3c8eb14e6e89, 0x13cedaaff9c29b29),
  (0xaa2477ffa5fe08ea, 0xbb948a5e2c0c4aeb), (0x3d2ee4ef2811fc32, 0x5676c557062c0ec7), (0x3afdf1e2e1162c76, 0xf95c511912eb34ee), (0xe837873d4af64e15, 0x3f88ee754270188f),
  (0xb6625d41ac129112, 0x1f6516025078eddc), (0x77efbda5137bbe39, 0xbfbbc2be25e578f7), (0xc3245fab8d2c2f7c, 0x476c83840d9e9c58), (0x42779ec4c72bbc2d, 0xc911b5731283e6a5),
  (0xf1e89939cc0acc94, 0x70703e3a7c7a918a), (0x5cceeba625364c88, 0x25e7e50fcea85669), (0x1e39d3777402db82, 0x373bf5c26ecd162), (0xe8e0a09d075f91e6, 0xee2a04794dac99be),
  (0xfb6463f1318d1ac6, 0xa3669086928add0b), (0x692e74ae1e71f9f8, 0xc03cb52b0b0ace16), (0xdd0d93fb421c70ec, 0xec03b0ee028b94c), (0x7d01fe64ff6ec947, 0x9de4b2eec23cb258),
  (0x5dfa64494a41a1f8, 0x7da82dc2dea41de7), (0x6366435cfe187ae3, 0xcc4207873b7159ef), (0x1bb2b12626ae0768, 0xe9a44cf41f770c36), (0x4cb55dcfa57ab01a, 0x31cf81d1a9966a81),
  (0x7b9fe04b2970839c, 0xc850caba868d201f), (0x4136308dc992f049, 0x7183cc1c5d57eee5), (0x1316a03159f284f6, 0x4d1df9f7d6cb02c2), (0x6f009ad976deecce, 0xe65024375e3cc1a5),
  (0x1c9d65dd672e4780, 0x425ce2c114089b47), (0x1101a9666e8a7d5, 0xef6383dd51317dc1), (0x123faaf8ce41f0b4, 0x6da8a22546faec44), (0xf2aa7da39e7f0c12, 0x98a0dcaaa99cbe2),
  (0x4a7434fe0edb8ebd, 0xa2bf8d0dfd67bfae), (0xef97d234f6e5708c, 0x313d58b56d63ffb6), (0xd09455c1dfcd0dbb, 0xd972ffc49bcf5dc1), (0x43f78b0546d100eb, 0x33ee54031d8f603b),
  (0x96174518b0e9c7ff, 0x346f6a1227730a9b), (0x8c19f7295204c617, 0x3c6a3863fc43eaf9), (0x2cac308412d2e13c, 0xeeea6a5ba4200031), (0xacddae240dee4121, 0x5e3555cbc2b0bba6),
  (0xa7e2883eea0c1ff4, 0xb355bbc7c975c77e), (0x4e40fea543820219, 0x57249603cef3c7bd), (0xe7f790cc006cdf48, 0xafba13e8fa9c51d1), (0xbb6435650152eedc, 0x2e880d771a89494),
  (0x108aad5fbddbe69e, 0x336d391a042c8684), (0x69c95e1860aa8753, 0xf0a7ab71823b1820), (0x29296e96dd4ad171, 0x8b9f9caab626a79f), (0x7d766ab5c23d1024, 0xbe8f084ceb6e0cb8),
  (0xaaa286a6801ef191, 0xab77f16b2fe38840), (0x6b5f81cb5ba40f68, 0x8a9f026a669b96a), (0x5edc4486d5a2518f, 0xd7d42bf56539f79a), (0x4cd5d4cef5641520, 0x7b90560b56f1de55),
  (0xb94758e49f8c2077, 0x6b2807b18ad250bb), (0x5083211ec9b94413, 0xa57658a75241afc), (0xb9a7a4193f4333cf, 0x7556f76b43688e45), (0x85480e46953d953, 0xffb4875af96dfa96),
  (0x4455ea916181d543, 0x4b8f3c2d2121a2c5), (0x9f45d7b44839db2, 0xaf0b37df660e832d), (0x97571e9383c2abb5, 0xdd5fedef8ad4843b), (0xcbffc017429082a, 0xa86a61a5da1f0e49),
  (0x625fff4927d9b58c, 0x4a6b33e8f4d1661d), (0x3703523d91f79e53, 0xdf443e34ed946d50), (0x7a0765ca0e90a9d1, 0x74686fbfa49ccb70), (0x5aec302c79087213, 0xe31021177722db2b),
  (0xe49355c3eda114fa, 0x38f6b950996766f6), (0x1061709e9c150ed2, 0xbef6b8705c7d0c00), (0x684b707fcd623a01, 0x39d7cbd243d56660), (0xc40ace46f91e119, 0x96e8ed8b18ced599),
  (0xb4a97d0199bf2daa, 0x6434b777b850221), (0x26be703f87ad3827, 0x78c1db880db13296), (0x83c663ac3adf86f, 0x7e3ca955666abbe6), (0x5965e3a236895763, 0x46ab265d085af11e),
  (0xa9a7a0655baf8582, 0xf9cb11f02a087a51), (0x3597f14d512cb3be, 0xecee8234260cc23d), (0x5d2af127e50dba6, 0xbc1b1ceb15b65871), (0xea0de7e4098ecbea, 0x4e75f15dcd293e33),
  (0x6fc9d2d2ac3404ee, 0x370d5b387d5732f3), (0x8ea3d7ea7914cd47, 0xc7f307f720c37adb), (0x6266d9ff0d2dc767, 0x28d81c5d80d0a776), (0xe49355c3eda114fa, 0x38f6b950996766f6),
  (0x163deb89d2746263, 0x417b0ed3b1cc0f8d), (0x17459c291d557362, 0x83ea53f271b80ddd), (0x90c1aa085b23c72c, 0xc2d7fa8ee35c54dc), (0x2a554811b0e430f6, 0xfc8eb7879ee37cec),
  (0xcd2be605b3cf19c1, 0x6f42d97716af90eb), (0xe86c6f728126a5f6, 0x883178d251e50f74), (0xacdbf834df74bcae, 0xf8f9c77a55940581), (0x7b3658d6127855db, 0x167fe1747097bf0f),
  (0x6a56fc74452e7877, 0x335952fa23ab09d3), (0x5ff8b5b51f63313, 0x334a426980a4c506), (0x72bfc429fc3ecfdb, 0x5b76d3c2a3279343), (0xff18b945b0933ce3, 0x6d6d45a31e2f35f5),
  (0x19a710048eaebda7, 0x4f9477e82b22ca1e), (0x1b148cf55b185b98, 0xbd3e50b34a283650), (0xe674ce79a50bbc42, 0x9e95ea5df9d9234d), (0x12a42aa100b7b331, 0xf7ffe6e662873606)]

/-- `MatrixM128_inv[8]` -/
def LMatrixM128_inv_8 : List (Nat × Nat) := [(0x920969a73e9adf7e, 0x7626e426e69be5e2), (0x1e7bdefac167a0cd, 0xa295a35ad46a95df), (0xc7484f28e950afde, 0x3eb63ec1496e8fd6), (0x424400747d4537d2, 0x293040fc115a27e3),
  (0x8d899e8f7805a441, 0xd252a7c1362e0cc), (0x3baca6f54c3d42e6, 0xccf64bbcf0fc0e93), (0x5300e5b075d34ed7, 0x54741632a0788907), (0xa7a477f2e576e922, 0x4d3f5b10439d1ad8),
  (0xbf4b26e3011b212b, 0xee1c16cc65d67c7), (0xab8021ecdf65dd71, 0x7dd0e31c6a4cc16f), (0x9901de5e83851b7a, 0xe0f2363a26443303), (0x65b7aee39f51203e, 0xeef0af8f32fb52c7),
  (0xf59a410bac4cc424, 0x3934f6afb9fa51a2), (0x60c4d4458c8cc694, 0x478040deae6f242e), (0xfd8f12259d47d179, 0xa103574ac4675df8), (0x640252c97bd2f100, 0xf41d9e64139b88b3),
  (0x486e8484009c2787, 0x39ddf8dd559ee316), (0x598701f643594a03, 0x7e166fc06791c1d2), (0x5574ad4974960436, 0x6fb2348c17c0e388), (0xeb9c6f4ceba9306b, 0x9687d2e09b886a41),
  (0x227b80fdc192d1fa, 0x7784cdcffd9f4d80), (0xb3b882d1f797e43b, 0x5ddbb2b0cfff7945), (0x601d38213dff1a72, 0xb2f145806db48674), (0x476d47473f63dd48, 0xf632674b7b3c944d),
  (0xe3c08e7af4929471, 0xbb7f18ad0ef96f52), (0x7727418081d45f74, 0x350409b0d9f701e7), (0x5c3745657896f30d, 0xcc90afd326da9343), (0x84d52ec31caf5380, 0x325151cef3b1434a),
  (0x6ba18b6de27e8177, 0x41c25b4fb66611be), (0x46d97930b6e4424f, 0xa1d1802a1186811a), (0x5d2530c9f9ca0cc, 0x79a100efc678a3a6), (0x9abbdece9787075b, 0xc6423e19e438b87c),
  (0xf18ea862586e0e11, 0x4e191e4714dde5e), (0xc41f117d92227bc7, 0x2ea8dfbfc9c939f9), (0xdc6fe01f7eaad2a1, 0x1052d9a9204a2ec0), (0xb6cf1ebf8512ee09, 0x93cdf8a9bac89a69),
  (0x6a58d47f25ba180e, 0x3996ee4a488619b3), (0x377264ce2817e472, 0x1c60e55f40ae1d97), (0x6807d3e2e112b4d6, 0x274e572f54c735ee), (0x900d07aceeea4651, 0xed8ca85306721bd7),
  (0xbcc2fca01c168116, 0x8d741c1251f2acd4), (0x1d731ff5b72336bd, 0x25aba0aa236f3bb7), (0x6115fcdaad60a73c, 0x37ce3a46b329c50), (0x1a60bff4d375244d, 0x5b02d5751607f7ed),
  (0x1da3839ec1accb0, 0xee7450165a54d392), (0xbc72e8263574cce8, 0xfdf4a939caaa1429), (0xebe72a7f40c4b66, 0x4d71bd7044cc917a), (0x4895217c87491982, 0xac2e487f6b2a8bb6),
  (0xebc3e19021898a46, 0x2377fcaad2889c5b), (0xfb64754eae21f978, 0x5a2b911f6b04de06), (0xc7ef13dbe2586808, 0xccc47f00c222e854), (0x6d63dfb4eb76d163, 0xdde7becac3b2f248),
  (0xd5ffe4c84a0339d8, 0xe5b80dfc9e224cbf), (0xd1c0605d4a1c6a67, 0xc572d973af958a7), (0xf13f90f626f007ec, 0x27a222dc3dd14f26), (0xae20de3f953220ba, 0x3bc8c5e1ae9a29d9),
  (0x1b7e620a89241bfc, 0x84686aec7856357), (0xd13990acddd6f009, 0xbb90e21c3e59adb5), (0x735e00e079ec0c76, 0xdb09f3edd46503d2), (0xcfd019b8c688fc4e, 0xe4532c175ab4d3fd),
  (0x2496c63c47285f80, 0x50488ecd54868817), (0x49813916d2e8af31, 0xad62e3c534bb6d81), (0x1a378b48ee596854, 0xe7b8ac2d4470ae44), (0x10efdc33ae7184d6, 0x119901faca1998f2),
  (0xa09d357fba999e3d, 0xb6bea719be4dbcae), (0x3f9cf385f6bb78ac, 0xbf293a832fc7efae), (0x28ef450cb839dfb, 0x4b73b5f4fe4d1c91), (0xfb540ac4429388af, 0x2bec10317f0b6073),
  (0xf47a475994afcf5f, 0x766d000025fb09cb), (0x67c57896612c633, 0xf26d1a499d69eab1), (0x67930650294e1b8, 0x6ceb424f812a0161), (0xa4c48ff439e2c1c1, 0x9c2051ff8436a8a6),
  (0x77cda8de7a0e1fb4, 0xf556b9c3a9d7d466), (0xacf07ca467c2825d, 0x9f34903d8b71c4fd), (0x5fa0b29d803047cc, 0xa9aa5fe2df3e5281), (0xc966b5a521147e1c, 0x84e8aceb71029594),
  (0x325e0cbe1d9ffe9a, 0x75695d084080c59c), (0x610c5eb854be87f3, 0x6eb2c347c29b4b28), (0x61d96f77d95cd151, 0x179fd09a910ee6c7), (0xb70ac855f23b1060, 0xae9e2a4aef6a0cb0),
  (0x30758437340479f5, 0x6f629b63284dca48), (0x53f523cbdbf0176c, 0x4cbdb602c643fa7a), (0x2eba452741f259af, 0xddc72bc56735a78a), (0xc54f7cec56685e0, 0xb591543517d7cc05),
  (0x53275bd42b90b053, 0x2b3d0db7895243e3), (0x3a77239fddbd4493, 0xdc440198330c08ec), (0xfb6607280b1b3bcb, 0xfd41995f60ecce15), (0xea408025ed53c133, 0xb5b28554fde5f98e),
  (0x64096a815599d523, 0x5598301d2689e29d), (0xbd1dcebf48d8df2, 0xfb0e77d1442a9175), (0x376ebee297da2b75, 0x414ee3f58d7e967b), (0x96007fd0c47500ca, 0xf26f2989dc991e11),
  (0x18357e9917812d2c, 0xd86c55ee97db6655), (0xf59fd22da5eb1637, 0xc1433a36a9303f58), (0x5adb468b8a823935, 0x78782fbfc3329b68), (0x2d7301d6d0472f7, 0xf717290d3284c96b),
  (0x7609f642cde70cba, 0x7ee09f42bfcf65fe), (0xe03a730e0c0f0e12, 0xecf39248587f1f00), (0x3249d32ef96ea241, 0xb9c085ea225f7578), (0x86ecad046bd77139, 0x42fe87b959e0c4c9),
  (0xc6bdff119e5adea, 0x9851236b382b5371), (0x9638d1de33abb087, 0x34c0d3ae2d13709e), (0x60b844db67ebf06b, 0xfe28ab4d4464f9ee), (0xc383e2d232855703, 0x4aad605d4bfae106),
  (0x132002b5fbb79dc2, 0x39db5dce490a2b19), (0x3f37735d4174abfa, 0x30efae0e4528c375), (0x1d5cac42de4a5ba2, 0x2e0b10f935bc1a21), (0x6a10c7f439c4db0e, 0xdc60f54feb273d63),
  (0xed18d3c31c6e1cae, 0xb31855023bf323a3), (0xd641f70b7d0455a7, 0x1be725f501ef3b83), (0x58a9585e292d5727, 0x30d87e738356a57e), (0x7609f642cde70cba, 0x7ee09f42bfcf65fe),
  (0x46cf4b49d674e227, 0x197d08fdf44c0dd5), (0x4fe23fc9ad41f326, 0x8def13e0711a0f95), (0xa06b8a695b65c7c8, 0xc0d7f08ce15c44cc), (0xe875eac000eab876, 0x669ff9b79ce96cf4),
  (0xdf5866b487d59941, 0x2745f96d52a9d3bb), (0xc0ec4d6231283d12, 0xd42256ea33474d6c), (0x96d0db447f2e3c8a, 0xa0fb837e341457c1), (0x73825817962acd3f, 0xd26ded62163faf47),
  (0x52c0fdf5713ee057, 0x2f481eea67075b83), (0x17a10b2ac5eaa3b3, 0x25590e618408c61e), (0x78e247b96876cfff, 0x1761d3c6a68d901b), (0x67d339e414852c67, 0x2769059f5fa376bd),
  (0xb30633750ab0bdc3, 0x5f8453d42924da0e), (0xab460c146b4a4b7c, 0xbd2b54814d2c3750), (0x648d4db9b50b2426, 0xd886ec63fef5711d), (0x2063a8e134a733f5, 0xf3faa2fc002d261e)]

/-- `MatrixM128_inv[9]` -/
def LMatrixM128_inv_9 : List (Nat × Nat) := [(0x427e89b65fd2d51e, 0x77b7f936f31eb6e2), (0xb8535adbc9258aad, 0xb146bc52c7639787), (0x2309ed1dd902877f, 0x6be62cd94bcaded0), (0x6c0866c4045d1776, 0x2e2043f043dd73b5),
  (0x49c1be9e00048601, 0x4d753860266df5d4), (0x9fc720714d2d6027, 0xcd265cace3dd5bcd), (0x4162c1b034d36477, 0x51e61036c650db47), (0x93e15143dc6dc382, 0x5a2d520c50b01bda),
  (0xa957a6f20840230e, 0x5d71df78f5f2328f), (0xcde8637cbf66f514, 0x6e51e51c4e4c872f), (0xf13dadeb3d5319e, 0xa0a1353e02c46545), (0xd9c12e62c6082adf, 0xeff3a48770db528f),
  (0xd8e239a8546ccc5, 0x2eb6e8b3e85950ba), (0x2cb416d4a48cc475, 0x444346cef94e612a), (0xcbbb5091ed0cd1d9, 0xb190495ab76c4eec), (0x446932e922d2d344, 0xf78d93647039c8f9),
  (0x38540425298e2766, 0x2e5eedd944b5f112), (0x83de07f77a5b4046, 0x689563d41416d6d6), (0x7b328dc8248c0c52, 0x7fb3379420c3a092), (0x7854decc3fa1a4a, 0xc115cee0ceaf381d),
  (0xbc7006dcc8d3d93a, 0x7694dddffb170e98), (0x57db24d0aed7ee9b, 0x5a59acbcfc706d1d), (0xc034d8a55cee3853, 0xb0e05d882bbac27e), (0xff2967e65e2ad5c9, 0xf3e17b4f6b1f9017),
  (0x6f99a84fa583b455, 0xbc3d13b15ff26e48), (0x91628190b8de5555, 0x634603b89a5105b9), (0xd41a67c401ccdbcc, 0xdb83a4d764dcc703), (0xe8edaed26dbe7925, 0x361150d2b0bb0056),
  (0x9bb5697dc274a1d7, 0x1543545fa64552aa), (0x6ca8dfb1e6a5684e, 0xa1029d3a06219212), (0x6d9d13a8eec68a2d, 0x2c6306f7c2fcb4a2), (0x5ed31c5fcec42d9b, 0xd3c02b05c616e966),
  (0xc586a847387c24d4, 0x57708ee855e9de5a), (0xcc0855f9fa295be2, 0x7faaccb3fe467bb3), (0xfa0ec63a26bbf060, 0x1300cba165cc6cc2), (0x28eb581ab54be688, 0x920defa1ece7de29),
  (0x2e2432cf3df318ce, 0x3b86fe5a28044aeb), (0xbd42c45f0816ee97, 0x5fe0e05b430c0dcf), (0x8a7931e2c918b6f6, 0x75ce503b134372e8), (0x45fa799c7f84495, 0xfb4dbf5706dc1f81),
  (0x60ea7c314d14a113, 0xdbe612020159efd8), (0x7f4b79f5c7711ebd, 0x726ba7ba74e43af7), (0x85605a6fac29afd9, 0x72fe3a0091ad85a), (0xf67b7bf0a3270688, 0xdd3d07d1787e3a7),
  (0x21a49c19fd01ecb4, 0xfc354a1e28dbd380), (0xfc228a825d36eca9, 0xe825a525cb041769), (0xd4d59287bc0c6986, 0x4aa2aa7c62649362), (0xa8ce5edbf591967, 0xef6d417348849bb4),
  (0x2fe447a11981a0c6, 0x22a7f1a2c323980d), (0xbf2255da9e7ad3dc, 0xc79900f0bae8d1e), (0xb1cdb74bda196249, 0xcad56f04a000bc42), (0x3f41fb04ea67f1c3, 0xd9b5b7c686bcf65a),
  (0xb9d2244d52481b7d, 0xf5f91de48b091de7), (0xa7aea668531562c7, 0x4dd723837e7d59e3), (0x1f5a746607a90d6c, 0x65723cd01bd70f3a), (0xd411583fc473223a, 0x3889c5f1e8166e89),
  (0x3f3b60afb97c393c, 0xcd79bba92882011), (0x5d5ad02d8496da48, 0xbc41fd105d5fefe1), (0xed7620d139fe0c57, 0x8d0ae8fd92eb06c8), (0x23ecdf0ddfd1fecb, 0xe6d3211f0ab187a3),
  (0x89d40095f2b7d24, 0x6c882cd00059a4b), (0xc7b4bfa293e1a751, 0xee30e2d1551538c3), (0x181fabf8df484a11, 0xe5eaa62503daec46), (0xbc82b8a38f7b84b6, 0xb1ce2fa38cbe6),
  (0xca9cd16ed2db9c9c, 0xe3efbd09fd4fbfac), (0x45d71310b6ea5a2c, 0xf97b299b39e6fcbc), (0x82b8f0f5dbc9b5ba, 0x1ca1aaecdf6b5dc5), (0x217b4ae55ad8a86e, 0x3a3f14215c07253f),
  (0x7037c148d5e7ed5f, 0x712e1a147672489d), (0x38793729460aec13, 0xb13c0945fce3acf3), (0x3a2870e022d4eb39, 0x6f285f57e0240633), (0xecf1ebd040ebc125, 0xde6051eb861cbfaa),
  (0xe3c64c6e130f35f4, 0xf356abcf995cc478), (0x38c81e9146828819, 0xdf7792219f5687b9), (0x97d3b4bc896145e9, 0xaabb57eaea9514d1), (0x3d4015a1395c76d8, 0xc2eaa4f321059692),
  (0xe84e881f7ddffe3a, 0x73f84814012cc28e), (0xc74d9ab82dad8572, 0x7d31de57d6921a28), (0x6fa56bc6a147d954, 0x425ccd8ae7afe39b), (0x4b162e558a311001, 0xfb0d3c42eb4648be),
  (0xf2022292741d7b30, 0x6a32906f7ec6ce48), (0x75fb61fb8ba81dcc, 0x48bfb406b2e8b862), (0x96b8c5a278a2792f, 0xdf073fdd35b4f298), (0x245975dac46e8d20, 0xf7d157291375d951),
  (0x916b3d4022899256, 0x2fbc03b38efe51b1), (0xfc6f65bea5bf6c32, 0xcb45018c640d5dfc), (0xb90f85b91b4a336b, 0xfc50934f47e88b4f), (0xa6382024ed52c1d7, 0xf7f08658bc4dbb9e),
  (0x4c5d6a812582d542, 0x46592c057480a5cd), (0xe7dc3c5f9c868db3, 0xaacc72d562028725), (0xf77f7e47d6c82395, 0x140ef9edcfd0c739), (0x8e5b7945cd2720aa, 0xa12c2185dbb30845),
  (0xdc7b7ab956db2f08, 0x8fff53e6f1d12017), (0x7af722d84f83cd3, 0x97022a36adb46b5c), (0xaceb04bebb923bd1, 0x3cab3bb7a4988d70), (0xaa8854b8650f5a36, 0xe717201d262f9c23),
  (0x8433b4e7f5a6247e, 0x79f18d5ed94b64fe), (0x1e25f13e1d142cd3, 0xfb208d5c59fd4c0c), (0xe80fb10f8066a280, 0xb8919efa575c6668), (0xba888da46b9c7319, 0x12bc9ca50d4f9595),
  (0xfc69997551b7a7ab, 0x8b103a737aa94225), (0xdc5ef5fb42a3baa6, 0x7452cea21c147494), (0x9cdc22da6fa3dacf, 0xfe78b85d2642fcec), (0x4dc9c6526b855547, 0xf7d66554c72b516),
  (0xdf43a4819ba7b522, 0x3c8855d26aac3a55), (0x1b13b55d592fab3b, 0x25fca71262a4843b), (0x6f3eeef6b75859a3, 0x790809e940bb1973), (0xc86923507987f9cf, 0xcea3f15f990c3a3b),
  (0xc54d135675361c6f, 0xb38b4a1238db70f9), (0xe60b571a251675e7, 0xea626f974ea3dd1), (0x108ebceb00277546, 0x20cb6d7b855ca174), (0x8433b4e7f5a6247e, 0x79f18d5ed94b64fe),
  (0x68b1cbfdae7ee242, 0xc6e1af9e5614d81), (0xb7e19dd98c50f342, 0xca6e17f061b90cd5), (0x7e018adc2a24e528, 0x8754ee8ce37816de), (0xb27da8d130e89a53, 0x755ef7a7db637dea),
  (0xa96b2215bfc5b9c5, 0x6615e97156a7d6e7), (0x7eacaff6512a1752, 0xc0f148fe11414e72), (0xeab7f9f416743eaa, 0xb438877a01bd4583), (0xc596dc96d773e55f, 0x93efe07e75b7bc0b),
  (0x68d659400925e2d6, 0x7b9b13fa36860ed1), (0x15bf8b1fe5f0a336, 0x72d80261c5a08202), (0xb0db61ad7037e5fe, 0x5623d2caf62ad64b), (0xe9f079d55c942ec3, 0x65fb01831fa777fd),
  (0x852b35f032ab97a7, 0x4f5456cc2e8ecb18), (0x2334a8015b1b4199, 0xf8aa50994bac3458), (0x46d46b89cc0b06c3, 0x9ad7fe7fb851624d), (0x7a488af564b63335, 0xb66aa6ec7782370e)]

/-- `MatrixM128_inv[10]` -/
def LMatrixM128_inv_10 : List (Nat × Nat) := [(0xe461b0317e589b0a, 0x8304e6fe8f129f7a), (0xf2473e0c5ddaa285, 0xb2af74ee6e344b22), (0xb9cc052eff69d53d, 0xac2eb6fed3a82a1c), (0x185707616bb08437, 0x61d738652ce11f88),
  (0xcff777bb49ff966d, 0xdc11764fb976f7ac), (0xa3c860e67ab86b52, 0xcc53f63f7746829d), (0x5ca626f99fa78e8d, 0xa9588f3e03b0a991), (0xfcef483d04b1280b, 0x61fb201056dbf499),
  (0xda87b80c419fc4a4, 0xfa727ed976163dd7), (0x44202469eaa57f5c, 0x43c6c25fa7f3a7f1), (0x52c6f31d0a4b0806, 0x34f0d0bae0de1c77), (0xc84a2575563f0142, 0xd655b5097c7ac8f9),
  (0xf4f2aa499f130a74, 0x6949bd36af6e465a), (0x83ecaf4aa694298d, 0x5d17357b9f916921), (0x8b76994165aac005, 0xd16309893d3735), (0x97ee9136a545f270, 0x38e82c427936f6fa),
  (0x8dd343712d7534bb, 0x92e13f938e2ba67e), (0x494ccefe5381b57b, 0x31b044a4b1439fe0), (0xa42260747317ce40, 0xc847182aa0d09101), (0xd3e0801ec8cb0429, 0xaab3598a116d3b5f),
  (0x2f56d8b138be9b8, 0xfb85cd58665b065e), (0xe1e3d30b7dd324b8, 0xc44d00003105f808), (0x277e524eebc1ba5c, 0xade66687a0749c5c), (0x13598d6ddea5a508, 0x526a388ff90b5723),
  (0xa5bcf8d5a0177892, 0x53c3f378b531495c), (0xe13adc7e0c51a37b, 0x3d15cab45ba819d3), (0x3a882c7978259f54, 0x8b59b00d45d8f944), (0x23b68a135d10da27, 0x55827c1242f10696),
  (0x30220a5358de2e3, 0x84bbdbcbc556e9fb), (0xe9ca3f77d56e7279, 0x54ffb98c5e52137e), (0xc334bcf3ae4f7319, 0xde546934665fbc59), (0x97358cb3a495ea20, 0x29c5a1c4ad8334bc),
  (0x53bd8a2118fb5e81, 0xc3344f030b202fd), (0x2957e18079957133, 0xc3864dd0aa794f0c), (0x325fc26405b956da, 0xdc770357722feb52), (0x3cf7063adf1711bf, 0x3e76ded7ece7d205),
  (0xf73a5085437e527a, 0xd39f8066ab88a7f2), (0x5e74973882908644, 0x8dd44e63531cc9fa), (0x9dfa4f4c600c12c, 0x5b0501d8446856ab), (0x6f70295c7e7194ff, 0xab4279cb9ce7b8ae),
  (0x9d887dec97cccecf, 0xbf6b31afbf22b2e0), (0x17b12869d47d61c1, 0xb86f7f4884230739), (0xebd090c63ee3e311, 0xf678eb27cd188bfc), (0x30172c2495473823, 0xd5463b805f4affcb),
  (0x1c480433b6aa76a8, 0xdd47359c53c24586), (0x1676dd6fbbdd2d81, 0x95b651591fb27550), (0xed0ce26f7f3e896b, 0xddd79b653fe681af), (0x4c5a42b67226cf67, 0x439ad4d3400d8caf),
  (0x153970819568d7e4, 0xc16e82226731253e), (0x978eadc18d5141a4, 0x31c1a5a55c1eece2), (0x857fc068260cfb87, 0x1945ed248e89f025), (0xd88d854312168f64, 0xcd8ad82bc313f7de),
  (0x4ad913262fd7ed73, 0x14bccf9a828a27bd), (0x4a6f578c00bc4ea6, 0x8c619ef347e59cdd), (0xf5fd459f854deecf, 0xc06570efca7ba8da), (0x2fcbe763494cf568, 0x69241be3a06cc1c7),
  (0x16c99461a2473044, 0xe2a34805a70c17fd), (0x2d7e34bfed5ce59e, 0xd7fae085592f9dda), (0xe853b5ee09167f76, 0xf61a5a3e80f4dd11), (0xaff27d21d3f9197a, 0xa53b2ff28d03afdf),
  (0xd418caf21ad403c2, 0x86cfd9ae219135ba), (0x87ab2e4642123720, 0xe9d1f2df667be08c), (0xf6ca6832c84036cb, 0xccb960cd32b294be), (0x2b86de9494fb9aec, 0x1aee42a6bab3c65a),
  (0x8ec75608e2dfc042, 0x4224e6547b32b3e6), (0xc300a7daa4b6870, 0xfc0944b77c405c1c), (0x198dde9b298268bb, 0xc14ec029310dc535), (0xa03094f0fb63a567, 0x36f51e0ec12a0df4),
  (0x1108a46369da82f5, 0x84fdc0bee8d96496), (0xaca2d97fda522915, 0x4b954c00391c464), (0xfa4125017ed7b3cd, 0xf25115e1b03f35a1), (0x90af4cdbcf4dafc0, 0x6ab893efb4aefa41),
  (0xabe4e7b8f79ea891, 0x36bdfb193e7fcf2), (0x671b28f521cf88c, 0x34e3000f1a518c07), (0xb37fdb8276d13cdf, 0xd0e0da1b58b2455a), (0xae6d57ee995bee19, 0x9b948e5d32fe8fa),
  (0x6009339adb5d6727, 0xada1bba6888debff), (0x7dec414da0bbbedb, 0x5afff7400e71e926), (0xd30789724859862c, 0x4be2f8ec7bc01e14), (0xba546ff8bfc07f99, 0xc1cef3bf688b319c),
  (0xe64f80d987be32cb, 0xd2142612e6352e4b), (0x56ee1b947e564bd8, 0xb1c6c9c80ba13a68), (0x53da0877e7d265d4, 0x75b507fe96e4d7a3), (0xa639812a22d7b813, 0x41c1dd90b9ad4664),
  (0xbfd5f87df920b81a, 0x738d9db87646e97e), (0xa8bf50c4cf4c3c28, 0xb19f5210caf43505), (0xae6f4fea860cf366, 0x8104aa087aa792c2), (0xbdb5a6e2128981bf, 0xfea29e49072bbdbc),
  (0x16b9b782b56369e7, 0x52b27017d1c681c8), (0xbaadcf06c28a183a, 0x314ef7d2609c21cc), (0x104d3ffe77d81aee, 0x8eb64ce3bd806ac2), (0xf9df396110212ee4, 0x577a4c397d9c96e1),
  (0xd7df2ef915fee1c9, 0x31ba0903eda77358), (0xf7d2cf081085b7a6, 0x66a8562b54c7108a), (0x21b56fc61bf8ea22, 0x19fde6a9d2021dae), (0x965a129b3772e37c, 0x94c7cd79cc64589),
  (0x1e23e6c17dbc6c6a, 0x3e24751d4c1a9e2e), (0x171831d99938c871, 0xa6a63704443cdce7), (0x38efb81f83236a26, 0xa9b2410b4f9f499b), (0xe8a03995b839e7b4, 0x4a678418057325f9),
  (0xaa1c4b007cf7703f, 0xef030669c34e69f5), (0xec530b44ff1d80f5, 0x9c8ec325d8e01b15), (0x9acb5d72a59f53a0, 0x55665cce66fe3e07), (0x443e1391191e8a86, 0xfe89f16a329e858),
  (0x4c3bf1e8be16e1c2, 0xf5fe56ab6a34d5c5), (0x7f41c87dc23f5d5f, 0xfb387cf8acdf3d0), (0xe28e36ab55cd08a4, 0x86bbc4743fa5912b), (0x534b15f447246d, 0xa1d086e5be95f80a),
  (0x59b8a92f508e5f44, 0x5ed202672c5a814c), (0x47569b02e82133a1, 0x55b8c073db4863fe), (0x5194cd6a533a5f1a, 0x940afd6d3b20a9a), (0x1e23e6c17dbc6c6a, 0x3e24751d4c1a9e2e),
  (0xa2a20c3f5c6e11d0, 0x49d65f53cca4add6), (0xb1abcc02d60ba964, 0xe9145a313b0f03c1), (0x88bffd952a503b77, 0x8afe35c45a2ac50), (0x47c7bd4d97c14304, 0x7635b24d2a4a595e),
  (0xf16e2602096a02d3, 0xcb67ff29d2fa8bc0), (0xe699d2f6dcefc4cb, 0x5aed56621f864f40), (0xd12b194719c800e5, 0x34715fa2d0bdd30f), (0xa3d832b5604e6e13, 0xa4432a19cbb73a1e),
  (0x853a9895eaf7edc7, 0x9865798a056a276b), (0x15a37482a3f51c50, 0x6010a952227672d4), (0x439e47e7c4de9802, 0x2b0585be81fafe01), (0x1598ce2302b6c38, 0x91e74a247fa2a118),
  (0x49abfabcd13a914b, 0x4e7a917d4d6e1822), (0x8101b37105a4200, 0x63ac16abece704cb), (0x9eb6f917b597d052, 0x4b3d1a7a09385e38), (0x5aa35da37725f2d6, 0xe2a22445def3cd98)]

/-- `MatrixM128_inv[11]` -/
def LMatrixM128_inv_11 : List (Nat × Nat) := [(0xda5351f4b4e11331, 0xdf46a8450a527b0d), (0x1b0c96c0fb30142b, 0xc83df603ca2d6dc9), (0x5b6f49f9be5f0454, 0xf6a3bb27c940f07b), (0xe47d733dca878ef3, 0x9a8c1fb3cf2f66a0),
  (0xd8c47bd433383d19, 0xc70c6fdf5e57198c), (0x58c2a98e233ef00f, 0xf3e3b21d2a05ddb3), (0x2d630a845d8bdef8, 0x48219b061a333e15), (0x3904068cdb7def48, 0xe622eeef4a77c366),
  (0xbf5ea465423ed59f, 0xe3d741545b2fae9a), (0xdf3ac47cbbe2dc72, 0xc2552a26fa9198b7), (0xc48bd2f9b045135, 0x5cd6b44279ffb483), (0xb3c93a6818d88d91, 0xdc6bf2561e147ce6),
  (0xc07949049970d2b3, 0x961c5b4cb82dab92), (0x1e6e37a2986f5d4a, 0xf24c455d98c5ef07), (0x760bff4481d29097, 0xb936195bdf84623d), (0x5be2855ea45f6eac, 0x9fb0a0aaf0d75338),
  (0x89524f0222cf0505, 0xa9a599d83c0b59d2), (0x6bc1d61887c0d8b3, 0x7aca57857571c5b3), (0xde47e2ffdbe2af75, 0x74f0c3dc29e295d4), (0xfb5cd928b7b23b7c, 0x82758307f5dff58d),
  (0x57eeb00c868f4a90, 0xacfaa0590275c689), (0xe29dde41b8ccdf27, 0x4ab7262bec347c18), (0x5356f2151f729b20, 0x92be84f8d4c93b9b), (0x6a32b351a8670aa, 0xc37ecddda8759a7f),
  (0xdc32897b3ccf80a9, 0x6d22bc2a8f6b27eb), (0x9203da556c755f28, 0xefac39a7ed66a422), (0x509564f1903d87b8, 0xb602b0af710af961), (0xb2beeb85de3435c, 0x7ee7fec7e1b9d26a),
  (0xc7e9b027fac6d4c0, 0xcfefae5dc5fcc60f), (0x930de06824a7519f, 0xfd6de8c0c7c60472), (0xad03804f72ee4729, 0xa87217a5963791ca), (0xd5454c49dfbb17a6, 0x5ded1e2109a168b2),
  (0xe93d507e4ad599ea, 0x8d520a4f98858ff6), (0x585d68b90d8da016, 0x7538630fb5232e7c), (0x7e954f6846feb96c, 0xc128c762aa835621), (0x200f38f668544bcc, 0x3a407f879997f7e2),
  (0xb53945a944ad6564, 0x637f5890bdb52703), (0xe3a7f746db556bff, 0x9e973df7429dce85), (0x75c1dde4c35ea492, 0x2395ffbb97a71803), (0x365533a59e69e660, 0x92998e5946c3eccc),
  (0x85ae77d2b3bb862f, 0x3af583bbc8f73429), (0x57b5cfed5096a4a6, 0x28763ddc5bd9670b), (0xa33bbcecf7e7a406, 0x234d11cef28d4001), (0xe11e4523e614c036, 0x48661c88f65ce0f1),
  (0x863223fab0fda064, 0xc23f57c6efdf2d67), (0x949f1f21820492d7, 0x71b09aa085a5cb5f), (0xff3d262df5206ab4, 0x1eedff118d69aae4), (0xb798c14a359ebe40, 0xa8ad64f54b506303),
  (0x32ca810ce708f186, 0xcf8b755123f5edfd), (0xe383944e458961c0, 0x5c6b788e3cce97dd), (0x835eebf6aca57ffc, 0xe6aa339055b06261), (0x8ba86e99865383b7, 0x9edfc6cb3a0983b8),
  (0x4da40df5029ef0b9, 0x9d4b69e7dacdede4), (0xc8a360535ceae3e4, 0x296daac741b4b485), (0x66bf725dd0d31c81, 0xc9bce3848923a5aa), (0xfa3db83f16daac75, 0xaa1e868d4a9a918d),
  (0x3ad2e40927ee8fe2, 0xf9096eda438ede13), (0xb3db86e517a20e1, 0x4f8f79ca7708d695), (0x60ffee20a3c7414e, 0x5c3d267fd2805c43), (0xad7469978a9fbd1c, 0x2d36c9bf12af741b),
  (0x80b5cc1b9b06c3fc, 0x75499dabf402db1d), (0xa06e36adce16c48b, 0xe6053ce1f6196928), (0x24e729acdb764d6d, 0x89391af69e700234), (0xa741796aa03ba2e6, 0x93dd9505057eaa75),
  (0x34f84d5cd65a761e, 0x6eac5f2579b70e97), (0xc733a5bae09cdf7d, 0x6b775016cfdd4d23), (0x9dd88a2713f6b6cd, 0x806b46d95cfa77c), (0xd1280eabb29147a2, 0x5f20b5a2e59c1f34),
  (0x164f487a34c76aae, 0xb21ac4b4e4b6598f), (0x45e08c424f35a648, 0xc5f3c3a64160db67), (0xf484d8e4e54cbdcc, 0xd8d85469af8d48b), (0x6ca751e905e0fd5b, 0x80992a73ea74061),
  (0x455847c364991ed6, 0xf58d68c07ac86d3d), (0x75f5f6373a96a1f2, 0xc17c7ce997bf01a7), (0xd1aec2b69c7a6e24, 0x2ae4166ebabca23e), (0x5d6a262195adb35a, 0x38a4d5e332044d40),
  (0x65401f806e56acee, 0xec853e88b2fb53cd), (0x7fde7ed4420ac572, 0x85d06cf4cb3d415a), (0x4dc56b813bb0ead2, 0x8f60ab443d74081c), (0xc502d96ae37a836, 0xb2831b1dde70f11c),
  (0xd5d4195354889107, 0x922cc83f6e407de9), (0x433825ec55138a3c, 0x3e54f2c245c9f0c3), (0x6616ed8246bed23d, 0x2c34df8657b8b62a), (0x3f92ada801ffde09, 0xf0b54c1f69d33a10),
  (0xb8f39d06d7364660, 0xec5e2f006ec0890a), (0xad480c38251e23f1, 0x339955452d94f959), (0xa8b1fd289428108c, 0x7c7356c9d3ba6291), (0xde9fdfe44f81e7b7, 0xd0a2ffe0fe2b7c9a),
  (0xfa6d4dddb3a9882d, 0xdc0528b397329bb), (0x477026b3080d7c01, 0x8da3dc88462a46b4), (0xaa9efb1358275529, 0xde91d174a5db34bf), (0x3864eb299ec5fcbd, 0x6da63305881c3f2c),
  (0x83ca61b3d255e0f6, 0xf6f2c0b65d49ac7c), (0x6c4539f73c8924a9, 0xc8e8ba60a495c9d4), (0x9667549002149810, 0xbb0c302573befd4), (0x13d71cb355db5534, 0xaf8cd3108aacf62d),
  (0x3108c0b7f7003ce6, 0xcb660927f88bcca1), (0x2eb8417a1c9bbf9d, 0x84581ede5a7f7be9), (0x35a876f2787eb925, 0x496a369364753da5), (0x16a3e2fc4ec8ae0f, 0xdc31b4dfe2f273cf),
  (0x5017102bc8147b74, 0xd3049d97711c93ba), (0x2591e572da0a3770, 0xed4e17d5588efcb9), (0x7044cfb7c3ddd07c, 0xfab79d1cd5243c77), (0x95d28ce48acfbc6c, 0x6f37c998b7b228bf),
  (0xad4062885e253d42, 0x4a95ceeb892c51af), (0x168ee71f6d1c82aa, 0x6ca80aa8a0177c0e), (0xd4f1589ec309d072, 0x68a2f3a51ffea924), (0x937d2e21619f5ea, 0x3407d6b584487e7),
  (0xd39af73e1d4021f3, 0xb12303c97cc37dca), (0xa6570c823b892356, 0x3b399ec34460cfb2), (0x12695c5cdd36eaa4, 0x5562bb021e20ecf9), (0x3108c0b7f7003ce6, 0xcb660927f88bcca1),
  (0xefed1d7c7686bd2f, 0xb787db7c0a7c2255), (0x196d80642af3f32c, 0xba31ac2859e21fc6), (0xd74e179b1e651695, 0x7e3265ba029a83dd), (0xd87cf335c6d48777, 0xd3ecf5b84ef2ae25),
  (0xabbf9057477f0b61, 0xb6b4e85ecbed2292), (0x9dcadd0b2c0124a3, 0x5c5aeabf6aa7e34a), (0xdfc278e0d96851fc, 0xbbea7f0b61ada555), (0x56c7f9ad7db0638, 0xbd8992ad257bb03a),
  (0x8d4546476a65ec1e, 0x6809ed14f9aa2180), (0xdb1c3c05715e047b, 0xef87241c12e70364), (0xe6f8d15e3d2d4675, 0x85faa9f90490069e), (0x3e1e5f9eaf27fa2c, 0xb5bc867126a324ac),
  (0x6311def38811ba0d, 0x648e0df01072f6b1), (0x4fcf380cac8bab6a, 0x9a01236b4ecba6b3), (0x64cd5b5c9e497f5d, 0xdf2a3f4654701acc), (0x8d684bbda5db3103, 0xac1b9b9bebca93b5)]

/-- `MatrixM128_inv[12]` -/
def LMatrixM128_inv_12 : List (Nat × Nat) := [(0xda0a9a10de0ae51e, 0x50de14f318558c31), (0x196ed4765a4578eb, 0xf506b80e24ca77f6), (0x975ee0616e04519, 0x36303ad87d746765), (0x91f6b7908cf9ed5b, 0x5342cb277ab0ffb6),
  (0x2e3f2f8a52cb85c4, 0x21f7c84650d706fa), (0xf3436d1e42b9be15, 0xe663f013b97f6fa6), (0x3455a0ab4faefa4e, 0xdf6c9b0efb39882b), (0x38f3fff3698c6f81, 0x94edf40c3b0795b2),
  (0x4e068734228cefde, 0x171f5077933dffd5), (0x411c239b0ba52147, 0x98658fb07fb18bc9), (0x73b8f95401aba4a9, 0xed97b9b135a6d0a5), (0x23e738960c7324dc, 0x838810ddd7b23640),
  (0x5f48170eaf4fc98c, 0xa7a400be27ac937f), (0x192baaa87771227f, 0x9f6bbe43c9de6fd4), (0x8351734ccdcc0008, 0x2754d0282f5b6ea0), (0x3fad0295e9c9e698, 0x1499edde84388ccf),
  (0xaf5084381fd0a3d8, 0x9ef2042efb1e8a5a), (0xcda26e9955c303a6, 0xcf0ff461042ef408), (0x32b9b0530031a725, 0xbe9649e1b60be3e0), (0x12e70e8c0ef0560e, 0xcdbf3219b5b7609c),
  (0x9f61340e905c2e9f, 0xa58f133c279b1b5d), (0x6879614eabf604b4, 0x1016c8dd22450e99), (0xd619609740a2a9fe, 0x84ca318f5141008b), (0x55ee046d4688c370, 0x28706596d381e452),
  (0xf57830d4738491f4, 0x6f72ac9641bbdfe2), (0xbde205441b43b887, 0x113c1bbb65a8f3f5), (0x6a64f9db6c434cee, 0x44a6a84275fa5033), (0x9e1b06680d3f8805, 0x72e295cc4bf4a0c5),
  (0xb0d85433dac3f7f0, 0xdf66f7966f3b82d6), (0x33b380755e337e21, 0xd5e855f3b65a563a), (0x8bba1562e0f6efb5, 0x64f8446c22c6ca7f), (0xe3f90623c987f6b7, 0x24668d81a30e665d),
  (0x9fb562d92048f803, 0x522868426c60d6b4), (0xaf035da5ee54d549, 0x238a10fa6d810ded), (0x624cc73df51b767c, 0x17d723c9dcc9c3f3), (0xba5fa0fc361c1630, 0x2825a5e507ed371f),
  (0xf72e9c35adf2f035, 0x912b515d85fccd84), (0xa8784715f6c5380a, 0xe1a1bf806fa315df), (0x57eeb93124faff43, 0x103cac89d7d43a05), (0xc56977296542cb7c, 0x59a49c6bdf11dd78),
  (0x4b30d57f17d32bd6, 0x4e03a324b43402d2), (0x15d1cb6e90a15d54, 0xb670d50d0fd9315d), (0x3aee43d15defc448, 0x809ac636ee67700c), (0x2bde3ed4f0421a4e, 0xb3ff8c612abce56a),
  (0xfe79ba27762cb888, 0xb3c9449c4172a9b2), (0xff8fb07d21462f50, 0x8860def67b3da08b), (0x9cbfb44bdd280804, 0x7ae0091f348051a3), (0x242f28c39a5248bb, 0x4f98cf37f9472261),
  (0x296c1b6172254935, 0xd3145ce676c1d53a), (0xc2362408a8a56cc8, 0x96ebdd68a0b7c470), (0x5ac626d6e1dfaa10, 0x6a4ed889e1074e5a), (0xd4020774d075da56, 0xe5c0e680838ec5ce),
  (0xa9a0ee4be5f327dd, 0xe0af637e689dcbe0), (0x2aebb48d24721d68, 0x97a0eb8cafa56b5), (0x6e440863a9634ef7, 0xb3b66c82616c3367), (0xb53665b7d520b1f3, 0x9155e3d8fc93769c),
  (0x8ec2e05526048339, 0x36289485e01d901c), (0xaf69dd207209933d, 0x29c2920ee7848629), (0xd526f602f962a15d, 0x2e1e0aee99c3071d), (0x596119a5d88c95b6, 0x6d89d5e805399a71),
  (0xe13dd8c54ddc4143, 0xd6dc9c2e84c5c2f3), (0xf03c20d8f455a347, 0x6a86489713f6adfc), (0x6e10b1c1016c37ee, 0xa10bee2b69d30484), (0x6d2cca8da4dd27d7, 0x51ad2a0f9e519ba4),
  (0x1ccb9559a9bf9704, 0x4db3ee2c801c3e14), (0x9c633a38d96b615b, 0x4ff18e7c88bc1566), (0x482290baeee67591, 0x6b140666c2186a91), (0xb37abb8d9dfdd916, 0xbacd25426bd5f47d),
  (0xecbd093f0d41458f, 0xaa7a47e6596cfda6), (0x10ed6586b20ecc34, 0x5ab814f38748afcc), (0x5cce54f0dda1a7a7, 0xcc7d7eee38839fc9), (0xc906ad8dcb34d50f, 0xc5a726a432005358),
  (0x7d11fc5922a95338, 0x66c838fd103a10f5), (0x6cfb1a4f8d19f0c0, 0x49d4e57f264c5370), (0xafcfa7078fda1a21, 0x6f0cecd6207d74be), (0xb11f4e345d6ee31e, 0xa11f2d4075be6ca5),
  (0x2601e17c28df742, 0x42a171d255841ab7), (0x1e7b7de1f7257d9e, 0x232ab114cd813bac), (0xe4a0bfdf5b3bb297, 0xed6a4136c8a5f481), (0x30d964186d449b69, 0xa55cc973c9e3928a),
  (0x8e9152fd144bcefe, 0x2844dadb8942bc19), (0x932a292592148eb0, 0x3e6d5649e8958d05), (0x7ad74e9f49c2af11, 0x9791a8be60932fee), (0x38a6025cc51976bf, 0x1c8afef36a864a47),
  (0x61201d6d8eaab549, 0xa13200e734de1736), (0xc29c7e7594bc0c6c, 0xe29050c6092f0db4), (0xd0cb2f1d8b79f190, 0xe8b333409e46ba0e), (0x3f43b56a4dfa8541, 0xf12dcf5709b14cc4),
  (0x8323096cbf2a42d1, 0x7759db6b53f8c4a0), (0xb2d0810e0ab16980, 0xb9af17e32df750ee), (0xdd7a100e47811b34, 0xaa7bfcd63680778b), (0x68855ae4c42cca0c, 0x7bf4d2d615bf5738),
  (0x8b4e77c2e079c349, 0xaa8310d83d81a499), (0xe8e12b1b97e7d026, 0x7069767aa2832b9d), (0x5c6897ef4fdc6f08, 0x2e2dbd7e9a6e3c12), (0xe9dd432c97ea34f3, 0x6a3ea1fd180f206e),
  (0x9a1aca75d86b4054, 0xc6d2d902e27db183), (0x1962374814ec6251, 0xb59e051a669717ba), (0x612a2a1d7203c330, 0x976cb082e69d202b), (0xc00c0e6e6c9501e7, 0x1fe65e33764ec271),
  (0xae08541b27fe7e72, 0x1ff8256b83dd6f8b), (0xef3e395e391994b7, 0x8c644ed5e7cafd2e), (0x9ff7f869a1ab5e4f, 0xed58617d67a66702), (0xa2da798ac70a9ab6, 0x193be4c7d52e61e5),
  (0x61fb8a7a28f31642, 0xfac3ead75d2c16a), (0x4432d478d61718f9, 0x108195dd93242438), (0xfd39eb013461b9de, 0xeaa19d0601ba6d74), (0xb712151db5026fd7, 0x396277ae374a3864),
  (0xd3f6ea3d80b2007e, 0xba3f11ec061c6d40), (0xda7c0cde755be9f5, 0x8833536d513c9efb), (0x294763bc8384b7dd, 0xd07c6ac4de56bcb9), (0x9a1aca75d86b4054, 0xc6d2d902e27db183),
  (0x96876699d8f9096c, 0x74439e2dd51961ca), (0xb90e77951cda76dd, 0x15aaf1f51a63948b), (0x6e402951337f84b3, 0xbbd5b8d01de81ee0), (0xad409d3736c0e971, 0x3fbc8559ae30617a),
  (0x4a4ca151575816c6, 0x6822274466ad8613), (0x51aaef9443ecc122, 0x63f49140a6d03f7e), (0x1ea502e4731ee81e, 0xcea3ac0111330970), (0x377b78dcccebe102, 0x8495d7030b44fc9f),
  (0x8ed1184c062b5dbe, 0xcc2da9d8d7995b26), (0x5f7a222adedb52e2, 0x3af114580d4c81d2), (0xda4e3fdde9e951c6, 0xf9e0eb92337faf70), (0x86d834208549e251, 0x1977ea8f0a99d0d6),
  (0x446c4b1baf5a61ff, 0xd8ee4254ffb2984d), (0xd2c35538eccbdb94, 0xdfd66ba8a3905927), (0xc1868dafea694287, 0x33f8ec8a34167c38), (0x5f307c4f0fc1f7bc, 0x9458eb1ea4deec7c)]

/-- `MatrixM128_inv[13]` -/
def LMatrixM128_inv_13 : List (Nat × Nat) := [(0xcb9e2bde5d229454, 0x5898bcabdfa165fe), (0xbc8800cf2e1cfdf9, 0x8f939981cfa78eac), (0xb4af2ce7292aa7e7, 0x9754e709e3a368f0), (0x4a815d6ffdec81f4, 0x328a5ee0bf21d723),
  (0x4e3b25906cbabff1, 0xb2f16d3d9b60f9cc), (0x684b328d3eed1755, 0x9ed77842a550f787), (0xc982d5b67d16c91a, 0x6278781c814dc59d), (0x698215865e13e73f, 0x40105bf7434f9001),
  (0xbfc8ebf527aea07e, 0x9967a74f134f14d4), (0x62fedbd03ea6121f, 0x857e5e2e3b8d8e04), (0x8cce32ab064c916a, 0xae667c1e648d7f33), (0xf4541d2f4b8d1c22, 0x87431f509f716b6a),
  (0x6825a7b97cc9520d, 0xa2f609f9032c8b10), (0xed5ba338afd0b65c, 0x81cdb5d08bbc614d), (0x527d242ae7ad9676, 0x6c2f021d9a47253e), (0xf7d94be3c8ef439a, 0xea5da7972d383ddf),
  (0x20591f2381b8ac38, 0x22b83f0e0056921b), (0x42baee30553f5d9c, 0x91ee52781cbf1f6f), (0xa3d846f56bc12d04, 0x853b34cbab760775), (0x186c733a1fee4d5b, 0xfe450c0168b021ba),
  (0x8a83d9e670234b9c, 0x6dad378b976550be), (0x4e408d12da244c9c, 0xe540157d3ca629c5), (0x208f977311a6967b, 0x9f6cce848cf61009), (0x382b56f3e8442e69, 0x6e12a8b122c66cbe),
  (0xf9ba53d2c25cd17, 0x337f7cf7565cc533), (0x18eb65e1d87e5cf1, 0xca1ae73f313a8db2), (0x9ae6e269a2ad4a67, 0x180b4c9c89d14ad7), (0x3fcf2de2b7329f98, 0xf61373aa66701be2),
  (0x19efbe5d47d75791, 0xede4c743bd866633), (0xf301610d892369de, 0x69a2d54a002ccaf1), (0xe12ea90e572e1d5f, 0x40a7acedea19d964), (0x50b123e4bb32aeee, 0xc8afa0fb87e499),
  (0xc133f790a8490c4a, 0xda8e82739972245a), (0xaeb0f37ec2307e91, 0xfda220fcc987b4e), (0xafcb2ee27382174, 0xa0a351787d05a540), (0xb856ba6b4a1035af, 0xc1e90dc75594ab6f),
  (0xa94976d8fa7b4e38, 0x3bc014900e8ab1e7), (0x757956f3f64c063c, 0xe19a8b1adb6f1212), (0xb050b28c4c4ae5b8, 0xbf364a7aee9d92a9), (0x72abe4ea4a587b26, 0xb07ecb563679b5fe),
  (0x9463f618d0a3e805, 0x18499b2419c0fc2a), (0x17afa17715b6fad3, 0xc7cc1f7832c7c387), (0xc582a51b351b3b23, 0x6401e83567dca311), (0x4d38d12bdaa93515, 0x3e101fb8f58854ea),
  (0x9256d3be48c17e1c, 0x89e2d47fee486f93), (0xff5e1bdc7376e7a5, 0x57a3fde45096465), (0x371c0975d35fac90, 0x7b4981b90b77bfa2), (0xc987b0845eccb652, 0x9a2e5de7f5b378be),
  (0xce34d63f51221fc8, 0x8a10e148e16eadf3), (0xa25a2b4d8a9d7d36, 0xc0f470a857bc23e4), (0x319db9be5a20225, 0x425df8d2135f8d0f), (0xb00f4140e3ae093e, 0x1b75beaebb97573b),
  (0xe457747c673ccb9e, 0xf64e85a37167084e), (0xc566d65249396f93, 0x6c1c3adc4073620f), (0xcdd050922df9b3b3, 0x19c7797a06abf7bd), (0x4397fbb381dce07c, 0xd7a366e9b24fc979),
  (0xe9f2c17fa87d6e3d, 0x774f7f0086732530), (0xcd27a6b4d3eee295, 0xaaf8aa919894c38e), (0x644ec371390dee1e, 0xd1a01906e9a69156), (0xcd2055a3d0dd3ca7, 0xe9a70de62cabe24e),
  (0xc01f02d2557403d4, 0xc6a4f34d36cca588), (0xb783649395202aee, 0x890e74fa125a33b3), (0xe149052ac6b4c9a8, 0xae3c31e47907c3ba), (0x9ea110bb9ac10533, 0x3ad9286efb896687),
  (0x6124155541bc9d1f, 0xd8f31366fdc80fb5), (0x1ce1557a087f51e1, 0xe6125837c499965f), (0xa7029bdb5fefe612, 0xccc86984e8d9c0c7), (0xa22a61f00a744104, 0xe54e15b3368b6df5),
  (0x636cf5c0767be933, 0x139e9a1fbb3aa477), (0x1eb317b860e90808, 0xd48eebc9c422a36d), (0xc5b0e01ff6b53e98, 0xbf3e37e4d5c3ce7c), (0xd59ce695ad8d64c5, 0x80be0609c54e7114),
  (0xaf97ead60a5ba1f1, 0x3c1c66408db1a969), (0x352d26aa5da8bcb0, 0xb14d5e88b0bb8274), (0x7a34c71689f49fc3, 0x3dc9d8c8695585d9), (0x28369284752e3261, 0x7bc409b1c1af0cc8),
  (0xdaeb413fa1184e46, 0xd64dbc36dec9935c), (0xabc46e45ef687720, 0xf6ba5b1de6ce69bc), (0xf442e0ce56b9b1b2, 0x5281edd20d04b5b9), (0xbc38ac50cadc7a55, 0x46ad12490447ce58),
  (0xdd782819e7f212d7, 0x3b044d8ff183ee8), (0x451314210ca2e49b, 0x3c2708ec77390f73), (0xe1f59e395645cfe8, 0xb154be31b0d27212), (0xaf28c355d0fae78b, 0x33105294f4e09855),
  (0xc6de9e46687378af, 0x7c70e91ee6683d3), (0x8d2008178709a7cc, 0x4d40130e5bfc3ad2), (0xa163feddceb15fbd, 0x9b71f63a55a548ed), (0x42704d5bea6512e1, 0xae9dd43743f991c1),
  (0xc3dfd34a733d49ab, 0xf12319f05f69ab56), (0x7895096c3c6ec5ad, 0xfc90d452a82c43cd), (0xe43892ec70ea98f9, 0xfe9c9146956085d5), (0x3c3b354f2fe670b7, 0x33b4b9d40664f2da),
  (0xf8af5c9eb383908, 0xcee913167fda84f1), (0xf2c8e9afd779c817, 0xe8e26f2d31f9c250), (0xe992cda694bbdf12, 0x3b124ed0b5c54cd9), (0xe8db304baa18adaf, 0xc0e1acbf0ffb70de),
  (0x2d97c5d15e6ecdeb, 0x5cd3b8063452829c), (0xa05e97e45ea4e8f1, 0x89412a0e850b2aab), (0xd594fae139faab65, 0x6afced9739b7a632), (0xaefbe829477a0f99, 0xfcca8ad893b1a08b),
  (0x27da6a19d8852a2f, 0x676fb8d3235c396c), (0x1a9acc2a281a8dec, 0xec4662f59367d36d), (0x427a085d1d66ef30, 0x4a494d83d9ec2dcc), (0xfa7a4fc177841967, 0x1473ed427c549bc6),
  (0x363d104bb55d9525, 0xff8eff234c14f51d), (0xd3f6f128359766ee, 0xfb9a9c988117105b), (0x18ad667e9f0899ac, 0x9737e96f8c5c43a), (0xa2dcf168a5fd9fb0, 0x5c3251ed6cca5c09),
  (0xaa92aa14690c5cd9, 0x8025082bb8277d5d), (0xa67ab89e8a397fa8, 0x8d9d524968d944fc), (0x2570db0a27f4f953, 0xa5ece5b44af0cedc), (0x2d97c5d15e6ecdeb, 0x5cd3b8063452829c),
  (0xdca208e4e128b278, 0xac1e386777cd1e1d), (0xea86f4769a439ea1, 0xd7bb8930463c71e1), (0x380b72e106c60bd6, 0x5faf547f55f59f6), (0x88b777974969e75e, 0x91647f99e01ef656),
  (0x8cafff00fdf41a07, 0xcb5b6421217c21ce), (0x58e5b68cf904bc7d, 0xe267cd681616f4df), (0xbb1c9f8a5dd92f75, 0x76b091f0243778b8), (0xc080b7b3107dcb83, 0x5a2030ccc242e095),
  (0xb1dcb087f8da5af7, 0x279863dd307ec870), (0xff90e7b99045f945, 0x641397750fcf37c5), (0x8ea5391983c0b489, 0xd9afcc8db166a784), (0x2fe738613c14b5d1, 0xc5005b20a80fa934),
  (0xcfc3961270270868, 0x5e6aeef22a22f26c), (0xaa05337cc397c44f, 0xd06a594ad66eb9a7), (0xd142a2e55adcb6fd, 0x10e9f6e028b15627), (0x72e5b06d3047084e, 0x34650f392a929f19)]

/-- `MatrixM128_inv[14]` -/
def LMatrixM128_inv_14 : List (Nat × Nat) := [(0x275aec9d1b7071b3, 0x6681adf74fc4fbc6), (0x712dc4cf3c319052, 0x24bbec8ea80b9f69), (0xfbaf1b83ba86218d, 0x13d538ad9bdca3dc), (0xa08d7ef037a92339, 0xacc99ea1eb45d10f),
  (0xb06e35e66d51ccc8, 0x28eafaa9badc6e79), (0x108ab001b978aca0, 0xa4b1faff464f0559), (0xd104525d5cf86b8c, 0x97d195ff767d5720), (0x59ac80bd7ad280c4, 0xfc341dc031c65f87),
  (0x1f5842d5cba809d5, 0x6e9ae94cb8576136), (0x8bb5c2113ba3a32c, 0xfda187e771b9d2e5), (0x543e1bf83b40fd9c, 0xb556f633b2b00941), (0xdd141c465f81d0a8, 0x7164375325bb4bca),
  (0x8da07ce5718892b9, 0x8fe8151034bae0f1), (0xc21001ec5abc8cb5, 0x6d4e0caaf7774688), (0xdd46e7a6fc771296, 0xa8574765c9c248c6), (0xd23c4a1adebfe70e, 0x540447f68d4169cd),
  (0xeb30c8c551273b29, 0x8907fd86c6bea0a6), (0x777a603bc3cdfd71, 0x3515f2bb1dfc9eb6), (0x1fd36462d159e2c5, 0xd4ef49ae2d5c9aef), (0xc29ea7d1e50b8607, 0x33011f111b88be7d),
  (0x1a7bda13101bf0df, 0x989ff8f78362e125), (0xe9b3e1041d7b5655, 0x3255b68fa6abb0e0), (0x59271c23586e8a6c, 0x3b5876336bd887ce), (0x4ecdb706ac0b9525, 0xe95b68731b511625),
  (0x2d4136112c8887b6, 0x7b43fb3f7bdbefde), (0x331949484bd21389, 0xd8074f13c9613194), (0x48bdeb5098900a84, 0xd5b91d25989b4e7b), (0x9fce298eb368fe2d, 0xc0597b0ac4e7018c),
  (0xe9af1af94060dc93, 0xd3cd17b2fc9eb9f5), (0xa24d3d6e4ce86e9f, 0xe7cf55f89cb2863e), (0xb7669c4e79caf183, 0x9c45d508f3caf6a3), (0x30107a423a90e1ec, 0x62fa375b13a47461),
  (0xa3b501e35fe99254, 0x48c395f63c7d1dce), (0x5282b42613be0775, 0x33f4a10aece43526), (0x821b68d212f171f1, 0x65fe1d015dcf7edb), (0x98444684c8b9fe5f, 0xc42c7ad5eec932e5),
  (0x2ab1874d2fbe1396, 0x2fc1b18acbe66e0a), (0x94f9410053c6985a, 0x306333f69da72aa5), (0x66d155563d19399c, 0x7709aedc816b2c89), (0x70fd1292a5d7765f, 0x4ff041b5b1fa14a8),
  (0x8b3413169f274e31, 0x14a43e8566e5226), (0x1bd8b317e4fda58f, 0x73e91ad6b5f17b38), (0x47cc5eb91c131f90, 0xb2f28725b49a58b), (0xf91da89fcaee6482, 0x9f549b666d75e55a),
  (0xe522318904df7f0d, 0x85cccf69d33f76f6), (0x2ec13447be623ffc, 0x75084e42a7fb0524), (0x2b2d07c54f0e60e8, 0x961d770bc1c1b529), (0x87c2d52a948e7b22, 0x68718cf22ca3513c),
  (0x88f09cc1b9c73eaf, 0xaf28405b37da165b), (0x18475ce90e371360, 0xbbd6d8e643a2c56d), (0xf037a073f4b04a53, 0x2b5f1a4343e5a36d), (0xdee0bae189ed3a83, 0xbbeffbad4b498bc6),
  (0x992c4fd03fdf5e59, 0x6fe7b242f2e25a03), (0x7b1f057071c36477, 0x74cd9b26118eadc1), (0xe6f997c7adf7e7d6, 0xbc6d2e28f50ae885), (0x2fc3729388af1807, 0x778125db10056ab2),
  (0xfcc19eeb11f2711c, 0x4145df18cfd806b9), (0x682c9e558a7c50ae, 0xd5a116e837b419a1), (0x24b3f79b7f719381, 0x78215e9c8012448e), (0x979ca54345ad625c, 0xcbbb6235acc7dd06),
  (0xdcc45bd25d80c13c, 0x7f6747f1bd3a9c68), (0x9c34687fed64d5b4, 0x86804a795a75352e), (0x596210178406d9e6, 0xf17ca474c9aeecc9), (0x34f8cf88887e8590, 0xa26c785370f04d48),
  (0xa2907398e66cd1da, 0x97990ca8b02518d0), (0xfd7cb07d0d2963dc, 0x417637cccc0fd476), (0xbc7e8816c8a2e998, 0xf0238a2545fee096), (0x713a8f27e1ed998b, 0x2776fa28fe07863f),
  (0xa4acaec8bea50fc4, 0xd4a7334ec37f6ff6), (0x7e744e521a0cdba7, 0x425753328f47a248), (0xa31577591ebf68bd, 0xdcbcfa10b4206bd0), (0xdf2f36565ef84d1b, 0x420c8ff657dd5fdb),
  (0xf1efffed363a63c, 0x140c915d11c4f327), (0x2ffecbfdc8b30eb4, 0xba4afc533bfe1468), (0x601efc4242033818, 0xa919bb3a17131b8f), (0xcb504665984f9bc3, 0xf0c2588f126f8c21),
  (0x55137f28dd8310b5, 0xbc848e0a1392cecc), (0xf9fcf8f11fd3b488, 0x41669d265f16a46f), (0xdf83b9f8c9bf9113, 0xd8dc46fc58ba0f5c), (0x2eb642b44780bd66, 0x23174398f019c21c),
  (0x6a8728542d06cec1, 0xa0e170eb20f45418), (0x6cfc3f99909b3e3a, 0x87950d6c5c72173c), (0x1b0d53795ac15de0, 0x2153a447c6d7e579), (0xbf596cbf9ae72774, 0x9d6d81b4e6b3c3c9),
  (0x42689240d7184e2a, 0x15de9a848dbfbb06), (0xefe724ba058820e3, 0x393f393ff47c3433), (0xe904dff8dbdb607b, 0xb90ab1355e10bb59), (0xa0cb37ee433f9f6, 0x76cfe0ae14a98352),
  (0x6a417e7087bb7846, 0x1b98a7bfe4a47d45), (0xd51233142ab41402, 0x32776f6ada6b5879), (0xdcc963bf2d7e76b1, 0x3de7886d8ee18a16), (0xb36daf8298a3f8b5, 0xbc29b9ed7da87f91),
  (0x3e8a4dcd98e94e51, 0x13934b6619501dab), (0x55a93da772ff676d, 0x149a57c3782f5503), (0x81ed39a86492351c, 0x3a3bef92d188ab20), (0xbba6fd2b8af011d0, 0x31c22c694665b83),
  (0xad2f2b60a80154a8, 0x82570669fa290156), (0x10edd6e1e35d9c08, 0x430fb7b6ee610c58), (0x2b0351b420eeff9e, 0x11db72f0523adf89), (0x28e0a3dd423c1d35, 0x55a8942002c6579d),
  (0x7ce08aaf636ab269, 0xddc50127f12f9836), (0x2efd9236edb7d05, 0x68e3fe5e39e6425b), (0xfec564a2174e8eb2, 0x2a64e4d8d5ec28f4), (0x2bf1a5af5a8e01a9, 0xe3be96796956d2e9),
  (0x656e8c9dd8ffde21, 0x9f2aab1eb583e30e), (0xda26da678ecab3a, 0xac6f90fd3d08a01a), (0x4e6bea01ac8b2ee6, 0x5610cbe8a9f96e2d), (0xe3415f7a0f02409a, 0xa1208a6979419a4b),
  (0x2bae6b19c5429d1, 0xaae0a65549a1d2dc), (0x7d58517f6c19db49, 0x9acb77a1e58a627d), (0xf620993a98314037, 0x7c3ff5d5bc1d0658), (0xad2f2b60a80154a8, 0x82570669fa290156),
  (0x41f17e7a7fa3c13d, 0x6e7914c611611452), (0xc40845d2f4da6004, 0x6522f821b64069fb), (0x731886dd9cc7ab49, 0x19dabfa1350bbff2), (0x6218ceb5960b5d1c, 0xe9dd02b8512acb9d),
  (0xecfb2832d02cf78e, 0xb70d3e2ddbcc30ef), (0x8da0420a7ff837e8, 0xe54c6c46a9c4f96c), (0x706d8b19907856af, 0xa48e47fa256b79a3), (0x9968547b6d324c27, 0x3b7a18959041708d),
  (0xe19832a529bc12bf, 0x93063f00026c8bf1), (0x8fb606d55658ddd9, 0xaf981349f08fbef8), (0x8fd7a34eb26b6fa8, 0xe1cd99177e3ff5d), (0x7924828848863a5b, 0x5599e23b376b8318),
  (0xc162a08a957f4540, 0xd2fa990f81360f01), (0x2977788e46ed814a, 0xf332529dc9d29359), (0xc2a135efb4f50a16, 0x273db908e23ec383), (0x9b6b8176849d31c2, 0xe49fc65599a3baae)]

/-- `MatrixM128_inv[15]` -/
def LMatrixM128_inv_15 : List (Nat × Nat) := [(0xc7ebc20762446b44, 0xe87211d8f2e1bd36), (0x5742227e1f8a31, 0x7466a590765ce6df), (0x5e920f5058171e34, 0x2d75f024b7879fb8), (0x76ef743eccf7d3a6, 0xcd58a40021a39a4),
  (0x93c1164d28e4a0be, 0xf4b495433d0fbfde), (0x1752f65d09fe03ce, 0xb5632c6e49be2916), (0x66c2c3086c83ec21, 0xe3dbb587266dbeb1), (0x4b0852b7ff2ad93, 0xc939f5af72c415e9),
  (0xe872f2d713ce204d, 0x15f0dc72ae0048ce), (0xa981080d7323fd99, 0x2529aabb96e7b217), (0x65ec8e5db6c7030c, 0xf52c856edf7ef779), (0xa28c6d24f6bae755, 0x8b1b7eaba0cab730),
  (0x77ac0c77f563d9d8, 0xd4bc025b9a8a0b81), (0xbbf0fb4b10f984f3, 0x6a38b7f0a9479448), (0x6323e665b645ab89, 0x164bb5a0fdd787e1), (0xb3e15d87b29ad526, 0x26169a77cd686f8c),
  (0x2951b16a37f47faa, 0x651d4f848df04815), (0x51f59f0d377441a6, 0x22d79883bd80e028), (0xdc5dc71dc52bbebc, 0x3d0f74d92f8fa695), (0x63b41b799ca16a78, 0x268cd0b356b78acf),
  (0xcbda6f3d179cde5c, 0x7385c4f1599f29e9), (0x3eb39f3d58f7f577, 0x8d69d42785c9ef94), (0x1262358fc99ecdfa, 0xf2319bdff30e45b8), (0xf4f901bba2a98e3f, 0xd61fde2422988f63),
  (0xace095e9acfffeb0, 0x41fc104670432936), (0xdf953a34dd21704a, 0x8425877cc06dac75), (0xfbfa5c5bf3d93b45, 0x55f2301698f6788b), (0x3fdc1e5b3570a261, 0xf22cbf3a6a5a8d48),
  (0x2cd6511e477c6417, 0x6f2b252bc10b9230), (0x333c58e9b5146188, 0x8d4b6f13f6dfbdab), (0x4e62a1e2be96a254, 0x5b85b2d376441166), (0xa026b2e8061ecc70, 0xd4756b8632fb5d89),
  (0xf339fa5fa81fdf1a, 0xf257886e59b04d33), (0xb3d056b2df1821cc, 0xacd896ea3911bea5), (0xd09683d867f4a064, 0xbab450d1aac791b), (0xeb48f65e34ab439e, 0x9ef1e0b9552f8e93),
  (0x4ba6071036239645, 0xf859abcc788fbc55), (0x9c46cbd816e1472b, 0x2441eaf96139af2), (0xeccd1728f9264d44, 0xe6e1f9c8c38834ab), (0x23a7eac42bc513a6, 0x27721b1c4fed7f82),
  (0x715e351ef64a699e, 0xa1bcea8318a392c3), (0xc65e3b8d2cf2ecd1, 0xba4c11a79df1c03d), (0x4dc7e0033c3895fe, 0xbf8c74de46a00ab4), (0x4db05572d7bb7ba0, 0x83e441a8236636c),
  (0x65f424eb55c94482, 0xffb720c9a9ccfb4b), (0xe14a1e8332ffa401, 0x6ed4cd9791370aca), (0xc2b90ff3dcf1b1e8, 0x889a106581d7e221), (0xbd12f40eb4866125, 0x35aeab93ba64a2c0),
  (0x16d64876f74b064b, 0x5bfd50a77421d220), (0x962ebea01aca1538, 0x3c878dc2e39466f4), (0xf5f7e6c427599a71, 0xd35016587f538eb4), (0xd119151f5558841e, 0x5822b7f208f0d2aa),
  (0x9540c0171f987f04, 0xea98d0415bc1db7f), (0x5209ab5dda396405, 0x9c31bf434235fcb9), (0xe5e2a9aed7809691, 0x37f767b79eb6c436), (0x2b3d32bd22758e3e, 0xcd11cb4f66f99688),
  (0x4c1dd6a945efd9fa, 0x82120876cd059920), (0xe623a5d71030dd32, 0xc33bee2ee2b97d2f), (0xa9b7add7ce32eff2, 0x22b27d025c3b2f89), (0x41a4ee5830598d50, 0xbf48399d07b187a6),
  (0x5657bbb58430eb13, 0xa224ca4dd74c0b7f), (0x33e03ace06b7050b, 0x548e5360859d10e1), (0xd2779ace349e6bd7, 0xc96a836006cb3495), (0x35117d22a72b60fe, 0x51a5855af8674ad4),
  (0x5d4dd13f5f89ec87, 0x97625fbade320b9d), (0xd4123da47d6beef6, 0xb47ca386c08c5886), (0x68e618fe51aec733, 0xcf7d10b9f015b305), (0xe71d4921d1af71e6, 0x19d4792e4717868c),
  (0x4c4fc9061ab1999d, 0x1aae2d20914c85de), (0xe2f14b3d0f4ea4dc, 0x2535c36223982e64), (0x8e1367b26399bd1b, 0xbe98ce3bda29c0f8), (0xcfe87a94066d6dfb, 0x8eeea1f3960677fc),
  (0x393c9f159cc7704f, 0xa8fa303f9f700b28), (0xacd5cf5f2fe45bb5, 0x6ee561389e666474), (0xc10667c385ef3b, 0x7a922c31f88e876a), (0x6979230a426a1dcf, 0x41fef083d78a675c),
  (0x5aa7873282a9bbcb, 0x5ea3d5043dbf8e2), (0xf50ca67b9299c523, 0xbc5e605510bcfed1), (0x3fdbb983b1db54d4, 0xe1d43eebec710c79), (0xae9dc976818cc1bf, 0x437e428258ce2914),
  (0x613696f99de181f7, 0xf8ec7ab73fa005fd), (0x450913e3eb42b349, 0xbec0f53ffbaf78da), (0x55761cb166f94891, 0xb4a95743ca5b617d), (0xebd8ac5a20a7c2d0, 0xee0b167b94c17e0f),
  (0xd899e6edda130f43, 0x44eb97357157bd16), (0x1e43372a8ae63dea, 0x2b1b42e1304f58f), (0xce6225a4cb9e91ff, 0xbbab16583a6f38d7), (0xe1c571f28854a63b, 0xcec534b1ed7576d0),
  (0x54c28d8f80b8c939, 0x883ce37b146e523b), (0xac5ff11c4431e75a, 0xbc75af7252f67415), (0x72730ab328697999, 0x3325a5cae8f193e3), (0xd990c1ff77ec15a1, 0x3217cfa4a2ce96a5),
  (0xade8dda526fca079, 0xf2a561c3439e937c), (0xb655427cc35e51c4, 0xfa81c73b9a584c34), (0xce942effce6d64e2, 0xb68371e7dea1c400), (0x9a98069d5556045, 0x62db5b904bad1085),
  (0xc50dae1c8f40f139, 0x5abda3ec5434eb14), (0xa78899dbc73bae42, 0x354b85d7448ede9f), (0x75ee5528ea170da7, 0xd71b23eb53ff4329), (0x95ecd0cfd11c6fab, 0xd60320a98a6ee9ec),
  (0x973a8494388a4ebc, 0xa72de335f4e8ce62), (0x88a2320fd6d53c6f, 0x7585d3938155fb92), (0xbfbd32fe28235489, 0x1bc38aaf3f59f250), (0xaf807ca4bb2ff444, 0xbcb957ae01e48cb5),
  (0x92b66d9e3d9d077, 0x4f5deadbba5e93bb), (0xb92aa54088ebdc3f, 0xda4bc0cc78917681), (0xa242d9d1ddd579fd, 0xa16ae0c00ae42869), (0xd7d4b780f4682f32, 0x8b04066a5a69cf20),
  (0x3f067c9c542955dc, 0xb1735b9b0b8572cf), (0x271e219a447e9405, 0xf00844f7b9cfd6c0), (0x3404dbc0601d9bd8, 0x88959f19ca3af4f1), (0xc50dae1c8f40f139, 0x5abda3ec5434eb14),
  (0x6528616e96dbd8a4, 0x98d993bc6d9765bc), (0x4da2a1f8d3331b79, 0x8f4057b9aff3e48d), (0x45bc67b4956ef6d7, 0x52f0e26cff1121cf), (0x4d93af762ddd8f2d, 0x3e62902231cfcde7),
  (0xcbbc35ccd7d4d349, 0x62545d481fbe99b1), (0xb577160ffc569ccf, 0xd97f9c0da06684d4), (0xc247677009d58a82, 0x6fedc34a39cd8f4d), (0xb065efba9d9f7b06, 0xae816f8fae081430),
  (0x5e2178f66474dab7, 0x707f7f962179547a), (0xe603533af79a7809, 0xdc5a9cbb278248cb), (0xf2c9c845dd80f75c, 0x9289c47b166e52b7), (0x915adcfa18b7fd8a, 0x3d12f0df68e7de8f),
  (0x227955fce97647e, 0x126df562cb6f9a3b), (0x2fdfcc5d4161a6ed, 0x7dec408ad1cb7326), (0x73a27351a2619c21, 0xbccd970c767a70f8), (0x6df09ae2aa052e72, 0x1e8e71b60cc83f6d)]

/-- `MatrixM128_inv` — `/repo/test/BasisMatrixMethod_test.c:447-576`. -/
def MatrixM128_inv : Vector M128 16 := #v[rowsM2 LMatrixM128_inv_0, rowsM2 LMatrixM128_inv_1, rowsM2 LMatrixM128_inv_2, rowsM2 LMatrixM128_inv_3,
  rowsM2 LMatrixM128_inv_4, rowsM2 LMatrixM128_inv_5, rowsM2 LMatrixM128_inv_6, rowsM2 LMatrixM128_inv_7,
  rowsM2 LMatrixM128_inv_8, rowsM2 LMatrixM128_inv_9, rowsM2 LMatrixM128_inv_10, rowsM2 LMatrixM128_inv_11,
  rowsM2 LMatrixM128_inv_12, rowsM2 LMatrixM128_inv_13, rowsM2 LMatrixM128_inv_14, rowsM2 LMatrixM128_inv_15]

/-- `InvTMatM8` — `/repo/test/BasisMatrixMethod_test.c:578-591`. -/
def InvTMatM8 (env : Env) (lc : BitVec 32 → Nat → Nat) (Mat : M8) : BM M8 := do
  let Temp ← liftB (identityM8 (env.junkArr 8 8))
  srandReseed
  let Temp ← forUp 0 16 Temp fun _ Temp => do
    let randnum := (← rand lc) % 16
    liftB do MatMulMatM8 env Temp (← rd MatrixM8 randnum) Temp
  liftB (copyM8 Temp Mat)

/-- `TrailM8` — `/repo/test/BasisMatrixMethod_test.c:649-658`; `TM` is the array `TM8`. -/
def TrailM8 (lc : BitVec 32 → Nat → Nat) (TM : Vector (Vector (BitVec 8) 16) TEST) (k : Nat) :
    BM (Vector (Vector (BitVec 8) 16) TEST) :=
  forUp 0 16 TM fun i TM => do
    let randnum := (← rand lc) % 16
    liftB (wr2 TM k i (BitVec.ofNat 8 randnum))

/-- `InvSMatM8` — `/repo/test/BasisMatrixMethod_test.c:700-710`; `TM` is the array `TM8`. -/
def InvSMatM8 (env : Env) (TM : Vector (Vector (BitVec 8) 16) TEST) (Mat_inv : M8) (k : Nat) : C M8 := do
  let Temp_inv ← identityM8 (env.junkArr 8 8)
  let Temp_inv ← forDown 16 0 Temp_inv fun i Temp_inv => do
    MatMulMatM8 env Temp_inv (← rd MatrixM8_inv (← rd2 TM k i).toNat) Temp_inv
  copyM8 Temp_inv Mat_inv

/-- `MatrixpairM8` — `/repo/test/BasisMatrixMethod_test.c:756-777`. -/
def MatrixpairM8 (env : Env) (lc : BitVec 32 → Nat → Nat) (Mat Mat_inv : M8) : BM (M8 × M8) := do
  let Temp ← liftB (identityM8 (env.junkArr 8 8))
  let Temp_inv ← liftB (identityM8 (env.junkArr 8 8))
  srandReseed
  let (Temp, flag) ← forUp 0 16 (Temp, Vector.replicate 16 0) fun i (Temp, flag) => do
    let randnum := (← rand lc) % 16
    let Temp ← liftB do MatMulMatM8 env Temp (← rd MatrixM8 randnum) Temp
    let flag ← liftB (wr flag i randnum)
    pure (Temp, flag)
  let Temp_inv ← liftB do forDown 16 0 Temp_inv fun i Temp_inv => do
    MatMulMatM8 env Temp_inv (← rd MatrixM8_inv (← rd flag i)) Temp_inv
  let Mat ← liftB (copyM8 Temp Mat)
  let Mat_inv ← liftB (copyM8 Temp_inv Mat_inv)
  pure (Mat, Mat_inv)

/-- `InvTMatM16` — `/repo/test/BasisMatrixMethod_test.c:592-605`. -/
def InvTMatM16 (env : Env) (lc : BitVec 32 → Nat → Nat) (Mat : M16) : BM M16 := do
  let Temp ← liftB (identityM16 (env.junkArr 16 16))
  srandReseed
  let Temp ← forUp 0 64 Temp fun _ Temp => do
    let randnum := (← rand lc) % 16
    liftB do MatMulMatM16 env Temp (← rd MatrixM16 randnum) Temp
  liftB (copyM16 Temp Mat)

/-- `TrailM16` — `/repo/test/BasisMatrixMethod_test.c:659-668`; `TM` is the array `TM16`. -/
def TrailM16 (lc : BitVec 32 → Nat → Nat) (TM : Vector (Vector (BitVec 8) 64) TEST) (k : Nat) :
    BM (Vector (Vector (BitVec 8) 64) TEST) :=
  forUp 0 64 TM fun i TM => do
    let randnum := (← rand lc) % 16
    liftB (wr2 TM k i (BitVec.ofNat 8 randnum))

/-- `InvSMatM16` — `/repo/test/BasisMatrixMethod_test.c:711-721`; `TM` is the array `TM16`. -/
def InvSMatM16 (env : Env) (TM : Vector (Vector (BitVec 8) 64) TEST) (Mat_inv : M16) (k : Nat) : C M16 := do
  let Temp_inv ← identityM16 (env.junkArr 16 16)
  let Temp_inv ← forDown 64 0 Temp_inv fun i Temp_inv => do
    MatMulMatM16 env Temp_inv (← rd MatrixM16_inv (← rd2 TM k i).toNat) Temp_inv
  copyM16 Temp_inv Mat_inv

/-- `MatrixpairM16` — `/repo/test/BasisMatrixMethod_test.c:778-799`. -/
def MatrixpairM16 (env : Env) (lc : BitVec 32 → Nat → Nat) (Mat Mat_inv : M16) : BM (M16 × M16) := do
  let Temp ← liftB (identityM16 (env.junkArr 16 16))
  let Temp_inv ← liftB (identityM16 (env.junkArr 16 16))
  srandReseed
  let (Temp, flag) ← forUp 0 64 (Temp, Vector.replicate 64 0) fun i (Temp, flag) => do
    let randnum := (← rand lc) % 16
    let Temp ← liftB do MatMulMatM16 env Temp (← rd MatrixM16 randnum) Temp
    let flag ← liftB (wr flag i randnum)
    pure (Temp, flag)
  let Temp_inv ← liftB do forDown 64 0 Temp_inv fun i Temp_inv => do
    MatMulMatM16 env Temp_inv (← rd MatrixM16_inv (← rd flag i)) Temp_inv
  let Mat ← liftB (copyM16 Temp Mat)
  let Mat_inv ← liftB (copyM16 Temp_inv Mat_inv)
  pure (Mat, Mat_inv)

/-- `InvTMatM32` — `/repo/test/BasisMatrixMethod_test.c:606-619`. -/
def InvTMatM32 (env : Env) (lc : BitVec 32 → Nat → Nat) (Mat : M32) : BM M32 := do
  let Temp ← liftB (identityM32 (env.junkArr 32 32))
  srandReseed
  let Temp ← forUp 0 256 Temp fun _ Temp => do
    let randnum := (← rand lc) % 16
    liftB do MatMulMatM32 env Temp (← rd MatrixM32 randnum) Temp
  liftB (copyM32 Temp Mat)

/-- `TrailM32` — `/repo/test/BasisMatrixMethod_test.c:669-678`; `TM` is the array `TM32`. -/
def TrailM32 (lc : BitVec 32 → Nat → Nat) (TM : Vector (Vector (BitVec 8) 256) TEST) (k : Nat) :
    BM (Vector (Vector (BitVec 8) 256) TEST) :=
  forUp 0 256 TM fun i TM => do
    let randnum := (← rand lc) % 16
    liftB (wr2 TM k i (BitVec.ofNat 8 randnum))

/-- `InvSMatM32` — `/repo/test/BasisMatrixMethod_test.c:722-732`; `TM` is the array `TM32`. -/
def InvSMatM32 (env : Env) (TM : Vector (Vector (BitVec 8) 256) TEST) (Mat_inv : M32) (k : Nat) : C M32 := do
  let Temp_inv ← identityM32 (env.junkArr 32 32)
  let Temp_inv ← forDown 256 0 Temp_inv fun i Temp_inv => do
    MatMulMatM32 env Temp_inv (← rd MatrixM32_inv (← rd2 TM k i).toNat) Temp_inv
  copyM32 Temp_inv Mat_inv

/-- `MatrixpairM32` — `/repo/test/BasisMatrixMethod_test.c:800-821`. -/
def MatrixpairM32 (env : Env) (lc : BitVec 32 → Nat → Nat) (Mat Mat_inv : M32) : BM (M32 × M32) := do
  let Temp ← liftB (identityM32 (env.junkArr 32 32))
  let Temp_inv ← liftB (identityM32 (env.junkArr 32 32))
  srandReseed
  let (Temp, flag) ← forUp 0 256 (Temp, Vector.replicate 256 0) fun i (Temp, flag) => do
    let randnum := (← rand lc) % 16
    let Temp ← liftB do MatMulMatM32 env Temp (← rd MatrixM32 randnum) Temp
    let flag ← liftB (wr flag i randnum)
    pure (Temp, flag)
  let Temp_inv ← liftB do forDown 256 0 Temp_inv fun i Temp_inv => do
    MatMulMatM32 env Temp_inv (← rd MatrixM32_inv (← rd flag i)) Temp_inv
  let Mat ← liftB (copyM32 Temp Mat)
  let Mat_inv ← liftB (copyM32 Temp_inv Mat_inv)
  pure (Mat, Mat_inv)

/-- `InvTMatM64` — `/repo/test/BasisMatrixMethod_test.c:620-633`. -/
def InvTMatM64 (env : Env) (lc : BitVec 32 → Nat → Nat) (Mat : M64) : BM M64 := do
  let Temp ← liftB (identityM64 (env.junkArr 64 64))
  srandReseed
  let Temp ← forUp 0 1024 Temp fun _ Temp => do
    let randnum := (← rand lc) % 16
    liftB do MatMulMatM64 env Temp (← rd MatrixM64 randnum) Temp
  liftB (copyM64 Temp Mat)

/-- `TrailM64` — `/repo/test/BasisMatrixMethod_test.c:679-688`; `TM` is the array `TM64`. -/
def TrailM64 (lc : BitVec 32 → Nat → Nat) (TM : Vector (Vector (BitVec 8) 1024) TEST) (k : Nat) :
    BM (Vector (Vector (BitVec 8) 1024) TEST) :=
  forUp 0 1024 TM fun i TM => do
    let randnum := (← rand lc) % 16
    liftB (wr2 TM k i (BitVec.ofNat 8 randnum))

/-- `InvSMatM64` — `/repo/test/BasisMatrixMethod_test.c:733-743`; `TM` is the array `TM64`. -/
def InvSMatM64 (env : Env) (TM : Vector (Vector (BitVec 8) 1024) TEST) (Mat_inv : M64) (k : Nat) : C M64 := do
  let Temp_inv ← identityM64 (env.junkArr 64 64)
  let Temp_inv ← forDown 1024 0 Temp_inv fun i Temp_inv => do
    MatMulMatM64 env Temp_inv (← rd MatrixM64_inv (← rd2 TM k i).toNat) Temp_inv
  copyM64 Temp_inv Mat_inv

/-- `MatrixpairM64` — `/repo/test/BasisMatrixMethod_test.c:822-843`. -/
def MatrixpairM64 (env : Env) (lc : BitVec 32 → Nat → Nat) (Mat Mat_inv : M64) : BM (M64 × M64) := do
  let Temp ← liftB (identityM64 (env.junkArr 64 64))
  let Temp_inv ← liftB (identityM64 (env.junkArr 64 64))
  srandReseed
  let (Temp, flag) ← forUp 0 1024 (Temp, Vector.replicate 1024 0) fun i (Temp, flag) => do
    let randnum := (← rand lc) % 16
    let Temp ← liftB do MatMulMatM64 env Temp (← rd MatrixM64 randnum) Temp
    let flag ← liftB (wr flag i randnum)
    pure (Temp, flag)
  let Temp_inv ← liftB do forDown 1024 0 Temp_inv fun i Temp_inv => do
    MatMulMatM64 env Temp_inv (← rd MatrixM64_inv (← rd flag i)) Temp_inv
  let Mat ← liftB (copyM64 Temp Mat)
  let Mat_inv ← liftB (copyM64 Temp_inv Mat_inv)
  pure (Mat, Mat_inv)

/-- `InvTMatM128` — `/repo/test/BasisMatrixMethod_test.c:634-647`. -/
def InvTMatM128 (env : Env) (lc : BitVec 32 → Nat → Nat) (Mat : M128) : BM M128 := do
  let Temp ← liftB (identityM128 (env.junkArr2 64 2 128))
  srandReseed
  let Temp ← forUp 0 4096 Temp fun _ Temp => do
    let randnum := (← rand lc) % 16
    liftB do MatMulMatM128 env Temp (← rd MatrixM128 randnum) Temp
  liftB (copyM128 Temp Mat)

/-- `TrailM128` — `/repo/test/BasisMatrixMethod_test.c:689-698`; `TM` is the array `TM128`. -/
def TrailM128 (lc : BitVec 32 → Nat → Nat) (TM : Vector (Vector (BitVec 8) 4096) TEST) (k : Nat) :
    BM (Vector (Vector (BitVec 8) 4096) TEST) :=
  forUp 0 4096 TM fun i TM => do
    let randnum := (← rand lc) % 16
    liftB (wr2 TM k i (BitVec.ofNat 8 randnum))

/-- `InvSMatM128` — `/repo/test/BasisMatrixMethod_test.c:744-754`; `TM` is the array `TM128`. -/
def InvSMatM128 (env : Env) (TM : Vector (Vector (BitVec 8) 4096) TEST) (Mat_inv : M128) (k : Nat) : C M128 := do
  let Temp_inv ← identityM128 (env.junkArr2 64 2 128)
  let Temp_inv ← forDown 4096 0 Temp_inv fun i Temp_inv => do
    MatMulMatM128 env Temp_inv (← rd MatrixM128_inv (← rd2 TM k i).toNat) Temp_inv
  copyM128 Temp_inv Mat_inv

/-- `MatrixpairM128` — `/repo/test/BasisMatrixMethod_test.c:844-865`. -/
def MatrixpairM128 (env : Env) (lc : BitVec 32 → Nat → Nat) (Mat Mat_inv : M128) : BM (M128 × M128) := do
  let Temp ← liftB (identityM128 (env.junkArr2 64 2 128))
  let Temp_inv ← liftB (identityM128 (env.junkArr2 64 2 128))
  srandReseed
  let (Temp, flag) ← forUp 0 4096 (Temp, Vector.replicate 4096 0) fun i (Temp, flag) => do
    let randnum := (← rand lc) % 16
    let Temp ← liftB do MatMulMatM128 env Temp (← rd MatrixM128 randnum) Temp
    let flag ← liftB (wr flag i randnum)
    pure (Temp, flag)
  let Temp_inv ← liftB do forDown 4096 0 Temp_inv fun i Temp_inv => do
    MatMulMatM128 env Temp_inv (← rd MatrixM128_inv (← rd flag i)) Temp_inv
  let Mat ← liftB (copyM128 Temp Mat)
  let Mat_inv ← liftB (copyM128 Temp_inv Mat_inv)
  pure (Mat, Mat_inv)

end WB.basis
