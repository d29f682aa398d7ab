import Verif.SpecGF

/-!
# The AES-128 block cipher (FIPS 197)

Written from the standard, independently of the C text.  The byte in row `r` and column `c` of the state is byte
`r + 4 c` of the block.
-/
namespace WB.AES

/-- The S-box: inversion modulo `X^8 + X^4 + X^3 + X + 1`, then an affine map. -/
def S (x : BitVec 8) : BitVec 8 := circulant 0xf1 (gfInv 0x1b x) ^^^ 0x63

/-- A state, and also a round key: 16 bytes. -/
abbrev State := Vector (BitVec 8) 16

/-- The byte in row `r mod 4` and column `c mod 4`. -/
def cell (s : State) (r c : Nat) : BitVec 8 := s[r % 4 + 4 * (c % 4)]'(by omega)

def subBytes (s : State) : State := Vector.ofFn fun i => S s[i]

/-- Row `r` is rotated to the left by `r` positions. -/
def shiftRows (s : State) : State := Vector.ofFn fun i => cell s i (i / 4 + i % 4)

/-- Every column is multiplied by the circulant matrix `(2 3 1 1)`. -/
def mixColumns (s : State) : State := Vector.ofFn fun i =>
  gfMul 0x1b 2 (cell s i (i / 4)) ^^^ gfMul 0x1b 3 (cell s (i + 1) (i / 4)) ^^^ cell s (i + 2) (i / 4) ^^^
    cell s (i + 3) (i / 4)

def addRoundKey (s k : State) : State := Vector.ofFn fun i => s[i] ^^^ k[i]

/-- The round constant `X^(r-1)`, `r ≥ 1`. -/
def rcon : Nat → BitVec 8
  | 0 => 0
  | 1 => 1
  | r + 2 => gfX 0x1b (rcon (r + 1))

/-- Round key `r` of the key expansion: its columns are `w[4r]`, …, `w[4r+3]`, where
`w[4r] = w[4r-4] + SubWord(RotWord(w[4r-1])) + Rcon[r]` and `w[4r+j] = w[4r+j-4] + w[4r+j-1]`. -/
def roundKey (key : State) : Nat → State
  | 0 => key
  | r + 1 =>
    let k := roundKey key r
    let col (j b : Nat) := cell k b j
    let w0 : Vector (BitVec 8) 4 :=
      #v[col 0 0 ^^^ S (col 3 1) ^^^ rcon (r + 1), col 0 1 ^^^ S (col 3 2), col 0 2 ^^^ S (col 3 3), col 0 3 ^^^ S (col 3 0)]
    let w1 : Vector (BitVec 8) 4 := Vector.ofFn fun b => col 1 b ^^^ w0[b]
    let w2 : Vector (BitVec 8) 4 := Vector.ofFn fun b => col 2 b ^^^ w1[b]
    let w3 : Vector (BitVec 8) 4 := Vector.ofFn fun b => col 3 b ^^^ w2[b]
    w0 ++ w1 ++ w2 ++ w3

/-- The initial key addition and the first `n` of the nine full rounds, with round keys `k`. -/
def rounds (k : Nat → State) (s : State) : Nat → State
  | 0 => addRoundKey s (k 0)
  | n + 1 => addRoundKey (mixColumns (shiftRows (subBytes (rounds k s n)))) (k (n + 1))

/-- The cipher with round keys `k 0`, …, `k 10`. -/
def cipher (k : Nat → State) (s : State) : State := addRoundKey (shiftRows (subBytes (rounds k s 9))) (k 10)

/-- AES-128 encryption of a block. -/
def encrypt (key s : State) : State := cipher (roundKey key) s

set_option maxRecDepth 100000 in
/-- FIPS 197, appendix C.1. -/
example : encrypt
    #v[0x00, 0x01, 0x02, 0x03, 0x04, 0x05, 0x06, 0x07, 0x08, 0x09, 0x0a, 0x0b, 0x0c, 0x0d, 0x0e, 0x0f]
    #v[0x00, 0x11, 0x22, 0x33, 0x44, 0x55, 0x66, 0x77, 0x88, 0x99, 0xaa, 0xbb, 0xcc, 0xdd, 0xee, 0xff] =
    #v[0x69, 0xc4, 0xe0, 0xd8, 0x6a, 0x7b, 0x04, 0x30, 0xd8, 0xcd, 0xb7, 0x80, 0x70, 0xb4, 0xc5, 0x5a] := by
  decide +kernel

end WB.AES
