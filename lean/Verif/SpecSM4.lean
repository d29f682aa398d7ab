import Verif.SpecGF

/-!
# The SM4 block cipher (GB/T 32907-2016)

Written from the standard, independently of the C text.
-/
namespace WB.SM4

/-- The S-box, algebraically: `x ↦ A·(A·x + C)⁻¹ + C` in GF(2)[X]/(X^8+X^7+X^6+X^5+X^4+X^2+1). -/
def S (x : BitVec 8) : BitVec 8 := circulant 0xa7 (gfInv 0xf5 (circulant 0xa7 x ^^^ 0xd3)) ^^^ 0xd3

/-- Byte `k` of a word, byte 0 being the most significant one. -/
def byte (x : BitVec 32) (k : Nat) : BitVec 8 := x.extractLsb' (24 - 8 * k) 8

/-- The word with the given bytes, most significant first. -/
def word (b0 b1 b2 b3 : BitVec 8) : BitVec 32 := b0 ++ b1 ++ b2 ++ b3

/-- The nonlinear layer: the S-box on every byte. -/
def tau (x : BitVec 32) : BitVec 32 := word (S (byte x 0)) (S (byte x 1)) (S (byte x 2)) (S (byte x 3))

/-- The linear layer of the rounds. -/
def L (x : BitVec 32) : BitVec 32 :=
  x ^^^ x.rotateLeft 2 ^^^ x.rotateLeft 10 ^^^ x.rotateLeft 18 ^^^ x.rotateLeft 24

/-- The linear layer of the key schedule. -/
def L' (x : BitVec 32) : BitVec 32 := x ^^^ x.rotateLeft 13 ^^^ x.rotateLeft 23

/-- Four words. -/
structure Block where
  x0 : BitVec 32
  x1 : BitVec 32
  x2 : BitVec 32
  x3 : BitVec 32
  deriving DecidableEq

/-- One round: shift, and append `x0 + L(tau(x1 + x2 + x3 + rk))`. -/
def round (rk : BitVec 32) (s : Block) : Block :=
  ⟨s.x1, s.x2, s.x3, s.x0 ^^^ L (tau (s.x1 ^^^ s.x2 ^^^ s.x3 ^^^ rk))⟩

/-- The first `n` rounds. -/
def rounds (rk : Nat → BitVec 32) : Nat → Block → Block
  | 0, s => s
  | n + 1, s => round (rk n) (rounds rk n s)

/-- The final reversal. -/
def Block.reverse (s : Block) : Block := ⟨s.x3, s.x2, s.x1, s.x0⟩

/-- 32 rounds and the reversal. -/
def crypt (rk : Nat → BitVec 32) (s : Block) : Block := (rounds rk 32 s).reverse

/-- The constant `CK_i`: byte `j` is `7 (4 i + j) mod 256`. -/
def CK (i : Nat) : BitVec 32 :=
  word (BitVec.ofNat 8 (7 * (4 * i))) (BitVec.ofNat 8 (7 * (4 * i + 1)))
    (BitVec.ofNat 8 (7 * (4 * i + 2))) (BitVec.ofNat 8 (7 * (4 * i + 3)))

/-- The state of the key schedule after `n` steps. -/
def keyState (mk : Block) : Nat → Block
  | 0 => ⟨mk.x0 ^^^ 0xa3b1bac6, mk.x1 ^^^ 0x56aa3350, mk.x2 ^^^ 0x677d9197, mk.x3 ^^^ 0xb27022dc⟩
  | n + 1 =>
    let s := keyState mk n
    ⟨s.x1, s.x2, s.x3, s.x0 ^^^ L' (tau (s.x1 ^^^ s.x2 ^^^ s.x3 ^^^ CK n))⟩

/-- Round key `i`. -/
def roundKey (mk : Block) (i : Nat) : BitVec 32 := (keyState mk (i + 1)).x3

/-- Encryption of a block. -/
def encrypt (mk : Block) (s : Block) : Block := crypt (roundKey mk) s

/-- Decryption of a block: the round keys in reverse order. -/
def decrypt (mk : Block) (s : Block) : Block := crypt (fun i => roundKey mk (31 - i)) s

/-- A buffer as a function of the position. -/
def bytes {N : Nat} (mem : Vector (BitVec 8) N) (i : Nat) : BitVec 8 := mem[i]?.getD 0

/-- The block stored in the 16 bytes of `mem` that start at `off`, big-endian. -/
def load (mem : Nat → BitVec 8) (off : Nat) : Block :=
  ⟨word (mem off) (mem (off + 1)) (mem (off + 2)) (mem (off + 3)),
    word (mem (off + 4)) (mem (off + 5)) (mem (off + 6)) (mem (off + 7)),
    word (mem (off + 8)) (mem (off + 9)) (mem (off + 10)) (mem (off + 11)),
    word (mem (off + 12)) (mem (off + 13)) (mem (off + 14)) (mem (off + 15))⟩

/-- Byte `k` of a block, `k < 16`. -/
def Block.byte (s : Block) (k : Nat) : BitVec 8 :=
  SM4.byte (match k / 4 with | 0 => s.x0 | 1 => s.x1 | 2 => s.x2 | _ => s.x3) (k % 4)

/-- Addition of blocks. -/
def Block.add (s t : Block) : Block := ⟨s.x0 ^^^ t.x0, s.x1 ^^^ t.x1, s.x2 ^^^ t.x2, s.x3 ^^^ t.x3⟩

/-- Cipher block chaining with the block function `E`: the value fed into block `n`, which is the initial value for
`n = 0` and ciphertext block `n - 1` otherwise. -/
def chain (E : Block → Block) (iv : Block) (p : Nat → Block) : Nat → Block
  | 0 => iv
  | n + 1 => E ((p n).add (chain E iv p n))

/-- Example 1 of the standard (appendix A). -/
example : let b : Block := ⟨0x01234567, 0x89abcdef, 0xfedcba98, 0x76543210⟩
    encrypt b b = ⟨0x681edf34, 0xd206965e, 0x86b3e94f, 0x536e4246⟩ := by decide +kernel

end WB.SM4
