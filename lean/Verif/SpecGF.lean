/-!
# The field GF(2^8)

Bytes as polynomials over GF(2) modulo a polynomial of degree 8, used to state the S-boxes of SM4 and AES
algebraically.
-/
namespace WB

/-- Multiplication by `X` modulo `X^8 + p`. -/
def gfX (p a : BitVec 8) : BitVec 8 := if a.msb then (a <<< 1) ^^^ p else a <<< 1

/-- Multiplication modulo `X^8 + p` (Horner scheme over the bits of `b`). -/
def gfMul (p a b : BitVec 8) : BitVec 8 :=
  [7, 6, 5, 4, 3, 2, 1, 0].foldl (fun acc i => gfX p acc ^^^ (if b.getLsbD i then a else 0)) 0

/-- `a^(2 + 4 + … + 2^k)` modulo `X^8 + p`, together with `a^(2^k)`. -/
def gfChain (p a : BitVec 8) : Nat → BitVec 8 × BitVec 8
  | 0 => (1, a)
  | k + 1 =>
    let c := gfChain p a k
    let s := gfMul p c.2 c.2
    (gfMul p c.1 s, s)

/-- The inverse `a^254 = a^(2 + 4 + … + 128)` modulo `X^8 + p`, which sends `0` to `0`. -/
def gfInv (p a : BitVec 8) : BitVec 8 := (gfChain p a 7).1

/-- The sum of the bits of a byte over GF(2). -/
def parity8 (x : BitVec 8) : Bool := (List.range 8).foldl (fun b i => b ^^ x.getLsbD i) false

/-- The circulant matrix whose row for output bit `k` is `row` rotated by `k`, applied to `x`. -/
def circulant (row x : BitVec 8) : BitVec 8 :=
  BitVec.ofBoolListLE ((List.range 8).map fun k => parity8 (row.rotateLeft k &&& x))

end WB
